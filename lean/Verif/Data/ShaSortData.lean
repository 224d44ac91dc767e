import Verif.NetSort

/-!
# The order in which the gates of `data/circ/sha256.txt` are packed

Generated by `tools/gen_circuits.py`.
-/

namespace Verif.Data

def shaXorReads0 : BTree :=
  .nd (.nd (.nd (.lf
  0xccef0ccea094a2094641eb521ea8515414152c30f3830f2f30f2d80ccf10ccec09466094241eb2e1ea89153dc152c70f3870f2f50f2dc0ccf30ccee09426093e41eb0a1ea8d153a2152cb0f38b0f2f70f2e00ccf50ccf0093e6093a41eae81ea9115364152cf0f2f90f2e20ccf70ccf2093a6093661eac61ea9515330152d30f2fb0f2e40ccf90ccf40935c093361ea9b152d90f2fd0f2e60ccfb0ccf609334)
  (.lf
  0x37c4037bdb37c3137ba637ba33bc053bd523bb353bd483ba8b3bd3c3b9c73bd303b91b3bd243b86f3bd183bc033bd0c3bb333bd023ba893bcf63b9c53bcea3b9193bcde3bc013bcd23bb313bcc83ba613bcbc3b9b73bcb03b9073bca63b8753bc9a3b81b3bc8e3b7993bc823b73b3bc763b6c13bc6a3b6913bc5e3b6273bc523b6013bc463b5b93bbdb3bb823bb1f3ba9c3ba653ba063b9bb3b92e3b9053b87e))
  (.nd (.lf
  0x1d9341d9381d93c1f88c1f8901f8941f8981f89c1f8a01f8a41f8a81f8ac1f8b01f8b41f8b81f8bc1f8c01f8c41f8c81f8cc1f8d01f8d41f8d81f8dc1f8e01f8e41f8e81f8ec1f8f01f8f41f8f81f8fc1f9001f9041f9082012c2013020134201382013c2014020144201482014c2015020154201582015c2016020164201682016c2017020174201782017c2018020184201882018c2019020194201982019c)
  (.lf
  0x2e4602e3c02e3202e2802e1e02e1402e0a02e0002df602dec02de202dd802dce02dc402dba02db002da602d9c02d9202d8802d7e02d7402d6a02d6002d5602d4c02d4202d3802e6502e6302e5f02e5d02e5b02e5902e5502e5302e5102e4f02e4b02e4902e4702e4502e4102e3f02e3d02e3b02e3702e3502e3302e3102e2d02e2b02e2902e2702e2302e2102e1f02e1d02e1902e1702e1502e1302e0f02e0d)))
  (.nd (.nd (.lf
  0x9ee609e9a099a9099a00b4670a66309f0f09ef309ee809e9c099620995f0b4690a66509f1309ef509eea09e9e099230991a0b46b0a66709f1709ef709eec09ea0098e3098da0b46d0a66909f1b09ef909eee09ea2098a30989a0b46f0a66b09f1f09efb09ef009ea4098630985a0b4710a66d09f2309efd09ef209ea60981c098190b4730a66f09f2709eff09ef409ea8097d6097d30b4750a67109f2b09f01)
  (.lf
  0x3bd093bd073bd033bd013bcfd3bcfb3bcf73bcf53bcf13bcef3bceb3bce93bce53bce33bcdf3bcdd3bcd93bcd73bcd33bcd13bccf3bccd3bcc93bcc73bcc33bcc13bcbd3bcbb3bcb73bcb53bcb13bcaf3bcad3bcab3bca73bca53bca13bc9f3bc9b3bc993bc953bc933bc8f3bc8d3bc893bc873bc833bc813bc7d3bc7b3bc773bc753bc713bc6f3bc6b3bc693bc653bc633bc5f3bc5d3bc593bc573bc533bc51))
  (.nd (.lf
  0x37df63810837dfa380f837dfe380f237e02380de37e06380c437e0a3809c37e0e3809437e123807037e163806a37e1a37f6037e1e37f5437e2237f4837e2637f4037e2a37f3437e2e37f2c37e3237f1a37e3637f0c37e3a37ef837e3e37eee37e4237ee037e4637eb237e4a37e9837e4e37e5638496386fa3849a386f23849e386e4384dc386d8384e0386ca384e4386be384e8386b8384ec386aa384f03869a)
  (.lf 0)))

def shaXorReads1 : BTree :=
  .nd (.nd (.nd (.lf
  0x26b5526b51259d924d1f24cdb24ad4249ae249a8294f6294cc26b0926b05259a324d2124cc324ad62499624990294ee28ef426ae526ae12596b24d3d24ce124aa2248d2248cc294e428ec626aad26aa9258e724cc924c6b24a3c2487a24874294d428e8e26a4f26a43258ab24d4324c9724a3e2470c2470628e7828ce626a5126a452587524c7724c6d24a4a246bc246b628cda28c9c26a5326a472583b24c9d)
  (.lf
  0x25af825a8025a3a259fa259c62598e25952258d8258942586025820257e4260f3260d1260cd260cb260c9260c7260c3260c125f6325f6125f5d25f5b25f5925f5725f5325f5125f4f25f4d25f4925f4725f4525f4325f3f25f3d25ebf25ebd25eb925eb725e2d25e5f25e2b25e2725dd125dcf25dcd25dc925dc725dc525dc125db125d2125d1f25d1b25d1925d1725d0525d0125cff25c9725c9525c9125c8d))
  (.nd (.lf
  0x2e1762e14b2cf372cf20238c4238b91dce71dce21cbf41cbec2e14f2cf392cf22238bf1dce91dce41cbde2f2372e0dd2e0c12e0aa207c9207af207aa1eee21eec32f5142f23b2e0e12e0c32e0ac207cd207b1207ac1f0421eea81eea51eea22f4f62f23f2e0e52e0c52e0ae207d1207b3207ae1f03a1eee41ee841ee812f4ee2f27d2e0e92e0c72e0b0207d5207b5207b01f02c1ee621ee5f1ee5c2f4e42f281)
  (.lf
  0x1ddf01ddda1ddc41ddae1dd981dd801dd6a1e0071dff91dff51dff31dfe51dfe31dfdf1dfdd1dfcf1dfcd1dfc91dfc71dfb91dfb71dfb31dfb11dfa31dfa11df9d1df9b1df8d1df8b1df871df851df771df751df711df6f1df611df5f1df5b1df591df4b1df491df451df431df351df331df2f1df2d1df1f1df1d1df191df171df091df071df031df011def31def11deed1dee91dedb1ded91ded51ded31dec5)))
  (.nd (.nd (.lf
  0x348c6348bc348b2348a83489e347c8347443473a3473034708351c8351be351b2351a43519c35192351863517a3516e35160351583514e351423513035124351123510a35100350f6350ec350e2350d63509035088350803507834f7434f6234b4034b22356543564a35640353483533e353323532a3531e353143530a35300352f4352e8352dc352d2352c6352bc352b4352aa352a035294352883527e35244)
  (.lf
  0x1b90b1b9091b9051b9031b9011b8ff1b8fb1b8f91b8f71b8f51b8f11b8ed1b8eb1b8e91b8e51b8e31b8e11b8ef1b8df1b8db1b8d91b8d71b8d11b8cf1b8cd1b8cb1b8c71b8c51b8c31b8c11b8bd1b8bb1b8b91b8b71b8b31b8b11b8af1b8ad1b8a91b8a71b8a51b8a31b89f1b89b1b8991b8a11b8971b8931b8911b88f1b88b1b8891b8871b8851b8811b87f1b87d1b8d51b87b1b8771b8751b8731b86f1b86d))
  (.nd (.lf
  0x2fbbc2f9bc2f9b12f9882fba82fab02f9742f91b2fb942f95e2f9132f9102fb802f9542f9072f9042fb6c2f92e2f8ff2f8fc2fb582f9282f8f32f8f02fb462f91e2f8e62f8dd2fb342f8cc2f8c42f8c12fb222f82d2f82a2f8262fb102f8082f8052f8022fafe2f7dd2f7da2f7d62faec2f7c22f7ba2f7b72fae42f7902f77d2f77a2fad22f7882f7852f7822fac02f3b32f3ae2f3ac2f30f2f300312bd312ba)
  (.lf 0)))

def shaXorReads2 : BTree :=
  .nd (.nd (.nd (.lf
  0x35538355323c2023c11a378fd378f9366d7354ca354c5354c3354c0354be3c1ea3c11037a3d37a3936751356ee354b1354af354ac354a63c1a63c106378e1378dd366913570a356f135483354803547a3c1983c0f6378c7378c3366193570d356be3546b35468354623c1763c0ea37ae737ae3365ad356c135668354413543a354383c1663c0de378ab378a7365973566b356123542935426354203c15c3c08e)
  (.lf
  0x41f2641f3041f1041f0a41f0c41eea41eee41ef041ef241ec841ec041ec241ebe4171c4171041724416c0416964169c416864159441550414c84146041456414d6413524114241f4141f3f41f3b41f3941f3741f3541f2f41f2d41f2b41f2941f2741f2341f2141f3141f1f41f1b41f1941f1741f1341f1141f0f41f0b41f0941f0541f0341f0d41f0141efd41efb41ef941ef541eed41eeb41eef41ee941ee5))
  (.nd (.lf
  0x385c238593385863a62b3a620389b1385bc385b8385b63a623389b3385923855c3906b390633905e3905c390f03906f390653906039052390de39073390673906239046390d83907739069390643903c390ca39099390663902539006390c439068390293902338fda3909d3909b3909839096390943907b3902238f9838f9338f8e3909a3907f38f7638f4d38f4a3908338f9238f7038f5f38f5c3908738f4c)
  (.lf
  0x32cc432c3632c0e32be632bc432ba832b8c32b6832b4032b1832ae832ac832aa032a5e32a18329dc3299c3296832906328483281a327f2327c032d6d32d6b32d6732d6332d6132d5f32d5b32d5932d5732d5532d5132d4f32d4b32d4932d4532cdd32cb132cd732caf32cab32ca932cd132ca732ca332ca132ccb32c9f32c8f32c8d32cc532c8b32c8732c3332c3732c3132c2d32c0b32c0f32c0932c0532be3)))
  (.nd (.nd (.lf
  0x22684226880f5f20f5f40f5f60f5f80f5fa0f5fc0f5fe0f6000f6020f6040f6060f6080f60a0f60c0f60e0f6100f6120f6140f6160f6180f61a0f61c0f61e0f6200f6220f6240f6260f6280f62a242962429a2429e242a2242a6242aa242ae242b2242b6242ba242be242c2242c6242ca242ce242d2242d6242da242de242e2242e6242ea242ee242f2242f6242fa242fe243022430625442254462544a2544e)
  (.lf
  0x2a5c22a5b82a5aa2a5ac2a5982a5922a5822a5722a56a2a5762a5882a54e2a5462a53a2a5322a5262a51e2a5142a5862a4322a62d2a62f2a62b2a6272a6252a6232a61f2a61d2a61b2a6192a6152a6132a6112a60f2a60b2a6092a6072a6052a6012a5ff2a5fd2a5fb2a5f72a5f52a5f32a5f12a5ed2a5eb2a5e92a5e72a5e32a5e12a5df2a5dd2a5d92a5d72a5d52a5d32a5cf2a5cd2a5cb2a5c92a5c52a5c3))
  (.nd (.lf
  0x220a3222bc22081222b222005222a821f952229a21f752229221f192228821ee72227c21e972227021db1222642220b2225e2211d22254220a722246220c72223c21ff72223221fb32222c21fb5222222202b2221421ee3222732212a22121220d4220cc220ab2208b220282202021ffb2201821f9b21f7b21f2821f1f21ed221ec921e9e21e9b231cf23ca6231d323c94231d723c8c2326523c82231db23c70)
  (.lf 0)))

def shaXorReads3 : BTree :=
  .nd (.nd (.nd (.lf
  0x175701754c1b4341ae36195b519581185ef1799b178eb177c6175721754e1b42c1b384195b719583185dd17913178ed177b417574175501b4201adba195b919585185cb17917178ef177b617576175521b4181b3e8195bb19587185b91791b17869177b8174b8174b21b4101b3f4195bd19589185a71791f1782b177ba174a41748c1b3ea1b3be195bf1958b18595179421786d1782d174a61748e1b3801aca6)
  (.lf
  0x9a9b09aab09a9909a9509a5d09a5b09a5709a5509a1509a2509a1309a0f099d7099d5099d1099cf0998f0999f0998d09989099510994f0994b0994909909099190990709903098c9098d9098c7098c309889098990988709883098490985909847098430980b098090980509803097c5097c3097bf097bd0977d0978d0977b097770973d0974d0973b09737096fd0970d096fb096f7096bf096bd096b9096b7))
  (.nd (.lf
  0x2ae272ae142ae112adfe2adfb2ade82ade52add22adcf2adbc2adb92ada62ada32ad902ad8d2ad7a2ad772ad642ad612ad4e2ad4b2ad382ad352ad222ad1f2ad0c2ad092acf62acf32ace02acdd2acca2acc72acb42acb12ac9e2ac9b2ac952c0cf2c0be2c0bb2c0a82c0a52c0922c08f2c07c2c0792c0662c0632c0502c04d2c03a2c0372c0242c0212c00e2c00b2bff82bff52bfe22bfdf2bfcc2bfc92bfb6)
  (.lf
  0x5a9005a5005a3005a10059f0059b005990059700595005910058f0058d0058b005870058500583005810057d0057b005790057700573005710056f0056d005690056700565005630055f0055d0055b005590055500553005510054f0054b005490054700545005410053f0053d0053b005370053500533005310052d0052b005290052700523005210051f0051d005190051700515005130050f0050d0050b)))
  (.nd (.nd (.lf
  0xa79e0b9540b9380b91a0b8f80b8d40b8b40b8940b8720b8500b82e0b8100b7f00b7ce0b7ac0b78e0b7720b7560b73a0b71c0b6fe0b6e00b6be0b69a0b67a0b65a0b63c0b61c0b5fe0b5e20b5c208e8208e4808e0008dc008d8208d3a08cfa08cba08c7a08c3c08bf608bae08b6e08b2e08af008aaa08a6208a22089e2089a2089640891c088de088980885008812087cc0878608740087020b94c0b92e0b910)
  (.lf
  0xfdd70fd7b0fd770fd750fcbf0fcbb0fcb90fba90fba50fba30fb470fb430fb410fae70fae30fae10ca100ca060c9fc0c9f20c9e80c9de0c9d40c9ca0c9c00c9b60c9ac0c9a20c9980c98e0c9840c97a0c9700c9660c95c0c9520c9480c93e0c9340c92a0c9200c9160c90c0c9020c8f80c8ee0c8e40ca110ca0f0ca0b0ca090ca070ca050ca010c9ff0c9fd0c9fb0c9f70c9f50c9f30c9f10c9ed0c9eb0c9e9))
  (.nd (.lf
  0x3f0a83f0833f09c3f0753f0653f05a3f0503efef3f04a3eff33f0403efe13f0363efcb3f02a3efc13f0203efcd3f0143efb33f0083ef9d3eff73ef843ef7c3ef453ef723ef373ef663ef2d3ef563ef233ef4e3ef473ef093eefa3eef43eee73eee83eee13eebf3ee8c3ee843edeb3ee783ede93f0c13ee703ee6a3ed6d3edf13ed9a3ed713eaaa3ea733e9f83e9f13e9be3e9c53fe0b3fe4a3fe013fe3c3fdf3)
  (.lf 0)))

def shaXorReads4 : BTree :=
  .nd (.nd (.nd (.lf
  0x3fb580075d006af001fc001833fb5e3fae200761006b1001f2001813fad63fa8200765006b3001e80017f3fa723fa5800769006b5001de0017d3fa5c3fa0c0076d006b7001d40017b3f9f43f9e800771006b9001ca001793f9de3f9ce00775006bb001c0001773f9d83f97000779006bd001b6001753f82a0077d006bf001733faac003213ff683f9b6004480031f3ff603f9060043e0031d3ff563f8b400434)
  (.lf
  0x35a7435a0835a6a35a2235a623599c35a5835a56359a236b1a36cc236a1236cb6369fc36cae3696636ca43694836c9c368ca36c9036b4236c8636a2036c7e36a2436c703697436c683697836c5c36b4636c5436a4a36c4c36a2a36c3e3697c36c383698036c2e3690a36c223688436c1a3686636c103685036c043670e36bf4366ca36bee3676036be63667c36b563662636b4e36b4a36a3a36a2e36a4436a32))
  (.nd (.lf
  0x197e0197e4197e81a6221a8681a6261a62a1a62e1a6321a6361a63a1a63e1a6421a8861a6461a86c1a64a1a64e1a6521a6561a65a1a65e1a88a1a6621a8701a6661a66a1a66e1a6721a6761a67a1a67e1a6821a6841a88e1b6f61b6da1b8181b81c1b8201b8241b77c1b7801b7841b7881b78c1b7901b6f81b8281b82c1b8301b8341b7941b7981b79c1b7a01b7a41b8381b83c1b8401b8441b7a81b7ac1b7b0)
  (.lf
  0x39c3439c2c39c2239c1839c0e39c0439bf839bee39be639bdc39bb239bac39b9e39b9639ae239ac839aa639aba39a7e39a6a39a4639a3a39a30399f8399e2399c6399d2399a63999e399923998839c3539c3339c2f39c2d39c2b39c2939c2539c2339c2139c1f39c1b39c1939c1739c1539c1139c0f39c0d39c0b39c0739c0539c0339c0139bfd39bfb39bf939bf739bf339bf139bef39bed39be939be739be5)))
  (.nd (.nd (.lf
  0xa88d0a88909be30904f08fcd08fb608f7208eb20bae00b9b60a8610a85d09be50905308fcf08fb808f7408eb40bad40b9ce0a8350a83109be70905708fd108fba08f7608eb60baca0b9c40a8090a80509be90905b08fd308fbc08f7808eb80bac00b9f80a7dd0a7d909beb0905f08fd508fbe08f7a08eba0bab80b9f00a7b10a7ad09bed0906308fd708fc008f7c08ebc0baaa0b9f20a7850a78109bef09067)
  (.lf
  0x31fa331f9f31f9d31f9b31f9931f9531f9331f8f31f8d31f8931f8531f8331f8131f7f31f7b31f7931f7731f7331f6f31f6d31f6b31f6731f6531f6331f6131f5d31f5b31f5931f5731f5331ee131edd31edb31ed731ed531ed331ed131e7131e6f31e6131e5f31e5b31a7b31a5731a5531a5131a4f31a4b31a4931a4531a4331a4131a3f31a3b31a3731a3531a3331a2f31a2d31a2931a2731a2331a2131a1f))
  (.nd (.lf
  0x24c4c24c4224ba524c1624b9924c0324b1824afd24ae424adb24ad224aba24aa924ab024a9124a9724a4e24a242497b24a1c2497124a142497324a0a24957249ea24953249e424977249d024979249b224987249a2249312499a2491f248c92486e24871246fc24701246a8246b3246782466f2463e2462924604245e5260f526130260eb260d3260102600625f6b25fe825f6925f8a25f6725f6525f1625ec1)
  (.lf 0)))

def shaXorReads5 : BTree :=
  .nd (.nd (.nd (.lf
  0x273bd2729e27287272662b07c2af5f2957928267273bf272b0272312722c2b0742af7f2963f2822f273c3272802723f2722e2b0642b0012957b280bd273c72728227211271fc2b05c2af85295452805b273cb2728427207271e42b04c2af7d2951527fe3273cf2728627209271d22b0442afc52951727fb5273d3272302720b271ec2b0342af392952927e65273d72723e2723d2723a2b02c2af332951927e2b)
  (.lf
  0x185b01859e1858c1857a188e3188e1188df188db188d9188f9188d7188d3188d1188cf188cb188b1188af18931188ad188a9188a7188a5188a11887d1887b1887918875188511884f1884d188491882518823188211881d187f9187f7187f5187f1187d7187d5187d3187cf187bb187b9187b7187b3187a5187a3187a11879d187911878f1878d187891877d1877b18779187751876918767187651876118755))
  (.nd (.lf
  0xf5490dc1d0dc140d9100d90c2273e2266b18f0418ccb0f5a70f5740f54b0dc210dc180d8ee0d8ea227282266f18ebe18ccf0f5a90f5760f54d0dc230dc1c0d8cc0d8c8227122267318e7818cd30f5ab0f54f0f5380dc250dc200d8aa0d8a6226fc2267718e3218cd70f5ad0f5510f53a0dc270dc220d8880d884226e62267b18df018cdb0f5af0f5530f53c0dc290dc240d8660d862226d02267f18db018cdf)
  (.lf
  0x103e3103df103dd1038d1038b10387103851032b103291032510323102cf102cd102c9102c710273102711026d1026b10215102131020f1020d101b7101b5101b1101af1015d1015b1015710155100fd100fb100f7100f5100a11009f1009b1009910045100431003f1003d0ffe70ffe50ffe10ffdf0ff850ff830ff7f0ff7d0ff290ff270ff230ff210fec90fec70fec30fec10fe690fe670fe630fe610fe0b)))
  (.nd (.nd (.lf
  0x1fefa1f8421f8361f82c1f8241f81a1f8101f7561f74c1f742203d8203d0203c6203bc203b2203aa203a0203982038e203842037a20370203682035e203542034a20340203362032e203242031a2031020306202fc202f2201dc201d2201ca201c0201b6211be211b2211a22119a2118e21182211742116a2115e2114a21142211382112e211242111821110210c820fda20fa220f9220f6e20f6620e3620e06)
  (.lf
  0x12e0312e0112dfd12dfb12df912df712df312df112def12ded12de912de712d9f12d9d12d9912d9712d8912d8712d8312d8112d7512d7312d6f12d6d12d6b12d6912d6512d6312d6112d5f12d5b12d5912d5712d5512d5112d4f12d2112d1f12d1b12d1912ce512ce312cdf12cdd12cbb12cb912cb512cb312c9d12c9b12c9712c9512c8912c8712c8312c8112c6712c6512c6112c5f12c5d164601644216420))
  (.nd (.lf
  0xbb960ba640b9b10b96a0bb8a0ba5a0b9b30b9640bb820ba500b9b50b9820bb780ba4a0b9c00b7270bb680ba400b9e20b7090bb600ba360b9c60b6eb0bb580bb060ba2c0b6cb0bb4c0bafe0ba220b6a70bb440bb000ba140b6850bb3c0bb040ba0e0b99b0bb2a0bb020ba020b9790bb220b9fa0b9ee0b9770bb1a0b9dc0b9d00b9810bb120b9de0b9a20b97b0bb0a0b9e00b9920b96d0b9e60b9ba0b98c0b971)
  (.lf 0)))

def shaXorReads6 : BTree :=
  .nd (.nd (.nd (.lf
  0x34689341de33cef33cda37f9537f8036037350cf344c9341a033ba333ba037f7f37f263604135027344cd3419633b7733b6e37f0b37ed836015350113488b3449333d8433b3c37ec737eb03600334fef347b53449733d2233b0437ea937e9235e6334f59346df3441933cee33a7c37e9537e6035e11358093471b343e733ba233a0c37e5d35c6d34acf3467b343ad33b76339f2389d137c5b36b1d35a49359ff)
  (.lf
  0x354a43547835460354363541e35406354de353d0353be35396353a6353523526435270350c034fde34ff234f9034f4634b0e356e3356fd356e1356dd356db356d9356b3356af3568935687356833565d356313562f3562b356073560535603355f9355f5355d1355cf355cb355bf355a7355a5355813557d3557b355793557535573355513554f3554b35531354dd354db354d7354d5354bd354b5354a5354a3))
  (.nd (.lf
  0x2aa632aa3f2aa3a2a0fa29dbc394603923538b9938b7138b5a2fcf82fa192aa672aa412aa3c2a0ea29dba394543923938b9d38b7338b5c2fcec2fa1d2aa6b2aa432aa3e2a0e229db4394423923d38ba138b7538b5e2fce22fa212aa6f2aa452aa402a0d829db2394323924138ba538b7738b602fcda2fa252aa732aa472aa422a0cc29dc2394283924538ba938b7938b622fcd22fa552aa772aa492aa442a0be)
  (.lf
  0x28abc28aa628a9028a7a28a6428a4e28a3828a2228a0c289f6289e0289ca289b42899e2898828c1b28c0d28c0928c0728bf928bf728bf328bf128be328be128bdd28bdb28bcd28bcb28bc728bc528bb728bb528bb128baf28ba128b9f28b9b28b9928b8b28b8928b8528b8328b7528b7328b6f28b6d28b5f28b5d28b5928b5728b4928b4728b4328b4128b3328b3128b2d28b2b28b1d28b1b28b1728b1528b07)))
  (.nd (.nd (.lf
  0x1833c182fc182bc1827818232181f0181b0181701812c180e6180a01805e1801e17fde17f9a17f5417f1217ed217e8e17e4817e0617dc217d80197201970e196fc196ea196d8196c6196b4196a2196901967e1966c1965a1964819636196241961219600195ee195741956a19560195561954c19542195381952e195241951a1951019506194b8194ae194a41949a19490194861947c192cc1928e1925019210)
  (.lf
  0x1fea71fea51fea11fe9f1fe9d1fe9b1fe971fe951fe931fe911fe8d1fe8b1fe89237ae2379a2374c23742237362372c237242375023702236f6236e4236d2236ba236a8236922367e2366c236562363e236262361023600235ea235d0235bc2359e2357c2354c23518234b4234c0237af237ad237a92379b2379923797237932374d2374b237492374523743237412373f2373b237392373723735237312372f))
  (.nd (.lf
  0x2067620756206742074c20672207422067020738205ac2072c205aa20724205a8207182050e207102050c207062050a206f820508206f02066e206e620652206dc2066c206d620658206ca205a6206c020590206b4205a4206aa204f4206a420506206962065c206902066a20682206622067c20666205be20596205b8205a22059e2059c2051e2050420512204fc205022176c21874217702184c2176e21842)
  (.lf 0)))

def shaXorReads7 : BTree :=
  .nd (.nd (.nd (.lf
  0x1aa0f1a9ed1a9e21a7f01efca1eed71c5691b53b1aa131a9ef1a9e41a7f21efbe1eed11c5391b53d1aa171a9f11a9e61a7f41efb81eec91c5031b53f1aa1b1a9f31a9e81a7801efaa1eecb1c4c31b4f31aa1f1a9f51a9ea1a7821ef9c1eecd1c48f1b4dd1aa231a9f71a9ec1a7841ef921eca11c4911b4d51aa271a9f91a9ee1a7861ef841ec7d1c3d31b4c71aa2b1a9fb1a9f01a7881ef7c1ec591c2911b4c9)
  (.lf
  0x40dd940dd540dd340ddd40dd140dcd40dcb40dc940dc540dc340dc140dbf40da740da14042f4042d4042b4042740425404234041f4041d4041b404194041540413404114040f40409404074040540403403ff403fd403f940435403f7403f3403f1403ef403eb403e94035d4035b403554035140335403334032f4032d403194031b4031740313403114030f4030940305402e9404d9402e7402e3401af40d26))
  (.nd (.lf
  0x1828e1827c182481823618206181f4181c6181b418186181741814218130180fc180ea180b6180a41807418062180341802217ff417fe217fb017f9e17f6a17f5817f2817f1617ee817ed617ea417e9217e5e17e4c17e1c17e0a17dd817dc617d9617d8417d5417d3c19464194541943419422193fa193e8193be193ac1938619374193501933e1931a19308192e2192d0192a61929419266192541922619214)
  (.lf 0))) (.nd (.nd (.lf
  0x32c2632bfe32bd632bb432b9832b7c32b5832b3032b0832ae032ab832a9432a5432a12329d2329963295e328fe327883277e3277432d6a32d5e32d5432d4832cae32ca632c9e32c8a32c3032c0832be032bbe32ba232b8632b6232b3a32b1232afc32ac232aac32a8632a4632a06329c63298a32946328723284632816327ee326aa326a0326983268e326843267a32670326643265c32652326483263e32632)
  (.lf
  0x87e7087e3087e1087a3087a10879d0879b0875d0875b08757087550871708715087110870f086db05d3205d0a05cd005c8605c4a05c0a05bc005b8405b4405b0405aba05a7405a2e059e8059a20595c05916058da0589a0585a0581a057da05790057540570a056ce056840564805608055c40558805d3305d0b05d0705d0305ccd05cd105ccb05cc705c8f05c8d05c8905c8705c4705c4b05c4505c4105c07))
  (.nd (.lf
  0x3c3d83d5323d5743d5243d56e3d51a3d5643d50c3d5563d4fe3d54e3d4f43d5423d4e83d53a3d4dc3d4d03d4cc3d4b63d4b23d49c3d3f43d48e3d3ea3d4843d3de3d47e3d3d23d4703d3c43d4663d3b83d45e3d3ac3d4563d3a03d4443d3943d43c3d3883d42c3d37e3d3fa3d3703d3623d35a3d30c3d2dc3d3023d2da3d2f83d29c3d2ee3d2ac3d2e23d2a83d2ae3d2aa3d2223d2203d18e3d1743d1263e5c8)
  (.lf 0)))

def shaXorReads8 : BTree :=
  .nd (.nd (.nd (.lf
  0x50ac050720f7f40f6370eb1a0e94d0e7a70e7870e77005074050340f7ea0f63b0eb100e98b0e7ab0e7890e7720502a04fee0f7e00f63f0eb060e98f0e7af0e78b0e77404fe404fa60f7d60f6430eafc0e9930e7b30e78d0e77604fa804f660f7cc0f6470eaf20e9970e7b70e78f0e77804f6804f280f7c20f64b0eae80e99b0e7bb0e7910e77a04f1e04ee20f7b80f64f0eade0e99f0e7bf0e7930e77c04ed8)
  (.lf
  0x15116150ef1510c150f315102150f7150fd1602f16456160331643816037164161603b163f41603f163d616043163b616047163941604b163761604f16356160531633416057163121605b162f01605f162ce16063162b016067162941606b162741606f16252160731623416077162181607b161fc1607f161dc16083161be16087161a21608b161861608f16166160931614416097161261609b161061609f))
  (.nd (.lf
  0x1bf861bf3e1bef21d7fc1d7c81d7121d7141d7161d7181d71a1d71c1d71e1d59a1d59c1d59e1d5a01d5a21d5a41d5a61d42c1d42e1d4301d4321d2a21d2a41d2421d2441d1e81d1721d1741d1761d1781d17a1d17c1d17e1f7961f7981f79a1f79c1f79e1f7a01f7a21f7a41f7a61f7a81f7aa1f7ac1f7ae1f7b01f7b21f7b41f7b61f7b81f7ba1f7bc1f7be1f7c01f7c21f7c41f7c61f7c81f7ca1f7cc1f7ce)
  (.lf
  0x9db009d7009d5009c1009bf009bb009b9009a10099f0099b0099900983009810097d0097b00963009610095d0095b00945009430093f0093d009290092700923009210090d0090b0090700905008ed008eb008e7008e5008cf008cd008c9008c7008af008ad008a9008a70088d0088b00887008850086b008690086500863008490084700843008410082700825008210081f00809008070080300801007ed)))
  (.nd (.nd (.lf
  0x3bc003b74037320372f05419047e703c6503bcd03bc203b76036ff036f60541b047e903c6903bcf03bc403b78036cb036c20541d047eb03bed03bd103bc603b7a036900368d0541f047ed03bf103bd303bc803b7c036560365305421047ef03bf503bd503bca03b7e036230361a05423047f103bf903bd703bcc03b80035e8035e505425047f303bfd03bd903bce03b82035ae035ab05427047f503c0103bdb)
  (.lf
  0x34518349e7349e5349e3349df349dd349db349d3349d1349cf349cd349c9349c7349c5349c3349bf349bd349bb349b9349b5349b3349b1349af349ab349a9349a7349a53499f3499d3499b349a1349993499534993349913498d3487b348793487d3487734873348713486f3486b348693486734865348613485f3485d3485b348573485534853348513484d3484b348493484734843348413483f3483d34839))
  (.nd (.lf
  0xe3dc0e51e0e3e00e5140e3e40e50a0e3e80e5000e3ec0e4f60e3f00e4ec0e3f40e4e20e3f80e4d80e3fc0e4ce0e4000e4c40e4040e4ba0e4080e4b00e40c0e4a60e4100e49c0e4140e4920e4180e4880e41c0e47e0e4200e4740e4240e46a0e4280e4600e42c0e4560e4300e44c0e4340e4420e4380e43e0e5700e74e0e5740e7440e5780e73a0e5b60e7300e5ba0e7260e5be0e71c0e5c20e7120e5c60e708)
  (.lf 0)))

def shaXorReads9 : BTree :=
  .nd (.nd (.nd (.lf
  0x2138921379204b31f7331f6a71f6901f6521f5a422f5422ed42138b2137b204b51f6bb1f6a91f6921f6541f5a622ff822e382138d2137d204b71f6bf1f6ab1f6941f6561f5a822e2e22e02212ff212fb204b91f6c31f6ad1f6961f6581f5aa22df222de6212912128d204bb1f6c71f6af1f6981f65a1f5ac22ddc22dd0212332122f204bd1f6cb1f6b11f69a1f65c1f5ae22dc622dbe2120d21209204bf1f6cf)
  (.lf
  0x1f3f91f3f71f3f31f3f11f3ef1f40f1f3ed1f3e91f3e71f3e51f3e11f3df1f3dd1f3db1f3d71f3d31f3d11f3cf1f3cb1f3c91f3c71f3c51f3c11f3bf1f3bd1f3bb1f3b71f3b51f3b31f3b11f3ad1f3ab1f3a91f3d51f3a71f3a31f3a11f39f1f39b1f3991f38f1f38d1f3891f37d1f2031f1ff1f1fb1f1f91f1b11f1af1f1ab1f1a91f1a5206102060c2060a20614205582054420532204582044e2044a20464))
  (.nd (.lf
  0x19c1f19c1a182ac1829228b362892b2778b27759277421df221dd0b19c5119c2119c1c182681824c28b202892f2778f2775b277441df0c1dd0f19c5519c2319c1e182221820a28b0a28933277932775d277461def61dd1319c5919c2019bd1181e0181ca28af4289372779727748277191dede1dd1719c5d19c2219bd5181a01818a28ade2893b2779b2774a2771d1dec81dd1b19c6119bd919bd01816018146)
  (.lf
  0x1af671af631af611af331af311af2d1af2b1aef91aef71aef31aef11aec11aebf1aebb1aeb91ae871ae851ae811ae7f1ae4b1ae491ae451ae431ae0d1ae0b1ae071ae051add11adcf1adcb1adc91ad8f1ad8d1ad891ad871ad491ad471ad431ad411ad071ad051ad011acff1acc71acc51acc11acbf1ac7f0f0e80f0de0f0d40f0ca0f0c00f0b60f0ac0f0a20f0980f08e0f0840f07a0f0700f0660f05c0f052)))
  (.nd (.nd (.lf
  0x2a13e2a1322a1282a11e2a10e2a0b42a0aa2a09e2a06c2a0562a0462a0262a01c2a0122a00829ffa29f9029f8629f7c29f7229eec29ed229e6029e5829e082a4a82a4542a3e42a37c2a3122a2d22a2b42a2942a2202a1e42a1c429f9c29f0c2a4a92a4a72a4572a4552a40f2a40b2a3e52a39f2a39b2a37d2a3352a3312a3132a2ef2a2eb2a2d32a2cf2a2cb2a2b52a2b12a2ad2a2952a23d2a2392a2212a201)
  (.lf
  0x1943f19417194151941119405193dd193db193d7193c9193a11939f1939b193911936919367193631935b19333193311932d19325192fb192f9192f5192ed192bf192bd192b9192b11927f1927d19279192711923f1923d1923919231191ff191fd191f9191f1191bf191bd191b9191b11917f1917d1917919171191411913f1913b1912f190fd190fb190f7190e9190b7190b5190b1190a719075190731906f))
  (.nd (.lf
  0x1d0aa1cf031f35a1f3591f5881f49a1f3511f34e1f57e1f4901f3471f3441f5761f4881f33a1f3391f56c1f47e1f32f1f32c1f5601f4721f3201f31f1f5561f46a1f3171f3141f54e1f4601f30d1f30a1f5401f4561f3031f3001f5361f44c1f2f81f2f71f52e1f4441f2eb1f2e81f5201f4381f2e01f2df1f5181f42c1f2d31f2d01f50e1f4221f2c81f2c71f5021f41a1f2be1f2bd1f4fc1f4101f2b31f2b0)
  (.lf 0)))

def shaXorReads10 : BTree :=
  .nd (.nd (.nd (.lf
  0x3e2393e2283e21e3e21d3fa4f3ee5b3eb213e9373e8423e2113e20a3e2063f9fd3edc53eb0d3e92f3e8243e1e73e1d83e1d43f9693eaf53ea913e9113e7f23e04d3e0443e0423f9473eb473ea053e9553e7fa3dfe13df9c3dee63f8313ea4d3ea313e9673e21c3deaa3de9d332fa312c5312c1302ab2f0a12f0992f0962f0942f08e33478332fe3128f3128b302872f00f2f0072f0042f0022effc33470332fc)
  (.lf
  0x3dde73dde53ddd73ddd53ddd33ddd13ddcd3ddc33ddc13ddbf3ddbb3ddaf3ddad3ddab3dda73dd9b3dd993dfe73dd973dd933dd913dd8f3dd8b3d6c73d6bb3d6b93d6a13d69f3d69d3d69b3d6973d6773d66b3d6693d65b3d6593d6573d6553d5f53d5d13d5b73d5bb3d5b53d5b13d5a73d5a53d5a13d58b3d3413d3453d33f3d33b3d3333d3313d3213d31d3d2bd3d2c13d2bb3d2b73d2333d3ff3d2313d22d))
  (.nd (.lf
  0x3a84934ed234e2b2fa292fa222f5282f40c3ac983ac293a8d93a84b3a82e34ec434e2f2fa2b2fa262f3f82f3f03ac763ac2d3a8dd3a84d3a83234eba34e332fa2d2fa282f3d22f39c3ac683ac313a8e13a84f3a83634eb034e372fa2f2fa2a2f3cc2f3c23ac563ac353a8e53a8513a83a34e6834e3b2fa312fa2c2f37e2f3783ac4e3ac393a8533a83c34e6034e3f2fa332fa2e2f3642f3543ac483ac3d3a855)
  (.lf
  0x2ce592ce552ce532ce512ceff2ce4f2ce4b2ce492ce472ce432ce412ce3f2cefb2ce3d2ce392ce372ce352ce312ce2f2ce2d2cef72ce2b2ce272ce252ce232ce1f2ce1d2ce1b2cef32ce192ce152ce132ce112ce0d2ce0b2ce092ceef2ce072ce032ce012cdff2cdfb2cdf92cdf72ceeb2cdf52cdf12cdef2cded2cde92cde52cde32cee72cde12cddd2cddb2cde72cdd92cdd52cdd32cee32cdd12cdcd2cdcb)))
  (.nd (.nd (.lf
  0x3e8b43e8a63e89e3e8963e8803e86e3e8543e8383e81a3e7e63e7de3e2163e1fe3e0303dfb83f6383f6143f5fa3f5963f57e3f5763f54c3f53a3f51e3f50c3f4f23f4ea3f38c3f3723f35e3f3503f33a3f3263f3103f2e63f2d43f1743f1203f1023f0e83ee3c3ee203ed963ea823ea1e3fa923f9283f8e43f8ac3f8623f8343f7e83f7ce3f7b43f79c3f7943f77a3f45c3f44a3f4423f3fc3f3d43f3c03f3b8)
  (.lf
  0x26c8926c8526c6b26bdd26bd926bc126b9126b8d26b7526b3b26af526af126a1f26a0926a03265822657a2656e265642655a265502654c26542265322652a26522265842650e26504264fa264ee264e826300262f4262ec262e2262d2262d4262d6262b8262ae262a42629c25f8425f0825e4c26583265812657d2657b265792657726573265712656f2656d265692656726565265632655f2655d2655b26559))
  (.nd (.lf
  0x20c10223c020c502232020c902228020cd0221e020d102214020d50220a020d902200020dd021f6020e1021ec020e5021e2020e9021d8020ed021ce020f1021c4020f5021ba020f9021b0020fd021a6021010219c021050219202109021880210d0217e0211102174021150216a02119021600211d02156021210214c021250214202129021380212d0213302cb902e5e02cbd02e5402cc102e4a02cc502e40)
  (.lf 0)))

def shaXorReads11 : BTree :=
  .nd (.nd (.nd (.lf
  0x124b41246c15f08157aa140c7140471310d124e9124d9124ce124b61246e15f001576e140c9140491310f125ca124eb124db124b81247015ef615730140cb1404b13097125d5125cc124dd124ba1247215eee156f6140cd1404d1306d125d9125ce124df124bc1247415ee4156be140cf1404f1306f125dd125d0124e1124be1247615eda15686140d11405113071125e1125d2124e3124c01247815ece1564e)
  (.lf
  0x3eb503eb303eaf03ead03e6d03e7d03e6b03e6703e2d03e3d03e2b03e2703def03ded03de903de703da703db703da503da103d6903d6703d6303d6103d2303d2103d1d03d1b03cdb03ceb03cd903cd503c9d03c9b03c9703c9503c79050d8050a40505e0502004fda04f9204f5204f1404ece04e8804e4204dfc04db404d7404d3404cf604cae04c6e04c2e04bf004ba804b6804b2804aea04aa404a5e04a18))
  (.nd (.lf
  0x3943c3956039416395543940e39544393fc39534393f03950c393e6394fa393e8394f4393e4394e0393c2394da393ba394cc39374394c039368394b83935c393a2393483939a3933c3932c39322393143930a392e8392da392ce392bc392b03929c3929e39b9039c2a39b8439c2039b7439c1639b7a39c1039b6639c0239b6239bfa39b4839bf239b3e39be439b3039bde39b3439bb439b3639ba839b0e39ba0)
  (.lf 0))) (.nd (.nd (.lf
  0x3f5803f1803ed803e9403e5203e1203dce03d8c03d4803d0203cc0043e40439e04358042920420c0418604100040ba0403403fee03ea803de203d5c03d1603c900445f0440f0440b043e5043c9043c50439f043830437f04359042bd042b90429304237042330420d041b1041ad041870412b0412704101040e5040e1040bb0405f0405b04035040190401503fef03ed303ecf03ea903e0d03e0903de303d87)
  (.lf
  0xae340ae180adfc0ade00adc40ada80ad8c0ad6c0ad4a0ad2c0ad0c0acea0acc80aca60ac860ac640ac440ac220abfe0abde0abc20aba60ab860ab640ab420ab200aafe0aadc0aaba0aaa20ae4f0ae410ae3d0ae350ae270ae250ae210ae190ae0b0ae090ae050adfd0adef0aded0ade90ade10add30add10adcd0adc50adb70adb50adb10ada90ad9b0ad990ad950ad8d0ad7f0ad7d0ad790ad6d0ad5f0ad5d))
  (.nd (.lf
  0x1a3c21a3b91a38a1a37d1a34e1a33f1a3101a3011a2d21a2c31a2941a2851a2561a2471a2181a20d1a1de1a1d11a1a21a1971a1681a15b1a12e1a11f1a0f21a0e71a0b81a0af1a0821a0751a0461a03b1a00c19fff19fd019fc119f9419f8519f5619f4719f1819f0919edc19ecd19ea019e9119e6219e5319e2019e1119dd819dcd19d9419d8b19d4e19d4519d0619cf919cb619ca719c891b3751b3521b347)
  (.lf 0)))

def shaXorReads12 : BTree :=
  .nd (.nd (.nd (.lf
  0x3d8703d806405d84057e3f11b3f0ef3e3373db6d3db053d94c3d7ea3d7e2405d0405703f4e33f4df3e2f33db473db153d9223d7d23d7ba405c24056e3ee493ee293e1eb3db933db093d9003d7d43d7a84053e405363ee453ee413e1c93dbc73da573d8c43d7d63d78240534405203edb13ed8d3e1d73db353da2b3d8d03d7743d76440508404fa3eaad3ea9d3e04b3da693d9bb3d8b43d7d83d7cc404ea401b4)
  (.lf
  0x13506134c4134fc134c8134f2134cc134e8134d0134de134d4134da145941499c145981497e1459c14960145a014944145a414924145a814906145ac148e6145b0148c8145b4148ac145b81488c145bc1486a145c014848145c41482a145c81480a145cc147ec145d0147d0145d4147b0145d814792145dc14776145e01475a145e41473e145e81471e145ec14700145f0146e4145f4146c4145f8146a6145fc))
  (.nd (.lf
  0x185921858018538197281971819706196f4196e2196d0196be196ac1969a196881967619664196521963e1962c1961a19608195f6195e4195aa195ac195ae195b0195b2195b4195b6195b8195ba195bc195be195c0195c21a5861a5881a58a1a58c1a58e1a5901a5921a5941a5961a5981a59a1a59c1a59e1a5a01a5a21a5a41a5a61a5a81a5aa1a5ac1a5ae1a5b01a5b21a5b41a5b61a40c1a40e1a4101a412)
  (.lf
  0x364a7364a3364a13649f3649d364993649736495364933648f3648d3648b364893648536483364813647f3647b363613635d3635f3635b3635736355363533634f3634d3634b363493634736343363413633f3633b363393633736335363313632f3632d3632b363273632536323363213631d3631b36319364793631736313363113630f3630b36309363073630536301362ff362fd362fb362f7362f3362f1)))
  (.nd (.nd (.lf
  0x6470064340518705107045550396503928038ff038e4038240642a063ee051890510904557039690392a03901038e603826063e4063a60518b0510b045590396d0392c03903038e803828063b4063680518d0510d0455b039710392e03905038ea0382a0635e063220518f0510f0455d039750393003907038ec0382c06318062da05191051110455f039790393203909038ee0382e062e80629c0519305113)
  (.lf
  0x2e5042e4da2e4782e4562e4342e40c2e3e62e3ca2e3aa2e3862e3602e33c2e31c2e3062e2a62e2942e2d22e2c22e16a2e8052e7e92e7cd2e7c92e7b12e7af2e7ab2e77f2e7492e74b2e7472e7432e7292e7272e6ff2e6fd2e6bf2e6bd2e6b92e6b72e67f2e67d2e6792e6732e6432e6412e63d2e63b2e6052e6032e5f72e5f32e5e32e5e12e5bf2e5b92e58d2e58b2e5872e5792e5532e5412e53d2e5392e517))
  (.nd (.lf
  0x42e8042df042aa042a10426204259042240421b041dc041d30419e04195041560414d041180410f040d2040c90408a040810404c040430400603ffd03fbe03fb503f7e03f7503f3e03f3503efe03ef503ec003eb703e7803e6f03e3803e2f03dfa03df103db203da903d7403d6b03d2e03d2503ce603cdd03ca803c9f03c7e03c7d050d7050a3050660505d050280501f04fe204fd904f9a04f9104f5a04f51)
  (.lf 0)))

def shaXorReads13 : BTree :=
  .nd (.nd (.nd (.lf
  0x1f8ad1f8811f8761f7ee22ab22296321105200c51f8b11f8831f8781f7f022aa822965210b7200c71f8b51f8851f87a1f7f222a9822967210b9200c91f8b91f8871f87c1f7f422a8e2296f21093200cb1f8bd1f8891f87e1f7f622a842297121023200cd1f8c11f88b1f8801f7f822a782297520ff71fe6d1f8c51f8821f84d1f7fa22a702296920f511fe6f1f8c91f8841f84f1f7fc22b9f22a6420f411fe71)
  (.lf
  0x1239d1239b123971239512393123911238f1238b123891238712383123811237f1237d123791237712375123731236f1236d1236b12369123651235b12359123571235311ad711ad311a8f11a8b11a8711a4511a4311a3f11a3b119f9119f7119f3119f1119a5119a3119a11199b119671235012346123341232a12326123181230c12302122fe122ee122e4122e0122d0122c6122bc122b2122a2122a612292))
  (.nd (.lf
  0x3eaa23ea9f3ea9c40a7740a733f9573f54f3f5453f2ee3eac63ea143ea123ea1140a2740a233f8253f52d3f4f93f39e3eacc3eacb3eac441b8b41f3641b7b41f2c41b8d41f2041b4d41f1a41b5141f0e41b3341f0241b2541efa41b3741eec41b3d41ee241b0941edc41ac541ed241ab141eca41ab941eba41a8741eb241aa341eaa41a474171e416f741712416ff417154170a416bf416ba41694416894168e)
  (.lf
  0xd4790d4750d4730d4710d46f0d46b0d4690d4670d4650d4610d45f0d45d0d45b0d4570d4550d4530d4510d44d0d44b0d4490d4470d4430d4410d43f0d43d0d4390d4370d4350d4330d42f0d42d0d42b0d4290d4250d4230d4210d41f0d41b0d4190d4170dbee0dbd00dbae0db8c0db6a0db480db260db040dae20dac00da9e0da7c0da5a0da380da160d9f40d9d20d9b00d98e0d96c0d94a0d9280d9060d8e4)))
  (.nd (.nd (.lf
  0x12c64164521643216410163ee163d0163b01638e16370163501632e1630c162ea162c8162aa1628e1626e1624c1622e16212161f6161d6161b81619c16180161601613e1612016100160de160c0164461642416402163c4163a2163641634216320162fe162dc1628216260161ea161741615216114160f21644c1642a16408163e7163e3163e6163ca163a81638716383163861636a163481632616304162e2)
  (.lf
  0x135cb135c7135c5135c3135c1135bd135bb135b9135b7135b3135b1135af135ad135a9135a7135a5135a31359f1359d1359b135991359513593135911358f1358b135891358713585135811357f1357d1357b135771357513573135711356d1356b135691356713563135611355f1355d135591355713555135531354f1354d1354b135491354513543135411353f1353b135391353713535135311352f1352d))
  (.nd (.lf
  0x3b2723b2683b25e3b20e3b1e43b1743b16e3b17f3b1733b16f3c35a3c3543c33e3c3283c2fa3c2ce3c2be3c13a3c12c3c1223c1183c10e3c1023c0f23c0e63c0d83c08a3c0823c0783c0603c0423bf6c3bf663bf563bf503bc0e3bb743baba3b9ec3b94c3b9873b9533b94d3c9603c9503c9383c92c3c9223c8fc3c8f63c8f03c8be3c8b23c8983c8923c88a3c8843c8763c8683c8623c85c3c84e3c8343c824)
  (.lf 0)))

def shaXorReads14 : BTree :=
  .nd (.nd (.nd (.lf
  0x2de692cc152cbf92cbf22cbc82cbc2310d0310922ed8d2ed892df272cc332cc292cc262cc242cc1c310683102c2ed712ed6d2df012cba92cba12cb9e2cb9c2cb9630ff430f942ed332ed2f2de3b2cb892cb812cb7e2cb7c2cb7630fb430f682ee512ee4d2de172cb612cb4f2cb4a2cb462cb3a30f4a30f282eccd2ecc92de192cb552cb512cb4c2cb482cb3c30f2230ec82ecad2eca92de1b2cc722cb572cb53)
  (.lf
  0x2dd992dd972dd812dd7d2dd7b2dd792dd752dd732dd712dd6f2dd532dd512dd4f2dd4d2dd492dd3f2dd3d2dd612dd3b2dd372dd352dd332dd2f2dd252dd232dd212dd1d2dd1b2dd112dd0f2dd0b2d3c92d3c72d3c52d3c12d3bf2d3bd2d3bb2d3b72d3b52d3b32d4332d3b12d3ad2d3ab2d3a92d3952d3912d3132d3112d2ff2d2fd2d1eb2d1e92d1d92d1d72d1a92d1a32d1a12d18d2cfdf2db9c2db8c2db56))
  (.nd (.lf
  0x299b0298ef200ec2002a1e9d71e97d1e97834bd434a71338d33387c33853299a6298f3200e42001e1e9d91e97f1e97a34bc834a75338d73387e338552999c298f72004c200201e9db1e9811e97c34bbc34a79338db338803385729992298fb200281feec1e9dd1e9831e97e34bb234a7d338df338823385929988298ff1fee21fbba1e9df1e9851e98034b9c34a81338e3338843385b2997e299031fedc1fb86)
  (.lf
  0x2394b239472394523943239412393d2393b239392393723933239312392f2392d239292392723925239232391f2391d2391b239192391523913239112390f2390b23909239072390523901238ff238fd238fb238f7238f5238f3238f1238ed238eb238e9238e7238e3238e1238df238dd238d9238d7238d5238d3238cf238cd238cb238c9238c5238c3238c1245a6245922457c24566245502453a245242450e)))
  (.nd (.nd (.lf
  0x4011540111400f7400f3400ed400d5400b7400b1400a93ffad3ffab3ffbb3ff7f3ff7b3fcc13fcbd3fcaf3fc073fc033fbff3fc0b3fbfb3fbf73fb413fb3d3fb393fac73fab73fab13f9bd3f9b93f9af3f9ef3f91b3f9174011b401174011a401144010d401014010c400ff400f9400fe400f6400eb400e5400ea400e3400dd400e2400db400d7400da400d4400af400ab400ae400a83ffa93ffa53ffa83ffa3)
  (.lf
  0x2038720385203812037f2037d2037b203772037520373203e3203712036d2036b20369203652036320361203e52035f203592035720355203532034f2034d2034b203472034520343203412033d2033b203392035d2033720333203312032f2032b203292032720325203212031f2031d2031b203172031520313203112030d2030b20309203072030320301202ff202fd202f9202f7202f5202f3202ef201e1))
  (.nd (.lf
  0x1032011c801036011be0103a011b40103e011aa01042011a001046011960104a0118c0104e011820105201178010560116e0105a011640105e0115a010620115001066011460106a0113c0106e011320107201128010760111e0107a011140107e0110a010820110001086010f60108a010ec0108e010e201092010d801096010ce0109a010c40109e010ba010a2010b0010a6010ac0148e016320149201628)
  (.lf 0)))

def shaXorReads15 : BTree :=
  .nd (.nd (.nd (.lf
  0x13436133ea12f2412e3514fcf14545134631344313438133ec12f1a12ed714fd11454713467134451343a133ee12f1012e2114fd3145491346b134471343c133f012f0612e4514fd51454b1346f134491343e133f212efc12e0f14fd71454d134731344b13440133f412ef212ddf14fd91454f134771344d13442133f612ee812dd314fdb145511347b1344f13444133f812ede12edb14fdd144551347f13451)
  (.lf
  0x3b42d3b42b3b4273b41f3b3f13b3ed3b3e93b3db3b3c93b3cd3b3c73b3c33b3973b3953b3913b38f3b38d3b38b3b3873b3853b3833b3813b37d3b31b3b3193b32d3b3173b3093b3073b3053b3033b2f73b24f3b2533b24d3b2493b1fb3b1f93b1f73b1f33b1bd3b1bb3b1b73b1b53b1b33b1b13b1ad3b1ab399ad3e5ca3e5b83e5aa3e7143e4c03e4c83e4ac3e4cc3e49a3e45e3e4423e4203e4163e40a3e3fe))
  (.nd (.lf
  0x263282647a26358264702635c26466263602645c263642645226368264482636c2643e2637026434263742642a26378264202637c26416263802640c263842640226388263f82638c263ee26390263e426394263da26398263d02639c263c6263a0263bc263a4263b2263a8263ae2753e2770e275422770427546276fa2754a276f02754e276e627552276dc27556276d22755a276c82755e276be27562276b4)
  (.lf 0))) (.nd (.nd (.lf
  0x1a3a21a3661a3281a2ea1a2ac1a26e1a2301a1f61a1ba1a1801a1441a1081a0d01a0981a05e1a02419fe819faa19f6e19f3019ef219eb619e7a19e3c19dfa19db619d7419d2e19ce21b3681b3341b2fa1b2c41b28c1b2521b2161b1de1b1a41b1661b1281b0ee1b0b61b07e1b0461b00e1afd61af9e1af661af301aef61aebe1ae841ae481ae0a1adce1ad8c1ad461ad041acc40f0e60f0dc0f0d20f0c80f0be)
  (.lf
  0x52b3052af052ad052ab052a9052a5052a3052a106998069600691c068da068960685406810067ca067880674806708066c40667e06638065f6065b60657606532064f0064ac0646606420063da06398063540630e062cc062880624606202061c006999069970699306991069610695f0695b069590691d0691b0691706915068db068d9068d5068d30689706895068910688f06855068530684f0684d06811))
  (.nd (.lf
  0x16db416d9e16d9c184e6184b6184901847c18456184441841e1840a183e4183d2183aa1839a1836a1835a1832a1831a182ea182da182aa182961826618250182201820e181de181ce1819e1818e1815e1814a1811a18104180d4180be1808e1807c1804c1803c1800c17ffc17fcc17fb817f8817f7217f4217f3017f0017ef017ec017eac17e7c17e6617e3617e2417df417de017db417d9e17d6e17d5c17d48)
  (.lf 0)))

def shaXorReads16 : BTree :=
  .nd (.nd (.nd (.lf
  0xd46a0d3ef07056070180f0060ef990edb90ed580ed2f0d4600d3f30701a06fda0effc0ef9d0edbd0ed5a0ed310d4560d3f706fd006f920eff20efa10edc10ed330ed160d44c0d3fb06f9406f520efe80efa50edc50ed350ed1a0d4420d3ff06f5406f140efde0efa90edc90ed370ed1e0d4380d40306f0a06ed60efd40efad0edcd0ed390ed220d42e0d40706ecc06e9a0efca0efb10ed3b0ed240d4240d40b)
  (.lf
  0x2621026177262042602d261fc26031261f226035261e826039261de2603d261d425e6d261ca25deb261be25def261b425df3261aa25df7261a025cdb261982617b261902617f261852606c26066260412605c260452605026049260532739b2752e2739f27526273a327516273a72750e273ab2750827351274fc273af274f4273b3274ea273b7274de273bb27539274d4274ce273c1274c0273c5274b2273c9))
  (.nd (.lf
  0x3f9683f9463f830414924144c412ce412b841118410cc41096410d041060410624105e411604113a4105a40f4840f6240e1840e0040e764064c4063a406244060e40614405e2405cc405ec405484055c4050e404f4401bc0167c0168001684016880168c0169001694016980169c016a0016a4016a8016ac016b0016b4016b8016bc016c0016c4016c8016cc016d0016d4016d8016dc016e0016e4016e8016ec)
  (.lf
  0x17df017d1017cf017cb0179d0178f0178d017890175d0174f0174d017490171d0171701ee501ecf01ecb01eab01e8f01e8b01e6501e4901e4501e1f01d4301d3f01d1901c7d01c7901c5301c3701c3301c0d01bb101bad01b8701b6b01b6701b4101b2501b2101afb01a9f01a9b01a7501999019950196f018d3018cf018a90180d01809017e30163a01630016260161c0161201608015fe015f4015ea015e0)))
  (.nd (.nd (.lf
  0x6d7406d280687d068740858d0797906e1b06d8106d7606d2a06836068330858f0797b06d9f06d8306d7806d2c067f0067ed085910797d06da306d8506d7a06d2e067b1067a8085930797f06da706d8706d7c06d300677106768085950798106dab06d8906d7e06d320673106728085970798306daf06d8b06d8006d34066ea066e7085990798506db306d8d06d8206d36066a4066a10859b0798706db706d8f)
  (.lf
  0x3747b37479374753746d3746b3746937465374613745f3754b3745d3745537453374513744d3744737445374433743f3741737415374133740f3740b374093741b374073740337401373ff370d1370cf370cb370c9370c5370c3370bf370bd370b9370ab370a9370a73709737093370913708f36e3f36e3736e1f36e1d36dfd36df936deb3762c376223761a3760a37600375f4375e2375e8375d0375c6375b8))
  (.nd (.lf
  0x2549425550254982553a2549c25524254a02550e254a4254f8254a8254e2254ac254cc254b0254b626588268d22658c268be26590268a8265ce26892265d22687c265d626866265da26850265de2683a265e226824265e62680e265ea267f8265ee267e2265f2267cc265f6267b6265fa267a0265fe2678a2660226774266062675e2660a267482660e26732266122671c26616267062661a266f02661e266da)
  (.lf 0)))

def shaXorReads17 : BTree :=
  .nd (.nd (.nd (.lf
  0x23b5923b512318921ff321f9021bed21bea21be425b5225b3823b5b23b532318b21f9321f7021bcd21bca21bc425b2025b0223b6b23b672318d21f7321f1421b6521b6221b5c25af225a8823b0f23b0b2318f21f1721ede21b1921b1621b1025a7a25a4023af323aef2319121ee521e9221ad721ad421ace25a3425a1e23ad723ad3231932220121e9521daa21a8e21a82259f8259e623aad23aa92325d22113)
  (.lf
  0x2309d2309b230972309523093230912308d2308b230892308723083230812307f2307d230792307723075230732306f2306d2306b230692306523063230612305f2305b230592305723055230512304f2304d2304b230472304523043230412303d2303b230392303723033230312302f2302d230292302723025230232301f2301d2301b23019230152301323011232532300f2300b23009230072300322cd7))
  (.nd (.lf
  0x1cb661b2981b2942c0702bdc92ac312ac0b2abf4225a22240d1cb911cb6d1cb681b25e1b25a2c05a2bdcd2ac352ac0d2abf622598224111cb951cb6f1cb6a1b22a1b21e2c0442bdd12ac392ac0f2abf82258e224151cb991cb711cb6c1b1fc1b1e62c02e2bdd52ac3d2ac112abfa22584224191cb9d1cb731cb6e1b1c21b1ac2c0182bdd92ac412ac132abfc2257a2241d1cba11cb751cb701b17e1b16e2c002)
  (.lf
  0xf46b0f4670f4650f4630f4610f45d0f45b0f4590f4570f4530f4510f44f0f44d0f4490f4470f4450f4430f43f0f43d0f43b0f4390f4350f4330f4310f42f0f42b0f4290f4270f4250f4210f41f0f41d0f41b0f4170f4150f4130f4110f40d0f40b0f4090f4070f4030f4010f3ff0f3fd0f3f90f3f70f3f50f3f30f3ef0f3ed0f3eb0f3e90f3e50f3e30f3e10f3df0f3db0f3d90f3d70f3d50f3d10f3cf0f3cd)))
  (.nd (.nd (.lf
  0x2f5c22f5b02f5982f57e2f5762f56e2f5662f4102f3f42f3d82f3c62f37c2f36a2f35e2fdb22fda82fd9a2fd922fd882fd7e2fd742fd6a2fd602fd502fd462fd3e2f8b02f8a82f89c2f8922f8862f87c2f8702f8662f85c2f8502f8482f83e2f81e2f7f62f7ca2f7aa2f7762f76e2feb22fdd62fdca2fdfa2f9a42f9862f90e2f8002f7d4301652fec32feb32feb12fddf2fddb2fdd72fdd32fdcb2fdc72fdfb)
  (.lf
  0x1aadf1aadd1aad91aad71aad51aad31aacf1aacd1aacb1aac91aac51aac31aac11aabf1aabb1aab91aab71aab51aab11aaaf1aaad1aaab1aaa71aaa51aaa31aaa11aa9d1aa9b1aa991aa971aa931aa911aa8f1aa8d1aa891aa871aa851b3721b3441b30c1b2de1b2961b25c1b2201b1e81b1ae1b1701b1321b0f81b0c01b0881b0501b0181afe01afa81af701af3a1af001aec81ae8e1ae521ae141add81ad96))
  (.nd (.lf
  0x272de26e8c26e8026e7f272d426e5226e5026e4f272ca26df626dc126dbe272c026dd826db426db3272b626dd226dc626dc52729026d3626d3526d322727626d2b26d1a26d0e2727026cfe26cf326cee2725426cb626cb526cac2724a26ca926c9626c8e2724026c8126c7826c6c2721a26c5626c5526c4c271f426c4726bce26bc2271de26b8426b7826b77271d426b9526b6226b5a271c426b4f26b4626b3e)
  (.lf 0)))

def shaXorReads18 : BTree :=
  .nd (.nd (.nd (.lf
  0x323de323d83695c369423465d346593368b323bd323b5323b2323b0323aa3693e368d63461934615336693237932373323703236e32368368c236890345cd345c93364b3235d3234b323463233c3233036874367b2345b1345ad3362f323613234d323483233e3233236858367cc3452b34527336f3321ff321f5321f2321f0321ea367f436706344ff344fb33391320913208932086320843207e366f8366be)
  (.lf
  0x417f54181b417f3417df417dd417e3417db417d7417d54189b417d3417cf417cd417cb41515414df414dd414db412334118d41189411ab4118741183411814119b4117f4117b4117941177411734112d4112b4112941073410714106f4106d4106940fed40f5140f5540f4f40f4b40f0b40f1740f0940f0540eab40ea940ea540e9f40e9740e9540e9140e8d40e8740eaf40e8540e8140cb340c5940c5540c51))
  (.nd (.lf
  0x38ea3351b634e8e34e1134dfb34db4391be38ea735632351a83502f34e9034dfd391b438eab351a034e1534dff34dfa34da0391ac38e2f351943503334e0134dfc34d8e391a038dad3518a34e1934e0334dfe34d803919838d773518234e9b34e0534e0034d763918e38d7b3517234e9f34e0734e0234d6c3918438d7f3516634ea334e0934e0434d5c3917e3906d3515c34ea734e0b34e0634d503917239071)
  (.lf
  0x306c9306c5306bf306bb306c1306b9306b5306b3306b1306ad3069d3069b3069930695306933067f3067d30679306713066b3066930665306633065530653306433063f3063d3063b30637306273061d3061b306173058f3058d3058b3058530583305813057f305793057730575305733056f3056d3056930567305633055f3055d305933055b3055730555305533054f3054d305493054730543305413053d)))
  (.nd (.nd (.lf
  0x27c9c27ca027ca427ca827cac27cb027cb427cb827cbc27cc027cc427cc827ccc298d0298d4298d8298dc298e0298e4298e8298ec298f0298f4298f8298fc2990029904299082990c2991029914299182991c29920299242aa4e2aa522aa562aa5a2aa5e2aa622aa662aa6a2aa6e2aa722aa762aa7a2aa7e2aa822aa862aa8a2aa8e2aa922aa962aa9a2aa9e2aaa22bbf02bbf42bbf82bbfc2bc002bc042bc08)
  (.lf
  0x28e1d28e1b28e1728e1528e1128e4328e0f28e0b28e0928e0728e0328dff28dfb28df928df528df328def28ded28de728de528de328de128ddd28ddb28dd728dd528dd128dcf28dcb28dc928dc528dc328dbf28dbd28db928db728db328db128dad28dab28da728da528da128d9f28d9b28d9928d9528d9328d8f28d8d28d8928d8128d7f28d7d28d7928d7728d7328d7128d6d28d6b28d6728d6528d6128d5f))
  (.nd (.lf
  0x11387114221138b114181138f1140e113931140411397113fa1139b113f01139f113e6113a3113dc113a7113d2113ab113c8113af113be113b3113b9125ab1270c125af12702125d7126f8125db126ee125df126e4125e3126da125e7126d012551126c6124ef126bc124f3126b2124f7126a8124fb1269e124ff12694125eb1268a125ef12680125f312676125f71266c125fb126621255512658125031264e)
  (.lf 0)))

def shaXorReads19 : BTree :=
  .nd (.nd (.nd (.lf
  0x14c7214c6c180de180a2167cf167cb15c3b14db514d8614c5f14b1014ab61809818060165d3165cf15c3d14d8914d5a14c6114b1214ab81805618020165a71658f15c3f14d5d14d2e14c5b14b1414aba1801617fe0165a91659115ac514d3114d0c14c5d14b1614abc17fd617f9c165ab1659315ac714e9114d0f14cf014b1814abe17f9217f56165ad1659515ac914e6314cf514cd814b1a14ac017f4c17f14)
  (.lf
  0x72f7072f5072f1072ef072b9072b7072b3072b107273072710726d0726b0722d0722b0722707225071e7071e5071e1071df0719f0719d0719907197071610715f0715b0715907119071170711307111070db070d9070d5070d307093070910708d0708b07055070530704f0704d0700d0700b070070700506fcf06fcd06fc906fc706f8706f8506f8106f7f06f4706f4506f4106f3f06f0906f0706f0306f01))
  (.nd (.lf
  0x18dac18d7d18d7018d4318d3618d0918d0418cf11a3e31a3b11a3a41a3751a3681a3371a32a1a2f91a2ec1a2bb1a2ae1a27d1a2701a23f1a2321a2051a1f81a1c91a1bc1a18f1a1821a1531a1461a1171a10a1a0df1a0d21a0a71a09a1a06d1a0601a0331a02619ff719fea19fb919fac19f7d19f7019f3f19f3219f0119ef419ec519eb819e8919e7c19e4b19e3e19e0919dfc19dc519db819d8319d7619d3d)
  (.lf 0))) (.nd (.nd (.lf
  0x8132080f2080ae0806c0802807fe607fa607f6607f2607ee607ea207e5c07e1a07dd607d9407d5007d0a07cc807c8407c3e07bfc07bbc07b7c07b3c07afc07abc08188080c20803c07eb607e7007dea07d6407d1e07c9807c520822d0820b0822c081f3081cb081f2081b20816d081450816c0812d081050812c080ec080a70807f080a6080660802107ff90802007fe107fb907fe007fa107f7907fa007f61)
  (.lf
  0xc1cf0c1cd0c1b90c1b70c1b30c1b10c19d0c19b0c1970c1950c17d0c17b0c1770c1750c15f0c15d0c1590c1570c13f0c13d0c1390c1370c11d0c11b0c1170c1150c0fb0c0f90c0f50c0f30c0dd0c0db0c0d70c0d50c0c30c0c10c0bd0c0bb0c0a909b1c09aee09ab609a6c09a30099e6099aa0996009924098e4098a4098640981a097d4097980975809718096ce0968809642095fc095b60957a09530094ea))
  (.nd (.lf
  0x2b2122b0892b2062b0812b1fc2b0712b1ec2b0692b1e22b0592b1d82b0512b1ce2b0412b1c22b0392b1b82b0292b1ae2b01f2b1a22b0152b1842b16f2afd22afcf2af6e2af6b2af532c57b2c5082c3972c4fc2c39f2c4f22c37f2c4e62c3a12c4d82c3832c4ce2c3612c4c82c35f2c4ba2c3552c4a62c33b2c47c2c39b2c4722c3252c4682c3272c4542c3112c4202c3052c4162c2f92c4102c2ed2c4042c2e1)
  (.lf 0)))

def shaXorReads20 : BTree :=
  .nd (.nd (.nd (.lf
  0xf6940a200236c0144b013cb00fea00f6b409bc01ee60102d00fad00f6d40b4a4099401eac01e700103100faf00f6f40b444097401e6601e2a0103500fb100f7140b004099c01e2001de20103900fb300f7340af240a1401df001da20103d00fb500f7540ad240a4601db001d620104100fb700f7740a3e409e001d7001d240104500fb900f7940a36409e201d1a01cdc0104900fbb00f7b408e8408d201cea)
  (.lf
  0x241da240c024208241d2241ca240c4241c0240c8241b6240cc241ac240d0241a2241182419c240d424192240d824188240dc2417c240e024170240e424166240e824160240ec24152240f024148240f424140240f824136240fc2412c241002411e24104241262524e253f425252253e825256253dc2525a253d62525e253cc25262253be25266253b22526a253aa2526e253a42527225392252762538c2527a))
  (.nd (.lf
  0x3cad03ca903ca663db9c3db903db483db0e3daf63dade3da743da363d9c23da063d9d83d9883d9963d95a3d9203d9063d8ca3d8e83d8e43d8da3d8883dbcc3d8223d80a3d7e63d7be3d7ac3d7863d7783d7d03d2663d1443e79a3e7703e76a3ec583e7043e7083e6cc3e6d03e6723e6523e6203e6543e5fa3e6583e5da3e7cc3e5783e42e3e3623e3243e2fe3e31e3e2d03e3303e33c3e3223e1f03e1fa3e1f6)
  (.lf
  0x3901f38ff538ff138fef38fed38fe938fe538fe338fe138fdd38fd338fd138fcf38fcb38fc138fbf38fbd38fb938e4d38e4b38e4938e4538e4138e3f38e3d38e3938e3738e3338e3138e2938e2538e2338e2138e1d38e1b38e1738e1538e0f38e0d38e0b38e0938e0538e0338dff38dfd38df938df738df338df138ded38ddd38dd938dd738dd338dcf38dcd38dcb38dc538dc338dc138dbf38dbb38db538db3)))
  (.nd (.nd (.lf
  0x87ac08770076b30763306aa505eb905e6e05e4505e2a05d6a087660872a076b50763506aa705ebd05e7005e4705e2c05d6c08720086ec076b70763706aa905ec105e7205e4905e2e05d6e086e2086ca076b90763906aab05ec505e4b05e3405e3005d70086c8076bb0763b06aad05ec905e4d05e3605e3205d7209b12082d108251076bd06b4706ac906ab206a6e069ae09ad809a9a082d308253076bf06b4b)
  (.lf
  0x2f1992f1112f10d2f10b2f1092f1052f1032f1012f0ff2f0fb2f0f92f0f72f0f52f0f12f0ed2f0eb2f0ef2f0e92f0e52f0e32f1712f0e12f0dd2f0db2f0d92f0d52f0d32f0d12f0cf2f0ad2f0ab2f0a92f0b32f0a72f0a32f01f2f01d2f0172f0112ef832ef812ef7d2ef7b2ef792ef772ef732ef712ef4f2ef512ef4d2ef492ee8d2ee8b2ee872ee812ee7f2ee832ee7d2ee792ee772ee852ee752ee712ee6f))
  (.nd (.lf
  0x139841397b139361392d138ea138e11389e138951384e1384b137f8137fb137aa137ad1375e137591370c13703136ce136cb149e714e7e149e914e50149ed14e24149eb14df8149e514dcc149dd14da0149df14d74149e314d48149e114d1c149db14cfa149d314cde149d514cc8149d914cb4149d714ca0149d114c8c149c914c78149cb14c64149cf14a68149cd14a5e149c714a54149bf14a4a149c114a40)
  (.lf 0)))

def shaXorReads21 : BTree :=
  .nd (.nd (.nd (.lf
  0x232d3232a52329a22e2426c02269052510924027232d7232a72329c22e2626bb0269032517f23f4d232db232a92329e22d5e26ba6269012510b23f4f232df232ab232a022d3a26b9c268ff2510d237fb232e3232ad232a222d14269da268fb2510f237fd232e7232a42326f22cf0269dd269d025111237ff232eb232a62327122cf2269c4268ed2511323801232ef232a82327322cf42697a268eb2508f23803)
  (.lf
  0x14bff14bfd14bf914bf714bf514bf314bef14bed14beb14be914be514be314be114bdf14bdb14bd914bd714bd514bd114bcf14bcd14bcb14bc714bc514bc314bc114bbd14bbb14bb914bb714bb314bb114baf14bad14ba914ba714ba514ba314b9f14b9d14b9b14b9914b9514b9314b9114b8f14b8b14b8914b8714b8514b8114b7f14b7d14b7b14b7714b7514b7314b7114b6d14b6b14b6914b6714b6314b61))
  (.nd (.lf
  0x1ea051e9ee118d3118ce0f9a40f9950f98c0f9890f9760f9601ea071e9f0118d5118d00f9420f9330f92a0f9270f90e0f8f81ea091e9f2118d7118d20f8e70f8e10f8ca2095316ce70f4ff0f4e30f4cc0d3bd0d3a30d39e0d36420cac209571746816ceb0f5010f4e50f4ce0d3c10d3a50d3a00d34a0d34620c982095b1743616cef0f5030f4e70f4d00d3c50d3a70d3a20d3280d32420c8220999173fe16cf3)
  (.lf
  0xe2370e2330e2310e2230e2210e21d0e21b0e20d0e20b0e2070e2050e1f70e1f50e1f10e1ef0e1e10e1df0e1db0e1d90e1cb0e1c90e1c50e1c30e1b50e1b30e1af0e1ad0e19f0e19d0e1990e1970e1890e1870e1830e1810e1730e1710e16d0e16b0e15d0e15b0e1570e1550e1470e1450e1410e13f0e1310e12f0e12b0e1290e11b0e1190e1150e1130e1050e1030e0ff0e0fd0e0ef0e0ed0e0e90e0e70e0d9)))
  (.nd (.nd (.lf
  0x1b2821b2261b1f21b1b41b1761b1381b1021b0ca1b0981b0601b0281aff01afb81af801af4a1af141aeda1aea21ae681ae2a1adee1adac1ad661ad201acde1ac9a1b37a1b34e1b26c1b2481b1d41b1901b1541af081ae961ae5a1ae1c1ade01ad9e1ad581ac8e1b37b1b35b1b34f1b34d1b2751b2711b26d1b2491b2411b23d1b1d51b1c11b1bd1b19b1b1971b1911b15d1b1551b1491af0f1af0b1af091ae9d)
  (.lf
  0x1485f1485b14859148211481d1481b147c7147c3147c114735147311472f146db146d7146d51469d14699146971465f1465b1465914320143161430c14302142f8142ee142e4142da142d0142c6142bc142b2142a81429e142941428a14280142761426c14262142581424e142441423a14230142261421c1421214208141fe141f4143211431f1431b143191431714315143111430f1430d1430b1430714305))
  (.nd (.lf
  0x5b7705b6e05b6a05b6205b3705b2e05b2a05b2205af705aee05aea05ae205ab005aac05aa405aa105a6a05a6605a5e05a5b05a2405a2005a1805a15059de059da059d2059cf05998059940598c05989059520594e05946059430590c0590805900058fd058cd058c4058c0058b80588d0588405880058780584d0584405840058380580d0580405800057f8057cd057c4057c0057b805786057820577a05777)
  (.lf 0)))

def shaXorReads22 : BTree :=
  .nd (.nd (.nd (.lf
  0x3009f2f97e2f8d72f8d433ab2339b331c4d30b4b300a32f9502f8b72f83833aa833a3331c3530afb300212f9522f8b92f81a33a9c339b731c3730a912fee52f94e2f7f12f7e833a923399731ccd30a35301732fee92f91c2f7c833a88339d5317f1309d7301492feed2f8d62f7a233a3e3395d31699309813007d2fef12f8b62f7a433a363394f3166d309a13007f2fef52f8b82f3be339d7316393076330081)
  (.lf
  0x310f7310f5310ef310d3310933106d3106b3104d3102d3102b3102130ff730f9530fb730f9330f8f30f6930fa530f6730f4130f2930fc730f2730f2130ec930edb30ec730ec330e9330e9530e9130e7f30e6130e6530e5f30e5b30e2530ea330e2330e1f30df330df130ded30deb30de930de730dd730dd530dd330dd130dcd30dc530dc330dc130da930d3d30d3b30d2930d2530d1b30cfd30cfb30cf730cef))
  (.nd (.lf
  0x2c5dd275bd2758d2758826d58268ee380dc37e0736d9936d6536d4e2cf052ce6c275c12758f2758a26d4e268e2380c637e0b36d9d36d6736d502ce642c5e3275c52758c2753d26c2c268e4380ae37e0f36da136d5236d232cf012ce5a275c92758e2754126c1e268f23809637e1336da536d5436d272ce522c5e9275cd275452753c26c14268f03807237e1736da936d5636d2b2cefd2ce4a275d12754927540)
  (.lf
  0x26857268532685126843268412683d2683b2682d2682b26827268252681726815268112680f26801267ff267fb267f9267eb267e9267e5267e3267d5267d3267cf267cd267bf267bd267b9267b7267a9267a7267a3267a126793267912678d2678b2677d2677b26777267752676726765267612675f267512674f2674b267492673b26739267352673326725267232671f2671d2670f2670d2670926707266f9)))
  (.nd (.nd (.lf
  0x74f0074a80746807428073e8073a80736807328072e8072aa072640721e071d807190071520710a070cc070840704606ffe06fc006f7806f3806efa06ebc06e8006e460821a081dc0819e0815608116080d808090080520800a07fca07f8a07f4a07f0a07ecc07e8607e3e07e0007db807d7a07d3407cec07cae07c6807c2007be007ba007b6007b2007ae007aa008210081d0081920814a0810a080cc08084)
  (.lf
  0x214822147e213f4213c82187b21879218752187321855218532184f2184d2184b218492184521843218412183f2183b218392183721835218312182f2182d2182b218272182521823218212181d2181b218192181721813218112180f2180d21809218072180521803217ff217fd217fb217f9217f5217f3217f1217ef217eb217e9217e7217e5217e1217df217dd217db217d7217d5217d3217d1217cd217cb))
  (.nd (.lf
  0xc8a80c95e0c8ac0c9540c8b00c94a0c8b40c9400c8b80c9360c8bc0c92c0c8c00c9220c8c40c9180c8c80c90e0c8cc0c9040c8d00c8fa0c8d40c8f00c8d80c8e60c8dc0c8e21088210a261088610a1c1088a10a121088e10a0810892109fe10896109f41089a109ea1089e109e0108a2109d6108a6109cc108aa109c2108ae109b8108b2109ae108b6109a4108ba1099a108be10990108c210986108c61097c)
  (.lf 0)))

def shaXorReads23 : BTree :=
  .nd (.nd (.nd (.lf
  0x16b3d16b1d16b12167aa1a1931a17618657176b116b4116b1f16b14167ac1a1571a13c18659176b316b4516b2116b16167ae1a11b1a1001865b176b516b4916b2316b18167b01a0e31a0c61865d176b716b4d16b2516b1a167b21a0ab1a0901865f176b916b5116b2716b1c167b41a0711a054186611766d16b5516b2916b1e166c41a0371a01a186631765316b5916b2b16b20166c619ffb19fde1866517655)
  (.lf
  0x3ec5d3ec4f3e7d53e7d33e7c73e7c53e7c33e7c13e7bd3e7bb3e7b93e7c93e7b73e7b33e69d3e69b3e6973e6933e67f3e67d3e6753e6713e6433fe083fdfe3fdee3fdf03fdd83fdcc3fdc23fdb03fd9c3fd6e3fd623fd503fd3e3fd283fd143fcfa3fce83fc9c3fc9e3fc543fbd83fbdc3fb063fb143faea3faa23f9a43f90c3f8ca3f8903f8403fe093fe073fe033fdff3fdfd3fdfb3fdf53fdef3fded3fdf1))
  (.nd (.lf
  0x3723a372b83723e372ae37242372a437246372983724a372583724e3725238116383aa3811a383983811e383923812238388381263837e3803e383743804238366380463835e3804a383503804e38346382c23833e382c638336382ca3832a3826838322381e238318381e63830e381ea38306382ce382fe382d2382f0382d6382ea382da382e0382de3826e3826c38240381ee38238381f23822e381f638222)
  (.lf 0))) (.nd (.nd (.lf
  0x250282501e250142500a2500024ff624fec24fe224fd824fce24fc424fba24fb024fa624f9c24f9224f8824f7e24f7424f6a24f6024f5624f4c24f4224f38268d8268c4268ae26898268822686c26856268402682a26814267fe267e8267d2267bc267a6267902677a267642674e26738267222670c266f6266e0266ca266b42669e26688266722665c268d0268ba268a42688e26878268622684c2683626820)
  (.lf
  0x7453074510744d0742107413074110740d073e1073d3073d1073cd073a107393073910738d0736107353073510734d0732107313073110730d072e1072d3072d1072cd0729d0728f0728d0728907257072490724707243072110720307201071fd071cb071bd071bb071b7071890717b07179071750714507137071350713107103070f5070f3070ef070bf070b1070af070ab0707d0706f0706d0706907039))
  (.nd (.lf
  0x28fd628da828fc428d9c28fbc28d9028f9c28d8228f9428d7428f3e28d6828f3228d5c28f2228d8628f1a28d4a28f0428e0028ed428d2428ec428d1228e8828e8428d2828cd028cc828cc028c9028c5428c6a2a18c2a19c2a1802a1742a16c2a1622a1542a14a2a1042a1442a0f82a1382a0f02a12c2a0e02a1222a0d42a1142a1102a0c22a0b62a0b02a0962a0a02a08c2a09a2a07a2a0642a0582a04e2a048)
  (.lf 0)))

def shaXorReads24 : BTree :=
  .nd (.nd (.nd (.lf
  0xd020df520de3d0d7a10d76f0d75800cf800cec0df480de410d7a50d7710d75a00ce200cd60df3e0de450d7a90d7730d75c00ccc00cc00df340de490d7ad0d75e0d72f00cb600caa0df2a0de4d0d7b10d7600d73300ca000c940df200de510d7b50d7620d73700c8a00c7e0df160de550d7b90d7640d73b00c7400c680df0c0de590d7bd0d7660d73d00c5e00c520df020de5d0d7c10d7680d73f00c4800c3c)
  (.lf
  0x5a4a0550105a0405505059be05509059780550d0593205511058ec05515058aa055190586a0551d0582a05521057ea05525057aa05529057660552d0572405531056e0055350569e055390565a0553d0561805541055d8055450559c055490554f06127069920612b0695a0612f0691606133068d406137068900613b0684e0613f0680a06143067c406147067820614b067420614f0670206153066be06157))
  (.nd (.lf
  0x3da383d9b83d9f43e6483e6283e78e3e7623e7503ec463e6f83e6f03e6b83e6a63e6763e6463e7d63e7923e77a3e7543ec523e7a43e6e83e6bc3e6a23e6803e7883e75a3e7443ec4a3e6fc3e6e03e7ae3e6903e66c3e6383f4fe3f66a3f6443f6203f6523f5a03f5883f5d83f6923f55a3f5243f5503f5003f65e3f6323f6023f5b03f5f43f5d43f6823f5443f52c3f6403f6263f6623f5ac3f5823f5e63f684)
  (.lf
  0x3a5933a58f3a58d3a58b3a5893a5853a5833a5813a57f3a57b3a5793a5773a5753a4513a44d3a4373a4353a4313a42f3a42d3a42b3a4273a4253a4233a4213a4193a4173a4153a4133a40f3a40d3a40b3a41d3a4093a4053a3c33a3c73a3c13a3bd3a3b73a2f23a2f43a2e03a2d83a2cc3a2c63a2b83a2ae3a2a43a29a3a2903a2883a27c3a2783a2683a25e3a2523a2623a2463a2f63a22e3a1f03a1f43a1be)))
  (.nd (.nd (.lf
  0xc7b50c7350bcfd0b2e50b2550b23e0b1840b17e1100e10f0c0c7b70c7370bcff0b2690b2570b2400b1720b16c1100210f0a0c7b90c7390bd010b26d0b2590b2420b1600b15a10ff610efe0c7bb0c73b0bd030b2710b25b0b2440b14e0b14810fea10f000c7bd0c73d0bd050b2750b25d0b2460b13c0b13610fde10f020c7bf0c73f0bd070b2790b25f0b2480b1080b09c10fd210ef40c7c10c7410bd090b27d)
  (.lf
  0x335293352533523335213351f3351b335193351733515335113350f3350d3350b33507335053350333501334fd334fb334f9334f7334f1334ef334ed334f3334eb334e733463334613345d3345b3342d3342f3342b334273342533fd233fc633fd633fb634316342fa3431c342f43430033f8033f7433f6833f5e33f52341203411a33f363422a341e833f1c33f123412433d5633ab833aae33aa233a9833a8e))
  (.nd (.lf
  0x35ff635fe435fbd35fde35fab35f5935f2835f1535eea35ed135ea035e8335e4c35e4535df635ded35c5635c5937763379dc3775f379d63774d379b6377693798e3773937986377293796e3771d379503771137926377013791e376ef378f237703378e8376f3378d437705378ce376f1378b8376b7378ae376b1378783769f378703768f3785e37687378563767f37842376713782c376653781c3765b3780a)
  (.lf 0)))

def shaXorReads25 : BTree :=
  .nd (.nd (.nd (.lf
  0x2ba132b9e72b9dc2b4862f5912f5802d54f2c6cd2ba172b9e92b9de2b4882f6a72f5782d50b2c6b52ba1b2b9eb2b9e02b48a2f5d72f5722d4f12c6b72ba1f2b9e22b9ad2b3d22f5d12f5682d4cb2c6b92ba232b9e42b9af2b3b02f55d2f4122d4252c68b2ba272b9e62b9b12b3282f5292f3f62d40d2c67b2ba2b2b9e82b9b32b32a2f3f92f3da2d3fd2c6672ba2f2b9ea2b9b52b32c2f3d42f39d2d3f12c655)
  (.lf
  0x1ad371ad351ad311ad2f1acf51acf31acef1aced1acb31acb11acad1acab1ac771b5ca1b5b01b5a81b5801b5761b56a1b5601b5561b5481b51e1b5201b50a1b5001b4f61b4ec1b4d61b4ce1b4aa1b49a1b4901b4861b4781b4481b4401b4381b42a1b4221b4161b4061b3ec1acb41b5cb1b5c91b5c51b5bf1b5b11b5af1b5ab1b5a91b5a71b5a51b5a11b5811b57f1b57d1b5791b5771b5751b5731b56f1b56d))
  (.nd (.lf
  0x16d7916cf116ce8156461562c255ec2547d242db242862425d1bd521bbdd16d7d16cf516cec1560a155f2255d625481242df242882425f1bd3c1bbe116d8116cf916cf0155d0155b6255c025485242e32428a242611bd261bbe516d8516cfd16cf4155941557c255aa25489242e72428c242631bd101bbe916d8916d0116cf81555a15540255942548d242eb2428e242651bcfa1bbed16d8d16d0516cfc15520)
  (.lf
  0x17dcb17dc717d9917d8b17d8917d8517d5717d511946219432193f8193bc193841934e19318192e0192a41926419224191e4191a41916419122190dc1909a1905a1901618fd418f9418f5018f0a18ec418e7e18e3818df618db618d7a18d4018d0619463194611945d1945b19433194311942d1942b193f9193f7193f3193f1193bd193bb193b7193b519385193831937f1937d1934f1934d193491934719319)))
  (.nd (.nd (.lf
  0x2494b24949249452493b249332492f24925249212491b24865248632485f246ff246f3246ef246af246ab2469d24bea24bdc24bd024bc924bc124bc824bbe24bb224ba724b9f24ba624b9d24b9524b9c24b9224b0624af724ad924af624a8e24a8324a7f24a8224a7a2496d249692496c249672496324966249612495d249602495b249552495a249512494d249502494a249412493d249402493a2492d24927)
  (.lf
  0x16a1116a0f16a0d16a0916a0716a0516a03169ff169fd169fb169f9169f5169f3169f1169ef169eb169e9169e7169e5169e1169df169dd169db169d7169d5169d3169d1169cd169cb169c9169c7169c3169c1169bf169bd169b9169b7168dd17c8a17c8017c7617c6c17c6217c5817c4e17c4417c3a17c3017c2617c1c17c1217c0817bfe17bf417bea17be017bd617bcc17bc217bb817bae17ba417b9a17b90))
  (.nd (.lf
  0x15e5c15a8e15a4d154ba15e5215a8215a4f1548015e4815a5115a461544415e3e15a4b15a0e1540815e3615a3115a02153d015a5c159fa153971539415a52159f21535915356153211531c1531615314159d6152ef164ab1646616928167561651c164cd1691e1674c164c51646416912167421651a164c71690816738164ea164cb168e81672e16540164c9168e01672416538164b51686a1671c1653a164af)
  (.lf 0)))

def shaXorReads26 : BTree :=
  .nd (.nd (.nd (.lf
  0x3b32b3b3113b3083b2ae3c5953bb593b7393b3c03b3133b3013b2fc3b2f63c5733bbd13bad33b6bf3b30a3b2513b2483b2463c4e73bb153b9e13b68f3b30c3b1f23b1f13b1ee3c4b93ba593b9793b6253b30e3b1b23b1953b1903c3ff3b9af3b8b73b5fd3b3103b1ac3b1a83b1a33c3e13b8fb3b80f3b5b73b312399b537e883df993d2593c4853c4813c4793c4763c4743df6b3d20b3c4583c3a93c3973c392)
  (.lf
  0x3b3573b3553b3513b3473b3453b3433b33f3b3233b3213b3313b31f3b2ed3b23d3b23b3b2373b2233b21b3b2073b2053b2013b1df3b1dd3b1d93b1cf3b1cd3b1cb3b1bf3b1813aef33bbc63bb0c3ba503b9a23b8f03b8663b7d83b7583b72c3b6a63b6803b6163b5ee3b5aa3b56a3b5123b4da3b49a3b45e3b41a3b3d83b3b83b2da3b2ca3b2b83b2a83b2f43b2403b1ec3b1883b1a03bbc73bb0d3bb053bb01))
  (.nd (.lf
  0x39e83398af3989831bd52c5bd2c5b82c0d43a2fb39e0939ded39dd632baf2d7f12d7d72d7d22d6d63a5643a2ff39e0d39def39dd832f2832b932d7f52d7d92d7d42d7b62d6d03a5583a30339e1139df139dda32f1e32b772d7f92d7db2d7d62d7ae2d6c23a54a3a34139e1539df339ddc32f1232b532d7fd2d7dd2d7d82d7a42d6da3a5423a34539e1939df539dde32f0632b2b2d8012d7df2d7da2d7982d6de)
  (.lf
  0x2ad112ad0d2ad0b2acfd2acfb2acf72acf52ace72ace52ace12acdf2acd12accf2accb2acc92acbb2acb92acb52acb32aca52aca32ac9f2ac9d2ac972abd42abca2abc02abb62abac2aba22ab982ab8e2ab842ab7a2ab702ab662ab5c2ab522ab482ab3e2ab342ab2a2ab202ab162ab0c2ab022aaf82aaee2aae42aada2aad02aac62aabc2aab22aaa82abd52abd32abcf2abcd2abcb2abc92abc52abc32abc1)))
  (.nd (.nd (.lf
  0x2a3242a2f82a2e42a2c42a2a62a27c2a2602a2442a22a2a2082a1ee2a1ce2a1ba29fa629f1629ef629e7429e6c29e422b8b22b80a2b7f82b79c2b72a2b6e82b68e2b6382b5fc2b5f22b5d62b5bc2b5aa2b5182b4e42b4c82b4c02b4b82b4a22b4902b3c62b3a82b37c2b36a2b3482b33e2b3342b2822affc2afb62b8962b88c2b8842b76c2b71e2b6d42b69e2b6502b5a22b5982b58e2b5842b5342b5042b456)
  (.lf
  0x253b3253c9253b1253ad253ab253a9253a5253a3253a12539f2539d253952539325399253912538d2538b2539b253892538525383253812537d2537b253792537725373253712536f2536d25369253672536525363253612535d2535b253592535525353253512534f2534d253492534725345253412533f2533d2533b253372533525333253312532d2532b253292532725323253212531f2531d2531925317))
  (.nd (.lf
  0x311ac312f4310c0312ec31058312e03100c312d8312d6312a03129e3125e3125a312103120e311bc31144311b8311b0310cc310c4310603105c310163101030f863244a3251e3240e32512324483250a32418324fe323f2324f6323b8324ea32386324e232350324d632384324ca321f8324c2320c8324b8320aa324b0320c6324a232440324963242232490323ea32486323c43247a3237c324743235632466)
  (.lf 0)))

def shaXorReads27 : BTree :=
  .nd (.nd (.nd (.lf
  0xc7e60c72612f5e12c4c1129d11245108130c8c70c8430c82c0c7e80c72812e6612ca61129f11247108150c8cb0c8450c82e0c7ea0c72a12e5c12cce112a111249108170c8cf0c8470c8300c7ec0c72c12e5412cc4112a31124b108190c8d30c8490c8320c7ee0c72e12e4812d04112a51124d1081b0c8d70c84b0c8340c7f00c73012e3612cfc112a71124f1081d0c8db0c84d0c8360c7f20c73212e2c12cfe)
  (.lf
  0x1e2201df201db201d7201d1c01cec01cac01c5601c1001be001b8a01b4401afe01ace01a7801a4801a08019c8019720194201902018ac0187c0183c017e6017b6017760173601ee901eb501eb101eaf01e7101e6f01e6b01e6901e2b01e2901e2501e2301de301df301de101ddd01da301db301da101d9d01d6301d7301d6101d5d01d2501d2301d1f01d1d01cdd01ced01cdb01cd701c9d01cad01c9b01c97))
  (.nd (.lf
  0x289d2289c8289bc289b2289a62899c2899028986289822898029dae29d9a29d8e29d8429d7829d6e29d6229d5829d4c29d4229d3629d2c29d2029d1629d0a29d0029cf429cea29cde29cd429cc829cbe29cb229ca829c9c29c9229c8629c7c29c7029c6629c5a29c5029c4429c3a29c2e29c2429c1829c0e29c0229bf829bec29be229bd629bcc29bc029bb629baa29ba029b9429b8a29b7e29b7429b6829b5e)
  (.lf 0))) (.nd (.nd (.lf
  0x3a5fe3a5ec3a5e23a5d43a5c63a5a63a59c3a5923a5883a57e3a5743a4343a42a3a4203a4123a4083a3c03a2f03a2e83a2de3a2d43a2ca3a2c03a2b63a2ac3a2a23a2983a28e3a2843a27a3a2703a2663a25a3a2503a2483a23e3a2363a22c3a1ee3a1c23a19c3a1923a18a3a1803a1763a16e3a1643ab6e3ab663ab203ab163aad63aac83aac03aab63aaa83aa9e3aa923aa863aa763aa643aa4e3aa383aa22)
  (.lf
  0x90fb090f7090f5090f3090f1090ed090eb090e9090e7090e3090e1090df090dd090d9090d7090d5090d3090cf090cd090cb090c9090c5090c3090c1090bf090bb090b9090b7090b5090b1090af090ad090ab090a7090a5090a3090a10909d0909b090990909709093090910908f0908d090890908709085090830907f0907d0907b090790907509073090710a4700a44e0a4220a3f40a3ca0a3a20a3760a350))
  (.nd (.lf
  0x8a8308a7608a4108a3408a01089f4089c1089b408981089740893d08930088fb088ee088b7088aa08871088640882f08822087eb087de087a5087980875f08752087190870c086dd086d8086c509b0d09ad109ac409a8f09a8209a4b09a3e09a09099fc099c5099b809983099760993f09932098fd098f0098bd098b00987d098700983d09830097f9097ec097b3097a609771097640973109724096f1096e4)
  (.lf 0)))

def shaXorReads28 : BTree :=
  .nd (.nd (.nd (.lf
  0x3b4d63b4d43e8a23e3e43ce353ce2f3c99b3b8593b7b43b4b23b4ae3b4ad3e8983e35e3ce233ce1f3c97d3b7bb3b7743b4823b4813b47e3e8923e3083ce0f3ce093caa93b7953b6f83b4413b43c3b4383e8703e2e63cd553cd4f3c0cf3b7173b6d83b40a3b4093b3fa3e86a3e2b83cd3b3cd333c0153bd713b6dd3b66c3b3ac3b3a63e83a3e2a43cd453cd413bff93bb993b67b3b6343b3623b3603e81e3e2be)
  (.lf
  0x41fc03c16041ba03c1a0417603c1e0413403c22040f003c26040aa03c2a0406803c2e0402403c3203fde03c3603f9c03c3a03f5c03c3e03f1c03c4203edc03c4603e9803c4a03e5603c4e03e1603c5203dd203c5603d9003c5a03d4c03c5e03d0603c6203cc403c6603c6c0485e050c2048620508604866050440486a050000486e04fba0487204f780487604f380487a04ef40487e04eae0488204e6804886))
  (.nd (.lf
  0xf1200f1400f1600f1800f1a00f1c00f1e00f2000f2200f2400f2600f2800f2a01ff201ff401ff601ff801ffa01ffc01ffe02000020020200402006020080200a0200c0200e02010020120201402016020180201a0201c0201e02020020220202402026020280202a0202c0202e020300140c0140e01410014120141401416014180141a0141c0141e01420014220142401426014280142a0142c0142e01430)
  (.lf
  0x34c3934c2b34c2734c2534dc734c2334c1d34c1734c1534c1134c0f34c0d34c1b34c0b34c0734c0534c0334ba734b7534b7334f5d34b7134b6d34af334af934af134aed34adf34afd34add34ad934ad7341143410e34100340f8340ee340e4340d8340ce340ca340bc340aa340a0340b034090340863407a340b2340ae340603405a3404c340443403e3402e340263401a34010340063400233ff433fea34115)))
  (.nd (.nd (.lf
  0x4102040c602c1102b910204d01499014810146a013a601366040bc0407e02c1302b930204f0149d014830146c013a8013680408c0404002c1502b9502051014a1014850146e013aa0136a0403603ffa02c1702b9702053014a50148701470013ac0136c03ff003fb202c1902b9902055014a90148901472013ae0136e03fc003f7202c1b02b9b02057014ad0148b01474013b00137003f8003f3202c1d02b9d)
  (.lf
  0x2c2552c2532c24f2c2432c2352c2332c22f2c2232c2072c2092c2052c1ff2c1f32c1f12c1ed2c1dd2c1cf2c1cd2c1ad2c1a72c19b2c1992c1792c1752c1692c1672c1632c13b2c1292c5812c56f2c56b2c5652c5572c54f2c54d2c52b2c5252c5212c51b2c5172c5132c4992c4952c48f2c44b2c4472c43f2c4312c42d2c4292c3f92c3f52c3f12c3e12c3dd2c3d92c3b92c3b52c3b12c1e72c1e32c1e12c1b9))
  (.nd (.lf
  0x336fd337703339b3376a336e93375a336c53374d337363372c33699337223367933718336573370c3363d33733333a6333a9333783337b347e7349de3479f349d0347f1349c4347a7349be346c1349b034667349aa346233499e345d734994345bb3487a3454534870345093486a344f13485e3447f348523482d3484c347933483e346d1348363466b3482e346313481a345db34812345ef3480a3453734800)
  (.lf 0)))

def shaXorReads29 : BTree :=
  .nd (.nd (.nd (.lf
  0x1a41e1a4001f1a61beeb1bee71b3b51a8711a8671a8641a8621a85c1fe861d7ed1d7e91c8371b8391b8111b8081b8001b7e4200101fe4a1d7ad1d7a91c7f51b83d1b8131b80a1b8021b7e6200061fe201d66d1d6551c7bd1b8411b8151b80c1b8041b7e81fffc1fe021d66f1d6571c7751b8451b8171b80e1b8061b7ea1ffee1fde01d6711d6591c7391b7a91b7711b7641b7621b75c1ffe21fdc81d6731d65b)
  (.lf
  0xb9930b9910b98d0b98b0b9890c7200c71c0c70e0c7000c6f40c6f00c6f60c6d80c70a0c6c40c6ba0c6ae0c6b00c69e0c6920c6c60c67e0c6740c6680c66a0c6560c64e0c6800c6380c62e0c6240c6200c6100c6060c63a0c5f20c7210c71f0c71d0c7190c7170c7150c7110c70f0c70d0c7090c7050c7030c7010c6ff0c6fb0c6f90c6f50c6f30c6f10c6ed0c6eb0c6f70c6e90c6e50c6e30c6e10c6dd0c6db))
  (.nd (.lf
  0x3997f39996399513998c39945399853a09d3a1fc3a0933a1d439fe93a1c839fed3a1ae39fd33a1a439fcb3a11039fbb3a10439fa93a0fc39f9f3a0f439f913a0e839faf3a0de39ff53a0d439f713a0ce39f673a0c439f7f3a0b039f533a06a39f473a06039f393a09f3a0503a04039f253a03a39f193a03239f0b3a0813a0203a01839ef73a00c39ee93a00439ff139ffa39edf39ee139eda3a07339eb239ea0)
  (.lf
  0xce9c0ce920ce880ce7e0ce740ce6a0ce600ce560ce4c0ce420ce380ce2e0ce240ce1a0ce100ce060cdfc0cdf20cde80cdde0cdd40cdca0cdc00cdb60cdac0cda20cd980cd8e0cd840cd7a0cd700ce9d0ce9b0ce970ce950ce930ce910ce8d0ce8b0ce890ce870ce830ce810ce7f0ce7d0ce790ce770ce750ce730ce6f0ce6d0ce6b0ce690ce650ce630ce610ce5f0ce5b0ce590ce570ce550ce510ce4f0ce4d)))
  (.nd (.nd (.lf
  0x1204c1200411fbc11f7411f2d11f2911f2c11ee911ee511ee811ea511ea111ea411e6111e5d11e6011e1d11e1911e1c11dd811d8e11d4511d4111d4411d0111cfd11d0011cbc11c7211c2811bdf11bdb11bde11b9a11b5211b0a11abf11abb11abe11a7511a7111a7411a2911a2511a28119d8114e4114da114d0114c6114bc114b2114a81149e114941148a11480114761146c11462114581144e114441143a)
  (.lf
  0x11d5511d5111d3b11d1111d0f11d0b11cf711ccd11ccb11cc711caf11c8511c8311c7f11c6511c3b11c3911c3511c1b11bf111bef11beb11bd511bab11ba911ba511b8d11b6511b6311b5f11b4511b1d11b1b11b1711afd11ad111acf11acb11ab511a8511a8311a7f11a6b11a3911a3711a3311a1f119e9119e7119e3119cb1198f1198d11989119791195b121e0121a4121601211c120d41208a1204211ffa))
  (.nd (.lf
  0x160f4160d2160d7160d31744a17412173da1739c1735e17326172ee172b8172821724a1720c171d017194171581711c170e6170b0170741703e1700016fc816f9216f5c16f2016eea16eae16e7816e3416df416df916df5184ba184841844818412183d61839e1835e1831e182de1829e1825818212181d218192181521810c180c618080180401800017fc017f7a17f3417ef417eb417e6e17e2817de817da6)
  (.lf 0)))

def shaXorReads30 : BTree :=
  .nd (.nd (.nd (.lf
  0x29e3529e3128cb1286e5286532859c27b2c27b262c0ea29e1729e1328c7b2867b2863b2859e27ae627ae02db822b8bb2b8b72a8bb293cd293bf293ba293b8293b22db8e2db842b8132b80f2a899293d1293c1293bc293a6293a02db862db542b8012b7fd2a877293952938b29388293822937c2db302dae42b8412b83d2a85d293632935b2935829356293502daf22dade2b7772b7732a7f7292d7292cf292cc)
  (.lf
  0x294ed294eb294e7294e5294e3294e1294dd294d5294d3294d128e7b28e7528ce728ce528ce128cdf28c9d28c9f28c9928c9528c712a8b22a88e2a86e2a84e2a7ee2a8d02a7c62a7a42a8062a7802a7682a74e2a7382a7182a7082a6f22a6e02a6ca2a6b62a6a42a68e2a6722a67c2a6582a6462a72629f2229f3629ea829e9029e2e2a8b32a8b12a89d2a89b2a88f2a88d2a8892a86f2a86d2a86b2a8532a851))
  (.nd (.lf
  0x263fa2638d2241f2241620e0820ab2316ec315c330445303e2303b9263f026391224212241a20e0220d00316dc315c730449303bb3039e263e626395224232241e20dec20d08316d2315cb3044d303bd303a2263dc26399224252242020de620d1c316c6315cf30451303bf303a6263d22639d224272242220dbc20d1e316ba315d330455303c1303aa263c8263a1224292242420d8420d40315fa315d7303c3)
  (.lf
  0x1e26d1e2691e2671e2591e2571e2531e2511e2431e2411e23d1e23b1e22d1e22b1e2271e2251e21f225d0225c6225bc225b2225a82259e225942258a22580225762256c22562225582254e225442253a22530225262251c2251222508224fe224f4224ea224e0224d6224cc224c2224b8224ae224a4225d1225cf225cb225c9225c7225c5225c1225bf225bd225bb225b7225b5225b3225b1225ad225ab225a9)))
  (.nd (.nd (.lf
  0x3c0d93c0d53c08d3c08b3bf6b3bf673bf633bf793bf553bf513bf4d3bc113bc0f3bb793bb753bb3f3b9f13b9ed3b9d13c3583c34e3c33a3c3273c2fb3c3263c2f83c2cd3c2bf3c2cc3c2bd3c13b3c2bc3c1383c12b3c1233c12a3c1213c1193c1203c1173c10f3c1163c10c3c0fe3c0f03c0e23c0d43c0873c0833c0863c0813c0793c0803c0773c0613c0763c05f3c0433c05e3bf753bf6d3bf743bf6a3bf5f)
  (.lf
  0x1eee11eedf1f1841f1861f1741f1661f15c1f1881f14a1f13e1f14c1f1301f1201f1141f10a1f1021f0f41f1041f0e41f0d81f0cc1f0c21f0bc1f0ae1f0ac1f0981f0901f0821f19e1f0701f19a1f0601f18c1f1851f1871f1831f17f1f17d1f17b1f1771f1751f1731f1711f16d1f16b1f1671f1651f1611f15f1f15d1f1891f15b1f1571f1551f1531f14f1f14b1f1491f1471f1431f1411f13f1f14d1f13d))
  (.nd (.lf
  0x3b3503b33c3b2c43b2713b33e3b2b23b2773b2743b2f33b2f03b2ec3b2a23b23f3b22a3b2223b2183b2003b1eb3b1e83b1e63b1ce3b18a3b1793b1763b19f3b1923b1823b18037e8337e783c46d3c3623cbb83c3853c35e3c35c3cbb23c4173c3443c3423cb963c3673c3303c32e3cb903c31e3c3163c2fd3cb303c2ee3c2d73c2d43cae23c39b3c2c23c2c03cab63c2963c1413c13c3ca6e3c26e3c1323c131)
  (.lf 0)))

def shaXorReads31 : BTree :=
  .nd (.nd (.nd (.lf
  0xcb130caf70caec0caa01163f105730dae90dad00cb170caf90caee0caa211641105370dac70daae0cb1b0cafb0caf00caa411643105390daa50da8c0cb1f0cafd0caf20caa6116451053b0da830da6a0cb230caff0caf40caa8116471053d0da610da480cb270cb010caf60caaa116491053f0da3f0da260cb2b0cb030caf80caac1164b105410da1d0da040cb2f0cb050cafa0caae1164d105430d9fb0d9e2)
  (.lf
  0x3ccaa3cca03cc7e3cc763cc643cbc63cb9e3cb723cb6a3cafc3cabc3ca7c3cdb13cdaf3cdab3cda93cda53cda33cd9f3cd9d3cd993cd973cd933cd913cd8f3cd8d3cd893cd873cd833cf5d3cd813cd7d3cd7b3cd793cd753cd733cd713cd6f3cd6b3cd693cd653cdb93cd633cd5f3cd5d3cd5b3cd573cd213cd1d3cd1b3cd173cd153cd113cdbf3cd0f3cd0b3cd093cd073cd033cd013ccff3ccfd3ccf93ccf3))
  (.nd (.lf
  0xfb1e0fb080fabe0faa80fa600fa4a0fa060f9f00f9aa0f9940f9480f9320f8ee0f8e616ce61746616cea1743416cee173fc16cf2173c016cf61738216cfa1734816cfe1731016d02172d816d06172a216d0a1726c16d3a1723016d3e171f216d42171b616d461717a16d4a1713e16d4e1710616d52170d016d561709616d5a1705e16d5e1702416d6216fea16d6616fb216d6a16f7c16d6e16f4216d7216f0a)
  (.lf 0))) (.nd (.nd (.lf
  0x41108410a4410ac103f6103a410342102e61028a1022c101ce1017410114100b81005c0fffe0ff9c0ff400fee00fe800fe220fdc40fd620fd060fca60fc4a0fbee0fb900fb2e0face0fa700fa160f9ba0f958103ee1039a10338102dc1028010222101c41016a1010a100ae100520fff40ff920ff360fed60fe760fe180fdba0fd580fcfc0fc9c0fc400fbe40fb860fb240fac40fa660fa0c0f9b00f94e0ce9a)
  (.lf
  0x194b0194f01949019450190b0190f0190901905018cd018cb018c7018c50188501889018830187f0184501849018430183f018070180501801017ff017bf017c3017bd017b90177f017830177d017790173f017430173d0173901715050ce05092050500500c04fc604f8404f4404f0004eba04e7404e2e04de804da604d6604d2604ce204ca004c6004c2004bdc04b9a04b5a04b1a04ad604a9004a4a04a04))
  (.nd (.lf
  0x728807254072420720e071fc071c8071b60718607174071420713007100070ee070bc070aa0707a07068070360702406ff406fe206fb006f9e06f6e06f5c06f2e06f1c06eea06ed806eae06e9c06e7406e6206e3a06e220823e0822e08206081f4081c6081b40818208170081400812e08100080ee080bc080aa0807a08068080360802407ff407fe207fb407fa207f7407f6207f3407f2207ef407ee207eb0)
  (.lf 0)))

def shaXorReads32 : BTree :=
  .nd (.nd (.nd (.lf
  0xf67c0f62d0f43e0f3450f1650f12f0f1180dd540dc5b08b7208b300f6b90f67e0f6310f4340f3490f1690f11a0f0eb0dd4a0dc5f08b3208af20f6bd0f6350f62c0f42a0f34d0f16d0f11c0f0ef0dd400dc6308ae808aac0f6c10f6390f6300f4200f3510f1710f11e0f0f30dd360dc6708aa208a640f6c50f63d0f6340f4160f3550f1750f1200f0f70dd2c0dc6b08a6608a240f6c90f6410f6380f40c0f359)
  (.lf
  0x2f0682ecf12f05c2ec992f0522ec812f0482ec852f03f2eff62efed2efb62efad2ef2a2ef222ef132ef172ee422ee382ee312ee3b3016f30274301453026a30061302603006530256300693024c3006d3024230179302383014f3022e3008f30220300933021a300973020a3017d3020230161301fa300bd301f0300bf301e6300bb301dc300a1301d2300a5301c830023301be2fee7301b42feeb301aa2feef))
  (.nd (.lf
  0xc08e0c0920c0960cb120cb160cb1a0cb1e0cb220cb260cb2a0cb2e0cb320cb360cb3a0cb3e0cb420cb460cb4a0cb4e0cb520cb560cb5a0cb5e0cb620cb660cb6a0cb6e0cb720cb760cb7a0cb7e0cb820cb860cb8a0cb8e10a7010a7410a7810a7c10a8010a8410a8810a8c10a9010a9410a9810a9c10aa010aa410aa810aac10ab010ab410ab810abc10ac010ac410ac810acc10ad010ad410ad810adc10ae0)
  (.lf
  0x2ae802aa202a6002a1c029da02996029500290a028c8028880284802808027c80278802744026fe026b8026720262c025ea025a6025600251a024d402492024520240e023c80238202b6502b5702b5302b2d02b1f02b1d02b1902ae902adb02ad902ad502aa302a9502a9302a8f02a6102a5302a5102a4d02a1d02a0f02a0d02a09029db029cd029cb029c7029970298902987029830295102943029410293d)))
  (.nd (.nd (.lf
  0x9e5b0922b086bd0862308618085cc080e0080dd09e5d0922d08641086250861a085ce080a10809809e5f0922f08645086270861c085d00805a0805709e610923108649086290861e085d20801b0801209e63092330864d0862b08620085d407fdb07fd209e6509235086510862d08622085d607f9b07f9209e6709237086550862f08624085d807f5b07f5209e6909239086590863108626085da07f1b07f12)
  (.lf
  0x38468384723845438448384403843038428384183840c38402383f4383ec383de383e8383c4383ba38032380343801a3801e3800637fc437f9637f8a37f2837ecc37f6c37e96384913848f3848b3848938485384833847f3847b38479384773846f3846d38469384733846738463384613845f3845b3845738455384533844f3844d3844938447384413843f3843d3843b3843738435384313842f3842938427))
  (.nd (.lf
  0x2f2362f5002f23a2f4f82f23e2f4ea2f27c2f4e22f2802f4d82f2842f4ce2f2882f4c42f28c2f4ba2f2902f4b02f2942f4a22f2982f4982f29c2f48e2f2a02f4862f2a42f47a2f2a82f4722f2ac2f46c2f2b02f45c2f2b42f4562f2b82f44a2f2bc2f4422f2c02f4342f2c42f42e2f2c82f4222f2cc2f4142f2d02f3e22f2d42f3dc2f2d82f3362f2dc2f3282f2e02f31c2f2e42f2f42f2e82f2ee303a030730)
  (.lf 0)))

def shaXorReads33 : BTree :=
  .nd (.nd (.nd (.lf
  0x23d5623d3e28368281de25fb325faf24d3b23d9323d6923d6023d5823d402835e281ca25f9925f9524c6523d9723d6b23d6223d5a23d422834c281d025f7325f6f24c9523d9923d6d23d6423d5c23d44282fe281b825ef525ef124c6723d1323d0923d0623d0423cfe282e6281aa25e3725e3324c2d23cf323ce923ce623ce423cde282c4281d625d8125d7d24c1523cc923cb523cb023c4823c30282ba2819c)
  (.lf
  0x237d9237d7237d3237d1237cf237cd237c9237c7237c5237c3237bf237bd237bb237b9237b5235ad235872358b235852358123561235632355f2355b2353f2353d2353923521234db234d5234d1234cf234cd234cb234c7234c52333324cfe24cf824cce24cb824d3224c5424c8c24c4a24c2424c0424b0a24ae624ab624ac024a9824a2624a1a24a40249f2249f4249d8249be249b4249a62498e248ca24872))
  (.nd (.lf
  0x2d08a2cf912be032bdae2bd851e80a1e69b1db6d1dae51dadc1c2b41beca2d0842cf952be072bdb02bd871e7f41e69f1db711dae91dae01c2641bf042d0722cf992be0b2bdb22bd891e7de1e6a31db751daed1dae41c2181becc2d06a2cf9d2be0f2bdb42bd8b1e7c81e6a71db791daf11dae81c2121bf022d05c2cfa12be132bdb62bd8d1e7b21e6ab1db7d1daf51daec1c18c1bece2d0522cfa52be172bdb8)
  (.lf
  0x1ebc11ebbd1ebbb1eb9f1eb9d1eb991eb971eb7b1eb791eb751eb731eb591eb571eb531eb511eb351eb331eb2f1eb2d1eb111eb0f1eb0b1eb091eaef1eaed1eae91eae71eacd1eacb1eac71eac51eaa91eec01eea01ee7e1ee5a1ee381ee161edf41edd21edb01ed8e1ed6c1ed4a1ed281ed061ece41ecc21ec9e1ec7a1ec561ec321ec0e1ebea1ebc61eba21eb7e1eb5c1eb381eb141eaf21ead01eaac1eec1)))
  (.nd (.nd (.lf
  0x320393203c3202d3200b3202c3200831fe631fd931fb731fd831e8a31dd831dd031dc531dc131dc431dbe31d4031d1f31d1331d1e31d1031cf231b2931b2331b2831b1f31b1b31b1e31b1931b1331b1831b1131a0131b103189531891318943186a3151c315143150a31500314f4314ea314e0314d8314ce314c2314b8314b0314a43149a314923148a3147e314763146e312f0312e6312dc312a43126231214)
  (.lf
  0x1baa81bae01ba981ba921ba841ba7a1ba6e1ba641ba5c1ba501ba4a1ba3c1bb691bb671bb631bb611bb5f1bb5d1bb591bb551bb531bb571bb511bb4d1bb4b1bb491bb451bb431bb411bb3f1bb3b1bb391bb371bb351bb311bb2f1bb2d1bb2b1bb271bb251bb231bb211bb1d1bb191bb171bb1b1bb151bb111bb0f1bb0d1bb091bb071bb051bb031baff1bafd1bafb1baf91baf51baf31baf11baef1baeb1bae9))
  (.nd (.lf
  0x2b5b62b5a62b5802b57d2b53c2b5382b5302b52d2b5142b5082b5002b4fd2b4cc2b4522b4142b4132b4c22b4482b4082b4072b4ba2b43e2b41b2b4182b4ae2b4342b3f62b3f52b4942b42a2b3e82b3e72b48c2b45a2b4202b41d2b3d02b3c32b3c02b3b42b3a42b3982b3902b38d2b3762b2d42b2cc2b2c92b34c2b2bc2b2b22b2a52b3422b2ba2b2a82b2a32b33a2b2662b25e2b25b2b2862b1f62b1982b195)
  (.lf 0)))

def shaXorReads34 : BTree :=
  .nd (.nd (.nd (.lf
  0x353593535533d83336bb332b2332a332f7832f72377a43764e3526b3526733d0b33743336e13333432f6e32f683779e3776a352773527333ce5336c13368d3360e32f5632f50377803763c350c7350c333b9b337493366b3320c32fe632fe03776e3717e34fe534fe133b5f336933364d331d23295632950371803716c34ff934ff533b313367133631331ac328f6328f03715c3714c34f9734f9333b0f336f5)
  (.lf
  0x41d7341d7141d6d41d6b41d6941d6741c5b41c5941c1741c1941c1341c0f41bf141bef41beb41be941bcd41bdb41bcb41bc741bab41ba941ba341ba14198d4198b419874198541983419914196d419694193741935419314192f4192d4195d4192b4192741925419234191f4191d4150f4150d41505414ff4125341255412514124d411c3419524199241954418c2418b6418ae4193a41512412204122a4120e))
  (.nd (.lf
  0x3749437239370753706c3705a39d2239c69374823723d37079370703704439d1439c6d3747a372413707d370743704239d0e39c71374743724537081370783703639d0639c753745e37249370853707c3702039cf839c79374543724d37089370803701239cf039c7d37444372513708436f1736f1439ce639c813743e3708836f0336ef839cde39c973740e36f1636ee936ee639cd439c873740236f0236ecf)
  (.lf
  0x3172b3172731725317213171f3171b317193171731715317113170d3170b31709316ff316fd316fb31703316f9316f5316f3316f1316ed316e9316e7316e5316e1316df316dd316db316d7316d3316cf316cd316c9316c7316c5316c3316bd316bb316b9316b7315fd315fb315f9315f7315f3315e5315e131b0a31afe31af231cb431ade31ad231aca31aba31aae31a9e31a9431a8a31a8031a7831a5e319ee)))
  (.nd (.nd (.lf
  0xd5aa0d5ae0d5b20d5b60d5ba0d5be0d5c20d5c60d5ca0d5ce0d5d20d5d60d5da0d5de0d5e20d5e60d5ea0d5ee0d5f20d5f60d5fa0d7740d7780d77c0d7800d7840d7880d78c0d7900d7940d7980d79c0d7a00d7a40d7a80d7ac0d7b00d7b40d7b80d7bc0d7c00d7c40d7c80d7cc0d7d00d7d40d7d80d7dc0d7e00d7e40de1a0de1e0de220de260de2a0de2e0de320de360de3a0de3e0de420de460de4a0de4e)
  (.lf
  0x297bd297bb297b7297b5297b3297b1297ad297ab297a9297a7297a3297a12979f2979d297992979729795297932978f297892978729785297812977f2977d2978d2977b297772973729735297312972f2972d2972b2972729725297212971f2971b297192971329717297112970d296892a18a2a17e2a1722a1602a1022a0f62a0ee2a0de2a0d22a1122a0c02a0942a08a2a0782a0622a04c2a03c29fee29fe6))
  (.nd (.lf
  0x1887218869188461883d1881a18811187ee187ed1976f19914197731990a19777199001977b198f61977f198ec19783198e219787198d81978b198ce1978f198c419793198ba19797198b01979b198a61979f1989c197a319892197a719888197ab1987e197af19874197b31986a197b719860197bb19856197bf1984c197c319842197c719838197cb1982e197cf19824197d31981a197d719810197db19806)
  (.lf 0)))

def shaXorReads35 : BTree :=
  .nd (.nd (.nd (.lf
  0x178e3169a91696f169641695a169541a7fc1a2e4188831887f1788716901168f7168f4168f2168ec1a7cc1a2a4188571885317867168cd168a71689e16894168761a7c41a2661882b1882717821168d1168a9168a016896168781a7ba1a228187ff187fb17823168d5168ab168a2168981687a1a7b41a1ee187dd187d91782516a1e168d7168ad1689a1687c1a7a81a1b2187c1187bd1782716a21168af168a4)
  (.lf
  0x7b9707ba707b9507b9107b5707b6707b5507b5107b1707b2707b1507b1107ad707ae707ad507ad107a9707aa707a9507a9107a7908ea808e7208e3608dee08dae08d7008d2808ce808ca808c6808c2a08be408b9c08b5c08b1c08ade08a9808a5008a10089d008990089520890a088cc088860883e08800087ba087740872e086f008ea908e7908e7508e7308e3f08e3d08e3908e3708df708df508df108def))
  (.nd (.lf
  0x228e1228ce228c9228b6228b12289e2289922886228812286e2286922856228512283e2283b2282822825228122280d227fa227f7227e4227e1227ce227cb227b8227b5227a22279f2278c227892277622773227602275d2274a2274722734227312271e2271b2270822705226f2226ef226dc226d9226c6226c3226b0226ad2269a22697226911e9711e95d1e9501e9471e93a1e9311e9241e91b1e90e1e905)
  (.lf 0))) (.nd (.nd (.lf
  0x948909afa09abb09a9309aba09a7a09a3509a0d09a34099f4099af09987099ae0996e099290990109928098e9098c1098e8098a909881098a809869098410986809828097e20979d097750979c0975d097350975c0971d096f50971c096dc09696096500960a095c40957f095570957e0953e094f8094b20946d094450946c0942d094050942c093ed093c5093ec093ad09385093ac0936c0919a0919009186)
  (.lf
  0xbe330be310be2d0be2b0be290be270be230be210be1f0be1d0be190be170be150be130be0f0be0d0be0b0be090be050be030be010bdff0bdfb0bdf90bdf70bdf50bdf10bdef0bded0ccc00ccb60ccac0cca20cc980cc8e0cc840cc7a0cc700cc660cc5c0cc520cc480cc3e0cc340cc2a0cc200cc160cc0c0cc020cbf80cbee0cbe40cbda0cbd00cbc60cbbc0cbb20cba80cb9e0cb940ccc10ccbf0ccbb0ccb9))
  (.nd (.lf
  0x33bae33aa533ade33ac933ae133ad033aca33a8533a4633a45339f833969339d9351cd3564c351cf35644351bb356393563635344351b135338351ad3532e3518d35322351813531a351773530c3516d35306351d3352f63516b352f035149352e235137352d43512d352ce3513d352be3513b352b835123352ae3511d352a43511f35298351213528a350dd35284350953527a350993523235231350a23509f)
  (.lf 0)))

def shaXorReads36 : BTree :=
  .nd (.nd (.nd (.lf
  0xe0d0066000613005f7005ec005220047141716416fe01f5500e0f0066200615005f9005ee005180046f41714416c401f5700e110066400617005fb005f00050e0046d416be416a001f5900e130066600619005fd005f2005040046b416984168801f5b00e15006680061b005ff005f4004fa004694168c4166601f5d00e170066a0061d005f6005c1004f000467416844159801f5f00e190066c0061f005f8)
  (.lf
  0x2c9282c88a2c91e2c88e2c9142c8922c90a2c8962c9002c75e2c8f82c7462c8ee2c89a2c8e22c89e2c8d82c8a22c8ca2c8a62c8c22c8aa2c8ba2c8ae2c8b22dbbc2dcfe2dbbe2dcf22db6e2dcea2db382dce02dafa2dcd62daee2dccc2dbc62dcc62dbae2dcb82db642dcae2db422dca42db062dc9c2dbb22dc922dbd02dc862db682dc7a2db4a2dc742db0a2dc662db0e2dc5a2dbd42dc4e2da882dc482da38))
  (.nd (.lf
  0x9062090660906a09c5e09c6209c6609c6a09c6e09c7209c7609c7a09c7e09c8209c8609c8a09c8e09c9209c9609c9a09c9e09ca209ca609caa09cae09cb209cb609cba09cbe09cc209cc609cca09cce09cd209cd609cda0a74e0a7360a8ee0a8c20a8940a8680a83c0a8100a7e40a7b80a78c0a76a0a7500a8f20a8c60a8980a86c0a8400a8140a7e80a7bc0a7900a8f60a8ca0a89c0a8700a8440a8180a7ec)
  (.lf
  0x393dd393d9393d7393d5393d3393cf393cd393cb393c9393c5393c1393bf393bd393b9393b5393b3393b1393793937739373393713936d3936b3936739365393613935f3935b39359393553934739345393433933f3933b3933939337393333932b39329393273931b3931739313393113930d392dd392d9392d7392d3392cd392cb392c9392ad392ab392a9396663964c3963c396263967a39608395f2395e0)))
  (.nd (.nd (.lf
  0x77330771c076d8076180a4980a1e208f4d08ecd0832f07751077350771e076da0761a0a1e40a1bc08f4f08ecf08331077550773707720076dc0761c0a4940a19008f5108ed108333077590773907722076de0761e0a1920a16a08f5308ed3083350775d0773b07724076e0076200a4900a14008f5508ed5083370776107726076fd076e2076220a1360a11208f5708ed7083390776507728076ff076e407624)
  (.lf
  0x309c330995309913098f3098d309893095b3095530959309533094f307673039a30390303863037c30372303683035e303543034a30340303363032e303223039c3030e3030c302fe30312302e8302e6302d6302ca302c23029a3011e30114301063010c2ffd22ff7a2ff303039b303993039530393303913038f3038b303893038730385303813037f3037d3037b303773037530373303713036d3036b30369))
  (.nd (.lf
  0x1acb21aca91ac761ac751c82d1c7e31c7ac1c7b31c7681c76b1c7561c72f1c70e1c6d31c6c81c69d1c6461c6491c5fc1c60f1c5ba1c5b71c5801c5931c55e1c5411c52e1c5211c4e61c4e91c4b41c4c71c46a1c4641c4491c4971c3e21c3b91c2a21c2951c22c1c22f1c1f01c2031c1a61c1a31c1661c1791c1201c1251c0da1c0ed1c0a01c0931c04c1c05f1c0121c0011bfe01bfd31bf981bf771bf541bf43)
  (.lf 0)))

def shaXorReads37 : BTree :=
  .nd (.nd (.nd (.lf
  0x28d9428c1d2726325b5d25275252452523a2511a28d7e28c312722925b3325279252472523c2518028d7828cf52722b25b092527d252492523e2511c28d6c28c25271fb25a91252812524b252402511e28d6028c3d271e325a4725285252422520d2512028d5428c33271d125a0725289252442520f2512228d4628c51271eb259cf2528d25246252112512428d3c28c4927239259992528f252482521325090)
  (.lf
  0x16565165631655f1655d1655b165591654d1654b1654916547165431653f164e9164e7164e3164e1164df164dd164d9164c3164bf164a9164a5164a31648b169ad1648916485164811675e167601674a16748167361672c16722167b6167501670816706166f4166ea166e0166d6166aa1669e1669a1668a1668016676166521662a166681665c1660c16604165f81661e16534164ee1675f167611675d16759))
  (.nd (.lf
  0x182ca17ce313687136591365411f4611f4311f3811f20209c3209912097a1828617ce71368b1365b1365611f0211eff11ef211edc209c7209932097c1824017ceb1368f1365d1365811ebe11ebb11eae11e98209cb209952097e181fe17cef136931365a1360b11e7a11e7711e6a11e54209cf2098020951181be17cf3136971365c1360f11e3611e3311e2611e10209d320982209551817e17cf71369b13613)
  (.lf
  0xe47b0e4770e4750e4730e4710e46d0e46b0e4690e4670e4630e4610e45f0e45d0e4590e4570e4550e4530e44f0e44d0e44b0e4490e4450e4430e441159c21598e159541591a158de158a21586a15834157fa157c215786157481570e156d61569e156661562a155f0155b41557a1553e15506154d0154961545a1541e153e6153ac1536e1533a152fa159c3159b5159b11598f159811597f1597b1595515947)))
  (.nd (.nd (.lf
  0x1d0721d05c1d7dd1d79b1d7dc1d5e91d5e51d5e81d5e31d5db1d5e21d5d11d5cd1d5d01d5ca1d5c21d5651d55d1d5641d55a1d4c81d4b11d4a31d4b01d4a11d48f1d4a01d48c1d4791d4671d4781d4641d4431d43f1d4421d43d1d3391d43c1d3221d2f41d2c71d2b51d2c61d2731d2651d2721d2631d2511d2621d24e1d2181d1ef1d1971d1ee1d07c1d06f1d0691d06e1d0661d05b1d0551d05a1d0531d043)
  (.lf
  0x1596d1596b159671595d15935159331592f15923158fb158f9158f5158e7158bf158bd158b9158ab15883158811587d158731584b15849158451583d15815158131580f15803157db157d9157d5157cb157a11579f1579b1578f15765157631575f1575115727157251572115717156ed156eb156e7156df156b5156b3156af156a71567d1567b156771566f15645156431563f15633156091560715603155f9))
  (.nd (.lf
  0x8be608be208bda08bd708ba708b9e08b9a08b9208b6708b5e08b5a08b5208b2708b1e08b1a08b1208ae008adc08ad408ad108a9a08a9608a8e08a8b08a5b08a5208a4e08a4608a1b08a1208a0e08a06089db089d2089ce089c60899b089920898e0898608954089500894808945089150890c0890808900088ce088ca088c2088bf08888088840887c0887908849088400883c0883408802087fe087f6087f3)
  (.lf 0)))

def shaXorReads38 : BTree :=
  .nd (.nd (.nd (.lf
  0x35f8935f4033cd932f9f3218d31d4e31c5331c4e35f3735efa33ba732f413222331d5031c5531c3835efd35eb433b6d3293b3219131ce631c5731c3a35eb735e9a33b3b328ad3226b3219531cd031cce35e7135e3233b03328953226d3219731c50317f235e2735dfe33a7b32885322953203531c523169a35de135c4c33a0b327df322273216531c543166e35c4f339f1327b53216731f4f31c563163a373fd)
  (.lf
  0x330e7330e5330e132ff932fe932f8932f8732f8332f8132f7f32f7b32f7132f6732f6532f6132f5f32f5d32f5b32f4f32f4d32f4b32fdf32f4932f45329593294f3292d32929328f9328ef328ed328e9328e7328e5328d7328d5328cb328db328c9328c5328c3328c1328b7327d3327bb334843347a3347e3346833440333ee333e0333c6333b8333b43331a3333a3334a33282331f8331ea3319a331463313c))
  (.nd (.lf
  0x27a90385e63853137e4137dde37db52d8882d82b27e3c27c4f27c4827a7a385da3853537e4537db737d9a2d8802d82f27e0427c5127c4c27a8e385aa3853937e4937db937d9e2d8722d83327c5327c4e27b0227ad43857c3853d37e4d37dbb37da22d86c2d83727c5527c5027acc27a8c385763854137e5137dbd37da62d8602d83b27c5727c5227abc27a723856e3854537dbf37da82d8582d83f27c5927c54)
  (.lf
  0x278b5278b1278af278a12789f2789b278992788b27889278852788327875278732786f2786d2785f2785d27859278572784927847278432784127833278312782d2782b2781d2781b2781727815278072780527801277ff277f1277ef277eb277e9277db27a7027a5c27a4627a3027a1a27a04279ee279d8279c2279ac27996279802796a279542793e2792827912278fc278e6278d0278ba278a42788e27878)))
  (.nd (.nd (.lf
  0x11208111fe111f4111ea111e0111d6111cc111c2111b8111ae111a41119a11190111861117c1117211168111601114e1113c1112a1111811106110f4110e21109c1109011084110781105011044110381102c11020110141100810ffc10ff010fe410fd810fcc10fc010fb410fa810f9c10f9010f8410f7810f7010f6810f6010f5810f4210f2c10f1612590125861257c125721256812462124581245012446)
  (.lf
  0x22d8d22d8b22d8722d8522d8322d8122d7d22d7b22d7922d7722d7322d7122d6f22d9d22d6d22d6922d6722d6522d6122d4522d4322d4122d3d22d1f22d1d22d1b22d1722cad22cab22ca922ca522ca322c8f22c8d22c8922c8722c8522c8322c7b22c7722c7522c7322c4322c3f22c3d22c3b22c3722be922be722be522be122bdf22a3922a3722a3522a3122a2722a2522a2122a1f229f1229db229d7229d5))
  (.nd (.lf
  0x169a6169de169aa169d416902169ca168ce169c0168d2169b4168dc168da178ce17a92178d217a881799817a7e178fc17a741790017a6a1790417a601790817a561790c17a4c1794617a421784017a381784417a2e1784817a241798e17a1a1791017a101799c17a0617914179fc17918179f21791c179e81793c179de1786e179d41794a179ca1784e179c017922179b617926179ac1792a179a4179a01797c)
  (.lf 0)))

def shaXorReads39 : BTree :=
  .nd (.nd (.nd (.lf
  0x1c30e1bf0d1a7e5199a718a9d18a7b18a70186961c3061bec51a7e7199a918aa118a7d18a72186981c2fa1bf0b1a7e9199ab18aa518a7f18a741869a1c2f21bec71a775199ad18aa918a8118a761869c1c2d01bf091a777199df18aad18a8318a781869e1c2c61bec91a779199af18ab118a8518a7a186a01c2ba1bf071a77b199b118ab518a8718a7c186a21c2a81becb1a77d199b318ab918a8918a7e186a4)
  (.lf
  0x3fe8b3fe893fe873fe853fe813fe7f3fe7d3fe7b3fe773fe753fe733fe713fe6f3fe6b3fe693fe673fe633fe613fe5f3fe5d3f7773f7753f7733f7713f76d3f76b3f7693f7673f7633f7613f75f3f75d3f75b3f7573f7553f7533f74f3f74d3f74b3f7493f7433f7413f73f3f73d3f7393f7373f7353f7333f72f3f72d3f72b3f7473f7293f7253f7233f7213f71d3f71b3f7193f7173f7133f7113f70f3f70d))
  (.nd (.lf
  0xd3140d2fe0d2f20d2dc0d2d00d2ba0d2ae0d2980d28c0d2760d26a0d2540d2480d2320d2260d2100d2040d1ee0d1e20d1cc0d1c00d1aa0d19e0d1880d17c0d1660d15a0d1440d1380d1220d1160d1000d0f40d0de0d0d20d0bc0d0b00d09a0d08e0d0780d06c0d0560d04a0d0340d0280d0120d0060cff00cfe40cfce0cfc20cfac0cfa00cf8a0cf7e0cf680cf640cf5c121d6121c61219a121881215612144)
  (.lf 0))) (.nd (.nd (.lf
  0x2c0282c0122bffc2bfe62bfd02bfba2bfa42bf8e2bf782bf622bf4c2bf362bf202bf0a2bef42bede2bec82beb22be9c2be862be702be5a2be442bd742bd6a2bd602bd562bd4c2bd422bd382bd2e2bd242bd1a2bd102bd062bcfc2bcf22bce82bcde2bcd42bcca2bcc02bcb62bcac2bca22bc982bc8e2bc842bc7a2bc702bc662bc5c2bc522d1482d13e2d12e2d1242d11c2d1102d1042d0f82d0ec2d0e02d0d6)
  (.lf
  0x4b7d04b8104b7b04b7704b3d04b4104b3b04b3704aff04afd04af904af704ab904ab704ab304ab104a7304a7104a6d04a6b04a2d04a2b04a2704a25049e7049e5049e1049df0499f049a30499d049990495f049630495d049590491f049230491d04919048f50824008208081c8081840814208102080be0807c0803807ff607fb607f7607f3607ef607eb207e6c07e2a07de607da407d6007d1a07cd807c94))
  (.nd (.lf
  0x3191e318fe318f8318ec318e43189e3188a3186e3185c317b6317b831686316883164a316423162c3161432ec0330d432ec4330c232eac330bc32ea2330b232e96330a632e843309a32e7c3308e32e6a3308432e8a3307a32e603306a32e4c3306232e3e3305c32e863304e32e363304432e1c3303832b723303032b463302832b1e3301832af63300a32ad232fec32a7c32a6432a2e32a2c32a04329ea329b4)
  (.lf 0)))

def shaXorReads40 : BTree :=
  .nd (.nd (.nd (.lf
  0xe4940e4190e05d0dffe0dfd5025c4025880e48a0e41d0e0610e0000dfd70257e025420e4800e4210e0650e0020dfd902538024fc0e4760e4250e0690dfdb0dfbe024f2024b40e46c0e4290e06d0dfdd0dfc2024b6024740e4620e42d0e0710dfdf0dfc602476024360e4580e4310e0750dfe10dfca0242c023f00e44e0e4350dfe30dfcc023e6023aa0e4440e4390dfe50dfce023a00237a0e43f0dfe70dfd0)
  (.lf
  0xb6fa0b56b0b6dc0b56f0b6ba0b5730b6960b5770b6760b57b0b6560b57f0b6380b5830b6180b5870b5fa0b58b0b5de0b58f0b5be0b5930b5990c01d0c44c0c0210c42c0c0250c40e0c0290c3f20c02d0c3d60c0310c3ba0c0350c39e0c0390c37c0c03d0c3580c0410c3380c0450c31a0c0490c2f80c04d0c2d40c0510c2b60c0550c2960c0590c2740c05d0c2520c0610c2300c0650c20e0c0690c1ec0c06d))
  (.nd (.lf
  0xb4920b4940b4960bf5a0bf5c0bf5e0bf600bf620bf640bf660bf680bf6a0bf6c0bf6e0bf700bf720bf740bf760bf780bf7a0bf7c0bf7e0bf800bf820bf840bf860bf880bf8a0bf8c0bf8e0bf900bf920bf940bf960bf980ca520ca540ca560ca580ca5a0ca5c0ca5e0ca600ca620ca640ca660ca680ca6a0ca6c0ca6e0ca700ca720ca740ca760ca780ca7a0ca7c0ca7e0ca800ca820ca840ca860ca880ca8a)
  (.lf
  0x3a78a3a7803a78c3a82c3a7643a76e3a7523a7483a73c3a6b63a6ac3a6a23a66a3a6563a62c3a82b3a8293a8273a8233a8213a81f3a81b3a8193a8173a8153a8113a80f3a80d3a80b3a8073a8053a8033a8013a7fd3a7fb3a7f93a7f73a7f33a7f13a7ef3a7ed3a7e93a7e73a7e53a7e33a7df3a7dd3a7db3a7d93a7d53a7d33a7d13a7cf3a7cb3a7c93a7c73a7c53a7c13a7bf3a7bd3a7bb3a7b73a7b53a7b3)))
  (.nd (.nd (.lf
  0x3b3502eef02357022c1022b60226a01dfd01df403b3702ef10235b022c3022b80226c01dbd01db403b3902ef30235f022c5022ba0226e01d7d01d7403b3b02ef5022e3022c7022bc0227001d3601d3303b3d02ef7022e7022c9022be0227201cf701cee03b3f02ef9022eb022cb022c00227401cb701cae03b4102efb022ef022cd022c20227601c7001c6d03b4302efd022f3022cf022c40227801c2a01c27)
  (.lf
  0x3375533737337313372d3372b337293372733723337213371f3371d337193371733715337133370f3370d3370b337353370933705333a7333ab333a5333a1333793498a349ea3497a3496a3496e34958349e834946349403493234928349d6349143492c34902348fe348ee34972348dc348d4348c8348be348b4348aa348a234898347cc3473e347323470a3474a3498b349eb349893498534983349813497d))
  (.nd (.lf
  0x3f8163f8194147d4184e412954184641285417f4412c1417de40fc7417d440fcd417cc4146d4151440fa14123240fa74118040fd34117840fd14117240fe14106e40fe940feb40f5040f5340f0a40f1540eaa40e9e40e7940e8c40de340ead40cb240c5440c4f40c3e40ba940c0240beb40bf340bee40bca40b8f40bb840baf40b6c40b5f40b2540b2240ae140ad840ab440a9f40a06409d1409fc408ef40a1f)
  (.lf 0)))

def shaXorReads41 : BTree :=
  .nd (.nd (.nd (.lf
  0x31986319652f9432eb0d2dbcf2d70e2d5572d55031970319672f9452eacb2db672d6a42d50f2d50c31975319362f9472ea852db452d5ac2d4f72d4f2319393190e2f8e32ea8f2db092d5ae2d4cf2d4cc3191b318de2f8d32ea4b2db0d2d5b02d4292d426318e9318cc2f8372ea0f2dbd32d5562d42b2d40e318e1318bc2f8192e9e92da872d50e2d42d2d3fe31886318592f7e72e9a72da372d4f62d42f2d3f2)
  (.lf
  0x1d6231d6211d61d1d61b1d6191d6171d6131d6111d60f1d60d1d6091d6071d6051d6031d5ff1d5fd1d5fb1d6b11d5f91d5f51d4c51d4c31d4bf1d4bd1d4ad1d54f1d4ab1d4a71d4971d49d1d4951d4911d4871d5431d4851d4811d46f1d4751d46d1d4691d45b1d5371d4591d4551d4531d4511d44d1d44b1d3431d37d1d3411d33d1d31d1d31b1d3171d3151d2ed1d3711d2eb1d2e71d2bd1d2c31d2bb1d2b7))
  (.nd (.lf
  0x1cbcb17cc117cbc12c7e12c66266582663b254232540c1cc061cbcf17cc317cbe12c5e12c5226641254252540e1cbd517cc517cc012c5a2771b265cd265b12659a1dad718c9518c7b18c761747427a662771f265d1265b32659c1dca81dadb18c9918c7d18c78174561744227a5227723265d5265b52659e1dc9e1dadf18c9d18c7f18c7a174201740a27a3c27761265d9265b7265a01dc941dae318ca118c81)
  (.lf
  0x1a2f51a2f11a2ef1a2b91a2b71a2b31a2b11a27b1a2791a2751a2731a23d1a23b1a2371a2351a2031a2011a1fd1a1fb1a1c71a1c51a1c11a1bf1a18d1a18b1a1871a1851a1511a14f1a14b1a1491a1151a1131a10f1a10d1a0dd1a0db1a0d71a0d51a0a51a0a31a09f1a09d1a06b1a0691a0651a0631a0311a02f1a02b1a02919ff519ff319fef19fed19fb719fb519fb119faf19f7b19f7919f7519f7319f3d)))
  (.nd (.nd (.lf
  0x2651c265142650a26500264f6264ec264e2262fc262f2262e8262de262d0262c8262c0262b6262ac262a22629825f0e25e50275342752a27520275142750c27502274f8274ee274e2274da274d2274c8274be274b0274a8274a0274962748a27480274762746e274622745a27450274462743c27432274282741e2741427f8c27f7e27f7427f6427f5627f4c27f4027f2e27f2227f1227f0a27f0027ef827eec)
  (.lf
  0x1810b180cb180c7180c517fc517fc117fbf17f7f17f7b17f7917eb917eb517eb317e7317e6f17e6d17ded17de917de717dab17da717da517a9a17a9017a8617a7c17a7217a6817a5e17a5417a4a17a4017a3617a2c17a2217a1817a0e17a04179fa179f0179e6179dc179d2179c8179be179b4179aa179a21797a17970179661795c1795217a9b17a9917a9517a9317a9117a8f17a8b17a8917a8717a8517a81))
  (.nd (.lf
  0x1951e194c618de318dda19514194c418da318d9a1950a194c218d6118d5e19500194c018d2818d25194be18d011a3f51a3f21a8221a51a1a3d11a3ce1a8181a50c1a39d1a39a1a8101a5021a3611a35e1a8061a4f81a3231a3201a7fe1a4ee1a2e51a2e21a7ce1a4e41a2a61a2a51a7c61a4dc1a2681a2671a7bc1a4d21a22a1a2291a7b01a4ca1a1f01a1ef1a7aa1a4c01a1b41a1b31a79e1a4b41a17a1a179)
  (.lf 0)))

def shaXorReads42 : BTree :=
  .nd (.nd (.nd (.lf
  0x3e2253d3493d0e53c6d23c61a3c5993c5963c5913e2093d3233d24b3d0b73c65c3c5b43c5743c5693e1e53d2c33d1fb3d0bb3c6003c4ee3c4eb3c4e83e0413d4053d1d33d0d13c5ec3c4bc3c4ba3c4b53deef3d26f3d1873d07b3c5aa3c40b3c4023c4003dea93d1a13d1313d0673c5983c3e93c3e23fb313eb313df973df913df8d3df8a3df883f9a33eb3f3e2623df7b3df773df713df6e3df6c3f8f13eb63)
  (.lf
  0x3cb823cb003caca3ca8a3d00b3d0093d0053cfe93cfbd3cfbb3cfa93cfa13cf953cfa53cf933cf8f3cf8d3cf8b3cf873cf7b3cf793cf773cf733cf613cf093cf0b3cf073cf033cf013cf433ceff3cefb3cef93cf193cef73cef33cef13ceef3ceeb3cedd3cebd3cec93cebb3ceb73ceb53ceb33ceaf3ce9f3ce9d3ce9b3ce8d3ce8b3ce893ce873ce793ce773ce753ce733ce6f3ce653ce633ce613ce5d3ce53))
  (.nd (.lf
  0x2e5383aa7a3a89b3a36f3a33b3a3243409833ec12e7612e5962e5212e5022e4fe3aa663a89f3a3733a33d3a3263408e33ec52e7192e5582e4ef2e4d82e4d03aa603a8a33a3773a3283a2f93408433ec92e6db2e5202e48f2e4762e46e3aa3e3a8a73a37b3a32a3a2fd3407c33ecd2e6972e4ee2e4932e4542e44c3aa283a8ab3a37f3a32c3a3013407433ed12e64b2e4972e48e2e4322e42a3aa143a8af3a383)
  (.lf
  0x2bd752bd712bd6f2bd6d2bd6b2bd672bd652bd632bd612bd5d2bd5b2bd592bd572bd532bd512bd4f2bd4d2bd492bd472bd452bd432bd3f2bd3d2bd3b2bd392bd352bd332bd312bd2f2bd2b2bd292bd272bd252bd212bd1f2bd1d2bd1b2bd172bd152bd132bd112bd0d2bd0b2bd092bd072bd032bd012bcff2bcfd2bcf92bcf72bcf52bcf32bcef2bced2bceb2bce92bce52bce32bce12bcdf2bcdb2bcd92bcd7)))
  (.nd (.nd (.lf
  0x3437a3434a343383432434224341c0341763414c33d8a33d1033ce833b8e33b6233b4233b1433a6a33a1c3477a346aa34648346363459c34582344aa344a03446034456343fa343c43439034360342dc342be34238341f8341e2341d03419233d6c33d1633cca33b8433b7233b3433afc33a7233a26356e0356d8356863562e35602355ce355a4355783554e354da354b43549e3545a354483542c3541835404)
  (.lf
  0x24dad24dab24da524da324da124d9f24d9b24d9924d9724da724d9524d9124d8f24d8d24d8b24d8724d8524d8324d7f24d7d24d7b24d7924d7524d7324d7124d6f24d6b24d6924d6724d6524d6124d5f24d5d24d5b24d5724d5524d5326290262862627a2627e2626826260262542624c26240262362622c26222262162620e26202261fa261f0261e4261da261d0261c4261ba261b0261c82621a2619c2618c))
  (.nd (.lf
  0x3cb563cb6c3cb683cb063cafa3cac23caba3ca783ca763ca3a3d01c3dab23cffc3daa23d0243da943d0023da8c3cfe63da7c3cfe23da763cfd63da183cf6a3d9723cf2a3d9643cf4e3d95c3cf3e3d93c3cee03d9323ced43d92a3d0223d9243d0003d8ee3cfd03d86c3cfd43d8603cfdc3d8543cfc43d8463cf143d83a3cf563d8303d7403d8243d0123d80e3cff43d7ca3cfd23d7b83cfca3d7963cfcc3d78e)
  (.lf 0)))

def shaXorReads43 : BTree :=
  .nd (.nd (.nd (.lf
  0x123bd123a5112f7108b11087010847108381079c143e414334123bf123a71115b108b510872108491083a1079e143ca14332123c1123a911149108b9108741084b1083c107a0143c414330123611235d11137108bd108761084d1083e107a2143aa1432e1220f121f711125108c1108781084f1066c10666143a41432c12211121f911113108c51087a108511065e106581438a1432a12213121fb11101108c9)
  (.lf
  0x36510364f0364b0364903615036130360f0360d035e3035e1035dd035db035a9035a7035a3035a10356d0356b03567035650353b035390353503533034ff034fd034f9034f7034cd034cb034c7034c503493034910348d0348b034590345703453034510341d0341b0341703415033eb033e9033e5033e3033b1033af033ab033a903375033730336f0336d03343033410333d0333b03309033070330303301))
  (.nd (.lf
  0x32ce032cda32cb032cd432caa32cce32ca232cc832c8c32cc232c3232c3432c0a32c0c32be232be432bc032bc232ba432ba632b8832b8a32b6432b6632b3e32b3c32b1432b1632afe32ae632ac432ac632aae32a9e32a8832a5c32a4832a1632a08329da329c83299a3298c329663294832904328743286e327be328183278e32812327bc327e8327903279433caa33e6433ca033e5c33c8e33e5033c8033e46)
  (.lf 0))) (.nd (.nd (.lf
  0x19f101a18019d9019b1019d801998019530192b0195201913018eb01912018d20188d018650188c0184d018250184c0180c017c70179f017c6017870175f0178601746016380162e016240161a0161001606015fc015f2015e8015de015d4015ca015c0015b6015ac015a2015980158e015840157a01570015660155c01552015480153e015340152a015200151602b5e02b2602ae202a9c02a5a02a16029d4)
  (.lf
  0xa4770a4610a45d0a4570a43b0a4370a42b0a40f0a40b0a3fd0a3910a38d0a37f0a33f0a33b0a32d0a2ed0a2e90a2db0a2bf0a2bb0a2b10a2950a2910a2830a2670a2630a2590a23d0a2390a22b0a1c30a1bf0a1b50a1710a16d0a1630a1470a1430a1350a1190a1150a10b0a0c70a0c30a0b90a0750a0710a0670a04b0a0470a0390a01d0a0190a00f09e0c09e0209df809dee09de409dda09dd009dc609dbc))
  (.nd (.lf
  0x11b5611b4711b0e11aff11ac211ab711a7611a6d11a2a11a21119da119cd119801197b1195712c1512bfb12bee12bdb12bce12bbd12bb012ba112b9412b8112b7412b6312b5612b4712b3a12b2b12b1e12b0f12b0212af312ae612ad712aca12ab712aaa12a9512a8812a7712a6a12a5b12a4e12a3b12a2e12a1d12a10129fd129f0129df129d2129c3129b6129a71299a1298b1297e1296b1295e129491293c)
  (.lf 0)))

def shaXorReads44 : BTree :=
  .nd (.nd (.nd (.lf
  0x3db1d3cfd93cf843cf823cf7f3cf7c401f4401323e7093e6e53db1f3cf713cf6d3cf663cf643cf62401984012a3e6cd3e6c93dabd3cf323cf2d3cf163cf113cf0c4015a401283e6d13e69f3dabf3d7453cf543cf4a3cf473cf4440148401063e6733e6633d9e73d73d3cf263cf223cf203cf1b40140400b43e6533e6353da093d0263ced73cec23cec03cebf400ba4001a3e6213e61d3d9e93cee23ced03cecf)
  (.lf
  0xa1a409f580a17a09f5c0a15209f600a12409f640a0fa09f680a0d009f6c0a0a809f700a07e09f740a05609f780a02809f7c09ffe09f8009fd409f8409fb409f8809f8e0aa180ae420aa1c0ae280aa200ae0c0aa240adf00aa280add40aa2c0adb80aa300ad9c0aa340ad800aa380ad600aa3c0ad3e0aa400ad200aa440ad000aa480acde0aa4c0acbc0aa500ac9a0aa540ac7a0aa580ac580aa5c0ac380aa60))
  (.nd (.lf
  0x830a0830c0830e08f2e08f3008f3208f3408f3608f3808f3a08f3c08f3e08f4008f4208f4408f4608f4808f4a08f4c08f4e08f5008f5208f5408f5608f5808f5a08f5c08f5e08f6008f6208f6408f6608f6808f6a08f6c09b9e09ba009ba209ba409ba609ba809baa09bac09bae09bb009bb209bb409bb609bb809bba09bbc09bbe09bc009bc209bc409bc609bc809bca09bcc09bce09bd009bd209bd409bd6)
  (.lf
  0x34ed034ec634ebc34eb234eaa34e5c34e4a3522335225352213521d3521b35227352193521535213352113520d3520b352093522b352073520335201351ff351fb351f9351f735229351f5351f1351ef351ed351e9351e7351e5351e3351df351dd351db351d9351d5350713506f3506d350693506735065350633505f3505b350593505735053350513504f3505d3504d350493504735045350413503f3503d)))
  (.nd (.nd (.lf
  0x2c9102c7a02c3602b7605cfe05cb4044ef0446f038bf02d1302c9302c7c02c3802b7805cc205c76044f104471038c102d1702c9502c7e02c3a02b7a05c6c05c2e044f304473038c302d1b02c9702c8002c3c02b7c05c3c05bee044f504475038c502d1f02c9902c8202c3e02b7e05bfc05bb0044f704477038c702d2302c9b02c8402c4002b8005ba605b68044f904479038c902d2702c9d02c8602c4202b82)
  (.lf
  0x2d2072d1b12d1af2d1ab2d17d2d1792d1812d1772d1732cfdb2dad22dac82dad42db1c2da982da902da4a2da4e2d9c02d9b62d9ce2d97e2d6402d6282d6e22d5d22d53c2d5322d52e2d5162d4762d46c2d4b22d34a2d33e2d3342d34c2d3582d20e2d1902d1882dad32dad12dacd2dacb2dac92dad52dac72dac32dac12db1d2dabf2dabb2daa92daa72daa32daa12da992da972da932da912da8f2da8d2da4b))
  (.nd (.lf
  0x3da403da453da103da0a3d9eb3d9f73e79d3ed443e7733ed3c3e7913ed323ec5b3ed2a3e7533ed203ec493ed143e6fb3ed0a3e6f33ed043e6bb3ecf83e6a93ecea3e6793ece43e6573ecda3e7d93ecd03e7953ecc63e77d3ecbc3e7cf3ecb03ec553eca83e7a93eca03e6eb3ec963e6bf3ec8a3e6a53ec7e3e6833ec743e78b3ec6c3e75d3ec643e7473ec4d3e7d43e7c63e6ff3e7ba3e6e33e7b13e69c3e695)
  (.lf 0)))

def shaXorReads45 : BTree :=
  .nd (.nd (.nd (.lf
  0x1d3791c6ad1c6561c2a11c29e1c2982108c2102c1f62d1f5b91d2dd1c6591c61c1c2411c23e1c2382101c20ffc1f62f1f5bb1d29b1c61f1c5c61c20f1c20c1c20620ff020f5a1f6311f5bd1d28f1c83b1c5c91c5a01c1b41c1ae20f4a20f2a1f6331f5bf1d23d1c7f71c5a51c54c1c1821c17c20f4420f281f6351f5c11d2171c8431c7bf1c52c1c12e1c12820f2620eaa1f6371f5c31d1db1c7ff1c7771c4f4)
  (.lf
  0x1059d1059b10597105951058d1058b10587105851057d1057b10577105751056d1056b1056710565104d9104d7104d3104d1104cf104cd104c9104c7104c5104c3104bf104bd104bb104b9104b5104b3104b1104af104ab104a9104a7104a5104a11049f1049d1049b104971049510493104911048d1048b104891048710483104811047f1047d104791047710475104731046f1046d1046b104691046510463))
  (.nd (.lf
  0x40b4c40a4f409e440995409914098a4098840b0640a524097f4097b40976409754097040afe40a494099d409634095e4095a4095840af640a5740a1d40a154094a409484094640b1040ad340acb40ac640ac440ac140abe40a9140a5440a40409e14092d409244092040a34409e3409cb4090e4090a409074090240a2c409c5408f8408e9408e2408e1408de409ea408cd408c7408c4408be408bb408b8408ac)
  (.lf
  0x12035120311202f11fef11fed11fe911fe711fa711fa511fa111f9f11f5f11f5d11f5911f5711f1b11f1911f1511f1311ed711ed511ed111ecf11e9311e9111e8d11e8b11e4f11e4d11e4911e4711e0b11e0911e0511e0311dc311dc111dbd11dbb11d7911d7711d7311d7111d3311d3111d2d11d2b11cef11ced11ce911ce711ca711ca511ca111c9f11c5d11c5b11c5711c5511c1311c1111c0d11c0b11bcd)))
  (.nd (.nd (.lf
  0x13342133381332e133241331a1331013306132fc132f2132e8132de132d4132ca132c0132b6132ac132a2132981328e132841327a13270132661325c131aa131781316e13164149a214984149661494a1492a1490c148ec148ce148b214892148701484e1483014810147f2147d6147b6147981477c14760147441472414706146ea146ca146ac1468c1466e1464e14630115ea115e0115d6115cc115c2115b8)
  (.lf
  0xdbf60dbd80dbb60db940db720db500db2e0db0c0daea0dac80daa60da840da620da400da1e0d9fc0d9da0d9b80d9960d9740d9520d9300d90e0d8ec0d8ca0d8a80d8860d8640d8420d8200d7fe0dbf70dbdf0dbdb0dbd90dbbf0dbbd0dbb90dbb70db9d0db9b0db970db950db7b0db790db750db730db590db570db530db510db370db350db310db2f0db150db130db0f0db0d0daf30daf10daed0daeb0dad1))
  (.nd (.lf
  0x26af026aca26a8e26a1426a0a26a0226984269a726985281fc281ec281e2281da281c6281c0281b4281ae281a02812a2811428100280ec280a4280982808a2807e2806a280602800827fee27fce27f9827f9227e0e27b9627b7c27b7227b6c27b1027b6b27b112911829112290f6290ee290e8290de29092290862907e29058290402902a2900e2900428ff828fda28fcc28fa428f8428f7828f7028f5c28f52)
  (.lf 0)))

def shaXorReads46 : BTree :=
  .nd (.nd (.nd (.lf
  0x2a6d82a6d22eb402eb142ca8f2ca872b4ad2a7d52a7b02a6c32a6c02a6ba2eaee2eae22ca912ca892b49d2a8142a7b32a6b32a6b02a6aa2eac22ea7e2ca652ca612b4652a8172a79c2a6992a6962a6902ea722ea642ca532ca4f2b3bf2a8bd2a79f2a7742a67a2a6742ea862ea362ca712ca6d2b3a32a8a12a7792a7582a6842a67e2ea2c2ea1e2ca412ca3d2b3752a8c32a8792a7442a6682a6622ea062e9d0)
  (.lf
  0x2b88f2b89b2b88d2b8892b8872b8852b8812b7e92b7e72b76d2b76b2b7672b7212b71f2b71b2b7192b6e32b6d52b6d12b6cf2b6a12b69f2b69b2b6992b6532b6512b64d2b61d2b5a52b5a32b59f2b59d2b59b2b5992b5952b5932b5912b58f2b58b2b5892b5872b5852b5812b57f2b5372b5352b5312b52f2b5072b5052b5012b4ff2b4592b4572b4532b4512b44f2b44d2b4492b4472b4452b4432b43f2b43d))
  (.nd (.lf
  0x3270b326e5326ce27dd027c3b2387b238572385222b54228cc33c66338993270f326e7326d027dc627c3f2387f238592385422b4a228b433c5c3389d32713326e9326d227dbc27c43238832385b2385622b422289c33c54338a132717326eb326d427db227c47238872385d2385822b382288433c42338a53271b326ed326d627da827c4b2388b2385f2385a22b322286c33c3c338a93271f326ef326d827d9e)
  (.lf
  0x1e9431e93f1e93d1e92f1e92d1e9291e9271e9191e9171e9131e9111e9031e9011e8fd1e8fb1e8ed1e8eb1e8e71e8e51e8d71e8d51e8d11e8cf1e8c11e8bf1e8bb1e8b91e8ab1e8a91e8a51e8a31e8951e8931e88f1e88d1e87f1e87d1e8791e8771e8691e8671e8631e8611e8531e8511e84d1e84b1e83d1e83b1e8371e8351e8271e8251e8211e81f1e8111e80f1e80b1e8091e7fb1e7f91e7f51e7f31e7e5)))
  (.nd (.nd (.lf
  0x3da9e3da923da863da7a3da4a3da163d96c3d9623d9403d9383d9303d9283d90a3d8ec3d8643d8583d84c3d8403d8343d8283d8123d7f83d7c43d7b03d7943d7723d75a3cf2e3e5c43e5b03e59a3e5863e48a3e47e3e46e3e4663e4543e4483e4323e3da3e3ce3e3c23e3b63e3aa3e3a23e3743e3403e1643e1483e13c3e12e3e1223e1163e10c3e1023e0f23e0e03dece3bb2e3ba823b9c03b9123b8cc3b7e8)
  (.lf
  0x1e1311e12f1e12d1e1291e1271e1251e1211e11d1e11b1e1191e1171e1131e1111e10f1e1231e10d1e1091e1071e1051e1011e0ff1e0fd1e0fb1e0f71e0f51e0f31e0f11e0ed1e0eb1e0e91e0e71e0e31e0df1e0dd1e0db1e0d71e0d51e0d31e0d11e0cd1e0cb1e0c91e0c71e0c31e0c11e0bf1e0bd1e0b91e0b71e0b51e0b31e0af1e0ad1e0ab1e0a91e0a51e0a31e0a11e09f1e09b1e0991e0971e0951e091))
  (.nd (.lf
  0x3e1c23e1b63e1b43e1b33e03b3e02c3e02a3e0283dfb43dee33dee03dedc3ded23de993f2cc3f2cb3f92a3f6163f2c63f2c13f8e63f6103f2b83f2b73f8ae3f5f63f3f93f2d03f8643f5923f28f3f28c3f85e3f5783f2763f2733f7fa3f56c3f2743f26f3f7d23f5403f27a3f2793f7c63f5283f2563f2553f7aa3f51a3f24b3f2483fbb53f7983f5083f2443f7823f4ec3f2813f25a3f45e3f3983f2423f22b)
  (.lf 0)))

def shaXorReads47 : BTree :=
  .nd (.nd (.nd (.lf
  0x133ab127a5116f3116d5116ca1167e115a011025133ad127a7116f7116d7116cc116801159611019133af127a9116fb116d9116ce116821158c1100d133b1127ab116ff116db116d0116841158211001133b3127ad11703116dd116d2116861157810ff5133b5127af11707116df116d4116881156e10fe9133b7127b11170b116e1116d61168a1156410fdd133b9127b31170f116e3116d81168c1155a10fd1)
  (.lf
  0x3d48f3d48d3d4893d4873d4853d4833d47f3d47d3d47b3d4793d4753d4733d4713d46f3d46b3d4693d4673d4653d4633d45f3d45d3d45b3d4573d4533d4513d44f3d44b3d4473d4453d4433d43f3d43d3d4353d4393d4333d42f3d42d3d42b3d3fd3d3713d3613d3653d35f3d35b3d3153d3133d30f3d30d3d30b3d3093d3053d3033d3013d2ff3d2fb3d2f93d2f73d3373d2f53d2f13d2ef3d2ed3d2e93d2e5))
  (.nd (.lf
  0x1dcb61dfe61dcba1dfd01dcbe1dfba1dcc21dfa41dcc61df8e1dcca1df781dcce1df621dcd21df4c1dcd61df361dd061df201dd0a1df0a1dd0e1def41dd121dedc1dd161dec61dd1a1deb01dd1e1de9a1dd221de841dd261de6e1dd2a1de561dd2e1de3e1dd321de261dd361de101dd3a1ddfa1dd3e1dde41dd421ddce1dd461ddb81dd4a1dda21dd4e1dd8c1dd521dd741dd561dd5c20776209462077a2093c)
  (.lf 0))) (.nd (.nd (.lf
  0xe08a159bc159881594e15914158d81589c158641582e157f4157bc157801574215708156d0156981566015624155ea155ae155741553815500154ca154901545415418153e0153a615368153340e56a0e5600e5560e54c0e5420e5380e52e0e5240e51a0e5100e5060e4fc0e4f20e4e80e4de0e4d40e4ca0e4c00e4b60e4ac0e4a20e4980e48e0e4840e47a0e4700e4660e45c0e4520e448159b41597e15944)
  (.lf
  0x572505723056e7056e5056e1056df056a5056a30569f0569d056610565f0565b056590561f0561d0561905617055df055dd055d9055d7055a3055a10559d0559b0556902b7402b4c02b0802ac202a8602a3c02a00029b6029700292a028ee028ae0286e0282e027ee027ae027640271e026d8026920264c02610025c6025800253a024f4024b8024780242e023e8023a202b7502b4d02b4902b4502b1102b0f))
  (.nd (.lf
  0xfbfa0fbb00fb9c0fb500fb3a0faf00fada0fa8e0fa7c0fa320fa220f9d60f9c60f9740f9640f90c0f8fc0f8d20f8ce10ea610e9610e8810e7610e6610e5410e4810e3610e2810e1610e0610df410de410dd210dc210db010da010d8e10d8210d7010d6210d5010d4010d2e10d1e10d0c10cfc10cea10cda10cc810cbc10caa10ca010c8e10c8010c6e10c6210c5010c4610c3410c2a10c1810c0a10bf810be8)
  (.lf 0)))

def shaXorReads48 : BTree :=
  .nd (.nd (.nd (.lf
  0xcd5d05646056040ec000ebd90e9f90e9650e94e0cd880cd6105606055cc0ebf60ebdd0e9670e9500cd7e0cd65055c2055900ebec0ebe10e9690e9520cd740cd6905586055640ebe70e96b0e9540cd6f05562118a10ed190eb730eb570eb40069aa121ce118a50eef80ed1d0eb770eb590eb42069820694812192118a90eeee0ed210eb7b0eb5b0eb440693e069001214e118ad0eee40ed5f0eb7f0eb5d0eb46)
  (.lf
  0x1da401d8d71da361d8db1da2a1d8df1da1e1d8e31da141d8e71da0c1d8eb1da021d8ef1d9f61d8f31d9ea1d8f71d9e21d8fb1d9d81d8ff1d9d01d9031d9c81d9071d9be1d90b1d9b01d90f1d9a81d9131d99e1d9171d9941d91b1d9881d91f1d97e1d9231d9761d9271d96e1d92b1d9641d92f1d95a1d9331d94c1d9371d9421d93b1d93f1f88f1fe3a1f8931fe321f8971fe101f89b1fdf01f89f1fdd21f8a3))
  (.nd (.lf
  0x2d1e02d1e22cff42f02a2efce2ef982eeb82eecc2ee182ee0a2edd82ed282edc62ece42ec9c2ec662ec5c2ec042ebd02eb8e2eb542eb462eb0a2eac82ea822ea8c2ea482ea0c2e9ee2e9a42e9942e9462e9362e8f02e2423016c301423005e30062300663006a3006e300182fe6c2fe6e2fe702fe722fe742f9f42f9de2f9e02f9e22f96c2f96e2f9422f9442f9462f8e22f8d22f8362f8182f7e62f7c62f79e)
  (.lf
  0x115b011590115701153011510114f0114d011490114701145011430113f0113d0113b011390113501133011310112f0112b011290112701125011210111f0111d0111b011170111501113011110110d0110b01109011070110301101010ff010fd010f9010f7010f5010f3010ef010ed010eb010e9010e5010e3010e1010df010db010d9010d7010d5010d1010cf010cd010cb010c7010c5010c3010c1010bd)))
  (.nd (.nd (.lf
  0x6ce9060af05547054af054a40545804fa904fa006ceb060b10554b054b1054a60545a04f6904f6006ced060b3054cf054b3054a80545c04f2204f1f06cef060b5054d3054b5054aa0545e04edc04ed906cf1060b7054d7054b7054ac0546004e9604e9306cf3060b9054db054b9054ae0546204e5004e4d06cf5060bb054df054bb054b00546404e0a04e0706cf7060bd054e3054bd054b20546604dcb04dc2)
  (.lf
  0x365513654f3654d3654b365473654536553365433653f3653d3653b36473363bf363bd363bb363b7363b5363b3363b1363ad363ab363a9363a7363a3363a13639f3639d36369360d73608336089360813607d35fcd35fcb35fc735fb735fb535fb335faf35fa335f5135f4b35f4735f4335f0935f0b35f0735f0135ee535ee335edf35ec735ec535ec335ebf35e7735e3d35e3f35e3b35e3735e2135e1f35de9))
  (.nd (.lf
  0xf34c0f41e0f3500f4140f3540f40a0f3580f4000f35c0f3f60f3600f3ec0f3640f3e20f3680f3d80f36c0f3ce0f3700f3c40f3740f3ba0f3780f3b00f37c0f3a60f3800f39c0f3840f3920f3880f38e1e9e21eeb41e9e61ee941e9ea1ee721ea281ee4e1ea2c1ee2c1ea301ee0a1ea341ede81ea381edc61ea3c1eda41ea401ed821ea441ed601ea481ed3e1ea4c1ed1c1ea501ecfa1ea541ecd81ea581ecb6)
  (.lf 0)))

def shaXorReads49 : BTree :=
  .nd (.nd (.nd (.lf
  0x204e2204c71f9f01f9ea234d0234b82160d2160120d6b20593204e4204c91f9c61f9c0234c2233322160f2160320d17204f3204cb200461f9641f9582332e216112160520d19204f7204cd200481f9661f95a24bee2313d230e5221ff2175f217432173c2173621724251da24bfa2313f230e72211121761217452173e2173821726251d024bf423141230e92209b2176321747217402173a21728251c224bf6)
  (.lf
  0x2167e21510214f2214e8214de214d4214ca214c0214b6214ac214a2214982148e21100210a4210ae2108e2101e20ff220f4c20f3c20f2c20e9c20e8c20e2220e1220d6e20d2e21723218692170f2170b216ff21703216fd216e7216592167f216572165321513215112150d215092143f214f3214392143521413214e9214112140d21405214df21403213f721355214d5213532134f21345214cb213432133f))
  (.nd (.lf
  0x29bc429af12896528904288db2086c207ff1abdb1abd218ee618eca29bae29af52896928906288dd20862208031abdd1abd618ea018e8429b9829af92896d288df288c220858208071abdf1abda18e5a18e3e29b8229afd28971288e1288c62084e2080b1abe11abdc18e1418dfc29b6c29b0128975288e3288ca208442080f1abe31abde18dd218dbc29b5629b0528979288e5288ce2083a208131abe51abe0)
  (.lf
  0xf2820f2780f26e0f2640f25a0f2500f2460f23c0f2320f2280f21e0f2140f20a0f2000f1f60f1ec0f1e20f1d80f1ce0f1c40f1ba0f1b00f1a60f2d30f2d10f2cd0f2cb0f2c90f2c70f2c30f2c10f2bf0f2bd0f2b90f2b70f2b50f2b30f2af0f2ad0f2ab0f2a90f2a50f2a30f2a10f29f0f29b0f2990f2970f2950f2910f28f0f28d0f28b0f2870f2850f2830f2810f27d0f27b0f2790f2770f2730f2710f26f)))
  (.nd (.nd (.lf
  0x2c4b12c4ab2c4b02c4a32c49b2c4a22c4982c48b2c4832c48a2c4612c4592c4602c44a2c43b2c4352c43a2c4302c3f82c3e02c3cd2c3c72c3cc2c3b82c2ad2c2a72c2ac2c28d2c2872c28c2c2712c26b2c2702c2492c2452c2482c2292c2252c2282c20f2c20b2c20e2c1e62c1b22c17f2c17b2c17e2c1502b9a42b99a2b9902b9862b97a2b9722b9682b95e2b9542b94c2b9422b9382b92e2b9222b91a2b912)
  (.lf
  0x1a2271a2251a2211a20b1a1ed1a1eb1a1e71a1cf1a1b11a1af1a1ab1a1951a1771a1751a1711a1591a13d1a13b1a1371a11d1a1011a0ff1a0fb1a0e51a0c71a0c51a0c11a0ad1a0911a08f1a08b1a0731a0551a0531a04f1a0391a01b1a0191a01519ffd19fdf19fdd19fd919fbf19fa319fa119f9d19f8319f6519f6319f5f19f4519f2719f2519f2119f0719eeb19ee919ee519ecb19eaf19ead19ea919e8f))
  (.nd (.lf
  0x230bc22f9022f4122f32230b222f8822f0822f05230a822f7e22ef822ef72309e22f7422eec22eeb2309422f6a22f4522f422308a22f5e22edf22edc2308022f5222ed522ed22307622ff922f5022f482306c22e3222e0322e002306222e2822df322df02305822de022ddd22dda2304e22dec22dca22dc72304422dea22dc122db82303a22dae22da522da22303022d5822d5022d4d2302622d2e22d2c22d29)
  (.lf 0)))

def shaXorReads50 : BTree :=
  .nd (.nd (.nd (.lf
  0x31def31deb30e352ffa82ff932fc0b2fbcc2fbc6342c23423a31df931df530db52ffe42ffab2fbbb2fbb82fbb23424c341fa31da331d9f30d8d2ffe72ffc42fba72fba42fb9e341fc341e431d9331d8f30d672ffc72ff6e2fb932fb902fb8a341d2341ac31db131dad30d492ff712ff062fb7f2fb7c2fb76341943416431d6331d5f30d172ff202ff092fb6b2fb682fb623413233d6e31caf31cab30ceb302ad)
  (.lf
  0x3ed993ed973ed933ed8b3ea853ea9b3ea833ea7f3ea213ea1f3ea1b3ea0f3e9cf3fa943f9963f8e83f8b03f8663f8363f7ec3f7d43f7b63f79e3fbb63f77c3f4663f44c3f47a3f4003f3d63f3c83f3e63f3a83f29c3f1f23f15e3f13a3f12a3f1883ee963ee543edb43ea8e3ea023fa953fa933fa8f3f9973f92b3f9293f8ef3f8e93f8e73f8e53f8e13f8b13f8af3f8ad3f8733f8673f8653f8633f85f3f847))
  (.nd (.lf
  0x3731f372fc31bc731b5131b483198431964372f63728f31bcb31b5531b4c3197231966372ec3729331bcf31b5931b50319743196a372e03722f31b5d31b543193831930372d83723331b6131b583191a31908372ca3723731b6331b5c318e8318d8372be3723b31b6531b60318e0318c6372b63723f31b6731b62318b631858372ac3724331b6931b643188031856372a23724731b6b31b66317ac317aa3729c)
  (.lf
  0x2d85d2d8592d8572d8552d8532d84f2d84d2d84b2f74c2f4fe2f4f42f4ec2f4e02f4d62f4cc2f4c22f4b82f4ae2f4a42f4ac2f49a2f4922f47e2f47c2f4682f4602f4542f44c2f4402f4382f4282f41e2f4062f3e82f3402f3322f3242f3182f34a2f74d2f5192f5152f5012f4ff2f4fd2f4f92f4f72f4f52f4f32f4ef2f4ed2f4eb2f4e92f4e52f4e32f4e12f4df2f4db2f4d92f4d72f4d52f4d12f4cf2f4cd)))
  (.nd (.nd (.lf
  0xd3c80d3cc0d3d00d3d40d3d80d3dc0d3e00d3e40d3e80d3ec0d3f00d3f40d3f80d3fc0d4000d4040d4080d40c0d4101365e13662136661366a1366e13672136761367a1367e13682136861368a1368e13692136961369a1369e136a2136a6136aa136ae136b20dc4c0dc500dc540dc580dc5c0dc600dc640dc680dc6c0dc700dc740dc780dc7c0dc800dc840dc880dc8c0dc900dc940dc980dc9c0dca015280)
  (.lf
  0x2817d2817b281792817728173281712816f2816d281692816728165281632815f2815b281592815728153281512814f2814d281492814728143281412813d2813b2813928137281332813128129281272812328121281112810f2810b28109280ff280fd280f9280f7280e7280e5280e12804f280492804728043280412803d2803b280372803528033280312802d2802b2802728025280212801f2801b28051))
  (.nd (.lf
  0x83bf084ca083c3084c0083c7084b6083cb084ac083cf084a2083d308498083d70848e083db08484083df0847a083e308470083e708466083eb0845c083ef08452083f308448083f70843e083fb08434083ff0842a084030842008407084160840b0841108ff10919608ff50918c08ff90918208ffd09178090010916e0900509164090090915a0900d091500901109146090150913c09019091320901d09128)
  (.lf 0)))

def shaXorReads51 : BTree :=
  .nd (.nd (.nd (.lf
  0x14b0b14acf1412d1313f13115130a412ece12eaa16528164ec14b0d14ad11412f13143131171308012ed012eac1649214b0f14ad31413113147131191308212ed212eae1748615bf115ba114e8f141cb1414d14136140f2140321770c1745c15bf315ba314e61141cf1414f14138140f414034177021742a15bf515ba514e33141d3141511413a140f614036176fa173f215bf715ba714e07141d7141531413c)
  (.lf
  0x584e0580e057ce0577805748056f2056c20566c0563c055fc055ac0557005d2b05d0105cf305cef05cb505cc505cb305caf05c7705c7505c7105c6f05c2f05c3f05c2d05c2905bef05bff05bed05be905bb105baf05bab05ba905b6905b7905b6705b6305b2905b3905b2705b2305ae905af905ae705ae305aab05aa905aa505aa305a6505a6305a5f05a5d05a1f05a1d05a1905a17059d9059d7059d3059d1))
  (.nd (.lf
  0x11c9c11c5f11c5211c1511c0811bcf11bc211b8711b7a11b3f11b3211af711aea11aaf11aa211a6511a5811a1911a0c119c5119b8119731196e1194f0dbf10dbe00dbd30dbc00dbb10db9e0db8f0db7c0db6d0db5a0db4b0db380db290db160db070daf40dae50dad20dac30dab00daa10da8e0da7f0da6c0da5d0da4a0da3b0da280da190da060d9f70d9e40d9d50d9c20d9b30d9a00d9910d97e0d96f0d95c)
  (.lf 0))) (.nd (.nd (.lf
  0x560c053ca053c0053b6053ac053a2053980538e053840537a05370053660535c05352053480533e053340532a05320053160530c05302052f8052ee052e4052da052d0052c6052bc052b2052a8069960695e0691a068d806894068520680e067c8067860674606706066c20667c06636065f4065b40657406530064ee064aa064640641e063d806396063520630c062ca062860624406200037da037a403768)
  (.lf
  0x8cfb08cf708cbd08cc108cbb08cb708c7d08c8108c7b08c7708c3f08c3d08c3908c3708bf908bf708bf308bf108bb108bb508baf08bab08b7108b7508b6f08b6b08b3108b3508b2f08b2b08af308af108aed08aeb08aad08aab08aa708aa508a6508a6908a6308a5f08a2508a2908a2308a1f089e5089e9089e3089df089a5089a9089a30899f0896708965089610895f0891f089230891d08919088e1088df))
  (.nd (.lf
  0x22e6222b2d22e5222b2922e4c22b1522e4022b2f22d8e22b0322d8622b9d22d7c22ac122d7222ab122d6822aa722d6022aa122d3c22a9f22d1622a8322ca222ab722c8622a6d22c7622ba322c3c22a5922c3622a4d22be022bdd22a3022a2f22a2022a1d229d6229612299e229572297f234a1237a82349723792234a3237442348123738234772372e2346323726234592371c2344b2371423441236f423467)
  (.lf 0)))

def shaXorReads52 : BTree :=
  .nd (.nd (.nd (.lf
  0xf7e00f3e00f2b00ed900ec241e3441dca035cc0359c0200701f870136100f8000f4000eed00edb00ec441dc041dae03592035600200901f890136300f8200f4200eef00edd00ec641da441d620356e0352e0200b01f8b0136500f8400f4400ef100edf00ec841d9e41d4203524034f20200d01f8d0136700f8600f4600ef300ee100eca41d8e41d4603500034c00200f01f8f0136900f8800f4800ef500ee3)
  (.lf
  0x1bb4a1b9c81bb421b9cc1bb3a1b9d01bb2e1b9d41bb221b9d81bb161b9dc1bb0e1b9e01bb081b9e41bafa1b9e81baf21b9ec1bae61b9f01badc1b9f41bad21b9f81baca1b9fc1babc1ba001bab41ba041baaa1ba081baa01ba0c1ba961ba101ba8e1ba141ba861ba181ba781ba1c1ba701ba201ba661ba241ba5a1ba281ba521ba2c1ba461ba301ba3a1ba341ba481c97a1cb1c1c97e1cb121c9821cb081c986))
  (.nd (.lf
  0x2913a28cae28c782a8b82a8942a8742a85a2a7f42a8d62a7cc2a7aa2a80c2a7862a76e2a7542a73e2a71e2a70e2a6f82a6e62a6d62a6be2a6ae2a6942a6782a6822a6662a64e2a72c29f2829f3c29eae29e9629e3429e162b8ba2b8122b8002b8402b7762b73c2b6de2b6942b6442b6042b5e02b5c62b5b22b5422b5102b4d22b4dc2b4f22b4aa2b49a2b4622b3bc2b3a02b3722b35a2b35c2b35e2b28e2b27a)
  (.lf
  0x372b3372af372ad372ab372c1372a9372a5372a3372a13729d3729b37299372973725b372593725738706386fe386ec386e2386da386c6386cc386b0386a83869e3868e3868438676386663866c38654386443863a3862c3861e3863238608385fa3860c385e8385dc385ae3870a3857e385683854e3870738705386ff386fd386fb386f9386f5386f3386ed386eb386e7386e5386e3386e1386db386d9386d7)))
  (.nd (.nd (.lf
  0x5207051f0051ac050ec0803e0800006a3f069bf05e050529705209051f2051ae050ee0800e07fc006a41069c105e070529b0520b051f4051b0050f007fce07f8006a43069c305e090521f0520d051f6051b2050f207f8e07f4006a45069c505e0b052230520f051f8051b4050f407f4e07f0006a47069c705e0d0522705211051fa051b6050f607f0e07ec206a49069c905e0f0522b05213051fc051b8050f8)
  (.lf
  0x2ef202ef182ee362f2312f22f2f22b2f2292f2272f2252f2212f21f2f21d2f21b2f2192f2152f2132f2112f20d2f20b2f2092f2072f2032f2012f1ff2f1fd2f1f92f1f72f1f52f1f32f1ef2f1ed2f1eb2f2332f1e92f1e52f1e32f1e12f1dd2f1db2f1d92f1d72f1d32f1d12f1cf2f1cd2f1c92f1c72f1c52f1c32f1bf2f1bd2f1bb2f1b92f1b52f1b32f1b12f1af2f1ab2f1a92f1a72f1a52f1a12f19f2f19d))
  (.nd (.lf
  0xa4e50a6fa0a4e30a6e60a4e10a6d20a4df0a6be0a4dd0a6aa0a4db0a6960a4d90a5c20a4d70a5ae0a4d50a59c0a4d30a58a0a4d10a5780a4cf0a5660a4cd0a5540a4cb0a5420a4c90a5300a4c70a51e0a4c50a50c0a4c30a4b90aff90b20c0aff70b2060aff50b1e80aff30b1e20aff10b1c40afef0b1be0afed0b1a00afeb0b19a0afe90b1880afe70b1760afe50b1640afe30b1520afe10b1400afdf0b12e)
  (.lf 0)))

def shaXorReads53 : BTree :=
  .nd (.nd (.nd (.lf
  0x2478c245fb22e1b21c012168d21552211092110624784245f322e1d21bdb2156d21554210c1210ba24778245bf22d5d21b732189521556210c3210bc2476c245f922d3921b272189921558210c52109424760245b322d1321ae52189d2155a210c72102424754245b122ceb21ab12169121108210bf20ff8247422464722ced21ab321571210c020f5d20f522473c2464922cef21a0f21575210c220f5f20f42)
  (.lf
  0x13ce413c9013c4013bf613bae13b5613b0813abc13a7213a26139ce1398013932138e2138961384c137fc137ae1375a137081402d1400113ffd13ff913fbb13fb913fb513fb113f6b13f6913f6513f6313f1d13f1b13f1913f1513ecd13ecb13ec713ec313e7713e7b13e7513e7113e2913e2d13e2713e2313ddd13ddb13dd913dd513d8b13d8913d8513d8313d3913d3713d3313d3113ce713ce513ce313cdf))
  (.nd (.lf
  0x401e13ff123fbc83fbc13fbbd3fbbb3fbb841161400253ff083f8063f78f3f7893f7813f77e4113b400a33fefc3f7d63f4733f4703f46d3f46b4105b3fff73fef43fa9b3f7b83f45b3f4523f44f40f49400a53feec3f9b33f7a23f4843f47f3f47d40f633ffd53fee23fbc03f9033f40d3f4063f40340e19400633fed63f8c53f7883f3e53f3dc3f3d940e01400353fecc3f86d3f4723f3d33f3ce3f3cd40e77)
  (.lf
  0xdf1c0df120df080defe0def40deea0dee00ded60decc0dec20deb80deae0dea40de9a0de900dfbd0dfbb0dfb70dfb50dfb30dfb10dfad0dfab0dfa90dfa70dfa30dfa10df9f0df9d0df990df970df950df930df8f0df8d0df8b0df890df850df830df810df7f0df7b0df790df770df750df710df6f0df6d0df6b0df670df650df630df610df5d0df5b0df590df570df530df510df4f0df4d0df490df470df45)))
  (.nd (.nd (.lf
  0x179b2179a817982179781796e179641795a18c3c18c3218c2818c1e18c1418c0a18c0018bf618bec18be218bd818bce18bc418bba18bb018ba618b9c18b9218b8818b7e18b7418b6a18b6018b5618b4c18b4218b3818b2e18b2418b1a194501941c193e2193a61936e1933819300192c4192841924419204191c4191841914619102190bc1907a1903a18ff618fb418f7418f3018eea18ea418e5e18e1818dd6)
  (.lf
  0x1328f1328b132891328713285132811327f1327d1327b132771327513273132711326d1326b132691326713263132611325f1325d1325913257131ad131ab131a7131a51317b131791317513173131711316f1316b131691316713165131611315f1315d149a414986149681494c1492c1490e148ee148d0148b41489414872148501483214812147f4147d8147b81479a1477e14762147461472614708146ec))
  (.nd (.lf
  0x2ab802ab402aac02aa902a7902a7002a6c02a6402a3202a2e02a2602a23029f3029ea029e6029de029ac029a8029a00299d02966029620295a02957029200291c0291402911028e1028d8028d4028cc028a102898028940288c0286102858028540284c0282102818028140280c027e1027d8027d4027cc027a102798027940278c0275a027560274e0274b02714027100270802705026ce026ca026c2026bf)
  (.lf 0)))

def shaXorReads54 : BTree :=
  .nd (.nd (.nd (.lf
  0x2d3de2d3cc31c2231a122fb0d2fb092e9dd2dee52deab2ddb82d3e02d3ce31c1a318982fc072fc032e98d2dec72de6b2dda22d43a2d43431c103187e2faf52faf12e9bd2df292deb12dd922d39c2d396317be316b22fae12fadd2e9312df032de712dd942d3062d30031690316642facf2facb2e95d2df2f2de3d2dd5e2d1d22d1c631640316182fabd2fab92e9012df092de1d2dd5c2d1d42d1c83161a2f309)
  (.lf
  0x2e9092e9072e9032e8ed2e249302a23027e2fff42ff842ff9c2ffd62ffb62ff622fefa2ff142ff4a2ff382fe2e2fbea2fbd62fbc42fbb02fb9c2fb882fb742fb602fb4e2fb3c2fb2a2fb182fb062fc002faee2fada2fac82fab6302a33027f3013b301372fecf2fff52fecd2fec92febd2ff852febb2feb72fead2ff9d2feab2fea72fe9b2ffd72fe992fe952fe8f2ffb72fe8d2fe892fe872ff632fe852fe81))
  (.nd (.lf
  0x2aaa124eb924eb4245f0245d035c4334a15349fe2aaa724ebb24eb6245ca36d2535bcd35bb135b9a2bb9f263572633d263382576436ff836d2935bd135bb335b9c2bd702bba32635b2633f2633a260a02576036ff036d2d35bd535bb535b9e2bd662bba72635f263412633c2608c2576636fea36d6b35bd935bb735ba02bd5c2bbab26363263432633e25e9a2576e36fde36d6f35bdd35bb935ba22bd522bbaf)
  (.lf
  0x257502573c2572625710256fa256e4256ce256b8256a22568c25676256602564a256342561e25608255f2255dc255c6255b02559a255842556e25558255422552c2551625500254ea254d4254be257512574f2574b257492573d2573b25737257352572725725257212571f257112570f2570b25709256fb256f9256f5256f3256e5256e3256df256dd256cf256cd256c9256c7256b9256b7256b3256b1256a3)))
  (.nd (.nd (.lf
  0x41a6241a5b41a5741a5a41a4a41703416d141702416ce416c6416a8416804166b416494166a4164741643416464158d4157d4158c4157a414be413924138a4136541361413644135e41cfe41cf441cec41ce041cd441cc441cbc41cb041c9c41c9441c8c41c8441c7641c6a41c6041c4c41c4441c3441c2c41c1a41bf841bd241bb441b9241910418fa418f2418d041524411d001ebe01e7a01e3401dec01dac)
  (.lf
  0x2068d2068b206872068520683206812067d20669205c9205c7205c3205c1205bf205bd205b9205b7205b5205b3205af2059d20525205232051f2051d2051b20519205152051320511221de220dc21e3c2202e21e2421e1821e1e21e0e21df821dec21d7821cb821cc021c9621c5821c1221b9221b8621b3221a5a21a4421a2221a1e219d021986218be218b2218c42169a215b2215a6221df220eb220e7220e5))
  (.nd (.lf
  0x6b1406c3a06b1806c3006b1c06c2606b2006c1c06b2406c1206b2806c0806b2c06bfe06b3006bf406b3406bea06b3806be006b3c06bd606b4006bcc06b4406bc206b4806bb806b4c06bae06b5006ba406b5406b9a06b5806b9006b5c06b8606b6006b7c06b6406b7206b6806b6e0773e078e207742078d807746078ce0774a078c40774e078ba07752078b007756078a60775a0789c0775e078920776207888)
  (.lf 0)))

def shaXorReads55 : BTree :=
  .nd (.nd (.nd (.lf
  0x182d7182b21678f15f6915085150651505a1500e182931826e1679115f6b15089150671505c150101824d182281679315f6d1508d150691505e150121820b181e61679515f6f150911506b1506015014181cb181a61679715f71150951506d15062150161818b181661679915f73150991506f15064150181814718122166b915f751509d15071150661501a18101180dc166bb15f77150a115073150681501c)
  (.lf
  0x3edad3ed6b3eded3ed693ed653ed633ed6f3ed613ed5d3ed5b3ed593ed553ea713ea6f3ea6d3ea693e9ed3e9e53c4863c4603c4503c4463c43a3c3c63c3a03c2ae3c27c3c2603c2423c2383c21e3c2103c1e63c1dc3c1cc3c1d03c0ba3c0b43c0523c0363c0223c0383c03c3bc383bb723baf63b9e43b9843b8ba3c4873c4613c45f3c45b3c4593c4573c4533c4513c44f3c44d3c4493c4473c4453c4433c43f))
  (.nd (.lf
  0x2e8162e8222e7d82e8242e81a2e7e42e7dc2e7a62e79e2e7662e7622e71e2e71a2e6e02e6dc2e69c2e6982e64e2e64c2e6182e6162e5d82e5d42e59e2e59a2e5602e55c2e5262fa002fd2a2fa042fd1e2fa082fd182fa0c2fd0e2fa102fd022fa142fcfa2fa182fcf02fa1c2fce42fa202fcd82fa242fcce2fa542fcc62fa582fcbc2fa5c2fcb22fa602fca82fa642fca02fa682fc962fa6c2fc8a2fa702fc80)
  (.lf 0))) (.nd (.nd (.lf
  0x20c7020c5a20c4420c2e20c1820c0220bec20bd620bc020baa20b9420b7e20b6620b4e20b3620b1e20b0620aee20ad820ac220aaa20a9420a7e20a6820a5220a3c20a2620ca820c9220c7c20c6620c5020c3a20c2420c0e20bf820be220bcc20bb620ba020b8a20b7420b5c20b4420b2c20b1420afc20ae420ace20ab820aa020a8a20a7420a5e20a4820a3220a1c1e4b01e49c1e4861e4701e45a1e4441e42e)
  (.lf
  0x620b06022060180600e0600405ffa05ff005fe605fdc05fd205fc805fbe05fb405faa05fa005f9605f8c05f8205f7805f6e05f6405f5a05f5005f4605f3c05f3205f2805f1e05f1405f0a05f0005ef606023060210601d0601b060190601706013060110600f0600d0600906007060050600305fff05ffd05ffb05ff905ff505ff305ff105fef05feb05fe905fe705fe505fe105fdf05fdd05fdb05fd705fd5))
  (.nd (.lf
  0x212702117621268211662125a21152212522115621248211c4211ea21158211e02115a211d82111c211ca210f2210cc20fee20fe420fd420faa20fa620f9620f8a20f8220f7220f7620ed220ec820e3a20ec020e0c20eb220e4c20e4220df020dc620db820dc820dac20d8e20d7c20d4c20cf420cec20cdc20cd4221e0220ec220de2204e21e42220482203021fca21e3421e8021e3221e7421e3021e6e21e10)
  (.lf 0)))

def shaXorReads56 : BTree :=
  .nd (.nd (.nd (.lf
  0xf8310f81a0cf59001720d5470cee50cec90ceb2000400d7260d54b0cee90cecb0ceb4001660003e0d71c0d54f0ceed0cecd0ceb60015c0003c0d7120d58d0cef10cecf0ceb8001520003a0d7080d5910cef50ced10ceba00148000380d6fe0d5950cef90ced30cebc0013e000360d6f40d5990cefd0ced50cebe00134000340d6ea0d59d0cf010ced70cec00012a000320d6e00d5a10cf050ced90cec200120)
  (.lf
  0x4049e4021c40496402664048a403624047e4028e40474402b6404664024a4045e4021640448402d440442402ee403de4029e403d440234403c640244403bc401fe403b0401a0403aa40186403a04016c403944018c4038040138403784009e4036a4004c403484002c40342402d8403384028240322402b84031c4023a402f64024c402ea402dc401a8414a2417ba4144e417ae412d0417a6412ba4179441156))
  (.nd (.lf
  0x2a7b82a81e2a7a22b5e82b5d02b8c42b8202b8222b84a2b7822b7442b6f02b6a82b6282b60c2b5ea2b8c82b8262b82a2b84e2b7862b7482b6f42b6ac2b62e2b8cc2b82e2b8322b8522b78a2b74c2b6f82b6b02b6322b6102cb542cb562cc742cc8e2cc502cbfa2cbfe2cc002cc2a2cba22cb822cb582cb5c2cc782cc922cc542cc042cc082cc0c2cc2e2cba62cb862cc7c2cc962cc582cc0e2cc102cc142cc32)
  (.lf
  0x3a10d3a1093a1073a1053a1033a1013a0fd3a0fb3a0f93a0f53a0f33a0f13a0ef3a0eb3a0e93a0e73a0e53a0e13a0df3a0dd3a11d3a0db3a0d73a0d53a0d33a0cf3a0cd3a0cb3a0c93a0c53a0bf3a0bd3a0bb3a0b33a0b13a0af3a0ad3a06b3a0693a0673a0653a0613a05b3a0593a0a13a0573a0533a0513a04f3a0453a0433a0413a0493a03f3a03b3a0393a0373a0333a0293a0273a0833a0253a0213a01f)))
  (.nd (.nd (.lf
  0x9c4c09c2309c0809b480c5120c4c00b0f50b0ad0a59909c8f09c4e09c2509c0a09b4a0c5040c4ae0b0f70b0af0a58709c9309c5009c2709c0c09b4c0c4f80c4b00b0f90b0b10a57509c9709c5209c2909c0e09b4e0c4ee0c4b20b0fb0b0b30a56309c9b09c5409c2b09c1009b500c4e60c4920b0fd0b0b50a55109c9f09c5609c2d09c1209b520c4de0c4940b0ff0b0b70a53f09ca309c5809c2f09c1409b54)
  (.lf
  0x32e8932e6732e6332e5d32e5f32e5b32e5732e5532e5332e4f32e4b32e4932e4732e4332e4132e3d32e3b32e3532e3132e2f32e3332e2d32e2932e2732e2532e2132e1f32e1b32e1932b7132b6b32b4f32b4d32b4932b4532b2732b2532b2132b1d32af132af532aef32aeb32ad732ad532ad132acb32aa932feb32aa732aa332a8532a8332a7f32a6332a2132a2532a1f32a1b329e5329e9329e3329df329a5))
  (.nd (.lf
  0x2d7052dda42d6e12dd7c2d5852dd722d5872dd4e2d5612dd3c2d5552dd362d4f52dd2e2d4ed2dd1a2d4c72dd0a2d3852d3c02d3872d3b62d3832d4312d3aa2d38f2d3122d2f72d1ea2d1d62d1a72d18b2cfde2cfd72f08b2eff92eef62eed52eec62ef552eec02ef2d2edb02edb32eda22ed852ed582ed5b2ed4c2ed102ed0f2ee492ecdc2ecc52eca22eca52ec6e2ec3a2ec392ec292ec0c2ebe72ebd82ebb3)
  (.lf 0)))

def shaXorReads57 : BTree :=
  .nd (.nd (.nd (.lf
  0x2d4862d2af2b47b2a26b29769295c4295a92957e2d4582d2b32b47d2a24f2976d2965029643296402d4502d29b2b47f2a233296f1295ab295a2295802d4462d28f2b3cf2a213296f5295a429549295462d4632d2802b3af2a1f7296f9295a62952d2951c2d2752d25e2b31d2a1d9296fd295a82952f2951e2d2612d2442b31f2a1b52967d29642295312952a2d2492d2302b32129fb129681295aa2953329520)
  (.lf
  0x19151199d91914f1914b1910f191111910d19109190cb190c9190c5190c31908919087190831908119049190471904319041190051900318fff18ffd18fc318fc118fbd18fbb18f8318f8118f7d18f7b18f3f18f3d18f3b18f3718ef918ef718ef318ef118eb318eb118ead18eab18e6d18e6b18e6718e6318e2318e2718e2118e1d18de118de518ddf18ddb18da118da518d9f18d9b18d6918d6718d6318d5f))
  (.nd (.lf
  0x115c6110700f5fb0f5df0f5c80e3610e3470e3422454a242a11b2881abc9115bc110480f5fd0f5e10f5ca0e3630e3490e34424534242a51b24e1abcd115b21103c0f5ff0f5e30f5cc0e3650e34b0e3462451e242a91b2121abd1115a8110300f6010f5e50f5ce0e3670e34d0e34824508242ad1b1da1abd51159e110240f6030f5e70f5d00e3690e34f0e34a244f2242b11b1a01abd911594110180f6050f5e9)
  (.lf
  0x1713b17137171131710517103170ff170dd170cf170cd170c9170a317095170931708f1706b1705d1705b170571703117023170211701d16ff716fe916fe716fe316fbf16fb116faf16fab16f8916f7b16f7916f7516f4f16f4116f3f16f3b16f1716f0916f0716f0316edd16ecf16ecd16ec916ea516e9716e9516e9116e6b16e5d16e5b16e5716e2b16e1d16e1b16e1716deb16ddd16ddb16dd716daf16da9)))
  (.nd (.nd (.lf
  0x22afa22af222abc22aac22a9c22a9222a8822a7c22a7422a6822a6022a5422a4822a4022a2822a122295c22ebe22eb222ea822e9c22e9022e8822e7c22e7022e6622e5c22e5022e4422d9422d8a22d8022d7622d6c22d6422d4022d1a22ca822c8c22c8222c7222c3a22be422a3422a24229da229d022f2222f2c22ef422ee822ed022f4622dfe22cfe22c9e22cb222ba8229a822f3b22f3922f3522f2322f2d)
  (.lf
  0x16c4316c4116c3d16c3b16c3916c3716c3316c3116c2f16c2d16c2916c2716c2516c2316c1f16c1d16c1b16c1916c1516c1316c1116c0f16c0b16c0916c0716c0516c0116bff16bfd16bfb16bf716bf516bf316bf116bed16beb16be916be716be316be116bdf16bdd16bd916bd716bd516bd316bcf16bcd16bcb16bc916bc516bc316bc116bbf16bbb16bb916bb717476174441740c173d0173921735817320))
  (.nd (.lf
  0x123d21228a11cd011ccf123961227e11c8811c871238a1227411c3e11c3d123821226c11bf411bf3123781226011bae11bad1236c122691225411b66123641224e121ef11b1e12244121f111ad411ad212238121f511a8c11a861222e121ed11a3c11a3a12226119f2119ee119eb1199c1199a1199411991119621195d12cbe12c4f131ce12f8a12cc012c6d131c412f6612cc212c55131bc12e7212c4d12c30)
  (.lf 0)))

def shaXorReads58 : BTree :=
  .nd (.nd (.nd (.lf
  0x3b2ad3911738ca63779b3686536452360633603a3b2fb38c9f38c8c3777b3684f3639036065360423b24538c8438c633718936b3d367643670d360163b1ff38c7e38c613716736a17366c93605e360043b18f38c7438c5b3714936a193671f3606035e643b1a738c3c38c393711d3696b3665f3606235e1238c3137e87370ff3696d366253606435c6e3c4733bbcf3967737c6937c6137c5e37c5c3c38d3bb13)
  (.lf
  0x366bf366bd366b9366b7366af36713366a13669d36659366493664536641365fb36607365f9365f5365e5365e3365d9365d7365d5365d3365c9365bb365b9365b7365b33657536435364333642f364273642536423364193641736415364133640b364073640536403363f9363f136399363973639336389360af3675b360ad360a93605d3605b360573604f3604d3604b36047360453602d3602f3602b36027))
  (.nd (.lf
  0x2b08a2af8239a883990b3926f39218391ef30890307df2bc392bbb12bba82b07a2af5e39a5a3990f392733921a391f13088a307e32bc3d2bbb52bbac2b0722af7e39a1639913392773921c391f330880307e72bc412bbb92bbb02b0622b00039a0e399173927b3921e391f530876307eb2bc452bbbd2bbb42b05a2af8439a063991b3927f39220391f73086e307ef2bbc12bbb82b04a2af7c399f23991f39283)
  (.lf
  0x29cc729cc329cc129cb329cb129cad29cab29c9d29c9b29c9729c9529c8729c8529c8129c7f29c7129c6f29c6b29c6929c5b29c5929c5529c5329c4529c4329c3f29c3d29c2f29c2d29c2929c2729c1929c1729c1329c1129c0329c0129bfd29bfb29bed29beb29be729be529bd729bd529bd129bcf29bc129bbf29bbb29bb929bab29ba929ba529ba329b9529b9329b8f29b8d29b7f29b7d29b7929b7729b69)))
  (.nd (.nd (.lf
  0x21db621d5821d3021d0621c8c21c4621bf421bd221b6a21b1e21adc21a7e21a74219f6219a22195c2191021906216ba215f8215ee220fe220602203c21fda21f5a21f4a21efc21ebe21e5221d9421d6621d1621cec21c7221c3221c0221bbe21b5621b0621ac821aa221a9821a06219b62196c219342192a216ce2162a21620230e0230d6230cc230c2230b8230ae230a42309a23090230862307c2307223068)
  (.lf
  0x24820248442480a24800247f0247f6247dc247d2247c4247b8247ac247a424798247942477e24772247662475c2474e24744247362472a2487e24716246e4246922464e245d224843248412483d2483b2483724835248312482f2482b2482924825248212481f248452481d248192481724815248112480f2480b248092480524801247ff247fd247f5247f1247ef247f7247ed247e9247e7247e5247e1247df))
  (.nd (.lf
  0x2867828856286582884c2864228840287aa28832287d228828287802882028756288182872428808286de287fe286e2287f22876a287e82867c287e0287ae287da287d6287b8287842875e2875a2872c28728287b2286fc286f4286ea28766286ee28682286802865c293d8294c0293dc294b6293da294ac293d6294a22938e29498293662948e2930e294842930c2947a29302294702929e29466292a22945c)
  (.lf 0)))

def shaXorReads59 : BTree :=
  .nd (.nd (.nd (.lf
  0x2113a20cd31f7ad1d5ad1c9891c96b1c9601c5642113220ccb1f7af1d5af1c98d1c96d1c9621c5342112820ccd1f7b11d5b11c9911c96f1c9641c5042111e20ccf1f7b31d5b31c9951c9711c9661c4c42111220b6f1f7b51d5b51c9991c9731c9681c4922110a20b571f7b71d4351c99d1c9751c96a1c49420fde20b3f1f7b91d4371c9a11c9771c96c1c3d420fd620b271f7bb1d4391c9a51c96e1c2a51c292)
  (.lf
  0x3e08b3e0433dfc13dfe33dfbf3dfb33df9d41a2e41a4c41b5a41a1041a2641a02419f2419f6419d8419e0419e6419be419b441a5041a5441a324163a4162e41626416a2416104160c416404156841532414aa4132c41332412c241120410e441a2f41a4d41a2d41a2941a2341b5b41a2141a1d41a1b41a1941a1541a1341a1141a2741a0f41a0b41a0941a0741a0341a01419ff419fd419f9419f3419f1419f7))
  (.nd (.lf
  0x20b1620b0a20afe20af220ae620adc20ad020ac620aba20aae20aa220a9820a8c20a8220a7620a6c20a6020a5620a4a20a4020a3420a2a20a1e20a1420a1020a0e1e4b41e4a41e4a01e48e1e48a1e4781e4741e4621e45e1e44c1e4481e4361e4321e4201e41c1e40a1e4061e3f41e3f01e3de1e3da1e3c81e3c41e3b21e3ae1e39c1e3981e3861e3821e3701e36c1e35a1e3561e3441e3401e32e1e32a1e318)
  (.lf 0))) (.nd (.nd (.lf
  0x37362373583734e373443733a373303732637318372fa372f0372e6372dc372d2372c6372bc372b2372a8372a03729638704386f8386ea386e0386d4386c4386bc386ae386a4386983868c3867e38674386643865c386503864238634386263861c3861438604385f8385f0385e2385d8385a63857a3857238566389aa389a0388f0388e8388de388d2388bc388b2388a8388a0388963888c388823886c387a0)
  (.lf
  0x9a8b09a8709a8509a4909a4709a4309a4109a0709a0509a01099ff099c3099c1099bd099bb099810997f0997b099790993d0993b0993709935098fb098f9098f5098f3098bb098b9098b5098b30987b0987909875098730983b098390983509833097f7097f5097f1097ef097b1097af097ab097a90976f0976d09769097670972f0972d0972909727096ef096ed096e9096e7096ab096a9096a5096a309665))
  (.nd (.lf
  0x294f0294202909028fc028c7028ba028870287a028470283a02807027fa027c7027ba027870277a0274302736026fd026f0026b7026aa02671026640262b0261e025e9025dc025a5025980255f02552025190250c024d3024c6024910248402451024440240d02400023c7023ba023810237c023670316b037e403169037b203167037780316503742031630370a03161036d40315f036a00315d036680315b)
  (.lf 0)))

def shaXorReads60 : BTree :=
  .nd (.nd (.nd (.lf
  0x3b1d53b1d13714336839367df3647035e5635e503c40e3c3ee3b1c53b1c13710936817367333644635e0835e023c3dc37e7f37e7b3710d367e7366d93645e35c6035c5a3d7363cc073cbf93bbc137a41379f7379f0379ec379e63df643d72e3cc5b3cc573bb8f37a0b37a0537a0237a00379fa3df3e3d7263cbdf3cbdb3ba7737a49379d3379d0379ce379c83df1a3d7383cbd93cbd53ba2f37aeb379bd379b8)
  (.lf
  0x3ff2f3ff2d3ff293ff273ff253ff233ff1f3ff1d3ff1b3ff193ff153ff133ff113ff0f3ff0b3ff093ff073ff053ff013feff3fefd3fefb3fef93fef53fef33fef13feed3feeb3fee93fee73fee33fee13fedf3fedd3fed93fed73fed53fed33fecf3fecd3fecb3fec93fec53fec33fec13febf3febb3feb93feb73feb53feb13feaf3fead3feab3fea73fea53fea33fea13fe9d3fe9b3fe993fe973fe933f4e5))
  (.nd (.lf
  0x3c2243a1e33a12f3a12a3c21c3c1b43a1e73a1313a12c3c2143c1a23a1b93a12e3a11f3c20a3c18c3a13b3a1303a0c13c1da3c1a03a13f3a11e3a0b53c1d43c1603a1433a0c03a0a33c1ce3c0c23a1473a0b43a05d3c0bc3c0a23a14b3a0a73a0a23c0b03c0703a14f3a05c3a04b3c04e3c0343a1533a0a63a0853c02e3bfca3a1573a04a3a02b3c0263bfb43a0893a0843c01c3bfb63a02f3a02a3c03a3bc2a)
  (.lf
  0x33e7533e1933e1533e1333e1133e0d33e0b33e0733e0533dfb33df933df733dff33df533df133def33ded33de933de733de333de133ddd33dd933dd733ddb33dd533dd133dcf33dcd33dc933dc733dc333dc133dbd33dbb33db933db733db333db133daf33dad33da933da733da333f0f33da133d9d33d9b33d9933d9533d5333d3f33d4133d3d33d3933d3733d3533d31339c3339c1339bf339bb339b9339b1)))
  (.nd (.nd (.lf
  0x35c1035c1435c1835c1c35c2035c2435c2835c2c35c3035c3435c3835c3c36d6836d6c36d7036d7436d7836d7c36d8036d8436d8836d8c36d9036d9436d9836d9c36da036da436da836dac36db036db436db836dbc36dc036dc436dc836dcc36dd036dd436dd837de037de437de837dec37df037df437df837dfc37e0037e0437e0837e0c37e1037e1437e1837e1c37e2037e2437e2837e2c37e3037e3437e38)
  (.lf
  0x2a99d2a99b2a9972a9952a9932a9912a98d2a98b2a9892a9872a9832a9812a97f2a97d2a9772a9752a9732a9712a96d2a96b2a9692a9792a9672a9632a9612a95f2a95b2a9592a9572a9f92a9552a9512a94f2a94d2a9492a9472a9452a9432a93f2a93d2a93b2a9392a9352a9332a9312a92f2a92b2a9272a9252a9292a9232a91f2a91d2a91b2a9172a9152a9132a9112a90d2a90b2a9092a9072a9032a901))
  (.nd (.lf
  0x2a77b2a9762a8c52a96a2a8ab2a9602a8832a95a2a8672a94e2a8332a9462a8e72a93e2a7d92a9322a7b72a9262a81d2a91c2a8c92a9162a8af2a9082a8cb2a8fe2a8872a8f62a8052a8eb2a8442a83e2a7dd2a8302a7bb2a8242a8212a8352b8bf2b99c2b8172b9962b8c72b9882b8452b9822b8252b9762b84d2b96c2b7852b9642b7472b95a2b6f32b9502b6ab2b9442b62b2b93e2b60f2b9302b5ed2b92a)
  (.lf 0)))

def shaXorReads61 : BTree :=
  .nd (.nd (.nd (.lf
  0x1a5cf197711975d1974619666196601d4ec1d4881b6a91b6951a5d1197751975f19748196541964e1d4e21d4701b6ab1b6971a5d319779197611974a196401963a1d4d81d4461b6ad1b6991a5d51977d197631974c1962e196281d45c1d34e1b6af1b69b1a5d719781197651974e1961c196161d3441d32c1b6b11b69d1a5d91978519767197501960a196041d31e1d3001b6611b65d1a5db197891976919752)
  (.lf
  0xb0910b08f0b08b0b0890b0870b0850b0810b07f0b07d0b07b0b0770b0750b0730b0710b06d0b06b0b0690b0670b0630b0610b05f0b05d0b0590b0570b0550b0530b04f0b04d0b04b0b0490b0450b0430b0410b03f0b03b0b0390b0370b0350b0310b02f0b02d0b02b0b0270b0250b0230b0210b01d0b01b0b0190b0170b0130b0110b00f0b00d0b0090b0070b0050b0030afff0affd0affb0afb60afac0afa2))
  (.nd (.lf
  0x33be133d9433bb933d3833989339c03397d339ba33973339a633941339a03393f33992339433398c3391d3395e3391b33952339473390534e8534e7b34e7234e5234ccd34dac34cbd34da234ccf34d8a34cb934d8434cd334d7834c8d34d6834c7f34d5e34c9b34d5434c9f34d4834c5f34dbf34d3c34d3634c4734d2c34c6334d1a34bf134d1034cd534d0634bfd34db934cfc34cf634bc534ce634bd334cde)
  (.lf
  0x12a9012a5012a3012a10129f0129b012990129701295012910128f0128d0128b012870128501283012810127d0127b012790127701273012710126f0126d012690126701265012630125f0125d0125b012590125501253012510124f0124b012490124701245012410123f0123d0123b012370123501233012310122d0122b012290122701223012210121f00de600dd200dbc00da600d9000d7a00d6400d4e)))
  (.nd (.nd (.lf
  0xfaee0fa8c0fa300f9d40f9720f90a10408103b6103541023e10126100100ffae0fef20fe920fdd60fd740fcb80fba20fb400fae0103bc1035a102fb102f7102fa1029f1029b1029e10244101e3101df101e21018910185101881012c100cd100c9100cc100711006d10070100160ffb40ff550ff510ff540fef80fe980fe370fe330fe360fddc0fd7a0fd1b0fd170fd1a0fcbe0fc5f0fc5b0fc5e0fc030fbff)
  (.lf
  0x10e5910e5510e4b10e3d10e3b10e3710e2b10e1d10e1b10e1710e0910dfb10df910df510de710dd910dd710dd310dc510db710db510db110da310d9510d9310d8f10d8510d7710d7510d7110d6510d5710d5510d5110d4310d3510d3310d2f10d2110d1310d1110d0d10cff10cf110cef10ceb10cdd10ccf10ccd10cc910cbf10cb110caf10cab10ca310c9510c9310c8f10c8310c7510c7310c6f10c6510c57))
  (.nd (.lf
  0x61c7075d20756e075520750c074a20746207422073e2073a20736207322072e2072c6072800723a071f40718a0716e07104070e80707e0706206ff806fdc06f7206f3206f1606f1b06f1706ef1082420820a081ca081ae0814408104080e80807e0806207ff807fb807f7807f3807ef807edc07e9607e2c07e1007da607d8a07d4407cda07cbe07c7807c0e07bce07b8e07b4e07b0e07ace07a8e07ab707a8f)
  (.lf 0)))

def shaXorReads62 : BTree :=
  .nd (.nd (.nd (.lf
  0x26df426dee2b5882b576292192921528623270c426e0926e0326de226ddc2b57c2b536292272922328607270c72708e26e0526dd026dca2b52c2b506291f7291f3285f5270912703826d4926d4026d3a2b4fc2b458291e7291e3285f72703d2703a26d2326d1826d122b4502b412291d9291d5285cf2704126fce26d0726cfc26cf62b4462b406291c5291c1285af26fd126f5c26cbe26cbd26cba2b43c2b41a)
  (.lf
  0x28615286132860f285ff285fd285fb285e5285e3285e1285e7285df285db285d9285d7285d3285c7285c5285c3285bf285a7285a5285b3285a3285992859728595285812857f2857d2857b285772857528573285712856d2856b285612855f2855b285512854f2854d28549280c9280c7280c5280c127fa327f9b27e7127e6d27e4d27e372853f27e3527e3127c2327c2127c1d27c1327c1127c0f27c0b27c01))
  (.nd (.lf
  0x304072f2a72f2752f25e24ff224edd1e1ed1e1bd1e1b81e1001e02e306363040b2f2ab2f2772f26024fe824ee11e1f11e1bf1e1ba1e0f61e02a3058c3040f2f2af2f2792f26224fde24ee51e1f51e1bc1e16d1e0ea1deea30580304132f2b32f2642f23524fd424ee91e1f91e1be1e1711e0de1e02c30576304172f2b72f2662f23924fca24eed1e1fd1e1751e16c1e0d21e01c3056e3041b2f2bb2f2682f23d)
  (.lf
  0x20ba120b9d20b9b20b8d20b8b20b8720b8520b7720b7520b7120b6d20b5f20b5d20b5920b5520b4720b4520b4120b3d20b2f20b2d20b2920b2520b1720b1520b1120b0d20aff20afd20af920af520ae720ae520ae120adf20ad120acf20acb20ac920abb20ab920ab520ab120aa320aa120a9d20a9b20a8d20a8b20a8720a8520a7720a7520a7120a6f20a6120a5f20a5b20a5920a4b20a4920a4520a4320a35)))
  (.nd (.nd (.lf
  0x377613775b377593775537749377413773f3773d3773537731377253771b3771937717377133770d37709376fd376f9376e9376db376d5376d3376cf376c5376cb376c3376bf376a7376a13769d3769b376973768d376773766d3766b3765f3765937657376433763937637371713715b37155371533714f3712f37758377513774b37750377483773c3772f377273772e377243771637708376f7376e5376f6)
  (.lf
  0x1d0391d0371d0331d0311d02f1d02d1d0291d0271d0231d0211d01d1d01b1d0191d0171d0131d0111d00f1d00d1d0091cbfb1cbe31d7df1d5d51d5cb1d5c71d5c31d5691d5671d5f11d55b1d4cb1d4c91d4b91d4b51d48d1d47f1d47b1d4651d45f1d4451d3231d3111d30d1d2f51d2f11d2e51d24f1d24b1d21b1d2191d1f71d1f11d07d1d0791d0731d0671d0631d05d1c9481c93e1c9341c92c1c9201c918))
  (.nd (.lf
  0x341cc3416634165341623418e341483413c3413333d8633d7833d6933d6633d1b33d0c33d0033cfe33cce33cc633cc533cc233b9d33b8a33b8833b8033b6733b5433b5233b5033b3e33b2633b2233b2133b1033af933af633af233a6f33a6633a5a33a5433a1833a0633a02339ff339ed339e0356a8356a7359d0356dc356a03569f359be356b0356ae356ad359b035682356753565a359a6356043552235521)
  (.lf 0)))

def shaXorReads63 : BTree :=
  .nd (.nd (.nd (.lf
  0xd27b0d2620ca610bfa90b5190b4fd0b4f20b4a60d2590d2400ca630bfab0b51d0b4ff0b4f40b4a80d2370d21e0ca650bfad0b5210b5010b4f60b4aa0d2150d1fc0ca670bfaf0b5250b5030b4f80b4ac0d1f30d1da0ca690bfb10b5290b5050b4fa0b4ae0d1d10d1b80ca6b0bfb30b52d0b5070b4fc0b4b00d1af0d1960ca6d0bfb50b5310b5090b4fe0b4b20d18d0d1740ca6f0bfb70b5350b50b0b5000b4b4)
  (.lf
  0x3bbef3bbed3bbe93bbe53bbaf3bbad3bba93bba13bab93bab73bab33bab13ba2d3ba2b3ba273ba233b9473b9453b9413b93f3b8553b8533b84f3b8473b7d53b7d33b7cf3b7cd3b78f3b78d3b7893b7813b7293b7273b7233b7213b6ed3c81c3c8103c8063c7f83c7e83c7da3c7d03c8ca3c7bc3c7983c7883c7503c7443c73c3c7343c7123c7043c6e03c68e3c6823c6783c6923c6423c5be3c5363c52a3c524))
  (.nd (.lf
  0x3ac043acfc3ac083acec3ac0c3ace43ac103acd43ac143acc63ac183acc03ac1c3acb23ac203aca23ac243ac963ac283ac903ac2c3ac663ac303ac603ac343ac503ac383ac463ac3c3ac400f62e0f8000f6320f7f60f6360f7ec0f63a0f7e20f63e0f7d80f6420f7ce0f6460f7c40f64a0f7ba0f64e0f7b00f6520f7a60f6820f79c0f6860f7920f68a0f7880f68e0f77e0f6920f7740f6960f76a0f69a0f760)
  (.lf 0))) (.nd (.nd (.lf
  0x2ef142ee2e2ee323001e2feda2fedc2fede2fee02fee2301763014c3008c30090300943017a30150300983009a3009c3009e300a2300202fee42fee82feec2fef02fef42f9fa3017e30152300a6300a8300ac300ae300b2310863108830fc030fae30fd030ef03133a3133e313423121e31180313463134a3134e312223118431154310e03108a3108e30fc230fb030fd230ef230eb031352313563135a31226)
  (.lf
  0x42810427f0427b0424d0423f0423d0423904209041fb041f9041f5041c7041b9041b7041b30418304175041730416f0414104133041310412d040fd040ef040ed040e9040b7040a9040a7040a3040750406704065040610403104023040210401d03feb03fdd03fdb03fd703fa903f9b03f9903f9503f6903f5b03f5903f5503f2903f1b03f1903f1503ee903edb03ed903ed503ea503e9703e9503e9103e63))
  (.nd (.lf
  0xa6400a5600a4400a3800a2600a1800a06009fa009e8009de009cc009c2009b0009a2009900098400972009640095200946009340092a009180090e008fc008ee008dc008d0008be008b00089e0088e0087c0086c0085a0084a0083800828008160080a007f8007ee007dc007ce007bc007b6007a4007a00078e0078a0078401ee001ed001ea401e9201e5e01e4c01e1801e0601dd601dc401d9601d8401d56)
  (.lf 0)))

def shaXorReads64 : BTree :=
  .nd (.nd (.nd (.lf
  0x1ee501ea2d159101523f0f32b0f3070f2f00cd270cd050cd0009a2e099ee1ee2e1ea31158d4152430f32f0f3090f2f20cd2b0cd070cd02099e4099a61ee0c1ea3515898152470f3330f30b0f2f40cd2f0cd090cd04099a8099681edea1ea39158601524b0f3370f30d0f2f60cd330cd0b0cd060995e099201edc81ea3d1582a1524f0f33b0f30f0f2f80cd370cd0d0cd0809922098e01eda61ea41157f015253)
  (.lf
  0x33504334d9334fa334dd334ee334e1334e533462334593342c334263341f334313488734984347b334978346dd3497034719349643472b3495c346f7349523489134948347bb3493e346e534936347213492634683349d53492034916347bf3490e346e93490434725348fa34687348f0346ff348e834749348de344cb348d2344cf348cc34495348c234499348b83441b348ae344d1348a0343af34897347ca))
  (.nd (.lf
  0x160a0160a4160a816b3416b3816b3c16b4016b4416b4816b4c16b5016b5416b5816b5c16b6016b6416b6816b6c16b7016b7416b7816b7c16b8016b8416b8816b8c16b9016b9416b9816b9c16ba016ba416ba816bac16bb017adc17ae017ae417ae817aec17af017af417af817afc17b0017b0417b0817b0c17b1017b1417b1817b1c17b2017b2417b2817b2c17b3017b3417b3817b3c17b4017b4417b4817b4c)
  (.lf
  0x21a5021a3021a10219d0219b021990219702193021910218f0218d021890218702185021830217f0217d0217b021790217502173021710216f0216b021690216702165021610215f0215d0215b021570215502153021510214d0214b021490214702143021410213f0213d021390213702135031140310a03100030f6030ec030e2030d8030ce030c4030ba030b0030a60309c03092030880307e030740306a)))
  (.nd (.nd (.lf
  0x931b09281092760922a08d3f08d360a62309e9d0929f09283092780922c08cff08cf60a62509e9f092a3092850927a0922e08cbf08cb60a62709ea1092a7092870927c0923008c7f08c760a62909ea3092ab092890927e0923208c3808c350a62b09ea5092af0928b092800923408bf208bef0a62d09ea7092b30928d092820923608bb308baa0a62f09ea9092b70928f092840923808b7308b6a0a63109eab)
  (.lf
  0x3b0973b0953b0913b08f3b08b3b0893b0853b0813b07f3b07d3b0793b0753b0733b0713b06d3b06b3b0673b0653b0613b05d3b05b3b0593b0553b04f3b04b3b25d3b0493b0453b0433b0513b0413b03d3b03b3b1e33b0393b0353b0313b0333b02f3b02b3b0293b16b3b0273b0233b0213b01a3b0143b0083affc3aff63afea3afdc3afe43afce3afc23afb83afa83af9e3af943afac3afae3b01c3af723af6a))
  (.nd (.lf
  0x3389033c6e3389433c643389833c5a3389c33c4e338a033c44338a433c3a338a833c2e338ac33c1e338b033c14338b433c06338b833bfa338bc33bf0338c033be6338c433bda338c833bd0338cc33bc2338d033bba338d43398a338d83397e338dc33974338e03393a338e433930338e833926338ec3391e338f03390e338f433906338f833902349ee34e6e349f234cc8349f634cb634a3434cac34a3834ca4)
  (.lf 0)))

def shaXorReads65 : BTree :=
  .nd (.nd (.nd (.lf
  0x2468123d8b23ce723b72234fc234f627b2227aea257f7257f32463b23d0f23cb123b12234e2234dc27ade257a12579d245ed23cef23cb323b04233402333a2912e270bf270bb2613f24d2324d1724d1224d0e24d002973e29120270a7270892610524d2724d1924d1424d1024d02296ca291042702d27029260dd24ce324cdd24cda24cd824cd2296b6290fc270192701525ff724ccb24cc524cc224cc024cba)
  (.lf
  0x2515f2515d25159251572515525173251532514f2514d2514b25147251392513725135251312512f2512d2512b25127250ef250ed250eb250e7250e5250e3250e1250df250db250d9250d7250d3250d1250cf2517b250cd250c9250c7250c5250c1250bf250bd250bb250b7250b5250b3250b1250ad250ab250a9250a7250a3250a12509f2509d25099250972509525093250892508725085250832507f2507d))
  (.nd (.lf
  0x1ce4c2e6242e0f32cf772cf4b2cf34239a0238351dd251dcfb1dcf61cfde1ce342e5e62e0f72cf7b2cf4d2cf3623996238391dd291dcfd1dcf81cfd21ce1c2e5a82e0fb2cf7f2cf4f2cf382398c238691dd2d1dcff1dcfa1cfc61ce042e56a2e0ff2cf832cf512cf3a239822386d1dd311dd011dcfc1cfb81cdec2e52c2e1032cf872cf532cf3c23978238711dd351dd031dcfe1cfac1cdd42e4de2e1072cf8b)
  (.lf
  0x1df271df231df211df131df111df0d1df0b1defd1defb1def71def51dee51dee31dedf1dedd1decf1decd1dec91dec71deb91deb71deb31deb11dea31dea11de9d1de9b1de8d1de8b1de871de851de771de751de711de6f1de5f1de5d1de591de571de471de451de411de3f1de2f1de2d1de291de271de191de171de131de111de031de011ddfd1ddfb1dded1ddeb1dde71dde51ddd71ddd51ddd11ddcf1ddc1)))
  (.nd (.nd (.lf
  0x32a3a329fa329bf329b7329be329863293332921329323286b328633286a3283e32522325183250e32504324fa324f0324e6324da324d2324c6324bc324b4324a83249e324943248c32482324783246e324643245a3245032428323f8323ca323a2323983238e3220a3209c335fa335f0335e6335dc335d0335c8335be335b4335aa335a0335963358c33580335763356a335603355833550335463353c33532)
  (.lf
  0x1c1011c0ff1c0fb1c0bd1c0bb1c0b91c0b51c0751c0731c0711c06d1c02f1c02d1c02b1c0271c0251bfeb1bfe91bfe51bfe31bfa91bfa71bfa31bfa11bf631bf611bf5d1bf5b1bf1b1c81c1c42e1c79e1c41a1c7181c4061c6861c3f21c5ee1c3ac1c5721c38a1c50e1c3921c4a61c3a61c43c1c3b21c2741c21e1c1de1c1981c1561c10e1c0c81c0801c03a1bff61bfb41bf681bf221c81d1c4391c4351c433))
  (.nd (.lf
  0x2ddba2d7042d6eb2d6e62dda62d6e02d5fd2d5d82dd7a2d5992d5902d5842dd742d59d2d5882d5862dd502d56a2d5602d55f2dd482d5542d5492d51c2dd342d4fe2d4f42d4e72dd222d4ec2d4dc2d4d92dd1c2d4c62d4bf2d4bc2d4162d3c62d3842d37d2d4062d3be2d3862d3732d4002d3b42d3822d36b2d4302d3e82d3ac2d38b2d3942d3932d38e2d38c2d3142d2fc2d2f92d2f62d1d82d1be2d1b72d1a6)
  (.lf 0)))

def shaXorReads66 : BTree :=
  .nd (.nd (.nd (.lf
  0x3b4d83b4a836569365653540f34621345d234333343303432a3b4983b45a3652b36527354e7345d5345b63424b34248342423b45c3b4323646d36469353d9345b93453034213342103420a3b4183b406364413643d353c73453334504341bb341b8341b23b3d63b3a23645b364573539f34507344e434173341703416a3b3b63b2ea3637936375353af347eb344e73447834146341403b2e23b28e3609b36097)
  (.lf
  0x40a4740a4540a4140a3f40a3d40a3b40a3740a3540a3340a3140a2d40915408d3408d1408bd408b9408ab408a94089b408974088d4088b40887408834086740865408614085f4085d4086b4085b4085740855408534084d4084b408494085140847408394082340821407e7407e3407d140a7d407cf407cb407c9407c7407c3407c1407bf407bd407b9407b7407b5407b3407af407ad407ab407a9407a5407a3))
  (.nd (.lf
  0x37fcc3a1e93a1c43804d380443801237fde3a1bd3a19e38051380483800837fb23a1943a13d380533804c3800037fc23a18c3a1413805037fa337f9a37f943a1863a1453805237f9137f7e37f783a17a3a14937fa237f6737f0a37f063a1703a14d37f9037edd37ece37ec63a1663a15137f6637edf37eaa37ea83a1603a155382b737edc37e9437e8c3a159382b937ede37e5c3a619389d0389b9389b5389b0)
  (.lf
  0x3091530903308ff308fd308fb308f7308f5308f330933308f1308ed308eb308e9308e5308e3308e130947308df308d9308d7308dd308d5308d1308cf308cd308c9308c5308c3308c7308c1308bd308bb308b9308b5308b3308b1308af308ab308a9308a7308a5308a13089d3089b308993089530893308913088f3088b30889308873089f30885308813087f3087d308793087730875308733086f3086d3086b)))
  (.nd (.nd (.lf
  0xed680ed6c0ed700ed740ed780ed7c0ed800ed840ed880ed8c0ed900ed940ed980ed9c0eda00eda40eda80edac0edb00edb40edb80edbc0edc00edc40edc80edcc0ef460ef4a0ef4e0ef520ef560ef5a0ef5e0ef620ef660ef6a0ef6e0ef720ef760ef7a0ef7e0ef820ef860ef8a0ef8e0ef920ef960ef9a0ef9e0efa20efa60efaa0efae0efb20efb60f1300f1340f1380f13c0f1400f1440f1480f14c0f150)
  (.lf
  0x2a12b2a1292a1252a1232a1212a11f2a11b2a1172a1112a10f2a10b2a1092a0b72a0b52a0b12a0af2a0ad2a0ab2a0a72a0a32a0a12a09f2a09b2a0812a07d2a06d2a0692a0672a0592a0572a0552a0512a0492a0472a0432a0412a0292a0272a0232a0212a01f2a01d2a0192a0172a0152a0132a00f2a00d2a00b2a0092a0052a0032a00129fff29ffb29ff729f9329f9129f8f29f8b29f8929f8729f8329f81))
  (.nd (.lf
  0x1d8091dac81d7b11dac21d8071dab81d7af1daae1d7531daa41d7511da9a1d74f1da8c1d74d1da861d74b1da781d7491da721d7471d8721d5bd1d8681d5bb1d85e1d8051d8581d7bd1d84a1d7451d8401d7431d8381d7411d82e1d73f1d8281d73d1d81c1d73b1d8141d7391d8011d7d41d7cd1d7981d7901d7371d7881d7351d77a1d7331d7741d7311d7661d72f1d7601d7031d7011d5b81d58b1f6bd205e4)
  (.lf 0)))

def shaXorReads67 : BTree :=
  .nd (.nd (.nd (.lf
  0x19cd219c98185811857d174a916a2916a1f16a1c16a1a169ae19c961853918535174ab168c9168a5165be16516164f81b37e1972919725188f517921178f1178e4178da178b81b5be1b3501971919715188f71799317925178e6178dc178ba1b5aa1b32019707197031890117929178f3178e8178de178bc1b5a01b2e8196f5196f1188b91799f178f5178ea178e0178be1b5741b2ae196e3196df1893b1792d)
  (.lf
  0x8b1908b2908b1708b1308adb08ad908ad508ad308a9508a9308a8f08a8d08a4d08a5d08a4b08a4708a0d08a1d08a0b08a07089cd089dd089cb089c70898d0899d0898b089870894f0894d089490894708907089170890508901088c9088c7088c3088c108883088810887d0887b0883b0884b0883908835087fd087fb087f7087f5087b7087b5087b1087af087710876f0876b087690872b087290872508723))
  (.nd (.lf
  0x2682f2681c268192680626803267f0267ed267da267d7267c4267c1267ae267ab2679826795267822677f2676c267692675626753267402673d2672a267272671426711266fe266fb266e8266e5266d2266cf266bc266b9266a6266a3266902668d2667a2667726664266612664e2664b2664527a6f27a5e27a5b27a4827a4527a3227a2f27a1c27a1927a0627a03279f0279ed279da279d7279c4279c1279ae)
  (.lf 0))) (.nd (.nd (.lf
  0x9d9c09d9209d8809d7e09d7409d6a09d6009d5609d4c09d4209d3809d2e09d2409d1a09d1009d0609cfc09cf209ce80ae480ae2e0ae120adf60adda0adbe0ada20ad860ad660ad440ad260ad060ace40acc20aca00ac800ac5e0ac3e0ac1c0abf80abd80abbc0aba00ab800ab5e0ab3c0ab1a0aaf80aad60aab408224081e8081aa0816208122080e40809c0805e0801607fd607f9607f5607f1607ed807e92)
  (.lf
  0xffc70ffc50ffc10ffa70ff670ff650ff610ff4b0ff090ff070ff030feeb0feab0fea90fea50fe8b0fe490fe470fe430fe2d0fded0fdeb0fde70fdcf0fd8d0fd8b0fd870fd6d0fd2d0fd2b0fd270fd110fccf0fccd0fcc90fcb10fc710fc6f0fc6b0fc550fc130fc110fc0d0fbf90fbb90fbb70fbb30fb9b0fb590fb570fb530fb390faf90faf70faf30fad90fa970fa950fa910fa7b0fa3b0fa390fa350fa21))
  (.nd (.lf
  0x3b02a37f6f3b1693b02237e713bd5b3beb43bd613bea83bd453be9e3bd393be923bd2d3be883bd213be7c3bd153be723bda93be6a3bcff3be5a3bcf33be543bce73be463bcdb3be3e3bdb13be2e3bcc53be223bcb93be163bd633be083bca33be003bc973bdf83bc8b3bdf03bc7f3bde63bc733bdd43bc673bdcc3bc5b3bdc03bc4f3bdb83bc433bc093bb503bb393baf03ba8f3b9f83b9cb3b9243b9273b88a)
  (.lf 0)))

def shaXorReads68 : BTree :=
  .nd (.nd (.nd (.lf
  0xe600025413b840f2000e8b0069e0065f000dc00023413ae4125600e8d006a000661000d200021413a640e0200e8f006a200663000c80001f40df04069600e91006a400665000be0001d406904064e00e93006a600667000b40001b406864063e00e95006a800669000aa000194067c4062000e97006aa0066b000a000017406724061200e99006ac0066d0009600015406684060400e9b006ae0066f0008c)
  (.lf
  0x3138630ef43137a30eb23136e313543136831358313603135c3122c312283118c3118a3115e3115a310e832260325ae32264325a6322903259a3217a325923214a3258a322203257e322743257232278325683229a3255e3217e32554321823254e3227c3254032280325363229e3252c321863231c3218a32312321c2323083218e3230032224322f832192322ec321aa322e032198322da320ce322cc32228))
  (.nd (.lf
  0x12510125141251813126131281321a1321e13222132261322a131981312a1312e13132131361313a1322e13232132361323a1323e1319c1313e131421314613242132461324a1324e13252131a01314a1314e131521315614172141761417a1417e14182141861418a1418e14192141961419a1419e141a2141a6141aa141ae141b2141b6141ba141be141c2141c6141ca141ce141d2141d6141da141de141e2)
  (.lf
  0x391b3391af391ad391ab391a9391a3391a13919f3919d391993919739195391a5391933918f3918d391dd3918b3918739185391833917f3917d3917b391793917539173391713916f3916b391693916739165391613915f3915d3915b391573915539153391513914d3914b391493914739143391413913f3913d391393913739135391333912f3912d3912b391293912539123391213911f3911b3911539113)))
  (.nd (.nd (.lf
  0x8f7f084090837b0836408320082600af5c0aea009bb109b3108f810840d0837d0836608322082620af520aea209bb309b3308f83083910837f0836808324082640af4c0aea409bb509b3508f8508395083810836a08326082660af400ae8c09bb709b3708f8708399083830836c08328082680af380ae8e09bb909b3908f890839d083850836e0832a0826a0af2e0ae9009bbb09b3b08f8b083a10838708370)
  (.lf
  0x31407313cf313cb313c93145b313c7313c3313c1313bf313bb313b9313b7313b5313b1313ad313ab313a9313a5313a3313a13139f3139b313993139731395313913138f3138d313af3138b3138731385313833137d3137b313793137731373313713136f3137f3136d313693136731365313613135f31233312313122d3122b31195311933118f3118d31165311633115f3115d310eb31f4431f3831f2c31f20))
  (.nd (.lf
  0x216502164721504214fd214462143b2141e21415213d6213d9213742136c2134d213602133d2135a2132921323212f8212ef21286212892122a212272120221205210de210e32106621069210522104d21044210372100e2100520fcc20fbb20f0c20f0f20efc20ef920ee820ed720e7220e6b20e5e20e5520dda20dd120d9a20d9d20d5a20d5120cea20ce120cda20cd9221e722101220c2220ae2206522037)
  (.lf 0)))

def shaXorReads69 : BTree :=
  .nd (.nd (.nd (.lf
  0x2825f272672602725dde25b6725b5c29fe429dcd282612722d2616d25cd625b3b25b3229fdc29ebb2822d2722f2617125c6025b1725b0829fce29dcf280bb271fd2617525bb825aa725a9029fc229eb928059271e52602b25b9025a5d25a4629fbc29dd127fe1271d32602f25b6625a2125a0629f5a29eb727fb3271ed2603325b3a259e9259ce29f5029dd327e632723b2603725b16259ad2599829f4429eb5)
  (.lf
  0x177d717987177d5177d1177cf177cd177c9177bd177b3177911778d1778b177891778717783177811777f1777d177791777717775177731776f1776d1776b17935177691776517763177611775d1758f1758d1758b17587175791754517543175411753d1753b175391753517533175311752f1752b175291752717525175211751f1751d175471751b1751717515175131750f1750d1750b1750917505174b1))
  (.nd (.lf
  0x1945c18c470f57b0f55f0f5480dc510dc350dc300dbda0dbd62291a225dd1942c18c4b0f57d0f5610f54a0dc550dc370dc320dbb80dbb4229042261b193f218c4f0f57f0f5630f54c0dc590dc390dc340db960db92228ee2261f193b618c530f5810f5650f54e0dc5d0dc3b0dc360db740db70228d8226231937e18c570f5830f5670f5500dc610dc3d0dc380db520db4e228c0226271934818c5b0f5850f569)
  (.lf
  0xff8b0ff870ff790ff310ff2f0ff2b0ff1d0fed10fecf0fecb0febd0fe710fe6f0fe6b0fe5d0fe130fe110fe0d0fdff0fdb50fdb30fdaf0fda10fd530fd510fd4d0fd3f0fcf70fcf50fcf10fce30fc970fc950fc910fc830fc3b0fc390fc350fc270fbdf0fbdd0fbd90fbcb0fb810fb7f0fb7b0fb6d0fb1f0fb1d0fb190fb0b0fabf0fabd0fab90faab0fa610fa5f0fa5b0fa4d0fa070fa050fa010f9f30f9ab)))
  (.nd (.nd (.lf
  0x1f2e51f2dd1f2e41f2da1f2cd1f2c51f2cc1f2c31f2bb1f2c21f2b81f2ab1f2a31f2aa1f2a11f2991f2a01f2961f2891f2811f2881f27e1f2711f2691f2701f2671f25f1f2661f25c1f24f1f2471f24e1f2441f2361f2291f2231f2281f2211f21d1f2201f1f21f1ea1dad01dac61dabc1dab21daa81da9e1da941da8a1da801da761d87a1d8701d8661d85c1d8521d8481d83e1d8361d82c1d8221d8181d80e)
  (.lf
  0x14d9d14d9b14d9714d9514d7114d6f14d6b14d6914d4514d4314d3f14d3d14d191645c1643e1641c163fa163dc163bc1639a1637c1635c1633a16318162f6162d4162b61629a1627a162581623a1621e16202161e2161c4161a81618c1616c1614a1612c1610c160ea160cc160b41645d1645b16457164551643f1643d16439164371641d1641b1641716415163fb163f9163f5163f3163dd163db163d7163d5))
  (.nd (.lf
  0xa70c0a4e40a49d0a25a0a6f80a4e20a2300a22d0a6e40a4e00a4990a2040a6d00a4de0a1e50a1dc0a6bc0a4dc0a4950a1b60a6a80a4da0a1930a18a0a6940a4d80a4910a1640a5c00a4d60a13a0a1370a5ac0a4d40a48d0a10c0a59a0a4d20a0e90a0e00a5880a4d00a4890a0ba0a5760a4ce0a0970a08e0a5640a4cc0a4850a0680a5520a4ca0a03e0a03b0a5400a4c80a4810a0100a52e0a4c609fed09fe4)
  (.lf 0)))

def shaXorReads70 : BTree :=
  .nd (.nd (.nd (.lf
  0x3581b33cdb3340d3311032fb332f9e370d036eb3350cd33ba133411330f232f4332f40370c436e913502533b6f3341532fd2329413293a370b836e7f3500f33b3d334a73341932fd4328ac3709036e6534fed33b05334a93332732fb03289436e3936e1e34f5733a7d334ab3334732fb23288436dfb36dea3580733a0d334ad3335732f42327de36de134acd339f33344b3330b32940327b4382b336b19359e1)
  (.lf
  0x34523345213451d344f9344f7344f5344d9344d7344d5344d33446d3444f34423344213441d34407343c9343cd343bf343bb343a3343973438b343873437d3437b3436d343573434d3434b343413433d3433b343393433534329343273432534321342413423f342253421b34209341c3341c1341bd341b1341793417734169341633414f3414d341493413f33d8d33d8b33d8733d7b33d1333d1133d0d33d03))
  (.nd (.lf
  0x298ce2988128db628c6838dec38bb338517384c6384992e8442e6d92990d298852987c28daa28c2a38dd238bb73851b384c83849d2e8382e69529911298892988028d9e28c6638dc438bbb3851f384ca384a12e8322e817299152988d2988428d9228c1c38dba38bbf38523384cc384a32e8282e7d929919298912988828d8828c3038d8e38bc338527384ce384a52e8252e7e22991d298952988c28d7628cf4)
  (.lf
  0x276c5276c1276bf276bd276bb276b7276b5276b3276b1276ad276ab276a9276a7276a3276a12769f2769d276992769727695276932768f2768d2768b276892768527683276812767f2767b276792767727675276712766f2766d2766b276672766527663276612765d2765b276592765727653276512764f2764d276492764727645276432763f2763d2763b276392763527633276312762f2762b2762927627)))
  (.nd (.nd (.lf
  0x14a4614a3c14a3214a2814a1e14a1414a0a14a00149f614c5614c4c14c4214c3814c2e14c2414c1a14c1014c0614bfc14bf214be814bde14bd414bca14bc014bb614bac14ba214b9814b8e14b8414b7a14b7014b6614b5c14b5214b4814b3e14b3415b9c15b9215b8815b7e15b7415b6a15b6015b5615b4c15b4215b3815b2e15b2415b1a15b1015b0615afc15af215ae815ade15aa615a9c15a9215a8815a80)
  (.lf
  0x23493234912348d2348b2348923487234832347f2347d2347b2347523473234712346f2346b23469234612345f2345b2345723455234532344f2344d2344923447234432343f2343d234652343b2343723435234332342f2342b2342923427234232341f2341d2341b234172340f2340d2340b23407234032340123413233ff233fb233f9233f7233f3233f1233ed233eb233e7233e3233e1233df233db233d9))
  (.nd (.lf
  0x1a87e1a8961a6861a8921b7f61b96e1b7fa1b9641b81a1b95e1b81e1b9521b8221b9461b8261b9401b77e1b9321b7821b9281b7861b9201b78a1b9161b78e1b90c1b7921b9001b6fa1b8f61b82a1b8f01b82e1b8e01b8321b8d81b8361b8cc1b7961b8c41b79a1b8ba1b79e1b8b01b7a21b8a61b7a61b89a1b83a1b8921b83e1b8881b8421b87e1b8461b8741b7aa1b86c1b7ae1b8621b7b21b8581b7b61b84e)
  (.lf 0)))

def shaXorReads71 : BTree :=
  .nd (.nd (.nd (.lf
  0x1b52f1a7f119a2d19a0b19a00199a61cfba1cded1b5311a7f319a3119a0d19a02199a81cfae1cdd51b5331a7f519a3519a0f19a04199aa1cfa21cdbd1b5351a78119a3919a1119a06199ac1cf961cda51b4f11a78319a3d19a1319a08199de1cf8a1cd8d1b4db1a78519a4119a1519a0a199ae1cf7e1cd751b4d31a78719a4519a1719a0c199b01cf721cd5d1b4bf1a78919a4919a1919a0e199b21cf661cd45)
  (.lf
  0x403294032540323403214031d40301402fd40303402fb402f7402f5402f3402eb402df401a73e26c3e2643e2583e0d83e0ce3e0c43e0be3e0b43e0ac3e09e3e0863e0803e0703e0663e0883e0563e0063e01240d9e3d6c43d6b23d68a3d6823d5fa3d60c3d59e3d4203d4a63d4083d4aa3d18c3e26d3e26b3e2673e2653e2633e2613e25d3e25b3e2593e2573e0dd3e0db3e0d93e0d73e0d33e0d13e0cf3e0cd))
  (.nd (.lf
  0xe2860e27c0e2700e2660e25a0e2500e2440e23a0e22e0e2240e2180e20e0e2020e1f80e1ec0e1e20e1d60e1cc0e1c00e1b60e1aa0e1a00e1940e18a0e17e0e1740e1680e15e0e1520e1480e13c0e1320e1260e11c0e1100e1060e0fa0e0f00e0e40e0da0e0ce0e0c40e0b80e0ae0e0a20e0980e08c0e0820e07e0e07c159c0159b01598c1597a15952159401591815906158dc158ca158a01588e1586815856)
  (.lf 0))) (.nd (.nd (.lf
  0x2f41a2f4042f3e02f33c2f3302f3222f3162f68c2f67e2f6722f6662f65a2f6502f6462f63a2f62e2f6222f6162f60c2f6042f5f82f5ec2f5e42f5dc2f5b82f5a02f5882f5562f54e2f5442f53a2f4002f3a42f3982f3902f3742f3502e8d62e8cc2e8c02e8b62e8ac2e8a22e8982e88e2e8862e87c2e8722e8682e85e2e8542e84a2e8402e8362e82c2e81e2e7e02e7a22e76a2e7222e6e42e6a02e6522e61e)
  (.lf
  0x78e9078e5078e3078e1078df078db078d9078d7078d5078d1078cf078cd078cb078c7078c5078c3078c1078bd078bb078b9078b7078b3078b1078af078ad078a9078a7078a5078a30789f0789d0789b078990789507893078910788f0788b078890788707885078810787f0787d0787b078770787507873078710786d0786b078690786707863078610785f0785d078590785707855078530784f0784d0784b))
  (.nd (.lf
  0x35ede35eba35e7435e3c35e2a35e2035de435c6435c50375403762037536376163753a3760e3751e375fe37544375f837508375e6374f6375da374fe375d2374fc375c8374fa375c0374cc375b2374ce375aa374b43759e374a837590374aa37584374923757c374883757037548375623746e3755a374623754c37458374703743c3743237418374243740c37426370e8370e2370cc370c0370b4370ae370a4)
  (.lf 0)))

def shaXorReads72 : BTree :=
  .nd (.nd (.nd (.lf
  0xe38c03232031fc0e6420e61b0e43b0e3a70e390031fe031ca0e6380e61f0e3a90e392031c00318e0e62e0e6230e3ab0e394031900312c0e6290e3ad0e3960312a0e75b0e5b50e5990e582044680e93a0e75f0e5b90e59b0e58404442044080e9300e7630e5bd0e59d0e586043fe043c20e9260e7a10e5c10e59f0e588043b80437c0e91c0e7a50e5c50e5a10e58a04372043340e9120e7a90e5c90e5a30e58c)
  (.lf
  0x117b011751117a6117551179c11759117921175d11788117611177e1176511774117691176f1281712c0c1281b12bf21281f12bd21282312bb41282712b981282b12b781282f12b5a1283312b3e1283712b221283b12b061283f12aea1284312ace1284712aae1284b12a8c1284f12a6e1285312a521285712a321285b12a141285f129f412863129d612867129ba1286b1299e1286f12982128731296212877))
  (.nd (.lf
  0x14ff614ff814ffa15fe815fc615fc815fca15fcc15fce15fd015f4815f4a15f4c15f4e15f5015f5215f5415f5615f5815f5a15f5c15f5e15f6015f6215e8015e8215e8415e8615e8815e8a15e9c15a6e15a7015a7215a741677e16780167821678416786167881678a167ba1678c1678e1679016792167941679616798166b8166ba166bc166be166c0166c216656166361666c16660166381663a1663c1663e)
  (.lf
  0x3acb93acb53acb33acaf3acad3aca73aca53aca33aca13ac9b3ac993ac973ac953ac913ac773ac733ac713ac6b3ac693ac673adc73ac653ac613ac573ac593ac553ac513ac4f3ac793ac4d3ac493ac473aee03aed63aece3aec03aeb63aeac3aea23ae983ae8e3ae843ae7a3ae703ae643ae5a3ae503ae683ae3e3aec43ae2e3ae223ae183ae0e3ae043adfa3adf03adea3adde3add43add63ac863ac803aee1)))
  (.nd (.nd (.lf
  0x2fdb02f4502f3a02eee02a8502a7c047a703b7702fdf02f4702f3c02ef002a3e02a3b047a903b7902fe302f4902f3e02ef2029ff029f6047ab03b7b02f6702f4b02f4002ef4029b8029b5047ad03b7d02f6b02f4d02f4202ef6029720296f047af03b7f02f6f02f4f02f4402ef80292c02929047b103b8102f7302f5102f4602efa028ed028e4047b303b8302f7702f5302f4802efc028ad028a4047b503b85)
  (.lf
  0x3514735145351433513f3513535133351313512b35129351273512535119351173511535139351133510f3510d3510b35107351053510335101350fd350fb350f9350f7350f3350f1350ef350ed350e9350e7350e5350e3350df350db350d9350d7350d33509b3509335097350913508d3508b3522f3508935085350833509d350813507d3507b350793507534ffd34f7734f7534f7134f6934f6534f6d34f63))
  (.nd (.lf
  0xd58c0d7060d5900d6fc0d5940d6f20d5980d6e80d59c0d6de0d5a00d6d40d5a40d6ca0d5a80d6c00d5ac0d6b60d5b00d6ac0d5b40d6a20d5b80d6980d5bc0d68e0d5c00d6840d5c40d67a0d5c80d6700d5cc0d6660d5d00d65c0d5d40d6520d5d80d6480d5dc0d63e0d5e00d6340d5e40d62a0d5e80d6200d5ec0d6160d5f00d60c0d5f40d6020d5f80d5fe0d7300dbe60d7340dbc80d7380dba60d7760db84)
  (.lf 0)))

def shaXorReads73 : BTree :=
  .nd (.nd (.nd (.lf
  0x1f65f1d6d91d6cc1d57f1d5321d51a21be021bc0204a9204791f6611d6db1d6ce1d41f1d3841d37e21bba21b58204ab2047b1f6631d6dd1d6d01d4211d36c1d36621b4e21b08204ad2047d1f6651d6df1d6d21d4231d3781d37221afe21aca2003b200331f6671d6e11d6d41d41d1d2dc1d2d621abe21aa42003d200351f6691d6e31d5721d29d1d29a1d29421a9e21a6a1fbcb1fbc71f66b1d7f11d5851d574)
  (.lf
  0x1cf0f1cf0d1cf091cf071cf051f5901f5861f5821f5721f5681f55e1f5541f54a1f5461f53a1f52c1f5221f5161f50c1f5041f5241f4f21f4e61f4dc1f4d21f4c81f4c21f4ba1f4ac1f3861f37a1f36e1f3641f4a81f20c1f1b41f5911f58f1f58b1f5891f5871f5851f5831f57f1f57d1f57b1f5771f5751f5731f5711f56d1f56b1f5691f5671f5631f5611f55f1f55d1f5591f5571f5551f5531f54f1f54d))
  (.nd (.lf
  0x18c501704c17032278c6277a52661d265c2265991dbea1db5318ce518c5d18c541701016ff8278b0277a926621265c42659b1dbe01db5718ce918c6118c5816fd616fc02789a277ad26625265c62659d1dbd61db5b18c6518c5c16fa016f8a27884277b126629265c82659f1dbcc1db5f18c6918c6016f6a16f502786e277b52662d265ca265a11dbc21db6318c6b18c6416f3016f1827858277b926631265a3)
  (.lf
  0x1a3e41a3b21a3761a3381a2fa1a2bc1a27e1a2401a2061a1ca1a1901a1541a1181a0e01a0a81a06e1a03419ff819fba19f7e19f4019f0219ec619e8a19e4c19e0a19dc619d8419d3e19cf219ca01a3e51a3d71a3d31a3b31a3a51a3a31a39f1a3771a3691a3671a3631a3391a32b1a3291a3251a2fb1a2ed1a2eb1a2e71a2bd1a2af1a2ad1a2a91a27f1a2711a26f1a26b1a2411a2331a2311a22d1a2071a1f9)))
  (.nd (.nd (.lf
  0x28dc828dbc28db028da428d9828d8c28d7c28d7028d6428d5828d5028d4428d3a28d1a28d0e28d0428cfc28c5c29126290d6290ca290c0290b4290aa290a2290762906e290602904e2903a2902028ff228fe628fca28fc028fb228f9828f4228f3628f2a28f1e28f1428efc28ed228eaa28d3228cce28cc42912c291002910829044290262900228fb828fa628f6e28f9028ee028e5e28c922912d2911729113)
  (.lf
  0x18bbf18bbd18bbb18bb718bb518bb318bb118bad18bab18ba918ba718ba318ba118b9f18b9d18b9918b9718b9518b9318b8f18b8d18b8b18b8918b8518b8318b8118b7f18b7b18b7918b7718b7518b7118b6f18b6d18b6b18b6718b6518b6318b6118b5d18b5b18b5918b5718b5318b5118b4f18b4d18b4918b4718b4518b4318b3f18b3d18b3b18b3918b3518b3318b3118b2f18b2b18b2918b2718b2518b21))
  (.nd (.lf
  0x1b3fe1b3eb1acee1acea1b3b81acac1aca81aca71ac791ac741c82c1c8231c80e1c7e41c7e21c7e11c7cf1c7b21c7a81c7a21c78e1c76a1c7621c7611c7501c72e1c71e1c71d1c7081c7001c6d21c6d11c6c21c69c1c6941c68b1c6761c6481c6401c63f1c60e1c6061c5f61c5f51c5dd1c5d41c5b61c5b01c5921c58a1c57f1c5781c5611c5581c5501c5401c5311c5201c5181c5121c4f81c4e81c4e01c4df)
  (.lf 0)))

def shaXorReads74 : BTree :=
  .nd (.nd (.nd (.lf
  0x3de6d3d6723d41a3d34f3d3483d3473ee593e2073df8b3de233d6623d4a53d4143d3223edbb3e1d53df6d3de253d5d83d40c3d2c53d2c23ea973e0453df493de3b3d5be3d4a93d4043d4003ea093dfd13df233dee73d58e3d2143d1893d1863ea593dff33df093deab3d3463d1333d130402c73faaf3eb5b3eb303eb2f3eb233eb20402873f99d3ec343eb3e3eb333eb153eb0f3eb0c402af3f8f33ec2a3eb62)
  (.lf
  0x3c58b3c58f3c5893c5853c56f3c56d3c5673c5613c5013c4ff3c4fb3c4e33c4ab3c4b33c4a73c4a33c4153c4133c40f3c3fb3c3f13db783db5e3db3e3dafc3dae23dacc3da543da243d9b63d9ee3d9d23d9823d98e3d94a3d91a3d8fe3d8b03d8cc3d8b23d8d23d8823d88e3d81a3d8043d7e03d7b63d7a63d7803d7623d7503d25e3db793db773db5f3db5d3db5b3db593db553db533db3f3db3d3db393daff))
  (.nd (.lf
  0x2f7282f6783ad9e3abd13a8813a85f3a8483520834dd72fa5f2fa3f2fa3a2f71e2f66c3ad923abd53a8853a8613a84a3520034ddb2fa632fa412fa3c2f7142f65e3ad8c3abd93a8893a8633a84c351f834ddf2fa672fa432fa3e2f70c2f6ac3ad7a3abdd3a88d3a8653a84e351f034de32fa6b2fa452fa402f7002f6843ad723abe13a8913a8673a850351e834de72fa6f2fa472fa422f6fa2f6443ad623abe5)
  (.lf
  0x2d0212d01d2d01b2d0192d0172d0132d00f2d00d2d00b2d0072d0052d0012cfff2cffb2cff92cfef2d6d42d6ce2d6c02d6d82d6dc2d69e2d6942d68a2d67c2d6702d6642d6562d6322d6162d5c22d5c82d2ca2d2c22d2ac2d2b02d2982d28c2d43c2d2722d2562d23c2d2282d1fe2d2022d1582d1702d6d52d6d32d6cf2d6cb2d6c92d6c72d6c12d6bf2d6bd2d6d92d6bb2d6b72d6b52d6dd2d6b32d6af2d6ad)))
  (.nd (.nd (.lf
  0x3b1ca3bb043baa23b9963b8de3b8343b7ac3b79e3b7083b6b63b6643b64c3b5da3b5903b5503b5203b4fa3b4a63b4583b4303b4043b3a03b2e83b2d83b2c83b2b63b2a63b22e3b2263b19a3b1863cbf43cbb63cbae3cb943cb443cb2e3cade3caae3ca6c3ca2e3ca183ca083c9f63c9e23c9c63c9ba3c9a63c9903c9743c96c3c0083c0003bfee3bfdc3bc323bb4c3bac83b9fe3b96c3b8a03c3643c3483c334)
  (.lf
  0x26d6b26d6926d6526d6326d6126d7d26d5f26d5b26d5926d5726d5326d4f26d4d26d4b26c2d26c2b26c2726c2526c2126c1f26c1d26c1b26c1726c1526c1326c1126c0d26c0b26c0926c0726c0326c0126bff26bfd26bed26bb126baf26bad26bab26ba726ba526bb726ba326b9f26b9d26b9b26b97269db269d7269df269d5269d1269cf269cd269c9269c5269c3269c12697d2697b2697926ac52697726973))
  (.nd (.lf
  0x3f5643f512409b640d204099a40d14409f240d0a409e840d00409de40cf640b1640cee4094e40ce440b4240cda4092a40cd04091040cc840a8240cbe409ee40cae40a8c40ca4409be40c9840a1640c8c409a040c8440a4c40d2a40c7840c6a40ad040c624093a40c46409c240b9e409c840b96409f440b8a40a5040b8440a7a40b5a40a1a40b1e40a5840ace40acc40a9a40a92409d2409cc408f0408ea409f6)
  (.lf 0)))

def shaXorReads75 : BTree :=
  .nd (.nd (.nd (.lf
  0x14bb814a921306913055124c311351113331131c112e21125e14bb214a901306b13057124c511355113351131e112e41126014ba414a8e130a11309d123e9113591133711320112e61126214b9e14a8c12ff512fdd123c31135d11322112f9112e81126414b9014a8a12ff712fdf123c51136111324112fb112ea1126614b8a14a8812ff912fe1123c71136511326112fd112ec1126814b7c14a8612ffb12fe3)
  (.lf
  0x41960414e04110040ca040820404403ffe03fb603f7603f3603ef603eb803e7003e3003df203daa03d6c03d2603cde03ca004467044370443304431043fd043fb043f7043f5043b7043b5043b1043af043710436f0436b0436904329043270432304321042e9042e7042e3042e1042ab042a9042a5042a304263042610425d0425b04225042230421f0421d041dd041db041d7041d50419f0419d0419904197))
  (.nd (.lf
  0x36fbc371c436fb2371b636fa6371b036f98371a436f8c371963718e3706636f803705836f703705036f7e3704636f523703436f7c3702c36f3a3702236f303701436f2436f1036f0036ef236ee036ee236eca36ec436eac36eae36e9a36e8c36e7836e7a36e5e36e6036e3a36e3236e0a36df236dee36dde382ae382a838288382a43826238256381c8381c038178381ba3816e381b23815e381a43815438194)
  (.lf 0))) (.nd (.nd (.lf
  0x2615025ed02614025d40258e0254802502024bd02495024bc0247d024550247c0243c023f6023b00225e022540224a02240022360222c02222022180220e02204021fa021f0021e6021dc021d2021c8021be021b4021aa021a0021960218c02182021780216e021640215a02150021460213c0311203108030fe030f4030ea030e0030d6030cc030c2030b8030ae030a40309a03090030860307c0307203068)
  (.lf
  0xadd70add50adc10adbf0adbb0adb90ada50ada30ad9f0ad9d0ad890ad870ad830ad810ad690ad670ad630ad610ad470ad450ad410ad3f0ad290ad270ad230ad210ad090ad070ad030ad010ace70ace50ace10acdf0acc50acc30acbf0acbd0aca30aca10ac9d0ac9b0ac830ac810ac7d0ac7b0ac610ac5f0ac5b0ac590ac410ac3f0ac3b0ac390ac1f0ac1d0ac190ac170abfb0abf90abf50abf30abdb0abd9))
  (.nd (.lf
  0x153841537515346153411530415301152e51645f16441164341641f16412163fd163f0163df163d2163bf163b21639d163901637f163721635f163521633d163301631b1630e162f9162ec162d7162ca162b9162ac1629d162901627d162701625b1624e1623d16230162211621416205161f8161e5161d8161c7161ba161ab1619e1618f161821616f161621614d161401612f161221610f16102160ed160e0)
  (.lf 0)))

def shaXorReads76 : BTree :=
  .nd (.nd (.nd (.lf
  0x3f9383f8123dfab3dfa73d2613cf493cec13ce063ca923ca8c3f8263dfb13dfad3d73f3d14d3ced13cdbc3ca4c3ca4a4147e3f64d3f6473e7973db983db8a3db813db7d3db7a412ee412923f6253f61d3e7613db8c3db713db6b3db623db60412e0412823f60b3f6073e7433dba33db8e3db4c3db423db414129a411683f5a73f59b3ec453db213db1a3db0a3db043db014110440fc83f58f3f58b3e7133dbc5)
  (.lf
  0xcbe60cb6c0cbdc0cb700cbd20cb740cbc80cb780cbbe0cb7c0cbb40cb800cbaa0cb840cba00cb880cb960cb8c0cb9210a7210e9c10a7610e7e10a7a10e5c10a7e10e3e10a8210e1e10a8610dfc10a8a10dda10a8e10db810a9210d9610a9610d7810a9a10d5810a9e10d3610aa210d1410aa610cf210aaa10cd010aae10cb210ab210c9610ab610c7610aba10c5810abe10c3c10ac210c2010ac610c0010aca))
  (.nd (.lf
  0x110ec110da110a8125a8125ac125b0125b2125b41254612496124981249a1249c1249e124a0124a2124a4124a6124a8124aa124ac123e6123b6123b8123ba123bc123be123c0123601220e1221012212122141221612218131ee131f2131f6131f8131fa13190130f8130fa130fc130fe131001310213094130621306413066130681306a130a012ff412ff612ff812ffa12ffc12ffe1307c12ebc12ebe12ec0)
  (.lf
  0x36ebb36eb736ea536ea336ea136e9d36e8b36e8936e8736e8336e7136e6f36e6d36e6936e5736e5536e5336e4f36e2b36e2936e2736e2336e2136df1373043726a37276371f2371f8371ea371d4371ca371c0371b8371ac371fe3719837062370563704c3703e37040370283701e3701036f1236ef436ee436ec636eb036e8e36e7c36e6236e3436df63730537275372713726f3726b37277372693726537263)))
  (.nd (.nd (.lf
  0x4521044a1038f102cf702cae02c8502c6a02baa0563a055ec04523044a3038f302cfb02cb002c8702c6c02bac055fa055b404525044a5038f502cff02cb202c8902c6e02bae055aa0557804527044a7038f702d0302cb402c8b02c7002bb00556e0555804529044a9038f902d0702c8d02c7602c7202bb2055560452b044ab038fb02d0b02c8f02c7802c7402bb4069a20515f050df0452d039950391703900)
  (.lf
  0x2cd7f2cd7b2cd792cd772cd752cd712cd6f2cd6d2cd6b2cd672cd652cd632cd612cd5f2cd5b2cd592cd572cd532cd4f2cd4b2cd4d2cd492cd452cd432cd512cd412cd3d2cd3b2cd392cd352cd332cd312cd2f2cd2b2cd292cd272cd252cd212cd1f2cd1d2cd1b2cd192cd152cd132cd112cd0d2cd0b2cd092cd072cd032cd012ccff2ccfd2ccf92ccf72ccf52ccf32ccef2cced2cceb2cce92cce52cce32cce1))
  (.nd (.lf
  0x121b0133a01219013300121701326012150131c012130131201211013080120f012fe0120d012f40120b012ea01209012e001207012d601205012cc01203012c201201012b8011ff012ae011fd012a4011fb0129a011f901290011f701286011f50127c011f301272011f101268011ef0125e011ed01254011eb0124a011e901240011e701236011e50122c011e301222011e1011df01eeb01eb701e7c01e73)
  (.lf 0)))

def shaXorReads77 : BTree :=
  .nd (.nd (.nd (.lf
  0x1e5941e4c91d8e11d8b51d8aa1d5b42009b1f7f11e5861e4c71d8e51d8b71d8ac1d4342009d1f7f31e57c1e4f71d8e91d8b91d8ae1d4362009f1f7f51e5741e4d71d8ed1d8bb1d8b01d438200a11f7f71e56a1e4cb1d8f11d8bd1d8b21d43a200a31f7f91e5621e4e91d8f51d8bf1d8b41d2a61fe5f1f7fb1e5581e4f11d8f91d8b61d8811d2a81fe611f7fd1e54c1e4c51d8fd1d8b81d8831d2461fe631f7ff)
  (.lf
  0x1107a1106e110461103a1102e11022110161100a10ffe10ff210fe610fda10fce10fc210fb610faa10f9e10f9210f8610f7a110641106a114f01105410f4410f2e10f1810ece114eb1109d110991109711093110911108d1108b1108711085110811107f1107b1107911075110731106f110511104d1104b1104711045110411103f1103b1103911035110331102f1102d110291102711023110211101d1101b))
  (.nd (.lf
  0x4181d40d78409473f5f33f5ab3f58a3f5863f5843f583417f1417ed40d6a40abf3f5ea3f5e73f5dd3f5d63f5d33f5d0418a9418a540d6040a553f6e83f6903f68b3f6853f6813f67e414f5414f140d564090f3f55f3f5583f5523f5473f5433f53e411db4118f40d4c408f93f5733f5663f5633f52b3f5263f522411bd411b940d44408c53f56f3f54e3f5303f5193f5163f511411a9411a340d3a408a53f505)
  (.lf
  0x11faa11f6211f1e11eda11e9611e5211e0e11dc611d7c11d3611cf211caa11c6011c1611bd011b8811b4011af811ab011a6611a1a119c611974121d9121cb121c71219d1218f1218d12189121591214b121491214512115121071210512101120cd120bf120bd120b91208312075120731206f1203b1202d1202b1202711ff311fe511fe311fdf11fab11f9d11f9b11f9711f6311f5511f5311f4f11f1f11f11)))
  (.nd (.nd (.lf
  0x15888158501581a157e0157a61576a1572c156f2156ba156821564a1560e155d4155981555e15524154ec154b61547c1544015404153cc153901535215310159a61596a15932158f8158bc158801584815812157d81579e1576215724156ea156b21567a1564215606155cc15590155561551c154e4154ae1547415438153fc153c4153881534a153081599a15926158ea158ae15806157921575415636155c0)
  (.lf
  0x129ef129eb129e1129d3129d1129cd129c5129b7129b5129b1129a91299b12999129951298d1297f1297d129791296d1295f1295d129591294b1293d1293b12937129291291b12919129151290b128fd128fb128f7128ef128e1128df128db128cf128c1128bf128bb128b7128a9128a7128a3128a11289b1271212708126fe126f4126ea126e0126d6126cc126c2126b8126ae126a41269a12690126861267c))
  (.nd (.lf
  0x2f7d22f7ed2f7d52f7d3312b83127e31248311d43110a31102310a2310743102e30f7030f6a30f1630ec030e9c30e4230e1c30da230d9030d5630d2e30d0230cd630b5830b3230afc30ad430a6630a2a309c43096c309713096d30967322463224032230320d03206a3205c320503203e320383200a3200431fe031fb631e8631dd231dc831dc031d4831d2231d1231cf831cee31b2231b1a31b1231a0031890)
  (.lf 0)))

def shaXorReads78 : BTree :=
  .nd (.nd (.nd (.lf
  0x2b5d12b5cb2b5c82b5c22fe282f9d42dddd2ddd92cb132b8c52b81c2b5cd2b5b42b5ae2f9ca2f9ac2ddcd2ddc92cafb2b8212b81e2b5cf2b5442b53e2f9b82f99e2ddb52ddb12cae92b8482b8232b51d2b5122b50c2f9b42f98e2dd9f2dd9b2cad52b84b2b7802b4e72b4d42b4ce2f9b02f97a2dd8b2dd832cab12b7832b7422b4e92b4de2b4d82f9662f91a2dd8d2dd852cabb2b7452b6ee2b4f72b4f42b4ee)
  (.lf
  0x2c9e92c9e72c1c32c1bb2c18b2c18d2c1892c1832c1452c14d2c1432c13f2c11f2c8082c8042c8162c7f42c7ac2c7a42c7982c78e2c7862c77e2c7762c7662c7502c71c2c7122c70a2c7002c6ea2c6de2c6c62c6a22c6a42c6a62c6822c6722c65e2c64a2c63e2c6282c6302c1482c8092c8072c8052c8012c7ff2c8172c7fd2c7c12c7bf2c7f52c7bd2c7b92c7b72c7b52c7b12c7af2c7ad2c7ab2c7a72c7a5))
  (.nd (.lf
  0x2297833928338ed32763326d1326b827cf427cbf238432383e22a2a2297a33916338f132767326d3326bc27cea27cc3238452384022a162294033910338f5326d5326be27ce027cc72384723842229722293e33900338f9326d7326c027cd627ccb2384923844229582295033903326d9326c227cd12384b238462294a349ef3388b3386f338582987f200d61e9b51e99b1e99634e6c349f33388f338713385a)
  (.lf
  0x13769137651376313719137171371313711136d51e9721e95e1e9481e9321e91c1e9061e8f01e8da1e8c41e8ae1e8981e8821e86c1e8561e8401e82a1e8141e7fe1e7e81e7d21e7bc1e7a61e7901e77a1e7641e74e1e7381e7221e70c1e6f61e6e01e9731e9651e9611e95f1e9511e94f1e94b1e9491e93b1e9391e9351e9331e9251e9231e91f1e91d1e90f1e90d1e9091e9071e8f91e8f71e8f31e8f11e8e3)))
  (.nd (.nd (.lf
  0x3c2b83c28c3c25e3c2483c23e3c2223c2183c20e3c1e23c1d83c1c23c0c03c0b63c0ac3c0323c02a3c0203c0183bc283bb5e3baea3ba0c3b97e3b8c03f0ba3f0b03f0a23f09a3f0583f04e3f0443f03a3f02e3f0243f0183f00c3f0003ef823ef763ef6c3ef603ef543ef4c3eef83eeec3eec83ee8a3ee7e3ee763ee6e3edf43ed883eaa83e9f63f2c83f2ce3f2523f2383f2583f2203f2263f2823f1e63f1ec)
  (.lf
  0x1fdc71fda31fd9f1fd9b1fd851fd811fd7d1fd611fd5d1fd591fd1d1fd191fd151fcf71fcf31fcef1fcb31fcaf1fcab1fc8f1fc8b1fc871fc6b1fc671fc631ff311fbd71fbd31fb8d1fb891fb6d1fb251fb211fb051f9b11f9951f991205ec205f0205d8205f4205542054020528202ea202d8202e0202ce202b4202d2202a020290202a61ff281ff1c203ea1ff081fefe1f84a1f83a1f82e1f83c1f81c1f812))
  (.nd (.lf
  0x3f93c3f93a3f9393f9363f8273f8184147f4147c4184c41304412944129341842412e6412844128341812412c04129b41298417dc4116240fc940fc6417d6410e040fcc40fbd417ce4146c4108e40fb3414dc4107c40fa340fa04118c4105240fa640fa5411824103040fd240f8f4117a4102a40fd540fd04112a4101440fe340fe0410704100440fe840fe74106840ff640ff140fea40f5240f4a40f3840f37)
  (.lf 0)))

def shaXorReads79 : BTree :=
  .nd (.nd (.nd (.lf
  0x14523133eb12819127fb127f0127a4157c5157a814525133ed1281d127fd127f2127a6157891576c14527133ef12821127ff127f4127a81574b1572e14529133f11282512801127f6127aa15711156f41452b133f31282912803127f8127ac156d9156bc1452d133f51282d12805127fa127ae156a1156841452f133f71283112807127fc127b0156691564c14531133f91283512809127fe127b21562d15610)
  (.lf
  0x3cee93e5c63e5b43e59c3e58a3e48e3e4863e4723e4763e4583e44a3e4343e3e03e3d23e3c43e3be3e3ac3e3e63e3763e3423e1663e14a3e1403e1303e1263e1183e1103e1063e0f63e0e43e01a3dec43e5c73e5c53e5c13e5b53e5b33e5b13e5ad3e5a13e59d3e59b3e58d3e58b3e5893e5873e4933e48f3e48d3e48b3e4873e4833e4813e47f3e47b3e4733e4713e4773e46f3e46b3e4693e4673e4633e459))
  (.nd (.lf
  0x1e63e1e8fa1e6421e8e41e6461e8ce1e64a1e8b81e64e1e8a21e67e1e88c1e6821e8761e6861e8601e68a1e84a1e68e1e8341e6921e81e1e6961e8081e69a1e7f21e69e1e7dc1e6a21e7c61e6a61e7b01e6aa1e79a1e6ae1e7841e6b21e76e1e6b61e7581e6ba1e7421e6be1e72c1e6c21e7161e6c61e7001e6ca1e6ea1e6ce1e6d423814239e423818239da2381c239d023820239c623824239bc23828239b2)
  (.lf 0))) (.nd (.nd (.lf
  0x17102170cc170921705a1702016fe616fae16f7816f3e16f0616ecc16e9416e5a16e1a16dda184da184aa1847018438183fe183c61838e1834e1830e182ce1828a1824418202181c2181821813e180f8180b2180701803017ff017fac17f6617f2417ee417ea017e5a17e1817dd417d920eb280eb1e0eb140eb0a0eb000eaf60eaec0eae20ead80eace0eac40eaba0eab00eaa60ea9c0ea920ea880ea7e0ea74)
  (.lf
  0x5a4105a0f05a01059ff059fb059c9059bb059b9059b50598305975059730596f0593d0592f0592d05929058f7058e9058e7058e3058b5058a7058a5058a10587505867058650586105835058270582505821057f5057e7057e5057e1057b5057a7057a5057a10577105763057610575d0572f057210571f0571b056eb056dd056db056d7056a90569b056990569505665056570565505651056230561505613))
  (.nd (.lf
  0x13824137e8137d61379a137861374a13734136f8136e2136c6136c2149a61499614988149761496a149581494e1493c1492e1491c14910148fe148f0148de148d2148c0148b6148a414896148841487414862148521484014834148221481414802147f6147e4147da147c8147ba147a81479c1478a147801476e1476414752147481473614728147161470a146f8146ee146dc146ce146bc146b01469e14690)
  (.lf 0)))

def shaXorReads80 : BTree :=
  .nd (.nd (.nd (.lf
  0x119310ee080edb70ebd70eb490eb2c06330062f211aee119350edfe0edbb0ebdb0eb4b0eb30062f4062b411aa6119390edf40edbf0ebdf0eb4d0eb34062aa0626c11a5c1193d0edea0edc30ebe30eb4f0eb380626e0622e11a10119410ede00edc70eb510eb3a06224061e6119bc119450edd60edcb0eb530eb3c061e8061bc1194b0edd10eb550eb3e061ba0ef030ed5d0ed410ed2a0d36b075f80f0e20ef07)
  (.lf
  0x2239e22167223942216b2238a222f7223802216f22370221732236a221772235e2217b223542217f2234c2218322340221872233a2218b2232c2218f2232621ddb2231a21ddf2231221de32230821de722301221d8221ce22193221c622197221be2219b221b62219f221ac221a3221a9232b123498232b523488232b92347c232bd23470232c123468232c523454232c92344e232cd23442232d123434232d5))
  (.nd (.lf
  0x35e6235e1035c6c37c5a37c0837c7437be037bc437c2437b8637b8e37b5637b6637b3037b2637b0c37ad637abe37ab437ac837a8037a8237a8437a58377c2377b2377ce3778c37798377783718637164371463711a370fc3bbcc3bb103ba543b9aa3b8f63b86c3b7de3b75c3b7303b6aa3b6863b61a3b5f23b5b03b56e3b5163b4e43b49e3b4643b4223b3e03b3bc3b2de3b2ce3b2be3b2ac3b2fa3b2443b1fe)
  (.lf
  0x2d7002d5002d3002cf002cd002cb002c9002c5002c3002c1002bf002bb002b9002b7002b5002b1002af002ad002ab002a7002a5002a3002a10029d0029b002990029700293002910028f0028d002890028700285002830027f0027d0027b002790027500273002710026f0026b002690026700265002610025f0025d0025b002570025500253002510024d0024b002490024700243002410023f0023d00239)))
  (.nd (.nd (.lf
  0x619d06105060fa060ae05c0905c000793906d2b061a106107060fc060b005bc205bbf0793b06d2d0612506109060fe060b205b8305b7a0793d06d2f061290610b06100060b405b4305b3a0793f06d310612d0610d06102060b605b0305afa0794106d33061310610f06104060b805abc05ab90794306d35061350611106106060ba05a7605a730794506d37061390611306108060bc05a3005a2d0794706d39)
  (.lf
  0x3556d355713556b355673554936cca36cc036cb836cb236ca636c9836c8e36c8836c7836c7c36c6636c6036c5236c4836c4036c3436c2a36c2436c1636c0c36c0236bf636bf836bfa36b5436b4c36a3c36a46369e4369da3691036ccb36cc936cc536cc336cc136cbf36cbb36cb936cb736cb536cb336caf36cad36cab36ca736ca536ca336ca136c9d36c9b36c9936c9736c9336c9136c8f36c8d36c8936c87))
  (.nd (.lf
  0x11c9411c8a11c4a11c4011c0011bf611bba11bb011b7211b6811b2a11b2011ae211ad811a9a11a9011a5011a4611a04119fa119b0119a61196c1196a225d42292c225d822918225dc229022261a228ec2261e228d622622228be22626228a62262a2288e2262e22876226322285e22636228462263a228302263e2281a226422280222646227ec2264a227d62264e227c022652227aa22656227942265a2277e)
  (.lf 0)))

def shaXorReads81 : BTree :=
  .nd (.nd (.nd (.lf
  0x21a912173f213ad213a220f1e20f12250982492822cdd22cd921a0521753217412130220f2020f14250862491c22c6722c63219af21757216632129420ee620ee02507e248c6239f7239f32196b2175b2151d2123620e8420e78250662486622c2722c23219232166b214592121020e8620e7a246f4246ca22bc522bc121925215252145b210fc20df820df22469e2468222ae722ae3216c721465213ed21088)
  (.lf
  0x21adf21add21ad921acd21aa721a7f21a7b21a7921a7721a7521a7321a6f219f9219f7219f5219f1219a5219a3219a12199d2195f2195d2195b2195721913219112190d2190b21909219072190521901216bd216bb216b9216b5215fb215f9215f5215f3215f1215ef215eb215e9215e7221ea22104220682204621fe221f6221f4421f0621eea21e5a21d9c21d4421d1e21cf421c6c21c2821bf021bbc21b50))
  (.nd (.lf
  0x1a0fa1a0e22ae082ac4b29ad729a8829a591e3901e1d31bbf71bbbc1bb6f1a0c01a0aa2adf22ac4f29adb29a8a29a5d1e37a1e1d71bbfb1bb731bb6a1a08a1a0702addc2ac5329adf29a8c29a611e3641e1db1bbff1bb771bb6e1a04e1a0362adc62ac5729ae329a8e29a651e34e1e1df1bc031bb7b1bb721a01419ffa2adb02ac5b29ae729a9029a671e3381e1e31bc071bb7f1bb7619fd819fbc2ad9a2ac5f)
  (.lf
  0x1bcf51bcf11bcef1bce11bcdf1bcdb1bcd91bccb1bcc91bcc51bcc31bcb51bcb31bcaf1bcad1bc9f1bc9d1bc991bc951bc871bc851bc811bc7d1bc6f1bc6d1bc691bc651bc571bc551bc511bc4f1bc411bc3f1bc3b1bc391bc2b1bc291bc251bc231bc1d1ceec1ced61cebe1cea61ce8e1ce761ce5e1ce461ce2e1ce161cdfe1cde61cdce1cdb61cd9e1cd861cd6e1cd561cd3e1cd261cd0e1ccf61ccde1ccc6)))
  (.nd (.nd (.lf
  0x2cd242cd1a2cd102cd062ccfc2ccf22cce82ccde2ccd42ccca2ccc02ccb42ccaa2cca02dd062dcfa2dcf02dce62dcdc2dcd42dcca2dcc02dcb62dcac2dca22dc982dc8e2dc842dc782dc6a2dc602dc582dc4c2dc422dc382dc302dc282dc1c2dc122dc0a2dbfe2dbf42dbea2dbe22e7cc2e7ae2e7462e7262e6bc2e67c2e6402e6022e5e02e58a2e53c2e5142e4d42e4722e4502e42e2e41a2e3f82e3c62e3a6)
  (.lf
  0x198ac198a2198981988e198841987a19870198661985c19852198481983e198341982a19820198161980c19802197f8197ee1991b199191991519913199111990f1990b19909199071990519901198ff198fd198fb198f7198f5198f3198f1198ed198eb198e9198e7198e3198e1198df198dd198d9198d7198d5198d3198cf198cd198cb198c9198c5198c3198c1198bf198bb198b9198b7198b5198b1198af))
  (.nd (.lf
  0x251a424c8a24c4e24bad2519024c4424ba424ba32518824c0c24b9824b972516024c0624c0224c012515424b0024aff24afc2514e24adf24adc24ada2514624ab824aa824a8d2512c24aae24a9324a902512624aa724aa424a96250e624a382497f2497a250d824e8124a1e24970250d224a122497524972250c824a0c2497d24956250be249ec2498324952250b4249d62498524976250a8249bc2498124978)
  (.lf 0)))

def shaXorReads82 : BTree :=
  .nd (.nd (.nd (.lf
  0x359343552c33369333653201b30f8530f8130f7e30f7c30f763592e354b83329933295320bd30f5f30f5d30f5a30f5830f523590835492332af332ab320ad312ca30f3430f3330f3130f2e358f035484333313332d31fcd312cd3129430ed730ed430ece358e2354563360b3360731e83312973126a30e8d30e8a30e84358c635442332113320b31e11312713120230e5930e5630e503589c353fa331cf331cb)
  (.lf
  0x407f3407f1407ed407eb407d7407d54075d4074f4074d4074b407474073d4073b40739407354072f4072540723407174071540713407114070d40709406ff406fd406f9406ed406eb406e9406d1406cf406cd406d7406cb406c7406c5406c3406bf406b7406b140765406af406a93fa293fa273fa233fa213fa1b3fa193fa153fa053f98f3f98d3f9893f9873f9773f9753f94b3f9373f817402c04027840290))
  (.nd (.lf
  0x381fb329ca3294b32910329083821a381ff3298e328af3284c3284a38214382033294a328b1328263281c382073813e328b3328ae327f6327f4381363812f32d73328b0327c6327c23813b32d75328b2327963890733eb733e9d33e9833e6e38b2c387a933fcc33ebb33e9f33e9a33e7238b26387ad33fbe33ebf33ea133e9c33e5a38b18387b133fb433ec333ea333e9e33e4e38b12387b53431433fac33ec7)
  (.lf
  0x2f5dd2f5cd2f5bd2f5bb2f5b92f5b52f5a52f5a32f5a12f59d2f58d2f58b2f5892f5852f5832f5592f55b2f5572f5532f5512f54f2f54b2f5492f5472f5452f5432f53f2f53d2f53b2f5372f40b2f4032f4012f3ef2f3eb2f3a72f3a52f3a12f39f2f39b2f3c12f3992f3952f3932f3912f38d2f38b2f3772f3752f3712f36f2f3532f3592f3512f34d2f2f32e8d82e8ce2e8c42e8ba2e8b02e8a42e89a2e890)))
  (.nd (.nd (.lf
  0x1cbc01cbc41cbc81cbcc1cbd01db281db2c1db301db341db381db3c1db401db441db481db4c1db501db541db581db5c1db601db641db681db6c1db701db741db781db7c1dd041dd081dd0c1dd101dd141dd181dd1c1dd201dd241dd281dd2c1dd301dd341dd381dd3c1dd401dd441dd481dd4c1dd501dd541dd58207c8207cc207d0207d4207d8207dc207e0207e4207e8207ec207f0207f4207f8207fc20800)
  (.lf
  0x2710327101270fd270fb270f7270f9270f5270f1270ef270ed270e9270e7270e5270e3270df270dd270db270d9270d5270d1270a5270a32709f2709d2706727065270612705f2705d2705b270572705526fe526fe326fdf26fdb26f7126f7326f6f26f6b26f3b26f3926f3526f3326f0126eff26efb26ef926ead26eab26ea726ea326e732853a28530285262851c2851228508284fe284f4284ea284e0284d6))
  (.nd (.lf
  0xb2a70b37a0b2ab0b3700b2af0b3660b2b30b35c0b2b70b3520b2bb0b3480b2bf0b33e0b2c30b3340b2c70b32a0b2cb0b3200b2cf0b3160b2d30b30c0b2d70b3020b2db0b2f80b2df0b2ee0b2e30b2e90bd6d0bf120bd710bf080bd750befe0bd790bef40bd7d0beea0bd810bee00bd850bed60bd890becc0bd8d0bec20bd910beb80bd950beae0bd990bea40bd9d0be9a0bda10be900bda50be860bda90be7c)
  (.lf 0)))

def shaXorReads83 : BTree :=
  .nd (.nd (.nd (.lf
  0x175ca175ac15ac315ab314b1d141a7141641413b1412014060175c0174fa15ad315acf14b1f141ab141661413d1412214062175de174f015a4315a3f14b21141af141681413f1412414064175d4174e615a2115a1114b23141b31416a141411412614066175ae174e015a2315a1314b25141b71416c141431412814068174d81748a15a2515a1514b27141bb1416e141451412a1406a174d0174c415a2715a17)
  (.lf
  0x6375063730636f0636d0632f0632d0632906327062e7062e5062e1062df062a9062a7062a3062a1062610625f0625b0625906223062210621d0621b061db061d9061d5061d3061b7069a40697a06928068f8068a2068720681c067d6067a60676606726066d00668a0664406614065d4065940653e0650e064b8064720642c063e6063b6063600631a062ea06294062640620e061de069a50697b0696d06969))
  (.nd (.lf
  0x15488154591544c1541d15410153e5153d8153ab1539e1536d15360153391532c152f9152f4152dd10417103db1038c103831032a10321102ce102c51027210269102141020b101b6101ad1015c10153100fc100f3100a010097100441003b0ffe60ffdd0ff840ff7b0ff280ff1f0fec80febf0fe680fe5f0fe0a0fe010fdac0fda30fd4a0fd410fcee0fce50fc8e0fc850fc320fc290fbd60fbcd0fb780fb6f)
  (.lf 0))) (.nd (.nd (.lf
  0x43c00437a04332042f2042b40426c0422e041e6041a80416004122040dc04094040560401003fc803f8803f4803f0803eca03e8203e4203e0403dbc03d7e03d3803cf003cb2075dc0759e0755c07518074d2074900745007410073d0073900735007310072d00728c0724607200071ba0717807134070f2070ae0706c0702806fe606fa206f6006f2006edc06ea006e66075ee075b20752c074e6072a00725a)
  (.lf
  0xb3bc0b3b20b3a80b39e0b3940b38a0b3800b3760b36c0b3620b3580b34e0b3440b33a0b3300b3260b31c0b3120b3080b2fe0b2f40b2ea0b4170b4150b4110b40f0b40d0b40b0b4070b4050b4030b4010b3fd0b3fb0b3f90b3f70b3f30b3f10b3ef0b3ed0b3e90b3e70b3e50b3e30b3df0b3dd0b3db0b3d90b3d50b3d30b3d10b3cf0b3cb0b3c90b3c70b3c50b3c10b3bf0b3bd0b3bb0b3b70b3b50b3b30b3b1))
  (.nd (.lf
  0x26cde26c4526cd426c3726cc826c3526c3c26c3326c3126c2826bf326bee26be226bb526bbb26bb826b28269d926b1e269e126b18269cb26b0e2697f26ae826ac726ab226967269fc269b1269f226953269e626947269812693a2690927f912820a27f892818827f872817827f6b2817227f5d2816427f5b2815e27f472815227f392814827f292813c27f192813227f6d2812227f372810a27f35280f827ef3)
  (.lf 0)))

def shaXorReads84 : BTree :=
  .nd (.nd (.nd (.lf
  0xeac411c40311e0203101fb10138b00faa00f6a00f1700ec500eae4187002b6a0140d0138d00fac00f2d4194a4186a02b4002af80140f0138f00fae00f2f419424185402aee02ab2014110139100fb000f314193c417fc02aa802a6a014130139300fb200f33418ba4181e02a7802a2c014150139500fb400f35418ac4180602a22029e4014170139700fb600f374193841510029f2029a6014190139900fb8)
  (.lf
  0x2039c2014a203942014e20386201522037e20156203762015a2036a2015e203642016220356201662034e2016a203462016e2033c2017220330201762032a2017a2031e2017e20316201822030c20186203002018a202f42018e202ee20192201d820196201ce2019a201c62019e201bc201a2201b2201a6201ae2185c220e42186e220d62186021e2e2168621e262156621e1c2156a21e122188a21e042188e))
  (.nd (.lf
  0x316ac3165831626336d6336b63373e3368833666336483362c336f03338e3336833298332ae333303360a33210331ce331a833184331763316032ffe32f8e32f7632f6c32f5432fe432954328f4328d0328e0328bc327aa347e434786346b63465c34618345cc345b03452a344fe344de344723440c343d23439c34372343463432e342463420e341b63416e3414433d8033d0833ce233b9833b5c33b2e33b0c)
  (.lf
  0x387a13879d3879b3879938797387913878f3878d3878b387873878338781387933877f3877b387793877738773387713876f3876d387693876738765387633875d3875b387593875738753387513874f3874d387493874538743387413873d3873b3873938737387333872538723387213871d387193871738715387113870f385a13859f3859b385913858f3858d38589385853856b385b5385613855938557)))
  (.nd (.nd (.lf
  0x6a7105ed105e5105e3a05df605d3608e2808dea076810760106a7305ed505e5305e3c05df805d3808df808daa076830760306a7505ed905e5505e3e05dfa05d3a08db808d6c076850760506a7705edd05e5705e4005dfc05d3c08d6208d24076870760706a7905ee105e5905e4205dfe05d3e08d3208ce4076890760906a7b05ee505e5b05e4405e0005d4008cf208ca40768b0760b06a7d05ee905e5d05e46)
  (.lf
  0x2f3d92f3d52f3d32f3c92f3cf2f3c72f3c32f3852f3812f37d2f3792f36d2f36b2f3672f3652f3612f3892f35f2f35b2f2fb2fdb42fdae2fda02fd9c2fd8a2fd802fd762fd6c2fd642fd5a2fd4a2fd5e2fdb82f8b42f89e2f8942f8882f87e2f8722f86c2f85e2f8542f8562f8422f8202f7fa2f7ce2f7b22f7782f7802f3aa2fdb52fdb32fdaf2fdad2fdab2fda92fda52fda32fda12fd9d2fd9b2fd972fd95))
  (.nd (.lf
  0x1060b106be0fd91106b410609106a60fcd31069e10607106920fc171068810605106800fb5d10674106031066e0fa9b10650106011064a0f9e31062c105ff106260f925105f510edf11236110d31122c10ee111222110d11121810ee31120e110cf1120410ee5111fa110cd111f010ee7111e6110cb111dc10ee9111d2110c9111c810eeb111be110c7111b410eed111aa110c5111a010eef11196110c31118c)
  (.lf 0)))

def shaXorReads85 : BTree :=
  .nd (.nd (.nd (.lf
  0x2400b22e252216521dcf21dc421c0025ad02577b2400d22e272216921dd121dc621bda25ac22577323f4922d5f222f521dc821b7b21b7225aba2578723f4b22d3b2216d21dca21b7d21b2625a702577f237f122d152217121dcc21b7f21ae425a6625781237f322cf12217521dce21b7521ab02593425785237f522cf32217921dd021b7721ab22592c25783237f722cf52217d21b7a21b7921a0e2591c2577d)
  (.lf
  0x143fb143f9143f5143ed143eb143e9143e5143dd143db143d9143d5143cd143cb143c9143c5143bd143bb143b9143b5143ad143ab143a9143a51439d1439b14399143951438d1438b1438914385143831437b1437914375143731436b14e8414e5614e2a14dfe14dd214da614d7a14d4e14d2214d0014ce414cce14cba14ca614c9214c7e14c6a14a7014a6614a5c14a5214a4814a3e14a3414a2a14a2014a16))
  (.nd (.lf
  0x1ea191ea021190f118e7118e2101b8101a9101a01019d101921017c1ea471ea1b1ea0411913118e9118e41015e1014f1014610143101361011c1ea4b1ea1d1ea0611917118eb118e6100fe100ef100e6100e3100d8100c01ea4f1ea1f1ea081191b118ed118e8100a2100931008a100871007a100641ea531ea211ea0a1191f118ef118ea10046100371002e1002b10020100061ea571ea231ea0c11923118f1)
  (.lf
  0x13949139451390d138ff138fd138f9138c1138b3138b1138ad1387113863138611385d1381f138111380f1380b137d1137c3137c1137bd1378113773137711376d1372f137211371f1371b136dd136d70ddd20ddc80ddbe0ddb40ddaa0dda00dd960dd8c0dd820dd780dd6e0dd640dd5a0dd500dd460dd3c0dd320dd280dd1e0dd140dd0a0dd000dcf60dcec0dce20dcd80dcce0dcc40dcba0dcb00dca60ddd3)))
  (.nd (.nd (.lf
  0x19cc21a3c61a38e1a3521a3141a2d61a2981a25a1a21c1a1e21a1a61a16c1a1321a0f61a0bc1a0861a04a1a01019fd419f9819f5a19f1c19ee019ea419e6619e2419ddc19d9819d5219d0a19cba1a3f01a3821a3441a3061a2c81a28a1a24c1a1d61a1601a1241a07a1a00419fc619f8a19f4c19f0e19ed219e9619e5819e1619cfe19cac1a3f11a3891a3851a3831a34b1a3471a3451a30d1a3091a3071a2cf)
  (.lf
  0x1159b115971159511593115911158d1158b115891158711583115811157f1157d115791157711575115731156f1156d1156b115691156511563115611155f1155b115591155711555115511154f1154d1154b115471154511543115411153d1153b115391153711533115311152f1152d115291152711525115231151f1151d1151b115191151511513115111150f1150b11509115071150511501114ff114fd))
  (.nd (.lf
  0x432b043220431e04316042eb042e2042de042d6042a4042a00429804295042650425c04258042500421e0421a042120420f041df041d6041d2041ca04198041940418c0418904159041500414c04144041120410e0410604103040cc040c8040c0040bd0408d04084040800407804046040420403a040370400003ffc03ff403ff103fc103fb803fb403fac03f8103f7803f7403f6c03f4103f3803f3403f2c)
  (.lf 0)))

def shaXorReads86 : BTree :=
  .nd (.nd (.nd (.lf
  0x30b7d2f8d52ee272eb5a2ea4d2ea4a329a73298830b492f8392ee2b2eb162ea112ea0e329713290e30af92f81b2ede12eada2e9eb2e9e8329113285630a8f2f7e92edbd2eaac2e9b12e9a63284d3282c30a332f7c92f0312edcf2eaae2e9963281d327fc309d52f7a32efdf2ecef2ea4c2e948327f5327e23097f2f7a52ef9f2ec972ea102e938327c7327b83099f2f3bf2eef92ec7f2e9ea2e8f23279730761)
  (.lf
  0x2f9652f9632f95f2f95d2f95b2f9592f9552f93b2f9392f9372f9332f9312f92f2f92d2f9292f9272f9252f9232f91f2f8df2f8cb2f8c92f8c52f8c32f8332f8312f82f2f8272f80f2f80d2f8092f8072f7e32f7e12f7df2f7d72f7c12f7bf2f7bb2f7b92f7992f7972f7932f7912f78f2f78d2f7892f7872f3b92f3b72f3b52f3af2f311312be3128831256311f63112231198310ae3104230ffa30f7430f50))
  (.nd (.lf
  0x263a72631f2631625ab02577e36f1a36db335c2135bc435b9b2bca82bc1f263ab263232631a2593e2578036efa36db735c2535bc635b9d2bc9e2bc23263272631e259322578436eea36dbb35c2935bc835b9f2bc942bc272632b263222592a2578236ecc36dbf35c2d35bca35ba12bc8a2bc2b2632d26326259222577c36eb636dc335c3135ba335b862bc802bc2f2632f2632a259122577436e8836dc735c35)
  (.lf
  0x255bb255b7255b5255a7255a5255a12559f255912558f2558b255892557b25579255752557325565255632555f2555d2554f2554d25549255472553925537255332553125523255212551d2551b2550d2550b2550725505254f7254f5254f1254ef254e1254df254db254d9254cb254c9254c5254c3254bd2505c25052250482503e250342502a25020250162500c2500224ff824fee24fe424fda24fd024fc6)))
  (.nd (.nd (.lf
  0x3fbc03f7c03f3c03efc03ebe03e7603e3603df803db003d7203d2c03ce403ca60442c043ee043a8043620431a042da0429c0425404216041ce04190041480410a040c40407c0403e03ff803fb003f7003f3003ef003eb203e6a03e2a03dec03da403d6603d2003cd803c9a050aa050640502604fe004f9804f5804f1a04ed404e8e04e4804e0204dba04d7a04d3a04cfc04cb404c7404c3404bf604bae04b6e)
  (.lf
  0x1e5b91e5b71e5b31e5b11e5af1e5ad1e5a91e5a71e5a51e5a31e59f1e59d1e59b1e5991e5951e5931e5911e58f1e58b1e5871e5851e5891e5831e57f1e57d1e57b1e5771e5751e5731e5711e56d1e56b1e5691e5671e5631e5611e55f1e55d1e5591e5571e5551e5531e5511e54d1e54b1e5491e5451e5431e5411e53f1e53b1e5391e5371e5351e5311e52f1e52d1e52b1e5271e5251e5231e5211e51d1e519))
  (.nd (.lf
  0x9c9409d8209c9809d7809c9c09d6e09ca009d6409ca409d5a09ca809d5009cac09d4609cb009d3c09cb409d3209cb809d2809cbc09d1e09cc009d1409cc409d0a09cc809d0009ccc09cf609cd009cec09cd409ce209cd809cde0a8e60a9cc0a8ba0a9c20a8f00a9b80a8c40a9ae0a8960a9a40a86a0a99a0a83e0a9900a8120a9860a7e60a97c0a7ba0a9720a78e0a9680a76c0a95e0a7520a9540a8f40a94a)
  (.lf 0)))

def shaXorReads87 : BTree :=
  .nd (.nd (.nd (.lf
  0x17755167ab16035160151600a15f681922b19206176a7167ad16039160171600c15f6a191eb191c6176a9167af1603d160191600e15f6c191ab19186176ab167b1160411601b1601015f6e1916b19148176ad167b3160451601d1601215f701912919104176af167b5160491601f1601415f72190e3190be1766b166c51604d160211601615f74190a11907c17647166c716051160231601815f76190611903c)
  (.lf
  0x3ef7d3ef793ef773ef733ef713ef6f3ef6d3ef693ef673ef633ef613ef5d3ef593ef573ef873ef553ef513ef4f3ef4d3ef493ef0b3eefb3eef93eef53eef13eeef3eeed3eee93eee33eed53eec93eec53eec13ee8d3ee8b3ee873ee853ee813ee8f3ee7f3ee7b3ee793f0c33ee773ee733ee713ee6f3ee6b3edf93edf73edfd3edf53edef3ed9b3ed893ed753ed733eaab3eaa93eaa53ea753e9f93e9f73e9f5))
  (.nd (.lf
  0x32da032e1432da432d3a32d0032d3032d0432d2432d0832d1e32d0c32d1432d1032c4632c3e32c1e32c1632bf232bee32bcc33e7a3410c33e7e3410233e82340f633e86340ec33e8a340e233fe0340da33e8e340d033fe4340c433e92340ba33e96340b433eb8340a433ebc3409a33ec03409233ec43408833ec83407e33ecc3407233ed03406c33ed43406433ed83405633edc3405033ee03404633ee434038)
  (.lf 0))) (.nd (.nd (.lf
  0x1e7cc1e7b61e7a01e78a1e7741e75e1e7481e7321e71c1e7061e6f01400a13fc413f7413f2613ed613e8413e3613de613d9413d4213cf013ca213c5213c0413bb813b6813b1a13ace13a7e13a30139e01398e13940138f4138a81385813806137b813768137161e9641e94e1e9381e9221e90c1e8f61e8e01e8ca1e8b41e89e1e8881e8721e85c1e8461e8301e81a1e8041e7ee1e7d81e7c21e7ac1e7961e780)
  (.lf
  0x71410713f0713b07139070ff070fd070f9070f7070bb070b9070b5070b30707907077070730707107035070330702f0702d06ff306ff106fed06feb06faf06fad06fa906fa706f6d06f6b06f6706f6506f2d06f2b06f2706f2506ee906ee706ee306ee106ead06eab06ea706ea506e7306e7106e6d06e6b06e390446a0444404400043ba0437404338042f8042ae0427204228041ec041a2041660411c040d6))
  (.nd (.lf
  0x24a62247c624a52247ba2490e247ae24a7224906248fc2479a248f024796248ea24780248de24774248d424768248ae2475e248a624750248a0247462489024738248882472c24880248582485224718246e8246c2246962465a24650245da24606245ce245de260a82609a260862608a260762607025e9e25edc25ea225ed425ea025eca25e9c25ea425e5c25e1425dfe25df825cd225d5225cd425cea25cd0)
  (.lf 0)))

def shaXorReads88 : BTree :=
  .nd (.nd (.nd (.lf
  0xd59f0d5790d5620058e004860db420d7830d5a30d57b0d56400584004840db200d7870d5a70d57d0d5660057a004820dafe0d78b0d5ab0d57f0d56800570004800dadc0d78f0d5af0d5810d56a005660047e0daba0d7930d5b30d5830d56c0055c0047c0da980d7970d5b70d5850d56e005520047a0da760d79b0d5bb0d5870d57000548004780da540d79f0d5bf0d5890d5720053e004760da320d7a30d5c3)
  (.lf
  0x298c023050294602309029000230d028be023110287e023150283e02319027fe0231d027be023210277e023250273a02329026f40232d026ae0233102668023350262202339025e00233d0259c0234102556023450251002349024ca0234d024880235102448023550240402359023be0235d0236302f690310e02f6d0310402f71030fa02f75030f002f79030e602f7d030dc02f81030d202f85030c802f89))
  (.nd (.lf
  0x336fe3339c333743447a34412347ee3478e346be3466434620345d4345b83453234506344e63447c347f234790346c23466834624345d8345bc345343450a347f434794346c43466c34626345dc345be345383450c344e8354c4354b0356f03570c356c03566a35614355de355b43558e3555e3553e354c6356f23570e356c43566c35618355e2355b63559235560356f635710356c8356703561c355e4355ba)
  (.lf
  0x3a5103a4f83a4fc3a4e63a5003a4d43a4c83a4bc3a4ae3a4a43a4983a48c3a4803a4743a4683a45c3a44a3a3fa3a3ec3a3fe3a3d83a4023a3ba3a56b3a5693a5653a5613a55f3a55d3a5593a5573a5533a5513a54d3a54b3a5493a5473a5433a5413a53d3a53b3a5373a52d3a52b3a5313a5293a5253a5233a5213a51d3a5193a5173a5153a5113a50f3a50d3a50b3a5073a4fb3a4f93a4fd3a4f73a4f33a4f1)))
  (.nd (.nd (.lf
  0xb10b0a8690a83a0a6e30a6e00a6da104940fe4a0bccb0bc4b0b10d0a83d0a80e0a6cf0a6cc0a6c61048a0fdee0bccd0bc4d0b10f0a8110a7e20a6bb0a6b80a6b2104800fd8e0bccf0bc4f0b1110a7e50a7b60a6a70a6a40a69e104760fd2e0bcd10bc510b1130a7b90a78a0a5d30a5d00a5ca1046c0fcd00bcd30bc530b1150a78d0a7680a5bf0a5bc0a5b6104620fc720bcd50bc550b1170a8eb0a76b0a74c)
  (.lf
  0x324aa324a632498324ae324843247e32472324683245e324543244632424323f0323c63239a3239032388322043209432525325233251f3251d3251b325193251732513325113250f3250b32509325073250532501324ff324fd324fb324f7324f5324f3324f1324ef324eb324e9324e7324e3324df324dd324e1324db324d7324d5324d3324cf324cb324c9324c7324c3324c1324bf324cd324bd324b9324b7))
  (.nd (.lf
  0x31d2731d8031d1b31cf731cec31ca831b3131c8a31b2531c8431b2131c6e31b1531a03318aa318a2318973186d317fc317c33169e316a53166831651316203161f33601336ae33603336a4335ff3369e333873367a3335b3365a332d133622332c13361833259333843325d3337e33249332903323f332a73327e3327633267332693321a33207331da331c7331b633197331923318c331373316a3312333105)
  (.lf 0)))

def shaXorReads89 : BTree :=
  .nd (.nd (.nd (.lf
  0x2c6f52b4872a4e72a3022a26d2a26a2e3c92e3a82c6cb2b4892a4eb2a2e82a2512a24e2e3a12e38e2c6af2b48b2a4ef2a2c82a2372a2322e3812e36a2c6b12b3d32a4f32a2aa2a2152a2122e35f2e3482c6b32b3b12a4f72a2882a1fb2a1f62e33b2e3222c6892b3292a42b2a26c2a1db2a1d82e31b2e3042c6792b32b2a3ff2a2502a1b42a1b12e2fe2e2bb2c6652b32d2a3db2a23629fb929fb02e2f42e2a5)
  (.lf
  0x1a8231a8211a81f1a81b1a8191a8171a8131a8111a80f1a80d1a8091a8071a8051a8031a7ff1a7fd1a7fb1a8531a7f91a7cf1a7cd1a7cb1a7c71a7c51a7c31a7d11a7c11a7bd1a7bb1a7b91a7b51a7b31a7b11a7af1a7ab1a7a91a7a71a7a51a7a11a79f1a79d1a79b1a7971a7951a7931a7911a78d1a7671a7651a7631a75f1a75d1a75b1a7591a7551a7531a7511a74f1a74b1a7491a7471a7451a7411a73f))
  (.nd (.lf
  0x2437c242f51adca1ac491105610f500f6270f5cb0f5b40e3330e32e24364242f91ad881ac4d10f4610f3a0f6290f5cd0f5b60e3350e3302434e242fd1ad421ac5110f3010f240f62b0f5cf0f5b80e3370e33224338243011ad001ac5510f1a10eda0f5d10f5ba0e3390e33424322243051acc01ac5910ed010eca0f5d30f5bc0e33b0e3362430b1ac5f10ec80f5d50f5be0e33d0e338253ff242972427b24264)
  (.lf
  0xeb150eb110eb0f0eb0d0eb0b0eb070eb050eb030eb010eafd0eafb0eaf90eaf70eaf30eaf10eaef0eaed0eae90eae70eae50eae30eadf0eadd0eadb0ead90ead50ead30ead10eacf0eacb0eac90eac70eac50eac10eabf0eabd0eabb0eab70eab50eab30eab10eaad0eaab0eaa90eaa70eaa30eaa10ea9f0ea9d0ea990ea970ea950ea930ea8f0ea8d0ea8b0ea890ea850ea830ea810ea7f0ea7b0ea790ea77)))
  (.nd (.nd (.lf
  0x2371823700236f2236e0236ce236b8236a42368e2367a23668236522363a236222360e235fc235e6235ce235ba2359c235722354a2350e234b2237a02377a2378e23766236c2236982365c2364a2362a235f4235d4235a223556237a623782237792377523778237732376f237722376c237612375b23760237582370f2370b2370e23709236f923708236ed236e7236ec236db236d5236da236c8236af236ab)
  (.lf
  0x1736d1736b173671735d17333173311732d17325172fb172f9172f5172ed172c5172c3172bf172b71728f1728d1728917281172571725517251172451721b172191721517207171df171dd171d9171cb171a3171a11719d1718f171671716517161171531712b17129171251711b170f3170f1170ed170e5170bd170bb170b7170ab17083170811707d170731704b1704917045170391700f1700d1700916fff))
  (.nd (.lf
  0x143fa1433f139d0139cc143f4143371397c1397a143da143351392e1392c143d414333138e4138e0143ba143311389813894143b41432f1384a138441439a1432d137fa137f2143941432b137ac137a4143841432913758137541437414327137041370214325136ca14ab3149e614e7c14c5214ab1149e814e4e14c4814aaf149ec14e2214c3e14aad149ea14df614c3414aab149e414dca14c2a14aa9149dc)
  (.lf 0)))

def shaXorReads90 : BTree :=
  .nd (.nd (.nd (.lf
  0x393903935337b9d37a5c3779d3779a3bb573b2fd3938a3933137b5f377c63777d3777a3bad13b247394a73930437c5f37b6f377c8371883b9df3b1ef392fe392e737c0d37b3d377d2371663b9773b191392ed392c637c7b37b4137792371483b8b53b1a9392b5392a437be737b153779c3711c3b80d392a137e8937bcd37add3777c370fe3d2473c4753bbd93bbd33bbd03bbce3bbc93d1f53c38f3bb2a3bb27)
  (.lf
  0x37a6637a54377be377ae377ca377883779437774371823715e371363711637c5737c5537c1f37c1d37c0537c7137c0337bff37bfd37bfb37bf737bdd37bcb37bc137bbd37bbb37bb937c2137bb737bb337bb137baf37bab37ba937b8337b8b37b8137b7d37b7b37b7937b7537b7337b5337b6337b5137b4d37b4b37b4937b4537b2d37b2b37b2337b1f37b1d37b1b37b1937b0737b0537b0337b0137afd37ad3))
  (.nd (.lf
  0x2c5ca2c3442c11839f9239e23398f1398c3398ac3265831b5f2c5f32c5d12c5cc2c33c2c11639f8639e27398f5398c5398ae3264c31b892c5f72c5d32c5ce2c3302c11439f8039e2b398f9398c7398b03264031b8d2c5f92c5d52c5d02c32a2c11239f7239e2f398fd398c9398b23263a31b912c5fd2c5d72c5d22c31c2c11039f6239e3339901398cb398b43262e31cbf2c5ff2c5d42c5872c3122c10e39f5c)
  (.lf
  0x2ad1c2ad062acf02acda2acc42acae2ac982af2b2af292af252af232af172af152af112af0f2af012aeff2aefb2aef92aeeb2aee92aee52aee32aed52aed32aecf2aecd2aebf2aebd2aeb92aeb72aea92aea72aea32aea12ae932ae912ae8d2ae8b2ae7d2ae7b2ae772ae752ae672ae652ae612ae5f2ae512ae4f2ae4b2ae492ae3b2ae392ae352ae332ae252ae232ae1f2ae1d2ae0f2ae0d2ae092ae072adf9)))
  (.nd (.nd (.lf
  0x258f8258b02587a25840257fe260d0260c625f6025f5625f4c25f4225ebc25e2a25dcc25dc425d1e25d0425c9425c4025bae25b7e25b6225b3625b0025a8225a3e25a1c259e42599025958258ea2589c2586625824257ea27080270302701e26fc826f5626f1e26ee426e9026e6026dfa26de826dd626d4426d1e26d0226cb026c9226c7c26c5026bd226b8826b5e26b4226afe26ad426a9826a3c26a3226a28)
  (.lf
  0x248bb248bd248b9248b5248af248b1248ad248a9248a7248a5248a12489d2489b24899248952489324891249172488f2488b24889248b32488724883248592485b2485724853248512484f246eb246e7246c3246c124699246952465b246592465524653245db24615245d9245d5245cf23f2e23f2a23f1e23f1023f0623efc23ef223eea23ee423ed423eca23ec623eb823eac23ea823e9823e8e23e8423e7a))
  (.nd (.lf
  0x2cc942cd302cc562cd282cc062cd1e2cc0a2cd122cc182cd0c2cc302cd002cbac2ccf42cb902ccec2ccbc2cce42cc982ccd82cc9a2ccce2cc9c2ccc62cc122ccb82cc162ccae2cc342cca62cbaa2cb8c2cb8a2cb662dfb82e08c2df922e0842dfb62e0762df902e0702def62e0622def42e05c2df382e04e2df122e0482df362e03a2df102e0342de842e0262de822e0202de802e0122dfb42e00c2df8e2e000)
  (.lf 0)))

def shaXorReads91 : BTree :=
  .nd (.nd (.nd (.lf
  0x122f211f88107eb107830c7f50bde70bd570bd400bcfc0bc3c122e811f40107ed107850c7f70bd6b0bd590bd420bcfe0bc3e122dc11efc107ef107870c7f90bd6f0bd5b0bd440bd000bc40122d411eb8107f1107890c7fb0bd730bd5d0bd460bd020bc42122ca11e74107f31078b0c7fd0bd770bd5f0bd480bd040bc44122be11e30107f51078d0c7ff0bd7b0bd610bd4a0bd060bc46122b611dec107f71078f)
  (.lf
  0x41cc741ccd41cc541cc141cbf41cbd41cb741cb541cb341cb141cad41ca741c9f41ca341c9d41c9941c9741ca941c9541c9141c8f41db141c8d41c8941c8741c8541c8141c7b41c7941c7741c7341c6f41c6d41c6b41c6741c6541c6341c6141c5541c5141c4f41c5d41c4d41c4941c4741c4541c3d41c3b41c3741c3f41c3541c3141c2f41c2d41c2941c1f41c1d41c1b41bff41bfd41bfb41bf941bdd41bd7))
  (.nd (.lf
  0x243ba243b0243a42439a2438e24384243782436c24360243562434a24340243342432a2431e24314243102430e257522573e25732257282571c2571225706256fc256f0256e6256da256d0256c4256ba256ae256a4256982568e25682256782566c25662256562564c25640256362562a25620256142560a255fe255f4255e8255de255d2255c8255bc255b2255a62559c25590255862557a25570255642555a)
  (.lf 0))) (.nd (.nd (.lf
  0x39308392e0392ba391da391d0391c4391ba391b2391a83919c391923918a39182391783916e391643915a39150391463913c39132391283911e3911039106390fc390b6390a838fae38fa438f6838f5638f1439b8c39b8039b7039b6839b5839b5039b4439b3839b2639b1e39b1439b0839afc39af039ada39aac39a9639a8c39a7239a5839a1239a0a399fe399ee399da399763996a3995e399563994a39c32)
  (.lf
  0x622d0622906227061e7061eb061e5061e1061bd09b0e09ad209a9009a4c09a0a099c60998409940098fe098be0987e0983e097fa097b40977209732096f2096ae0966809622095dc095960955409510094ca094840944209402093c2093820933e09b0f09b0109afd09ad309ac509ac309abf09a9109a8309a8109a7d09a4d09a3f09a3d09a3909a0b099fd099fb099f7099c7099b9099b7099b30998509977))
  (.nd (.lf
  0x5a0d05a00059c7059ba05981059740593b0592e058f5058e8058b3058a605873058660583305826057f3057e6057b3057a60576f057620572d05720056e9056dc056a70569a05663056560562105614055e1055d4055a5055980556b05566055530699b06963069560691f06912068dd068d0068990688c068570684a0681306806067cd067c00678b0677e0674b0673e0670b066fe066c7066ba0668106674)
  (.lf 0)))

def shaXorReads92 : BTree :=
  .nd (.nd (.nd (.lf
  0x3d5ce3d5b63bfe93bfe53b37b37a47379d1378e437806378003d5b83d5a63bfd93bfd53b34f37a09379b9378cc377f4377ee3d5883d3403bd6d3bd693b32937aec379d53799b377e8377e23d3423d3323bb6f3bb6b3b33937af13797f378b03789e378983d31e3d2bc3bae53bae13b233379a33796137884373f2373ec3d2be3d2323b9e93b9d73b23537a293798537890373de373d83d22a3d18a3b9693b965)
  (.lf
  0xa6c0071a00a4c0071e00a2e0072200a0e00726009f00072a009d40072e009b80073200998007360097a0073a0095a0073e0093c007420092000746009040074a008e40074e008c600752008a600756008840075a008620075e00840007620081e00766008000076a007e40076e007c400772007ac00776007960077a007800167e01ed60168201e9a0168601e540168a01e0e0168e01dcc0169201d8c01696))
  (.nd (.lf
  0x3e0a83de6e3e0a03de303e0963de263e07a3de3c3e0723dfd43e0683ddee3e0603ddd83e0583ddca3e0083ddb63e0003dda23dff63d6d03d6c23d6b43d6a43d6923d68c3d6743d6803d6643d6783d5f83d60a3d5983d5963d4243d41c3d34e3d4a43d4123d40a3d2c43d4a83d21a3d1883d1383d1323eb5a3ec363eb323ec2c3eafe3ec1e3eb583ec163ea2e3ec0a3e9e83ec023ea443ebf83e9a63ebf03e98c)
  (.lf
  0x34be234bfa34bd034bc234bba34cd634b9e34b9234b8634bfe34b6634b5c34b6a34aea34ad234e8334e8134e7134e6f34e6d34e6b34cc934cc734cc534cc334cbf34cbb34cb734cb534cb134caf34cad34cab34ca734ca534ca334cd134ca134c9734c9534c9334c8f34c8b34c8934c8734c8334c8134c7d34c7b34c7734c7534c7334c9d34c7134c6d34c6b34c6934c6534c5d34c5b34c5934c5534c5334c51)))
  (.nd (.nd (.lf
  0x3a8a43a8a83a8ac3a8b03a8b43a8b83a8bc3a8c03a8c43a8c83a8cc3a8d03a8d43a8d83a8dc3a8e03a8e43abce3abd23abd63abda3abde3abe23abe63abea3abee3abf23abf63abfa3abfe3ac023ac063ac0a3ac0e3ac123ac163ac1a3ac1e3ac223ac263ac2a3ac2e3ac323ac363ac3a3ac3e0f8040f7fa0f7f00f7e60f7dc0f7d20f7c80f7be0f7b40f7aa0f7a00f7960f78c0f7820f7780f76e0f7640f75a)
  (.lf
  0x2c2c62c2ba2c29c2c27e2c25e2c23e2c21e2c1fc2c1d82c1a42c1722c1362c5792c5772c5732c39d2c3952c3932c38f2c38d2c38b2c3892c3852c37d2c37b2c3812c3792c3752c3732c3712c36d2c36b2c3692c3672c3632c35d2c35b2c3592c3512c34f2c34d2c3532c34b2c3472c3452c3432c33f2c33d2c3392c3992c3372c3332c3312c32f2c32b2c3292c3232c3212c31d2c31b2c3192c3172c3132c30f))
  (.nd (.lf
  0x2ef6b2f0ea2ef432f0e22edfb2f0dc2eda52f0d02edb72f0a82ed3f2f0b12f01e2f0152ef822ef7c2eeef2ef6f2ef4e2ef472ee8c2ee802edf92ee762ed9d2ee702ed6b2ee682ed432ee5f302bb303943029d3038a302b3303803028f303763000d3036c2ffdf303622ffc1303582ffe93034e2ffc9303442ff733033a2ff55303302ff41303262ff5f3031c302bd30314302933030430007302fa300f5302f2)
  (.lf 0)))

def shaXorReads93 : BTree :=
  .nd (.nd (.nd (.lf
  0x1c6dd1c6d91b74b1a67b1a6091a5f61a5c21a52c1f4681f3161c6a51c6a11b74d1a67f1a60b1a5f81a5c41a52e1f4621f30c1c6511c64d1b74f1a6831a60d1a5fa1a5c61a5301f4581f3021c6171c6131b7511a8821a6851a60f1a5c81a5321f44e1f2f61c5c11c5bd1b7531a88f1a6111a5fc1a5ca1a5341f4421f2ea1c59b1c5971b6f11a8661a6231a6131a5cc1a5361f4361f2de1c5491c5451b6d71a869)
  (.lf
  0xbc0b0bc090bc050bbff0bbfd0bc010bbfb0bbf70bbf50bbf30bbef0bbed0bbeb0bc030bbe90bbe50bbe30bbe10bbdd0bbdb0bbd90bbd70bbd30bbd10bbcf0bbcd0bbc90bbc50bbc30bbc10bbbd0bbbb0bbb90bbb70bbb30bbb10bbaf0bbad0bba90bba70bba50bbc70bba30bb9f0bb9d0bb9b0bb970bb950bb930bb910bb8d0bb8b0bb890bb870bb830bb810bb7f0bb7d0bb790bb770bb750bb730bb6f0bb6b))
  (.nd (.lf
  0x37f1937f8c37f0337f8237ef737eed37eea37ec837ebf37ea337ea037e6837e6737e5b38709389a438701388fa386ef388ec386f1388e2386dd388da386c9388c6386cf388b4386b5388ac386b3388a4386a13889c386913888e3868938884386873887e3866b388683866f3879c38657387903864b387863863d387783862f3877238641387643864d387583860b38752385fd387483860f38738385eb38722)
  (.lf
  0x1028b10287102851022f1022d1022910227101d1101cf101cb101c91017710175101711016f1011710115101111010f100bb100b9100b5100b31005f1005d1005910057100010ffff0fffb0fff90ff9f0ff9d0ff990ff970ff430ff410ff3d0ff3b0fee30fee10fedd0fedb0fe830fe810fe7d0fe7b0fe250fe230fe1f0fe1d0fdc70fdc50fdc10fdbf0fd650fd630fd5f0fd5d0fd090fd070fd030fd010fca9)))
  (.nd (.nd (.lf
  0x10ce110c8d10c8910c8710c1710c1310c1110bf510bf110bef10bd310bcf10bcd10bb110bad10bab10e9410e7210e5110e4d10e5010e3410e1210df010dce10dac10d8b10d8710d8a10d6e10d4c10d2a10d0810ce610cc510cc110cc410ca910ca510ca810c8c10c6b10c6710c6a10c4f10c4b10c4e10c3310c2f10c3210c1610bf410bd210bb010b8f10b8b10b8e10b7310b6f10b7210b5710b5310b5610b3b)
  (.lf
  0x10915109111090f1090d1090b1090710905109031189c11892118881187e118741186a11860118561184c11842118381182e118241181a1181011806117fc117f2117e8117de117d4117ca117c0117b6117ac117a2117981178e117841177a117701189d1189b118971189511893118911188d1188b118891188711883118811187f1187d118791187711875118731186f1186d1186b11869118651186311861))
  (.nd (.lf
  0xc0e3103b810356102f61029a10240101de1018410128100c81006c100120ffb00ff500fef40fe940fe320fdd80fd760fd160fcba0fc5a0fbfe0fba40fb420fae20fa800fa260f9ca0f9680f9000f9050f90110e9010e6e10e4c10e3010e0e10dec10dca10da810d8610d6a10d4810d2610d0410ce210cc010ca410c8810c6610c4a10c2e10c1210bf010bce10bac10b8a10b6e10b5210b3610b1a10b1f10b1b)
  (.lf 0)))

def shaXorReads94 : BTree :=
  .nd (.nd (.nd (.lf
  0x2871d2871a28718287122c7a22c53c2a8d72a8d3292e3286e7286cb286c4286b6286b02c79c2c5342a7cd2a7c9292fb286e9286cd286c6286c0286ba2c7902c5262a7ab2a7a729293286ed286cf286c82869c286962c7882c51c2a80d2a809292792867f2867528672286702866a2c77c2c4ac2a7872a783292592865b2865528652286502864a2c7722c49c2a76f2a76b2923b2863f2863d2863a2863828632)
  (.lf
  0x28e9e28e622913428ca8293b1293af293ab293a92939f2939d293852937b2937929377293732934f2934d2934b2934729345292c3292db292c1292bd292bb292f3292b9292b5292892928b2928729283292812927f2927b292712926f2926d2925b292512924f2924d292492924729233292312922d2921329211292212920f2920b29209292072920329201291f1291ef291eb291e1291df291dd291d1291cf))
  (.nd (.lf
  0x3183031531303ed303cd303b6264cc2630d224532243522430211a820d063181c3156f303f1303cf303b8264c2263112245722437224322119e20d1a3181631573303f5303d1303ba264b8263152245b22439224342119620cd03180831577303f9303d3303bc264ae263192245f2243b224362118a20cc6318023157b303fd303d5303be264a42631d224632243d224382117c20cfe317e03157f30401303d7)
  (.lf
  0x121c5121c1121bf1218712185121811217f12143121411213d1213b120ff120fd120f9120f7120b7120b5120b1120af1206d1206b120671206512025120231201f1201d11fdd11fdb11fd711fd511f9511f9311f8f11f8d11f4d11f4b11f4711f4511f0911f0711f0311f0111ec511ec311ebf11ebd11e8111e7f11e7b11e7911e3d11e3b11e3711e3511df911df711df311df111db111daf11dab11da911d67)))
  (.nd (.nd (.lf
  0x3b60f3b60b3b5cd3b5c93b5c53b5893b5853b5813b5493b4cd3b4c93b4913b48d3b4893b4513b4113b40d3b3d53b3d13b3993b2973b2953b2913b28d3b2893b2853b2813b27d3b2733b26f3b26d3b2693b2673b2a13b2633b25f3b2173b2133b20f3bbb63bafc3ba453b9913ba443b98e3b8d33b82d3b8d23b82b3b7a73b82a3b7a53b74d3b7a43b74b3b6f33b74a3b6f13b6a33b6f03b6a03b6533b6113b652)
  (.lf
  0x1da491da471da451da411da3f1da3d1da3b1da371da351da331da311da2d1da2b1da271da251da211da1f1da1d1da1b1da171da151da131da291da111da0d1da0b1da091da051da031da011d9ff1d9fb1d9f91d9f71d9f51d9f11d9ed1d9eb1d9e91d9e51d9e31d9e11d9df1d9db1d9d91d9d71d9ef1d9d51d9d11d9cf1d9cd1d9c91d9c71d9c51d9c31d9bf1d9bd1d9bb1d9b91d9b51d9b31d9b11d9af1d9ab))
  (.nd (.lf
  0x36759360a8360a0360923605635fe635fc335fbc3604635fdc35fad35faa3602635f6835f5d35f583601e35f2735f2035f143600c35ed035ecf35ecc35ffe35e9f35e8435e8235e6635e5d35e4635e4435e0b35df035dee35dec35c6935c58377653776237c1e379de3775e3775d37bfc379c4377673774c37bf6379be377683774337bbc379a6377383773737bb0379883772b3772837baa3796c3771f3771c)
  (.lf 0)))

def shaXorReads95 : BTree :=
  .nd (.nd (.nd (.lf
  0x105810caa10c01b0bfff0bff40bfa811fad11f86105710caa30c01f0c0010bff60bfaa11f6511f3e105090caa50c0230c0030bff80bfac11f2111ef81050b0caa70c0270c0050bffa0bfae11edd11eb41050d0caa90c02b0c0070bffc0bfb011e9911e701050f0caab0c02f0c0090bffe0bfb211e5511e2c105110caad0c0330c00b0c0000bfb411e1111de8105130caaf0c0370c00d0c0020bfb611dc911da0)
  (.lf
  0x38f3738f3538f3138f2f38f2d38f2b38f2738f2538f2338f2138f1d38f1b38ed138ecf38ecb38ec938ec738ec538ec138ebf38ebd38ebb38eb738eb538eb338eb138ead38e6d38e6338e9938e6138e5d38deb38de938de538de138da538da938da338d9f38d8738d8538d8138d7338d6738d6138d5d38d5b38d3938d3738d2b38d2938d0f38d0d38d0938d0738d0538d0338cff38ced38cd33911938cd138ccd))
  (.nd (.lf
  0xd3e60d4720d3ea0d4680d3ee0d45e0d3f20d4540d3f60d44a0d3fa0d4400d3fe0d4360d4020d42c0d4060d4220d40a0d4180d40e0d4141360c140121361013fd01361413f801361813f321361c13ee21362013e901362413e421362813df21362c13da01363013d4e1366013cfc1366413cae1366813c5e1366c13c101367013bc41367413b741367813b261367c13ada1368013a8a1368413a3c13688139ec)
  (.lf 0))) (.nd (.nd (.lf
  0x37bd837c2e37ba03b76e3b7363b6bc3b68c3b6223b5fa3bbd43bb183ba5c3b9b23b8fe3bbd63bb1a3ba5e3b9b43b9003b8723b7ee3b7703b7383b6be3b68e3b6243b5fc3b5b63bbd83bb1c3ba623b9b83b9023b8763b7f03c2a23c2823c2643c1fc3c2303c1b23c47a3c3943c4263c3783c30c3c47e3c3ac3c42a3c37a3c3103c2e43c3b03c2a43c2843c2663c1fe3c2323c1ca3c1963c4803c3963c42e3c37e)
  (.lf
  0x4de404da204d6204d2204cde04c9c04c5c04c1c04bd804b9604b5604b1604ad204a8c04a4604a00049ba0497804938048f8050cb050c9050c5050c30508f0508d05089050870504d0504b05047050450500905007050030500104fc304fc104fbd04fbb04f8104f7f04f7b04f7904f4104f3f04f3b04f3904efd04efb04ef704ef504eb704eb504eb104eaf04e7104e6f04e6b04e6904e2b04e2904e2504e23))
  (.nd (.lf
  0x41f4041c4041b2041800416e0413e0412c040fa040e8040b4040a204072040600402e0401c03fe803fd603fa603f9403f6603f5403f2603f1403ee603ed403ea203e9003e6003e4e03e2003e0e03ddc03dca03d9a03d8803d5603d4403d1003cfe03cce03cbc03c8a03c70050cc050bc050900507e0504e0503c0500a04ff804fc404fb204f8204f7004f4204f3004efe04eec04eb804ea604e7204e6004e2c)
  (.lf 0)))

def shaXorReads96 : BTree :=
  .nd (.nd (.nd (.lf
  0x13a3e136890f20e0f1770ef970ef3c0ef1307d3807cfa139ee1368d0f2040f17b0ef9b0ef3e0ef1507cfc07cbc1399c136910f1fa0f17f0ef9f0ef400ef1707cb207c761394e136950f1f00f1830efa30ef420ef1907c6c07c2e13902136990f1e60f1870efa70ef440ef1b07c3007bee138b61369d0f1dc0f18b0efab0ef1d0ef0007bf007bae13866136a10f1d20f18f0efaf0ef1f0ef0407bb007b6e13814)
  (.lf
  0x2a5802a4012a5782a3dd2a56c2a3bb2a5622a3992a5582a36d2a5502a3512a5482a32f2a53e2a3072a5302a4fd2a5282a5012a51c2a5052a5122a5092a5852a43a2a4312a4082a4072b9ef2bb942b9f32bb822baa12bb7a2ba6d2bb722b9fb2bb6a2ba6f2bb5e2ba012bb542ba052bb4c2ba092bb402ba0d2bb362ba112bb2a2ba152bb202ba192bb182ba1d2bb0e2ba212bb042ba252bafa2ba292baf22ba2d))
  (.nd (.lf
  0x61980619c061a006d9e06da206da606daa06dae06db206db606dba06dbe06dc206dc606dca06dce06dd206dd606dda06dde06de206de606dea06dee06df206df606dfa06dfe06e0206e0606e0a06e0e06e1206e1606e1a079ec079f0079f4079f8079fc07a0007a0407a0807a0c07a1007a1407a1807a1c07a2007a2407a2807a2c07a3007a3407a3807a3c07a4007a4407a4807a4c07a5007a5407a5807a5c)
  (.lf
  0x2a5502a1902a1702a1302a11029d7029d5029d1029cf02993029910298d0298b0294d0294b0294702945029070290502901028ff028c5028c3028bf028bd02885028830287f0287d02845028430283f0283d0280502803027ff027fd027c5027c3027bf027bd02785027830277f0277d027410273f0273b02739026fb026f9026f5026f3026b5026b3026af026ad0266f0266d0266902667026290262702623)))
  (.nd (.nd (.lf
  0x74c5074bc091eb085cd07a69079cf079c407978074850747c091ed085cf079ed079d1079c60797a074450743c091ef085d1079f1079d3079c80797c07405073fc091f1085d3079f5079d5079ca0797e073c5073bc091f3085d5079f9079d7079cc07980073850737c091f5085d7079fd079d9079ce07982073450733c091f7085d907a01079db079d00798407305072fc091f9085db07a05079dd079d207986)
  (.lf
  0x36cef36ceb36ce736ce536ce336ced36ce136cdd36cdb36cd936cd536cd336cd136ccf36bdd36bdb36bd936bd736bd336bd136bcf36bcd36bc936bc736bc536bc336bbf36bbd36bbb36bb936bb536bb336bb136baf36bab36ba736ba536ba936ba336b9f36b9d36b9b36b9736b9536b9336b9136b8936b8736b8536b8b36b8336b7f36b7d36b8d36b7b36b7736b7536b7336b6f36b6d36b6b36b6936b6536b63))
  (.nd (.lf
  0x29b0029b5429b0429b3e29b0829b2829b0c29b122abd82af222abdc2af0e2abe02aef82ac1e2aee22ac222aecc2ac262aeb62ac2a2aea02ac2e2ae8a2ac322ae742ac362ae5e2ac3a2ae482ac3e2ae322ac422ae1c2ac462ae062ac4a2adf02ac4e2adda2ac522adc42ac562adae2ac5a2ad982ac5e2ad822ac622ad6c2ac662ad562ac6a2ad402ac6e2ad2a2ac722ad142ac762acfe2ac7a2ace82ac7e2acd2)
  (.lf 0)))

def shaXorReads97 : BTree :=
  .nd (.nd (.nd (.lf
  0x272c826dc024b1124b0d23c4b231cd231bf231a82317c230f8272be26db224af324aed23c4d23261231d1231aa2317e230fa272a626dc424acb24ac323c4f231d5231c1231ac23180230fc2728e26d3424acd24ac523bd323263231c3231ae23182230fe2728826d2a24a9f24a9b23bbb239fd231d9231b023184231002725a26cf224a3124a2923b89231dd231c5231b223186231022725226cb424a3324a2b)
  (.lf
  0x23c1623c1823bca23bb223b7e23b4e23b4623b6423b0823aec23ac423aa623a8223a7a23a7023a4423a2a2352a234f4234d823dcd23dcb23dc723dc523dc323dc123da523da323da123d9f23d9b23d3d23d3b23d3923d3523d3323d3123d2f23d2b23d2923d2723d2523d2123d1f23d1d23d1b23d1723cfd23cfb23cf923cdd23cd923cd723cd523cd123c2f23c2d23c2b23c2723c2523c2323c2123c1d23c1b))
  (.nd (.lf
  0x224d02248d1cb571cb521adb01ad942be8c2be212ac892abf72abde224c6224911cb591cb541ad6a1ad4e2be762be252ac8d2abf92abe2224bc224951cb5b1cb561ad241ad0c2be602be292abfb2abe4224b2224991cb5d1cb581ace21accc2be4a2be2d2abfd2abe6224a82249d1cb5f1cb5a1ac9e1ac842be332abff2abe8224a31cb611cb5c1ac662cf132bdbf2bda32bd8c1e62b1db291db0f1db0a1bf18)
  (.lf
  0x1dc0e1dc041dbfa1dbf01dbe61dbdc1dbd21dbc81dbbe1dbb41dbaa1dba01db961db8c1db821dcaf1dcad1dca91dca71dca51dca31dc9f1dc9d1dc9b1dc991dc951dc931dc911dc8f1dc8b1dc891dc871dc851dc811dc7f1dc7d1dc7b1dc771dc751dc731dc711dc6d1dc6b1dc691dc671dc631dc611dc5f1dc5d1dc591dc571dc551dc531dc4f1dc4d1dc4b1dc491dc451dc431dc411dc3f1dc3b1dc391dc37)))
  (.nd (.nd (.lf
  0x3098c30952311dc311123103630fea30f3e30e7230d9830d7630b1a30a1030966312b9311dd311d9311d5311133110f3110b310793107531037310333102f30feb30f6f30f6b30f3f30ea130e9d30e7330da730da330d9930d9530d9130d7730b3730b3330b1b30a2f30a2b30a11312b73127f312b63127d312493127c311d83110e311073110331106310dd310a3310dc310783103230fa130f7130fa030f6e)
  (.lf
  0x1b13b1b1471b1391b1351b1051b1031b0ff1b0fd1b0cd1b0cb1b0c71b0c51b09b1b0991b0951b08d1b0631b0611b05d1b0551b02b1b0291b0251b01d1aff31aff11afed1afe51afbb1afb91afb51afad1af831af811af7d1af751af4d1af4b1af471af3f1af171af151af111af051aedd1aedb1aed71aecd1aea51aea31ae9f1ae931ae6b1ae691ae651ae571ae2d1ae2b1ae271ae191adf11adef1adeb1addd))
  (.nd (.lf
  0x295e629246290652905e295dc292122906629063295d22920a2903929028295ba292002901929016295b4294cf291ea2900a29592291d028ffd28ffa2958a291ba28fe328fe029582291b228fd428fd3295662919028fb028faf2955c2917228f8e28f8d295502916c28f8128f7c2953f2953c2914c28f7e29508294cb2914428f92294fe2913e28f5728f54294f8294cd28f4828f06294f028ef528ee428ee2)
  (.lf 0)))

def shaXorReads98 : BTree :=
  .nd (.nd (.nd (.lf
  0x328d332355321f331da8317cc317c635e5c35e1833a6333a5f328e3323593208731d96316ae316a835e0a35c6633a1533a11328bf321fb3201d31db43165a3165435c68339e7339e3327ad320bf3208d31d66316283162237764356e9356e5347e9336e3336dd336da336d8336d237c1c3775c35703356ff34789336c3336bd336ba336b8336b237bfe37766356b9356b5346b93374b3374533742337403373a)
  (.lf
  0x404fb404f9404ef404ed401b541e9641e9a41e7841e3e41e1841e0c41e4641e0441e1e41ddc41dcc41dbe41d6041d4041d3641d4841d4c41d1a41d1041c2441c0c41be241bc441b9c4197e4196641906418ea41918414fc4124241e9741e9b41e9541e9141e8f41e8d41e8941e8741e7941e7741e4541e4341e3f41e3d41e3941e1b41e1941e1741e1341e1141e0d41e4741e0b41e0341e0141e0541dff41dfb))
  (.nd (.lf
  0x36278361b4397423952b362ab3627f3627a361e43619e397383966f362af362813627c361da361b03972e39655362b3362833627e361c8361a23972439641362b73628536280361bc36184397183962d362bb362823624536178361763970e39683362bf36284362493616e36168397083960f362c33624d362443614c36146396fc395f9362c536251362483613436130396f239679362c9362553624c36118)
  (.lf
  0x2fd322fd262fd282fd142fd0a2fd002fcf62fcee2fce02fce82fcd02fcc42fcba2fcb02fca62fc9c2fc942fc882fc7e2fc742fc6a2fc602fc562fc4c2fc422fc382fc2e2fc262fc1a2fd342faac2fd332fd312fd2d2fd2b2fd272fd292fd252fd212fd1f2fd1d2fd192fd172fd152fd132fd0f2fd0d2fd0b2fd092fd052fd032fd012fcff2fcfb2fcf92fcf72fcf52fcf12fcef2fced2fceb2fce52fce32fce1)))
  (.nd (.nd (.lf
  0x34e9634e103502e34e143503234e1834e9a34e9e34ea234ea634e1c34e2034e2434e2834e2c34e3034e3434e3834e3c34e4034e44362863628a3628e36292362963629a3629e362a2362a6362aa362ae362b2362b6362ba362be362c2362c4362c8362cc362d0362d4362d83730a37280372843721c3722037224372283730e37288373123728c372903722c3723037234372383723c3724037244372483724c)
  (.lf
  0x288a6288982888e288882887c28870288682885c288522884a2883c288342882a28848288162880a2880e287f8287ea28802287d8287862875c2872e287b4287062876828684288c1288bf288bb288b9288b7288b5288b1288af288ad288ab288a7288a5288a3288a12889d2889b288992889728893288912888f2888d288892888728885288832887f2887d2887b288792887528873288712886f2886b28869))
  (.nd (.lf
  0x14e4c14e4314e2014e1714df414deb14dc814dbf14d9c14d9314d7014d6714d4414d3b14d1814d1715c8115e2615c8515e1c15c8915e1215c8d15e0815c9115dfe15c9515df415c9915dea15c9d15de015ca115dd615ca515dcc15ca915dc215cad15db815cb115dae15cb515da415cb915d9a15cbd15d9015cc115d8615cc515d7c15cc915d7215ccd15d6815cd115d5e15cd515d5415cd915d4a15cdd15d40)
  (.lf 0)))

def shaXorReads99 : BTree :=
  .nd (.nd (.nd (.lf
  0x15c6d15c5615c2c15bb419208191d21781f1780b1684515c8315c6f15c5815c2e15bb6191c8191921798d179891682f15c8715c7115c5a15c3015bb81918a19150177c3177bf1680f15c8b15c7315c5c15c3215bba191521910e177a3177931681115c8f15c7515c5e15c3415bbc19106190ca177a5177951681315c9315c7715c6015c3615bbe190c019088177a7177971681515c9715c7915c6215c3815bc0)
  (.lf
  0x7b5a07b1a07ada07a9a0824b0821b0821708215081df081dd081d9081d7081a10819f0819b081990815908157081530815108119081170811308111080db080d9080d5080d308093080910808d0808b08055080530804f0804d0800d0800b080070800507fcd07fcb07fc707fc507f8d07f8b07f8707f8507f4d07f4b07f4707f4507f0d07f0b07f0707f0507ecf07ecd07ec907ec707e8907e8707e8307e81))
  (.nd (.lf
  0x1eebf1eeae1ee9f1ee8c1ee7d1ee6a1ee591ee461ee371ee241ee151ee021edf31ede01edd11edbe1edaf1ed9c1ed8d1ed7a1ed6b1ed581ed491ed361ed271ed141ed051ecf21ece31ecd01ecc11ecae1ec9d1ec8a1ec791ec661ec551ec421ec311ec1e1ec0d1ebfa1ebe91ebd61ebc51ebb21eba11eb8e1eb7d1eb6a1eb5b1eb481eb371eb241eb131eb001eaf11eade1eacf1eabc1eaab1ea9f1e0051dff1)
  (.lf 0))) (.nd (.nd (.lf
  0x896d0896908943088e7088e3088bd088a10889d088770881b08817087f1087d5087d1087ab0878f0878b0876508e8b08e6908e8a08e5008e0b08de308e0a08dcb08da308dca08d8a08d4508d1d08d4408d0508cdd08d0408cc508c9d08cc408c8508c5d08c8408c4408bfe08bb908b9108bb808b7908b5108b7808b3908b1108b3808af808ab208a6d08a4508a6c08a2d08a0508a2c089ed089c5089ec089ad)
  (.lf
  0xc34d0c3430c3330c3310c32d0c3250c3150c3130c30f0c3030c2f30c2f10c2ed0c2df0c2d10c2cf0c2cb0c2c10c2b30c2b10c2ad0c2a10c2930c2910c28d0c27f0c2710c26f0c26b0c25d0c24f0c24d0c2490c23b0c22d0c22b0c2270c2190c20b0c2090c2050c1f70c1e90c1e70c1e30c1d90c1cb0c1c90c1c50c1bd0c1af0c1ad0c1a90c1a10c1930c1910c18d0c1810c1730c1710c16d0c1630c1550c153))
  (.nd (.lf
  0x2f8522f5db2f84a2f5d52f8442f5612f8222f52d2f8142f3fd2f7cc2f3cb2f7ac2f3d12f77e2f3832f7722f3632f7662f3a92f2ff30c7f3124030c753123a30c63311ce30c6d310fe30c513109c30c4b3108030c293107a30c1730fdc30c1b30f1230c0330f0430c4330efe30c5330ebc30beb30eb430bdd30e0e30bd530e0230bd130cc830bb930cc030c4f30cba30c4730cb030c4930ca630c4d30cd330c9c)
  (.lf 0)))

def shaXorReads100 : BTree :=
  .nd (.nd (.nd (.lf
  0xb4440d503f57200d4600b4240d463f56e00d3000b4040d3c3f4fa00d1a00b3e3f6663f4dc00d0400b3c3f4d23f39400cee00b3a3f4cc3f37e00cd800b383f4c23f36e00cc200b363f4b03f3a200cac00b343f4aa3f34400c9600b323f4a03f32e00c8000b303f4963f31c00c6a00b2e3f48c3f2f600c5400b2c3f4863f2dc00c3e00b2a3f41e3f1ac00c2800b283f4163f18400c1200b263f40e3f14e00bfc)
  (.lf
  0x284a6283f22849c283f6284922832a284882832e2847e2833228474283362846a2833a284602833e28456283422844c2829c28442283fa28438283fe2842e2840228424284062841a2840a284122840e283462975429872297442986a296d22985e296c029856296a62984c296aa298402976229836297662982e296e629822296ea2981a296ee2980e2976a298022976e297f4296f2297ea296f6297e2296fa))
  (.nd (.lf
  0x2d2a02d2e02d320393c0394003944039480394c0395003954039580395c0396003964039680396c0397003974039780397c0398003984039880398c0399003994039980399c039a0039a4039a8039ac039b0039b4039b8045ac045b0045b4045b8045bc045c0045c4045c8045cc045d0045d4045d8045dc045e0045e4045e8045ec045f0045f4045f8045fc0460004604046080460c0461004614046180461c)
  (.lf
  0x38c4f38c4b38c4938c4738c4538c4138c3738c3538b3638b3038b2438b1a38b0e38b0638b0038af238ae638adc38ad438aca38b3838a4a38a4c38a3438a2c38a2238a1838a0e38a02389fa389ec389f0389de3899c389923898438986389d43896a38b3738b3538b3138b2f38b2d38b2b38b2738b2538b2338b2138b1d38b1b38b1938b1738b1338b1138b0f38b0d38b0938b0738b0538b0338b0138afd38afb)))
  (.nd (.nd (.lf
  0x6a96069d60959c0955e082fb0827b076e706b1b06adc06ab306a98069d80956c09520082fd0827d076e906b1f06ade06ab506a9a069da09516094da082ff0827f076eb06b2306ae006ab706a9c069dc094d0094940830108281076ed06b2706ae206ab906a9e069de0948a0944c0830308283076ef06b2b06ae406abb06aa0069e00945a0940c0830508285076f106b2f06ae606abd06aa2069e20941a093cc)
  (.lf
  0x30c6f30c6730c6530c6130c6b30c5f30c5b30c5930c5730c3f30c3d30c3b30c3930c3530c3330c3130c2f30c2b30c2730c2530c2330c1f30c1d30c1530c1930c1330c0f30c0d30c0b30c0730c0530c0130c4130bff30bfb30bf930c4530bf730bf330bf130bef30be930be730be530be330bdf30bdb30bd930bd730bd330bcd30bcb30bc930bc730bc330bc130bbf30bbb30bb730bb530bb330baf30bad30bab))
  (.nd (.lf
  0x16f011750c16ec7174ac16e8f16e4f16e1416e0b16dd416dcb16da616da518579188d818577188d218575188b018573188a8185711887a1856f188741856d188221856b1881c18569187d418567187ce18565187a2185631879c185611877a1855f187741855d187521855b1874c185591872a1855718724185551871018553186fc18551186e81854f186d61854d186c41854b185f218549185e018547185ce)
  (.lf 0)))

def shaXorReads101 : BTree :=
  .nd (.nd (.nd (.lf
  0x240822402427ec027a9725b5b2511b240bb2408f240842402627eb627b0125b3125181240bf240912408623f4c27eae27a9525b072511d24115240932408823f4e27ea027a7525a8f2511f240c32408a23811237fa27e9827a9325a4525121240c72408c23805237fc27e8c27afd25a0525123240cb2408e23807237fe27e7827a91259cd25125240cf24090238092380027e7227a7b25997250912411724092)
  (.lf
  0x15eae15eaa15e7215e6415e6215e5015e4615e3c15e9815a5e15a321532215fe515fe315fdf15fb915fb715fb515fb115faf15fad15fab15fa915fa515fa315fa115f9d15f9b15f9915f9715f9315f9115f8f15f8d15f8915f8715f8515f8315f2b15f2915f2715f2515f2315f1f15f1d15f1b15f1715f1515f1315f1115f0d15f0b15f0915f0715f0315f0115eff15efd15ef915ef715ef515ef315eef15eed))
  (.nd (.lf
  0xf5250f4f20f4c90d4090d3810d3780d0e60d0e220b02209dd1702616d630f5270f4f40f4cb0d40d0d3850d37c0d0c40d0c020aea209e116fec16d670f5290f4f60f4cd0d4110d3890d3800d0a20d09e20ad4209e516fb416d6b0f52b0f4f80f4cf0d38d0d3840d0800d07c20abe209e916f7e16d6f0f52d0f4fa0f4d10d3910d3880d05e0d05a20aa6209ed16f4416d730f52f0f4fc0f4d30d3930d38c0d03c)
  (.lf
  0x154561541a153e2153a81536a15336152f6159bf159bd159b9159b71598b159891598515983159511594f1594b159491591715915159111590f158db158d9158d5158d31589f1589d15899158971586715865158611585f158311582f1582b15829157f7157f5157f1157ef157bf157bd157b9157b715783157811577d1577b15745157431573f1573d1570b157091570515703156d3156d1156cd156cb1569b)))
  (.nd (.nd (.lf
  0x1c0c21c07a1c0341bff01bfae1bf9c1bf561c8201c7de1c75e1c6ce1c63c1c5f21c5761c4dc1c4aa1c4441c4561c2221c1181c08a1bf701bf261c8211c8191c8151c7df1c79b1c7971c75f1c7151c7111c6cf1c6831c67f1c63d1c6391c6351c5f31c5ad1c5a91c5771c50b1c5071c4dd1c4d91c4d51c4ab1c4511c44b1c4451c4571c4431c43f1c2371c2331c2231c1191c1151c1111c08b1c0891c0831bf79)
  (.lf
  0x151a9151a7151a3151a11519f1519d151991519715195151931518f1518d1518b151891518515183151811517f1517b151791517715175151711516f1516d1516b151671516515163151611515d1515b151591515715153151511514f1514d151491514715145151431513f1513d1513b151391513515133151311512f1512b151291512715125151211511f1511d1511b151171511515113151111510d1510b))
  (.nd (.lf
  0x73b9073b0073ac073a407379073700736c0736407339073300732c07324072f9072f0072ec072e4072b2072ae072a6072a30726c07268072600725d07226072220721a07217071e0071dc071d4071d1071a107198071940718c0715a071560714e0714b0711b071120710e07106070d4070d0070c8070c5070950708c07088070800704e0704a070420703f0700f070060700206ffa06fc806fc406fbc06fb9)
  (.lf 0)))

def shaXorReads102 : BTree :=
  .nd (.nd (.nd (.lf
  0x30b8130b7e3522d3508232f9d31c4f310e130dba30b4d30b4a3507a34c1932f3f31c393108b30dbc30b3930afa3507434c1f3293931c3b3108f30db830b3b30a9034f7034ba9328ab31ccf3132f30fc330c9030a3434f6b34b4232893317f33133130fb130b80309d634b3c34afb328833169b3133330fd330b4c3098034b0134ac4327dd3166f3121b30ef330b38309a034aa9327b33163b3117d30eb130b3a)
  (.lf
  0x3215432142321b632134321ac32100321023210431ff43221231e8c31e4431e5031e3831d6a31d2e31d2a31cfc31cd631c6431c4031c4831c2031c1631cc8317c031692316603225532259322533224f3223f3228b3223d322353215d3215b32157321553215332151321453214332141321b73213f3213332131321353212f3212b32129321ad3212732123321213211f32109321073210132103320ff320fb))
  (.nd (.lf
  0x2d9662d7d127f7627c8127c6327c5e27af4386e6384dd37ded37dcb37db42d95a2d2d127f6627c8527c6527c6027aa4386d6384e137df137dcd37db62d9522d2d527f6027c8927c6727c6227a80386d0384e537df537dcf37db82d9462d2d927f4e27c8d27c6927c6427aa2386c0384e937df937dd137dba2d93a2d2dd27f4827c9127c6b27c6627afa386b6384ed37dfd37dd337dbc2d9322d4ad27f3c27c95)
  (.lf
  0x2648c26482264782646e264642645a26450264462643c26432264282641e264142640a26400263f6263ec263e2263d8263ce263c4263ba263b0264dd264db264d7264d5264d3264d1264cd264cb264c9264c7264c3264c1264bf264bd264b9264b7264b5264b3264af264ad264ab264a9264a5264a3264a12649f2649b264992649726495264912648f2648d2648b264872648526483264812647d2647b26479)))
  (.nd (.nd (.lf
  0xa13e0a1100a0e40a0be0a0920a06c0a0420a01409fe809fc809fa80b21c0b20a0b1f80b1e60b1d40b1c20b1b00b19e0b18c0b17a0b1680b1560b1440b1320b0980b08e0b0840b07a0b0700b0660b05c0b0520b0480b03e0b0340b02a0b0200b0160b00c0b0020afb40afaa0afa00af940af8c0af820af760af6c0af620af580af500af460af3c0af320af280af1e0af140af0a0aefe0aef40aeea0aee00aed6)
  (.lf
  0x221d9221dd221d7221d3221cf221d1221cd221c9221c7221db221c5221c1221bf221bd221b9221b7221b5221b3221af221ad221ab22b8422b7a22b8e22b6a22b5c22b5022b5e22b9422bd622b2a22b2222b1222b0822b0022b9a22abe22aae22aa422a9422a8a22a8022ab422a6a22ba022a5622a4a22bda22a2c22a1a2295e2295422b8522b8322b7f22b7d22b7b22b8f22b7922b7522b7322b7122b6d22b6b))
  (.nd (.lf
  0x131481327e1324413274132481326a1324c13260132501325813254131a6131a2131721314c13168131501315e131541315a1417414318141781430e1417c1430414180142fa14184142f014188142e61418c142dc14190142d214194142c814198142be1419c142b4141a0142aa141a4142a0141a814296141ac1428c141b014282141b414278141b81426e141bc14264141c01425a141c414250141c814246)
  (.lf 0)))

def shaXorReads103 : BTree :=
  .nd (.nd (.nd (.lf
  0x17aba177561b1311b10c1996b1869717ae917ac717abc176b01b0f71b0d41996d1869917aed17ac917abe176b21b0bf1b0a21996f1869b17af117acb17ac0176b41b0871b06a199711869d17af517acd17ac2176b61b04f1b032199dd1869f17af917acf17ac4176b81b0171affa19973186a117afd17ad117ac61766c1afdf1afc219975186a317b0117ad317ac8176521afa71af8a19977186a517b0517ad5)
  (.lf
  0x3dd0b3dd093dd073dd053dd013dcff3dcfd3dcfb3dcf73dcf33dcf13dcf53dcef3dceb3dce93dce73dce33dce13dcdf3dcdd3dcd93dcd73dcd53dcd33dccf3dccd3dccb3dcc93dcc53dcc33dcc13dcbf3dcbb3dcb93dcb73dcb53dcb13dcaf3dcad3dcab3c6393c6373c6353c6333c62f3c62d3c62b3c6293c6253c6233c6213c61f3c61b3c6193c6173c6153c5b53c56b3c4f93c4f73c4ef3c4ed3c4c33c4c5))
  (.nd (.lf
  0x3959a3958a395823956e39bbc39db639aea39dac39ad439da239ab639d9c39abe39d9039a8439d8839a6e39d7a39a5439d7039a3e39d6839a3439d5e39c5039d5039c5439d4a39c5839d4039c5c39d3239c6039d2839c6439d1e39c6839d1639c6c39d0c39c7039d0239c7439cf639c7839cec39c7c39ce439c8039cda39c9639cce39c8639cc639c8a39cc039c9839cb439c9039caa39c9439ca239bc639bd0)
  (.lf 0))) (.nd (.nd (.lf
  0x28a3e28a2828a12289fc289e6289d0289ba289a42898e27dfc27df227de827dde27dd427dca27dc027db627dac27da227d9827d8e27d8427d7a27d7027d6627d5c27d5227d4827d3e27d3427d2a27d2027d1627d0c27d0227cf827cee27ce427cda29daa29d9629d8029d6a29d5429d3e29d2829d1229cfc29ce629cd029cba29ca429c8e29c7829c6229c4c29c3629c2029c0a29bf429bde29bc829bb229b9c)
  (.lf
  0x80780803407ff207fb207f7207f3207ef207eae07e6807e2607de207da007d5c07d1607cd407c9007c4a07c0807bc807b8807b4807b0807ac807a880823d0823b08237082350820508203081ff081fd081c5081c3081bf081bd081810817f0817b081790813f0813d0813908137080ff080fd080f9080f7080bb080b9080b5080b30807908077080730807108035080330802f0802d07ff307ff107fed07feb))
  (.nd (.lf
  0x2d51a2d4602d4782d45e2d4702d45c2d47a2d3562d3482d2782d3422d2642d3382d24c2d32c2d2362d3262d31c2d20c2d19a2d1922d17a2d1842cfd42cfd02e8062e7f02e7862e7902e7522e7542e7082e70e2e6d22e6c62e68e2e6882e65e2e6442e5fe2e6062e5ca2e5c62e5802e5822e5482e54e2e50c2e50e2e4e62e4e02e4842e4802e45e2e4602e4402e4382e4142e4162e3f02e3ea2e3d62e3ce2e3b6)
  (.lf 0)))

def shaXorReads104 : BTree :=
  .nd (.nd (.nd (.lf
  0xde080dddd01ad801a980e1ae0e03f0de5f0de0a0dde101a8e01a500e1980e0430de630de0c0dde301a5201a100e1820e0470de670de0e0dde501a12019d00e16c0e04b0de6b0de100dde7019d2019920e1560e04f0de6f0de120dde9019880194a0e1400e0530de730de140ddeb0194c0190a0e12a0e0570de770de160dded0190c018cc0e1140e05b0de7b0de180ddef018c2018840e0fe0e05f0de7f0ddf1)
  (.lf
  0x8ac00868308a7a0868708a380868b089f80868f089b8086930897808697089340869b088f20869f088ae086a308868086a708826086ab087e2086af0879c086b308756086b708710086bb086c1092a109b04092a509ac8092a909a86092ad09a42092b109a00092b5099bc092b90997a092bd09936092c1098f4092c5098b4092c909874092cd09834092d1097f0092d5097aa092d909768092dd09728092e1))
  (.nd (.lf
  0x54480544a0544c0606406066060680606a0606c0606e06070060720607406076060780607a0607c0607e06080060820608406086060880608a0608c0608e06090060920609406096060980609a0609c0609e060a0060a206cde06ce006ce206ce406ce606ce806cea06cec06cee06cf006cf206cf406cf606cf806cfa06cfc06cfe06d0006d0206d0406d0606d0806d0a06d0c06d0e06d1006d1206d1406d16)
  (.lf
  0x3aaa93aaa73aaa33aaa13aa9f3aa993aa973aa953aa933aa8f3aa8b3aa893aa873aa7f3aa7b3aa793aa773aa733aa693aa673aa653aa613aa533aa513aa4f3aa4b3aa3f3aa3b3aa393aa2f3aa293aa253aa233aa153aa113aa0f3aa0d3aa093a9ab3a9913a9ed3a98f3a98b3a9893a9933a9873a9833a9813a97f3a97b3a9793a9773a9753a9713a96f3a96d3a96b3a9673a9653a9633a9613a95f3a95b3a959)))
  (.nd (.nd (.lf
  0xdac00da902eaf0226b016f10165b0165000df400d9600d9302eb10226d016f50165d0165200df600d8000d7d02eb30226f016f90165f0165400df800d6a00d6702eb5022710167d016610165600dfa00d5400d5102eb70227301681016630165800dfc00d3e00d3b02eb90227501685016650165a00dfe00d2800d2502ebb0227701689016670165c00e0000d1200d0f02ebd022790168d016690165e00e02)
  (.lf
  0x342a7342a33429f3429d3429b3429534293342913428f3428b342893428734285342813427f3427d343533427b3427734275342733426f3426d3426b342b534269342653426334261342313422f3422734221341ef341eb3418d3418b3418734185341813417f3417b3415d3415b341593412d3412733d5f33d6333d5d33d5933d2f33d2d33cfb33cf933cf733cf533cf133cbd33cbb33cb933baf33aef33aed))
  (.nd (.lf
  0x3cb753cc143cb813cb043caff3cac13cabe3ca813ca7e3ca493dabb3db5a3dab13db523daa93dafe3da993dae43da8b3dac83da813da533da503da233da1c3d9c83d9713d9ed3d9ac3d9d13d9a63d98a3d9453d98d3d97c3d94e3d9493d9193d9103d8fd3d8f63d8b63d86b3d8a83d85d3d8a03d8533d8983d8453d88a3d8393d8783d82f3d8193d8163d8033d7fc3d7ec3d7c93d7da3d7b53d79e3d79d3d77f)
  (.lf 0)))

def shaXorReads105 : BTree :=
  .nd (.nd (.nd (.lf
  0x2c7382c6f830b98305eb2eb0b2d5512c86d2c73a2c6d72c6cc30b8e305bb2eac92d50d2c8712c73c2c6d92c6b430b84305b52ea832d4f32c8752c73e2c6cf2c6b630b4e305a52ea8d2d4cd2c8792c7402c6d12c6b830ab2305192ea492d4272c87d2c7422c6d32c68a30aaa305012ea0d2d40f2c8812c6d62c6d52c67a30a50304e72e9ef2d3ff2c8852c6d82c6692c66630a443059d2e9a52d3f32c8892c6ce)
  (.lf
  0x1c45f1c4991c45d1c4591c3e31c3e11c3d71c3bb1c2a31c2971c2831c27f1c22d1c2311c22b1c2251c1f11c2051c1ef1c1eb1c1a71c1a51c1a11c19d1c1671c17b1c1631c15f1c1211c1271c11f1c11b1c0db1c0ef1c0d91c0d31c0a11c0971c0951c08f1c04d1c0611c0491c0451c0131c0111c0051c0031bfe11bfdf1bfd51bfb91bf991bf971bf8b1bf751bf551bf531bf4f1bf451bef91c8241c8061c7d0))
  (.nd (.lf
  0x1cb4717cfd17cd517cd012f2c12e402683c265e32546325437254201ce401cb4b17d0117cd717cd212f2212e3426826265e72546725439254221ce281cb4f17d0517cd917cd412f1812ed626810265eb2546b2543b254241ce101cb7f17d0917cdb17cd612f0e12e20267fa265ef2546f2543d254261cdf81cb8317d0d17cdd17cd812f0412e44267e4265f3254732543f254281cde01cb8717d1117cdf17cda)
  (.lf
  0xec730ec6f0ec6d0ec6b0ec690ec650ec630ec610ec5f0ec5b0ec590ec570ec550ec510ec4f0ec4d0ec4b0ec470ec450ec430ec410ec3d0ec3b0ec390ec370ec330ec310ec2f0ec2d0ec290ec270ec250ec230ec1f0ec1d0ec1b0ec190ec150ec130ec110ec0f0ec0b0ec090ec070ec050ec010ebff0ebfd0ebfb0ebf70ebf50ebf30ebf10ebed0ebeb0ebe91946619436193fc193c019388193521931c192e4)))
  (.nd (.nd (.lf
  0x25f2025eac25e1c25dbc25d5f25d5925d5e25cfb25cf525cfa25cf325cef25cf225c9b25c8925c9a25c3225ba525b9d25ba425b8425b4a25b2525b1f25b2425af725af125af625a8625a3325a2f25a32259ff259f5259fe259bc259872597f259862594f259492594e258d6258972588f25896258582582c24e7c24e7224e6824e5e24e5424e4a24e4024e3624e2c24e2224e1824e0e24e0424dfa24df024de6)
  (.lf
  0x182d9182b3182b1182ad182951826f1826d182691824f1822918227182231820d181e7181e5181e1181cd181a7181a5181a11818d1816718165181611814918123181211811d18103180dd180db180d7180bd1809718095180911807b18055180531804f1803b18015180131800f17ffb17fd517fd317fcf17fb717f9117f8f17f8b17f7117f4b17f4917f4517f2f17f0917f0717f0317eef17ec917ec717ec3))
  (.nd (.lf
  0x175df17514174ee16f00175d51750e174e816ec6175af17504174de16e8e174d61748b16e4e16e4c174ce174c516e0e16e0a174c8174bd16dce16dca174c716da418578184ef188da1857618528184cd188d0185741851e1849b188ca185721851418461188a6185701850a18429188a01856e18500183ef1884e1856c184f6183b5188481856a1837818375187f6185681833818335187f018566182f8182f5)
  (.lf 0)))

def shaXorReads106 : BTree :=
  .nd (.nd (.nd (.lf
  0x3bc223bc203d34d3c5973c2853bfc83bb653bb633bb5a3bb583d32d3c5753c4773c2673bfa83bae63badb3bad23d2c93c4e93c3933c1ff3bfb23ba083b9e33b9e03d4293c4bb3c4233c2333bf883b9833b97a3b9783d1853c4013c3753c1cb3bc303b8bc3b8b93b8b63d12f3c3e33c3093c1973bb643b8173b80e3eb273df893d2583d2553d24d3d24a3d2433eb3b3df6f3dd7e3d20a3d2033d1fd3d1fa3d1f9)
  (.lf
  0x3ca0b3ca093c9ff3c9fb3c9f93c9f73c9f33c9e93c9e53c9e33c9cf3c9cd3c9c93c9c73c9c33c9bf3c9bd3c9bb3c9af3c9ab3c9a93c9a73c9973c9953c9933c9913c98d3c9793c9773c9813c9753c9713c96f3c96d3c9693c0c73c00b3c00d3c0093c0053c0033c0013bffd3bffb3bff13bfef3bfeb3bfe13bfdf3bfdd3bfd33bf8b3bc353bd673bc333bc153bb853bb693bb4d3bb453bacb3badd3bac93bac5))
  (.nd (.lf
  0x3a4723a38939e5d39e0039dd732daa32da12d8452d4482d2df2d2da2d28e3a46c3a38d39e6139e0239dd932e1532d422d4af2d4aa2d4622d43e3a45a3a39139e6539e0439ddb32d3c32d012d2e32d2de2d27a2d2743a4543a39539e6939e0639ddd32d3232d052d4ae2d2e52d2602d2583a3f83a39939e6d39ddf39dc232d2832d092d2e72d2e22d2482d23e3a3f03a39d39e7139de139dc632d1a32d0d2d2e9)
  (.lf
  0x2bfc52bfc12bfbf2bfb12bfaf2bfab2bfa92bf9b2bf992bf952bf932bf852bf832bf7f2bf7d2bf6f2bf6d2bf692bf672bf592bf572bf532bf512bf432bf412bf3d2bf3b2bf2d2bf2b2bf272bf252bf172bf152bf112bf0f2bf012beff2befb2bef92beeb2bee92bee52bee32bed52bed32becf2becd2bebf2bebd2beb92beb72bea92bea72bea32bea12be932be912be8d2be8b2be7d2be7b2be772be752be67)))
  (.nd (.nd (.lf
  0x2e94e2e93e2e9063013a2fecc2feba2feaa2fe982fe8c2fe842fe5e2fe562fe4e2fe462fe3e2fbfc2fbe82fbd42fbc22fbae2fb9a2fb862fb722fb5e2fb4c2fb3a2fb282fb162fb042fafc2faea2fad82fac630134300c63004e300443003a3002e300263000e2fe1c2fe142fe0a2fe002f9d22f9aa2f99c2f98c2f9782f9622f9582f9362f92c2f9222f8c82f8302f80c2f7e02f7be2f7962f78c2f3b631284)
  (.lf
  0x25ce625cec25c8425c2c25b9a25b7025b4425b1c25ae625a7225a2c259f2259b62597c25946258ca2588c2585225816257de260ab2609d260992609526087260af260852608126077260752607125ee725ee525ee325ee125edd25edb25ed925ed525ed325ed125f1925ecf25ecb25ec925ec725ec325ea725e5d25e1725e1325e0f25dff25dfd25df925d6525d6325d6125d5725d5325d5125d4f25ceb25ce9))
  (.nd (.lf
  0x35718357f835712356cc356ca3567635672356203561e355e8355e6355c0355bc3559a355983556e355663554436b2a36d1236ad436d0a36b5836d0236ae636cf836aba36cf236a9836ce636ab836cda368ea36cd43684636bd83681c36bd2367e436bc63675636bbe366e036bb436b3436baa36ae036b9e36abc36b9436a9636b8836a9a36b7c368ee36b763683a36b6a3686a36b603685236b5a36b3836af6)
  (.lf 0)))

def shaXorReads107 : BTree :=
  .nd (.nd (.nd (.lf
  0x106490c8ab0c85e0c8350c81a0c75a12c7a12c70110ed110e9106370c8af0c8600c8370c81c0c75c12c4012c3c110db110d7106250c8b30c8390c8220c81e0c75e12c56110a9110a5105fd0c8b70c83b0c8240c8200c76014368125a912595112c3108d91085b108441080c10770144e814366125ad12597112c5108dd1085d108461080e10772144de14364125b112599112c7108e11085f108481081010774)
  (.lf
  0x264902647026430264102601025ff025fb025f9025c3025c1025bd025bb0257d0257b02577025750253702535025310252f024f1024ef024eb024e9024a9024a7024a3024a1024690246702463024610242b024290242502423023e5023e3023df023dd0239f0239d02399023970237502b6c02b4202af002aaa02a7a02a24029f40299e0295802912028e2028a20286202822027e2027a20274c02706026c0))
  (.nd (.lf
  0x2cff02cfca2e7fe2e7be2e78e2e7782e73a2e73c2e70c2e6f62e6c42e6ae2e6862e66c2e6322e6342e6102e5ee2e5ce2e5b22e5942e5722e5562e5342e51e2e4fa2e4ec2e4c82e48c2e46a2e2282e4642e21e2e4262e20e2e41e2e2102e3fc2e25e2e3da2e25c2e3b82e25a2e3982e1de2e35a2e1d02e3542e2582e2be2e2562e2b22e1bc2e2a02e1ba2e2982e1982e2782e18c2e2662e17e2e2602e1642e150)
  (.lf 0))) (.nd (.nd (.lf
  0x32a00afa00ada00abc00aa000a8400a6800a4800a2a00a0a009ec009d0009b4009940097600956009380091c00900008e0008c2008a2008800085e0083c0081a007fc007e0007c0007a80079200af400ad300acf00ad200ab700ab300ab600a9b00a9700a9a00a7f00a7b00a7e00a6200a4100a3d00a4000a2400a03009ff00a02009e7009e3009e6009cb009c7009ca009ae0098d009890098c009700094f)
  (.lf
  0x74c7074c1074bd0748307487074810747d0744307447074410743d074030740707401073fd073c3073c7073c1073bd0738307387073810737d0734307347073410733d073030730707301072fd072c5072c3072bf072bd0727f0727d072790727707239072370723307231071f3071f1071ed071eb071ab071af071a9071a50716d0716b07167071650712507129071230711f070e7070e5070e1070df0709f))
  (.nd (.lf
  0xb6e50b6d80b6c30b6b60b69f0b6920b67f0b6720b65f0b6520b6410b6340b6210b6140b6030b5f60b5e70b5da0b5c70b5ba0b5a50b5a00b59d0c4550c4350c4280c4170c40a0c3fb0c3ee0c3df0c3d20c3c30c3b60c3a70c3980c3850c3760c3610c3520c3410c3320c3230c3140c3010c2f20c2dd0c2d00c2bf0c2b20c29f0c2920c27d0c2700c25b0c24e0c2390c22c0c2170c20a0c1f50c1e80c1d70c1ca)
  (.lf 0)))

def shaXorReads108 : BTree :=
  .nd (.nd (.nd (.lf
  0x3ca263ca243ca223ca213f7903f2803d9893d9853cea33cbfa3ca543ca123ca113ca0d3f4603f22a3d9973d9933ce8f3cc543cc0b3ca653ca003c9fc3f4543f27e3d95b3d9573ce7f3cc893cbc03c9ec3c9ea3c9e73f4463f2903d9213d91d3cf593cbea3cbe73c9d73c9d23c9ca3f4043f2943d9073d9033cead3cbe33cb643c9e13c9d83c9c43f3de3f1e83d8cb3d8c73ce413cb5e3cb5b3c9b93c9b23c9b0)
  (.lf
  0x729006dd80724a06ddc0720406de0071be06de40717c06de80713806dec070f606df0070b206df40707006df80702c06dfc06fea06e0006fa606e0406f6406e0806f2406e0c06ee006e1006ea406e1406e6a06e1806e1e079ee08234079f2081fc079f6081bc079fa08178079fe0813607a02080f607a06080b207a0a0807007a0e0802c07a1207fea07a1607faa07a1a07f6a07a1e07f2a07a2207eea07a26))
  (.nd (.lf
  0xb9400b7e00b6802bf602bf802bfa02bfc02bfe02c0002c0202c0402c0602c0802c0a02c0c02c0e02c1002c1202c1402c1602c1802c1a02c1c02c1e02c2002c2202c2402c2602c2802c2a02c2c02c2e02c3002c3202c340387c0387e03880038820388403886038880388a0388c0388e03890038920389403896038980389a0389c0389e038a0038a2038a4038a6038a8038aa038ac038ae038b0038b2038b4)
  (.lf
  0x35d5935d4b35d4735d4535d4335d3f35d3d35d3b35d3935d3535d3335d3135d2f35d2b35d2735d2535d2335d1d35d1b35d1935d1735d1335d1135d0f35d0d35d0935d0535d0335d0135cfd35cf935cf735cf535cef35ced35ce935ce735ce335cdf35cdd35cdb35cd735cd135ccf35ccd35cc935cc535cc335cc135cbd35cb935cb735cb535cb135caf35cad35cab35ca735ca535ca335ca135c9d35c9b35c99)))
  (.nd (.nd (.lf
  0x203e01f7e04f0604eca0388b0380b02c45021270209b020840204001f8004ec004e840388d0380d02c470212b0209d020860204201f8204e7a04e3e0388f0380f02c490212f0209f020880204401f8404e3404df8038910381102c4b020b3020a10208a0204601f8604dee04db0038930381302c4d020b7020a30208c0204801f8804dbe04d70038950381502c4f020bb020a50208e0204a01f8a04d7e04d30)
  (.lf
  0x2c9d32c9d12c9cf2c9cb2c9c92c9c72c9c52c9c12c9bf2c9bd2c9bb2c9b72c9b52c9b32c9b12c9ad2c9ab2c9a92c9a72c9a32c9a12c99f2c99d2c9992c9972c9952c9932c98f2c98d2c98b2c9892c9852c9832c9812c97f2c97b2c9792c9772c9752c9712c96f2c96d2c96b2c9672c9652c9632c9612c95d2c95b2c9592c9572c9532c9512c94f2c94d2c9492c9472c9452c9432c93f2c93d2c93b2c9392c935))
  (.nd (.lf
  0x37a4b3af2237a113af1c37a0f3af1237af73af0837a0d3aefe37a333aef437945379433bbe73bf3e3bbb13bf343bd753bf2e3bb9d3bf203ba873bf163ba413bf103b9173bf043b85b3bef83b7c13beee3b7973bee83b71b3bedc3b6df3bed43b67d3bec83bd7b3bec03bba73bda43baab3bd9a3ba3b3bd8e3b9393bd843b84b3bd5e3b7bf3bbf83b7873bbf03b7193bbe33bbae3bba53bab83baaf3ba2c3ba25)
  (.lf 0)))

def shaXorReads109 : BTree :=
  .nd (.nd (.nd (.lf
  0x1b80f1b6be1b5da1b5d41fae21fab61d11f1d11b1c09f1b8311b7651b6c01b3e21b3dc1faa81fa8a1d10d1d1091c0691b8351b7671b6c21b3aa1b3861fa7e1f9da1d0fb1d0f71c00f1b7951b7691b6c41b3ac1b3881f9d01f9ae1d0e91d0e51bfdd1b7991b76b1b6641b3ae1b38a1f9a21f9421d0d71d0d31bf931b79d1b76d1b64c1b3b01b38c1f9321f91c1d0bd1d0b91bf4d1b7a11b76f1b6481b3b21b38e)
  (.lf
  0xc53f0c53d0c5390c5370c5350c54d0c5330c52f0c52d0c52b0c5290c5250c5230c5210c51d0c51b0c5190c5170c5130c5110c50f0c50d0c5090c5050c5030c5010c4fd0c4fb0c4f90c4f70c4f30c4f10c4ef0c5070c4ed0c4e90c4e70c4e50c4e30c4df0c4dd0c4db0c4d70c4d50c4bf0c4bd0c4b90c4b70c4a10c49f0c49b0c0b90c0a71076c10766107581076e107481073a1072c107301072e107141073e))
  (.nd (.lf
  0x41e9d41e7e41e7b41e6a41e4141e5c41e1d41e5641e0f41e4a41e4941e2c41e0741e2441e2141de241ddf41e3541dce41dc441dc141da841d6341d9841d4341d9041d4741d8641d4b41d7c41d4f41d7441d1f41d6a41d1341c5841c2741c1541c0e41bea41be541bd941bc641ba241b9f41984419814198f419684192c4190941926418ed4191e4191b41503414fe4124c41245411c5418924187b418714185c)
  (.lf
  0xd0fd0d0f90d0f70d0dd0d0db0d0d70d0d50d0bb0d0b90d0b50d0b30d0990d0970d0930d0910d0770d0750d0710d06f0d0550d0530d04f0d04d0d0330d0310d02d0d02b0d0110d00f0d00b0d0090cfef0cfed0cfe90cfe70cfcd0cfcb0cfc70cfc50cfab0cfa90cfa50cfa30cf890cf870cf830cf810cf670d3620d3440d3220d3000d2de0d2bc0d29a0d2780d2560d2340d2120d1f00d1ce0d1ac0d18a0d168)))
  (.nd (.nd (.lf
  0x1298f12992129761295412932129111290d12910128f5128f1128f4128d81271012706126fc126f2126e8126de126d4126ca126c0126b6126ac126a2126981268e126841267a12670126661265c12652126481263e126341262a1262012616125601253a125301252613606135fc135f2135e8135de135d4135ca135c0135b6135ac135a2135981358e135841357a13570135661355c13552135481353e13534)
  (.lf
  0x114bd114b9114b7114b5114b3114af114ad114ab114a9114a5114a3114a11149f1149b114991149711495114911148f1148d1148b114871148511483114811147d1147b114791147711473114711146f1146d114691146711465114631145f1145d1145b114591145511453114511144f1144b114491144711445114411143f1143d1143b114371143511433114311142d1142b114291142711423114211141f))
  (.nd (.lf
  0x1f21c1f1ec1f18e1f1eb1f1931f18f1fe841fe481fe221fdfe1fdde1fdca1fd9e1fd801fd581fd321fd181fcf21fcd01fcaa1fc8a1fc661fc461fc2a1fc081fbec1fbd21fba61fb881fb3c1fb201fad01fa9c1fa701f9ca1f9901f92e1f94d1f92f2171a21704216f2216422153c2142821422213ce2134a2133a213262130a213042127e2122c211d2210d02105c21056210302100020fb420f0420eee20ed4)
  (.lf 0)))

def shaXorReads110 : BTree :=
  .nd (.nd (.nd (.lf
  0x2d4102d3722b35b2b34f2a651293c929359291fa28f1028f0a2d3f62d36a2b35d2b3512a72f29391292cd291fc28ef228eec2d3ea2d38a2b35f2b35329f2b2935f292e5291fe28ec228ebc2d3922d31a2b28f2b28b29f3f292fd292d3291c828ea628ea02d2f82d1ec2b27b2b27729eb1292eb29295291a228e6a28e642d1bc2d1b62aff52aff129e992930529297291ae2913c291362d1b22cfec2afc12afbd)
  (.lf
  0x2a2e72a2e52a2e12a2d92a2c72a2c52a2c12a2b92a2a92a2a72a2a32a2992a2812a2852a27d2a2792a2632a2692a2612a25d2a2472a24d2a2452a2412a22d2a22b2a2272a2252a20b2a2112a2092a2052a1f12a1ef2a1eb2a1e92a1d12a1cf2a1cb2a1c92a1bd2a1bb2a1b72a1ad29fa929fa729fa329fa129f1929f1729f1329f1129ef929efd29ef729ef329e7729e7b29e7529e7129e6f29e7f29e6d29e69))
  (.nd (.lf
  0x31556315272768e275a31e6b51e67a1e62d1e59e1e4f832b7832729315a9315583152b27684275a71e6b91e6311e6281e5901e4c832b323272d315ad3155a3152f2767a275ab1e6bd1e6351e62c1e58a1e4c632b2c32731315b13155c3153327670275af1e6c11e6391e6301e57e1e4f632ae232735315b53155e3153527666275b31e6c51e63d1e6341e5761e4d632adc32739315b931560315372765c275b7)
  (.lf
  0x227f3227ef227ed227df227dd227d9227d7227c9227c7227c3227c1227b3227b1227ad227ab2279d2279b22797227952278722785227812277f227712276f2276b227692275b22759227552275322745227432273f2273d2272f2272d2272922727227192271722713227112270322701226fd226fb226ed226eb226e7226e5226d7226d5226d1226cf226c1226bf226bb226b9226ab226a9226a5226a322695)))
  (.nd (.nd (.lf
  0x3c4dd3c4af3c4a13c49b3c9563c9403c9343c9283c9213c8fd3c9203c8fb3c8f73c8fa3c8f53c8f13c8f43c8c23c8b73c8b33c8b63c8a43c8973c8933c8963c8913c88b3c8903c8883c87d3c8773c87c3c8743c8673c8633c8663c8603c8523c8493c8353c8483c82b3c8253c82a3c8233c6c13c8223c6be3c6063c5ef3c5d53c5ee3c5d23c5803c5793c55f3c5783c4f23c4ae3c3f63cdae3cda23cd963cd8c)
  (.lf
  0x1d8311d82f1d82d1d8291d8271d8251d8231d81f1d81d1d81b1d8191d8151d8131d8111d80f1d80b1d8031d7d51d7d31d7cf1d7cb1d7991d7971d7931d7911d78f1d78d1d7891d7871d7851d7831d77f1d77d1d77b1d7791d7751d7731d7711d76f1d76b1d7691d7671d7651d7611d75f1d75d1d75b1d7571d7551d5b91fe7e1fe3c1fe161fdf61fdd81fdb61fd921fd6e1fd4a1fd2a1fd081fce41fcc41fca2))
  (.nd (.lf
  0x3cc243cb743c58d3c5843cb803cb2a3c5633c5603cafe3cad83c4fa3c4e13cac03caa63c4a93c4a23ca803ca3e3c3f03c3ef3ca483c3dd3daba3d7373df623db5c3dab03d72f3df403db543daa83d7273df383db383da983d7393df023dae63da8a3d7193dec03dac63da803d70f3de7c3dac03da523d7053de563da223d9ce3d6fd3de503d9b43d9703d6f13de143d9ec3d9ae3d6e53de0e3d9d03d99e3d73b)
  (.lf 0)))

def shaXorReads111 : BTree :=
  .nd (.nd (.nd (.lf
  0x10a4a1058213daf13d7e127651167f10a7510a5710a4c1057213d5d13d2c127671168110a7910a5910a4e1053613d0b13cda127691168310a7d10a5b10a501053813cbd13c8c1276b1168510a8110a5d10a521053a13c6d13c3c1276d1168710a8510a5f10a541053c13c1f13bee1276f1168910a8910a6110a561053e13bd313ba2127711168b10a8d10a6310a581054013b8313b52127731168d10a9110a65)
  (.lf
  0x3d2d73d2d53d2d13d2cf3d2cd3d2cb3d2a13d29f3d29b3d2a53d2993d2953d2933d2a73d2913d28d3d28b3d2893d2853d2833d1bb3d21f3d1b93d1ab3d1973d16d3d1693d1613d1253987a39870398663985e398543984a3984c398363983239838398343980e39884397fe397ec3987c397da397ce397c6397ee397b2397a83979e397f0393ac394ae39386394a8392fa392f2392be3987b398793987539873))
  (.nd (.lf
  0x19c6e19d3219c7219ce619c7619c7c1abb41b3621abb81b32e1abbc1b2f41abc01b2be1abc41b2861abc81b24c1abcc1b2101abd01b1d81abd41b19e1abd81b1601ac081b1221ac0c1b0e81ac101b0b01ac141b0781ac181b0401ac1c1b0081ac201afd01ac241af981ac281af601ac2c1af2a1ac301aef01ac341aeb81ac381ae7e1ac3c1ae421ac401ae041ac441adc81ac481ad861ac4c1ad401ac501acfe)
  (.lf 0))) (.nd (.nd (.lf
  0xd4be0d4b40d4aa0d4a00d4960d48c0d4820d4780d46e0d4640d45a0d4500d4460d43c0d4320d4280d41e0dbec0dbce0dbac0db8a0db680db460db240db020dae00dabe0da9c0da7a0da580da360da140d9f20d9d00d9ae0d98c0d96a0d9480d9260d9040d8e20d8c00d89e0d87c0d85a0d8380d8160dbe40dbc40dba20db800db5e0db3c0db1a0daf80dad60dab40da920da700da4e0da2c0da0a0d9e80d9c6)
  (.lf
  0x46880467e046740466a04660046560464c04642046380462e0475b047590475504753047510474f0474b047490474704745047410473f0473d0473b047370473504733047310472d0472b047290472704723047210471f0471d047190471704715047130470f0470d0470b04709047050470304701046ff046fb046f9046f7046f5046f1046ef046ed046eb046e7046e5046e3046e1046dd046db046d9046d7))
  (.nd (.lf
  0xa19c0a1840a1720a15c0a14a0a12e0a11c0a1040a0f20a0da0a0c80a0b20a0a00a0880a0760a0600a04e0a0320a0200a00809ff609fde09fcc09fbe09fac09f9c09f920ae4c0ae3c0ae320ae200ae160ae040adfa0ade80adde0adcc0adc20adb00ada60ad940ad8a0ad780ad6a0ad580ad480ad360ad2a0ad180ad0a0acf80ace80acd60acc60acb40aca40ac920ac840ac720ac620ac500ac420ac300ac20)
  (.lf 0)))

def shaXorReads112 : BTree :=
  .nd (.nd (.nd (.lf
  0xe9f70e77f0e76804920048f40f6d90e9fd0e7810e76a048f20eb2f0e9890e96d0e9560ccc505d300ed0e0eb330e98d0e96f0e9580ce960ccc905d0805ccc0ed040eb370e9910e9710e95a0ce8c0cccd05cce05c8e0ecfa0eb750e9950e9730e95c0ce820ccd105c8405c460ecf00eb790e9990e9750e95e0ce780ccd505c4805c060ece60eb7d0e99d0e9770e9600ce6e0ccd905c0805bc80ecdc0eb810e9a1)
  (.lf
  0x19bc819a2719bbe19a2b19bb419a2f19baa19a3319ba019a3719b9619a3b19b8c19a3f19b8219a4319b7819a4719b6e19a4b19b6419a4f19b5a19a5319b5019a5719b4619a5b19b3c19a5f19b3219a6319b2819a6719b1e19a6b19b1419a6f19b0a19a7319b0019a7719af619a7b19aec19a7f19ae219a8319ad819a8719ace19a8b19ac419a8f19aba19a9319ab019a9719aa619a9b19aa11aa051abaa1aa09))
  (.nd (.lf
  0x24688246422460e2611e261222612625fd225fd625fda25fde25eea25e6225dd425db425d2625d2825ca025c4825bb425b8c25b5a25b3025b0625a8e25a4425a04259cc259962595e258f0258b4258802584625804257d42734427346273482734a2734c2734e273522735427356273582735a2735c2729a272ac2727c2726c2726027262272282722a271fa271e2271d0271ea272382720226abe26a7c26a72)
  (.lf
  0x82a0080c007f0007d0007b8007a20078c00b0900afb00af700aeb00add00adb00ad700acd00abf00abd00ab900ab100aa300aa100a9d00a9500a8700a8500a8100a7900a6b00a6900a6500a5900a4b00a4900a4500a3b00a2d00a2b00a2700a1b00a0d00a0b00a07009fd009ef009ed009e9009e1009d3009d1009cd009c5009b7009b5009b1009a5009970099500991009870097900977009730096700959)))
  (.nd (.nd (.lf
  0x4376043730606f05459048d50483d04832047e6043370432e060710545b048d90483f04834047e8042f7042ee060730545d0485d0484104836047ea042b0042ad060750545f048610484304838047ec0427104268060770546104865048450483a047ee0422a04227060790546304869048470483c047f0041eb041e20607b054650486d048490483e047f2041a4041a10607d05467048710484b04840047f4)
  (.lf
  0x35a7f35a7d35a9535a7b35a7735a7535a7335a6f35a6d35a6b35a6935a6535a6335a6135a5f35a5b35a57359a536b0a36994369883692836918368b0367a8367903676e361e0361d4361ca361be3636236170361483613236120360fe360f6360ce360ba3607035f9435f8a35f3835efe35eb835e7235e2835de236b0b36b0936b05369a136995369933698f3698b36989369873698336929369273692536921))
  (.nd (.lf
  0xeb940ec9e0eb980ec940eb9c0ec8a0eba00ec800eba40ec760eba80ec6c0ebac0ec620ebb00ec580ebb40ec4e0ebb80ec440ebbc0ec3a0ebc00ec300ebc40ec260ebc80ec1c0ebcc0ec120ebd00ec080ebd40ebfe0ebd80ebf40ebdc0ebea0ebe00ebe60ed180eef60ed1c0eeec0ed200eee20ed5e0eed80ed620eece0ed660eec40ed6a0eeba0ed6e0eeb00ed720eea60ed760ee9c0ed7a0ee920ed7e0ee88)
  (.lf 0)))

def shaXorReads113 : BTree :=
  .nd (.nd (.nd (.lf
  0x2402e2378822077220732166120665206452063c206342061c240282378a21feb21fe72151b20595205812057a205742056223fd02379021f8b21f872145520599205832057c205762056423fc42375c21f6b21f67214572059b205852057e205782056623fbe2376821f0f21f0b213f3204f9204cf204c6204ae2046623fb02371221ed921ed52138f204fb204d1204c8204b02046823fa8236fa21e8d21e89)
  (.lf
  0x1ffe11ffdf1ffdb1ffd91ffd71ffd51ffd31ffcf1ffcd1ffcb1ffc71ffc51ffc31ffc11ffbd1ffbb1ffb91ffb71ffb31ffb11ffad1ffab1ffa71ffa51ffa11ff9f1ff9b1ff991ff971ff951ff931ff8f1ff8d1ff8b1ff871ff851ff831ff811ff7d1ff7b1ff711ff6f1ff6b1ff631ff611ff5f1ff5b1ff591ff571ff551ff511ff4f1ff4b1ff4d1ff491ff451ff431ff691ff411ff331fbb91fbb71fbb31fbb1))
  (.nd (.lf
  0x1ac0b1abef1abea1944c1943829d9229a6328911288f1288da2093e2077f1ac0f1abf11abec19418193fe29d7c29aa128915288f3288dc20934207831ac131abf31abee193de193c229d6629aa528919288f5288de2092a207871ac171abf51abf0193a21938a29d5029aa92891d288f7288e0209202078b1ac1b1abf71abf21936a1935429d3a29aad28921288f9288e2209162078f1ac1f1abf91abf419334)
  (.lf
  0x1b20d1b2091b1e51b1d11b1cf1b1cb1b1ab1b18d1b18b1b1871b16d1b1511b14f1b14b1b12f1b1151b1131b10f1b0f51b0e71b0e51b0e11b0bd1b0af1b0ad1b0a91b0851b0771b0751b0711b04d1b03f1b03d1b0391b0151b0071b0051b0011afdd1afcf1afcd1afc91afa51af971af951af911af6d1af5f1af5d1af591af371af291af271af231aefd1aeef1aeed1aee91aec51aeb71aeb51aeb11ae8b1ae7d)))
  (.nd (.nd (.lf
  0x2b3e42b2c62b2a02b2582afa22b7ef2b7ed2b7e12b7dd2b7252b7152b7132b70f2b6cb2b6c92b6c52b6832b65b2b56f2b56d2b5672b5652b55d2b55b2b57b2b5532b54f2b54b2b5472b52b2b4172b4032b3fd2b3f12b3ed2b3e52b3852b3812b2c72b2c32b2a12b29f2b2972b2592b1ab2b7ec2b7d92b7d32b7d82b7cf2b7cb2b7ce2b77d2b7612b77c2b7242b70e2b6c42b6572b6192b6562b56c2b5642b559)
  (.lf
  0x189911898f1898b189891898718985189811897f1897d1897b189771897518973189711896d1896b189691896718963189611895f1895d189591895718955189531894f1894d1889f1889d188991889718873188711886d1886b1884718845188411883f1881b188191881518813187ef19bce19bc419bba19bb019ba619b9c19b9219b8819b7e19b7419b6a19b6019b5619b4c19b4219b3819b2e19b2419b1a))
  (.nd (.lf
  0x21701216ec216e8216e62167d216522164a216462150f21508214fe214fc214f12143c2143a21434214e721418214142140c214dd213f6213d8213d0214d32136e2134e2134c214c9213622133e2133c214bf2132e2132c21328214b5213222131a21314214ab212f2212ee212e6214a1212962128821280214972122621220212182148d21204211fc211f4210ff210e2210e0210d8210a8210992106821060)
  (.lf 0)))

def shaXorReads114 : BTree :=
  .nd (.nd (.nd (.lf
  0x2fb572f0972ee592ecd22eaa42ea9e32fbc32a3e30b6f30b6b2fb452f0052ecd72ecb02ea9a2ea9432fa8329f630b2f30b2b2fb332f09d2eee12ec4e2ea422ea3c32f94329b830b1330b0f2fb212f00b2ef612ec502ea042e9fe32f343293e30adf30adb2fb0f2ef392eee72ebf42e9dc2e9d632922328a630a7d30a792fc092ef692edef2ebc62e98c2e9863289c3286630a2330a1f2faf72ef412ed912eb9c)
  (.lf
  0x3eb093eb073eb033eb013eaf13eb413eaef3eaeb3eae93eae73ea3f3ea2d3ea2b3ea293ea253e9fb3e9d73e9d53e9d13e9b33e9b13e9af3e9ab3e9a93e9973e9853e9833e97f3e97d3e97b3e9773e93d3e9313e9293e9253e9233e9213e91f3e91b3e9133e9093e9073e8f13e8ef3e8ed3e8eb3e8e33e8df3e8dd3e8db3e8d53e8d33e8d13e8cd3e8c93e8c33e8b73e8b53e8b13e8af3e8a93e94f3e8a73e8a3))
  (.nd (.lf
  0x3ac173abc03ab9736356362a930ba4308053077d30774307243ac1b3abc23ab993634e362ad30b96308093078130778305ea3ac1f3abc43ab9b36342362b130b903080d307853077c305ba3ac233abc63ab9d3633a362b530b86308113078930780305b43ac273abc83ab9f3632e362b930ab83078d30784305a43ac2b3abca3aba136324362bd30ab03079130788305183ac2f3abcc3aba33631a362c130a56)
  (.lf
  0x2e73f2e7392e7352e70d2e70b2e6f92e6f32e6c52e6c32e6b32e6b12e6872e6852e6812e66f2e6332e6372e6312e62d2e6112e60f2e60b2e5f12e5cf2e5cd2e5b52e5b12e5952e5932e58f2e5752e5572e5552e54b2e5372e51f2e51d2e5192e4fd2e4ed2e4eb2e4cf2e4cb2e48d2e48b2e4872e46d2e46b2e4692e4652e44b2e4492e4472e4432e4292e4272e4252e4212e41f2e4052e4032e3ff2e3fd2e3e3)))
  (.nd (.nd (.lf
  0x4194841940418be418b4418aa414ee412264121c412144120a41200411f6411ec411e240ed440ec840eb840c7440c3840c3040c2640be440bda40b6e40b3440ae840ab040a6e40a6440b5240b4840b0440afa40af040a4440a3a40a30408d0408a84088a408644085a408524084640820407ce407c6407bc407b2407a84079e407944078a407804076e3fa383fa2e3f9923f96c40d9a40d9040d8640d7c40d72)
  (.lf
  0x274a9274a5274a3274a12749d2749b2749927497274932748f2748d2748b274872748527483274812747d2747b27479274952747727473274712746f2746b274692746527467274632745f2745d2745b274572745527453274512744d2744b274492744727443274412743f2743d274392743727435274332742f2742d2742b274292742527423274212741f2741b274192741727415274112740f2740d27f8e))
  (.nd (.lf
  0x523d053800524105376052450536c05249053620524d05358052510534e0525505344052590533a0525d053300526105326052650531c05269053120526d0530805271052fe05275052f405279052ea0527d052e005281052d605285052cc05289052c20528d052b805291052ae05295052a4052990529f05e770601c05e7b0601205e7f0600805e8305ffe05e8705ff405e8b05fea05e8f05fe005e9305fd6)
  (.lf 0)))

def shaXorReads115 : BTree :=
  .nd (.nd (.nd (.lf
  0x132171320c13202131e01673a164ca14dd914dd5140fb13253132191320e13204131e216730164c814dad14da9140fd131a11319713194131921318c16726164b414d8114d7d140ff1314b1311b1311013104130e01671a164ae14d5514d51141011314f1311d1311213106130e216714164b014d2914d2514103131531311f1311413108130e41670c164b214d0714d03141051315713121131161310a130e6)
  (.lf
  0x4e3f04e3d04e3904e3704df904df704df304df104db104dc104daf04dab04d7104d8104d6f04d6b04d3104d4104d2f04d2b04cf304cf104ced04ceb04cab04cbb04ca904ca504c6b04c7b04c6904c6504c2b04c3b04c2904c2504bed04beb04be704be504ba504bb504ba304b9f04b6504b7504b6304b5f04b2504b3504b2304b1f04ae704ae504ae104adf04aa104a9f04a9b04a9904a5b04a5904a5504a53))
  (.nd (.lf
  0x3aa363aa2a3aa1e3aa123aa023a9fc3a9ac3a9ee3a9e23a9da3a9943aa043a9d03a9c83a9963a9e83a9be3a9b63a9983a9ae3a9503a99e3a93c3a9343a92c3a9e43a9183a9083a8fe3a8f63a8ec3a8f03adc43aed83adc03aecc3adae3aec23ada23aeba3ad963aeae3ad8a3aea43ad823ae9a3ad6c3ae903ad6a3ae863ad563ae7c3ad703ae723ad443ae663ad363ae5c3ad243ae523ad1e3ae483ad2a3ae42)
  (.lf 0))) (.nd (.nd (.lf
  0x4dec04ce604be004ada04a9404a4e04a08049c2050ba0507b050530507a0503a04ff404faf04f8704fae04f6f04f4704f6e04f2e04ee804ea204e5c04e1604dd104da904dd004d9104d6904d9004d5104d2904d5004d1004ccb04ca304cca04c8b04c6304c8a04c4b04c2304c4a04c0a04bc504b9d04bc404b8504b5d04b8404b4504b1d04b4404b0404abe04a7804a32049ec049a70497f049a6049670493f)
  (.lf
  0xa91b0a9190a9170a9150a9110a90f0a90d0a90b0a9070a9050a9030a9010a8fd0a8fb0a8d70a8d50a8d10a8cf0a8a90a8a70a8a30a8a10a87d0a87b0a8770a8750a8510a84f0a84b0a8490a8250a8230a81f0a81d0a7f90a7f70a7f30a7f10a7cd0a7cb0a7c70a7c50a7a10a79f0a79b0a7990a7750b9560b93a0b91c0b8fa0b8d60b8b60b8960b8740b8520b8300b8120b7f20b7d00b7ae0b7900b7740b758))
  (.nd (.lf
  0x1f1561f0191f14e1f00d1f1401f0011f1361eff31f12e1efe71f1261efd51f11a1efc91f10e1efdd1f0fe1efb71f0f81efd91f0ee1efa51f0e61ef951f0da1ef891f0d01ef7b1f0c61ef711f0b81ef611f0b21ef6f1f0a41ef4d1f09e1ef431f08e1ef371f0881ef271f19d1f07a1f0741ef1b1f1991f06a1f05e1eef71f18b1f0581eee91fe811fe451fe2e1fe191fe0c1fdfb1fdec1fddb1fdbe1fdc11fdac)
  (.lf 0)))

def shaXorReads116 : BTree :=
  .nd (.nd (.nd (.lf
  0x3e6b43e3943e3933e39041706416da40761407433f31f3e6b93e68e3e3673e3643e35c416b64167c407334072d3f2ed3e6a73e6683e3193e3163e314416704166440835407193f2e13e6773e6363e3263e2fa3e2f94165c4164a4070b407053f1a73e78d3e6473e6183e2ee3e2ec4164e41590406f7406ef3f1833e7d73e75f3e6243e2f03e2c64157e4154e406e7406e33f1133e7933e74f3e6103e32c3e32a)
  (.lf
  0x16bb816bae16bb417ade17c8217ae217c7817ae617c6e17aea17c6417aee17c5a17af217c5017af617c4617afa17c3c17afe17c3217b0217c2817b0617c1e17b0a17c1417b0e17c0a17b1217c0017b1617bf617b1a17bec17b1e17be217b2217bd817b2617bce17b2a17bc417b2e17bba17b3217bb017b3617ba617b3a17b9c17b3e17b9217b4217b8817b4617b7e17b4a17b7417b4e17b6a17b5217b6017b56))
  (.nd (.lf
  0x20d6820d1220d14221fa2210c220982207621fea21f8a21f6a21f0e21ed821e8c21da421d4c21d2621cfc21c8221c3c21be821bc821b6021b1421ad221a8a21a8c21a02219ac219682191e21920216c42160c2160e216102313c2313e23140231422314423146231482314a2314c2314e23150231522315423156231582315a2315c2315e231602316223164231662325822cdc22c66239f622c2622bc422ae6)
  (.lf
  0x382ab3829b3829738289382a7382873828338263382613825b38259381c9381cb381c7381c3381c1381cf381bf381bb381b9381b7381b3381af381ad381ab381a7381a5381a13819f3819b3819738195381933818f3818d3818938187381833817f3817d3817b380eb380e9380db380d9380d3380d1380c3380c1380bd380b9380ad380ab380a7380a338093380913808d3808b38081380853807f3807b38067)))
  (.nd (.nd (.lf
  0x4546044860725c0722005dd105d51051bb045bd045a30458c045480448807216071da05dd305d53051bd045c1045a50458e0454a0448a071d00719205dd505d55051bf045c5045a7045900454c0448c071a00715405dd705d57051c1045c9045a9045920454e0448e0714a0710c05dd905d59051c3045cd045ab0459404550044900711a070ce05ddb05d5b051c5045d1045960456d0455204492070c407086)
  (.lf
  0x2e3732e36f2e36d2e3532e3512e34d2e3452e32f2e32d2e3292e3252e3132e3112e30f2e3092e2f32e2f12e2ed2e2eb2e2e92e2e72e2e32e2e12e2df2e2dd2e2d92e2d72e2d12e2cf2e2cb2e2c52e2552e2532e24f2e24d2e24b2f0232f0212efc52efc12efbd2efb92eed32eeab2ee9b2ee992ee8f2eda92ed7d2ec312ec252ec212ec1d2ec192ec172ec132ebe32ebe12eb252eb232eb1d2eb1b2eaed2eaeb))
  (.nd (.lf
  0x73760736d073360732d072f6072ed072b8072af07272072690722c07223071e6071dd0719e071950716007157071180710f070da070d10709207089070540704b0700c0700306fce06fc506f8606f7d06f4606f3d06f0806eff06eca06ec106e8e06e8506e5406e4b06e2e06e2d0824908213081de081d5081a008197081580814f081180810f080da080d10809208089080540804b0800c0800307fcc07fc3)
  (.lf 0)))

def shaXorReads117 : BTree :=
  .nd (.nd (.nd (.lf
  0x200c22002d21bfd21107201512012320118200f4200c42002321bd9210bb20155201252011a200ee200c62002b21b71210bd20159201272011c200e0200c82001f21b25210952015d201292011e200da200ca2002121ae321025201612012b20120200cc2002e2002921aad20ff920165201221feef1fee61fe6c1fbbb21aaf20f5320169201241fef11fed81fe6e1fb8721a0d20f432016d201261fef31fed2)
  (.lf
  0x130d5130d3130d1130cd130cb130c9130c5130c3130c1130bf130bb130b9130b7130b5130b1130af130ad130ab130a71308f1304b130491304513043130411304d1303f1303b130391303713033130311302f1302d130291302713025130231301f1301d1301b1309b130191301513013130111300d12fdb12fd912fd712fd312fd112fcf12fcd12fcb12fc712fc512fc312fbf12fbd12fbb12fb912fb512fb3))
  (.nd (.lf
  0x40299402944029340254402464023940236402314022f4023c4021f40212402114020f4020a402db402d040200401f6401f3401f14027e401e2401a34019d4019a401974043240292401d640183401674016140230401ca401694015740155401524020e401894017f4017d4017840176401f2401e040135400cd400c4400bf4019c4009b4008a40024400234001f40182400a24007e40049400274000d40361)
  (.lf
  0xdad70dad30dac50dab70dab50dab10daa30da950da930da8f0da810da730da710da6d0da5f0da510da4f0da4b0da3d0da2f0da2d0da290da1b0da0d0da0b0da070d9f90d9eb0d9e90d9e50d9d70d9c90d9c70d9c30d9b50d9a70d9a50d9a10d9930d9850d9830d97f0d9710d9630d9610d95d0d94f0d9410d93f0d93b0d92d0d91f0d91d0d9190d90b0d8fd0d8fb0d8f70d8e90d8db0d8d90d8d50d8c70d8b9)))
  (.nd (.nd (.lf
  0x17210171d4171981715c171211711d17120170eb170e7170ea170b41707917075170781704217005170011700416fcd16fc916fcc16f9716f9316f9616f6016f2516f2116f2416eee16eb316eaf16eb216e7c16e3916e3516e3816df816af016ae616adc16ad216ac816abe16ab416aaa16aa016a9616a8c16a8216a7816a6e16a6416a5a16a5016a4616a3c16a3216a1616a0c16a02169f8169ee169e4169da)
  (.lf
  0x13db413d6213d1013cc213c7213c2413bd813b8813b3a13aee13a9e13a5013a00139ae1396013914138c81387813826137d81378813736136e41402713ff113fed13fe513fa713fa513fa113f9513f5713f5513f5113f4713f0913f0713f0313ef713eb913eb713eb313ea513e6713e6513e6113e5713e1913e1713e1313e0713dc913dc713dc313db513d7713d7513d7113d6313d2513d2313d1f13d1113cd3))
  (.nd (.lf
  0x41534414b44138c4138641360413404135f413410121c00b53013420121a00de000b51013380121800dcc00b4f0132e0121600db600b4d013240121400da000b4b0131a0121200d8a00b49013100121000d7400b47013060120e00d5e00b45012fc0120c00d4800b43012f20120a00d3200b41012e80120800d1c00b3f012de0120600d0600b3d012d40120400cf000b3b012ca0120200cda00b39012c001200)
  (.lf 0)))

def shaXorReads118 : BTree :=
  .nd (.nd (.nd (.lf
  0x307502e23d2e2392cfe92cb872cb4d2ca682c0e82c0e23224a302a9302a52f0952dfb12dfab2dfa82dfa62dfa0322563223e30285302812f0032df832df7d2df7a2df782df72322323215c2fffb2fff72eedf2dee72dee12dede2dedc2ded632152320722ff8b2ff872ef5f2dec92dec32dec02debe2deb832144320682ffa32ff9f2ef372deb32dead2deaa2dea82de9e32130320582ffdd2ffd92eded2de73)
  (.lf
  0x2eeb12ef2f2eeaf2eea72edb12ede52edaf2edab2eda32eda12ed872ed832ed592ed5d2ed572ed512ed4d2ed4b2ed472ed2d2ed112ee4b2ed0d2ed092ecdd2ecdb2ecc72ecc32eca32eca72eca12ec8b2ec6f2ec6d2ec532ec452ec3b2ec372ec332ec2f2ec0d2ec0b2ebeb2ebe92ebd92ebd72ebcd2ebb72eba32eba12eb932eb852eb7f2eb7b2eb772eb6d2eb6b2eb692eb652eb352eaf92eafd2eaf72eaf3))
  (.nd (.lf
  0x34a102ab882aa1d24ef724ecd24ec8247e8245ae35d5e35be734a5734a2934a122ab7e2aa2124efb24ecf24eca247e0245c035d5035beb34a5b34a2b34a142ab742aa5124eff24ed124ecc247d0245ba35d4435bef34a5f34a2d34a162ab6a2aa5524f0324ed324ece247c8245b435d3e35bf334a6334a2f34a182ab602aa5924f0724ed524ed0247bc245c235d3035bf734a6734a3134a1a2ab562aa5d24f0b)
  (.lf
  0x24545245412453f245312452f2452b245292451b2451924515245132450524503244ff244fd244ef244ed244e9244e7244d9244d7244d3244d1244c3244c1244bd244bb244ad244ab244a7244a52449724495244912448f244812447f2447b244792446b24469244652446324455244532444f2444d2443f2443d24439244372442924427244232442124413244112440d2440b243fd243fb243f7243f5243e7)))
  (.nd (.nd (.lf
  0x40faf40f9d40f9b40f9740f9340f8d40f8b40fcf40f8740f8140fdf40f7f40f7b40fe540f7740f7140f2f40f2340f0340f0140ded40deb40dbd40dad40da94059d4059540593405914058d40587405854057d4057b40579405734056d4056b405674056340561405334052d4052540507404e3412914128d412904128a4127c40fda40fc240fb640fab40f9f40faa40f9a40f9240f8640f7e40f7640f6f40f6b)
  (.lf
  0x2102e20f8020f7820ecc20ebc20eb420e4420e4e20dca20d9020d4e20cde212dd212db212d3212d1212cf212cd212c9212c5212c3212c1212bd212b9212b7212b5212b1212af212ad212d5212ab212a7212a5212a32129f2127b212772127921275212712126f2126d212692126721265212632125f2125d2125b2125921255212532124f2124d212492124721245212432123f211ef211eb211e9211e5211e3))
  (.nd (.lf
  0x395203ab00395603aa60395a03a9c0395e03a920396203a880396603a7e0396a03a740396e03a6a0397203a600397603a560397a03a4c0397e03a420398203a380398603a2e0398a03a240398e03a1a0399203a100399603a060399a039fc0399e039f2039a2039e8039a6039de039aa039d4039ae039ca039b2039c0039b6039bc045ae04752045b204748045b60473e045ba04734045be0472a045c204720)
  (.lf 0)))

def shaXorReads119 : BTree :=
  .nd (.nd (.nd (.lf
  0x1456e145421727b1725e15f4d1500f1459b1457b14570145441723f1722215f4f150111459f1457d145721454617201171e615f5115013145a31457f1457414548171c5171aa15f5315015145a714581145761454a171891716e15f5515017145ab14583145781454c1714d1713215f5715019145af145851457a1454e17115170fa15f591501b145b3145871457c14550170df170c415f5b1501d145b714589)
  (.lf
  0x3da023dca53dca73dca33dc9d3dc953dc933dc8f3dc8d3dc8b3dc893dc853dc833dc813dc7f3dc7b3dc793dc773dc753dc6f3dc6b3dc693dc713dc673dc633dc613dc5f3dc5b3dc593dc573dc733dc553dc513dc4f3dc4d3dc493dc453dc433dc413dc3d3dc3b3dc393dc373dc333dc313dc2f3dc2d3dc293dc273dc253dc473dc233dc1f3dc1d3dc1b3dc173dc133dc113dc973dc0f3dc0b3dc093dc153dc07))
  (.nd (.lf
  0x2aa5c2ab4a2aa602ab402aa642ab362aa682ab2c2aa6c2ab222aa702ab182aa742ab0e2aa782ab042aa7c2aafa2aa802aaf02aa842aae62aa882aadc2aa8c2aad22aa902aac82aa942aabe2aa982aab42aa9c2aaaa2aaa02aaa62bb9e2bd6e2bba22bd642bba62bd5a2bbaa2bd502bbae2bd462bbb22bd3c2bbb62bd322bbba2bd282bbbe2bd1e2bbc22bd142bbf22bd0a2bbf62bd002bbfa2bcf62bbfe2bcec)
  (.lf 0))) (.nd (.nd (.lf
  0xf4100f4060f3fc0f3f20f3e80f3de0f3d40f3ca0f3c00f3b60f3ac0f3a20f3981cee21ceca1ceb21ce9a1ce821ce6a1ce521ce3a1ce221ce0a1cdf21cdda1cdc21cdaa1cd921cd7a1cd621cd4a1cd321cd1a1cd021ccea1ccd21ccba1cca21cc861cc661cc441cc221cc001dcac1dca21dc981dc8e1dc841dc7a1dc701dc661dc5c1dc521dc481dc3e1dc341dc2a1dc201dc161dc0c1dc021dbf81dbee1dbe4)
  (.lf
  0x34630345f0345d034290342d0342703423033f7033f5033f1033ef033bd033bb033b7033b503381033850337f0337b0334f0334d033490334703315033130330f0330d032db032d9032d5032d30329f032a30329d032990326d0326b032670326503231032350322f0322b031fd03201031fb031f7031cb031c9031c5031c30318f031930318d031890312d0699c0696406920068de0689a0685806814067ce))
  (.nd (.lf
  0x1c41c1c3a01c7161c4141c40c1c3a21c6841c3fe1c3f81c34c1c5ec1c3ec1c3e41c37e1c5701c39c1c38e1c3881c50c1c3821c3901c3781c4a41c2ea1c3a41c2e01c43a1c2b21c3b01c2701c2721c2581c21c1c1da1c1dc1c1c61c1961c1521c1541c10a1c10c1c0c41c0c61c07c1c07e1c0361c0381bff21bff41bfb01bfb21bf9e1bf641bf581bf201befe1beda1d1601d40c1d1621d4001d14a1d3f41d18e)
  (.lf 0)))

def shaXorReads120 : BTree :=
  .nd (.nd (.nd (.lf
  0x2f80fca20f8990037e002f60fc460f89d00374002f40fbea0f8a10036a002f20fb8c0f8a500360002f00fb2a0f8a900356002ee0faca0f8ad0034c002ec0fa6c0f8b100342002ea0fa120f8b500338002e80f9b60f8b90032e002e60f9540f8bd00324002e40f8c3002e20f84f0f8330f81c0cea1001b00f8530f8350f81e0d3580cea5002d6001ae0f8570f8370f8200d33a0cea9002cc001ac0f85b0f839)
  (.lf
  0x3c3ca3d2483d5203d1f63d5143d1e23d5083d27c3d5023d1b03d4f03d1723d4ea3d2503d4d83d2083d4d23d1e43d4c23d3343d3f63d1b63d3e63d25a3d3e03d2043d3ce3d1de3d3c63d2763d3ba3d1bc3d3ae3d15c3d3a23d11e3d3963d1023d38a3d0e63d37a3d0b83d3743d0bc3d3663d0d23d2d63d0803d2d03d0683d29e3d2563d2943d2063d28a3d1e63d2823d2803d21c3d1aa3d1663d1603d1203df9a))
  (.nd (.lf
  0x21f1c21ec621e98231cc231d0231d423262231d8231dc239fe231e0231e4231e8231ec231f023266231f4231f823a00231fc2320023204232082320c2321023214232162326a2321a2321c23a022321e23220232242322823cbc23cbe23dea23dee23db223d6e23d7223d7623d7a23d0a23cea23cc023cc423df223df623db623d7e23d8223d8623d8a23d0e23cee23dfa23dfe23dba23d8e23d9223d9623d98)
  (.lf
  0x396e5396e1396df396dd396db396d7396d5396d3396d1396cd396cb396c9396c7396c3396c1396bf396bd396b9396b7396b5396b3396b1396ad396ab396a9396a5396a13969f3969d396993969739695396933968f395d5395d1395c1395bd395b9395a1395a73959f3959b395893958d3958739583395713a09a3a09039fe239fea39fd039fc839fb639fa639f9c39f8e39fac39ff239f6e39f6439f7c39f50)))
  (.nd (.nd (.lf
  0x8fa408ee40b9a00b97a0a52b0a52709c170903708fea08fc108fa608ee60b9940b96c0a5190a51509c190903b08fec08fc308fa808ee80b9880b9700a5070a50309c1b0903f08fc508fae08faa08eea0b9840a4bf0a4bb09c1d0904308fc708fb008fac08eec0c45c0b2250b2210a8e909cb709c3909c2209bde09b1e0c5e00c4480b2150b2110a8bd09cbb09c3b09c2409be009b200c5d80c4740b2030b1ff)
  (.lf
  0x312f1312ed312eb312e9312e7312e3312e1312df312f7312dd312d9312b1312b3312a5312a131265312633125f3125d31217312193121531211311c5311c3311bf311bd311b7311bb311b5311b1310cb310cf310c9310c53106731065310613105f3101d3101b310173101530f8b325b6325ac325b83259c32590325863258232576325663257832556325463253c325483254c3231a3231e3230a322fe322f4))
  (.nd (.lf
  0x2905f2922c2906729208290292920229017291e02900b291cc28ffb291b828fe1291b028fd52919228fb12917e28f8f2916a28f7d2915828f7f2914628f9328f5528f4e28f0728ef628ee328ecc28eb728e9a28e9d28e7228e6128cf22913328cb828ca728c7e28c732a6352a89c2a6332a8882a45b2a8522a4492a7ec2a45d2a7e62a4132a7c42a3e72a7982a3df2a7922a3bd2a78a2a37f2a7642a35b2a75c)
  (.lf 0)))

def shaXorReads121 : BTree :=
  .nd (.nd (.nd (.lf
  0x28295282642c2d62c1052a2712957f283e1282972828c282662c2c42c1032a25529641283e5282992828e2822e2c2be2c1012a23129581283e928290280dd280bc2c29e2c0ff2a21929547283ed28292280d32805a2c2962c0fd2a1f52951d283f128294280d527fe22c25c2c0fb2a1d72951f283f528296280d727fb42c2562c0f92a1b32952b2832928298280d927e642c21c2c0f729faf295212832d280dc)
  (.lf
  0x17e9117e8f17e8b17e8917e4b17e4917e4517e4317e0917e0717e0317e0117dc5184f517dc317dbf17d8317d8117d7d17d7b17d4f197221971219700196ee196dc196ca196b8196a61969419682196701965e1964c19638196261961419602195f0195de1956c19562195581954e195441953a19530195261951c1951219508194fe19723197211971d19713197111970f1970b19701196ff196fd196f9196ef))
  (.nd (.lf
  0x152b51527c1522d13c4e13c4b13c3613c1e2265122602225d31a0d619c37152b91527e1523113c0013bfd13be813bd22265522604225d71a09e19c3b152bd152351522c13bb413bb113b9c13b822265922606225db1a06419c3f152c1152391523013b6413b6113b4c13b342265d22608225df1a02a19c43152c51523d1523413b1613b1313afe13ae8226612260a225e119fee19c47152c9152411523813aca)
  (.lf
  0x16e9f16e9b16e9916e6716e6516e6116e5f16e2716e2516e2116e1f16de716de516de116ddf16dab0e9400e9360e92c0e9220e9180e90e0e9040e8fa0e8f00e8e60e8dc0e8d20e8c80e8be0e8b40e8aa0e8a00e8960e88c0e8820e8780e86e0e8640e85a0e8500e8460e83c0e8320e8280e81e0e8140e9410e93f0e93b0e9390e9370e9350e9310e92f0e92d0e92b0e9270e9250e9230e9210e91d0e91b0e919)))
  (.nd (.nd (.lf
  0x219ce21984218ba218ae216a2215b8215ae1e6241e61a1e6101e6061e5fc1e5f21e5e81e5de1e5d41e5ca1e5c01e5b61e5ac1e5a21e5981e58e1e5821e57a1e5701e5661e55c1e5521e5481e53e1e5341e52a1e5201e5141e50c1e4de220e2220542204c21fd021fbe21e7c21e7221e6621e4821d7e21cd221cca21ca221c6221c1c21bae21ba421b3821b2a21af021a3a21a2a219d6219c4218e8218e0218ce)
  (.lf
  0x1615916155161531611b1611716115160f9160f5160f315e2c15e2215e1815e0e15e0415dfa15df015de615ddc15dd215dc815dbe15db415daa15da015d9615d8c15d8215d7815d6e15d6415d5a15d5015d4615d3c15d3215d2815d1e15d1415d0a15d0015e2d15e2b15e2715e2515e2315e2115e1d15e1b15e1915e1715e1315e1115e0f15e0d15e0915e0715e0515e0315dff15dfd15dfb15df915df515df3))
  (.nd (.lf
  0x106c41060a1048c0fdef106bc104820fd900fd8f106b010608104780fd2f106a81046e0fcd20fcd11069a10606104640fc73106941045a0fc160fc151068a10604104500fbbb10682104460fb5c0fb5b10676106021043c0fafb10662104320fa9a0fa991065210600104280fa3d1063e1041e0f9e20f9e110638105fe0f9820f97f0f9240f9220f91a0f917105f40f8d7114e910ede11234110d21109810ebb)
  (.lf 0)))

def shaXorReads122 : BTree :=
  .nd (.nd (.nd (.lf
  0x358313581c387ee38727377993603b35993358be3580b350ce387e23872f3777936043359973587e35029350263871b385d4371873601735a3b359e33584235010385cc385993716536005359e5359253582e34fee385c6385873714735e65359e7359293583034f58385b9385963711b35e1335a173592d3580a358083855d370fd35c6f3597f358e93502834ace3bbcd3905d37c5d36b4936b3f36b3c36b1c)
  (.lf
  0x35849358473583b35839358373583535827358253582335821358173581535813358113580d350d1350bd350213501f3501b3501935017350133500b350093500734f9b34f8934f4334f4134f3d34f3134b4d3580334b4b34b4734af536b2036acc36a9e36a7c36a56368da3682836806367d436728366ce367483668836610365a23658e3656236524364663643a36454363703609435fec35fd235f5e35f16))
  (.nd (.lf
  0x38b422fc282fa992aa2b2aa2629ed629eb23930c3928d38bf138b5d38b462fc1c2fa9d2aa2d2aa2829ec229dd6392d23929138b5f38b482fc122faa12aa2f2aa2a29e4c29de8392aa3929538b6138b4a2fc0c2faa52aa312aa2c29dde29dd83929938b6338b4c2faaf2aa332aa2e29dfa39889392273920b391f43076b2bbf12bbd72bbd22b0f439b863988d3922b3920d391f63093c3076f2bbf52bbd92bbd4)
  (.lf
  0x27d2127d1d27d1b27d1927d1727d1327d1127d0f27d0d27d0927d0727d0527d0327cff27cfd27cfb27cf927cf527cf327cf127cef27ceb27ce927ce727ce527ce127cdf27cdd27cdb27cd727cd527cd329dac29d9829d8229d6c29d5629d4029d2a29d1429cfe29ce829cd229cbc29ca629c9029c7a29c6429c4e29c3829c2229c0c29bf629be029bca29bb429b9e29b8829b7229b5c29b4629b3029b1a29dad)))
  (.nd (.nd (.lf
  0x1c0e21c0a81c0541c01a1bfc81bf801bf301d7d81d6341d62a1d6201d6161d60c1d6021d5f81d4c21d4aa1d4941d4841d46c1d4581d4501d3401d31a1d2ea1d2ba1d26c1d25a1d2201d1fe1d1e01d1261d1141d1021d0f01d0de1d0cc1d7be1d6aa1d6a01d6961d68c1d6521d6481d63e1d5101d5061d4fc1d4f21d4e81d4de1d4d41d34c1d32a1d2fe1d2d01d2841d27a1d22e1d20a1d1a01d0a21d0981d08e)
  (.lf
  0x23c7123c6f23c6b23c6923c6523c6323c5f23c5d23c5923c5723c5323c5123c0923c0723c0323c0123bfd23bfb23bf723bf323bf123bef23beb23be923be523c0d23be323bdf23bdd23bdb23bd723bbf23ba523ba723ba323b9f23b9d23b9b23b9723b9523b7523b3723b3523b3123b2f23b2d23b2923b2723b2523b3d23b2323b1f23b1d23b1b23b1723b1523aeb23ae923ae523adf23add23adb23acf23ac1))
  (.nd (.lf
  0x23d7423eec23d7823ee023d7c23ed823d0c23ece23cec23ec223cc223eba23cc623eb023df423ea423df823e9c23db823e9223d8023e8623d8423e7e23d8823e7423d8c23e6823d1023e6023cf023e5623dfc23e4a23e0023e4223dbc23e3823d9023e2c23d9423e2423e0223e1a23e0423e0c23d1423e0623cf423ccc24d0a24e7424d4e24e6e24d3024e6024d2e24e5a24d4c24e4c24cec24e4624d4a24e38)
  (.lf 0)))

def shaXorReads123 : BTree :=
  .nd (.nd (.nd (.lf
  0x1b99a1b5381e0fe1e02f1d59f1c5651b9cb1b9a71b99c1b53a1e0f41e02b1d5a11c5351b9cf1b9a91b99e1b53c1e0ec1deeb1d5a31c5051b9d31b9ab1b9a01b53e1e0e21e02d1d5a51c4c51b9d71b9ad1b9a21b4f21e0d61e01d1d5a71c4931b9db1b9af1b9a41b4dc1e0ca1e0171d42d1c4951b9df1b9b11b9a61b4d41e0c21e0111d42f1c3d51b9e31b9b31b9a81b4c61e0b61e00b1d4311c2931b9e71b9b5)
  (.lf
  0x417a9417a7417a14179f417994179741795417934178f4178d4178b4178941785417834177f4177d417794177741773417714176d4176b4176741765417614175f4175b4175941755417514174f4174d4174741745417414173f4173b417394173741735417314172f4172b41729415ed415eb415e7415e5415e1415dd415db415f1415d9415d5415d3415d1415cd415cb415c9415f5415c7415c3415c1415bf))
  (.nd (.lf
  0x1bd861bd741bd701bd5e1bd5a1bd481bd441bd321bd2e1bd1c1bd181bd061bd021bcf01bcec1bcda1bcd61bcc41bcc01bcae1bcaa1bc981bc921bc801bc7a1bc681bc621bc501bc4c1bc3a1bc361bc241bc201bc1a1ceee1cede1ced81cec61cec01ceae1cea81ce961ce901ce7e1ce781ce661ce601ce4e1ce481ce361ce301ce1e1ce181ce061ce001cdee1cde81cdd61cdd01cdbe1cdb81cda61cda01cd8e)
  (.lf 0))) (.nd (.nd (.lf
  0x340183400e3400433ffa33ff035dce35dc235da435d9c35d8c35d8435d7835d6e35d6235d5435d4a35d4235d3835d2e35d2235d1635d0c35d0035cf435ce635cda35ccc35cc035cb435caa35ca035c9635c8a35c8035c743623e36232362263621a3620e36202361f6361ea361aa3619a361923618a3617e361623615a361423612a36112360e6360de360c8360b23606635f7835f7035f3235ef035ea835e6c)
  (.lf
  0x8aff08afb08acb08abd08abb08ab708a8508a7708a7508a7108a4308a3508a3308a2f08a03089f5089f3089ef089c3089b5089b3089af0898308975089730896f0893f089310892f0892b088fd088ef088ed088e9088b9088ab088a9088a50887308865088630885f0883108823088210881d087ed087df087dd087d9087a70879908797087930876108753087510874d0871b0870d0870b08707086df086d9))
  (.nd (.lf
  0x40ef6404a240ee6404d240ee04049440e664048040e564047240e444046a40e3a4045c40e344044e40e2c4045240e22403e040dda403e240dd2404d640dcc403ca40dc0403b440da44042e404264039c4041e4038e40412403824040840376403fe40392403f04034c403ea403e640352403504032e4032a40310402fe4030640304402e2402e0401ac417c641a28417c841a1c417b241a14417a241a0a4179c)
  (.lf 0)))

def shaXorReads124 : BTree :=
  .nd (.nd (.nd (.lf
  0x36a8936a8636a8436a7e3d1be3c9463b9093b8e93799936a6936a6336a6036a5e36a583d1543c8fe3b83f3b83b3797d368f1368e7368e4368e2368dc3d1123c9043b7c73b7c33795f3683d3683536832368303682a3d0f03c9003b7833b77937a273681936813368103680e368083d0ea3c8bc3b7153b6fb37931367e9367e1367de367dc367d63d0a23c8c43b6e53b6db37915367393673536732367303672a)
  (.lf
  0x4068f4069b4068d406894068740685406814067f4067d4067b406774067540673406714066d4066b406694066740663406614065f4065d4065b406574065540653405f3405ef405b9405b74055f40559405574055b4055540551405234051940517405114050140505404ff404f1401bf402cc402a44043a402564022040260401de401d2401c840180400c04009040080400964007040064400944003a3fcd0))
  (.nd (.lf
  0x39599395303951f39518397b639581395233951a394d8397aa3956b395253951e394ce397a23952939522394e83952e3952d39524394ee39528394aa393ab393a63952c393923937b39352393aa393883937d39330394a6393803937f3937a3937c392fc392ef392e63937e392f4392f1392ec39669392ee392c0392b43964f392f0392a03bbc839c4f39c3b39c363bb263ba8439c5339c3d39c383ba6a3b9c2)
  (.lf
  0x325e5325e1325df325dd325db325d7325d5325d1325cf325cb325c9325c7325d3325c5325c1325bf325bd31c0b31c0931c0331c0531c0131bfd31bfb31bf931bf531bf331bf131c0731bef31beb31be931be731be331be131bdf31bdd31bd931bd731bd333ca833c9e33c8a33c7e33c9033c6c33c6233cb033c5033c4833c3633c2833c2033c1233c0a33bfc33bee33cac33bd633bcc33bde33bb6339863397a)))
  (.nd (.nd (.lf
  0x2be162be1a2be1e2be222be262be2a2be2e2cf562cf5a2cf5e2cf622cf662cf6a2cf6e2cf722cf762cf7a2cf7e2cf822cf862cf8a2cf8e2cf922cf962cf9a2cf9e2cfa22cfa62cfaa2cfae2cfb22cfb62cfba2cfbe2cfc22cfc62e0dc2e0e02e0e42e0e82e0ec2e0f02e0f42e0f82e0fc2e1002e1042e1082e10c2e1102e1142e1182e11c2e1202e1242e1282e12c2e1302e1342e1382e13c2e1402e1442e148)
  (.lf
  0x2b0572b0552b04f2b04d2b04b2b0492b0452b0432b03f2b03d2b0372b0352b0332b0312b02d2b02b2b0272b0252b0212b01d2b01b2b0192b0132b0112b00f2b16d2b00d2b0092b0072b0052afcd2afcb2afc92afc72af692af672af652b7c02b7c42b7ae2b7c82b75e2b30c2b2fc2b2f02b2e82b2da2b26c2b24e2b2442b2362b22c2b2222b2182b20c2b2022b1f22b1e82b1de2b1d42b1c82b1be2b1b42b1a8))
  (.nd (.lf
  0x25fc92652825eff2652025e412651625d8b2650c25daf265022614f264fc26113264f2260f7264e62600b264de25fc5262f825fa5262ee25f7f262e025f03262d825e45262cc2614d262c226111262ba260e9262b226005262a625fc32629a25fa925f8325f1025f0725e5225e4b25d9225d8f27175271a4270a927198270c92719227093271862703f2717e270432717226fd32716826f612715e26f2927154)
  (.lf 0)))

def shaXorReads125 : BTree :=
  .nd (.nd (.nd (.lf
  0x1885c18737187341872e1c2781c24a1a5ab1a547195e71885f18830187211871e187181c2261c1fa1a5ad1a549195c518833188041870d1870a187041c1e81c1be1a5af1a54b195c718807187e2186f9186f6186f01c1a81c1701a5b11a54d195c918903187e5187c6186e4186de1c1641c1381a5b31a54f195cb18905187cb187ae186d2186cc1c1221c0e41a5b51a551195cd18919189071879a18600185fa)
  (.lf
  0xa5370a5350a5310a52f0a5250a5230a51f0a51d0a5130a5110a50d0a50b0a5010a4b40a45a0a42e0a4000a3dc0a3b40a3820a4aa0a3300a4a60a2de0a4a20a2860a49e0a22e0a49a0a1e60a4960a1940a4920a1380a48e0a0ea0a48a0a0980a4860a03c0a48209fee0a47e09fa20a4b50a4b30a4af0a4ad0a45b0a4350a4310a42f0a4090a4070a4030a4010a3d90a3dd0a3d70a3d30a3b10a3b50a3af0a3ab))
  (.nd (.lf
  0x2f5232f5ba2f4632f5b42f5212f59c2f51f2f5842f51d2f5522f51b2f54a2f42d2f53e2f4212f5362f4092f3ed2f3ea2f39e2f3432f3942f3352f38c2f3272f36e2f31b2f3572f34c2f2f730747307393073230714306e73070e306db306fe306cd306f8306bd306ec306c3306a23069f3068830681306733066c3065a306573064630645306293061e3060c305913060230587305f63057b305ec3056b305de)
  (.lf
  0x31d9031d5031d3031a3031a10319d0319b0316d41b8841b7841b6a41b4a41b4e41b3041b2241b3441b1241b0641ac241aae41ab641a8441aa041a44416f4416fc41708416b84167e4165a416504158041544414c24139c4137a4136e4134e410f241b8941b7d41b7941b7541b7341b7141b6d41b6b41b5941b5741b5341b4b41b4941b4f41b4741b4341b4141b3f41b3941b3141b2f41b2d41b2941b2741b23)))
  (.nd (.nd (.lf
  0xc2560c2340c2120c1f00c1d20c1b60c19a0c17a0c15c0c13c0c11a0c0f80c0da0c0c009af409ab009a7209a2a099ec099a4099660991e098de0989e0985e09820097da097920975209712096d40968e0964809602095bc0957409536094f0094aa0946209422093e2093a2093640c4460c4260c4080c3ec0c3d00c3b40c3960c3740c3500c3300c3120c2f00c2ce0c2b00c2900c26e0c24c0c22a0c2080c1e6)
  (.lf
  0x10cd710cd310cd110cbb10cb910cb510cb310c9f10c9d10c9910c9710c7f10c7d10c7910c7710c6110c5f10c5b10c5910c4510c4310c3f10c3d10c2910c2710c2310c2110c0910c0710c0310c0110be710be510be110bdf10bc510bc310bbf10bbd10ba310ba110b9d10b9b10b8510b8310b7f10b7d10b6910b6710b6310b6110b4d10b4b10b4710b4510b3110b2f10b2b10b2910b1110b0f10b0b10b0910af9))
  (.nd (.lf
  0x9c6009aa009880096c0094a0092e00912008f6008d4008b8008960087400852008300080e007f2007d6007db007d7007d50122a011e200b7a00b1901220011e000b6400b17011de00b0f01ee401eca01e8a01e4401dda01d9a01d5a01d3e01cd401c9401c7801c3201bc801bac01b6601b2001ab601a9a01a30019f0019b0019940192a018ea018ce0186401824018080179e0175e0171e017470171f02b2e)
  (.lf 0)))

def shaXorReads126 : BTree :=
  .nd (.nd (.nd (.lf
  0x2a2822a262285b9285b526ca325fa125f7825beb25be825be22a2662a2462858b2858326c7725f7b25efa25bd725bd425bce2a24a2a22c2858d2858526c5b25efd25e3c25b1525b1225b0c2a2222a20a285672856326bcd25e3f25d8625a9d25a9a25a942a20e2a1f0285572855326b832614125da825d8925a5025a4a2a1e62a1d0280cf280cb26b672610725dad25d4025a1025a0a2a1c62a1bc27fa927fa5)
  (.lf
  0x26b0126aff26afb26af926ad726ad526ad126acf26a9b26a9926a9526a9326a3f26a3d26a3926a3726a3526a3326a2f26a2d26a2b26a2926a2526a232698d2699b2698b26987269112732a27320273162730c27302272f8272ee272e4272da272d0272c6272bc27296272a8272782726827250272462722227216271f2271da271cc271e627234271fe26aba26a7826a6826a5a269962732b273292732527323))
  (.nd (.lf
  0x2e12d2e0d22e0a92081920791207881ef641ec161ec131ec102f4362f2c52e1312e0d42e0ab2081d207952078c1ef581ebf21ebef1ebec2f42a2f2c92e1352e0d62e0ad20799207901ef4e1ebce1ebcb1ebc82f41c2f2cd2e1392e0d82e0af2079d207941ef3e1ebaa1eba71eba42f4162f2d12e13d2e0da2e0b12079f207981ef301eb861eb831eb802f3e42f2d52e1412e0b32e096207a12079c1ef281eefc)
  (.lf
  0x2085d208592085720855208532084f2084d2084b208492084520843208412083f2083b208392083720835208312082f2082d2082b20827208252082320cb220c9e20c8820c7220c5c20c4620c3020c1a20c0420bee20bd820bc220bac20b9620b8020b6820b5020b3820b2020b0820af020ada20ac420aac20a9620a8020a6a20a5420a3e20a2820a1220cb320cb120cad20cab20c9f20c9d20c9920c9720c89)))
  (.nd (.nd (.lf
  0x361ba3616c36150361383611c3610a360fc360f2360c03607635f9e35f9235f3e35ef835eb235e9835e3035dfc369ce369ba369a43694c36902367c8367963677c366783666c36664366343662c365ec3654c365423653a363ba363b0363a63639c3608035fca35fb235f4a35f0635ee235ec235e3a35e1e369c636936368b8367b0367ce366f2366983663c3655c363d4363ee3609035f5635e80369d2369b1)
  (.lf
  0x1cc5a1cc3a1cc181cbf61d15f1d15d1d1591d1571d1551d1531d14f1d14d1d1491d1471d1431d1411d13f1d13d1d1391d1371d1331d1311d12d1d12b1cfff1cffd1cff91cff71cff31cff11cfed1cfeb1cfe71cfe51cfe11cfdf1cfdb1cfd91cfd51cfd31cfcf1cfcd1cfc91cfc71cfc11cfbf1cfbb1cfb91cfb51cfb31cfaf1cfad1cfa91cfa71cfa31cfa11cf9d1cf9b1cf971cf951cf911cf8f1cf8b1cf89))
  (.nd (.lf
  0x31d8831d3c31d2d31d2631d8231d2931d1a31d1431d7a31d0631cfb31cf631cd431ca631b3031b2d31c8c31c5e31b3731b2431c8031c3e31b3331b2031c7a31c2c31b2f31b1431c2431a1331a0e31a0231c18318a4318993189631c0e3187f3187a3186c31a16317f6317c2317bf316a431694316913168c3165c316503164c316413161e3161b33600332fb336ac336023347c332ff336a6335fe33472332fd)
  (.lf 0)))

def shaXorReads127 : BTree :=
  .nd (.nd (.nd (.lf
  0xa9ee0a6601017d1013c0bf690b4a70aa170a9fb0a9f00a6621011d100de0bf6b0b4a90aa1b0a9fd0a9f20a664100c1100800bf6d0b4ab0aa1f0a9ff0a9f40a66610065100260bf6f0b4ad0aa230aa010a9f60a668100070ffc60bf710b4af0aa270aa030a9f80a66a0ffa50ff660bf730b4b10aa2b0aa050a9fa0a66c0ff490ff080bf750b4b30aa2f0aa070a9fc0a66e0fee90feaa0bf770b4b50aa330aa09)
  (.lf
  0x3be483be3a3be303be243be183be0c3be0a3bdf63bdee3c0403bddc3bdd63bdc23bdde3bc0a3bb3a3ba903b9cc3b94a3b88e3bebb3beb93beb53beb13beaf3bead3bea93bea73bea53bea33be9f3be9d3be993be973be933be913be8f3be8d3be893be873be833be813be7d3be7b3be793bebf3be773be733be713be6f3be6b3be673be633be653be613be5d3be5b3be593be553be533be513be4f3be4b3be49))
  (.nd (.lf
  0x398f239af6398f639aec398fa39ab2398fe39aa83990239a923990639a803990a39a663990e39a1a3991239a0c3991639a043991a399f03991e399ea39922399d639926399723992a399663992e39958399323995239936399463993a3998239dc43a08e39dc839fe439dcc39fda39e0a39fce39e0e39fc239e1239fbc39e1639fb039e1a39f9a39e1e39f9439e2239f8839e2639f7a39e2a39f7439e2e39f68)
  (.lf 0))) (.nd (.nd (.lf
  0x26042260462604a273982739c273a0273a4273a8272a0273ac273b0273b4273b8273bc273be273c2273c6273ca273ce273d2273d6273da273de273e2273e6273ea272a2272b2273ee273f2273f6273fa273fe27402274062831c2831e28320283222832428326283cc283d0283d4283d8283dc283e0283e4283e8283ec283f0283f4283282832c2833028334283382833c283402829a283f8283fc2840028404)
  (.lf
  0x3f6503f6303f5f03f5d03f2503f2303f1f03f1d03ee503ee303edf03edd03ea103e9f03e9b03e9903e5f03e5d03e5903e5703e1f03e1d03e1903e1703ddb03dd903dd503dd303d9903d9703d9303d9103d5503d5303d4f03d4d03d0f03d0d03d0903d0703ccd03ccb03cc703cc503c8900dea00dd600dc000daa00d9400d7e00d6800d5200d3c00d2600d1000cfa00ce400cce00cb800ca200c8c00c7600c60))
  (.nd (.lf
  0x3f07e3eb6b3f0783eb5f3f06c3ea653efe83ea473efe23eb5d3efd63eb673efc63eb653efbe3eb573efb43ea373efa43eb613ef983eb6d3ef903eb353ef8a3eb4f3ef383ea5f3ef2e3e9df3ef203ea433ef143e9a53ef023e9953eede3e9393eed03e94d3eeba3e9713ede03e9593edd83e96d3edd23eb6f3edac3eb173ed623eb373ed5a3eb533ed543ea3d3ea683e9eb3e9bb3fb333fe023f9c13fdf43f90b)
  (.lf 0)))

def shaXorReads128 : BTree :=
  .nd (.nd (.nd (.lf
  0xcd140ccc709796097541ecda1ea5915694152970f3570f3060f2d90cd530cccb0ccc209756097141ecb81ea5d1565c1529b0f35b0f3080f2dd0cd570cccf0ccc609716096d61ec941ea61156201529f0f35f0f30a0f2e10cd5b0ccd30ccca096cc096901ec701ea65155e6152a30f3630f30c0f2e30cd5f0ccd70ccce096860964a1ec4c1ea69155aa152a70f3670f30e0f2e50cd630ccdb0ccd20964009604)
  (.lf
  0x35a7635a0935a6c35a2335a643599d35a59359a4359a336b1b36cc436a1336cba369fd36cac3696736ca23694936c9a368cb36c9236b4336c8436a2136c7a36a2536c723697536c6a3697936c5e36b4736c5636a4b36c4a36a2b36c423697d36c363698136c2c3690b36c203688536c183686736c0e3685136c063670f36bfc366cb36bec3676136be43667d36bde3662736b4b36a4236a3836a2f36a45369ec))
  (.nd (.lf
  0x19a9419a9819a9c1aa021aa061aa0a1aa0e1aa121aa161aa1a1aa1e1aa221aa261aa2a1aa2e1aa321aa361aa3a1aa3e1aa421aa461aa4a1aa4e1aa521aa561aa5a1aa5e1aa621aa661aa6a1aa6e1aa721aa761aa7a1aa7e1b9ba1b9be1b9c21b9c61b9ca1b9ce1b9d21b9d61b9da1b9de1b9e21b9e61b9ea1b9ee1b9f21b9f61b9fa1b9fe1ba021ba061ba0a1ba0e1ba121ba161ba1a1ba1e1ba221ba261ba2a)
  (.lf
  0x309503093030910308d0308b030890308703083030810307f0307d030790307703075030730306f0306d0306b030690306503063030610305f0305b030590305703055030510304f0304d0304b030470304503043030410303d0303b030390303703033030310302f0302d030290302703025030230301f0301d0301b030190301503013030110300f0300b0300903007030050300102fff02ffd02ffb02ff7)))
  (.nd (.nd (.lf
  0x92db09296092610924a08921089180a64309ebd092df09298092630924c088da088d70a64509ebf092e30929a092650924e08894088910a64709ec1092e70929c0926709250088550884c0a64909ec3092eb092690925e092520880e0880b0a64b09ec5092ef0926b0926009254087c8087c50a64d09ec7092f30926d0926209256087820877f0a64f09ec9092f70926f09264092580873c087390a65109ecb)
  (.lf
  0x3af953afad3af933af8f3af8d3afaf3af8b3af873af853b01d3af833af7f3af7d3af7b3af773af753af733af713af6d3af6b3af693af673af633af613af5f3af5d3af593af573af553af533af4f3af4d3af4b3af493af453af433af413af3f3af3b3af393af373af353af313af2f3af2d3af2b3af273af253af233af213af1d3af1b3af193af173af133af113af0f3af0d3af093af073af053af033aeff3aefd))
  (.nd (.lf
  0x35bda35d7235bde35d6a35be235d5c35be635d4e35bea35d4635bee35d3c35bf235d3435bf635d2a35bfa35d1a35bfe35d0e35c0235d0235c0635cf635c0a35cee35c0e35ce235c1235cd035c1635cc835c1a35cb835c1e35cb035c2235ca435c2635c9c35c2a35c8c35c2e35c8435c3235c7c35c3635c7035c3a35c4236d2436ffe36d2836ff236d2c36fe836d6a36fdc36d6e36fd236d7236fc836d7636fb8)
  (.lf 0)))

def shaXorReads129 : BTree :=
  .nd (.nd (.nd (.lf
  0x25da524b1f24b1d24b1a24b1224b0c295d82906226de126ddd25d3f24d1624af124aec24aeb24ae8295d02903826dcf26dcb25d1124d1b24d1824ad524ace24ac2295ca2901826d3f26d3b25cad24d1d24cdc24ad724ad024ac4295b2294ce26d1726d1325c5d24cdf24cc424aa324aa024a9a295ac28ffc26cfb26cf725c0f24d3e24cc724a3d24a3424a282958c28fe226cc326cbf25bfd24d4124c6e24a3f)
  (.lf
  0x25fef25fed25fe925fad25fab25f9325f9125f8d25f8b25f8925f6d25f2925f1725f1525eef25eb325e5b25e5925e5525e3125d9b25d9925d9525d7b25d7925d9d25d7725d7325d4b25d4925d4525d3725d3525d3325d2f25d0925cb525cb325ca525c8f25c5325c5525c5125c4d25c1b25c1925c1525c1325c0725c0525c0125bf525bf325bf125bed25be125bdf25bdd25bd925bcd25bcb25bc925bc525b0b))
  (.nd (.lf
  0x1dd4d1dcc51dcbc1cf641cd442e1f22e11f2cfa32cf4a2cf21239322388d1dd511dcc91dcc01cf581cd2c2e1e42e1232cfa72cf4c2cf2323928238911dd551dccd1dcc41cf4c1cd142e1dc2e1272cfab2cf4e2cf252391e238951dd591dcd11dcc81cf401ccfc2e1d22e12b2cfaf2cf502cf2723914238991dcd51dccc1cf341cce42e1c22e12f2cfb32cf522cf292390a2389d1dcd91dcd01cf281cccc2e1b4)
  (.lf
  0x102611025d1025b1020510203101ff101fd101a7101a5101a11019f1014d1014b1014710145100ed100eb100e7100e5100911008f1008b1008910035100331002f1002d0ffd70ffd50ffd10ffcf0ff750ff730ff6f0ff6d0ff190ff170ff130ff110feb90feb70feb30feb10fe590fe570fe530fe510fdfb0fdf90fdf50fdf30fd9d0fd9b0fd970fd950fd3b0fd390fd350fd330fcdf0fcdd0fcd90fcd70fc7f)))
  (.nd (.nd (.lf
  0x33aea33ad833ace33a4a33a2e346a434642345923449a3444c343ee342b8341f2341aa341603413033cc033b4e33b1e33a52347d134773347d0346a0346723463d345ff3463c345e0345913457d34590344493444334448344403443934431344383442e34426343eb343b9343ea343b734385343b6343833435534382342f1342d7342f0342d43425b342333425a34218341c8341a63415433d9133d6533d90)
  (.lf
  0x1c2711c2751c26f1c26b1c2591c2571c2531c21f1c1db1c1df1c1d91c1d51c1c71c1991c1951c1911c1531c1571c1511c14d1c10b1c10f1c1091c1051c0c51c0c91c0c31c0bf1c07d1c0811c07b1c0771c0371c03b1c0351c0311bff31bff71bff11bfed1bfb11bfb51bfaf1bfab1bf9f1bf9d1bf691bf671bf591bf571bf231bf1d1beff1b9781b9701b9661b95c1b9501b94c1b93c1b9341b92a1b91c1b91e))
  (.nd (.lf
  0x2ebcc2ebc02ebb52ebb22eba42eb902eb842eb832eb6c2eb5c2eb302eb2f2eb642eb412eb322eb2c2eb0e2eafa2eaf22eaef2eadc2eacc2eac32eaba2ea782ea762ea652ea622ea902ea872ea662ea602ea382ea302ea2d2ea2a2ea182ea072e9fc2e9f82e9e52e9d22e9ca2e9c82e9be2e99e2e98f2e97a2e9b22e9982e9742e9732e95e2e9402e91b2e9182e9522e93a2e9272e9202e9022e8f62e8eb2e8e4)
  (.lf 0)))

def shaXorReads130 : BTree :=
  .nd (.nd (.nd (.lf
  0x33b0e33b083b1963b17835e5535e5134f4f345bd345033421233a6433a5e3b19e37e7635e0735e0334b1734535344e3341ba33a1633a1037e8235c5f35c5b34abf3450b3447734172339e8339e23c46c379eb379e736b29356f7356ef356ec356ea356e43c3843c34a379ff379fb36ad7357113570b3570835704356fe3c4163c336379cd379c936aa7356c9356bf356bc356ba356b43c3663c31c379b3379af)
  (.lf
  0x3ee5e3edaa3eae23eac840d9d40d9b40d9940d9540d9340d9140d8d40d8b40d8940d8740d8340d8140d7f40d7d40d7940d7740d7540d7340d7140d6d40d6b40d6940d6740d6340d6140d5f40d5b40d5940d5740d5540d5140d4f40d4d40d4b40d4740d4540d4340d4140d3d40d3b40d3940d3740d333f6693f4dd3f4db3f4d93f4d53f4d33f4d13f4cd3f4cb3f4c93f4c73f4c33f4bf3f4bb3f4b93f4b53f4b3))
  (.nd (.lf
  0x3a70d38a56389cd3895c38919389143a7c03a71138a4e389313891b38916389003a7b43a6ed3895a389353891d38918388903a7ac3a725389393891a3890538876388703a7a23a74b3893d3891c3885c387d8387a73a7963a73338941389043886438852387ab3a78e3a6953894538848387d6387af387a63a7823a715389473883c387da387b3387aa3a7783a7193894b38834387d4387b7387ae3a76c3a71d)
  (.lf
  0x32cbf32cbb32cb932cb732cb532c9b32c9932c9732c9532c9132c8332c8132c8532c7f32c7b32c7932c7732c7332c7132c6f32c6d32c6b32c6732c6532c6332c5f32c5d32c5b32c5932c5532c5332c5132c4f32c4b32c2b32c2932c2732c2332c0332c0132bff32bfb32bdb32bd932bd732bd332bb932bb732bb532bb132b9d32b9b32b9932b9532b8132b7f32b7d32b7932b5d32b5b32b5932b5532b3532b33)))
  (.nd (.nd (.lf
  0x1ea621ea661ea6a1ea6e1ea721ea761ea7a1ea7e1ea821ea861ea8a1ea8e1ea921ea960f4fe0f5000f5020f5040f5060f5080f50a0f50c0f50e0f5100f5120f5140f5160f5180f51a0f51c0f51e0f5200f5220f5240f5260f5280f52a0f52c0f52e0f5300f5320f5340f536209962099a2099e209a2209a6209aa209ae209b2209b6209ba209be209c2209c6209ca209ce209d2209d6209da209de209e2209e6)
  (.lf
  0x294bf294bd294b9294b7294b5294b3294af294ad294ab294a9294a5294a3294a12949f2949b294992949729495294912948f2948d2948b294872948529483294812947d2947b294792947729473294712946f2946d294692946729465294632945f2945d2945b294592945529453294512944f2944b294492944729445294412943f2943d2943b294372943529433294312942d2942b29429294272942329421))
  (.nd (.lf
  0x2067720752206752074820673207402067120734205ad2072e205ab20720205a92071a2050f2070c2050d207042050b206fc20509206f22066f206e420653206de2066d206d420659206cc205a7206c220591206b8205a5206ac204f5206a0205072069a2065d2068c2066b206862066320667205c8205c220597205b4205a32059f205242051a2050520514204fd205032176d21872217712184e2176f21844)
  (.lf 0)))

def shaXorReads131 : BTree :=
  .nd (.nd (.nd (.lf
  0x1b50e1b11a1966519661187ad178f01783d17839178281780a1b5041b0d8196531964f1879917997179951799217990179881b4fa1b0a41963f1963b18785178fb178f2177c7177c4177be1b4e61b06c1962d1962918771178ff178f4177b5177aa177921b4e01b0341961b196171875d17903178f6177b7177ac177941b4b01affc19609196051874917907178f8177b9177ae177961b4a61afc4195f7195f3)
  (.lf
  0x9915099130990f0990d098d5098d3098cf098cd09895098930988f0988d09855098530984f0984d0981709815098110980f097d1097cf097cb097c9097890978709783097810974909747097430974109709097070970309701096cb096c9096c5096c309685096830967f0967d0963f0963d0963909637095f9095f7095f3095f1095b3095b1095ad095ab0956b0956909565095630952d0952b0952709525))
  (.nd (.lf
  0x28b3f28b2c28b2928b1628b1328b0028afd28aea28ae728ad428ad128abe28abb28aa828aa528a9228a8f28a7c28a7928a6628a6328a5028a4d28a3a28a3728a2428a2128a0e28a0b289f8289f5289e2289df289cc289c9289b6289b3289a02899d2898a289872898129daf29d9e29d9b29d8829d8529d7229d6f29d5c29d5929d4629d4329d3029d2d29d1a29d1729d0429d0129cee29ceb29cd829cd529cc2)
  (.lf 0))) (.nd (.nd (.lf
  0xad730ad710ad550ad510ad4f0ad170ad130ad110acf50acf10acef0acd30accf0accd0acb10acad0acab0ac710ac6d0ac690ac2f0ac2b0ac270ac0b0ac070ac030ab910ab8d0ab8b0ab6f0ab6b0ab690ab4d0ab490ab470ab2b0ab270ab250ab090ab050ab030aae70aae30aae10ae3b0ae370ae3a0ae1f0ae1b0ae1e0ae030adff0ae020ade70ade30ade60adcb0adc70adca0adaf0adab0adae0ad930ad8f)
  (.lf
  0x101ed101eb101e7101dd101911018f1018b1018310135101331012f10123100d7100d5100d1100c71007910077100731006b1001f1001d100191000d0ffbf0ffbd0ffb90ffab0ff5f0ff5d0ff590ff4f0ff010feff0fefb0feef0fea30fea10fe9d0fe8f0fe410fe3f0fe3b0fe310fde50fde30fddf0fdd30fd850fd830fd7f0fd710fd250fd230fd1f0fd150fcc70fcc50fcc10fcb50fc690fc670fc630fc59))
  (.nd (.lf
  0x3c3d93d5333d5783d5253d56a3d51b3d5603d50d3d5583d4ff3d5483d4f53d5403d4e93d5383d4dd3d4d13d4be3d4b33d4a23d4963d3f53d4903d3eb3d4863d3df3d47c3d3d33d4723d3c53d4683d3b93d45c3d3ad3d4523d3a13d44a3d3953d43e3d3893d42e3d37f3d3fb3d3603d3633d3143d30e3d2dd3d3043d2db3d2fa3d29d3d2f03d2ad3d2e83d2a93d2ab3d2383d2213d1943d1753d13c3d1273e5c9)
  (.lf 0)))

def shaXorReads132 : BTree :=
  .nd (.nd (.nd (.lf
  0x1af404384025e0070900685002ce001ad402584022e0070d00687002c4001ab4024e4021e0071100689002ba001a9401f0401e8007150068b002b0001a7401dc40196007190068d002a6001a5401d4401660071d0068f0029c001a3401cc40168007210069100292001a14017e400ca0072500693002880019f400be4009800729006950027e0019d40088400220072d00697002740019b400824002600731)
  (.lf
  0x33502334d8334fc334dc334ec334e0334e6334e43345c33458334243341e334303488634982347b23497c346dc3496c34718349623472a3495a346f634950348903494a347ba3493c346e434934347203492a34682349d43491e34918347be3490c346e83490634724348f834686348f2346fe348e634748348e0344ca348d6344ce348ca34494348c034498348b63441a348ac344d0348a4343ae3489a34896))
  (.nd (.lf
  0x15cf215cf615cfa16a20168b21697016974169781697c16980168f8168b4168b8168bc16a24168c016984169881698c1699016994168fc168c416a28168c8169981699c169a0169a4169a816900168cc168d0168d4168d61783a1783c17996178fa178fe17902179061790a179441783e17842178461784a1790e1799a17912179161791a1791e1786c179481784c1792017924179281799e1792c1793017870)
  (.lf
  0x399de399783996e399603997c3994e3994039b8f39b8d39b8939b8739b8339b8139b7d39b7739b7339b7939b7139b6d39b6b39b6939b6539b5d39b5b39b6139b5939b5539b5339b5139b4d39b4b39b4739b4539b4139b3d39b3b39b3939b2f39b2b39b2939b3339b2739b2339b2139b1f39b1b39b1939b1739b1539b1139b0d39b0b39b0939b0539b0139aff39afd39af939af739af339af139aed39ae539add)))
  (.nd (.nd (.lf
  0x9bc909b4908f99083bd0837e083550833a0827a0aeda0ae6009bcb09b4b08f9b083c108380083570833c0827c0aed20ae5409bcd09b4d08f9d083c508382083590833e0827e0aec60ae5809bcf09b4f08f9f083c9083840835b08340082800aec00ae5a09bd109b5108fa1083cd083860835d08342082820aeaa0ae8a09bd309b5308fa3083d1083880835f08344082840ae960ae6e09bd509b5508fa5083d5)
  (.lf
  0x31ecb31ec331ebf31ebb31eb931eb531eb331eb131eaf31eab31ea731ea531ea331e9f31e6b31e6931e6731e6331a6d319fd319f9319f5319f1319e7319e3319e1319d7319cf319cd319c9319c7319c3319c1319bd319a9319913198f319893198731985319833197d3197331971319773196f3196b319373193b31935319313190f3191d3190d31909318df318eb318dd318d9318cd318e3318cb318c7318bd))
  (.nd (.lf
  0x22f33230b422f09230aa22ef9230a022eed2309622f432308c22edd2308222ed32307822f512306e22e012306422df12305a22ddb2305022ded2304622deb2303c22daf2303222d592302822d2f2301e22d0d2301422d212300a22c9722cd522c5c22c5f22c10239ef22c0822c1f22bb622bb322ade22acf229f8229eb229c0229b9229882298523caf23dc423ca523da023c9923d9a23c8b23d3223c8123d28)
  (.lf 0)))

def shaXorReads133 : BTree :=
  .nd (.nd (.nd (.lf
  0x273f32738327378273602b14e2af4d296d1283b5273f7273852737a273622b1482af57296bf28385273fb273872737c273642b1362af31296a528387273ff273892737e273662b1302af35296a92835d274032738b27380273682b1242af412966f2830d274072738d273822736a2b1182af4929671282f5273992738f273842736c2b10c2af4729631282fd2739d27391273862736e2b0fc2af43295ff282d7)
  (.lf
  0x176e7176e5176e1176df176dd176db176d7176d5176d3176d1176cd176cb176c917751176c7176c3176c1176bf176bb1769b176991769717693176911768f1768d176891768717685176831767f1767d1767b176791767517673176711766f1766717663176611765f176371763517633176311762d1762b176291762717625176211761f1761d176191761717615176131760f1760d1760b176091760517603))
  (.nd (.lf
  0xda860da82228322263f191de18c9f0f5910f5750f55e0dc7d0dc4b0dc460da640da602281c226431919e18ca30f5930f5770f5600dc810dc480dbf90da420da3e22804226471915e18ca70f5950f5620f5390dc850dc4a0dbfd0da200da1c227ee2264b1911c18cab0f5970f5640f53b0dc890dc010dbf80d9fe0d9fa227d82264f190d618caf0f5990f5660f53d0dc8d0dc050dbfc0d9dc0d9d8227c222653)
  (.lf
  0xe7190e7150e7130e7110e70f0e70b0e7090e7070e7050e7010e6ff0e6fd0e6fb0e6f70e6f50e6f30e6f10e6ed0e6eb0e6e90e6e70e6e30e6e10e6df0e6dd0e6d90e6d70e6d50e6d30e6cf0e6cd0e6cb0e6c90e6c50e6c30e6c10e6bf0e6bb0e6b90e6b70e6b50e6b10e6af0e6ad0e6ab0e6a70e6a50e6a30e6a10e69d0e69b0e6990e6970e6930e6910e68f0e68d0e6890e6870e6850e6830e67f0e67d0e67b)))
  (.nd (.nd (.lf
  0x1e0641e05a1e0501e0461fe421fe2c1fe0a1fdea1fdbc1fdaa1fd761fd501fd3e1fd1e1fcfc1fcca1fcb81fc961fc721fc421fc241fc101fbe61fbde1fbce1fb9c1fb661fb341fafe1faca1fa981f9be1f9b61f9541fe1e1fdc61fd9a1fd7c1fd5c1fd141fcee1fcae1fc861fc621ff301fb6c1fb041f9941fe4f1fe491fe4e1fe261fe051fdff1fe041fde51fddf1fde41fdce1fda21fd841fd601fd391fd33)
  (.lf
  0x161c5161c3161bf161bd161a9161a7161a3161a11618d1618b16187161851616d1616b16167161651614b1614916145161431612d1612b16127161251610d1610b1610716105160eb160e9160e5160e3160cd160cb160c7160c5160b512f9612f8212f6e12f5212f4812f3e12f3412f2a12f2012f1612f0c12f0212ef812eee12ee412edc12df812dee12de612d9612d8012d6a12d6012d5612d4e12d1812cdc))
  (.nd (.lf
  0xb12c0afdc0af2c0ae910b0920afda0af200ac8b0b0880afd80af1a0ac6b0b07e0afd60af0e0ac490b0740afd40af060ac290b06a0afd20aefa0ac050b0600afd00aeee0abe30b0560afce0aee40ae630b04c0afcc0aedc0ae610b0420afca0aed00ae550b0380afc80aec80ae590b02e0afc60aebe0ae5b0b0240afc40aea80ae8b0b01a0afc20ae940ae6f0b0100afc00ae800ae5f0b0060afbe0ae740ae5d)
  (.lf 0)))

def shaXorReads134 : BTree :=
  .nd (.nd (.nd (.lf
  0x3471c344c7344c3344be384263818b366ff35a2d3467c3448f3448b344683841e38185366b335917346fa344913448d3448838410380ef36717359073467e34417344153440238400380d53664d358f7344c0343e5343e3343e0383f8380bb3660b358e13488f344c2343ab343a8383e6380a5365df358cf347b93448a3437f34368383da38113365cd3589b346e33448c342e9342e6383d038111365793588d)
  (.lf
  0x346ad346d5346ab346a73464b347113464934645346393463734633346093459f346f13459d3459934585345e5345833457f344ad344ab344a7344a5344a3344b9344a13449d34463344613445d3445b34459344833445734453343fd343fb343f7343f5343c7343db343c5343c134393343a7343913438d34363343613435d3435b342df342e5342dd342d9342c1342c5342bf342bb3423b3424f3423934235))
  (.nd (.lf
  0x298a9298a428d1c28c4a38c2438bdf38543384b3384982e64d2e620298ab298a628d1428c4e38c1a38be338547384b53849c2e6172e5de298ad298a828d0828c4c38c0838be73854b384b7384a02e5d52e5a4298af298aa28cfe28c4438bfe38beb384b9384a22e59b2e566298b1298ac28c5e28c3638bf838bef384bb384a42e55d2e528298b3298ae28c3828c3438c2d384bd384a62e527298b5298b028c3a)
  (.lf
  0x28beb28be728be528bd728bd528bd128bcf28bc128bbf28bbb28bb928bab28ba928ba528ba328b9528b9328b8f28b8d28b7f28b7d28b7928b7728b6928b6728b6328b6128b5328b5128b4d28b4b28b3d28b3b28b3728b3528b2728b2528b2128b1f28b1128b0f28b0b28b0928afb28af928af528af328ae528ae328adf28add28acf28acd28ac928ac728ab928ab728ab328ab128aa328aa128a9d28a9b28a8d)))
  (.nd (.nd (.lf
  0x164881675c16754167461673e167341672a16720167181671016704166fc166f2166e8166de166d4166a61669c16692166881667e166741664e166261661c166141660a16600165f6165ee16530178b4178aa178a0178961788c1787a1785c177fc177f2177e8177de177d4177cc17790177861777c1777217768177601758a17540175381752e175241751a175121750816e5216e1216dd2177121770817700)
  (.lf
  0x202122020820200201f6201ec200f6200ea200e22004e200d81fee41feda1fed01fec61feba1feb21fea81fe9c1fe921fe88202812027f2027b202792027720275202712026f2026d2026b202672026520263202612025d2025b202592025720253202512024f2024d202492024720245202432023f2023d2023b202392023520233202312022f2022b202292022720225202212021f2021d2021b2021720215))
  (.nd (.lf
  0x1d8081dacc1d7b01dac01d8061dab61d7ae1daac1d7521daa21d7501da981d74e1da901d74c1da821d74a1da7c1d7481d87c1d7461d8761d5bc1d86c1d5ba1d8601d8041d8561d7bc1d84e1d7441d8441d7421d83a1d7401d8321d73e1d8241d73c1d81e1d73a1d8101d7381d80a1d8001d7cc1d7ca1d7921d7361d7841d7341d77e1d7321d7701d7301d76a1d72e1d75c1d7021d7561d7001d58a1f6bc205e6)
  (.lf 0)))

def shaXorReads135 : BTree :=
  .nd (.nd (.nd (.lf
  0x1b4611a71919a6d199eb199e0199c41cc571cc3e1b4631a69d19a71199ed199e2199c61cc351cc1c1b40b1a69f19a75199ef199e4199c81cc131cbf21b3f11a6a119a79199f1199e6199ca1cbf51cbdc1b3c91a6a319a7d199f3199e8199cc1cbdf1b3cb1a6a519a81199f5199ea199ce1eee31c8291b5d11aa671a9d91a9ce1a8461f0441eea31c80b1b5bb1aa6b1a9db1a9d01a8481f03c1eee51c7d71b5bd)
  (.lf
  0x3d68d3d68b3d6893d6873d6833d6813d67f3d67d3d6793d5fb3d5db3d60d3d5c93d5bd3d5993d59f3d5953d58d3d4253d4233d4213d41d3d41b3d4a73d4193d4153d4133d4113d40d3d40b3d4093d4ab3d4073d4013d21b3d2193d2153d18d3d1394147641274412684125e40ef240ee840e7240e6240e5840e5040e4840e4c40ed640e2040df440e7a40ddc40dc240da64042a4041a4041040404403f840434))
  (.nd (.lf
  0x10152100f6100f21009a100961003e1003a0ffe00ffdc0ff7e0ff7a0ff220ff1e0fec20febe0fe620fe5e0fe040fe000fda60fda20fd440fd400fce80fce40fc880fc840fc2c0fc280fbd00fbcc0fb720fb6e0fb100fb0c0fab00faac0fa520fa4e0f9f80f9f40f99c0f9980f93a0f9360f8ea17470174601743e1742c17406173f4173ca173b81738c1737a17352173401731a17308172e2172d0172ac1729a)
  (.lf 0))) (.nd (.nd (.lf
  0x2fd242fd1c2fd122fd082fcfe2fcf42fcea2fcde2fcd62fccc2fcc22fcb82fcae2fca42fc9a2fc902fc862fc7c2fc722fc682fc5e2fc542fc4a2fc402fc362fc2c2fc222fc182fc103184031834318223181a3181231806317e4317d83179a3179031786317763176e317643175a3174e31742317363172a3171e3171431708316f8316f0316e4316da316cc316c2316b6315f631b0831afc31af031ae831adc)
  (.lf
  0x8c9608c5608c1208bcc08b8a08b4a08b0a08ac608a8008a3e089fe089be0897e0893a088f8088b40886e0882c087e8087a20875c08716086da08e9b08e9908e9508e9308e6308e6108e5d08e5b08e1f08e1d08e1908e1708ddd08ddb08dd708dd508d9d08d9b08d9708d9508d5908d5708d5308d5108d1708d1508d1108d0f08cd708cd508cd108ccf08c9708c9508c9108c8f08c5708c5508c5108c4f08c13))
  (.nd (.lf
  0x3b02837f6e3b1683b02037e703bd5a3beae3bd603bea63bd443be9c3bd383be903bd2c3be863bd203be7a3bd143be703bda83be623bcfe3be5c3bcf23be503bce63be4a3bcda3be403bdb03be343bcc43be283bcb83be1c3bd623be103bca23be023bc963bdfa3bc8a3bdec3bc7e3bde43bc723bdd23bc663bdca3bc5a3bdc43bc4e3bdba3bc423bdb23bc083bb483bb383ba923ba8e3b9ea3b9ca3b9263b91e)
  (.lf 0)))

def shaXorReads136 : BTree :=
  .nd (.nd (.nd (.lf
  0x40960e8ae0e7d10e5f10e5a00e57304098040580e8a40e7d50e5f50e5a20e5770404e040120e89a0e7d90e5f90e5a40e57b0400803fca0e8900e7dd0e5fd0e5a60e57d03fcc03f8a0e8860e7e10e6010e5a80e57f03f8c03f4a0e87c0e7e50e6050e5aa0e58103f4c03f0a0e8720e7e90e6090e5ac0e58303f0c03ecc0e8680e7ed0e60d0e5ae0e58503ec203e840e85e0e7f10e6110e5b00e58703e8603e44)
  (.lf
  0x13508134c5134fe134c9134f4134cd134ea134d1134e0134d5134db145951499e14599149801459d14962145a114946145a514926145a914908145ad148e8145b1148ca145b5148ae145b91488e145bd1486c145c11484a145c51482c145c91480c145cd147ee145d1147d2145d5147b2145d914794145dd14778145e11475c145e514740145e914720145ed14702145f1146e6145f5146c6145f9146a8145fd))
  (.nd (.lf
  0x1867c1867e18680199581995a1995c1995e19960199621996419966199d4199681996a1996c1996e19970199dc199721997419976199781997a1997c1997e19980199821998419986199881998a1998c1998e19990199921a83a1a83c1a83e1a8401a8421a8441a8561a7de1a7e01a7e21a7e41a7e61a7e81a7741a7761a7781a77a1a77c1a77e1a72a1a6fa1a6fc1a6fe1a7001a7021a7041a7161a6921a694)
  (.lf
  0x3aec53ae3d3ae393ae373ae353ae313ae2f3ae2d3ae2b3ae273ae253ae233ae213ae1d3ae1b3ae193ae173ae133ae113ae0f3ae0d3ae093ae073ae053ae033adff3adfd3adfb3adf93adf53adf33adf13adef3adeb3ade93ade73ade53ade13addf3addd3addb3add53add33add13add73adcf3adcb3ac8f3ac8d3ac893ac873ac853ac833ac813ac7b3ac5f00b0400ae600ac800aac00a9000a7400a5400a36)))
  (.nd (.nd (.lf
  0x2f9b02f6502f5a02f0e0264e0264b047c703b9702f9f02f5c02f2702f100260f02606047c903b9902fa302f5e02f2902f12025c8025c5047cb03b9b02fa702f6002f2b02f14025820257f047cd03b9d02fab02f6202f2d02f160253c02539047cf03b9f02faf02f6402f2f02f18024f6024f3047d103ba102fb302f3102f2602f1a024b7024ae047d303ba302fb702f3302f2802f1c024770246e047d503ba5)
  (.lf
  0x3532f3532d3532b3532735323353213531f3531b353193531735315353113530f3530d3530b35307353053530335301352fd352f9352f7352f5352f1352ef352eb352e9352e5352e3352df352dd352d9352d7352d5352d3352cf352cd352c9352c7352c3352c1352bf352cb352bd352b9352b7352b5352b1352af352ad352ab352a7352a5352a3352a13529d352993529735295352913528d3528b3528935285))
  (.nd (.lf
  0xde240df820de280df780de2c0df6e0de300df640de340df5a0de380df500de3c0df460de400df3c0de440df320de480df280de4c0df1e0de500df140de540df0a0de580df000de5c0def60de600deec0de640dee20de680ded80de6c0dece0de700dec40de740deba0de780deb00de7c0dea60de800de9c0de840de920de880de8e0dfc00e30a0dfc40e2f60dfc80e2e00e0060e2ca0e00a0e2b40e00e0e29e)
  (.lf 0)))

def shaXorReads137 : BTree :=
  .nd (.nd (.nd (.lf
  0x1f9ef1f9eb1f6791d6eb1d6c51d4201d0ea1d0e421624215de1f9c51f9c11f2151d6ed1d6c71d4221d0d81d0d22161a215c81f9611f9591f1cf1d6ef1d56f1d41c1d0be1d0b8215fe1f9631f95b1f1d11d6f11d5711d29c1d0b21d0ac22f3e21731217252062f1f7111f6951f67e1f6401f59222fe222f262173321727206311f7151f6971f6801f6421f59422fc222f2a2173521729206331f7191f6991f682)
  (.lf
  0x1f4ab1f3971f3931f3911f3871f3851f3811f37f1f37b1f3791f3751f3731f36f1f36d1f3691f3671f3651f4a91f3631f35f1f2091f20d1f2071f2011f1c11f1bf1f1bb1f1b91f1b51f4a21f4981f48e1f4841f47a1f4701f4a41f45e1f4541f44a1f43e1f4401f42e1f4281f4181f40c1f4021f3f81f3ee1f40e1f3de1f3d01f3c61f3bc1f3b21f3ac1f3d41f38e1f37c1f1f81f1a41f4a31f4a11f49d1f49b))
  (.nd (.lf
  0x18c7918c7416d98288c52775f277432772c1dcb319c2519c0b19c06184e228c10288c927763277452772e1dffc1dcb719c2919c0d19c08184c6184b228bfc288cd2776727747277301dfe81dcbb19c2d19c0f19c0a184921847828be62890b2776b27749277321dfd21dcbf19c3119c1119c0c184581844028bd02890f2776f2774b277341dfbc1dcc319c3519c1319c0e184201840628bba28913277732774d)
  (.lf
  0x19e3d19e3919e0b19dfd19dfb19df719dc719db919db719db319d8519d7719d7519d7119d3f19d3119d2f19d2b19cf319ce519ce319cdf19ca119c9b1b36a1b3361b2fc1b2c61b28e1b2541b2181b1e01b1a61b1681b12a1b0f01b0b81b0801b0481b0101afd81afa01af681af321aef81aec01ae861ae4a1ae0c1add01ad8e1ad481ad061acc61ac7e1b36b1b3691b3651b3631b3371b3351b3311b32f1b2fd)))
  (.nd (.nd (.lf
  0x28ff92900028fdf28fdb28fde28fd028faa28f8928f8528f8828f8328f7928f8228f7628f6c28f5b28f5328f5a28f5128f0128f5028edc28eb328eaf28eb228e9328e8d28e9228d3828cd728cd328cd628cbe288be288b4288aa288a0288962888c28882288782886e288642885a28850288442883a28830288262881e2881428806287fa287f0287e6287de287bc287622873028702286fa286f22868e29878)
  (.lf
  0x192e9192c7192c5192c1192ad1928719285192811926d1924719245192411922d192071920519201191ed191c7191c5191c1191ad1918719185191811916d1914919147191431912b1910519103190ff190e5190bf190bd190b9190a31907d1907b19077190631903d1903b190371901f18ff918ff718ff318fdd18fb718fb518fb118f9d18f7718f7518f7118f5918f3318f3118f2d18f1318eed18eeb18ee7))
  (.nd (.lf
  0x1bf4e1bf421bf2c1bf291bee41bedf1d7e41d7e11d7c11d7b41d7b21d79c1d6a61d62e1d5ee1d5eb1d69c1d6241d5df1d5dc1d6921d61a1d5ec1d5d31d6881d6101d5d81d5d71d64e1d6061d56c1d56b1d6441d5fc1d5611d55e1d6ae1d63a1d5f41d5f31d50c1d4c71d4be1d4ba1d54c1d5021d4a61d4a51d4f81d49a1d4991d4901d5401d4ee1d4891d4801d4e41d4721d4711d4681d5341d4da1d4521d447)
  (.lf 0)))

def shaXorReads138 : BTree :=
  .nd (.nd (.nd (.lf
  0x3e9743e9413e92d3e92b400293f77f3ebcc3e9b43e9153e90f3e90d3e90a4000b3f4713ebc43e99a3e9513e8fc3e8f53e8f3400473f4533ebbe3eb2b3e9863e9633e9053e8e43ffeb3f4853ebb23eb113e94b3e9323e8fe3e8d73ffd33f4073ebaa3eaf93e92a3e8cf3e8bb3e8b8400673f3dd3eb9e3eb4b3e90c3e8c73e8bc3e8ad4004f3f3cf3eb903ea353e96e3e9573e9533e9503fccb3f3ed3eb883eb2d)
  (.lf
  0x3d8993d8973d88b3d8833d8813d88f3d87f3d87b3d8793d8773d8733d81b3d8173d8053d8013d7fd3d7f33d7f13d7ed3d7e93d7e13d7df3d7db3d7b73d7a53d7a73d7a33d79f3d78d3d78b3d7813d77d3d76d3d76b3d7673d7633d7553d7533d7513d74b3d2293d25f3d2133d20f3d1353df843df663df423df1c3df043deb03de7a3de5a3de643de163de0c3de323dfc43ddea3ddd63ddc23ddae3dd9a3dfe6))
  (.nd (.lf
  0x350312fa872fa4e2f9ff2f6be2f5fe3ad1a3abfd3a8ad3a85e3a82f3503c34e172fa8b2fa502fa032f7462f6b63ad0a3ac013a8b13a8603a8333503534f282fa8f2fa072f9fe2f6ae2f6903ad043ac053a8b53a8623a83734f1e34e1b2fa932fa0b2fa022f6a02f6963acfa3ac093a8b93a8643a83b34f1634e9d2fa972fa0f2fa062f5c62f5be3acea3ac0d3a8bd3a8663a83d34f0e34ea12fa9b2fa132fa0a)
  (.lf
  0x2d2972d2932d2912d28d2d43d2d28b2d2872d2852d2832d2732d26f2d26d2d26b2d2672d2572d2552d2532d24f2d2472d23d2d23b2d2292d2272d2252d2232d21f2d1ff2d1fd2d2032d1fb2d1f72d1f52d1f32d1ef2d15d2d1592d1712d1572d1532d1512cede2ced22ced42cec02ceb62ceae2cea22ce9a2cf0e2ce8a2cf0a2ce7a2cf062ce622cf022ce502cefe2ce3e2cefa2ce2c2cef62ce1a2cef22ce08)))
  (.nd (.nd (.lf
  0x3d0ee3d0d43d0a03d08e3d0863d06c3d0523d03e3d02c3cdea3cdd63cdc43c8303c6d83c6c43c60e3c5de3c5ae3c5883c56c3c4fe3c4a63c4123db763db583db3c3dafa3dae03dac43da203d9cc3d9b23d9aa3d99c3d9803d9523d9143d8fa3d8bc3d8ae3d8a63d89e3d8963d87e3d8763d8003d7f03d7de3d7a23d78a3d76a3d7523d2123df823df603df3c3df183df003deae3de783de543de4c3de123de08)
  (.lf
  0x26fed26feb26faf26f7d26ecb26f3d26ec926ec526ec326f0326ec126ebd26ebb26eb926eb726eb126e1f26e4326e1d26e1726da326da126d9d26d9b26d9926d9726d9126d8d26d8b26d8726d8326d8126d7526d7326d6f26d6d26ce526ce326cdf26cdd26cdb26cd926cd526cd326ccf26ce726ccd26cc926cc726cc526c4326c3f26c3d26c8b26c3b26c2926bfb26bf926bf526bef26beb26c4926be926be5))
  (.nd (.lf
  0x1033011ca01037011c00103b011b60103f011ac01043011a201047011980104b0118e0104f01184010530117a01057011700105b011660105f0115c010630115201067011480106b0113e0106f01134010730112a01077011200107b011160107f0110c010830110201087010f80108b010ee0108f010e401093010da01097010d00109b010c60109f010bc010a3010b2010a7010ad0148f01634014930162a)
  (.lf 0)))

def shaXorReads139 : BTree :=
  .nd (.nd (.nd (.lf
  0x11100110fa14b3814a7812ec312eab1222111385113361130d110ee110e814b2e14a7612ec512ead12223113891130f112f8110dc110d614a7412ec712eaf122251138d11311112fa110aa110a4159d0140b314033131fd125fd125cb125c0125b61259415fb6159ae140b514035131ff12601125cd125c2125b81259615fb015978140b7140371320112605125cf125c4125ba1259815fa41593e140b914039)
  (.lf
  0x3d2f03d2d03d2903d2703ce703ce503ce103cdf03ca903ca703ca303ca103c7f044620443a043e8043a20435c0432c042ec042960426604210041e00418a0415a04104040be0408e0403803ff203fc203f8203f4203f0203eac03e7c03e3c03de603db603d6003d1a03cea03c94044630443b0442d04429043f1043ef043eb043e9043ab043a9043a5043a304365043630435f0435d0431d0432d0431b04317))
  (.nd (.lf
  0x386a0388983869038892386883888838686388723866a387a43866e3879a386563878e3864a387823863c3877a3862e3877038640387683864c3875a3860a3874e385fc387423860e3873c385ea38732385e43871c385b03870c385a03858e385803858838582385b2385583855a3901c39054390103904238ffa39038390203900238fe638fd438fc83903038fb638f8838e4e38f4438e4238f3e38e3438ef2)
  (.lf 0))) (.nd (.nd (.lf
  0x33c2033890336103388033540331a032e0032a70327f032a60327203239032110323803205031dd03204031d00319602e6202e5802e4e02e4402e3a02e3002e2602e1c02e1202e0802dfe02df402dea02de002dd602dcc02dc202db802dae02da402d9a02d9002d8602d7c02d7202d6802d5e02d5402d4a02d40044560441e043da043940434e0430c042cc042880424604202041c00417c0413a040f6040b0)
  (.lf
  0x7bf207bb207b7207b3207af207ab20824f082290822508221081eb081ef081e9081e5081ad081ab081a7081a50816508169081630815f0812508129081230811f080e7080e5080e1080df0809f080a30809d08099080610805f0805b08059080190801d080170801307fd907fdd07fd707fd307f9907f9d07f9707f9307f5907f5d07f5707f5307f1907f1d07f1707f1307edb07ed907ed507ed307e9507e93))
  (.nd (.lf
  0x16dba16db516d9d184e7184c0184b71848a1847d1845018445184181840b183de183d3183a41839b183641835b183241831b182e4182db182a41829718260182511821a1820f181d8181cf181981818f181581814b1811418105180ce180bf180881807d180461803d1800617ffd17fc617fb917f8217f7317f3c17f3117efa17ef117eba17ead17e7617e6717e3017e2517dee17de117dae17d9f17d6817d5d)
  (.lf 0)))

def shaXorReads140 : BTree :=
  .nd (.nd (.nd (.lf
  0x4101240fe23f6753f65b3e6273dc9b3dba13db7c3d9a03d9844100240fe63f39d3f3973e6133db833db6a3d9a23d9923d99140ff040f443f37d3f3793e5eb3db653db403d9743d9563d94d40f3640f2a3f36d3f3693e5df3db4f3db003d9763d9233d91c40f0e40e143f3f73f3553e7a73dbc43db073d9783d9023d90140e0e40dee3f34b3f3413e57d3db323db173d8dc3d8c63d8c540e0440de43f3853f335)
  (.lf
  0x117ae11750117a4117541179a11758117901175c11786117601177c1176411772117681176e1281612c0a1281a12bf01281e12bd01282212bb21282612b961282a12b761282e12b581283212b3c1283612b201283a12b041283e12ae81284212acc1284612aac1284a12a8a1284e12a6c1285212a501285612a301285a12a121285e129f212862129d412866129b81286a1299c1286e12980128721296012876))
  (.nd (.lf
  0x14b0a14b0c14b0e15bf015bf215bf415bf615bf815bfa15bfc15bfe15c0015c0215c0415c0615c0815c0a15c0c15c0e15c1015c1215c1415c1615abc15abe15ac015ac215ad215a4215a2015a2215a2415a26159e4159e61694016942169461694816958168f01688a1688c1688e1689016892168421682c16806168081680a1680c167ce165d2165a6165a8165aa165ac165ae165b016552165041650616508)
  (.lf
  0x37027370233701f3701d3701b3701737015370113700f3700b36f1336f0136eff36ef736ef536ee136ee536edf36edb36ecb36ec736ec336ebf36ead36eb136eab36ea736e9b36e9936e9336e8f36e7936e7d36e7736e7336e5f36e6336e5d36e5936e3b36e3536e3136e2d36e0b36e0936df736df536def36520365163650c36502364f8364ee364e4364dc364d2364c6364be364b2364b43649e364963648a)))
  (.nd (.nd (.lf
  0x516d050ed0453b039b1039250390e038ca0380a067a4067560516f050ef0453d039b50392703910038cc0380c067640671605171050f10453f039b90392903912038ce0380e06724066d805173050f3045410393d0392b03914038d003810066ce0669205175050f504543039410392d03916038d203812066880664c05177050f704545039450392f03918038d403814066420660405179050f90454703949)
  (.lf
  0x2dcfb2dcf72dcf52dcf32dcf12dced2dceb2dce92dce72dce32dce12dcdf2dd032dcdd2dcd92dcd72dcd52dcd32dccf2dccd2dccb2dcc72dcc52dcc32dcc12dcbd2dcbb2dcb92dcb72dcb52dcb12dcaf2dcad2dca92dca72dca52dca32dc9f2dc9d2dc9b2dc992dc952dc932dc912dc8f2dc8d2dc892dc872dc852dc812dc7d2dc7b2dc792dc752dc732dc6d2dc6b2dc672dc652dc632dc712dc612dc5d2dc5b))
  (.nd (.lf
  0x2a7602a6d02a3802a2f029f0029e7029b2029a90296c02963029260291d028de028d50289e028950285e028550281e02815027de027d50279e0279502760027570271a02711026d4026cb0268e02685026480263f02600025f7025c2025b90257c02573025360252d024f0024e7024a80249f024680245f0242a02421023e4023db0239e023950237402373037f5037c90379a037910375e037550372c03723)
  (.lf 0)))

def shaXorReads141 : BTree :=
  .nd (.nd (.nd (.lf
  0x1e4b91d9211d8951d88a1d18c229532185b200a51f8f11f8631f8581f7d022b7e229492186d200a71f8f51f8651f85a1f7d222b72229432185f200a91f8f91f8671f85c1f7d422b682294521683200ab1f8fd1f8691f85e1f7d622b622294721539200ad1f9011f86b1f8601f7d822b52228cd214f7200af1f9051f86d1f8621f7da22b48228b5214ed200b11f9091f86f1f8641f7dc22b402289d214e3200b3)
  (.lf
  0x10f631105510f6110f5d10f5b10f5910f5510f5310f4510f4310f3f10f3d10f2f10f2d10f2910f2710f1910f1710f1310f1110ecf125921258c1257e125741256a125401245c124641244a1243e124341242a12422124181241212404123f8123ee123e01239c123921238e1237e123741236a1235a11ad611a8e11a3e119f0119a212593125911258d1258b125891258712583125811257f1257d1257912577))
  (.nd (.lf
  0x3f34040efb40e89407553f6803f5d93f49e3f3343f3323f3313f32f40ec140ebd407413f6933f5423f4943f3213f31e3f31d3f31640ca140c9d4072b3f55b3f52a3f48e3f2f73f2ef3f2ec3f2ea40c1340c0f4071f3f5253f5183f4283f39f3f2e03f2dd3f2da40c1b40bfd407033f6433f5513f5043f41c3f1ad3f1a83f1a640c1f40c17406f33f6603f61f3f5013f4143f1853f1823f17a40bd540bc5406d3)
  (.lf
  0x11aa111a9d11a6711a5911a5711a5311a1b11a0d11a0b11a07119c7119b9119b7119b3119751196f0d5420d5380d52e0d5240d51a0d5100d5060d4fc0d4f20d4e80d4de0d4d40d4ca0d4c00d4b60d4ac0d4a20d4980d48e0d4840d47a0d4700d4660d45c0d4520d4480d43e0d4340d42a0d4200d4160d5430d5410d53d0d53b0d5390d5370d5330d5310d52f0d52d0d5290d5270d5250d5230d51f0d51d0d51b)))
  (.nd (.nd (.lf
  0x157cd157d0157981575a1571d157191571c156e5156e1156e4156ad156a9156ac1567515671156741563c155ff155fb155fe155c615589155851558815550155151551115514154df154db154de154a81546c15430153f5153f1153f4153be1538014f7814f6e14f6414f5a14f5014f4614f3c14f3214f2814f1e14f1414f0a14f0014ef614eec14ee214ed814ece14ec414eba14eb014ea614e7814e4a14e1e)
  (.lf
  0x126991269512693126911268f1268b126891268712685126811267f1267d1267b126771267512673126711266d1266b126691266712663126611265f1265d126591265712655126531264f1264d1264b126491264512643126411263f1263b126391263712635126311262f1262d1262b126271262512623126211261d1261b1261912617126131261112563125611255d1255b1253d1253b125371253512533))
  (.nd (.lf
  0x33a56339fc33a21339fd356a43569a356923563c3551c355123550835500354f0354ea354b63548e354863545035432353f6353ee353e8353843537e353783536a3534e3524835238350aa34fca34fa434f7c34f2e34b4434f2d34b4534b0b36b10369ca369a83695436930368ce367b83679c36776366ea366a8366a236650365f23657c3656e36554363e0363d8363ca363c03636a3608a35fb835fa435f52)
  (.lf 0)))

def shaXorReads142 : BTree :=
  .nd (.nd (.nd (.lf
  0x2ca1f2b8472b8272b5ce2b3602b34e2f8042f7e22d3db2d3cf2ca292b82b2b77f2b51c2b3622b3502f7dc2f7c02d4392d4352ca0d2b84f2b7412b4e62b3642b3522f7b62f7982d39b2d3972c9f12b7872b6ed2b4e82b2902b28a2f7922f77c2d3052d3012c1cb2b7492b6a52b4f62b27c2b2762f7842f3b82d1cf2d1c72c1952b6f52b6252b4b22aff62aff02f3b22f3102d1d12d1c92c1592b6ad2b6092b4b0)
  (.lf
  0x2c69b2c6a72c6992c6952c6932c6912c68d2c6852c6832c6812c67d2c6752c6732c6712c66d2c6612c65f2c65d2c6592c64b2c6492c6472c6432c6412c63f2c63d2c6392c6292c6272c6312c6252c6212c61f2c61d2c15b2c1492c0e12df9e2df702ded22deb62de982de602df1e2def82de322ddf82ddee2de0a2ddd42ddc62ddae2dd982dd802dd702dd522dd3e2dd602dd242dd102d3c82d3bc2d3b22d432))
  (.nd (.lf
  0x1e9c11e9a71e9a234c8e34a45338a73387d3386629a142989b2023a200421e9c31e9a91e9a434c8234a49338ab3387f3386829a0a2989f202322001a1e9c51e9ab1e9a634c7634a4d338af338813386a29a00298a320228200ce1e9c71e9ad1e9a834c6c34a51338b3338833386c299f6298d32021e1ffae1e9c91e9af1e9aa34c5c34a55338b7338853386e299ec298d7202141ffa21e9cb1e9b11e9ac34c54)
  (.lf
  0x1e7811e77d1e77b1e76d1e76b1e7671e7651e7571e7551e7511e74f1e7411e73f1e73b1e7391e72b1e7291e7251e7231e7151e7131e70f1e70d1e6ff1e6fd1e6f91e6f71e6e91e6e71e6e31e6e11e6db239ec239e2239d8239ce239c4239ba239b0239a62399c23992239882397e239742396a23960239562394c23942239382392e239242391a2391023906238fc238f2238e8238de238d4238ca238c0239ed)))
  (.nd (.nd (.lf
  0x3ecfc3ecf43ece83ece03ecd63eccc3ecc23ecb63ecae3eca43ec9a3ec903ec863ec7c3ec723ec683ec603e7d23e7c03e7b63e69a3e67c3fe063fdfa3fdea3fde23fdd63fdca3fdbe3fdae3fd9a3fd6a3fd603fd4e3fd3a3fd263fd103fcf83fce43fc983fc903fc503fbd63fb103fb043fafc3fae83f9c43f92e3f8dc3f8803f85a3dd863dd7c3dd723dd683dd5c3dd543dd4a3dd403dd343dd2c3dd223dd18)
  (.lf
  0x2028920287202831ff2d1ff291ff271ff231ff211ff1d203eb1ff1b1ff171ff151ff131ff0f1ff0d1ff091ff071ff031feff1fefd1fefb1f84b1f8471f8451f8431f83f1f83b1f8391f8371f8331f8311f82f1f83d1f82d1f8291f8271f8251f8211f81f1f81d1f81b1f8171f8151f8131f8111f80d1f75b1f7591f7571f7531f7511f74f1f74d1f7491f7471f7451f7431f73f1f73b1f737203da203de203ca))
  (.nd (.lf
  0x40a1e401b741d0241b8741e8e41d0841b7241b6741e8841d0641b6c41b6941e4441ce641b5241af941e3841cda41b4041af141e1041cc841b2e41ae741e0041cce41b2641adf41dfa41cb841b1c41ad141df041ca041b1041ac941dda41ca441b0441a9b41dbc41caa41afe41a7b41db241d5e41ab241a6d41d5641c7c41ab541aa641d5041c7041a8c41a5f41d3841c7e41a8941a7c41d3041c5641a3d41a3a)
  (.lf 0)))

def shaXorReads143 : BTree :=
  .nd (.nd (.nd (.lf
  0x143d11340b1285912810127db127c41542115406143c11340d1285d12812127dd127c6153e9153ce143b11340f12861127df127d4127c8153af15392143a11341112865127e1127d6127ca1537115354143911341312869127e3127d8127cc1533d153121437f134151286d127e5127da127ce152fd152e81436f1341712871127e7127dc127d0152e11433b1341912875127e9127de127d214fbd14533134bf)
  (.lf
  0x3e1193e1173e1133e1113e10f3e10d3e1093e1073e1053e1033e0ff3e0f73e0f53e0f33e0ef3e0e53e0e33e0e13e04f3e01b3ded13decf3decb3dec53de933bbde3bb283ba7c3b9a63b90c3b8c63b7e23b76a3b73e3b6d03b69a3b6423b6083b5ba3b57e3b51c3b4ec3b4be3b47a3b41e3b3e83b3cc3b38e3b3843b3183b32c3b3023b2523b1f63b1b43b1aa3bbdf3bb2f3bb2b3bb293ba853ba833ba7f3ba7d))
  (.nd (.lf
  0x1edbc1edb21ed9a1ed901ed781ed6e1ed561ed4c1ed341ed2a1ed121ed081ecf01ece61ecce1ecc41ecac1eca21ec881ec7e1ec641ec5a1ec401ec361ec1c1ec121ebf81ebee1ebd41ebca1ebb01eba61eb8c1eb821eb681eb5e1eb461eb3c1eb221eb181eafe1eaf41eadc1ead21eaba1eab01eaa41eaa224e842505424e882504a24e8c2504024e902503624e942502c24e982502224e9c2501824ea02500e)
  (.lf 0))) (.nd (.nd (.lf
  0x18ec218e7c18e3618df418db418d7818d3e0ed120ed080ecfe0ecf40ecea0ece00ecd60eccc0ecc20ecb80ecae0eca40ec9a0ec900ec860ec7c0ec720ec680ec5e0ec540ec4a0ec400ec360ec2c0ec220ec180ec0e0ec040ebfa0ebf01945819426193ec193b019378193421930c192d4192981925819218191d8191981915819116190d01908e1904e1900a18fc818f8818f4418efe18eb818e7218e2c18dea)
  (.lf
  0x532c05322053180530e05304052fa052f0052e6052dc052d2052c8052be052b4052aa052a0053cd053cb053c7053c5053c3053c1053bd053bb053b9053b7053b3053b1053af053ad053a9053a7053a5053a30539f0539d0539b053990539505393053910538f0538b053890538705385053810537f0537d0537b053770537505373053710536d0536b053690536705363053610535f0535d053590535705355))
  (.nd (.lf
  0x153741534c153401530a15300152e6152e41645e1644e164401642e1641e1640c163fc163ea163de163cc163be163ac1639c1638a1637e1636c1635e1634c1633c1632a1631a16308162f8162e6162d6162c4162b8162a61629c1628a1627c1626a1625a162481623c1622a162201620e16204161f2161e4161d2161c6161b4161aa161981618e1617c1616e1615c1614c1613a1612e1611c1610e160fc160ec)
  (.lf 0)))

def shaXorReads144 : BTree :=
  .nd (.nd (.nd (.lf
  0xed510ed3a0d4f60d38b07404073c20f0920ef610ed810ed530ed3c0d4ec0d38f073c4073820f0880ef650ed850ed550ed3e0d4e20d3bf07384073420f07e0ef690ed890ed570ed400d4d80d3c307344073020f0740ef6d0ed8d0ed590ed420d4ce0d3c707304072c40f06a0ef710ed910ed5b0ed440d4c40d3cb072ba0727e0f0600ef750ed950ed460ed170d4ba0d3cf07274072380f0560ef790ed990ed48)
  (.lf
  0x241de240c124209241d4241cc240c5241c2240c9241b8240cd241ae240d1241a4241192419a240d52418e240d924184240dd2417e240e124172240e524168240e92415a240ed24154240f12414c240f524142240f924138240fd2412e241012412224105241272524f253f025253253ea25257253e02525b253d42525f253ca25263253bc25267253b62526b253ac2526f253a02527325394252772538a2527b))
  (.nd (.lf
  0x3c4b83c3fe3c3e03df983df6a3df463df203dfa23debe3de8e3de623de743de2a3de463de423dfd63ddf23dde03ddf43ddb83dda43e00a3d6c83d6b03d66e3d6603d5d63d5c23d59c3d34c3d32c3d2c83d4283d1843d12e3eb263eb3a3eb683eb543ea623e9e63ea483e9a23e9903e9463e93e3e9183e8fa3e8e83e9023e8c03e8c43e95c3e9683e88a3e8783e8603e8483e82a3e7f43e8043e2243e2083e1e4)
  (.lf
  0x1c4e01c0801bc601b8201b3c01af601ab401a7001a2e019ee019ae0196a01928018e8018a40186201822017de0179c0175c0171c01ee301ed501ed101ea701e9901e9701e9301e6101e5301e5101e4d01e1b01e0d01e0b01e0701dd901dcb01dc901dc501d9901d8b01d8901d8501d5901d4b01d4901d4501d1501d0701d0501d0101cd301cc501cc301cbf01c9301c8501c8301c7f01c4f01c4101c3f01c3b)))
  (.nd (.nd (.lf
  0x615d0611a060e5060ce057d9057d00795906d4b061610611c060e7060d0057920578f0795b06d4d061650611e060e9060d2057530574a0795d06d4f0616906120060eb060d40570c057090795f06d510616d06122060ed060d6056cd056c40796106d5306171060ef060e4060d805686056830796306d5506175060f1060e6060da056470563e0796506d5706179060f3060e8060dc05607055fe0796706d59)
  (.lf
  0x36be536be336bdf36b5736b5536b5336b4f36b4d36a4336a4136a3d36a3b36a3936a4736a3736a33369ed369eb369e7369e5369e3369e1369dd369db369d9369d736913369113688d3753e37534375383751c3754237506374f4374ee374e2374d6374ca374c0374b2374a63749c3749037486375463746c374603754a37446374163740a3741a370ca370be370aa3709636e3e36dfc3753f3753d3753537531))
  (.nd (.lf
  0x13990139861394213938138f6138ec138aa138a01385a1385013808137fe137ba137b01376a13760137181370e136d4136d2242522459e242562458a2425a24574242982455e2429c24548242a024532242a42451c242a824506242ac244f0242b0244da242b4244c4242b8244ae242bc24498242c024482242c42446c242c824456242cc24440242d02442a242d424414242d8243fe242dc243e8242e0243d2)
  (.lf 0)))

def shaXorReads145 : BTree :=
  .nd (.nd (.nd (.lf
  0x2316f220852207d2207a220782207225f5025f3a23d5123d412317121ff921ff121fee21fec21fe625f4625f2623d5323d432317321f9921f9121f8e21f8c21f8625f1c25ebe23d5523d452317521f7921f7121f6e21f6c21f6625eb425e2c23d0323cff2317721f1d21f1521f1221f1021f0a25e2425dd023ce323cdf2317921edf21edc21eda21ed421ec725dc625d6c23c4123c312317b21e9921e9321e90)
  (.lf
  0x21c7521c7321c6f21c6d21c3521c3321c2b21c2921c0521c0321bfb21bf121bc121bbf21bbd21bb521b5921b5721b5321b5121b0921b0721b0321b0121acb21ac921ac521ac321aa521aa321a9f21a9d21a9b21a9921a9521a9321a0921a07219fd219eb219b9219b7219b3219b12196f2196d21963219512193721935219312192f2192d2192b21927218fd216d1216cf216cb216c92162d2162b2162721625))
  (.nd (.lf
  0x1bb8e19e6a19e4e2ad162ac7729b0329a7529a581e29e1e1ff1bb971bb9219e2819e0c2ad002ac7b29b0729a7729a5c1e2881e2031bb991bb9419de019dc82acea2ac7f29b0b29a7929a601e2721e2071bb9b1bb9619d9c19d862acd42ac8329b0f29a7b29a641e25c1e20b1bb9d1bb9819d5619d402acbe2ac8729a7d29a661e2461e20f1bb9f1bb9a19d0e19cf42aca82ac8b29a7f29a681e2301e2131bba1)
  (.lf
  0x1cd9d1cd991cd971cd871cd851cd811cd7f1cd6f1cd6d1cd691cd671cd571cd551cd511cd4f1cd3f1cd3d1cd391cd371cd271cd251cd211cd1f1cd0f1cd0d1cd091cd071ccf71ccf51ccf11ccef1ccdf1ccdd1ccd91ccd71ccc71ccc51ccc11ccbf1ccaf1ccad1cca91cca71cc931cc911cc8d1cc8b1cc731cc711cc6d1cc6b1cc511cc4f1cc4b1cc491cc2f1cc2d1cc291cc271cc0d1cc0b1cc071cc051cbe7)))
  (.nd (.nd (.lf
  0x2ed752ed4f2ed742ed072ed032ed062ed012ecfd2ed002ecfb2ecbf2ecfa2ecbd2ec872ecbc2ec302ec1c2ec122ebdf2ebb12ebde2ebaf2eb812ebae2eb2b2eb272eb2a2eb242eb1a2eae72eab92eae62eab62ea5d2ea592ea5c2ea562ea242e9f32e9c72e9f22e97f2e9792e97e2e9712e96d2e9702e96b2e9172e96a2e9142e90c2e0902e0882e07e2e0742e06a2e0602e0562e04c2e0422e0382e02e2e024)
  (.lf
  0x1980d1980b19807198051980319801197fd197fb197f9197f7197f3197f1197ef1abb01aba61ab9c1ab921ab881ab7e1ab741ab6a1ab601ab561ab4c1ab421ab381ab2e1ab241ab1a1ab101ab061aafc1aaf21aae81aade1aad41aaca1aac01aab61aaac1aaa21aa981aa8e1aa841abb11abaf1abab1aba91aba71aba51aba11ab9f1ab9d1ab9b1ab971ab951ab931ab911ab8d1ab8b1ab891ab871ab831ab81))
  (.nd (.lf
  0x25ec025eb825eb525eb225e5425e2e25e2625e2525dc825d7825d7025d6d25dc025d7225d6e25d5b25d3425d1825d1425cf725d2e25d0625d0025cfd25c9c25c9025c8e25c8b25c4c25c4425c3a25c3925c1425ba825ba125b9e25c0025b8825b7a25b7725bde25b5e25b5425b5325bd825b2c25b2a25b2125bc425afc25afa25af325a9e25a8a25a7c25a7b25a5225a3c25a3625a3525a1225a00259f9259f6)
  (.lf 0)))

def shaXorReads146 : BTree :=
  .nd (.nd (.nd (.lf
  0x30cea30ce4358363535c32f7732f7331c9d3129330f6130f3030b6a30b68358263524c32f6d32f6931c9f312d13126930ed630b3030b2a358123524232f5532f5131c793129b3120130e8c30b0e30b0c3580c350ba32fe532fe131a0d3126d3113730e5830ae030ada3501834fda3295532951318b531209311a330e3630a7e30a783500834fba328f5328f1318793113f310b930db630a2430a1e34f8634f42)
  (.lf
  0x401414013f4013b400bd4001b4001d40019400154001340011400074000540003400013fffd3fff53fff33fff13ffed3ffe53ffe13ffdf3ffdb3ffd93ffcd400533ffcb3ffc73ffc3400313ffc13ffbd3fcbb3fcc53fcb93fcb33fc7d3fc7b3fc773fc6b3fc293fc2d3fc273fc233fc213fc1f3fc1b3fc113fb9d3fb9b3fb873fb853fb833fb813fb773fb713fb513fb4f3fb4b3fb433fac13facb3fabf3fab9))
  (.nd (.lf
  0x33de438a40389d33411e33f4a33eef33eb433e7d38a383892b3411833f4233ef333e8133e7838a2a3892f33f3a33ef733e8533e7c33dc438a24389c33422833f2e33efb33e8933e8038a1a389c7341e633fdf33f2633eff33e8438a0c389cb33f1e33f0333e8d33e8833da438a04389cf33fe733fe333fde33f1633f10389f8389333412233f0733e9133e8c33d48389ee3893733fe233e9533d5433d42389e4)
  (.lf
  0x2e8732e86f2e86d2e86b2e8692e8652e8632e8612e85f2e85b2e8592e8572e8552e8512e84f2e84d2e84b2e8472e8452e8432e8412e83d2e83b2e8392e8372e8332e8312e82f2e82d2e8292e8232e8212e8272e81f2e81b2e7e32e7e72e7e12e7dd2e7a52e7a92e7a32e79f2e76d2e76b2e7672e7652e7252e7232e71f2e71d2e6e72e6e52e6e12e6df2e6a32e6a12e69d2e69b2e6572e6552e6532e64f2e621)))
  (.nd (.nd (.lf
  0x1e6b01e6b41e6b81e6bc1e6c01e6c41e6c81e6cc1e6d0238662386a2386e23872238762387a2387e23882238862388a2388e23892238962389a2389e238a2238a6238aa238ae238b2238b6238ba1e9b41e9b61e9b81e9ba1e9bc1e9be1e9c01e9c21e9c41e9c61e9c81e9ca1e9cc1e9ce1e9d01e9d21e9d41e9d61e9d81e9da1e9dc1e9de24ed624eda24ede24ee224ee624eea24eee24ef224ef624efa24efe)
  (.lf
  0x284cd284cb284c7284c5284c3284c1284bd284bb284b9284b7284b3284b1284af284ad284a9284a7284a5284a32849f2849d2849b284992849528493284912848f2848b284892848728485284812847f2847d2847b284772847528473284712846d2846b284692846728463284612845f2845d284592845728455284532844f2844d2844b284492844528443284412843f2843b284392843728435284312842f))
  (.nd (.lf
  0xc8a90c9600c8ad0c9560c8b10c94c0c8b50c9420c8b90c9380c8bd0c92e0c8c10c9240c8c50c91a0c8c90c9100c8cd0c9060c8d10c8fc0c8d50c8f20c8d90c8e80c8dd0c8e31088310a281088710a1e1088b10a141088f10a0a1089310a0010897109f61089b109ec1089f109e2108a3109d8108a7109ce108ab109c4108af109ba108b3109b0108b7109a6108bb1099c108bf10992108c310988108c71097e)
  (.lf 0)))

def shaXorReads147 : BTree :=
  .nd (.nd (.nd (.lf
  0x1850818428169591695515c2114de914ddf14ddc14dda14dd4184fe183ee168f1168ed15c2314dbd14db314db014dae14da8183b41837e1688b1687715c2514d9114d8714d8414d8214d7c183741833e1688d1687915c2714d6514d5b14d5814d5614d5018334182fe1688f1687b15c2914d3914d2f14d2c14d2a14d24182f4182be168911687d15c2b14d1314d0d14d0a14d0814d02182b41827a168931687f)
  (.lf
  0x64ff0650f064fd064f9064c1064bf064bb064b90647b06479064750647306435064330642f0642d063ef063ed063e9063e7063a7063b7063a5063a10636906367063630636106323063210631d0631b062db062eb062d9062d50629d0629b06297062950625506265062530624f0621706215062110620f061cf061df061cd061c9061b1075f6075c00757a0753c074f6074ae0746e0742e073ee073ae0736e))
  (.nd (.lf
  0x16ece16ea316e9616e6916e5c16e2916e1c16de916ddc16dad16da816d95184df184af184a218475184681843d1843018403183f6183cb183be183931838618353183461831318306182d3182c61828f18282182491823c18207181fa181c7181ba181871817a1814318136180fd180f0180b7180aa1807518068180351802817ff517fe817fb117fa417f6b17f5e17f2917f1c17ee917edc17ea517e9817e5f)
  (.lf 0))) (.nd (.nd (.lf
  0x738a0734b073230734a0730b072e30730a072ca072840723e071f8071b30718b071b2071720712d071050712c070ec070a70707f070a6070660702106ff90702006fe006f9b06f7306f9a06f5b06f3306f5a06f1a06c9a06c9006c8606c7c06c7206c6806c5e06c5406c4a06c4006c3606c2c06c2206c1806c0e06c0406bfa06bf006be606bdc06bd206bc806bbe06bb406baa06ba006b9606b8c06b8206b78)
  (.lf
  0xb30d0b30b0b3090b3070b3030b3010b2ff0b2fd0b2f90b2f70b2f50b2f30b2ef0b2ed0b2eb0c4520c4320c4140c3f80c3dc0c3c00c3a40c3820c35e0c33e0c3200c2fe0c2da0c2bc0c29c0c27a0c2580c2360c2140c1f20c1d40c1b80c19c0c17c0c15e0c13e0c11c0c0fa0c0dc0c0c20c0a80c4530c4510c44d0c44b0c4330c4310c42d0c42b0c4150c4130c40f0c40d0c3f90c3f70c3f30c3f10c3dd0c3db))
  (.nd (.lf
  0x28fd828da928fc228d9d28fba28d9128f9a28d8328f4428d7528f3828d6928f2e28d5d28f2028d8728f1828d4b28f0228e0128ef828d2528ece28d1328e8928d3428d2a28d2928cca28cc128c8e28c5528c6b2a18d2a1962a1812a1902a1752a1642a1632a14e2a1052a1402a0f92a13a2a0f12a12e2a0e12a1242a0d52a11a2a1152a10a2a0c32a0ac2a0972a0a62a08d2a0802a07b2a0682a0652a0502a04f)
  (.lf 0)))

def shaXorReads148 : BTree :=
  .nd (.nd (.nd (.lf
  0xf49411de40f18027a0027540142b013ab00fca00f4b40eca40ea00274a0270e0142d013ad00fcc00f4d40ec440e8a02704026c80142f013af00fce00f4f40eb040c76026be0268201431013b100fd000f5140c5e40c3a026780263c01433013b300fd200f5340c3240c2202632025f401435013b500fd400f5540c2c40c2002602025b601437013b700fd600f5740bf640be6025ac0257001439013b900fd8)
  (.lf
  0x2239a22166223922216a22388222f62237c2216e22374221722236822176223602217a223582217e2234e221822234422186223382218a223302218e2232221dda2231c21dde2231021de22230421de622300222fa221d222192221c822196221c02219a221b82219e221ae221a2221a8232b023492232b42348c232b823482232bc23472232c02346a232c42345a232c82344c232cc2343c232d023436232d4))
  (.nd (.lf
  0x35e5435e0635c5e379ea379fe379cc379b2379963797a3795c37a243792e37912378fc37a3c378e0378c637ae6378aa378803788c378683784e3783c378283781837804377f2377e63789c373f0373dc3714037106371263bbdc3bb943ba7a3ba363b9083b83e3b7c63b7823b7143b6e43b6763b63e3b5e83b59e3b5643b5403b4f43b4b63b4863b43e3b3fe3b3aa3b3663b3783b34c3b33a3b3363b2203b258)
  (.lf
  0x3835b3835738353383513834f3834b383493834738345383413833f3833d3833b38337383353833338359383313832d3832b3832938323383213831f383253831d383193831738315383113830f3830d3839d3830b383073830538303382ff382fb382f9382fd382f7382f3382f1382ef382eb382e9382e73839f382e5382e13827738275382713826d382493824b3824738243382413823f3823b3823938237)))
  (.nd (.nd (.lf
  0x76990761906a8b05e8505e6b05e5405e1005d5008ad008a940769b0761b06a8d05e8905e6d05e5605e1205d5208a8a08a4c0769d0761d06a8f05e8d05e6f05e5805e1405d5408a5a08a0c0769f0761f06a9105e9105e7105e5a05e1605d5608a1a089cc076a10762106a9305e9505e7305e5c05e1805d58089da0898c076a30762306a9505e9905e5e05e3505e1a05d5a0899a0894e076a50762506a9705e9d)
  (.lf
  0x2f8672f8632f8612f85f2f85d2f8592f8552f8532f8572f8512f84d2f84b2f8492f8452f8432f8412f83f2f83b2f8232f8212f81f2f8152f7fb2f7f92f7f72f7f32f7cf2f7cd2f7cb2f7b32f7af2f7ad2f7ab2f7a72f77f2f7792f7812f7772f7732f7712f76f2f76b2f7672f3ab2f1942f18e2f1962f1782f1682f1602f1562f14a2f16e2f1362f16c2f1282f1202f13c2f1982f1002f0f82f0ec2f0ee2f170))
  (.nd (.lf
  0x11cd11239411c891238811c3f1238011bf51237611baf1236e11b671235811b1f1235211ad511a8d11a4411a3d119f8119ef119a41199d119661196312cbf131d012cc1131c812cc3131be12c31131b212c2b1318612c2d1317c12c2f130d612c29130ca12c1d130c212c39130b812c35130b012f7b1304a12c371304012f791303a12c3f1302e12c331302812c771301c12c751301212c4912fd812c7912fd2)
  (.lf 0)))

def shaXorReads149 : BTree :=
  .nd (.nd (.nd (.lf
  0x23313232852327a22ff426fa226935251f32406123317232872327c22ff626f9626933251f52406323319232892327e22fcc26f8c26931251f7240652331d2328b2328022fce26f802692f251f92400f2331f2328d2328222fd026e3a2692d251fb24011233232328f2328422fd226e322692b251fd2410d23325232912328622fd426e28269292519924013232af232932328822fd626e12269272519b24015)
  (.lf
  0x14c7f14c7d14c7914c7714c6b14c6914c6514c6314a7114a6f14a6b14a6914a6714a6514a6114a5f14a5d14a5b14a5714a5514a5314a5114a4d14a4b14a4914a4714a4314a4114a3f14a3d14a3914a3714a3514a3314a2f14a2d14a2b14a2914a2514a2314a2114a1f14a1b14a1914a1714a1514a1114a0f14a0d14a0b14a0714a0514a0314a01149fd149fb149f9149f7149f3149f1149ef14c5814c5014c46))
  (.nd (.lf
  0xfdf10fde60fdcc1ea6f1ea181e9ef1193b118b3118aa0fdae0fd9f0fd960fd930fd860fd6a1ea731ea1a1e9f11193f118b7118ae0fd4c0fd3d0fd340fd310fd260fd0e1ea771ea1c1e9f311943118bb118b20fcf00fce10fcd80fcd50fcc80fcae1ea7b1ea1e1e9f511947118bf118b60fc900fc810fc780fc750fc6a0fc521ea7f1ea201e9f7118c3118ba0fc340fc250fc1c0fc190fc0c0fbf61ea831ea22)
  (.lf
  0xdd310dd2d0dd2b0dd290dd270dd230dd210dd1f0dd1d0dd190dd170dd150dd130dd0f0dd0d0dd0b0dd090dd050dd030dd010dcff0dcfb0dcf90dcf70dcf50dcf10dcef0dced0dceb0dce70dce50dce30dce10dcdd0dcdb0dcd90dcd70dcd30dcd10dccf0dccd0dcc90dcc70dcc50dcc30dcbf0dcbd0dcbb0dcb90dcb50dcb30dcb10dcaf0dcab0dca90dca70e3120e2fe0e2e80e2d20e2bc0e2a60e2900e27a)))
  (.nd (.nd (.lf
  0x1a19b1a19e1a1661a12a1a0ef1a0eb1a0ee1a0b71a0b31a0b61a0801a0431a03f1a0421a00a19fcc19f9019f5219f1419ed819e9c19e5e19e1c19dd519dd119dd419d9319d8f19d9219d4d19d4919d4c19d0419cb2199181990e19904198fa198f0198e6198dc198d2198c8198be198b4198aa198a0198961988c19882198781986e198641985a19850198461983c19832198281981e198141980a19800197f6)
  (.lf
  0x1495d149591495114943149411493d1493114923149211491d149131490514903148ff148f3148e5148e3148df148d5148c7148c5148c1148b9148ab148a9148a5148991488b148891488514877148691486714863148551484714845148411483714829148271482314817148091480714803147f9147eb147e9147e5147dd147cf147cd147c9147bd147af147ad147a91479f147911478f1478b1478314775))
  (.nd (.lf
  0x4f5d04f5404f5004f4804f1604f1204f0a04f0704ed004ecc04ec404ec104e8a04e8604e7e04e7b04e4404e4004e3804e3504dfe04dfa04df204def04dbf04db604db204daa04d7f04d7604d7204d6a04d3f04d3604d3204d2a04cf804cf404cec04ce904cb904cb004cac04ca404c7904c7004c6c04c6404c3904c3004c2c04c2404bf204bee04be604be304bb304baa04ba604b9e04b7304b6a04b6604b5e)
  (.lf 0)))

def shaXorReads150 : BTree :=
  .nd (.nd (.nd (.lf
  0x300823001f3001d3001a342ff33f8e3211331027300842fedb2fed12fe7633f8633e773211530fbd300862fedd2fed32fe7833f7a33e093211730fab300882fedf2fed52fe7a33f6e33dfd31ff930fcd3008a2fee12fed72fe7c33f6233e013221730ee13001c2fee32fed92fe7e33f5833de531e9130e9b301772fed02f9f92f9f63411f33f4c31e4930e673014d2fed22f9eb2f9e43411933f4431e5530ea9)
  (.lf
  0x30ee930ee730ee330ecd30e7b30e8330e7930e7530e4b30e4f30e4930e4530e2d30e3330e2b30e2730da130dad30d9f30d9b30d8330d8130d7d30d7b30d5f30d6530d5d30d5930d3730d4730d3530d3130d0f30d0d30d0930d0730ce330ce130cdd30cdb30b6130b6730b5f30b5b30b2330b2930b2130b1d30b0730b0b30b0330aff30ae930ae730ae330ad930a6f30a7730a6d30a6930a1930a1d30a1730a13))
  (.nd (.lf
  0x27572269363829437da136d6d36d4f36d382ced62c58d27595275792757426fa0269343828c37da536d7136d5136d3a2ceca2c591275992757b2757626f94269323825237de336d7536d5336d3c2cec22c5952759d2757d2757826f8a269303817437de736d7936d5536d3e2ceb82c599275a12757f2757a26f7e2692e3816a37deb36d7d36d5736d402ceb02c59d275a5275812757c26e382692c3816237def)
  (.lf
  0x24fe324fdf24fdd24fdb24fd924fd524fd324fd124fcf24fcb24fc924fc724fc524fc124fbf24fbd24fbb24fb724fb524fb324fb124fad24fab24fa924fa724fa324fa124f9f24f9d24f9924f9724f9524f9324f8f24f8d24f8b24f8924f8524f8324f8124f7f24f7b24f7924f7724f7524f7124f6f24f6d24f6b24f6724f6524f6324f6124f5d24f5b24f5924f5724f5324f5124f4f24f4d24f4924f4724f45)))
  (.nd (.nd (.lf
  0x567e05636055f6055be0558205cf205cb205c7405c2c05bec05bae05b6605b2605ae605aa805a6205a1c059d6059900594a05904058bc0587c0583c057fc057bc0577e05736056f8056b0056720562a055ea055b205576069760693a068f2068b40686c0682e067e8067a00676006720066e20669c066560660e065ce0658e0655006508064ca064840643e063f8063b0063720632c062e4062a60625e06220)
  (.lf
  0x21e7f21e7d21e7921e7721e7521e7321e6f21e6b21e6921e6721e6321e6121e4b21e4921e4521e4121d8121d8521d7f21d7b21cd521d3d21cd321ccf21ccd21ccb21cc721cc321ca521ca321c9f21c9b21c6521c6321c6121c5b21c1f21c2121c1d21c1521bb121baf21bab21ba921ba721ba521ba121b9721b3b21b3f21b3921b3521b2d21b2b21af921af521af321af121aed21a4b21a4721a3b21a3521a2f))
  (.nd (.lf
  0xb2a60b3780b2aa0b36e0b2ae0b3640b2b20b35a0b2b60b3500b2ba0b3460b2be0b33c0b2c20b3320b2c60b3280b2ca0b31e0b2ce0b3140b2d20b30a0b2d60b3000b2da0b2f60b2de0b2ec0b2e20b2e80bd6c0bf100bd700bf060bd740befc0bd780bef20bd7c0bee80bd800bede0bd840bed40bd880beca0bd8c0bec00bd900beb60bd940beac0bd980bea20bd9c0be980bda00be8e0bda40be840bda80be7a)
  (.lf 0)))

def shaXorReads151 : BTree :=
  .nd (.nd (.nd (.lf
  0x175e516643160751602a15ff515e9418dfd18dd8175db166451607915ff715fec15e9618dbd18d98175b5166471607d15ff915fee15e9e18d8118d5c175a1166491608115ffb15ff015a7618d4718d22175bd165e51608515ffd15ff215a7818d0d18cfc175a3165e71608915fff15ff415a7a18cf5175a5165e91608d1600115ff615a7c1a3e7186431773f16b9916b0b16b001679a1a3b51a3981864517741)
  (.lf
  0x3ed463ed503ed383ed2c3ed1e3ed163ed0c3ecfe3ed023ecf23ecf03ecd83ecd23ecc43ecb83ecc03eca63ec9e3ec923ec883ec843ec7a3ec6a3ed523ec4e3e7c43e7b83e7c83e6963e6743ed4f3ed4d3ed493ed473ed453ed513ed433ed3f3ed3d3ed3b3ed393ed353ed333ed313ed2d3ed2b3ed293ed273ed233ed213ed1f3ed1d3ed193ed173ed153ed133ed0f3ed0d3ed0b3ed093ed053ed013ecff3ed03))
  (.nd (.lf
  0x34e2634ece34e2a34ec834e2e34ebe34e3234eb434e3634e6634e3a34e5e34e3e34e4834e4234e50362463651a3624a3650e3624e3650436252364fa36256364f03625a364e63625e364de36262364d036266364ca36086364bc36288364b63628c364aa36290364a03629436498362983648e3629c36480362a036360362a436354362a83634c362ac36340362b036338362b436330362b836326362bc3631c)
  (.lf 0))) (.nd (.nd (.lf
  0x243522433c243262459c24586245702455a245442452e2451824502244ec244d6244c0244aa244942447e24468244522443c2442624410243fa243e4243ce243b8243a22438c243762435e24348243322431c1eeac1ee881ee661ee421ee201edfe1eddc1edba1ed981ed761ed541ed321ed101ecee1eccc1ecaa1ec861ec621ec3e1ec1a1ebf61ebd21ebae1eb8a1eb661eb441eb201eafc1eada1eab82574e)
  (.lf
  0x4125041230411f0411d040df040dd040d9040d7040970409b04095040910405904057040530405104013040110400d0400b03fcb03fcf03fc903fc503f8b03f8f03f8903f8503f4b03f4f03f4903f4503f0b03f0f03f0903f0503ecd03ecb03ec703ec503e8503e8903e8303e7f03e4503e4903e4303e3f03e0703e0503e0103dff03dbf03dc303dbd03db903d8103d7f03d7b03d7903d3b03d3903d3503d33))
  (.nd (.lf
  0x26cdc26c4426cd226c3626cc626c3426c3e26c3226c3026bfa26bf226bea26be426bb426bba26b3426b2e269d826b22269e026b14269ca26b0c2697e26ac626ab826ab026966269fa269b0269f026952269e82694626980269222690827f902819027f882818227f862817c27f6a2816e27f5c2816827f5a2815827f462815027f382814627f282813a27f182813027f6c2812027f362810827f34280f627ef2)
  (.lf 0)))

def shaXorReads152 : BTree :=
  .nd (.nd (.nd (.lf
  0xd55d004da004620d8de0d7cb0d5eb0d5880d55f004d0004600d8bc0d7cf0d5ef0d5610d544004c60045e0d89a0d7d30d5f30d5630d548004bc0045c0d8780d7d70d5f70d5650d54c004b20045a0d8560d7db0d5fb0d5670d550004a8004580d8340d7df0d5690d5520049e004560d8120d7e30d56b0d55400494004540d7e90d56d0d556004520ddd70d7750d7590d74200de80dfb60dddb0d7790d75b0d744)
  (.lf
  0x41fe03c17041bc03c1b0417803c1f0413603c23040f203c27040ac03c2b0406a03c2f0402603c3303fe003c3703f9e03c3b03f5e03c3f03f1e03c4303ede03c4703e9a03c4b03e5803c4f03e1803c5303dd403c5703d9203c5b03d4e03c5f03d0803c6303cc603c6703c6d0485f050c4048630508804867050460486b050020486f04fbc0487304f7a0487704f3a0487b04ef60487f04eb00488304e6a04887))
  (.nd (.lf
  0x37a303793c3791c3b66e3b6383bd723bb9a3ba743ba3e3b8ee3b8583b7ba3b7943b7163b6dc3b67a3bd783bba23baa83ba383b9363b8423b7bc3b7763b7043bbe03bb9e3baac3ba203b93a3b8443b7c83b77a3b71c3b6e63ca5e3ca0c3cc0a3cc883cbe63cbe23cb5a3cb363cb1c3caea3ca9c3ca523ca603cc003cc6c3cbc43cbec3cb8c3cb603caf23cae63ca963cc0e3cc5e3cbbc3cb9a3cb4a3cb663caf8)
  (.lf
  0x3a3ff3a3eb3a3e73a3e53a3e33a3df3a3dd3a3d93a4033a3d73a3d33a3d13a3cf3a3cb3a3c93a3bb3a7023a6f83a6e43a71e3a6ca3a72a3a6843a67a3a6723a6443a6483a6243a60c3a6003a5ee3a5e43a5d63a5ca3a5ae3a5a43a5963a58e3a5823a57a3a4503a42c3a4223a4143a40a3a41c3a3c63a7033a7013a6fd3a6fb3a6f93a6f73a6f33a6e73a6e53a71f3a6e33a6df3a6dd3a6db3a6d73a6cd3a6cb)))
  (.nd (.nd (.lf
  0xbce30bc630b1250a8150a7b50a6ba0a52c0a5260f97e0f9200bce50bc650b1270a7e90a7890a6a60a51a0a5140f9160f8da0bce70bc670b1290a7bd0a7670a5d20a5080a5020f8d60bce90bc690b12b0a7910a74b0a5be0a4c00a4ba114e80c7a30c7230bceb0b2c10b2430b22c0b2260b2201109610eba0c7a50c7250bced0b2c50b2450b22e0b2160b2101108a10edc0c7a70c7270bcef0b2c90b2470b230)
  (.lf
  0x3238f3238b323893220d3220b32207322053209f3209d320993209532037335fc335f4335e8335e0335d4335d6335c2335b6335ac335a23359a3359233584335783356c335623357433586335483353e335343352e335203351a3350c33506334f8334f0334f23345a3342e335fd335fb335f7335f5335f3335f1335ed335eb335e9335e7335e3335e1335df335dd335d9335d5335d3335d7335d1335cd335cb))
  (.nd (.lf
  0x3414e3413d33d8c33d7933d1233d0133cea33ccf33b9033b8933b6433b5333b4433b2733b1633af733a6c33a5b33a1e33a07339ea339e1356a9356da356a1356b1356883565b356303562a35523355f835517355ca3550b3557c354ff35572354f73552f354dc354d6354bb354a235495354773545c3545f3544a354353542e3541a353fd35410353f135431353e4353da353b3353ca353b1353a035375353a5)
  (.lf 0)))

def shaXorReads153 : BTree :=
  .nd (.nd (.nd (.lf
  0x2ba532b9c72b9bc2b8ac2f7202f66d2db372c7fb2ba572b9c92b9be2b87c2f7162f65f2daf92c7e52ba5b2b9cb2b9c02b87e2f70a2f6ad2daed2c7e72ba5f2b9cd2b9c22b7322f7042f6852dbc52c7e92ba632b9cf2b9c42b70a2f6f82f6452da632c7eb2b9ed2b9d12b9c62b6c22f6f22f6352da2f2c7ed2b9f12b9d32b9c82b6762f6e62f6272da0f2c7ef2b9f52b9d52b9ca2b6782f6dc2f61b2d9e72c7f1)
  (.lf
  0x1b6ce1b6921b68c1b67c1b6721b6681b6561b6141b60e1b6041b5f61b5ee1b5e21b5d21b3d41adbe1ad741ad2e1acec1acaa1b7e31b7e11b7dd1b7db1b7d91b7d71b7d31b7d11b7cf1b7cd1b7c91b7c71b7c51b7c31b7bf1b75b1b7591b7571b72b1b7291b7251b7271b7231b71f1b71d1b71b1b7171b7151b7131b7111b70d1b70b1b7091b7071b7031b7011b6ff1b6fd1b6e91b6e51b6e31b6e11b6dd1b6cf))
  (.nd (.lf
  0x158a4256de25451242af24287242701be441bb8516d5116d2b16d26158841586c256c825455242b324289242721be2e1bb8916d5516d2d16d281584c15836256b225459242b72428b242741be181bb8d16d5916d2f16d2a15816157fc2569c2545d242bb2428d242761be021bb9116d5d16d3116d2c157dc157c42568625461242bf2428f242781bdec1bbc116d6116d3316d2e157a2157882567025465242c3)
  (.lf
  0x180fe180b8180761803617ff617fb217f6c17f2a17eea17ea617e6017e1e17dda17d9817d56184e1184d3184cf184b1184a3184a11849d184771846918467184631843f184311842f1842b18405183f7183f5183f1183cd183bf183bd183b9183951838718385183811835518347183451834118315183071830518301182d5182c7182c5182c11829118283182811827d1824b1823d1823b1823718209181fb)))
  (.nd (.nd (.lf
  0x2421024200241f8241ec241e2241d8241d0241c6241bc241b2241a8241a0241962418c24182241782416e241642415824150241462413c24132241282484024834248282481c2481424808247fc247ec247e4247da247ce247c2247b6247aa247a024790247882477c2477024764247582474c2474024734247282472024714246dc246902464c24b8624b7a24b6e24b6224b5824b4c24b4024b3624b2c24b24)
  (.lf
  0x170b1170af170431703f1703d16f6116f5d16f5b16eef16eeb16ee916e7d16e7916e7716af216ae816ade16ad416aca16ac016ab616aac16aa216a9816a8e16a8416a7a16a7016a6616a5c16a5216a4816a3e16a3416a2c16a0e16a04169fa169f0169e6169dc169d2169c8169be169b616af316af116aed16aeb16ae916ae716ae316ae116adf16add16ad916ad716ad516ad316acf16acd16acb16ac916ac5))
  (.nd (.lf
  0x14b8014a8714a42149c414b7214a8514a38149c214b6c14a8314a2e149bc14b6214a8114a24149b414b5814a7f14a1a149b614b4e14a7d14a10149ba14b4414a7b14a06149b814b3a14a79149fc149b214b3014a77149f2149ac14a75149ae159d1159ce15fde15b96159d2159af15fae15b8c159791597615fa215b82159da1593f15f9a15b78159d41590515f9015b6e15a62158c915f8815b6415a641588d)
  (.lf 0)))

def shaXorReads154 : BTree :=
  .nd (.nd (.nd (.lf
  0x3b6bd3b6bb3b6b23b6ac3d0993c1f93b8703b6923b68d3b68b3b6883b6833d0c73c22d3b7ec3b6413b6283b6233b6213b61c3d0733c1b13b76c3b5fe3b5fb3b5f93b5f73b5f43d05f3c18b3bbd53b7343b5bc3b5b53b5b23b5ad3d0453c17d3bb193b6ba3b57d3b5743b5733b5703d0333c16f3ba5d3b68a3b5243b51f3b51b3b5183cdf33c1593b9b33b6203b4e93b4e63b4e13b4dc3cddd3c1bd3b8ff3b5f8)
  (.lf
  0x371213711f3711737113371113bbbc3bb8c3ba6e3ba1e3b8e23b8363b7b03b7723b6f63b6d43b66a3b6323b5d03b5943b5543b5363b4d23b4aa3b47c3b4363b3f83b3a43b35e3b3723b3463b3203b3303b21a3b2043b1cc3b1be3bbbd3bb8d3bb253bb073ba693ba6f3ba4d3ba493ba0f3ba1f3b99f3b99b3b9493b9353b9313b8e33b8633b8613b85d3b8373b8273b8253b8213b7b13b7913b7733b7573b74f))
  (.nd (.lf
  0x325f431ba92c6112c59f2c5962c2ca2c10239f1a39e4f3991d398c239899325e831cc32c6152c5a32c59a2c2b82c10039f0e39e5339921398c43989b325dc31bad2c6172c5a72c59e2c2b22c0fe39f0239e5739925398c63989d325d631cc72c5a92c5a22c27c2c0fc39ef839e5b39929398c83989f325c831bb12c5ad2c5a62c2762c0fa39eea39e5f3992d398ca398a1325c031bb52c5af2c5a82c23c2c0f8)
  (.lf
  0x2af2e2af1a2af042aeee2aed82aec22aeac2ae962ae802ae6a2ae542ae3e2ae282ae122adfc2ade62add02adba2ada42ad8e2ad782ad622ad4c2ad362ad202ad0a2acf42acde2acc82acb22ac9c2af2f2af212af1d2af1b2af0d2af0b2af072af052aef72aef52aef12aeef2aee12aedf2aedb2aed92aecb2aec92aec52aec32aeb52aeb32aeaf2aead2ae9f2ae9d2ae992ae972ae892ae872ae832ae812ae73)))
  (.nd (.nd (.lf
  0x2836c283622835028302282ea282e2282c0282b6282ac282a228280282682824e282442823a2823028220280b427fd827fba27e5827e1a27be227bc027bb027ba027b24293ae2939c293762934a292c0292b8292862927e2926c2924c292302920e29206291ee291dc291ca291b6291962918e291702915c2914a2914228f4c28ee828eca28e9828e7028cf028cb62974c2973a296c6296b42969a2969029664)
  (.lf
  0x23ead23eab23ea923ea523ea323ea123e9d23e9b23e9923e9723e9323e9123e8f23e8d23e8923e8723e8523e8323e7f23e7d23e7b23e7923e7523e7323e7123e6f23e6d23e6923e6723e6523e6123e5f23e5d23e5b23e5723e5523e5323e5123e4d23e4b23e4923e4723e4323e4123e3f23e3d23e3923e3723e3523e3323e3123e2d23e2b23e2923e2523e2323e2123e1f23e1b23e1923e1723e1523e1123e0f))
  (.nd (.lf
  0x2ef6a2f0f02ef422f0e42edfa2f0da2eda42f0d42edb62f0ac2ed3e2f0b02f0a22f0142f0102ef7a2eeee2ef722ef6e2ef482ef462ee862edf82ee782ed9c2ee6e2ed6a2ee642ed422ee5e302ba303923029c30388302b23037e3028e303743000c3036a2ffde303602ffc0303562ffe83034c2ffc8303422ff72303382ff543032c2ff40303242ff5e3031a302bc30310302923030630006302fc300f4302f4)
  (.lf 0)))

def shaXorReads155 : BTree :=
  .nd (.nd (.nd (.lf
  0xbd140bc541226e11bf2108051079d0c80f0bd9b0bd5a0bd310bd160bc561225c11bac108071079f0c8110bd9f0bd5c0bd330bd180bc58122681225610809107a10c8130bda30bd5e0bd350bd1a0bc5a1224a121ee1080b107a30c8150bda70bd600bd370bd1c0bc5c12242121f01066b106670c8170bdab0bd620bd390bd1e0bc5e1223a121f41065d106590c8190bdaf0bd640bd3b0bd200bc6012230121ec)
  (.lf
  0x17f2017aa0176a0172a01eed01ebf01ebb01eb901e7d01e7b01e7701e7501e3701e3501e3101e2f01def01ded01de901de701daf01dad01da901da701d6f01d6d01d6901d6701d3101d2f01d2b01d2901ce901ce701ce301ce101ca901ca701ca301ca101c6b01c6901c6501c6301c2501c2301c1f01c1d01bdd01bdb01bd701bd501b9f01b9d01b9901b9701b5901b5701b5301b5101b1301b1101b0d01b0b))
  (.nd (.lf
  0x266c2266b8266ac266a2266962668c26680266762666a26660266542664a266462664427a6e27a5a27a4e27a4427a3827a2e27a2227a1827a0c27a02279f6279ec279e0279d6279ca279c0279b4279aa2799e27994279882797e27972279682795c27952279462793c27930279262791a2791027904278fa278ee278e4278d8278ce278c2278b8278ac278a2278962788c27880278762786a27860278542784a)
  (.lf 0))) (.nd (.nd (.lf
  0x39fc039fb439fa439f9839f8c39f8439f7839f6c39f6039f5839f4c39f4039f3439f2a39f1e39f1239f0639efc39ef039ee439ecc39ec239eb839eac39e983a2023a1fa3a1d03a1c63a1a83a1143a10c3a1023a0f83a0ee3a0e43a0da3a0d23a0c83a0ba3a0ac3a0643a0563a04e3a03e3a0363a0243a01c3a0123a00839ffe39ff639ed639ea439e8c39dbe39db439daa39da039d9639d8c39d8239d7839d6c)
  (.lf
  0x954509541095110950309501094fd094cb094bd094bb094b7094850947709475094710944309435094330942f09403093f5093f3093ef093c3093b5093b3093af0938309375093730936f0933f093390919c09192091880917e091740916a09160091560914c09142091380912e091240911a0911009106090fc090f2090e8090de090d4090ca090c0090b6090ac090a2090980908e090840907a090700919d))
  (.nd (.lf
  0x7255072480720f07202071c9071bc071870717a071430713607101070f4070bd070b00707b0706e070370702a06ff506fe806fb106fa406f6f06f6206f2f06f2206eeb06ede06eaf06ea206e7506e6806e3b06e3606e230823f08207081fa081c7081ba0818308176081410813408101080f4080bd080b00807b0806e080370802a07ff507fe807fb507fa807f7507f6807f3507f2807ef507ee807eb107ea4)
  (.lf 0)))

def shaXorReads156 : BTree :=
  .nd (.nd (.nd (.lf
  0x3ea2a3e5623cfe53cf833cb533b93b3b8ec3b8e83b8e73b8e43e9fa3e5503cfe13cf673cb3d3b8563b8453b8413b83a3b8383e9d03e5483cf373cf333cb133b7c93b7c23b7b83b7b53b7b23e9a83e5683cf533cf4b3cab33b7923b77c3b77b3b7783b7753e97e3e52e3cf293cf213ca833b71d3b6fe3b6fc3b6fa3b6f93e9763e51c3cec73cec33ca513b6e73b6e03b6da3b6d93b6d63e9223e5343cee73cee3)
  (.lf
  0x298a023040294402308028fe0230c028bc023100287c023140283c02318027fc0231c027bc023200277c023240273802328026f20232c026ac0233002666023340262002338025de0233c0259a0234002554023440250e02348024c80234c024860235002446023540240202358023bc0235c0236202f680310c02f6c0310202f70030f802f74030ee02f78030e402f7c030da02f80030d002f84030c602f88))
  (.nd (.lf
  0x626006280062a0062c0062e00630006320063400636006380063a0063c0063e01f3201f3401f3601f3801f3a01f3c01f3e01f4001f4201f4401f4601f4801f4a01f4c01f4e01f5001f5201f5401f5601f5801f5a01f5c01f5e01f6001f6201f6401f6601f6801f6a01f6c01f6e01f7000e6c00e6e00e7000e7200e7400e7600e7800e7a00e7c00e7e00e8000e8200e8400e8600e8800e8a00e8c00e8e00e90)
  (.lf
  0x34b5334b4f34aeb34ae934ae734ae334ae134ad334e8634e7c34db234da834d9e34d8c34d7e34d7234d6a34d5a34d4e34d9634dc034d3234d2834d1634d0c34d1e34dba34cf034cea34cda34c2c34c3834dc634c0c34c1a34ba634f5c34af834afc34e8734e7d34e7934e7334e5934e5734e5334db734db334db134dad34dab34da934da734da334d9f34d9d34d9b34d9134d8d34d8b34d8934d8534d8334d7f)))
  (.nd (.nd (.lf
  0x2bf702b7702033014e501467014500138c0134c04438043f002bf902b7902035014e901469014520138e0134e043e6043aa02bfb02b7b02037014ed0146b014540139001350043a00436402bfd02b7d02039014f10146d0145601392013520435a0431c02bff02b7f0203b014f50146f0145801394013540432a042dc02c0102b810203d014f9014710145a0139601356042ea0429e02c0302b830203f014fd)
  (.lf
  0x2c1732c1712c16d2c16b2c1372c57c2c5022c4f82c4ec2c4e22c4da2c4d02c4c42c50e2c4a82c47a2c46e2c4662c4522c4222c4182c40a2c3ec2c3d42c3c42c3ac2c2a42c2842c2682c2422c2222c2082c1dc2c1ac2c1782c13a2c57d2c50d2c5092c5072c5032c5012c4fd2c4fb2c4f92c4f72c4f32c4f12c4ed2c4eb2c4e72c4e52c4e32c4e12c4dd2c4db2c4d92c4d72c4d32c4d12c4cf2c4cd2c4c92c4c5))
  (.nd (.lf
  0x311ad312f8310c1312e831059312e23100d312d7312b03129f312643125b312163120f311c4311be31145311b9310ca310cd310663105d3101c3101130f8a30f873244b3251a3240f3251032449325063241932500323f3324f4323b9324e832387324de32351324d432385324ce321f9324c0320c9324b6320ab324ac320c7324a0324413249a324233248e323eb32488323c53247c3237d32470323573246a)
  (.lf 0)))

def shaXorReads157 : BTree :=
  .nd (.nd (.nd (.lf
  0x1f3f01f28e1c29d1c2991b63d1a8851a63f1a60c1a5dc1a5461f3e61f2821c23d1c2391b63f1a6431a60e1a5eb1a5de1a5481f3e01f2761c20b1c2071b6411a8871a8651a6101a5e01a54a1f3d21f26e1c1b31c1af1b6431a6471a6121a5ed1a5e21a54c1f3ca1f2601c1811c17d1b6451a86d1a6141a5ef1a5e41a54e1f3c01f2561c12d1c1291b6471a64b1a6161a5f11a5e61a5501f3b41f24a1c0f51c0f1)
  (.lf
  0xba3e0ba340ba280ba2a0ba180ba160ba080b9d80b9b80b99e0b9a80b98a0bafd0bafb0baf70baf50baf30baf10baed0baeb0bae90bae70bae30bae10badf0badd0badb0bad70bad50bad30bacf0bacd0bacb0bac70bac30bac10babf0babd0bab90bab70bab50bab30bab10baad0baab0baa90baa50baa30baa10ba9f0ba9b0ba990ba970bac90ba950ba910ba8f0ba8d0ba890ba870ba830ba810ba7d0ba7b))
  (.nd (.lf
  0x38c2b38c9038c1d38c5038c0b38c4838c0f38c3438c1f38c2f394a3396603949b3963a394a5396343947d3961c394813961639483396023945f395ec39451395da39449395c43943f395aa394393957c3943d39572394173955a3940f39546393fd39536393f139510393e7394fc393e9394f2393e5394e2393c3394d4393bb394c839375394c239369394ba3935d393a8393493939c3933d3934a3932d3931c)
  (.lf
  0xfb340fad40fa760fa1c0f9c00f95e0f8f6103fd103ef103eb103ab1039d1039b10397103491033b1033910335102ed102df102dd102d91029110283102811027d1023310225102231021f101d5101c7101c5101c11017b1016d1016b101671011b1010d1010b10107100bf100b1100af100ab1006310055100531004f100050fff70fff50fff10ffa30ff950ff930ff8f0ff470ff390ff370ff330fee70fed9)))
  (.nd (.nd (.lf
  0x1217412130120ec120a41205c1201411fcc11f8411f3c11ef611eb211e6e11e2a11de611d9e11d5411d0e11cca11c8211c3811bee11ba811b6211b1a11ace11a8211a36119e61198c121b01216c12128120e41209c120541200c11fc411f7c11f3411eee11eaa11e6611e2211dde11d9611d4c11d0611cc211c7a11c3011be611ba011b5a11b1211ac611a7a11a2e119de11984120d81208e1204611ffe11fb6)
  (.lf
  0x117bf117bb117b9117b7117b5117b1117af117ad117ab117a7117a5117a3117a11179d1179b117991179711793117911178f1178d117891178711785117831177f1177d1177b11779117751177311771121dc121a01215c12118120d0120861203e11ff611fae11f6611f2211ede11e9a11e5611e1211dca11d8011d3a11cf611cae11c6411c1a11bd411b8c11b4411afc11ab411a6a11a1e119ca11978121dd))
  (.nd (.lf
  0x128d5128d31402813fe613f9a13f4813efc13eaa13e5813e0c13dba13d6813d1613cc413c7813c2613bda13b8e13b3c13af013aa413a5213a06139b41396213916138ca1387e1382c137da1378e1373c136ea136ef136eb136e9149aa149901496e149521493614914148f8148d6148ba1489e1487c1485a148381481c147fa147de147c2147a014784147681474c147301470e146f2146d6146b41469814676)
  (.lf 0)))

def shaXorReads158 : BTree :=
  .nd (.nd (.nd (.lf
  0x291a1286d1286cc285bd285ba285b42c6e22c3da2a6bf2a6bb291ad286d5286ce285a12858e285822c6c22c3c82a6af2a6ab2918b286d9286742859d28590285842c6ba2c3b22a6952a6912916728677286542859f28568285622c69a2c2a82a6792a67529157287a3286572863c28558285522c6922c28e2a6832a67f2917d287cb2864128624280d0280ca2c6842c2722a6672a66328f69287a92877928608)
  (.lf
  0x296ba2969c29694296682965c2962c295fa295e2295da29614295bc296462959a295882956c295622963a29552295402950a2950029524294ec294e2294d228e7a28cde28c9e2974f2974d297492973f2973d2973b296cd296cb296c9296c7296bb296b9296b7296b5296b12969f2969d2969b296972969529693296912968d296692966729665296612965f2965d2965b296572962d2962b2962929625295fb))
  (.nd (.lf
  0x22449224442113420cca317663159730419303e3303cc2645e263652247f22446223f72112a20ccc3175e3159b3041d303ce3039f26454263692248322448223fb2112020cce317543159f30421303d0303a32644a2636d22487223ff223f62111420b6e31744315a330425303d2303a726440263712248b22403223fa2110c20b563173a315a730429303d4303ab26436263752248f22407223fe20fdc20b3e)
  (.lf
  0x1e4081e3f21e3dc1e3c61e3b01e39a1e3841e36e1e3581e3421e32c1e3161e3001e2ea1e2d41e2be1e2a81e2921e27c1e2661e2501e23a1e2241e4b71e4a91e4a51e4a31e4951e4931e48f1e48d1e47f1e47d1e4791e4771e4691e4671e4631e4611e4531e4511e44d1e44b1e43d1e43b1e4371e4351e4271e4251e4211e41f1e4111e40f1e40b1e4091e3fb1e3f91e3f51e3f31e3e51e3e31e3df1e3dd1e3cf)))
  (.nd (.nd (.lf
  0x3bd1c3bd103bd063bcfa3bcee3bce23bcd63bccc3bcc03bcb43bcaa3bc9e3bc923bc863bc7a3bc6e3bc623bc563bc4a3bc3e3bb803ba9a3ba043b92c3b87c38ab438aaa38a9e38a9638a8e38a8438a7a38a7038a6238a5a38a52388ca3887a38860388563884e38842388383882e388243881a3881038806387fe387f4387ea387e0385d2385ca385c03beb83beac3bea23be963be8c3be803be763be6e3be60)
  (.lf
  0x1ef4a1ef401ef341ef241ef181ef0e1ef081eef41eede1f0511f04d1f0471f0451f0431f0411f03d1f03b1f0391f0371f0331f02f1f02d1f02b1f0271f0251f0211f01f1f01b1f0171f0151f0131f00f1f00b1f0091f0071f0031efff1effd1effb1eff71eff51eff11efef1efeb1efe91efe51efe31efdf1efd71efd31efd11efcd1efcb1efc71efdb1efc51efc11efbf1efbd1efb91efb51efb31efb11efad))
  (.nd (.lf
  0x37808377a63764f3764c377f8377903776c3776b377da377823763d3763a37894377d4377703776f373f4371813717637174373e23716e371603715d3719037138371353713037110370f036e1636e153710a370f93bbc53bbba3bb0b3bb083bb063bb003ba9e3ba6c3ba4f3ba483ba1c3b99a3b9993b9923b9303b8da3b8d93b8d63b8653b85c3b8303b82e3b8203b7d73b7ae3b7a83b79a3b7533b7503b74e)
  (.lf 0)))

def shaXorReads159 : BTree :=
  .nd (.nd (.nd (.lf
  0x105250cac10c05b0c0140bfdf0bfc811b4311b1c105270cac30c05f0c0160bfe10bfca11afb11ad0105290cac50c0630c0180bfe30bfcc11ab311a841052b0cac70c0670bfe50bfda0bfce11a6911a381052d0cac90c06b0bfe70bfdc0bfd011a1d119e81052f0cacb0c06f0bfe90bfde0bfd2119c91198e105310cacd0c0730bfeb0bfe00bfd4119771195a105330cacf0c0770bfed0bfe20bfd61195310535)
  (.lf
  0x3c90b3c9093c9033c8eb3c8e93c8e73c8e33c8df3c8db3c8dd3c8d93c8d53c8d33c8ef3c8d13c8cd3c7c73c7ed3c7c53c7c13c7a93c7a73c7a33c79d3c7913c7ad3c78f3c78b3c7813c77f3c77b3c7793c7773c7753c7713c76f3c76d3c76b3c7673c7633c7613c7f13c75f3c75b3c7273c7253c7213c71d3c71b3c7193c7113c70f3c6f53c6f33c6ed3c6e93c6bb3c6fb3c6b93c6b53c6b33c6f93c6b13c6ad))
  (.nd (.lf
  0xdc7e0dcee0dc820dce40dc860dcda0dc8a0dcd00dc8e0dcc60dc920dcbc0dc960dcb20dc9a0dca80dc9e0dca41522e159b6152321598215236159481523a1590e1523e158d21524215896152461585e1524a158281524e157ee15252157b6152821577a152861573c1528a157021528e156ca1529215692152961565a1529a1561e1529e155e4152a2155a8152a61556e152aa15532152ae154fa152b2154c4)
  (.lf 0))) (.nd (.nd (.lf
  0x3dff43deba3de883e99c3e9883e9343e92c3e90e3e8f23eb2a3eb103eaf83eb4a3ea343eb2c3eb123eafa3eb4c3ea383e9dc3e9b63e99e3e98a3e9363e92e3e9103e9543e9663eb2e3eb143eafc3eb503ea3a3e9e03e9b83f7d83f7c23f7ac3fbba3f7803f46c3fa9a3f9b23f9023f8c43f86c3fab43f9cc3f8fc3f8ba3f8763fbca3f8083f7e03f7c03f7a43fbc23f78a3f4743f4563fa9c3f9983f8ea3f8b6)
  (.lf
  0x49bb049b9049b5049b30497904977049730497104939049370493304931048f901ef001ec201e8001e3a01dfe01dbe01d7e01d3401cf801cb801c6e01c2801bec01ba201b5c01b1601ada01a9001a5401a14019d40198a0194e0190e018c40188801848017fe017c2017820174201ef101ec901ec501ec301e8901e8701e8301e8101e4301e4101e3d01e3b01dfb01dff01df901df501dbb01dbf01db901db5))
  (.nd (.lf
  0x5a4005a0c059fa059c6059b4059800596e0593a05928058f4058e2058b2058a005872058600583205820057f2057e0057b2057a00576e0575c0572c0571a056e8056d6056a6056940566205650056200560e055e0055ce055a4055920556a055520699a0698a06962069500691e0690c068dc068ca068980688606856068440681206800067cc067ba0678a067780674a067380670a066f8066c6066b406680)
  (.lf 0)))

def shaXorReads160 : BTree :=
  .nd (.nd (.nd (.lf
  0xf1390f1190f1020ddc20dc0308e4008e020f68d0f66d0f6680f4a20f31d0f13d0f11b0f1040ddb80dc0708e0408dc20f6910f66f0f66a0f4980f3210f1410f11d0f1060ddae0dc0b08dc408d840f6950f6710f66c0f48e0f3250f1450f11f0f1080dda40dc0f08d7a08d3c0f6990f6730f66e0f4840f3290f1490f1210f10a0dd9a0dc1308d3e08cfc0f69d0f6750f6700f47a0f32d0f14d0f1230f10c0dd90)
  (.lf
  0x2c92a2c88b2c9202c88f2c9162c8932c90c2c8972c9022c75f2c8f62c7472c8e82c89b2c8e02c89f2c8d62c8a32c8cc2c8a72c8c42c8ab2c8b82c8af2c8b32dbbd2dcfc2dbbf2dcf42db6f2dcec2db392dce22dafb2dcd82daef2dcce2dbc72dcc42dbaf2dcbc2db652dcb02db432dca62db072dc9e2dbb32dc942dbd12dc882db692dc7c2db4b2dc722db0b2dc622db0f2dc5c2dbd52dc542da892dc462da39))
  (.nd (.lf
  0x9312093160931a09f0e09f1209f1609f1a09f1e09f2209f2609f2a09f2e09f3209f3609f3a09f3e09f4209f4609f4a09f4e09f5209f5609f5a09f5e09f6209f6609f6a09f6e09f7209f7609f7a09f7e09f8209f8609f8a0aa160aa1a0aa1e0aa220aa260aa2a0aa2e0aa320aa360aa3a0aa3e0aa420aa460aa4a0aa4e0aa520aa560aa5a0aa5e0aa620aa660aa6a0aa6e0aa720aa760aa7a0aa7e0aa820aa86)
  (.lf
  0x6a00060000560004c000420016f0016d001690016700165001630015f0015d0015b001590015500153001510014f0014b001490014700145001410013f0013d0013b001370013500133001310012d0012b001290012700123001210011f0011d001190011700115001130010f0010d0010b00109001050010300101000ff000fb000f9000f7000f5000f1000ef000ed000eb000e7000e5000e3000e1000dd)))
  (.nd (.nd (.lf
  0x70a1070980920b085ed07a29079e4079af079980705a070570920d085ef07a2d079e6079b10799a0701b070120920f085f107a31079e8079b30799c06fd406fd109211085f307a35079ea079b50799e06f9506f8c09213085f507a39079b7079ac079a006f5506f4c09215085f707a3d079b9079ae079a206f0e06f0b09217085f907a41079bb079b0079a406ed006ecd09219085fb07a45079bd079b2079a6)
  (.lf
  0x37c8a37c4a37c3c37c3237d9537d9337d8f37d8b37d8937d8d37d8737d8337d8137d7f37d7b37d7937d7737d7537d7137d6d37d6b37d6f37d6937d6537d6337d9937d6137d5d37d5b37d5937d5537d5337d5137d4f37d4b37d4937d4737d4537d4137d3f37d3d37d3b37d3737d3537d3337d3137d2d37d2b37d2937d2737d2337d2137d1f37d1d37d1937d1737d1537d1337d0f37d0b37d0937d0737d0337d01))
  (.nd (.lf
  0x2be282be482be2c2be322cf122d1402cf162d13a2cf1a2d1282cf582d11e2cf5c2d1142cf602d10a2cf642d1002cf682d0ee2cf6c2d0e62cf702d0da2cf742d0ce2cf782d0c42cf7c2d0be2cf802d0ae2cf842d0a22cf882d0982cf8c2d0902cf902d0822cf942d0702cf982d0682cf9c2d05a2cfa02d0502cfa42d0482cfa82d03c2cfac2d0302cfb02d0262cfb42d0182cfb82d00e2cfbc2d0042cfc02cff8)
  (.lf 0)))

def shaXorReads161 : BTree :=
  .nd (.nd (.nd (.lf
  0x2325c23254271c226b4e249ad249a923a99231f5231c02319b22cde22cd8271ba26b02249952499123a9b231f9231c22319d22c6822c62271b426ade248d1248cd23a9d23a01239fc239fb239f8239f226aa626a88248792487523a4d231fd231c42319f22c2822c2226a8026a1c2470b2470723a3323201231c6231a122bc622bc026a6a26a0c246bb246b72353723205231c8231a322ae822ae226a40269aa)
  (.lf
  0x235652352f2352b23529234f3234f5234f1234ed234eb234e9234e5234d9233352404c24046240382403023fd623fce2410623fba23fb423fa623f9e23f9223f8823f8023f7423f6e23f6023f5823f4223f36237e4237d8237d2237c4237bc235ac2358a2356223520234ce234c42404d2404b240472404524043240412403d2403b240392403724033240312402f2402d2402923fd923fd723fd523fd123fcf))
  (.nd (.lf
  0x2bd981e8fc1e6431db411db1b1db161c3361bf102d0fa2cf692bddb2bdb12bd9a1e8e61e6471db451db1d1db181c32a1bec02d0f02cf6d2bddf2bdb32bd9c1e8d01e64b1db491db1f1db1a1c3241bf0e2d0e82cf712bde32bdb52bd9e1e8ba1e64f1db4d1db211db1c1c31a1bec22d0dc2cf752bde72bdb72bda01e8a41e67f1db511db231db1e1c3101bf0c2d0d02cf792bdeb2bdb92bda21e88e1e6831db55)
  (.lf
  0x1db951db911db8f1db8d1db8b1db871db851db831eebc1ee9c1ee7a1ee561ee341ee121edf01edce1edac1ed8a1ed681ed461ed241ed021ece01ecbe1ec9a1ec761ec521ec2e1ec0a1ebe61ebc21eb9e1eb7a1eb581eb341eb101eaee1eacc1eaa81eebd1eebb1eeb71eeb51ee9d1ee9b1ee971ee951ee7b1ee791ee751ee731ee571ee551ee511ee4f1ee351ee331ee2f1ee2d1ee131ee111ee0d1ee0b1edf1)))
  (.nd (.nd (.lf
  0x302dc302d2302c8302be301243011a3011030104300fc2ff802ff32314683145e31452314463143e314343142a31420314163140c313fc313f2313ea313e2313d8313ce313c6313be313b4313a83139e313943138a31382313763136c3136431230311923116231f4231f3631f2a31f1e31f1231f0631efe31ef231ee631ec231eb831eae31ea231e66319f4319e2319cc319c03198e319823196e319343190c)
  (.lf
  0x1a9a31a9a11a99d1a99b1a9991a9971a9931a9911a98f1a98d1a9891a9871a9851a9831a97f1a97d1a97b1a9791a9751a9731a9711a96f1a96b1a9691a9671a9651a9611a95f1a95d1a95b1a9571a9551a9531a9511a94d1a94b1a9491a9471a9431a9411a93f1a93d1a9391a9371a9351a9331a92f1a92d1a92b1a9291a9251a9231a9211a91f1a91b1a9191a9171a9151a9111a90f1a90d1a90b1a9071a905))
  (.nd (.lf
  0x2a74c2a3522a3422a3392a7462a3202a3172a3142a7242a2fd2a2f42a2f22a7122a2e02a2d72a2d42a6fc2a6302a2c02a2b72a6de2a2a22a29a2a2972a6cc2a2832a27e2a2782a6b82a2672a2642a25c2a6a22a24b2a2482a2402a69c2a2342a2262a2232a6882a20f2a20c2a2042a66c2a1f82a1ea2a1e72a65a2a1d22a1ca2a1c72a6522a1b62a1ab2a1a82a63e29faa29fa229f9f2a63829f2029f1229f0f)
  (.lf 0)))

def shaXorReads162 : BTree :=
  .nd (.nd (.nd (.lf
  0x344e1333753336f3336c3336a3336437b44376de354cf354cb34475332a13329f3329c3329a3329437b1c376ea354ab354a73440f336dc332b5332b3332b0332aa37b06376c83547f3547b343d5336df336bc33335333323332c37afc376cc35467354633439f33744336bf3360f3360c3360637aaa376b43543f3543b34375337473368e332123320d3320a37aa4376aa354253542134349336913366c331d3)
  (.lf
  0x4197d4197f4197b4197741975419734196f4196741965419634195f4190b41907418ef418eb418e7418e541919418e3418df4151f4151d41519414fd413434124b41247412434124141ea441ea641e7c41e6641e6241e5041e5441e7241e2241de041e3641dc241da641d9641d9c41d8841d9a41d7241d6841c5a41c1841be841bda41ba041982419904192e4195c4191c415044125441ea541ea741ea341e9f))
  (.nd (.lf
  0x35eae395bf395a035f2c35ea335e9435e70395a33958835ebc35e3535e2c35e263958b395703626935ea235df835de03956f3626b35e3435c4e39bbd373fc3730b373093730639db839aeb37530372813727d3727a3726c39dae39ad53752837308372853727f3727839da639ab73751a3727c3721d37209371f439d9a39abf375123727e372213720b3720239d9239a853750c372253720d37208371fc39d84)
  (.lf
  0x2fc412fc3d2fc3b2fc392fc372fc332fc312fc2f2fc2d2fc292fc272fc252fc232fc1f2fc1d2fc1b2fd352fc192fc152fc132fc112fc0d2faad2faab318423183831824318283182c3180a317e6317da3179c31792317883177e3177a317683175c317503174a317383172e31720317183170a316fe31702316e8316de316ce316c4316bc315fc315e031843318413183d318393183731835318313182b31825)))
  (.nd (.nd (.lf
  0x38efe38f0238f063966c396523963e3962a396803960c395f63967039656396723965a396843962e3968839610395fa395e6395ce395b639598395803956a39c4e39c5239c5639c5a39c5e39c6239c6639c6a39c6e39c7239c7639c7a39c7e39c8239c8439c8839c8c39c8e39c9239bc439bc839bcc3a2103a2123a1da3a1de3a1b43a1323a1363a2163a21a3a21e3a2223a1e23a1e63a1b83a13a3a13e3a142)
  (.lf
  0x28733287312872f2872928705287b528703286ff286fd28707286fb286f7286f528769286f3286ef286912868f2868b28685286812987a29870298682985c298522984a29848298342982c29820298182980a2980c297f6297ec297fe29812297d0297c6297c2297b2297a8297a22979629786297802978c2972c2972429712297162987b298792987529873298712986f2986b298692986729865298612985f))
  (.nd (.lf
  0x169a7169e0169ab169d616903169cc168cf169c2168d3169b8169b5168db178cf17a94178d317a8a1799917a80178fd17a761790117a6c1790517a621790917a581790d17a4e1794717a441784117a3a1784517a301784917a261798f17a1c1791117a121799d17a0817915179fe17919179f41791d179ea1793d179e01786f179d61794b179cc1784f179c217923179b817927179ae1792b179a1179841797e)
  (.lf 0)))

def shaXorReads163 : BTree :=
  .nd (.nd (.nd (.lf
  0x165bb15cb315c7015c4715aca15ab218ea818e6c175671754f165bd15cb715c7215c4915ad415ace18e6818e2217569175511655515cbb15c7415c4b15a4415a3e18e2418de01756b175531650f15cbf15c7615c4d15a2815a1018de218da0174b7174b31651115cc315c7815c4f15a2a15a1218da218d681749d1748d1651315cc715c7a15c5115a2c15a1418d6018d2e1749f1748f1651515ccb15c7c15c53)
  (.lf
  0x818c0815c0811c080c608096080400801007fd007f9007f5007f1007eba07e7407e4407dee07dbe07d6807d2207cf207c9c07c5607c2607be607ba607b6607b2607ae607aa6082470821f082110820d081d3081e3081d1081cd08195081930818f0818d0814d0815d0814b081470810d0811d0810b08107080cf080cd080c9080c70808708097080850808108049080470804308041080010801107fff07ffb))
  (.nd (.lf
  0x20c8b20c7820c7520c6220c5f20c4c20c4920c3620c3320c2020c1d20c0a20c0720bf420bf120bde20bdb20bc820bc520bb220baf20b9c20b9920b8620b8320b7020b6b20b5820b5320b4020b3b20b2820b2320b1020b0b20af820af320ae020add20aca20ac720ab420aaf20a9c20a9920a8620a8320a7020a6d20a5a20a5720a4420a4120a2e20a2b20a1820a1520a0f1e4b51e4a11e4941e48b1e47e1e475)
  (.lf 0))) (.nd (.nd (.lf
  0x961c095d6095900954e0950a094c40947e0943c093fc093bc0937c0698006946068fe068c0068780683a067f4067ac0676c0672c066ee066a8066620661a065da0659a0655c06514064d6064900644a06404063bc0637e06338062f0062b20626a0622c061e409b0009ac209a8009a3c099fa099b60997409930098ee098ae0986e0982e097ea097a40976209722096e20969e0965809612095cc0958609544)
  (.lf
  0xc1270c1250c1090c1050c1030bf180bf0e0bf040befa0bef00bee60bedc0bed20bec80bebe0beb40beaa0bea00be960be8c0be820be780be6e0be640be5a0be500be460be3c0be320be280be1e0be140be0a0be000bdf60bdec0bf190bf170bf130bf110bf0f0bf0d0bf090bf070bf050bf030beff0befd0befb0bef90bef50bef30bef10beef0beeb0bee90bee70bee50bee10bedf0bedd0bedb0bed70bed5))
  (.nd (.lf
  0x319203191f318f4318ed318e6318e53188c3188b318603185d317b9317b03168931680316443162d3161532ec1330d232ec5330c632ead330ba32ea3330b032e97330aa32e853309c32e7d3308c32e6b3308232e8b3307632e613306e32e4d3306432e3f3305632e873304c32e373304632e1d3303c32b733303232b473302232b1f3301c32af73301032ad33300432fed32a7632a6532a2d32a26329fe329eb)
  (.lf 0)))

def shaXorReads164 : BTree :=
  .nd (.nd (.nd (.lf
  0x639005dd005d2005a40048b41f1841b5001f3b00df5006480063b005df005d40059a0048941f1241b3201f3d00df70064a0063d005e1005d6005900048741f0441b2401f3f00df90064c0063f005e3005d8005860048541efc41b3601f4100dfb0064e00601005e5005da0057c0048341ef441b3c01f4300dfd0065000603005e7005dc005720048141ee441b0801f4500dff0065200605005e9005de00568)
  (.lf
  0x2a57e2a4002a5742a3dc2a5682a3ba2a5602a3982a55a2a36c2a5522a3502a5442a32e2a53c2a3062a5342a4fc2a52a2a5002a5202a5042a5162a5082a5842a50c2a4342a4302a4062b9ee2bb902b9f22bb882baa02bb7c2ba6c2bb742b9fa2bb6c2ba6e2bb602ba002bb582ba042bb4a2ba082bb422ba0c2bb382ba102bb2c2ba142bb222ba182bb1a2ba1c2bb0c2ba202bb022ba242bafc2ba282baf02ba2c))
  (.nd (.lf
  0x5ee805eec05ef006aee06af206af606afa06afe06b0206b0606b0a06b0e06b1206b1606b1a06b1e06b2206b2606b2a06b2e06b3206b3606b3a06b3e06b4206b4606b4a06b4e06b5206b5606b5a06b5e06b6206b6606b6a0773c0774007744077480774c0775007754077580775c0776007764077680776c0777007774077780777c0778007784077880778c0779007794077980779c077a0077a4077a8077ac)
  (.lf
  0x389f1389eb389e7389e5389e3389df389dd389db389d93899f3899d3899b389993899538993389913898f3898b389893898538987389833897f3897d389d53897b3897738975389733896f3896d3896b394a0394983948a394783947e394663945c3944e3944639430394363943a3941239406393fa393ee393e0393d4393ca393c0393b839372393663935a393463933a3932a39312392d8392cc392ac394a1)))
  (.nd (.nd (.lf
  0x76be075fe0a42c0a40808f3308eb3083150779d0771b07704076c0076000a3fe0a3d808f3508eb508317077a10771d07706076c2076020a3da0a3b008f3708eb708319077a50771f07708076c4076040a3b20a38a08f3908eb90831b077a9077210770a076c6076060a3800a35e08f3b08ebb0831d077ad077230770c076c8076080a4a80a33808f3d08ebd0831f077b1077250770e076ca0760a0a32e0a30c)
  (.lf
  0x30ebe30e1430e0c30e1a30cca30cce30cb630cae30ca230cd430b5630ac230aa230ad230a6430a0c309c23095430958312af312ad3124731243312413123f3123b312393123731235311d1311cf311cd311cb311c7310ff310fb31101310f93109d3109b310a13109931095310813107f3107b3101f30fe730fe530fe130fdd30fdb30fd930f1530f1330f1130f0f30f0b30f0730f0530f0330eff30efd30efb))
  (.nd (.lf
  0x194c719516194c51950c194c319502194c1194bf1a3f31a5181a3cf1a5101a39b1a5041a35f1a4fa1a3211a4f01a2e31a4e61a2a71a4de1a2691a4d41a22b1a4c81a1f11a4bc1a1b51a4b61a17b1a4aa1a13f1a4a21a1031a4981a0cb1a48c1a0931a4841a0591a4781a01f1a46e19fe31a46219fa51a45a19f691a45019f2b1a44819eed1a43e19eb11a43419e7319e3319df419de919db019da519d6e19d61)
  (.lf 0)))

def shaXorReads165 : BTree :=
  .nd (.nd (.nd (.lf
  0x28e5028c57273472612d252b1252252521a2520028e4828c3f273492612f252b5252272521c2520228e3628c412734b25fe1252b9252292521e2520428e2e28c432734d25fe3252bd2522b252202520628e2228c292734f25fe5252c12522d252222520828e1628cf72735325fe7252c52522f252242520a28e0a28cf92735525eed2524d25231252262519c28dfe28cfb2735725e652525125233252282519e)
  (.lf
  0x15a3315325153231531d152f31692e169241691a1691016952168ea168741686e16860168561684c1683a16826167f2167ea167de167d4167c8165cc1658c16588165781656e165641655a1654c164e8164e0164be1648a169ac1692f1692d169291692716925169231691f1691d1691b16919169151691316911169531690f1690b1690916907168eb168e9168e7168e5168e1168df16875168731686f1686d))
  (.nd (.lf
  0xcf6c20a0b16d910f4e10f4ca0d3a10d39c0cf60209972097b2096417c8f1365f1364513640121e9121da2099b2097d20966184d617c93136631364713642121c0121bd121b21219e2099f2097f20968184a617c97136671364913644121801217d121701215a209a3209812096a1846c17c9b1366b1364b136461213c121391212c12116209a7209832096c1843417c9f1366f1364d13648120f8120f5120e8)
  (.lf
  0xe56c0e5620e5580e54e0e5440e53a0e5300e5260e51c0e5120e5080e4fe0e4f40e4ea0e4e00e4d60e4cc0e4c20e4b80e4ae0e4a40e49a0e4900e4860e47c0e4720e4680e45e0e4540e44a0e4400e56d0e56b0e5670e5650e5630e5610e55d0e55b0e5590e5570e5530e5510e54f0e54d0e5490e5470e5450e5430e53f0e53d0e53b0e5390e5350e5330e5310e52f0e52b0e5290e5270e5250e5210e51f0e51d)))
  (.nd (.nd (.lf
  0x1b9621b9581b94e1b9441b93a1b9301b9261b91a1b9121b9081b8fe1b8f41b8e81b8de1b8d61b8ca1b8c01b8b61b8ac1b8a21b8961b88e1b8841b87a1b8721b8681b85e1b8541cb221cb181cb0e1cb041caf81caf01cae61cadc1cad21caca1cabe1cab61caac1caa21ca981ca8e1ca841ca7a1ca701ca661ca5c1ca521ca481ca3e1ca341ca2a1ca201ca161ca0c1ca021d15c1d1521d1461d13c1d1301cffc)
  (.lf
  0x1581d1581b15817157ff157e3157e1157dd157c7157a9157a7157a31578b1576d1576b157671574d1572f1572d1572915713156f5156f3156ef156db156bd156bb156b7156a315685156831567f1566b1564d1564b156471562f156111560f1560b155f5155d7155d5155d1155b91559b15599155951557f155611555f1555b155431552715525155211550b154ef154ed154e9154d5154b9154b7154b31549b))
  (.nd (.lf
  0x7fcf07fc607fc207fba07f8f07f8607f8207f7a07f4f07f4607f4207f3a07f0f07f0607f0207efa07ec807ec407ebc07eb907e8207e7e07e7607e7307e4307e3a07e3607e2e07dfc07df807df007ded07dbd07db407db007da807d7607d7207d6a07d6707d3007d2c07d2407d2107cf107ce807ce407cdc07caa07ca607c9e07c9b07c6407c6007c5807c5507c2507c1c07c1807c1007be507bdc07bd807bd0)
  (.lf 0)))

def shaXorReads166 : BTree :=
  .nd (.nd (.nd (.lf
  0x36786361b5344bd333d7321753216f3216832118367683619f34467333d932177321713216a3211a361d8361b13448733321321be32179321733211c361ce361a334401333413216c320333203131ffa361c036185343df333513221f3221d3221a32218361b636177343b333289322733216e31f4d31e923616f3615234367331fb322773217031e4d31e4a361473613a342ed331f1322993217231e5931e56)
  (.lf
  0x31c2131c1f31c1b31c1931c1731cc931c1531c1131c0f31c0d31a17317c1316b3316b131695316933166531663316613164d31619336d0336b03373833682336603364233620336ea333883336233292332a83332a3360433208331c8331a23317e331703315a32ff832f8832f7032f5c32f4e32fde3294e328ee328ca328da328b6336d1336cf336b1336af336ad33739336ab336a7336a5336a33369f3369d))
  (.nd (.lf
  0x3850537e1537ddf37dc82d8f82d7ff27ef427cad27c7427c2527a9a386603850937e1937dca37d9b2d8ee2d80327ee827cb127c7627c2927af8386523850d37e1d37dcc37d9f2d8e42d80727ed827cb527c2d27c2427a98386463851137e2137dce37da32d8d82d80b27ec627cb927c3127c2827a78386363851537e2537dd037da72d8d02d80f27ebe27cbd27c3527c2c27a96386283851937e2937dd237da9)
  (.lf
  0x263d7263d3263d1263cf263cd263c9263c7263c5263c3263bf263bd263bb263b9263b5263b3263b127a6c27a5827a4227a2c27a1627a00279ea279d4279be279a8279922797c27966279502793a279242790e278f8278e2278cc278b6278a02788a278742785e27848278322781c27806277f0277da27a6d27a6b27a6727a6527a5927a5727a5327a5127a4327a4127a3d27a3b27a2d27a2b27a2727a2527a17)))
  (.nd (.nd (.lf
  0xb9a60b99c0b9900c71e0c7140c7080c6fe0c6f20c6e80c6e00c6d60c6ce0c6c20c6b80c6ac0c6a40c69a0c6900c6880c67c0c6720c6660c65e0c6540c64a0c6420c6360c62c0c6220c6180c60e0c6040c5fc0c5e60c5dc0c5d00c5c80c5be0c5b40c5ac0c5a20c5980c58c0c5820c5780c5700c5660c55c0c5520c5460c53c0c5320c52a0c5200c5160c50c0c5000c4f60c4ec0c4e40c4da0c4bc0c49e1076a)
  (.lf
  0x22a8b22a8922a8522a8122a7f22ab522a7d22a7922a7722a7522a7122a6f22a6b22ba122a6922a6522a6322a6122a5d22a5b22a5722a5522a5122a4f22a4b22bdb22a4922a4522a4322a4122a3d22a2d22a2b22a2922a1b22a1722a1522a13229732296b2295f2295d22959229552294f22ec022eb422eac22ea222e9622e9422e7e22e7422e6822e6022e5422e4622d9822d8c22d8422d7822d6e22d9c22d44))
  (.nd (.lf
  0x14e7014e4614e4214e1a14e1614dee14dea14dc214dbe14d9614d9214d6a14d6614d3e14d3a14d1615c8015e2415c8415e1a15c8815e1015c8c15e0615c9015dfc15c9415df215c9815de815c9c15dde15ca015dd415ca415dca15ca815dc015cac15db615cb015dac15cb415da215cb815d9815cbc15d8e15cc015d8415cc415d7a15cc815d7015ccc15d6615cd015d5c15cd415d5215cd815d4815cdc15d3e)
  (.lf 0)))

def shaXorReads167 : BTree :=
  .nd (.nd (.nd (.lf
  0x17aa5175e61ad951ad7019989186b717b2917aa717a9c175dc1ad4f1ad2a1998b186b917b2d17aa917a9e175b61ad0d1ace81998d186bb17b3117aab17aa0175a61accd1aca41998f186bd17b3517aad17aa2175be1ac851ac7019991186bf17b3917aaf17aa4175a81ac6719993186c117b3d17ab117aa6175aa1bf191a83b1999518af518a6718a5c186821c36e1bf171a83d1999718af918a6918a5e18684)
  (.lf
  0x3fe0d3fdbb3fdb33fdab3fda33fd9f3fd8f3fd8d3fd893fd873fd853fd833fd7f3fd7d3fd7b3fd793fd753fd5b3fd573fd4b3fd473fd453fd353fd913fd333fd2f3fd1d3fd213fd1b3fd173fd0f3fd0d3fd093fd033fcff3fcf33fcef3fceb3fcd93ff793fcd73fcd33fca93fcab3fca53fca13fc8b3fc5f3fc5d3fc593fbef3fbed3fbe93fbe73fbe53fbf33fbe33fbdf3fb273fb293fb253fb213fb1f3fb2d))
  (.nd (.lf
  0x3a6183a8223a5f43a8163a5f83a80c3a5dc3a8063a5d03a7f83a5b23a7f03a5b63a7e63a5ba3a7dc3a5be3a7d03a5c23a7ca3a70c3a7bc3a7103a7b63a6ec3a7aa3a7243a7a03a74a3a7983a7323a7883a6943a77e3a7143a7763a7183a7703a71c3a7623a7283a75c3a6f03a7503a7363a7463a6d43a73e3a73a3a6b83a6983a6aa3a69c3a6a43a6a03a6683a65e3a6583a6543a62e3a62a3a622103fa103a8)
  (.lf 0))) (.nd (.nd (.lf
  0x299322af282af142aefe2aee82aed22aebc2aea62ae902ae7a2ae642ae4e2ae382ae222ae0c2adf62ade02adca2adb42ad9e2ad882ad722ad5c2ad462ad302ad1a2ad042acee2acd82acc22acac2af202af0a2aef42aede2aec82aeb22ae9c2ae862ae702ae5a2ae442ae2e2ae182ae022adec2add62adc02adaa2ad942ad7e2ad682ad522ad3c2ad262ad102acfa2ace42acce2acb82aca22abd22abc82abbe)
  (.lf
  0x7b8907b8707b8307b8107b4907b4707b4307b4107b0907b0707b0307b0107ac907ac707ac307ac107a89050dc050ae050760502c04fe604faa04f6a04f2004eda04e9404e4e04e0804dcc04d8c04d4c04d0204cc604c8604c4604bfc04bc004b8004b4004af604ab004a6a04a24049de049a20496204922050dd050b5050b1050af0507305077050710506d05035050330502f0502d04fef04fed04fe904fe7))
  (.nd (.lf
  0x2f8582f5da2f84c2f5d42f8402f5602f83a2f52c2f7f82f3fc2f7f22f3ca2f7ae2f3d02f7a62f3822f7702f3622f76a2f3a82f2fe30c7e3124230c743123630c62311cc30c6c311c630c503109a30c4a3109430c283101e30c1630fda30c1a30f1030c0230f0a30c4230efa30c5230eba30bea30e1830bdc30e0a30bd430e0430bd030dfc30bb830cc230c4e30cb830c4630cac30c4830ca430c4c30cd230b54)
  (.lf 0)))

def shaXorReads168 : BTree :=
  .nd (.nd (.nd (.lf
  0x2ac002a820e5480e3d10e0150dff10dfda02a8402a440e53e0e3d50e0190dff30dfdc02a3a029fc0e5340e3d90e01d0dff50dfde029fe029be0e52a0e3dd0e0210dff70dfe0029b4029780e5200e3e10e0250dff90dfe20296e029320e5160e3e50e0290dffb0dfe402928028ea0e50c0e3e90e02d0dffd0dfe6028ec028aa0e5020e3ed0e0310dfff0dfe8028ac0286a0e4f80e3f10e0350e0010dfea0286c)
  (.lf
  0xa1a609f590a17c09f5d0a15409f610a12609f650a0fc09f690a0d209f6d0a0aa09f710a08009f750a05809f790a02a09f7d0a00009f8109fd609f8509fb609f8909f8f0aa190ae440aa1d0ae2a0aa210ae0e0aa250adf20aa290add60aa2d0adba0aa310ad9e0aa350ad820aa390ad620aa3d0ad400aa410ad220aa450ad020aa490ace00aa4d0acbe0aa510ac9c0aa550ac7c0aa590ac5a0aa5d0ac3a0aa61))
  (.nd (.lf
  0x85ba085bc085be091de091e0091e2091e4091e6091e8091ea091ec091ee091f0091f2091f4091f6091f8091fa091fc091fe09200092020920409206092080920a0920c0920e09210092120921409216092180921a0921c09e4e09e5009e5209e5409e5609e5809e5a09e5c09e5e09e6009e6209e6409e6609e6809e6a09e6c09e6e09e7009e7209e7409e7609e7809e7a09e7c09e7e09e8009e8209e8409e86)
  (.lf
  0x3ab5b3ab513ab4d3ab4b3ab873ab493ab453ab433ab5f3ab413ab3d3ab3b3ab393ab353ab333ab313ab2f3ab2b3ab153ab133ab113ab0d3ab0b3ab093ab073ab033ab013aaff3aafd3aaf13aaef3aaed3aaeb3aae73aae53aae33ab833aae13aa813aa713aaf53aa6f3aa6b3aa5f3aa5d3aa593aa573aa493aa473aa433aa413aa373aa353aa2d3aa273aa1f3aa1d3aa193aa173aa033aa013a9fd3a9fb3a9f9)))
  (.nd (.nd (.lf
  0xc4c00c4902ecf0228b016b10167b0167000e1400c3600c3302ed10228d016b5016720163d00e1600c2000c1d02ed30228f016b9016740163f00e1800c0a00c0702ed502291016bd016760164100e1a00bf400bf102ed702293016c1016780164300e1c00bde00bdb02ed902295016c50167a0164500e1e00bc800bc502edb02297016c9016470163c00e2000bb200baf02edd02299016cd016490163e00e22)
  (.lf
  0x33a5733a53338423383833830338243381a3381033806337fc337f2337e8337de337d4337ca337c0337b6337ac337a2337983378e337843377c33772337683375c3375e3372a33720337163370a33734333aa33843338413383d3383b338393383733833338313382f3382d338293382733825338233381f3381d3381b338193381533813338113380f3380b33809338073380533801337ff337fd337fb337f7))
  (.nd (.lf
  0x3e0383e02b3defa3dee13dea43ded33f2cd3f6283f2c73f60c3f2b93f5cc3f2d13f5903f28d3f57a3f2773f5703f2753f5483f27b3f5363f2573f5143f2493f4f43f2453f4ee3f25b3f4e63f2433f3883f2293f3643f2853f35a3f2933f34c3f1eb3f3283f1ef3f3123f1d33f2f43f1bf3f2e23f2993f19f3f1763f16f3f1223f1093f1043f0f23f0d73f0cb3ee3e3ee243ee093ee193ed983ed813ea843ea99)
  (.lf 0)))

def shaXorReads169 : BTree :=
  .nd (.nd (.nd (.lf
  0x31f2631cb7300632eebd2db472db3f2db3c2db3a31f1a31ae1300672eed12db112db012dafe2dafc31f0e31ad53006b2ee1d2dba82db152db032daf031f0031acd3006f2ee0d2dbd72dbcd2dbca2dbc831ef431abd300192eddb2db602da852da832da6431eee31ab12fe6d2ed2b2db3e2da352da332da3031ec431aa32fe6f2edc92db002da072da042da0331eba31aa92fe712ece72db022d9ed2d9eb2d9e8)
  (.lf
  0x1c5911c58f1c58b1c5831c5571c5631c5551c5511c51f1c5331c51d1c5191c4ff1c4fd1c4f91c4f71c4bf1c4bd1c4b91c4b71c4891c4871c4831c4811c47f1c47d1c4791c4771c3cf1c3cd1c3c91c3c71c28d1c28b1c2871c2851c24b1c2491c2451c2431c1fb1c1f91c1f51c1f31c1bf1c1bd1c1b91c1b71c1711c16f1c16b1c1691c1391c1371c1331c1311c0e51c0e31c0df1c0dd1c0ab1c0a91c0a51c0a3))
  (.nd (.lf
  0x2548b254342540b1cd501cb9f17d2917ca117c9812de412d9e2674a2660f2548f254362540d1cd381cba317d2d17ca517c9c12d9412d88267342661325493254382540f1cd201cba717d3117ca917ca012d7e12d742671e26617254972543a254111cd081cbab17d3517cad17ca412d6c12d42267082661b2549b2543c254131ccf01cbaf17cb117ca812d6212d3c266f22661f2549f2543e254151ccd81cbb3)
  (.lf
  0x1921919215191e9191db191d9191d5191a91919b1919919195191691915b191591915519127191191911719113190e1190d3190d1190cd1909f190911908f1908b1905f190511904f1904b1901b1900d1900b1900718fd918fcb18fc918fc518f9918f8b18f8918f8518f5518f4718f4518f4118f0f18f0118eff18efb18ec918ebb18eb918eb518e8318e7518e7318e6f18e3d18e2f18e2d18e2918dfb18ded)))
  (.nd (.nd (.lf
  0x26b9a269d4269cc269c0269762696e269622695a2694e26942270762706c26ffa26fea26ec826ec026eb826e1c26da026d9626d8626d7226ce226cd826ccc26cc426c3a26bf826be826be026b3226b2626b1c26b1226aec26ab626a8a269f6269ec269e4270b22700c26f0626e4c26dbc26db026d0c26c6a26bc026b7426af426a1e270ad2707b270ac27009270012700826ff426fbb26fb126fba26f4926f3f)
  (.lf
  0x184471841f1841d184191840d183e5183e3183df183d5183ab183a9183a51839d1836b18369183651835d1832b18329183251831d182eb182e9182e5182dd182ab182a9182a51829918267182651826118253182211821f1821b18211181df181dd181d9181d11819f1819d18199181911815f1815d181591814d1811b181191811518107180d5180d3180cf180c11808f1808d180891807f1804d1804b18047))
  (.nd (.lf
  0x185cc1854417e8a17e87185ba1854217e4417e41185a81854017e0217dff185961853e184f317dbe185841853c17d7c17d7918532184f1194fc194751971c194fa194b419453196fe194f8194aa19421196f8194f6194a0193e7196da194f419496193ab196d4194f21948c19373196b6194f0194821933d196b0194ee194781930519692194ec192cf192c81968c194ea1928a192891966e194e81924c19249)
  (.lf 0)))

def shaXorReads170 : BTree :=
  .nd (.nd (.nd (.lf
  0x3e93f3dfdf3dd263d1583d0b53d0b13d09d3d09a3e9193de353dd1a3d1183d0cf3d0cd3d0cb3d0c83e8fb3dfc73dd143d0fc3d07d3d0793d0773d0743e8e93dded3dd063d24f3d0e03d0653d0633d0603e9033dddb3dd003d1ff3d0ae3d04b3d0493d0463e8c13ddc73dcf23d1db3d0b03d06b3d0393d0343e8c53ddb33dcea3d2733d0cc3cdf93cdf73cdf43e95d3dd9f3dce23d1a53d0763cde33cde13cdde)
  (.lf
  0x3c2c93c39d3c2c73c2c33c2b13c2ab3c2a73c2993c2973c2953c2733c2713c26f3c26d3c2693c2513c24f3c24d3c2033c2013c1f33c2273c1f13c1ed3c1eb3c1e93c1ab3c1a73c1a53c19d3c1993c18f3c1853c1833c17f3c1773c1753c1733c1693c1673c1653c1633c15d3c1533c1513c1b73c14f3c14b3c1493c1473c1433c09b3c0993c0973c0733c0653c05b3c0593c0553c0473bfd13bfcf3bfc13bfbf))
  (.nd (.lf
  0x3a3253a30e3410a33e7f2e7d32e7d12e7ce2e7c82e7c63ab223a8393a3473a3273a3103410433e832e80e2e7aa2e7992e7972e77c3ab183a8773a34b3a3293a312340fa33e872e7d02e75d2e75b2e7422e7403aada3a87b3a34f3a32b3a314340f033e8b2e7962e7152e7132e6fe2e6fa3aacc3a87f3a3533a32d3a316340e633fe12e75a2e6d72e6d52e6b62e6b43aac23a8833a3573a32f3a318340dc33e8f)
  (.lf
  0x2c03f2c03b2c0392c02b2c0292c0252c0232c0152c0132c00f2c00d2bfff2bffd2bff92bff72bfe92bfe72bfe32bfe12bfd32bfd12bfcd2bfcb2bfbd2bfbb2bfb72bfb52bfa72bfa52bfa12bf9f2bf912bf8f2bf8b2bf892bf7b2bf792bf752bf732bf652bf632bf5f2bf5d2bf4f2bf4d2bf492bf472bf392bf372bf332bf312bf232bf212bf1d2bf1b2bf0d2bf0b2bf072bf052bef72bef52bef12beef2bee1)))
  (.nd (.nd (.lf
  0x3232c32322321e63202a3200031fee31fd031fb231e3231e0631de631dba31d9a31d8631d7e31cea31ca231c8831c7e31c6c318a8318a0317fa3169c31666322523223c3215a321503213e3212e321263211e320fe320f6320ee31fbe31e9a31e2c31e2431e1c31d7631d5631d1831d0a31cdc31cd231c5c31c3c31c2831c1e31c1431c0c316b031662336ce336aa336a2336803365e336263361c3361433382)
  (.lf
  0x2588b258892588525853258512584f2584b2581725815258132580f257df2579524e7e24e7624e6a24e6224e5624e4e24e4424e3a24e3024e2424e1a24e1024e0624dfc24df224dea24de024dd624dcc24dc224db824dae24da224d9824da624d8a24d7c24d7024d6624d5e24d5224e7f24e7d24e7924e7724e7524e7324e6f24e6d24e6b24e6924e6524e6324e6124e5f24e5b24e5924e5724e5524e5124e4f))
  (.nd (.lf
  0x37a4a3af2637a103af1a37a0e3af1037af63af0637a0c3aefc37a323794437940379423bbe63bf423bbb03bf363bd743bf2c3bb9c3bf243ba863bf1a3ba403bf0c3b9163bf003b85a3befa3b7c03bef03b7963bee63b71a3beda3b6de3bed23b67c3bec63bd7a3bdae3bba63bda23baaa3bd983ba3a3bd903b9383bd863b84a3bd7c3b7be3bbfa3b7863bbee3b7183bbe83bbe23bba43bba03bab23baae3ba24)
  (.lf 0)))

def shaXorReads171 : BTree :=
  .nd (.nd (.nd (.lf
  0x112d5108fd1086d108561081e1078214490143541249f1246f112d7108811086f1085810820107841448614352124a112471112d910885108711085a10822107861447814350124a312473112db10889108731085c1082410788144701434e124a512475112dd1088d108751085e108261078a144641434c124a712477112df108911087710860108281078c1445a1434a124a912479112e1108951087910862)
  (.lf
  0x27d3027e3027d1027cd02793027a3027910278d02755027530274f0274d0270f0270d0270902707026c9026c7026c3026c102683026810267d0267b0263d0263b0263702635025f502605025f3025ef025b7025b5025b1025af025710256f0256b025690252b025290252502523024e5024e3024df024dd0249d024ad0249b024970245d0246d0245b024570241f0241d0241902417023d9023d7023d3023d1))
  (.nd (.lf
  0x3071e30718306e63070c306da30700306cc306f6306bc306c2306a83069e306903068a30680306723066030656306503064430624306283061430608305903060030586305f43057a305e43056a305dc30564305d030594305c63054a305bc3053e305ac30532305a030596305143050a304fc304f0304e8304e2304cc304c4304b430484304a6304743049e30468304923045c3048c31a1431b023183a31af4)
  (.lf 0))) (.nd (.nd (.lf
  0x1c4801c0201bc001b7c01b3601af001aae01a6a01a28019e8019a80196401922018e20189e0185c0181c017d80179601756002dc002d2002c8002be002b4002aa002a0002960028c00282002780026e002640025a00250002460023c00232002280021e002140020a00200001f6001ec001e2001d8001ce001c4001ba01ed401e9601e5001e0a01dc801d8801d4801d0401cc201c8201c3e01bf801bb601b72)
  (.lf
  0xa08a0a0620a0340a00a09fe009fc009f9e0a4750a4670a4630a4530a4450a4430a43f0a4270a4190a4170a4130a3f90a3eb0a3e90a3e50a3cf0a3c10a3bf0a3bb0a3a70a3990a3970a3930a37b0a36d0a36b0a3670a3550a3470a3450a3410a3290a31b0a3190a3150a3030a2f50a2f30a2ef0a2d70a2c90a2c70a2c30a2ad0a29f0a29d0a2990a27f0a2710a26f0a26b0a2550a2470a2450a2410a2270a219))
  (.nd (.lf
  0xfc040fbfb0fbaa0fb9d0fb4a0fb3b0faea0fadb0fa880fa7d0fa2c0fa230f9d00f9c70f96e0f9650f9060f8fd0f8cf10ea710e8910e7c10e6710e5a10e4910e3c10e2910e1c10e0710dfa10de510dd810dc310db610da110d9410d8310d7610d6310d5610d4110d3410d1f10d1210cfd10cf010cdb10cce10cbd10cb010ca110c9410c8110c7410c6310c5610c4710c3a10c2b10c1e10c0b10bfe10be910bdc)
  (.lf 0)))

def shaXorReads172 : BTree :=
  .nd (.nd (.nd (.lf
  0x3cc933cc013cbe53ca643bfe43bfe23f1263f1063d7e73d7e33cc6d3cc493cbe13c9e63bfda3bfd43f1163eeae3d7bf3d7bb3cc2f3cbc53cb593c9d63bd6e3bd683eea23ee103d7ad3d7a93cc213cbed3cb353c9e03bb703bb6a3ee523eda03d7873d7833cb8d3cb853cb1b3c9b83bae03bade3edb23ea8a3d7793d7753cb613cb153cab53c9a23b9f23b9d63ea8c3ea5c3d7d13d7cd3caf33cad33ca9b3c97e)
  (.lf
  0x8abe0868208a780868608a360868a089f60868e089b6086920897608696089320869a088f00869e088ac086a208866086a608824086aa087e0086ae0879a086b208754086b60870e086ba086c0092a009b02092a409ac6092a809a84092ac09a40092b0099fe092b4099ba092b809978092bc09934092c0098f2092c4098b2092c809872092cc09832092d0097ee092d4097a8092d809766092dc09726092e0))
  (.nd (.lf
  0x51980519a0519c05db405db605db805dba05dbc05dbe05dc005dc205dc405dc605dc805dca05dcc05dce05dd005dd205dd405dd605dd805dda05ddc05dde05de005de205de405de605de805dea05dec05dee05df005df206a2e06a3006a3206a3406a3606a3806a3a06a3c06a3e06a4006a4206a4406a4606a4806a4a06a4c06a4e06a5006a5206a5406a5606a5806a5a06a5c06a5e06a6006a6206a6406a66)
  (.lf
  0x3620f3620b362093620536203361fd361fb361f9361f7361f3361ef361ed361eb361e7361b3361ad361ab361a7361a53619d361af3619b3619736195361a1361933618f3618d3618b3618736183361813617f3617b361753616536167361633615f3615d3615b361573615536145361433613f3612f3612d3612b361273612536115361133610f360ed360e9360ef360e7360e3360e1360df360d3360d1360cb)))
  (.nd (.nd (.lf
  0x209c020730205801f9804bb204b64038a50382502c5f020db0209e020750205a01f9a04b7204b24038a70382702c61020df020a0020770205c01f9c04b3204ae6038a90382902c63020e3020a2020790205e01f9e04adc04aa0038ab0382b02c65020e7020a40207b0206001fa004a9604a5a038ad0382d02c67020eb020a60207d0206201fa204a5004a14038af0382f02c69020ef020a80207f0206401fa4)
  (.lf
  0x2d6002d5cc2d49e2d48e2d48a2d45a2d44e2d4442d4642d2762d2622d24a2d2342d2162d20a2d1782d1802d7bf2d7bd2d7b92d7b72d7b52d7b32d7af2d7ad2d7ab2d7a92d7a52d7a12d79f2d79d2d7992d7972d78f2d78d2d7892d7872d7832d7852d7812d77d2d77b2da3d2d7792d7752d76d2d76b2d7672d7652d7632d7612d75d2d75b2d7592d7572d7532d7512d74f2d74d2d7492d65b2d64d2d64b2d647))
  (.nd (.lf
  0x3cb573cb693cb0c3cafb3cac83cabb3caa03ca773ca463ca3b3d01d3daae3cffd3daa03d0253da9a3d0033da8e3cfe73da823cfe33da4c3cfd73da423cf6b3da123cf2b3d9663cf4f3d95e3cf3f3d93a3cee13d9343ced53d92c3d0233d90c3d0013d8f03cfd13d8663cfd53d85e3cfdd3d84e3cfc53d8483cf153d83c3cf573d82a3d7413d81c3d0133d80c3cff53d7f43cfd33d7c03cfcb3d7983cfcd3d790)
  (.lf 0)))

def shaXorReads173 : BTree :=
  .nd (.nd (.nd (.lf
  0x1c6e31c6e01c6de1c6d8214e6214041f6131f59f1d6811c6b51c6ab1c6a81c6a61c6a0214dc213541f6151f5a11d6831c6611c6571c6541c6521c64c214d2213441f6171f5a31d6b91c6271c61d1c61a1c6181c612214c8213341f6191f5a51d52d1c5cd1c5c71c5c41c5c21c5bc214be213201f61b1f5a71d5571c5a31c5a11c59e1c59c1c596214b4212ec1f61d1f5a91d52f1c83c1c54f1c54d1c54a1c544)
  (.lf
  0x10701106ff106fb106f9106f7106f5106f1106eb106e9106e7106e3106e1106df106ed106dd106d9106d7106ef106d5106d1106cf106cd106c9106c7106c5106c3106bf106bd106bb106b9106b5106b1106af106ad106a9106a7106a5106a31069f1069d1069b10699106951069310691106b31068f1068b106891068710683106811067f1067d106791067710675106731066f1066510663106611065710653))
  (.nd (.lf
  0x41133411314112f4187f4186441236411fc410d341075418634183a411f0410f84106540fef41873417fa411e840f5a40f5940f574182c4180340f6440f1e40f1d40f1941827417e440ece40ea340ea140e98419564180f40ec240e8f40e8b40e88418a3414e240ed340ebc40eb240eb1414f94119440c9c40c5f40c5c40c53411d7411b240c3440c2340c0e40c0d4185d411b14119c40c2a40c2140bfc41861)
  (.lf
  0xd1bf0d1bb0d1ad0d19f0d19d0d1990d18b0d17d0d17b0d1770d1690d15b0d1590d1550d1470d1390d1370d1330d1250d1170d1150d1110d1030d0f50d0f30d0ef0d0e10d0d30d0d10d0cd0d0bf0d0b10d0af0d0ab0d09d0d08f0d08d0d0890d07b0d06d0d06b0d0670d0590d04b0d0490d0450d0370d0290d0270d0230d0150d0070d0050d0010cff30cfe50cfe30cfdf0cfd10cfc30cfc10cfbd0cfaf0cfa1)))
  (.nd (.nd (.lf
  0x137e61379813748136f613f9813efa13ea813e0a13db813d6613d1413c7613b8c13aa213a04139b21387c1382a1378c1373a136e81402913f9f13f9b13f9913f0113efd13efb13eaf13eab13ea913e1113e0d13e0b13dbf13dbb13db913d6d13d6913d6713d1b13d1713d1513c7d13c7913c7713b9313b8f13b8d13aa913aa513aa313a0b13a0713a05139b9139b5139b3138831387f1387d138311382d1382b)
  (.lf
  0x129461292412906128ea128ca128b21289c12c1312c1112c0d12c0b12bf912bf712bf312bf112bd912bd712bd312bd112bbb12bb912bb512bb312b9f12b9d12b9912b9712b7f12b7d12b7912b7712b6112b5f12b5b12b5912b4512b4312b3f12b3d12b2912b2712b2312b2112b0d12b0b12b0712b0512af112aef12aeb12ae912ad512ad312acf12acd12ab512ab312aaf12aad12a9312a9112a8d12a8b12a75))
  (.nd (.lf
  0x22bea22ba622ac6229dc229a4229c3229a9229a5237b02379c2377e237742376e237622375a237542370a236f8236e6236d4236be236aa23694236802366e2365a236422362e2361423602235ec235d8235be235a62357e2354e2351a235252351b24bec24be624bd624bcc24bc024bb424bae24b9e24b9424b8e24af824ad824a8624a7e24a7624968249622495c249542494c249442493c2492e2492624920)
  (.lf 0)))

def shaXorReads174 : BTree :=
  .nd (.nd (.nd (.lf
  0x2ee122edb42cbc72cbc32b73f2a8e92a8df2a8dc2a8d82a8d22ee062eda62cc212cc1d2b6e12a7db2a7d32a7d02a7ce2a7c82edd22ed202cb9b2cb972b6972a7b92a7b12a7ae2a7ac2a7a62ed222ed182cb7b2cb772b62d2a81f2a8152a8122a8102a8082edc02ecf82cb432cb3b2b6072a7a32a79d2a79a2a7882a7822ecde2ecb82cb452cb3d2b5e32a7772a7752a7722a7702a76a2ec882ec762cb212cb1d)
  (.lf
  0x2b63b2b6392b6232b61f2b5ff2b5fd2b5f92b5f72b5f52b5f32b5ef2b5db2b5d92b5d72b5d32b5c12b5bf2b5bd2b5b92b5b72b5ad2b5ab2b53d2b53b2b51b2b5192b5152b50b2b4eb2b4e52b4e12b4cd2b4cb2b4d72b4c92b4c52b4c32b4ed2b4c12b4bd2b4bb2b4b92b4b52b4af2b4a52b4a32b49f2b4952b4932b4912b48d2b45d2b3c92b3c72b3c12b3b72b3ab2b3a92b3a52b39b2b37f2b37d2b3792b377))
  (.nd (.lf
  0x315d1315433152627620275cf1e6551e6501e5301e4be3295a32755315d5315453152a27616275d31e6571e6521e5221e4cc3278a32759315d9315473152e2760c275d71e6591e6541e51c1e4ee327843275d315dd315493153227602275db1e65b1e6561e5101e4ec3277a327613154b31534275f8275df1e65d1e6581e5081e4c032770327653154d31536275ee275e31e65f1e65a1e4e41e4da327693154f)
  (.lf
  0x228732286f2286b2285d2285b228572285322845228432283f2283d2282f2282d22829228272281922817228132280f22801227ff227fb227f9227eb227e9227e5227e3227d5227d3227cf227cd227bf227bd227b9227b7227a9227a7227a3227a122793227912278d2278b2277d2277b22777227752276722765227612275f227512274f2274b227492273b22739227352273322725227232271f2271d2270f)))
  (.nd (.nd (.lf
  0x398243981c398143980a39802397f8397e8397e0397d6397cc397c2397ba397b0397a63979c394b0393963938e3938439302392f8392c43d57c3d5723d5683d55c3d5523d5463d53e3d5343d4bc3d4a03d4943d48c3d4823d4783d46e3d4643d45a3d44e3d4423d4323d42a3d35e3d3123d3083d2fe3d2f43d2ec3d2e03d2363d1923d7343d70c3d6ee3d6e23d6463d61e3d6163d6043d5ee3d31a3d7333d72d)
  (.lf
  0x1fcdd1fcc51fcc31fcbf1fcbd1fca31fca11fc9d1fc9b1fc7f1fc7d1fc791fc771fc5b1fc591fc551fc531fc3b1fc391fc351fc331fc1d1fc1b1fc171fc151fbff1fbfd1fbf91fbf71fa671fa651fa611fa5f1fa571fa551fa511fa4f1fa4b1fa491fa451fa431fa3f1fa3d1fa391fa371fa2d1fa2b1fa271fa251fa231fa211fa1d1fa1b1fa191fa171fa131fa111fa0f1fa5b1fa0d1fa091fa071fa051fa01))
  (.nd (.lf
  0x3d77e3d76c3d31f3d31c3d7603d7543d2bf3d2b63d74e3d22c3d22b3d2283d25c3d20e3d17f3d1783d13e3d12b3e7793e7763eb0a3e74a3e72a3e7293eb003e7383e72e3e71f3eae83e7653e7323e7303ea3e3e6dc3e5643e5633ea243e6d63e5523e5513e9b03e6c03e54a3e5493e9aa3e68a3e5693e5663e97c3e65e3e52f3e52c3e93c3e64a3e5303e51d3e9243e60e3e5353e5323e91a3e6083e5093e506)
  (.lf 0)))

def shaXorReads175 : BTree :=
  .nd (.nd (.nd (.lf
  0x10a3510552138c313892127851169f10ab510a6c10a3710554138731384212787116a110ab910a6e10a391055613821137f012789116a310abd10a3b10a3010558137d3137a21278b116a510ac110a3d10a321055a13783137521278d116a710ac510a3f10a341055c13731137001278f116a910ac910a4110a361055e136df136c812791116ab10acd10a4310a3810560136bf12793116ad10ad110a4510a3a)
  (.lf
  0x397cf397cd397c9397c7397c5397ef397c3397bf397bd397bb397b7397b5397b3397b1397ad397ab397a9397a7397a3397a13979f397f13979d3952f394b3394b1394ab393ad39399394af3939739393393913938f3938b3938939387394a939385393813930539303392ff392fd392fb392f9392f5392f3392c7392c5392c1392bf392a53d57e3d5763d56c3d55e3d5543d54a3d5623d5363d5263d4b43d498))
  (.nd (.lf
  0x1bc101bc161cb2a1cee41cb2e1cece1cb321ceb61cb361ce9e1cb3a1ce861cb3e1ce6e1cb421ce561cb461ce3e1cb4a1ce261cb4e1ce0e1cb7e1cdf61cb821cdde1cb861cdc61cb8a1cdae1cb8e1cd961cb921cd7e1cb961cd661cb9a1cd4e1cb9e1cd361cba21cd1e1cba61cd061cbaa1ccee1cbae1ccd61cbb21ccbe1cbb61cca61cbba1cc8a1cbbe1cc6a1cbc21cc481cbc61cc261cbca1cc041cbce1cbd4)
  (.lf 0))) (.nd (.nd (.lf
  0xdee80dede0ded40deca0dec00deb60deac0dea20de981401013fcc13f7c13f2e13ede13e8c13e3e13dee13d9c13d4a13cf813caa13c5a13c0c13bc013b7013b2213ad613a8613a38139e81399613948138fc138b0138601380e137c0137701371e0ddd00ddc60ddbc0ddb20dda80dd9e0dd940dd8a0dd800dd760dd6c0dd620dd580dd4e0dd440dd3a0dd300dd260dd1c0dd120dd080dcfe0dcf40dcea0dce0)
  (.lf
  0x4633046310462f05d1e05ce605ca605c6205c2005be005b9c05b5a05b1a05ada05a9605a5005a0a059c40597e05938058f2058b00587005830057f0057b00576c0572a056e6056a4056600561e055de055a20556805d1f05d1d05d1905d1705ce705ce505ce105cdf05ca705ca505ca105c9f05c6305c6105c5d05c5b05c2105c1f05c1b05c1905be105bdf05bdb05bd905b9d05b9b05b9705b9505b5b05b59))
  (.nd (.lf
  0xb6f00b6e40b6d20b6c20b6b00b69e0b68c0b67e0b66c0b65e0b64c0b6400b62e0b6200b60e0b6020b5f00b5e60b5d40b5c60b5b40b5a40b59c0c4540c4420c4340c4220c4160c4040c3fa0c3e80c3de0c3cc0c3c20c3b00c3a60c3920c3840c3700c3600c34c0c3400c32c0c3220c30e0c3000c2ec0c2dc0c2ca0c2be0c2ac0c29e0c28c0c27c0c26a0c25a0c2480c2380c2260c2160c2040c1f40c1e20c1d6)
  (.lf 0)))

def shaXorReads176 : BTree :=
  .nd (.nd (.nd (.lf
  0xe9700ce1e0cd25059e6059aa0ec8c0eba10e9c10e9720e9430ce140cd29059a0059640ec820eba50e9c50e9740e9470ce0a0cd2d0595a0591e0ec780eba90e9c90e9760e94b0ce000cd3105914058d60ec6e0ebad0e9cd0e9780e94f0cdf60cd35058d8058960ec640ebb10e9d10e97a0e9510cdec0cd3905898058560ec5a0ebb50e9d50e97c0e9530cde20cd3d05858058160ec500ebb90e9d90e97e0e955)
  (.lf
  0x1bb4c1b9c91bb441b9cd1bb361b9d11bb301b9d51bb241b9d91bb1c1b9dd1bb101b9e11bb061b9e51bafc1b9e91baf41b9ed1bae81b9f11bada1b9f51bad41b9f91bac61b9fd1babe1ba011bab61ba051baac1ba091baa21ba0d1ba9a1ba111ba8c1ba151ba821ba191ba7c1ba1d1ba721ba211ba681ba251ba5e1ba291ba541ba2d1ba441ba311ba3e1ba351ba491c97b1cb1e1c97f1cb141c9831cb0a1c987))
  (.nd (.lf
  0x28cea28ca228c842a4b82a49a2a48a2a47a2a46c2a41a2a3f22a3ca2a3ac2a3862a3622a33e2a31c2a30a2a2dc2a2bc2a29e2a28c2a2702a2542a2302a2182a1f42a1d62a1b229fae29f1c29f0629e9e29ea029e4829e1c2b8a22b8a42b8a62b8782b87a2b7302b7082b6c02b66a2b66c2b66e2b6702b6722b6742b5202b4742b4762b4782b47a2b47c2b47e2b3ce2b3ae2b31c2b31e2b3202b3222b3242b326)
  (.lf
  0xaee00a5c00a1e009a80096a008f4008b60089400872008500082e007d400b0b00af500af100aef00a6300a5f00a5d00a2500a2100a1f009af009ab009a9009710096d0096b008fb008f7008f5008bd008b9008b70089b008970089500879008750087300857008530085100835008310082f011da011d0011c6011bc011b2011a80119e011940118a01180011760116c01162011580114e011440113a01130)))
  (.nd (.nd (.lf
  0x3f4d03f440608f0547904895048520481d0480603f0d03f04060910547b04899048540481f0480803ec603ec3060930547d0489d04856048210480a03e8703e7e060950547f048a104858048230480c03e4703e3e0609705481048a50485a048250480e03e0003dfd0609905483048a9048270481c0481003dc103db80609b05485048ad048290481e0481203d7a03d770609d05487048b10482b0482004814)
  (.lf
  0x360cf360c3360c1360bd360bb3607936077360733607135fa135f9f35f9b35f9935f9535f9335f8f35f8b35f4135f3f35f3b35f3935efb35eff35ef935ef535eb535eb935eb335eaf35e9b35e9935e9535e7335e3335e3135e2d35e2935dff35dfd35df935de335c4d36b0e369c2369a6369523692c368b4367ac3679a367743666e366843669436638365ee3654e3654a36552363be363b4363a8363a036368))
  (.nd (.lf
  0xef700f05e0ef740f0540ef780f04a0ef7c0f0400ef800f0360ef840f02c0ef880f0220ef8c0f0180ef900f00e0ef940f0040ef980effa0ef9c0eff00efa00efe60efa40efdc0efa80efd20efac0efc80efb00efbe0efb40efba0f0ec0f2ca0f0f00f2c00f0f40f2b60f1320f2ac0f1360f2a20f13a0f2980f13e0f28e0f1420f2840f1460f27a0f14a0f2700f14e0f2660f1520f25c0f1560f2520f15a0f248)
  (.lf 0)))

def shaXorReads177 : BTree :=
  .nd (.nd (.nd (.lf
  0x204be2047623f622367021be921be5210fb2058720582204e1204c02047823f562365e21bc921bc5210812058920584204e3204c22047a23f502364c21b6121b5d210832058b204e5204ce204c42047c23f382362c21b1521b1121085204eb204d0200472003e2003223f302361c21ad321acf21017204ed204d2200492004020034237dc2360421a8b21a8320fc920637204ef204d41fbcc1fbc6237ce235f6)
  (.lf
  0x20dd220d9e20d5220ce22171f217152171321707216f9216f1216ed216eb216512164f2164b21649215052150721503214ff2144721445214412143d2141f2141d2141921417213d7213db213d5213d121375213732136f2136d2136b213692136721363213612135f2135b2132d2132b213252131921315212f9212f7212f3212f1212872128b21285212812122b212292122521221212032120721201211fd))
  (.nd (.lf
  0x28905288ee208da207d31ac371ac051ac00191c0191aa29ca029ac92893d28907288f0208d0207d71ac3b1ac021abb3191801916a29c8a29acd28941288f2288c3208c6207db1ac3f1ac041abb7191421912829c7429ad128945288f4288c7208bc207df1ac431abbb1abb2190fe190e229c5e29ad528949288f6288cb208b2207e31ac471abbf1abb6190b8190a029c4829ad92894d288f8288cf208a8207e7)
  (.lf
  0x1beb51beb11beaf1bea31bea11be9d1be9b1be8d1be8b1be871be851be771be751be711be6f1be611be5f1be5b1be591be4b1be491be451be431be351be331be2f1be2d1be1f1be1d1be191be171be091be071be031be011bdf31bdf11bded1bdeb1bddd1bddb1bdd71bdd51bdc71bdc51bdc11bdbf1bdb11bdaf1bdab1bda91bd9b1bd991bd951bd931bd851bd831bd7f1bd7d1bd6f1bd6d1bd691bd671bd59)))
  (.nd (.nd (.lf
  0x2a9222a91a2a9102a9062a8fc2a8f22a8422a8382a82a2bb982bb8c2bb802bb782bb702bb662bb5c2bb522bb462bb3c2bb322bb262bb1e2bb142bb082bb002baf62baec2bae42bada2bace2bac62baba2bab22baa82ba9c2ba922ba882ba7e2ba742c5762c3922c3882c3782c3702c3662c3582c34a2c3422c3362c32e2c3202c3162c30a2c2fe2c2f22c2e62c2da2c2ce2c2c22c2b62c29a2c27a2c25a2c23a)
  (.lf
  0x19b4d19b4b19b4719b4519b4319b4119b3d19b3b19b3919b3719b3319b3119b2f19b2d19b2919b2719b2519b2319b1f19b1d19b1b19b1919b1519b1319b1119b0f19b0b19b0919b0719b0519b0119aff19afd19afb19af719af519af319af119aed19aeb19ae919ae719ae319ae119adf19add19ad919ad719ad519ad319acf19acd19acb19ac919ac519ac319ac119abf19abb19ab919ab719ab519ab119aaf))
  (.nd (.lf
  0x2208c22045220382203621ffc21fe121fde21fd621f9c21f6121f5e21f5621f7e21f4621f4321f4021f2a21f0521f0021ef821ee921ec221eb421eb221ea021e5921e5621e4e21db221d9b21d9821d9021d6221d5421d4321d4021d2c21d1d21d1a21d1221d0221cf321cf021ce821c8821c6e21c6b21c6821c4221c2a21c2721c2421bfa21bee21be121bde21bce21bbb21bb821bb421b6621b5221b4f21b4c)
  (.lf 0)))

def shaXorReads178 : BTree :=
  .nd (.nd (.nd (.lf
  0x3126730009300012fffe2fffc2fff63470e34638323af323ab311ff2ff972ff912ff8e2ff8c2ff86346063459e3236d32369311352ffb12ffa92ffa62ffa42ff9e346ee345843233932331311a12ffef2ffe52ffe22ffe02ffd8345e2344ac3233b32333310b72ffcd2ffc52ffc22ffbe2ffb8344a434444321ef321eb3104b2ff772ff6f2ff6c2ff6a2ff64344b634462320833207f310032ff0d2ff072ff04)
  (.lf
  0x3f6583f38e3f3763f3603f3523f33c3f32c3f3143f2e83f2d83f1a43f1783f10a3f0ea3f0f63ee223ee2a3ed8a3ea9a3ea0e3f63b3f6393f6293f6193f6173f6153f6113f60d3f5fd3f5fb3f5f73f5cd3f5993f5973f5933f5913f5813f5cf3f57f3f57b3f5793f67d3f5773f5713f56d3f54d3f5493f5413f53d3f53b3f5373f5293f5213f51f3f51b3f5153f50f3f50d3f5093f4f73f4f53f6593f4f33f4ef))
  (.nd (.lf
  0x31b6c31b0c373ca3707331f3c31cb931b8b31b6e31b00373c03707731f3031b8f31b7331b7031af6373b63707b31f2431cbd31cbb31cb831cb6373ac3707f31f1831b9331b7531b7231ae0373a23708331f0c31cba31b9731b7731ad4373983708731f0231b9b31b7931b7431acc3738e3708b31efa31b9f31b7b31b7631abc3738436f1931ee831ba331b7d31b7831ab03737a36f0531ee231ba731b7f31b7a)
  (.lf
  0x2d8e22d8cc2d8c22d8bc2d8b02d8a62d89a2d8922d8862d87e2d8742d86a2d85e2d8542d84a2d9772d9752d9712d96f2d96d2d96b2d9672d9632d9612d9652d95f2d95b2d9592d9572d9532d9512d94f2d94b2d9472d9452d9432d9412d93f2d93b2d9392d9372d9332d92f2d92d2d92b2d9272d9252d9232d94d2d9212d91d2d91b2d9192d9152d9112d90f2d9132d90d2d9092d9072d9312d9052d9012d8ff)))
  (.nd (.nd (.lf
  0x413f0413e6413da413d2413c8413be413b4413aa40eda406944068c406844067a40670406664065a40652405b64055440518404fe402aa4029a4025c40252401fa401e6401da401d0401c6400c84008e400864007c400744006a4005c400403fcde3fc823fc463fc3c3fbb03fba63fb563fad43fa803fa563fa0a3f9e63f9dc3ff703ff663ff5c3ff543ff4a3ff3e3ff363ff2c3ff223ff183ff0e3ff043fefa)
  (.lf
  0x27f1f27f1727f1527f3327f1327f0f27f0d27f0b27f0727f0527f0327f1b27f0127efd27efb27ef927ef527ef127eef27eed27ee927ee727ee527ee327edd27ed927ed727ed527ed127ec927ec727ecb27ec527ec127ebf27ecd27ebd27eb927eb727eb527eb127eaf27ea927ea727ea327ea127e9f27e9d27e9927e9727e9527e9327e8d27e8527e8127e8727e7f27e7b27e7927e7727e7327e3f27e3d27e3b))
  (.nd (.lf
  0x6b1506c3c06b1906c3206b1d06c2806b2106c1e06b2506c1406b2906c0a06b2d06c0006b3106bf606b3506bec06b3906be206b3d06bd806b4106bce06b4506bc406b4906bba06b4d06bb006b5106ba606b5506b9c06b5906b9206b5d06b8806b6106b7e06b6506b7406b6906b6f0773f078e407743078da07747078d00774b078c60774f078bc07753078b207757078a80775b0789e0775f07894077630788a)
  (.lf 0)))

def shaXorReads179 : BTree :=
  .nd (.nd (.nd (.lf
  0x141131322b131961308b1307213054166961646e14af314ab714115131991311a1308d13074130561668e1646a14af514ab9141171312b1311c130a5130a21309c166841651814af714abb141191312f1311e130811300012fdc166781666414af914abd1411b1313313120130831300212fde166701648e14afb14abf1411d1320713137131221300412fe01664a1648c14afd14ac11411f132091313b13124)
  (.lf
  0x5c3b05c3905c3505c3305bfb05bf905bf505bf305bbd05bbb05bb705bb505b7505b7305b6f05b6d05b3505b3305b2f05b2d05af505af305aef05aed05ab705ab505ab105aaf05a7105a6f05a6b05a6905a2b05a2905a2505a23059e5059e3059df059dd0599f0599d05999059970595905957059530595105913059110590d0590b058cb058c9058c5058c30588b0588905885058830584b058490584505843))
  (.nd (.lf
  0xfdc90fdb60fd670fd540fd0b0fcf80fcab0fc980fc4f0fc3c0fbf30fbe00fb950fb820fb330fb200fad30fac00fa750fa620fa1b0fa080f9bf0f9ac0f95d0f94a0f8f50f8c70d3610d3500d3430d3300d3210d30e0d2ff0d2ec0d2dd0d2ca0d2bb0d2a80d2990d2860d2770d2640d2550d2420d2330d2200d2110d1fe0d1ef0d1dc0d1cd0d1ba0d1ab0d1980d1890d1760d1670d1540d1450d1320d1230d110)
  (.lf 0))) (.nd (.nd (.lf
  0x2ac802a8002a42029fa029bc0297602930028e8028a80286802828027e8027a80276a02724026de02698026520260a025cc0258602540024fa024b20247202434023ee023a805d1405cda05c9a05c5605c1405bd405b9005b4e05b0e05ace05a8a05a44059fe059b8059720592c058e6058a40586405824057e4057a4057600571e056da056980565405612055d20559605d2605c6a05ba405a9e05a5805a12)
  (.lf
  0xb7cb0b7c90b7af0b7ad0b7a90b7a70b7910b78f0b78b0b7890b7750b7730b76f0b76d0b7590b7570b7530b7510b73d0b73b0b7370b7350b71f0b71d0b7190b7170b7010b6ff0b6fb0b6f90b6e30b6e10b6dd0b6db0b6c10b6bf0b6bb0b6b90b69d0b69b0b6970b6950b67d0b67b0b6770b6750b65d0b65b0b6570b6550b63f0b63d0b6390b6370b61f0b61d0b6190b6170b6010b5ff0b5fb0b5f90b5e50b5e3))
  (.nd (.lf
  0x2126e2117721264211672125e21153212542115721246211c52123e21159211e42115b211da2111d211cb211c8210ec210cd20fe820fe520fac20fa720f9820f9720f8420f7320f7a20f7720eca20e3b20ec220e0d20eb620eb320e4620df120dc720dc420dc920db220d8f20d8c20d4d20d4a20cee20cdd20cd5221e1220ed220582205021e432203121fd221fcc21e3521e8221e3321e7821e3121e6a21e11)
  (.lf 0)))

def shaXorReads180 : BTree :=
  .nd (.nd (.nd (.lf
  0x3ea133e6a33e6453e3183dfa63deec410da3f8233f81f3eac53e6813e6173e2f83dfac3ded441e98037f001ff301f730134d00f6c00f2c00f1900ec700eb041e9c41e84037be0378e01ff501f750134f00f6e00f2e00f1b00ec900eb241e7a41e70037840375201ff701f770135100f7000f3000f1d00ecb00eb441e6841e40037600372001ff901f790135300f7200f3200f1f00ecd00eb641e5e41e1c03716)
  (.lf
  0x19bc619a2619bbc19a2a19bb219a2e19ba819a3219b9e19a3619b9419a3a19b8a19a3e19b8019a4219b7619a4619b6c19a4a19b6219a4e19b5819a5219b4e19a5619b4419a5a19b3a19a5e19b3019a6219b2619a6619b1c19a6a19b1219a6e19b0819a7219afe19a7619af419a7a19aea19a7e19ae019a8219ad619a8619acc19a8a19ac219a8e19ab819a9219aae19a9619aa419a9a19aa01aa041aba81aa08))
  (.nd (.lf
  0x2467e24638245ea2613c26102260da25ff425fb225f9825f7225ef425e3625d8025da225d3c25d0e25caa25c5a25c0c25bfa25be625bd225b1025a9825a4e25a0e259d6259a025968258e4258a82587225838257f6257a0270be270a62702c2701826fc026f5026f1626ede26e8826e5a26df226de026dce26d3e26d1626cfa26cc226c9e26c7426c6226bca26b8026b6c26b5426b0826ae426aac26a4e26a50)
  (.lf
  0x37382373783736e373643735a37350373483733e37334373283731c37320372f4372e8372e4372d4372cc372ce372b4372aa372c03729a37256373d3373d1373cd373cb373c9373c7373c3373c1373bf373bd373b9373b7373b5373b3373af373ad373ab373a9373a5373a3373a13739f3739b373993739737395373913738f3738d3738b373873738537383373813737d3737b373793737737373373713736f)))
  (.nd (.nd (.lf
  0x45a40457b04560044a006ef206ebe05deb05d6b051d5045f1045a60457d04562044a206eb406e8205ded05d6d051d7045f5045a80457f04564044a406e7806e4805def05d6f051d9045f9045aa0458104566044a606e3e06e2805df105d71051db045fd045830456c04568044a806e2605df305d73051dd04601045850456e0456a044aa0824406a2f069af05df505277051f9051e20519e050de0821c081d2)
  (.lf
  0x2e0612e05d2e05b2e0592e0572e0532e0512e04f2e04d2e0492e0472e0452e0432e03f2e03d2e03b2e0392e0352e0332e0312e02f2e02b2e0292e0272e0252e0212e01f2e01d2e01b2e0172e0152e0132e0112e00d2e00b2e0092e0072e0032e0012dfff2dffd2dff92dff72dff52dff32dfef2dfed2dfeb2dfe92dfe52dfe32dfe12dfdf2dfdb2dfd92dfd72dfd52dfd12dfcf2dfcd2dfcb2dfc72dfc52dfc3))
  (.nd (.lf
  0x8ba408b9b08b6408b5b08b2408b1b08ae608add08aa008a9708a5808a4f08a1808a0f089d8089cf089980898f0895a089510891208909088d4088cb0888e08885088460883d08808087ff087c2087b90877c08773087360872d086f8086ef086d0086cf09b1709ae309aa609a9d09a6809a5f09a2009a17099e2099d90999a099910995c09953099140990b098d4098cb098940988b098540984b098160980d)
  (.lf 0)))

def shaXorReads181 : BTree :=
  .nd (.nd (.nd (.lf
  0x1f919246d722ff1221f3218a1218832187c218622483c246d522ff322131218a5218852187e2187024830245c522fcb220bf218a92188721880218642481e245f522fb1220c1216952168b216882168424818245c722fb32200d2159921545215422153a248102461322fb521faf218822159d21547214f8247fe245dd22fb721fb121884215a121549214ee247f4245bd22fb921f37218862155d2154b214e4)
  (.lf
  0x12f7f12f7d12f6b12f6712f6512f6312f5f12e7512e7312e7112e6b12e6912e6712e6512e6112e5d12e5b12e5912e5512e5312e4f12e4d12e4912e4712e3f12e3d12e3912e3712e3312ed512e3112e2d12e2b12e2912e2512e2312e1f12e4312e1d12e1912e1712e1512e1112e0d12e0b12e0912e0512de112ddd12ddb12dd712dd512dd112ed912dcf12dcb12dc912dc712dc312dc112db912dbd12db712db3))
  (.nd (.lf
  0x3fb794019f3fc723fb5f3fb5a3fb523fb49401853fc4a3fb2a3fad73fad03facd4016b3fc163fa7c3fa763fa753fa73402cf4018b3fb883fa5d3fa5a3fa524028b401373fb7a3f9fe3f9f63f9f5402b34009d3fb483f9e23f9cf3f966402474004b3facc3f9713f9423f940402134002b3fa743f82b3f82841493402c33faae3faad3fa9d3fa993fa964144d402813ff6c3f9cb3f9b73f9b03f99c3f999412cf)
  (.lf
  0x13f8713f8313f8113f3b13f3913f3513f3313eeb13ee913ee513ee313e9913e9713e9313e9113e4b13e4913e4513e4313dfb13df913df513df313da913da713da313da113d5713d5513d5113d4f13d0513d0313cff13cfd13cb713cb513cb113caf13c6713c6513c6113c5f13c1913c1713c1313c1113bcd13bcb13bc713bc513b7d13b7b13b7713b7513b2f13b2d13b2913b2713ae313ae113add13adb13a93)))
  (.nd (.nd (.lf
  0x1848e184541841c183e2183a81836818328182e8182a8182641821e181dc1819c1815c18118180d21808c1804a1800a17fca17f8617f4017efe17ebe17e7a17e3417df217db217d6c184ec18482184101829c18256181501810a180c417fbe17f7817eb217e6c17de617da4184bf184bb184be184881844d184491844c18416183db183d7183da183a31839f183a2183631835f18362183231831f18322182e3)
  (.lf
  0x137e7137e3137d91379b1379913795137891374b137491374513737136f9136f7136f3136e5136c7133581334e133441333a13330133261331c1331213308132fe132f4132ea132e0132d6132cc132c2132b8132ae132a41329a13290132861327c13272132681325e13256131a413170131661315c133591335713353133511334f1334d133491334713345133431333f1333d1333b13339133351333313331))
  (.nd (.lf
  0x1e7601e7201e6a01e6701e3001e2c01e2401e2101df101de801de401ddc01db101da801da401d9c01d7101d6801d6401d5c01d2a01d2601d1e01d1b01ceb01ce201cde01cd601cab01ca201c9e01c9601c6401c6001c5801c5501c1e01c1a01c1201c0f01bdf01bd601bd201bca01b9801b9401b8c01b8901b5201b4e01b4601b4301b0c01b0801b0001afd01acd01ac401ac001ab801a8601a8201a7a01a77)
  (.lf 0)))

def shaXorReads182 : BTree :=
  .nd (.nd (.nd (.lf
  0x3221031e9c2fe352fe312ec4d2dfad2df7c2de272ddde2ddd831e7631e2e2fbf12fbed2ec432df7f2dee02ddd12ddce2ddc831e4231e282fbdd2fbd92ebf32dee32dec22ddb92ddb62ddb031e4e31e202fbcb2fbc72ebbf2dec52deac2dda32dda02dd9a31e3631d782fbb72fbb32eb9b2deaf2de6c2dd932dd8e2dd8231d6831d582fba32fb9f2eb752df2a2de6f2dd952dd902dd8431d5231d2c2fb8f2fb8b)
  (.lf
  0x2eaf02eac42ea702ea882ea442ea082e9e62e9a02e9902e9422e9322e8ec2f0272efdd2efd92efcb2ef932ef952ef912ef8d2ef8b2ef892ef852eeb52eea52eec92eea32ee9f2ee472ee452ee1f2ee152ee132ee112ee072ee052ee032ee012edd52ed532ed212ed252ed1f2ed1b2ed192edc32ed172ed132ecf92ecf72ecf32ece12ecb92ecb72ec9f2ec8f2ec772ec752ec712ec632ec592ec572ec2d2ec27))
  (.nd (.lf
  0x35cec35c0f34a7f34a26349fd2ab1a2aa7524f2324e9b24e922476a245f835cdc35c1334a8334a28349ff2ab102aa7924f2724e9f24e962475a245b235cd635c1734a8734a2a34a012ab062aa7d24f2b24ea324e9a24752245b035cc235c1b34a8b34a2c34a032aafc2aa8124ea724e9e247482464635cbc35c1f34a8f34a2e34a052aaf22aa8524eab24ea22473a2464835cac35c2334a9334a3034a072aae8)
  (.lf
  0x1eb841eb601eb3e1eb1a1eaf61ead41eab21eec51eead1eea91eea71ee8b1ee891ee851ee831ee691ee671ee631ee611ee451ee431ee3f1ee3d1ee231ee211ee1d1ee1b1ee011edff1edfb1edf91eddf1eddd1edd91edd71edbd1edbb1edb71edb51ed9b1ed991ed951ed931ed791ed771ed731ed711ed571ed551ed511ed4f1ed351ed331ed2f1ed2d1ed131ed111ed0d1ed0b1ecf11ecef1eceb1ece91eccf)))
  (.nd (.nd (.lf
  0x41792417884177c4177041764417584174c4173e4173441728415e4415d8415d0415c6415be415b2415a64159a4156e4156041498413284131c4130c41112410be3ec3a3ec303ec263ec1c3ec123ec063ebfe3ebf43ebea3ebe03ebd63ebca3ebc23ebb83ebae3eba23eb983eb8c3eb823eb7a3eb723e84e3e82e3e8163e80c3e22c3e20e3e1dc3e0923dfbe41a2c41a2041a1841a0e41a06419fc419ee419e2)
  (.lf
  0x20cf520cf320cef20ced20cdf20770207662075c207542074a2073e207362072a20722207162070e20702206fa206ee206e820772206d2206c8206be206b2206b6206a2206982068e2068420668205c0205b6205ae2051c20510207712076f2076b207692076720765207612075f2075d2075b207572075520753207512074d2074b207492074720743207412073f2073d207392073720735207332072f2072d))
  (.nd (.lf
  0x523c0537e0524005374052440536a05248053600524c05356052500534c052540534205258053380525c0532e0526005324052640531a05268053100526c0530605270052fc05274052f205278052e80527c052de05280052d405284052ca05288052c00528c052b605290052ac05294052a2052980529e05e760601a05e7a0601005e7e0600605e8205ffc05e8605ff205e8a05fe805e8e05fde05e9205fd4)
  (.lf 0)))

def shaXorReads183 : BTree :=
  .nd (.nd (.nd (.lf
  0x14559143d216edf16ec415e891502f145db145901455b143c216ea716e8c15e8b15031145df1455d14552143b216e6d16e4a15e9d15033145e31455f14554143a216e2d16e0815a6f15035145e714561145561439216ded16dc815a7115037145eb14563145581438016db116da015a7315039145ef145651455a1437016d9915a751503b145f3145671455c1433c184e31677f15feb150e1150531504814ffc)
  (.lf
  0x3eff03efde3efc83efbc3efae3efaa3ef9a3eff43ef423ef343ef283ef1c3ef123ef063eedc3eed23eebc3ede23ede63edd03ed6a3edec3ed6e3ea703e9ec3f0973f0953f0913f08d3f08b3f0893f0853f0813f07f3f07d3f0793f0773f0733f0713f06d3f0633f0613f05f3efed3efeb3efe93eff13efe73efe33efdd3efdf3efdb3efd73efd53efd33efcf3efc93efc73efc53efbf3efbd3efbb3efb93efb5))
  (.nd (.lf
  0x2c5e82cefc2ce482ce402c5ee2cef82ce362ce2e2c5f42cef42ce262ce1e2c5fa2cef02ce122ce0c2c6002ceec2ce022cdfa2c6062cee82cdee2cde22c60c2cee42cdda2cdd22c6122cee02cdca2c6182d7c82d96e2d7cc2d9622d7d02d9582d2d02d9502d2d42d9442d2d82d9382d2dc2d92c2d4ac2d9242d2e02d91a2d4b02d90e2d7f22d9062d7f62d8fe2d7fa2d8f62d7fe2d8ec2d8022d8de2d8062d8d6)
  (.lf 0))) (.nd (.nd (.lf
  0x1eb4c1eb281eb041eae21eac01e0001dfec1dfd61dfc01dfaa1df941df7e1df681df521df3c1df261df101defa1dee21decc1deb61dea01de8a1de741de5c1de441de2c1de161de001ddea1ddd41ddbe1dda81dd921dd7a103d41037a10318102bc1026010202101a41014a100ea1008e100320ffd40ff720ff160feb60fe560fdf80fd9a0fd380fcdc0fc7c0fc200fbc40fb660fb040faa40fa460f9ec0f990)
  (.lf
  0x66fd066f9066c9066bb066b9066b50668306675066730666f0663d0662f0662d06629065fb065ed065eb065e7065bb065ad065ab065a70657b0656d0656b0656706537065290652706523064f5064e7064e5064e1064b1064a3064a10649d0646b0645d0645b0645706425064170641506411063df063d1063cf063cb0639d0638f0638d06389063590634b0634906345063130630506303062ff062d1062c3))
  (.nd (.lf
  0x1f1541f0181f1481f00c1f1421f0001f1381eff21f12c1efe61f1241efd41f1161efc81f10c1efdc1f1001efb61f0f61efd81f0ec1efa41f0e21ef941f0dc1ef881f0d21ef7a1f0c41ef701f0ba1ef601f0b01ef6e1f0a61ef4c1f09c1ef421f0921ef361f0861ef261f19c1f07c1f0721ef1a1f1981f0681f0621eef61f18a1f0561eee81fe801fe441fe3e1fe281fe181fdfa1fdf81fde61fdda1fdc01fdb8)
  (.lf 0)))

def shaXorReads184 : BTree :=
  .nd (.nd (.nd (.lf
  0xd1e60cf0b00268001980f8830f84d0f8360d1c40cf0f0025e001960f8870f8380f8090d1a20cf1300254001940f88b0f83a0f80d0d1800cf170024a001920f88f0f83c0f8110d15e0cf1b00240001900f8930f83e0f8150d13c0cf1f002360018e0f8970f8400f8170d11a0cf230022c0018c0f89b0f8420f8190d0f80cf27002220018a0f89f0f8440f81b0d0d60cf2b00218001880f8a30f8460f81d0d0b4)
  (.lf
  0x3f0843eb6a3f0763eb5e3f0603ea643efea3ea463efdc3eb5c3efd43eb663efce3eb643efba3eb563efb03ea363efa63eb603ef9e3eb6c3ef923eb343ef403eb4e3ef3a3ea5e3ef2a3e9de3ef1e3ea423ef163e9a43ef043e9943eefc3e9383eed63e94c3eeca3e9703ede43e9583edda3e96c3edce3eb6e3edc83eb163ed643eb363ed5c3eb523ea6e3ea3c3e9ea3e9e43e9ba3fb323fdfc3f9c03fdec3f90a))
  (.nd (.lf
  0x25f0425e4625d8c26e0626e08270c6270902703c2704026fd026f5e26f2626eec26e9826e6826e0a270ca27094270442704826fd426f6226f2a26ef026e9c270ce270982704c2705026fd826f6626f2e26ef426ea026e6c2863e28626287a6287ce2877c287502871e286d0286d4286d8286762865628640287a8287d02877e2875428722286dc286e0286e42867a287ac287d4287822875828726286e6286e8)
  (.lf
  0x39f6d39f6939f6539f6339f7d39f6139f5d39f5b39f5939f5539f5139f4f39f4d39f4939f4539f4339f4139f3d39f3b39f3739f3539f3139f2f39f2d39f2b39f2739f2339f2139f1f39f1b39f1739f1539f1339f0f39f0d39f0939f0739f0339f0139eff39efd39ef939ef539ef339ef139eed39eeb39ee739fef39ee539ed139ecf39ecd39ec939ec739ec539ec339ebf39ebd39ebb39eb939eb539eb139eaf)))
  (.nd (.nd (.lf
  0x9bee09b2e0c5900c46e0b1830b17f0a76509cdb09c4b09c3409bf009b300c5840c4680b1710b16d0a74909c5f09c4d09c3609bf209b320c57e0c47c0b15f0b15b0a73309c6309c4f09c3809bf409b340c5740c4700b14d0b1490a71f09c6709c5109c3a09bf609b360c56a0c45e0b13b0b1370a70909c6b09c5309c3c09bf809b380c5620c4980b0e50b09d0a6f509c6f09c5509c3e09bfa09b3a0c5580c4b4)
  (.lf
  0x3254d325333252f3252d3252b325273231d3231b3231f323193231532313323113230d3230b32309323073230332301322ff322fd322f9322f7322f5322f3322f1322ed322eb322e9322e5322e3322e1322df322db322d9322d7322d5322d3322cf322cd322cb322c7322c1322bf322bd322b9322b7322b3322b1322ad322ab322a9322c3322a7322a3321e5321e3321df321dd321db321d9321d5321d3321cf))
  (.nd (.lf
  0x2b5a72b5392b51a2b5092b4ea2b4e02b4152b4c42b4092b4bc2b4192b4b42b3f72b49e2b3e92b45b2b3c82b3b52b3aa2b3992b37e2b3782b2d52b3662b2bd2b3442b2bb2b3362b2672b2882b1f72b1f92affe2afed2afb82afb12af8c2af8f2c5832cc5c2c5672cc3e2c55d2cc362c5512cbd22c5452cbca2c53b2cbb62c5332cbae2c5292cb702c51f2cb382c5712cb2e2c49f2cb242c4932cb062c4872cb00)
  (.lf 0)))

def shaXorReads185 : BTree :=
  .nd (.nd (.nd (.lf
  0x2d7aa2d6c32b8a72a48f296ff296dd296d6296d42d79e2d6db2b8792a47d29703296df296d8296c22d7962d6df2b87b2a47129707296e1296da296ac2d7862d6a12b7312a41d2975c2970b296e3296ae2d77a2d6972b7092a3f52975e2968329677296722da3b2d7742b6c12a3cd296dc2967b29679296742d7662d67f2b66b2a3af296de2963729635296322d75c2d6732b66d2a389296e02964f2960729600)
  (.lf
  0x1956d1956b195671956519563195611955d1955b195591955719553195511954f1954d195491954719545195431953f1953d1953b195391953519533195311952f1952b195291952719525195211951f1951d1951b195171951519513195111950d1950b19509195071950319501194ff194ba194b0194a61949c19492194881947e19306199d0192921924a1920a191ca1918c199d819110190c21908019040))
  (.nd (.lf
  0x19e8019c5f1525715250138f0138ed138d8138c22267d225ef225d219e4219c631525915254138a4138a11388c1387222681225f1225d619e0019c671525b1525613854138511383c1382022685225f3225da19dbc19c6b1525d1525813802137ff137ea137d222689225f5225de19d7a19c6f1525f1525a137b4137b11379c13782225f7225e019d3419c73152611525c13764137611374c13730225f9225e2)
  (.lf
  0xe8770e8730e8710e86f0e86d0e8690e8670e8650e8630e85f0e85d0e85b0e8590e8550e8530e8510e84f0e84b0e8490e8470e8450e8410e83f0e83d0e83b0e8370e8350e8330e8310e82d0e82b0e8290e8270e8230e8210e81f0e81d0e8190e8170e815174721744017408173cc1738e173541731c172e4172ae172781723c171fe171c2171861714a17112170dc170a21706a1703016ff616fbe16f8816f4e)))
  (.nd (.nd (.lf
  0x21945218f3218fb218d7218d3220f42206d2205b2206c22043220352204221fc621fba21f5121f3f21f5021f3c21ef521eb121ef421e5f21e4d21e5e21d8a21d6d21d3f21d6c21ce421cdc21c7921c6721c7821c3121c2321c3021c0921bdd21c0821b9c21b4621b0d21afb21b0c21aea21ab821a6321a5f21a62219e6219922197821948218d6216dc2187821852218482183e218342182a21820218162180c)
  (.lf
  0x15d5115d4f15d4b15d4915d4715d4515d4115d3f15d3d15d3b15d3715d3515d3315d3115d2d15d2b15d2915d2715d2315d2115d1f15d1d15d1915d1715d1515d1315d0f15d0d15d0b15d0915d0515d0315d0116ce216cd816cce16cc416cba16cb016ca616c9c16c9216c8816c7e16c7416c6a16c6016c5616c4c16c4216c3816c2e16c2416c1a16c1016c0616bfc16bf216be816bde16bd416bca16bc016bb6))
  (.nd (.lf
  0x1118a10fb010ef010eb311180110c010fa410eb51117610f9810ef210eb71116c110be10f8c10eb111162110bc10f8010eaf1115c110ba1106310f741113e110b81106910f6c114ef11138110b610f641111a110b41105310f5c11114110b210f5410eb9110f6110b010f3e10ec3110f0110ae10f2810ec1110ac110a010f1210ecd110a210ec5121e7121e41258812348121bb121b812580123401217b12178)
  (.lf 0)))

def shaXorReads186 : BTree :=
  .nd (.nd (.nd (.lf
  0x3b6ab38f5d38f3637b69369703670b36709367003b68738f3038eef37b3336906366c7366c5366b43b61b38f2638ef737b29368803671d3671b367183b5f338edd38ed037b0f368603665d3665b3664e3b5b138eca38e9537ad936b413684a366233660c3b56f38ec038e8737ac136a1f36708365e7365e03b51738eb638e7d37ab736a23366c4365d1365ce3b4e538e6b38e6237acb369733671a365c53657a)
  (.lf
  0x3658f3658d36589365633653936537365333653136525365233646736463364613644d36449364453643b3645536439363f33638536383363713636d360a7360a5360a13609535ff735fed35feb35fe735fe535fe335fdf35fdd35fd335fd135f6935f5f35f2935f2535f2135f1735eeb35ee935ed335ecd35ea135e8b35e8935e8535e4d35e4f35e4b35e4735df735e0135df535df135c5736b1436a0c369f4))
  (.nd (.lf
  0x392433921939202308fe307872bc0d2bbe52bbe02b1162af4839b2a398e3392473921b39204308f23078b2bc112bbe72bbe22b10a2af4639b22398e73924b3921d39206308ea3078f2bc152bbe92bbe42b0fa2af4239b1a398eb3924f3921f39208308e0307bf2bc192bbeb2bbe62b0de2af4a39b10398ef39253392213920a308d8307c32bc1d2bbed2bbe82b0d22af8039b04398f339257392233920c308ce)
  (.lf
  0x29c4d29c4929c4729c3929c3729c3329c3129c2329c2129c1d29c1b29c0d29c0b29c0729c0529bf729bf529bf129bef29be129bdf29bdb29bd929bcb29bc929bc529bc329bb529bb329baf29bad29b9f29b9d29b9929b9729b8929b8729b8329b8129b7329b7129b6d29b6b29b5d29b5b29b5729b5529b4729b4529b4129b3f29b3129b2f29b2b29b2929b1b29db029d9c29d8629d7029d5a29d4429d2e29d18)))
  (.nd (.nd (.lf
  0x20602205fa2055e2054a2052e20460204562044c204422043a20430204262041c2041220408203fe203f41ff781ff3e1fbac1fb761fb421fb1a1fade1faa61fa7a1f9e21f99a1f93e200142000a200001fff41ffe61ffde1ffd41ffca1ffc01ffb61ffaa1ff9e1ff941ff8a1ff801ff6e1ff5e1ff541ff481ff401fbb61fb821fb4a1fb0c1fad61fab41fa881f9d81f9ac1f93a21712216f02164e2150221444)
  (.lf
  0x2413e241342412a241202424f2424d242492424724245242432423f2423d2423b242392423524233242312422f2422b242292422724225242212421f2421d2421b242172421524213242112420d24205242032420724201241fd241fb241f9241f5241f1241ef241ed241eb241e7241e5241e3241df241dd241db2420b241d9241d5241d3241d1241cd241cb241c9241c7241c3241c1241bf241bd241b9241b7))
  (.nd (.lf
  0x25fc82652c25efe2651e25e402651825d8a2651025dae265062614e264f826112264f0260f6264e42600a262fe25fc4262f625fa4262ea25f7e262e425f02262da25e44262ca2614c262c426110262bc260e8262b026004262a825fc22629e25fa82629425f8225f0a25f0625e4a25e4825d8e27174271a6270a82719a270c82718e27092271882703e2717c270422717626fd22716a26f602716026f2827156)
  (.lf 0)))

def shaXorReads187 : BTree :=
  .nd (.nd (.nd (.lf
  0x1b97a1b46c1e0601e00d1d1771c0231ba0b1b9871b97c1b46e1e0561e0251d1791bfd11ba0f1b9891b97e1b40c1e04c1dd831d17b1bf891ba131b98b1b9801b3f21e0421e0211d17d1bf411ba171b98d1b9821b3cc1dd631d17f1bef51ba1b1b98f1b9841b3ce20d031f7971d7ff1c9dd1c9551c94a1c82a211b620d051f7991d7c51c9e11c9571c94c1c80c211a420d071f79b1d7211c9e51c9591c94e1c7d2)
  (.lf
  0x3eb8e3eb863eb923eba83e8683e8643e8343e8123e8003e23a3e2203e1e83e08a3dfe23ec3d3ec3b3ec373ec353ec333ec313ec2d3ec2b3ec293ec273ec253ec213ec1f3ec1d3ec193ec173ec153ec133ec0d3ec0b3ec093ec0f3ec073ec033ec013ebff3ebfb3ebf93ebf73ebf53ebf13ebef3ebed3ebeb3ebe73ebe53ebe33ebe13ebdd3ebdb3ebd93ebd73ebd13ebcf3ebcd3ebd53ebcb3ebc73ebc53ebc3))
  (.nd (.lf
  0x1ec901ec781ec6c1ec541ec481ec301ec241ec0c1ec001ebe81ebdc1ebc41ebb81eba01eb941eb7c1eb701eb5a1eb4e1eb361eb2a1eb121eb061eaf01eae41eace1eac21eaaa1eaa61ea9e1e0041dff41dff01dfde1dfda1dfc81dfc41dfb21dfae1df9c1df981df861df821df701df6c1df5a1df561df441df401df2e1df2a1df181df141df021defe1deec1dee61ded41ded01debe1deba1dea81dea41de92)
  (.lf 0))) (.nd (.nd (.lf
  0x371f0371e4371dc371d2371c8371be371b4371a8371a03718c37060370543704a3703a37030370263701a3700e36efe36ede36ec236eaa36e9836e7636e5c36e3036e083651e365143650a36500364f6364ec364e2364d8364ce364c4364ba364ae364a63649c36492364883647e3635a36352363483633e363343632a36320363163630e36304362fa362ee362e6382a0382903827e3825038172381663815a)
  (.lf
  0x84ed084e9084e7084e5084e3084df084dd084db084d9084d5084d3084d1084cf084cb084c9084c7084c5084c1084bf084bd084bb084b7084b5084b3084b1084ad084ab084a9084a7084a3084a10849f0849d084990849708495084930848f0848d0848b084890848508483084810847f0847b084790847708475084710846f0846d0846b084670846508463084610845d0845b084590845708453084510844f))
  (.nd (.lf
  0xa5700a4a00a3900a2c00a1900a0c009fb009ee009df009d2009c3009b6009a30099600985009780096500958009470093a0092b0091e0090f00902008ef008e2008d1008c4008b1008a40088f008820086d008600084b0083e008290081c0080b007fe007ef007e2007cf007c2007b7007aa007a1007940078b007860078501ee101ea501e9801e5f01e5201e1901e0c01dd701dca01d9701d8a01d5701d4a)
  (.lf 0)))

def shaXorReads188 : BTree :=
  .nd (.nd (.nd (.lf
  0x3788336a65368e63656d3656a365643cde63c8563b4b73b4b33788f368e9368343652f3652c365263cdd23c8583b4873b47f3786b3683736812364713646e364683c8363c8323b43f3b4393785136815367e036447364423643c3c8263c6da3b3ff3b3fb3783f367e3367343645f3645c364563c6d43c6c23b3ab3b3a73782b36b2d36737366da36374363723c64c3c6103b3673b3633781b36ad936752366df)
  (.lf
  0x4007740075400714006f4006d4006b40065400614005f400954005d4005740043400414003d4003b3fd953fcdf3fcdb3fcd13fc853fc893fc833fc7f3fc493fc473fc433fc413fc3f3fc3d3fc373fc153fbb33fbb13fbad3fbab3fba93fba73fb973fb933fb593fb613fb573fb533fae33fad93fad53fad13fa833fa813fa7b3fa773fa593fa5f3fa573fa533fa0d3fa0b3f9ff3f9f93f9e93f9e73f9e33f9e1))
  (.nd (.lf
  0x3b4ee39c8939bba39ad33b4e03b4c639c8d39ae839ab53b4bc3b46e39c8f39ad239abd3b4783b42c39c9339ab439a833b41c3b3f039bc539abc39a6d3b3dc3b3c839bc939a8239a533b3ca3b39639bcd39a6c39a3d3b38c3b2ee39a5239a333b3823b32e39a3c39a1d3b37c3b2ba39a3239a1f3b32a3b30639a1c399d13b3003b24e39a1e399d53b2503b1fa399d0399af3b1f03b1bc399d4399b13b1b63b194)
  (.lf
  0x33c0533c0133bfd33bfb33bf733bf333bf133bef33cad33bed33be933be733be533bdd33bdb33bd733bd533bd133bcd33bcb33bdf33bc933bc533bc333bc133bbd33bbb33bb733bb533bb13398b3398733985339813397f3397b3397933975339713396f3396d3393d3393b339373393933935339313392f3392d339293392733925339233391f339193391733915339113390f3390d3390b3390733901338ff)))
  (.nd (.nd (.lf
  0x3158031584315883158c3159031594315983159c315a0315a4315a8315ac315b0315b4315b8315bc315c0315c4315c8315cc315d0315d4315d8315dc326f6326fa326fe32702327063270a3270e32712327163271a3271e32722327263272a3272e32732327363273a3273e32742327463274a3274e32752327563275a3275e32762327663388a3388e33892338963389a3389e338a2338a6338aa338ae338b2)
  (.lf
  0x2b2232b2212b21d2b21b2b2192b2172b2132b2112b20d2b20b2b2072b2052b2032b2012b1fd2b1fb2b1f32b1f12b1ed2b1eb2b1e92b1e72b1e32b1e12b1df2b1dd2b1d92b1d72b1d52b1d32b1cf2b1cd2b1c92b1c72b1c32b1c12b1bf2b1bd2b1b92b1b72b1b52b1b32b1af2b1ad2b1a92b1a72b1a32b1a12b18b2b1892b1852b1712afd92afd72afd32afd12af752af732af6f2af6d2af552a9f22a9e82a9f4))
  (.nd (.lf
  0x28679288542865928846286432883e287ab28836287d32882c2878128822287572881a2872528810286df287fc286e3287f42876b287ec2867d287e2287af287d7287be28785287642875b287322872d28704287b3286fe286f6286eb28767286902868a286832865d293d9294c2293dd294b8293db294ae293d7294a42938f2949a29367294902930f294862930d2947c29303294722929f29468292a32945e)
  (.lf 0)))

def shaXorReads189 : BTree :=
  .nd (.nd (.nd (.lf
  0x195db18837187e11870c185821857c1bede1a8611a85d195dd1880b187c5186f81853a185341d7e01b7f51b7e51a5b9197c519747197301972a197241d7c01d6ac1b7f91b7e71a5bb197c919749197321971a197141d6a41d5ea1b7fd1b7e91a5bd197cd1974b1973419708197021d69a1d5de1b7ff1b7eb1a5bf197d11974d19736196f6196f01d6901d5d21b7611b75d1a5c1197d51974f19738196e4196de)
  (.lf
  0xa0e70a0eb0a0e50a0e10a0c10a48b0a0bf0a0bb0a0950a0990a0930a08f0a06f0a4870a06d0a0690a0450a0430a03f0a03d0a0170a4830a0150a01109feb09fef09fe909fe509fcb0a47f09fc909fc509fab09fa909fa509fa309f970b21e0b20e0b1fc0b1ea0b1d80b1c60b1b40b1a20b18e0b17c0b16a0b1580b1460b1340b09a0b0900b0860b07c0b0720b0680b05e0b0540b04a0b0400b0360b02c0b022))
  (.nd (.lf
  0x317313195e3172331954317eb3194a3170f3191831701319123170531900316eb318d0317f531852316d13184c316d5317a7316be3167131602315ec315e33160d32ce732d6032ce532d5632ce332d4e32ce132d4432cdb32cd532ca832ccf32ca032cc932c8e32cc332c8632c3532c2c32c0d32c0432be532bdc32bc332bba32ba732b9e32b8b32b8232b6732b5e32b3d32b3632b1732b0e32af832ae732ac7)
  (.lf
  0x4158f41587415814154f41545415414153d414bd414c3414bb414b3413a5413a34139d4139941385413834137f4137b41375413734136f413694134b4134f4134941345410f1410f3410ed410e9410df0134a01340013360132c01322013180130e01304012fa012f0012e6012dc012d2012c8012be012b4012aa012a0012960128c01282012780126e012640125a01250012460123c01232012280121e0134b)))
  (.nd (.nd (.lf
  0xc1c30c1bf0c1c20c1a70c1a30c1a60c18a0c1690c1650c1680c14c0c12a0c1080c0e60bf160bf0c0bf020bef80beee0bee40beda0bed00bec60bebc0beb20bea80be9e0be940be8a0be800be760be6c0be620be580be4e0be440be3a0be300be260be1c0be120be080bdfe0bdf40ccbe0ccb40ccaa0cca00cc960cc8c0cc820cc780cc6e0cc640cc5a0cc500cc460cc3c0cc320cc280cc1e0cc140cc0a0cc00)
  (.lf
  0xd23f0d23b0d2390d21f0d21d0d2190d2170d1fd0d1fb0d1f70d1f50d1db0d1d90d1d50d1d30d1b90d1b70d1b30d1b10d1970d1950d1910d18f0d1750d1730d16f0d16d0d1530d1510d14d0d14b0d1310d12f0d12b0d1290d10f0d10d0d1090d1070d0ed0d0eb0d0e70d0e50d0cb0d0c90d0c50d0c30d0a90d0a70d0a30d0a10d0870d0850d0810d07f0d0650d0630d05f0d05d0d0430d0410d03d0d03b0d021))
  (.nd (.lf
  0x445e044260440a043c40437e04314042d4042b80424e04232041c8041ac0414204126040e0040760405a0401403faa03f6a03f2a03eea03ece03e6403e2403e0803d9e03d8203d3c03cd203cb603cbb03cb703c91050d0050b6050520503604ff004f8604f4604f2a04ee404e9e04e5804e1204da804d6804d2804d0c04ca204c6204c2204c0604b9c04b5c04b1c04b0004aba04a7404a2e049e80497e0493e)
  (.lf 0)))

def shaXorReads190 : BTree :=
  .nd (.nd (.nd (.lf
  0x2583a2583429e3c29e0c27b2b27b272699d25f0125d8525b14257f8257f229e0e27ae527ae12691925e4325da725a9c257a22579c2b7f0293b7293b3287a1270cf270c5270c2270c0270ba2b8922b7e2293a5293a1287c9270992708f2708c27088270862b8862b7d4293812937d287772704d27039270342702e270282b8802b7d029355293512874b270512703b270362701a270142b7622b720292c9292c5)
  (.lf
  0x27247272452724127223272212721f2721b272192721727215271f7271f5271f3271f1271df271dd271db271d9271d5271cd271cb271e7271c9271c5271c327235271c1271bd271bb271ff271b9271b526ad926abb26aa126a9d26a8926a8726a8326a8126a7926a7726a6d26a6b26a6926a6726a6326a5b269ab26997269932698f2691f28796287c02876e287422870e286ae286b828694286662864628630))
  (.nd (.lf
  0x2f25f2f24824e851e1c11e1a71e1a21e03c3073e303a52f27f2f2612f24a2505624e891e1c51e1a91e1a41e15c1e03a30728303a92f2832f2632f24c2504c24e8d1e1c91e1ab1e1a61e1541e038306d6303e72f2872f2652f24e2504224e911e1cd1e1ad1e1a81e14a1e036306d0303eb2f28b2f2672f2502503824e951e1d11e1af1e1aa1e13e1e034306c4303ef2f28f2f2692f2522502e24e991e1d51e1b1)
  (.lf
  0x20b1f20b1b20b1920b0920b0720b0320b0120af120aef20aeb20ae920adb20ad920ad520ad320ac520ac320abf20abd20aad20aab20aa720aa520a9720a9520a9120a8f20a8120a7f20a7b20a7920a6b20a6920a6520a6320a5520a5320a4f20a4d20a3f20a3d20a3920a3720a2920a2720a2320a2120a1320cb620ca220c8c20c7620c6020c4a20c3420c1e20c0820bf220bdc20bc620bb020b9a20b8420b6c)))
  (.nd (.nd (.lf
  0x357983578e35780357763576c357643575a35750357463573c35732357283571e35716356d23567c35626355ee355c6355a03556a36cc836cbe36cb436caa36ca036c9636c8c36c8236c7636c6e36c6436c5a36c5036c4636c3c36c3236c2836c1e36c1436c0a36c0036bf236bea36be236b5236a4036a36369ea369e0369d63753c3752c37524375183751037504374f2374e8374de374d4374c6374bc374b0)
  (.lf
  0x1d3fa1d3ec1d3e61d3d81d3ce1d3c41d3bc1d3ac1d3a41d39a1d38e1d3621d3581d3361d30a1d2e01d2b21d1cc1d1c41d1b41d1b01d1921d03e1d0301d0221d01c1d00e1cbfa1d4131d4111d40d1d40b1d4091d4071d4031d4011d3ff1d3fd1d3fb1d3f71d3f51d3f31d3ef1d3ed1d3eb1d3e91d3e71d3e31d3e11d3df1d3db1d3d91d3d71d3d51d3d11d3cf1d3cd1d3cb1d3c51d3c31d3c11d3bf1d3bd1d3b9))
  (.nd (.lf
  0x331583310733104330fc330e9330e032ff432ff232fd632f8032a7432a6d32fba32f7a32a4032a3f32fa632f5e329f7329f432f9632f4c329ba329b932f4432f3632f3532f323294c3292e3292832923328e6328a03286732864328d43288e3283a32839328c4328863281132808328b432876327d7327d2327a43279d3487f347dc347a93477e3477634774346d3346c8346ae346a63470f346543464c34644)
  (.lf 0)))

def shaXorReads191 : BTree :=
  .nd (.nd (.nd (.lf
  0xa9d90a6800fb990fb580bf890b4c70aa570aa100a9db0a6820fb370faf80bf8b0b4c90aa5b0aa120a9dd0a6840fad70fa960bf8d0b4cb0aa5f0aa140a9df0a6860fa790fa3a0bf8f0b4cd0aa630a9e10a9d60a6880fa1f0f9de0bf910b4cf0aa670a9e30a9d80a68a0f9c30f97c0bf930b4d10aa6b0a9e50a9da0a68c0f9610f9140bf950b4d30aa6f0a9e70a9dc0a68e0f8f90f8d40bf970b4d50aa730a9e9)
  (.lf
  0x3b9f93b9f73b9eb3b9cd3b9253b94b3b9233b91f3b88b3b88f3b8893b8853b8153bf483bf403bf3a3bf2a3bf223bf183bf0e3bf023bef63bf083bee43bede3bed03becc3bdac3bda03bd963bd8c3bd823c03e3bbf63bbfe3bbe43bba83bab03ba263b93e3b84e3b7cc3b7883b7203bf493bf473bf433bf413bf3f3bf3d3bf3b3bf373bf353bf333bf2f3bf2d3bf2b3bf293bf253bf233bf213bf1f3bf1b3bf19))
  (.nd (.lf
  0x3a36c3a4c03a3703a4b03a3743a4a83a3783a4963a37c3a4903a3803a47e3a3843a4783a3883a4663a38c3a4603a3903a4483a3943a4423a3983a3f23a39c3a3e43a3a03a3de3a3a43a3d03a3a83a3ca3a3ac3a3b23a8303ab683a8343ab623a8383ab1c3a8763aad83a87a3aad23a87e3aac43a8823aabc3a8863aaac3a88a3aaa23a88e3aa943a8923aa8e3a8963aa783a89a3aa723a89e3aa503a8a23aa4a)
  (.lf 0))) (.nd (.nd (.lf
  0x2a50a2a42e2a4022b9ec2b9f02b9f42b9f62b9f82b9fc2b9fe2ba022ba062ba0a2ba0e2ba122ba162ba1a2ba1e2ba222ba262ba2a2ba2e2ba322ba362ba3a2ba3e2ba422ba462ba4a2ba4e2ba522ba562ba5a2ba5e2ba622c8402c8442c8482c84c2c8502c75a2c8542c8582c85c2c8602c8642c8682c86c2c8702c8742c8782c87c2c8802c8842c8882c88c2c8902c8942c75c2c7442c8982c89c2c8a02c8a4)
  (.lf
  0xcc100cbf00cbb00cb900cab00ca900ca500ca300c9500c9300c8f00c8d00c7f00c7d00c7900c7700c6900c6700c6300c6100c5300c5100c4d00c4b00c3d00c3b00c3700c3500c2700c2500c2100c1f00c1100c0f00c0b00c0900bfb00bf900bf500bf300be500be300bdf00bdd00bcf00bcd00bc900bc700bb900bb700bb300bb100ba300ba100b9d00b9b00b8d00b8b00b8700b8500b7700b7500b7100b6f))
  (.nd (.lf
  0x404a44021d40498402674048840363404824028f40476402b7404644024b40458402174044a402d540440402ef403dc4029f403d040235403c440245403be401ff403b6401a1403a6401874039e4016d4038a4018d4038440139403724009f4036c4004d403644002d40340402d94033a4028340324402b9403004023b402f44024d402dd401a6401a9414a3417be4144f417b4412d1417a8412bb4179841157)
  (.lf 0)))

def shaXorReads192 : BTree :=
  .nd (.nd (.nd (.lf
  0x889a0f6570f6500f3d00f3710f1910f12e0f1050dce60dc8708890088520f6590f6540f3c60f3750f1950f1070f0ea0dcdc0dc8b08854088140f65b0f6560f3bc0f3790f1990f1090f0ee0dcd20dc8f0880a087ce0f65d0f6580f3b20f37d0f19d0f10b0f0f20dcc80dc93087c4087880f65f0f65a0f3a80f3810f1a10f10d0f0f60dcbe0dc970877e087420f6610f65c0f39e0f3850f10f0f0f80dcb40dc9b)
  (.lf
  0x3138430ef53137830eb3313723135531366313593135d3123231229311943118b311643115b310ea310e932261325b032265325a4322913259e3217b325943214b32588322213257c3227532570322793256a3229b325603217f32558321833254a3227d3253e32281325343229f3252e32187325263218b32314321c33230c3218f3230232225322f632193322ea321ab322e432199322d6320cf322ce32229))
  (.nd (.lf
  0x128881288c128901345a1345e13462134661346a1346e13472134761347a1347e13482134861348a1348e13492134961349a1349e134a2134a6134aa134ae134b2134b6134ba134be134c2134c6134ca134ce134d2134d614592145961459a1459e145a2145a6145aa145ae145b2145b6145ba145be145c2145c6145ca145ce145d2145d6145da145de145e2145e6145ea145ee145f2145f6145fa145fe14602)
  (.lf
  0x24d5024c7024c5024c10249302485024830247f0245302445024430243f0240f02401023ff023fb023c9023bb023b9023b5023830237d02260022560224c02242022380222e022240221a0221002206021fc021f2021e8021de021d4021ca021c0021b6021ac021a2021980218e021840217a02170021660215c02152021480213e02134022610225f0225b022590225702255022510224f0224d0224b02247)))
  (.nd (.nd (.lf
  0x9e7b0924b0867d0863808603085ec07cb607cb309e7d0924d086810863a08605085ee07c7007c6d09e7f0924f086850863c08607085f007c3107c2809e8109251086890863e08609085f207bf107be809e83092530868d0860b08600085f407bb107ba809e8509255086910860d08602085f607b7107b6809e8709257086950860f08604085f807b3107b2809e8909259086990861108606085fa07af107ae8)
  (.lf
  0x37f8137f8b37f7d37f7937f2737f2937f2537f0737ed937ed337ecf37ecd37eb137f6d37eaf37eab37e9337e9737e9137e8d37e613b1623b1583b1503b1663b1383b1303b12a3b11a3b1103b1123b0fa3b0f43b0e63b0d83b0cc3b0d03b0ba3b0ac3b0a43b09a3b08a3b0843b0743b0663b05c3b04a3b25c3b0503b1e23b0323b16a3b1633b1613b15d3b15b3b1593b1573b1513b14f3b14d3b1673b14b3b147))
  (.nd (.lf
  0x315303181e3156e31814315723180e31576317fe3157a317de3157e317a03158231796315863178c3158a317783158e31770315923176a31596317603159a317563159e31746315a23173e315a63172c315aa31724315ae31716315b231710315b6316fc315ba316f2315be316e6315c2316e0315c6316d6315ca316c8315ce316b8315d2315f8315d6315f2315da315e6326b232cb6326b632c9a326ba32c82)
  (.lf 0)))

def shaXorReads193 : BTree :=
  .nd (.nd (.nd (.lf
  0x23d6a23b6f23b5c23b50282402807a25be725be324a4923d7723d6c23b7123b5e23b52282362807225bd325bcf24a0323d7b23d0823b7323b6c23b66282262806425b1125b0d24a0523d0b23ce823b1323b1023b0a280be2800425a9925a95249e123ceb23cb423b0523af423aee2805227fda25a4f25a4b249cd23de323cc123cb623ad823ad227fd227fbc25a0f25a0b249cf23de523cc523cb823aae23aa8)
  (.lf
  0x24a2524a2324a1f24a1d24a1b24a4124a1924a1524a1324a1124a0d24a0b249f3249f5249f1249ed249eb249e9249e5249d9249d7249d5249d1249bf249bd249bb249b7249b5249b3249b1249a7249a3249a12499f2499b249992498f2498d24989248cb2486f248732486d24869246fd24703246fb246f7246a9246b5246a7246a3246792467724673246712463f2463d246312462f24605251e0251d6251cc))
  (.nd (.lf
  0x2be2f2bd9b2bd841e7181e6c71db071db021bfe21beee2d0062cfc12bd9d2bd861e7021e6cb1db091db041bfa01bed22cffa2cfc52bd9f2bd881e6ec1e6cf1db0b1db061bf5a1bed42cfc92bda12bd8a1e6d51db0d1db081bed82e0992cf572cf3b2cf24238151dd051dceb1dce61cef22e7f62e09d2cf5b2cf3d2cf26239e6238191dd091dced1dce81d1561cedc2e7742e0a12cf5f2cf3f2cf28239dc2381d)
  (.lf
  0x1ec8f1ec8b1ec7b1ec6d1ec6b1ec671ec571ec491ec471ec431ec331ec251ec231ec1f1ec0f1ec011ebff1ebfb1ebeb1ebdd1ebdb1ebd71ebc71ebb91ebb71ebb31eba31eb951eb931eb8f1eb7f1eb711eb6f1eb6b1eb5d1eb4f1eb4d1eb491eb391eb2b1eb291eb251eb151eb071eb051eb011eaf31eae51eae31eadf1ead11eac31eac11eabd1eaad1eaa71e0021dfee1dfd81dfc21dfac1df961df801df6a)))
  (.nd (.nd (.lf
  0x327e0330d8330ca330c0330b6330ae330a0330923308a3307e330723306833060330543304a33040330363302c33020330143300832a7a32a2a32a02329ae329783291a3285c328243280c327e4332e8332cc332be3325633246332623312c33118330fa32a6a32a34329f232f3032836332f9332ef332e9332e7332d7332d3332cd332c9332bf332bd332bb3325f332573324f332473324333263332313322b)
  (.lf
  0x1ba451ba431ba3f1ba3d1ba3b1c3741c36a1c35e1c3541c34a1c33e1c3341c3301c3201c3161c30c1c3041c2fe1c2d61c2ce1c2c21c2d81c2aa1c2681c21a1c1d21c18e1c14a1c1021c0bc1c0741c02e1bfea1bfa81bf621bf1a1c3751c3731c36f1c36b1c3691c3671c3631c3611c35f1c35d1c3591c3571c3551c3531c34f1c34b1c3491c3471c3431c3411c33f1c33d1c3391c3371c3351c3331c3311c32d))
  (.nd (.lf
  0x2cafe2c7482c45c2c45b2cae02c7142c4432c4402cad82c7082c4442c4372caa82c7022c4322c42b2caa02c6ec2c3fc2c3f32ca982c6e02c3fe2c3db2ca7e2c6c42c4002c3c92ca742c6bc2c3ba2c3b32ca4c2c69c2c2b02c2a92ca442c6942c28f2c28a2ca302c68c2c2732c26c2ca142c67c2c24d2c24a2ca042c6602c22c2c22b2c9fc2c6482c2132c2102c9f22c6422c1ea2c1e92c6382c1c02c1bf2c1ba)
  (.lf 0)))

def shaXorReads194 : BTree :=
  .nd (.nd (.nd (.lf
  0x36a8336a7f356653466d34663346603465e346583b8d83b84c36a5d36a593560f346273461f3461c3461a346143b8643b7b6368e1368dd355d9345dd345d3345d0345ce345c83b7d63b7a03682f3682b355af345bf345b7345b4345b2345ac3b7523b70a3680d368093558934539345313452e3452c345263b72a3b6c2367db367d7355593450d345053450234500344fa3b6a43b6663672f3672b35539344e9)
  (.lf
  0x4120341201411fd411fb411f9411f7411f3411f1411ef411ed411e9411e7411e5411e3411df40f1f40f1b40ed540ecf40ecd40ecb40ec940ec540ec340ebb40eb940eb740eb340c7740c7540c6140c5d40c3b40c3d40c3940c3540c3340c3140c2d40c2b40c2940c2740c1540c0140be740be540be340bdf40bdd40bdb40bd740bbd40b7140b7f40b6f40b6540b3740b3540b3140b2b40aeb40b0b40ae940ae5))
  (.nd (.lf
  0x38267382653825c3a2ce3a05f38462382be381e1381d3381cc3a2c23a0a93845a38264381e5381d5381d03a2ba3a04d3844e381e9381d7381d2381b03a2b03a0873843c382cd381d9381d4381a23a2a83a02d38434382d1381db381d63819c3a29e3a08b38424382d5381dd381d83818a3a2943a2273841c382d9381df381da381843a28a3a2153840a382dd381dc38129380ee3a27e3a1dd384043826b381de)
  (.lf
  0x31a7931a7531a7131a6931a6731a6331a6131a5f31a5d31a59319ef319ed319eb319df319dd319d5319d3319b9319b7319b5319b3319af319ad319a5319a3319633195f3195d3195b31957319553195331969319513194d3194b319493192f3192b31919319173191331911319073190531901318ef318d7318d5318d1318cf318c5318c3318bf3185531853318513184d3184b3184931847317a9316bf3160b)))
  (.nd (.nd (.lf
  0xe41a0e41e0e4220e4260e42a0e42e0e4320e4360e43a0e5b40e5b80e5bc0e5c00e5c40e5c80e5cc0e5d00e5d40e5d80e5dc0e5e00e5e40e5e80e5ec0e5f00e5f40e5f80e5fc0e6000e6040e6080e60c0e6100e6140e6180e61c0e6200e6240e79e0e7a20e7a60e7aa0e7ae0e7b20e7b60e7ba0e7be0e7c20e7c60e7ca0e7ce0e7d20e7d60e7da0e7de0e7e20e7e60e7ea0e7ee0e7f20e7f60e7fa0e7fe0e802)
  (.lf
  0x2a0792a0772a0732a06f2a0632a0612a05d2a04d2a03b2a03d2a0392a0352a0332a0312a02d29ff329fef29fed29fe729fe529fe329fe129fdd29fdb29fd729fd529fd129fcf29fcb29ff529fc929fc529fc329fc129fbd29f9529f6129f6529f5f29f5b29f5929f5729f5329f5129f4d29f6929f4b29f4729f4529f4329ee329ee129edf29edd29ed929ed729ec929ec729ec329df329df129e4f29def29deb))
  (.nd (.lf
  0x1a87f1a8981a6871a8931b7f71b9721b7fb1b9681b81b1b95a1b81f1b9541b8231b9481b8271b93e1b77f1b9361b7831b92c1b7871b9221b78b1b9141b78f1b90e1b7931b9041b6fb1b8fa1b82b1b8ea1b82f1b8e41b8331b8da1b8371b8d01b7971b8c61b79b1b8bc1b79f1b8b21b7a31b8a81b7a71b8981b83b1b8901b83f1b88a1b8431b8801b8471b8761b7ab1b86e1b7af1b8641b7b31b85a1b7b71b850)
  (.lf 0)))

def shaXorReads195 : BTree :=
  .nd (.nd (.nd (.lf
  0x187331872f177b1168f9168a61681f167d0167ca1a73419fe01871d187191793f168b5168a8165d7165d4165ce1a7241a42218709187051759716a1d168b9168aa165b21658e1a6ec19f66186f5186f117581168bd168ac165bf165b4165901a6e019f28186e3186df1756d16a251695d168ae165b6165921a6d81a420186d1186cd1756f1695f168c1168b0165b8165941a6d01a3f6185ff185fb1757116985)
  (.lf
  0x89990899708993089910895b08959089550895308913089110890d0890b088d5088d3088cf088cd0888f0888d08889088870884708845088410883f08809088070880308801087c3087c1087bd087bb0877d0877b08777087750873708735087310872f086f9086f7086f3086f1086d108ea408e7c08e2a08dfa08dba08d6408d3408cf408cb408c7408c1e08bd808ba808b6808b2808ad208a8c08a5c08a1c))
  (.nd (.lf
  0x245272451424511244fe244fb244e8244e5244d2244cf244bc244b9244a6244a3244902448d2447a2447724464244612444e2444b2443824435244222441f2440c24409243f6243f3243e0243dd243ca243c7243b4243b12439e2439b2438824385243722436d2435a2435724344243412432e2432b24318243152430f25753257422573f2572c25729257162571325700256fd256ea256e7256d4256d1256be)
  (.lf 0))) (.nd (.nd (.lf
  0x7400073c0073800734007300072c20727c07236071f0071a80716a07122070e40709c0705e0701606fd806f9006f5006f1206ed406e9806e5e0a4660a4420a4160a3e80a3be0a3960a36a0a3440a3180a2f20a2c60a29c0a26e0a2440a2160a1f00a1c80a1a00a1760a14e0a1200a0f60a0cc0a0a40a07a0a0520a02409ffa09fd009fb00a4560a42a0a3fc0a37e0a32c0a2da0a2b00a2820a2580a22a0a1b4)
  (.lf
  0xcc170cc150cc110cc0f0cc0d0cc0b0cc070cc050cc030cc010cbfd0cbfb0cbf90cbf70cbf30cbf10cbef0cbed0cbe90cbe70cbe50cbe30cbdf0cbdd0cbdb0cbd90cbd50cbd30cbd10cbcf0cbcb0cbc90cbc70cbc50cbc10cbbf0cbbd0cbbb0cbb70cbb50cbb30cbb10cbad0cbab0cba90cba70cba30cba10cb9f0cb9d0cb990cb970cb9510400103ae1034c102f01029410236101d81017e1011e100c210066))
  (.nd (.lf
  0x35ec435ebb35ebe35e7535e3635e2b35de635de535c51375413762637537376183753b376103751f3760437545375f037509375ea374f7375dc374ff375d4374fd375ca374fb375be374cd375b0374cf375a4374b53759c374a93758e374ab37582374933757a374893756a37549375603746f3755637463375503754d37471374483743037419374223740d374273741c370e0370cd370d6370c1370af370ac)
  (.lf 0)))

def shaXorReads196 : BTree :=
  .nd (.nd (.nd (.lf
  0x4114a01f6d00e270067a0062d005d1005c6004a00045741140410fe01f6f00e290067c0062f005d3005c800496004554115001f7100e2b0067e00631005d5005ca004534149e00e6d00680006410004141440412f000e6f0068200643001680003f41438412e200e7100684006450015e0003d41430412e400e730068600647001540003b414284113c00e7500688006490014a000394141e410aa00e770068a)
  (.lf
  0x2f06a2ecf02f0602ec982f0562ec802f04c2ec842f0422f03e2eff02efec2efb02efac2ef242ef122ef1a2ef162ee3c2ee302ee3a3016e302723014430268300603025e3006430252300683024a3006c3023e30178302343014e3022c3008e302243009230218300963020c3017c3020030160301f8300bc301ee300be301e4300ba301da300a0301d0300a4301ca30022301bc2fee6301b22feea301a82feee))
  (.nd (.lf
  0xbdde0bde20bde60c8620c8660c86a0c86e0c8720c8760c87a0c87e0c8820c8860c88a0c88e0c8920c8960c89a0c89e0c8a20c8a60c8aa0c8ae0c8b20c8b60c8ba0c8be0c8c20c8c60c8ca0c8ce0c8d20c8d60c8da0c8de1088010884108881088c1089010894108981089c108a0108a4108a8108ac108b0108b4108b8108bc108c0108c4108c8108cc108d0108d4108d8108dc108e0108e4108e8108ec108f0)
  (.lf
  0x395933958f3957d39579395773957339563395613955f3955b3955739555395533954b3954739545395433953b395373953539533395113950d3950b3950939501394fd394fb39505394f9394f5394f3394f1394eb394e3394e1394df394db394d7394d5394d3394cd394cb394c9394e7394c7394c3394c1394ed394bf394bb394b9394b7393a9393a5393a3393a13939d3939b393513934f3934b3932f39323)))
  (.nd (.nd (.lf
  0x834707781077360770d076f20763209fec09fca08f6708ee70834907785077380770f076f4076340a47c09faa08f6908ee90834b077890773a07711076f60763609fa009f9608f6b08eeb0834d0778d07713076fc076f8076380a47a08f6d08eed0834f0779107715076fe076fa0763a0ae9209b9f09b1f08f6f083e90836b0835408310082500afae0aea609ba109b2108f71083ed0836d083560831208252)
  (.lf
  0x302c9302c5302c3302c1302bf3029b302993012730125301213011f3011d3011b301173011530113301113010b30109301073010d3010530101300ff300fd300f92ffd32ffd12ff812ff7d2ff7b2ff352ff332ff312ff2d2ff2b3146a3146231458314483144c314383142c31422314183140e313fe313f43140431402313da313d0314063145a313b6313aa313a0313963138c313ae3137c313703137e3135e))
  (.nd (.lf
  0x1f35b1f58a1f34f1f57c1f3451f5741f33b1f56a1f32d1f5621f3211f5581f3151f54c1f30b1f5421f3011f5381f2f91f5301f2e91f5261f2e11f51a1f2d11f5101f2c91f5061f2bf1f4fa1f2b11f4f01f2a71f4ea1f29d1f4de1f28d1f4d41f2851f4ca1f2751f4be1f26d1f4b41f2631f4ae1f2551f3921f2491f37e1f23b1f3721f22f1f3661f2251f4a71f2081f20b1f1c01f1b81f1971f1b7205ef20606)
  (.lf 0)))

def shaXorReads197 : BTree :=
  .nd (.nd (.nd (.lf
  0x28399273612617d2615d261562612c2a17629df9283b127363261812615f261582612e2a15c29db72837d273652603f260172601225fe02a15629db9283812736726043260192601425fe22a0fc29dbd28359273692615a260472601b25fe42a0ec29dbb2830b2736b2615c2604b2601d25fe62a0e429db5282f32736d2615e260212601f25eec2a0d629db3282fb2736f2601625e6925e6725e642a0ca29dc3)
  (.lf
  0x16695166931668f1668d1668b166891668516683166811667f1667b1667916677166751667116653166511664f1664b1662b16629166691662716623166211665d1661d166191661716615166111660f1660d1660b16607166051660316601165fd165fb165f91661f165f7165f3165f1165ef165eb1653516533165311652d16529164ef178b6178ae178a2178981788e1787e1785e177fe177f6177ea177e0))
  (.nd (.lf
  0x11c62209eb2098e2096517fec17d0f136b31362b1362211c4411c4111c3411c18209ef209902096717fa817d131362f1362611bfa11bf711bea11bd2209f3209922096917f6217d17136331362a11bb411bb111ba411b8a209f7209942096b17f2017d1b136351362e11b6c11b6911b5e11b42209fb2096d2095017ee017d1f136371363211b2411b2111b1611afa209ff2096f2095417e9c17d231363913634)
  (.lf
  0x155a5155a11557b1556d1556b155671553f155311552f1552b15507154f9154f7154f3154d1154c3154c1154bd154971548915487154831545b1544d1544b154471541f154111540f1540b153e7153d9153d7153d3153ad1539f1539d153991536f153611535f1535b1533b1532d1532b15327152fb152f510414103d8103801031e102c21026610208101aa10150100f010094100380ffda0ff780ff1c0febc)))
  (.nd (.nd (.lf
  0x1f0361f02a1f01e1f0121f0061effa1efee1efe21efd01efc41efbc1efb01efa61ef9a1ef8e1ef821ef761ef681ef5c1ef521ef461ef3a1ef2e1ef221ef161ef0c1ef021eeee1f1821f17a1f1701f1641f15a1f1521f1461f13c1f1341f12a1f11e1f1121f1081f0fc1f0f21f0ea1f0e01f0d61f0ca1f0c01f0b61f0aa1f0a21f0961f08c1f0801f0781f06e1f0661f05c1f3361f31c1f2e61f2ce1f2ae1f28a)
  (.lf
  0x14f0c14f0214ef814eee14ee414eda14ed014ec614ebc14eb214ea814ea014e7214e4414e1814dec14dc014d9414d6814d3c14f7b14f7914f7514f7314f7114f6f14f6b14f6914f6714f6514f6114f5f14f5d14f5b14f5714f5514f5314f5114f4d14f4b14f4914f4714f4314f4114f3f14f3d14f3914f3714f3514f3314f2f14f2d14f2b14f2914f2514f2314f2114f1f14f1b14f1914f1714f1514f1114f0f))
  (.nd (.lf
  0x98100980c0980409801097ca097c6097be097bb0978b097820977e097760974b097420973e097360970b09702096fe096f6096c4096c0096b8096b50967e0967a096720966f09638096340962c09629095f2095ee095e6095e3095ac095a8095a00959d0956d09564095600955809526095220951a09517094e0094dc094d4094d10949a094960948e0948b0945b094520944e094460941b094120940e09406)
  (.lf 0)))

def shaXorReads198 : BTree :=
  .nd (.nd (.nd (.lf
  0x35951344bf334b433405333ff333d6374d83720735a29344693344c3340733401333d8374d0371af3591534489333f8333253332333320374c2372013590534403333fa333453334333340374b83719b358f5343e1333fc333553335333350374ac37069358df343a9334b7333fe33309332883749a3706b358cd34369334bb33400331fd331fa3748e3705b35899342e7334bf33322331f3331f03748437045)
  (.lf
  0x3321f3321d33215331f9331e3331eb331e1331dd331bf331bd331b93319b3313533147331333312f331213313d3311f3311b331033310933101330fd330df330eb330dd32ff532fdd32fdb32fd732fcb32fc932fc732fbd32fbb32fb932fb732fa932fa732fa532fa332f9932f9732f9532f9332f3b32f373293f3293d3292f32925328a7328a5328a13289f3289d3289b328973288f3288d3288b328873287f))
  (.nd (.lf
  0x38fe838b87384eb384c7384b02e8ae2e49d298e1298bf298ba28e2c28c4238fd038b8b384ef384c9384b22e8a82e4a1298e5298c1298bc28e2028c2838fbe38b8f384f3384cb384b42e89c2e4a5298e9298c3298be28e1428cf638e4a38b93384f7384cd384b62e8942e4a9298ed298c5298c028e0828cf838e3e38b97384fb384cf384b82e88a2e4ad298f1298c7298c228e0228cfa38e3838b9b384ff384d1)
  (.lf
  0x2792f2792b279292791b2791927915279132790527903278ff278fd278ef278ed278e9278e7278d9278d7278d3278d1278c3278c1278bd278bb278ad278ab278a7278a52789727895278912788f278812787f2787b278792786b27869278652786327855278532784f2784d2783f2783d27839278372782927827278232782127813278112780d2780b277fd277fb277f7277f5277e7277e5277e1277df277d9)))
  (.nd (.nd (.lf
  0x1303e130361302c13022130181301012fd612fcc12fc212fb812fae12fa412f9c12e9c12e9412e8a12cfa12f9012f7c12f6212e7012e6412e5812e4c12e3c12e3012e2812e1c12e1412e0812dda12dce12dc612db612dae12da612d9012d7a12d3e12d3212d2a12d2212d0c12cd612cac12c8e12c6e13ffc13fb813f6813f1813ec613e7413e2613dda13d8813d3613ce213c9613c4613bf813baa13b5c13b0e)
  (.lf
  0x222a3222a5222a12229d2229b222992229522293222912228f2228b222892228522287222832227f2227d2227b22277222712226f2226d222692226722265222632225f2225d2225b2225922255222512224f2224d222492224722245222432223f2223d2223b22253222392223522233222312222d2222b222292222722223222212221f2221d22219222172221522275222132220f2212b221292212522123))
  (.nd (.lf
  0x188941886c18868188401883c1881418810187ec1976e19912197721990819776198fe1977a198f41977e198ea19782198e019786198d61978a198cc1978e198c219792198b819796198ae1979a198a41979e1989a197a219890197a619886197aa1987c197ae19872197b219868197b61985e197ba19854197be1984a197c219840197c619836197ca1982c197ce19822197d219818197d61980e197da19804)
  (.lf 0)))

def shaXorReads199 : BTree :=
  .nd (.nd (.nd (.lf
  0x1c02c1bc7f1a717199c518add18a5b18a50186b61c0261bc671a693199c718ae118a5d18a52186b81bfe41beef1a695199c918ae518a5f18a54186ba1bfa21bed31a697199cb18ae918a6118a56186bc1bf5c1bed51a699199cd18aed18a6318a58186be1bed91a69b199cf18af118a6518a5a186c01cef31b5cf1a84719a85199f7199ec199941d1581cedd1b5b71a84919a89199f9199ee199961d14e1cec5)
  (.lf
  0x404684045a4044c40450403da403d2404d4403c8403b2403a84039a4038c4037e40374403904034a403e44034e40328402fc40302402de404cb404cf404c9404c5404c3404c1404bb404b7404b5404b3404af404ad404ab404a9404a5404a14049f4049d404994049740491404934048f4048b4048940487404834047f4047d4047b4047740475404714046f404694046740465404634045f4045b4045940457))
  (.nd (.lf
  0xdb600db4a0db3e0db280db1c0db060dafa0dae40dad80dac20dab60daa00da940da7e0da720da5c0da500da3a0da2e0da180da0c0d9f60d9ea0d9d40d9c80d9b20d9a60d9900d9840d96e0d9620d94c0d9400d92a0d91e0d9080d8fc0d8e60d8da0d8c40d8b80d8a20d8960d8800d8740d85e0d8520d83c0d8300d81a0d80e0d7f80d7f40d7ec1401c1400c13fda13fc813f8a13f7813f3c13f2a13eec13eda)
  (.lf 0))) (.nd (.nd (.lf
  0x2ce4e2ce462ce3c2ce342ce2a2ce222ce182ce102ce062cdfe2cdf42cdec2cde02cdd82cdd02e7fa2e7b62e7722e72e2e6ec2e6a82e6662e6282e5ea2e5ac2e56e2e5302e4f62e4c42e2242e2182e20a2e2002e1f62e1ea2e1e22e1d62e1ca2e1c02e1b22e1a82e19e2e1922e1862e17a2e7c22e78c2e7382e70a2e6c22e6842e6302e60e2e5cc2e5922e5542e51c2e4ea2e48a2e4682e4462e4242e4022e3e0)
  (.lf
  0x7ea507ea307e9f07e6d07e5f07e5d07e5907e2b07e1d07e1b07e1707de707dd907dd707dd307da507d9707d9507d9107d6107d5307d5107d4d07d1b07d0d07d0b07d0707cd907ccb07cc907cc507c9507c8707c8507c8107c4f07c4107c3f07c3b07c0d07bff07bfd07bf907bcd07bbf07bbd07bb907b8d07b7f07b7d07b7907b4d07b3f07b3d07b3907b0d07aff07afd07af907acd07abf07abd07ab907a8d))
  (.nd (.lf
  0x33aec33aa433ae633ac833ae033ad433a8433a4c33a4433a3033a2a33968339d8351cc3564e351ce35646351ba356383534a35340351b03533a351ac3532c3518c35320351803531635176353103516c35304351d2352fc3516a352ee35148352e435136352d63512c352cc3513c352c23513a352b635122352b03511c352a63511e352963512035290350dc3528035094352523509835230350a83509e35002)
  (.lf 0)))

def shaXorReads200 : BTree :=
  .nd (.nd (.nd (.lf
  0xe3ef0e3c10e3aa03622035ee0e6f60e5d30e3f30e3c30e3ac035e4035b40e6ec0e5d70e3f70e3c50e3ae035aa035780e6e20e5db0e3fb0e3c70e3b00357a035460e6d80e5df0e3ff0e3c90e3b20353c0350a0e6ce0e5e30e4030e3b40e3850350c034d80e6c40e5e70e4070e3b60e389034ce0349e0e6ba0e5eb0e40b0e3b80e38d03494034640e6b00e5ef0e40f0e3ba0e3910345a034280e6a60e5f30e413)
  (.lf
  0xcbe80cb6d0cbde0cb710cbd40cb750cbca0cb790cbc00cb7d0cbb60cb810cbac0cb850cba20cb890cb980cb8d0cb9310a7310e9e10a7710e8010a7b10e5e10a7f10e4010a8310e2010a8710dfe10a8b10ddc10a8f10dba10a9310d9810a9710d7a10a9b10d5a10a9f10d3810aa310d1610aa710cf410aab10cd210aaf10cb410ab310c9810ab710c7810abb10c5a10abf10c3e10ac310c2210ac710c0210acb))
  (.nd (.lf
  0x116681166a1166c1275412756127581275a1275c1275e12760127621276412766127681276a1276c1276e12770127721277412776127781277a1277c1277e12780127821278412786127881278a1278c1278e12790127921339a1339c1339e133a0133a2133a4133a6133a8133aa133ac133ae133b0133b2133b4133b6133b8133ba133bc133be133c0133c2133c4133c6133c8133ca133cc133ce133d0133d2)
  (.lf
  0x3a65d3a6593a6573a6353a6333a62f3a62d3a6213adc23adb63adac3ada03ad943ad863ad803ad683ad5e3ad543ad6e3ad423ad343ad223ad163ad283ad0c3acf23acf63ace03acd83acc83acbc3acae3aca63ac9a3ac723ac6a3adc63ac583ac783adc33adbf3adbb3adb93adb73adb53adb13adad3adab3ada93ada53ada13ad9f3ad9d3ad993ad953ad933ad913ad8d3ad893ad873ad853ad813ad7d3ad7b)))
  (.nd (.nd (.lf
  0x3b5502f0f02317022e1022d60228a019d3019ca03b5702f110231b022d8022a30228c0198c0198903b5902f130231f022da022a50228e0194d0194403b5b02f1502323022dc022a7022900190d0190403b5d02f1702327022de022a902292018c6018c303b5f02f190232b022e0022ab02294018870187e03b6102f1b0232f022ad022a202296018470183e03b6302f1d02333022af022a40229801800017fd)
  (.lf
  0x348df348dd348db348d7348d5348d3348d1348cd348cb348c9348c7348c3348c1348bf348bd348b9348b7348b5348b3348af348ad348ab348a9348a5348a3348a13489f3489b34899347cb347cd347c9347c53474734745347413473f3473d3473b347373473534733347313472d3470d3470b3474b347093470534695351ca351c0351b435634351ae35196351883517c3517035162351d0351523514435132))
  (.nd (.lf
  0xf80e1039e0f8121033c0f850102e00f854102840f858102260f85c101c80f8601016e0f8641010e0f868100b20f86c100560f8700fff80f8740ff960f8780ff3a0f87c0feda0f8800fe7a0f8840fe1c0f8880fdbe0f88c0fd5c0f8900fd000f8940fca00f8980fc440f89c0fbe80f8a00fb8a0f8a40fb280f8a80fac80f8ac0fa6a0f8b00fa100f8b40f9b40f8b80f9520f8bc0f8c20cea00d3560cea40d338)
  (.lf 0)))

def shaXorReads201 : BTree :=
  .nd (.nd (.nd (.lf
  0x1d6c91d6ba1d6781d6542204421fdc2062d2061d1f6471d6f51d6cb1d6bc1d67a1d65621fe021f5c2056f205631f6491d6f71d6cd1d6be1d67c1d65821f6021f4c20571205651f64b1d6f91d6cf1d6c01d67e1d65a21f4221efe20573205671f64d1d6fb1d6d11d6c21d6801d65c21f0421ec020497204671f64f1d6fd1d6d31d6c41d6821d65e21ee821e5420499204691f6511d6ff1d6d51d6c61d6b81d6b2)
  (.lf
  0x1d2ca1d27c1d2741d2281d2041d19a1d09a1d0901d0861d07e1d04e1cf041d7e31d7c31d7bf1d7b51d6ad1d6ab1d6a71d6a51d6a31d6a11d69d1d69b1d6991d6971d6931d6911d68f1d68d1d6891d6871d6851d6531d64f1d64d1d64b1d6491d6451d6431d6411d63f1d63b1d6391d5131d5111d50d1d50b1d5091d5071d5031d5011d4ff1d4fd1d4f91d4f71d4f51d4f31d4ef1d4ed1d4eb1d4e91d4e51d4e3))
  (.nd (.lf
  0x27779265f1265c3265ac1dc581dafb18cb918c8d18c88172901727a279a22777d265f5265c5265ae1dc4e1db2b18cbd18c8f18c8a172581723e2798c27781265f9265c7265b01dc441db2f18cc118c9118c8c1721c172002797627785265fd265c9265b21dc3a1db3318cc518c9318c8e171e0171c4279602778926601265cb265b41dc301db3718cc918c9018c41171a4171882794a2778d26605265b626587)
  (.lf
  0xee0e0ee040edfa0edf00ede60eddc0edd20eeff0eefd0eef90eef70eef50eef30eeef0eeed0eeeb0eee90eee50eee30eee10eedf0eedb0eed90eed70eed50eed10eecf0eecd0eecb0eec70eec50eec30eec10eebd0eebb0eeb90eeb70eeb30eeb10eeaf0eead0eea90eea70eea50eea30ee9f0ee9d0ee9b0ee990ee950ee930ee910ee8f0ee8b0ee890ee870ee850ee810ee7f0ee7d0ee7b0ee770ee750ee73)))
  (.nd (.nd (.lf
  0x28204281f0281e9281e3281e8281e1281db281e0281d9281c7281d8281c4281bd281b5281bc281b2281a5281a1281a42812e2811828104280f0280a82809c2808e28082280762806928061280682805e27ff327fef27ff227fe727fcf27fe627f9f27f9927f9e27f9627e2d27e0f27e2c27b9a27b8327b7d27b8227b7b27b7327b7a27b7127b6d27b7027b6a271aa271a0271962718c271822717a2716e27164)
  (.lf
  0x179df179dd179db179d7179d5179d3179d1179cd179cb179c9179c7179c3179c1179bf179bd179b9179b7179b5179b3179af179ad179ab179a9179a5179a317985179831797f1797d1797b179791797517973179711796f1796b179691796717965179611795f1795d1795b17957179551795318c3e18c3418c2a18c2018c1618c0c18c0218bf818bee18be418bda18bd018bc618bbc18bb218ba818b9e18b94))
  (.nd (.lf
  0x19d6b19d6419d6019d5e1a87419d2319d1c19d1619cd619cd319cc819cc61a85a19c971b37f1b37c1b7dc1b5c41b5c21b3511b7d21b5a61b3211b31e1b7c61b5c01b57e1b2e91b7581b5781b2b01b2af1b7241b56e1b3c21b26f1b71c1b5621b3821b24b1b7161b55a1b3b61b2051b70c1b5501b3c01b1d71b7021b51c1b1951b1921b6e21b5161b1591b1561b6dc1b50c1b11b1b1181b6c61b5021b0da1b0d9)
  (.lf 0)))

def shaXorReads202 : BTree :=
  .nd (.nd (.nd (.lf
  0x3e0843dfde3deb63de273de213de1d3f7873e90b3e07c3de823de3d3de393de373de343f46f3e8fd3e0743dfd53dfcd3dfcb3dfc83dfc63f4653e8e53e06a3dfed3df8f3de683ddef3ddec3f4833e8ff3e05e3df733de1a3dddd3ddda3ddd93f40b3e8b93e0543df4d3de1c3ddcb3ddc93ddc63f3e33e8bd3e00c3df273de363ddb73ddb53ddb23f3d13e96f3dffe3dfca3df0d3dda33dda13dd9e3f3f13e973)
  (.lf
  0x3d2683d19c3d1503d10a3d0f23d0d63d0a43d0943d0c23d06e3d05a3d0403d02e3cdee3cdd83cdc83c8383c8a63c6c83c64e3c5f63c5e23c5a23c58e3c5663c4e23c4b23c3fa3d2413d23f3d23b3d1f13d1ef3d1ed3d1e93d1d13d1cd3d2693d1cb3d1c73d1c53d1c33d1bf3d19d3d19b3d1993d16f3d1553d1513d14f3d1173d1133d10b3d1093d1053d0f33d0f13d0ef3d0eb3d0e93d0d73d0d53d0bf3d0a5))
  (.nd (.lf
  0x2e4af2e4a62e3642e35e3a9663a8c73a39b3a33a3a3113403233eed2e4b32e4aa2e33e2e33a3a9583a8cb3a39f3a33c3a3133402833ef12e4b52e4ae2e31a2e3163a94e3a8cf3a3a33a3153a2f83401e33ef52e4b72e4b22e2fc2e2ba3a9463a8d33a3a73a3173a2fc3401233ef92e4b92e4b42e2f62e2a43a9283a8d73a3ab3a3193a3003400a33efd2e4bb2e4b62e2902e28e3a91e3a8db3a3af3a31b3a304)
  (.lf
  0x2d0f22d0e22d0d82d0d42d0c62d0b82d0ac2d0a42d09a2d08c2d07c2d0762d0622d0662d0542d0442d0382d02c2d0222d01a2d0122d0002cfee2d14b2d1492d1452d1432d1412d13f2d13b2d1332d1312d12f2d12b2d1292d1272d1372d1252d1212d11f2d11d2d1192d1152d1132d1112d10d2d10b2d1072d1052d1012d0fd2d0fb2d0f92d0f32d0f12d0ef2d0ed2d0e92d0e72d0e32d0e12d0dd2d0db2d0d9)))
  (.nd (.nd (.lf
  0x360a435fea35fe235fd035f2435ee835e8835e4a35df436a0a36a02369f03693c368be3688e368703685436704366bc366a036644365f8365e2365d2365b63643236422364123640236396360ac3605a3604a3602a360223601a3600a35ffa35e16379e2379da379c2379aa3798c37972379543794c379243790a378ee378e6378d2378be378b6378a2378763786e3785a3784637832378203780e377fc377ea)
  (.lf
  0x261f9261f7261f3261f1261ef261ed261e9261e7261e5261e3261df261dd261db261d9261d5261d3261d1261cf261cb261c7261c5261c3261bf261bd261bb261b9261b5261b3261b1261c9261af261ab261a92621b261a7261a3261a12619f2619d261992619726195261912618f2618d2618b26187261832606d2606b260672606526063260612605d2605b260592606f26057260512604f26fa826f9c26f92))
  (.nd (.lf
  0x3da5e3da443da3a3d9fe3d9ea3d9f63e79c3ed483e7723ed3e3e7903ed343ec5a3ed283e7523ed223ec483ed183e6fa3ed0e3e6f23ed003e6ba3ecf63e6a83ecec3e6783ece23e6563ecdc3e7d83ecce3e7943ecc83e77c3ecba3e7ce3ecb23ec543ecaa3e7a83ec9c3e6ea3ec943e6be3ec8c3e6a43ec803e6823ec763e78a3ec6e3e75c3ec623e7463ec5c3ec4c3e7c23e6fe3e7bc3e6e23e7b23e7b03e694)
  (.lf 0)))

def shaXorReads203 : BTree :=
  .nd (.nd (.nd (.lf
  0x131f9131e1125bd1139d1131911302112c81124414c3014aaa131fb131e3125bf113a11131b11304112ca1124614c2614aa8131911318d12549113a51131d11306112cc1124814c1c14aa6130f9130e1124af113a91131f11308112ce1124a14c1214aa4130fb130e3124b1113ad113211130a112d01124c14c0814aa2130fd130e5124b3113b1113231130c112d21124e14bfe14aa0130ff130e7124b5113b5)
  (.lf
  0x378f0378d03789037870375303763037510374d037210371f0371b03719036e5036f5036e3036df036b1036c1036af036ab0367f0367d036790367703645036430363f0363d03609036190360703603035d7035d5035d1035cf0359d0359b035970359503561035710355f0355b0352f0352d0352903527034f303503034f1034ed034c1034bf034bb034b90348703485034810347f0344d0344b0344703445))
  (.nd (.lf
  0x34cb834d8234cd234d7434c8c34d6634c7e34d6034c9a34d5234c9e34d4634c5e34dbe34d4034d3434c4634d2a34c6234d2234bf034d0e34cd434d0434bfc34db834cfe34cf434bc434ce434bd234cd834c3c34c3034ba034c2634b9434dc434c1c34c0e34c0034c0634ba234ba434b7234f5a34af234af634ade34ad634ad434aa635dd23623835dc83622e35da83621e35dba3621035dbc3620a35d96361fa)
  (.lf 0))) (.nd (.nd (.lf
  0x287802838027f8027b80277802734026ee026a8026620261c025da02596025500250a024c40248202442023fe023b802b6802aec02aa602a200299a029540290e0274802702026bc0267602630025aa025640251e024d802412023cc0238602b6902b1702b1302aed02ad102acd02aa702a4b02a4702a21029c5029c10299b0297f0297b0295502939029350290f027730276f027490272d0272902703026e7)
  (.lf
  0x9da309da109d9f09d9d09d9909d9709d9509d9309d8f09d8d09d8b09d8909d8509d8309d8109d7f09d7b09d7909d7709d7509d7109d6f09d6d09d6b09d6709d6509d6309d6109d5d09d5b09d5909d5709d5309d5109d4f09d4d09d4909d4709d4509d4309d3f09d3d09d3b09d3909d3509d3309d3109d2f09d2b09d2909d2709d2509d2109d1f09d1d09d1b09d1709d1509d1309d1109d0d09d0b09d0909d07))
  (.nd (.lf
  0x1383413825137e2137d713794137871374413735136f2136e3136c3149a7149891497c1496b1495e1494f149421492f149221491114904148f1148e4148d3148c6148b7148aa148971488a1487514868148531484614835148281481514808147f7147ea147db147ce147bb147ae1479d1479014781147741476514758147491473c147291471c1470b146fe146ef146e2146cf146c2146b1146a41469114684)
  (.lf 0)))

def shaXorReads204 : BTree :=
  .nd (.nd (.nd (.lf
  0x3e42f3e3913d8df3cf693cf103ce363ce313ce2e3fcb43fc7c3e3633e35d3d8e13cf463cf0f3ce1e3ce1a3ce193fc683fc283e3253e3173d8e33d73c3cf4d3ce0a3ce083ce073fc2a3fc223e2ff3e2fb3d8933cf3d3cebe3cdbd3cd503cd4e3fc0e3fb9c3e31f3e2ed3d8953d00d3cedf3cece3cd343cd323fb823fb6c3e2d13e2c73d86f3cfed3ced33cea03cd403cd3e3fb723fb503e3313e32b3d8713d021)
  (.lf
  0xb6f80b56a0b6da0b56e0b6b80b5720b6940b5760b6740b57a0b6540b57e0b6360b5820b6160b5860b5f80b58a0b5dc0b58e0b5bc0b5920b5980c01c0c44a0c0200c42a0c0240c40c0c0280c3f00c02c0c3d40c0300c3b80c0340c39c0c0380c37a0c03c0c3560c0400c3360c0440c3180c0480c2f60c04c0c2d20c0500c2b40c0540c2940c0580c2720c05c0c2500c0600c22e0c0640c20c0c0680c1ea0c06c))
  (.nd (.lf
  0xb1020b1040b1060bcaa0bcac0bcae0bcb00bcb20bcb40bcb60bcb80bcba0bcbc0bcbe0bcc00bcc20bcc40bcc60bcc80bcca0bccc0bcce0bcd00bcd20bcd40bcd60bcd80bcda0bcdc0bcde0bce00bce20bce40bce60bce80c7a20c7a40c7a60c7a80c7aa0c7ac0c7ae0c7b00c7b20c7b40c7b60c7b80c7ba0c7bc0c7be0c7c00c7c20c7c40c7c60c7c80c7ca0c7cc0c7ce0c7d00c7d20c7d40c7d60c7d80c7da)
  (.lf
  0x3730036ffa3700236fe43700636fd036fc436fba36fae36fa036f9636f8a3719436f6e36f6436f5a36f5036f4a36f3836f2e36f2236f0e36ef036ed836ebc36ea436e8a36e7036e5636e2a36df037301372ff36fff36ffb36ff93700336ff736ff336ff136fef36feb36fe936fe53700736fe336fdf36fdd36fdb36fd736fd336fd136fcf36fcb36fc936fc536fc336fbf36fbb36fb936fb736fb136faf36fad)))
  (.nd (.nd (.lf
  0x38d702cc302cab02c9402c5002b90059880594c0450904489038d902cc702cad02c9602c5202b9205942059060450b0448b038db02ccb02caf02c9802c5402b94058fc058be0450d0448d038dd02ccf02cb102c9a02c5602b96058cc0587e0450f0448f038df02cd302cb302c9c02c5802b980588c0583e0451104491038e102cd702cb502c9e02c5a02b9a0584c057fe0451304493038e302cdb02ca002c77)
  (.lf
  0x2d4672d3572d3552d3512d34b2d3492d3472d3432d3412d33f2d33d2d3392d3372d3352d34d2d3332d32f2d32d2d3592d32b2d3272d3252d3232d31f2d20f2d19b2d1992d1952d1932d1912d18f2d1892d1832cfd52db7d2db7b2db752db732db292db252db212daaf2daab2da9d2da752da6f2da6b2da1d2da1b2da172d9892d9852d9812d72b2d7012d6fb2d5e52d5e12d5d72d4e32d4d72d4d52d4d32d4bb))
  (.nd (.lf
  0x3f5653f513409b740d1c4099b40d16409f340d0c409e940d02409df40cf840b1740cec4094f40ce240b4340cdc4092b40cce4091140cc440a8340cba409ef40cb440a8d40ca8409bf40c9240a1740c8a409a140c8240a4d40d2b40c7a40c6840ad140c5a4093b40baa409c340ba0409c940b98409f540b9040a5140b8240a7b40b7840a1b40b1c40a5940acf40a9840a9b409d8409cd408f6408eb408ca409f7)
  (.lf 0)))

def shaXorReads205 : BTree :=
  .nd (.nd (.nd (.lf
  0x1f1c51d0b31c6231c59f1c20e1beec1bee62007b1f7d11e5031d9251d8971d88c1d7fe2007d1f7d31e61c1e4ff1d9291d8991d88e1d7c42007f1f7d51e6161e5051d92d1d89b1d8901d720200811f7d71e60a1e4fd1d9311d89d1d8921d722200831f7d91e6021e5011d9351d89f1d8941d724200851f7db1e5f41e4d51d9391d8a11d8961d726200871f7dd1e5ee1e4d31d93d1d8a31d8981d728200891f7df)
  (.lf
  0x1110a110f8110e6110d41123d1123b112371123511233112311122d1122b112291122711223112211121f1121d112191121711215112131120f1120d1120b11209112051120311201111ff111fb111f9111f7111f5111f1111ef111ed111eb111e7111e5111e3111e1111dd111db111d9111d7111d3111d1111cf111cd111c9111c7111c5111c3111bf111bd111bb111b9111b5111b3111b1111af111ab111a9))
  (.nd (.lf
  0x407b84072c4072a407294072740917408cc407aa407634071e4071b40718409ed409ab408a0407a4407044070240701409e5408af408724079a406f2406f1406ee409b9409714081e4078c406e2406d5406d2409934095f4080640782406de406da406d940999409494082a40772406b8406b4406b340ac540a8e40a4b407774076c4076a4076640a8540921407e83fa3c3fa323fa1e3fa1d40ac34090b40750)
  (.lf
  0xd72b0d7270d7250d7230d7210d71d0d71b0d7190d7170d7130d7110d70f0d70d0d7090d7070d7050d7030d6ff0d6fd0d6fb0d6f90d6f50d6f30d6f10d6ef0d6eb0d6e90d6e70d6e50d6e10d6df0d6dd0d6db0d6d70d6d50d6d30d6d10d6cd0d6cb0d6c90d6c70d6c30d6c10d6bf0d6bd0d6b90d6b70d6b50d6b30d6af0d6ad0d6ab0d6a90d6a50d6a30d6a10d69f0d69b0d6990d6970d6950d6910d68f0d68d)))
  (.nd (.nd (.lf
  0x146961465814994149731496f149721495714953149561493a149191491514918148fc148db148d7148da148bf148bb148be148a2148801485e1483d148391483c14820147ff147fb147fe147e3147df147e2147c6147a5147a1147a41478914785147881476d147691476c147511474d1475014734147131470f14712146f7146f3146f6146da146b9146b5146b81469c1467b146771467a1465e1463c1431e)
  (.lf
  0xd8af0d8ab0d8a90d88f0d88d0d8890d8870d86d0d86b0d8670d8650d84b0d8490d8450d8430d8290d8270d8230d8210d8070d8050d8010d7ff0d7f312c1612bfc12bdc12bbe12ba212b8212b6412b4812b2c12b1012af412ad812ab812a9612a7812a5c12a3c12a1e129fe129e0129c4129a81298c1296c1294a129281290a128ee128ce128b6128a012c1712c0912c0512bfd12bef12bed12be912bdd12bcf))
  (.nd (.lf
  0x2b1aa2b18c2b1722afda2af762afa32af9f2af772c56a2c5582c54c2c5402c5362c52c2c5202c5122c4aa2c49a2c4942c4822c4582c4462c4342c42c2c3f42c3dc2c3c62c3b42c2a62c2862c26a2c2442c2242c20a2c1e22c1ae2c17a2c13c2c1512c13d2db742db4c2db202dab02daaa2da6e2da502da162d9f22d9d02d9802d6fa2d6f22d6e42d5e02d57c2d5762d55c2d5182d4e42d4d42d4b42d3782d370)
  (.lf 0)))

def shaXorReads206 : BTree :=
  .nd (.nd (.nd (.lf
  0x2a79b2a6b229e3629e302e2342c0e72c0e32af972a81b2a7732a69829e1829e12301662dfa52dfa12cc6f2b8cd2b8c32b8c02b8bc2b8b63013c300c82df772df732cc892b82f2b81d2b8182b8142b80e3007a2fec62dedb2ded72cc4b2b8332b81f2b81a2b8022b7fc3004a2feb42debd2deb92cbeb2b8532b8492b8462b8422b83c3003c2fea42dea72de9f2cbed2b78b2b7812b77e2b7782b772300362fe92)
  (.lf
  0x2cb1a2cb082caf22cade2cacc2caa62cab22ca842ca7a2ca5e2ca4a2ca6a2ca322ca162ca202c9fa2c9e82c1c22c18c2c14c2cc652cc7f2cc632cc5f2cc5d2cc5b2cc432cc3f2cc3d2cc3b2cc372cbdb2cbd92cbdd2cbd72cbd32cbd12cbcf2cbcb2cbc12cbbf2cc1b2cbbd2cbb92cbb72cbb52cbb12cbaf2cb952cb932cb752cb712cb6f2cb6d2cb692cb392cb352cb372cb332cb2f2cb2d2cb2b2cb272cb25))
  (.nd (.lf
  0x22ac22293c33bf2338c132737326e4326b927d6227c93238a72381f2381622ab82296233be8338c53273b326e6326bd27d5827c97238ab238232381a22aa22296433bdc338c93273f326e8326bf27d4e27c9b238af238272381e22a962296633bca338cd32743326ea326c127d4427c9f238b32382b2382222a8c2296e33bc4338d132747326ec326c327d3a27ca3238b72382f2382622a7e2297033bbc338d5)
  (.lf
  0x13b6213b1413ac813a7813a2a139da139881393a138ee138a21385213800137b21376213710140311400b140071400513fc713fc513fc113fbf13f7713f7513f7113f6f13f2913f2713f2313f2113ed913ed713ed313ed113e8713e8513e8113e7f13e3913e3713e3313e3113de913de713de313de113d9713d9513d9113d8f13d4513d4313d3f13d3d13cf313cf113ced13ceb13ca513ca313c9f13c9d13c55)))
  (.nd (.nd (.lf
  0x3e7253e72c3e7233e71d3e7223e71b3e7173e71a3e55e3e5563e5453e5413e5443e53f3e53b3e53e3e5383e5243e5193e5153e5183e50d3e5053e50c3e5033e4fd3e5023e4fa3e4f23e4e43e4d93e4d53e4d83e38b3e3873e38a3e3573e3533e3563e3053e3013e3043e2b73e2b33e2b63e2b13e2ad3e2b03e2aa3e29d3e2993e29c3e27f3e27b3e27e3e2793e2733e2783e1af3e1a93e1ae3e1a63dca23dc92)
  (.lf
  0x1f92c1fe831fe471fe431fe3f1fe2f1fe2d1fe291fe1b1fe0d1fe0b1fdfd1fdf91fded1fdeb1fde71fddd1fdbf1fdc31fdbd1fdb91fdad1fdab1fda71fd971fd891fd791fd771fd711fd651fd551fd511fd4d1fd411fd3f1fd311fd2d1fd211fd1f1fd111fd0b1fcff1fcfd1fceb1fce71fcdb1fccf1fccb1fcc71fcbb1fcb91fcb51fca71fc991fc971fc931fc831fc751fc731fc6f1fc5f1fc511fc451fc43))
  (.nd (.lf
  0x3ea983ea8d3ea7e3ea783ea1a3ea0a3ea013e9fe3eac03ea4b401304011f40996402ba4012c401274096c4026e40125401224096640228401054010240942402224012f400fa409364020240133400ee4092e401c04012b400e6409184016240129400de408fa4014a4010840107408b640142400b5400b2408a24013a400bb400b840884400143ffb13ffae40816400043ffb73ffb44080a3fffc3ff973ff94)
  (.lf 0)))

def shaXorReads207 : BTree :=
  .nd (.nd (.nd (.lf
  0x133cb127c511733116ea116b51169e115001106d133cd127c711737116ec116b7116a0114f6114f3133cf127c91173b116b9116ae116a21105a11057133d1127cb1173f116bb116b0116a410f4a10f47133d3127cd11743116bd116b2116a610f3410f31133d5127cf11747116bf116b4116a810f1e10f1b133d7127d11174b116c1116b6116aa10ed410ed1133d9127d31174f116c3116b8116ac10ec9159c5)
  (.lf
  0x3d7fa3d7c63d7b23d79a3d77a3d75e3d7483cf3a3dab93dab73dab33daaf3daad3daab3daa73daa33daa13da9f3da9b3da973da953da933da8f3da8d3da893da873da833da7f3da7d3da7b3da773da4f3da4d3da4b3da433da1b3da193da173da133d9733d96f3d96d3d9693d9673d9653d9a53d9633d95f3d95d3d9433d9413d93d3d93b3d97b3d9393d9353d9333d9473d9313d92d3d92b3d9293d9253d90f))
  (.nd (.lf
  0x1e17a1e46a1e17e1e4541e1821e43e1e1861e4281e18a1e4121e18e1e3fc1e1921e3e61e1c21e3d01e1c61e3ba1e1ca1e3a41e1ce1e38e1e1d21e3781e1d61e3621e1da1e34c1e1de1e3361e1e21e3201e1e61e30a1e1ea1e2f41e1ee1e2de1e1f21e2c81e1f61e2b21e1fa1e29c1e1fe1e2861e2021e2701e2061e25a1e20a1e2441e20e1e22e1e2121e218223f8225c8223fc225be22400225b422404225aa)
  (.lf 0))) (.nd (.nd (.lf
  0xe70e0e7040e6fa0e6f00e6e60e6dc0e6d20e6c80e6be0e6b40e6aa0e6a00e6960e68c0e6820e6780e66e0e6640e65a0e6500e6460e63c0e632103e21038a10328102cc1027010212101b41015a100fa1009e100420ffe40ff820ff260fec60fe660fe080fdaa0fd480fcec0fc8c0fc300fbd40fb760fb140fab40fa560f9fc0f9a00f93e1746c1743a17402173c6173881734e17316172de172a81727217236)
  (.lf
  0x26db026d90269b02699026950269302655026530264f0264d0260d026110260b02607025cf025cd025c9025c70258902587025830258102543025410253d0253b024fd024fb024f7024f5024b5024b9024b3024af0247502479024730246f0243702435024310242f023f1023ef023eb023e9023ab023a9023a5023a30237b05d2205cea05caa05c6605c2405be405ba005b5e05b1e05ade05a9a05a5405a0e))
  (.nd (.lf
  0x11b4611b1411afe11ac811ab611a7c11a6c11a3011a20119e0119cc119861197a119581195612c1412c0412bfa12be812bda12bc812bbc12baa12ba012b8e12b8012b6e12b6212b5012b4612b3412b2a12b1812b0e12afc12af212ae012ad612ac412ab612aa412a9412a8212a7612a6412a5a12a4812a3a12a2812a1c12a0a129fc129ea129de129cc129c2129b0129a6129941298a129781296a1295812948)
  (.lf 0)))

def shaXorReads208 : BTree :=
  .nd (.nd (.nd (.lf
  0x66f011f14118f90ee940ed7f0eb9f0eb6d0eb56066e6066aa11ed0118fd0ee8a0ed830eba30eb6f0eb58066a00666411e8c119010ee800ed870eba70eb710eb5a0665a0661c11e48119050ee760ed8b0ebab0eb5c0eb2d0661e065dc11e04119090ee6c0ed8f0ebaf0eb5e0eb31065de0659c11dbc1190d0ee620ed930ebb30eb600eb350659e0655e11d72119110ee580ed970ebb70eb620eb390655406516)
  (.lf
  0x2039a2014b203902014f2038a201532038020157203722015b2036c2015f203622016320358201672034c2016b203442016f2033a201732033220177203282017b203202017f20314201832030820187203022018b202f82018f201de20193201d620197201cc2019b201c42019f201ba201a3201b0201a7201af2185d220e62186f21e3e2186121e362168721e282156721e1a2156b21e0c2188b21e062188f))
  (.nd (.lf
  0x316983166c316383348e33490334923349433444333f2333e4333ce333d0333d23331e3333e3334e3328633200331ee3319e3314a331403310c330ee32fce32fc032fac32f9c32f3e32938328aa3289232882327dc327b234884347ae346d8347143460c346f4345e8344b0344bc344663448634400343de343b234366342ec342c83425634202341da3419c3413833d7433d2033cd833ba633b6c33b3a33b02)
  (.lf
  0x1d4d01d1101d0f01d0b01d0901ccf01ccd01cc901cc701c8f01c8d01c8901c8701c4b01c4901c4501c4301c0501c0301bff01bfd01bc301bc101bbd01bbb01b7f01b7d01b7901b7701b3901b3701b3301b3101af301af101aed01aeb01ab101aaf01aab01aa901a6d01a6b01a6701a6501a2b01a2901a2501a23019eb019e9019e5019e3019ab019a9019a5019a30196701965019610195f01925019230191f)))
  (.nd (.nd (.lf
  0x6d09060cf05507054c40548f0547804b7f04b7606d0b060d10550b054c6054910547a04b3f04b3606d0d060d30550f054c8054930547c04af804af506d0f060d505513054ca054950547e04ab204aaf06d11060d705517054cc054970548004a6c04a6906d13060d90551b054990548e0548204a2604a2306d15060db0551f0549b0549005484049e0049dd06d17060dd055230549d0549205486049a104998)
  (.lf
  0x357363572c35722357fe357fa356d03567a35624355ec355c43559e35570357f3357f1357ed357eb357e9357e7357e3357e1357df357f7357dd357d9357d7357d5357d1357cf357cd357cb357c7357c5357c3357c1357bd357bb357b9357b7357b3357b1357af357ad357a9357a7357a5357a33579f3579d3579b357993579535793357913578f3578b3578935787357813577d3577b35779357773577335771))
  (.nd (.lf
  0xfd9c0fd920fd3a0fd300fcde0fcd40fc7e0fc740fc220fc180fbc60fbbc0fb680fb5e0fb060fafc0faa60fa9c0fa480fa3e0f9ee0f9e40f9920f9880f9300f9260f8e20f8e02095220caa2095620c962095a20c802099820c6a2099c20c54209a020c3e209a420c28209a820c12209ac20bfc209b020be6209b420bd0209b820bba209bc20ba4209c020b8e209c420b78209c820b60209cc20b48209d020b30)
  (.lf 0)))

def shaXorReads209 : BTree :=
  .nd (.nd (.nd (.lf
  0x2139f2139821390213782515824afe23151230f921da7213a5213a12139a213922137a2514c24ade23153230fb21d4f21742213a7213a3213942137c2513824a8c23155230fd21d2921749217442130321300212fa2513024a9223157230ff21cff2174b2174621295212922128c250ec24aa6231592310121c852174f2166421237212342122e250e22497e2315b2310321c3f216672151e212112120e21208)
  (.lf
  0x20e9b20e9920e9520e8d20e3120e2f20e2b20e2320e2120e1f20e1b20e1320d7920d7720d6f20d5d20d3d20d3b20d3720d2f20d23221f422106220922207021fe421f8421f6421f0821ec421e8621d9e21d4621d2021cf621c7c21c3621be221bc221b5a21b0e21acc21a7821a72219f4219a02195a2190a21904216b8215f2215e8221f5221372213322107220c3220b3220af220ad22093220912208d22071))
  (.nd (.lf
  0x29aab29a8929a721e4821e17b1bbcb1bbab1bba61a3561a33a2aee42ac2329aaf29a8b29a741e46c1e17f1bbcf1bbad1bba81a3181a2fc2aece2ac2729ab329a8d29a761e4561e1831bbd31bbaf1bbaa1a2da1a2be2aeb82ac2b29ab729a8f29a781e4401e1871bbd71bbb11bbac1a29c1a2802aea22ac2f29abb29a9129a7a1e42a1e18b1bbdb1bbb31bbae1a25e1a2422ae8c2ac3329abf29a9329a7c1e414)
  (.lf
  0xf1cd0f1c90f1c70f1c50f1c30f1bf0f1bd0f1bb0f1b90f1b50f1b30f1b10f1af0f1ab0f1a90f1a71beba1bea61be901be7a1be641be4e1be381be221be0c1bdf61bde01bdca1bdb41bd9e1bd881bd721bd5c1bd461bd301bd1a1bd041bcee1bcd81bcc21bcac1bc941bc7c1bc641bc4e1bc381bc221bebb1bead1bea91bea71be991be971be931be911be831be811be7d1be7b1be6d1be6b1be671be651be57)))
  (.nd (.nd (.lf
  0x2d44c2d4422d27e2d25c2d2422d22e2d21a2d2102d1ae2d1762dad02dac62dabe2daa62da962da8c2da442d9ca2d9be2d9b42d9ac2d97c2d6242d6082d5e82d5442d53a2d5302d5262d5142d4742d46a2d3542d3462d33c2d3322d32a2d3222d1982d18e2db7c2db722db242da9c2da6a2da1c2d9882d72a2d5d62d4d62d4ba2d3882db7a2db712db4d2db702db282dab72dab12dab62daae2da742da692da51)
  (.lf
  0x1a3911a38f1a38b1a37f1a3551a3531a34f1a3411a3171a3151a3111a3031a2d91a2d71a2d31a2c51a29b1a2991a2951a2871a25d1a25b1a2571a2491a21f1a21d1a2191a20f1a1e51a1e31a1df1a1d31a1a91a1a71a1a31a1991a16f1a16d1a1691a15d1a1351a1331a12f1a1211a0f91a0f71a0f31a0e91a0bf1a0bd1a0b91a0b11a0891a0871a0831a0771a04d1a04b1a0471a03d1a0131a0111a00d1a001))
  (.nd (.lf
  0x23fcc23d2a23c742379123fc623d1e23c662375d23fbc23d1623c5a2376923fb223cd623c0a2371323faa23c2e23bfe236fb23fa023c2223bf4236e923f9623c1a23be6236d723f8c23c0e23bc8236c523f8223bc023bae236b323f7823bb023b922369b23f6c23b8c23b762368323f6423b6023b382367123f5a23b4823b3a2365f23f4023b6223b022364d23f3a23b0623afc2362d23ae223acc237e22361d)
  (.lf 0)))

def shaXorReads210 : BTree :=
  .nd (.nd (.nd (.lf
  0x33af833a74317cb317c7309e12ffeb2ff6d2fba62fae22fadc33a6e33a28316ad316a9309bb2ffcb2ff052fb922fad02faca339fe339f43165931655309ab2ff752ff1f2fb7e2fabe2fab8339ec31627316233075b2ff572ff0b2fb6a2f30a2f304356a6336d7336d332437312d5312cb312c8312c6312c0359d23569e336b7336b3324113129d3129531292312903128a359c0356ac3373f3373b323df31274)
  (.lf
  0x3f16d3f16b3f1673f15f3f14d3f14b3f1473f1453f13b3f1393f12b3f1293f1273f1893f1253f0c93eeaf3eead3eea33ee9d3ee973ee953ee553ee1d3eda13edb53ed9f3ed833ea8b3ea8f3ea893ea793ea5d3ea5b3ea033e9ff3e9cb409a8409864096e409564094440abc4091e40900408dc408b4408924087040818408024082440836407d64074e4073c4072440716406fe406ec406d0406d6406b040764))
  (.nd (.lf
  0x32e6e32d8f32cef32cea32ccc3835c3804b32e6232d9332cf132cec32cc6383523804f32e5632d9732cee32c3b32c383834a382c332e4832d9b32cf032c1332c1038340382c732e4232d9f32c3a32beb32be838332382cb32e3032da332c1232bc932bc63832c3826932e2632cff32bea32bad32baa3831e381e332e1e32d0332bc832b9132b8e38316381e732d0732bac32b7532b6e32b6a3830c381eb32d0b)
  (.lf
  0x2f4272f4232f41f2f41d2f41b2f4172f4152f4072f4052f3e92f3e52f3e32f3e12f3dd2f3412f33f2f33d2f3392f3372f3332f3312f32d2f3292f3252f3232f31f2f31d2f3192f34b2f3172f3132f2f52f7502f6802f6762f66a2f65c2f6522f64a2f6422f6322f6242f6182f60e2f6922f5fc2f5f42f5f62f6942f5bc2f5a42f58c2f5582f55a2f5462f5422f40a2f3ee2f39a2f3c02f3762f3522f3582f751)))
  (.nd (.nd (.lf
  0x16d8c17ce017ce417ce817cec17cf017cf417cf817cfc17d0017d0417d0817d0c17d1017d1417d1817d1c17d2017d2417d2817d2c17d3017d3418c9418c9818c9c18ca018ca418ca818cac18cb018cb418cb818cbc18cc018cc418cc818ccc18cd018cd418cd818cdc18ce018ce418ce819c2419c2819c2c19c3019c3419c3819c3c19c4019c4419c4819c4c19c5019c5419c5819c5c19c6019c6419c6819c6c)
  (.lf
  0x2810528101280f1280ed280eb280a9280a5280a12809d28099280932808f2808b28087280832807f2807928077280712806b2805f280092800327f9727f9327e4727b9b27b9727b87271ac271a22719c2719027184271ae27170271662715c27152271462713c271322712a2711e271482710c27102270f6270f8270e4270dc270d42709c2705e2705426fde26f7226f3226ef826ea6271ad271ab271a7271a5))
  (.nd (.lf
  0x9c9509d8409c9909d7a09c9d09d7009ca109d6609ca509d5c09ca909d5209cad09d4809cb109d3e09cb509d3409cb909d2a09cbd09d2009cc109d1609cc509d0c09cc909d0209ccd09cf809cd109cee09cd509ce409cd909cdf0a8e70a9ce0a8bb0a9c40a8f10a9ba0a8c50a9b00a8970a9a60a86b0a99c0a83f0a9920a8130a9880a7e70a97e0a7bb0a9740a78f0a96a0a76d0a9600a7530a9560a8f50a94c)
  (.lf 0)))

def shaXorReads211 : BTree :=
  .nd (.nd (.nd (.lf
  0x15c0515bb514ced14173141611414a1410614046176901722615c0715bb714cd714177141631414c141081404817684171e815c0915bb914cc31417b141651414e1410a1404a1767c171ac15c0b15bbb14caf1417f14167141501410c1404c176741717015c0d15bbd14c9b1418314169141521410e1404e176601713415c0f15bbf14c87141871416b14154141101405017636170fc15c1115bc114c731418b)
  (.lf
  0x557905577055730557105559069a80697006934068ec068ae0686606828067e20679a0675a0671a066dc066960665006608065c8065880654a06502064c40647e06438063f2063aa0636c06326062de062a0062580621a061d2069a90697706973069710693d0693b0693706935068f5068f3068ef068ed068b7068b5068b1068af0686f0686d0686906867068310682f0682b06829067eb067e9067e5067e3))
  (.nd (.lf
  0x13998139571394a1390b138fe138bf138b21386f138621381d13810137cf137c21377f137721372d13720136db136d6136bb0e3150e3040e3010e2ee0e2eb0e2d80e2d50e2c20e2bf0e2ac0e2a90e2960e2930e2800e27d0e26a0e2670e2540e2510e23e0e23b0e2280e2250e2120e20f0e1fc0e1f90e1e60e1e30e1d00e1cd0e1ba0e1b70e1a40e1a10e18e0e18b0e1780e1750e1620e15f0e14c0e1490e136)
  (.lf 0))) (.nd (.nd (.lf
  0x66400653a064b40646e06428063e20635c06316062900620a0698906967069880694e06909068e106908068c8068830685b0688206842067fc067b70678f067b6067770674f06776067370670f06736066f6066b00666a06625065fd06624065e5065bd065e4065a50657d065a4065640651f064f70651e064de06498064520640c063c70639f063c60638606340062fb062d3062fa062ba062750624d06274)
  (.lf
  0xb9490b93f0b9310b92f0b92b0b9210b9130b9110b90d0b8ff0b8f10b8ef0b8eb0b8db0b8cd0b8cb0b8c70b8bb0b8ad0b8ab0b8a70b89b0b88d0b88b0b8870b8790b86b0b8690b8650b8570b8490b8470b8430b8350b8270b8250b8210b8170b8090b8070b8030b7f70b7e90b7e70b7e30b7d50b7c70b7c50b7c10b7b30b7a50b7a30b79f0b7950b7870b7850b7810b7790b76b0b7690b7650b75d0b74f0b74d))
  (.nd (.lf
  0x24a5e247c724a58247bb2490c247af24a7324904248fe2479b248f224797248e624781248e024775248d624769248b42475f248a8247512489a2474724894247392488a2472d24882248812485024719246e9246e62469724694246542465124607245d4245df260a92609b260942608b2608025ee425e9f25eda25ea325ed225ea125ec825e9d25ec225ea525e1525e0e25d6225cd325d5025cd525ce825cd1)
  (.lf 0)))

def shaXorReads212 : BTree :=
  .nd (.nd (.nd (.lf
  0x33680201b01f9b0137500f9400f5400f0100ed800eaf41be441bcc03376033360201d01f9d0137700f9600f5600f0300eda00eb141bd841baa0332c032fc0201f01f9f0137900f9800f5800f0500edc00eb341b9e4198c032f2032c20202101fa10137b00f9a00f5a00f0700ede00eb54198641980032b8032860202301fa30137d00f9c00f5c00f0900ee000eb74198e4193603294032540202501fa50137f)
  (.lf
  0x1da3e1d8d61da321d8da1da2c1d8de1da201d8e21da161d8e61da0a1d8ea1da041d8ee1d9fa1d8f21d9f01d8f61d9e41d8fa1d9da1d8fe1d9ce1d9021d9c61d9061d9bc1d90a1d9b41d90e1d9aa1d9121d9a01d9161d9921d91a1d98c1d91e1d9801d9221d9781d9261d96a1d92a1d9621d92e1d9581d9321d9501d9361d9441d93a1d93e1f88e1fe381f8921fe301f8961fe0e1f89a1fdee1f89e1fdd01f8a2))
  (.nd (.lf
  0x2d1ce2d1d02cfe62f0922f0002eedc2ef5c2ef342edea2ed8c2ed702ed322ee502eccc2ecac2ec4a2ec402ebf02ebbc2eb982eb722eb3a2eb022ead42eaa22ea982ea402ea022e9da2e98a2e9ba2e92e2e95a2e8fe2e23c302a8302842fffa2ff8a2ffa22ffdc2ffbc2ff682ff002ff1a2ff502ff3e2fe342fbf02fbdc2fbca2fbb62fba22fb8e2fb7a2fb662fb542fb422fb302fb1e2fb0c2fc062faf42fae0)
  (.lf
  0x386153861138609386073860538601385ff385fb3860d385f9385f5385f3385f1385ed385e9385e7385e3385df385dd385db385d9385af385ab385a93870b385a7385a33857d3857f3857b3857738575385733856f3856d385693856738563385513854f389ac389a2388f2388f6388e4388d4388be388b6388aa388c23889a388fe388863886e387a2387983878c38780387923876e387663875c3875038744)))
  (.nd (.nd (.lf
  0x5e1d052470520a051e1051c60510607cf007ca406a59069d905e1f0524b0520c051e3051c80510807c9a07c5e06a5b069db05e210524f0520e051e5051ca0510a07c5407c1606a5d069dd05e230525305210051e7051cc0510c07c2407bd606a5f069df05e250525705212051e9051ce0510e07be407b9606a61069e105e270525b05214051eb051d00511007ba407b5606a63069e305e290525f05216051ed)
  (.lf
  0x2f7122f7422f7022f7442f6ee2f6ea2f6d82f6d02fd382f6bc2f7482f69c2f6a22f5c82f5a82f5922f6a82f5d82f5d22f55e2f52a2f3fa2f3c82f3ce2f3802f3602f3882f7552f7392f7352f7332f7312f72f2f72b2f7292f7272f7252f7212f71f2f71d2f71b2f7172f7152f7132f7432f7112f70d2f70b2f7092f7052f7032f7012f7452f6ff2f6fb2f6f92f6f72f6f32f6f12f6ef2f6ed2f6eb2f6e72f6e5))
  (.nd (.lf
  0xb96b0bb8c0b9650bb800b9830bb760b9c10bb6e0b9e30bb620b9c70bb560bb070bb500baff0bb460bb010bb3a0bb050bb2c0bb030bb240b9ef0bb1c0b9dd0bb100b9df0bb080b9e10b9e40b9bb0b9bd0c4c50c7180c4c70c7100c4c90c7040c48f0c6f80c4a50c6ec0c4a70c6e40c4a90c6da0c39b0c6d20c3790c6c80c3550c6bc0c3350c6b20c3170c6a80c2f50c69c0c4870c6940c4650c68c0c4630c682)
  (.lf 0)))

def shaXorReads213 : BTree :=
  .nd (.nd (.nd (.lf
  0x2405722ff5222f9222ef222ec221f22609e257612405922ff72219122141221382213026088257672405b22fcd22195221432213a220be260782576f2405d22fcf22199221452213c220c025e8e2576d23ff522fd12219d221472213e2200c25e882575b23ff722fd3222ee221a12214921fae25e7e257892410b22fd5221a52214b2214021fb025e742575d23ff922fd7221532214d2214221f3625e0a258c5)
  (.lf
  0x137ab137af137a9137a51375f1375d1375b137551370d1370b1370913705136cf144f0144e6144da144d0144c6144be144e4144ac144a0144961448e144841447e1446c1446e144601444e1443c1442c1441c1440c143fc143ec143dc143cc143bc143ac1439c1438c1437a1436a144f1144ef144eb144e9144e7144e3144df144dd144db144d9144d5144d3144d1144cf144cb144c9144c7144c5144c1144bf))
  (.nd (.lf
  0x3fa7d3f7c13f1f43eea13ee9e3ee9b3ee98405493fa973fa5b3f7a53f1603ee623ee5d3ee5a4055d3fbc33f9f73f9b13f13c3edc43edbc3edb94050f3f9673f9013f78b3f12e3eab63ea933ea90404f53f9433f8c33f4753f18a3ea503ea233ea04401bd3f8693f8293f4573ee9a3ea673ea4c1ea271ea0b1e9f4118f3118d9118d4104131040f103fe1ea2b1ea0d1e9f6118f7118db118d6103e4103d7103d0)
  (.lf
  0xdea30de9f0de9d0de9b0de990de950de930de911401e13fdc13f8c13f3e13eee13e9c13e4e13dfe13dac13d5a13d0813cba13c6a13c1c13bd013b8013b3213ae613a9613a48139f8139a6139581390c138c0138701381e137d0137801372e136dc1401f140111400d13fdd13fcf13fcd13fc913f8d13f7f13f7d13f7913f3f13f3113f2f13f2b13eef13ee113edf13edb13e9d13e8f13e8d13e8913e4f13e41)))
  (.nd (.nd (.lf
  0x192771927319276192371923319236191f7191f3191f6191b7191b3191b619177191731917619138190f2190ad190a9190ac1906d190691906c1902c18fe718fe318fe618fa718fa318fa618f6618f2018eda18e9418e4e18e0918e0518e0818dc818a4c18a4218a3818a2e18a2418a1a18a1018a06189fc189f2189e8189de189d4189ca189c0189b6189ac189a2189981898e189841897a18970189661895c)
  (.lf
  0x147f3147ef147ed147d9147d7147d3147d1147b9147b7147b3147b11479b1479914795147931477f1477d147791477714763147611475d1475b1474714745147411473f1472714725147211471f14709147071470314701146ed146eb146e7146e5146cd146cb146c7146c5146af146ad146a9146a71468f1468d1468914687146711466f1466b14669146511464f1464b1464914633146311462d1462b1461b))
  (.nd (.lf
  0x3726037220371a03717036f3036ea036e6036de036bf036b6036b2036aa036840368003678036750364a036460363e0363b036170360e0360a03602035dc035d8035d0035cd035a20359e03596035930356f03566035620355a0353403530035280352503501034f8034f4034ec034c6034c2034ba034b70348c03488034800347d034520344e03446034430341f03416034120340a033e4033e0033d8033d5)
  (.lf 0)))

def shaXorReads214 : BTree :=
  .nd (.nd (.nd (.lf
  0x310713001b2efa02eddf2eddd2edda32e5c32cc7310252fe772eefc2edbb2edb92ed2a32e5432c3930fbb2fe792eefe2edcd2edcb2edc832e4e32c1130fa92fe7b2ee222eced2eceb2ece632e4032be930fcb2fe7d2ee242ec952ec932ec9032e2e32bc730edf2fe7f2eddc2ec7d2ec792ec6832e2832bab30e992f9f72f0352edb82ec7b2ec5e32e2032b8f30e6b2f9e52efe32edca2ec0f2ec0632b6f32b4e)
  (.lf
  0x2fb2b2fb292fb252fb232fb192fb172fb132fb112fb072fc012fb052fb012faff2fafd2faf92faef2faed2faeb2fae72fae52fadb2fad92fad52fad32fac92fac72fac32fac12fab7301683013e30050300483003e3003030034300142fe242fe262fe0e2fe062fe2a2f9f02f9ba2f9b62f9b22f9642f95c2f93a2f9302f9262f8de2f8c22f82e2f8062f7de2f7b82f78e2f7862f3b4301693013f301353012f))
  (.nd (.lf
  0x2576a36f9a36d8735bf535bc535bae2bd162bbf32637f263512634c25cc42590836f8e36d8b35bf935bc735bb02bd0c2bbf726383263532634e25cbc2576836f8236d8f35bfd35bc935bb22bd022bbfb26387263552635025c7c2590636f7436d9335c0135bcb35bb42bcf82bbff2638b263522630325c6e2575836f6636d9735c0535bb635b872bcee2bc032638f263542630725c262575636f5c36d9b35c09)
  (.lf
  0x255412553d2553b2552d2552b25527255252551725515255112550f25501254ff254fb254f9254eb254e9254e5254e3254d5254d3254cf254cd254bf25754257402572a25714256fe256e8256d2256bc256a6256902567a256642564e25638256222560c255f6255e0255ca255b42559e25588255722555c25546255302551a25504254ee254d8254c22575525747257432574125733257312572d2572b2571d)))
  (.nd (.nd (.lf
  0x28dc0289c0285c0281c027dc0279c0275e02718026d20268c02646025fe025c00257a02534024ee024a60246602428023e20239c02b3402af602ab002a6802a2a029e2029a40295e02918028d0028900285002810027d002790027520270c026c6026800263a025f2025b40256e02528024e20249a0245a0241c023d602390037d0037980375c0372a036ee036ba036880364e03612035e0035a60356a03538)
  (.lf
  0x21b8721b8521b8121b3321b3121b2f21a5b21a5721a5521a5321a4f21a4521a4321a4121a3d21a2321a2121a1f21a1d21a1921a1721a1521a11219e3219d1219cf219cb2198921987219852197d218bf218bd218bb218b7218b3218b1218c5218af218ab216a5216a32169b21699215bb215b9215b5215b3215b1215af215ab215a7215a51e6261e61e1e6141e60c1e6001e5f61e5ec1e5e01e5d61e5cc1e5c2))
  (.nd (.lf
  0x83be084c8083c2084be083c6084b4083ca084aa083ce084a0083d208496083d60848c083da08482083de08478083e20846e083e608464083ea0845a083ee08450083f208446083f60843c083fa08432083fe08428084020841e08406084140840a0841008ff00919408ff40918a08ff80918008ffc09176090000916c090040916209008091580900c0914e0901009144090140913a09018091300901c09126)
  (.lf 0)))

def shaXorReads215 : BTree :=
  .nd (.nd (.nd (.lf
  0x17ea917e841663915e95150c51507a150451502e17e6317e3e1663b15e97150c9150471503c1503017e2117dfc1663d15e9f150cd150491503e1503217ddd17dbc1663f15a77150d11504b150401503417d9b17d76165df15a79150d51504d150421503617d5917d4a165e115a7b150d91504f150441503817d41165e315a7d150dd15051150461503a194691772d1679b160911600315ff815fea194391941e)
  (.lf
  0x3c0533c0353c0373c0333c02f3c02d3c02b3c0273c0253c0233c0393c0213c01d3c01b3c03d3c0193bf873bc2b3bc393bc293bc233bb613bb733bb5f3bb5b3baed3baf73baeb3bae73ba153ba0d3ba093b9e53b9813b9853b97f3b97b3b8c33b8c13b8bd3b8bb3b81d3f0bc3f0b63f0a63f0ac3f0683f0543f0483f03c3f0303f0263f01a3f00e3f0023eff83ef783ef6e3ef623ef583ef863ef0a3eeee3eee2))
  (.nd (.lf
  0x307e23087e307e630874307ea3086c307ee3085e307f230854307f63084e307fa30846307fe30834308023082e30806308203080a3081a3080e3081231b3a326a631b3e3269a31b423269031b463268631b4a3267e31b4e3267431b523266631b563266031b5a3265631b5e3264e31b883264231b8c3263431b903262c31cbe3262431b943261c31b983260c31b9c3260431ba0325fe31ba4325f031ba8325ea)
  (.lf 0))) (.nd (.nd (.lf
  0x1e3b61e3a01e38a1e3741e35e1e3481e3321e31c1e3061e2f01e2da1e2c41e2ae1e2981e2821e26c1e2561e2401e22a225ce225c4225ba225b0225a62259c22592225882257e225742256a22560225562254c22542225382252e225242251a2251022506224fc224f2224e8224de224d4224ca224c0224b6224ac229322291e22908228f2228dc228c4228ac228942287c228642284c228362282022808227f2)
  (.lf
  0x5f3305f3105f2d05f2b05f2905f2705f2305f2105f1f05f1d05f1905f1705f1505f1305f0f05f0d05f0b05f0905f0505f0305f0105eff05efb05ef905ef7075e6075aa0756807524074de0749c0745c0741c073dc0739c0735c0731c072dc07298072520720c071c60718407140070fe070ba070780703406ff206fae06f6c06f2c06ee806eac06e7206e38075e7075e5075e1075df075ab075a9075a5075a3))
  (.nd (.lf
  0x22e5e22b2c22e5822b2822e4a22b1422d9622b2e22d9022b0222d8222b9c22d7a22ac022d7022ab022d6622aa622d4222aa022d1e22a9e22caa22a8222ca422ab622c8822a6c22c7422ba222c3e22a5822be822a4c22bdc22a3822a2e22a2622a1c229f0229d222960229c4229562297e234a023798234962374a234a223740234802373a23476237302346223722234582371a2344a2370423440236fc23466)
  (.lf 0)))

def shaXorReads216 : BTree :=
  .nd (.nd (.nd (.lf
  0xd67c0d5c90cf2d0ced60cead000bc0001c0d6720d5cd0cf310ced80ceaf000b20001a0d6680d5d10cf350ceda0ceb1000a8000180d65e0d5d50cf390cedc0ceb30009e000160d6540d5d90cf3d0cede0ceb500094000140d64a0d5dd0cf410cee00ceb70008a000120d6400d5e10cf450cee20ceb900080000100d6360d5e50cf490cebb0ce9e000760000e0d62c0d5e90cf4d0cebd0cea20006c0000c0d622)
  (.lf
  0xa6e0071b00a4e0071f00a300072300a1000727009f20072b009d60072f009ba007330099a007370097c0073b0095c0073f0093e007430092200747009060074b008e60074f008c800753008a800757008860075b008640075f00842007630082000767008020076b007e60076f007c600773007ae00777007980077b007810167f01ed80168301e9c0168701e560168b01e100168f01dce0169301d8e01697))
  (.nd (.lf
  0x2ed682ed402ee5a2ff5a2ff46302b03028c300022ff922ffaa2ffe62ffc62ff702ff082ff222ff5c302b430290300042ff942ffac2ffea2ffca2ff742ff0a302b630294300082ff962ffb02ffee2ffcc2ff762ff0c2ff2430f5e30f32312cc3129631270312043113a311a6310bc310543100830f8230f60312d03129a3126c312083113e311aa310be310563100a312d43129c312583120c31142311ae310c2)
  (.lf
  0x39dbf39dbb39db939db739db539db339daf39dad39dab39da739da539da339da139d9d39d9b39d9939d9739d9339d9139d8f39d8d39d8939d8739d8539d8339d7f39d7d39d7b39d7939d7539d7139d6f39d6d39d6939d6739d6539d6339d5f39d5d39d5b39d5939d5739d5339d5139d4f39d4b39d4939d4739d4539d4139d3f39d3d39d3b39d3739d3339d3139d3539d2f39d2b39d2939d2739d2339d1f39d1d)))
  (.nd (.nd (.lf
  0xa8930a8900a88e0a888105c61030e0bcb10bc310b1f30a8710a8670a8640a8620a85c105b4102b00bcb30bc330b1e10a8450a83b0a8380a8360a830105a4102560bcb50bc350b1cf0a8190a80f0a80c0a80a0a80410594101f60bcb70bc370b1bd0a7ed0a7e30a7e00a7de0a7d8105841019a0bcb90bc390b1ab0a7c10a7b70a7b40a7b20a7ac105741013e0bcbb0bc3b0b1970a7950a78b0a7880a7860a780)
  (.lf
  0x330cb330c7330c5330c3330c1330bd330bb330b9330d1330b7330b3330b1330af330ab330a7330a3330a13309d3309b3309533097330933308f3308d3308b3308533083330813307f3307b3307733075330733306f3306d3306b33089330693306533063330613305d330593305733055330513304f3304d3304b330473304533043330413303d3303b330393303733033330313302f3302d330293302533023))
  (.nd (.lf
  0x2f9bd2fbaa2fab12fb962f9112fb822f9052fb6e2f8fd2fb5a2f8f12fb482f8e72fb362f8cd2fb242f82b2fb122f8032fb002f7db2faf82f7c32fae62f77b2fad42f7832fac22f3ad2f301312bb312873125231255311e8311f53112c311263111531197310aa310ad3103e3104130ff230ff930f9c30f7330f4830f4f30f1e30f2b30ee830ecb30e7a30e8130e4a30e4d30e2c30e3130da030dab30d8230d79)
  (.lf 0)))

def shaXorReads217 : BTree :=
  .nd (.nd (.nd (.lf
  0x2c81b2b8ad2a5032a4cd2a4c22a48e2e7412e7282c7f92b87d2a5072a4cf2a4c42a47c2e6fb2e6be2c7d52b87f2a50b2a4d12a4c62a4702e6b52e67e2c7d72b7332a4c82a42f2a4292a41c2e6712e6422c7d92b70b2a4ca2a4032a3fd2a3f42e6392e6042c7db2b6c32a4cc2a3d92a3d72a3cc2e5f52e5e22c7dd2b6772a4ce2a3b72a3b52a3ae2e5b72e58c2c7df2b6792a4d02a3952a3932a3882e5772e552)
  (.lf
  0x1a4db1a4d91a4d51a4d31a4d11a4cf1a4cb1a4c91a4c71a4c51a4c11a4bf1a4bd1a4bb1a4b71a4b51a4b31a4b11a4af1a4ab1a4a91a4a71a4a31a4a11a49f1a49d1a4991a4971a4951a4931a48f1a48d1a48b1a4891a4851a4831a4811a47f1a47b1a4791a4771a4751a4711a46f1a46d1a46b1a4691a4651a4631a4611a45d1a45b1a4591a4571a4531a4511a44f1a44d1a4491a4471a4451a4431a43f1a43d))
  (.nd (.lf
  0x2446e242c91b0421ac1d1155810fd00f6110f5de0f5b50e3770e31d0e31824458242cd1b00a1ac211154e10fc40f6130f5e00f5b70e3790e31f0e31a24442242d11afd21ac251154410fb80f6150f5e20f5b90e37b0e3210e31c2442c242d51af9a1ac291153a10fac0f6170f5e40f5bb0e37d0e3230e31e24416242d91af621ac2d1153010fa00f6190f5e60f5bd0e37f0e3250e32024400242dd1af2c1ac31)
  (.lf
  0x1830f1830b18309182d1182cf182cb182c91828d1828b18287182851824718245182411823f1820518203181ff181fd181c5181c3181bf181bd18185181831817f1817d181411813f1813b18139180fb180f9180f5180f3180b5180b3180af180ad18073180711806d1806b18033180311802d1802b17ff317ff117fed17feb17faf17fad17fa917fa717f6917f6717f6317f6117f2717f2517f2117f1f17ee7)))
  (.nd (.nd (.lf
  0x22d9f22db022d4b22d4722d4a22d2722d2322d2622d0e22cf622c9b22c9322c9a22c8022c5122c4522c5022bf722bf122bf622bef22beb22bee22bcc22ba522ac722ba422a03229dd22a02229c2222e8222de222d4222ca222c0222b6222ac222a0222982228e222822227a2226c22262222582224c222422223822230222262221c2221222128220d2220c8220262201c2201221f2621ed02349c2349023486)
  (.lf
  0x17223172211721d17203171e7171e5171e1171c7171ab171a9171a51718b1716f1716d171691714f17133171311712d17117170fb170f9170f5170e1170c5170c3170bf170a71708b17089170851706f17053170511704d1703517017170151701116ffb16fdd16fdb16fd716fc316fa716fa516fa116f8d16f7116f6f16f6b16f5316f3716f3516f3116f1b16eff16efd16ef916ee116ec516ec316ebf16ea9))
  (.nd (.lf
  0x12fd012d8a12c6a12c2112fc612d7612cbc12c2312fba12d3612cf012c2512fb212d2e12cc612c1f12faa12e8012d2612c1b12fa012e7812d0e12c4312e9e12e7a12d0612c8b12e9812e7e12cd012c4b12e8e12e7c12ca812c6912e8212cf412c7b12c7212cf212ce812c4412c3d12cea12c57143691402a144ea1436713ffe13ff8144dc1436513fb213fb0144d21436313f6413f60144ca1436113f1413f12)
  (.lf 0)))

def shaXorReads218 : BTree :=
  .nd (.nd (.nd (.lf
  0x3981e395b337bce37b6d37b6b37b683c1f73b68939816395a537c2a37b3937b3537b323c22b3b61d398103957b37b9237b3b37b3737b283c1af3b5f5398833980437b9437b1337b1137b0e3c1893b5b3397fc3955937c6337b5a37adb37ad83c17b3b571397ea3954d37c1137b6a37ac337ac03c16d3b519397e23953d37c7f37b3437ab937ab63c1573b4e7397dc3950f37beb37b3637acd37aca3c1bb3b4a1)
  (.lf
  0x379ad379ab379a7379913798f3798d379893798737975379733796f3796d3795737a1f37955379513794f3794d37949379293792737925379213791f3790d3790b378f7378f3378f137a37378ef378eb378e9378e7378db378d7378d5378d3378cf378cb378c137ae1378bf378bb378b9378b7378b3378af378a5378a3378933787b37879378873787737873378713786f378633785f3785d3785b3785737855))
  (.nd (.lf
  0x3993739205391ee308243080b2bbd12bbcc2afc82af58399423993b39207391f0308163080f2bbd32bbce2af662af603998339209391f2308132bbd52bbd02af4e39dc5398cd398b13989a31b3b2c5d92c5bf2c5ba2c1343a09439dc9398d1398b33989c326a431b3f2c5db2c5c12c5bc2c39c2c13239fe639dcd398d5398b53989e3269c31b432c5df2c5c32c5be2c38e2c13039fdc39e0b398d9398b7398a0)
  (.lf
  0x29a2d29a2929a2729a2529a2329a1f29a1d29a1b29a1929a1529a1329a1129a0f29a0b29a0929a0729a0529a01299ff299fd299fb299f7299f5299f3299f1299ed299eb299e9299e7299e3299e1299df299dd299d9299d7299d5299d3299cf299cd299cb299c9299c5299c3299c1299bf299bb299b9299b7299b5299b1299af299ad299ab299a7299a5299a3299a12999d2999b299992999729993299912998f)))
  (.nd (.nd (.lf
  0x23b4223b0023af823aca23ab423aa223a8023a7623a4023a382352e234f0234e82404a24040240362402c23fd423fca23fc223fb823fae23fa423f9a23f9023f8623f7c23f7223f6823f5e23f5423f3e23f34237e0237d6237cc237c2237b8235842355e2353c234d4234ca24cfc24cf224ccc24cb024ca824c5224c4824c4024c0a24b1624ae224abe24ab424aac24a4c24a2224a1824a10249f0249e8249d4)
  (.lf
  0x24723247212471d2471b2471724715246e5246e1246df246dd246d9246cd24693246912468d246852464f2464d245f1245d3245b924b8824b7e24b7024b6424b5a24b5224b4224b3824b2e24b8c24a6824a6024a542491224a74248fa248f4248e8248dc248ba248bc248b02489c2489224916248b22485a246ea24698246522461424b8924b8724b8324b7f24b7d24b7b24b7724b7524b7124b6f24b6b24b69))
  (.nd (.lf
  0x2a77a2a9722a8c42a96c2a8aa2a9622a8822a9562a8662a9502a8322a9482a8e62a93a2a7d82a9342a7b62a92a2a81c2a91e2a8c82a9142a8ae2a90c2a8ca2a9022a8862a8f42a8042a8ee2a8ea2a83a2a7dc2a82e2a7ba2a8262a8202a8342b8be2b99e2b8162b9922b8c62b98c2b8442b97e2b8242b9742b84c2b96e2b7842b9622b7462b9582b6f22b94e2b6aa2b9462b62a2b93a2b60e2b9342b5ec2b926)
  (.lf 0)))

def shaXorReads219 : BTree :=
  .nd (.nd (.nd (.lf
  0x20dba20d1f1f7cd1d1851c9c91c94b1c1841c02220d8620d411f7cf1d1871c9cd1c94d1c1401bfd020d7a20cbf1f2191d1891c9d11c94f1c0f81bf8820d4220cbd1f1d71d18b1c9d51c9511c0b21bf4020cbb1f1d91d18d1c9d91c9531c06a1bef4121e6107d9107710c7e30bdc30bd450bd2e0bcea0bc2a1234a121ba107db107730c7e50bdc70bd470bd300bcec0bc2c123361217a107dd107750c7e70bdcb)
  (.lf
  0x415f9415694155b415594155541533414d5414d3414ab414a74133f4133d41339413374132d413334131741313412b5412c3412b3412ad411714116f4116b411214111d410e5410c7410c3410b941b8541b8341b7f41b6541aed41ae941ae341ae141add41ad741a9f41a9941a9741a9341a7941a7741a7541a7141a6b41a4b41a3941a35416e5416cf416c9416c7416af416ad416b5416a9416a5416814166f))
  (.nd (.lf
  0x227662275c22750227462273a22730227242271a2270e22704226f8226ee226e2226d8226cc226c2226b6226ac226a02269622692226901e9701e9601e95c1e94a1e9461e9341e9301e91e1e91a1e9081e9041e8f21e8ee1e8dc1e8d81e8c61e8c21e8b01e8ac1e89a1e8961e8841e8801e86e1e86a1e8581e8541e8421e83e1e82c1e8281e8161e8121e8001e7fc1e7ea1e7e61e7d41e7d01e7be1e7ba1e7a8)
  (.lf 0))) (.nd (.nd (.lf
  0x38d8c38d4a38d3c38d1a38cd638cc238cb238c2238c1438c0438bfc390583904c390403903438ffe38fc638fb438f8638f4238f3a38eea38ee238ed638e8e38e8238e7638e6638e5438d9a38d6e38d5238d3038cfa38cee38ce038caa38c9438c5638c4e38c4438b3438b2a38b2038b1638b0c38b0238af838aee38ae438ada38ad038ac638abe38a4438a3c38a3238a2838a1e38a1438a0a38a00389f6389ea)
  (.lf
  0x65a0065560651a064d00648a06444063fe063c20637806332062f6062ac0627006226061ea069ad06985069810697d069490694706943069410690106905068ff068fb068c3068c1068bd068bb0687b0687f06879068750683d0683b0683706835067f7067f5067f1067ef067af067b3067ad067a90676f067730676d067690672f067330672d06729066f1066ef066eb066e9066ab066a9066a5066a306665))
  (.nd (.lf
  0x41c5041b804181041740413f04132040fb040ee040b5040a804073040660402f0402203fe903fdc03fa703f9a03f6703f5a03f2703f1a03ee703eda03ea303e9603e6103e5403e2103e1403ddd03dd003d9b03d8e03d5703d4a03d1103d0403ccf03cc203c8b03c8603c71050cd05091050840504f050420500b04ffe04fc504fb804f8304f7604f4304f3604eff04ef204eb904eac04e7304e6604e2d04e20)
  (.lf 0)))

def shaXorReads220 : BTree :=
  .nd (.nd (.nd (.lf
  0x3ca2b3ca253b671379053790337900378fe378f83de023d6e63ca593ca553b63737a4537a4337a4037a3e37a383ddfa3d6523ca053c9fd3b5d537a04379f3378e5378e2378dc3dde83d6403c9f13c9ed3b59b37a07379d2378cd378c8378c23ddd23d6383c9df3c9cb3b55737aef37aed37aea37ae837ae23ddcc3d6503c9dd3c9d93b53b379bb3799c378b1378ac378a63ddac3d62a3c9b73c9b13b4d73799f)
  (.lf
  0xf7fd0f7fb0f7f70f7f50f7f30f7f10f7ed0f7eb0f7e90f7e70f7e30f7e10f7df0f7dd0f7d90f7d70f7d50f7d30f7cf0f7cd0f7cb0f7c90f7c50f7c30f7c10f7bf0f7bb0f7b90f7b70f7b50f7b10f7af0f7ad0f7ab0f7a70f7a50f7a30f7a10f79d0f79b0f7990f7970f7930f7910f78f0f78d0f7890f7870f7850f7830f77f0f77d0f77b0f7790f7750f7730f7710f76f0f76b0f7690f7670f7650f7610f75f))
  (.nd (.lf
  0x3d0fa3a72e3a7133a68f3dd383d0de3a7173a6913a68c3dd2e3d0ac3a71b3a68e3a64d3dd283d09c3a7273a6903a64f3dd1c3d0ca3a6ef3a64c3a6273dd103d07c3a7353a64e3a61b3dd0a3d0623a6d33a6263a6173dcfc3d04a3a7393a61a3a5f33dcf63d06a3a6973a6163a5f73dce83cdf83a69b3a5f23a5db3dcde3cde03a69f3a5f63a5cf3dcd83cdfa3a6513a5da3a5b13dccc3c8403a6533a5ce3a5b5)
  (.lf
  0x32f1932f1532f1332f1132f0f32f0b32f0932f0732f0532f0132eff32efd32efb32ef732ef332eef32eed32ee932ee732ee532ef132ee332edf32edd32ef532edb32ed732ed532ed332ecf32ecd32ecb32ec932e1332e1132e0f32e0d32e0b32e0732e0532e0332dff32dfd32dfb32df932df532df332df132def32deb32de932de732de532de132ddf32ddd32ddb32dd732dd532dd332dd132dcd32dcb32dc9)))
  (.nd (.nd (.lf
  0x392263922a3922e39232392363923a3923e39242392463924a3924e39252392563925a3925e39262392663926a3926e39272392763927a3927e39282392863928a3928e3929239296398cc398d0398d4398d8398dc398e0398e4398e8398ec398f0398f4398f8398fc3990039904399083990c3991039914399183991c3992039924399283992c3993039934399383993c39e0839e0c39e1039e1439e1839e1c)
  (.lf
  0x2bb7b2bb872bb792bb752bb732bb712bb6d2bb6b2bb692bb672bb652bb612bb5f2bb5d2bb592bb572bb552bb532bb4d2bb4b2bb492bb472bb432bb412bb3f2bb3d2bb392bb372bb352bb332bb2d2bb2b2bb292bb4f2bb272bb232bb212bb1f2bb1b2bb192bb172bb152bb0f2bb0d2bb0b2bb2f2bb092bb052bb032bb012bafd2bafb2baf92baf72baf32baf12baef2bb112baed2bae92bae72bae52bae12badf))
  (.nd (.lf
  0x2cc952cd322cc572cd2a2cc072cd202cc0b2cd142cc192cd082cc312cd022cbad2ccf82cb912ccea2ccbd2cce02cc992ccda2cc9b2ccd02cc9d2ccc22cc132ccb62cc172ccb02cc352cca42cbab2cb8b2cb642cb672dfb92e08a2df932e0822dfb72e07a2df912e06e2def72e0662def52e05a2df392e0522df132e0462df372e03e2df112e0302de852e02a2de832e01c2de812e0162dfb52e0082df8f2e002)
  (.lf 0)))

def shaXorReads221 : BTree :=
  .nd (.nd (.nd (.lf
  0x1b5d91b5d51a5e9197a51976019737195ce195801d09c1d0741b3e11b3dd1a417197a91976219739195d0195821d0921d06a1b39f1b3871a419197ad197641973b195d2195841d0881d05e1b3a11b3891a41b197b1197661973d195d4195861d0561d04a1b3a31b38b1a41d197b5197681973f195d6195881d04c1cf0e1b3a51b38d1a881197b91976a19741195d81958a1cf061cef81b3a71b38f1a41f197bd)
  (.lf
  0xaf5b0af7b0af590af550af530af510af4d0af4b0af490af470af430af410af3f0af3d0af390af370af350af330af2f0af2d0af2b0af290af250af230af210af1f0af1b0af190af170af150af130af0f0af0d0af0b0af070af050af030aeff0aefb0aef90aef70aef50aef10aeef0aeed0aeeb0aee90aee50aee30aee10aedd0aedb0aed90aed70aed30aed10aecf0af010aecd0aec90aec70aec50aec10aebf))
  (.nd (.lf
  0x35cc735f7a35cbb35f7435cf335f6c35db135f2e35db335eaa35c9135ea435cd535e6835c7935ddd35dd835c47373033726e36ffd37262370053725c36fe7371e637009371de36fd5371d636fc7371cc36fbd371c236fb3371ba36fa7371aa36f99371a236f8d3719c371973706436f813705c36f713704e36f7f3703c36f533703236f7d3702a36f3b3701c36f313701636f253700a36f1136ef636ef336ee3)
  (.lf
  0xd0b00d0700d0500cf700cf500cf100cef00ce100cdf00cdb00cd900ccb00cc900cc500cc300cb500cb300caf00cad00c9f00c9d00c9900c9700c8900c8700c8300c8100c7300c7100c6d00c6b00c5d00c5b00c5700c5500c4700c4500c4100c3f00c3100c2f00c2b00c2900c1b00c1900c1500c1300c0500c0300bff00bfd00bef00bed00be900be700bd900bd700bd300bd100bc300bc100bbd00bbb00bad)))
  (.nd (.nd (.lf
  0x10c7c10c5e10c4210c2610c0610be410bc210ba010b8210b6610b4a10b2e10b0e0d34e0d32c0d30a0d2e80d2c60d2a40d2820d2600d23e0d21c0d1fa0d1d80d1b60d1940d1720d1500d12e0d10c0d0ea0d0c80d0a60d0840d0620d0400d01e0cffc0cfda0cfb80cf960cf7410e9a10e7a10e5810e3a10e1a10df810dd610db410d9210d7410d5410d3210d1010cee10ccc10cae10c9210c7210c5410c3810c1c)
  (.lf
  0x1098e109841097a10970109661095c10952109481093e109341092a10920109161090c1090210a2f10a2d10a2910a2710a2510a2310a1f10a1d10a1b10a1910a1510a1310a1110a0f10a0b10a0910a0710a0510a01109ff109fd109fb109f7109f5109f3109f1109ed109eb109e9109e7109e3109e1109df109dd109d9109d7109d5109d3109cf109cd109cb109c9109c5109c3109c1109bf109bb109b9109b7))
  (.nd (.lf
  0x936d09369093430a4760a45c0a4360a40a0a3d00a3a80a38c0a3560a33a0a3040a2e80a2ba0a2900a2620a2380a2020a1da0a1be0a1880a16c0a1420a1140a0de0a0c20a08c0a0700a0460a01809fe209ff309fe30ae360ae1a0adfe0ade20adc60adaa0ad8e0ad720ad500ad2e0ad120acf00acce0acac0ac880ac6c0ac460ac2a0ac060abe00abc40aba80ab8c0ab6a0ab480ab260ab040aae20aac00aac5)
  (.lf 0)))

def shaXorReads222 : BTree :=
  .nd (.nd (.nd (.lf
  0x2703526e0426b5626b502b2b02b2a428f0f28f0b27e55270952703726d4826b0a26b042b2a22b26428ef128eed285472704526fcd26d2226ae626ae02b25a2b19e28ec128ebd27c1b2704926f5b26d0626aae26aa82b1942b18228ea528ea127c0926fd526f2326cbc26a5426a422b1782afea28e6928e6527bfb26f6326ee926ca026a5626a442afe02afae2913b2913727bdd26f2b26e9526c8226a5826a46)
  (.lf
  0x28353283512834d283072830528303282ff282ef282ed282f7282eb282e7282e5282e3282df282c5282c3282c1282bd282bb282b9282b7282b3282b1282af282ad282a9282a7282a5282a32829f2828528283282812827d2826d2826b282752826928253282512824f2824b282492824728245282412823f2823d2823b28237282352823328231282272822528223282212821d280bf280b7280b5280b128055))
  (.nd (.lf
  0x1e1841e0961de343052a304332f2d32f2742f24b24f8424f091e1911e1881e0901e02630522304372f2d72f2762f24d24f7a24f0d1e1951e18c1e0821e0283050c3043b2f2db2f2782f24f24f7024f111e1971e1901e07a1e01e304f43043f2f2df2f2512f23424f6624f151e1991e1941e0741e018304da304432f2e32f2532f23824f5c24f191e19b1e1961e0681e0123047e304472f2e72f2552f23c24f52)
  (.lf
  0x1e42f1e42b1e4291e41b1e4191e4151e4131e4051e4031e3ff1e3fd1e3ef1e3ed1e3e91e3e71e3d91e3d71e3d31e3d11e3c31e3c11e3bd1e3bb1e3ad1e3ab1e3a71e3a51e3971e3951e3911e38f1e3811e37f1e37b1e3791e36b1e3691e3651e3631e3551e3531e34f1e34d1e33f1e33d1e3391e3371e3291e3271e3231e3211e3131e3111e30d1e30b1e2fd1e2fb1e2f71e2f51e2e71e2e51e2e11e2df1e2d1)))
  (.nd (.nd (.lf
  0x36af436aec36a72368fa368a036896367ee37d9237d8637d7e37d7437d6837d6037d5837d4e37d4437d3a37d3037d2637d1c37d1237d0637cfc37cf437ce837cde37cd637ccc37cc237cb837cae37ca437c9a37c9037c4e37c4437c383848e3848238476384663845e38452384463843a3842e384223841638408383fe383f2383e2383d6383ce383c2383b6380303802838018380103800437f9e37f7c37f24)
  (.lf
  0x1c8e71c8e51c8e31c8df1c8dd1c8db1c8d91c8d51c8d31c8d11c8cf1c8cb1c8c91c8c71c8c51c8bf1c8bd1c8bb1c8b91c8b51c8b31c8b11c8af1c8ab1c8a91c8a71c8a51c8a31c89f1c89d1c89b1c8971c8951c8931c8c31c8911c88d1c88b1c8891c8831c8811c87f1c87d1c8791c8771c8751c8731c86f1c86d1c86b1c8691c8651c8631c8611c8871c85f1c85b1c8591c8571c8531c8511c84f1c84d1c74b))
  (.nd (.lf
  0x35852353b5353a4353903583a3535e3535d35350358243525c3524d3524a358143526e3525435243350d0350be350bb350b23501a34fdc34fdb34fd23501234ff034fbc34fbb34f9a34f8e34f8734f7e34f4434f3b34f3234f303580134b4634b1834b0c34ac934ab236b1e36b1336ac436a04369cd369c836abe369fe369ae369ad36a78369603695d3695a36a5236a483693f36938368d8368c3368c0368ba)
  (.lf 0)))

def shaXorReads223 : BTree :=
  .nd (.nd (.nd (.lf
  0xd05b0d0420ca810bfc90b5590b5120b4dd0b4c60d0390d0200ca830bfcb0b55d0b5140b4df0b4c80d0170cffe0ca850bfcd0b5610b5160b4e10b4ca0cff50cfdc0ca870bfcf0b5650b4e30b4d80b4cc0cfd30cfba0ca890bfd10b5690b4e50b4da0b4ce0cfb10cf980ca8b0bfd30b56d0b4e70b4dc0b4d00cf8f0cf760ca8d0bfd50b5710b4e90b4de0b4d20cf6d0cf620ca8f0bfd70b5750b4eb0b4e00b4d4)
  (.lf
  0x3c70d3c70b3c7053c7033c7013c6ff3c6e53c6e33c6e13c6df3c6913c68f3c68d3c68b3c6873c6853c6833c67f3c67b3c6793c6773c6933c6753c6713c66f3c66d3c6693c6433c6413c63f3c63b3c5bf3c5bd3c5bb3c5b73c5373c5353c5333c52f3c52d3c52b3c5293c5253c5213c51f3c51d3c5193c5173c5093c5073c5033c4d33c4cb3c4c93c46b3c4673c4653c4633c3c33c3c13c3b7390f6390ee390e0))
  (.nd (.lf
  0xcd380cde00cd3c0cdd60cd400cdcc0cd440cdc20cd480cdb80cd4c0cdae0cd500cda40cd540cd9a0cd580cd900cd5c0cd860cd600cd7c0cd640cd720cd680cd6e118a0121cc118a412190118a81214c118ac12108118b0120c0118b412076118b81202e118bc11fe6118c011f9e118c411f56118f411f12118f811ece118fc11e8a1190011e461190411e021190811dba1190c11d701191011d2a1191411ce6)
  (.lf 0))) (.nd (.nd (.lf
  0x334563341c33420344c4344c63448e3449034416343e43488e347b8346e23471e3468034892347bc346e63472234684346fc34688344c8344cc344923449634418343e6343ac34894347c0346ea347263468a347003468e359863598835a323591e3592035922359ec359f0359f235a1a3598a35a4c359f6359fa35a1c35a3635a503598e359923599635a3a35924359283592c358e8359fe35a0235a0635a20)
  (.lf
  0x3ae103adf03adb03ad903ad703ad503ad103acf03acd03acb03ac703ac503ac303ac103abd03abb03ab903ab703ab303ab103aaf03aad03aa903aa703aa503aa303a9f03a9d03a9b03a9903a9503a9303a9103a8f03a8b03a8903a8703a8503a8103a7f03a7d03a7b03a7703a7503a7303a7103a6d03a6b03a6903a6703a6303a6103a5f03a5d03a5903a5703a5503a5303a4f03a4d03a4b03a4903a4503a43))
  (.nd (.lf
  0x29820294e0293c02908028f6028c6028b40288602874028460283402806027f4027c6027b402786027740274202730026fc026ea026b6026a4026700265e0262a02618025e8025d6025a4025920255e0254c0251802506024d2024c0024900247e024500243e0240c023fa023c6023b402380023660316a037e203168037b003166037760316403740031620370803160036d20315e0369e0315c036660315a)
  (.lf 0)))

def shaXorReads224 : BTree :=
  .nd (.nd (.nd (.lf
  0x8126080e613e92136250f29a0f13f0ef5f0ef370ef20080dc0809e13e44136290f2900f1430ef630ef390ef22080a00806013df41362d0f2860f1470ef670ef3b0ef24080560801813da2136310f27c0f14b0ef6b0ef3d0ef260801a07fd813d50136610f2720f14f0ef6f0ef3f0ef2807fda07f9813cfe136650f2680f1530ef730ef410ef2a07f9a07f5813cb0136690f25e0f1570ef770ef430ef2c07f5a)
  (.lf
  0x284a8283f32849e283f7284942832b2848a2832f284802833328476283372846c2833b284622833f28458283432844e2829d28444283fb2843a283ff284302840328426284072841c2840b2840f2834a2834729755298742974529866296d329860296c129854296a729846296ab2983e2976329838297672982a296e729824296eb29816296ef298082976b298002976f297f8296f3297ee296f7297e4296fb))
  (.nd (.lf
  0x2fda02fde02fe203bec03bf003bf403bf803bfc03c0003c0403c0803c0c03c1003c1403c1803c1c03c2003c2403c2803c2c03c3003c3403c3803c3c03c4003c4403c4803c4c03c5003c5403c5803c5c03c6003c6403c680485c0486004864048680486c0487004874048780487c0488004884048880488c0489004894048980489c048a0048a4048a8048ac048b0048b4048b8048bc048c0048c4048c8048cc)
  (.lf
  0x15cf015cd015cb015c7015c5015c3015c1015bd015bb015b9015b7015b3015b1015af015ad015a9015a7015a5015a30159f0159d0159b015990159501593015910158f0158b015890158701585015810157f0157d0157b015770157501573015710156d0156b015690156701563015610155f0155d015590155701555015530154f0154d0154b015490154501543015410153f0153b01539015370153501531)))
  (.nd (.nd (.lf
  0x6d5f06d480644606443085ad0799906ddb06d9606d6106d4a06400063fd085af0799b06ddf06d9806d6306d4c063c1063b8085b10799d06de306d9a06d6506d4e0637a06377085b30799f06de706d9c06d6706d500633406331085b5079a106deb06d6906d5e06d52062f5062ec085b7079a306def06d6b06d6006d54062ae062ab085b9079a506df306d6d06d6206d560626f06266085bb079a706df706d6f)
  (.lf
  0x375b1375af375ab375a7375a5375a33759f3759d3759737595375913758f3758b3759b375893758537583375813757d3757b3757937577375713756b375693756d3756737563375613755f3755b375593755737555375513754f374593747337457374493743d3743b3743737433374313742f3742d37425374233742b374213741d370e9370e7370e3370e1370dd370db370d7370d5370b5370b7370b3370ad))
  (.nd (.lf
  0x277b827840277bc2782a277c027814277c4277fe277c8277e8277cc277d2288c428c0e288c828bfa288cc28be42890a28bce2890e28bb82891228ba22891628b8c2891a28b762891e28b602892228b4a2892628b342892a28b1e2892e28b082893228af22893628adc2893a28ac62893e28ab02894228a9a2894628a842894a28a6e2894e28a582895228a422895628a2c2895a28a162895e28a0028962289ea)
  (.lf 0)))

def shaXorReads225 : BTree :=
  .nd (.nd (.nd (.lf
  0x2581c257ec234fb234f7229ff21f7721edd21b642161221600257e225796234e1234dd229cd21f1b21e9121b1821614216022578e2333f2333b2299121ee121da921ad62161621604270b824d0924d0123ddf23215231ab2319823168230e427322270ae24d0d24d0323de12325e23217231ad2316a230e6273182700424cd724cd323dad2326b231af2319a2316c230e82730e2723224cbf24cbb23d572321b)
  (.lf
  0x22fe122fdf22fc722fc322fc122fbf22f9f22f9b22f9922f9722f9322f9122f8f22f8d22f8922f8722f8522f8322f7f22f7d22f7b22f7922f7522f7322f7122f6f22f6b22f6922f6722f9d22f6522f6122f5f22f5d22f5522f5322f4f22ffb22f4d22f4922e3922e3722e3322e3122e2f22e2d22e2922df522de722de522de122ddf22dd122dcf22dcb22dc922dbf22dc322dbd22db922dad22dab22da722da3))
  (.nd (.lf
  0x2253e224611cbb91cb311cb281b02c1b0162bf7e2bdf52ac5d2ac0a2abdf22534224651cbbd1cb351cb2c1aff41afde2bf682bdf92ac612ac0c2abe32252a224691cbc11cb391cb301afbc1afa62bf522bdfd2ac652ac0e2abe5225202246d1cbc51cb3d1cb341af841af6e2bf3c2be012ac692ac102abe722516224711cbc91cb411cb381af4e1af382bf262be052ac6d2ac122abe92250c224751cbcd1cb45)
  (.lf
  0x1ceb31ceaf1ceab1ce9d1ce9b1ce971ce931ce851ce831ce7f1ce7b1ce6d1ce6b1ce671ce631ce551ce531ce4f1ce4b1ce3d1ce3b1ce371ce331ce251ce231ce1f1ce1b1ce0d1ce0b1ce071ce031cdf51cdf31cdef1cdeb1cddd1cddb1cdd71cdd31cdc51cdc31cdbf1cdbb1cdad1cdab1cda71cda31cd951cd931cd8f1cd8b1cd7d1cd7b1cd771cd731cd651cd631cd5f1cd5b1cd4d1cd4b1cd471cd431cd35)))
  (.nd (.nd (.lf
  0x2f8db2f8ea2f8d92f8bf2f8d82f8bd2f8252f8bc2f8122f7ec2f1922f1882f1802f1762f1662f15c2f1522f1482f1402f1342f12c2f1222f1182f1102f1082f0fe2f0f42f0e82f0e02f0d82f0ce2f0a62f01c2ef802ef762ef4c2ee8a2ee7c2ee742ee6c302783026e302643025a30250302463023c30232302283021e3021430208301fe301f4301ea301e0301d6301ce301c2301b8301b0301a43019a30192)
  (.lf
  0x1affb1aff91aff51afe11afc31afc11afbd1afa91af8b1af891af851af711af551af531af4f1af3b1af1f1af1d1af191af011aee51aee31aedf1aec91aead1aeab1aea71ae8f1ae731ae711ae6d1ae531ae351ae331ae2f1ae151adf91adf71adf31add91adb71adb51adb11ad971ad711ad6f1ad6b1ad511ad2b1ad291ad251ad0f1ace91ace71ace31accf1aca51aca31ac9f1ac871ac711b3761b3481b318))
  (.nd (.lf
  0x28660282de281d7281d42862a282bc2819e2819d28614282ae2821b2811e2860e282a42820928196285e22828228207280f4285d82827c280ad280a2285d2282502809628095285be2824a280af28088285982823e280de2807b2857c282322807428073285762822428065280622856a2821c280062800528550280b02805327ff6280c627fd427fd327fd027fb627fad27fa027f9a27e6c27e5d27e4a27e48)
  (.lf 0)))

def shaXorReads226 : BTree :=
  .nd (.nd (.nd (.lf
  0x3237231dfd31df031dea3655e364343432f3432b331ab323753234a31dff31dfa31df43642e363e43424734243331873234f3234c31da931da431d9e36414363ec3420f3420b3317932353321f431d9731d9431d8e36406363cc341b7341b333163321f73208831db531db231dac363f6363983416f3416b330013208b3201e31d6731d6431d5e36386360ae341453414132f9132439320c03202131cb031caa)
  (.lf
  0x40646406364061a4060840600405da405c8405e6405424054a4050a404ec414814130941305412ef412ed412eb412e7412e1412c9412c74129d41299411694116741163411074110541103410e1410a3410a14109f410934108f4108b410894107f4107d4107b41079410534104741045410434103f41033410314102f4102b410294101b4101941015410134100b41009410054100340ffd40ffb40ff740ff3))
  (.nd (.lf
  0x34e4134de534ddc34cec3910a3908d350de34e4534de934de034cdc39102390913509a34ded34de434c2e390e7390b83508a34df134de834c3a390aa3902f3522c3508434df334dec390b138fb03507c34df534df034c1838fa838f973502b34ffc34df234c1e38f6a38f5134f6834df734df434ba838f6338f583502d3502a34f6a34f5e38f1838f0134df934df634b2634afa38f0c38f053502c34e8b34b00)
  (.lf
  0x304fe304e4304ce304b8304a83049a3048a307493073b30737307333071f307213071d3071930715307133070f3070d3070b307093070730701306ff306fd306f9306f7306f3306f1306ed306e9306a9306a7306a3306a1306913068f3068b306893068530683306753066d306613065f3065b30659306513064f3064930647306253062b306233061f30615306133060d3060b30609306073060330601305fd)))
  (.nd (.nd (.lf
  0x2e6d62e6922e8142e7d62e8182e7da2e79c2e7602e7182e6da2e6962e64a2e6142e5d22e5982e55a2e5222fa522fa562fa5a2fa5e2fa622fa662fa6a2fa6e2fa722fa762fa7a2fa7e2fa822fa862fa8a2fa8e2fa922fa962fa9a2fa9e2faa22faa6307bc307c0307c4307c8307cc307d0307d4307d8307dc307e0307e4307e8307ec307f0307f4307f8307fc3080030804308083080c3081031b8631b8a31b8e)
  (.lf
  0x28e8a28d2c28cc628c8a291292912729123290db290d9290d7290d3290cf290cd290cb290c7290c5290c3290c1290bd290b9290b7290b5290b1290af290ad290dd290ab290a7290a5290a32909f2909d2907b290792907729073290712907d2906f2906b29069290612905729053290512904f2904b290492903d2903b290332903129023290212901d2901b28ff528ff328fef28feb28fe928ff728fe728fd9))
  (.nd (.lf
  0x13149132801324513276132491326c1324d132621325113255131ac131a31317a131741314d1316a1315113160131551315b141751431a14179143101417d1430614181142fc14185142f214189142e81418d142de14191142d414195142ca14199142c01419d142b6141a1142ac141a5142a2141a914298141ad1428e141b114284141b51427a141b914270141bd14266141c11425c141c514252141c914248)
  (.lf 0)))

def shaXorReads227 : BTree :=
  .nd (.nd (.nd (.lf
  0x14d2d14c6014b2814ace17d7817d4e169b3169af159e914d6114d0b14c5a14b2a14ad0184f01650d164f9159eb14d3514cef14c5c14b2c14ad219474178cd178b91694b15cd715c5915c4215c1815ba0194b219452178d1178bb1694d15cdb15c5b15c4415c1a15ba2194a819420178d5178bd1694f15cdf15c5d15c4615c1c15ba41949e193e6178d7178bf1695115ce315c5f15c4815c1e15ba619494193aa)
  (.lf
  0x746b0747b07469074650742b0743b0742907425073eb073fb073e9073e5073ab073bb073a9073a50736b0737b07369073650732b0733b0732907325072eb072fb072e9072e5072ad072ab072a7072a50726707265072610725f072210721f0721b07219071db071d9071d5071d307193071a3071910718d07155071530714f0714d0710d0711d0710b07107070cf070cd070c9070c707087070970708507081))
  (.nd (.lf
  0x1acbc1ac811ac7c1ac631beb91bea51be981be8f1be821be791be6c1be631be561be4d1be401be371be2a1be211be141be0b1bdfe1bdf51bde81bddf1bdd21bdc91bdbc1bdb31bda61bd9d1bd901bd871bd7a1bd711bd641bd5b1bd4e1bd451bd381bd2f1bd221bd191bd0c1bd031bcf61bced1bce01bcd71bcca1bcc11bcb41bcab1bc9e1bc931bc861bc7b1bc6e1bc631bc561bc4d1bc401bc371bc2a1bc21)
  (.lf 0))) (.nd (.nd (.lf
  0x77f8077ee077e4077da077d0077c608e9808e6008e1c08dda08d9a08d5608d1408cd408c9408c5408c1008bca08b8808b4808b0808ac408a7e08a3c089fc089bc0897c08938088f6088b20886c0882a087e6087a00875a0871405d0605cca05c8c05c4405c0405bc605b7e05b3e05afe05ac005a7a05a34059ee059a8059620591c058d4058940585405814057d4057960574e05710056c80568a0564205602)
  (.lf
  0x97530974f0971509719097130970f096d7096d5096d1096cf096910968f0968b096890964b0964909645096430960509603095ff095fd095bf095bd095b9095b7095770957b095750957109539095370953309531094f3094f1094ed094eb094ad094ab094a7094a50946509469094630945f0942509429094230941f093e5093e9093e3093df093a5093a9093a30939f0936709365093610935f093370c456))
  (.nd (.lf
  0x2d5222d4612d5102d45f2d46e2d45d2d47b2d4662d3502d2792d3402d2652d3362d24d2d32e2d2372d3242d31d2d31e2d20d2d1942d17b2d1852d1822cfd12e8072e7f12e7ea2e7912e7802e7552e74c2e70f2e7022e6cc2e6c72e6892e6742e6582e6452e6072e5f82e5c72e5c02e5832e57a2e54f2e5422e50f2e5062e4e12e4dc2e4812e47a2e4612e4582e4392e4362e4172e40e2e3eb2e3e82e3cf2e3cc)
  (.lf 0)))

def shaXorReads228 : BTree :=
  .nd (.nd (.nd (.lf
  0x107100fcf00f8f407be4074401a46019f80107500fd100f91407b44072801a06019b80107900fd300f93407ae4071a019c60197a0107d00fd500f95407a04070001970019320108100fd700f9740798406f001940018f20108500fd900f994078e406d401900018b40108900fdb00f9b40786406d8018aa0186c0108d00fdd00f9d40770406b20187a0182c0109100fdf00f9f407763fa3a0183a017ee01095)
  (.lf
  0x2620c26176262062602c261f826030261ee26034261e626038261dc2603c261d225e6c261c625dea261bc25dee261b225df2261a825df6261a225cda261962617a2618e2617e261842618226064260402605a260442604e26048260522739a275302739e27524273a22751c273a627510273aa2750427350274fa273ae274f0273b2274e4273b6274dc273ba27538274d6274cc273c0274c4273c4274ba273c8))
  (.nd (.lf
  0x3f97e3f9523f82241896418864188e4180a4182a417f0418a8414f4411da411bc411a8411384123a410fc40f5e40f6840e9c40efa40ec040ca040c1240c1a40c1e40bd440bb640b6a40b3840b0e40aa840a1240a7640a260148c0149001494014980149c014a0014a4014a8014ac014b0014b4014b8014bc014c0014c4014c8014cc014d0014d4014d8014dc014e0014e4014e8014ec014f0014f4014f8014fc)
  (.lf
  0x38e6838e5838dde38d9c38d6238d5638d2438cf038ce838cbe38c9a38c5c38c5e38c4a38c363905b3905939055390513904f3904d390493904539043390413903b39039390373903539005390033900138fff38fd938fd738fc93909338fc738fc338fb738fb538f8d38f8b38f8938f8738f4938f4738f4538f5b38f4338f3f38f3d38f3b38ef338ef138eed38ef538eeb38ee738ee538ee338edf38edb38ed9)))
  (.nd (.nd (.lf
  0x9916098c8082e108261076cd06b6706ad906ac206a7e069be098d609888082e308263076cf06b6b06adb06ac406a80069c00989609848082e508265076d106aef06add06ac606a82069c2098560980a082e708267076d306af306adf06ac806a84069c409800097c4082e908269076d506af706ae106aca06a86069c6097ba0977c082eb0826b076d706afb06ae306acc06a88069c80978a0973c082ed0826d)
  (.lf
  0x302333022f3022d3022b302293022530223302213021f3021b3021930217302153020f3020d3020b30209302053020330201301ff301fb301f9301f7301f5301f1301ef301ed301eb301e7301e5301e3301e1301dd301db301d930211301d7301d3301d1301cf301cb301c9301c5301c3301bf301bd301bb301c7301b9301b5301b3301b1301ab301a9301a7301a5301a13019f3019d301ad3019b3019730195))
  (.nd (.lf
  0x154bb15a841548115a3c1544515a341540915a06153d1159fc15395159f01535715315152ec159d716467169261651d1691c16465169141651b1690a164eb168e616541168de165391686c1653b168641653d1685a165371684e1651f16846164a116834164bd16820164ad167ec164d7167e2164cf167d6164d1167c4164d5165c8164d3165c0164c116582164b71657a164b916570164bb165681649b1655c)
  (.lf 0)))

def shaXorReads229 : BTree :=
  .nd (.nd (.nd (.lf
  0x240662405e27f8427aa7261232520124111240f3240682406027f7a27af52612725203240f7240732406a2406227f7027aa525fd325205240fb240752406c2406427f5e27a8125fd725207240ff240772406e2400e27f5227aa325fdb252092410324079240702401027f4227afb25fdf2520b2411b24113241102410c27f3a27aa125eeb2519d240952407b240722401227f2a27a7d25e632519f240992407d)
  (.lf
  0x15b8115b7f15b7b15b7915b7715b7515b7115b6f15b6d15b6b15b6715b6515b6315b6115b5d15b5b15b5915b5715b5315b5115b4f15b4d15b4915b4715b4515b4315b3f15b3d15b3b15b3915b3515b3315b3115b2f15b2b15b2915b2715b2515b2115b1f15b1d15b1b15b1715b1515b1315b1115b0d15b0b15b0915b0715b0315b0115aff15afd15af915af715af515af315aef15aed15aeb15ae915ae515ae3))
  (.nd (.lf
  0xd3b30d3ae0d25c0d25820bfe209b1172a416d0b0f5110f4f50f4de0d3e10d3b50d3b00d23a0d23620be8209b51726e16d3b0f5130f4f70f4e00d3e50d3b70d3b20d2180d21420bd2209b91723216d3f0f5150f4f90f4e20d3e90d3b90d3b40d1f60d1f220bbc209bd171f416d430f5170f4fb0f4e40d3ed0d3bb0d3b60d1d40d1d020ba6209c1171b816d470f5190f4fd0f4e60d3f10d3b80d3690d1b20d1ae)
  (.lf
  0xe2b10e2ad0e2ab0e29d0e29b0e2970e2950e2870e2850e2810e27f0e2710e26f0e26b0e2690e25b0e2590e2550e2530e2450e2430e23f0e23d0e22f0e22d0e2290e2270e2190e2170e2130e2110e2030e2010e1fd0e1fb0e1ed0e1eb0e1e70e1e50e1d70e1d50e1d10e1cf0e1c10e1bf0e1bb0e1b90e1ab0e1a90e1a50e1a30e1950e1930e18f0e18d0e17f0e17d0e1790e1770e1690e1670e1630e1610e153)))
  (.nd (.nd (.lf
  0x1aecf1aed21ae9c1ae601ae221ade61ada41ad5e1ad191ad151ad181acd91acd51acd81ac941a9be1a9b41a9aa1a9a01a9961a98c1a9821a9781a96e1a9641a95a1a9501a9461a93c1a9321a9281a91e1a9141a90a1a9001a8f61a8ec1a8e21a8d81a8ce1a8c41a8ba1a8b01a8a61a89c1bb661bb5c1bb501bb481bb3e1bb341bb2a1bb201bb141bb0c1bb021baf81baee1bae41bad81bace1bac41baba1bab0)
  (.lf
  0x14263142611425d1425b142591425714253142511424f1424d142491424714245142431423f1423d1423b142391423514233142311422f1422b142291422714225142211421f1421d1421b142171421514213142111420d1420b14209142071420314201141ff141fd141f9141f7141f51522a15220152161520c15202151f8151ee151e4151da151d0151c6151bc151b2151a81519e151941518a1518015176))
  (.nd (.lf
  0x67a50679c0679806790067650675c0675806750067250671c0671806710066de066da066d2066cf06698066940668c06689066520664e0664606643066130660a06606065fe065d3065ca065c6065be065930658a065860657e0654c06548065400653d0650d0650406500064f8064c6064c2064ba064b7064800647c06474064710643a064360642e0642b063f4063f0063e8063e5063b5063ac063a8063a0)
  (.lf 0)))

def shaXorReads230 : BTree :=
  .nd (.nd (.nd (.lf
  0x31083310723517434d6d333d1321193121c3108931085310263516434d5d333d33211b3117e30fc130fbf30fbc3515a34d513331f3211d3115230faf30fad30faa3515434d993333f31ffb310de30fd130fcf30fcc3514a34dc33334f322193108230ef130eef30ee03513434d953328731e933133b3108430eab30e9a3512a34d3f3320131e4b3133f30fbe30ead30e663511634d19331ef31e573134330fac)
  (.lf
  0x31870317c4316a6316523242f3242d324073240332401323ff323e1323d7323d5323d3323cf323c3323a9323a7323813237f323673236532343323413232f3232d323293232732325323233220f32203321e9321e7320d33207d320793202b320133200f32003320b53200131ffd31ff1320a331fef31fdf31fd331fd131fc531fc131fb531fb331e9531e7b31e3531e3331e1b31e1331e0931e0731e0331e01))
  (.nd (.lf
  0x36dc136d6236d392cef12ce142756127558269dc269ce37f2e37e3336dc536d6436d3b2ce0a2c601275652755c269c2268ec37f1437e3736dc936d6636d3d2ceed2ce00275672756026978268ea37f0e37e3b36dcd36d3f36d222cdf62c607275692756426ac22697037efa37e3f36dd136d4136d262cee92cdf02756b2756626968268e837ee637e4336dd536d4336d2a2cde82c60d2756d27568269ac2695c)
  (.lf
  0x268d1268cd268cb268bd268bb268b7268b5268a7268a5268a12689f268912688f2688b268892687b26879268752687326865268632685f2685d2684f2684d26849268472683926837268332683126823268212681d2681b2680d2680b2680726805267f7267f5267f1267ef267e1267df267db267d9267cb267c9267c5267c3267b5267b3267af267ad2679f2679d26799267972678926787267832678126773)))
  (.nd (.nd (.lf
  0x8b9608b5608b1608ad808a9208a4a08a0a089ca0898a0894c08904088c60888008838087fa087b40876e08728086ea09aea09aa409a6609a1e099e0099980995a09912098d2098920985209814097ce097860974609706096c8096820963c095f6095b0095680952a094e40949e0945609416093d6093960935809ae009a9809a5a09a12099d40998c0994e09906098c6098860984609808097c20977a0973a)
  (.lf
  0x223d6223d2223c4223ba223b0223a62239c22390223862237a22372223662237e223562234a22342223362232e22324223182230e2230622302221dc221d0221da221b4221aa223f5223f3223ef223ed223eb223e9223e5223e3223e1223df223db223d9223d7223d5223d3223cf223cd223cb223c7223c5223c3223c1223bd223bb223b9223b7223b3223b1223af223ad223a9223a7223a5223a32239f2239d))
  (.nd (.lf
  0x11386114201138a114161138e1140c113921140211396113f81139a113ee1139e113e4113a2113da113a6113d0113aa113c6113ae113bc113b2113b8125aa1270a125ae12700125d6126f6125da126ec125de126e2125e2126d8125e6126ce12550126c4124ee126ba124f2126b0124f6126a6124fa1269c124fe12692125ea12688125ee1267e125f212674125f61266a125fa126601255412656125021264c)
  (.lf 0)))

def shaXorReads231 : BTree :=
  .nd (.nd (.nd (.lf
  0x16b7d16b3216afd1664219dc919da218677175dd16b8116aff16af41664419d8719d5c18679175b716b8516b0116af61664619d4119d141867b175a716b8916b0316af81664819cf519cc41867d175bf16b8d16b0516afa165e419ca319c8e1867f175a916b9116b0716afc165e619c8518681175ab16b9516b0916afe165e81b371199591868317b4117ab317aa81773e1b3431b3081995b1868517b4517ab5)
  (.lf
  0x3fc8d3fc553fc533fc513fc4d3fc3b3fbd93fbdd3fbd73fbd33fb133fb113fb0d3fb093fb073fb153fb053fb013faff3fafd3faf93faf73faeb3fae93faa33fa9f3f9c73f9c53f9a53f99b3f9313f92f3f90d3f8f73f8df3f8dd3f8d93f8cb3f8853f8913f8813f87d3f85d3f85b3f8413f83d3f8053dd883dd803dd763dd6a3dd663dd643dd4e3dd463dd363dd3a3dd243dd1e3dd123dd083dcfe3dcf03dcf4))
  (.nd (.lf
  0x389483897c3894c38976389503896e389543895838eae391d238e9e391cc38ea2391c038ea6391b638eaa391aa38e2e391a238dac3919638d763918c38d7a3918638d7e3917a3906c391743907039168390743915e3907839154390263914a3902a391423909e391343907c3912e39080391203908439114390883910c3908c3910039090390f8390e6390ac3902e390b0390a438fa638f9638fa038f5038f64)
  (.lf 0))) (.nd (.nd (.lf
  0x2794e27938279222790c278f6278e0278ca278b42789e27888278722785c27846278302781a27804277ee27a6227a4c27a3627a2027a0a279f4279de279c8279b22799c27986279702795a279442792e2791827902278ec278d6278c0278aa278942787e27868278522783c2782627810277fa277e4277142770a27700276f6276ec276e2276d8276ce276c4276ba276b0276a62769c27692276882767e27674)
  (.lf
  0x6c9d06c9b06c9706c9506c9306c9106c8d06c8b06c8906c8706c8306c8106c7f06c7d06c7906c7706c7506c7306c6f06c6d06c6b06c6906c6506c6306c6106c5f06c5b06c5906c5706c5506c5106c4f06c4d06c4b06c4706c4506c4306c4106c3d06c3b06c3906c3706c3306c3106c2f06c2d06c2906c2706c2506c2306c1f06c1d06c1b06c1906c1506c1306c1106c0f06c0b06c0906c0706c0506c0106bff))
  (.nd (.lf
  0x2b2102b0882b2042b0802b1fa2b0702b1ea2b0682b1e02b0582b1d62b0502b1cc2b0402b1c02b0382b1b62b0282b1ac2b01e2b1a02b0142b16e2afd82afce2af742af6a2af542af522c57a2c5062c3962c4fa2c39e2c4f02c37e2c4e42c3a02c4dc2c3822c4d22c3602c4c22c35e2c4bc2c3542c4b42c33a2c47e2c39a2c4742c3242c4642c3262c4502c3102c4262c3042c41a2c2f82c40e2c2ec2c4022c2e0)
  (.lf 0)))

def shaXorReads232 : BTree :=
  .nd (.nd (.nd (.lf
  0xde850d7530d73c00b6c00b600de940de890d7550d73e00b5600b140de8f0d7570d74000b120dfc10de1b0ddff0dde801eee0e30c0dfc50de1f0de010ddea01ec001e880e2f80dfc90de230de030ddec01e7e01e420e2e20e0070de270de050ddee01e3801dfa0e2cc0e00b0de2b0de070ddf001dfc01dba0e2b60e00f0de2f0de090ddf201dbc01d7a0e2a00e0130de330de0b0ddf401d7c01d3c0e28a0e017)
  (.lf
  0x729206dd90724c06ddd0720606de1071c006de50717e06de90713a06ded070f806df1070b406df50707206df90702e06dfd06fec06e0106fa806e0506f6606e0906f2606e0d06ee206e1106ea606e1506e6c06e1906e1f079ef08236079f3081fe079f7081be079fb0817a079ff0813807a03080f807a07080b407a0b0807207a0f0802e07a1307fec07a1707fac07a1b07f6c07a1f07f2c07a2307eec07a27))
  (.nd (.lf
  0x414e041190411b402ea602ea802eaa02eac02eae02eb002eb202eb402eb602eb802eba02ebc02ebe02ec002ec202ec402ec602ec802eca02ecc02ece02ed002ed202ed402ed602ed802eda02edc02ede02ee002ee202ee403b2c03b2e03b3003b3203b3403b3603b3803b3a03b3c03b3e03b4003b4203b4403b4603b4803b4a03b4c03b4e03b5003b5203b5403b5603b5803b5a03b5c03b5e03b6003b6203b64)
  (.lf
  0x3a2673a2613a25f3a25d3a25b3a2573a2553a2533a2633a2513a24d3a24b3a2493a2473a2433a2413a2f73a23f3a23b3a2393a2373a2333a2313a22f3a22d3a2293a1f33a1f13a1f53a1ef3a1eb3a1c53a1c33a1bf3a1bb3a19f3a19d3a1993a1973a1953a1a13a1933a18f3a18d3a18b3a1873a1853a1833a1813a17d3a17b3a1793a1a33a1773a1733a1713a16f3a16b3a1693a1673a1653a1613a15f3a15d)))
  (.nd (.nd (.lf
  0x10f7e10eae0c7cf0c74f0bd170b2990b2580b22f0b1180b0ac1106210f720c7d10c7510bd190b29d0b25a0b2310b11a0b0ae1106810f6a0c7d30c7530bd1b0b2a10b25c0b2330b11c0b0b0114ee10f620c7d50c7550bd1d0b2a50b25e0b2350b11e0b0b21105210f5a0c7d70c7570bd1f0b2a90b2600b2370b1200b0b410f5210eb80c7d90c7590bd210b2ad0b2620b2390b1220b0b610f3c10ec20c7db0c75b)
  (.lf
  0x33f4133f3d33f3b33f373422b33f3533f3133f2f341e933f2d33f2933f2733f2533f2133f1f33f1d33f1b33f1733f1333d513412533d4f33d4b33d4933d5733d4733d4333ac533ac333abf33abd33ab933ab733ab333ab133aaf33aad33aa933aa733aa333aa133a9d33a9b33a9933a9733a9333a9133a8f33a8d33a8933a8733a8333a8133a4333a3f33a3d33a3b33a3733a3533951347d8347703469a34576))
  (.nd (.lf
  0x3b33d3b3223b2753b2f13b23c3b2363b2193b1e93b1de3b1d83b1773b1933aef237e793c3633cbf03c35d3cbb03c3433cbaa3c32f3cb503c31f3cb3a3c2d53cae03c2c13cada3c13d3caaa3c1333ca683c1253ca1a3c11d3ca143c1133c9fa3c1093c9e83c0f93c9ce3c0ed3c9be3c0dd3c9a83c0913c9923c0d33c98c3c07d3c96e3c06f3c0c53c00a3c0023bf713bffc3bf653bfde3bf5b3bf7b3bc343bd65)
  (.lf 0)))

def shaXorReads233 : BTree :=
  .nd (.nd (.nd (.lf
  0x2c8222c81c30c58307172eeb92db3b2c8a52c82f2c8242c7fa30c3e309492eecd2dafd2c8a92c8312c8262c7e430c32306f52ee192daf12c8ad2c8332c8282c7e630c2a306eb2ee0b2dbc92c8b12c8352c82a2c7e830c1c306ab2edd92da652c8412c8372c82c2c7ea30c0c306872ed292da312c8452c8392c82e2c7ec30c06306772edc72da052c8492c83b2c8302c7ee30bfa307052ece52d9e92c84d2c83d)
  (.lf
  0x1b4771b4751b4711b44b1b4491b4471b4431b4411b43f1b43d1b4391b4371b4351b4331b42f1b42d1b42b1b4291b4251b4231b4211b41f1b41b1b4191b4171b4151b4111b4071b4051b4031b3ff1b3ed1b3bf1b3bd1b3b91b3811acb51c82e1c7e81c7b41c76c1c7301c6d41c69e1c64a1c6101c5b81c5941c5421c5221c4ea1c4c81c45e1c4981c3ba1c2961c2301c2041c1a41c17a1c1261c0ee1c0941c060))
  (.nd (.lf
  0x16d10153c8153ae254fa254a924307242732425c1bc5a1bc0916d1716d121538c15370254e4254ad242752425e1bc441bc0d16d1916d141534e1533c254ce254b124277242601bc2e1bc1116d1b16d161530c152fc254b724279242621bc1716d1d16d18152e0265892544325427254101cb2b17ce117cc717cc212f94268d42658d2544725429254121cee61cb2f17ce517cc917cc412f8012f76268c026591)
  (.lf
  0x18f0918f0518f0318ec518ec318ebf18ebd18e7f18e7d18e7918e7718e3918e3718e3318e3118df718df518df118def18db718db518db118daf18d7b18d7918d7518d7318d4118d3f18d3b18d3918d070ed140ed0a0ed000ecf60ecec0ece20ecd80ecce0ecc40ecba0ecb00eca60ec9c0ec920ec880ec7e0ec740ec6a0ec600ec560ec4c0ec420ec380ec2e0ec240ec1a0ec100ec060ebfc0ebf20ebe80ed15)))
  (.nd (.nd (.lf
  0x2531c2531225308252fe252f4252ea252e0252d2260a4260902607c25e9625e8c25e8225e7825e6e25e0425cc825cc025cb625c7425c6a25c2025ae025ad625ac825abe25ab425a6a2593a2593025926259182590e257ca257c2257ba257ae26098260842607425ee225ed825ece25ec625e1225dfc25d6025d4e25ce425cdc25c6625bbe25b9625b6c25b4025b1825aac25a6225a28259f0259b42597a25902)
  (.lf
  0x17bf717bf517bf317bef17bed17beb17be917be517be317be117bdf17bdb17bd917bd717bd517bd117bcf17bcd17bcb17bc717bc517bc317bc117bbd17bbb17bb917bb717bb317bb117baf17bad17ba917ba717ba517ba317b9f17b9d17b9b17b9917b9517b9317b9117b8f17b8b17b8917b8717b8517b8117b7f17b7d17b7b17b7717b7517b7317b7117b6d17b6b17b6917b6717b6317b6117b5f184e4184b4))
  (.nd (.lf
  0x1665b166181655e1649c166101654a1652b1649e166061653e1652316482165fc16525164e21647a165f216527164c21647c1653216521164a41647e1652c164ed1648416478164931646c1748717480178b01770e1745e1745d178a4177041742b174281789c176fc173f3173f017892176f4173b7173b417888176e8173791737617874176e01733f1733c17800176d61730717304177f8176ca174ae172cf)
  (.lf 0)))

def shaXorReads234 : BTree :=
  .nd (.nd (.nd (.lf
  0x3c2583c2563de473d09b3c2e23c2403c2073c1fd3c1fb3c1f83de433d0c93c3aa3c23a3c2373c2313c22f3c22c3dfd73d0753c2a03c21a3c1c73c1b53c1b33c1b03ddf33d0613c47b3c2803c2123c1a33c1913c18a3dde13d0473c3953c2623c1e43c1933c18d3c17c3ddf53d0353c4273c1fa3c1de3c1a13c1953c16e3ddb93cdf53c3793c22e3c1c43c1613c15b3c1583dda53cddf3c30d3c1cf3c1c93c1c6)
  (.lf
  0x3b45b3b45f3b4593b4553b4333b4313b41b3b4153b4073b4053b4013b3d93b3a33b3b93b3a13b39d3b2eb3b2e93b2e53b2e33b2db3b2d93b2d53b2d33b2cb3b2c93b2c53b2c33b2b93b2b73b2b33b2b13b2a93b2f53b2a73b2a33b2313b2413b22f3b22b3b2293b2273b1ed3b1e73b19d3b19b3b1973b18b3b1893b1a13b1873b18337e773cbf63cc523cbba3cb983cb463cb323caee3cab03ca703ca323ca1e))
  (.nd (.lf
  0x39dea32ece32d812d8192d7eb2d7e62d7522d6663a4ea3a36139e3539e0339dec32e1232d852d81d2d7ed2d7e82d7482d6583a4e03a36539e3939e0539dee32e0632d892d8212d7ef2d7ea2d6462d6343a4d83a36939e3d39e0739df032dfe32d8d2d8252d7ec2d7c72d6362d61a3a4cc3a36d39e4139df239dc332df432cf52d8292d7ee2d7cb2d5f42d5c43a4ba3a37139e4539df439dc732dea32cf92d82d)
  (.lf
  0x2ab1f2ab1b2ab192ab172ab152ab112ab0f2ab0d2ab0b2ab072ab052ab032ab012aafd2aafb2aaf92aaf72aaf32aaf12aaef2aaed2aae92aae72aae52aae32aadf2aadd2aadb2aad92aad52aad32aad12aacf2aacb2aac92aac72aac52aac12aabf2aabd2aabb2aab72aab52aab32aab12aaad2aaab2aaa92c0cc2c0b82c0a22c08c2c0762c0602c04a2c0342c01e2c0082bff22bfdc2bfc62bfb02bf9a2bf84)))
  (.nd (.nd (.lf
  0x2c6c02c6a02c6982c6902c6802c6702c65c2c6462c63c2c6242c61c2df8a2df6e2dece2dea22de962de5c2de542de4c2de082ddf62ddec2dde42ddd22ddbe2ddaa2dd962dd782dd6e2dd4c2dd3a2dd322dd202dd0e2d3c42d3ba2d3b02d3a82d3102d1e82d1a02db942db8a2db2e2dae22dada2da7e2da5c2da242d9f82d9dc2d9a62d7362d7202d7102d5dc2d5942d58c2d56e2d5202d5022d4fa2d4c42d41e)
  (.lf
  0x26093260912608d260892607f2607d2607925e9b25e9925e9725e9525e9125e8f25e8d25e8925e8725e8525e8325e7f25e7d25e7b25e7925e7525e7325e7125e6f25e0b25e0925e0725e0525e0125ccd25ccb25ccf25cc925cc525cc325cc125cbd25cbb25cb925cb725c7d25c7b25c7725c7525c7125c6f25c6d25c6b25c2725c2525c2325c2125c1d25bc325ae325ae125adf25adb25ad925ad725ad325ad1))
  (.nd (.lf
  0x336fc337743339a33766336e833760336c4337543374c33728336983371e3367833714336563370e3363c3373233704333a8333a03337a347e6349dc3479e349ce347f0349c6347a6349ba346c0349b434666349a6346223499c345d634992345ba3498c34544348723450834866344f0348603447e348563482c3484a3479234842346d0348383466a34824346303481e345da34814345ee348083453634802)
  (.lf 0)))

def shaXorReads235 : BTree :=
  .nd (.nd (.nd (.lf
  0xc85b0c8440c8000c74012dc012ca0112b71125f1082d0c87b0c85d0c8460c8020c74212db012ca2112b9112611082f0c87f0c85f0c8480c8040c74412daa12ca4112bb11263108310c8830c8610c84a0c8060c74612da212c26112bd11265108330c8870c84c0c8230c8080c74812d8c12c20112bf11267108350c88b0c84e0c8250c80a0c74a12d4412c22112c111269108370c88f0c8500c8270c80c0c74c)
  (.lf
  0x182d0183d0182b01827017ef017ed017e9017e7017a7017b7017a5017a101767017770176501761017270173701725017210170902b7002b3802afc02ab602a6e02a30029e8029aa029640291e028d6028960285602816027d6027960275802712026cc0268602640025f8025ba025740252e024e8024a00246002422023dc0239602b7102b3f02b3b02b3902b0502b0302aff02afd02abf02abd02ab902ab7))
  (.nd (.lf
  0x2acba2acb02aca42ac9a2ac962ac942c0ce2c0ba2c0ae2c0a42c0982c08e2c0822c0782c06c2c0622c0562c04c2c0402c0362c02a2c0202c0142c00a2bffe2bff42bfe82bfde2bfd22bfc82bfbc2bfb22bfa62bf9c2bf902bf862bf7a2bf702bf642bf5a2bf4e2bf442bf382bf2e2bf222bf182bf0c2bf022bef62beec2bee02bed62beca2bec02beb42beaa2be9e2be942be882be7e2be722be682be5c2be52)
  (.lf 0))) (.nd (.nd (.lf
  0x3a7583a74e3a7423a6bc3a6b23a6a83a6643a65c3a6323adbe3adb43ada83ad9c3ad903ad843ad783ad663ad5c3ad503ad483ad3c3ad303ad203ad143ad083ad003acf03ace83acdc3acd03acc43acb83acac3aca03ac943ac703ac643ac543ac4c3aede3aed43aeca3aebe3aeb43aeaa3aea03ae963ae8c3ae823ae783ae6e3ae623ae583ae4e3ae463ae3c3ae343ae2a3ae203ae163ae0c3ae023adf83adee)
  (.lf
  0xa2d10a2cd0a2cb0a2a90a2a70a2a30a2a10a27b0a2790a2750a2730a2510a24f0a24b0a2490a2230a2210a21d0a21b0a1fd0a1fb0a1f70a1f50a1d50a1d30a1cf0a1cd0a1ad0a1ab0a1a70a1a50a1830a1810a17d0a17b0a15b0a1590a1550a1530a12d0a12b0a1270a1250a1030a1010a0fd0a0fb0a0d90a0d70a0d30a0d10a0b10a0af0a0ab0a0a90a0870a0850a0810a07f0a05f0a05d0a0590a0570a031))
  (.nd (.lf
  0xa1850a1780a15d0a1500a12f0a1220a1050a0f80a0db0a0ce0a0b30a0a60a0890a07c0a0610a0540a0330a0260a00909ffc09fdf09fd209fbf09fb209f9d09f9809f930ae4d0ae330ae260ae170ae0a0adfb0adee0addf0add20adc30adb60ada70ad9a0ad8b0ad7e0ad6b0ad5e0ad490ad3c0ad2b0ad1e0ad0b0acfe0ace90acdc0acc70acba0aca50ac980ac850ac780ac630ac560ac430ac360ac210ac14)
  (.lf 0)))

def shaXorReads236 : BTree :=
  .nd (.nd (.nd (.lf
  0x3b6fd3b4803b1d63b1d03dee23dea03ca913ca8d3b8a53b7773b6d73b4403b1c63b1c03de983ca673ca4b3b8133b7053b6793b40837e8037e7a3f2ca3db9d3db993d0153cc0f3cbfe3cbfc3cbfb3cbf83fa8e3f2c03db913db613cfef3cc6a3cc683cc5f3cc563cc553f8ee3f2b63db493db433cfa33cbe43cbda3cbc23cbc13cbbd3f8e03f3f83db0f3db0b3cfbf3cc123cbeb3cbe03cbd43cb9b3f8723f28e)
  (.lf
  0x5a480550005a0205504059bc05508059760550c0593005510058ea05514058a805518058680551c0582805520057e805524057a805528057640552c0572205530056de055340569c05538056580553c0561605540055d6055440559a055480554e06126069900612a069580612e0691406132068d2061360688e0613a0684c0613e0680806142067c206146067800614a067400614e0670006152066bc06156))
  (.nd (.lf
  0x4fe004f4004ea004e0004d6004cc004c2004b8004ae004a40049a037e8037b60377c037460370e036d8036a40366c03632035fc035c40358a035540351c034e6034ae034740343a03404033cc033920335c03324032ea032b00327a032420320c031d8031a041b7c41b7041b5641b4641b3e41b2c41b2041b1841b0e41b0241abe41aac41aa441a8041a40416f8416ec416e0416d84167a41662416584158e)
  (.lf
  0x340af340713406d3406b340693406534063340613405f3405b340593405734055340513404f3404d3404b340473404534043340413403f3403b340393403734033340313402f3402d340293402734025340233401f3401d3401b340193401534013340113400f3400b3400934007340053400333fff33ffd33ffb33ff733ff533ff333ff133fed33feb33f0b35dd035dc635da635dac35d9035d9435d7e35d70)))
  (.nd (.nd (.lf
  0x13be0137e03db403d6802c2b02bab02067014cd014840145b013c00138003d5e03d2202c2d02bad02069014d1014860145d013c20138203d1803cda02c2f02baf0206b014d5014880145f013c40138403ce803c9c02c3102bb10206d014d90148a01461013c60138603c9203c7802c3302bb30206f014dd014630144c013c80138803c7602c3502bb502071014e1014650144e013ca0138a050d20387d037fd)
  (.lf
  0x2b9592b9572b9a92b9552b9512b94f2b94d2b94b2b9472b9452b9432b93f2b93d2b93b2b9392b9352b9332b9312b92f2b92b2b9272b9252b9292b9232b91f2b91d2b9ab2b91b2b9172b9152b9132b90f2b90d2b90b2b9092b9052b9032b9012b8ff2b8fb2b8f92b8f72b8f52b8f12b8ef2b8ed2b8eb2b8e72b8e52b8e32b8e12b8dd2b8db2b8d92b8d72b8d32b8d12b8732b8712b86d2b86b2b8692b8672b863))
  (.nd (.lf
  0x3571a357f9356d4356cb3567e35673356283561f355f0355e7355c8355bd355a2355993556c3556f355483554536b2b36d1436ad536d0c36b5936d0436ae736cfa36abb36cf036a9936ce436ab936cdc368eb36cd03684736bda3681d36bd0367e536bc83675736bbc366e136bb236b3536ba436ae136b9c36abd36b9636a9736b8436a9b36b7e368ef36b743683b36b6e3686b36b643685336b3936b0036af8)
  (.lf 0)))

def shaXorReads237 : BTree :=
  .nd (.nd (.nd (.lf
  0x1b6d61b6d01ff981fcd21d5491d5451c52b1b8191b8121b6bd1b6b21b6941ff8e1fcb01d5291d5191c4f31b81d1b8141b6bf1b6b41b6961ff821fc881d53d1d5391c4d11b8211b8161b6c11b6b61b6981ff7a1fc641d52b1d51b1c4731b8251b7701b6c31b6b81b69a1ff601fc481d3831d37f1c4a11b77d1b7721b6c51b6ba1b69c1ff581fc2c1d36b1d3671c3c31b7811b7741b6651b6621b65c1ff4a1fc0a)
  (.lf
  0xc6390c6370c6330c6310c62f0c62d0c6290c6270c6250c6230c6210c61d0c61b0c6190c6150c6130c6110c60f0c60b0c6090c6070c63b0c6050c6010c5ff0c5fd0c5f90c5f70c5f30c5ee0c5de0c5d20c5d40c5c20c5b80c5e80c5a40c59a0c58e0c58a0c57a0c5920c56e0c55e0c5540c5480c5420c5380c54c0c5280c5180c50e0c5020c4fc0c4f20c5060c4e20c4be0c4a00c0b80c5ef0c5e70c5e30c5e1))
  (.nd (.lf
  0x3a3bc3a3b93ab733ab7f3ab763ab523ab273ab4c3ab293ab853ab423ab3a3aaf73ab323aad13ab2a3aaf93ab083aab33ab003aab13aaec3aa9b3aae63aa8d3aa853aa803aaf33aa6a3aa583aa553aa423aa3d3aa2b3aa263aa183aa133a9f83a9ad3a9f23a9ef3a9dc3a9953aa053a9d23a9ca3a9973a9e93a9c03a9b83a9993a9a63a9513a99f3a99c3a9363a92d3a9e53a92e3a90a3a9093a8f83a8ed3a8f1)
  (.lf
  0xcdab0cda70cda50cda30cda10cd9d0cd9b0cd990cd970cd930cd910cd8f0cd8d0cd890cd870cd850cd830cd7f0cd7d0cd7b0cd790cd750cd730cd710d35e0d3400d31e0d2fc0d2da0d2b80d2960d2740d2520d2300d20e0d1ec0d1ca0d1a80d1860d1640d1420d1200d0fe0d0dc0d0ba0d0980d0760d0540d0320d0100cfee0cfcc0cfaa0cf880cf660d35f0d35d0d3590d3570d3410d33f0d33b0d3390d31f)))
  (.nd (.nd (.lf
  0xd8f20d8d00d8ae0d88c0d86a0d8480d8260d80412c0812bec12bcc12bae12b9212b7212b5412b3812b1c12b0012ae412ac812aa812a8612a6812a4c12a2c12a0e129ee129d0129b4129981297c1295c1293a12918128fa128de128be128a612be012b8612abc12a9a12a4012a02129701294e1292c128d212c1912be712be312be112b8d12b8912b8712ac312abf12abd12aa112a9d12a9b12a4712a4312a41)
  (.lf
  0x11eef11eeb11ee311ead11eab11ea711e9f11e6911e6711e6311e5b11e2511e2311e1f11e1711de111ddf11ddb11dcf11d9911d9711d9311d8511d4f11d4d11d4911d3f11d0911d0711d0311cfb11cc511cc311cbf11cb311c7d11c7b11c7711c6911c3311c3111c2d11c1f11be911be711be311bd911ba311ba111b9d11b9111b5d11b5b11b5711b4911b1511b1311b0f11b0111ac911ac711ac311ab911a7d))
  (.nd (.lf
  0x19cad1b34c1b31a1b2e61b2ac1b2701b23c1b1f61b1bc1b1961b1481b1161b0d61b08e1b0561b01e1afe61afae1af761af401af0a1aece1ae981ae5c1ae1e1ade21ada01ad5a1ad141acd41ac901ac951ac911ac8f1c8141c7a01c7961c71a1c7101c6881c67e1c6341c5ae1c5a81c53e1c5101c5061c4d41c44a1c43e1c3b41c2761c2321c1e01c19a1c1581c1101c0ca1c0821c03c1bff81bfb61bf6c1bf32)
  (.lf 0)))

def shaXorReads238 : BTree :=
  .nd (.nd (.nd (.lf
  0x2b5c72b5c32a757293be2921f2921d2921a292142d72c2d7222b5b32b5af2a741293c3293c02922b29228292222d7142d6f62b5432b53f2a721293c52938a291fb291f8291f22d6ea2d5de2b5112b50d2a7112938d2935a291fd291e8291e22d5fc2d5962b4d32b4cf2a6fb2935d292ce291ff291da291d42d5982d58e2b4dd2b4d92a6e9292e6292d1291c9291c6291c02d59c2d5702b4f32b4ef2a6d9292fe)
  (.lf
  0x2a6a32a6a12a69d2a69b2a68f2a68d2a6892a6872a6732a67d2a6712a66d2a66b2a6612a65d2a65b2a6592a6572a6532a6492a6472a7272a6452a6412a63f2a63d2a6392a63729f2329f3729f0329eff29e8d29ea929e8b29e8729e8529e9129e8329e6729e2b29e2f29e2929e2529e232a4b42a4962a4842a4762a4682a4162a3ee2a3c62a3a82a3822a35e2a33a2a3182a2fe2a2d82a2b82a2982a2842a268))
  (.nd (.lf
  0x1e6891e6691e6641e6081e4fc32c78326fd3157d3155931542276f22754f1e68d1e66b1e6661e5fe1e50032c7232701315813155b31544276e8275531e6911e66d1e6681e5f81e4d432c6632705315853155d31546276de275571e6951e66f1e66a1e5ea1e4d232c5c32709315893155f31548276d42755b1e6991e6711e66c1e5e21e4e032c543270d3158d315613154a276ca2755f1e69d1e6731e66e1e5d8)
  (.lf
  0x225072250322501224ff224fd224f9224f7224f5224f3224ef224ed224eb224e9224e5224e3224e1224df224db224d9224d7224d5224d1224cf224cd224cb224c7224c5224c3224c1224bd224bb224b9224b7224b3224b1224af224ad224a9224a7224a522934229202290a228f4228de228c6228ae228962287e228662284e22838228222280a227f4227de227c8227b22279c22786227702275a227442272e)))
  (.nd (.nd (.lf
  0x3c5323c5283c51c3c5063c4c83c462390f4390ea390dc390d2390c8390be38f9c38f7e38f7438f3438f2a38f2038ece38ec438eba38eb038e6038de438da238d8438d6038d3638d0c38d0238cd038ca438c8a38c8238c7838c6e3c95c3c94a3c9143c9083c8e63c8d83c8d03c7c43c7a63c78e3c77e3c7743c76a3c75e3c7243c7183c6f23c6b83c6b03c6a83c69e3c6643c5ca3c5563c54e3c5423c5123c4d4)
  (.lf
  0x1f0911f08f1f08d1f0891f0871f0831f19f1f0811f07d1f07b1f0791f0751f0731f0711f19b1f06f1f06b1f0691f0671f0631f0611f05f1f18d1f05d1f0591f0571dad21daca1dabe1dab41daaa1daa01da961da8e1da841da7a1da701d8741d86a1d8621d8541d84c1d8421d87e1d8301d8261d81a1d8121d8021d7ce1d78e1d7861d77c1d7721d7681d75e1d7541dad31dad11dacd1dacb1dac91dac71dac3))
  (.nd (.lf
  0x3bd643bc163bc143bc133bb663bb443bb423bb413bad83bad43bac43bac33ba123b9fa3b9d93b9d23b9713b95e3b9563b9543b8af3b8a63b89c3b8923b8073b7fa3cdb63c9633d1ee3d0043cda63c9673d1e83cfa83cd9a3c93b3d1c43cf8c3cdb43c92f3d19a3cf863cd843c9473d16e3cf5e3cf083c8ff3d1163cf003cdb23c9053d1043cefa3cd663c9013d0e83cef03cdba3c8bd3d0be3cedc3cd1e3c8c5)
  (.lf 0)))

def shaXorReads239 : BTree :=
  .nd (.nd (.nd (.lf
  0xcb530cb0c0cad70cac01165f105550d8c90d8b00cb570cb0e0cad90cac211661105570d8a70d88e0cb5b0cb100cadb0cac411663105590d8850d86c0cb5f0cadd0cad20cac6116651055b0d8630d84a0cb630cadf0cad40cac8116671055d0d8410d8280cb670cae10cad60caca116691055f0d81f0d8060cb6b0cae30cad80cacc1166b105610d7fd0d7f20cb6f0cae50cada0cace1166d105630d7f10cb73)
  (.lf
  0x3caa13ca853ca7d3ca793ca473d5303d5223d5163d50a3d4fc3d4f23d4e43d4da3d4c83d4b03d3f23d3e83d3dc3d3d03d3c23d3b63d3aa3d39e3d3923d3863d37c3d36c3d3583d2d83d2cc3d29a3d2a43d2a63d2843d21e3d1683d5313d52f3d52b3d5233d5213d51f3d5193d5173d5153d5133d50f3d50b3d5093d5073d5033d5013d4fd3d4fb3d4f73d4f33d4f13d4ef3d4eb3d4e73d4e53d4e33d4df3d4db))
  (.nd (.lf
  0x17d2217e5417d2617e1217d2a17dce17d2e17d8c17d3217d3818c421945a18c461942a18c4a193f018c4e193b418c521937c18c561934618c5a1931018c5e192d818c621929c18c661925c18c961921c18c9a191dc18c9e1919c18ca21915c18ca61911a18caa190d418cae1909218cb21905218cb61900e18cba18fcc18cbe18f8c18cc218f4818cc618f0218cca18ebc18cce18e7618cd218e3018cd618dee)
  (.lf 0))) (.nd (.nd (.lf
  0xd2ac0d28a0d2680d2460d2240d2020d1e00d1be0d19c0d17a0d1580d1360d1140d0f20d0d00d0ae0d08c0d06a0d0480d0260d0040cfe20cfc00cf9e0cf7c121d212196121521210e120c61207c1203411fec11fa411f5c11f1811ed411e9011e4c11e0811dc011d7611d3011cec11ca411c5a11c1011bca11b8211b3a11af211aaa11a6011a14119c00d72a0d7200d7160d70c0d7020d6f80d6ee0d6e40d6da)
  (.lf
  0x4cd504cd304ccf04ca104c9304c9104c8d04c6104c5304c5104c4d04c2104c1304c1104c0d04bdd04bcf04bcd04bc904b9b04b8d04b8b04b8704b5b04b4d04b4b04b4704b1b04b0d04b0b04b0704ad704ac904ac704ac304a9104a8304a8104a7d04a4b04a3d04a3b04a3704a05049f7049f5049f1049bf049b1049af049ab0497d0496f0496d049690493d0492f0492d04929048fd048f7050d1050bb050b7))
  (.nd (.lf
  0x8ab608a8208a7008a4008a2e08a00089ee089c0089ae089800896e0893c0892a088fa088e8088b6088a4088700885e0882e0881c087ea087d8087a4087920875e0874c0871808706086dc086c409b0c09afc09ad009abe09a8e09a7c09a4a09a3809a08099f6099c4099b209982099700993e0992c098fc098ea098bc098aa0987c0986a0983c0982a097f8097e6097b2097a0097700975e097300971e096f0)
  (.lf 0)))

def shaXorReads240 : BTree :=
  .nd (.nd (.nd (.lf
  0xf7680f69b0ea8e0e9bf0e7df0e78c0e76104cc404c820f75e0f69f0ea840e9c30e7e30e78e0e76504c8404c420f7540f6a30ea7a0e9c70e7e70e7900e76704c4404c040f74a0f6a70ea700e9cb0e7eb0e7920e76904bfa04bbc0f7400f6ab0ea660e9cf0e7ef0e7940e76b04bbe04b7c0f7360f6af0ea5c0e9d30e7f30e7960e76d04b7e04b3c0f72c0f6b30ea520e9d70e7f70e7980e76f04b3e04afe0f722)
  (.lf
  0x16bba16baf16bb517adf17c8417ae317c7a17ae717c7017aeb17c6617aef17c5c17af317c5217af717c4817afb17c3e17aff17c3417b0317c2a17b0717c2017b0b17c1617b0f17c0c17b1317c0217b1717bf817b1b17bee17b1f17be417b2317bda17b2717bd017b2b17bc617b2f17bbc17b3317bb217b3717ba817b3b17b9e17b3f17b9417b4317b8a17b4717b8017b4b17b7617b4f17b6c17b5317b6217b57))
  (.nd (.lf
  0x20d7220d3220d28221ee2212e220b8220ba2200821faa21fac21f3421ef021eaa21dbc21d5e21d3621d0c21cbc21c4c21bfc21bd821b7021b2421ae221aac21aae21a0c219bc219722193c2193e216d421634216362163822ff022ff222fca22fb022fb222fb422fb622fb822fba22fbc22f5a22ffe22e3c22e1422e1622e1822e1a22e1c22d5c22d3822d1222cea22cec22cee22c6e22c2e22c3022bd022aec)
  (.lf
  0x425004210041f0041d0041b004170041500413004110040d0040b00409004070040300401003ff003fd003f9003f7003f5003f3003ef003ed003eb003e9003e5003e3003e1003df003db003d9003d7003d5003d1003cf003cd003cb003c7003c5003c3003c1003bd003bb003b9003b7003b3003b1003af003ad003a9003a7003a5003a30039f0039d0039b003990039500393003910038f0038b0038900387)))
  (.nd (.nd (.lf
  0x3be003b94033b6033b3054390480703c2503be203bad03b96033830337a0543b0480903c2903be403baf03b9803348033450543d0480b03c2d03be603bb103b9a0330e0330b0543f0480d03c3103be803bb303b9c032d4032d1054410480f03c3503bea03bb503b9e032a103298054430481103c3903bb703bac03ba00326603263054450481303c3d03bb903bae03ba2032330322a054470481503c4103bbb)
  (.lf
  0x35b4635b3c35b3035b2635b1c35b1235b0835afe35af435af235ae035ada35acc35ac435ab835aae35aa435b8435a9035a8835a8235a9435a6e35a6035a5a35b8135b7f35b7b35b7935b7735b7535b7135b6f35b6d35b6b35b6735b6535b6335b6135b5d35b5b35b5935b5735b5335b5135b4f35b4d35b4935b4735b4535b4335b3f35b3d35b3b35b3935b3535b3335b3135b2f35b2b35b2935b2735b2535b21))
  (.nd (.lf
  0xe7b80e8de0e7bc0e8d40e7c00e8ca0e7c40e8c00e7c80e8b60e7cc0e8ac0e7d00e8a20e7d40e8980e7d80e88e0e7dc0e8840e7e00e87a0e7e40e8700e7e80e8660e7ec0e85c0e7f00e8520e7f40e8480e7f80e83e0e7fc0e8340e8000e82a0e8040e8200e8080e8160e80c0e8120e9440eb220e9480eb180e94c0eb0e0e98a0eb040e98e0eafa0e9920eaf00e9960eae60e99a0eadc0e99e0ead20e9a20eac8)
  (.lf 0)))

def shaXorReads241 : BTree :=
  .nd (.nd (.nd (.lf
  0x22cbc22c9420f1b20f131fb951f6e91f6aa1f6811f66c1f5be22cbe22c5a20f1d20f151fb631f6ed1f6ac1f6831f66e1f5c022c4c22c1c20ee520ee11fb2d1f6f11f6ae1f6851f6701f5c222c1222bf220e8120e791faf91f6f51f6b01f6871f6721f5c422bfa22bd420e8320e7b1fac51f6f91f6b21f6891f6741f5c622baa22ad620df720df31fa971f6fd1f6b41f68b1f6761f5c822aca229ee20da720da3)
  (.lf
  0x20433204312042d2042b204292042720423204212041f2041d204192041720415204132040f2040d2040b20409204052040320401203ff203fd203f9203f7203f5203f1203ef200191ff791ff751ff731ff651ff3f1ff3b1ff391ff011fbbf1fbad1fba91fb791fb771fb731fb711fb451fb551fb431fb3f1fb1d1fb1b1fb171fb151fae11faeb1fadf1fadb1faad1faa71faa31faa11fa7d1fa7b1fa771fa75))
  (.nd (.lf
  0x2772d1de401dd3319c7919bf119be817fce17fb428a4428957277b7277582772f1de281dd3719bf519bec17f8a17f6e28a2e2895b277bb2775a277311de121dd3b19bf919bf017f4417f2c28a182895f277bf2775c277331ddfc1dd3f19bfb19bf417f0217eec28a0228963277c327735277181dde61dd4319bfd19bf817ec217ea8289ec28967277c7277372771c1ddd01dd4719bff19bfa17e7e17e62289d6)
  (.lf
  0xf06f0f06b0f0690f0670f0650f0610f05f0f05d0f05b0f0570f0550f0530f0510f04d0f04b0f0490f0470f0430f0410f03f0f03d0f0390f0370f0350f0330f02f0f02d0f02b0f0290f0250f0230f0210f01f0f01b0f0190f0170f0150f0110f00f0f00d0f00b0f0070f0050f0030f0010effd0effb0eff90eff70eff30eff10efef0efed0efe90efe70efe50efe30efdf0efdd0efdb0efd90efd50efd30efd1)))
  (.nd (.nd (.lf
  0x294b2294a82949e294942948a29480294762946c29462294582944e294442943a29430294262941c2941229408293fe293f4293ea293e02936e29340293362932c29322293182a62a2a6222a6182a60e2a6042a5fa2a5f02a5e62a5dc2a5d22a5c82a5be2a5b42a5a82a5a02a5962a58c2a57c2a5702a5662a55e2a5562a54c2a5422a5382a52e2a5242a51a2a5102a4382b1602b1542b14c2b1402b1342b128)
  (.lf
  0x190f3190ef190ed1902d190291902718f6718f6318f6118f2118f1d18f1b18edb18ed718ed518e9518e9118e8f18e4f18e4b18e4918a4e18a4418a3a18a3018a2618a1c18a1218a08189fe189f4189ea189e0189d6189cc189c2189b8189ae189a41899a18990189861897c18972189681895e189541894c188961886a1883e1881218a4f18a4d18a4918a4718a4518a4318a3f18a3d18a3b18a3918a3518a33))
  (.nd (.lf
  0x20604205f22000e1fe4b205fc205da200041fe2120612205601fffa1fe03205562054c1fff01fde120542205341ffe01fdc920530204621ffd61fd9d2045a202ec1ffcc1fd7f20450202da1ffc41fd5f20446202e21ffba1fd352043c202d01ffb21fd1720436202b61ffa61fcf12042c202d41ff9a1fcd320422202a21ff8c1fcb120416202921ff841fc892040e202a81ff7c1fc65204041ff6a1ff2a1fc49)
  (.lf 0)))

def shaXorReads242 : BTree :=
  .nd (.nd (.nd (.lf
  0x2ed392ed362ed342ed2e333b03324a30f7b30f772ff1d2ee5b2ee572ee542ee522ee4c333143323c30f5730f532ff532ecd52ecd32ecd02ecce2ecc8333383330e30f3930f352ff432f0982ecb32ecb12ecae2eca8332a43326430ed330ecf2fe372f09b2f0062ec4f2ec4c2ec46332803321e30e8930e852fbf32f0092eee22ec512ec422ec3c331f6331e230e5530e512fbdf2ef622eee52ebf52ebf22ebec)
  (.lf
  0x3e68b3e6893e6853e6613e65f3e65d3e64b3e63f3e6333e6313e62d3e6153e60f3e6233e60d3e6093e6073e6053e6013e5f53e5f33e5f13e5ed3e5e93e5e73e5e53e5e13e5d53e5d33e7a13e5d13e5853e5833e5813e57b3e5713e39f3e39d3e3993e38f3e36f3e36d3e3693e35b3e3113e3133e30f3e3073e2e53e2f73e2e33e2df3e2dd3e2eb3e2db3e2d73e2d53e2d33e2cd3e2cb3e2c53e3293e2c33e2bd))
  (.nd (.lf
  0x3aba6364f23625b30c34307d1307ad307a8306f43abe73abbf3aba8364e83625f30c24307d5307af307aa306ea3abeb3abc13abaa364da3626330c1e307d9307b1307ac306aa3abef3abc33abac364d43626730c0e307dd307b3307ae306863abf33abc53abae364c83608730c04307e1307b5307b0306763abf73abc73abb0364c03628930bf8307e5307b7307b2307043abfb3abc93abb2364b03628d30bf2)
  (.lf
  0x2e5eb2e5e72e5e52e5af2e5ad2e5a92e5a72e5712e56f2e56b2e5692e5332e5312e52d2e52b2e4f92e4f72e4f32e4df2e4c72e4c52e4c12e22b2e2272e2252e2212e21d2e21b2e2192e2152e2132e20d2e20b2e2072e2052e2032e2012e1fd2e1fb2e1f92e1f72e1f32e1ef2e1ed2e1f12e1eb2e1e72e1e52e1e32e1dd2e1db2e1d92e1d72e1d32e1cf2e1cd2e1cb2e1c72e1c52e1c32e1c12e1b92e1b72e1b5)))
  (.nd (.nd (.lf
  0x3fb4e3fabe3fa6a3fa623fa463f9d23f95c418524184a41836417f2417da417d2417ca414da411864117e41176411284106c40f4e40f0840ea840e9440e8440c5840c4240c0840bf840bd040bc040b7440b3c40adc40ab840a0a40a0041308412ea412c641166411024109e4108841078410424102e410184100840ffa40f3c40f2840e1240e0840df6406a0406404062e4061840606405f8405d6405c6405be)
  (.lf
  0x262db262d9262d3262d5262d1262cd262cb262d7262c9262c5262c3262c1262bd262bb262b9262b7262b3262b1262af262ad262a9262a7262a5262a32629f2629d2629b262992629525f8525f1125f0f25f0b25f0925e5325e5125e4d25e4925d93275362752c27522275182751a2750627500274f2274e6274e82753a274ca274c2274b4274b6274b82749a27492274822747c2749427464274662745427448))
  (.nd (.lf
  0x395303ab20395703aa80395b03a9e0395f03a940396303a8a0396703a800396b03a760396f03a6c0397303a620397703a580397b03a4e0397f03a440398303a3a0398703a300398b03a260398f03a1c0399303a120399703a080399b039fe0399f039f4039a3039ea039a7039e0039ab039d6039af039cc039b3039c2039b7039bd045af04754045b30474a045b704740045bb04736045bf0472c045c304722)
  (.lf 0)))

def shaXorReads243 : BTree :=
  .nd (.nd (.nd (.lf
  0x124fd124da123c8123a415e5a15a4c140e11406113009125e9125c5124dc123ca123a615e5415a4e140e3140631300b125ed125c7124de123cc123a815e4a15a50140e5140651307f125f1125c9124e0123621235c15e4015a4a140e71406712ec9125f51254b124e21221a121f615e3415a30140e91406912ecb125f9124e4124c71221c121f815e2e15396140eb1406b12ecd12553124e6124c91221e121fa)
  (.lf
  0x4cb704cb504cb104caf04c7704c7504c7104c6f04c3704c3504c3104c2f04bf904bf704bf304bf104bb104baf04bab04ba904b7104b6f04b6b04b6904b3104b2f04b2b04b2904af304af104aed04aeb04aad04aab04aa704aa504a6704a6504a6104a5f04a2104a1f04a1b04a19049db049d9049d5049d304993049910498d0498b04953049510494d0494b04913049110490d0490b048ef050d40509a0506a))
  (.nd (.lf
  0x39f663a0be39f7e3a0ae39f523a06839f463a05839f383a09e3a0523a04239f243a03839f183a02839f0a3a0803a01e3a01439ef63a00e39ee83a00239ff039ff839ede39ee039ed83a07239ea639e9e39e9239e8839e8039e8e3a56c3a6fa3a5623a6f23a5543a6dc3a56e3a6d63a53e3a6c23a52e3a6863a5323a67e3a51a3a6703a5343a64a3a5703a63c3a4fe3a6143a5043a60e3a5023a6043a4d63a5f0)
  (.lf 0))) (.nd (.nd (.lf
  0x3cba03ae803ade03ad403aca03ac003ab603aac03aa203a9803a8e03a8403a7a03a7003a6603a5c03a5203a4803a3e03a3403a2a03a2003a1603a0c03a02039f8039ee039e4039da039d0039c6050c80508c0504a0500604fc004f7e04f3e04efa04eb404e6e04e2804de204da004d6004d2004cdc04c9a04c5a04c1a04bd604b9404b5404b1404ad004a8a04a44049fe049b8049760493601ec801e8601e40)
  (.lf
  0xab510ab430ab350ab330ab2f0ab210ab130ab110ab0d0aaff0aaf10aaef0aaeb0aadd0aacf0aacd0aac90aabb0aaad0aaab0aaa70aaa30aa9d0a9d40a9ca0a9c00a9b60a9ac0a9a20a9980a98e0a9840a97a0a9700a9660a95c0a9520a9480a93e0a9340a92a0a9200a9160a90c0a9020a8fa0a8ce0a8a00a8740a8480a81c0a7f00a7c40a7980a9d50a9d30a9cf0a9cd0a9cb0a9c90a9c50a9c30a9c10a9bf))
  (.nd (.lf
  0x1c41e1c3a11c7171c4121c40a1c3a31c6851c4001c3f61c34d1c5ed1c3ea1c3ae1c37f1c5711c39a1c38c1c3891c50d1c3801c3911c3761c4a51c2e81c3a51c2e21c43b1c2da1c3b11c2ac1c2731c26a1c2521c21d1c1dd1c1d41c1971c1901c1551c14c1c10d1c1041c0c71c0be1c07f1c0761c0391c0301bff51bfec1bfb31bfaa1bf661bf651bf211bf1c1bedb1d1611d4081d1631d4021d14b1d3f61d18f)
  (.lf 0)))

def shaXorReads244 : BTree :=
  .nd (.nd (.nd (.lf
  0x3e6fd3e6f641b3841ae640b1540b113f5eb3e6ee3e6ec3e6e73e6e43e6e141b2841ade40929409253f67f3e7af3e6c83e6c23e6b63e6b541b1a41ad040909409033f53f3e6aa3e6a03e69e3e6913e68f41b1441ac8408e7408e33f5273e66d3e66a3e6693e6663e66241b0a41a9a408c3408bf3f5173e6443e6403e6393e6373e63441ac041a7a40a81408993f5033e6493e61c3e61a3e6193e61641aba41a6c)
  (.lf
  0x15114150ee1510a150f215100150f6150fc1602e16454160321643616036164141603a163f21603e163d416042163b416046163921604a163741604e16354160521633216056163101605a162ee1605e162cc16062162ae16066162921606a162721606e16250160721623216076162161607a161fa1607e161da16082161bc16086161a01608a161841608e16164160921614216096161241609a161041609e))
  (.nd (.lf
  0x1bf901bf4a1beea1d7ec1d7ac1d66c1d66e1d6701d6721d6741d6761d6b61d5241d5541d5261d5481d5281d53c1d52a1d3821d36a1d3761d2da1d2981d28c1d23a1d2141d1d81d11e1d10c1d0fa1d0e81d0d61d0bc1d0b01f6061f6081f60a1f60c1f60e1f6101f6121f6141f6161f6181f61a1f61c1f61e1f6201f6221f6241f6261f6281f62a1f62c1f62e1f6301f6321f6341f6361f6381f63a1f63c1f63e)
  (.lf
  0x3815b3815738153381513814f3814b3814938145381433810b381093810538103380ff380fb380f9380f7380f3380f1380e5380e3380df380dd380cd380cb380c7380c5380b5380b3380af3809f3809d3809b380973809538087380793807738073380713806f3806b380693805b380593805537f6337f6137f5f37f5b37f5737f5537f5337f4f37f4b37f4937f4737f4337f4137f3d37f6937f3b37f3737f35)))
  (.nd (.nd (.lf
  0x75b40757605db705d37051a10460904589045720452e0446e075840753805db905d39051a30460d0458b0457404530044700752e074f205dbb05d3b051a5046110458d045760453204472074e8074aa05dbd05d3d051a7046150458f045780453404474074b80746a05dbf05d3f051a904619045910457a0453604476074780742a05dc105d41051ab0461d045930457c045380447807438073ea05dc305d43)
  (.lf
  0x2e2d32e2852e27f2e2732e2c32e2712e26d2e1752e1732e16f2e16b2e1592e8082e7f22e7922e7562e7102e6c82e68a2e6462e6082e5c82e5842e5502e5102e4e82e4822e4622e43a2e4182e3f22e3d02e3b42e3922e36c2e34c2e3242e30e2e2ea2e2e02e2d62e2ca2e24a2e8092e7f32e7ef2e7eb2e7872e7932e7852e7812e7532e7572e7512e74d2e7092e7112e7072e7032e6d32e6d12e6cd2e6c92e68f))
  (.nd (.lf
  0x5b3405b2b05af405aeb05ab605aad05a7005a6705a2a05a21059e4059db0599e05995059580594f0591205909058ca058c10588a058810584a058410580a05801057ca057c10578c05783057440573b05706056fd056be056b50568005677056380562f055f8055ef055c0055b7055840557b0555e0555d069a70696f0693c06933068f4068eb068b6068ad0686e068650683006827067ea067e1067a206799)
  (.lf 0)))

def shaXorReads245 : BTree :=
  .nd (.nd (.nd (.lf
  0x1f8611f8561f1dc221ef218632019120103200f8200d7200a42212f218712027a2019520105200fa200d5200a6220b9218652026c2019920107200fc200d3200a8220bb21685202662019d20109200fe200aa1fff9220092153b20258201a12010b20100200ac1ffed21fab214f920252201a52010d20102200d1200ae21fad214ef20244201a92010f20104200b02001d21f35214e52023e2012d2011120106)
  (.lf
  0x122c7122c5122c1122bf122bd122bb122b7122b3122b1122af122ab122a5122a3122a7122a11229d1229b122991229512293122911228f1228b122891228712285122811227f1227d122b51227b1227712275122731226f1226d1226712265122611225f1225d1226b1225b1225712255122531224f1224d1224b122491224512243122411223f1223b1223912237122a912235122311222f1222d1222912227))
  (.nd (.lf
  0x413f64110c4103b4103741035413ec410a8410214101f4101d413e241155410904100f4100d413d64115d411594108440fff415294148b413ca4104a40ff5413c2412f54103640f4340f41413b6412dd4101e40f2140f13413b0412bd412574100e40e7f4112540ffe40ede40e0340dfd415284148f40e6e40df140db94130140f404068e4064f40649412d540f12406884063f4063d412a140e7e4068040621)
  (.lf
  0xda150da110da0f0d9f50d9f30d9ef0d9ed0d9d30d9d10d9cd0d9cb0d9b10d9af0d9ab0d9a90d98f0d98d0d9890d9870d96d0d96b0d9670d9650d94b0d9490d9450d9430d9290d9270d9230d9210d9070d9050d9010d8ff0d8e50d8e30d8df0d8dd0d8c30d8c10d8bd0d8bb0d8a10d89f0d89b0d8990d87f0d87d0d8790d8770d85d0d85b0d8570d8550d83b0d8390d8350d8330d8190d8170d8130d8110d7f7)))
  (.nd (.nd (.lf
  0x15d0816ce016cd616ccc16cc216cb816cae16ca416c9a16c9016c8616c7c16c7216c6816c5e16c5416c4a16c4016c3616c2c16c2216c1816c0e16c0416bfa16bf016be616bdc16bd216bc816bbe1745a17424173ec173b0173721733817300172ca172941725c17220171e4171a81716c17130170f8170c217088170501701416fda16fa416f6e16f3416efc16ec216e8a16e4816e0616dc6174541741c173e4)
  (.lf
  0x13ff713ff313fe113faf13fad13fa913f9113f5f13f5d13f5913f4313f1113f0f13f0b13ef313ec113ebf13ebb13ea113e6f13e6d13e6913e5313e2113e1f13e1b13e0313dd113dcf13dcb13db113d7f13d7d13d7913d5f13d2d13d2b13d2713d0d13cdb13cd913cd513cbf13c8d13c8b13c8713c6f13c3d13c3b13c3713c2113bef13bed13be913bd513ba313ba113b9d13b8513b5313b5113b4d13b3713b05))
  (.nd (.lf
  0x3e29e3e2983e27a3e2723e1a83e19e3e1a73e19f3f2be3f2b43f2ae3f2883f2703f2683f2623f25c3f2463f23c3f2323f2243f21a3f2123f20a3f1e43f1de3f1ce3f1bc3f1b23f1a03f15a3f0e03f0d83f0cc3ee0a3edfe3ed763ea763ea7d3ea77401164011040100400f8400f2400e4400dc400d6400b6400aa3ffaa3ffa43ff923ff8c3ff863ff803ff7a3fcbc3fc603fc023fbf63fb683fb623fb3c3fab0)
  (.lf 0)))

def shaXorReads246 : BTree :=
  .nd (.nd (.nd (.lf
  0x2eb3b2eb372dd5b2cc2b2cba02cac32ca922ca8630da830d382eb032eaff2dd472cba32cb802cabd2ca942ca8830d1830cfc2ead52ead12dd692cb832cb4e2ca692ca662ca6030cec30c982eaa32ea9f2dd2d2cc712cb592cb502ca542ca4e30c8e30b622ea992ea952dd192cc8b2cb5d2cb522ca722ca6c30b7830b242ea412ea3d2d3dd2cc792cc4d2cb142ca422ca3c30b3e30b042ea032e9ff2d3df2cc93)
  (.lf
  0x2d9df2d9e32d9dd2d9d72d9a92d9a72d9952d98d2d7392d7372d7332d72f2d7232d7212d7172d7152d7132d7112d6ed2d6e72d5df2d5ff2d5dd2d5d92d5972d59b2d5952d5912d58f2d59f2d58d2d5892d5712d56f2d56b2d5632d5532d54b2d5212d51d2d5052d5072d5032d4ff2d4fd2d4fb2d4dd2d4db2d4d12d4c52d4c12d4bd2d4212d41f2d41b2d4192d4172d4152d4112d4092d4072d4052d4012d3f9))
  (.nd (.lf
  0x1fe9e1f9dc1e9931e98e34b4e34a9d3386933852299382991f1fe941f9a61e9951e99034ae234aa13386b338542992e299231fe8a1f9441e9971e99234aa53386d33856299291f9181e9991e99435b8934a3334a1734a002a9fd24ed724ebd24eb8246d635dca35b8d34a3734a1934a022abce2aa0124edb24ebf24eba2483a246d435daa35b9134a3b34a1b34a042abc42aa0524edf24ec124ebc2482e245c4)
  (.lf
  0x244cb244c7244c5244b7244b5244b1244af244a12449f2449b244992448b24489244852448324475244732446f2446d2445f2445d24459244572444924447244432444124433244312442d2442b2441d2441b2441724415244072440524401243ff243f1243ef243eb243e9243db243d9243d5243d3243c5243c3243bf243bd243af243ad243a9243a72439924397243932439124383243812437d2437b2436b)))
  (.nd (.nd (.lf
  0x3f5be404c8404c0404b2404a84049c4048e404864047a4046e4046240456404464043e403d8403ce403c2403ba403ae403a440398403884037c4037040368403464033e4033640320402fa402f23e26a3e2603e2563e0d63e0cc3e0c23e0b83e0ae3e0a43e09a3e0823e0783e06e3e0643e05c3e0523e0043dffc3d6ce3d6aa3d6903d6863d67c3d5c83d5943d4223d4183d4103d4063d218414744127241266)
  (.lf
  0x2119d2119b2119721193211912118f2118b2118721185211832117f2117d2117921175211712116f2116d2116b2116521163211612115f211512114f2114d211552114b2114721145211432113f2113d2113b211392113521133211312112f2112b211292112721125211212111f2111b211c7211192111521113211112110d2110b210cb210c920fe320fdf20fdd20fdb20fd720fcf20fa520fa320f9f20f9d))
  (.nd (.lf
  0x20c00223a020c402230020c802226020cc0221c020d002212020d402208020d8021fe020dc021f4020e0021ea020e4021e0020e8021d6020ec021cc020f0021c2020f4021b8020f8021ae020fc021a4021000219a021040219002108021860210c0217c02110021720211402168021180215e0211c02154021200214a021240214002128021360212c0213202cb802e5c02cbc02e5202cc002e4802cc402e3e)
  (.lf 0)))

def shaXorReads247 : BTree :=
  .nd (.nd (.nd (.lf
  0x134211340a12d5012d4d14fef143c3134a313458134231340c12d1a12d1714ff1143b3134a7134251341a1340e12cde12cdb14ff3143a3134ab134271341c1341012cb412cb114ff514393134af134291341e1341212c9612c9314ff714381134b31342b134201341412c8212c7f14ff914371134b71342d134221341612c6012c5314ffb1433d134bb1342f134241341812c5b1747515fe914ffd145f714569)
  (.lf
  0x3e4173e4153e4113e40f3e40b3e4093e4053e4033e3ff3e3fd3e3f93e3f73e3f33e3f13e3ed3e3eb3e3813e3853e37d3e3793e34d3e3513e34b3e3473e2553e2513e24f3e24b3e2493e2533e2473e2433e2413e23f3e1993e1973e1953e1933e18f3e18d3e1893e1873e1833e1813e17f3e17d3e1793e1773e1753e2713e1733e16f3e15f3e15d3e1593e1573e1553e1533e0fd3e0f93e0ed3e19d3e0eb3e0e7))
  (.nd (.lf
  0x27c7e27d8827c8227d7e27c8627d7427c8a27d6a27c8e27d6027c9227d5627c9627d4c27c9a27d4227c9e27d3827ca227d2e27ca627d2427caa27d1a27cae27d1027cb227d0627cb627cfc27cba27cf227cbe27ce827cc227cde27cc627cd427cca27cd02987e29a4e2988229a442988629a3a2988a29a302988e29a262989229a1c2989629a122989a29a082989e299fe298a2299f4298d2299ea298d6299e0)
  (.lf 0))) (.nd (.nd (.lf
  0x1bdf01bdda1bdc41bdae1bd981bd821bd6c1bd561bd401bd2a1bd141bcfe1bce81bcd21bcbc1bca61bc8e1bc761bc5e1bc481bc320f2d00f2c60f2bc0f2b20f2a80f29e0f2940f28a0f2800f2760f26c0f2620f2580f24e0f2440f23a0f2300f2260f21c0f2120f2080f1fe0f1f40f1ea0f1e00f1d60f1cc0f1c20f1b80f1ae1beac1be961be801be6a1be541be3e1be281be121bdfc1bde61bdd01bdba1bda4)
  (.lf
  0x63d9063d5063d30639906397063930639106355063530634f0634d0630f0630d0630906307062cd062cb062c7062c5062890628706283062810624706245062410623f0620306201061fd061fb061c1037fa037d40379e0376e0373003700036cc0368e0365403624035e6035ac0357c0353e0350e034d0034960345c0342c033ee033b403384033460330c032d2032a2032640323403200031c203192037fb))
  (.nd (.lf
  0x1a3b81a3901a37c1a3541a33e1a3161a3001a2d81a2c21a29a1a2841a25c1a2461a21e1a20c1a1e41a1d01a1a81a1961a16e1a15a1a1341a11e1a0f81a0e61a0be1a0ae1a0881a0741a04c1a03a1a01219ffe19fd619fc019f9a19f8419f5c19f4619f1e19f0819ee219ecc19ea619e9019e6819e5219e2619e1019dde19dcc19d9a19d8a19d5419d4419d0c19cf819cbc19ca619c8c19c881b3741b3461b316)
  (.lf 0)))

def shaXorReads248 : BTree :=
  .nd (.nd (.nd (.lf
  0x2fb3feac3f2a00038a002f93fea23f1fa00380002f73fe9c3f18600376002f53f43c3f13e0036c002f33f4323f13000362002f13f18c3eeb400358002ef3eea03ee680034e002ed3ee5c3edc200344002eb3edb83eabe0033a002e93eab83ea9200330002e73ea523ea2200326002e53ea66002e30f80b00320103f20f80f004460031e103a00f8130043c0031c1033e0f851004320031a102e20f85500428)
  (.lf
  0x37c3a37bda37c3437c3037ba23bc043bd503bb343bd463ba8a3bd3a3b9c63bd2e3b91a3bd223b86e3bd163bc023bd0a3bb323bd003ba883bcf43b9c43bce83b9183bcdc3bc003bcd03bb303bcc63ba603bcba3b9b63bcae3b9063bca43b8743bc983b81a3bc8c3b7983bc803b73a3bc743b6c03bc683b6903bc5c3b6263bc503b6003bc443b5b83bc3a3bbda3bb7c3bb1e3ba963ba643ba003b9ba3b9283b904))
  (.nd (.lf
  0x1d6fc1d6fe1d5881f6ba1f6be1f6c21f6c61f6ca1f6ce1f6d21f6d61f6da1f6de1f6e01f6e41f6e81f6ec1f6f01f6f41f6f81f6fc1f7001f7041f7081f70c1f7101f7141f7181f71c1f71e1f7221f7261f72a1f72e1f732204e6204e820646206482064a2064c20586205882058a204ea204ec204ee204f02064e2065020654206562058c2058e20592204f2204f62065a2065e206602066420594205982059a)
  (.lf
  0x399cd399c9399c7399c5399d3399c3399bf399bd399bb399b7399a9399a7399a5399a13999f3999d3999b399973999539993399913998d3998b39989397943978a3978c397963976e397663977439880397483973e397343972a39720397163979839702396f8396ee39704396dc396d4396cc396c0396b4396b03969e39694395d4395c0395a63958c39795397933978f3978b397893978d397873978339781)))
  (.nd (.nd (.lf
  0xba620b9b00a6df0a6db09bfd0900308fe708fd008f8c08ecc0ba5c0b9b20a6cb0a6c709bff0900708fe908fd208f8e08ece0ba540b9b40a6b70a6b309c010900b08feb08fd408f9008ed00ba480b7260a6a30a69f09c030900f08fed08fd608f9208ed20ba420b7080a5cf0a5cb09c050901308fd808faf08f9408ed40ba380b6ea0a5bb0a5b709c070901708fda08fb108f9608ed60ba2e0b6ca0a5a90a5a5)
  (.lf
  0x31e8731e7531ddd31dd931dd331dd131dc931dc731dbf31d4931d4531d4131d2531d2331d1131cf931cf531cf331cef31b2b3151e315203150c31504314f6314ec314e2314fc314d0314ca314cc314ba314a63149e31524314ac314843148231522312f2312ea312de312f6312b23125c31218311b6311ba310ce3105e310143151f315213151d315193151731515315113150f3150d3150b315073150531503))
  (.nd (.lf
  0x26e6226e5326dfc26dec26dbf26de426db526dc726d4626d3726d2026d0f26d0426cef26cb226cb726c9426c9726c7e26c6d26c5226c5726bd426bc326b8a26b7926b6026b6326b4426b4726b0026af726ad626acd26a9a26a9126a3e26a3826a1726a2e26a0f26a212698c26999269102690f282172878e281ff28788281f92873c281f328734281f528708281c9286a6281d32869e281b728668281ad28648)
  (.lf 0)))

def shaXorReads249 : BTree :=
  .nd (.nd (.nd (.lf
  0x283b82839c2c38c2c1312a48b296d528401283c5283ba283b42c3842c12f2a47b296c328405283c7283bc283842c3722c12d2a46d296ad28409283c9283be283862c36a2c12b2a41b296af2840d283cb283c02835c2c35a2c11d2a3f329673283c2283452830f2830c2c34c2c11b2a3cb29675283c42831d28311282f42c3462c1192a3ad29633283c62831f28313282fc2c33e2c1172a38729601283c828321)
  (.lf
  0x1851018506184fc183b61837618336182f6182b6182721822c181ea181aa1816a18126180e01809a180581801817fd817f9417f4e17f0c17ecc17e8817e4217e00184f417d7a1852f1852d185291852718525185231851f1851d1851b185191851518513185111850f1850b18509185071850518501184ff184fd184fb184f7183b71837f1837d18379183771833f1833d1833918337182ff182fd182f9182f7))
  (.nd (.lf
  0x13fbd13fa813f8e2262522603225ec1a36c19bdf1528d1526d1526813f7013f6d13f5813f402262922605225ee1a32e19be3152911526f1526a13f2213f1f13f0a13ef02262d22607225f01a2f019be715295152711526c13ed213ecf13eba13e9e2263122609225f21a2b219beb15299152731526e13e8013e7d13e6813e50226352260b225f41a27419bef1529d152751527013e3213e2f13e1a13e0022639)
  (.lf
  0x172aa1727417238171fa171be17182171461710e170d81709e170661702c16ff216fba16f8416f4a16f1216ed816ea016e6616e2616de616daa1746f1746d17469174671743d1743b17437174351740517403173ff173fd173c9173c7173c3173c11738b173891738517383173511734f1734b1734917319173171731317311172e1172df172db172d9172ab172a9172a5172a317275172731726f1726d17239)))
  (.nd (.nd (.lf
  0x2130921305212e52123d2122d2121721215211f3211d32105b210572104920f0320ef120eef20e6520e6120e53217192170521718216f6216e121643216e0215402142e2142621409213cf21408213592134b21358213492133b213482133921327213382131021308212e12127f212e02123c21214210d5210d1210d42106d2105d2106c2105a2103521031210342101b210012101a20fff20fb520ffe20f25)
  (.lf
  0x163311632f1632b1631d1630f1630d16309162fb162ed162eb162e7162d9162cb162c9162c5162bb162ad162ab162a71629f162911628f1628b1627f162711626f1626b1625d1624f1624d162491623f162311622f1622b1622316215162131620f16207161f9161f7161f3161e7161d9161d7161d3161c9161bb161b9161b5161ad1619f1619d161991619116183161811617d1617116163161611615d1614f))
  (.nd (.lf
  0xc6840c54e0c4ab0c4660c6780c5400c4d30c4600c66e0c5360c4cb0c46a0c6600c52e0c4cd0c4760c65a0c5220c4d10c47e0c64c0c51a0c4cf0c4820c6440c5100c4c10c48a0c63e0c5080c4af0c4800c6320c4fa0c4b10c47a0c6280c4f00c4b30c4a20c61a0c4e80c4930c4900c6140c4dc0c4c20c4950c60a0c4d40c4ac0c4970c5fe0c5f40c4b60c0d30c5f80c5ea0c49a0c0b70c5ec0c0a31040c1040b)
  (.lf 0)))

def shaXorReads250 : BTree :=
  .nd (.nd (.nd (.lf
  0x359853595438a5c388c537b673670135a3335a3135a2e35a2c38a543895d37b31366b535a4a3591f359193591638901388cc37b273671935980359213591b359063895b3887c37b0d3664f35982359233591d358f6388713886237ad73660d359ed35984358e7358e03885a387d937abf365e135a30359f1358d1358ce388653885037ab5365cf359f335918358bd3589a38846387d737ac93657b35a1b3591a)
  (.lf
  0x34f8534f9134f8334f7f34f3934f4734f3734f3334b1f34b1d34b1934b0f34ac1359d8359c6359b635a0c3597435a3e35966359483593c35a243591035900358ee358da358c83589435884358a035868358aa358b43584a358383582235816350bc350203500a34f8834f3c35802359d9359d7359d3359d1359c7359c5359c1359bf359b735a0d359b5359b1359af359ad359a9359a73597535a3f359733596f))
  (.nd (.lf
  0x38b6e38b432fc922fa6d2aa8f2aa072a9fe2a03429dca393d83926138bc538b7038b472fc8c2fa712aa932aa0b2aa0229ff229ebc393cc3926538bc938b7238b492fc822fa752aa972aa0f2aa0629fe229dcc393c43926938bcd38b7438b4b2fc782fa792aa9b2aa132aa0a29fda29eba393b23926d38bd138b7638b4d2fc6e2fa7d2aa9f2aa172aa0e29fd029dce393763927138bd538b7838b4f2fc622fa81)
  (.lf
  0x289a5289a12899f289912898f2898b289892898327dfe27df427dea27de027dd627dcc27dc227db827dae27da427d9a27d9027d8627d7c27d7227d6827d5e27d5427d4a27d4027d3627d2c27d2227d1827d0e27d0427cfa27cf027ce627cdc27cd227dff27dfd27df927df727df527df327def27ded27deb27de927de527de327de127ddf27ddb27dd927dd727dd527dd127dcf27dcd27dcb27dc727dc527dc3)))
  (.nd (.nd (.lf
  0x1a74e1a7441a73a1a7301a7201a6e81a6de1a6d41a6ca1a6c01a6b61a6ae1a42619d2619cda1b7e01b7d61b7cc1b7c21b7561b7221b71a1b7101b7061b6fc1b6e01b6ca1b68e1b6841b67a1b6701b6661b6521b6121b6081b5fe1b5f41b5ea1b5e01b3e41b3d21ad7a1ad341acf21acb01b5c81b5ae1b5a41b57c1b5721b5681b55e1b5541b5441b51a1b5121b5081b4fe1b4f41b4e41b4b41b4ac1b4a21b498)
  (.lf
  0x235ff235fd235f9235eb235e9235e7235e3235e1235d1235cf235cb235c9235bd235bb235b7235b52359f2359d235992357d23575235732356f2356d2354d2354b2354723519235112350f2350b234bd234b5234c1234b3234af23337237b1237a7237a12379d237832377f2377b2378f2376d23763237672375923755236c9236c3236bf2369f2369923695236632365d2365b2364b2364723643236332362f))
  (.nd (.lf
  0x220a2222b822080222ae22004222a621f942229c21f742229421f182228a21ee62227e21e962227621db0222682220a2225c2211c2224e220a622248220c62223e21ff62223421fb22222821fb4222202202a2221821ee2222722220e2212422120220ce220aa2208a220862202221ffa2201621f9a2200e21f7a21f2221f1e21ecc21ec821e9a231ce23ca0231d223c9a231d623c8e2326423c7c231da23c76)
  (.lf 0)))

def shaXorReads251 : BTree :=
  .nd (.nd (.nd (.lf
  0x1aa4f1a9cd1a9c21a7181ef101eb171c0211b46f1aa531a9cf1a9c41a69c1ef061eef91bfcf1b40d1aa571a9d11a9c61a69e1eefe1eef31bf871b3f31aa5b1a9d31a9c81a6a01eeea1eaaf1bf3f1b3cd1aa5f1a9d51a9ca1a6a21eee71bef31b3cf1aa631a9d71a9cc1a6a41e03d1d7fd1c82b1ba1f1b9911b9861b5d01e15e1e03b1d7c91c80d1ba231b9931b9881b5ba1e1521e0391d7131c7d31ba271b995)
  (.lf
  0x40cd540cd140ccf40ccd40cc940cc740cc540cc340cbf40cbd40cbb40cb940cb540cb140caf40cad40ca940ca740ca540ca340c9940c9540c9340c9740c9140c8d40c8b40c8940c8540c8340c8140d2d40c7f40c7b40c7940c7140c6f40c6b40c6940c6740c6340c5b40c4d40c4b40c4740bab40ba740be940ba540ba140b9f40bed40b9d40b9940b9740b9540b9140b8d40b8b40bad40b8940b8540b8340b81))
  (.nd (.lf
  0x1a1161a1041a0de1a0cc1a0a61a0941a06c1a05a1a0321a02019ff619fe419fb819fa619f7c19f6a19f3e19f2c19f0019eee19ec419eb219e8819e7619e4a19e3819e0819df619dc419db219d8219d7019d3c19d2a19cf019cde19c9e19c801b36c1b35c1b3381b3261b2fe1b2d41b2c81b2a21b2901b2761b2561b2321b21a1b2081b1e21b1ca1b1a81b1861b16a1b14a1b12c1b10e1b0f21b0e01b0ba1b0a8)
  (.lf 0))) (.nd (.nd (.lf
  0x33db633dac33da033d9833d3c33d34339be339ae339a43399c33990339623395632f2c32f2232f1832f0e32f0432efa32eec32ee232eda32ed232ec832e0c32e0232df832dee32de432dda32dd032dc632dbc32db232da832d4032d3632d2c32d2232d1832c4232c1a32bf634e8034e6a34cc234cb434caa34ca034c9234c8634c7a34c7034c6834c5834c4e34c4234bf634bea34be034bd834bcc34bc034bb6)
  (.lf
  0x57db057d5057d10579905797057930579105751057550574f0574b05713057110570d0570b056cb056cf056c9056c50568d0568b05687056850564505649056430563f056050560905603055ff055cd055cb055c7055c5055910558f0558b055890556508e9e08e6608e2208de008da008d5c08d1a08cda08c9a08c5a08c1608bd008b8e08b4e08b0e08aca08a8408a4208a02089c2089820893e088fc088b8))
  (.nd (.lf
  0x3f0a43f0823f09e3f0743f0663f0643f0523efee3f0463eff23f03e3efe03f0343efca3f0283efc03f01e3efcc3f0123efb23f0063ef9c3effc3eff63ef7e3ef443ef703ef363ef683ef2c3ef5c3ef223ef503ef463ef483ef083eef03eee63eee03eed43eec43eebe3ee863edea3ee7a3ede83f0c03ee723edf63ed6c3edf03edee3ed723ed703eaa43ea723e9f03e9ee3e9c43fe0a3fe463fe003fe403fdf2)
  (.lf 0)))

def shaXorReads252 : BTree :=
  .nd (.nd (.nd (.lf
  0x354c7354ae3535a353543bf943bf58378053780135ff5356f3356bd354823526c352663bf7c3bc2e377f3377ef35fdb3570f356673546a35278352723bc123bb8a377e7377e335f67356c53561135440350c8350c23bb403baf43789d3789935f1f3566d355db3542834fe634fe03bac23ba1a373f1373ed35edb35619355b13541234ffa34ff43b9d83b95c373dd373d935e93355e33558b354e834f9834f92)
  (.lf
  0x4146b414694146541463414614145f4145b4145941457414d741455414514135b4135941355413534114b41149411454114341141414a0414484143a4144a414244141c414104140441408413f4413ea413dc413e0413d0413c6413bc413ac40edc40df2406984069a4067e406744066a4065e4065c405f24055e4055a4051640504414a1414494144741443414414143f4143b41439414374144b4143541431))
  (.nd (.lf
  0x38d0838cf238d7c38d1338cfe38cea3911638d1538d1038ccc38d1238cad38c9e38c9c38d1438c8638c6538c6238cac38c7a38c6738c6038c7238c6938c6438c5a3905f38c6a38c6638c383906138c6838c30396763966d3966b39668398743965e39653396513964e398683967d3966a396423963f3985c39650396323962b39629398563968c396813967f3967c39848397f2396283960d3960b3983e3967e)
  (.lf
  0x328733286f328513284932847328433281b328193281732813327f3327f1327ef327eb327e9327c1326ac326a2326ae32694326883267c326723266c3266e326543264a3264432636326383262232618326103261a325fa325f2325e6325de325d0325c6325d231c0231c0431bf031c0631bde31bd2326ad326ab326a7326a5326a3326af326a13269d3269b326993269532693326913268f3268b3268932687)))
  (.nd (.nd (.lf
  0x277862778a2778e27792277962779a2779e277a2277a6277aa277ae277b2277b6277ba277be277c2277c6277ca277ce289082890c2891028914289182891c2892028924289282892c2893028934289382893c2894028944289482894c2895028954289582895c2896028964289682896c28970289742897829a9e29aa229aa629aaa29aae29ab229ab629aba29abe29ac229ac629aca29ace29ad229ad629ada)
  (.lf
  0x2a51d2a51b2a5172a5152a5132a5872a5112a50d2a43b2a4392a4352a4332a4092b1622b15c2b1662b1442b1382b12a2b1202b1122b1062b0fe2b0da2b0ce2b0c42b0b62b0ae2b09e2b0962b0862b07e2b06e2b0662b0562b04e2b03e2b0362b0262b01a2b0122b16c2afcc2af682b1632b1612b15d2b1592b1572b1672b1552b1512b14f2b14d2b1492b1452b1432b1412b13d2b1392b1372b1352b1312b12f))
  (.nd (.lf
  0x23d7523ee823d7923ede23d7d23ed623d0d23ecc23ced23ec023cc323eb623cc723eae23df523ea223df923e9a23db923e9023d8123e8823d8523e7c23d8923e7023d8d23e6623d1123e5e23cf123e5423dfd23e4c23e0123e4023dbd23e3423d9123e2a23d9523e2223e0323e1823e0523e1023d1523cf523cce23ccd24d0b24e7824d4f24e6c24d3124e6424d2f24e5824d4d24e5024ced24e4224d4b24e3c)
  (.lf 0)))

def shaXorReads253 : BTree :=
  .nd (.nd (.nd (.lf
  0x1893a189321c6d01c69a1a5911a52d196d3188931888918886188841887e1c68a1c67c1a5931a52f196c1188671885d1885a18858188521c63e1c60c1a5951a531196af1883b188311882e1882c188261c5f41c5da1a5971a5331969d1880f188051880218800187fa1c5dc1c5901a5991a5351968b187e9187e3187e0187de187d81c57e1c5561a59b1a53719679187c9187c7187c4187c2187bc1c5601c51e)
  (.lf
  0xa72a0a7160a7000a6ec0a6d80a6c40a6b00a69c0a5c80a5b40a5a20a5900a57e0a56c0a55a0a5480a5360a5240a5120a5000a8df0a8dd0a8d90a8b30a8b10a8af0a8ab0a8870a8850a8830a87f0a85b0a8590a8570a8530a82f0a82d0a82b0a8270a8030a8010a7ff0a7fb0a7d70a7d50a7d30a7cf0a7ab0a7a90a7a70a7a30a77f0a77d0a77b0a7770a75d0a75b0a7590a7550a7410a73f0a73d0a7390a72b))
  (.nd (.lf
  0x2d0b12d5ba2d0bd2d2c82d09f2d2be2d08f2d2b42d07f2d2a42d0792d29e2d0652d2922d0812d2842d15f2d26c2d0472d2542d1632d24e2d1612d2262d03b2d21e2d02f2d1f62d0152d15c2d0032d1502cff12cfcb2e7ff2e7bf2e7bc2e7882e7792e73d2e7342e6f72e6f22e6b02e6af2e6802e66d2e6352e62c2e60a2e5ef2e5b32e5b02e58e2e5732e54a2e5352e5182e4fb2e4ca2e4c92e4862e2292e448)
  (.lf
  0x34760343c03406033ce033940335e03326032ec032b20327c032440320e031da031a20316c037eb037e9037e5037e3037b9037b7037b3037b10377f0377d037790377703749037470374303741037110370f0370b03709036db036d9036d5036d3036a7036a5036a10369f0366f0366d036690366703635036330362f0362d035ff035fd035f9035f7035c7035c5035c1035bf0358d0358b035870358503557)))
  (.nd (.nd (.lf
  0xb7fb0b7df0b7db0b7d90b7bd0b7b90b7b70b6d10b6cd0b6c90b6ad0b6a90b6a50b66b0b6670b6650b62d0b6290b6270b5d30b5cf0b5cd0b9470b9410b9460b9290b9230b9280b90a0b8e60b8c30b8bd0b8c20b8a40b8820b8600b83e0b81d0b8190b81c0b8000b7de0b7bc0b79b0b7970b79a0b77f0b77b0b77e0b7630b75f0b7620b7470b7430b7460b72b0b7250b72a0b70d0b7070b70c0b6ef0b6e90b6ee)
  (.lf
  0xc9470c9430c9410c93f0c93d0c9390c9370c9350c9330c92f0c92d0c92b0c9290c9250c9230c9210c91f0c91b0c9190c9170c9150c9110c90f0c90d0c90b0c9070c9050c9030c9010c8fd0c8fb0c8f90c8f70c8f30c8f10c8ef0c8ed0c8e90c8e70c8e510ea410e8610e6410e4610e2610e0410de210dc010d9e10d8010d6010d3e10d1c10cfa10cd810cba10c9e10c7e10c6010c4410c2810c0810be610bc4))
  (.nd (.lf
  0x41234404a340eec404d340e6c4049540e644048140e5c4047340e424046b40e3c4045d40e324044f40e2a4045340e24403e140e1a403e340dd4404d740dca403cb40dc4403b540da540da0404244039d4041c4038f40414403834040640377403fc40393403f24034d403e74035c40353403344032b4031840312402ff40307402e8402e1401ae401ad417c741a22417c941a1a417b341a12417a341a084179d)
  (.lf 0)))

def shaXorReads254 : BTree :=
  .nd (.nd (.nd (.lf
  0x287172871326fc325fc125fb925fb625fb425fae2a4142a3f8286b5286b126f5325fa725f9f25f9c25f9a25f942a3e82a3d4286bf286bb26f1925f8125f7925f7625f7425f6e2a3c42a3b22869b2869726ee125f0525efb25ef825ef625ef02a3a62a3902866f2866b26e8b25e4725e3d25e3a25e3825e322a3802a3742864f2864b26e5d25d8d25d8725d8425d8225d7c2a35c2a348286372863326df525dab)
  (.lf
  0x257ed257eb257e7257e525797270b627084270222701226fb426f4a26f0a26ed826e8226e5426dea26dda26dc826d3826d1026cf426cb826c9826c6e26c5826bc426b7a26b6426b4826af826ace26a9226a3426a2a26a222699a270b727085270812707d27033270312702527023270212701f270132700f26fcb26fc926fc526fb526f5926f5726f4b26f4526f2126f1f26f1b26f0b26ee726ee526ed926ed5))
  (.nd (.lf
  0x207c1207bc1efea1eed41ed941ed912f4a62f2992e1052e0d52e0be207f1207c3207be1efd61eed81ed721ed6f2f49c2f29d2e1092e0d72e0c0207f5207c5207c01efcc1eed61ed501ed4d2f4902f2a12e10d2e0d92e0c2207f9207c7207c21efc01eed01ed2e1ed2b2f4882f2a52e1112e0db2e0c4207fd207c4207751efb21eec81ed0c1ed092f4802f2a92e1152e0c62e09720801207c6207791efac1eeca)
  (.lf
  0x2094e209442093a20930209262091c2091220908208fe208f4208ea208e0208d6208cc208c2208b8208ae208a42089a20890208862087c20872208682085e208542084a20840208362082c208222094f2094d209492094720945209432093f2093d2093b209392093520933209312092f2092b209292092720925209212091f2091d2091b209172091520913209112090d2090b20909209072090320901208ff)))
  (.nd (.nd (.lf
  0x3551a35511355093551035506354f9354f1354f8354ef354eb354ee354d3354b7354d2354983548a354703544f354333544e353ff353f7353fe353f5353ef353f4353ed353e9353ec353893538535388353833537f353823537c35370353693534f353683525135249352503523c350af350ab350ae34fe834fc834f8d34f7d34f8c34f5334f2f34f5234f2c349e2349da349cc349c2349b8349ae349a434998)
  (.lf
  0x1caf31caf11caed1caeb1cae91cae71cae31cae11cadf1cadd1cad91cad71cad51cb271cad31cacf1cacd1cacb1cac71cac31cac11cac51cabf1cabb1cab91cab71cab31cab11caaf1caad1caa91caa71caa51caa31ca9f1ca9d1ca9b1ca991ca951ca931ca911ca8f1ca8b1ca891ca871ca851ca811ca7f1ca7d1ca7b1ca771ca751ca731ca711ca6d1ca6b1ca691ca671ca631ca611ca5f1ca5d1ca591ca57))
  (.nd (.lf
  0x30dd230d8530d7c30d7830dcc30d6230d6130d5830d4430d3c30d3930d3030d2430d1930d0830d0430cf630ced30cdc30cd830c9230b6430b6330b5a30c8030b2630b2530b1c30b4030b0830b0530afe30af130aee30ae230ad630a8030a7430a7130a6830a3630a2730a1a30a12309e4309e2309c9309c6309b0309783096b309683099930972309623096030752307513224b3224832400322573224e3224c)
  (.lf 0)))

def shaXorReads255 : BTree :=
  .nd (.nd (.nd (.lf
  0x9ed109eba09579095700b4870a68309f4f09f0809ed309ebc095320952f0b4890a68509f5309f0a09ed509ebe094ec094e90b48b0a68709f5709f0c09ed709ec0094a6094a30b48d0a68909f5b09ed909ece09ec2094670945e0b48f0a68b09f5f09edb09ed009ec4094270941e0b4910a68d09f6309edd09ed209ec6093e7093de0b4930a68f09f6709edf09ed409ec8093a70939e0b4950a69109f6b09ee1)
  (.lf
  0x38aad38aab38aa738aa538aa138aa338a9f38a9b38a9938ab938a9738a9338a9138a8f38a8b38a8938a8738a8538a8138a7f38a7d38a7b38a7938a7538a7338a7138a6938a6738a6538a6b38a6338a5f38a5d38a6d38a5b38a5738a5538a5338a4f38903388cd38abb388cb388913887d3887b388773887538863388613885d3885b38859388673885738853388513884f388493884738845388433883f3883d))
  (.nd (.lf
  0x38b9e38e1a38ba238e0a38ba638e0438baa38df838bae38ddc38bb238dcc38bb638dc038bba38db238bbe38d9038bc238d4c38bc638d3e38bca38d1e38bce38cdc38bd238cca38bd638cb438bda38c2638bde38c1638be238c1038be638c0038bea38bf438bee38c2c391e239496391e63948c391ea3948439228394703922c3946a392303945a392343945239238394443923c3942e39240394263924439420)
  (.lf 0))) (.nd (.nd (.lf
  0x2219c221a0221a4232ae232b2232b6232ba232be232c2232c6232ca232ce232d2232d6232da232de232e2232e6232ea232ee232f2232f6232fa232fe23302233062330a2330e2331223316233182331c2331e233222332424094240982409c240a0240a4240a8240ac240ae240b2240b6240ba240be24114240c2240c6240ca240ce24116240d2240d6240da240de240e2240e6240ea240ee240f2240f6240fa)
  (.lf
  0x2d6b02d6902d6502d6302d6102d5f02d5b02d5902d5702d5502d5102d4f02d4d02d4b02d4702d4502d4302d4102d3d02d3b02d390445804420043dc04396043500430e042ce0428a0424804204041c20417e0413c040f8040b2040700402c03fe603fa403f6403f2403ee403ea003e5e03e1e03dda03d9803d5403d0e03ccc03c8804459044570445304451044210441f0441b04419043dd043db043d7043d5))
  (.nd (.lf
  0x3c3cb3d2493d52a3d1f73d5183d1e33d50e3d27d3d5003d1b13d4f63d1733d4e63d2513d4de3d2093d4ca3d1e53d4b83d3353d3f83d1b73d3ec3d25b3d3da3d2053d3d43d1df3d3c83d2773d3bc3d1bd3d3b03d15d3d3a43d11f3d3983d1033d38c3d0e73d3803d0b93d36e3d0bd3d3563d0d33d3503d0813d2ce3d0693d2a03d2573d2923d2073d28c3d1e73d2813d1ba3d21d3d1963d1673d1243d1213df9b)
  (.lf 0)))

def shaXorReads256 : BTree :=
  .nd (.nd (.nd (.lf
  0x1ec281ea6d15570152ab0f36b0f3100f2e70cd670ccdf0ccd6095fa095be1ec041ea7115534152af0f36f0f3120f2e90cd6b0cce30ccda095b4095761ebe01ea75154fc152b30f3730f3140f2eb0cce70ccde09578095381ebbc1ea79154c6152b70f3770f3160f2ed0cceb0cce20952e094f21eb981ea7d1548c152bb0f37b0f3180f2ef0cced0cce6094e8094ac1eb741ea8115450152bf0f37f0f2f10f2d4)
  (.lf
  0x369e23699b369dc3699f3690f3688c3688937c6d37d8a37c6f37d8237c7737d7a37be537d6a37bc737d6237c2737d9737d5a37d5437c1b37d4a37c8137d4037bed37d3237bd337d2c37c6737d2237c1537d1437c8537d0837bf137d0237bd737cf837c3f37cea37b9b37ce237b9f37cd837b6137cd037b7137cc437b3f37cba37b4337cb037b1737caa37adf37c9c37c6b37c9637c1937c8937c5037c4837bf5))
  (.nd (.lf
  0x1ba2e1ba321ba361c9781c97c1c9801c9841c9881c98c1c9901c9941c9981c99c1c9a01c9a41c9a81c9ac1c9b01c9b41c9b81c9bc1c9c01c9c41c9c81c9cc1c9d01c9d41c9d81c9dc1c9e01c9e41c9e81c9ec1c9f01c9f41d8c01d8c41d8c81d8cc1d8d01d8d41d8d81d8dc1d8e01d8e41d8e81d8ec1d8f01d8f41d8f81d8fc1d9001d9041d9081d90c1d9101d9141d9181d91c1d9201d9241d9281d92c1d930)
  (.lf
  0x2ff502ff302ff102fed02feb02fe9037ef037e1037dd037bd037ad037a9037830373f0373b037150369d0369903673036630365f03639035f5035f1035cb035bb035b7035910354d0354903523034df034db034b5034a5034a10347b0346b0346703441033fd033f9033d3033c3033bf0339903355033510332b0331b03317032f1032e1032dd032b7032730326f03249031d1031cd031a702e6402e5a02e50)))
  (.nd (.nd (.lf
  0x92fb09271092660925a086fe086fb0a65309ecd092ff09273092680925c086d50b4590a65509f7309ee509eda09e8e09b1b0b45b0a65709f7709ee709edc09e9009af009aed0b45d0a65909f7b09ee909ede09e9209ab509aac0b45f0a65b09f7f09eeb09ee009e9409a6e09a6b0b4610a65d09f8309eed09ee209e9609a2f09a260b4630a65f09f8709eef09ee409e98099e8099e50b4650a66109f8b09ef1)
  (.lf
  0x3aefb3aef93aef53aef1379413bd583bd4e3bd423bd363bd2a3bd1e3bd123bd083bcfc3bcf03bce43bcd83bcce3bcc23bcb63bcac3bca03bc943bc883bc7c3bc703bc643bc583bc4c3bc403bc063bb363ba8c3b9c83b91c3b8823bd593bd573bd533bd513bd4f3bd4d3bd493bd473bd433bd413bd3d3bd3b3bd373bd353bd313bd2f3bd2b3bd293bd253bd233bd1f3bd1d3bd193bd173bd133bd113bd0d3bd0b))
  (.nd (.lf
  0x36d7a36fb036d7e36fa436d8236f9436d8636f8836d8a36f7a36d8e36f7236d9236f6836d9636f5e36d9a36f4e36d9e36f4436da236f3e36da636f2c36daa36f2636dae36f0c36db236f0636db636ed636dba36ed036dbe36ea236dc236e9c36dc636e6e36dca36e6836dce36e2836dd236e2036dd636ddc37d9c3829c37da03828a37da43827a37de23824c37de63816837dea3816037dee3815637df238148)
  (.lf 0)))

def shaXorReads257 : BTree :=
  .nd (.nd (.nd (.lf
  0x24a3624a2a2956e28fd226c9f26c9b25be924c9824c7324a4b24a4824a422956428fae26c7526c7125bd524c9b24c7024a0924a02249f62955a28f8c26c6326c5f25b1324c7524c3024a0724a04249f82955428f8026bcb26bc725a9b24c3324c1a249e3249e0249da2954a2953e26b8126b7d25a5124d1324c1d24b1c249cc249c029536294ca26b6d26b6925a1124d1524b2124af0249ce249c22950228f56)
  (.lf
  0x25aa525aa325a9f25a9325a5925a5725a5325a4925a1925a1725a1325a09259e1259df259db259d1259ab259a9259a52599b25973259712596d25963258fb258f9258f5258df258b9258b1258ad258a32587d2587b258772586d25843258412583d2583325801257ff257fb257f1257a5260f2260c8260c025f5825f4e25f4425f3c25eb625e5e25dce25db025d1625cfe25c8c25c3c25baa25b7825b5625b28))
  (.nd (.lf
  0x2e1332cfb72cf542cf2b23900238a11dcdb1dcd41cf1c1ccb42e1aa2e1372cfbb2cf2d2cf10238f6238a51dcdd1dcd81cf101cc982e1a42e13b2cfbf2cf2f2cf14238ec238a91dcdf1dcda1cc7a1cc782e1942e13f2cfc32cf312cf18238e2238ad1dce11dcdc1cc581cc562e18e2e1432cfc72cf332cf1c238d8238b11dce31dcde1cc361cc342e1802e1472cf352cf1e238ce238b51dce51dce01cc141cc12)
  (.lf
  0xfc7d0fc790fc770fc230fc210fc1d0fc1b0fbc70fbc50fbc10fbbf0fb690fb670fb630fb610fb070fb050fb010faff0faa70faa50faa10fa9f0fa490fa470fa430fa410f9ef0f9ed0f9e90f9e70f9930f9910f98d0f98b0f9310f92f0f92b0f9290f8e31e0061dff21dfdc1dfc61dfb01df9a1df841df6e1df581df421df2c1df161df001dee81ded21debc1dea61de901de7a1de621de4a1de321de1c1de06)))
  (.nd (.nd (.lf
  0x33d2933cfd33d2833cec33bab33b7f33baa33b7c33b4a33b1b33af133b1a33a7e33a2033840338363382c33822338183380e33804337fa337f0337e6337dc337d2337c8337be337b4337aa337a0337963378c33782337783376e337643375833730337263371c3371233708333a43498834980349763496834960349563494e349443493a34930349243491c349123490a34900348f6348ec348e4348da348d0)
  (.lf
  0x1b90a1b9021b8f81b8ec1b8e21b8ee1b8ce1b8c21b8b81b8ae1b8a41b89e1b8a01b8861b87c1b8d41b86a1b8601b8561b84c1b9791b9771b9731b9711b96f1b96d1b9691b9671b9651b9631b95f1b95d1b95b1b9591b9551b9531b9511b94f1b94d1b9491b9471b9451b9411b93f1b93d1b93b1b9371b9351b9331b9311b92d1b92b1b9291b9271b9231b9211b91d1b91f1b91b1b9171b9151b9131b90f1b90d))
  (.nd (.lf
  0x2e2362e235302a0301673027c3013d301363012e300522fff22fec82fec7300462ff822feb62feb5300402ff9a2fea62fea5300322ffd42fe942fe93300282ffb42fe862fdf3300122ff602fe602fdeb2fef82fe582fe1e2fde32ff122fe502fe182fdd92ff482fe482fe102fdcd2ff362fe402fe022fdc92fe3a2fe2c2fe292fdfc2fbf62f9ce2f9cc2f9cb2fbe22fab22f9b92f9a62fbce2fab42f9b52f998)
  (.lf 0)))

def shaXorReads258 : BTree :=
  .nd (.nd (.nd (.lf
  0x36a85356713566935666356643565e3c2fc3c2f4379973799336a5f3561d35613356103560e356083c2d63c2c83797b37977368e3355e5355dd355da355d8355d23c39a3c2b03795d3795936831355bb355b3355b0355ae355a83c2a63c14037a2537a213680f355973558d3558a35588355823c2703c1303792f3792b367dd355653555d3555a35558355523c2683c126379133790f36731355433553d3553a)
  (.lf
  0x3f4b13f4af3f4ab3f4a93f4a73f4c13f4a53f4a13f49f3f49d3f49b3f4973f4953f4bd3f4933f48f3f48d3f48b3f4873f42b3f4293f4273f4213f41f3f41d3f4233f41b3f4173f4153f4133f40f3f30d3f30b3f3093f3053f3033f3013f2ff3f0fd3f0f93ee5140d313ee4f3ee4b3ee373ee5f3ee333ee2f3eda73edab3eda53ed8f3eae13eae33eadf3eadb3ead93ead73ead33eac93eac741f4041f3841f2a))
  (.nd (.lf
  0x3894f3882a387bb387b2387843a7663a729389533881c387d2387bf387b63a75a3a6f13895738816387c3387ba3875e3a7543a7373880a387d0387c7387be3a7443a6d538800387cb387c2387463a73b3a6be387f6387ce387cd387c63a6b43a699387f0387ca38729387263a6ae3a69d387e6387cc3872e3872b3a6a13a666387dc3872d387283871a3a6693a6603872a385ce385b7385983a6553a6343872c)
  (.lf
  0x32b3132b2d32b0d32b0b32b0932b0532ae532ae332ae132add32abd32abb32ab932ab532a9932a9732a9532a9132a8f32a5732a5532a5132a4f32a1532a1332a0f32a0d329d5329d3329cf329cd32999329973299332991329613295f3295b3290332901328ff328fb3278d3278b327893278532783327813277f3277b327793277732775327713276f3276d32d6c32d6232d5832d4a32cdc32cd632cd032cca)))
  (.nd (.nd (.lf
  0x209ea209ee209f2209f6209fa209fe20a0220a060f5780f57a0f57c0f57e0f5800f5820f5840f5860f5880f58a0f58c0f58e0f5900f5920f5940f5960f5980f59a0f59c0f59e0f5a00f5a20f5a40f5a60f5a80f5aa0f5ac0f5ae0f5b0226182261c2262022624226282262c2263022634226382263c2264022644226482264c2265022654226582265c2266022664226682266c2267022674226782267c22680)
  (.lf
  0x2941f2941d29419294172941529413294112940d2940b29409294052940329401293ff293fb293f9293f7293f5293f1293ef293ed293eb293e7293e5293e3293e12939b29399293712936f2936b2936929343293412933d2933b293392933729333293312932f2932d293292932729325293232931f2931d2931b293192931529313293112a62c2a62e2a61c2a6142a6082a5fe2a5f22a5ec2a5de2a5d62a5cc))
  (.nd (.lf
  0x2174d2183a21751218302166921826215232181c2147d218122147b21808213f1217fe213c7217f4213c5217ea213af217e021755217d621759217cc2175d217c221671217b821535217ae21479217a4214772179a213e52178e213c3217842176b2177a21769217652167a2166f2152e215312148a214842147521473213fe213e3213cc213c1213ba213bf221fd222e02210f222da22207222d022119222c6)
  (.lf 0)))

def shaXorReads259 : BTree :=
  .nd (.nd (.nd (.lf
  0x187351790b1786a177bb177b0177981b49e1af8c195e5195e11871f1794517943179401793e179361b4941b40e195ab195771870b1783f178321759917596175901b4881b3f8195ad19579186f7178431783417583175801757a1b4801b3fa195af1957b186e5178e517847178361756c175481b44a1b3fc195b11957d186d3178e71784b178381756e1754a1b4421b3f6195b31957f18601179941790f178e9)
  (.lf
  0x94e7094e5094e1094df094a10949f0949b094990945909457094530945109419094170941309411093d9093d7093d3093d1093990939709393093910935b0935909355093530933109b1409ada09aaa09a5409a24099ce0999e0994809918098d8098980985809802097bc0978c0974c0970c096b6096700962a095e40959e0956e09518094d20948c0945c0941c093dc0939c0934609b1509ae109add09adb))
  (.nd (.lf
  0x29cbf29cac29ca929c9629c9329c8029c7d29c6a29c6729c5429c5129c3e29c3b29c2829c2529c1229c0f29bfc29bf929be629be329bd029bcd29bba29bb729ba429ba129b8e29b8b29b7829b7529b6229b5f29b4c29b4929b3629b3329b2029b1d29b172af2d2af1c2af192af062af032aef02aeed2aeda2aed72aec42aec12aeae2aeab2ae982ae952ae822ae7f2ae6c2ae692ae562ae532ae402ae3d2ae2a)
  (.lf
  0x5be005b4005aa005a0005960058c00582005780056e005640055a00550005460053c00532005280051e005140050a00500004f6004ec004e2004d8004ce004c4004ba004b0004a60049c00492005bf005bd005b9005b7005b5005b3005af005ad005ab)))
  (.nd (.nd (.lf
  0xad920ad760ad540ad330ad2f0ad320ad160acf40acd20acb00ac8f0ac890ac8e0ac700ac4d0ac470ac4c0ac2e0ac0a0abe70abe10abe60abc90abc50abc80abad0aba90abac0ab900ab6e0ab4c0ab2a0ab080aae60aac40a9d20a9c80a9be0a9b40a9aa0a9a00a9960a98c0a9820a9780a96e0a9640a95a0a9500a9460a93c0a9320a9280a91e0a9140a90a0a9000a8d40a8a60a87a0a84e0a8220a7f60a7ca)
  (.lf
  0xfc0b0fc090fc050fbfd0fbb10fbaf0fbab0fb9f0fb510fb4f0fb4b0fb3d0faf10faef0faeb0fadd0fa8f0fa8d0fa890fa7f0fa330fa310fa2d0fa250f9d70f9d50f9d10f9c90f9750f9730f96f0f9670f90d0f90b0f9070f8ff0f8d310409103bd103b9103b71035b103571035510245102411023f1012d10129101271001710013100110ffb50ffb10ffaf0fef90fef50fef30fe990fe950fe930fddd0fdd9))
  (.nd (.lf
  0x3e5b73e5a63e5a93e5963e5913e4d03e4c43e4913e4b83e4893e4ae3e4753e4a23e4793e49c3e45b3e45d3e43e3e4413e42a3e4243e3e33e41a3e3d53e4103e3c73e4043e3c13e3f83e3af3e3e93e3803e3833e34c3e34f3e2543e2483e1693e2423e14d3e1943e1433e18c3e1333e1803e1293e1783e11d3e26f3e16e3e1563e1373e0fb3e0ec3e19b3e0223e0253def63def03dec73de973f0993f0b43f08f)
  (.lf 0)))

def shaXorReads260 : BTree :=
  .nd (.nd (.nd (.lf
  0x6990026a00199400783fff8007350069b00260001974006e3ffe2007390069d00256001954005e3ffd00073d0069f0024c00193400924004200741006a10024200191400383fd9400745006a3002380018f3fcce3fc8400749006a50022e0018d3fc863fc480074d006a7002240018b3fc403fc3000751006a90021a001893fc123fbb200755006ab00210001873fbac3fb8c00759006ad00206001853fb78)
  (.lf
  0x347c4347c23473c346ec34734347283472c3468c347043470234690359de35b7a359cc35b6c35a3435b6635a1235b583597a35b5235a4435b44359ee35b3e35a0a35b34359f435b2835a2a35b1e3598c35b1435a4e35b0a359f835b00359fc35af635a1e35aec35a3835ae435a5235ad63599035ace3599435ac23599835aba35a3c35ab23592635aa63592a35b8235a9e35a96358ea35a8635a0035a7e35a04))
  (.nd (.lf
  0x17850178541794c187c8187b01890e1891218916188be189401888a1885e1883218806187e4187ca189181891c18920188c2189441888e18862188361880a18924189281892c188c61894818892188661883a1880e187e81976c1977019774197781977c1978019784197881978c1979019794197981979c197a0197a4197a8197ac197b0197b4197b8197bc197c0197c4197c8197cc197d0197d4197d8197dc)
  (.lf
  0x39adb39ad739ab339aaf39aad39aa939a9b39a9939a9739a9339a9139a8f39a8d39a8939a8139a7539a7339a6739a5d39a5b39a5939a1b39a1739a1539a3739a1339a0f39a0d39a0b39a0739a0539a01399ff399f5399f3399f1399ef399eb399df399dd399db399d7399813997939977399733996f3996d3996b3996739965399613997d3995f3995b3995939957399533994f3994d3994b399473994339941)))
  (.nd (.nd (.lf
  0x838a0836108346082860ae7e0ae5e09bd709b5708fa7083d90838c0836308348082880ae760ae5c09bd909b5908fa9083dd0838e083650834a0828a0ae6c0ae6809bdb09b5b08fab083e108367083500834c0828c0ae5609bdd09b5d08fad083e508369083520834e0828e0b9740a8e50a8e109bdf0904708fc908fb208f6e08eae0baf60b9980a8b90a8b509be10904b08fcb08fb408f7008eb00bae80b962)
  (.lf
  0x318bb318b7318893188731885318813185b317d3317d1317af317ab3167b3167f316793167531635316333162f3162b31613320ec320e2320da31fa431f9c31f8e31f8431f7e31f7231f6431f5831edc31ed631e7031a7a31a4a31a4031a3a31a2831a223199c319923193e31922318f6319fe3188e3185e317ba3168a3163e320ed320eb320e7320e5320e3320e1320dd320db320d9320d731fab31fa931fa5))
  (.nd (.lf
  0x23c7523d1c23c6723cfa23c5b23cd823c0b23cd023bff23c2423bf523c1c23be723c1023c0f23bc223bc123bb123ba823b8023b7723b7823b3923b4423b3b23b6323b3e23b0723afa23ae323ae023ac623ac323ab023a6723a8423a5d23a7823a2723a7223a6f23a3a23a1323a3423a0f2351d234f2234ec234bb234d7233342333924bf124cf424be324cee24be524cb224bf324cac24bc524c5624bf924c8b)
  (.lf 0)))

def shaXorReads261 : BTree :=
  .nd (.nd (.nd (.lf
  0x273a12739327388273702b0e02af4b295f3282d9273a5273952738a273722b0d42af81295f5282db273a9273972738c273742b0c22af5d29619282dd2738e272a12729f2729c2b0bc2af3f295c12828b273ad27390272b1272ae2b0ac2af3b2964b28273273b127392272812727e2b0a42af452959f2827b273b527394272832726e2b0942af3d2959728263273b92739627285272642b08c2af832957728265)
  (.lf
  0x17601175ff175fb175f3175f1175ef175eb175cd175ad175c3174ff174fb174f9175e1174f5174f1174ef175d7174ed174e9174e7175b1174e5174e1174df174f7174dd174d9174d7175b9174d5174d1174cf174cd174c9174c3174c1188e2188de188f8188ae189301887c1885018824187f8187d6187ba187a4187901877c1876818754187401872c1871618702186ee186dc186ca185f8185e6185d4185c2))
  (.nd (.lf
  0x1909418cb30f59b0f5680f53f0dc910dc090dc000d9ba0d9b6227ac226571905418cb70f59d0f56a0f5410dc950dc0d0dc040d9980d994227962265b1901018cbb0f59f0f56c0f5430dc990dc110dc080d9760d972227802265f18fce18cbf0f5a10f56e0f5450dc9d0dc150dc0c0d9540d9502276a2266318f8e18cc30f5a30f5700f5470dca10dc190dc100d9320d92e227542266718f4a18cc70f5a50f572)
  (.lf
  0xe6790e6750e6730e6710e66f0e66b0e6690e6670e6650e6610e65f0e65d0e65b0e6570e6550e6530e6510e64d0e64b0e6490e6470e6430e6410e63f0e63d0e6390e6370e6350e6330e62f0e62d0e62b10418103dc1038410322102c61026a1020c101ae10154100f4100981003c0ffde0ff7c0ff200fec00fe600fe020fda40fd420fce60fc860fc2a0fbce0fb700fb0e0faae0fa500f9f60f99a0f93810419)))
  (.nd (.nd (.lf
  0x1fd381fd1c1fcf61fcd71fcd11fcd61fcb21fc8e1fc6a1fc4d1fc471fc4c1fc311fc2b1fc301fc0f1fc091fc0e1fbf31fbed1fbf21fbd61fbc31fba71fbc21fb8c1fb591fb3d1fb581fb241faef1fad11faee1fabb1fa9d1faba1fa8f1fa711fa8e1f9e91f9cb1f9e81f9b01f94c205ea205e2205d6205ce205522053c20526202e6202d6202c6202be202b2202aa2029a2028e202861ff261ff1a1ff121ff06)
  (.lf
  0x12cb212c9412c8012c5c12f9712f8912f8512f8312f7712f7512f7112f6f12f5d12f5b12f5712f5512f5312f5112f4d12f4b12f4912f4712f4312f4112f3f12f3d12f3912f3712f3512f3312f2f12f2d12f2b12f2912f2512f2312f2112f1f12f1b12f1912f1712f1512f1112f0f12f0d12f0b12f0712f0512f0312f0112efd12efb12ef912ef712ef312ef112eef12eed12ee912ee712ee512ee312edf12edd))
  (.nd (.lf
  0xaffc0afbc0ae690ae660afba0ae570b9750b9600bc200baf40b9990b9420bc180baec0b9630b9240bc0e0bae20b9b70b9040bbfe0bad60b9cf0b8e00bbf40bace0b9c50b8be0bbee0bac20b9f90b96e0bbe40bab60b9f10b9aa0bbd80baac0b9f30b9ae0bbd00baa40b9f70b97c0bbc40ba980b9f50b9ac0bbbc0ba900b9db0b97e0bbae0ba860b9c90b9720bba40ba7a0b9cb0b9660bb9c0ba700b9cd0b968)
  (.lf 0)))

def shaXorReads262 : BTree :=
  .nd (.nd (.nd (.lf
  0x3471f34414342cf342ca383c83810f3642b358a734681343e23425334250383b837ff73641d3586f34893343aa34223342043803a37fef3640f358b1347bd3437e341df341dc3802c37fdd363fd358bb346e7342e8341a13419e3802237fcd3638d3585134723342ce341973413a3801437fdf3675f35841346853425233d8533d763800c37fb3360533582d346fd3422233d2433d2337fc337fa0360353581d)
  (.lf
  0x341fb341ff341f9341f5341e5341e3341d7341d5341d3341d1341cd3419934195341933418f3413533d6f33d7133d6d33d6733d1933d1d33d1733cff33cd133ccd33ccb33cc733b8733b9f33b8533b8133b7533b7333b6933b5533b3733b3533b2533b2333aff33afd33afb33af333a7533a7733a7333a5533a2933a2733a0333a01339f5356e2356fc356b23565c35606355d0355a6355803555035530354bc))
  (.nd (.lf
  0x391e338b8138b6538b4e2fa012aa4f2aa352aa3029dbe39494391e738b8538b6738b502fd2c2fa052aa532aa372aa322a18429df63948e391eb38b8938b6938b522fd202fa092aa572aa392aa342a17829df83947a3922938b8d38b6b38b542fd162fa0d2aa5b2aa3b2aa362a15e29db6394723922d38b9138b6d38b562fd0c2fa112aa5f2aa3d2aa382a10629db8394683923138b9538b6f38b582fd042fa15)
  (.lf
  0x28a8b28a8728a8528a7728a7528a7128a6f28a6128a5f28a5b28a5928a4b28a4928a4528a4328a3528a3328a2f28a2d28a1f28a1d28a1928a1728a0928a0728a0328a01289f3289f1289ed289eb289dd289db289d7289d5289c7289c5289c1289bf289b1289af289ab289a92899b2899928995289932898528c1a28c0628bf028bda28bc428bae28b9828b8228b6c28b5628b4028b2a28b1428afe28ae828ad2)))
  (.nd (.nd (.lf
  0x176f8176ee176e4176da176d0176c6176be176961768c17682176781766e1765e17630176261761c1761217608175fe175ee174fe174f4174ec174e4174dc174d4174cc188e0188d6188ce188ac188a4188781884c18820187f4187d2187b6187a01878c1877818764187501873c187281871418700186ec186da186c8185f6185e4185d2185c0185ae1859c1858a1852c18522185181850e18504184fa1837c)
  (.lf
  0x20213202112020d2020b20209202072020320201201ff201fd201f9201f7201f5201f3201ef201ed201eb201e9201e5200f7200f5200f3200ef200ed200eb200e9200e5200e3200e1200df200db2004f2004d200d92004b2002f1feed1feeb1fee71fee51fee31fee11fedd1fedb1fed91fed71fed31fed11fecf1fecd1fec91fec71fec51fec31febf1febd1febb1feb91feb51feb31feb11feaf1feab1fea9))
  (.nd (.lf
  0x1f6c0205dc1f6c4205d21f6c8205a01f6cc2053e1f6d0205361f6d4203e61f6d8202de1f6dc202c81f80a202c21f6e2202ba1f6e6202ae1f6ea2029e1f6ee202961f6f2202881f6f6202821f6fa1ff221f6fe1ff161f7021ff0e1f7061fefc1f70a1f8441f70e1f8381f7121f8321f7161f8281f71a1f8201f73c1f8141f7201f80c1f7241f7521f7281f7461f72c1f73e1f7301f7382067a207682067820760)
  (.lf 0)))

def shaXorReads263 : BTree :=
  .nd (.nd (.nd (.lf
  0x1aa6f1a9dd1a9d21a84a1f02e1ee5d1c78b1b5971aa731a9df1a9d41a84c1f0241eefb1c7251b5991aa771a9e11a9d61a84e1f01a1eecf1c6fd1b59b1aa7b1a9e31a9d81a8501f00e1eec71c6911b59d1aa7f1a9e51a9da1a8581f0021eedb1c6731b59f1aa031a9e71a9dc1a7ea1eff41eed31c6031b54f1aa071a9e91a9de1a7ec1efe81eed51c5e51b5371aa0b1a9eb1a9e01a7ee1efde1eed91c5871b539)
  (.lf
  0x403e8403544032c4031a40308404d84147741475414714127741275412734126f4126d4126941267412634125f4125d4125b4123540ef740ef340ef140eed40ee940ee740ee540ee140e7340e6d40e6b40e6740e6540e6340e6140e5d40e5940e5740e5540e5140e4540e4340e4940e4140e3d40e3b40e4d40e3940e3540e3340ed740e3140e2d40e2b40e2940e2540e2340e2140e1f40e1b40df540ddb40e7b))
  (.nd (.lf
  0x17276172641723a17228171fc171ea171c0171ae1718417172171481713617110170fe170da170c8170a01708e17068170561702e1701c16ff416fe216fbc16faa16f8616f7416f4c16f3a16f1416f0216eda16ec816ea216e9016e6816e5616e2816e1616de816dd616dac16d94184de184ce184ae1849c18474184621843c1842a18402183f0183ca183b8183921838018352183401831218300182d2182c0)
  (.lf 0))) (.nd (.nd (.lf
  0x31ad031ac431ab831aac31a9c31a9231a8831a7431a6631a5c319ea319d2319b2319a23195a31950319483191631904318d4318c23185031846316083160030940309383092a30920309183090c30902308fa308f0308e8308de308d4308cc308c0308b8308ae308a4308983088e308843087c30872308683085c308523084a3084030832308283081e32cbe32cb432c9432c7e32c7632c6c32c6232c5832c4e)
  (.lf
  0x8c1108c0d08c0b08bcd08bcb08bc708bc508b8b08b8908b8508b8308b4b08b4908b4508b4308b0b08b0908b0508b0308ac708ac508ac108abf08a8108a7f08a7b08a7908a3f08a3d08a3908a37089ff089fd089f9089f7089bf089bd089b9089b70897f0897d08979089770893b089390893508933088f9088f7088f3088f1088b5088b3088af088ad0886f0886d08869088670882d0882b0882708825087e9))
  (.nd (.lf
  0x3b88c3b8843b7f83c81e3c9523c8123c9183c8083c9103c7fa3c9023c7ea3c8e23c7de3c8d43c8c63c8e03c8cc3c7c03c7be3c7a03c79c3c7aa3c78a3c7763c7523c7703c7583c7603c7543c75a3c7363c71a3c7143c7103c7063c6ea3c6e83c6b43c6963c6f63c6aa3c6a43c6803c69a3c6943c6603c6443c5c63c5c03c55a3c5503c5483c5383c53e3c5263c50e3c50a3c4d03c4cc3c4923c4683c3d43c3c8)
  (.lf 0)))

def shaXorReads264 : BTree :=
  .nd (.nd (.nd (.lf
  0xe8540e7f50e6150e5b20e58903e4603e060e84a0e7f90e6190e58b0e56e03dfc03dbe0e8400e7fd0e61d0e58d0e57203dc003d800e8360e8010e6210e58f0e57603d7603d3a0e82c0e8050e6250e5910e57a03d3003cf20e8220e8090e5930e57c03cf403cb40e8180e80d0e5950e57e03caa03c840e8130e5970e58003c820f62f0e9450e79f0e7830e76c050da0f7fe0f6330eb240e9490e7a30e7850e76e)
  (.lf
  0x14688146011466a146051464a146091462c1460d146131507f15224150831521a15087152101508b152061508f151fc15093151f215097151e81509b151de1509f151d4150a3151ca150a7151c0150ab151b6150af151ac150b3151a2150b715198150bb1518e150bf15184150c31517a150c715170150cb15166150cf1515c150d315152150d715148150db1513e150df15134150e31512a150e715120150eb))
  (.nd (.lf
  0x1a6961a6981a69a1b5ce1b5b61b5b81b58c1b58e1b5901b5921b5941b54c1b52c1b52e1b5301b5321b5341b4f01b4da1b4d21b4be1b4c01b4c21b4c41b47c1b4581b45a1b45c1b45e1b4601b4621b40a1b3f01b3c81b3ca1c8281c80a1c7d61c78a1c7241c6fc1c6901c6721c6021c5e41c5861c5681c5381c5021c4c21c48e1c4901c3d21c2901c24e1c1fe1c1c21c1741c13c1c0e81c0ae1c05a1c0201bfce)
  (.lf
  0xa16009f8009dc009c0009a0009820096200944009280090c008ec008ce008ae0088c0086a008480082600808007ec007cc007b40079e0078800b0500b0300aff00afd00ae700ae500ae100adf00ac900ac700ac300ac100aad00aab00aa700aa500a9100a8f00a8b00a8900a7500a7300a6f00a6d00a5500a5300a4f00a4d00a3700a3500a3100a2f00a1700a1500a1100a0f009f9009f7009f3009f1009dd)))
  (.nd (.nd (.lf
  0x2fbb02f3502f2a02f1e024300242d047d703ba702fbf02f3702f2c02f20023ea023e7047d903ba902fc302f3902f2e02f22023a4023a1047db03bab02fc702f3b02f3002f24023790540f047dd03c5103bc303bb803b6c037f905411047df03c5503bc503bba03b6e037d6037d305413047e103c5903bc703bbc03b70037a00379d05415047e303c5d03bc903bbe03b720376d0376405417047e503c6103bcb)
  (.lf
  0x35283352813527f3527b3525335247352453523735233350a9350a7350a3350a1350033500134fb534fb334fb134faf34fab34fa734fa334fa134f9d34f7b34b3934b3b34b3734b3334b3134b2f34b2b34b0734aad349e6349e4349d2349c8349bc349b2349a83499a349a0348783487c348683485c34854348483484034834348263481c3482a3480e347fe34828347a43475a347603462a34676345c234546))
  (.nd (.lf
  0xe0120e2880e0160e2720e01a0e25c0e01e0e2460e0220e2300e0260e21a0e02a0e2040e02e0e1ee0e0320e1d80e0360e1c20e03a0e1ac0e03e0e1960e0420e1800e0460e16a0e04a0e1540e04e0e13e0e0520e1280e0560e1120e05a0e0fc0e05e0e0e60e0620e0d00e0660e0ba0e06a0e0a40e06e0e08e0e0720e0780e3860e5640e38a0e55a0e38e0e5500e3cc0e5460e3d00e53c0e3d40e5320e3d80e528)
  (.lf 0)))

def shaXorReads265 : BTree :=
  .nd (.nd (.nd (.lf
  0x1f6441f59622f9822f2e2165f2165b206351f71d1f69b1f6841f6461f59822f9222f402151921515205751f71f1f69d1f6861f6481f59a22f8622f042145121449205771f7231f69f1f6881f64a1f59c22f7a22ef6214532144b205791f7271f6a11f68a1f64c1f59e22f7022eea213eb213e7204af1f72b1f6a31f68c1f64e1f5a022f6822f442138721377204b11f72f1f6a51f68e1f6501f5a222f6022ede)
  (.lf
  0x1f4991f4971f4931f4911f48f1f48d1f4891f4871f4851f4831f47f1f47d1f47b1f4791f4751f4731f4711f4a51f46f1f46b1f4691f4671f4631f4611f45f1f45d1f4591f4571f4551f4531f44f1f44d1f44b1f4491f4451f4431f43f1f4411f43d1f4391f4371f4351f4311f42f1f42d1f42b1f4291f4251f4231f4211f41d1f41b1f4191f4171f4131f4111f40d1f40b1f4071f4051f4031f4011f3fd1f3fb))
  (.nd (.lf
  0x277361dfa61dcc719c3919c1519c10183e6183ce28ba428917277772774f277381df901dccb19c3d19c1719c12183ac1839628b8e2891b2777b277512773a1df7a1dccf19c4119c1919c141836c1835628b782891f2777f277532773c1df641dcd319c4519c1b19c161832c1831628b622892327783277552773e1df4e1dcd719c4919c1d19c18182ec182d628b4c289272778727757277401df381dd0719c4d)
  (.lf
  0x1b2fb1b2f71b2f51b2c71b2c51b2c11b2bf1b28f1b28d1b2891b2871b2551b2531b24f1b24d1b2191b2171b2131b2111b1e11b1df1b1db1b1d91b1a71b1a51b1a11b19f1b1691b1671b1631b1611b12b1b1291b1251b1231b0f11b0ef1b0eb1b0e91b0b91b0b71b0b31b0b11b0811b07f1b07b1b0791b0491b0471b0431b0411b0111b00f1b00b1b0091afd91afd71afd31afd11afa11af9f1af9b1af991af69)))
  (.nd (.nd (.lf
  0x2986e298642985a29850298442983c29832298282981e2981429806297fc297f2297e8297e0297d8297ce297c4297ba297b0297a62979c29792297842977a297342972a2971e297102a1882a17c2a1702a15a2a1002a0f42a0e82a0dc2a0d02a0c82a0bc2a0922a0862a0762a0602a0382a03029fec29fe029fd429fc829fc029f5e29f5629f4a29f4229edc29ec629dee29de62a1a02a1942a16a2a1522a148)
  (.lf
  0x18ecd18ea718ea518ea118e8718e6118e5f18e5b18e4118e1b18e1918e1518dff18dd918dd718dd318dbf18d9918d9718d9318d8318d5d18d5b18d5718d4918d2318d2118d1d18d0f18cfd1946e1943e19404193c8193901935a19324192ec192b01927019230191f0191b0191701912e190e8190a6190661902218fe018fa018f5c18f1618ed018e8a18e4418e0218dc218d8618d4c18d121946f1944b19447))
  (.nd (.lf
  0x1d4d01d45d1d44c1d4481d37a1d3481d3451d33c1d3261d31f1d3161d3121d36e1d2fa1d2ef1d2e61d2cc1d2c01d2bf1d2b61d2901d2801d2681d2671d2761d25f1d2561d2521d2321d22a1d2251d21c1d2061d2031d1fa1d1f81d1dc1d1d01d19c1d1991d1161d09e1d0761d0751d1101d0c61d0941d06b1d0f21d0c41d08a1d05f1d0ec1d0c21d0801d0571d0ce1d0c01d04d1d0441d0c81d0b41cf081cef9)
  (.lf 0)))

def shaXorReads266 : BTree :=
  .nd (.nd (.nd (.lf
  0x3e9723e96b3e9653e9623fc713f3b13eb7c3eb133e8d63e88c3e8873e8853fc353f2a73eb743eafb3e8ba3e88f3e87a3e8753fe593f1fd3eb4d3e8ac3e8673e8623e85f3e8583fb913f1813ea393e9523e84a3e8453e8433e8403fba13f3a13e9dd3e9643e8363e8333e8263e8253fb473f12d3e9b73e8843e8103e7f63e7f33e7ef3fadb3f18f3e99f3e8743e8083e8063e7ff3e7fb3fa793ee9f3e98b3e85e)
  (.lf
  0x3d6ba3d6a03d66a3d65a3d5d03d5ba3d58a3d3443d3203d2c03d3fe3d1803df853df833df673df653df633df613df433df413df3f3df3d3df393df1d3df1b3df193df153df053df033df013defd3dec13deb13deaf3de7f3de7d3de7b3de793de5b3de593de573de653de553de513de4f3de4d3de493de173de153de133de0f3de0d3de0b3de333de093de053de033dfc53de013ddfd3ddfb3ddf93ddeb3dde9))
  (.nd (.lf
  0x2f5ac2f5a63acde3ac113a8c13a8683a83f34f0234ea52fa9f2fa172fa0e2f5902f58e3acd23ac153a8c53a86a3a84134ef834ea92faa32fa1b2fa122f6a62f57a3accc3ac193a8c93a86c3a84334eee34e1f2faa72fa1f2fa162f5d62f5703acba3ac1d3a8cd3a86e3a84534ee634e232fa232fa1a2f5d02f56a3acb43ac213a8d13a8703a84734eda34e272fa272fa1e2f5622f55c3aca43ac253a8d53a872)
  (.lf
  0x2ceee2cdf82ceea2cde42cee62cde62cee22cedf2cedd2ced92ced72ced32ced52ced12cecd2cecb2cec92cec52cec32cec12cebf2cebb2ceb92ceb72ceb52ceb12ceaf2cead2ceab2cea72cea52cea32cea12ce9d2ce9b2ce992cf0f2ce972ce932ce912ce8f2ce8b2ce892ce872cf0b2ce852ce812ce7f2ce7d2ce7b2ce772ce752cf072ce732ce6f2ce6d2ce6b2ce672ce652ce632cf032ce612ce5d2ce5b)))
  (.nd (.nd (.lf
  0x3de003ddf83dde43ddd03ddbe3ddaa3dd963dd8e3d6b83d69a3d6683d6543d5b43d5a43d33e3d3303d2ba3d2303d17c3e7803e7483e7363e70e3e6da3e6d23e6b03e6883e65c3e6303e60c3e6043e5f03e5e43e5d03e5803e39c3e36c3e30e3e2e23e2da3e2d23e2c23e2943e28c3e2343e1d03e1ba3e0363def83eb1c3eb063eaee3eae63ea283e9d43e9ae3e9823e97a3e9283e91e3e9063e8ea3e8da3e8cc)
  (.lf
  0x26be326be126bbd26bb926b3526b3326b2f26b2b26b2926b2726b2326b2126b1f26b1d26b1926b1726b1526b1326b0f26b0d26aef26aed26ae926ac926ab926ab726ab326ab126a8d26a8b269fd269fb269f9269f7269f3269f1269ef26a01269ed269e9269e7269e5269832693b26923270b32700d26ff526ff126f1126f0d26f0726e7726e4d26e4926e4726dc326dbd26db926db126daf26d2926d2526d0d))
  (.nd (.lf
  0x1497016200149b016160149f0160c014a301602014a7015f8014ab015ee014af015e4014b3015da014b7015d0014bb015c6014bf015bc014c3015b2014c7015a8014cb0159e014cf01594014d30158a014d701580014db01576014df0156c014e301562014e701558014eb0154e014ef01544014f30153a014f701530014fb01526014ff0151c0150301512015070150d020b50225a020b902250020bd02246)
  (.lf 0)))

def shaXorReads267 : BTree :=
  .nd (.nd (.nd (.lf
  0x1320312609125d1125c6125bc1259a15f9c15904140bb1403b132051260d125d3125c8125be1259c15f92158c8140bd1403d13193125571254d1254a125481254215f861588c140bf1403f131051250d124d1124c6124ae1246615f2815854140c1140411310712511124d3124c8124b01246815f1c1581e140c3140431310912515124d5124ca124b21246a15f16157e4140c5140451310b12519124d7124cc)
  (.lf
  0x42dd042ed042db042d70429f0429d04299042970425704267042550425104219042170421304211041d1041e1041cf041cb04193041910418d0418b0414b0415b04149041450410d0410b0410704105040c7040c5040c1040bf0407f0408f0407d04079040410403f0403b0403903ffb03ff903ff503ff303fb303fc303fb103fad03f7303f8303f7103f6d03f3303f4303f3103f2d03ef303f0303ef103eed))
  (.nd (.lf
  0x38e2a38ee438e1838ede38e1038e9038e0038e8838df438e7e38dda38e7038dd038e5638dc638e5038db638d9638d7038d6838d5038d5438d3238d2238cfc38cf438cda38ce238cc838cbc38cae38c9638c2a38c5838c1c38c5238c0a38c4638c0e38c4038c1e38c2e394a23964a3949a39644394a4396243947c3961e394803961439482396003945e395ea39450395d839448395c23943e395a8394383958e)
  (.lf 0))) (.nd (.nd (.lf
  0x406e0402a03fe403fa203f6203f2203ee203e9e03e5c03e1c03dd803d9603d5203d0c03cca00ddc00dc600db000d9a00d8400d6e00d5800d4200d2c00d1600d0000cea00cd400cbe00ca800c9200c7c00c6600c5000c3a00c2400c0e00bf800be200bcc00bb600ba000b8a00b7400b5e0444e04414043d00438a0434404302042c20427e0423c041f8041b60417204130040ec040a6040640402003fda03f98)
  (.lf
  0x7e8f07e8d07e4d07e5107e4b07e4707e0f07e0d07e0907e0707dc707dcb07dc507dc107d8907d8707d8307d8107d4307d4107d3d07d3b07cfb07cff07cf907cf507cbd07cbb07cb707cb507c7707c7507c7107c6f07c2f07c3307c2d07c2907bef07bf307bed07be907baf07bb307bad07ba907b6f07b7307b6d07b6907b2f07b3307b2d07b2907aef07af307aed07ae907aaf07ab307aad07aa907a850ae4e))
  (.nd (.lf
  0x17d451946d194461943d1941019403193d6193c71939a1938f19362193591932c19323192f4192eb192b8192af192781926f192381922f191f8191ef191b8191af191781916f1913a1912d190f6190e7190b0190a51906e190651902e1902118fea18fdf18fa818f9f18f6818f5b18f2418f1518ede18ecf18e9818e8918e5218e4318e0c18e0118dca18dc118d8a18d8518d4e18d4b18d1418d1118cf91a3eb)
  (.lf 0)))

def shaXorReads268 : BTree :=
  .nd (.nd (.nd (.lf
  0x3e3953db953da5a3d8de3d8d13d8ce40db2406a23f31b3f3173e3653da653da263d8e03d8c03d8b540644406423f2f33f2eb3e3153da2d3d9bc3d8e23d8d63d8d540632405ac3f2fb3f2db3e3273dc993da003d9c73d8923d8844062a405a03f2093f1a93e2ef3db7b3d9f93d9e43d8943d89040610405963f17f3f17b3e2f13dba03db633d9df3d86e3d81e405fa4058a3f1113f10d3e32d3db7f3db4d3d990)
  (.lf
  0x1293e1287a1291c1287e128fe12882128e212886128c21288a128aa1288e128941345c1360013460135f613464135ec13468135e21346c135d813470135ce13474135c413478135ba1347c135b013480135a6134841359c13488135921348c13588134901357e1349413574134981356a1349c13560134a013556134a41354c134a813542134ac13538134b01352e134b413524134b81351a134bc13510134c0))
  (.nd (.lf
  0x1650a169b21650c178cc178d0178d4178d6178d8178841786417816178181781a1781c1781e1798c177c2177a2177a4177a6177a81793a175941757e17560175621756417566175681756a174b61749c1749e174a0174a2188ec188f0188fe188b61893618882188561882a187fe187dc187c0187aa18796187821876e1875a18746187321871c18708186f4186e2186d0185fe185ec185da185c8185b6185a4)
  (.lf
  0x364823635c3635e3634a36346363363632c36322363183647836308362fc362f2362f4362dc365213651f3651b365193651736515365113650f3650d3650b36507365053650336501364fd364fb364f9364f7364f3364f1364ef364ed364e9364e7364e5364e3364df364dd364db364d9364d5364d3364d1364cf364cb364c9364c7364c5364c1364bf364bd364bb364b7364b3364b1364b5364af364ab364a9)))
  (.nd (.nd (.lf
  0x39310391a038d60381606612065c40517b050fb045490394d039330391c038d803818065d2065840517d050fd0454b03951039350391e038da0381a06592065460517f050ff0454d039550393703920038dc0381c0653c064fe05181051010454f039590393903922038de0381e0650c064c00518305103045510395d0393b03924038e003820064b60647a0518505105045530396103926038fd038e203822)
  (.lf
  0x2dc592dc552dc512dc4f2dc4d2dc492dc472dc452dc432dc3f2dc3d2dc3b2dc532dc392dc352dc332dc832dc312dc2d2dc2b2dc292dc252dc232dc1f2dc1d2dc192dc172dc152dc212dc132dc0f2dc0d2dc0b2dc072dc032dc012dbff2dbfb2dbf92dbf72dbf52dbf12dbef2dbed2dc052dbeb2dbe72dbe52dc6f2dbe32dbdf2dbdd2e8042e7e82e77e2e74a2e6fc2e6b82e6722e63a2e5f62e5be2e5782e540))
  (.nd (.lf
  0x36f0036e7036bc036b30368a036810365003647036140360b035e2035d9035a80359f0356c035630353a03531034fe034f5034cc034c30349203489034580344f0341c03413033ea033e1033b0033a7033740336b033420333903308032ff032ce032c503292032890326003257032240321b031f0031e7031be031b503182031790312603125044650442f043fc043f3043b6043ad0437004367043280431f)
  (.lf 0)))

def shaXorReads269 : BTree :=
  .nd (.nd (.nd (.lf
  0x1f88d1f8711f8661f7de22b3a22885214d9200b51f8911f8731f8681f7e022b302286d214cf200b71f8951f8751f86a1f7e222b2022855214c5200b91f8991f8771f86c1f7e422b182297d214bb200bb1f89d1f8791f86e1f7e622b0c22977214b1200bd1f8a11f87b1f8701f7e822afe22811214a7200bf1f8a51f87d1f8721f7ea22b9922af62149d200c11f8a91f87f1f8741f7ec22ac42293d21493200c3)
  (.lf
  0x12575125731256f1256d1256b1256912565125411253f124631245f1245d1245b12465124591245512453124511244d1244b124491244712443124411243f1243d124391243712435124331242f1242d1242b124291242512423124211241f1241b124191241712415124131240f1240d1240b12407124051240312401123fd123fb123f9123f7123f3123f1123ef123ed123e1123dd123db123d9123d5123d3))
  (.nd (.lf
  0x3f65f3f6513f3903f30c3f14f3f1123f10c40bb740bb3406df3f6333f59d3f3803f3003f0f43f0ee3f0ed40b6b40b63406b53f6033f5873f4de3f3663f1143f0fb3f0f840d2f40b3940b294076b3f5d73f5b13f3563ee4a3ee283ee2640b0f40aef3fa1f3f6913f5f53f3423ee403ee343ee2e3ee2d40aa940aa53fa133f5d53f5593f3303eda93ed903ed8e3ed8c40a1340a0f3f9813f6833f5233f3203eada)
  (.lf
  0xd5190d5150d5130d5110d50f0d50b0d5090d5070d5050d5010d4ff0d4fd0d4fb0d4f70d4f50d4f30d4f10d4ed0d4eb0d4e90d4e70d4e30d4e10d4df0d4dd0d4d90d4d70d4d50d4d30d4cf0d4cd0d4cb0d4c90d4c50d4c30d4c10d4bf0d4bb0d4b90d4b70d4b50d4b10d4af0d4ad0d4ab0d4a70d4a50d4a30d4a10d49d0d49b0d4990d4970d4930d4910d48f0d48d0d4890d4870d4850d4830d47f0d47d0d47b)))
  (.nd (.nd (.lf
  0x14df214dc614d9a14d6e14d421645a1643c1641a163f8163da163ba163981637a1635a1633816316162f4162d2162b4162981627816256162381621c16200161e0161c2161a61618a1616a161481612a1610a160e8160ca12f8812f7412f5a12f5012f4612f3c12f3212f2812f1e12f1412f0a12f0012ef612eec12ee212e0012df612dec12d9c12d8612d7212d6812d5e12d5412d1e12ce212cb812c9a12c86)
  (.lf
  0x125311252d1252b125291252712523125211251f13608135fe135f4135ea135e0135d6135cc135c2135b8135ae135a41359a13590135861357c13572135681355e135541354a13540135361352c13522135181350e13504134fa134f0134e6134dc13609136071360313601135ff135fd135f9135f7135f5135f3135ef135ed135eb135e9135e5135e3135e1135df135db135d9135d7135d5135d1135cf135cd))
  (.nd (.lf
  0x35f0c35ec835e7835e4035e5935e4137760377543774a3774037730377263771837712376f8376e4376dc376d4376ce376be376b2376a8376a03769637682376783766a37662376563764a37644376363763037172371543714e36e183712b36e1936e133bbb83bbb23baf83b9903b98a3b82c3b7a63b74c3b6f23b6a23b69c3b6103b60a3b5c43b5803b50a3b4ce3b4c83b4883b4123b40c3b2963b2903b284)
  (.lf 0)))

def shaXorReads270 : BTree :=
  .nd (.nd (.nd (.lf
  0x2afc22afbc2f30e2cfe72cfe32c0e92b62f2b5e52b4662af962af90312bc2f0932f08f2dfa72cc7d2cc732cc702cc6e2cc6631312312a82f0012effd2df792cc972cc8d2cc8a2cc882cc803130c3124a2eedd2eed92dedd2cc592cc4f2cc4c2cc4a2cc44311de311702ef5d2ef592debf2cc0f2cbf52cbee2cbea2cbde3116a311162ef352ef312dea92cc112cbf72cbf02cbec2cbe031118310f62edeb2ede7)
  (.lf
  0x2d3902d2fe2d1a82d1a22df9f2df8b2df872df852df712df6f2ded52ded32ded12decf2decb2deb72deb52dea32de9d2de9b2de992de972de932de612de5f2df1f2de5d2de592de572def92de552de512de4f2de4d2de492de472de332de092de052ddfb2ddf92ddf72ddf32ddf12ddef2de0b2dded2dde92dde72dde52dde12ddd72ddd52ddd32ddc72ddc32ddc12ddbf2ddbb2ddaf2ddad2ddab2dda72dda5))
  (.nd (.lf
  0x34a59338bb3388733870299e2298db2020a200441e9cd1e9b31e9ae34c4a34a5d338bf3388933872299d8298df201fe200241e9cf1e9b01e97534bf834a61338c33387433845299ce298e3201f8200261e9d11e9b21e97734bec34a65338c73387633849299c4298e7201ea2002c1e9d31e9791e97434be634a69338cb338783384d299ba298eb201e4200221e9d51e97b1e97634bdc34a6d338cf3387a33851)
  (.lf
  0x239eb239e7239e5239e3239e1239dd239db239d9239d7239d3239d1239cf239cd239c9239c7239c5239c3239bf239bd239bb239b9239b5239b3239b1239af239ab239a9239a7239a5239a12399f2399d2399b239972399523993239912398d2398b239892398723983239812397f2397d239792397723975239732396f2396d2396b239692396523963239612395f2395b239592395723955239512394f2394d)))
  (.nd (.nd (.lf
  0x3dd0e3dd043dcfa3dcee3dce63dcdc3dcd23dcc83dcbe3dcb43dcaa3c6323c6283c61e3c6143c4f63c4c03c4063fe4e3fe443fe3a3fe303fe263fe1a3fe103fda23fd8c3fd823fd783fd4a3fd323fd1a3fd0c3fcee3fcd63fca43fc5c3fbec3fbe23fb243fb1a3faf23fade3fa8a3f92c3f8d23f8963f8564011c40120400ec400b03ffac3ffba3fcae3fbfe3fc0a3fb383fab63f9ae3f9ee3f9344011d40121)
  (.lf
  0x203be203b4203dc203a2203e020392203882037c20374203e220360203e42035220342203382035c203262031c203122030a202fe202f6201e0201d4201e2201c2201b8201ac203db203df203d9203d5203d3203d1203cd203cb203c9203c7203c3203c1203bf203bd203b9203b7203b5203dd203b3203af203ad203ab203a7203a5203a3203e1203a12039d2039b203992039520393203912038f2038b20389))
  (.nd (.lf
  0x41d2841c5e416f0416d341d2041c38416e8416e741d0e41c4041707416dc41c2041c0a416d4416b741c0041bf4416764167141be041bc24165e4164b41bba41bb04164f4164c41b9a4197c415864157f4197441916415434153c4196441900414b2414b14195e419044139b41398418e6418d64137e41379418dc4151e4136d41368414fa4134d41344413424124641230410ef410e8411be410db0102e011d2)
  (.lf 0)))

def shaXorReads271 : BTree :=
  .nd (.nd (.nd (.lf
  0x1343113426133da12f9514fbf14535134c31343313428133dc12f8412f8114fc114537134c7134351342a133de12f7012f6d14fc314539134cb134371342c133e012f5612e7714fc51453b134cf134391342e133e212f4c12e6d14fc71453d134d31343b13430133e412f4212e6314fc91453f134d71343d13432133e612f3812e5114fcb145411345b1343f13434133e812f2e12e4114fcd145431345f13441)
  (.lf
  0x3b9c33b9c13b9bd3b9a73b9153b9133b90f3b90d3b8cf3b8cd3b8c93b8c73b7eb3b7e93b7e53b7e33b7673b76b3b7653b7613b7473b7453b7413b73f3b6cf3b6d13b6cd3b6b33b6993b69b3b6973b6933b62f3b6433b62d3b6293b6073b6093b6053b5ff3b5c33b5c13b5bd3b5bb3b57b3b57f3b5793b5753b52b3b5293b5253b51d3b4ef3b4ed3b4eb3b4dd3b4c73b4c53b4c13b4bf3b46f3b47b3b46d3b461))
  (.nd (.lf
  0x24ea42500424ea824ffa24ed824ff024edc24fe624ee024fdc24ee424fd224ee824fc824eec24fbe24ef024fb424ef424faa24ef824fa024efc24f9624f0024f8c24f0424f8224f0824f7824f0c24f6e24f1024f6424f1424f5a24f1824f5024f1c24f4624f2024f3c24f2424f3224f2824f2e26304264d426308264ca2630c264c026310264b626314264ac26318264a22631c26498263202648e2632426484)
  (.lf 0))) (.nd (.nd (.lf
  0x18daa18d6e18d341a3de1a3ac1a3701a3321a2f41a2b61a2781a23a1a2001a1c41a18a1a14e1a1121a0da1a0a21a0681a02e19ff219fb419f7819f3a19efc19ec019e8419e4619e0419dc019d7e19d3819cec0eefc0eef20eee80eede0eed40eeca0eec00eeb60eeac0eea20ee980ee8e0ee840ee7a0ee700ee660ee5c0ee520ee480ee3e0ee340ee2a0ee200ee160ee0c0ee020edf80edee0ede40edda1a3d6)
  (.lf
  0x53530534f0534d0534b053490534505343053410533f0533b053390533705335053310532f0532d0532b053270532505323053210531d0531b053190531705313053110530f0530d05309053070530505303052ff052fd052fb052f9052f5052f3052f1052ef052eb052e9052e7052e5052e1052df052dd052db052d7052d5052d3052d1052cd052cb052c9052c7052c3052c1052bf052bd052b9052b7052b5))
  (.nd (.lf
  0x160da160ce160bc160b6160b017478174461741e1740e173e6173d2173aa173941736c1735a1733217322172fa172ea172c4172b41728e1727e17256172421721a17204171de171c8171a21718c17166171501712a17118170f2170e2170bc170a817082170701704a170361700e16ffc16fd416fc416f9e16f8e16f6816f5416f2e16f1c16ef616ee216ebc16eaa16e8416e7016e4216e3016e0016df016dc0)
  (.lf 0)))

def shaXorReads272 : BTree :=
  .nd (.nd (.nd (.lf
  0xed1b0d4b00d3d30722e071f20f04c0ef7d0ed9d0ed4a0ed1f0d4a60d3d7071e8071aa0f0420ef810eda10ed4c0ed230d49c0d3db071ac0716c0f0380ef850eda50ed4e0ed250d4920d3df07162071240f02e0ef890eda90ed500ed270d4880d3e307126070e60f0240ef8d0edad0ed520ed290d47e0d3e7070dc0709e0f01a0ef910edb10ed540ed2b0d4740d3eb070a0070600f0100ef950edb50ed560ed2d)
  (.lf
  0x253822527f2537a252832537025287253682528b2535c252db253502529125346252d92533e25297253342529b2532c2529f2531e252a325314252a72530a252ab25302252af252f8252b3252f0252b7252e2252bb252dc252bf252cc252c3252c726121262882612526280261292627225fd52626c25fd92625e25fdd26256261632624a26167262442616b2623a260252622e26029262242616f2621c26173))
  (.nd (.lf
  0x3e0403deee3dea83fb303f9a23f8f03f8be3f8703f88a3f7fc3f7de3f7be3f7a83fbc43f7863f46e3f4643f4823f40a3f3e23f3d03f3f03f3ae3f2a43f1f83f1643f1423f1343f1923eea63ee583edba3ea963ea083ea58402c640286402ae402624021a40240401944015e401704017a400ce400284000a400463ffea3ffd2400664004e3fcca3fc703fc343fe583fb903fba03fb463fada3fa783fa4e3f9fc)
  (.lf
  0x1c0901bfb01bf901bf501bc701bb901bb701bb301b8301b7501b7301b6f01b3d01b2f01b2d01b2901af701ae901ae701ae301ab501aa701aa501aa101a7101a6301a6101a5d01a2f01a2101a1f01a1b019ef019e1019df019db019af019a10199f0199b0196b0195d0195b01957019290191b0191901915018e9018db018d9018d5018a50189701895018910186301855018530184f0182301815018130180f)))
  (.nd (.nd (.lf
  0x617d060f5060ea060de055c6055c30796906d5b06181060f7060ec060e00558a055870796b06d5d06185060f9060ee060e205563085810796d06e0306d7506d6a06d1e069ab085830796f06e0706d7706d6c06d20069830697c085850797106e0b06d7906d6e06d22069420693f085870797306e0f06d7b06d7006d2406903068fa085890797506e1306d7d06d7206d26068bc068b90858b0797706e1706d7f)
  (.lf
  0x3752f375393752d375293752737525375213751d3751b37543375193751537513375113750d3750b375073750537501374f9374f5374f3374ef374ed374eb374e9374e5374e3374e1374df374db374d9374d7374d5374d1374cb374c9374c7374c3374c1374bf374bd374b9374b7374b3374b1374ad374a7374a5374a33749f3749d3749b3749937495374913748f3748d37487374853748337547374813747d))
  (.nd (.lf
  0x242e4243bc242e8243a6242ec24390242f02437a242f424362242f82434c242fc243362430024320243042430a253fe257482540225734254062571e254442570825448256f22544c256dc25450256c625454256b0254582569a2545c25684254602566e254642565825468256422546c2562c2547025616254742560025478255ea2547c255d425480255be25484255a825488255922548c2557c2549025566)
  (.lf 0)))

def shaXorReads273 : BTree :=
  .nd (.nd (.nd (.lf
  0x21e8e21e8825d5a25d2023c4323c332317d21dad21dab21da821da621da025d1a25cf623c4523c352317f2220221d5321d5121d4e21d4825cfc25c9623c4723c3723181222052211421d2b21d2821d2225c8a25c4223bd123bcd23183221172209e21d0121cfe21cf825c3825bb023bb923bb523185220a12207c21c8721c8421c7e25ba025b8623b8723b83231872207f21ff021c4121c3e21c3825b7625b64)
  (.lf
  0x21623216212161d2161b21619230e2230d8230ce230c4230ba230b0230a62309c23092230882307e230742306a23060230562304c23042230382302e230242301a230102325222cd622c60239f022c2022bbe22ae0229ec229ba230e3230e1230dd230db230d9230d7230d3230d1230cf230cd230c9230c7230c5230c3230bf230bd230bb230b9230b5230b3230b1230af230ab230a9230a7230a5230a12309f))
  (.nd (.lf
  0x1bb9c19cbe19ca22ac9129a8129a6a1e2191bba31bb9e19c842bd7b2ac1d2ac012abea223f91cb7d1cb631cb5e1b3702c0c62bd7f2ac212ac032abec225ca223fd1cb811cb651cb601b3421b33c2c0b22bd832ac252ac052abee225c0224011cb851cb671cb621b30a1b3022c09c2bdc12ac292ac072abf0225b6224051cb891cb691cb641b2dc1b2cc2c0862bdc52ac2d2ac092abf2225ac224091cb8d1cb6b)
  (.lf
  0xf4bc0f4b20f4a80f49e0f4940f48a0f4800f4760f46c0f4620f4580f44e0f4440f43a0f4300f4260f41c0f4120f4080f3fe0f3f40f3ea0f3e00f3d60f3cc0f3c20f3b80f3ae0f3a40f39a0f3900f4bd0f4bb0f4b70f4b50f4b30f4b10f4ad0f4ab0f4a90f4a70f4a30f4a10f49f0f49d0f4990f4970f4950f4930f48f0f48d0f48b0f4890f4850f4830f4810f47f0f47b0f4790f4770f4750f4710f46f0f46d)))
  (.nd (.nd (.lf
  0x2e01a2e0102e0062dffc2dff22dfe82dfde2dfd42dfca2dfc02df9a2df682df5e2df542df4a2df402df1a2de8e2f22e2f2242f21a2f2102f2062f1fc2f1f22f1e82f1e02f1d62f1cc2f1c22f1b82f1ae2f1a42f19a2f0c22f0b82f0822f0782f06e2f0642f05a2f0502f0462eff42efb42ef282ef1e2ee402f7382f72e2f7242f71a2f7102f7082f6fe2f6f62f6ec2f6e22f6d62f6cc2f6c42f6ba2f6b22f69a)
  (.lf
  0x1ab7f1ab7d1ab791ab771ab751ab731ab6f1ab6d1ab6b1ab691ab651ab631ab611ab5f1ab5b1ab591ab571ab551ab511ab4f1ab4d1ab4b1ab471ab451ab431ab411ab3d1ab3b1ab391ab371ab331ab311ab2f1ab2d1ab291ab271ab251ab231ab1f1ab1d1ab1b1ab191ab151ab131ab111ab0f1ab0b1ab091ab071ab051ab011aaff1aafd1aafb1aaf71aaf51aaf31aaf11aaed1aaeb1aae91aae71aae31aae1))
  (.nd (.lf
  0x259da259c8259c4259c3259a42598c25982259812596c25954259502594b258f4258dc258da258d5258ac258a02589825893258762586a258622585f2583c258302581e2581d257fa257ee257e6257e32579a2578f270b9270b427324270af270822707c2731a2702027005270022731027233270102700e2730626fc426fb726fb2272fc26f4426f4226f41272f2271b126f1a26f08272e8271b326ed626ed4)
  (.lf 0)))

def shaXorReads274 : BTree :=
  .nd (.nd (.nd (.lf
  0x328d1328cd317cd311ab3105130d8e309e0309da34f3a34b4c328e1328dd316af310bf3100530d68309ba309b43580034af4328bd328b93165b3105730f7f30d50309aa309a434ac8327ab327a7316293100b30f5b30d1c3075a3075436b12347e5347e1336d9324433243b32438324363243036a06369cc3478734783336b93241d32415324123241032408369f2369ac346b7346b333741323ed323e5323e2)
  (.lf
  0x3fa6d3fa6f3fa6b3fa673fa653fa633fa513fa4d3fa493fa473fa433f9f33f9d53f9d33f9633f9613f95f3f95d3f93f3f93b3f813418564185e41838417f64181a417e24189a414de41188411aa4119a4112c4107240fec40f5440f1640e9640e8640eae40c5040c0a40bfa40bf440bc240bb040b6040b2640ae240aa040a0240a5a418574185f418534184f4184d4184b4184741843418394183741813417f7))
  (.nd (.lf
  0x3893b33e9033abc339c7339c4389da3893f33e9433ab0339c9339b23899a3894333aa633a32339cb339c6389943896733a9a339cd339c8339b6389883894933a90339cf339ca339963897e3894d33a86339d4339d1339cc389743895133a3c339d3339ce3395c3896c3895533e9933a34339d03394e3895933e9b339d6339d238eaf34e9334e8f34e8a34e88391d638e9f351c434e9734e9134e8c34e7e391ca)
  (.lf
  0x2e61f2e61d2e6192e5df2e5dd2e5d92e5d72e5a52e5a32e59f2e59d2e5672e5652e5612e55f2e529307443072e306e4306d8306ca306ba306c03069c3067e3066a30654306423061c3058e3058430578305683056230592305483053c305303059e30512304fa304e0304ca3048230472304663045a30745307433073f307313072f3072d30729306e5306e3306e1306dd306d9306d7306d5306d1306cf306cb)))
  (.nd (.nd (.lf
  0x24f0224f0624f0a24f0e24f1224f1624f1a24f1e24f2224f2624f2a263562635a2635e26362263662636a2636e26372263762637a2637e26382263862638a2638e26392263962639a2639e263a2263a6263aa2759027594275982759c275a0275a4275a8275ac275b0275b4275b8275bc275c0275c4275c8275cc275d0275d4275d8275dc275e0275e427c7827c7c27c8027c8427c8827c8c27c9027c9427c98)
  (.lf
  0x2842d2842b284272842528423284212841d2841b284192841728413284112834b28e5a28e5228e4028e3828e2828e1c28e1028e4228dfa28dee28de428dd628dca28dbe28db228da628d9a28d8e28d8028d7228d6628d5a28d8428d4828d3e28d2228d1028d0628d2628c6028c5228e5b28e5928e5328e5128e4f28e4d28e4928e4728e4128e3f28e3928e3728e3528e3328e2f28e2d28e2928e2728e2328e21))
  (.nd (.lf
  0x108cb10974108cf1096a108d310960108d710956108db1094c108df10942108e310938108e71092e108eb10924108ef1091a108f310910108f710906108fb109011133b114e01133f114d611343114cc11347114c21134b114b81134f114ae11353114a4113571149a1135b114901135f11486113631147c11367114721136b114681136f1145e1137311454113771144a1137b114401137f11436113831142c)
  (.lf 0)))

def shaXorReads275 : BTree :=
  .nd (.nd (.nd (.lf
  0x15c2d14cf314cf114cee14cec14ce61827018234168431683f15c2f14e9214cdb14cd914cd614cd01822a181f21682d1682915c3114e9514e6414cc514cc214cbc181e8181b216807167f715c3314e6714e3614cb114cae14ca8181a81817216809167f915c3514e3914e0a14c9d14c9a14c94181681812e1680b167fb15c3714e0d14dde14c8914c8614c8018124180e81680d167fd15c3914de114db214c75)
  (.lf
  0x732e072ee072b00726a07224071de071960715807110070d20708a0704c0700406fc606f7e06f3e06f0006ec206e8606e4c075f7075c7075c3075c107583075810757d0757b07545075430753f0753d074ff074fd074f9074f7074b7074b5074b1074af0747707475074710746f0743707435074310742f073f7073f5073f1073ef073b7073b5073b1073af0737707375073710736f0733707335073310732f))
  (.nd (.lf
  0x17e5217e1d17e1017dd917dcc17d9717d8a17d5517d5017d3d194651943519428193fb193ee193bf193b2193871937a19351193441931b1930e192e3192d6192a71929a192671925a192271921a191e7191da191a71919a191671915a1912519118190df190d21909d190901905d19050190191900c18fd718fca18f9718f8a18f5318f4618f0d18f0018ec718eba18e8118e7418e3b18e2e18df918dec18db9)
  (.lf 0))) (.nd (.nd (.lf
  0x823a08202081c20817e0813c080fc080b8080760803207ff007fb007f7007f3007ef007eac07e6607e2407de007d9e07d5a07d1407cd207c8e07c4807c0607bc607b8607b4607b0607ac6050b4050700503204fec04fa404f6404f2604ee004e9a04e5404e0e04dc604d8604d4604d0804cc004c8004c4004c0204bba04b7a04b3a04afc04ab604a7004a2a049e40499c0495c0491c08232081f8081b808174)
  (.lf
  0xc3d70c3d50c3c10c3bf0c3bb0c3b90c3a50c3a30c39f0c39d0c3830c3810c37d0c37b0c35f0c35d0c3590c3570c33f0c33d0c3390c3370c3210c31f0c31b0c3190c2ff0c2fd0c2f90c2f70c2db0c2d90c2d50c2d30c2bd0c2bb0c2b70c2b50c29d0c29b0c2970c2950c27b0c2790c2750c2730c2590c2570c2530c2510c2370c2350c2310c22f0c2150c2130c20f0c20d0c1f30c1f10c1ed0c1eb0c1d50c1d3))
  (.nd (.lf
  0x2a0402a03f2a02229ff12a01629fe92a00c29fd92a00429fcd29ffd29ff629f8a29f6329f8029f6729f7429f4f29f6c29f6b29ee829ee529ecd29eca29e5a29df529e5429e5129e0229de529dfd2b1652b7ba2b15f2b7b02b1692b7a82b1472b77a2b13b2b30a2b12d2b3002b1232b2f62b1152b2ea2b1092b2e02b1012b2702b0dd2b2522b0d12b2482b0c72b23c2b0b92b2302b0b12b2262b0a12b21c2b099)
  (.lf 0)))

def shaXorReads276 : BTree :=
  .nd (.nd (.nd (.lf
  0xf5940bdc40bc8025660252a0143b013bb00fda00f5b40bba40b7002520024e40143d013bd00fdc00f5d40b7c40b36024da0249c0143f013bf00fde00f5f40b2c40aea024aa0245c01441013c100fe000f6140aec40ab20246a0241e01443013c300fe200f6340aac40a7002414023d801445013c500fe400f6540a6640a18023ce0239201447013c700fe600f6740a5e40a2a023880236e01449013c900fe8)
  (.lf
  0x23428232d823422232dc23416232e023400232e4233f8232e8233f0232ec233e6232f0233d6232f4233ce232f8233c4232fc233b623300233a823304233a023308233902330c2338a2331023380233142357623370233682331a23512233602335223320234aa2334c2332624096242462409a2423c2409e24232240a224228240a62421e240aa242162410e24204240b0241fc240b4241ee240b8241e4240bc))
  (.nd (.lf
  0x3b1d43b1c437e7e3cc063cc5a3cbde3cbd83cb4e3cb403cb103cb283ca883ca423ca2a3ca583ca043c9f03c9de3c9dc3c9b63c99e3c98a3c9a03c0d03c0123bff63bfe83bfd83bd6c3bb6e3bae43b9e83b9683b89a3b8043d01a3cffa3cf9e3cfae3cfe43cfe03cf363cf523cf283cec63cee63ceaa3ce963ce823ce6a3ce5a3ce483ce343ce223ce0e3cd543cd3a3cd443cc983cc4e3cc423cc303cb8a3cb22)
  (.lf
  0x38235382313822f3822d3822b38227382253822338279382213821d3821b382193821538213382113820f3820b382093813f381413813d38137381353901a3900e38ff83901e38fe438fd238fc038e4c38e4038e3238e2838e1638e0e38dfe38df238dd838dce38dc238db438d9238d4e38d4038d1c38cd838cc638cb838c2838c1838c0638c0c38bf63901b3901939015390133900f3900d3900938ff938ff7)))
  (.nd (.nd (.lf
  0x5e6005e3705e1c05d5c0894408906076a70762706a9905ea105e6205e3905e1e05d5e08914088c8076a90762906a9b05ea505e6405e3b05e2005d60088be08882076ab0762b06a9d05ea905e6605e3d05e2205d62088780883a076ad0762d06a9f05ead05e6805e3f05e2405d6408848087fc076af0762f06aa105eb105e6a05e4105e2605d66087f2087b6076b10763106aa305eb505e6c05e4305e2805d68)
  (.lf
  0x2f0d22f0aa2f0b22f0162ef782ef702ef502ee7e2ee822ee842ee622f1952f1932f18f2f18d2f18b2f1972f1892f1852f1832f1812f17d2f17b2f1792f1772f1732f16b2f1692f1672f1632f1612f15f2f15d2f1592f1572f1552f1532f14f2f14d2f14b2f16f2f1492f1452f1432f1412f13b2f1392f1372f16d2f1352f1312f12f2f12d2f1292f1272f1252f1232f1212f11d2f11b2f13d2f1192f1152f113))
  (.nd (.lf
  0x12c6b12fc412cbd12fbe12cf112fb412cc712fa812e8112f9e12e7912f9812e7b12e9612e7f12e8c12e7d12e8612cf512cf612ce912ceb1402b13fff13fba13fb313f6a13f6113f1c13f1313ecc13ec913e7613e7913e2813e2b13ddc13dd313d8a13d8113d3813d2f13ce613cdd13c9813c8f13c4813c3f13bfa13bf113bac13ba913b5e13b5513b1013b0713ac413abb13a7413a7113a2213a25139d6139cd)
  (.lf 0)))

def shaXorReads277 : BTree :=
  .nd (.nd (.nd (.lf
  0x232b3232952328a22fd826d78269252516b24017232b7232972328c22fda26d64269072516d24019232bb232992328e22fdc26d5a268ef251772401b232bf2329b232902300026d52268e32513f2401d232c32329d2329222e3e26c26268e5251412401f232c72329f2329422e1e26c20268f32510324021232cb232a12329622e2026c16268f12510524023232cf232a32329822e2226c0c268fd2510724025)
  (.lf
  0x14c3c14c3214c2814c1e14c1414c0a14c0014bf614bec14be214bd814bce14bc414bba14bb014ba614b9c14b9214b8814b7e14b7414b6814b5e14b5414b4a14b4014b3614ab414c5914c5714c5314c5114c4f14c4d14c4914c4714c4514c4314c3f14c3d14c3b14c3914c3514c3314c3114c2f14c2b14c2914c2714c2514c2114c1f14c1d14c1b14c1714c1514c1314c1114c0d14c0b14c0914c0714c0314c01))
  (.nd (.lf
  0x1e9f9118c7118be0fbd80fbc90fbc00fbbd0fbb20fb981ea871ea241e9fb118c9118c20fb7a0fb6b0fb620fb5f0fb520fb361ea8b1e9fd1e9e0118cb118c60fb180fb090fb000fafd0faf20fad61ea8f1e9ff1e9e4118cd118c80fab80faa90faa00fa9d0fa900fa781ea931ea011e9e8118cf118ca0fa5a0fa4b0fa420fa3f0fa340fa1e1ea971ea031e9ec118d1118cc0fa000f9f10f9e80f9e50f9d80f9c2)
  (.lf
  0xe2640e24e0e2380e2220e20c0e1f60e1e00e1ca0e1b40e19e0e1880e1720e15c0e1460e1300e11a0e1040e0ee0e0d80e0c20e0ac0e0960e0800e3130e3110e30d0e30b0e2ff0e2fd0e2f90e2f70e2e90e2e70e2e30e2e10e2d30e2d10e2cd0e2cb0e2bd0e2bb0e2b70e2b50e2a70e2a50e2a10e29f0e2910e28f0e28b0e2890e27b0e2790e2750e2730e2650e2630e25f0e25d0e24f0e24d0e2490e2470e239)))
  (.nd (.nd (.lf
  0x1abae1aba41ab9a1ab901ab861ab7c1ab721ab681ab5e1ab541ab4a1ab401ab361ab2c1ab221ab181ab0e1ab041aafa1aaf01aae61aadc1aad21aac81aabe1aab41aaaa1aaa01aa961aa8c1b3401b3061b2d01b29c1b2621b22e1b2001b1c61b1821b1401b10a1b0d21b0a01b0681b0301aff81afc01af881af521af1c1aee21aeaa1ae701ae321adf61adb41ad6e1ad281ace61aca21b3561b3141b2f01b2ba)
  (.lf
  0x147731476f147671475914757147531474b1473d1473b147371472b1471d1471b147171470d146ff146fd146f9146f1146e3146e1146dd146d1146c3146c1146bd146b3146a5146a31469f1469314685146831467f1467514667146651466114655146471464514641146371462914627146231461f14619149ab14995149911498f1493b1493714935148fd148f9148f7148a31489f1489d148811487d1487b))
  (.nd (.lf
  0x4b3304b2a04b2604b1e04aec04ae804ae004add04aa604aa204a9a04a9704a6004a5c04a5404a5104a1a04a1604a0e04a0b049d4049d0049c8049c5049950498c0498804980049550494c0494804940049150490c0490804900048ec048e705d2c05d2905cff05cf805cf405cee05cc305cba05cb605cae05c7c05c7805c7005c6d05c3d05c3405c3005c2805bfd05bf405bf005be805bb605bb205baa05ba7)
  (.lf 0)))

def shaXorReads278 : BTree :=
  .nd (.nd (.nd (.lf
  0x3008d2fed42f9ed2f9e633f3c33dc531e3d30df9300912fed62f9ef2f9e83422933f3031d6f30ddd300952fed82f97d2f970341e733f2831d3530dcb3017b2f9f82f97f2f97233f2033da531d3730d43301512f9ea2f9512f94833f1133d5031d0330d23300992f9ec2f9532f94a3412333d4a31ce330cf53009b2f9ee2f94f2f94c33d5533ac431c6930c8d3009d2f97c2f91d2f8e433abe339c531c4530b7f)
  (.lf
  0x309eb309e9309e5309d9309c1309bf309b3309b1309af309ad309a3309633083d3131a3131c31302311e0311723111a310d23106a30ff630fb630fa430fc630eda30e9430e6430ea230de830dd430dc230d3a30d1a30cee30c8630b7630b4430af230a7230a28309ca3097a3099a3131b3131d313193131531313313113130d3130331301312ff311eb311e131171311733116f3116b31169311673114f3111b))
  (.nd (.lf
  0x36d8136d5936d422cea42c5a1275a9275832757e26e2e2692a3815037df336d8536d5b36d442ce982c5a5275ad275852758026e26269283814a37df736d8936d5d36d462cf0d2ce92275b1275872758226e20269263810a37dfb36d8d36d5f36d482ce882c5ab275b5275892758426d7626924380fa37dff36d9136d6136d4a2cf092ce80275b92758b2758626d6226906380f037e0336d9536d6336d4c2ce74)
  (.lf
  0x24f4324f3f24f3d24f3b24f3924f3524f3324f31268da268c6268b02689a268842686e26858268422682c2681626800267ea267d4267be267a8267922677c26766267502673a267242670e266f8266e2266cc266b6266a02668a266742665e26648268db268d9268d5268d3268c7268c5268c1268bf268b1268af268ab268a92689b26899268952689326885268832687f2687d2686f2686d268692686726859)))
  (.nd (.nd (.lf
  0x61d80696c0692e068e6068a80686006822067dc067940675406714066d6066900664a06602065c20658206544064fc064be0647806432063ec063a40636606320062d80629a0625206214061cc075c60758007542074fc074b40747407434073f4073b40737407334072f4072b6072700722a071e40719c0715e07116070d807090070520700a06fcc06f8406f4406f0606ec806e8c06e52075bc0757407536)
  (.lf
  0x21a2d21a3321a2b21a27219d9219dd219d7219d3219c7219c5219c12198d218eb218ed218e9218e5218e3218e1218dd218db218d1218cf218cb218c9216ab216ad216a92169d21641215d9215d5215d3215d1215cf215cb215c7215c32187a218542184a21840218362182c21822218182180e21804217fa217f0217e6217dc217d2217c8217be217b4217aa217a02179621792217822177c217662167221532))
  (.nd (.lf
  0xbdac0be700bdb00be660bdb40be5c0bdb80be520bdbc0be480bdc00be3e0bdc40be340bdc80be2a0bdcc0be200bdd00be160bdd40be0c0bdd80be020bddc0bdf80bde00bdee0bde40bdea0c8640ca080c8680c9fe0c86c0c9f40c8700c9ea0c8740c9e00c8780c9d60c87c0c9cc0c8800c9c20c8840c9b80c8880c9ae0c88c0c9a40c8900c99a0c8940c9900c8980c9860c89c0c97c0c8a00c9720c8a40c968)
  (.lf 0)))

def shaXorReads279 : BTree :=
  .nd (.nd (.nd (.lf
  0x16b9d16b0d16b021679c1a3791a35c186471774316ba116b0f16b041679e1a33b1a31e186491774516ba516b1116b06167a01a2fd1a2e01864b1774716ba916b1316b08167a21a2bf1a2a21864d1774916bad16b1516b0a167a41a2811a2641864f1774b16bb116b1716b0c167a61a2431a226186511774d16b3516b1916b0e167bc1a2091a1ec186531774f16b3916b1b16b10167a81a1cd1a1b01865517757)
  (.lf
  0x3ecfd3ecf93ecf73ecf53ecf33eced3eceb3ecf13ece93ece53ece33ece13ecdd3ecdb3ecd93ecd73ecd33ecd13eccf3eccd3ecc93ecc73ecc53ecc33ecbd3ecbb3ecb93ecc13ecb73ecb33ecb13ecaf3ecab3eca93eca73eca53eca13ec9f3ec9d3ec9b3ec973ec953ec933ec913ec8d3ec8b3ec893ec873ec853ec813ec7f3ec7d3ec7b3ec773ec753ec733ec6f3ec6d3ec6b3ed533ec693ec653ec633ec61))
  (.nd (.lf
  0x362c036476363123630a362c6362fe362ca362f0362ce362e8362d2362e2362d6362e03706e373cc37072373c237076373b83707a373ae3707e373a4370823739a37086373903708a3738636f183737c36f04373723730c37368372823735e37286373523721e3734a372223733c37226373323722a3732c37310373223728a3731e37314372f23728e372ea37292372de3722e372d637232372c837236372c2)
  (.lf 0))) (.nd (.nd (.lf
  0x2573a257242570e256f8256e2256cc256b6256a02568a256742565e25648256322561c25606255f0255da255c4255ae25598255822556c25556255402552a25514254fe254e8254d225746257302571a25704256ee256d8256c2256ac25696256802566a256542563e2562825612255fc255e6255d0255ba255a42558e25578255622554c25536255202550a254f4254de254c82505a25050250462503c25032)
  (.lf
  0x3cf303cf703cf103ced03cb503cb303caf03cad03c85075ea075ae0756c07528074e2074a00746007420073e0073a00736007320072e00729c0725607210071ca071880714407102070be0707c0703806ff606fb206f7006f3006eec06eb006e7606e3c075eb075dd075d9075af075a10759f0759b0756d0755f0755d07559075290751b0751907515074e3074d5074d3074cf074a107493074910748d07461))
  (.nd (.lf
  0x2804e27f1c2804027f6e2803427ece2802a27ede2801e27ee02801427eac2800a27fbe27fec27eaa27fca27e8227fc027e8827e4027e2427e0a27b5e27b5627b0627b4a27ac627b4027aca27b3627ab027b0c27a8827ad628ea8290da28e54290d228e82290c628e3a290b628e2a290b028e1e290a628e122909e28e442907028dfc2906a28df02905228dea2904a28dd82903228dcc2901c28dc028fe828db4)
  (.lf 0)))

def shaXorReads280 : BTree :=
  .nd (.nd (.nd (.lf
  0xdd400dc80dfac0dddf0d77d0d75d0d74600dbe00db20dfa20de1d0d7810d75f0d74800da800d9c0df980de210d7850d7610d74a00d9200d860df8e0de250d7890d7630d74c00d7c00d700df840de290d78d0d7650d74e00d6600d5a0df7a0de2d0d7910d7670d75000d5000d440df700de310d7950d7690d75200d3a00d2e0df660de350d7990d76b0d75400d2400d180df5c0de390d79d0d76d0d75600d0e)
  (.lf
  0x4e240488b04dde0488f04d9c0489304d5c0489704d1c0489b04cd80489f04c96048a304c56048a704c16048ab04bd2048af04b90048b304b50048b704b10048bb04acc048bf04a86048c304a40048c7049fa048cb049b4048cf04972048d304932048d7048dd054d105d18054d505ce0054d905ca0054dd05c5c054e105c1a054e505bda054e905b96054ed05b54054f105b14054f505ad4054f905a90054fd))
  (.nd (.lf
  0x3cab83ca743ca383ceca3cea43d00e3cffe3cf983cfb43cf803cf683cf0e3cf4c3cf3c3cede3ced23d0203cff83cfc23cfc83cfda3cf6e3cf123cf483d73e3d0103cfea3cfb03cfa63cf7e3cf703cf2c3d7443cf1a3ced63d9da3dc9a3db823db643db4e3db063db163db943da643da2c3d9c63d9f83d9de3db7e3db6c3db463db083dbc63db343da683da2e3d9c43db803db703dba23db203dae83dace3da5c)
  (.lf
  0x3a72b3a6c93a6c53a6c33a6c13a6893a6873a6853a6833a67f3a67d3a67b3a6793a6753a6733a6713a66f3a64b3a6473a6453a6493a6433a63f3a63d3a63b3a6373a6253a6153a6133a60f3a60d3a60b3a6093a6053a6033a6013a5ff3a5fb3a5f13a5ef3a5ed3a5e93a5e73a5e53a5e33a5df3a5d93a5d73a5d53a5cd3a5cb3a5c93a5c73a5af3a5ab3a5a93a5a73a5a53a5a13a59f3a59d3a5993a5973a595)))
  (.nd (.nd (.lf
  0xb2040b1fe1107e10ebc0c7a90c7290bcf10b2cd0b2490b2320b1f20b1ec1107210efa0c7ab0c72b0bcf30b2d10b24b0b2340b1e00b1da1104a10f040c7ad0c72d0bcf50b2d50b24d0b2360b1ce0b1c81103e10efc0c7af0c72f0bcf70b2d90b24f0b2380b1bc0b1b61103210f0e0c7b10c7310bcf90b2dd0b2510b23a0b1aa0b1a41102610f060c7b30c7330bcfb0b2e10b2530b23c0b1960b1901101a10f08)
  (.lf
  0x335c9335c5335c3335c1335bf335bb335b9335b7335b5335b1335af335ad335ab335a7335a5335a3335a13359d3359b335993359733593335913358f3358d335893358533583335813357d3357b3357933577335713356f3356d3356b33567335653356333575335613355d3355b33587335593355533553335513354d3354b335493354733543335413353f3353d335393353733535335333352f3352d3352b))
  (.nd (.lf
  0x3536435351352623525a3524b3526f350b8350bf34fd834fdd34fc234ff134f8434f8f34f3834f4534b1e34b0d34ac034ab336b1f36ac6369c936ab4369af36a7a3696136a5436a4936a4c368d936826367b536804367c1367d33674636740366f736720366ab3669b3668236687366023660f365c2365ae365833659c36587365613653836532363e336460363d736448363cf363f5363843636f360a636093)
  (.lf 0)))

def shaXorReads281 : BTree :=
  .nd (.nd (.nd (.lf
  0x2b9f72b9d72b9cc2b67a2f6ce2f68f2d9992c7f32b9f92b9d92b9ce2b67c2fd372f6c82d73d2c7572b9fd2b9db2b9d02b67e2f6c02f5ff2d71b2c7312b9ff2b9dd2b9d22b6802f7472f6b42d70b2c7332ba032b9df2b9d42b5222f69e2f6912d60f2c7352ba072b9e12b9d62b4802f6a12f5c42d5a52c7372ba0b2b9e32b9d82b4822f5c72f5b22d5a72c6f72ba0f2b9e52b9da2b4842f5a72f59a2d5672c6f9)
  (.lf
  0x1b6cd1b6cb1b6c71b6931b6911b68f1b68d1b6891b6871b6851b6811b67f1b67d1b67b1b6771b6751b6731b6711b66d1b66b1b6691b6671b6591b6571b6551b6531b64f1b6171b6151b6131b60f1b60d1b60b1b6091b6051b6031b6011b5ff1b5fb1b5f91b5f71b5f51b5f11b5ef1b5ed1b5eb1b5e71b5e51b5e31b5e11b5dd1b5d31b3e71b3e51b3d91b3d71b3d51b3d31adbf1adb91ad7d1ad7b1ad771ad75))
  (.nd (.lf
  0x242912427a1bdd61bbc516d6516d3516d30157661574a2565a25469242c7242932427c1bdc01bbc916d6916d3716d321572815710256442546d242cb242952427e1bdaa1bbcd16d6d16d3416ce5156ee156d82562e25471242cf24280242511bd941bbd116d7116d3616ce9156b6156a02561825475242d324282242551bd7e1bbd516d7516ced16ce41567e156682560225479242d724284242591bd681bbd9)
  (.lf
  0x181f9181f5181c9181bb181b9181b5181891817b181791817518145181371813518131180ff180f1180ef180eb180b9180ab180a9180a5180771806918067180631803718029180271802317ff717fe917fe717fe317fb317fa517fa317f9f17f6d17f5f17f5d17f5917f2b17f1d17f1b17f1717eeb17edd17edb17ed717ea717e9917e9717e9317e6117e5317e5117e4d17e1f17e1117e0f17e0b17ddb17dcd)))
  (.nd (.nd (.lf
  0x24a6624a5c24a502490a24902248f8248ee248e4248da248b8248ac248a4248982488e24886248562484e246c024658245d824be024bd424bd824bb624baa24bfe24afa24a8a24a9424948249322491a24864246f22469c2461a24bed24beb24be724be124bdd24bd724bd524bd924bd124bcd24bbf24bb724bb524bb324baf24bab24bff24b9324b8f24b0724afb24af924a8f24a8b24a8724a9524a7b24a77)
  (.lf
  0x16ac316ac116abf16abb16ab916ab716ab516ab116aaf16aad16aab16aa716aa516aa316aa116a9d16a9b16a9916a9716a9316a9116a8f16a8d16a8916a8716a8516a8316a7f16a7d16a7b16a7916a7516a7316a7116a6f16a6b16a6916a6716a6516a6116a5f16a5d16a5b16a5716a5516a5316a5116a4d16a4b16a4916a4716a4316a4116a3f16a3d16a3916a3716a3516a3316a2f16a2d16a1916a1716a13))
  (.nd (.lf
  0x15f2a15b5a15a7e1585515f1e15b5015a601581f15f1415b46159d8157e515f0a15b3c157ac157ab15f0215b32157701576f15ef815b28157321573115eec15b1e156f8156f715ee015b14156c0156bf15ed615b0a156881568715ed015b00156501564f15ec615af6156141561315ebc15aec155da155d915eb015ae21559e1559d15ea615aaa155641556315e6e15ad915aa21552815e6615a9615a57154f0)
  (.lf 0)))

def shaXorReads282 : BTree :=
  .nd (.nd (.nd (.lf
  0x3b4c03b4bd3b4bb3b4a03cdcd3c0a13bbd73b5b43b4793b46b3b4663b4603c83d3c06b3bb1b3b5723b42f3b4263b4243b41d3c8ab3c04d3ba5f3b51e3b3ef3b3e23b3dd3b3da3c6cd3bfc73b9b53b4e83b3cb3b3c23b3c13b3be3c6533bfa73b9013b4ba3b3903b30b3b2ef3b2e03c5fd3bfb13b8733b46a3b3863b32f3b30d3b2d03c5e73bf853b7ef3b42e3b31a3b30f3b2c03b2bb3c5a73bc213b7713b3ee)
  (.lf
  0x3b7133b7113b70d3b6f73b6cb3b6d53b6c93b6b93b65f3b66b3b65d3b6593b6473b6453b6333b6133b5e33b5e13b5dd3b5d13b5a73b5a53b5a13b5953b5673b55f3b55b3b5553b5333b5373b5313b52d3b5053b5033b4ff3b4d33b4b93b4b13b4ab3b4933b4773b47d3b4753b4713b4493b4473b4433b4373b3f53b3f93b3f33b3e53b3b53b3b33b3af3b3a53b3713b36f3b36b3b3693b35f3b3733b35d3b359))
  (.nd (.lf
  0x39ed039e6339931398a33988631c0a31bb92c5b12c5ac2c2362c0f639ec439e6739935398a53988a31bfc31bbd2c5b32c5ae2c2142c0f439ebe39e6b39939398a73988e31bf431bc12c5b52c5b02c1f42c0f239eb439e6f3993d398a93989231be831bc52c5b72c5b22c1d02c0f039e9c39e73398ab3989431be031bc92c5b92c5b42c19c2c0ee39e7c39e77398ad3989631bd831bcd2c5bb2c5b62c16a2c0ec)
  (.lf
  0x2ae712ae6d2ae6b2ae5d2ae5b2ae572ae552ae472ae452ae412ae3f2ae312ae2f2ae2b2ae292ae1b2ae192ae152ae132ae052ae032adff2adfd2adef2aded2ade92ade72add92add72add32add12adc32adc12adbd2adbb2adad2adab2ada72ada52ad972ad952ad912ad8f2ad812ad7f2ad7b2ad792ad6b2ad692ad652ad632ad552ad532ad4f2ad4d2ad3f2ad3d2ad392ad372ad292ad272ad232ad212ad13)))
  (.nd (.nd (.lf
  0x2965a29628295ea295e0295d6295ce295b8295b029590295862956a29560295582954e2953a29506294fc294f4294ea294e0294d028ce428c982a8b02a88c2a86a2a84c2a7ea2a7e22a7c22a7962a78e2a77c2a7602a74a2a7362a7162a7002a6ee2a6dc2a6c82a6b42a6a02a68c2a6702a6602a6562a6442a63c29f0229e8a29e8229e282a4b22a4942a4822a4722a4222a3f62a3d22a3b02a38e2a3722a346)
  (.lf
  0x23e0d23e0b23e0723cf723ccf253fa253f2253e6253de253d2253c6253c2253b4253c8253a22539c253982539a253782536e2536625360253522534c2533c253322532825320253162531025300252f6252ec252e6252d6252ce253fb253f9253f5253f3253f1253ef253eb253e9253e7253e5253e1253df253dd253db253d7253d5253d3253d1253cd253cb253c7253c5253c3253bf253bd253bb253b7253b5))
  (.nd (.lf
  0x2ffae302ea2ffec302de300f6302d8300f2302cc2ff10302c0302b83029830296301203000a301122ff98301082ffb2301002fff02ffd02ffce2ff7c2ff782ff2a2ff0e2ff26312fa31516312aa3150e312ce3150231298314fa31272314f031206314e63113c314dc311a8314d4310ec314c6310f0314be31012314b430f8c314aa30f623149c312d231494312a63148c3126e314863120a314783114031470)
  (.lf 0)))

def shaXorReads283 : BTree :=
  .nd (.nd (.nd (.lf
  0x10647106430c81b0bdb30bd660bd3d0bd220bc6212228119ea10635106310c81d0bdb70bd680bd3f0bd240bc641199011960106231061f0c81f0bdbb0bd410bd2a0bd260bc661195c105fb105f70c8210bdbf0bd430bd2c0bd280bc6812c4e112971123f1080d0c8bb0c83d0c8260c7e20c72212f8c12c6c11299112411080f0c8bf0c83f0c8280c7e40c72412f6412c541129b11243108110c8c30c8410c82a)
  (.lf
  0x1acb01ac901ac501ac301a8d01a8b01a8701a8501a4501a4301a3f01a3d01a0501a03019ff019fd019c5019c3019bf019bd0198701985019810197f0193f0193d0193901937018ff018fd018f9018f7018c1018bf018bb018b90187901877018730187101839018370183301831017fb017f9017f5017f3017b3017b1017ad017ab01773017710176d0176b01733017310172d0172b0170f01ee801eae01e68))
  (.nd (.lf
  0x2783e27834278282781e2781227808277fc277f2277e6277dc277d8277d628c1828c0428bf828bee28be228bd828bcc28bc228bb628bac28ba028b9628b8a28b8028b7428b6a28b5e28b5428b4828b3e28b3228b2828b1c28b1228b0628afc28af028ae628ada28ad028ac428aba28aae28aa428a9828a8e28a8228a7828a6c28a6228a5628a4c28a4028a3628a2a28a2028a1428a0a289fe289f4289e8289de)
  (.lf 0))) (.nd (.nd (.lf
  0x39d6239d5839d4e39d4439d3a39d2e39d2639d1a39d1239d0a39cfe39cf439cea39ce239cd839ccc39cc439cba39cb039ca639c9c3a5683a55c3a5503a5463a53a3a5283a5203a5143a50a3a4f63a4ee3a4e43a4dc3a4d03a4c43a4b83a4ac3a4a03a4943a4883a47c3a4703a4643a4583a4463a3f63a3ea3a3e23a3d63a3ce3a7003a6f63a6e23a6da3a6c83a6c03a6823a6783a66e3a6423a63a3a6123a608)
  (.lf
  0x919b091970919509193091910918d0918b091890918709183091810917f0917d091790917709175091730916f0916d0916b091690916509163091610915f0915b091590915709155091510914f0914d0914b091470914509143091410913d0913b091390913709133091310912f0912d091290912709125091230911f0911d0911b091190911509113091110910f0910b09109091070910509101090ff090fd))
  (.nd (.lf
  0x7e6b07e5e07e2907e1c07de507dd807da307d9607d5f07d5207d1907d0c07cd707cca07c9307c8607c4d07c4007c0b07bfe07bcb07bbe07b8b07b7e07b4b07b3e07b0b07afe07acb07abe07a8b07a8607a7108e9d08e6508e5808e2108e1408ddf08dd208d9f08d9208d5b08d4e08d1908d0c08cd908ccc08c9908c8c08c5908c4c08c1508c0808bcf08bc208b8d08b8008b4d08b4008b0d08b0008ac908abc)
  (.lf 0)))

def shaXorReads284 : BTree :=
  .nd (.nd (.nd (.lf
  0x3ca273b6783b6723b6703b66f3b66d3e9123e5083ceab3cea73ca133bd763b63a3b6393b6363b6353e8ee3e50e3ce973ce933ca013bd733bb963b5e43b5d43b5d33e8dc3e56a3ce833ce7b3c9eb3bb9b3baa63b59a3b5983b5973e8d23e4ea3ce6b3ce673c9d33ba753ba303b5603b5593b5563e8c83e4de3ce5b3ce553c9c53ba3f3b8e63b53c3b53a3b5393e8b03e56c3ce493ce433c9b33b8ef3b8403b4f1)
  (.lf
  0x30bc02f8c030b202f90030a802f940309e02f980309402f9c0308a02fa00308002fa40307602fa80306c02fac0306202fb00305802fb40304e02fb80304402fbc0303a02fc00303002fc40302602fc80301c02fcc0301202fd00300802fd402ffe02fd802ff402fdc02fea02fe002fe603bee0445003bf20441803bf6043d403bfa0438e03bfe0434803c020430603c06042c603c0a0428203c0e0424003c12))
  (.nd (.lf
  0xe9200e9400e9600e9800e9a00e9c00e9e00ea000ea200ea400ea600ea800eaa0070000704007080070c0071000714007180071c0072000724007280072c0073000734007380073c0074000744007480074c0075000754007580075c0076000764007680076c0077000774007780077c00eec00eee00ef000ef200ef400ef600ef800efa00efc00efe00f0000f0200f0400f0600f0800f0a00f0c00f0e00f10)
  (.lf
  0x34d7d34d7934d7534d7334d7134d6b34d6934d6734d6534d6134d5f34d5b34d5934d5534d5334d4f34d9734d4d34d4934d4734dc134d4534d4134d3d34d3b34d3734d3534d3334d3134d2d34d2b34d2934d2734d2334d1b34d1734d1534d1134d0f34d0d34d1f34d0b34d0734d0534dbb34d0334cff34cfd34cfb34cf734cf534cf134cef34ceb34ce734ce534ce334cdf34cdb34c3d34c3734c3334c3134c2d)))
  (.nd (.nd (.lf
  0x14730145c0139801358042940425602c0502b850204101501014750145e0139a0135a042640421802c0702b87020430150501477014600139c0135c0420e041d002c0902b89020450150901479014620139e0135e041de0419202c0b02b8b020470148d0147b01464013a001360041880414a02c0d02b8d02049014910147d01466013a201362041580410c02c0f02b8f0204b014950147f01468013a401364)
  (.lf
  0x2c4c32c50f2c4c12c4bd2c4bb2c4b92c4b52c4a92c4a72c4a52c47f2c47d2c47b2c4792c4752c4732c46f2c46d2c4692c4672c4652c4632c4552c4532c4512c44f2c4272c4232c4212c41f2c41b2c4192c4172c4152c4112c40f2c40b2c4092c4052c4032c3ed2c3eb2c3e72c3e52c3d52c3d32c3c52c3c32c3c12c3bf2c3ad2c3ab2c3a92c3a72c2a52c2a12c2952c2932c2852c2812c2752c2692c2672c261))
  (.nd (.lf
  0x3235b3245c321fd324563208f324453242a32421323fa323ef323cc323c1323a43239e3237b323943235f323633220c322013209e320933203632025336e73383c336c93382e3375133828336cb3381e33753338143369b3380a336773380033701337f63363f337ec33703337e23339f337d833373337ce33337337c4336e5337ba336c7337b03374f337a6336953379c33673337923365933788336393377e)
  (.lf 0)))

def shaXorReads285 : BTree :=
  .nd (.nd (.nd (.lf
  0x1b5db1a64f1a6181a5f31a5e81a5521f3aa1f23c1c09d1c0991b3e31a6531a61a1a5f51a4161a3f81f3a21f22c1c0671c0631b3ab1a6571a61c1a5f71a4181a3fa1f39a1f35c1c00d1c0091b3ad1a65b1a61e1a5f91a41a1a3fc1f3701f2021bfdb1bfd71b3af1a65f1a6201a5fb1a41c1a3fe1f1f61f1b01bf911bf8d1b3b11a88b1a8841a8831a8801a8781f1a81f1941bf4b1bf471b3b31a6631a5fd1a5ea)
  (.lf
  0xba790ba770ba730ba710ba6d0ba6b0ba690ba650ba630ba6f0ba610ba5d0ba5b0ba590ba550ba530ba510ba850ba4f0ba4b0ba490ba470ba430ba410ba3f0ba3d0ba390ba370ba350ba330ba2f0ba2d0ba290ba2b0ba270ba230ba210ba1f0ba1b0ba190ba150ba170ba130ba0f0ba0d0ba0b0ba090ba050ba030ba010b9fd0b9fb0b9d90b9d70b9d30b9d10b9b90b9a70b9a30b9a10b99f0b9a90b99d0b995))
  (.nd (.lf
  0x39315392e2392db392d0392cf392b6392b13929f39b9139c2e39b8539c2439b7539c1a39b7b39c0c39b6739c0639b6339bfc39b4939bf039b3f39be839b3139bda39b3539bb639b3739baa39b0f39ba239b0339b9839af539ae139ade39aca39ab139ac039a9d39ab939a9e39a7d39a7639a6939a5e39a4839a1939a4039a3939a2639a03399fa399f7399e4399e1399c83997b399be39971399a8399633999c)
  (.lf
  0xfed70fed30fe870fe790fe770fe730fe290fe1b0fe190fe150fdcb0fdbd0fdbb0fdb70fd690fd5b0fd590fd550fd0d0fcff0fcfd0fcf90fcad0fc9f0fc9d0fc990fc510fc430fc410fc3d0fbf50fbe70fbe50fbe10fb970fb890fb870fb830fb350fb270fb250fb210fad50fac70fac50fac10fa770fa690fa670fa630fa1d0fa0f0fa0d0fa090f9c10f9b30f9b10f9ad0f95f0f9510f94f0f94b0f8f70f8f1)))
  (.nd (.nd (.lf
  0x11f6e11dd211d8811cb611c6c11c2211b9411b4c11b04119d2121e3120df120db120d912095120911208f1204d1204912047120051200111fff11fbd11fb911fb711f7511f7111f6f11dd911dd511dd311d8f11d8b11d8911cbd11cb911cb711c7311c6f11c6d11c2911c2511c2311b9b11b9711b9511b5311b4f11b4d11b0b11b0711b05121ab121a7121aa121671216312166121231211f12122120de12094)
  (.lf
  0x121b7121b3121a11217712175121711215d12133121311212d12119120ef120ed120e9120d1120a7120a5120a1120871205f1205d120591203f12017120151201111ff711fcf11fcd11fc911faf11f8711f8511f8111f6711f3f11f3d11f3911f2311ef911ef711ef311edf11eb511eb311eaf11e9b11e7111e6f11e6b11e5711e2d11e2b11e2711e1311de911de711de311dcb11da111d9f11d9b11d8111d57))
  (.nd (.lf
  0x1465a146381463d14639159cc1599c1595e15928158ec158b0158741583e15808157cc157941575615718156e0156a81567015638155fa155c2155841554c15510154da154a4154681542c153f0153ba1537c153811537d1537b16462164481642616404163e2163c6163a41638216366163441632216300162de162bc162a01628416262162401622416208161ec161ca161ae1619216176161541613216116)
  (.lf 0)))

def shaXorReads286 : BTree :=
  .nd (.nd (.nd (.lf
  0x27faa27fa42c6742c24c2a64f2a64b28f11287d12874d2860a27e5427e4e2c66c2c22a2a72d2a72928ef32877f2871b2860c28546285402c6582c21229f2929f2528ec328755286c5285d027c1a27c142c6402c1e829f3d29f3928ea728723286c7285b027c0827c022c6262c1be29eaf29eab28e6b286dd286c9285bc27bfa27bf42c61e2c3a229e9729e932913d286e128673285a027bdc27bd62c1462c0e0)
  (.lf
  0x295ed295eb295e7295e5295e3295e1295dd295db295d929615295d7295d3295d1295cf295cb295bd295bb29647295b9295b5295b3295b1295ad2959b29593295912958d2958b2958929587295832956f2956d2956b2956729565295632963b295612955d2955b295592955529553295512954f2954b295412953d2953b295372950b29509295072950329501294ff29525294fd294f9294f7294f5294f1294ef))
  (.nd (.lf
  0x31732315ab3042d303d6303ad2642c26379224932240b2240220fce20b2631726315af30431303d8303af264222637d224972240f2240620f9e20b0e3171a315b330435303da303b126418263812249b224132240a20f8e20af63170c315b730439303dc303b32640e263852249f224172240e20f6820cc4316fa315bb3043d303de303b526404263892241b2241220f6220d3e316f4315bf30441303e0303b7)
  (.lf
  0x1e3cd1e3c91e3c71e3b91e3b71e3b31e3b11e3a31e3a11e39d1e39b1e38d1e38b1e3871e3851e3771e3751e3711e36f1e3611e35f1e35b1e3591e34b1e3491e3451e3431e3351e3331e32f1e32d1e31f1e31d1e3191e3171e3091e3071e3031e3011e2f31e2f11e2ed1e2eb1e2dd1e2db1e2d71e2d51e2c71e2c51e2c11e2bf1e2b11e2af1e2ab1e2a91e29b1e2991e2951e2931e2851e2831e27f1e27d1e26f)))
  (.nd (.nd (.lf
  0x3be583be4e3be443be383be2c3be203be143be063bdfe3bdf43bdea3bde23bdd03bdc83bdbe3bdb63bb4e3baee3b9f63b9223b8883c3523c3403c32c3c2d23c12e3c1043c0f43c0e83c0da3c08c3bf623bf783bc103bb3e3b9d03b9523c35b3c3593c3553c3533c34f3c3413c33f3c33b3c32d3c3293c2f93c2d33c2cf3c1393c12f3c12d3c10d3c1053c1033c0ff3c0f53c0f33c0f13c0e93c0e73c0e33c0db)
  (.lf
  0x1efab1efa91efa71efa31ef9f1ef9d1ef9b1ef971ef931ef911ef8f1ef8b1ef871ef851ef831ef7f1ef7d1ef791ef771ef731ef6d1ef6b1ef691ef651ef631ef5f1ef5d1ef591ef571ef551ef531ef4f1ef4b1ef491ef471ef411ef3f1ef3d1ef3b1ef351ef331ef311ef2f1ef2b1ef291ef251ef231ef1f1ef1d1ef191ef171ef131ef111ef0f1ef0d1ef091ef071ef051ef031eeff1eef51eef11eeef1eeeb))
  (.nd (.lf
  0x3b72b3b70c3b7023b6f43b6d23b6b83b6ae3b6a53b67f3b6683b6603b6583b6483b6303b6153b6123b5ed3b5dc3b5d63b5ce3b5a93b5a03b58c3b58a3b5693b55a3b54c3b54a3b5343b52c3b5113b50c3b4fe3b4f63b4d93b4d03b4a23b4993b4963b4923b4703b45d3b4543b4523b4423b4343b4193b4143b4003b3f63b3e43b3d73b3b73b3ae3b39c3b39a3b36a3b2e43b29a3b28f3b3563b2d43b29c3b283)
  (.lf 0)))

def shaXorReads287 : BTree :=
  .nd (.nd (.nd (.lf
  0xcad10c07b0bfef0bfe40bfd81162f105f30dbf50cb770cae90cade0ca9211631105e50dbd70dbbe0cb7b0caeb0cae00ca9411633105d50dbb50db9c0cb7f0caed0cae20ca9611635105c50db930db7a0cb830caef0cae40ca9811637105b30db710db580cb870caf10cae60ca9a11639105a30db4f0db360cb8b0caf30cae80ca9c1163b105930db2d0db140cb8f0caf50caea0ca9e1163d105830db0b0daf2)
  (.lf
  0x3c6ab3c6a93c6a53c6a33c6a13c69f3c69b3c6993c6673c6653c6613c6473c5cd3c5cb3c5c73c5c33c5593c55d3c5573c5533c5513c54f3c54b3c5493c5453c5433c53f3c53b3c5153c5133c50f3c50d3c4d73c4d93c4d53c4cd3c49d3c4993c4973c4933c4913c48f3c3d53c3d33c3cf3cdb03cda43cd983cd8e3cd823cf5c3cd703cd643cdb83cd1c3cd103cdbe3ccfe3ccf23cce63ccda3ccd03ccc03ccb8))
  (.nd (.lf
  0x152b61548a152ba1544e152be15412152c2153da152c6153a0152ca15362152ce1532e152d2152d810412103d6103941037e103321031c102d6102c01027a102641021c10206101be101a8101641014e10104100ee100a8100921004c100360ffee0ffd80ff8c0ff760ff300ff1a0fed00feba0fe700fe5a0fe120fdfc0fdb40fd9e0fd520fd3c0fcf60fce00fc960fc800fc3a0fc240fbde0fbc80fb800fb6a)
  (.lf 0))) (.nd (.nd (.lf
  0x3f87a3f8383f7f040160401564017c400cc4001e4000c403604028c402b44024840214402d2402ec4029c4023240242401fc4019e401844016a4018a401364009c4004a4002a402d64027c402984023840210402da401a2410824104c410344101c41154411584148a412f4412dc412bc411244148e41300412d4412a04114c410f44109a410d44104e410384102441010410004152a41482412f8412d2412a4)
  (.lf
  0x1d7b01d7f01d7901d7501d3d01d3b01d3701d3501cf501cf901cf301cef01cb501cb901cb301caf01c7701c7501c7101c6f01c3101c2f01c2b01c2901be901bed01be701be301bab01ba901ba501ba301b6501b6301b5f01b5d01b1f01b1d01b1901b1701ad701adb01ad501ad101a9901a9701a9301a9101a5101a5501a4f01a4b01a1101a1501a0f01a0b019d1019d5019cf019cb01993019910198d0198b))
  (.nd (.lf
  0x666e0663a06628065f8065e6065b8065a606578065660653406522064f2064e0064ae0649c06468064560642206410063dc063ca0639a06388063560634406310062fe062ce062bc0628a06278062480623606204061f2061c2061a8075e8075d8075ac0759a0756a075580752607514074e0074ce0749e0748c0745e0744c0741e0740c073de073cc0739e0738c0735e0734c0731e0730c072de072cc0729a)
  (.lf 0)))

def shaXorReads288 : BTree :=
  .nd (.nd (.nd (.lf
  0xdc1708cfe08cbc0f6a10f6770f6720f4700f3310f1510f1250f10e0dd860dc1b08cbe08c7c0f6a50f6790f6740f4660f3350f1550f1270f1100dd7c0dc1f08c7e08c3e0f6a90f67b0f6760f45c0f3390f1590f1290f1120dd720dc4f08c3408bf80f6ad0f67d0f6780f4520f33d0f15d0f12b0f1140dd680dc5308bee08bb00f6b10f67f0f67a0f4480f3410f1610f12d0f1160dd5e0dc5708bb208b700f6b5)
  (.lf
  0x2dc3c2da0b2dc342d9f12dc2c2d9a52dc222d7472dc142d7292dc0e2dbb72dc062dbbb2dbf82db6d2dbee2db492dbe62db132dbde2db172dbd92f02d2f22a2efd12f2202ef9b2f2142eebb2f2082eecf2f2002ee1b2f1f62f0372f1ec2efe52f1e42efa52f1da2ef032f1d02ef072f1c62f03b2f1bc2efe92f1b22efa92f1aa2ef0b2f19e2ef0f2f0c62ee292f0bc2ee2d2f0882ede32f07a2edbf2f0722edd1))
  (.nd (.lf
  0xaa8a0aa8e0aa920b5180b51c0b5200b5240b5280b52c0b5300b5340b5380b53c0b5400b5440b5480b54c0b5500b5540b5580b55c0b5600b5640b5680b56c0b5700b5740b5780b57c0b5800b5840b5880b58c0b5900b5940c01a0c01e0c0220c0260c02a0c02e0c0320c0360c03a0c03e0c0420c0460c04a0c04e0c0520c0560c05a0c05e0c0620c0660c06a0c06e0c0720c0760c07a0c07e0c0820c0860c08a)
  (.lf
  0xdb000d9000d7000d3000d1000cf000cd000c9000c7000c5000c3000bf000bd000bb000b9000b5000b3000b1000af000ab000a9000a7000a5000a10009f0009d0009b000970009500093000910008d0008b000890008700083000810007f0007d000790007700075000730006f0006d0006b000690006500063000610005f0005b000590005700055000510004f0004d0004b00047000450004302b6402b2c)))
  (.nd (.nd (.lf
  0x6e9406e910921b085fd07a49079bf079b4079a806e5a06e570921d085ff07a4d079c1079b6079aa06e3309e4f0921f086a5086170860c085c00824d09e5109221086a9086190860e085c2082270822009e5309223086ad0861b08610085c4081ed081e409e5509225086b10861d08612085c6081a6081a309e5709227086b50861f08614085c8081670815e09e5909229086b90862108616085ca081270811e)
  (.lf
  0x37cff37d0d37cfd37cf937cf737cf537cf137cef37ceb37ce937ce537ce337ce137ced37cdf37cdb37cd937cd737cd337cd137ccf37ccd37cc937cc737cc537cc337cc137cbd37cbb37cb937cb537cb337cb137caf37cab37ca937ca737ca537ca137c9f37c9d37c9b37c9737c9537c9337c9137c8d37c8b37c5137c4f37c4b37c4937c4737c4537c4137c3d37c3b37c3937c3537c3337ba738490384843847a))
  (.nd (.lf
  0x2cfc42cfc82e0982e7b82e09c2e7b22e0a02e7302e0de2e72a2e0e22e6aa2e0e62e6a42e0ea2e6602e0ee2e6222e0f22e5e42e0f62e5a62e0fa2e5682e0fe2e52a2e1022e4f22e1062e22a2e10a2e2202e10e2e2122e1122e2062e1162e1fc2e11a2e1ee2e11e2e1e62e1222e1d82e1262e1ce2e12a2e1c62e12e2e1b82e1322e1ae2e1362e1a02e13a2e19a2e13e2e1882e1422e1822e1462e15e2e14a2e14e)
  (.lf 0)))

def shaXorReads289 : BTree :=
  .nd (.nd (.nd (.lf
  0x2467f2467b234fd23209231ca231a5229fe229f2269942691e2463924635234e32320d231a723194229cc229c62691a245eb245e72334123211231a923196229902298a282182613d2613924d0f23dfb23de723de223dde23dce283922820026103260ff24d1123dff23de923de423de023dd02838a281fa260db260d724cd923dbb23db123dae23dac23da628370281e425ff525ff124cc123d8f23d6723d5e)
  (.lf
  0x23fcd2410723fcb23fc723fc523fc323fbf23fbd23fbb23fb923fb523fb323fb123faf23fab23fa923fa723fa523fa123f9f23f9d23f9b23f9723f9523f9323f9123f8d23f8b23f8923f8723f8323f8123f7f23f7d23f7923f7723f7523f7323f6f23f6d23f6b23f6923f6523f6323f6123f5f23f5b23f5923f5723f5523f5123f4323f4123f3f23f3b23f3923f3723f3523f31237e5237e3237e1237dd237db))
  (.nd (.lf
  0x1db251db201c3021bec42d0c82cf7d2bdef2bdbb2bda41e8781e6871db591db271db221c2f81bf0a2d0ba2cf812bdf32bdbd2bda61e8621e68b1db5d1db241dad51c2f01bec62d0b22cf852bdf72bda82bd791e84c1e68f1db611db261dad91c2cc1bf082d0a62cf892bdfb2bdaa2bd7d1e8361e6931db651dadd1dad41c2c41bec82d0962cf8d2bdff2bdac2bd811e8201e6971db691dae11dad81c2bc1bf06)
  (.lf
  0x1edef1edeb1ede91edcf1edcd1edc91edc71edad1edab1eda71eda51ed8b1ed891ed851ed831ed691ed671ed631ed611ed471ed451ed411ed3f1ed251ed231ed1f1ed1d1ed031ed011ecfd1ecfb1ece11ecdf1ecdb1ecd91ecbf1ecbd1ecb91ecb71ec9b1ec991ec951ec931ec771ec751ec711ec6f1ec531ec511ec4d1ec4b1ec2f1ec2d1ec291ec271ec0b1ec091ec051ec031ebe71ebe51ebe11ebdf1ebc3)))
  (.nd (.nd (.lf
  0x318dc318ca318ba31884317d03167831632320ea320e0320d631fa231f9831f8c31f8031f7631f6a31f6031f5631eda31ed031e5e31a5431a4831a3e31a3231a2631a1c319983194431926318fc318f23189c31864317b431684316483207032062320563204a31fea31fdc31e7431ddc31dc631d4431d2431cf431b2a3224532241322443223932231322383222e3206e3206032054320473203f320463203d)
  (.lf
  0x1a9031a9011a8fd1a8fb1a8f91a8f71a8f31a8f11a8ef1a8ed1a8e91a8e71a8e51a8e31a8df1a8dd1a8db1a8d91a8d51a8d31a8d11a8cf1a8cb1a8c91a8c71a8c51a8c11a8bf1a8bd1a8bb1a8b71a8b51a8b31a8b11a8ad1a8ab1a8a91a8a71a8a31a8a11a89f1a89d1a8991a8971a8951bb681bb601bb521bb561bb401bb381bb2c1bb261bb181bb1a1bb041bafe1baf01baea1bae21bad01bac81bac01bab2))
  (.nd (.lf
  0x29f3429efe29efb29ef229ea629e8629e7929e7029e8e29e7d29e6829e6629e3e29e2c29e2429e0d29e1029e0f2b7f22b7f12b8902b8362b7f42b7e32b8882b8042b7ea2b7d52b8382b7e82b7e42b7d12b7982b76e2b7662b7632b7342b7262b71a2b7172b6e42b6d62b6d02b6cd2b69a2b68a2b6872b6842b64c2b6202b61e2b61b2b5f82b59e2b5722b5712b5ee2b5942b5782b55f2b5be2b58a2b5772b574)
  (.lf 0)))

def shaXorReads290 : BTree :=
  .nd (.nd (.nd (.lf
  0x331d0331ca37a9a376ec3540d35409343313366f3364e331ad331aa331a437a9437692354e5354e134249336513363233189331863318037a7037688353d7353d334211336f6336353317b331783317237a643767c353c5353c1341b9336f93339433165331623315c37a523766e3539d3539934171333973336e330033300032ffa37a4c37694353ad353a934147336db333713329e32f9032f8a377ac37660)
  (.lf
  0x41e8541e8341e7f41e7d41e7141e6f41e6b41e6941e6741e6541e6341e5f41e5d41e5b41e5741e5341e5141e5541e4f41e4b41e3341e7341e3141e2d41e2b41e2941e2541e2341de941de741de341de141dd541e3741dd341dcf41dcb41dc941dc541dc341daf41dad41da941da741da541da341d9f41d9941d9741d9d41d9541d9141d8f41d8d41d8941d8741d8541d9b41d8341d7f41d7d41d7b41d7741d75))
  (.nd (.lf
  0x39a6f374f8372293720f3720a371e839d7e39a55374ec3730f372113720c371fa39d7439a3f374e037289372133720e3720439d6439a35374da3731337215372103720639d5c39c51374c83728d3721737212371ae39d5239c55374be3729137219372143720039d4839c59374b63722d3721b372163719a39d3c39c5d374a437231372183706d3706839d3639c613749e372353721a370713706a39d2a39c65)
  (.lf
  0x31829318233181f3181d3182d3181b3181731815318133180f3180b318093180731803317ff317e7317e5317e1317df317db317d9317d5317a13179d3179b317973179531793317913178d3178b3178931787317833177f317793177b3177731773317713176f3176b317693176731765317613175f3175d3175b3175731755317513174f3174b3174731745317433173f3173b3173931737317333172f3172d)))
  (.nd (.nd (.lf
  0x3a1463a14a3a14e3a1523a1563a70a3a70e3a6ea3a7223a6d03a7303a6923a7123a7163a71a3a7263a6ee3a7343a6d23a7383a6963a69a3a69e3a6503a6523a6283a61c0cee40cee80ceec0cef00cef40cef80cefc0cf000cf040cf080cf0c0cf100cf140cf180cf1c0cf200cf240cf280cf2c0cf300cf340cf380cf3c0cf400cf440cf480cf4c0cf500cf540d58a0d58e0d5920d5960d59a0d59e0d5a20d5a6)
  (.lf
  0x2985d2985b298572985529853298512984d2984b298472984929845298412983f2983d298392983729835298332982f2982d2982b298292982529823298212981f2981b2981929817298152980f2980b298092980d298072980329801297fd297f9297f7297f5297f3297ef297ed297eb297ff297e9297e5297e329813297e1297dd297db297d9297d5297d3297d1297cf297cb297c9297c7297c5297c3297bf))
  (.nd (.lf
  0x1792f17974179331796a178731796017853179561785717951188ef18a48188f318a3e1891118a341891518a2a1893918a20188c118a161894318a0c1888d18a0218861189f818835189ee18809189e4187e7189da187cd189d01891b189c61891f189bc18923189b2188c5189a8189471899e1889118994188651898a18839189801880d18976189271896c1892b189621892f18958188c91894b1889e18895)
  (.lf 0)))

def shaXorReads291 : BTree :=
  .nd (.nd (.nd (.lf
  0x15a2e15a1618d2418d02174a11749116a1b15ccf15c5515c40159e8159dc18d00174a3174931651715cd315c5715ad6159ea159de1a3f4188ed188e5178db16999169671695c1694a169301a8241a3d0188f1188e7178dd1699d169691695e1694c169321a81a1a39c188ff188fb178df169a11696b169601694e169341a8121a360188b7188b3178e1169a51696d1696216950169361a8081a3221893718933)
  (.lf
  0x7fc107fd107fbf07fbb07f8107f9107f7f07f7b07f4107f5107f3f07f3b07f0107f1107eff07efb07ec307ec107ebd07ebb07e7d07e7b07e7707e7507e3507e4507e3307e2f07df707df507df107def07daf07dbf07dad07da907d7107d6f07d6b07d6907d2b07d2907d2507d2307ce307cf307ce107cdd07ca507ca307c9f07c9d07c5f07c5d07c5907c5707c1707c2707c1507c1107bd707be707bd507bd1))
  (.nd (.lf
  0x1e4681e45f1e4521e4491e43c1e4331e4261e41d1e4101e4071e3fa1e3f11e3e41e3db1e3ce1e3c51e3b81e3af1e3a21e3991e38c1e3831e3761e36d1e3601e3571e34a1e3411e3341e32b1e31e1e3151e3081e2ff1e2f21e2e91e2dc1e2d31e2c61e2bd1e2b01e2a71e29a1e2911e2841e27b1e26e1e2651e2581e24f1e2421e2391e22c1e2231e21e1e21d229372292622923229102290d228fa228f7228e4)
  (.lf 0))) (.nd (.nd (.lf
  0x9500094ba0947409432093f2093b20937209ad609a50099ca09944097fe097b8096b20966c09626095e00959a09514094ce094880934209b1109afb09af709ad709a7b09a7709a51099f5099f1099cb0996f0996b099450982909825097ff097e3097df097b9096dd096d9096b309697096930966d096510964d096270960b09607095e1095c5095c10959b0953f0953b09515094f9094f5094cf094b3094af)
  (.lf
  0xbed30bed10becd0becb0bec90bec70bec30bec10bebf0bebd0beb90beb70beb50beb30beaf0bead0beab0bea90bea50bea30bea10be9f0be9b0be990be970be950be910be8f0be8d0be8b0be870be850be830be810be7d0be7b0be790be770be730be710be6f0be6d0be690be670be650be630be5f0be5d0be5b0be590be550be530be510be4f0be4b0be490be470be450be410be3f0be3d0be3b0be370be35))
  (.nd (.lf
  0x329b1329aa3297d3297432917329143285f328583282f328203280432801327cc327cb3279933fd5347d233fc93469833fd93457233fdd3456c343193455e342fd345543431f34312342f73430734302342aa33f833429c33fdb3429233f6b3428a341173427e33f5534351342743426a3411d3426233f393422e3422d341ed341ea3418633f773417a33f153412b3412633d6133d5833cf633abb33cba33ad3)
  (.lf 0)))

def shaXorReads292 : BTree :=
  .nd (.nd (.nd (.lf
  0x47f41eda41ac401f4700e010065400607005eb005e00055e0047d41ed441ab001f4900e030065600609005ed005e2005540047b41ecc41ab801f4b00e05006580060b005ef005e40054a0047941ebc41a8601f4d00e070065a0060d005f1005e6005400047741eb441aa201f4f00e090065c0060f005f3005e8005360047541eac41a4601f5100e0b0065e00611005f5005ea0052c0047341720416f601f53)
  (.lf
  0x2bae62ba302bae02ba342bad42ba382baca2ba3c2babc2ba402bab62ba442baac2ba482baa42ba4c2ba962ba502ba8c2ba542ba822ba582ba7a2ba5c2ba6a2ba602ba682c8422c9dc2c8462c9d22c84a2c9c82c84e2c9be2c8522c9b42c8ec2c9aa2c8562c9a02c85a2c9962c85e2c98c2c8622c9822c8662c9782c86a2c96e2c86e2c9642c8722c95a2c8762c9502c87a2c9462c87e2c93c2c8822c9322c886))
  (.nd (.lf
  0x77b0077b4077b80839008394083980839c083a0083a4083a8083ac083b0083b4083b8083bc083c0083c4083c8083cc083d0083d4083d8083dc083e0083e4083e8083ec083f0083f4083f8083fc0840008404084080840c08fee08ff208ff608ffa08ffe09002090060900a0900e09012090160901a0901e09022090260902a0902e09032090360903a0903e09042090460904a0904e09052090560905a0905e)
  (.lf
  0x3949f394993949739495394933948f3948d3948b39489394853947b394793947f3947739473394713946f3946b394693946739465394613945d3945b3945939455394533944f3944d3944739445394433944139433394313942f394373942d39429394273943b39425394213941f3941d394193941539413394113940b39409394073940539401393ff393fb393f9393f5393f3393ef393ed393e3393e1393df)))
  (.nd (.nd (.lf
  0x8f3f08ebf08321077b50772707710076cc0760c0a4a40a2e608f4108ec108323077b90772907712076ce0760e0a2dc0a2b808f4308ec3083250773d0772b07714076d0076100a4a00a28e08f4508ec508327077410772d07716076d2076120a2840a26008f4708ec708329077450772f07718076d4076140a49c0a23608f4908ec90832b07749077310771a076d6076160a22c0a20a08f4b08ecb0832d0774d)
  (.lf
  0x30ef930ebf30ebd30ebb30eb930eb530e1930e1530e1330e0f30e0d30e0b30e1b30e0930e0530e0330e0130dfd30ccb30cc930ccf30cc730cc330cc130cbf30cbb30cb930cb730cb530cb130caf30cad30cab30ca730ca530ca330cd530ca130c9d30b5530b5730b5330acf30ac930ac730ac330abd30aa930aa730aa330aa130a9f30ad330a9d30a9930a9730a9530a6530a6130a0930a0d30a0730a0130997))
  (.nd (.lf
  0x19d1e1a87519cd019cc919c921a85b1b37d1b7da1b5c31b7d01b31f1b7c81b5c11b7be1b2b11b7281b3c31b71e1b3831b7141b3b71b70a1b3c11b7001b1931b6e41b1571b6cc1b1191b6901b0db1b6861b0a71b67e1b06f1b6741b0371b66c1afff1b6581afc71b64e1af8f1b60c1af571b6021af211b5fa1aee71b5f01aeaf1b5e61ae751b3e61ae391b3d81adfb1adbd1ad7c1ad731ad361ad2d1acf41aceb)
  (.lf 0)))

def shaXorReads293 : BTree :=
  .nd (.nd (.nd (.lf
  0x28df428c212735925dd725255252352522a2516e28de228c232735b25db725259252372522c2517028ddc28c1f2735d25d2b2525d252392522e2517828dd028c2d2729b25d2d252612523b252302514228dc428c2f272ad25ca3252652523d252322514428db828c692727d25c4b252692523f252342511428dac28c2b2726d25bb72526d25241252362511628da028c672726125b8f25271252432523825118)
  (.lf
  0x1686b168691686516863168611685f1685b168591685716855168511684f1684d1684b168471683d1683b168391683516833168271682516821167f5167f3167f1167ed167eb167e9167e7167e3167e1167df167dd167d9167d7167d5167d3167c9167c5167c3167c1165cd165cb165c9165c7165c3165c11658d1658b165891658516583165811657d1657b165791657716573165711656f1656d1656916567))
  (.nd (.lf
  0x120ce209ab209852096e183fa17ca3136731364f1364a120b0120ad120a012084209af2098720970183c217ca713677136511364c1206612063120581203c209b320989209721838a17cab1367b136531364e1201e1201b1201011ff4209b72098b209741834a17caf1367f136551365011fd611fd311fc811fac209bb2098d209761830a17cb313683136571365211f8e11f8b11f8011f64209bf2098f20978)
  (.lf
  0xe51b0e5170e5150e5130e5110e50d0e50b0e5090e5070e5030e5010e4ff0e4fd0e4f90e4f70e4f50e4f30e4ef0e4ed0e4eb0e4e90e4e50e4e30e4e10e4df0e4db0e4d90e4d70e4d50e4d10e4cf0e4cd0e4cb0e4c70e4c50e4c30e4c10e4bd0e4bb0e4b90e4b70e4b30e4b10e4af0e4ad0e4a90e4a70e4a50e4a30e49f0e49d0e49b0e4990e4950e4930e4910e48f0e48b0e4890e4870e4850e4810e47f0e47d)))
  (.nd (.nd (.lf
  0x1cff01cfe41cfd81cfcc1cfbe1cfb21cfa61cf9a1cf8e1cf821cf761cf6a1cf5e1cf521cf461cf3a1cf2e1cf221cf161cc801cc5e1cc3c1cc1a1cbf01d4101d4061d3fc1d3f21d3e81d3de1d3d41d3ca1d3be1d3b41d3aa1d3a01d3961d38c1d3601d3561d3341d3081d2de1d2ac1d1ca1d1c01d1b21d1a81d1901d0361d02c1d0201d0161d00c1d5d41d5681d5f01d4b81d47e1d4441d3101d2e41d21a1d1f6)
  (.lf
  0x1547f1547d154791545f15443154411543d15423154071540515401153eb153cf153cd153c9153b115393153911538d1537315355153531534f1533f15313153111530d152ff152e9159ca159961595c15922158e6158aa158721583c15802157ca1578e1575015716156de156a61566e15632155f8155bc15582155461550e154d81549e1546215426153ee153b4153761534215302159cb159a7159a315997))
  (.nd (.lf
  0x7ba507b9c07b9807b9007b6507b5c07b5807b5007b2507b1c07b1807b1007ae507adc07ad807ad007aa507a9c07a9807a9007a7c07a7708ea608ea308e7b08e7408e7008e6a08e3808e3408e2c08e2908df908df008dec08de408db908db008dac08da408d7208d6e08d6608d6308d3308d2a08d2608d1e08cf308cea08ce608cde08cb308caa08ca608c9e08c7308c6a08c6608c5e08c2c08c2808c2008c1d)
  (.lf 0)))

def shaXorReads294 : BTree :=
  .nd (.nd (.nd (.lf
  0x361313611e342c9331a13217d3203031e4131e3e361173610c342573314d3221c3218131d7331d7036102360eb34203331433227b31f4c31d4d31d38360f8360f1341db3310f3227f31e4c31d4f31d3a360cd360c23419d330f13229d31e5831d5131d04360b7360783413932fd13218531e4031ce731ce43606f35fa033d7532fc33218931d7231cd131c6a35f9a35f8333d2132faf321c131d4c31c5131c46)
  (.lf
  0x33683336813367d3367b336613365f3365b33643336413362733623336213361f336eb3361d336193361733615336113338933385333833337f3337d33363333613335d3329333291332a93328f3328b3327f3332b3327d33279332773360533275332713321b332193320933203331db331d9331d5331c9331b7331b5331b1331a333193331913318d3318b3317f3317d331713316d3316b331693315b33159))
  (.nd (.lf
  0x2d8c62d81327eb827cc127c3927c3027b00386203851d37e2d37dd437dab2d8b82d81727eb027cc527c3d27c3427a94386183852137e3137dd637dad2d8ae2d81b27e9e27cc927c4127c3827a74386103852537e3537dd837daf2d8a82d81f27e9427ccd27c4527c3c27a92386003852937e3937dda37db12d89c2d82327e8427c4927c4027afc385f43852d37e3d37ddc37db32d8942d82727e7a27c4d27c44)
  (.lf
  0x27a1527a1127a0f27a01279ff279fb279f9279eb279e9279e5279e3279d5279d3279cf279cd279bf279bd279b9279b7279a9279a7279a3279a127993279912798d2798b2797d2797b27977279752796727965279612795f279512794f2794b279492793b27939279352793327925279232791f2791d2790f2790d2790927907278f9278f7278f3278f1278e3278e1278dd278db278cd278cb278c7278c5278b7)))
  (.nd (.nd (.lf
  0x10760107561074e10744107381072a107221071a1071010708106fe106f4106e6106dc106d4106cc106c2106b8106ac106a2106981068e106861067c10672106601064e1063c1062a105ea105da105ca105ba105aa1059a1058a1057a1056a104d6104cc104c2104b8104ae104a41049a10490104861047c10472104681045e104541044a10440104361042c104220f9860f91e1123a11230112261121c11212)
  (.lf
  0x22d1c22cac22c8e22c8422c7a22c4222be622bde22a3622a1e229d4229a022ec122ebf22ebb22eb722eb522eb322eaf22ead22eab22ea922ea322ea122e9f22e9d22e9922e9722e9322e9522e9122e8d22e8b22e8922e8522e8322e7f22e7d22e7922e7522e7322e7122e6d22e6b22e6922e6722e6322e6122e5f22e5d22e5922e5522e5322e5122e4d22e4b22e4722e4522e4122d9922d9722d9522d9122d8f))
  (.nd (.lf
  0x15ce015d3415ce415d2a15ce815d2015cec15d1615cf015d0c15cf415d0215cf815cfe16a2216aea1694416ae01697216ad61697616acc1697a16ac21697e16ab81698216aae168fa16aa4168b616a9a168ba16a90168be16a8616a2616a7c168c216a721698616a681698a16a5e1698e16a541699216a4a1699616a40168fe16a36168c616a2e16a2a16a10168ca16a061699a169fc1699e169f2169a2169e8)
  (.lf 0)))

def shaXorReads295 : BTree :=
  .nd (.nd (.nd (.lf
  0x1c3621bf151a83f1999918afd18a6b18a60186861c3561bebd1a8411999b18b0118a6d18a62186881c34e1bf131a8431999d18b0518a6f18a641868a1c3401bebf1a8451999f18b0918a7118a661868c1c3381bf111a857199a118b0d18a7318a681868e1c32c1bec11a7df199a318a9118a7518a6a186901c3221bf0f1a7e1199d718a9518a7718a6c186921c3181bec31a7e3199a518a9918a7918a6e18694)
  (.lf
  0x3fb1b3fb173faf53fb353faf33faef3fae13fadf3faa93faa73fa8d3fa8b3fa873f9ab3f9a73f92d3f9153f90f3f8d53f8d73f8d33f8cd3f8993f89d3f8973f8933f8593f8573f84d3f8433f7ff3fe903fe863fe7c3fe743fe703fe5e3f7763f76a3f75e3f75a3f74a3f73e3f7343f72a3f7463f71a3f70e3f70a3f6fe3f6f23f6da3f6d23f6cc3f6ba3f6be3f6a8406a63f6983f6883f5c43f5b63fe913fe8f))
  (.nd (.lf
  0x1039c103461033a102ea102de1028e102821023010224101d2101c6101781016c101181010c100bc100b01006010054100020fff60ffa00ff940ff440ff380fee40fed80fe840fe780fe260fe1a0fdc80fdbc0fd660fd5a0fd0a0fcfe0fcaa0fc9e0fc4e0fc420fbf20fbe60fb940fb880fb320fb260fad20fac60fa740fa680fa1a0fa0e0f9be0f9b20f95c0f9500f8f40f8f00f8c60d3600d3420d3360d320)
  (.lf 0))) (.nd (.nd (.lf
  0x2abb42abaa2aba02ab962ab8c2ab822ab782ab6e2ab642ab5a2ab502ab462ab3c2ab322ab282ab1e2ab142ab0a2ab002aaf62aaec2aae22aad82aace2aac42aaba2aab02c0ca2c0b62c0a02c08a2c0742c05e2c0482c0322c01c2c0062bff02bfda2bfc42bfae2bf982bf822bf6c2bf562bf402bf2a2bf142befe2bee82bed22bebc2bea62be902be7a2be642be4e2c0c22c0ac2c0962c0802c06a2c0542c03e)
  (.lf
  0x4fa704fab04fa504fa104f6704f6b04f6504f6104f2904f2704f2304f2104ee304ee104edd04edb04e9d04e9b04e9704e9504e5704e5504e5104e4f04e1104e0f04e0b04e0904dc904dcd04dc704dc304d8904d8d04d8704d8304d4904d4d04d4704d4304d0b04d0904d0504d0304cc304cc704cc104cbd04c8304c8704c8104c7d04c4304c4704c4104c3d04c0504c0304bff04bfd04bbd04bc104bbb04bb7))
  (.nd (.lf
  0x30acc30ac830ac030aa830aa030a5a30a9830a5c30a6230a0830a0a309963098e30726309883059a30956307663074c31f46320e631f3a320d831f2e31fa831f2231f9e31f1631f9231f0a31f8831f4a31f7831ef831f6c31eec31f6231ec831f5a31ecc31ee031ebc31ed231ea831e6c31e6031a6e31a5631a50319fa31a44319e431a34319c431a2e319aa31a203198a319a03197e31978319463193c31928)
  (.lf 0)))

def shaXorReads296 : BTree :=
  .nd (.nd (.nd (.lf
  0x282a0e4ee0e3f50e0390e0030dfec0282c027ea0e4e40e3f90e03d0dfee0dfbf027ec027aa0e4da0e3fd0e0410dff00dfc3027ac0276c0e4d00e4010e0450dff20dfc702762027260e4c60e4050e0490dff40dfcb0271c026e00e4bc0e4090e04d0dff60dfcd026d60269a0e4b20e40d0e0510dff80dfcf02690026540e4a80e4110e0550dffa0dfd10264a0260c0e49e0e4150e0590dffc0dfd30260e025ce)
  (.lf
  0xac180aa650abf40aa690abd40aa6d0abb80aa710ab9c0aa750ab7c0aa790ab5a0aa7d0ab380aa810ab160aa850aaf40aa890aad20aa8d0aab00aa910aa970b51b0b9500b51f0b9340b5230b9160b5270b8f40b52b0b8d00b52f0b8b00b5330b8900b5370b86e0b53b0b84c0b53f0b82a0b5430b80c0b5470b7ec0b54b0b7ca0b54f0b7a80b5530b78a0b5570b76e0b55b0b7520b55f0b7360b5630b7180b567))
  (.nd (.lf
  0x9e8809e8a09e8c0a6140a6160a6180a61a0a61c0a61e0a6200a6220a6240a6260a6280a62a0a62c0a62e0a6300a6320a6340a6360a6380a63a0a63c0a63e0a6400a6420a6440a6460a6480a64a0a64c0a64e0a6500a6520b4580b45a0b45c0b45e0b4600b4620b4640b4660b4680b46a0b46c0b46e0b4700b4720b4740b4760b4780b47a0b47c0b47e0b4800b4820b4840b4860b4880b48a0b48c0b48e0b490)
  (.lf
  0x3a9f73a9f33a9f13a9e33a9e13a9dd3a9db3a9d93aa073a9d73a9d33a9d13a9cf3a9cb3a9c93a9c73a9eb3a9c53a9c13a9bf3a9bd3a9b93a9b73a9b53a9b33a9af3a9a93a9a73a9a53a9a13a99d3a93d3a93f3a93b3a9373a9353a9e73a9333a92f3a9193a9173a9133a90b3a8ff3a8fd3a8f93a8f73a8f53a82a3a8263a8183a80e3a8023a7fa3a7f23a7e43a7da3a7d23a7c63a7be3a7b23a7a83a79e3a794)))
  (.nd (.nd (.lf
  0xb9c00b9902edf0229b016d10164b0164000e2400b8600b8302ee10229d016d50164d0164200e2600b7000b6d02ee30229f016d90164f0164400e2800b5a00b5702ee5022a1016dd016510164600e2a00b1303b2d02ee702347022b9022ae0226201eef03b2f02ee90234b022bb022b00226401ec401ec103b3102eeb0234f022bd022b20226601e8201e7f03b3302eed02353022bf022b40226801e3c01e39)
  (.lf
  0x337f5337f3337f1337ed337eb337e9337e7337e3337e1337df337dd337d9337d7337d5337d3337cf337cd337cb337c9337c5337c3337c1337bf337bb337b9337b7337b5337b1337af337ad337ab337a7337a5337a3337a13379d3379b337993379733793337913378f3378d337893378733785337833377f3377d3377b337793377533773337713376f3376b337693376733765337613375d3375b3375f33759))
  (.nd (.lf
  0x3ea203ea0b3e9ce3eac140131409a24012d4098040123409644010340950400fb4093c400ef40930400e740912400df408da40109408d4400b34089c400b94087c3ffaf4081c3ffb5408043ff95407fa400a1407f43ff99407ea3ff9d4075c3ffc5407463fcb1407343fc75407143fc01407083fc0d406ea3fb6f406cc3fb75406c63fb5d406b63fac3406ad406a83fa203f9213fa033f98e3f9863f8a33f93d)
  (.lf 0)))

def shaXorReads297 : BTree :=
  .nd (.nd (.nd (.lf
  0x31eb431aa72fe732ec912dbcc2d9a12d99f2d99a31eaa31a832fe752ec692da822d7432d7412d73e31e6831a7f2f9f52ec5f2dbab2da322d7252d71c31a6b319fc2f9df2ec072dbad2da062d70f2d70c319f7319e62f9e12ebd32db632d9ea2d6a52d610319db319ce2f9e32eb892db412d99e2d5ad2d5a8319c8319bb2f96d2eb572db052d7402d5af2d5aa319a7319902f96f2eb492dbb12d7242d5b12d568)
  (.lf
  0x1c0571c0551c0511c04f1c01d1c01b1c0171c0151bfcb1bfc91bfc51bfc31bf831bf811bf7d1bf7b1bf3b1bf311bf2d1bf2b1bee31d7e61d79e1d62c1d6221d6181d60e1d6041d5fa1d6b01d4bc1d54e1d49c1d5421d4741d5361d44a1d37c1d3141d3701d2c21d2921d2541d2341d20e1d1d21d1181d1061d0f41d0e21d0d01d0b61d7e71d7d91d7b31d79f1d6371d6351d6311d62f1d62d1d62b1d6271d625))
  (.nd (.lf
  0x17cb517cac12d5812d48266dc26623254a325440254171ccc01cbb717cb717cb012d4c12d20266c626627254a725419253fc1cca81cbbb17cb917cb412d1612ce4266b02662b254ab2541b254001cc8c1cbbf17cbb17cb612cda12cba2669a2662f254af2541d254041cc6c1cbc317cbd17cb812cb012c9c2668426633254b32541f254081cc4a1cbc717cbf17cba12c9212c882666e26637254212540a1cc28)
  (.lf
  0x18deb18de718dbb18dad18dab18da718d7f18d7118d6f18d6b18d4518d3718d3518d3118d0b18d051a3e01a3ae1a3721a3341a2f61a2b81a27a1a23c1a2021a1c61a18c1a1501a1141a0dc1a0a41a06a1a03019ff419fb619f7a19f3c19efe19ec219e8619e4819e0619dc219d8019d3a19cee19c9c1a3e11a3df1a3db1a3d91a3af1a3ad1a3a91a3a71a3731a3711a36d1a36b1a3351a3331a32f1a32d1a2f7)))
  (.nd (.nd (.lf
  0x26f4826f1026ed126ecd26ed026e7d26e7926e7c26e7626e4626db826dab26da726daa26d3126d2d26d3026d2826d0926ced26d0826ceb26cab26cea26ca726c8d26ca626c8826c6726c4b26c6626bdc26b9026b7126b5926b7026b4d26b3d26b4c26b3a26add26acb26adc26aa526a8f26aa426a1b26a1526a1a26a1326a0b26a1226a08269a626580265762656c26562265582654e265442653a2653026526)
  (.lf
  0x1803f1800d1800b1800717fff17fcd17fcb17fc717fbb17f8917f8717f8317f7517f4317f4117f3d17f3317f0117eff17efb17ef317ec117ebf17ebb17eaf17e7d17e7b17e7717e6917e3717e3517e3117e2717df517df317def17de317db517db317daf17da117d6f17d6d17d6917d5f17d49184ed184891848518483184171841318411182a31829f1829d1825d1825918257181571815318151181111810d))
  (.nd (.lf
  0x19668194e61920c192091964a194e4191cc191c919642194e21918b1918819630194e0191531914a1961e194de19108191071960c194dc190c4190c1195fa194da190821907f195e8194d8190421903f1956e194d618ffe18ffb19564194d418fbc18fb91955a194d218f7c18f7919550194d018f3618f3519546194ce18ef218eef1953c194cc18eac18ea919532194ca18e6918e6219528194c818e2518e1c)
  (.lf 0)))

def shaXorReads298 : BTree :=
  .nd (.nd (.nd (.lf
  0x3e9693dfeb3dcd43d2533d0643cdfb3cdd13cdce3e88b3dcce3d6bf3d2013d0483c8433c8413c83e3e8793dcc43d6a33d1dd3d0383c8b13c8af3c8ac3e8613dcba3d6713d2753cdf63c6d33c6d13c6ce3e8493dcb03d65d3d1a73cde23c65d3c6573c6543e82b3d5d33d15b3cdd03c6363c6013c5fe3c5f93e7f53d5c53d11b3c8423c62e3c5ed3c5eb3c5e83e8053d5933d1013c8b03c6243c5b33c5ab3c5a8)
  (.lf
  0x3bfbd3bfbb3bfa13bf9f3bf9d3bfab3bf9b3bf973bf953bf933bf8f3bf7f3bc2f3bc2d3bc1b3bc173bb8b3bb893bb533bb433baf53baf33bad53bacd3ba1b3ba193ba133b9db3b95d3b9733b95b3b9573b8ad3b8b13b8ab3b8a73b81f3d00a3cfe83cf943cfa43cf7a3cf603cf0a3cf423cf183cebc3cec83ce9e3ce8c3ce783ce623ce523ce3e3ce2c3ce163ce043cd4c3cd303cd3c3cc903cc3a3cc2a3cc1a))
  (.nd (.lf
  0x2e7122e6932e6912e6782e6703aaba3a8873a35b3a3313a31a340d233fe52e8152e6d42e6492e63c2e6383aaaa3a88b3a35f3a3333a31c340c633e932e7d72e6902e6132e5f42e5f23aaa03a88f3a3633a3353a31e340be33e972e8192e6482e5d12e5b82e5b63aa963a8933a3673a3373a320340ac33eb92e7db2e6122e5972e5862e5763aa883a8973a36b3a3393a322340a233ebd2e79d2e5d02e5592e53e)
  (.lf
  0x2bedf2bedb2bed92becb2bec92bec52bec32beb52beb32beaf2bead2be9f2be9d2be992be972be892be872be832be812be732be712be6d2be6b2be5d2be5b2be572be552be472be452be412be3f2be392bd762bd6c2bd622bd582bd4e2bd442bd3a2bd302bd262bd1c2bd122bd082bcfe2bcf42bcea2bce02bcd62bccc2bcc22bcb82bcae2bca42bc9a2bc902bc862bc7c2bc722bc682bc5e2bc542bc4a2bd77)))
  (.nd (.nd (.lf
  0x333603328e3327c3327433218331d8331b4331903317c33168330e432f8632f7e32f6432f5a32f483292c328ec328e4328c8328c033482334763346e3346433438333ec333dc333c0333b6333ac33312333043326e3321c331e0331bc331323311e33100330dc32fda32fc632fb632fa232f923293c328a43289a3288a3287a347a0346cc3465034604345a43458a3453e34520344f4344d234420343be3438a)
  (.lf
  0x24e4d24e4b24e4724e4524e4324e4124e3d24e3b24e3924e3724e3324e3124e2f24e2d24e2924e2724e2524e2324e1f24e1d24e1b24e1924e1524e1324e1124e0f24e0b24e0924e0724e0524e0124dff24dfd24dfb24df724df524df324df124ded24deb24de924de724de324de124ddf24ddd24dd924dd724dd524dd324dcf24dcd24dcb24dc924dc524dc324dc124dbf24dbb24db924db724db524db124daf))
  (.nd (.lf
  0x3ba223b9403b93c3b8483b8463b7ce3b7ca3b7843b7803b7223b71e3b6e83cc083cda83cc5c3cd9c3cc0c3cd903cc8a3cd863cbe83cf5a3cd7a3cd723cb5c3cd683cb543cd5c3cb1e3cd563caec3cd143ca9e3cd083ca5a3cd023ca623ccf03cc023ccea3cc6e3ccd83cbd23ccce3cbee3ccc43cb8e3ccba3cb623ccae3caf43cca43cae83cc863ca983cc783cc103cc623cc603cbca3cbbe3cba23cb9c3cb78)
  (.lf 0)))

def shaXorReads299 : BTree :=
  .nd (.nd (.nd (.lf
  0x1082a1078e1444a14348124ab1247b112e3108991087b108641082c107901444414346124ad1247d112e51089d1087d108661082e107921442a14344123e7123e3112e7108a11087f1086810830107941442414342123b71239f112e9108a51086a1084110832107961440a14340123b9123a1112eb108a91086c108431083410798144041433e123bb123a3112ed108ad1086e10845108361079a143ea14336)
  (.lf
  0x2393023910238d0238b0236f037f6037ca037920375603724036e8036b403682036480360c035da035a00356403532034f6034c40348a0345003414033e2033a80336c0333a03300032c60328a032580321c031e8031b60317a037f7037d1037cd037cb0379b0379903795037930375f0375d03759037570372d0372b0372703725036f1036ef036eb036e9036bd036bb036b7036b50368b036890368503683))
  (.nd (.lf
  0x3182631cb231aea31ae23182e31ad83180c31ac6317e831abe317dc31ab23179e31aa0317ec31a96317a431a8c3178031a843177c31a70317a231a6031800319ec31752319dc3174c319b43173c319ae317303195c3172231956317ea3194c3170e3192a317003191031704318ee316ea318ce317f4318be316d03184a316d4317a63160a3167031604315ea315e23160c32ce632d6632ce432d5a32ce232d50)
  (.lf 0))) (.nd (.nd (.lf
  0x1b2c01ae601aa401a6001a1e019de0199e0195a01918018d8018940185201812017ce0178c0174c01eaa01e6401e1e01d1801c5201c0c01b8601b4001afa01a740196e018a8017e201ece01e8e01e4801e0301ddb01e0201dc301d9b01dc201d8301d5b01d8201d4201cfd01cd501cfc01cbd01c9501cbc01c7c01c3601bf101bc901bf001bb001b6a01b2401adf01ab701ade01a9e01a5901a3101a5801a19)
  (.lf
  0xa2170a2130a2010a1f30a1f10a1ed0a1d90a1cb0a1c90a1c50a1b10a1a30a1a10a19d0a1870a1790a1770a1730a15f0a1510a14f0a14b0a1310a1230a1210a11d0a1070a0f90a0f70a0f30a0dd0a0cf0a0cd0a0c90a0b50a0a70a0a50a0a10a08b0a07d0a07b0a0770a0630a0550a0530a04f0a0350a0270a0250a0210a00b09ffd09ffb09ff709fe109fd309fd109fcd09fc109fb309fb109fad09f9f09f99))
  (.nd (.lf
  0x10bc710bba10ba510b9810b8710b7a10b6b10b5e10b4f10b4210b3310b2610b1310b0610afb10af610af5121df121ac121a3121681215f121241211b120e0120d3120981208912050120411200811ff911fc011fb111f7811f6911f3011f2511eea11ee111ea611e9d11e6211e5911e1e11e1511dda11dcd11d9211d8311d4811d3d11d0211cf911cbe11cb111c7611c6711c2c11c1d11be211bd711b9c11b8f)
  (.lf 0)))

def shaXorReads300 : BTree :=
  .nd (.nd (.nd (.lf
  0x3b9643b9623ea003e9ca3d2673d2633cae73ca933ca373c9863b8a43b8963ea4a3d1453d1413ca973ca4d3ca233c0c83b8123b8004011e3e79b3e7853db8b3d01f3d0163d0143d0113d00c40276401263e7713e76d3db8d3cff73cff03cfee3cfec3cfeb40270401243e76b3e7673db8f3cfc13cfb13cfa23cf9a3cf9640268401043ec593ec513db1b3cfc73cfbe3cfb23cfaa3cfa74020c4012e3e7053e701)
  (.lf
  0x96e6092e4096a2092e80965c092ec09616092f0095d0092f40958a092f809548092fc0950409300094be093040947809308094360930c093f609310093b60931409376093180931e09f100a46809f140a44609f180a41a09f1c0a3ec09f200a3c209f240a39a09f280a36e09f2c0a34809f300a31c09f340a2f609f380a2ca09f3c0a2a009f400a27209f440a24809f480a21a09f4c0a1f409f500a1cc09f54))
  (.nd (.lf
  0x6a6806a6a06a6c0767c0767e07680076820768407686076880768a0768c0768e07690076920769407696076980769a0769c0769e076a0076a2076a4076a6076a8076aa076ac076ae076b0076b2076b4076b6076b8076ba082d0082d2082d4082d6082d8082da082dc082de082e0082e2082e4082e6082e8082ea082ec082ee082f0082f2082f4082f6082f8082fa082fc082fe0830008302083040830608308)
  (.lf
  0x360c9360c5360b9360b5360b33606d3606b360693606735f8135f7d35f7b35f8735f7935f7535f7335f7135f6d35f4f35f3535f3335f2f35f2b35ef335ef135eed35ead35eab35ea935ea535e9d35e6f35e6d35e6935e2535e2335e1b35ddf35dd935c4b3522235224352263520a3522a351fa35228351e6351dc35070350643505a350503505c3503e3507234f2034f1434f0a34f0034ef634eec34ee234ed8)))
  (.nd (.nd (.lf
  0x4a0a049ce038b10383102c6b020f3020aa020810206601fa6049c404986038b30383302c6d020f7020ac020830206801fa80499404946038b50383502c6f020fb020ae020850206a01faa0495404906038b70383702c71020ff020b0020870206c01fac04914048e8038b90383902c730210302089020720206e01fae048e6038bb0383b02c75021070208b020740207001fb005d28044ed0446d038bd02d0f)
  (.lf
  0x2d6452d63d2d63b2d6372d61d2d5fb2d6012d5f92d5f52d5f32d5f12d5ed2d5cd2d4a92d4a72d4a32d49f2d49d2d49b2d4972d4912d48f2d48d2d48b2d4872d4852d4832d47f2d45b2d4592d4572d4532d4512d44f2d44d2d4492d4472d4452d4652d4432d43f2d2812d27f2d27b2d2772d25f2d2632d25d2d2592d2452d24b2d2432d23f2d2312d2352d22f2d22b2d21d2d21b2d2172d2152d2132d2112d20b))
  (.nd (.lf
  0x3cfcf3d76e3cf413d7473cf303cf393cee83ced93db9f3dc9f3dc943dc8c3db853dc823db673dc7a3db513dc683db133dc623db193dc5a3db973dc503da673dc423da333dc3c3d9e33dc323d9fb3dc283d9e13dc1e3db893dc163db6f3dc0a3db4b3dc003db273dbfa3dbc93dbf03db373dbe43da6b3dbd83da313dbd23dbcf3dbb83db873dbb23db733dba53db2e3db233db103daeb3dad63dad93da703da5f)
  (.lf 0)))

def shaXorReads301 : BTree :=
  .nd (.nd (.nd (.lf
  0x214aa2129c1f61f1f5ab1d54b1c83f1c7f81c52d1c52a1c524214a02121e1f6211f5ad1d5311c7fb1c7c01c4f51c4f21c4ec21496211fa1f6231f5af1d53f1c7c31c7781c4d31c4d01c4ca2148c210ea1f6251f5b11d5331c77b1c73c1c4751c4721c46c210fe210b01f6271f5b31d3851c73f1c6e21c4a31c4a01c49a210a6210981f6291f5b51d36d1c6e51c6aa1c3c51c3c21c3bc2109c210961f62b1f5b7)
  (.lf
  0x106511064f1064b106411063f1063d106391062f1062d1062b106271061d0f923105ec105de105ce105be105ac1059c1058c1057c1056c104d8104ce104c4104ba104b0104a61049c10492104881047e104741046a10460104561044c10442104381042e104241041a0f9800f918105ed105eb105e7105df105dd105db105d7105cf105cd105cb105c7105bf105bd105bb105b7105b5105ad105ab105a7105a5))
  (.nd (.lf
  0x411a74113040c1640c0040bf74185b418414107440bde40bc940bc441867418014106440bd640bbb40bb24183f4182540f5640b7d40b6440b624180d417ff40f1c40b2d40b2a40b28418a14182f40ea240aee40aed40ae4417e7414f740e8e40aad40aa440aa2419594119340ed240a6a40a1940a0e41509411af40c5240a7240a5f40a5c4119f4119740c0c40a2240a21409bd409ba409b0409af409ad409aa)
  (.lf
  0xcf9f0cf9b0cf8d0cf7f0cf7d0cf790cf6b0cf65121d4121981215412110120c81207e1203611fee11fa611f5e11f1a11ed611e9211e4e11e0a11dc211d7811d3211cee11ca611c5c11c1211bcc11b8411b3c11af411aac11a6211a16119c211970121d5121d3121cf121cd1219912197121931219112155121531214f1214d121111210f1210b12109120c9120c7120c3120c11207f1207d120791207712037)))
  (.nd (.nd (.lf
  0x137931378f1378d137411373d1373b13feb13fe713fea13f9e13f4d13f4913f4c13f0013eae13e5d13e5913e5c13e1013dbe13d6c13d1a13cc913cc513cc813c7c13c2b13c2713c2a13bdf13bdb13bde13b9213b4113b3d13b4013af513af113af413aa813a5713a5313a5613a0a139b81396713963139661391b139171391a138cf138cb138ce1388213830137df137db137de1379213740136ee133561334c)
  (.lf
  0x12a7312a6f12a6d12a5912a5712a5312a5112a3912a3712a3312a3112a1b12a1912a1512a13129fb129f9129f5129f3129dd129db129d7129d5129c1129bf129bb129b9129a5129a31299f1299d12989129871298312981129691296712963129611294712945129411293f12925129231291f1291d129071290512901128ff128eb128e9128e5128e3128cb128c9128c5128c3128b3128b1128ad128ab1289d))
  (.nd (.lf
  0x248c02485e246ee246aa2465c246162462d2461b24617260ba260b025f3225f2c25f2225f1a25ea825e1825d6625d5825cf425cee25c8825c2e25b9c25b8025b4625b1e25af025a7425a2e259f4259b82597e25948258ce2588e25854258282582d258292581b2707a2700026ff026fb026f3e26f0c26ecc26e7826e4826dc226dae26da626d2c26d2426cec26caa26c8c26c8426c4a26bd826b8c26b5826b3c)
  (.lf 0)))

def shaXorReads302 : BTree :=
  .nd (.nd (.nd (.lf
  0x2b5c92a8be2a75b2a7592a7562a7502ec702ec602cb112cb0d2b5b52a8c12a8a22a7452a7402a73a2ec2a2ebfc2caf92caf52b5452a8a52a87a2a7232a7202a71a2ebfe2ebca2cae72cae32b5132a87d2a8602a7312a7102a70a2ebb42ebaa2cad32cacf2b4d52a8632a7fa2a7032a6fa2a6f42eb822eb622caaf2caab2b4df2a8de2a7fd2a7052a6e82a6e22eb4e2eb2e2cab92cab52b4f52a8e12a7d22a6db)
  (.lf
  0x2b36d2b36b2b3672b34d2b34b2b3492b3452b3432b3412b33f2b33b2b3392b3372b3352b2892b2872b2852b2832b27f2b2752afff2affd2aff92afef2afb92afbb2afb72afb32af8d2b8982b88e2b89a2b7e62b76a2b7182b6ce2b6982b61c2b59a2b5902b5862b57e2b52e2b4fe2b44e2b4442b43a2b4302b4262b41e2b3ca2b38e2b2ca2b2ae2b2a62b25c2b1962b17a2afe22afa62b8992b8972b8932b891))
  (.nd (.lf
  0x31538275e91e6611e65c1e4b833847326f7326db326c427c27238672384d238482295233c9a3384b326fb326dd326c627df827c2b2386b2384f2384a22b7c2294833c943384f326ff326df326c827dee27c2f2386f238512384c22b742294233c843388d32703326e1326ca27de427c3323873238532384e22b6c2294433c783389132707326e3326cc27dda27c3723877238552385022b5a2294633c7033895)
  (.lf
  0x2270d2270922707226f9226f7226f3226f1226e3226e1226dd226db226cd226cb226c7226c5226b7226b5226b1226af226a12269f2269b22699226931e96e1e95a1e9441e92e1e9181e9021e8ec1e8d61e8c01e8aa1e8941e87e1e8681e8521e83c1e8261e8101e7fa1e7e41e7ce1e7b81e7a21e78c1e7761e7601e74a1e7341e71e1e7081e6f21e6dc1e96f1e96d1e9691e9671e95b1e9591e9551e9531e945)))
  (.nd (.nd (.lf
  0x3d7323d72b3d7253d72a3d7233d71f3d7223d71d3d7173d71c3d7143d7093d7033d7083d7013d6fb3d7003d6f83d6ec3d6df3d6db3d6de3d6d93d6d53d6d83d64e3d6453d63f3d6443d63d3d6373d63c3d6353d6313d6343d62f3d6293d62e3d6263d61c3d6123d6023d5ed3d5e73d5ec3d5e53d5e13d5e43d5df3d5cd3d5de3d5cb3d5ad3d5ca3d5ab3d5873d5aa3d5853d3393d5843d3283d3163dab63daaa)
  (.lf
  0x1f9871f9831f9891f9811f97d1f97b1f9791f9751f9291f90d1e1641e1661e1561e14c1e16a1e1681e1401e1241e1181e1121e1221e0fc1e0f21e0e81e0dc1e0d41e0c81e0c01e0b41e0ac1e0a01e0981e08c1e0841e0e01e0701e0661e05c1e0521e0481e03e1e1651e1671e1631e15f1e15d1e15b1e1571e1551e1531e1511e14d1e14b1e1491e16b1e1471e1431e13f1e1691e13d1e1391e1371e1411e135))
  (.nd (.lf
  0x3e8f03e5f23e50f3e4fe3e8de3e5ec3e56b3e5123e8d03e5d23e4ec3e4eb3e8c23e79e3e5843e4df3e8ae3e57a3e56e3e56d3e8a03e3e53e3983e38c3e89a3e3683e35f3e3583e8903e30a3e3093e3063e87c3e2f43e2e73e2de3e85c3e2e83e2d63e2b93e83c3e2cc3e2a53e2a23e81c3e2bf3e2bc3e2ba3e7ea3e3323e2903e2833e7e03e2883e2813e2743e7da3e2303e1c13e1aa3e2003e1cc3e1a23e1a1)
  (.lf 0)))

def shaXorReads303 : BTree :=
  .nd (.nd (.nd (.lf
  0x105621339b1279511753116c5116ba1166e114ed1339d1279711757116c7116bc11670115e6110951339f127991175b116c9116be11672115dc11089133a11279b1175f116cb116c011674115d21107d133a31279d11763116cd116c211676115c811071133a51279f11767116cf116c411678115be11049133a7127a11176b116d1116c61167a115b41103d133a9127a3116ef116d3116c81167c115aa11031)
  (.lf
  0x3d6d23d4883d47a3d4743d46a3d4623d4503d4463d4343d4383d3fc3d3643d30a3d3003d2f63d3363d2e43d2b03d2243d1763d57f3d57d3d5793d5773d5753d5733d56f3d56d3d56b3d5693d5653d5613d55f3d55d3d5593d5573d5553d5533d54f3d54b3d5493d5633d5473d5433d5413d53f3d53b3d5393d5373d5353d5273d4cd3d4bf3d4bd3d4b73d4b53d4a33d4a13d49d3d4993d4973d6d33d4953d491))
  (.nd (.lf
  0x1dad61dca61dada1dc9c1dade1dc921dae21dc881dae61dc7e1daea1dc741daee1dc6a1daf21dc601daf61dc561dafa1dc4c1db2a1dc421db2e1dc381db321dc2e1db361dc241db3a1dc1a1db3e1dc101db421dc061db461dbfc1db4a1dbf21db4e1dbe81db521dbde1db561dbd41db5a1dbca1db5e1dbc01db621dbb61db661dbac1db6a1dba21db6e1db981db721db8e1db761db841db7a1db801dcb21dffa)
  (.lf 0))) (.nd (.nd (.lf
  0xdcd60dccc0dcc20dcb80dcae0e3100e2fc0e2e60e2d00e2ba0e2a40e28e0e2780e2620e24c0e2360e2200e20a0e1f40e1de0e1c80e1b20e19c0e1860e1700e15a0e1440e12e0e1180e1020e0ec0e0d60e0c00e0aa0e0940e3080e2f20e2dc0e2c60e2b00e29a0e2840e26e0e2580e2420e22c0e2160e2000e1ea0e1d40e1be0e1a80e1920e17c0e1660e1500e13a0e1240e10e0e0f80e0e20e0cc0e0b60e0a0)
  (.lf
  0x5b5505b5305b1b05b1905b1505b1305adb05ad905ad505ad305a9705a9505a9105a8f05a5105a4f05a4b05a4905a0b05a0905a0505a03059c5059c3059bf059bd0597f0597d059790597705939059370593305931058f3058f1058ed058eb058b1058af058ab058a9058710586f0586b05869058310582f0582b05829057f1057ef057eb057e9057b1057af057ab057a90576d0576b05767057650572b05729))
  (.nd (.lf
  0xc1c40c1ba0c1a80c19e0c18c0c17e0c16c0c1600c14e0c1400c12e0c11e0c10c0c0fc0c0ea0c0de0c0ca0c0c40c0ae0c0aa0c09e10402103b0103641034e10304102f2102a6102961024c10238101ec101da10190101801013410120100d6100c410078100681001e1000a0ffbe0ffa80ff5e0ff4c0ff000feec0fea20fe8c0fe400fe2e0fde40fdd00fd840fd6e0fd240fd120fcc60fcb20fc680fc560fc0a)
  (.lf 0)))

def shaXorReads304 : BTree :=
  .nd (.nd (.nd (.lf
  0xcdd80cd4105818057d60ec460ebbd0e9dd0e9800e9570cdce0cd45057d8057980ec3c0ebc10e9e10e9820e9590cdc40cd490578e057500ec320ebc50e9e50e9840e95b0cdba0cd4d05752057120ec280ebc90e9e90e9860e95d0cdb00cd5105708056ca0ec1e0ebcd0e9ed0e95f0e9420cda60cd55056cc0568c0ec140ebd10e9f10e9610e9460cd9c0cd5905682056440ec0a0ebd50e9f50e9630e94a0cd92)
  (.lf
  0x1cb001c98b1caf21c98f1cae81c9931cae21c9971cad81c99b1cacc1c99f1cac61c9a31caba1c9a71cab21c9ab1caa81c9af1ca9e1c9b31ca941c9b71ca8a1c9bb1ca801c9bf1ca761c9c31ca6a1c9c71ca601c9cb1ca561c9cf1ca4e1c9d31ca401c9d71ca3a1c9db1ca301c9df1ca261c9e31ca1c1c9e71ca121c9eb1ca041c9ef1c9fe1c9f31c9fb1d8c31da681d8c71da5e1d8cb1da541d8cf1da4a1d8d3))
  (.nd (.lf
  0x2b0e82b0ea2b0ec2c80e2c8102c81a2c7f82c7d42c7d62c7d82c7da2c7dc2c7de2c7e02c7e22c7542c7282c72a2c72c2c72e2c6f22c6f42c6ca2c6ae2c6b02c6b22c6882c6782c6642c6502c6522c62c2c6342c15e2c1222dba02db982db5a2db362daf82daec2dbc42da622da2e2da0e2d9e62d9982d73c2d71a2d70a2d60e2d5a42d5a62d5662d54e2d50a2d4f02d4ca2d4242d40c2d3fc2d3f02d3a22d30a)
  (.lf
  0x11260111c0111201108010fe010f4010ea010e0010d6010cc010c2010b8010ae011db011d9011d5011d3011d1011cf011cb011c9011c7011c5011c1011bf011bd011bb011b7011b5011b3011b1011ad011ab011a9011a7011a3011a10119f0119d011990119701195011930118f0118d0118b011890118501183011810117f0117b011790117701175011710116f0116d0116b011670116501163011610115d)))
  (.nd (.nd (.lf
  0x3d3403d310609f05489048b50482d048220481603cf503cec060a10548b048b90482f048240481803cae03cab060a30548d048bd04831048260481a03c8306cdf060a505533054a50549a0544e050db06ce1060a705537054a70549c05450050b0050ad06ce3060a90553b054a90549e05452050750506c06ce5060ab0553f054ab054a0054540502e0502b06ce7060ad05543054ad054a20545604fe804fe5)
  (.lf
  0x3608835fb635fa235f4635f0a35ec635e7635e3e35de836b0f369cf369c3369bf369bd369bb369b7369b5369a7369a536953369513694f3694d3692d3691b3690536903368ff368b5367cb367c9367c5367c3367ad3679b36797367933677f3677d36775367733667b3667936675366733666f366853666d3666936667366953666536661366373663936635366313662f3662d36629365f1365ef365ed365e9))
  (.nd (.lf
  0xf15e0f23e0f1620f2340f1660f22a0f16a0f2200f16e0f2160f1720f20c0f1760f2020f17a0f1f80f17e0f1ee0f1820f1e40f1860f1da0f18a0f1d00f18e0f1c60f1920f1bc0f1960f1b20f19a0f1a80f19e0f1a40f2d60f4b40f2da0f4aa0f2de0f4a00f31c0f4960f3200f48c0f3240f4820f3280f4780f32c0f46e0f3300f4640f3340f45a0f3380f4500f33c0f4460f3400f43c0f3440f4320f3480f428)
  (.lf 0)))

def shaXorReads305 : BTree :=
  .nd (.nd (.nd (.lf
  0x21a8d21a8520f1f20639204f1204d61fb941fb8e237c6235d621a03219ff20f212064f2063b204d81fb621fb5c237ba235c6219ad219a920ee7206512063d204da1fb2c1fb26235a423586219692196520e85206552057b204dc1faf81faf223588235602191f2191720e87206572057d204de1fac41fabe235582353e219212191920df92058d2057f204e01fa961fa902351e234da216c5216c120da92058f)
  (.lf
  0x210df210e5210dd210d9210672106b21065210612105321055210512104b21045210432103f2103d2100f2100d210092100720fcd20fcb20fbf20fbd20f0d20f1120f0b20f0720efd20efb20ef720ef320ee920edf20edb20ed920e7320e7120e6f20e6920e5f20e5d20e5b20e5720ddb20dd920dd520dd320d9b20d9f20d9920d9520d5b20d5920d5520d5320ceb20ce920ce520ce320cdb217222186821702))
  (.nd (.lf
  0x1ac4b1abc31abba190761906029c3229add28951288fa288d12089e207eb1ac4f1abc71abbe190361901c29c1c29ae128955288fc288d320894207ef1ac531abcb1abc218ff218fda29c0629ae528959288fe288d52088a207f31ac571abcf1abc618fb018f9a29bf029ae92895d28900288d720880207f71ac5b1abd31abca18f7018f5629bda29aed2896128902288d920876207fb1abd71abce18f2c18f10)
  (.lf
  0x1bd571bd531bd511bd431bd411bd3d1bd3b1bd2d1bd2b1bd271bd251bd171bd151bd111bd0f1bd011bcff1bcfb1bcf91bceb1bce91bce51bce31bcd51bcd31bccf1bccd1bcbf1bcbd1bcb91bcb71bca91bca71bca31bca11bc911bc8f1bc8b1bc891bc791bc771bc731bc711bc611bc5f1bc5b1bc591bc4b1bc491bc451bc431bc351bc331bc2f1bc2d1bc1f0f2d20f2c80f2be0f2b40f2aa0f2a00f2960f28c)))
  (.nd (.nd (.lf
  0x2c21a2c1fa2c1d62c1a22c1702c50c2c5002c4f62c4ea2c4e02c4d62c4cc2c4c02c4b82c4a42c4782c46c2c4622c44e2c41e2c4142c4082c3ea2c3d22c3be2c3a62c2922c2662c2522c2322c2042c1f02c1cc2c1982c1662c5802c5642c54e2c5242c51a2c48e2c43e2c4282c3f02c3d82c3b02c1e02c1b82c56e2c5612c5592c5602c5562c5492c5412c5482c53f2c5372c53e2c5312c52d2c5302c52a2c516)
  (.lf
  0x19aad19aab19aa719aa519aa31a3e81a3b61a37a1a33c1a2fe1a2c01a2821a2441a20a1a1ce1a1941a1581a11c1a0e41a0ac1a0721a03819ffc19fbe19f8219f4419f0619eca19e8e19e5019e0e19dca19d8819d4219cf619ca41a3e91a3cd1a3c91a3b71a3991a3971a3931a37b1a35d1a35b1a3571a33d1a31f1a31d1a3191a2ff1a2e11a2df1a2db1a2c11a2a31a2a11a29d1a2831a2651a2631a25f1a245))
  (.nd (.lf
  0x21b1a21b0221aff21afc21ad821ac421abf21abc21a9a21a7621a6b21a6621a9421a8121a6e21a6c219fb219f0219ee219ea219b2219a72199c2199a219612195621954219502193021908218f7218f42191521900218fe218fc216ca216bf216b4216b221626215f0215df215dc2161c215e6215c9215c4215ff215e222f3f22f3c230da22fe422f2722f24230d022fc022f2b22f28230c622f9e22f3022f2f)
  (.lf 0)))

def shaXorReads306 : BTree :=
  .nd (.nd (.nd (.lf
  0x2ff022fefc3445a34432320193201530f7d2ff252ff212ff1e2ff1c2ff1634480343fc320bb320b730f592ff5b2ff592ff562ff522ff4c343f0343c6320a9320a530f2f302ae2ff472ff452ff422ff3a343d83439231fcb31fc730ed5302b13028a2fe392fe362fe30343a43436231e8131e7d30e8b3028d300002fbf52fbf22fbec34358342de31e0f31e0b30e57300032ff902fbe12fbde2fbd8342e2342c0)
  (.lf
  0x3f4ed3f4eb3f4e73f3993f38f3f38d3f3893f3773f3753f3733f3653f3633f3613f35f3f35b3f3593f3533f3513f34d3f33f3f33d3f33b3f32d3f32b3f3293f3273f3233f3153f3133f3113f2f93f2f53f2e93f2e73f2e33f2d93f2d73f2d53f1a53f19d3f1773f1793f1753f1713f1233f1213f11d3f10b3f1053f1033f0ff3f0f33f0eb3f0f73f0e93f0e33ee3f3ee3d3ee393ee253ee233ee2b3ee213ee1b))
  (.nd (.lf
  0x31aa2373703730d31ebe31cc131b8131b7c31aa8373663728331eb031bab31b8331b7e31aa63735c3728731ea631cc531b8531b8031a82373543721f31e9e31baf31b8231b3931a7e373463722331e6231bb331b8431b3d31a6a373403722731bb731b4131b38319f6319f0373363722b31bbb31b4531b3c319da319d63732a3731131bbf31b4931b40319c6319ba3731a3728b31bc331b4d31b44319bc319a6)
  (.lf
  0x2d8fd2d8f92d8f72d8f52d8f32d8ef2d8ed2d8eb2d8e92d8e52d8e12d8df2d8e32d8dd2d8d92d8d72d8d52d8d12d8cf2d8cd2d8cb2d8c72d8c52d8c32d8c12d8bd2d8bb2d8b92d8b72d8b32d8b12d8af2d8ad2d8a92d8a72d8a52d8a32d89f2d89d2d89b2d8992d8952d8932d8912d88f2d88b2d8892d8872d8852d8812d87f2d87d2d87b2d8772d8752d8732d8712d86d2d86b2d8692d8672d8632d8612d85f)))
  (.nd (.nd (.lf
  0x3fef03fee63fedc3fed23fec83febe3feb43feaa3fea03fe963f43a3f4303eeb23ee663edc03eabc3eab20cd160cd1a0cd1e0cd220cd260cd2a0cd2e0cd320cd360cd3a0cd3e0cd420cd460cd4a0cd4e0cd520cd560cd5a0cd5e0cd620cd660cd6a118f2118f6118fa118fe11902119061190a1190e11912119161191a1191e11922119261192a1192e11932119361193a1193e11942119460d3bc0d3c00d3c4)
  (.lf
  0x27e0927e0727e0527e0327b0527ad527ad327ad127acd27ac527ac327ac927ac127abd27abb27ab927ab527ab327aaf27b0b27aad27aa927a83282102818e281842817a28170281662815a2814e28142281382812828110280fe280e6280482803c28032280262801a2805027ffe27fea27fc627e8e27e4227e0c27b5227b4827b3e27b3427b0e282112820f2820b281912818f2818d28189281852818328181))
  (.nd (.lf
  0x7767078800776b078760776f0786c077730786207777078580777b0784e0777f07844077830783a07787078300778b078260778f0781c077930781207797078080779b077fe0779f077f4077a3077ea077a7077e0077ab077d6077af077cc077b3077c2077b7077bd0839308538083970852e0839b085240839f0851a083a308510083a708506083ab084fc083af084f2083b3084e8083b7084de083bb084d4)
  (.lf 0)))

def shaXorReads307 : BTree :=
  .nd (.nd (.nd (.lf
  0x1300612fe2166661662014aff14ac3141211322f1320b130981300812fe41665a1661614b0114ac514123132331320d130841300a12fe61660e1652a14b0314ac714125132371320f130861307e13078166021652214b0514ac9141271323b131951308812ec812ea4165fa1652414b0714acb141291323f131111308a12eca12ea6165f01652614b0914acd1412b1319d131131308c12ecc12ea8165ea16520)
  (.lf
  0x580b058090580505803057cb057c9057c5057c30578d0578b057870578505745057430573f0573d057070570505701056ff056bf056bd056b9056b7056810567f0567b0567905639056370563305631055f9055f7055f3055f1055c1055bf055bb055b905585055830557f0557d0555f05d2a05d0005cc405c6e05c3e05bfe05ba805b7805b3805af805aa205a5c05a16059d00598a05944058fe058ce0588e))
  (.nd (.lf
  0xd1010d0ee0d0df0d0cc0d0bd0d0aa0d09b0d0880d0790d0660d0570d0440d0350d0220d0130d0000cff10cfde0cfcf0cfbc0cfad0cf9a0cf8b0cf780cf690cf5d121d71219b1218e121571214a1211312106120cb120be1208112074120391202c11ff111fe411fa911f9c11f6111f5411f1d11f1011ed911ecc11e9511e8811e5111e4411e0d11e0011dc511db811d7b11d6e11d3511d2811cf111ce411ca9)
  (.lf 0))) (.nd (.nd (.lf
  0x59cc0598605940058fa05774056ee0566805d0f05ced05d0e05cd505cad05cd405c9405c4f05c2705c4e05c0f05be705c0e05bce05b8905b6105b8805b4905b2105b4805b0905ae105b0805ac805a8205a3c059f6059b00596a05924058df058b7058de0589f058770589e0585f058370585e0581f057f70581e057df057b7057de0579e05759057310575805718056d3056ab056d2056920564d056250564c)
  (.lf
  0xb5df0b5dd0b5c50b5c30b5bf0b5bd0b5a308eac08e8608e4208e0608dc608d7c08d4008d0008cc008c8008c3608bf008bb408b7408b3408aea08aa408a6808a28089e8089a80895e08922088d808892088560880c087c6087800873a086fc08ead08e8708e8308e7f08e4b08e4908e4508e4308e0308e0708e0108dfd08dc308dc708dc108dbd08d8508d8308d7f08d7d08d3d08d4108d3b08d3708cfd08d01))
  (.nd (.lf
  0x21e6221dfb21def21d8021d8321cd421d3b21ccc21cc521ca421c9921c6421c5f21c1e21c1721bb021ba621b9521b8921b3a21b3d21b2c21af421a5d21aec21a4921a2c21a2521a31219d8219db219c62198b218ea218e4218c1218d0218b5218c7216aa2169f21640215d0215bd215c6215a9215e122b9322eba22b8722eae22b9122e9e22b8b22e9222b8922e8a22b8d22e8422b6122e7222b9722e6c22bd9)
  (.lf 0)))

def shaXorReads308 : BTree :=
  .nd (.nd (.nd (.lf
  0x36e401ffb01f7b0135500f7400f3400f2100ecf00eb841e5241e0e036f2036b001ffd01f7d0135700f7600f3600f2300ed100eba41e4841e32036be0367e01fff01f7f0135900f7800f3800f2500ed300ebc41e2a41e0603674036440200101f810135b00f7a00f3a00f2700ed500ebe41e2041de80363a036080200301f830135d00f7c00f3c00f2900ed700ec041dde41dd403616035d60200501f850135f)
  (.lf
  0x1ab9e1aa0c1ab941aa101ab8a1aa141ab801aa181ab761aa1c1ab6c1aa201ab621aa241ab581aa281ab4e1aa2c1ab441aa301ab3a1aa341ab301aa381ab261aa3c1ab1c1aa401ab121aa441ab081aa481aafe1aa4c1aaf41aa501aaea1aa541aae01aa581aad61aa5c1aacc1aa601aac21aa641aab81aa681aaae1aa6c1aaa41aa701aa9a1aa741aa901aa781aa861aa7c1aa821b9bc1bb621b9c01bb541b9c4))
  (.nd (.lf
  0x26a52269a2269162879c287c6287742874828716286b4286be2869a2866e2864e286362862028604285f0285f2285cc285ac285b82858a2858c2856628556280ce27fa827e522854427c1827c0627bf827bda27b2a27ae4293b6293a42938029354292c8292e0292f8292902927629256292382921829226291f6291e6291d8291c42919e291aa2918829164291542917a28f6628f0e28ef028ec028ea428e68)
  (.lf
  0x3736d373693736737365373633735f3735d3735b373593735537353373513734f3734b373493734737345373413733f3733d3733b373373733537333373313732d3732b3732937327373233731d3731b373213731937315372fd372fb372f7372f5372f3372f1372ed372eb372e9372e7372e5372e1372df372dd372d9372d7372d5372d3372cd372cb372c9372cf372c7372c3372bf372bd372b9372b7372b5)))
  (.nd (.nd (.lf
  0x6a31069b105df70527b051fb051e4051a0050e0081e00819406a33069b305df90527f051fd051e6051a2050e20818a0814c06a35069b505dfb05283051ff051e8051a4050e40815a0810c06a37069b705dfd0528705201051ea051a6050e60811a080ce06a39069b905dff0528b05203051ec051a8050e8080c40808606a3b069bb05e010528f05205051ee051aa050ea080940804806a3d069bd05e0305293)
  (.lf
  0x2dfc12dfbd2dfbb2df9d2df9b2df972df952df6b2df692df652df632df612df5f2df5b2df592df572df552df512df4f2df4d2df4b2df472df452df432df412df3d2df3b2df1d2df1b2df172df152de912de8f2de8b2de892de872f2302f2262f21c2f2182f20c2f1fe2f1f42f1ea2f2322f1d82f1ce2f1c42f1ba2f1b02f1a62f19c2f0c42f0ba2f0862f07c2f0702f0662f05e2f0542f04a2f0402efee2efae))
  (.nd (.lf
  0x97d0097c7097880977f097480973f09708096ff096ca096c1096840967b0963e09635095f8095ef095b2095a90956a095610952c09523094e6094dd094a009497094580944f094180940f093d8093cf093980938f0935a09351093300932f0a4ff0a8b00a4fd0a8aa0a4fb0a8580a4f90a8520a4f70a8000a4f50a7fa0a4f30a7a80a4f10a7a20a4ef0a75a0a4ed0a7540a4eb0a7280a4e90a7220a4e70a70e)
  (.lf 0)))

def shaXorReads309 : BTree :=
  .nd (.nd (.nd (.lf
  0x247e6245af22fbb21eed2168a2155f2154d214da247de245c122fbd21ead215612154f21544214d0247d6245bb22f5b21dbf215632155121546214c6247ca245b522fff21d61215652155321548214bc247be245c322e3d21d3921569215552154a214b2247b2245ff22e1521d0f21889215572154c214a8247a62460122e1721cbf2188d215592154e2149e2479c245fd22e1921c4f218912155b2155021494)
  (.lf
  0x12db112de312daf12dab12da912da712da312da112d9312d9112d8d12d8b12d7d12d7b12d7712d4512d4112d3f12d3b12d3712d3512d4712d3312d2f12d2d12d4b12d2b12d2712d2512d2312d1512d1112d0f12d0d12d0912d0712cd912cd712cd312cd112caf12cad12ca912c9f12c9112c8f12c7d12c7312c7112c6f12c5112c4512c411402c1400013fb413f6213f1a13eca13e7a13e2c13dd813d8413d30))
  (.nd (.lf
  0x402a33ff623f9073f9003f8fb3f8f23f8eb412b9402373ff583f8c23f8c03f8b93f8b73f8b5411194020b3ff4c3f8873f87b3f8753f86e3f868410cd402013ff423fbb93fa983f84a3f83b3f839410974019b3ff383f9ca3f8073f7f63f7f13f7ef410d1404333ff323f8fa3f7e53f7dc3f7d93f7d741061401533ff283f8b83f7c53f7c33f7bc3f7b941063401773ff1c3f9eb3f8743f7ad3f7a33f7a04105f)
  (.lf
  0x13a9113a8d13a8b13a4513a4313a3f13a3d139f5139f3139ef139ed139a3139a11399d1399b13955139531394f1394d13909139071390313901138bd138bb138b7138b51386d1386b13867138651381b138191381513813137cd137cb137c7137c51377d1377b13777137751372b137291372513723136d90dfbc0dfb20dfa80df9e0df940df8a0df800df760df6c0df620df580df4e0df440df3a0df300df26)))
  (.nd (.nd (.lf
  0x182df182e2182a21825c182171821318216181d7181d3181d61819718193181961815618110180ca18085180811808418045180411804418005180011800417fc417f7e17f3917f3517f3817ef917ef517ef817eb817e7217e2d17e2917e2c17dec17daa17d6417a9817a8e17a8417a7a17a7017a6617a5c17a5217a4817a3e17a3417a2a17a2017a1617a0c17a02179f8179ee179e4179da179d0179c6179bc)
  (.lf
  0x1332f1332b133291332713325133211331f1331d1331b133171331513313133111330d1330b13309133071330313301132ff132fd132f9132f7132f5132f3132ef132ed132eb132e9132e5132e3132e1132df132db132d9132d7132d5132d1132cf132cd132cb132c7132c5132c3132c1132bd132bb132b9132b7132b3132b1132af132ad132a9132a7132a5132a31329f1329d1329b13299132951329313291))
  (.nd (.lf
  0x1a4701a3e01a3a01a3201a07019fe019fa019f2019c7019be019ba019b2019800197c01974019710194101938019340192c01901018f8018f4018ec018ba018b6018ae018ab0187b018720186e018660183b018320182e01826017f4017f0017e8017e5017b5017ac017a8017a0017750176c0176801760017350172c01728017200170c0170702b6e02b6b02b4102b3a02b3602b3002afe02afa02af202aef)
  (.lf 0)))

def shaXorReads310 : BTree :=
  .nd (.nd (.nd (.lf
  0x2eb3d2df2d2df042dd5f2dd5a2dd5431d2831d0c2fb7b2fb772eb052df072de3e2dd5d2dd462dd4031cfa31cde2fb672fb632ead72de412de202dd6b2dd682dd6231cd831b2c2fb552fb512eaa52dfa92de2d2de222dd2c2dd2631c6031b362fb432fb3f2ea9b2df7b2de2f2de242dd182dd1231c5831b322fb312fb2d2ea432dfaf2dedf2de262d3dc2d3ca31c2a31b2e2fb1f2fb1b2ea052df812dec12ddd0)
  (.lf
  0x2ebfd2ec012ebfb2ebf72ebcb2ebc92ebc52ebc12ebab2eba92eba52eb872eb632eb612eb5d2eb512eb4f2eb4d2eb432eb2d2eb152eb132eb0f2eaf12eae32eae12eadd2eac52ea7f2ea7d2ea792ea732ea712ea892ea6f2ea612ea372ea452ea352ea312ea1f2ea1d2ea192ea092e9d12e9e72e9cf2e9cb2e9af2e9ad2e9a92e9a12e99f2e99d2e9992e9912e9512e94f2e94b2e9432e9412e93f2e93b2e933))
  (.nd (.lf
  0x2aa8924ead24ea62472e245ee35ca635c2734a9734a09349ec2aade2aa8d24eaf24eaa2487c2472235c9835c2b34a9b34a0b349f02aad42aa9124eb124eac2471a2437035c9235c2f34a9f34a0d349f42aaca2aa9524eb324eae246de245f635c8635c3334aa334a0f349f82aac02aa9924eb524eb0246d8245ac35c7a35c3734a11349fa2aab62aa9d24eb724eb22468c245c835c4035c3b34a13349fc2aaac)
  (.lf
  0x1eccd1ecc91ecc71ecad1ecab1eca71eca51ec891ec871ec831ec811ec651ec631ec5f1ec5d1ec411ec3f1ec3b1ec391ec1d1ec1b1ec171ec151ebf91ebf71ebf31ebf11ebd51ebd31ebcf1ebcd1ebb11ebaf1ebab1eba91eb8d1eb8b1eb871eb851eb691eb671eb631eb611eb471eb451eb411eb3f1eb231eb211eb1d1eb1b1eaff1eafd1eaf91eaf71eadd1eadb1ead71ead51eabb1eab91eab51eab31eaa5)))
  (.nd (.nd (.lf
  0x419d6419ce419c6419ba419b0419a8419a041998416384162c416224161a4160e41604415fc41558414d24133c41316412b24116e410c641b8441b6441ae241adc41a9841a7841a6a41a38416e4416ac416b44166c4153a414ae413964137641b8241b6141b5d41b6041afd41af741afc41af541aef41af441aec41ae041ad541acf41ad441acd41ac741acc41a9e41a9241a7441a6941a6541a6841a6341a5d)
  (.lf
  0x2072b207292072520723207212071f2071b207192071720715207112070f2070d2070b20707207052070320701206fd206fb206f9206f7206f3206f1206ef206ed206e9206e7206e520773206e3206df206dd206db206d7206d5206d3206d1206cd206cb206c9206c7206c3206c1206bf206bd206b9206b5206b3206b7206b1206ad206ab206a9206a5206a3206a12069f2069b206992069720695206912068f))
  (.nd (.lf
  0x5e9605fca05e9a05fc005e9e05fb605ea205fac05ea605fa205eaa05f9805eae05f8e05eb205f8405eb605f7a05eba05f7005ebe05f6605ec205f5c05ec605f5205eca05f4805ece05f3e05ed205f3405ed605f2a05eda05f2005ede05f1605ee205f0c05ee605f0205eea05ef805eee05ef406af006c9406af406c8a06af806c8006afc06c7606b0006c6c06b0406c6206b0806c5806b0c06c4e06b1006c44)
  (.lf 0)))

def shaXorReads311 : BTree :=
  .nd (.nd (.nd (.lf
  0x184b3184981678115fd3150e5150551504a14ffe184791845e1678315fd5150e9150571504c1500018441184261678515fd7150ed150591504e1500218407183ec1678715fd9150f11505b1505015004183cf183b21678915fdb150f51505d150521500618397183721678b15fdd150f91505f15054150081835718332167bb15f651507d15061150561500a18317182f21678d15f671508115063150581500c)
  (.lf
  0x3efb13efaf3efad3efab3efa73efa53efa33ef9f3ef9b3ef993eff53ef973ef933ef913ef8f3ef8b3ef433ef413ef3f3ef3b3ef393ef353ef333ef2f3ef2b3ef293ef273ef213ef1f3ef1d3ef1b3ef173ef153ef133ef113ef073ef053ef033ef013eefd3eedf3eedd3eedb3eed73eed33eed13eecf3eecb3eebd3eebb3eeb93ede53ede33ede13ede73eddf3eddb3edd93edd73edd33edd13edcf3edcd3edc9))
  (.nd (.lf
  0x2d80a2d8ce2d80e2d8c42d8122d8ba2d8162d8b22d81a2d8a42d81e2d89e2d8222d8902d8262d88a2d82a2d87c2d82e2d8762d8322d8682d8362d8622d83a2d8562d83e2d84c2d8422d8482e4f02e8d02e4902e8c82e4942e8bc2e4982e8b22e49c2e8a62e4a02e89e2e4a42e8922e4a82e8882e4ac2e8802e4b02e8762e8122e86c2e7d42e8622e79a2e8582e75e2e8502e7162e8422e6d82e83c2e6942e830)
  (.lf 0))) (.nd (.nd (.lf
  0xf92e1dff81dfe21dfcc1dfb61dfa01df8a1df741df5e1df481df321df1c1df061def01ded81dec21deac1de961de801de6a1de521de3a1de221de0c1ddf61dde01ddca1ddb41dd9e1dd881dd702094c20942209382092e209242091a2091020906208fc208f2208e8208de208d4208ca208c0208b6208ac208a2208982088e208842087a20870208662085c20852208482083e208342082a20cb020c9c20c86)
  (.lf
  0x62c1062bd0628d0627f0627d062790624b0623d0623b0623706207061f9061f7061f3061c5061bf069a10694f0694b06925068c9068c50689f068430683f06819067fd067f9067d3066f7066f3066cd066b1066ad066870666b066670664106565065610653b064df064db064b506499064950646f064530644f064290640d06409063e306387063830635d063410633d06317062bb062b7062910623506231))
  (.nd (.lf
  0x1fda61fd941fd721fd701fd521fd4c1fd2e1fd2c1fd0e1fd0a1fce81fce61fccc1fcc61fcb41fca41fc921fc801fc6e1fc5c1fc3e1fc3c1fc201fc1e1fc021fc001fbe01fa681fbda1fa581fb9e1fa4c1fb981fa401fb361fa341fb2e1fa321fafa1fa301fabc1fa2e1fa6a1fa5c1f9b81f9841f9b21f98a1f9501f92a1f912211c2212ce211bc212c8211aa212b8211ae212ae21194212a6211882127a2117a)
  (.lf 0)))

def shaXorReads312 : BTree :=
  .nd (.nd (.nd (.lf
  0xcf2f0020e001860f8a70f8480f81f0d0920cf3300204001840f8ab0f84a0f8210d0700cf37001fa001820f8af0f84c0f8230d04e0cf3b001f0001800f8b30f8250f8080d02c0cf3f001e60017e0f8b70f8270f80c0d00a0cf43001dc0017c0f8bb0f8290f8100cfe80cf47001d20017a0f8bf0f82b0f8140cfc60cf4b001c8001780f82d0f8160cfa40cf4f001be001760f82f0f8180cf820cf53001b400174)
  (.lf
  0x3fde63fbd03fddc3f8823fdd23f88c3fdc63faaa3fdb63f9b43fda63f9043fd963f8c63fd663fbc63fd543fae43fd3c3f9d63fd2c3f8fe3fd223f8bc3fd043f8783fcf43fbcc3fce03f80a3fc923f7e23fc523f7c83fc3a3f7ae3fbd23fbce3fb0c3f78c3fafe3f4763faf83f4783faa03fa9e3f9a03f99a3f9083f8f63f8d83f8c83f88e3f87c3f83e3f83c3f7f2402c8404c440288404b6402b0404ac40264))
  (.nd (.lf
  0x286ec2867e2865a292402921e293c2293c42938c2935c292d0292e8293002929c292a02926229242293c6293c8293902935e292d2292ea29304292a4292a8293cc293d02939429362292d6292ee29308292ac292b0292662a7762a75a2a8c02a8a42a87c2a8622a7fc2a8e02a7d42a7b22a8162a79e2a7782a8c22a8a82a8802a8642a8002a8e42a7d62a7b42a81a2a8c62a8ac2a8842a8682a8022a8e82a7da)
  (.lf
  0x39ead39ea939e9d39e9b39e9939e9539e7f39e7d3a2043a2063a1d23a1ca3a1ac3a11a3a1183a1083a1003a0f03a0e63a0dc3a11c3a0cc3a0bc3a0b23a0663a05a3a0a03a0443a0483a0263a0823a0163a00a3a0003a06c39ee23a0743a07a39e903a2053a2073a2033a1ff3a1fd3a1fb3a1f73a1d53a1d33a1d13a1cd3a1cb3a1c93a1c73a1af3a1ad3a1ab3a1a93a1a53a11b3a1173a1193a1153a1113a10f)))
  (.nd (.nd (.lf
  0xb0e70b09f0a6e109c7309c5709c4009bfc09b3c0c54a0c4aa0b0e90b0a10a6cd09c7709c5909c4209bfe09b3e0c53e0c4d20b0eb0b0a30a6b909c7b09c5b09c4409c0009b400c5340c4ca0b0ed0b0a50a6a509c7f09c5d09c4609c0209b420c52c0c4cc0b0ef0b0a70a5d109c8309c4809c1f09c0409b440c5240c4d00b0f10b0a90a5bd09c8709c4a09c2109c0609b460c51c0c4ce0b0f30b0ab0a5ab09c8b)
  (.lf
  0x321d1321cd321c7321a932ebe32ec232eaa32ea032e9232e8232e7a32e6832e8832e5e32e4a32e3c32e3432e3232e1a32b7032b4432b1c32af432ad032fea32a6232a24329e8329a832972329123284e3281e327fe327c832ebf32ec332ebd32eb932eb732eb532eb132eaf32eab32ea932ea532ea132e9f32e9d32e9932e9532e9332e9132e8d32e8332e8132e7f32e7b32e7732e7532e7332e6f32e6d32e69))
  (.nd (.lf
  0x2c45d2caec2c4412caca2c4452cac42c4332ca9e2c3fd2ca962c3ff2ca7c2c4012ca5c2c3bb2ca562c2b12ca3a2c28b2ca342c26d2ca2a2c24b2ca0e2c22d2c9fe2c2112c9f42c1eb2c1c12c18a2c1852c1442c14b2c11e2c0dd2db7f2df862db812ded42db532deca2db272de9c2dab32de922da9f2de562da6d2de502da532de482da1f2ddfa2d9fd2ddf22d9d92dde62d98f2ddd62d7312ddc22d7072ddac)
  (.lf 0)))

def shaXorReads313 : BTree :=
  .nd (.nd (.nd (.lf
  0x2d7502d6672b66f2a365296e22960929603295f62d6592d64c2b6712a341296762960b29605295f82d6442d6352b6732a31f296782961f2961d2961a2d61b2d5fa2b6752a3012976129634295c5295c22d5f22d5c52b5212a2df29765296512964e2964c2d5cb2d4a82b4752a2bf296e529602295a3295a02d49c2d2cd2b4772a2a1296e929604295a5295982d4902d2c52b4792a287296ed2961c295a72957c)
  (.lf
  0x18ffc18fba18f7a18f3a18ef018eaa18e6a18e2618de418da418d6218d26194bb194b9194b5194b3194b1194af194ab194a9194a7194a5194a11949f1949d1949b194971949519493194911948d1948b194891948719483194811947f1947d194791947719307199d1192cd192c919291192931928f1928b19253192511924d1924b19213192111920d1920b191d3191d1191cd191cb19193191911918d19189))
  (.nd (.lf
  0x19ce819c77152631525e137121370f136fa136de225fb225e419c7d1526515260136d3136be242531abb5114ec0f5f30f5d70f5c00e3590e33f0e33a245a0242571b3641abb9115e4110940f5f50f5d90f5c20e35b0e3410e33c2458c2425b1b3301abbd115da110880f5f70f5db0f5c40e35d0e3430e33e24576242991b2f61abc1115d01107c0f5f90f5dd0f5c60e35f0e3450e340245602429d1b2c01abc5)
  (.lf
  0x16f1616edc16ea416e6a16e2a16dea16dae1747317465174611744117433174311742d17409173fb173f9173f5173cd173bf173bd173b91738f173811737f1737b173551734717345173411731d1730f1730d17309172e5172d7172d5172d1172af172a11729f1729b172791726b17269172651723d1722f1722d17229171ff171f1171ef171eb171c3171b5171b3171af171871717917177171731714b1713d)))
  (.nd (.nd (.lf
  0x21802217f8217ee217e4217da217d0217c6217bc217b2217a82179e217942178a2178021776216782152c2148821470213fc213ca223f2223e8223de223d4223ca223c0223b6223ac223a2223982238e22384223782236e223642235c22352223482233e223342232a22320223162230c222fe221d6221cc221c4221bc221b222b8222b7822b7022b6622b5822b4e22b4622b3e22b3622b2622b1c22b1022b06)
  (.lf
  0x16ce316ce116cdd16cdb16cd916cd716cd316cd116ccf16ccd16cc916cc716cc516cc316cbf16cbd16cbb16cb916cb516cb316cb116caf16cab16ca916ca716ca516ca116c9f16c9d16c9b16c9716c9516c9316c9116c8d16c8b16c8916c8716c8316c8116c7f16c7d16c7916c7716c7516c7316c6f16c6d16c6b16c6916c6516c6316c6116c5f16c5b16c5916c5716c5516c5116c4f16c4d16c4b16c4716c45))
  (.nd (.lf
  0x125761232e12137121341256e12320120f3120f01253e1231a120ab120a81245e12310121f212061124541233a12304120191244c1233c122fa11fd1124401233e122f011f891243812338122e611f411242e122da11efd11efa12424122d211eb911eb61241a122c811e7511e721240c122c011e3111e2e12402122b011ded11dea123fa122aa11da511da2123f21229c11d5b11d58123da1229011d1411d13)
  (.lf 0)))

def shaXorReads314 : BTree :=
  .nd (.nd (.nd (.lf
  0x3b49f38e9738dea37a8736977367673665a3642c3b46538de738da437a8936b45366223644f3641e3b42338da738d8637a8b36a27365e636451364103b3e138d7238d6537a5b36a29365d036453363fe3b3bd38d5938d38377c53697b365c4363913638e3b2df38d2738d0e377b53697f3676636765367623b2cf38d0638cf3377d1369093644e3605f360543b2bf38ceb38cd23778f36883364503606136038)
  (.lf
  0x3695e36940368c43687236856367fa366fa366ae367123664836606365d6365c83657436426364163640a363f8363883675a3604e3602c3602e3603c3600e35ffc35e5e35e0c36b1536a0d36a0b36a0736a0536a03369ff369f5369f3369f13695f3695b36943369413693d36939368d7368c5368bf368bb368913688f3687d3687536873368713686d368593685736855367fb367f73670736705366fb366f5))
  (.nd (.lf
  0x307c72bc212bbef2bbea2b0c82af5c39af8398f73925b392253920e308c8307cb2bc252bbec2bb9d2b0ba2af3e39ae4398fb3925f39210391e1308bc307cf2bc292bbee2bba12b0aa2af3a39ad6398ff3926339212391e5308b4307d32bc2d2bba52bb9c2b0a22af4439a98399033926739214391e9308a8307d72bc312bba92bba02b0922af3c39a8e399073926b39216391ed3089c307db2bc352bbad2bba4)
  (.lf
  0x29d0229cec29cd629cc029caa29c9429c7e29c6829c5229c3c29c2629c1029bfa29be429bce29bb829ba229b8c29b7629b6029b4a29b3429b1e29db129da329d9f29d9d29d8f29d8d29d8929d8729d7929d7729d7329d7129d6329d6129d5d29d5b29d4d29d4b29d4729d4529d3729d3529d3129d2f29d2129d1f29d1b29d1929d0b29d0929d0529d0329cf529cf329cef29ced29cdf29cdd29cd929cd729cc9)))
  (.nd (.nd (.lf
  0x2141c213d421372213682135e21318212f6212842122421200210dc2106421050210422100c20fca20f0a20ef620ede20e7020e5c20dd820d9820d5820ce82170e216fc216562150c2143821410214022135221342213322131e212ea2129a2121c211f8210e8210ac210a22109a2102a20ffa20f5820f4820f3820ea820e9820e2e20e1e20d7620d3a22136220b2220902200021fa221f8221f2e21eb821ea4)
  (.lf
  0x241b5241b3241af241ad241ab241f3241a9241a5241a3241a12419d2419b241992419724193241912418f2418d241892418724185241832417f2417d2417b241792417524173241712416f2416d241692416724165241612415d2415b2415f241592415524153241512414d2414b241492414724143241412413f2413d241392413724135241332412f2412d2412b2412924123241212411f24842248362482a))
  (.nd (.lf
  0x26eee2714c26e9a2714026e6a2713626e0c27128270cc27122270962711827046271102704a2710626fd6270fc26f64270f026f2c270e826ef2270de26e9e270d2270d02709e2709a2705c2704e270562705226fdc26fda26f6a26f6826f3426f3026efa26ef626ea426ea226e702879e288ba28804288b0287b0288a22880c2889a287b6288922875228886287202887a286d228872286d62886a286da2885e)
  (.lf 0)))

def shaXorReads315 : BTree :=
  .nd (.nd (.nd (.lf
  0x2119c20d1b1f79d1d7231c9e91c95b1c9501c78c2119020cd11f79f1d7251c9ed1c95d1c9521c7262118420cc71f7a11d7271c9f11c95f1c9541c6fe2117e20cff1f7a31d7291c9f51c9611c9561c6922117020cf71f7a51d72b1c9791c9631c9581c6742116220cf91f7a71d72d1c97d1c9651c95a1c6042114e20cfd1f7a91d5a91c9811c9671c95c1c5e02114420cfb1f7ab1d5ab1c9851c9691c95e1c588)
  (.lf
  0x3ebbf3ebbd3ebbb3ebb93ebb53ebb33ebb13ebaf3ebab3eba73eba53eba33eb9f3eb9d3eb9b3eb993eb953eb913eb8f3eb8d3eb893eb873eb853eb933eb833eb7f3eb7d3eba93eb7b3eb773eb753eb733e8693e8593e8513e8653e84f3e84b3e8313e8353e82f3e8273e8193e8173e8133e8113e80f3e80d3e8093e8013e22f3e23b3e22d3e2273e21f3e2213e20f3e20b3e1df3e1e93e1dd3e1d93e0953e093))
  (.nd (.lf
  0x1de8e1de7c1de781de661de601de4e1de481de361de301de1e1de1a1de081de041ddf21ddee1dddc1ddd81ddc61ddc21ddb01ddac1dd9a1dd961dd841dd7e1dd6c1dd681dd6020cb420ca020c9420c8a20c7e20c7420c6820c5e20c5220c4820c3c20c3220c2620c1c20c1020c0620bfa20bf020be420bda20bce20bc420bb820bae20ba220b9820b8c20b8220b7620b6a20b5e20b5220b4620b3a20b2e20b22)
  (.lf 0))) (.nd (.nd (.lf
  0x3814e3814238102380f6380e2380ca380b23809a380763806e3805837f5e37f5237f4637f3a37f3237f1e37f1237efe37ef237ee437eb837e9c3829a3828638260381c6381be381b6381aa3819e38192381863817a380d8380c0380aa380903807e3806437ffc37ff037fe237fd437fc837fba37fae37fa437f8637f7237ed437ec037e6c373d0373c6373bc373b2373a83739e373943738a37380373763736c)
  (.lf
  0x844d084490844708445084430843f0843d0843b084390843508433084310842f0842b084290842708425084210841f0841d0841b08417084150841309b0a09ace09a8c09a4809a06099c2099800993c098fa098ba0987a0983a097f6097b00976e0972e096ee096aa096640961e095d809592095500950c094c6094800943e093fe093be0937e0933a09b0b09b0909b0509b0309acf09acd09ac909ac709a8d))
  (.nd (.lf
  0x1d1301d0601cd101cc401c9101c8401c4d01c4001c0701bfa01bc501bb801b8101b7401b3b01b2e01af501ae801ab301aa601a6f01a6201a2d01a20019ed019e0019ad019a0019690195c019270191a018e7018da018a30189601861018540182101814017dd017d00179b0178e0175b0174e0171b017160170102b6302b2b02b1e02ae702ada02aa102a9402a5f02a5202a1b02a0e029d9029cc0299502988)
  (.lf 0)))

def shaXorReads316 : BTree :=
  .nd (.nd (.nd (.lf
  0x3609c360963c5f43c5e03b3793b3753780736b3336aa93669235ff435fee3c5d83c5b03b34d3b349377f536adf36a873661a35fda35fd43c5a03c58a3b33b3b325377e936aaf36a61365b035f6635f603c58c3c56e3b3373b3333789f36a8d368e53659835f1e35f183c5623c5003b2213b21d373f336a67368333656c35eda35ed43c4e03c4aa3b2593b255373df368ed368113652e35e9235e8c3c4a83c414)
  (.lf
  0x3f9df3f9dd3f9d93f9733f9413ff723ff6a3ff5e3ff743ff4e3ff443ff403ff2e3ff263ff1a3ff103ff063fefe3fef83feea3fee03fed43feca3fec03feb83feb03fea63fe983f4e43f4363f1943eea83ee603edc63eab43ea543ff733ff713ff6d3ff6b3ff693ff673ff633ff613ff5f3ff753ff5d3ff593ff573ff553ff513ff4f3ff4d3ff4b3ff473ff453ff433ff413ff3f3ff3b3ff393ff373ff333ff31))
  (.nd (.lf
  0x399b3399ae3b1a239c37399b0399ac39c39399b4399b23c4843a2113a20d3a2083c45a3c3883a2133a20f3a20a3c4523c41a3a20c3a1db3a1d73c4483c3723a20e3a1df3a1d93c43e3c3143a1d63a1b53a1b33c3be3c2da3a1d83a1333a1233c39e3c2ba3a1b23a1373a1253c2ac3c28e3a2173a1273a1223c2883c27a3a21b3a1293a1243c25c3c24a3a21f3a12b3a1263c2443c2063a2233a12d3a1283c236)
  (.lf
  0x33e6c33e7033e5833e4c33e4233e3833e2e33e2833e1a33e7433e0633dfa33dfe33de233dd633dda33dc233db833db033da233f0e33d3e33d40339c2339b0339a8339b433994339643395a3394a33e6d33e7133e6b33e6733e6533e6333e5f33e5d33e5933e5733e5333e5133e4d33e4b33e4733e4533e4333e4133e3d33e3b33e3933e3733e3333e3133e2f33e2d33e2933e2733e2533e2333e1f33e1d33e1b)))
  (.nd (.nd (.lf
  0x338b6338ba338be338c2338c6338ca338ce338d2338d6338da338de338e2338e6338ea338ee338f2338f6338fa34a3234a3634a3a34a3e34a4234a4634a4a34a4e34a5234a5634a5a34a5e34a6234a6634a6a34a6e34a7234a7634a7a34a7e34a8234a8634a8a34a8e34a9234a9634a9a34a9e34aa235bcc35bd035bd435bd835bdc35be035be435be835bec35bf035bf435bf835bfc35c0035c0435c0835c0c)
  (.lf
  0x2a9f62a9ce2a9d62a9ba2a9b22a9a82a99c2a9942a9882a97e2a9742a9682a9782a9582a9f82a9442a93c2a9302a9242a9282a9122a90a2a9002a8f82a8ec2a83c2a82c2a8462a9f32a9f12a9ed2a9eb2a9e92a9f52a9e72a9e32a9e12a9f72a9df2a9db2a9d92a9d52a9d12a9cf2a9cd2a9d72a9cb2a9c72a9c52a9c32a9bf2a9bd2a9bb2a9b92a9b52a9b32a9b12a9af2a9ab2a9a92a9a72a9a52a9a12a99f))
  (.nd (.lf
  0x2926529454292452944a293d529440293cb29436293932942c2936129422292d529418292ed2940c2930729402292a7293f8292ab293ee293cf293e4293d3293972937029365293422933a292d929330292f1293262930b2931c292af29312292b3292692a8cd2a9ea2a8972a9e02a8cf2a9da2a8a72a9d02a87f2a9c62a8db2a9bc2a7ff2a9b42a8e32a9aa2a80f2a9a02a7bd2a9922a8192a98a2a7a12a980)
  (.lf 0)))

def shaXorReads317 : BTree :=
  .nd (.nd (.nd (.lf
  0x1d6861d5d61b7411b72d1a5c3197d9197511973a196d2196cc1d64c1d56a1b7431b72f1a5c5197dd197531973c196c0196ba1d6421d5601b7451b7311a5c7197e1197551973e196ae196a81d5f21d5121b7471b7331a5c9197e519757197401969c196961d50a1d4c61b7491b7351a5cb197e919759197421968a196841d5001d4a41b6ef1b6eb1a5cd1976d1975b1974419678196721d4f61d4981b6d51b6d1)
  (.lf
  0xb0180b00e0b0040affa0b21f0b21d0b2190b20f0b20d0b20b0b2070b1fd0b1fb0b1f90b1f50b1eb0b1e90b1e70b1e30b1d90b1d70b1d50b1d10b1c70b1c50b1c30b1bf0b1b50b1b30b1b10b1ad0b1a30b1a10b19f0b19b0b1990b18f0b18d0b1890b1870b17d0b17b0b1770b1750b16b0b1690b1650b1630b1590b1570b1530b1510b1470b1450b1410b13f0b1350b1330b12f0b12d0b09b0b0990b0950b093))
  (.nd (.lf
  0x32abe32a9f32a9a32a5d32a5832a4232a17329db329d6329c23299b3296732962329423290532850327bf328423278f327f0327bd327ea327913279533cab33e6633ca133e5e33c8f33e5233c8133e4433c9333e3a33cb533e3233ca333e2633cb333e1e33c5333e1233c4b33e0c33c3933df833c2b33df033c3333de833c1b33ddc33c0d33dce33bff33dc833bf933dbc33caf33db233bd933da833bcf33d9a)
  (.lf
  0x13490134501343013410133f0133b013390133701335013310132f0132d0132b013270132501323013210131d0131b013190131701313013110130f0130d01309013070130501303012ff012fd012fb012f9012f5012f3012f1012ef012eb012e9012e7012e5012e1012df012dd012db012d7012d5012d3012d1012cd012cb012c9012c7012c3012c1012bf012bd012b9012b7012b5012b3012af012ad012ab)))
  (.nd (.nd (.lf
  0xcbf60cbec0cbe20cbd80cbce0cbc40cbba0cbb00cba60cb9c103c81036a1030a102ac10252101f2101961013a100dc1007e100240ffc40ff640ff060fea80fe460fdea0fd8a0fd2a0fccc0fc6e0fc100fbb60fb560faf60fa940fa380f9dc0f97a0f912103c21036210302102a41024a101ea1018e10132100d4100761001c0ffbc0ff5c0fefe0fea00fe3e0fde20fd820fd220fcc40fc660fc080fbae0fb4e)
  (.lf
  0xd01f0d01b0d0190cfff0cffd0cff90cff70cfdd0cfdb0cfd70cfd50cfbb0cfb90cfb50cfb30cf990cf970cf930cf910cf770cf750cf710cf6f0cf6310ea810e8a10e6810e4a10e2a10e0810de610dc410da210d8410d6410d4210d2010cfe10cdc10cbe10ca210c8210c6410c4810c2c10c0c10bea10bc810ba610b8810b6c10b5010b3410b1410afc10ea910e9b10e9710e8b10e7d10e7b10e7710e6910e5b))
  (.nd (.lf
  0x48fe04927048ff05cec05cac05c9005c2605be605bca05b6005b2005ae005ac405a7e05a38059f2059ac0596605920058b60587605836057f6057b60579a0573005714056aa0568e05624055e40560d055e5069660694a068e0068c40685a0683e067f80678e0674e0670e066f2066ac06666065fc065bc0657c06560064f6064da064940644e064080639e063820633c062d2062b60624c06230061c6061ef)
  (.lf 0)))

def shaXorReads318 : BTree :=
  .nd (.nd (.nd (.lf
  0x2871926fd926fcf26fcc26fc226fbc2b7162b6e2292e1292dd286b726f6726f5d26f5a26f5226f4c2b6cc2b6a0292f9292f5286c126f2f26f2526f2226f1826f122b6862b652292912928d2869d26ef526eeb26ee826ee026eda2b61a2b5a429277292732867126ea126e9726e9426e8a26e842b59c2b57029257292532865126e6d26e6726e6426e5c26e562b5922b55e29239292352863926e0726e0126dfe)
  (.lf
  0x2861a285fc285e4285e6285c6285a4285b22858028572285602854e280c827fa227e4c2853e27c1027c0027bec27bd427b1c28797287c128795287912878f2878d287892876f2876d28743287412873d2873b2873928735287112870f2870d28709286c3286af286b9286ad286a9286a7286a5286a12869f28695286932868728669286672866528661286492864728645286312862d2862b286292861b28617))
  (.nd (.lf
  0x1e1ac1e1381e032306b2303f32f2932f26b2f2542502424e9d1e1d91e1b31e1ae1e1301e030306ac303f72f2972f26d2f2562501a24ea11e1dd1e1b51e1b01e1281e01a30694303fb2f29b2f26f2f2582501024ea51e1e11e1b71e1b21e11c1e01430678303ff2f29f2f2712f25a2500624ea91e1e51e1b91e1b41e1101e00e30664304032f2a32f2732f25c24ffc24ed91e1e91e1bb1e1b61e1081e0083063e)
  (.lf
  0x20b5420b3c20b2420b0c20af420ade20ac820ab020a9a20a8420a6e20a5820a4220a2c20a1620cb720ca920ca520ca320c9520c9320c8f20c8d20c7f20c7d20c7920c7720c6920c6720c6320c6120c5320c5120c4d20c4b20c3d20c3b20c3720c3520c2720c2520c2120c1f20c1120c0f20c0b20c0920bfb20bf920bf520bf320be520be320bdf20bdd20bcf20bcd20bc920bc720bb920bb720bb320bb120ba3)))
  (.nd (.nd (.lf
  0x374a2374983748c3748037478374683745c37450374423741237406373fe370c8370bc370a63708e36e1c3762a3761e3761437608375fc375ee375e0375d8375ce375c4375b6375ae375a237594375883758037576375663755e37554374563743a3742e37420370e6370da370b2370a236e4436e023775a3773e377343771a3770c376fc376e8376c4376ca3769c3768c3766c37658376383715a3712e36e12)
  (.lf
  0x1d3b71d3b51d3b11d3af1d3ad1d3ab1d3a71d3a51d3a31d3a11d39d1d39b1d3991d3971d3931d3911d38f1d38d1d3891d3871d3631d3611d35d1d35b1d3591d3571d3531d3511d3371d3351d3311d32f1d30b1d3091d3051d3031d2e11d2df1d2b31d2b11d2af1d2ad1d1e51d1cf1d1cd1d1cb1d1c71d1c51d1c31d1c11d1bd1d1bb1d1b51d1b31d1b11d1ad1d1ab1d1a91d1a51d1951d1931d1911d03f1d03b))
  (.nd (.lf
  0x34632346103460734600346ef345c4345a034598345e3345a8345863457e34524344a63444a344453451c344b7344b43449c344d43445c3443434433344813446a344523444e3441c34404343f6343f1343d9343ca343c0343ba343a5343943438c343863436a3435c34359343563433a342e3342e0342d834326342cc342c3342ba3424d3423e3423c342343421a34206341fd341f4341d6341bc341ae341ad)
  (.lf 0)))

def shaXorReads319 : BTree :=
  .nd (.nd (.nd (.lf
  0xa9de0a6900f8cb0bf990b4d70aa770a9eb0a9e00a6920d3650ca530bf9b0b57d0b4ef0b4e40b4980d3470d32e0ca550bf9d0b5810b4f10b4e60b49a0d3250d30c0ca570bf9f0b5850b4f30b4e80b49c0d3030d2ea0ca590bfa10b5890b4f50b4ea0b49e0d2e10d2c80ca5b0bfa30b58d0b4f70b4ec0b4a00d2bf0d2a60ca5d0bfa50b5910b4f90b4ee0b4a20d29d0d2840ca5f0bfa70b5950b4fb0b4f00b4a4)
  (.lf
  0x3bf173bf153bf113bf0f3bf0d3bf0b3bf053bf033bf013beff3befb3bef93bef73bf093bef53bef13beef3beed3bee93bee73bee53bee33bedf3bedd3bedb3bed93bed53bed33bed13becf3becd3bec93bec73bec53bec13bdaf3bdad3bdab3bda53bda33bda13bd9f3bd9b3bd993bd973bd953bd913bd8f3bd8d3bd8b3bd873bd853bd833c03f3bd813bd7d3bd5f3bd5d3bbfb3bbf93bbf73bbff3bbf53bbf1))
  (.nd (.lf
  0x3a8a63aa2e3a8aa3aa103a8ae3aa083a8b23a98a3a8b63a9803a8ba3a9763a8be3a9703a8c23a9623a8c63a95a3a8ca3a9523a8ce3a9443a8d23a92a3a8d63a91c3a8da3a90e3a8de3a8e83a8e23a8ee3ab8a3adba3ab8e3adaa3ab923ada43abd03ad983abd43ad883abd83ad7c3abdc3ad743abe03ad603abe43ad523abe83ad4a3abec3ad3e3abf03ad383abf43ad2c3abf83ad183abfc3ad103ac003ad02)
  (.lf 0))) (.nd (.nd (.lf
  0x2c8a82c8ac2c8b02da842da342da022d9ec2d9a02d7422dbaa2dbac2db622db402db042dbb02dbce2db662db442db082db0c2dbd22da862da362da082d9ee2d9a22d7442d7262dbb42dbb82db6a2db462db102db142dbd62edde2edba2edcc2ecec2ec942ec7c2f0342efe22efa22ef002ef042f0382efe62efa62ef082ef0c2ee262ee2a2ede02edbc2edce2ecee2ec962ec7e2ec822f03c2efea2efaa2ef10)
  (.lf
  0xb6100b5f00b5b00b5900b150445c04424043e00439a0435404312042d20428e0424c04208041c60418204140040fc040b6040740403003fea03fa803f6803f2803ee803ea403e6203e2203dde03d9c03d5803d1203cd003c8c0445d0444f0444b04425044170441504411043e1043d3043d1043cd0439b0438d0438b0438704355043470434504341043130430504303042ff042d3042c5042c3042bf0428f))
  (.nd (.lf
  0x4178e4115b417844149141778412fd4176a412df41760412bf4174e41127417444149d417364130341730412d7415ea4146f415da4114f415d2410f7415cc4109d415c0410d7415b641051415ac41153415a24102741570411014156a410574152d4149a414854132a4131e412fb41310412d9412a9411144110b410c0410ba410a7410af00b0600af600ae800ad600aca00ab800aae00a9c00a9200a8000a76)
  (.lf 0)))

def shaXorReads320 : BTree :=
  .nd (.nd (.nd (.lf
  0x8738087040f6630f65e0f3940f3890f1110f0fa0dcaa0dc9f086fa086d60f6650f6600f38f0f1130f0fc0dca5086d41e9e31522f0f31b0f2ff0f2e80cd170ccfd0ccf809b1a1eeb61e9e7159b8152330f31f0f3010f2ea0cd1b0ccff0ccfa09aec09ab21ee961e9eb15984152370f3230f3030f2ec0cd1f0cd010ccfc09ab409a741ee741ea291594a1523b0f3270f3050f2ee0cd230cd030ccfe09a6a09a2c)
  (.lf
  0x322c631f51322b632285322aa32289322b5321e4321de3219d321ce321a1321cb321a8321a5334a1335f6334a3335ec3349f335de334a5335d233449335cc333f7335c4334b9335b8334bd335ae334c1335a4334c53359c334513358e334c933582334cd3357c334d133570334d533566334553355c3340b335523340f3354a334133354033417335363341b3352c33329335223334933518333593350e3330d))
  (.nd (.lf
  0x146061460a1460e1507c1508015084150881508c1509015094150981509c150a0150a4150a8150ac150b0150b4150b8150bc150c0150c4150c8150cc150d0150d4150d8150dc150e0150e4150e8150ec150f0150f4150f81602c1603016034160381603c1604016044160481604c1605016054160581605c1606016064160681606c1607016074160781607c1608016084160881608c1609016094160981609c)
  (.lf
  0x224502243022410223d0223b022390223702233022310222f0222d022290222702225022230221f0221d0221b022190221502213022110220f0220b02209022070220502201021ff021fd021fb021f7021f5021f3021f1021ed021eb021e9021e7021e3021e1021df021dd021d9021d7021d5021d3021cf021cd021cb021c9021c5021c3021c1021bf021bb021b9021b7021b5021b1021af021ad021ab021a7)))
  (.nd (.nd (.lf
  0x9e8b0925b0869d0861308608085fc07ab107aa809e8d0925d086a1086150860a085fe07a830a61509e8f09303092750926a0921e08eab0a61709e9109307092770926c0922008e8508e7e0a61909e930930b092790926e0922208e4408e410a61b09e950930f0927b092700922408e0508dfc0a61d09e97093130927d092720922608dc508dbc0a61f09e99093170927f092740922808d7e08d7b0a62109e9b)
  (.lf
  0x3b1453b1433b13f3b13d3b1393b1373b1333b1313b12f3b12d3b12b3b1273b1253b1233b11f3b11d3b11b3b1193b1153b1113b10f3b1133b10d3b1093b1073b1053b1013b0fd3b0fb3b0f93b0f53b0f33b0f13b0ef3b0eb3b0e73b0e53b0e33b0dd3b0db3b0d93b0d73b0d33b0cd3b0cb3b0d13b0c93b0c53b0c33b0c13b0bd3b0bb3b0b93b0b73b0b33b0b13b0ad3b0ab3b0a53b0a33b0a13b09f3b09b3b099))
  (.nd (.lf
  0x326f832c7a326fc32c703270032c643270432c5e3270832c523270c32c283271032c223271432bd83271832bd23271c32b9a3272032b943272432b5a3272832b543272c32b0a3273032b043273432aba3273832ab43273c32a8e3274032a4e3274432a0c32748329cc3274c32990327503290032754328fa32758327823275c32778327603276e32764327683384633c9c3384a33c8c3384e33c823388c33c76)
  (.lf 0)))

def shaXorReads321 : BTree :=
  .nd (.nd (.nd (.lf
  0x27fac27e5a259d7259d3249af23df323daf23cba23a9823a8627e5c27e1c259a12599d2499723df723d5f23bd423a9a23a8827e1227be42596925965248d323db723d6123bbc23a9c23a8a27bcc27b8a258e5258e12487b23d7f23d6323b8a23a4c23a4627bbc27b7e258a9258a52470d23d8323d6523b6e23a3223a2c27ba227b76258732586f246bd23d8723d0723b70235362353027b7827b682583925835)
  (.lf
  0x251c6251b8251b0251a62519225184251642515625172251362512e250ee250e4250de250ce2517a250bc250b6250aa250a025094250842506e2506424704246a0246682461e251e1251df251db251d9251d7251d5251d1251cf251cd251cb251c7251c5251c3251c1251bd251bb251b9251b7251b3251b1251af251ad251a9251a7251a5251a325193251912518f2518d251892518725185251832516525161))
  (.nd (.lf
  0x1dd0d1dcef1dcea1d14c1cec42e76e2e0df2cf632cf412cf2a239d2238211dd111dcf11dcec1d1401ceac2e6ee2e0e32cf672cf432cf2c239c8238251dd151dcf31dcee1d1361ce942e6e82e0e72cf6b2cf452cf2e239be238291dd191dcf51dcf01d12a1ce7c2e6682e0eb2cf6f2cf472cf30239b42382d1dd1d1dcf71dcf21cff61ce642e6622e0ef2cf732cf492cf32239aa238311dd211dcf91dcf41cfea)
  (.lf
  0x1df541df3e1df281df121defc1dee41dece1deb81dea21de8c1de761de5e1de461de2e1de181de021ddec1ddd61ddc01ddaa1dd941dd7c1dd661e0031e0011dffd1dffb1dfef1dfed1dfe91dfe71dfd91dfd71dfd31dfd11dfc31dfc11dfbd1dfbb1dfad1dfab1dfa71dfa51df971df951df911df8f1df811df7f1df7b1df791df6b1df691df651df631df551df531df4f1df4d1df3f1df3d1df391df371df29)))
  (.nd (.nd (.lf
  0x33153331393312d3312b33125331193311733113330fb32a7332a6f32a6b32a3b32a3732a35329fb329f3329ef32f313298732983332f7332f3332f6332ee332e5332e1332e4332df332d9332de332d6332c8332ba3325533251332543324e3324133239332403323733233332363323033229332253322833223331f533222331e7331c5331e6331c333195331c2331523312a33116330f732ff1330f632a72)
  (.lf
  0x1c32b1c3291c3251c3231c3211c31f1c31b1c3191c3171c3151c3111c30f1c30d1c30b1c3071c3051c3031c3011c2ff1c2fb1c2f91c2f71c2f31c2f11c2d71c2d51c2d11c2cf1c2cd1c2cb1c2c71c2c51c2c31c2d91c2c11c2bd1c2bb1c2b91c2b51c2ab1c2a91c2a71c2691c2651c2631c2611c25d1c21b1c2191c2171c2131c1d31c1d11c1cf1c1cb1c18f1c18d1c18b1c1871c14b1c1491c1471c1431c103))
  (.nd (.lf
  0x2c6202c3a32c1842c1822c15a2c14a2c1472c13e2c0eb2c0dc2db832db7e2df842db902db852db802ded02db552db522db502deb42db312db2a2db262de9a2daf32dadc2dab22de5e2dae72dad62da9e2de582da7a2da792da6c2de4e2da572da542da522de462da292da202da1e2de042d9ff2d9fc2d9f42ddf02d9e12d9d82d9d62dde82d9942d98e2d98b2dde02d7302d72e2d72d2ddc02d7162d7062d6f7)
  (.lf 0)))

def shaXorReads322 : BTree :=
  .nd (.nd (.nd (.lf
  0x344e5344e2344e0344da3b67e3b64e366d5366d1354bf3447b3447934476344743446e3b6143b5ea3674f3674b354ad347ec34413344113440e344083b5ec3b5923668f3668b35481347ef3478c343d7343d4343ce3b5a83b5523661736613354693478f346bc343a13439e343983b5683b522365ab365a735439346bf3466234377343743436e3b5103b4fc365953659135427346653461e3434f3434834342)
  (.lf
  0x40ab340ab140aaf40aa340a7140a6f40a6b40a6940a6740a6540a6140a5d40a2b40b5440b5040b0840afc40af440ad440a3c40a3240914408bc40896408824085c4086a4084840850407e640a7c407c0407b6407ac407a240796407904078440774407783fa303fa103f9843f95440b5540b5340b5140b4d40b4b40b4940b4540b0940b0740b0540b0140aff40afd40afb40af740af540af340af140ad540ac7))
  (.nd (.lf
  0x3812b380d43a2743a1e1383f6381ed3812838115380ba3a26c3a1b7383e4381f13812a38119380a43a25c3a135383d8381f53811d38114381123a2543a139383d2381f93812138118381103a24a3a219383c6381fd381253811c3810e3a2403a21d383be38201381203803d37ff63a2383a221383b238205381243804137fee3a2323a2253812d380453803c3802a37fdc3a2283a1e538131380493804038024)
  (.lf
  0x3167331609316053160331601315f1315ed315eb30942309443092e30922309303090e3090430914308f430932308e230946308dc308c2308c6308b2308a6308a030892308883089e308783086a308623085a3086430844308383082a30822308183094330945309413093d3093b30939309353092f3092d3092b30927309253092330931309213091d3091b3091930913309113090f3090d309093090730905)))
  (.nd (.nd (.lf
  0xe8060e80a0e80e0e9880e98c0e9900e9940e9980e99c0e9a00e9a40e9a80e9ac0e9b00e9b40e9b80e9bc0e9c00e9c40e9c80e9cc0e9d00e9d40e9d80e9dc0e9e00e9e40e9e80e9ec0e9f00e9f40e9f80eb720eb760eb7a0eb7e0eb820eb860eb8a0eb8e0eb920eb960eb9a0eb9e0eba20eba60ebaa0ebae0ebb20ebb60ebba0ebbe0ebc20ebc60ebca0ebce0ebd20ebd60ebda0ebde0ebe20ed5c0ed600ed64)
  (.lf
  0x29de929de729de329ddf29ddd2a1a22a1982a18e2a1682a14c2a1422a1342a12a2a1202a1162a1082a0ae2a0a22a07c2a0662a0542a0422a0202a0142a00a2a00229ffe29f8e29f8229f7629f6e29ee629ece29e6229e5229e002a1a32a1a12a19d2a1992a1972a1952a1912a18f2a16d2a16b2a1692a1652a1552a1532a14f2a14d2a14b2a1492a1452a1432a1412a13f2a13b2a1392a1352a1332a12f2a12d))
  (.nd (.lf
  0x1b8491b7bd1c8391c9421c7f31c9361c8411c92a1c7fd1c9241c7cd1c9161c77d1c90c1c74f1c9021c84b1c8fa1c6af1c8ee1c65b1c8e81c6211c8de1c5cb1c8d01c5a71c8c81c8451c8ba1c8011c8b01c7c71c8aa1c7811c89e1c7431c8961c6e91c88c1c6b31c8821c65f1c8741c6251c86e1c8491c8601c8051c8581c7cb1c8521c7851c7471c6f61c6ed1c6bc1c6bf1c6681c66b1c6321c6291c5d01c5d3)
  (.lf 0)))

def shaXorReads323 : BTree :=
  .nd (.nd (.nd (.lf
  0x1696116830165ba165961a6c619e74185ed185e917573169891696316816165bc165981a6ba19e34185db185d7175751698d1696516818165541654e1a6b019dea185c9185c51757716991168f51681a1650e164f01a6aa19da6185b7185b3174b9169951689f1681c16510164f219d6a19d28185a5185a1174a5168fd168a11681e16512164f419d2219cdc185931858f174a7168c5168a3165d616514164f6)
  (.lf
  0x89dc0899c0894608916088c00887a0884a087f4087ae0876808722086e408ea508e7d08e6f08e6b08e3308e3108e2d08e2b08deb08dfb08de908de508dab08dbb08da908da508d6d08d6b08d6708d6508d2508d3508d2308d1f08ce508cf508ce308cdf08ca508cb508ca308c9f08c6508c7508c6308c5f08c2708c2508c2108c1f08be108bdf08bdb08bd908b9908ba908b9708b9308b5908b6908b5708b53))
  (.nd (.lf
  0x256bb256a8256a5256922568f2567c256792566625663256502564d2563a2563725624256212560e2560b255f8255f5255e2255df255cc255c9255b6255b3255a02559d2558a2558725574255712555e2555b2554825545255322552f2551c255192550625503254f0254ed254da254d7254c4254c1254bb268dd268cc268c9268b6268b3268a02689d2688a2688726874268712685e2685b268482684526832)
  (.lf 0))) (.nd (.nd (.lf
  0xa1620a1340a10a0a0b80a0660a0380a00e0a4600a43a0a40e0a3e10a3d10a3e00a3b90a3a90a3b80a3900a3630a3570a3620a33e0a3110a3050a3100a2ec0a2be0a2940a2660a23c0a20f0a2030a20e0a1eb0a1db0a1ea0a1c20a1990a1890a1980a1700a1460a1180a0ef0a0df0a0ee0a0c60a09d0a08d0a09c0a0740a04a0a01c09ff209e0a09e0009df609dec09de209dd809dce09dc409dba09db009da6)
  (.lf
  0x100080ffa60ff4a0feea0fe8a0fe2c0fdce0fd6c0fd100fcb00fc540fbf80fb9a0fb380fad80fa7a0fa200f9c40f9620f8fa10401103c9103c5103af1036d1036b103671034d1030d1030b10307102f1102af102ad102a91029510255102531024f10237101f5101f3101ef101d91019910197101931017f1013d1013b101371011f100df100dd100d9100c3100811007f1007b1006710027100251002110009))
  (.nd (.lf
  0x3709a3709936e4936e4036e0d36dfe36de7384933b15c384873b14c3847d3b1443846b3b13e384753b132384593b1263844b3b11c384433b114384333b1063842b3b0fc3841b3b0f03840f3b0e4384153b0dc383fd3b0ca383ef3b0c2383e13b0bc383eb3b0b0383cb3b0a0383bd3b098380393b090380373b07e3801d3b078380213b06c3800b3b05a37feb3b05437f993b25b3b0443b03c37f2b3b1e13b034)
  (.lf 0)))

def shaXorReads324 : BTree :=
  .nd (.nd (.nd (.lf
  0x64b0014000037414124108c00e790068c0064d00136000354140a4108000e7b0068e0064f0012c00033413fc4104800e7d00690006510012200031413f24103a00e7f0069200653001180002f413e84102000e8100694006550010e0002d413de4100c00e830069600657001040002b413d44115c00e850069800659000fa00029413cc40ff400e870069a0065b000f000027413c040f4200e890069c0065d)
  (.lf
  0x3019e2fef2301942fef63018e2f9fc30182301803015830154300e6300ca300dc300aa300d6300b6300cc300b0300b831324314603132831454313083144e311f03144231178314363114a3142e3133c31424313403141a3134431410312203140031182313f631348313ec3134c313e631350313dc31224313d231186313ca31156313c0310e2313b83108c313ac31090313a230fc43139830fb23138e30fd4))
  (.nd (.lf
  0x108f4108f8108fc113381133c1134011344113481134c1135011354113581135c1136011364113681136c1137011374113781137c1138011384113881138c1139011394113981139c113a0113a4113a8113ac113b0113b4124e8124ea125d4125d8125dc125e0125e41254e124ec124f0124f4124f8124fc125e8125ec125f0125f4125f812552125001250412508125fc1260012604126081260c125561250c)
  (.lf
  0x393213931d393193930b39309392e9392e5392e3392eb392e1392d1392bd392bb392b7392b33929d391de391d4391c6391bc391c8391ae3919e39194391a4391dc3917c39170391663915c39156391483913e391363912a391223911239108390fe390e8390ae390b238fac38f6c38f8238f1638f0e391df391db391d7391d5391d3391d1391cd391cb391c7391c5391c1391bf391bd391c9391bb391b7391b5)))
  (.nd (.nd (.lf
  0xafa40ae9e09ba309b2308f73083f10836f0835808314082540af9a0aebc09ba509b2508f75083f5083710835a08316082560af8e0aeb409ba709b2708f77083f9083730835c08318082580af880aeb609ba909b2908f79083fd083750835e0831a0825a0af7c0aeba09bab09b2b08f7b0840108377083600831c0825c0af720aeb809bad09b2d08f7d0840508379083620831e0825e0af640aeb009baf09b2f)
  (.lf
  0x3122a3118e3115c3146b314693146531463314613145f314593145731455314533144f3144b314493144d3144731443314413143f3143b314393143731435314313142f3142d3142b314273142531423314213141d3141b314193141731413314113140f3140d3140931401313ff313fd313f9313f7313f531405313f3313ef313ed31403313eb313e7313e5313e3313df313dd313db313d9313d5313d3313d1))
  (.nd (.lf
  0x205f3205fe205db20613205f62055a205572054620543205312052a2045c202ed20452202db20444202e32043e202d120434202b72042a202d520420202a320418202932040c202a9204021ff2b203f61ff1f203f0203ed1ff721ff0b1ff371ff001fbbd1fb781fb6f1fb441fb531fb1c1fb071fae01fae91faac1fa9f1fa7c1fa731f9e41f9cd1f99c1f99f1f9401f9471f9201f9232171d21709216f8216e9)
  (.lf 0)))

def shaXorReads325 : BTree :=
  .nd (.nd (.nd (.lf
  0x282cf273712601825de125dd925dd62a0c429dc1282d1273732601a25de325ddb25db62a0b829dc7282d3273752601c25de525ddd25d2a2a08829dc5282d52729d2601e25de725ddf25d2c2a08229ec128289272af2616125e6625cd725ca22a07229dc9282712727f2616525dd825c6125c4a2a03a29ebf282792726f2616925dda25bb925bb62a03229dcb2825d272652602325ddc25b9125b8e2a02c29ebd)
  (.lf
  0x177d617986177bc1778817780177741776a179341758e175781754217530175261751c175461750a174b016e5416e0c16dcc178b7178b5178b1178af178ad178ab178a7178a5178a3178a11789d1789b178991789717893178911788f1788d178891787f1787d1787b17877178751785f1785d1785917801177ff177fd177f9177f7177f5177f3177ef177ed177eb177e9177e5177e3177e1177df177db177d9))
  (.nd (.lf
  0x11adc11ad911aca11ab220a03209712095817e5617d271363b1363611a9411a9111a7e11a6820a07209732095c17e1417d2b1363d1363811a4a11a4711a3211a1c209752095e17dd017d2f1363f1363a119fe119fb119e2119c8209772096017d8e17d33136411363c119aa119a71198811976209792096217d39136431363e1196b11952225d518c430f5790f55d0f5460dc4d0dc330dc2e0dbf42292e225d9)
  (.lf
  0xfe5c0fdfe0fda00fd3e0fce20fc820fc260fbca0fb6c0fb0a0faaa0fa4c0f9f20f9960f93410415103e9103e5103d910395103931038f1038110333103311032d1031f102d7102d5102d1102c31027b1027910275102671021d1021b1021710209101bf101bd101b9101ab10165101631015f101511010510103100ff100f1100a9100a7100a3100951004d1004b10047100390ffef0ffed0ffe90ffdb0ff8d)))
  (.nd (.nd (.lf
  0x1f2721f2521f2381f22a1f1f41f1921f3571f3411f33d1f3371f3291f3231f31d1f2f31f2ed1f2e71f2db1f2d51f2cf1f2b91f2b51f2af1f2971f2911f28b1f27f1f27b1f2731f25d1f2531f2511f2451f23f1f2391f2371f2311f22b1f1f51f1f31f1ed1f3551f34d1f3541f34b1f3431f34a1f3401f3331f32b1f3321f3281f31b1f3131f31a1f3111f3091f3101f3071f2ff1f3061f2fd1f2f51f2fc1f2f2)
  (.lf
  0x14f0d14f0b14f0714f0514f0314f0114efd14efb14ef914ef714ef314ef114eef14eed14ee914ee714ee514ee314edf14edd14edb14ed914ed514ed314ed114ecf14ecb14ec914ec714ec514ec114ebf14ebd14ebb14eb714eb514eb314eb114ead14eab14ea914ea714ea314ea114e7b14e7914e7514e7314e4d14e4b14e4714e4514e2114e1f14e1b14e1914df514df314def14ded14dc914dc714dc314dc1))
  (.nd (.lf
  0x93db093d2093ce093c60939b093920938e09386093540935009348093450932e093290a4fe0a4790a8d80a4fc0a4ae0a4590a8840a4fa0a4300a42d0a87e0a4f80a4020a3ff0a82c0a4f60a3db0a3d20a8260a4f40a3b30a3aa0a7d40a4f20a3840a3810a7ce0a4f00a4a90a3580a77c0a4ee0a3320a32f0a7760a4ec0a4a50a3060a73e0a4ea0a2e00a2dd0a7380a4e80a4a10a2b20a7140a4e60a2880a285)
  (.lf 0)))

def shaXorReads326 : BTree :=
  .nd (.nd (.nd (.lf
  0x3588b342cb334c333342331af331a03747c37043358a5342513344f33352331553314c3746a370373586d34205334c73330833157331423746437021358af341dd334cb331fc331113310e3745237013358b93419f334cf331f2330f3330f03744c36f153584f3413b334d3331ae32fd332fd03741436ef93583f33d77334533315432fd532fc23740836ee73582b33d25334093315632fb132fae3740036ec9)
  (.lf
  0x3287d3287b32877327d9327a1347de34780346b03465634612345c6345aa34522344f8344d83446c34406343cc343963436c34340343283424034208341b0341683413e33d7a33d0233cdc33b9233b5633b2833b0633a5c33a0e347df347a13478134775346cf346cd346c9346b13465334657346513464d3462f346133460534601345a7345c7345a5345a13458d345ab3458b34587345413453f3453b34525))
  (.nd (.lf
  0x384ba2e8822e4b1298f5298c9298c428df228c2038e2438b9f38503384d3384bc2e8782e813298f9298cb298c628de628c2238e1c38ba338507384d5384be2e86e2e7d5298fd298cd298c828dda28c1e38e0c38ba73850b384d7384c02e8642e79b29901298cf298ca28dce28c2c38e0238bab3850f384d9384c22e8562e75f29905298cc2987d28dc228c2e38df638baf38513384c4384952e84e2e71729909)
  (.lf
  0x277162770c27702276f8276ee276e4276da276d0276c6276bc276b2276a82769e276942768a27680276762766c27662276582764e276442763a27630276262761c2761227608275fe275f4275ea2771727715277112770f2770d2770b27707277052770327701276fd276fb276f9276f7276f3276f1276ef276ed276e9276e7276e5276e3276df276dd276db276d9276d5276d3276d1276cf276cb276c9276c7)))
  (.nd (.nd (.lf
  0x13ac213a6e13a20139d41398213934138e81389c13848137f6137a81375c1370a144ee144e2144d8144ce144c4144ba144b2144a81449e144941448a14480144761446a14462144581444814438144281441814408143f8143e8143d8143c8143b8143a814398143881437814e8214e5414e2814dfc14dd014da414d7814d4c14d2014cfe14ce214ccc14cb814ca414c9014c7c14c6814a6e14a6414a5a14a50)
  (.lf
  0x220d5220d3220cf220cd220cb220c9220c522087220292202722023220212201f2201d220192201722015220132200f21f7d21f2921f2721f2321f2121ed321ed121ecd21ecb21e9f2349e234942348a2347e234742346023456234482343e234642342a2341e2340e2340223412233ec233e2233d8233ca233be233b0233ac234a423392233882337823578233662351423356234ac2349f2349d2349923495))
  (.nd (.lf
  0x197de197fa197e2197f0197e6197ec1a6241a9b81a86a1a9ae1a6281a9a41a62c1a99a1a6301a9901a6341a9861a6381a97c1a63c1a9721a6401a9681a6441a95e1a8881a9541a6481a94a1a86e1a9401a64c1a9361a6501a92c1a6541a9221a6581a9181a65c1a90e1a6601a9041a88c1a8fa1a6641a8f01a8721a8e61a6681a8dc1a66c1a8d21a6701a8c81a6741a8be1a6781a8b41a67c1a8aa1a6801a8a0)
  (.lf 0)))

def shaXorReads327 : BTree :=
  .nd (.nd (.nd (.lf
  0x1b5b91a84b19a8d199fb199f0199981d1421cead1b58d1a84d19a91199fd199f21999a1d1381ce951b58f1a84f19a95199ff199f41999c1d12c1ce7d1b5911a85119a9919a01199f61999e1cff81ce651b5931a85919a9d19a03199f8199a01cfec1ce4d1b5951a7eb19a2119a05199fa199a21cfe01ce351b54d1a7ed19a2519a07199fc199d61cfd41ce1d1b52d1a7ef19a2919a09199fe199a41cfc81ce05)
  (.lf
  0x4044d4044b40449404514044740443404414043f403df403dd403db403d9403d5403d3403d1404d5403cf403c7403c5403c9403c3403bf403bd403bb403b7403b3403b1403af403ab403a9403a7403a5403a14039f4039b40399403954038d4038b4038940385403814037f4037d40379403754037340391403714036d4036b40369403654034b40349403e54034740343403414034f4033f4033b4033940337))
  (.nd (.lf
  0x13e9a13e8813e4c13e3a13dfc13dea13daa13d9813d5813d4613d0613cf413cb813ca613c6813c5613c1a13c0813bce13bbc13b7e13b6c13b3013b1e13ae413ad213a9413a8213a4613a34139f6139e4139a41399213956139441390a138f8138be138ac1386e1385c1381c1380a137ce137bc1377e1376c1372c1371a136da136ba0e3140e3000e2f40e2ea0e2de0e2d40e2c80e2be0e2b20e2a80e29c0e292)
  (.lf 0))) (.nd (.nd (.lf
  0x2e3be2e39c2e37a2e3582e3342e2bc2e2ae2e29e2e28a2e2762e2642d9742d96a2d95e2d9562d94a2d9402d9362d92a2d9202d9182d90c2d9042d8fc2d8f22d8e82d8dc2d8d42d8ca2d8c02d8b62d8ac2d8a22d8982d88e2d8842d87a2d8702d8662d85c2d8522f5182f4fc2f4f22f4e82f4de2f4d42f4ca2f4c02f4b62f4aa2f4a02f4962f48c2f4842f4782f4702f4662f45a2f4502f4462f43c2f4322f426)
  (.lf
  0x7a8708243081b3081af08189080ed080e9080c308067080630803d07ee107edd07eb707e9b07e9707e7107e1507e1107deb07d8f07d8b07d6507d4907d4507d1f07cc307cbf07c9907c7d07c7907c53078ea078e0078d6078cc078c2078b8078ae078a40789a07890078860787c07872078680785e078540784a07840078360782c07822078180780e07804077fa077f0077e6077dc077d2077c8077be078eb))
  (.nd (.lf
  0x34fb034f7834fa634f6634f6e34b3834b3234b2834b0434aac34aae36b0c369bc36996369b43698c3694e3692a3691e36904368b2367ca367c2367aa367983677e367703667a36672361e236666361d636636361cc3662e361c4365f036364365e836172365463614a3653c3613c363bc36122363b236100363ac36104363a2360dc36366360823607a35fcc35fc635f9635f8c35f5035f4435f0835f0235ee4)
  (.lf 0)))

def shaXorReads328 : BTree :=
  .nd (.nd (.nd (.lf
  0xe3bc0e3930342a033f60e69c0e5f70e4170e3be0e395033ec033bc0e6920e5fb0e41b0e3c00e397033b2033800e6880e5ff0e41f0e3c20e399033820334e0e67e0e6030e4230e3c40e39b03344033140e6740e6070e4270e3c60e39d0330a032da0e66a0e60b0e42b0e3c80e39f032d00329e0e6600e60f0e42f0e3a10e384032a00326c0e6560e6130e4330e3a30e38803262032300e64c0e6170e4370e3a5)
  (.lf
  0x10be010acf10bbe10ad310b9c10ad710b7e10adb10b6210adf10b4610ae310b2a10ae710b0a10aeb10af1116f111896116f51188c116f911882116fd11878117011186e1170511864117091185a1170d118501171111846117151183c11719118321171d11828117211181e1172511814117291180a1172d1180011731117f611735117ec11739117e21173d117d811741117ce11745117c411749117ba1174d))
  (.nd (.lf
  0x133d4133d6133d8145121451414516145181451a1451c1451e14520145221452414526145281452a1452c1452e14530144521444014430144201441014400143f0143e0143d0143c0143b0143a0143901437e1436e1433a14fbc14fbe14fc014fc214fc414fc614fc814fca14fcc14fce14fd014fd214fd414fd614fd814fda14fdc14fde14fe014fe214fe414fe614fe814fea14fec14fee14ff014ff214ff4)
  (.lf
  0x3ad793ad753ad733ad693ad673ad633ad613ad5f3ad5d3ad593ad553ad533ad6f3ad513ad4d3ad4b3ad493ad433ad413ad3f3ad3d3ad393ad353ad333ad313ad2d3ad273ad233ad213ad1b3ad193ad173ad293ad153ad113ad0b3ad0d3ad093ad053ad033ad013acfd3acfb3acf33acf73acf13aced3aceb3ace93ace53ace13acdf3acdd3acd93acd53acd33acd13accd3acc93acc73acc53acc13acbd3acbb)))
  (.nd (.nd (.lf
  0x3b6502f1f02337022b1022a60229a017c1017b803b6702f210233b022b3022a80229c017810177803b6902f230233f022b5022aa0229e017410173803b6b02f2502343022b7022ac022a0017130479d03b6d02fcb02f3d02f3202ee602b730479f03b6f02fcf02f3f02f3402ee802b4b02b44047a103b7102fd302f4102f3602eea02b0a02b07047a303b7302fd702f4302f3802eec02ac402ac1047a503b75)
  (.lf
  0x35126351143513835104350f8350ee350e4350da35092350963522e3509c34f7634f6434f6c34b2434b02351cb351c9351c5351c3351c1351bf351b9351b7351b535635351b3351a9351a7351af351a5351a13519f3519d351993519735195351933518f3518b3518935187351833517f3517d3517b3517535173351713516f351673516535163351d1351613515d3515b351593515535153351513514f3514b))
  (.nd (.lf
  0xcea80d3160cee60d2f40ceea0d2d20ceee0d2b00cef20d28e0cef60d26c0cefa0d24a0cefe0d2280cf020d2060cf060d1e40cf0a0d1c20cf0e0d1a00cf120d17e0cf160d15c0cf1a0d13a0cf1e0d1180cf220d0f60cf260d0d40cf2a0d0b20cf2e0d0900cf320d06e0cf360d04c0cf3a0d02a0cf3e0d0080cf420cfe60cf460cfc40cf4a0cfa20cf4e0cf800cf520cf580d5460d7240d54a0d71a0d54e0d710)
  (.lf 0)))

def shaXorReads329 : BTree :=
  .nd (.nd (.nd (.lf
  0x21e5821d962049b2046b1f6531d5891d5731d56e1d52c1d51421d9a21d682049d2046d1f6551d5811d5751d5701d5561d55021d4221d182049f2046f1f6571d7f21d5831d5771d52e1d51621d1c21cee204a1204711f6591d7f51d7b81d5791d54a1d54421cf221c74204a3204731f65b1d7a51d6c81d57b1d5301d51821c6a21c34204a5204751f65d1d6d71d6ca1d57d1d53e1d53821c2621c04204a720477)
  (.lf
  0x1d4e11d4df1d4db1d4d91d4d71d4d51d4d11d4cf1d34f1d34d1d3491d3471d32d1d32b1d3271d3251d3011d2ff1d2fb1d2f91d2d31d2d11d2cd1d2cb1d2871d2851d2811d27f1d27d1d27b1d2771d2751d2311d22f1d22b1d2291d20d1d20b1d2071d2051d1a31d1a11d19d1d19b1d0a51d0a31d09f1d09d1d09b1d0991d0951d0931d0911d08f1d08b1d0891d0871d0851d0811d07f1d04b1d04f1d0491d045))
  (.nd (.lf
  0x1dc261db3b18ccd18c9218c45171681714c279342779126609265b82658b1dc1c1db3f18cd118c4918c401712c171142791e277952660d265ba2658f1dc121db4318cd518c4d18c44170f4170de279082779926611265bc265931dc081db4718cd918c5118c48170be170a4278f22779d26615265be265951dbfe1db4b18cdd18c5518c4c170841706c278dc277a126619265c0265971dbf41db4f18ce118c59)
  (.lf
  0xee710ee6d0ee6b0ee690ee670ee630ee610ee5f0ee5d0ee590ee570ee550ee530ee4f0ee4d0ee4b0ee490ee450ee430ee410ee3f0ee3b0ee390ee370ee350ee310ee2f0ee2d0ee2b0ee270ee250ee230ee210ee1d0ee1b0ee190ee170ee130ee110ee0f0ee0d0ee090ee070ee050ee030edff0edfd0edfb0edf90edf50edf30edf10edef0edeb0ede90ede70ede50ede10eddf0eddd0eddb0edd70edd50edd3)))
  (.nd (.nd (.lf
  0x2715a27150271442713a27130271262711c271142710a27100270f4270ec270e2270d8270a2270642705a26fe226f6e26f3826efe26eaa285382852e285242851a2851028506284fc284f2284e8284de284d4284ca284c0284b6284ac284a2284982848e284842847a28470284662845c28452284482843e284342842a284202841628e5828e4c28e3e28e3228e2628e1a28e0e28e0628df828dec28de028dd4)
  (.lf
  0x18b8a18b8018b7618b6c18b6218b5818b4e18b4418b3a18b3018b2618b1c18b1218c3f18c3d18c3918c3718c3518c3318c2f18c2d18c2b18c2918c2518c2318c2118c1f18c1b18c1918c1718c1518c1118c0f18c0d18c0b18c0718c0518c0318c0118bfd18bfb18bf918bf718bf318bf118bef18bed18be918be718be518be318bdf18bdd18bdb18bd918bd518bd318bd118bcf18bcb18bc918bc718bc518bc1))
  (.nd (.lf
  0x1b6881b4f81b0a61b0a51b6801b4e81b06e1b06d1b6761b4de1b0361b0351b66a1b4ae1affe1affd1b6541b4a41afc61afc51b6161b49c1af8e1af8d1b60a1b4921b40f1af561b6001b48a1b3f91af201b5f81b4761b3fb1aee61b5ec1b4701b3fd1aeae1b5e41b43e1b3f71ae741b5dc1b4361ae381ae371b42e1b3d61b3851adfa1b4241adbc1adbb1adb81b41a1b3e91ad761ad721b4041b3f51ad301ad2c)
  (.lf 0)))

def shaXorReads330 : BTree :=
  .nd (.nd (.nd (.lf
  0x3dff83dff73dff13dfef3dfec3dfea3f3af3e88d3df753dddc3d6ca3d6c33d6c13d6be3f2a53e87b3df4f3ddc83d6af3d6a63d6a53d6a23f1f93e8633df293ddb43d6883d6753d6733d6703f1653e8413df0f3dda03d67e3d6653d6633d65c3f1433e8373dfee3deb93d5f93d5da3d5d93d5d23f1353e7f73de853d6c03d60b3d5c43d5bf3d5bc3f1933e8073dfcf3d6ae3d5973d5923d58f3d58c3eea73e229)
  (.lf
  0x3d0a33d0a13d0953d0933d0913d0c33d08f3d08b3d0893d0873d0833d07f3d06f3d06d3d05b3d0573d0553d0533d04f3d04d3d0413d03f3d03b3d0373d02f3d02d3d0293cdef3cded3cdeb3cde73cde53cdd93cdd73cdd33cdc93cdc73cdc53c8453c8393c8333c8a73c8313c82d3c6db3c6d93c6d53c6c93c6c73c6c53c6593c64f3c6113c60f3c60b3c5f73c5e13c5e33c5df3c5db3c5b13c5af3c5a33c59f))
  (.nd (.lf
  0x33ffc33f012e4bd2e4b82e2802e27e3a90c3a8df3a31d3a30633ff633f052e4bf2e4ba2e2c02e26c3a9003a8e33a31f3a30833fe933f0a2e80d2e4bc2e16e2e1683a8ef3a3213a30a33f0d2e7cf2e4be2e1543ab8b3a8753a8593a84234dcb2fa532fa392fa342f7523adb83ab8f3a8793a85b3a8443521a34dcf2fa572fa3b2fa362f7322f6823adb03ab933a87d3a85d3a8463521434dd32fa5b2fa3d2fa38)
  (.lf
  0x2d0d72d0d52d0d12d0cf2d0cd2d0c92d0c72d0c52d0c32d0bf2d0bb2d0b92d0b72d0b32d0af2d0ad2d0ab2d0a72d0a52d0a32d0a12d09b2d0992d0972d0952d0912d08d2d08b2d0892d0852d0832d07d2d07b2d0772d0732d0712d06f2d06b2d0692d0632d0672d0612d05d2d05b2d0592d0552d0532d0512d04f2d04b2d0492d0452d0432d03f2d03d2d0392d0372d0332d0312d02d2d02b2d0272d0252d023)))
  (.nd (.nd (.lf
  0x377d8373f8373e6373d4370f437c5437c0237bfa37bc037bb637bae37b8037b7837b5037b4837b2237b1837b0037ace37aa837aa037a9837a7437a6c37a6237a50377ba377aa377a2377863777e3717a3716a3714a3711e3bb243ba4c3b99e3b9343b8603b8243b7563b7103b6c83b65c3b6443b5e03b5a43b55e3b5303b5023b4b03b4743b4463b3f23b3b23b36e3b35c3b3543b3423b31e3b23a3b2063b1dc)
  (.lf
  0x26f8626f7826e3c26e3026eae26e1426d6a26d6026d7c26d4c26c2a26c1c26c1226c0826bfe26bec26baa26bb6269d6269de269c82697c26ac426964269ae26950269442693826fa926fa726fa326fa126f9d26f9b26f9726f9526f9326f9126f8d26f8b26f8726f8526f8126f7f26f7926f7726e3d26e3b26e3926e3726e3326e3126e2f26eaf26e2d26e2926e2726e2526e2126e1526e1326e1126d7926d77))
  (.nd (.lf
  0x3e6923e6703e66e3e63c3f64e3fe883f66c3fe7e3f6483fe723f62e3fe683f6543fe603f5e23f7723f6ee3f7683f5da3f7623f6f43f7563f55c3f74e3f5f03f7403f6763f7383f5063f72c3f66e3f7243f6343f71c3f6043f7123f5b23f7043f6783f6fc3f5e43f6f03f6e43f6dc3f67a3f6d03f52e3f6c63f6563f6bc3f62c3f6b23f6643f6aa3f5ae406a43f6a23f6963f5e83f68c3f6863f5c03f5603f5b8)
  (.lf 0)))

def shaXorReads331 : BTree :=
  .nd (.nd (.nd (.lf
  0x113251130e112d41125014bf414a9e13101130e9124b7113391132711310112d61125214bea14a9c13103130eb124b91133d1132911312112d81125414be014a9a1309513091124bb113411132b11314112da1125614bda14a98130631304f124bd113451132d11316112dc1125814bcc14a961306513051124bf113491132f11318112de1125a14bc614a941306713053124c11134d113311131a112e01125c)
  (.lf
  0x3411034210340f0340b033df033dd033d9033d7033a5033a30339f0339d033690337903367033630333703335033310332f032fd032fb032f7032f5032c3032c1032bd032bb0328703297032850328103255032530324f0324d03219032290321703213031e5031f5031e3031df031b3031b1031ad031ab03177031870317503171031210446604430043f4043ae0436804320042e0042a20425a0421c041d4))
  (.nd (.lf
  0x35d9a361ec35d7a361ac35d66361a435dd43619635dae3618c35d5a3618035db83617a35db43615c35d283615635d1e3613e35db63612435d0a360ec35cfa360e035cea360d035ce0360c435cd23606a35cc635f7c35cba35f7235cf235f4e35db035f2a35db235eec35c9035e9c35cd435e2235c7835ddc35c4a35c46373023727036ffc3726437004371f636fe6371ec37008371e036fd4371d836fc6371ce)
  (.lf 0))) (.nd (.nd (.lf
  0x26e3026bd026a10269d026770265b0265702631025d5025d1025ab0258f0258b0256502549025450251f02503024ff024d90243d0243902413023f7023f3023cd02b5102b2f02b5002b1602ad002a8b02a6302a8a02a4a02a05029dd02a04029c40297e02938028f3028cb028f2028b30288b028b2028730284b02872028330280b02832027f3027cb027f2027b30278b027b2027720272c026e6026a00265a)
  (.lf
  0x9d0309d0109cff09cfd09cf909cf709cf509cf309cef09ced09ceb09ce909ce509ce309ce10ae4a0ae300ae140adf80addc0adc00ada40ad880ad680ad460ad280ad080ace60acc40aca20ac820ac600ac400ac1e0abfa0abda0abbe0aba20ab820ab600ab3e0ab1c0aafa0aad80aab60aa9e0ae4b0ae490ae450ae430ae310ae2f0ae2b0ae290ae150ae130ae0f0ae0d0adf90adf70adf30adf10addd0addb))
  (.nd (.lf
  0x1467314666146531464614635146281461d1461814617159c9159a215995159661595b1592e15921158f4158e5158b8158a91587c15871158441583b1580e15801157d4157c91579a1578d1575e1574f1572015715156e6156dd156ae156a5156761566d1563e1563115602155f7155c8155bb1558c155811555215545155181550d154e0154d7154aa1549d15470154611543415425153f8153ed153c0153b3)
  (.lf 0)))

def shaXorReads332 : BTree :=
  .nd (.nd (.nd (.lf
  0x3cf973ce903cc943cc923fb3a3fac03e33d3e3393d7eb3cff93cfb33ce7c3cc4a3cc483faba3fa6c3e3233e2873d7d33cfc33cf7d3ce6c3cc2e3cc2c3fa643f9c83e1f13e1ed3d7d53cfc93cf633ce563cc203cc1c3fa503f91e3e1fb3e1cb3d7d73d7423cfdb3cf0d3cb863cb843f9f03f9d43e1f73e1f33d7653cf6f3cf453ce303cb143cb023f9603f8a03e08f3e0493d7d93cf233cf133ce183cad23cacc)
  (.lf
  0xc1cc0c0700c1b00c0740c1940c0780c1740c07c0c1560c0800c1360c0840c1140c0880c0f20c08c0c0d40c0900c0ba0c0940c09a0cb140ccb80cb180ccae0cb1c0cca40cb200cc9a0cb240cc900cb280cc860cb2c0cc7c0cb300cc720cb340cc680cb380cc5e0cb3c0cc540cb400cc4a0cb440cc400cb480cc360cb4c0cc2c0cb500cc220cb540cc180cb580cc0e0cb5c0cc040cb600cbfa0cb640cbf00cb68))
  (.nd (.lf
  0xc7dc0c7de0c7e0107d8107da107dc107de107e0107e2107e4107e6107e8107ea107ec107ee107f0107f2107f4107f6107f8107fa107fc107fe10800108021080410806108081080a1066a1065c106461063410622105fa11296112981129a1129c1129e112a0112a2112a4112a6112a8112aa112ac112ae112b0112b2112b4112b6112b8112ba112bc112be112c0112f41115811146111341112211110110fe)
  (.lf
  0x36fab36fa536fa336fa136f9f36f9b36f9736f9536f9336f8f36f8b36f893719536f8736f8336f7b36f7936f7536f7336f6f36f6d36f6936f6736f6536f6336f5f36f5d36f5b36f5936f5536f5136f4f36f4d36f4b36f4736f4536f4336f3f36f3d36f3936f3736f3336f2f36f2d36f2b36f2736f2336f2136f1f36f1b36f0f36f0d36f0b36f0736efb36ef136eef36eeb36ed936ed736ed536ed136ecd36ebd)))
  (.nd (.nd (.lf
  0x2c5c02b9c0580c057be0451504495038e502cdf02ca202c7902c5e02b9e057cc057800451704497038e702ce302ca402c7b02c6002ba005776057380451904499038e902ce702ca602c7d02c6202ba205746056fa0451b0449b038eb02ceb02ca802c7f02c6402ba4056f0056b20451d0449d038ed02cef02caa02c8102c6602ba6056c0056740451f0449f038ef02cf302cac02c8302c6802ba80566a0562c)
  (.lf
  0x2d4b52d3892d3672d3612cdc62cdbc2cdb62cdaa2cd9e2cd942cd902cd842cd762cd6c2cd662cd5e2cd4a2cd4c2cd502cd342cd262cd1c2cd182cd0a2ccfe2ccf62ccee2cce22ccd62cccc2ccc42ccba2ccac2cca22cb8e2cdc72cdc52cdc12cdbf2cdbd2cdbb2cdb72cdb52cdb32cdb12cdad2cdab2cda92cda72cda32cda12cd9f2cd9d2cd992cd972cd952cd932cd912cd8d2cd8b2cd892cd852cd832cd81))
  (.nd (.lf
  0x4189941cf64188941cee4189141ce24188b41cd64187541cca4180541cbe418c741cb64181141cac418c541c984150741c90411dd41c86411c741c784123d41c724188541c644186941c504184541c484183341c3a4183141c2e4183541c284195b41bfc4150b41bd44119941bce4187d41ba64186f41b8e418834190c41819418f441823418d2417eb418cb41526414e7411d24122d411cc411b70121d01344)
  (.lf 0)))

def shaXorReads333 : BTree :=
  .nd (.nd (.nd (.lf
  0x1e5e41e4e11d8c11d8a51d89a1d72a2008b1f7e11e5da1e4d11d8c51d8a71d89c1d72c2008d1f7e31e5d01e4cf1d8c91d8a91d89e1d5a82008f1f7e51e5c61e4f51d8cd1d8ab1d8a01d5aa200911f7e71e5bc1e4f31d8d11d8ad1d8a21d5ac200931f7e91e5b21e4bd1d8d51d8af1d8a41d5ae200951f7eb1e5a81e4fb1d8d91d8b11d8a61d5b0200971f7ed1e59a1e4f91d8dd1d8b31d8a81d5b2200991f7ef)
  (.lf
  0x111a7111a5111a11119f1119d1119b111971119511193111911118d1118b111891118711183111811117f1117d111791117711175111731116f1116d1116b112ef111691116511163111611115d11153111511114f1114b111411113f1113d111391112f1112d1112b111271111d1111b11119111151110b111091110711103110f9110f7110f5110f1110e7110e5110e3110df110d5110a1114ea1109211086))
  (.nd (.lf
  0x3fa123fa0f3fa083fa0640939408df4073e3f9833f9803f97a3f978409eb409c1407263f9583f9563f94f3f94c409c7408ad407623f8243f81e3f81d4189741893409bb3f65d3f6463f6423f6413f63e3f63d418874187740d92409893f6303f62b3f6273f61e3f61c3f61b4188f4183d40d8a40a533f6633f6503f60f3f6063f6013f5fe4180b417f940d824095b3f5ad3f5a93f5a33f59e3f59c3f59a4182b)
  (.lf
  0xd68b0d6870d6850d6830d6810d67d0d67b0d6790d6770d6730d6710d66f0d66d0d6690d6670d6650d6630d65f0d65d0d65b0d6590d6550d6530d6510d64f0d64b0d6490d6470d6450d6410d63f0d63d0d63b0d6370d6350d6330d6310d62d0d62b0d6290d6270d6230d6210d61f0d61d0d6190d6170d6150d6130d60f0d60d0d60b0d6090d6050d6030d601121d81219c1215812114120cc120821203a11ff2)))
  (.nd (.nd (.lf
  0x143141430a14300142f6142ec142e2142d8142ce142c4142ba142b0142a61429c14292142881427e142741426a14260142561424c14242142381422e142241421a1421014206141fc152281521e152141520a15200151f6151ec151e2151d8151ce151c4151ba151b0151a61519c15192151881517e151741516a15160151561514c15142151381512e151241511a1511015106159ac159721593a15900158c4)
  (.lf
  0x12bcd12bc912bbf12bb112baf12bab12ba312b9512b9312b8f12b8312b7512b7312b6f12b6512b5712b5512b5112b4912b3b12b3912b3512b2d12b1f12b1d12b1912b1112b0312b0112afd12af512ae712ae512ae112ad912acb12ac912ac512ab912aab12aa912aa512a9712a8912a8712a8312a7912a6b12a6912a6512a5d12a4f12a4d12a4912a3d12a2f12a2d12a2912a1f12a1112a0f12a0b129ff129f1))
  (.nd (.lf
  0x2d3682d3602d35a2d2f02d2f52d2f12efc02efb82ee9a2ee902ed7c2ed762ed4e2ed022ecfc2ecbe2ec862ec202ec182ebe22ebb02eb802eb262eb1c2eaea2eab82eab22ea582ea282ea202e9c62e9782e96c2e9162e9102e8e22e90d2e8e3301643012c2fec42feb02fea02fe902fdf02fde82fde02fdda2fdc62fdc02fdba2f9c42f9ae2f9962f9902f9182f90c2f9002f8f62f8ec2f8da2f8be2f8242f7fc)
  (.lf 0)))

def shaXorReads334 : BTree :=
  .nd (.nd (.nd (.lf
  0x2de672de632cbc92b74d2b7432b7402b73e2b7383002a2fdf22df252df212cc252b6f92b6ef2b6ec2b6e02b6da300102fdea2deff2defb2cb9d2b6b12b6a72b6a42b6962b6902fe202fde22de392de352cb7d2b6402b6332b62c2b6272b6242fe162fdd82de112ddfd2cb472b6112b60b2b6082b6062b6002fe0c2fdcc2de132ddff2cb492b5e92b5e72b5e42b5e22b5dc2fe042fdc82de152de0d2cb232b8c2)
  (.lf
  0x2cb1b2cb192cb0b2cb092cb072cb052cb012caff2caf32caf12caed2cae12cadf2cadd2cad92cacd2cacb2cac92cac52caa92caa72cab32caa52caa12ca9f2ca9d2ca992ca972ca852ca832ca7f2ca7d2ca7b2ca792ca752ca5f2ca5d2ca5b2ca572ca4d2ca4b2ca6b2ca492ca452ca3b2ca392ca352ca332ca312ca2f2ca2b2ca172ca152ca212ca132ca0f2ca052ca032c9ff2c9fd2c9fb2c9f92c9f52c9f3))
  (.nd (.lf
  0x3274b326ee326c527d3027ca7238bb238332382a22a762297433bb0338d93274f326f0326c727d2627cab238372382e22a6e2296833980338dd32753326f2326c927d1c27caf2383b2383222b9e22a623396e338e132757326f4326cb27d1227cb32383d2383622a5c2293a3393c338e53275b326cd326b027d0827cb72383f2383a22a502296c3392e338e93275f326cf326b427cfe27cbb238412383c22a42)
  (.lf
  0x13c5313c4f13c4d13c0713c0513c0113bff13bbb13bb913bb513bb313b6b13b6913b6513b6313b1d13b1b13b1713b1513ad113acf13acb13ac913a8113a7f13a7b13a7913a3313a3113a2d13a2b139e3139e1139dd139db139911398f1398b1398913943139411393d1393b138f7138f5138f1138ef138ab138a9138a5138a31385b13859138551385313809138071380313801137bb137b9137b5137b31376b)))
  (.nd (.nd (.lf
  0x3dc883dc7e3dc743dc663dc5e3dc543dc4c3dc403dc363dc2c3dc223dc1a3dc0e3dc063dbfe3dbf43dbea3dbe03dbd63dbc03dbb63dbaa3db2c3db023dad43da6e3da3e3da0e3f0943f0883f07c3f0703f05e3efe63efda3efd23efc43efb83efac3efa23ef963ef8e3ef3e3ef323ef263ef1a3ef103ef003eeda3eece3eeb83edde3edd63edcc3ed683ed603ed583ea6c3c45e3c4563c44c3c4423c4383c3bc)
  (.lf
  0x1fc3d1fc271fc291fc251fc211fc131fc111fc071fc031fbe91fbeb1fbe71fbe31fbe11fbdf1fbdb1fbd91fbd11fbcf1fba51fba11fb9f1fb9d1fb991fb971fb691fb671fb3b1fb391fb371fb351fb311fb2f1fb011faff1fafb1facf1facd1facb1fac71fabd1fa9b1fa991fa6f1fa6b1f9f31f9c91f9bf1f9bb1f9b91f9b71f9b31f98d1f9571f9551f9511f92d1f9271fe851fe271fe231fe1f1fdcf1fdcb))
  (.nd (.lf
  0x407fc400a03ffe43ff9b407f23ffda3ff9f3ff98407ec400513ffc23ff9c4074c4002f3ffc43ffbc4073a3fcb53fcb23fcb04072e3fc763fc743fc69407123fc2b3fc203fc004070c3fc1a3fc0f3fc0c406f83fb843fb6e3fb6d406ce3fb743fb733fb70406c43fb5c3fb4a3fb3b406be3fac23fabb3fab8406ac3fa663fa283f9c93fa4c3fa223f9203f91f3fa423fa143fa023f9f13f9883f95e3f8a23f8a1)
  (.lf 0)))

def shaXorReads335 : BTree :=
  .nd (.nd (.nd (.lf
  0x14513133db12879127eb127e012794159911597414515133dd1287d127ed127e212796159571593c14517133df12881127ef127e4127981591d1590214519133e112885127f1127e61279a158e1158c61451b133e312889127f3127e81279c158a51588a1451d133e51288d127f5127ea1279e1586d158521451f133e712891127f7127ec127a0158371581c14521133e912815127f9127ee127a2157fd157e2)
  (.lf
  0x3d90d3d90b3d8f53d8f13d8ef3d8ed3d86d3d8693d8673d8653d8613d85f3d85b3d8593d8553d8513d84f3d84d3d8493d8473d8433d8413d83d3d83b3d8373d8353d8313d82d3d82b3d8293d8253d81d3d8153d8133d80f3d80d3d7fb3d7f93d7f53d7cb3d7c73d7c53d7c13d7b93d7b33d7b13d79b3d7993d7973d7953d7913d78f3d77b3d7733d76f3d75f3d75d3d75b3d7573d7493cf313cf3b3cf2f3cf1d))
  (.nd (.lf
  0x22408225a02240c22596224102258c224142258222418225782241c2256e2244c22564224502255a224542255022458225462245c2253c22460225322246422528224682251e2246c22514224702250a224742250022478224f62247c224ec22480224e222484224d822488224ce2248c224c422490224ba22494224b022498224a62249c224a21e62a1e9661e62e1e9521e6321e93c1e6361e9261e63a1e910)
  (.lf 0))) (.nd (.nd (.lf
  0x171f8171bc17180171441710c170d61709c170641702a16ff016fb816f8216f4816f1016ed616e9e16e6416e2416de40e93e0e9340e92a0e9200e9160e90c0e9020e8f80e8ee0e8e40e8da0e8d00e8c60e8bc0e8b20e8a80e89e0e8940e88a0e8800e8760e86c0e8620e8580e84e0e8440e83a0e8300e8260e81c1746417430173f8173bc1737e173441730c172d41729e172681722c171ee171b2171761713a)
  (.lf
  0x59c8059820593c058f6058b40587405834057f4057b4057700572e056ea056a80566405622055e2055a60556c05d2305d1505d1105ceb05cdd05cdb05cd705cab05c9d05c9b05c9705c6705c5905c5705c5305c2505c1705c1505c1105be505bd705bd505bd105ba105b9305b9105b8d05b5f05b5105b4f05b4b05b1f05b1105b0f05b0b05adf05ad105acf05acb05a9b05a8d05a8b05a8705a5505a4705a45))
  (.nd (.lf
  0x12936129261291412908128f6128ec128da128cc128ba128b4128a21289e128981402413fe213fa613f9213f5613f4413f0813ef413eb813ea213e6613e5413e1813e0413dc813db213d7613d6013d2413d0e13cd213cc013c8413c7013c3413c2213be613bd613b9a13b8613b4a13b3813afc13aec13ab013a9c13a6013a4e13a12139fe139c2139ac139701395e1392213912138d6138c61388a138761383a)
  (.lf 0)))

def shaXorReads336 : BTree :=
  .nd (.nd (.nd (.lf
  0x11d2c119150ee4e0ed9b0ebbb0eb640eb3b06518064d811ce8119190ee440ed9f0ebbf0eb660eb3d064ce0649211ca01191d0ee3a0eda30ebc30eb680eb3f064880644c11c56119210ee300eda70ebc70eb6a0eb41064420640611c0c119250ee260edab0ebcb0eb6c0eb43063fc063be11bc6119290ee1c0edaf0ebcf0eb6e0eb45063c00638011b7e1192d0ee120edb30ebd30eb700eb47063760633a11b36)
  (.lf
  0x21dfe2189321df22168f21d762156f21d702189721cae2189b21ca82189f21c902169321c182157321c0c2157721b8a2157b21b802157f21a542158321a4e2158721a3c2158b21a182158f219e2215932198821597218bc218a3218b6218a7218c3216a421697215ba215b42159b215aa2159f215bf221f1223ee22157223e42215b223da220bd223ce2200b223c62202d223bc222f3223b22215f223a822163))
  (.nd (.lf
  0x33a7a33a0a339f0359dc359ca359ba35a103597835a423596a3594e3595035a283591435904358f4358de358cc358983588a358a43586c358ae358b83584e3583e3582a3581a350cc350243500e34fec34f563580634acc36b1836a10369f83696436946368c8368783685c367fe366fe366b2367163664c3660a365de365cc365783642a3641c3640e363fc3638c3675e360523603436036360403601436002)
  (.lf
  0x191d018e5018e3018df018dd018a10189f0189b018990185f0185d01859018570181f0181d0181901817017db017d9017d5017d3017990179701793017910175901757017530175101719002de002d4002ca002c0002b6002ac002a2002980028e002840027a00270002660025c00252002480023e002340022a00220002160020c00202001f8001ee001e4001da001d0001c6001bc001b2002df002dd002d9)))
  (.nd (.nd (.lf
  0x6d19060df055270549f0549405488049610495806d1b060e10552b054a1054960548a049210491806d1d060e30552f054a3054980548c048f30792d06d1f06189060fb060f0060a405d310792f06d210618d060fd060f2060a605d0905d020793106d2306191060ff060f4060a805ccf05cc60793306d250619506101060f6060aa05c8805c850793506d270619906103060f8060ac05c4905c400793706d29)
  (.lf
  0x3576f357853576d357693576735765357613575f3575d3575b357573575535753357513574d3574b357493574735743357413573f3573d357393573735735357333572f3572d3572b35729357253572335721357ff3571f3571b35719357fb3571735713356d5356d3356d1356cd3567f3567d3567b3567735629356273562535621355f1355ef355ed355e9355c9355c7355c5355c1355a3355a13559f3559b))
  (.nd (.lf
  0x209d420b18209d820b00209dc20ae8209e020ad2209e420abc209e820aa4209ec20a8e209f020a78209f420a62209f820a4c209fc20a3620a0020a2020a0420a0a121e8121bc121861217c1214212138120fe120f4120b6120ac1206c12062120241201a11fdc11fd211f9411f8a11f4c11f4211f0811efe11ec411eba11e8011e7611e3c11e3211df811dee11db011da611d6611d5c11d2011d1611cdc11cd2)
  (.lf 0)))

def shaXorReads337 : BTree :=
  .nd (.nd (.nd (.lf
  0x250da24e802315d2310521beb215212145c210fd210fa210f4250d0249742315f2310721bcb214612145e21089210802106e250c62497c231612310921b6321463213dc2108b2108221070250c024982231632310b21b17213ef2139c210872108421072250b224984231652310d21ad5213a92139e210192101621010250ac24980231672310f21a8f2173d213ab213a020fc820fc22509e249342325923255)
  (.lf
  0x220032200121ffd21fe521fa521fa321f9f21f9d21f8521f8321f7f21f6521f3121f2f21f2b21f0921ebb21ec521eb921eb321ea721ea521ea121e8721db921db721db321d9f21d5b21d5921d5521d4721d3321d3121d2d21d2121d0921d0721d0321cf721c8f21c8d21c8921c7d21c4921c4721c4321c3721bf721bf521bef21be321bd521bd321bcf21bc321b6d21b6b21b6721b5b21b2121b1f21b1b21b0f))
  (.nd (.lf
  0x1e18f1bbdf1bbb51bbb01a2201a2082ae762ac3729ac329a9529a7e1e3fe1e1931bbe31bbb71bbb21a1e61a1cc2ae602ac3b29ac729a9729a801e3e81e1c31bbe71bbb91bbb41a1aa1a1922ae4a2ac3f29acb29a9929a821e3d21e1c71bbeb1bbbb1bbb61a1701a1562ae342ac4329acf29a9b29a841e3bc1e1cb1bbef1bbbd1bbb81a1361a11a2ae1e2ac4729ad329a9d29a861e3a61e1cf1bbf31bbba1bb6b)
  (.lf
  0x1be551be511be4f1be411be3f1be3b1be391be2b1be291be251be231be151be131be0f1be0d1bdff1bdfd1bdf91bdf71bde91bde71bde31bde11bdd31bdd11bdcd1bdcb1bdbd1bdbb1bdb71bdb51bda71bda51bda11bd9f1bd911bd8f1bd8b1bd891bd7b1bd791bd751bd731bd651bd631bd5f1bd5d1bd4f1bd4d1bd491bd471bd391bd371bd331bd311bd231bd211bd1d1bd1b1bd0d1bd0b1bd071bd051bcf7)))
  (.nd (.nd (.lf
  0x2da682da1a2da132d9f32da122d9d52d9d12d9d42d9842d7002d6f92d6f32d6f82d6f12d6e52d6f02d5e42d5812d57d2d5802d57b2d5772d57a2d5752d55d2d5742d55b2d5192d55a2d4eb2d4e52d4ea2d4e22d4d22d37f2d3792d37e2d3772d3712d3762d36f2d3692d36e2d3662d35f2d35b2d35e2d2f42cdc42cdba2cdb02cda62cd9c2cd922cd882cd7e2cd742cd6a2cd602cd562cd482cd402cd382cd2e)
  (.lf
  0x19fd719fd519fd119fc319f9b19f9919f9519f8719f5d19f5b19f5719f4919f1f19f1d19f1919f0b19ee319ee119edd19ecf19ea719ea519ea119e9319e6919e6719e6319e5519e2719e2519e2119e1319ddf19ddd19dd919dcf19d9b19d9919d9519d8d19d5519d5319d4f19d4719d0d19d0b19d0719cfb19cbd19cbb19cb719ca919c8d1991a1991019906198fc198f2198e8198de198d4198ca198c0198b6))
  (.nd (.lf
  0x23ac223ab6237da2360523aa423a66237d0235f723a9e23a5c237c8235d723a7c23a26237be235c723a6e23a42237b4235a523a3c23a12235892358023a0e235642355a2355923538235282351f2351c234ea234cc234ba234b9234e4234d6234c6234c3233382332f24bf024bef251d824cf624bfb24be2251ce24cd024bf524be4251c424cb424bf724bf2251bc24caa24bc424bc3251b224c6824bf824bb9)
  (.lf 0)))

def shaXorReads338 : BTree :=
  .nd (.nd (.nd (.lf
  0x3126b312683126631259359ae356743368933685323b13120d3120331200311fe311f8359a83552033667336633236f311433113931136311343112e3596e3551433649336453233d311af311a5311a2311a03119a3595c3550c3362d336293233f310c3310bb310b8310b6310b035946354fc336f1336ed321f13105b31053310503104a310443593e354f23338f3338b320853100f31007310043100230ffc)
  (.lf
  0x3fa1a3fa043f9763f94a409a9409a7409a3409974098740985409814096f4096d4096b4096740965409574095540951409454094340abd409414093d4093740935409314092f4091f4091d409194091340901408ff408fb408dd408db408d9408d5408b7408b5408b3408a34089d4089340891408854087d408714086f4081d4081940817408154080b40805408034082540801407fd407fb40837407f9407f5))
  (.nd (.lf
  0x32b9032b5132b4832b4238304382cf32d0f32b7432b2932b2032b1a382fa382d332c3d32b5032b0132af232aea382f2382d732c1532b2832ad932ace32aca382e6382db32bed32b0032ab132aaa32aa2382df3827632bcb32ad832a8b32a7e32a603826f3824832ab032a4b32a2232a1a38242381ef32a8a32a0b329e6329de3823a381f332a4a329cb329a63299e38230381f732a0a3298f329703296a38224)
  (.lf
  0x2f68d2f6892f6872f6812f67f2f67b2f6772f6752f6732f66f2f66b2f6692f6672f6632f6612f65d2f65b2f6572f6552f6532f6512f64d2f64b2f6492f6472f6432f63f2f63d2f63b2f6372f6332f6312f62f2f62b2f6292f6252f6232f61f2f61d2f6192f6172f6132f6112f60f2f6932f60d2f6092f6072f6052f6012f5fd2f5fb2f5f92f5f52f5f12f5ef2f5f72f5ed2f5e92f5e72f6952f5e52f5e12f5df)))
  (.nd (.nd (.lf
  0x19c7019c7419c781ac061ac0a1ac0e1ac121ac161ac1a1ac1e1ac221ac261ac2a1ac2e1ac321ac361ac3a1ac3e1ac421ac461ac4a1ac4e1ac521ac561ac5a1bbbe1bbc21bbc61bbca1bbce1bbd21bbd61bbda1bbde1bbe21bbe61bbea1bbee1bbf21bbf61bbfa1bbfe1bc021bc061bc0a1bc0e1bc121cb7c1cb801cb841cb881cb8c1cb901cb941cb981cb9c1cba01cba41cba81cbac1cbb01cbb41cbb81cbbc)
  (.lf
  0x271a3271a12719d2719b271992719727193271912718f2718d271892718727185271af271832717f2717d2717b2717727173271712716f2716b271692716727165271612715f2715d2715b271572715527153271512714d2714b2714727145271412713f2713d2713b271372713527133271312712d2712b271292712727123271212711f271492711d271192711727115271112710f2710d2710b2710727105))
  (.nd (.lf
  0xa8c90a9420a89b0a9380a86f0a92e0a8430a9240a8170a91a0a7eb0a9100a7bf0a9060a7930a8f90a8d60a8cd0a8a80a89f0a87c0a8730a8500a8470a8240a81b0a7f80a7ef0a7cc0a7c30a7a00a7970a7740a7730b26b0b4100b26f0b4060b2730b3fc0b2770b3f20b27b0b3e80b27f0b3de0b2830b3d40b2870b3ca0b28b0b3c00b28f0b3b60b2930b3ac0b2970b3a20b29b0b3980b29f0b38e0b2a30b384)
  (.lf 0)))

def shaXorReads339 : BTree :=
  .nd (.nd (.nd (.lf
  0x1416d1415614112140521762a170c615c1315bc314b111418f1416f141581411414054176201708c15c1515bc514b1314193141711415a1411614056176181705415c1715bc714b15141971415c1413314118140581760e1701815abd15aad14b171419b1415e141351411a1405a1760216fde15abf15aaf14b191419f14160141371411c1405c175fa175e815ac115ab114b1b141a314162141391411e1405e)
  (.lf
  0x67a3067a10679d0679b06763067610675d0675b06723067210671d0671b066e5066e3066df066dd0669f0669d066990669706659066570665306651066110660f0660b06609065d1065cf065cb065c9065910658f0658b0658906553065510654d0654b0650b065090650506503064cd064cb064c7064c50648706485064810647f064410643f0643b06439063fb063f9063f5063f3063b3063b1063ad063ab))
  (.nd (.lf
  0xe1330e1200e11d0e10a0e1070e0f40e0f10e0de0e0db0e0c80e0c50e0b20e0af0e09c0e0990e0860e0830e07d159c11598d159801595315946159191590c158dd158d0158a115894158691585c1583315826157f9157ec157c1157b41578515778157471573a1570d15700156d5156c81569d156901566515658156291561c155ef155e2155b3155a6155791556c1553d1553015505154f8154cf154c215495)
  (.lf 0))) (.nd (.nd (.lf
  0x6234061ee06020060160600c0600205ff805fee05fe405fda05fd005fc605fbc05fb205fa805f9e05f9405f8a05f8005f7605f6c05f6205f5805f4e05f4405f3a05f3005f2605f1c05f1205f0805efe075e4075a80756607522074dc0749a0745a0741a073da0739a0735a0731a072da07296072500720a071c4071820713e070fc070b8070760703206ff006fac06f6a06f2a06ee606eaa06e700444004406)
  (.lf
  0xb7490b7410b7330b7310b72d0b7230b7150b7130b70f0b7050b6f70b6f50b6f10b6e70b6d90b6d70b6d30b6c50b6b70b6b50b6b10b6a10b6930b6910b68d0b6810b6730b6710b66d0b6610b6530b6510b64d0b6430b6350b6330b62f0b6230b6150b6130b60f0b6050b5f70b5f50b5f10b5e90b5db0b5d90b5d50b5c90b5bb0b5b90b5b50b5a70b5a10b4160b40c0b4020b3f80b3ee0b3e40b3da0b3d00b3c6))
  (.nd (.lf
  0x25cde25c8725c8325c7825c6225c2b25b9825aef25b9225aeb25b4225aed25b3c25ae925ae525acc25aa825a6f25a2a2594325a2425945259ec25941259b02591f2597625921258fe258c92588a257d1258842580d25814257b32580e257dd2578d26fab2707026f9f26ffc26fad26ff626f8926f7c26f7b26ec426e4126ebc26e3f26eb526eb026e1926e1626d9c26d7b26d8f26d8c26d8226d7f26d6e26d51)
  (.lf 0)))

def shaXorReads340 : BTree :=
  .nd (.nd (.nd (.lf
  0xf9e00f5e00f0b00ee200eb941930419080324a032180202701fa70138100fa000f6000f0d00ee400ebb41924418ec03226031e40202901fa90138300fa200f6200f0f00ee600ebd4191a4150e031f2031b20202b01fab0138500fa400f6400f1100ee800ebf4150241252031a8031760202d01fad0138700fa600f6600f1300eea00ec141244411c203184031200202f01faf0138900fa800f6800f1500ec3)
  (.lf
  0x1fdae1f8a61fd8a1f8aa1fd661f8ae1fd421f8b21fd221f8b61fd001f8ba1fcdc1f8be1fcbc1f8c21fc9a1f8c61fc761f8ca1fc521f8ce1fc321f8d21fc141f8d61fbf61f8da1fa601f8de1fa501f8e21fa441f8e61fa381f8ea1fa261f8ee1fa1a1f8f21fa101f8f61fa061f8fa1fa001f8fe1f97c1f9021f90c1f9061f90e2012e203d220132203cc20136203c22013a203b82013e203ae20142203a420146))
  (.nd (.lf
  0x2face2fabc2f308312c43128e31278311fc311323119e310b4310483100030f7a30f5630f3830ed230e8830e5430e3c30db230d8a30d6e30d4e30d1430ce830b6e30b2e30b1230ade30a7c30a22309de309b8309a830758324343240c323dc323ae3236c323383233a321ee3208232018320ba320a831fca31e8031e0e31dee31df831da231d9231db031d6231cae31c9831c9a31c7631a0a318b231876317ca)
  (.lf
  0x3873a38724387163870e3859038584385b4389ad389ab389a7389a5389a3389a1388fb388f5388f3388f7388f1388ed388eb388e9388e5388e3388e1388df388db388d7388d5388d3388cf388c7388bf388bd388b9388b7388b5388b3388af388ad388ab388c3388a9388a5388a3388a13889d3889b38899388ff38897388933888f3888d388893888738885388833887f388733886f3886d38869387a5387a3)))
  (.nd (.nd (.lf
  0x51d20511207b6407b1606a65069e505e2b0526305218051ef051d40511407b2407ad606a67069e705e2d052670521a051f1051d60511607ae407a9606a69069e905e2f0526b0521c051f3051d80511807aa407a7806a6b069eb05e310526f051f5051de051da0511a07a7606a6d069ed05e3305273051f7051e0051dc0511c08ea20767d075fd06a6f05ecd05e4f05e3805df405d3408e7a08e320767f075ff)
  (.lf
  0x2f6e32f6df2f6dd2f6d92f6d72f6d32f6d12f6cf2fd392f6cd2f6c92f6c72f6c52f6c12f6bf2f6bd2f7492f6bb2f6b72f6b52f6b32f6af2f69f2f69d2f6a32f69b2f6972f5c52f5c92f5c32f5bf2f5b32f5b12f5ad2f5a92f59b2f5992f5932f58f2f5812f6a92f57f2f57b2f5792f5d92f5772f5732f5712f5d32f56f2f56b2f5692f5672f5632f55f2f4132f52b2f4112f40d2f3f72f3fb2f3f52f3f12f3db))
  (.nd (.lf
  0xc4670c6760c4610c66c0c46b0c6620c4770c6580c47f0c6500c4830c6460c48b0c63c0c4810c6300c47b0c6260c4a30c61c0c4910c6120c4c30c6080c4ad0c6000c5f50c5f60c5eb0c5ed1040d107621061b1075c10371107521061910746102b3107401061710732101f910724106151071e1014110712106131070a100851070210611106f80ffcb106f01060f106e00ff0d106d81060d106ce0fe4d106c6)
  (.lf 0)))

def shaXorReads341 : BTree :=
  .nd (.nd (.nd (.lf
  0x23ffb22fd9221552214f2214421eec25e002576b23ffd22fdb22159221512214621eac25cc22590923fff22fdd2214821dd321dc321dbe25cba2576924001230012214a21dd521dc521d6025c7a259072400322e3f2214c21dd721dc721d3825c70257592400522e1f222f12214e21dc921d0e25c22257572400722e212215d2215021dcb21cbe25c1c257632400922e232216121dcd21dc221c4e25ad82575f)
  (.lf
  0x144bd144e5144bb144b7144b5144b3144af144ad144ab144a9144a5144a3144a11449f1449b144991449714495144911448f1448d1448b144871448514483144811447f1447b144791447714473144711446d1446f1446b144671446514463144611445d1445b144591444f1444d1444b14449144451443d1443b14439144351442d1442b14429144251441d1441b14419144151440d1440b1440914405143fd))
  (.nd (.lf
  0x103cd103c4103ac1ea2f1ea0f1e9f8118fb118dd118d81038e1037f1037610373103661034a1ea331ea111e9fa118ff118df118da1032c1031d103141031110306102ee1ea371ea131e9fc11903118e1118dc102d0102c1102b8102b5102a8102921ea3b1ea151e9fe11907118e3118de10274102651025c102591024e102341ea3f1ea171ea001190b118e5118e01021610207101fe101fb101ee101d61ea43)
  (.lf
  0x13e3f13e3b13dff13df113def13deb13dad13d9f13d9d13d9913d5b13d4d13d4b13d4713d0913cfb13cf913cf513cbb13cad13cab13ca713c6b13c5d13c5b13c5713c1d13c0f13c0d13c0913bd113bc313bc113bbd13b8113b7313b7113b6d13b3313b2513b2313b1f13ae713ad913ad713ad313a9713a8913a8713a8313a4913a3b13a3913a35139f9139eb139e9139e5139a7139991399713993139591394b)))
  (.nd (.nd (.lf
  0x189521889c18870188441881819bcc19bc219bb819bae19ba419b9a19b9019b8619b7c19b7219b6819b5e19b5419b4a19b4019b3619b2c19b2219b1819b0e19b0419afa19af019ae619adc19ad219ac819abe19ab419aaa1a3cc1a3961a35a1a31c1a2de1a2a01a2621a2241a1ea1a1ae1a1741a13a1a0fe1a0c41a08e1a0521a01819fdc19fa019f6219f2419ee819eac19e6e19e2c19de419da019d5a19d12)
  (.lf
  0x115ec115e2115d8115ce115c4115ba115b0115a61159c11592115881157e115741156a11560115561154c11542115381152e115241151a1151011506114fc114f41105810f4810f3210f1c10ed2115ed115eb115e7115e5115e3115e1115dd115db115d9115d7115d3115d1115cf115cd115c9115c7115c5115c3115bf115bd115bb115b9115b5115b3115b1115af115ab115a9115a7115a5115a11159f1159d))
  (.nd (.lf
  0x33aa033a60339e0339b033770336e0336a033620333c03338033300332d03302032fe032f6032f3032c8032c4032bc032b9032950328c03288032800325a032560324e0324b032270321e0321a03212031f3031ea031e6031de031b8031b4031ac031a9031850317c0317803170031240311f044640446104439044320442e04428043f6043f2043ea043e7043b0043ac043a4043a10436a043660435e0435b)
  (.lf 0)))

def shaXorReads342 : BTree :=
  .nd (.nd (.nd (.lf
  0x30ea72f9e72efa32ecea2ebdb2ebd232b4332b2630df72f9e92ef012ec922eb8b2eb8832b1b32af030ddb2f9712ef052ec782eb592eb5632af332ad630dc92f9732f0392ec7a2eb5b2eb4832acf32aa830d412f9492efe72ec0e2eb172eb0c32aab32a8430d212f94b2efa72ebda2eadb2eaca32a6132a2030cf32f94d2ef092eb8a2eaad2ea8432a23329e430c8b2f8e52ef0d2eb582eaaf2ea8e329e7329a4)
  (.lf
  0x300c9300c73007b30053300513004f3004b300493004730045300413003f3003d3003b300373003330031300353002f3002b30029300273001530013300113000f2fe252fe212fe1f2fe272fe1d2fe192fe172fe152fe112fe0f2fe0d2fe0b2fe072fe052fe032fe2b2fe012fdfd2f9d52f9f12f9d32f9cd2f9ad2f9bb2f9ab2f9a72f99f2f9b72f99d2f9992f98f2f9b32f98d2f9892f97b2f9792f9752f967))
  (.nd (.lf
  0x35bb835b8b2bce42bc07263932630b2630225bc22576236f5436d9f35c0d35bba35b8f2bcda2bc0b263972630f2630625ada2575e36f4636da335c1135bbc35b932bcd02bc0f2639b263132630a25ad22577a36f3c36da735c1535bbe35b952bcc62bc132639f263172630e25ac42577236f3236dab35c1935bc035b972bcbc2bc17263a32631b2631225ab82578636f2036daf35c1d35bc235b992bcb22bc1b)
  (.lf
  0x2571b2571725715257072570525701256ff256f1256ef256eb256e9256db256d9256d5256d3256c5256c3256bf256bd256af256ad256a9256a72569925697256932569125683256812567d2567b2566d2566b25667256652565725655256512564f256412563f2563b256392562b25629256252562325615256132560f2560d255ff255fd255f9255f7255e9255e7255e3255e1255d3255d1255cd255cb255bd)))
  (.nd (.nd (.lf
  0x34fc034ca03490034560341a033e8033ae033720334003306032cc032900325e03222031ee031bc03180037c60378c037500371e036e2036ae0367c0364203606035d40359a0355e0352c034f0034be034840344a0340e033dc033a20336603334032fa032c0032840325203216031e2031b00317404436043fa043b40436e04326042e6042a80426004222041da0419c0415404116040d0040880404a04004)
  (.lf
  0x1e5b81e5ae1e5a41e59c1e5921e5841e5881e5721e5681e5601e5541e5501e5441e5381e52e1e5241e5161e51a1e4e21e4e61e6271e6251e6211e61f1e61d1e61b1e6171e6151e6131e6111e60d1e60b1e6091e6071e6031e6011e5ff1e5fd1e5f91e5f71e5f51e5f31e5ef1e5ed1e5eb1e5e91e5e51e5e31e5e11e5df1e5db1e5d91e5d71e5d51e5d11e5cf1e5cd1e5cb1e5c71e5c51e5c31e5c11e5bd1e5bb))
  (.nd (.lf
  0x90200911c090240911209028091080902c090fe09030090f409034090ea09038090e00903c090d609040090cc09044090c209048090b80904c090ae09050090a4090540909a09058090900905c09086090600907c0906409072090680906e09c6009e0409c6409dfa09c6809df009c6c09de609c7009ddc09c7409dd209c7809dc809c7c09dbe09c8009db409c8409daa09c8809da009c8c09d9609c9009d8c)
  (.lf 0)))

def shaXorReads343 : BTree :=
  .nd (.nd (.nd (.lf
  0x1772f1679d160951600515ffa15fd2193ff193e4177311679f160991600715ffc15fd4193c3193a817733167a11609d1600915ffe15fd61938b1937017735167a3160a11600b1600015fd8193551933a17737167a5160a51600d1600215fda1931f1930217739167a7160a91600f1600415fdc192e7192c61773b167bd1602d160111600615f64192ab192861773d167a916031160131600815f661926b19246)
  (.lf
  0x3eec03ee803ee8e3f0c23edf83edfc3ed743ea743e9f43f0bd3f0bb3f0b73f0b53f0b33f0b13f0a93f0a73f0a53f0ad3f0a33f09f3f09d3f09b3f0693f0673f05b3f0593f0553f0533f0513f04f3f04b3f0493f0473f0453f0413f03f3f03d3f03b3f0373f0353f0313f02f3f02b3f0293f0273f0253f0213f01f3f01b3f0193f0153f0133f00f3f00d3f0093f0073f0033f0013effd3eff93ef853ef833ef7f))
  (.nd (.lf
  0x31cc2325e031bac325d431cc6325ca31bb0325be31bb431c0831bb831bfa31bbc31bf231bc031bea31bc431be231bc831bd631bcc31bd432bae32f2432b9232f1a32b7632f1432b5232f0a32b2a32efe32b0232ef632ada32ee832ab232ede32a8c32ed432a4c32ecc32d8032e1032d8432e0432d8832dfc32d8c32df232cf432de832cf832dde32cfc32dd632d9032dc832d9432dc232d9832db432d9c32dae)
  (.lf 0))) (.nd (.nd (.lf
  0x227dc227c6227b02279a227842276e22758227422272c2271622700226ea226d4226be226a82292a22914228fe228e8228d2228ba228a22288a228722285a228422282c22816227fe227e8227d2227bc227a6227902277a227642274e22738227222270c226f6226e0226ca226b42269e1e96c1e9581e9421e92c1e9161e9001e8ea1e8d41e8be1e8a81e8921e87c1e8661e8501e83a1e8241e80e1e7f81e7e2)
  (.lf
  0x756907567075630756107525075230751f0751d074df074dd074d9074d70749d0749b07497074950745d0745b07457074550741d0741b0741707415073dd073db073d7073d50739d0739b07397073950735d0735b07357073550731d0731b0731707315072dd072db072d7072d50729907297072930729107253072510724d0724b0720d0720b0720707205071c7071c5071c1071bf07185071830717f0717d))
  (.nd (.lf
  0x236ee2342c236d023420236ca23410236a623404236a0234142367c233ee23676233e423654234a82364e233cc23624233c02361e233b2235fe233c2235f8234a6235e023394235c823396235b42337c235982357a2356c2337a2354623516234bc23358234be234ae2332a2484824b822483824b742482c24b682482224b5c2484624b4e2480c24b462480224b3a247f224b30247f824b8a24b2624a6e247d4)
  (.lf 0)))

def shaXorReads344 : BTree :=
  .nd (.nd (.nd (.lf
  0xd5ed0cf510cebf0cea6000620000a0d6180d5f10cf550cec10ceaa00058000080d60e0d5f50cec30ceac0004e000060d6040d5f90cec50ceae00044000040d5ff0cec70ceb0000020d7310d58b0d56f0d558004900dbe80d7350d58f0d5710d55a005b60048e0dbca0d7390d5930d5730d55c005ac0048c0dba80d7770d5970d5750d55e005a20048a0db860d77b0d59b0d5770d56000598004880db640d77f)
  (.lf
  0x1d4e0169b01d0a0169f01cc8016a301c88016a701c44016ab01bfe016af01bbc016b301b78016b701b32016bb01aec016bf01aaa016c301a66016c701a24016cb019e4016cf019a4016d301960016d70191e016db018de016df0189a016e301858016e701818016eb017d4016ef01792016f301752016f7016fd022e502b5a022e902b22022ed02ade022f102a98022f502a56022f902a12022fd029d002301))
  (.nd (.lf
  0x3105a3100e30f84320c2320b03243c32416323e6323b6323743234e32352321f63208a32020320c43243e3241a323e8323ba323763235432358321fa3208c324423241c323ec323bc323783235c32360321fe3209032022332a0332b4336de336be33746336903366e3365033634336f83339633370332a2336e0336c03374833692336703365233636336fa33398336e2336c23374a3369633674336543363a)
  (.lf
  0x39d2139d1b39d1739d1539d7339d1339d0f39d0d39d0b39d0739d0339d0139cff39cfb39cf939cf739cf539cf139cef39ced39d0539ceb39ce739ce539ce339cdf39cdd39cdb39cd939cd539cd139ccf39cd339ccd39cc939cc739cc539cc139cbf39cbd39cbb39cb739cb539cb339cb139cad39cab39ca939ca739ca339ca139c9f39c9d39bd539bd339bd13a56a3a5603a5523a5483a53c3a52c3a5303a518)))
  (.nd (.nd (.lf
  0x10564100e00bcbd0bc3d0b1850a76f0a7690a7660a7640a75e104d0100820bcbf0bc3f0b1730a74f0a74d0a74a0a7480a742104c6100280bcc10bc410b1610a8ec0a7370a7350a7320a72c104bc0ffc80bcc30bc430b14f0a8ef0a8c00a7210a71e0a718104b20ff680bcc50bc450b13d0a8c30a8920a70b0a7080a702104a80ff0a0bcc70bc470b1090a8950a8660a6f70a6f40a6ee1049e0feac0bcc90bc49)
  (.lf
  0x330213301d330193301733015330113300d3300b330093300532fef32a7d32a7b32a7732a6732a2f32a3132a2b32a2732a0532a03329ff329ed329b5329b3329af329ab3297b3297f32979329753291d3291f3291b329153286d328613285d32859328413283132825328213280f3280d3280532803327e7327e5327d1327cd327af325243251c3251632508324fc324f2324ee324dc324e0324c8324be324cc))
  (.nd (.lf
  0x30d5e30d6330d3630d4530d0e30d0530ce230cd930b6030b6530b2230b2730b0630b0930ae830ad730a6e30a7530a1830a1b309ea309c7309c0309ae30969309613083c3075332249324023224d323e0322c5323c23207532380320653234032077323283204f3220232041320d23207b3201132002320b331ffc320a131fd231fbd31fb431e7931e3431e1231ddf31e0231dcb31de131dbc31da631d4731d8a)
  (.lf 0)))

def shaXorReads345 : BTree :=
  .nd (.nd (.nd (.lf
  0x2c7e12b67b2a4282a3692a3672a3642e53f2e5162c7e32b67d2a3fc2a34d2a34b2a3402e5032e4d62c7552b67f2a3d62a32b2a3292a31e2e4d92e4742c7292b6812a4d32a3b42a3032a3002e4772e4522c72b2b5232a4d72a3922a2e92a2de2e4552e4302c72d2b4812a4db2a3662a2c92a2be2e4332e41c2c72f2b4832a4df2a34a2a2ab2a2a02e40b2e3fa2c6f32b4852a4e32a3282a2892a2862e3e52e3d8)
  (.lf
  0x1a43b1a4391a4351a4331a4311a42f19e3719e3119df519df319def19ded19db119daf19dab19da919d6f19d6919d6519d6319d1f1a87719d1b19d1719cd119ccf19ccb19cc719c931a82a1a82c1a81e1a80e1a8041a7fa1a8521a7c21a7d01a7b21a7a61a79c1a7921a7641a75a1a7521a7461a73c1a7321a7221a6ea1a6e61a6dc1a6cc1a6c21a6b81a7121a42819d6c19d2419cd41a82b1a82d1a8291a825))
  (.nd (.lf
  0x1152610f940f61b0f5e80f5bf0e3810e3270e322243ea242e11aef21ac351151c10f880f61d0f5ea0f5c10e3830e3290e324243d4242e51aeba1ac391151210f7c0f61f0f5ec0f5c30e32b0e326243be242e91ae801ac3d11508110660f6210f5ee0f5c50e32d0e328243a8242ed1ae441ac41114fe1106c0f6230f5f00f5c70e32f0e32a24392242f11ae061ac45114f2110600f6250f5c90f5b20e3310e32c)
  (.lf
  0x17ee517ee117edf17ea317ea117e9d17e9b17e5d17e5b17e5717e5517e1b17e1917e1517e1317dd717dd517dd117dcf17d9517d9317d8f17d8d17d530eb2a0eb200eb160eb0c0eb020eaf80eaee0eae40eada0ead00eac60eabc0eab20eaa80ea9e0ea940ea8a0ea800ea760ea6c0ea620ea580ea4e0ea440ea3a0ea300ea260ea1c0ea120ea080e9fe0eb2b0eb290eb250eb230eb210eb1f0eb1b0eb190eb17)))
  (.nd (.nd (.lf
  0x2347a2346e2345e23452234462343a23432234262341a2340a233fe233f6233ea233de233d4233c8233ba233ae233a42339c2338e23384233762336e233642335c233502027e202742026a20260202562024c20242202382022e202242021a2021020206201fc201f2201e8200f2200e8200de2004a1feea1fee01fed61fecc1fec21feb81feae1fea41fe9a1fe90237ac23796237482373e237342372a23720)
  (.lf
  0x16e8d16e8b16e8716e6f16e4b16e4916e4516e2f16e0916e0716e0316def16dc916dc716dc316db316da11747a1744817410173d4173961735c17324172ec172b6172801724417206171ca1718e171521711a170e4170aa170721703816ffe16fc616f9016f5616f1e16ee416eac16e7216e3216df216db61747b1745517451174491741f1741d1741917411173e7173e5173e1173d5173ab173a9173a517397))
  (.nd (.lf
  0x144c01435f13ec813ec2144b61435d13e7813e70144aa1435b13e2a13e22144a41435913dd413dd21449a1435713d8213d801448c1435513d3213d2e144821435313cde13cdc1447a1435113c9213c8e144721434f13c4213c3e144661434d13bf213bf01445c1434b13ba813ba41444c1434913b5813b541443a1434713b0a13b06144341434513abe13aba1441a1434313a7013a6a144141434113a2413a1c)
  (.lf 0)))

def shaXorReads346 : BTree :=
  .nd (.nd (.nd (.lf
  0x397d03950337bd137b1037a8f37a863c09f3b467397c83950737c6537ada37a9137a883c0693b425397be3953137c1337ac237a9337a8a3c04b3b3e3397b4394d937c8337ab837a5d37a5a3bfc53b3bf397ac394cf37bef37acc377c7377c43bfa53b2e1397a0394e937bd537a8e377c9377b43bfaf3b2d1394ef394b237c2d37a90377d3377d03bf833b2c1393a73939837b9937a92377933778e3bc1f3b2af)
  (.lf
  0x3784937847378433783737835378333782f3782d37823378213781d37813378113780f3780b37809377ff377fd377f9377f7377ed377eb377e1377dd377db37897377d9377d5373fb373f9373f5373eb373e9373e7373e3373e1373d7373d5371913713b370f737101370f5370f1370ef37c5637c0437c7037bdc37bb837c2037b8237b8a37b5237b6237b2c37b1a37b0237ad237aba37ab037ac437a7637a78))
  (.nd (.lf
  0x3269231b472c5e12c5c52c5c02c37a2c12e39fd439e0f398dd398b9398a23268a31b4b2c5e52c5c72c5c22c3742c12c39fc439e13398e1398bb398a43268031b4f2c5e72c5c92c5c42c36c2c12a39fb839e17398e5398bd398a63267631b532c5eb2c5cb2c5c62c3622c11c39faa39e1b398e9398bf398a83266831b572c5ed2c5cd2c5c82c34e2c11a39fa039e1f398ed398c1398aa3265e31b5b2c5f12c5cf)
  (.lf
  0x2998d299892998729985299832997f2997d2997b299792997529973299712996f2996b299692996729965299612995f2995d2995b299572995529953299512994d2994b299492994729943299412993f2993d299392993729935299332992f2992d2992b2af2a2af162af002aeea2aed42aebe2aea82ae922ae7c2ae662ae502ae3a2ae242ae0e2adf82ade22adcc2adb62ada02ad8a2ad742ad5e2ad482ad32)))
  (.nd (.nd (.lf
  0x249ba249b02499e2498c2486c246fa246a6246762463c251de251d4251ca251c0251b6251ac251a22518c251822515c251522514a251342512a250ea250e0250d6250cc250c4250ba250b0250a62509c25092250822506c25062246c82466c2462426134260fa2600e25fec25f9025f8825f1425e5825d9825d7625d4825d3225cb225c5025c1825c0425bf025bdc25bc825aa225a5625a16259de259a825970)
  (.lf
  0x24b6524b6324b5f24b5d24b5b24b5924b5324b5124b4f24b4d24b4924b4724b4324b4124b3d24b3b24b3924b3724b3324b3124b2f24b8d24b2d24b2924b2724b2524a6f24a6d24a6924a6724a6324a6124a5f24a5d24a5924a5524a5324a51249132490f2490d24a752490b249072490524903248ff248fd248fb248f9248f5248f3248f1248ef248eb248e9248e7248e5248e1248df248dd248db248d7248d5))
  (.nd (.lf
  0x2b8ca2b91c2b8282b9162b82c2b90e2b8502b9002b7882b8fa2b74a2b8ec2b6f62b8e62b6ae2b8d82b6302b8d22b8ce2b8682b8302b8622b8342b8562b8542b7902b78c2b7502b74e2b6fe2b6fa2b6b62b6b22b63e2b6342b6142cc6c2cdbe2cc862cdb22cc762cdac2cc902cda02cc522cd962cbfc2cd8c2cc222cd802cc022cd782cc2c2cd6e2cba42cd622cb842cd582cb5a2cd522cb5e2cd422cc7a2cd3c)
  (.lf 0)))

def shaXorReads347 : BTree :=
  .nd (.nd (.nd (.lf
  0xbd490bd320bcee0bc2e1232c12136107df107770c7e90bdcf0bd4b0bd340bcf00bc3012322120f2107e1107790c7eb0bdd30bd4d0bd360bcf20bc3212316120aa107e31077b0c7ed0bdd70bd4f0bd380bcf40bc341230e12060107e51077d0c7ef0bddb0bd510bd3a0bcf60bc361230612018107e71077f0c7f10bddf0bd530bd3c0bcf80bc38122f811fd0107e9107810c7f30bde30bd550bd3e0bcfa0bc3a)
  (.lf
  0x4166d4157b4153b41535414bf414b5414af41397413934138d4138b413874137741d0041cf841d0441ce441cd841cc641ccc41cb441c9e41ca241ca841db041c7a41c6e41c6241c5441c5c41c3641c3e41c1e41bfe41bdc41bb841b9641912418fe41902418d4418da414e84122e41d0141cff41cfb41cf941cf741d0541cf541cf141cef41ced41ce941ce541ce341ce141cdd41cd941cd741cd541cd141ccb))
  (.nd (.lf
  0x1e7a41e7921e78e1e77c1e7781e7661e7621e7501e74c1e73a1e7361e7241e7201e70e1e70a1e6f81e6f41e6e21e6de1e6d8245a824594245882457e24572245682455c24552245462453c24530245262451a2451024504244fa244ee244e4244d8244ce244c2244b8244ac244a2244962448c24480244762446a24460244542444a2443e24434244282441e2441224408243fc243f2243e6243dc243d0243c6)
  (.lf 0))) (.nd (.nd (.lf
  0x389e2389d8389983898e389823897a389723949e3949239488394763946e39464394583944c394403942c394243941c3941039404393f8393ec393dc393d2393c8393bc393b039370393643935839342393363932639310392d6392c8396643964839638396223961a39606395f0395de395c8395ae39592395763955e39552395423953239508394f8394f0394de394d2394c6394be394b6393a03934e39320)
  (.lf
  0x66630665f0665d0661d066210661b06617065dd065e1065db065d70659d065a10659b065970655f0655d0655906557065170651b0651506511064d9064d7064d3064d106493064910648d0648b0644d0644b0644706445064070640506401063ff063bf063c3063bd063b9063810637f0637b063790633b063390633506333062f3062f7062f1062ed062b5062b3062af062ad0626d062710626b062670622f))
  (.nd (.lf
  0x4de704dda04da504d9804d6504d5804d2504d1804ce104cd404c9f04c9204c5f04c5204c1f04c1204bdb04bce04b9904b8c04b5904b4c04b1904b0c04ad504ac804a8f04a8204a4904a3c04a03049f6049bd049b00497b0496e0493b0492e048fb048f6048e105d2105ce905cdc05ca905c9c05c6505c5805c2305c1605be305bd605b9f05b9205b5d05b5005b1d05b1005add05ad005a9905a8c05a5305a46)
  (.lf 0)))

def shaXorReads348 : BTree :=
  .nd (.nd (.nd (.lf
  0x3798037885378823787c3dda63d6943c99f3c9993b4af3798337962378913788e378883dfe43dd923c98b3c97b3b48337a2a379653786d3786a378643dd8a3d6083c9a13c9833b43d37a2d3793437853378503784a3d69e3d5f03c0d13c0cb3b40b3793737918378413783e378383d6763d5e83c0133c00f3b3ad379f13791b379023782a378243d6583d5f63bff73bff33b36137a4237a03379073781a37814)
  (.lf
  0xf75d0f75b0f7570f7550f7530f7510f74d0f74b0f7490f7470f7430f7410f73f0f73d0f7390f7370f7350f7330f72f0f72d0f72b0f7290f7250f7230f7210f71f0f71b0f7190f7170f7150f7110f70f0f70d0f70b0f7070f7050f7030f7010f6fd0f6fb0f6f90f6f70f6f30f6f10f6ef0f6ed0f6e90f6e70f6e50f6e30f6df0f6dd0f6db0070200afc0070600ade0070a00ac00070e00aa40071200a8800716))
  (.nd (.lf
  0x3dcc23c8ae3a6293a5b93a5b03dcb63c6d03a61d3a5bd3a5b43dcae3c6563a5c13a5b83c6383c5f83a5c53a5bc3c62c3c5ea3a5c03a4533c6223c5b23a5c43a4393c6183c5903a4523a43b3c5683c4f83a43d3a4383c4ea3c4c23a43f3a43a3c4b43c4083a4413a43c3c40a3c3e63a7053a43e3c3e83a7073a4403df963e2663df7a3e25a3df523e0dc3df303e0d23df123e0c83debc3e0ba3de8a3e0b23de5e)
  (.lf
  0x32dc732dc332dc132dbf32dbd32db932db732db532db332daf32dad32dab32e1732da932da532d4332d4132d3d32d3b32d3932d3732d3332d3132d2f32d2d32d2932d2732d2532d2332d1f32d1d32d1b32d1932d1532d1332c4532c4932c4332c3f32c1d32c2132c1b32c1732bf932bf732bf332bf132bd134e8234e7034cc434cba34cae34ca234cd034c8a34c7c34c7234c9c34c5a34c5034c4434c6034bee)))
  (.nd (.nd (.lf
  0x39e2039e2439e2839e2c39e3039e3439e3839e3c39e4039e4439e4839e4c39e5039e5439e5839e5c39e6039e6439e6839e6c39e7039e7439e783a33e3a3423a3463a34a3a34e3a3523a3563a35a3a35e3a3623a3663a36a3a36e3a3723a3763a37a3a37e3a3823a3863a38a3a38e3a3923a3963a39a3a39e3a3a23a3a63a3aa3a3ae3a8743a8783a87c3a8803a8843a8883a88c3a8903a8943a8983a89c3a8a0)
  (.lf
  0x2badd2badb2bad72bad52bad32bad12bacf2bacb2bac92bac72bac32babf2babd2bac12babb2bab72bab52bab32baaf2baad2baab2baa92baa52baa32ba9f2ba9d2ba992ba972ba952ba932ba8f2ba8d2ba8b2ba892ba852ba832ba812ba7f2ba7b2ba792ba772ba752ba712ba6b2ba672c5782c3942c38a2c37c2c3802c3682c35c2c3502c3522c3382c3982c3222c31a2c30e2c3022c2f42c2ea2c2de2c2d2))
  (.nd (.lf
  0x2def32dff82def12dfee2deef2dfe42de7f2dfda2df352dfd02df0f2dfc62de7d2dfb32df9c2df8d2df6a2df642deed2df5a2deeb2df502dee92df462de7b2df332df1c2df0d2de902de8a2de792de772f0af2f18a2f0192f1822f0b52f17a2f0132f16a2ef532f1622ef672f1582ef3f2f14e2edfd2f1442ed972f13a2ee672f1302ed452f1242ee612f11a2ece92f1142f09f2f10c2f00d2f1042eee92f0f6)
  (.lf 0)))

def shaXorReads349 : BTree :=
  .nd (.nd (.nd (.lf
  0x197431972c195da1958c1cf021b3a91b3911a863197c1197451972e195dc1958e1f3581c8351c8311b8011a6671a5ff1a5ec1a5b81a5221f49c1f3501c7f11c7ed1b8031a66b1a6011a5ee1a5ba1a5241f4921f3461c7bb1c7b71b8051a66f1a6031a5f01a5bc1a5261f4861f3381c7731c76f1b8071a6731a6051a5f21a5be1a5281f47c1f32e1c7371c7331b7631a6771a6071a5f41a5c01a52a1f4741f31e)
  (.lf
  0xaeb30aeaf0aeab0aea90ae9d0ae9b0ae970ae950ae890ae870ae850ae810ae7f0ae7d0ae7b0ae770ae750ae730ae6d0ae6b0ae670bc280bc240bc140bc0a0bbfc0bc000bbea0bc020bbdc0bbce0bbc20bbb80bbb00bba60bbc60bb940bb880bb7e0bb740bb6a0bb6c0bb5c0bb4e0bb420bb340bb300bb380bb360bb160b9ec0b9c20bc290bc270bc250bc210bc1f0bc1d0bc190bc170bc150bc130bc0f0bc0d))
  (.nd (.lf
  0x36eda36ec536ebe36eaf36ea636e9236e8d36e7b36e7236e6136e5836e3336e2c36df436df336ddf382af382a938296382a5382823825a38257381c238179381b83816f381ae3815f381a63815538196381473818e381073817e38101380ea380e7380d2380cf380bc380b7380a6380a13808a38089380833807a3805f3805c37ff837f6537fe637f5937fd837f4d37fd037f3f37fbe37f6b37fb637f2337faa)
  (.lf
  0xbab00ba700ba500b9700b9500b9100b8f00b8100b7f00b7b00b7900b6b00b6900b6500b6300b55103f8103a610344102e81028c1022e101d01017610116100ba1005e100000ff9e0ff420fee20fe820fe240fdc60fd640fd080fca80fc4c0fbf00fb920fb300fad00fa720fa180f9bc0f95a0f8f2103f9103f7103f3103f1103a7103a5103a11039f10345103431033f1033d102e9102e7102e3102e11028d)))
  (.nd (.nd (.lf
  0x10bfc10bda10bb810b9610b7810b5c10b4010b2410b0410eac10e8e10e6c10e2e10e0c10dea10dc810da610d6810d4610d2410d0210ce010c8610c1010bee10bcc10baa10b1810ead10e9510e9110e8f10e7310e6f10e6d10e3510e3110e2f10e1310e0f10e0d10df110ded10deb10dcf10dcb10dc910dad10da910da710d6f10d6b10d6910d4d10d4910d4710d2b10d2710d2510d0910d0510d0310ce710ce3)
  (.lf
  0x109b5109b1109af109ad109ab109a7109a5109a3109a11099d1099b109991099710993109911098f1098d109891098710985109831097f1097d1097b109791097510973109711096f1096b109691096710965109611095f1095d1095b109571095510953109511094d1094b109491094710943109411093f1093d109391093710935109331092f1092d1092b109291092510923109211091f1091b1091910917))
  (.nd (.lf
  0xaac10aabf0b9400b9220b9060b8e20b8bc0b8a00b87e0b85c0b83a0b8180b7fc0b7da0b7b80b7960b77a0b75e0b7420b7240b7060b6e80b6cc0b6a80b6820b6660b6440b6280b6060b5ea0b5ce0b5ac0b5b10b5ad0b5ab0c43c0c41a0c3fe0c3e20c3c60c3aa0c38c0c3680c3440c3260c3080c2e40c2c20c2a60c2840c2620c2400c21e0c1fc0c1da0c1be0c1a20c1860c1640c1480c1260c1040c0e20c0e7)
  (.lf 0)))

def shaXorReads350 : BTree :=
  .nd (.nd (.nd (.lf
  0x2afa42af9a28caf28cab27b2d26ef126e6526c5c2699e2699c2af8828c7928c7527ae726e9d26dff26bd626918269122c5842a8b92a8b5293b9287ad287a5287a2287a0287982c8002c5682a8952a891293a7287d5287cd287ca287c8287c22c7c02c55a2a8752a87129383287832877b2877828776287702c7b82c5522a85b2a85729357287592874f2874c2874a287442c7ae2c5422a7f52a7f1292cb28727)
  (.lf
  0x27fdb27fdd27fd927fd527fbd27fbb27fb727faf27e5b27e5f27e5927e4b27e1d27e1b27e1527e1127be527be327bcd27bc527bc327bc127bbd27bb527bb327bb127ba927ba527ba327ba127b9d27b8f27b6927b6127b2527b1f27aeb293b02939e293782934e292c2292da292f22928a292702924e292322921029220291f0291de291ce291be29198291a4291822915e2914e2917428f6028f0828eea28eba))
  (.nd (.lf
  0x24f1d1e19d1e1981e05e1e00c304763044b2f2eb2f2572f24024f4824f211e19f1e19a1e0541e0243046a3044f2f2592f24224f3e24f251e1a11e19c1e04a1dd823045e304532f25b2f24424f3424f291e1a31e19e1e0401e020304872f25d2f24624f2f1e1a51e1a01dd6231529303e5303c9303b2263052244b224312242c20d023183c3152d303e9303cb303b4264d6263092244f224332242e211b820d04)
  (.lf
  0x1e2cf1e2cb1e2c91e2bb1e2b91e2b51e2b31e2a51e2a31e29f1e29d1e28f1e28d1e2891e2871e2791e2771e2731e2711e2631e2611e25d1e25b1e24d1e24b1e2471e2451e2371e2351e2311e22f1e221121ea121be1217e1213a120f6120ae120641201c11fd411f8c11f4411f0011ebc11e7811e3411df011da811d5e11d1811cd411c8c11c4211bf811bb211b6a11b2211ada11a9211a48119fc119a8121eb)))
  (.nd (.nd (.lf
  0x37ed237eae37e903b1603b1563b14a3b1423b1363b12c3b1223b1183b10c3b1043b0f83b0ee3b0e23b0d63b0c83b0c03b0b63b0aa3b09e3b0943b0883b07c3b0703b0643b0583b0483b0403b0383b02e3b0263bafe3ba463b8d43b6563b5cc3b5883b5483b4903b4503b3d43b3983b28c3b2803b26e3b2663b2a03b2163b17e3bbb93bbb73bbb33baff3bafd3baf93ba473b98f3b98b3b8d53b6a13b69d3b657)
  (.lf
  0x1c7491c6f71c6f51c6f11c6ef1c6bd1c6c11c6bb1c6b71c6691c66d1c6671c6631c6331c6311c62d1c62b1c5d11da6e1da661da5c1da501da481da3c1da341da261da1c1da121da281da001d9f81d9ec1d9e01d9d61d9ee1d9c41d9ba1d9b21d9a61d99c1d9961d9861d98a1d9741d96c1d9601d9561d94a1d94e1da6f1da6d1da691da671da651da631da5f1da5d1da5b1da591da551da531da511da4f1da4b))
  (.nd (.lf
  0x3687c3683e367b4367b33686c36820367cd367c0367f6367f5367d2367d036726366f9366f6366f4366e2366b6366ad366aa36711366c03669c3669a3668636647366403663e3660e36605365fc365f4365d4365a43658536582365c7365b83659a36586365b236588365603655f3653036424363e5363e23646236418363ed363d63644436404363ce363cd363f7363f4363f2363f036392363873636e3636c)
  (.lf 0)))

def shaXorReads351 : BTree :=
  .nd (.nd (.nd (.lf
  0xcf610ca910bfd90b5790b4ed0b4e20b4d6121db105f10ca930c07f0bff10bfe60bf9a1219f12176105e30ca950c0830bff30bfe80bf9c1215b12132105d30ca970c0870bff50bfea0bf9e12117120ee105c30ca990c08b0bff70bfec0bfa0120cf120a6105b10ca9b0c08f0bff90bfee0bfa2120851205e105a10ca9d0c0930bffb0bff00bfa41203d12016105910ca9f0c0970bffd0bff20bfa611ff511fce)
  (.lf
  0x390d6390cc390c0390ba38f9038f7838f6e38f2c38f2238f1a38ec638ebc38eb438eac38e9838de838da838d6638d5a38d2838d0438cec3911838ca038c8e38c7c38c7038c3e390f7390f5390f1390ef390ed390eb390e3390e1390df390dd390d9390d7390d5390d3390cf390cd390cb390c9390c5390c3390c1390bf390bb3909538f9f38f9d38f9938f9138f8138f7f38f7b38f7938f7738f7538f7138f6f))
  (.nd (.lf
  0x1191811c9e1191c11c541192011c0a1192411bc41192811b7c1192c11b341193011aec1193411aa41193811a5a1193c11a0e11940119ba119441194a0d36a0d53a0d36e0d5300d3720d5260d3760d51c0d37a0d5120d37e0d5080d3820d4fe0d3860d4f40d38a0d4ea0d38e0d4e00d3be0d4d60d3c20d4cc0d3c60d4c20d3ca0d4b80d3ce0d4ae0d3d20d4a40d3d60d49a0d3da0d4900d3de0d4860d3e20d47c)
  (.lf 0))) (.nd (.nd (.lf
  0x3599a35a543599e368623684c3670a366c63671c3665c36b4036a1e36a22369723697636b4436a2636a283697a3697e3690836882368643684e3670c366c83671e3665e3662436b4836a2c36a30369983699c3690c3688637b9637b5c37b6c37b3837b3a37b1237c6237c1037c7e37bea37bd037c6437c1237c8237bee37bd437c2c37b9837b9c37b5e37b6e37b3c37b4037b1437adc37c6837c1637c8637bf2)
  (.lf
  0x3a4103a3f03a3b03a3903a3703a3503a3103a2f03a2d03a2b03a2703a2503a2303a2103a1d03a1b03a1903a1703a1303a1103a0f03a0d03a0903a0703a0503a03039ff039fd039fb039f9039f5039f3039f1039ef039eb039e9039e7039e5039e1039df039dd039db039d7039d5039d3039d1039cd039cb039c9039c7039c3039c1039bf050ca0508e0504c0500804fc204f8004f4004efc04eb604e7004e2a))
  (.nd (.lf
  0x362c03158035f603156035be0315403584031520354e03150035160314e034e00314c034a80314a0346e031480343403146033fe03144033c6031420338c03140033560313e0331e0313c032e40313a032aa0313803274031360323c031340320603132031d2031300319a0312e031180445a0444a0442204410043de043cc0439804386043520434004310042fe042d0042be0428c0427a0424a0423804206)
  (.lf 0)))

def shaXorReads352 : BTree :=
  .nd (.nd (.nd (.lf
  0x7f1813c601366d0f2540f15b0ef7b0ef450ef2e07f1a07eda13c12136710f24a0f15f0ef7f0ef300ef0107ed007e9413bc6136750f2400f1630ef830ef320ef0507e8a07e4c13b76136790f2360f1670ef870ef340ef0907e4e07e0e13b281367d0f22c0f16b0ef8b0ef360ef0d07e0407dc613adc136810f2220f16f0ef8f0ef380ef0f07dc807d8813a8c136850f2180f1730ef930ef3a0ef1107d7e07d42)
  (.lf
  0x297dc29723297d22967f297ca2968b297bc29645297b429655297aa2960f2979e29613297982962329788295c92977e297732978b297362972e2970129720297052971a297092971529688296852a4bb2a6242a49d2a61e2a48d2a6102a4ad2a60a2a46f2a6002a4272a5f62a4d52a5ea2a4d92a5e22a4dd2a5d42a4e12a5ce2a4e52a5c42a4e92a5ba2a4ed2a5b02a4f12a5a42a4f52a59c2a4f92a5902a42d))
  (.nd (.lf
  0x48d0048d4048d8054ce054d2054d6054da054de054e2054e6054ea054ee054f2054f6054fa054fe05502055060550a0550e05512055160551a0551e05522055260552a0552e05532055360553a0553e05542055460554a06124061280612c0613006134061380613c0614006144061480614c0615006154061580615c0616006164061680616c0617006174061780617c0618006184061880618c0619006194)
  (.lf
  0x152f0152d0152b015270152501523015210151d0151b015190151701513015110150f02b6002b2802ae402a9e02a5c02a18029d6029920294c02906028c4028840284402804027c40278402740026fa026b40266e02628025e6025a20255c02516024d00248e0244e0240a023c40237e02b6102b5f02b5b02b5902b2902b2702b2302b2102ae502ae302adf02add02a9f02a9d02a9902a9702a5d02a5b02a57)))
  (.nd (.nd (.lf
  0x6d6406d580622806225085bd079a906dfb06d7106d6606d5a061e9061e0085bf079ab06dff06d7306d6806d5c061bb091df085c107a51079c3079b80796c075f9091e1085c307a55079c5079ba0796e075cc075c9091e3085c507a59079c7079bc079700759107588091e5085c707a5d079c9079be079720754a07547091e7085c907a61079cb079c0079740750407501091e9085cb07a65079cd079c207976)
  (.lf
  0x370a5370a33709f3709b36e4736e4b36e4536e4136e0536e0f36e0336dff36de536d1e36d1636d2036d1836cfc36cee36ce236cec36cd236bdc36bce36bc436bba36bb036ba636ba836b9236b8636b8a36b8c36b6c36b6236b3a36afc36b0236a9236a70368f63689e3681e3684436d1f36d1d36d1736d1536d1336d2136d1136d0d36d0b36d1936d0936d0536d0336d0136cfd36cfb36cf936cf736cf336cf1))
  (.nd (.lf
  0x28966289d42896a289be2896e289a82897228992289762897c29a5a29da429a5e29d9029a6229d7a29aa029d6429aa429d4e29aa829d3829aac29d2229ab029d0c29ab429cf629ab829ce029abc29cca29ac029cb429ac429c9e29ac829c8829acc29c7229ad029c5c29ad429c4629ad829c3029adc29c1a29ae029c0429ae429bee29ae829bd829aec29bc229af029bac29af429b9629af829b8029afc29b6a)
  (.lf 0)))

def shaXorReads353 : BTree :=
  .nd (.nd (.nd (.lf
  0x231b12319c2316e230ea2730426fb624d3924d3523d59239fa2321d231b323170230ec272fa26f4024c6124c5923d5b23a03231b52319e23172230ee272f0271b024c9324c8f23d5d2321f231b7231a023174230f0272e6271b224c6324c5b23d0523221231b9231a223176230f2272dc26e7e24c2b24c2723ce523225231bb231a423178230f4272d226e4e24c1324c0f23c4923229231bd231a62317a230f6)
  (.lf
  0x22d5722d5522d5122d4f22d3522d3322d2d22d2b22d0b22d0922d0522d0322cd322cd122ccd22ccb22cc922cc722cc322cbd22cbb22cc122cb922cb522c5b22c5922c5522c5322c1d22c1b22c1722c1522c1322c0722bff22bf922bd522bbd22bbb22bb522ad722ad522ad122acd229ef229e9229e5229e3229b5229b3229af229ad2299523dcc23dc223da223d3c23d3023d2623d2023cfc23cdc23c2c23c26))
  (.nd (.lf
  0x1cb3c1af181aefe2bf102be092ac712ac142abeb22502224791cbd11cb491cb401aede1aec62befa2be0d2ac752ac162abed224f82247d1cb4d1cb441aea61ae8c2bee42be112ac792ac182abef224ee224811cb511cb481ae6c1ae502bece2be152ac7d2ac1a2abf1224e4224851cb531cb4c1ae2e1ae122beb82be192ac812abf32abd6224da224891cb551cb501adf21add62bea22be1d2ac852abf52abda)
  (.lf
  0x1cd331cd2f1cd2b1cd1d1cd1b1cd171cd131cd051cd031ccff1ccfb1cced1cceb1cce71cce31ccd51ccd31cccf1cccb1ccbd1ccbb1ccb71ccb31cca51cca31cc9f1cc971cc891cc871cc831cc771cc691cc671cc631cc551cc471cc451cc411cc331cc251cc231cc1f1cc111cc031cc011cbfd1cbeb1cbe51dcae1dca41dc9a1dc901dc861dc7c1dc721dc681dc5e1dc541dc4a1dc401dc361dc2c1dc221dc18)))
  (.nd (.nd (.lf
  0x301863015c300ee300e2300da300d030c7a30c6e30c5e30c5630c3830c2e30c2230c1230c0a30bfe30bf630bee30be230bd630bc830bbe30bb230ba830b9e30b9430b8a30b8230ab630aae30a5430a4a30a42309fc30630304be312ac3123e31234311ca310f8310983107e30fe430fd830f0e30f0230ef830eb830e1230e0830e0030cc630cbe30cb430caa30ca030b5230ac630aa630a9c30a9430a0630994)
  (.lf
  0x1b2e41b2aa1b2681b23a1b1ec1b1ba1b17c1b1461b0fc1b0c41b08c1b0541b01c1afe41afac1af741af3e1af041aecc1ae921ae561ae181addc1ad9a1ad541ad121acd21ac8a1b3771b3571b3531b3491b3171b3191b3151b3111b2f31b2f11b2e51b2e31b2bd1b2bb1b2b71b2ab1b2851b2831b27f1b2691b2291b23b1b2271b2231b1f51b1f31b1ef1b1ed1b1b71b1bb1b1b51b1b11b1791b17d1b1771b173))
  (.nd (.lf
  0x2853c27e3027e1327e1027c1c27bc427b8b27b8827bfe27bb427b8c27b7f27bf027bd027ba427b7727bde27bd227b9c27b7927b2327b1e27b1a27b1427adf27adc291302912f29748293a8291212911e296c82937a2910529102296b829372290fd290fa296b0293442910d2910a29696292bc291112910e2966629288290e2290e12965e292802909629095296562927a2908c29089296242925a2908a29085)
  (.lf 0)))

def shaXorReads354 : BTree :=
  .nd (.nd (.nd (.lf
  0x367583605c33d8133d7d32f7932413320c5320ae31c9c31c903604c35fc233d0933d0532f6f3243f323e331fce31c9e31c923604435fac33ce333cdf32f573241b323b331e8431c7831c723602435f5c33b9933b9532fe7323e93237131e1431a0c31a063601c35f2633b5d33b5932957323bb3234731dfc318b4318ae3601035ece33b2f33b2b328f7323773234931dfe31878318723600635e9e33b0d33b09)
  (.lf
  0x40f4540f3f40f3d40f3940f2b40f2940f2540f1140e1540e1340e0f40e0d40e0b40e0940e0540dfb40df940df740db540daf406a3406a14069d4064740643406414063740633406314062f4062b406234061b40619406114060d406094060740601405fd405fb405f9405f5405db405d9405d7405d3405d1405c9405e7405c7405c3405c1405bf40543405414053f4054b4053d40539405214051f4051b4050b))
  (.nd (.lf
  0x34afe38f0b34e8d34df834aa839567362873626d36268362423978e3955136b043628b3626f3626a3623639782395413698a3628f362713626c3622a39778395173692636293362733626e362223976c396a33691636297362753627036214397643951d368ac3629b3627736272362063975a39521367b63629f3627936274362003987f397543678c362a33627b36276361f43974c3952736784362a73627d)
  (.lf
  0x305fb305f7305f5305f3305f1305ed305e7305e5305e3305df305dd305d9305d7305d3305d1305cf305cd305c9305c7305c5305c3305bf305bd305b9305b7305b3305af305ad305ab305a7305a3305973051f3051b305173050b3050930505304ff304f1304ef304eb304e9304e5304d5304d1304cf304c5304c3304b9304b5304b3304b1304ad304a9304a7304a5304a13049f3049b3049930495304933048b)))
  (.nd (.nd (.lf
  0x31cbc31b9231b9631b9a31b9e31ba231ba631cc031baa31cc431bae31bb231bb631bba31bbe31bc231bc631bca31bce32d7e32d8232d8632d8a32cf232cf632cfa32d8e32d9232d9632d9a32d9e32da232cfe32d0232d0632d0a32d0e32c3c32c1432bec32bca33eb633eba33ebe33ec233ec633eca33ece33ed233ed633eda33ede33ee233ee633eea33eee33ef233ef633efa33efe33f0233fe633f0634e92)
  (.lf
  0x28fd728fcb28fc928fc528fc328fc128fbd28fbb28fb528fb328fa128f9d28f9b28f9928f9528f4728f4528f4328f3f28f3b28f3928f3728f3328f2f28f2d28f2b28f2728f2328f2128f1f28f1b28f1928f1728f1528f0528f0328eff28efd28ef928ed728ed528ed328ecf28ec528ead28eab28e8b28e8528d3528d3328d2d28d2b28cd128ccf28ccb28cc928cc728cc528c9128c8f28c8b288c0288b6288ac))
  (.nd (.lf
  0x141cd1423e141d114234141d51422a141d914220141dd14216141e11420c141e514202141e9141f8141ed141f314e8d14f7414e5f14f6a14e9714f6014e6914f5614e3b14f4c14e0f14f4214de314f3814db714f2e14d8b14f2414d5f14f1a14d3314f1014d1114f0614cf714efc14e9b14ef214e6d14ee814e3f14ede14e1314ed414de714eca14dbb14ec014d8f14eb614d6314eac14d3714e9f14e7a14e71)
  (.lf 0)))

def shaXorReads355 : BTree :=
  .nd (.nd (.nd (.lf
  0x178d9178c11695b15ce715c6115c4a15c2015ba81948a193721788517881168f315ceb15c6315c4c15c2215baa194801933c17865178611689515cef15c6515c4e15c2415bac194761930417817178031689715cf315c6715c5015c2615bae192ce1929017819178051689915cf715c6915c5215c2815bb019288192521781b178071689b15cfb15c6b15c5415c2a15bb219248192121781d178091689d15c7f)
  (.lf
  0x7049070470704307041070010701106fff06ffb06fc306fc106fbd06fbb06f7b06f8b06f7906f7506f3b06f4b06f3906f3506efd06efb06ef706ef506ebf06ebd06eb906eb706e8306e8106e7d06e7b06e4906e4706e4306e4106e290824a08214081d6081980815008110080d20808a0804c0800407fc407f8407f4407f0407ec607e8007e3807dfa07db207d7407d2e07ce607ca807c6207c1a07bda07b9a))
  (.nd (.lf
  0x1bc1c1bc1b1ceef1ced91cecc1cec11ceb41cea91ce9c1ce911ce841ce791ce6c1ce611ce541ce491ce3c1ce311ce241ce191ce0c1ce011cdf41cde91cddc1cdd11cdc41cdb91cdac1cda11cd941cd891cd7c1cd711cd641cd591cd4c1cd411cd341cd291cd1c1cd111cd041ccf91ccec1cce11ccd41ccc91ccbc1ccb11cca41cc951cc881cc751cc681cc531cc461cc311cc241cc0f1cc021cbe91cbe41cbd9)
  (.lf 0))) (.nd (.nd (.lf
  0x55ca0558e08e9008e5608e1208dd008d9008d4c08d0a08cca08c8a08c4a08c0608bc008b7e08b3e08afe08aba08a7408a32089f2089b2089720892e088ec088a80886208820087dc08796087500870a08e2608d6008c1a08bd408ace08a8808942088bc08876087f0087aa087640871e08ea108e5108e4d08e2708d8b08d8708d6108c4508c4108c1b08bff08bfb08bd508af908af508acf08ab308aaf08a89)
  (.lf
  0xc4360c4180c3fc0c3e00c3c40c3a80c3860c3620c3420c3240c3020c2de0c2c00c2a00c27e0c25c0c23a0c2180c1f60c1d80c1bc0c1a00c1800c1620c1420c1200c0fe0c0e00c0c60c0ac0c4570c4470c4430c4370c4290c4270c4230c4190c40b0c4090c4050c3fd0c3ef0c3ed0c3e90c3e10c3d30c3d10c3cd0c3c50c3b70c3b50c3b10c3a90c3990c3970c3930c3870c3770c3750c3710c3630c3530c351))
  (.nd (.lf
  0x2e3b32e3ac2e3912e3882e36e2e3632e34b2e3442e3282e31f2e30d2e3082e2ec2e2a92e2de2e2b72e2d82e2d52e2c92e2c42e24e2e16d2e22d2f7572fdac2f7412fda42f73f2fd962f73b2fd8e2f73d2fd842f7652fd7a2f7632fd702f7692fd662f75f2fd542f75d2fd4c2f7612fd422f6db2fdb72fd3a2f8ac2f75b2f8a22f7592f8982f74b2f88e2f6a52f8822f5cb2f8782f5ab2f86a2f5952f8622f6ab)
  (.lf 0)))

def shaXorReads356 : BTree :=
  .nd (.nd (.nd (.lf
  0xfe100fa13fa343fa1c017e4017a60109900fe300fa33fa0e3f994017b4017660109d00fe500fa53f9823f96e0177401726010a100fe700fa73f94e3f8320173401708010a500fe900fa93f81c01706010a900feb00fab3f63c00b5240d943f62a00dde00b5040d8c3f60e00dca00b4e40d803f5a200db400b4c40d763f5aa00d9e00b4a40d6c3f5dc00d8800b4840d623f68a00d7200b4640d583f54600d5c)
  (.lf
  0x274ac273cc274a4273d02749c273d42748e273d827486273dc27478273e027472273e42746a273e82745e273ec27456272a42744c272b42743e273f027436273f42742c273f827420273fc27418274002740e2740427408283a8285322839a28528283b22851e2837e28514283822850a2835a28500283ce284f6283d2284ec283d6284e2283da284d8283de284ce283e2284c4283e6284ba283ea284b0283ee))
  (.nd (.lf
  0x15000150401508020b2020b6020ba020be020c2020c6020ca020ce020d2020d6020da020de020e2020e6020ea020ee020f2020f6020fa020fe02102021060210a0210e02112021160211a0211e02122021260212a0212e02cb602cba02cbe02cc202cc602cca02cce02cd202cd602cda02cde02ce202ce602cea02cee02cf202cf602cfa02cfe02d0202d0602d0a02d0e02d1202d1602d1a02d1e02d2202d26)
  (.lf
  0x38ed738ed338e9338e9138e8f38e8b38e8938e8538e8338e7f38e7b38e7938e7738e7338e7138e6938e6738e5b38e5938e5738e5538e5138ddf38db938d9d38d9b38d9538d7138d6f38d6b38d6938d6338d5738d5338d4538d3338d3138d2d38d2538cfd38cfb38cf738cf538cf138cef38ce938ce538ce338ce138cbf38cbb38caf38cab38c9b38c9938c9738c9538c9138c5d38c5938c5f38c5738c5338c51)))
  (.nd (.nd (.lf
  0x76d906aff06ae506ace06a8a069ca0974a096fc082ef0826f076db06b0306ae706ad006a8c069cc0970a096be082f108271076dd06b0706ae906ad206a8e069ce096b409678082f308273076df06b0b06aeb06ad406a90069d00966e09632082f508275076e106b0f06aed06ad606a92069d209628095ec082f708277076e306b1306ad806aaf06a94069d4095e2095a6082f908279076e506b1706ada06ab1)
  (.lf
  0x301933018f3018d301893018b30187301833015f3015d3015930157300f1300ef300ed300e9300e7300e5300e3300df300dd300db300d7300d5300d3300d1300cd300c3300c130c7c30c7230c6030c6a30c3c30c3030c2630c1430c1830c0030c4030c4430be830bda30bd230bc630bb630baa30ba230b9c30b8c30c9a30aca30aba30a5830a4c30a5e309fe30634305983094c30c7d30c7b30c7730c7330c71))
  (.nd (.lf
  0x1649d165481649f1654216483164de1647b164d81647d164a21647f16480164791646d17481178ac1745f178a6174291789a173f117890173b51787c17377178761733d1785817305177f4174af177ee17759177e217261177d817225177ce1775b177b2174851778c17585177821750317778174831776c1748917764175011758c174bb175861701b1753c16fe11753216fa91752816f731751e16f3917516)
  (.lf 0)))

def shaXorReads357 : BTree :=
  .nd (.nd (.nd (.lf
  0x240742401427f1e27a9f25dd52516f2409d2407f240762401627f0c27aff25db525171240a124081240782401827f0227a9d25d272517924112240a5240832401a27efc27a7f25d2925143240a9240852407a2401c27eee27a9b25ca125145240ad240872407c2401e27ee427af925c4925115240af240892407e2402027ed627a9925bb525117240b32408b240802402227ed027a7925b8d25119240b72408d)
  (.lf
  0x15ae115adf15adb15aab15aa915aa715aa315aa115a9f15a9d15a9915a9715a9515a9315a8f15a8d15a8b15acd15a8915a8515a8315a8115a4715a3d15a3b15a3915a3515a0f15a0d15a0b15a0715a0515a0315a01159fd159fb159f9159f7159f3159f1159ef159ed1531b15317152ed15fe415fb815fac15fa815f9815f8e15f8415f2615f2215f1215f0c15efe15ef415eea15ee215ed815ecc15ec415eb8))
  (.nd (.lf
  0x20b90209c51717c16d4b0f51b0f4e80f4bf0d3f50d3ba0d36d0d1900d18c20b7a209c91714016d4f0f51d0f4ea0f4c10d3f90d3710d3680d16e0d16a20b62209cd1710816d530f51f0f4ec0f4c30d3fd0d3750d36c0d14c0d14820b4a209d1170d216d570f5210f4ee0f4c50d4010d3790d3700d12a0d12620b32209d51709816d5b0f5230f4f00f4c70d4050d37d0d3740d1080d10420b1a209d91706016d5f)
  (.lf
  0xe1510e14d0e14b0e13d0e13b0e1370e1350e1270e1250e1210e11f0e1110e10f0e10b0e1090e0fb0e0f90e0f50e0f30e0e50e0e30e0df0e0dd0e0cf0e0cd0e0c90e0c70e0b90e0b70e0b30e0b10e0a30e0a10e09d0e09b0e08d0e08b0e0870e0850e07f159be1598a1595015916158da1589e1586615830157f6157be15782157441570a156d21569a1566215626155ec155b0155761553a15502154cc15492)))
  (.nd (.nd (.lf
  0x1baa61ba9e1ba941ba8a1ba801ba761ba6c1ba621ba581ba4e1ba421c3721c3661c35c1c3521c3461c33c1c3321c3281c31e1c3141c30a1c3001c2f61c2d41c2ca1c2c01c2b81c2a61c2601c2161c1ce1c18a1c1461c0fe1c0b81c0701c02a1bfe81bfa61bf601c4381c42c1c4221c4181c4101c4041c3fc1c3f01c3e81c3aa1c3981c3861c37c1c2ee1c2e61c2de1c2b01c26e1c2561c1d81c1941c1501c108)
  (.lf
  0x1516c15162151581514e151441513a15130151261511c1511215108150fe1522b152291522515223152211521f1521b152191521715215152111520f1520d1520b15207152051520315201151fd151fb151f9151f7151f3151f1151ef151ed151e9151e7151e5151e3151df151dd151db151d9151d5151d3151d1151cf151cb151c9151c7151c5151c1151bf151bd151bb151b7151b5151b3151b1151ad151ab))
  (.nd (.lf
  0x636e0636a063620635f06328063240631c06319062e9062e0062dc062d4062a20629e0629606293062630625a062560624e0621c06218062100620d061dd061d4061d0061c8061b4061af075f4075f1075c2075be075b8075b5075850757c07578075700753e0753a075320752f074f8074f4074ec074e9074b9074b0074ac074a407479074700746c0746407439074300742c07424073f9073f0073ec073e4)
  (.lf 0)))

def shaXorReads358 : BTree :=
  .nd (.nd (.nd (.lf
  0x30eaf30ea83510c34d1d3319f31e3f3121f30fce30dfb30df83510634d213314b31d713118130eee30ddf30ddc350fa34dbd3314131d393134730eaa30de130dca350f034cf33310d31d3b3134b30eac30dbb30d42350e834ced330ef31d053134f30eae30dbd30d22350d834cdd32fcf31ce53122330dfa30db930cf4350d234c2f32fc131c6b3118530dde30c9130c8c3508c34c3b32fad31c473115530de0)
  (.lf
  0x31de931df331de731de331dbd31dbb31db731da731d9d31d9b31d8d31d8b31d8931dab31d8731d8331d8131d7f31d7b31d5d31ced31ceb31ca931ca731ca531ca331c8f31c8d31c8b31c8931c8531c8331c8131c7f31c7b31c7131c6f31c6d31a0f31a05318ab318ad318a9318a5318a3318a13187b31871317fd317fb317f7317c53169f316a73169d3168d31669316673165d316533162132254322583228a))
  (.nd (.lf
  0x37eba37e4736dd936d4536d2e2cee52cddc2756f2756a26954268f637eb437e4b36d4736d302cdd42c613275712756c26948268e037e5437e4f36d4936d322cee12cdcc275732756e2693c268f437e5736d4b36d342c6192757527570268f83849737de137dc537dae2d7c927c7927c5f27c5a27af6386fc3849b37de537dc737db02d9702d7cd27f8027c7d27c6127c5c27aa6386f43849f37de937dc937db2)
  (.lf
  0x267712676d2676b2675d2675b26757267552674726745267412673f267312672f2672b267292671b2671926715267132670526703266ff266fd266ef266ed266e9266e7266d9266d7266d3266d1266c3266c1266bd266bb266ad266ab266a7266a52669726695266912668f266812667f2667b266792666b26669266652666326655266532664f2664d26647264dc264d2264c8264be264b4264aa264a026496)))
  (.nd (.nd (.lf
  0x96fa096bc0967609630095ea095a40955c0951e094d8094920944a0940a093ca0938a0934c0a8dc0a8ae0a8820a8560a82a0a7fe0a7d20a7a60a77a0a7580a73c0a7260a7120a6fe0a6ea0a6d60a6c20a6ae0a69a0a5c60a5b20a5a00a58e0a57c0a56a0a5580a5460a5340a5220a5100a4b20a4340a4060a3d60a3ae0a3880a35c0a3360a30a0a2e40a2b60a28c0a25e0a2340a2080a1e00a1ba0a18e0a168)
  (.lf
  0x2239b223992239522393223912238f2238b223892238722385223812237d2237b223792237522373223712236f2236b22369223672237f22365223612235f2235d223592235722355223532234f2234d2234b223492234522343223412233f2233b223392233722335223312232f2232d2232b223272232522323223212231d2231b223192231722313223112230f2230d22309223072230522303222ff222fb))
  (.nd (.lf
  0x12506126421250a12638125fe1262e1260212624126061261a1260a126121260e1255c12558125341250e1252a1251212520125161251c131f013350131f4133461321c1333c13220133321322413328132281331e1322c133141319a1330a1312c1330013130132f613134132ec13138132e21313c132d813230132ce13234132c413238132ba1323c132b013240132a61319e1329c13140132921314413288)
  (.lf 0)))

def shaXorReads359 : BTree :=
  .nd (.nd (.nd (.lf
  0x17aaa177401b30b1b2d21995d1868717b4917ab717aac177421b2dd1b29e1995f1868917b4d17ab917aae177441b2951b264199611868b17b5117abb17ab0177461b25b1b230199631868d17b5517abd17ab2177481b21f1b202199651868f17b5917abf17ab41774a1b1e71b1c8199671869117add17ac117ab61774c1b1ad1b184199d51869317ae117ac317ab81774e1b16f1b142199691869517ae517ac5)
  (.lf
  0x3dce03dcd63dcca3dcc03dcb83dcac3c6343c62a3c6203c6163c56a3c4ec3c4c43c40c3dd893dd873dd833dd813dd7f3dd7d3dd793dd773dd753dd733dd6f3dd6d3dd6b3dd693dd673dd613dd5f3dd653dd5d3dd593dd573dd553dd513dd4f3dd4d3dd4b3dd473dd453dd433dd413dd3d3dd393dd373dd3b3dd353dd313dd2f3dd2d3dd293dd273dd253dd233dd1f3dd1d3dd1b3dd193dd153dd133dd113dd0f))
  (.nd (.lf
  0x38f6238f5238f0038f1038f0438f0a39566397883955039780395403977a3951639770396a2397623951c3975c395203987e397523974a39526397403952a397363966e3972c3965439722396403971a3962c3971039682397063960e396fa395f8396f039678396e639658396de39674396d63965c396ca39686396be39630396b63968a396aa39612396a0395fc39698395e8395d2395d0395be395b8395a2)
  (.lf 0))) (.nd (.nd (.lf
  0x2766a27660276562764c27642276382762e276242761a2761027606275fc275f228c1428c0028bea28bd428bbe28ba828b9228b7c28b6628b5028b3a28b2428b0e28af828ae228acc28ab628aa028a8a28a7428a5e28a4828a3228a1c28a06289f0289da289c4289ae2899828c0c28bf628be028bca28bb428b9e28b8828b7228b5c28b4628b3028b1a28b0428aee28ad828ac228aac28a9628a8028a6a28a54)
  (.lf
  0x6bfd06bfb06bf706bf506bf306bf106bed06beb06be906be706be306be106bdf06bdd06bd906bd706bd506bd306bcf06bcd06bcb06bc906bc506bc306bc106bbf06bbb06bb906bb706bb506bb106baf06bad06bab06ba706ba506ba306ba106b9d06b9b06b9906b9706b9306b9106b8f06b8d06b8906b8706b8506b8306b7f06b7d06b7b06b7906b7506b7306b710823c08204081c4081800813e080fe080ba))
  (.nd (.lf
  0x2c3e42c2d42c3c22c2c82c3a82c2bc2c2a22c2942c2822c2742c2642c2542c2402c2342c2202c2062c2002c1f22c1da2c1ce2c1aa2c19a2c1762c1682c1382c1282c0d62d7c02daca2d7c42dac22d7c22daba2d7a22daa02d7942da922d7902da482d7922da402d9cc2d9c42d7722d9b82d7702d9ae2d76e2d9922d65c2d63e2d6262d61e2d60a2d6042d5ea2d5ce2d5462d53e2d4a02d5342d4942d5282d492)
  (.lf 0)))

def shaXorReads360 : BTree :=
  .nd (.nd (.nd (.lf
  0xde370de0d0ddf601d3201cf40e2740e01b0de3b0de0f0ddf801cf601cb40e25e0e01f0de3f0de110ddfa01cb601c760e2480e0230de430de130ddfc01c6c01c300e2320e0270de470de150ddfe01c2601be80e21c0e02b0de4b0de170de0001bea01baa0e2060e02f0de4f0de190de0201ba001b640e1f00e0330de530de040ddd501b5a01b1e0e1da0e0370de570de060ddd901b1401ad60e1c40e03b0de5b)
  (.lf
  0x7ea807a2b07e6207a2f07e2007a3307ddc07a3707d9a07a3b07d5607a3f07d1007a4307cce07a4707c8a07a4b07c4407a4f07c0207a5307bc207a5707b8207a5b07b4207a5f07b0207a6307ac207a6707a6d0864308e940864708e5c0864b08e180864f08dd60865308d960865708d520865b08d100865f08cd00866308c900866708c500866b08c0c0866f08bc60867308b840867708b440867b08b040867f))
  (.nd (.lf
  0x3b6603b6803b6a0479c0479e047a0047a2047a4047a6047a8047aa047ac047ae047b0047b2047b4047b6047b8047ba047bc047be047c0047c2047c4047c6047c8047ca047cc047ce047d0047d2047d4047d6047d8047da0540e05410054120541405416054180541a0541c0541e05420054220542405426054280542a0542c0542e05430054320543405436054380543a0543c0543e05440054420544405446)
  (.lf
  0x3ab703ab743ab243ab1a3aade3aaca3aace3aab83aaae3aaa63aa983aa8a3aa7e3aa683aa523aa3a3aa243aa0e3a9aa3a9ec3a9923a9783a96e3a9643a95e3a94c3a99a3a9263a9223a9063a8ea3ab713ab753ab6f3ab6b3ab693ab673ab633ab253ab233ab213ab1d3ab1b3ab193ab173aadf3aadb3aad93aad73aad33aacd3aacb3aacf3aac93aac53aac33aac13aabd3aabb3aab93aab73aaaf3aaad3aaab)))
  (.nd (.nd (.lf
  0xbd230b2b10b2640b23b0b1240b0b810f2610ec00c7dd0c75d0bd250b2b50b2660b23d0b1260b0ba10f1010ecc0c7df0c75f0bd270b2b90b23f0b2280b1280b0bc10ec40c7e10c7610bd290b2bd0b2410b22a0b12a0b0be02ea702263016e1016530164800dec00de902ea902265016e5016550164a00dee00dd800dd502eab02267016e9016570164c00df000dc200dbf02ead02269016ed016590164e00df2)
  (.lf
  0x3457a34564345683431034308342ac3429e34294342883427c343523426c342b434230341ee341803415c3412c33d6233cf833cbc33aee33ada33ae233ac633a4e339fa347d9347d7347d3347713476f3476d347693469b34699346973457734575345733457b345713456d3456b34565345633455f3455d345693455b34557345553455334313343113430f3430d3430934303342b3342b1342ad342ab342a9))
  (.nd (.lf
  0x3bb843bb673baca3bad93ba103b9d33b96e3b95f3b8a23b8933b8103b7fb3cdb73cfbc3cda73cfa03cd9b3cf8e3cdb53cf783cd853cf723cf5f3cf023cdb33cef83cd673cef23cdbb3ceea3cd1f3ceb63cd133ce9c3cdc13ce8a3cd233ce743ccf53ce6e3cce93ce503ccdd3ce4a3ccd33ce2a3ccc33ce243ccf73ce023ccad3cd4a3cca33cd2e3cc813cd263cc853cc8f3cc663cc3c3cbc93cc343cba13cc22)
  (.lf 0)))

def shaXorReads361 : BTree :=
  .nd (.nd (.nd (.lf
  0x2c8322c7f030bf03064b2ec9d2d99b2c8512c83f2c8342c7f230be63062d2ec672d73f2c8362c75b2c7592c75630bd8306112ec5d2d71d2c8552c8382c7392c73030bcc305ff2ec052d70d2c8592c83a2c73b2c73230bc0309f72ebd12d6112c85d2c83c2c73d2c73430bba305e92eb8f2d5a92c8612c83e2c73f2c73630bac305db2eb552d5ab2c8652c7582c7412c6f630ba0307252eb472d5692c8692c743)
  (.lf
  0x1c0021bfd41bf8a1bf441c82f1c7eb1c7e91c7e51c7ad1c7b51c7a71c7a31c7691c76d1c7671c7631c7571c7551c7511c7311c70f1c70d1c7091c6d51c6c91c6c71c6c31c69f1c6471c64b1c6451c6411c5fd1c6111c5fb1c5f71c5bb1c5b91c5b51c5b11c5811c5951c57d1c5791c55f1c55d1c5591c5431c52f1c5231c5171c5131c4e71c4eb1c4e51c4e11c4b51c4c91c4b31c4af1c46b1c4691c4651c463))
  (.nd (.lf
  0x2544b2542b254141ced01cb3317ce917ccb17cc612f6c12f5c268aa265cf2544f2542d254161ceb81cb3717ced17ccd17cc812f5412e7626894265d3254532542f254181cea01cb3b17cf117ccf17cca12f4a12e6c2687e265d725457254312541a1ce881cb3f17cf517cd117ccc12f4012e6226868265db2545b254332541c1ce701cb4317cf917cd317cce12f3612e5026852265df2545f254352541e1ce58)
  (.lf
  0xed130ed0f0ed0d0ed0b0ed090ed050ed030ed010ecff0ecfb0ecf90ecf70ecf50ecf10ecef0eced0eceb0ece70ece50ece30ece10ecdd0ecdb0ecd90ecd70ecd30ecd10eccf0eccd0ecc90ecc70ecc50ecc30ecbf0ecbd0ecbb0ecb90ecb50ecb30ecb10ecaf0ecab0eca90eca70eca50eca10ec9f0ec9d0ec9b0ec970ec950ec930ec910ec8d0ec8b0ec890ec870ec830ec810ec7f0ec7d0ec790ec770ec75)))
  (.nd (.nd (.lf
  0x258c0258882584e25812260ee25eb025e2225d6a25c3625b7425b5025a78259c0258d22585c2581a260ef25eb125ead25ea925e2325e1d25e1925dbd25d6b25d6725c3725c3325c2f25b8525b8125b7525b5125b4b25b4725a8725a7925a75259c1259bd259b9258d7258d3258cf2585d2585925855260ed260bb260ec260b9260b1260b825f3925f3325f3825f3125f2d25f3025f2b25f2325f2a25f2125f1b)
  (.lf
  0x1847a1844218408183d0183981835818318182d8182941824e1820c181cc1818c1814818102180bc1807a1803a17ffa17fb617f7017f2e17eee17eaa17e6417e2217dde17d9c17d5a184e5184cb184c7184b51849918497184931847b1845f1845d184591844318427184251842118409183ed183eb183e7183d1183b3183b1183ad1839918373183711836d1835918333183311832d18319182f3182f1182ed))
  (.nd (.lf
  0x177ec17758176c017299177e4176ba1726317260177da176921722717224177d01775a17688171e9177c81767e17484171ad1778a1767217584171711777e176621750217135177761763417482170fd1776e1762817488170c7177621761e175001708d1775c17616174ba170551760c175441701a17019176041753a16fe016fdf175f0175e91753416fa8175ea175cb1752a16f72175c117520174f816f38)
  (.lf 0)))

def shaXorReads362 : BTree :=
  .nd (.nd (.nd (.lf
  0x3c1be3c1bc3e00b3cdcf3c47f3c1903c0b83c0a53c0a33c0a03d6c93c83f3c3ad3c1923c0ae3c0713c06d3c06a3d6b13c8ad3c42b3c1943c0a83c0513c04f3c04c3d66f3c6cf3c37b3c15a3c02c3bfcb3bfc93bfc63d6613c6553c3113c1c83c0243bfb53bfa93bfa63d5d73c5ff3c2e53c0a43c01a3bfb73bfb33bfb03d5c33c5e93c3b13c06c3c03b3bf893bf863bf843d59d3c5a93c2a53c0503bc373bc31)
  (.lf
  0x3ca0a3c9f83c9e43c9c83c9c23c9ae3c9963c9783c9803c0c63c00c3bff03bfe03bfd23bd663bb683badc3b9d43b9603b8943cbf73cc533cbf53cbf13cbb93cbbb3cbb73cbb33cbb13cbaf3cbab3cb993cb973cb953cb913cb513cb473cb453cb3b3cb333cb313cb2f3caef3cae33cae13cadf3cadb3cab73cab13caaf3caab3ca713ca6f3ca6d3ca693ca333ca313ca2f3ca1f3ca1d3ca1b3ca193ca153ca0f))
  (.nd (.lf
  0x2d7cf2d7c62d5ec2d5ca3a4b43a37539e4939df639dcb32de032cfd2d8312d7ca2d4a22d2cf2d2cc3a4a23a37939e4d39df839dcf32dd232d912d8352d7ce2d4962d2d32d2c43a49c3a37d39e5139dfa39dd132dcc32d952d8392d4842d2d72d2ce2d2ae3a48a3a38139e5539dfc39dd332dc032d992d83d2d47e2d2db2d2d22d2b23a4843a38539e5939dfe39dd532db832d9d2d8412d4ab2d4522d2d62d29a)
  (.lf
  0x2bf6e2bf582bf422bf2c2bf162bf002beea2bed42bebe2bea82be922be7c2be662be502be3a2c0cd2c0cb2c0c72c0c52c0b92c0b72c0b32c0b12c0a32c0a12c09d2c09b2c08d2c08b2c0872c0852c0772c0752c0712c06f2c0612c05f2c05b2c0592c04b2c0492c0452c0432c0352c0332c02f2c02d2c01f2c01d2c0192c0172c0092c0072c0032c0012bff32bff12bfed2bfeb2bfdd2bfdb2bfd72bfd52bfc7)))
  (.nd (.nd (.lf
  0x2d4142d4042d3f42d3e42d3182d1c22d1ba2efd62eef22eec42eeae2edae2eda02ed562ed4a2ed0c2ecda2eca02ec6c2ec362ec0a2ebd62eba02eb7a2eb682eaf62eabe2eaa82ea6a2ea4e2ea142e9e02e9c22e9802e9642e9242e8e82efdc2ef902ef882eea22ee442ee102ee002ed1e2ed162ecf62ecb62ec742ec562ebfa2ebc82eba82eb602eb4c2eb122eae02ea7c2ea6e2ea342ea1c2e9ce2e9ac2e99c)
  (.lf
  0x25acb25ac925ac525ac325ac125abf25abb25ab925ab725ab525ab125a7125a6d25a6b25a672593f2593d2593b259372593525933259312592d2592b2592925927259232591d2591b259192591725913259112590f2590b258c7257cd257cf257cb257c7257c52580b257c3257bf257bd257bb257b7257b5257b1257db257af257ab257a9260aa2609c260ae25ee625ee025ed025f1825ea625e1625d6425d56))
  (.nd (.lf
  0x3451a347f8347f6347a2347963475c346c6347523466e3462c34628345f8345ec345f0345c03454834542345163450e344ee356f8357ea35706357e0356fa357f4357d6357ce356c2357c435680357ba35616357b0355e0357a6355f63579c3559035792355fa357883554035778354c83576e356f435782357663575c356c6357523566e357483561a3573e355f235734355b83572a355943572035562357fc)
  (.lf 0)))

def shaXorReads363 : BTree :=
  .nd (.nd (.nd (.lf
  0x12d3412c24112f5112f1108390c8930c8520c8290c80e0c74e12d2c12c1e11159111551083b0c8970c8540c82b0c8100c75012d2412c1a11147111431083d0c89b0c8560c82d0c8120c75212d1012c4211135111311083f0c89f0c8580c82f0c8140c75412d0812c8a111231111f1066d0c8a30c85a0c8310c8160c75612cd212c4a111111110d1065f0c8a70c85c0c8330c8180c75812c9e12c68110ff110fb)
  (.lf
  0x2a7702a7502a7102a6f02a3902a3702a3302a31029f1029ef029eb029e9029b3029b1029ad029ab0296d0296b02967029650292702925029210291f028df028dd028d9028d70289f0289d02899028970285f0285d02859028570281f0281d0281902817027df027dd027d9027d70279f0279d0279902797027610275f0275b027590271b027190271502713026d5026d3026cf026cd0268f0268d0268902687))
  (.nd (.lf
  0x2be462be3c2be382be362d14c2d6ca2d16c2d6be2d1342d6b42d16e2d6ac2d1382d6a22d11a2d6982d1082d68c2d0fe2d6822d0f42d6762d0e42d66a2d16a2d6542d1642d64e2d1662d6182d1682d5c62d0b02d5b82d0bc2d5b22d09e2d2bc2d08e2d2b62d07e2d2a62d0782d29c2d0642d2902d0802d2862d15e2d26e2d0462d2662d1622d2462d1602d2242d03a2d1fc2d02e2d1f42d0142d1ee2d0022d152)
  (.lf 0))) (.nd (.nd (.lf
  0x3ade43adda3adce3ac8c3ac8200b0200ae400ac600aaa00a8e00a7200a5200a3400a14009f6009da009be0099e009800096000942009260090a008ea008cc008ac0088a00868008460082400806007ea007ca007b20079c0044c00442004380042e004240041a0041000406003fc003f2003e8003de003d4003ca003c0003b6003ac003a2003980038e003840037a00370003660035c00352003480033e00334)
  (.lf
  0xa02f0a02b0a0290a0070a0050a00109fff09fdd09fdb09fd709fd509fbd09fbb09fb709fb509f9b075fa075ca075920754807502074c6074860744607406073c6073860734607306072bc0727607230071ea071ae0716407128070de070a2070580701c06fd206f9606f5606f0c06ece06e9206e58075fb075d1075cd075cb0758f075930758d07589075510754f0754b075490750b075090750507503074c3))
  (.nd (.lf
  0xabfd0abf00abdd0abd00abc10abb40aba50ab980ab850ab780ab630ab560ab410ab340ab1f0ab120aafd0aaf00aadb0aace0aab90aaac0aaa10aa9c0aa9b0b9590b93d0b9300b91f0b9120b8fd0b8f00b8d90b8cc0b8b90b8ac0b8990b88c0b8770b86a0b8550b8480b8330b8260b8150b8080b7f50b7e80b7d30b7c60b7b10b7a40b7930b7860b7770b76a0b75b0b74e0b73f0b7320b7210b7140b7030b6f6)
  (.lf 0)))

def shaXorReads364 : BTree :=
  .nd (.nd (.nd (.lf
  0x3daf73daf33cf853cb653cb583cb523cb4b3cb483f8463f2723dadf3dadb3cf653cb673cb5f3cb3c3cb383cb343f7ea3f26e3da753da593cf173cb1a3cb123caf93caf63caf13f7d03f2783da373da293cf553cb243cae53cab93cab43cab23f7ca3f2543d9c33d9bf3cf273ca9a3ca953ca823ca753ca723f7b03f24a3da073d9f13d0273ca5d3ca503ca393ca363ca343fbb43f7963d9d93d9d53cecd3ca5f)
  (.lf
  0x66760615a066300615e065ee06162065ae061660656e0616a0652a0616e064e806172064a4061760645e0617a064180617e063d20618206390061860634c0618a063060618e062c40619206280061960623e0619a061fa0619e061a406da0075de06da4075a206da80756006dac0751c06db0074d606db40749406db80745406dbc0741406dc0073d406dc40739406dc80735406dcc0731406dd0072d406dd4))
  (.nd (.lf
  0x41540414ba413a2413824137241348410ec013480133e013340132a01320013160130c01302012f8012ee012e4012da012d0012c6012bc012b2012a80129e012940128a01280012760126c01262012580124e012440123a012300122600de400dd000dba00da400d8e00d7800d6200d4c00d3600d2000d0a00cf400cde00cc800cb200c9c00c8600c7000c5a00c4400c2e00c1800c0200bec00bd600bc000baa)
  (.lf
  0x35d6435d5635d4c35d5835d3a35d3235d2635d1c35d1035d0835cf835ce835cde35cce35cc435cb635cae35ca235c9a35c8e35c8235c7635dd635dd135dcf35dcb35dc735dc535dc335dbf35dab35da735dad35da535da135d9f35d9d35d9335d9135d8f35d9535d8d35d8935d8735d8535d8135d7f35d7d35d7935d7535d7335d7135d6f35d6b35d6935d6535d6335d5f35d5d35d5735d5535d5135d4f35d4d)))
  (.nd (.nd (.lf
  0x2c370210b0208d020760203201f72050980505a0387f037ff02c390210f0208f020780203401f74050680501c038810380102c3b02113020910207a0203601f760501204fd6038830380302c3d02117020930207c0203801f7804fcc04f8e038850380502c3f0211b020950207e0203a01f7a04f9c04f4e038870380702c410211f02097020800203c01f7c04f5c04f10038890380902c43021230209902082)
  (.lf
  0x2b8612b85f2b85d2b8592b8552b7972b7952b7912b78f2b7592b7572b7532b74f2b7052b7032b6ff2b6fd2b6bd2b6bb2b6b72b6b52b64b2b6492b63f2b63d2b6172c9e42c9da2c9d02c9c62c9bc2c9b22c9a82c99e2c9942c98a2c9802c9762c96c2c9622c9582c94e2c9442c93a2c9302c9262c91c2c9122c9082c8fe2c8f42c8ea2c8de2c8d42c8ce2c8c02c8b62c9e52c9e32c9df2c9dd2c9db2c9d92c9d5))
  (.nd (.lf
  0x36ae536aee36ab336ab636a9136a6f368fc368f5368a23689836869368483681b367f13673c3673f379ef3b0123aeef3b00a379f53b0003aeed3aff237af53afe83aeeb3afde379a13afd43aee93afcc379673afc43aee73afb6379393afaa3aee53afa0379093af963aee33af8c37afb3af8437a1d3af7c37af93af7437a1b3af6c37a193af6037a173af5837a353af4c379473af4437a153af3637a133af30)
  (.lf 0)))

def shaXorReads365 : BTree :=
  .nd (.nd (.nd (.lf
  0x1d3771d3731c29f1b7851b7761b64d1b63c1b6181ff421fbee1d2db1d2d71c23f1b7891b7781b6491b63e1b61a1ff661fbb81d2991d2951c20d1b78d1b77a1b64b1b6401b61c1fbae1fb841d28d1d2891c1b51b8091b7911b6f41b6421b61e1fb7a1fb501d23b1d2371c1831b80b1b6f91b6d81b6441b6201fb4c1fb0e1d2151d2111c12f1b8291b80d1b6bc1b6461b6221fb101fad81d1d91d1d51c0f71b82d)
  (.lf
  0xc5df0c5dd0c5d90c5d70c5d30c5d50c5d10c5cd0c5cb0c5c90c5c50c5c30c5c10c5bf0c5bb0c5b90c5b70c5e90c5b50c5b10c5af0c5ad0c5a90c5a70c5a50c5a30c59f0c59d0c59b0c5990c5950c5910c58f0c58d0c58b0c5870c5850c5830c57f0c57d0c57b0c5930c5790c5750c5730c5710c56f0c56b0c5690c5670c5630c5610c55f0c55d0c5590c5570c5550c5530c54f0c54b0c5490c5470c5430c541))
  (.nd (.lf
  0x3adc53aeda3adc13aed03adaf3aec63ada33aeb83ad973aeb03ad8b3aea63ad833ae9c3ad6d3ae923ad6b3ae883ad573ae7e3ad713ae743ad453ae6a3ad373ae5e3ad253ae543ad1f3ae4a3ad2b3ae403ad0f3ae363acf53ae303acf93ae243ace33ae1a3acdb3ae103accb3ae083acbf3adfc3acb13adf23aca93ade83ac9d3ade03ac753add03ac6d3adca3adc93ac883ac5b3ac7f3ac7a3ac4341e9941e9e)
  (.lf
  0xd31d0d3190d3170d2fd0d2fb0d2f70d2f50d2db0d2d90d2d50d2d30d2b90d2b70d2b30d2b10d2970d2950d2910d28f0d2750d2730d26f0d26d0d2530d2510d24d0d24b0d2310d22f0d22b0d2290d20f0d20d0d2090d2070d1ed0d1eb0d1e70d1e50d1cb0d1c90d1c50d1c30d1a90d1a70d1a30d1a10d1870d1850d1810d17f0d1650d1630d15f0d15d0d1430d1410d13d0d13b0d1210d11f0d11b0d1190d0ff)))
  (.nd (.nd (.lf
  0x12a0912a0512a0312977129731297112955129511294f129331292f1292d12c0312bff12c0212be612bc512bc112bc412ba912ba512ba812b8c12b6b12b6712b6a12b4f12b4b12b4e12b3312b2f12b3212b1712b1312b1612afb12af712afa12adf12adb12ade12ac212aa012a7f12a7b12a7e12a6312a5f12a6212a4612a2512a2112a2412a08129e7129e3129e6129cb129c7129ca129af129ab129ae12993)
  (.lf
  0x11a7b11a7711a6f11a3111a2f11a2b11a23119e1119df119db119cf1198711985119811197d11959114e6114dc114d2114c8114be114b4114aa114a0114961148c11482114781146e114641145a11450114461143c11432114281141e114141140a11400113f6113ec113e2113d8113ce113c4113ba114e7114e5114e1114df114dd114db114d7114d5114d3114d1114cd114cb114c9114c7114c3114c1114bf))
  (.nd (.lf
  0x1bf371bf331bf271d7de1d79a1d5e41d5da1d5cc1d5c61d5661d55c1d4ca1d4b41d4a21d48e1d47a1d4661d45e1d43e1d3381d30c1d2f01d2b41d2641d2501d24a1d1f01d1961d0781d0681d0621d0541d0421cef61cefd1cef71f3561f34c1f3421f33c1f32a1f3221f3121f3081f2fe1f2f41f2ec1f2dc1f2d41f2c41f2ba1f2b41f2a21f2981f2901f2801f27a1f2681f25e1f2501f2461f23e1f2301f222)
  (.lf 0)))

def shaXorReads366 : BTree :=
  .nd (.nd (.nd (.lf
  0x292e9291a3291a02919a2d55e2d5522b4ab2b4a72a6c12930129298291af291ac291a62d5482d5042b49b2b4972a6b12929d2929a2918d2918a291842d4fc2d4e62b4632b45f2a697292a1292602916929166291602d4d82d4d02b3bd2b3b92a67b293bb292632923e29156291502d4be2d4202b3a12b39d2a685293bd292432921c2917c291762d41a2d37c2b3732b36f2a669293c7293892922a28f6828f62)
  (.lf
  0x2a24c2a2242a2102a1e82a1c82a1ac29fa029f1029efc29e7a29e7e29e3a2a4b52a4b32a4af2a4a12a4972a4952a4912a4872a4852a4832a47f2a4772a4752a4732a4692a4592a4252a4232a41f2a4172a3f92a3f72a3ef2a3eb2a3d52a3d32a3cf2a3c72a3b32a3b12a3a92a3a32a3912a38f2a38b2a3832a3752a3732a36f2a35f2a3492a3472a3432a33b2a3272a3252a3212a3192a2fb2a2ff2a2f92a2f5))
  (.nd (.lf
  0x1e4d032c4a3271131591315633154c276c0275631e6a11e6751e6701e5ce1e4ce32c003271531595315653154e276b6275931e6a51e6771e6721e5c41e4f432bfa32719315993156731550276ac275971e6a91e6791e6741e5ba1e4f232bb63271d3159d3156931552276a22759b1e6ad1e67b1e6761e5b01e4bc32bb032721315a13156b31554276982759f1e6b11e6781e6291e5a61e4fa32b7e32725315a5)
  (.lf
  0x2271822702226ec226d6226c0226aa2269422935229332292f2292d229212291f2291b229192290b229092290522903228f5228f3228ef228ed228df228dd228d9228d7228c7228c5228c1228bf228af228ad228a9228a72289722895228912288f2287f2287d22879228772286722865228612285f2284f2284d22849228472283922837228332283122823228212281d2281b2280b228092280522803227f5)))
  (.nd (.nd (.lf
  0x3c4963c48e3c9643c9363c92a3c9443c8ba3c89c3c8803c86a3c8543c84a3c64a3c5f23c59c3c5823c4de3c4a03c3ec3c9613c9653c9573c9513c9413c9393c9373c9353c92d3c92b3c9453c9293c9233c8c33c8bf3c8bb3c8a53c89d3c8993c8893c8853c8813c8753c86b3c8693c8613c85d3c8553c8533c84f3c84b3c6bf3c65f3c64b3c6073c5f33c5f13c5d33c59d3c59b3c5833c5813c57b3c4f33c4df)
  (.lf
  0x1dac11dabf1dabd1dab91dab71dab51dab31daaf1daad1daab1daa91daa51daa31daa11da9f1da9b1da991da971da951da911da8f1da8d1da8b1da871da851da831da811da7d1da7b1da791da771da731da711d87d1d87b1d8771d8751d8731d8711d86d1d86b1d8691d8671d8631d8611d85f1d85d1d8591d8571d8551d8531d84f1d84d1d84b1d8491d8451d8431d8411d87f1d83f1d83b1d8391d8371d833))
  (.nd (.lf
  0x3d0923ceb43cd123c89f3d0883ceae3cdc03c89b3d0823ce883cd223c88d3d0563ce763ccf43c8833d04c3ce643cce83c87b3d03a3ce5c3ccdc3c86d3ce463cdec3ccd23c86f3ce383cde43ccc23c8573ce1c3cdc63ccf63c8593ce103ccac3c8443c8373cdfc3cca23c82c3c8273cd363cc803c6c63c6c33cd283cc843c6583c64d3cc8e3cc503c60a3c5f53cc3e3cbc83c5da3c5d93cc323cba03c5a13c59e)
  (.lf 0)))

def shaXorReads367 : BTree :=
  .nd (.nd (.nd (.lf
  0xcae70cadc0cad014021127551166f10ad510a4710a3c105f213fdf13fae127571167110ad910a4910a3e105e413f8f13f5e127591167310add10a4b10a40105d413f4113f101275b1167510ae110a4d10a42105c413ef113ec01275d1167710ae510a4f10a44105b213e9f13e6e1275f1167910ae910a5110a46105a213e5113e20127611167b10aed10a5310a481059213e0113dd0127631167d10a7110a55)
  (.lf
  0x3d4d93d4d73d4d33d4cb3d4c93d4c73d4c33d4b93d4b13d4af3d3f93d3f73d3f33d3f13d3ed3d3e93d3e73d3e53d3e13d3dd3d3db3d3d93d3d53d3d13d3cf3d3cd3d3c93d3c73d3c33d3c13d3bd3d3bb3d3b73d3b53d3b13d3af3d3ab3d3a93d3a53d3a33d39f3d39d3d3993d3973d3933d3913d38d3d38b3d3873d3853d3813d37d3d37b3d3793d3753d36f3d36d3d36b3d3673d3593d3573d3553d3513d2d9))
  (.nd (.lf
  0x18cda18dae18cde18d7218ce218d3818ce618cec19bd21a3d819bd61a3a619bda1a36a19bde1a32c19be21a2ee19be61a2b019bea1a27219bee1a23419bf21a1fa19bf61a1be19c261a18419c2a1a14819c2e1a10c19c321a0d419c361a09c19c3a1a06219c3e1a02819c4219fec19c4619fae19c4a19f7219c4e19f3419c5219ef619c5619eba19c5a19e7e19c5e19e4019c6219dfe19c6619dba19c6a19d78)
  (.lf 0))) (.nd (.nd (.lf
  0xd6d00d6c60d6bc0d6b20d6a80d69e0d6940d68a0d6800d6760d66c0d6620d6580d64e0d6440d63a0d6300d6260d61c0d6120d608121ca1218c1214812104120bc120721202a11fe211f9a11f5211f0e11eca11e8611e4211dfe11db611d6c11d2611ce211c9a11c5011c0611bc011b7811b3011ae811aa011a5611a0a119b60d5400d5360d52c0d5220d5180d50e0d5040d4fa0d4f00d4e60d4dc0d4d20d4c8)
  (.lf
  0x50970503b050370501104ff504ff104fcb04f2f04f2b04f0504ee904ee504ebf04ea304e9f04e7904e5d04e5904e3304e1704e1304ded04d1104d0d04ce704c0b04c0704be104b0504b0104adb04abf04abb04a9504a7904a7504a4f04a3304a2f04a09049ed049e9049c30475a04750047460473c04732047280471e047140470a04700046f6046ec046e2046d8046ce046c4046ba046b0046a60469c04692))
  (.nd (.lf
  0x96de096ac0969a0966609654096200960e095da095c8095940958209552095400950e094fc094c8094b60948209470094400942e09400093ee093c0093ae093800936e0933c093220a4720a4620a4500a43e0a4240a4120a3f60a3e40a3cc0a3ba0a3a40a3920a3780a3660a3520a3400a3260a3140a3000a2ee0a2d40a2c20a2aa0a2980a27c0a26a0a2520a2400a2240a2120a1fe0a1ec0a1d60a1c40a1ae)
  (.lf 0)))

def shaXorReads368 : BTree :=
  .nd (.nd (.nd (.lf
  0xf6b70ea480e9db0e7fb0e79a0e77104af404ab80f7180f6bb0ea3e0e9df0e7ff0e79c0e77304aae04a720f70e0f6bf0ea340e9e30e8030e7750e75804a6804a2c0f7040f6c30ea2a0e9e70e8070e7770e75c04a22049e60f6fa0f6c70ea200e9eb0e80b0e7790e760049dc0499e0f6f00f6cb0ea160e9ef0e80f0e77b0e764049a00495e0f6e60f6cf0ea0c0e9f30e77d0e766049600491e0f6dc0f6d30ea02)
  (.lf
  0x17b5d18a9318c3818a9718c2e18a9b18c2418a9f18c1a18aa318c1018aa718c0618aab18bfc18aaf18bf218ab318be818ab718bde18abb18bd418abf18bca18ac318bc018ac718bb618acb18bac18acf18ba218ad318b9818ad718b8e18adb18b8418adf18b7a18ae318b7018ae718b6618aeb18b5c18aef18b5218af318b4818af718b3e18afb18b3418aff18b2a18b0318b2018b0718b1618b0b18b1119a23))
  (.nd (.lf
  0x22a0822a0a2299824056240582405a2405c23ff423ff62410a23ff823ffa23ffc23ffe24000240022400424006240082400a2400c23f4823f4a237f0237f2237f4237f6237f8235b0235922356823542235022350423344251f0251f2251f4251f6251f8251fa251fc251982519a2516a2516c251762513e25140251022510425106251082517e2510a2510c2510e25110251122508e250742507624710246d0)
  (.lf
  0x385003810037f0037d0037b003770037500373003710036d0036b003690036700363003610035f0035d003590035700355003530034f0034d0034b003490034500343003410033f0033b003390033700335003310032f0032d0032b00327003250032300b0800aea00acc00ab000a9400a7800a5800a3a00a1a009fc009e0009c4009a40098600966009480092c00910008f0008d2008b2008900086e0084c)))
  (.nd (.nd (.lf
  0x3bb003ba4031ff031f6054490481703c4503bbd03bb203ba6031c4031c10544b0481903c4903bbf03bb403ba803191031880544d0481b03c4d03bc103bb603baa0312b060650544f048c10483304828047dc044690606705451048c5048350482a047de044430443c0606905453048c9048370482c047e004402043ff0606b05455048cd048390482e047e2043bc043b90606d05457048d10483b04830047e4)
  (.lf
  0x35b1f35b1d35b1b35b1735b1535b1335b1135b0d35b0b35b0935b0735b0335b0135aff35afd35af935af735af535af335af135aed35aeb35ae935ae535ae335ae135adf35adb35ad935ad735ad535ad135acf35acd35acb35ac735ac535ac335ac135abd35abb35ab935ab735ab335ab135aaf35aad35aa935aa735aa535b8535aa335a9f35a9d35a9b35a9735a9335a9135a8f35a8b35a8935a8735a8535a83))
  (.nd (.lf
  0xe9a60eabe0e9aa0eab40e9ae0eaaa0e9b20eaa00e9b60ea960e9ba0ea8c0e9be0ea820e9c20ea780e9c60ea6e0e9ca0ea640e9ce0ea5a0e9d20ea500e9d60ea460e9da0ea3c0e9de0ea320e9e20ea280e9e60ea1e0e9ea0ea140e9ee0ea0a0e9f20ea000e9f60e9fc0eb2e0ed0c0eb320ed020eb360ecf80eb740ecee0eb780ece40eb7c0ecda0eb800ecd00eb840ecc60eb880ecbc0eb8c0ecb20eb900eca8)
  (.lf 0)))

def shaXorReads369 : BTree :=
  .nd (.nd (.nd (.lf
  0x1f9f11f7011f6b61f68d1f6781f5ca229e0229b420d6920d651f9c71f7051f6b81f68f1f2141f20e229aa2299420d1320d0b1f9651f7091f6911f67a1f1ce1f1c22298220d1520d0d1f9671f70d1f6931f67c1f1d01f1c4237b2221fb221f7217372065b2063f206362062e2061624042237a22210d22109217392065f206412063820630206182403a2378422099220952173b20661206432063a206322061a)
  (.lf
  0x1f9e51f9e31f9df1f9cf1f99d1f9a11f99b1f9971f9411f9491f93f1f9311f921200162000c200021fff61ffe81ffea1ffd81ffd21ffc21ffb81ffac1ffa01ff961ff921ff861ff701ff621ff561ff4e1ff4c1ff681fbb21fb7c1fb4e1fb121fae41faaa1fa801f9d41f9a41f9342001720015200112000f2000d2000b200072000520003200011fffd1fffb1fff71fff51fff11ffef1ffe91ffeb1ffe71ffe3))
  (.nd (.lf
  0x2896b277cb27739277201ddba1dd4b19c0119bfc17e3817e20289c02896f277cf2773b277241dda41dd4f19c0319bfe17df617ddc289aa289732773d277261dd8e1dd5319c0519c0017db617d9a28994289772773f277281dd761dd5719c0719c0217d7017d582897d277412772a1dd5d19c0919c0417d4029a5b28909288ed288d6207771ac071abed1abe81946829da629a5f2890d288ef288d8209482077b)
  (.lf
  0xefcf0efcb0efc90efc70efc50efc10efbf0efbd1b36e1b33a1b3001b2ca1b2921b2581b21c1b1e41b1aa1b16c1b12e1b0f41b0bc1b0841b04c1b0141afdc1afa41af6c1af361aefc1aec41ae8a1ae4e1ae101add41ad921ad4c1ad0a1acca1ac821b36f1b3611b35d1b33b1b32d1b32b1b3271b3011b2db1b2d91b2d51b2cb1b2a91b2a71b2a31b2931b27d1b27b1b2771b2591b2431b2371b2331b21d1b20f)))
  (.nd (.nd (.lf
  0x2b11c2b1102b1042b0f82b0d82b0cc2b0c02b0b42b0a82b09c2b0902b0842b0782b06c2b0602b0542b0482b03c2b0302b0242b0182b00c2b0042afc62b7be2b7b62b7ac2b7a42b75c2b3062b2fa2b2ee2b2e42b2d82b26a2b24c2b2402b2342b22a2b2202b2162b20a2b2002b1f02b1e62b1dc2b1d22b1c62b1bc2b1b22b1a62b1882afd62af722b7ee2b7e02b7142b6ca2b6822b56e2b55c2b57a2b52a2b416)
  (.lf
  0x18a3118a2f18a2b18a2918a2718a2518a2118a1f18a1d18a1b18a1718a1518a1318a1118a0d18a0b18a0918a0718a0318a01189ff189fd189f9189f7189f5189f3189ef189ed189eb189e9189e5189e3189e1189df189db189d9189d7189d5189d1189cf189cd189cb189c7189c5189c3189c1189bd189bb189b9189b7189b3189b1189af189ad189a9189a7189a5189a31899f1899d1899b189991899518993))
  (.nd (.lf
  0x203f81ff5a1ff1e1fc2d203ec200181ff501fc0b1ff741ff441ff0a1fbef1ff671ff3a1ff361ff321fbbc1fbb01fbaf1fba81fb7e1fb7b1fb721fb6e1fb521fb4d1fb461fb3e1fb161fb111fb081fb061fae81fae31fada1fad21fab01faa91faa21fa9e1fa841fa7f1fa761fa721f9de1f9d21f9d11f9cc1f9a81f9a31f99e1f9961f9461f9361f9331f9301f9221f917217212171c218672170a2170821706)
  (.lf 0)))

def shaXorReads370 : BTree :=
  .nd (.nd (.nd (.lf
  0x331e8331be30e3d30e392fbcd2ef652ef3a2ebc72ebbe2ebb8331983313430db330daf2fbb92ef3d2edf02eb9d2eb9a2eb94331443312030d8b30d872fba52edf32ed922eb7d2eb742eb6e3313a3310230d6f30d6b2fb912ed952ed622eb3f2eb3c2eb3633106330de30d4f30d4b2fb7d2ed652ed382eb072eb042eafe330e832fdc30d1530d112fb692ee562ed3b2ead92ead62ead032fca32a6c30ce930ce5)
  (.lf
  0x3e2973e3353e2953e2913e28f3e28d3e2893e2853e2373e2353e2313e1e13e1d33e1d13e1cd3e1c73e1bd3e1c53e1bb3e1b73e0393e0473e0373e0293defb3def93deeb3dedd3dea53eb1e3eb083eaf03eb403ea2c3e9d63e9b23e9963e9843e9303e9203e9083e8ec3e8e23e8d43e8b63e8a83e94e3e95e3e8823e8723e8563e83e3e8223e7ec3e7f83e21a3e2023e1be3e03c3dee43eb1f3eb1d3eb193eb0b))
  (.nd (.lf
  0x307e9307b9307b43064a3abff3abcb3abb4364a83629130be4307ed307bb307b63062c3ac033abcd3abb6364a23629530bde307f1307b830769306103ac073abb83ab89364943629930bca307f5307ba3076d305fe3ac0b3abba3ab8d3648c3629d30bc2309f6307f930771307683ac0f3abbc3ab9136484362a130bb4307fd307753076c305e83ac133abbe3ab953647a362a530bae308013077930770305da)
  (.lf
  0x2e1b32e1af2e1ad2e1ab2e1a92e1a52e1a32e1a12e19f2e19b2e1972e1952e1932e18f2e18b2e1892e1872e1832e1812e17d2e17b2e1772e1612e15f2e8002e7c42e77a2e73e2e6f82e6b22e66e2e6362e5f02e5b42e5742e5362e4fc2e4ce2e46c2e44a2e4282e4042e3e22e3c02e39e2e37e2e35c2e3382e3142e2b82e2a22e28c2e27c2e26a2e1662e8012e7c52e7c32e7bd2e78f2e78d2e7892e77b2e73b)))
  (.nd (.nd (.lf
  0x4053c4051e404f841e9441e8c41e7641e3c41e1641e0a41dfe41df641dee41dd841db841d5c41d5441d3e41d3441d2c41d2441d1841d0c41c0841bf241bc041bae4197a4197241962418ee418e24151c4124a41ea241e8241e6e41e6441e5a41e4e41e3041e2841de641dd241dc841dac41da241d9441d8c41d8241d7a41d7041d6641c1241bee41bca41ba84198a4196c419344192a419224150c4125041950)
  (.lf
  0x27440274382742a27422274162740c2753727535275312752f2752d2752b275272752527523275212751d27519275172751b27515275112750f2750d2750927507275052750327501274fd274fb274f9274f5274f3274f1274ef274eb274e7274e5274e9274e3274df274dd2753b274db274d7274d5274d3274cf274cd274cb274c9274c5274c3274c1274bf274bb274b5274b3274b7274b1274ad274ab274b9))
  (.nd (.lf
  0x45c704718045cb0470e045cf04704045d3046fa045d7046f0045db046e6045df046dc045e3046d2045e7046c8045eb046be045ef046b4045f3046aa045f7046a0045fb04696045ff0468c046030468204607046780460b0466e0460f04664046130465a04617046500461b046460461f0463c0462304632046270462d05221053c605225053bc05229053b20522d053a8052310539e0523505394052390538a)
  (.lf 0)))

def shaXorReads371 : BTree :=
  .nd (.nd (.nd (.lf
  0x15a5415358140ed1406d12ecf12501124cb123ea12220121fc15320152f2140ef1406f12ed112505124cd123ce12222121fe152ee140f11407112ed312509124cf123d01222412200164aa14e8b14e87140f3132431321113206131fc131da16758164cc14e5d14e59140f5132471321313208131fe131dc1674e164c414e3114e2d140f71324b132151320a13200131de16740164c614e0514e01140f91324f)
  (.lf
  0x501404fce04f9e04f5e04f0804ec204e7c04e3604df004dc004d8004d4004cea04cba04c7a04c3a04be404bb404b7404b3404ade04a9804a5204a0c049c6049960495604916050d5050a10509d0509b0505b0506b05059050550501d0501b050170501504fd704fd504fd104fcf04f8f04f9f04f8d04f8904f4f04f5f04f4d04f4904f1104f0f04f0b04f0904ecb04ec904ec504ec304e8504e8304e7f04e7d))
  (.nd (.lf
  0x3a4ca3a5e63a4be3a5d83a4b23a5cc3a4a63a5a83a49a3a59e3a48e3a5983a4823a58a3a4763a5843a46a3a5783a45e3a44e3a4363a42e3a3fc3a4243a3ee3a4163a4003a40e3a3da3a41a3a3c23a3c43a3b63a3b83ab723ab7e3ab5c3ab543ab263ab4a3ab283ab843ab443ab3c3aaf63ab303aad03ab143aaf83ab0c3aab23ab023aab03aaf03aa9a3aae23aa8c3aa843aa703aaf23aa5e3aa543aa483aa3c)
  (.lf 0))) (.nd (.nd (.lf
  0x1df801db801d7801d3a01cf201cb201c7401c2e01be601ba801b6201b1c01ad401a9601a4e01a0e019ce019900194801908018ca018820184201804017bc0177c0173c050c0050820504004ffc04fb604f7404f3404ef004eaa04e6404e1e04dd804d9604d5604d1604cd204c9004c5004c1004bcc04b8a04b4a04b0a04ac604a8004a3a049f4049ae0496c0492c050960501004fca04f0404ebe04e7804e32)
  (.lf
  0xa9bb0a9b90a9b70a9b50a9b10a9af0a9ad0a9ab0a9a70a9a50a9a30a9a10a99d0a99b0a9990a9970a9930a9910a98f0a98d0a9890a9870a9850a9830a97f0a97d0a97b0a9790a9750a9730a9710a96f0a96b0a9690a9670a9650a9610a95f0a95d0a95b0a9570a9550a9530a9510a94d0a94b0a9490a9470a9430a9410a93f0a93d0a9390a9370a9350a9330a92f0a92d0a92b0a9290a9250a9230a9210a91f))
  (.nd (.lf
  0x1d3ee1d1351d3e21d0011d3da1cff51d3cc1cfe91d3c01cfdd1d3b81cfd11d3b01cfc31d3a61cfb71d39c1cfab1d3901cf9f1d3861cf931d35c1cf871d3521cf7b1d3301cf6f1d3041cf631d2b01cf571d1e41cf4b1d1c61cf3f1d1ba1cf331d1aa1cf271d1941cf1b1d03a1cc9d1d02e1d0031d0281d0051d01a1d0071d0121cfc51d0081cbf91cef51f0531f17e1f0491f1761f04f1f16a1f0351f15e1f023)
  (.lf 0)))

def shaXorReads372 : BTree :=
  .nd (.nd (.nd (.lf
  0x4087b408773f6713e7863e62a3e6293e6263e62541ab441aa840a8b40a873f3933e78f3e7583e6123e6113e5f641a8241a5e408114080d3f3833e7633e7403e5fe3e5fd3e5ea41a8841a4240833408273f3873ec423e7513e5de3e5dd3e5d641a3c416fa408414083d3f3f33ec473e7ad3e7aa3e7a63e7a2416ee416d2407e1407dd3f3473e6f93e6e63e57c3e5753e572416e6416e24075b407573f3333e6f1)
  (.lf
  0x160e2160a2160c4160a6160ac16b3616cda16b3a16cd016b3e16cc616b4216cbc16b4616cb216b4a16ca816b4e16c9e16b5216c9416b5616c8a16b5a16c8016b5e16c7616b6216c6c16b6616c6216b6a16c5816b6e16c4e16b7216c4416b7616c3a16b7a16c3016b7e16c2616b8216c1c16b8616c1216b8a16c0816b8e16bfe16b9216bf416b9616bea16b9a16be016b9e16bd616ba216bcc16ba616bc216baa))
  (.nd (.lf
  0x1f2121f1ca1f1cc20626206282062a2062c2056e205702057220496204982049a2049c2049e204a0204a2204a4204a6204a8204aa204ac2003a2003c1fbca1fb921fb601fb2a1faf61fac21fa941f9ee1f9c41f9601f9622173021732217342165e215182145021452213ea21386213882138a2138c212fe21290212322120c210f82107a2107c2107e2101420fc620f1a20f1c20ee420e8020e8220df620da6)
  (.lf
  0x37f3337f2f37f2d37f2137f1f37f1b37f1737f1537f1337f0f37f0d37f0137eff37efb37ef937ef537ef337eef37ee937ee737ee537ee137ebd37ebb37eb937eb537eb337e9f37e9d37e9937e6537e55382b0382aa382a638258381ca381ce381ac381a03819a3818838182380e8380d0380b8380a23808c380843806237ff437fec37fda37fca37fc037fb037fa637f9237f7437f0437ec437ea637e8a382b1)))
  (.nd (.nd (.lf
  0x51ad04621045950457e0453a0447a073f8073aa05dc505d45051af0462504597045800453c0447c073b80736a05dc705d47051b10462904599045820453e0447e073780732a05dc905d49051b3045ad0459b04584045400448007338072ea05dcb05d4b051b5045b10459d045860454204482072f8072ac05dcd05d4d051b7045b50459f045880454404484072a20726605dcf05d4f051b9045b9045a10458a)
  (.lf
  0x2e68d2e68b2e6752e65f2e65d2e6592e6472e5ff2e6092e5fd2e5f92e5cb2e5c92e5c52e5c12e5812e5852e57f2e57b2e5492e5512e5472e5432e50d2e5112e50b2e5072e4e72e4e92e4e52e4dd2e4852e4832e47f2e47b2e45f2e4632e45d2e4592e4412e43f2e43b2e4372e4152e4192e4132e40f2e3f12e3f32e3ef2e3e92e3d72e3d52e3d12e3cd2e3b72e3b52e3b12e3ad2e3972e3952e3932e3892e375))
  (.nd (.lf
  0x6762067590672206719066e4066db0669e06695066580664f0661006607065d0065c7065900658706552065490650a06501064cc064c3064860647d0644006437063fa063f1063b2063a9063740636b0632e06325062e6062dd062a80629f06260062570622206219061da061d1061b6061b5075f5075bf0758207579075440753b074fe074f5074b6074ad074760746d074360742d073f6073ed073b6073ad)
  (.lf 0)))

def shaXorReads373 : BTree :=
  .nd (.nd (.nd (.lf
  0x200b22004321ef1214db20234201312011320108200b42001b21eab214d12022a20135201152010a200cf200b621dbd214c72022020139201172010c200b81ffaf21d5f214bd202162013d201192010e200ba1ffa321d37214b32020c201412011b20110200bc2004521d0d214a920202201452011d20112200be2002521cbd2149f201f4201492011f20114200c02002721c4d21495201ee2014d2012120116)
  (.lf
  0x119ed11999119951199311961131d8131d4131c6131ba131b01318a130de130d4130d0130c0130b6130ac1308e130421304c13030130241301a1309a12fda12fce12fca12fbc12fb012fa61307612ea212ea012e9212e8412cee131d9131d7131d5131d1131cf131cd131c9131c7131c5131c3131bf131bd131bb131b9131b5131b3131b1131af1318b1318713185131831317f1317d130df130dd130d9130d7))
  (.nd (.lf
  0x4061f4114d40dfc406764062740613410f540db84066c40629406054109b4066240648405e1405dd410d5406544063c405e5405cf4104f4061e405f1405ee405e94148941039406264055640545412f34102540628405504054f412db41011405dc4051540510412a341001405ce40503404f04152b41123405e8401eb402d7402d1402ce402cb402c2402a04028a40285402804027f4027d40439402b2402a2)
  (.lf
  0xdbf20dbd40dbb20db900db6e0db4c0db2a0db080dae60dac40daa20da800da5e0da3c0da1a0d9f80d9d60d9b40d9920d9700d94e0d92c0d90a0d8e80d8c60d8a40d8820d8600d83e0d81c0d7fa0dbf30dbe50dbe10dbd50dbc70dbc50dbc10dbb30dba50dba30db9f0db910db830db810db7d0db6f0db610db5f0db5b0db4d0db3f0db3d0db390db2b0db1d0db1b0db170db090dafb0daf90daf50dae70dad9)))
  (.nd (.nd (.lf
  0x173a81736a17330172f8172c21728c1725417218171dc171a01716417128170f0170ba17080170481700c16fd216f9c16f6616f2c16ef416eba16e8216e4016dfe16dbe1747e173d81739a172481720a171ce1719217156170ae1703c16f5a16ee816e761744f1744b1744e174171741317416173de173a0173631735f173621732b173271732a172f3172ef172f2172bd172b9172bc1728717283172861724e)
  (.lf
  0x13b0313aff13aeb13ab913ab713ab313a9b13a6913a6713a6313a4d13a1b13a1913a15139fd139cb139c9139c5139ab1397913977139731395d1392b139291392513911138df138dd138d9138c513893138911388d1387513843138411383d13823137f1137ef137eb137d5137a3137a11379d1378513753137511374d1373313701136ff136fb136e1136c91402613fe413f9413f4613ef613ea413e5613e06))
  (.nd (.lf
  0x3f9b83f91c3f9163f89e3f84e3f9353f8533f84f4128c412864126040fd640fbe40fb040f9e40f9640f8c40f8040f7a40f7040f6a40f3040f2240dea40de040da8405ae405a64059e405924058c4057c40572405624052c40526404e2404da404e9404df404db41b7e41b5c41af641aee41ae841ad641ace41ac641a9641a7641a7041a6441a5c41a5641a34416d0416c8416ae416a44166e41648416424157c)
  (.lf 0)))

def shaXorReads374 : BTree :=
  .nd (.nd (.nd (.lf
  0x2cbef2cafc2ca1e2ca1830af030a862e9db2e9d72d3e12cc552cbf12caea2ca282ca2230a7030a3e2e98b2e9872d43b2cc052cbf32cad62ca0c2ca0630a26309f22e9bb2e9b72d39d2cc272cc092cabe2c9f02c9ea309ec309c82e92f2e92b2d3072cc0d2cb9f2cac02c1ca2c1c4309823096a2e95b2e9572d1d32cc2f2cb7f2cac22c1942c18e309983075c2e8ff2e8fb2d1d52cba72cb4b2cabc2c1582c152)
  (.lf
  0x2d3f72d3f52d3eb2d3e92d3e72d3e52d39f2d38d2d31b2d3192d3152d2fb2d1ed2d1c52d1c32d1bf2d1bd2d1bb2d1b52d19d2cfed2f08c2effa2eed62ef562ef2e2ede42ed862ed5c2ed2c2ee4a2ecc62eca62ec442ec2e2ebea2ebb62eb922eb6a2eb342eafc2eace2ea9c2ea922ea3a2e9fa2e9d42e9822e9b42e9282e9542e8f82f08d2effb2efd72efc72eef72eef32eeed2eed72eec72ef572eec52eec1))
  (.nd (.lf
  0x35d9e35bcf34a3f34a1d34a062abba2aa0924ee324ec324ebe24824245f435d9235bd334a4334a1f34a082abb02aa0d24ee724ec524ec024816245c635d8835bd734a4734a2134a0a2aba62aa1124eeb24ec724ec22480e2461235d7c35bdb34a4b34a2334a0c2ab9c2aa1524eef24ec924ec424804245dc35d7435bdf34a4f34a2534a0e2ab922aa1924ef324ecb24ec6247ee245bc35d6835be334a5334a27)
  (.lf
  0x24369243652436324355243532434f2434d2433f2433d24339243372432924327243232432124313245aa24596245802456a245542453e2452824512244fc244e6244d0244ba244a42448e24478244622444c24436244202440a243f4243de243c8243b22439c243862436e24358243422432c24316245ab2459d24599245972458924587245832458124573245712456d2456b2455d2455b245572455524547)))
  (.nd (.nd (.lf
  0x4125a40ef040ee440e6a40e6040e5440e4040e3840e3040e2840e1e40dd840dd040dc840dbe4042c40422404184040e40402403f6403ee4035a40332403164030e402e64147a412804129640fc440fba40fae40f9c40f8a40fce40fde40fe440f0240dec40dac40594405864057a4056c405664053240506404e84147b4128b4128741281412974127d4126140fdb40fd740fc540fc340fbf40fbb40fb740fb1)
  (.lf
  0x20f9520f9320f8f20f8d20f7120f7520f6f20f6b20f6920f6720f6320e3d20e3920e3720e3320e0b20e0920eb120e0720e0320e0120dff20dfb20def20ded20deb20de720de520dc320dc120dbd20dbb20db120daf20d8b20d8720d8520d8320d7f20d7b20d4920d4720d4320cc320cc1212dc212d0212c4212b6212ac212d42127621278212662125c2124e21244211ee211e2211d6211ce210ce20fe620fb0))
  (.nd (.lf
  0x2cc802e3402ccc02e2a02cd002e2002cd402e1602cd802e0c02cdc02e0202ce002df802ce402dee02ce802de402cec02dda02cf002dd002cf402dc602cf802dbc02cfc02db202d0002da802d0402d9e02d0802d9402d0c02d8a02d1002d8002d1402d7602d1802d6c02d1c02d6202d2002d5802d2402d4e02d2802d4402d2c02d3a02d3002d360393e03ae20394203ad80394603ace0394a03ac40394e03aba)
  (.lf 0)))

def shaXorReads375 : BTree :=
  .nd (.nd (.nd (.lf
  0x1455e14532174431742615fc714fff145fb1456b14560145341740b173ee15fc915001145ff1456d1456214536173cf173b215fcb15003146031456f1456414538173911737415fcd150051460714571145661453a173571733a15fcf150071460b14573145681453c1731f1730215fd1150091460f145751456a1453e172e7172cc15f491500b14593145771456c14540172b11729615f4b1500d1459714579)
  (.lf
  0x3e0233e0273e0213e01d3def73def53def13dedb3ded93e7753e5613e55f3e55b3e5573e54f3e54d3e5393e52b3e5293e5253e51f3e51b3e5113e4fb3e4f53e4f33e4ef3e4e93e4e53e4e13e4dd3e2ab3e2a13e29f3dca43dca63dc8a3dc803dc783dc6e3dc703dc563dc723dc443dc383dc303dc243dc463dc123dc963dc143dbf63dbec3dbe23dbda3dbd03dbba3dbac3dbae3db243daec3db303da603da46))
  (.nd (.lf
  0x298da299d6298de299cc298e2299c2298e6299b8298ea299ae298ee299a4298f22999a298f629990298fa29986298fe2997c299022997229906299682990a2995e2990e29954299122994a29916299402991a299362991e2992c29922299282a9fc2abcc2aa002abc22aa042abb82aa082abae2aa0c2aba42aa102ab9a2aa142ab902aa182ab862aa1c2ab7c2aa202ab722aa502ab682aa542ab5e2aa582ab54)
  (.lf 0))) (.nd (.nd (.lf
  0x1bd8e1bd781bd621bd4c1bd361bd201bd0a1bcf41bcde1bcc81bcb21bc9c1bc841bc6c1bc541bc3e1bc281ceea1ced41cebc1cea41ce8c1ce741ce5c1ce441ce2c1ce141cdfc1cde41cdcc1cdb41cd9c1cd841cd6c1cd541cd3c1cd241cd0c1ccf41ccdc1ccc41ccac1cc901cc701cc4e1cc2c1cc0a0f4ba0f4b00f4a60f49c0f4920f4880f47e0f4740f46a0f4600f4560f44c0f4420f4380f42e0f4240f41a)
  (.lf
  0x37db037d7037d5037a7037a5037a10379f0376b0376f037690376503739037370373303731036fd03701036fb036f7036c9036cd036c7036c30369703695036910368f0365d0365b036570365503621036250361f0361b035ef035ed035e9035e7035b5035b3035af035ad035790357d03577035730354703545035410353f0350b0350f0350903505034d9034d7034d3034d10349f0349d034990349703465))
  (.nd (.lf
  0x1b30e1b2f21b2e01b2bc1b2a01b2841b2661b2281b2381b1f41b1ea1b1b61b1b81b1781b17a1b13a1b1441b1041b0fa1b0cc1b0c21b09a1b08a1b0621b0521b02a1b01a1aff21afe21afba1afaa1af821af721af4c1af3c1af161af021aedc1aeca1aea41ae901ae6a1ae541ae2c1ae161adf01adda1adae1ad981ad681ad521ad221ad101ace01acd01ac9c1ac881ac6e1ac6a1c81a1c4341c36c1c79c1c428)
  (.lf 0)))

def shaXorReads376 : BTree :=
  .nd (.nd (.nd (.lf
  0x318102860f8590041e00316102280f85d0041400314101ca0f8610040a00312101700f8650040000310101100f869003f60030e100b40f86d003ec0030c100580f871003e20030a0fffa0f875003d8003080ff980f879003ce003060ff3c0f87d003c4003040fedc0f881003ba003020fe7c0f885003b0003000fe1e0f889003a6002fe0fdc00f88d0039c002fc0fd5e0f89100392002fa0fd020f89500388)
  (.lf
  0x3b8803b8783b7f23c4823c8143c3903c8043c4303c7fc3c3703c7f23c3043c7e03c2ec3c7d23c47c3c8c83c7c83c7b43c4283c79e3c3823c7923c30e3c7563c48a3c7483c3ae3c73a3c42c3c7303c37c3c7283c3223c7023c2ea3c6e43c3d63c68c3c2b23c6843c2863c6763c2903c66e3c2083c6683c2343c5bc3c1d23c5343c19e3c52c3c4883c51e3c3983c5183c4323c5023c3803c4643c3203c3b63c2e8))
  (.nd (.lf
  0x204f8204fa204fe213a4213a6217482174a2174e21666215202146021462213ee213a8213aa213ac21752217562175a2166a215242146421466213de213b02175e21760217622166c21526214682146a213e0213b2213b421dac21d522220422116220a02207e21ff221f9221f7221f1621ee421e9421dae222082211a220a42208221ff421f9621f7621f1a21ee02220c2211e220a82208421ff821f9821f78)
  (.lf
  0x397973977f3977b3977939777397713976f3976d3976b39767397653976339775397613975d3975b39881397593975539753397513974d3974b397493974739743397413973f3973d397393973739735397333972f3972d3972b397293972539723397213971f3971b39719397173979939715397113970f3970d39709397073970339701396fd396fb396f9396f7396f3396f1396ef39705396ed396e9396e7)))
  (.nd (.nd (.lf
  0x9c090901b08fdc08fb308f9808ed80ba200b6a60a5970a59309c0b0901f08fde08fb508f9a08eda0ba1a0b6840a5850a58109c0d0902308fe008fb708f9c08edc0ba0c0b99a0a5730a56f09c0f0902708fe208fb908f9e08ede0ba040b9780a5610a55d09c110902b08fe408fbb08fa008ee00b9fc0b9760a54f0a54b09c130902f08fe608fbd08fa208ee20b9d20b9800a53d0a53909c150903308fe808fbf)
  (.lf
  0x31501314fb314f9314f7314f5314f1314ef314ed314eb314e7314e5314e3314fd314e1314dd314db314d9314d5314d3314d1314cf314cb314c7314c5314cd314c3314bf314bd314bb314b9314b5314b3314b1314ab314a9314a7314a5314a13149f3149d315253149b3149731495314ad314933148f3148d3148b314873148531481314833147f3147b31479315233147731473314713146f312f9312f5312f3))
  (.nd (.lf
  0x281d52862c2819f286162811f285fe28197285e0280f5285da280a3285c428097285a62808928596280df2857e2807528574280632856c280072855a27ff72854827fd1280c027fa127e4927e362853d27c2227c1227b8927c0a27b8d27bee27bd127be627bd327b1b27af227add29131293aa2911f29384291032934c290fb293462910b292ba2910f292b4290e329282290972926e2908d292502908b29248)
  (.lf 0)))

def shaXorReads377 : BTree :=
  .nd (.nd (.nd (.lf
  0x28315282d62c3322c1152a363295f7283ca2832328317282d82c3282c1132a33f295f928325283192830e282da2c3182c1112a31d2961b283272831b28310282dc2c30c2c10f2a30b295c3283cd283122828d2828a2c3062c10d2a2dd2964d283d1283142828f282722c2f62c10b2a2bd295a1283d528316282912827a2c2ee2c1092a29f29599283d92831828293282622c2dc2c1072a28d2957d283dd2831a)
  (.lf
  0x182bf182bd182b9182b71827b18279182751827318235182331822f1822d181f3181f1181ed181eb181b3181b1181ad181ab18173181711816d1816b1812f1812d1812918127180e9180e7180e3180e1180a3180a11809d1809b180611805f1805b18059180211801f1801b1801917fe117fdf17fdb17fd917f9d17f9b17f9717f9517f5717f5517f5117f4f17f1517f1317f0f17f0d17ed517ed317ecf17ecd))
  (.nd (.lf
  0x2260d225f61a23619bf3152a1152771527213de213ddf13dca13dae2263d2260f225f81a1fc19bf7152a5152791527413d9013d8d13d7813d5c2264122611225fa1a1c019c27152a91527b1527613d3e13d3b13d2613d0a2264522613225fc1a18619c2b152ad1527d1527813cec13ce913cd413cbc2264922615225fe1a14a19c2f152b11527f1527a13c9e13c9b13c8613c6c2264d22617226001a10e19c33)
  (.lf
  0x172371723317231171fb171f9171f5171f3171bf171bd171b9171b717183171811717d1717b1714717145171411713f1710f1710d1710917107170d9170d7170d3170d11709f1709d17099170971706717065170611705f1702d1702b170271702516ff316ff116fed16feb16fbb16fb916fb516fb316f8516f8316f7f16f7d16f4b16f4916f4516f4316f1316f1116f0d16f0b16ed916ed716ed316ed116ea1)))
  (.nd (.nd (.lf
  0x20f0520f2420f0220eed20ed520eec20e7720e6720e7620e6420de02076e207642075a20750207462073c20732207282071e207142070a20700206f6206ec206e2206da206d0206c6206bc206b0206a82069e206942068a20680205c6205bc205b22052220518220ea220da21e3a21e2c21e2221e1621e0a21e0221df621dea21d7421cb421cac21c9421c5421c1021b9021b8421b2e21a5221a4021a1c21a14)
  (.lf
  0x161411613f1613b1613116123161211611d161111610316101160fd160ef160e1160df160db160d1160c3160c1160bd160b9160b3164631644d16449164471642b1642716425164091640516403163cb163c7163c5163a9163a5163a31636b16367163651634916345163431632716323163211630516301162ff162e3162df162dd162891628516283162671626316261161f1161ed161eb1617b1617716175))
  (.nd (.lf
  0x107641061a105dc103cb1075a105d6103701036f1075010618105bc1030f1074a105b6102b2102b11073c10616105a6102571073410596101f8101f71072610614105861019b1071c10576101401013f107161061210566100e11070c104d210084100831070410610104c810029106fa104be0ffca0ffc9106ea1060e104b40ff69106de104aa0ff0c0ff0b106d61060c104a00fead106d0104960fe4c0fe4b)
  (.lf 0)))

def shaXorReads378 : BTree :=
  .nd (.nd (.nd (.lf
  0x3589f3588c3883a387db37a813642d3598b3591c358a9358a638832387d537a833641f35a4d358e6358813586e388283878537a8536411359f7358d0358b3358b038820387d337a59363ff359fb358bf358bc358ba388123875f377c33638f35a1d3589e3587f358503880c387d1377b33676335a37358a835843358403880238747377cf3605535a51358803582f3582c387f8387cf3778d360393598f358b2)
  (.lf
  0x3596535967359633595f3595d3595b35957359493594735945359413593f3593d35a253593b3593735935359333592f359113590f3590d3590935901358ff358fd358f9358f1358ef358ed358e3358db358d9358d7358d3358c9358c7358c5358c13589d35895358933588f3588735885358a1358833587b3587935877358733587135869358ab358673586335861358b53585f3585b3585935857358533584b))
  (.nd (.lf
  0x2aaa32aa1b2aa1229fc429eb83936a3927538bd938b7a38b512fc5a2fa852aa1f2aa1629f9429dd03935e3927938bdd38b7c38b532fc502fa892aa232aa1a29f5829eb6393443927d38be138b7e38b552fc462fa8d2aa252aa1e29f5229dd23933e3928138be538b5738b3a2fc3a2fa912aa272aa2229f4629eb4393323928538be938b5938b3e2fc302fa952aa292aa2429ede29dd43931a3928938bed38b5b)
  (.lf
  0x27dc127dbd27dbb27db927db727db327db127daf27dad27da927da727da527da327d9f27d9d27d9b27d9927d9527d9327d9127d8f27d8b27d8927d8727d8527d8127d7f27d7d27d7b27d7727d7527d7327d7127d6d27d6b27d6927d6727d6327d6127d5f27d5d27d5927d5727d5527d5327d4f27d4d27d4b27d4927d4527d4327d4127d3f27d3b27d3927d3727d3527d3127d2f27d2d27d2b27d2727d2527d23)))
  (.nd (.nd (.lf
  0x1b48e1b4841b4741b4461b43c1b4321b4281b41e1b4141b4021b3bc1c7ea1c7a61c7661c7541c70c1c6c61c6441c5fa1c5b41c57c1c55c1c5161c4e41c4b21c4681c45c1c3e01c2821c22a1c1ee1c1a01c1621c11e1c0d81c0961c0481c0101bfde1bf961bf521c8121c7ae1c7921c72a1c7041c6981c67a1c60a1c5d81c58e1c5541c51c1c4fc1c4bc1c4861c47c1c3cc1c28a1c2481c1f81c1bc1c16e1c136)
  (.lf
  0x2362b235f5235f1235ed235dd235d9235d5235ab235a7235a323557235532354f23cac23ca223c9623c8823c7e23c7223c6423c5823c0823bfc23bf223be423c0c23bbe23ba623b7423b3623b2423b3c23aea23ade23ac023a6423a5a23a2423a6c23a1023a0c23250232362322c23cad23cab23ca723ca323ca123c9f23c9b23c9723c9523c9323c8f23c8d23c8923c8723c8323c7f23c7d23c7b23c7723c73))
  (.nd (.lf
  0x231de23c6823a5023c5c231e223c50231e623c00231ea23bf6231ee23be8231f223bdc2326823bd6231f623b9c231fa23b9423a4e23b30231fe23b262320223b1c2320623b162320a23ae42320e23abe2321223a682325a23a582321823a522326c23a6a23a1c23a142324c23a0a23a042324e2324023238232222322e232262324823dd823f2423ddc23f1a23dec23f1223df023f0a23db423efe23d7023ef6)
  (.lf 0)))

def shaXorReads379 : BTree :=
  .nd (.nd (.nd (.lf
  0x1b98a1b5bc1e1481e0371d7151c78d1ba2b1b9971b98c1b5961e1421e0351d7171c7271ba2f1b9991b98e1b5981e1361e0331d7191c6ff1ba331b99b1b9901b59a1e12e1e0311d71b1c6931ba371b99d1b9921b59c1e1261e01b1d71d1c6751b9bb1b99f1b9941b59e1e11a1e0151d71f1c6051b9bf1b9a11b9961b54e1e10e1e00f1d59b1c5e11b9c31b9a31b9981b5361e1061e0091d59d1c5891b9c71b9a5)
  (.lf
  0x40b7940b5d40b5b40b5940b2140b1f40b1d40b1b40ad740acd40a9940a9d40a9740a93409d9409d7409d3409cf408f7408f5408f1408ed408cb417c4417bc417b0417a0417964178c4177e41772417664175a4175441740417384172a415e6415dc415f0415ca415f4415b8415a84159e41572415644152e414a4413244130e412aa4111a410b6417c5417c3417bf417bd417bb417b9417b5417b1417af417ad))
  (.nd (.lf
  0x1b0821b0701b04a1b0381b0121b0001afda1afc81afa21af901af6a1af581af341af221aefa1aee81aec21aeb01ae881ae761ae4c1ae3a1ae0e1adfc1add21adc01ad901ad7e1ad4a1ad381ad081acf61acc81acb61ac801ac621beb81bea81bea41be921be8e1be7c1be781be661be621be501be4c1be3a1be361be241be201be0e1be0a1bdf81bdf41bde21bdde1bdcc1bdc81bdb61bdb21bda01bd9c1bd8a)
  (.lf 0))) (.nd (.nd (.lf
  0x34bae34b9a34b8e34b8434b7c34b6434b5a34b5234ae634e7834e5634db034da634d9a34d8834d7c34d7034d6434d5834d4c34d4434d3a34d3034d2634d1434d0a34d0234cfa34cee34ce234c3634c2a34c2234c1434c0a34c0234b7034af034adc3411234108340fe340f4340ea340e0340d6340cc340c2340b8340a83409e340963408c340823407834070340683405e340543404a34040340363402c34022)
  (.lf
  0x887208830087ec087a6087600871a086de08e9f08e9108e8d08e6708e5908e5708e5308e2308e1508e1308e0f08de108dd308dd108dcd08da108d9308d9108d8d08d5d08d4f08d4d08d4908d1b08d0d08d0b08d0708cdb08ccd08ccb08cc708c9b08c8d08c8b08c8708c5b08c4d08c4b08c4708c1708c0908c0708c0308bd108bc308bc108bbd08b8f08b8108b7f08b7b08b4f08b4108b3f08b3b08b0f08b01))
  (.nd (.lf
  0x3fe323fdf63fe2c3fdda3fe223fdce3fe163fdc43fdb43fdb23fda83fd9e3fd863fd703fd7c3fd723fd5a3fd523fd463fd423fd363fd2e3fd1e3fd163fd023fcfc3fcf03fcea3ff763fca83fca63fca03fc583fc563fbe63fbda3fbf03fbde3fb1e3fb0a3fb1c3fb163faee3faec3faa63faa43f9a83f9a63f9123f90e3f8ce3f8cc3f89a3f8923f8483f8423f80c404cc41276404d04126c404bc41262404b8)
  (.lf 0)))

def shaXorReads380 : BTree :=
  .nd (.nd (.nd (.lf
  0x3b9703b8ac371413713d35e57355b73555b353dc34f4e34f483b8ae3b81e371073710335e09355933553b353c834b1634b103b806371273712335c6135561354c1353a234abe34ab83c9623bbdd3bbbf379ed36b3736b2f36b2c36b2836b223d23a3c9663bb953bb9137a0136ae336adb36ad836ad636ace3d1d03c93a3ba7b3ba71379cf36ab136aab36aa836aa636aa03d1c63c92e3ba373ba33379b536a8f)
  (.lf
  0x4142f4142d414294142741425414234141f4141d4141b414194141541413414114140f4140b41407414054140941403413ff413fd413fb413f7413f5413f3413f1413ed413eb413e9413e7413e3413df413dd413e1413db413d7413d5413d3413d1413cd413cb413c9413c7413c3413c1413bf413bd413b9413b7413b5413b1413af413ad413ab413a740edf40edd40edb40e6f40df340697406994069540691))
  (.nd (.lf
  0x395fe395f7395f539830396713960a395e5395e23982839657395f4395d6395cd3982039673395e4395b5395b2398183965b395cc395a4395973980c39685395b43957f3957a39882398063962f3959639569397fa396893957e3956539558397f439611395683954f3954c397e4395fb395643953f3953c397d8395e73954e395153950e397d2395cf3953e3951939502397c4395b73951b3951439506397bc)
  (.lf
  0x32685326813267f3267d3267b326773267532673326713266d32669326673266f32665326613265f3265d326593265732655326533264f3264d3264b326493264532643326413263f3263b326373263532639326333262f3262d3262b326273262532623326213261d326193261732615326113260f3260d3261b3260b326073260532603325ff325fd325fb325f9325f5325f3325f1325ef325eb325e9325e7)))
  (.nd (.nd (.lf
  0x29ade29ae229ae629aea29aee29af229af629afa29afe29b0229b0629b0a29b0e2ac1c2ac202ac242ac282ac2c2ac302ac342ac382ac3c2ac402ac442ac482ac4c2ac502ac542ac582ac5c2ac602ac642ac682ac6c2ac702ac742ac782ac7c2ac802ac842ac882ac8c2bdbe2bdc22bdc62bdca2bdce2bdd22bdd62bdda2bdde2bde22bde62bdea2bdee2bdf22bdf62bdfa2bdfe2be022be062be0a2be0e2be12)
  (.lf
  0x2b12b2b1292b1252b1212b11f2b11d2b1192b1172b1132b1112b10d2b10b2b1072b1052b0ff2b0fd2b0fb2b0f92b0e12b0df2b0db2b0d92b0d52b0d32b0cf2b0cd2b0c92b0c52b0c32b0c12b0bd2b0bb2b0b72b0b52b0af2b0ad2b0ab2b0a92b0a52b0a32b09f2b09d2b0972b0952b0932b0912b08d2b08b2b0872b0852b07f2b07d2b07b2b0792b0752b0732b06f2b06d2b0672b0652b0632b0612b05d2b05b))
  (.nd (.lf
  0x24c8724e2e24ca524e2824c8924e1e24c3d24e1424c2324e0a24b2324e0024d2b24df624d2d24de824ceb24dde24ce924dd824d4924dca24c7924dc424ca324dba24c8524db024c3724da424d2524d9a24d2924d9024ce524d8424ce724d7a24d4724d7424c7f24d6a24ca124d5c24c8324d5624c3b24c21261512657826115265722614b26566261532655e262932655225fff2654825fbd2653e25fc726534)
  (.lf 0)))

def shaXorReads381 : BTree :=
  .nd (.nd (.nd (.lf
  0x1a59d1a5391966718908187b1187af187ac187a61c5301c4fe1a59f1a53b196551890f1890a1879b18798187921c4de1c4be1a5a11a53d19641189131890c18787187841877e1c4ac1c4881a5a31a53f1962f18917188bc18773187701876a1c4801c4461a5a51a5411961d1893e188bf1875f1875c187561c4601c3ce1a5a71a5431960b18941188881874b18748187421c3b61c28c1a5a91a545195f91888b)
  (.lf
  0xa7290a7270a7230a7170a7150a7130a70f0a70d0a7010a6ff0a6fb0a6f90a6ed0a6eb0a6e70a6e50a6d90a6d70a6d30a6d10a6c50a6c30a6bf0a6bd0a6b10a6af0a6ab0a6a90a69d0a69b0a6970a6950a5c90a5c70a5c30a5c10a5b50a5b30a5af0a5ad0a5a30a5a10a59d0a59b0a5910a58f0a58b0a5890a57f0a57d0a5790a5770a56d0a56b0a5670a5650a55b0a5590a5550a5530a5490a5470a5430a541))
  (.nd (.lf
  0x2e21f2e4422e20f2e4202e2112e3fe2e25f2e3dc2e25d2e3ba2e25b2e37c2e1df2e3762e1d12e3362e2592e3302e2572e2b02e1bd2e2aa2e1bb2e29a2e1992e27a2e18d2e2682e17f2e1652e1622e1512f74f2f6862f5072f6742f5092f66e2f5272f6622f5352f6562f5332f6482f5312f63e2f52f2f6362f5132f62a2f50d2f61e2f50f2f6102f5112f6062f50b2f5fa2f5032f5ee2f5252f5e82f5052f5e0)
  (.lf
  0x3555035510354f0351f0351d0351903517034e9034e7034e3034e1034b1034af034ab034a90347703475034710346f0343d0343b0343703435034070340503401033ff033cf033cd033c9033c703395033930338f0338d0335f0335d03359033570332703325033210331f032ed032eb032e7032e5032b3032b1032ad032ab0327d0327b032770327503245032430323f0323d0320f0320d0320903207031db)))
  (.nd (.nd (.lf
  0xb6d00b6ac0b6890b6830b6880b66a0b6490b6450b6480b62c0b60b0b6070b60a0b5ef0b5eb0b5ee0b5d20b5b00b4140b40a0b4000b3f60b3ec0b3e20b3d80b3ce0b3c40b3ba0b3b00b3a60b39c0b3920b3880b37e0b3740b36a0b3600b3560b34c0b3420b3380b32e0b3240b31a0b3100b3060b2fc0b2f20c4500c4300c4120c3f60c3da0c3be0c3a20c3800c35c0c33c0c31e0c2fc0c2d80c2ba0c29a0c278)
  (.lf
  0x10ba210b8410b6810b4c10b3010b1010af810ea510ea310e9f10e9d10e8710e8510e8110e7f10e6510e6310e5f10e5d10e4710e4510e4110e3f10e2710e2510e2110e1f10e0510e0310dff10dfd10de310de110ddd10ddb10dc110dbf10dbb10db910d9f10d9d10d9910d9710d8110d7f10d7b10d7910d6110d5f10d5b10d5910d3f10d3d10d3910d3710d1d10d1b10d1710d1510cfb10cf910cf510cf310cd9))
  (.nd (.lf
  0x419fe417a5419f041781419ea41775419da41769419d24175d419ca41757419c241743419b241749419aa4172d419a4415e94199c415df4163c415f341632415ef41624415f74161c415bb41612415ab41608415a1415fe41579415674155a41531414d4414a94133e413384132741331412b4412b1411704116a4111f410c9410c2410d900b0a00af000ace00ab200a9600a7a00a5e00a3c00a20009fe009e2)
  (.lf 0)))

def shaXorReads382 : BTree :=
  .nd (.nd (.nd (.lf
  0x25da925da625da425d9e2a3382a326286212861d26de32614225d4325d4125d3e25d382a3162a2fa286052860126dd1261452610825d1325d1025d0a2a2fc2a2e6285f1285e926d412610b260e025caf25cac25ca62a2d62a2c6285f3285eb26d19260e325ffa25c5f25c5c25c562a2b62a2a8285cd285c926cfd25ffd25fb825c1125c0e25c082a2962a280285ad285a926cbb25fbb25f9e25bff25bfc25bf6)
  (.lf
  0x26e9326e9126e8d26e8326e6326e6126e5526e5126dfd26dfb26df726ded26deb26de926de526ddb26dd926dd726dd326dc926d4726d4526d3926d3326d2126d1f26d1b26d1126d0526d0326cff26cf526cb326cb926cb126cad26c9526c9926c9326c8f26c7f26c7d26c7926c6f26c5326c5926c5126c4d26bd526bd326bcf26bc526b8b26b8926b8526b7b26b6126b6526b5f26b5b26b4526b4926b4326b3f))
  (.nd (.lf
  0x1ecea1ece72f4742f2ad2e1192e0c82e09b208052077d207741ef9e1eecc1ecc81ecc52f46a2f2b12e11d2e0ca2e09f2080920781207781ef961eca61eca31eca02f45e2f2b52e1212e0cc2e0a32080d207852077c1ef8a1ec821ec7f1ec7c2f4522f2b92e1252e0ce2e0a52081120789207801ef7e1ec5e1ec5b1ec582f4482f2bd2e1292e0d02e0a7208152078d207841ef6a1ec3a1ec371ec342f43e2f2c1)
  (.lf
  0x208fd208f9208f7208f5208f3208ef208ed208eb208e9208e5208e3208e1208df208db208d9208d7208d5208d1208cf208cd208cb208c7208c5208c3208c1208bd208bb208b9208b7208b3208b1208af208ad208a9208a7208a5208a32089f2089d2089b208992089520893208912088f2088b208892088720885208812087f2087d2087b208772087520873208712086d2086b208692086720863208612085f)))
  (.nd (.nd (.lf
  0x34990348763486e348643485a34850348463483c3483234822348183481034806347fc3479a347643475834750345fc345f43454c3451235b7e35b7435b6a35b6035b5635b4c35b4235b3835b2e35b2435b1a35b1035b0635afc35af035ae835ade35ad435aca35ac035ab635aac35aa235a9a35a8e35a8435a7a35a7235a6835a5e36b0836992369863692436914368a8367a63678a3676c361de361d2361c6)
  (.lf
  0x1ca551ca531ca4f1ca4d1ca4b1ca491ca451ca431ca411ca3f1ca3b1ca391ca371ca351ca311ca2f1ca2d1ca2b1ca271ca251ca231ca211ca1d1ca1b1ca191ca171ca131ca111ca0f1ca0d1ca091ca071ca051ca031c9ff1c9fd1c9f91d15e1d1541d1481d13e1d1321cffe1cff21cfe61cfda1cfce1cfc01cfb41cfa81cf9c1cf901cf841cf781cf6c1cf601cf541cf481cf3c1cf301cf241cf181cc9a1cc7c))
  (.nd (.lf
  0x323d4322c43223432233323ce3215632074320733237e32140320693206432342321323207632059323243212a3204e3204d3220e32122320433204032106320973207a32078320f8320cb320103200e320f0320cd320b231ff0320a031ff331fe431fde3221131fc031fbc31fb831e9631e9431e7831e7731e4331e2631e1a31dde31e4f31e1e31e0031dca31e3731e1631de231de031db631d6931d5a31d46)
  (.lf 0)))

def shaXorReads383 : BTree :=
  .nd (.nd (.nd (.lf
  0x9ed609eca093600935d0b4970a69309f6f09ee309ed809ecc09335103ff0bf5b0b4990aa7b0a9ed0a9e20a654103ad1036c0bf5d0b49b0aa7f0a9ef0a9e40a6561034b1030c0bf5f0b49d0aa830a9f10a9e60a658102ef102ae0bf610b49f0aa870a9f30a9e80a65a10293102540bf630b4a10aa8b0a9f50a9ea0a65c10235101f40bf650b4a30aa8f0a9f70a9ec0a65e101d7101980bf670b4a50aa930a9f9)
  (.lf
  0x3883b388393883538833388313882f3882b388293882738825388213881f3881d3881b388173881538813388113880d3880b388093884b388073880338801387ff387fb387f9387f7387f5387f1387ef387ed387eb387e7387e5387e3387e1387dd38731385d5385d7385d3385cf385cd385cb385c7385c5385c3385c1385bd385bb385973beba3beb03bea43be983be8e3be823be783bebe3be663be643be52))
  (.nd (.lf
  0x39248394143924c3940a392503940039254393f439258393e23925c393d639260393ce39264393be39268393b43926c39378392703936c392743936039278393543927c393383928039328392843931639288392dc3928c392ca39290392a839294392983988839b883988c39b763989039b6a398ce39b5c398d239b52398d639b4c398da39b40398de39b28398e239b20398e639b16398ea39b0c398ee39afe)
  (.lf 0))) (.nd (.nd (.lf
  0x240fe241022411a2524c2525025254252582525c2526025264252682526c2527025274252782527c2528025284252882528c2528e2529225294252982529c252a0252a4252a8252ac252b0252b4252b8252bc252c0252c42602025e6825de025de225de425de626160261642616826022260262616c26170261742602a2602e26032260362603a25e6a25de825dec25df025df425cd8261782617c261802603e)
  (.lf
  0x439704395043910438f043510434f0434b043490430f0430d0430904307042cf042cd042c9042c70428b042890428504283042490424704243042410420504203041ff041fd041c3041c1041bd041bb0417f0417d04179041770413d0413b0413704135040f9040f7040f3040f1040b3040b1040ad040ab040710406f0406b040690402d0402b040270402503fe703fe503fe103fdf03fa503fa303f9f03f9d))
  (.nd (.lf
  0x3e5b23df793e5ac3df5b3e58c3df2f3e48c3dfa53e4823dfd93e4703df953e46a3df7d3e4623df593e44e3df2d3e4363df373e3dc3e0113e3d03dfdd3e3ca3df553e3ba3df353e3b23df113e3a63dec93e3963de873e3703e0193e16a3de733e1603de2f3e1443de2d3e1343de3f3e12a3dfdb3e11a3e0173e1123df933e1043df7f3e0fe3df573e0e23df333e0153ded03dec33de923de953eb293f08a3eb3d)
  (.lf 0)))

def shaXorReads384 : BTree :=
  .nd (.nd (.nd (.lf
  0xf33f0f3110f2fa0cd3b0cd0f0cd0a098e2098a01ed841ea45157b8152830f3430f3130f2fc0cd3f0cd110cd0c098a2098601ed621ea491577c152870f3470f3150f2fe0cd430cd130cd0e09862098221ed401ea4d1573e1528b0f34b0f3170f3000cd470cd150cd1009818097dc1ed1e1ea51157041528f0f34f0f3190f3020cd4b0cd120ccc3097d2097941ecfc1ea55156cc152930f3530f3040f2d50cd4f)
  (.lf
  0x347c33474634740346ed34736347293470c3468d347033469434691359df35b76359cd35b7035a3535b6435a1335b5c3597b35b5035a4535b48359ef35b3a35a0b35b32359f535b2a35a2b35b203598d35b1635a4f35b0c359f935b02359fd35af835a1f35aea35a3935ae235a5335ad83599135ad03599535ac63599935abc35a3d35ab03592735aa83592b35b8335a9c35a92358eb35a8a35a0135a7c35a05))
  (.nd (.lf
  0x17b5017b5417b5818a9018a9418a9818a9c18aa018aa418aa818aac18ab018ab418ab818abc18ac018ac418ac818acc18ad018ad418ad818adc18ae018ae418ae818aec18af018af418af818afc18b0018b0418b0818b0c19a2019a2419a2819a2c19a3019a3419a3819a3c19a4019a4419a4819a4c19a5019a5419a5819a5c19a6019a6419a6819a6c19a7019a7419a7819a7c19a8019a8419a8819a8c19a90)
  (.lf
  0x3060030560304c03042030380302e030240301a030100300602ffc02ff202fe803115031130310f0310d0310b03109031050310303101030ff030fb030f9030f7030f5030f1030ef030ed030eb030e7030e5030e3030e1030dd030db030d9030d7030d3030d1030cf030cd030c9030c7030c5030c3030bf030bd030bb030b9030b5030b3030b1030af030ab030a9030a7030a5030a10309f0309d0309b03097)))
  (.nd (.nd (.lf
  0x92bb09291092860923a08b3308b2a0a63309ead092bf09293092880923c08aec08ae90a63509eaf092c3092950928a0923e08aa608aa30a63709eb1092c7092970928c0924008a6708a5e0a63909eb3092cb092990928e0924208a2708a1e0a63b09eb5092cf0929b0929009244089e7089de0a63d09eb7092d30929d0929209246089a70899e0a63f09eb9092d7092940925f09248089600895d0a64109ebb)
  (.lf
  0x3af5e3af563af4a3af423af383af2e3af243af183af0e3af043aefa3aef03b01b3b0193b0153b0133b0113b00f3b00b3b0093b0073b0053b0013afff3affd3affb3aff73aff53aff33aff13afed3afeb3afe93afe73afe13afdf3afdd3afe53afdb3afd73afd53afd33afcf3afcd3afcb3afc93afc53afc33afc13afbf3afbb3afb93afb73afb53afb13afab3afa93afa73afa33afa13af9f3af9d3af993af97))
  (.nd (.lf
  0x34a3c34c9434a4034c8834a4434c8034a4834c7434a4c34c6a34a5034c6434a5434c5234a5834c4834a5c34c3e34a6034bf234a6434be434a6834bda34a6c34bce34a7034bc634a7434bb834a7834bb034a7c34baa34a8034b9034a8434b8834a8834b8034a8c34b7834a9034b6034a9434b5634a9834ae834a9c34ae034aa034aa435b8835dc435b8c35dbe35b9035da035bce35d8e35bd235d8635bd635d80)
  (.lf 0)))

def shaXorReads385 : BTree :=
  .nd (.nd (.nd (.lf
  0x2969e2910c26fc126fbd25fb524d4524d3f24d3c24d3a24d34296922911026f5126f4d25f9b24c7d24c6f24c6a24c6424c582968c290e026f1726f1325f7524c9f24c9924c9624c9424c8e296602909426edf26edb25ef724c8124c7124c6c24c6624c5a2962a2908826e8926e8525e3924c3924c3124c2e24c2c24c26295ec2908426e5b26e5725d8324c1f24c1b24c1824c1424c0e295e42906426df326def)
  (.lf
  0x2506f2506d250692506725065250632505f24705246cb246c9246c5246a1246832466d24669246672462724625246212461f2460b26136260fc260d425fee25fac25f9225f6c25eee25e3025d7a25d9c25d3625d0825ca425c5425c0625bf225be025bcc25b0a25a9225a4825a08259d02599a25962258de258a22586c25832257f026137261352613126117260fd260fb260d5260b3260112600f2600926007))
  (.nd (.lf
  0x2cf552cf3e2396e238751dd391dd001dcb11cfa01cdbc2e4c02e10b2cf8f2cf402cf1123964238791dd3d1dd021dcb51cf941cda42e21a2e10f2cf932cf422cf152395a2387d1dd411dcb91dcb01cf881cd8c2e2142e1132cf972cf442cf1923950238811dd451dcbd1dcb41cf7c1cd742e2022e1172cf9b2cf462cf1d23946238851dd491dcc11dcb81cf701cd5c2e1f82e11b2cf9f2cf482cf1f2393c23889)
  (.lf
  0x1ddbf1ddbb1ddb91ddab1dda91dda51dda31dd951dd931dd8f1dd8d1dd7d1dd7b1dd771dd751dd6710410103ce1037410312102b61025a101fc1019e10144100e4100881002c0ffce0ff6c0ff100feb00fe500fdf20fd940fd320fcd60fc760fc1a0fbbe0fb600fafe0fa9e0fa400f9e60f98a0f92810411103d5103d1103cf1037d1037b10377103751031b103191031510313102bf102bd102b9102b710263)))
  (.nd (.nd (.lf
  0x335283351e335143350a33500334f6334ea334603342a33fd033fc433fbc33fb233faa33fa233f9a33f9233f8a33f7e33f7233f6633f5c33f5033f4833f4033f3433f2c33f2433f1a33d4e33d4633ac233ab633aac33aa033a9633a8c33a8033a3a347d63476c3469634570345623455a345523430c342b0342a63429a3428e342843427a342723426834260342203418a3417e3415833d5c33d2c33cf433cb8)
  (.lf
  0x1c42f1c79f1c42d1c4291c4271c4231c41f1c41d1c41b1c7191c4191c4151c4131c4111c40d1c40b1c4071c6871c4051c4011c3ff1c3fd1c3f91c3f71c3f31c5ef1c3f11c3ed1c3eb1c3e91c3e51c3af1c3ad1c5731c3ab1c39d1c39b1c3991c38f1c38d1c38b1c50f1c3871c3831c3811c3931c37d1c3791c3771c4a71c2ef1c2eb1c2e91c3a71c2e71c2e31c2e11c43d1c2df1c2db1c2b31c3b31c2b11c2ad))
  (.nd (.lf
  0x2d1b32d19c2d18c2d18a2cfe12cfd62f08a2f0252eff82efd82efc92efc62ef8a2eef52eeec2eed42ef842ef542eeb32eeb02ef2c2eebf2eea62ee9e2ee1e2edb52edb22edaa2ee022eda72ed842ed822edd32ed5a2ed522ed502ed462ed232ed1a2ed0e2ee482edc12ed122ed082ecf22ecdf2ecc42ecc22eca42ec9e2ec8a2ec892ec612ec582ec522ec382ec322ec2b2ec282ec262ebff2ebf62ebe82ebe6)
  (.lf 0)))

def shaXorReads386 : BTree :=
  .nd (.nd (.nd (.lf
  0x3535b3478b3447d3441033d8233d7c3b2d23b28235ff335fef3526d347f3346bb343d633d0a33d043b2c23b27035fd935fd5352793479134661343a033ce433cde3b2b03b27635f6535f61350c9346c33461d3437633b9a33b943b2f23b23035f1d35f1934fe734669345d13434e33b5e33b583b23e3b22835ed935ed534ffb34625345b53433233b3033b2a3b1ea3b19c35e9135e8d34f99345d93452f3424a)
  (.lf
  0x407a14079f4079b407994079740795407914078f4078d4078b40787407854078340781407754077340771407794076f407673fa3b3fa393fa353fa333fa313fa2f3fa113fa093f9953f9933f9853f9793f96f3f96d3f9593f9553f83340d9c40d9840d8840d7e40d7440d7040d6640d5a40d4e40d4240d383f6683f4da3f4ca3f4ba3f4b23f4a63f4c03f49a3f4bc3f42a3f4203f4223f30a3f3023f0fc40d30))
  (.nd (.lf
  0x3a8203a5f538aae389bd389b7389b2389ae3a81a3a5f938aa6389b4389643891f389093a8103a5dd38a9a389b6389233890b388f83a8043a5d138a9238962389273890d389083a7fc3a5b338a8a389293890f3890a388d83a7ee3a5b738a80389603892d389113890c3a7e83a5bb38a74389c1389133890e388c03a7de3a5bf38a66389c53895e38915389103a7d43a5c338a5e389c93891738912388c43a7c8)
  (.lf
  0x3086930863308613085f3085d3085b308573085530865308533084f3084d3084b30847308453084330841308393083730835308333082f3082d3082b308293082530823308213081f3081b308193081732cc032cb832c9832c8032c8432c6e32c6a32c5a32c5032c2a32c0232bda32bb832b9c32b8032b5c32b3432b0c32ae432abc32a9832a5632a14329d43299832960329023278c32780327763276c32cc1)))
  (.nd (.nd (.lf
  0xf1540f1580f15c0f1600f1640f1680f16c0f1700f1740f1780f17c0f1800f1840f1880f18c0f1900f1940f1980f19c0f1a00f31a0f31e0f3220f3260f32a0f32e0f3320f3360f33a0f33e0f3420f3460f34a0f34e0f3520f3560f35a0f35e0f3620f3660f36a0f36e0f3720f3760f37a0f37e0f3820f3860f38a1ea261ea2a1ea2e1ea321ea361ea3a1ea3e1ea421ea461ea4a1ea4e1ea521ea561ea5a1ea5e)
  (.lf
  0x29f7f29f7d29f7929f7729f7529f7329f6f29f6d29eef29eed29ee929ee729ed529ed329ecf29ecb29e6529e6329e6129e5d29e5b29e5929e5529e5329e0b29e0929e0529e0329e01294c8294be294b4294aa294a0294962948c29482294782946e294642945a29450294462943c29432294282941e294142941029404293f6293f0293e22939a29368293382932e293242931a29310294c9294c7294c3294c1))
  (.nd (.lf
  0x1f6c1205de1f6c5205d01f6c9205ca1f6cd2054e1f6d1205381f6d5202e81f6d9202dc1f6dd202ca1f80b202c01f6e3202b81f6e7202ac1f6eb2029c1f6ef202941f6f32028a1f6f71ff2c1f6fb1ff201f6ff1ff141f7031ff0c1f7071ff021f70b1f8461f70f1f83e1f7131f8301f7171f8261f71b1f81e1f73d1f8161f7211f7581f7251f74e1f7291f7481f72d1f7361f7311f7392067b2076a206792075e)
  (.lf 0)))

def shaXorReads387 : BTree :=
  .nd (.nd (.nd (.lf
  0x178f7178ec178e2178c01b56c1b26e196d1196cd1888517931178f9178ee17886178801b5641b24a196bf196bb18859178711786b1786817866178601b5581b204196ad196a91882d17941178511782a17820178021b5461b1d61969b196971880117855178331782c17822178041b5401b1941968919685187df1794d178351782e17824178061b5141b1581967719673187c31783b17837178301782617808)
  (.lf
  0x86ed086eb086e7086e5086cb09b1809ae409a9e09a6009a18099da09992099540990c098cc0988c0984c0980e097c8097800974009700096c20967c09636095f0095aa0956209524094de094980945009410093d0093900935209b1909aeb09ae709ae509aa709aa509aa109a9f09a6909a6709a6309a6109a2109a1f09a1b09a19099e3099e1099dd099db0999b0999909995099930995d0995b0995709955))
  (.nd (.lf
  0x279ab2799827995279822797f2796c279692795627953279402793d2792a279272791427911278fe278fb278e8278e5278d2278cf278bc278b9278a6278a3278902788d2787a2787727864278612784e2784b2783827835278222781f2780c27809277f6277f3277e0277dd277d728c1928c0828c0528bf228bef28bdc28bd928bc628bc328bb028bad28b9a28b9728b8428b8128b6e28b6b28b5828b5528b42)
  (.lf 0))) (.nd (.nd (.lf
  0x7e4a07e0c07dc407d8607d4007cf807cba07c7407c2c07bec07bac07b6c07b2c07aec07aac0ae400ae240ae080adec0add00adb40ad980ad7c0ad5c0ad3a0ad1c0acfc0acda0acb80ac960ac760ac540ac340ac120abee0abce0abb20ab960ab760ab540ab320ab100aaee0aacc0aaaa0ae520ad700ad4e0ad100acee0accc0acaa0ac680ac260ac020ab8a0ab680ab460ab240ab020aae00aabe0ae530ad77)
  (.lf
  0xf9df0f9dd0f9d90f9c50f97d0f97b0f9770f9630f9150f9130f90f0f8fb0f8d510404103b210350102f4102981023a101dc1018210122100c61006a1000c0ffaa0ff4e0feee0fe8e0fe300fdd20fd700fd140fcb40fc580fbfc0fb9e0fb3c0fadc0fa7e0fa240f9c80f9660f8fe10405103c3103bf103b310365103631035f103511030510303102ff102f5102a7102a5102a1102991024d1024b102471023b))
  (.nd (.lf
  0x3b88d3b8143b7f93c81f3c9583c8133c9163c8093c90a3c7fb3c8ea3c7eb3c8de3c7df3c8d23c8c73c8e13c7c63c7bf3c7a83c7a13c7903c7ab3c7803c77a3c7533c76c3c7593c7663c7553c7373c7263c7203c7153c7073c6f43c6eb3c6ba3c6b23c6973c6f73c6ac3c6a03c6813c6953c6663c6453c5cc3c5c13c5583c55b3c5523c54a3c5393c5273c5143c50b3c4d63c4d13c49c3c4903c4693c3d23c3c9)
  (.lf 0)))

def shaXorReads388 : BTree :=
  .nd (.nd (.nd (.lf
  0x1340660405e000e9d006b000671000820001140656405e400e9f006b200673000780000f405f0405b800ea1006b4006750006e0000d405584054400ea3006b600677000640000b4054e4052200ea5006b8006790005a00009405144050000ea7006ba0067b000500000740502401be00ea9006bc0067d0004600005401ea00eab006be0067f00003402ca0070100681001b1402a6402840070500683002d8)
  (.lf
  0x322be31f50322b832284322ac32288322b4322a2321dc3219c321d4321a0321ca321c6321a4334a0335f2334a2335ea3349e335e2334a4335d833448335ca333f6335c0334b8335ba334bc335b0334c0335a6334c4335983345033590334c833588334cc3357a334d03356e334d433564334543355a3340a335543340e3354c334123354233416335383341a3352a3332833524333483351633358335103330c))
  (.nd (.lf
  0x141e6141ea141ee14cf214cda14e9414e6614e3814e0c14de014db414d8814d5c14d3014d0e14cf414e9814e6a14e3c14e1014de414db814d8c14d6014d3414e9c14e6e14e4014e1414de814dbc14d9014d6414d3814d1215c7e15c8215c8615c8a15c8e15c9215c9615c9a15c9e15ca215ca615caa15cae15cb215cb615cba15cbe15cc215cc615cca15cce15cd215cd615cda15cde15ce215ce615cea15cee)
  (.lf
  0x391113910d3910b39109391073910339101390ff390fd390f9390e9390b9390b7390af390ad390ab390b3390a9390a538fb138faf38fad38fa938fa738fa538fa138f6d38f6b38f8338f6938f6538f5938f5738f5338f1938f1738f1538f1138f0f38f0d39b8e39b8239b7239b7839b6439b6039b4639b3a39b2e39b3239b1839b0a39b0039af239adc39aae39a9a39a9039a7439a5c39a1439a3639a00399f4)))
  (.nd (.nd (.lf
  0x832c0826c0af240ac8a09bbd09b3d08f8d083a508389083720832e0826e0af180ac6a09bbf09b3f08f8f083a90838b0837408330082700af0c0ac4809bc109b4108f91083ad0838d0837608332082720af020ac2809bc309b4308f93083b10838f0837808334082740aef80ac0409bc509b4508f95083b50837a0835108336082760aef00abe209bc709b4708f97083b90837c0835308338082780aee20ae62)
  (.lf
  0x31f1431f0831f4831ef631eea31ec631eca31eb231ea431e6a31a6c319f8319e0319c2319a8319883197c319763193a3191c318ea318e2318883185a317ae3167e3162a31f4531f4331f3f31f3d31f3931f3731f3331f3131f2d31f2b31f2731f2531f2131f1f31f1b31f1931f1531f1331f0f31f0d31f0931f4931f0731f0331f0131eff31efb31ef731ef531ef331eef31eeb31ee931ee731ee331ec731ec5))
  (.nd (.lf
  0x2200221fdf21fa421f9e21f5f21f4121f3021f0121eba21ec321ea621e5721db821d9921d5a21d4121d3221d1b21d0821cf121c8e21c6921c4821c2521bf621bdf21bd421bb921b6c21b4d21b2021afd21ade21abd21aa621a7a21a6721a6d219f8219ef219a42199b2195e21955219122190c218f5218ff216bc216b3215fa215f4215dd215ea215c5215e322f3d230dc22f25230d222f29230c822f31230be)
  (.lf 0)))

def shaXorReads389 : BTree :=
  .nd (.nd (.nd (.lf
  0x27e29272052603b25aa6259752596029ee029dd527bc926ac125e6b25a5c258fd258f229ed829eb327bb926a7f2615525de925a20258b629df029dd727bad26a752615725ded259e82588229e4d29dea27b9326a612615925df1259ac2584829ddc29dd927b65269bb2601325df5259742580629dfb27aef269bd2601525cd9258fc257d62b0f529753283ab273ef27381273762735e2b1582af37297432839d)
  (.lf
  0x174ad16e5516e5316e4d16e1516e1316e0f16e0d16dd516dd316dcf16dcd16da7177141770a1771617718176f0176ea176dc176d2176c817750176981768e176861767a1767017666176321762c17624176141760a17600175f2175cc175c2175e0175d6175b0174f6175b8174c017715177131770f1770d1770b177171770917705177031771917701176fd176fb176f9176f5176f3176f1176ef176eb176e9))
  (.nd (.lf
  0xf5520dc650dc3f0dc3a0db300db2c228a82262b1931218c5f0f5870f56b0f5540dc690dc410dc3c0db0e0db0a228902262f192da18c630f5890f56d0f5560dc6d0dc430dc3e0daec0dae822878226331929e18c670f58b0f56f0f5580dc710dc450dc400daca0dac622860226371925e18c970f58d0f5710f55a0dc750dc470dc420daa80daa4228482263b1921e18c9b0f58f0f5730f55c0dc790dc490dc44)
  (.lf
  0xf9a90f9a50f9970f9490f9470f9430f9350f8ef0e7560e74c0e7420e7380e72e0e7240e71a0e7100e7060e6fc0e6f20e6e80e6de0e6d40e6ca0e6c00e6b60e6ac0e6a20e6980e68e0e6840e67a0e6700e6660e65c0e6520e6480e63e0e6340e62a0e7570e7550e7510e74f0e74d0e74b0e7470e7450e7430e7410e73d0e73b0e7390e7370e7330e7310e72f0e72d0e7290e7270e7250e7230e71f0e71d0e71b)))
  (.nd (.nd (.lf
  0x1d7d21d7961d78c1d7821d7781d76e1d7641d75a1fe7c1fe361fe141fdf41fdd61fdb41fd901fd6c1fd481fd281fd061fce21fcc21fca01fc7c1fc581fc381fc1a1fbfc1fa641fa541fa481fa3c1fa2a1fa201fa161fa0c1fa041f9801f9781e1621e15a1e1501e1461e13c1e1341e12c1e1201e1161e10c1e1041e0fa1e0f01e0e61e0da1e0d01e0c61e0bc1e0b21e0a81e09e1e0941e08a1e0801e0781e06e)
  (.lf
  0x163bd163bb163b7163b51639b1639916395163931637d1637b16377163751635d1635b16357163551633b16339163351633316319163171631316311162f7162f5162f1162ef162d5162d3162cf162cd162b7162b5162b1162af1629b1629916295162931627b162791627516273162591625716253162511623b1623916235162331621f1621d16219162171620316201161fd161fb161e3161e1161dd161db))
  (.nd (.lf
  0xa51c0a4c40a47d09fc40a50a0a4c209fa409fa10a4b80a47b0aff80ae930b2180aff60afb00aea70b1fa0aff40afa60ae9f0b1f40aff20af9c0aebd0b1d60aff00af900aeb50b1d00afee0af840aeb70b1b20afec0af7e0aebb0b1ac0afea0af700aeb90b1980afe80af660aeb10b1860afe60af5e0aea10b1740afe40af540aea30b1620afe20af480aea50b1500afe00af420ae8d0b13e0afde0af360ae8f)
  (.lf 0)))

def shaXorReads390 : BTree :=
  .nd (.nd (.nd (.lf
  0x348953488d3488a348883848a382ad36a11359cf347c1347b7347b4347b038478382b5369f9359bd346eb346e1346de346da3846c3825d3696535a15347273471d3471a3471638460381cd369473597d3468b3467d3467a3460e38456381d1368c935a473488c34701346fb346f83844c381b1368793596d347b63468f3467f345ea3843e381a33685d35953346e0344c5344c1344b2384363819d367ff35955)
  (.lf
  0x33ceb33ce933cdd33cc333b9133b9333b8f33b8b33b6533b6333b5733b5133b4533b4333b3f33b2933b1733b1533b1133b0733a6d33a6b33a6733a5d33a1f33a1d33a1933a0f339eb34880347aa346d43471034608346f0345e4344a2344b83445834482343f4343da343a63435a342e4342c43424e341fe341d4341983413433d7033d1c33ccc33b9e33b6833b2433afa33a7633a0034881347ab3477b34777))
  (.nd (.lf
  0x38d8838bc73852b384d0384a72e7e52e7a429921298992989028d6a28c2438d4238bcb3852f384d2384a92e7a72e76c299252989d2989428d5e28c3c38d2038bcf38533384d4384ab2e7632e724298a12989828d5228c3238d1638bd338537384d6384ad2e71b2e6e6298a52989c28d4c28c5038cc438bd73853b384d8384af2e6dd2e6a2298a7298a028d4028c4838cb638bdb3853f384b1384942e6992e656)
  (.lf
  0x27625276212761f2761d2761b276172761527613276112760d2760b27609276072760327601275ff275fd275f9275f7275f5275f3275ef275ed275eb28c1628c0228bec28bd628bc028baa28b9428b7e28b6828b5228b3c28b2628b1028afa28ae428ace28ab828aa228a8c28a7628a6028a4a28a3428a1e28a08289f2289dc289c6289b02899a2898428c1728c1528c1128c0f28c0328c0128bfd28bfb28bed)))
  (.nd (.nd (.lf
  0x15a3815a0a15a00159f6159ec15fe215fb415faa15fa015f9615f8c15f8215f2415f1a15f1015f0615efc15ef215ee815ede15ed415eca15ec015eb615eac15ea215e6c15e6015e5815e4e15e4415e3a15e3215a5a153241692c16922169181690e16906168e416872168681685e168541684a1683816824167f0167e6167dc167d2167c0165c61658a16580165761656c165621655816546164e6164dc164a8)
  (.lf
  0x233d7233d5233d1233cf233cb233c9233c5233bf233bd233bb233b7233b5233b1233af233ad233a9233a7234a5233a5233a12339f2339d2339923393233912338f2338b233892338723385233812337f23379235792337723373233712336f2336b23369233672351523365233612335f2335d233572335523353234ad233512334d2334b20280202782026e202642025a20250202462023c20230202262021c))
  (.nd (.lf
  0x1b8481b7bc1c8381c9401c7f21c9381c8401c92e1c7fc1c9221c7cc1c9141c77c1c90e1c74e1c9061c84a1c8f81c6ae1c8f21c65a1c8e61c6201c8da1c5ca1c8d41c5a61c8ca1c8441c8be1c8001c8b41c7c61c8a81c7801c89c1c7421c8941c6e81c88a1c6b21c87e1c65e1c8781c6241c86c1c8481c8641c8041c85a1c7ca1c84e1c7841c74a1c7461c6f01c6ec1c6be1c6b61c66a1c6621c62a1c6281c5d2)
  (.lf 0)))

def shaXorReads391 : BTree :=
  .nd (.nd (.nd (.lf
  0x1b4c11a78b19a4d19a1b19a10199b41cf5a1cd2d1b4c31a72d19a5119a1d19a12199b61cf4e1cd151b4c51a70719a5519a1f19a14199b81cf421ccfd1b47d1a70919a5919a16199e1199ba1cf361cce51b4591a70b19a5d19a18199e3199bc1cf2a1cccd1b45b1a70d19a6119a1a199e5199be1cf1e1ccb51b45d1a70f19a6519a1c199e7199c01cf121cc991b45f1a71119a6919a1e199e9199c21cc791cc60)
  (.lf
  0x3e0c93e0c73e0c53e0c33e0bf3e0bd3e0bb3e0b93e0b53e0b33e0b13e0af3e0ad3e0a93e0a73e0a53e0a13e09f3e09d3e09b3e0973e0873e0853e0833e0813e07d3e07b3e0793e0753e0733e0713e06f3e06b3e0693e0673e0893e0653e0613e05f3e05d3e0593e0573e0553e0533e00d3e0093e0073e0133e0053e0013dfff40d9f3dffd3dff93d6d13d6cf3d6cb3d6c53d6b53d6b33d6ab3d6a73d6933d691))
  (.nd (.lf
  0x1583215820157f8157e6157c0157ae157841577215746157341570c156fa156d4156c21569c1568a15664156521562815616155ee155dc155b2155a015578155661553c1552a15504154f2154ce154bc154941548215458154461541c1540a153e4153d2153aa153981536c1535a1533815326152f8152dc10416103de103da10386103821032410320102c8102c41026c102681020e1020a101b0101ac10156)
  (.lf 0))) (.nd (.nd (.lf
  0x2e5dc2e5a22e564307423072c306e0306d4306c8306b8306b0306983067c30668306523063a3061a3058a3057e30572305663055a30552305463053a3052e3052630510304f8304de304c83047a3046e30462307363071c3071230708306fc306f0306a63068e306823065e3064e306223061230606305fa305f0305e2305d6305cc305c2305b6305aa3051e30508304ee304d4304c2304b0304a4304982fd30)
  (.lf
  0x78490784507843078410783f0783b078390783707835078310782f0782d0782b078270782507823078210781d0781b078190781707813078110780f0780d07809078070780507803077ff077fd077fb077f9077f5077f3077f1077ef077eb077e9077e7077e5077e1077df077dd077db077d7077d5077d3077d1077cd077cb077c9077c7077c3077c1077bf08e9a08e6208e1e08ddc08d9c08d5808d1608cd6))
  (.nd (.lf
  0x3709836e4636e4836e0436e0c36de436de6384923b15a384863b14e3847c3b1463846a3b13c384743b12e384583b1243844a3b11e384423b10e384323b1083842a3b1003841a3b0f23840e3b0ea384143b0da383fc3b0d2383ee3b0c4383e03b0b8383ea3b0b2383ca3b0a2383bc3b096380383b08e380363b0803801c3b072380203b06a3800a3b06037fea3b04e37f983b25a3b0423b03a37f2a3b1e03b030)
  (.lf 0)))

def shaXorReads392 : BTree :=
  .nd (.nd (.nd (.lf
  0x4336042f40e9080e7ad0e5cd0e5a50e58e042f6042b60e8fe0e7b10e5d10e5a70e590042ac0426e0e8f40e7b50e5d50e5a90e59204270042300e8ea0e7b90e5d90e5ab0e59404226041e80e8e00e7bd0e5dd0e5ad0e596041ea041aa0e8d60e7c10e5e10e5af0e598041a0041620e8cc0e7c50e5e50e5b10e59a04164041240e8c20e7c90e5e90e5b30e59c0411a040de0e8b80e7cd0e5ed0e59e0e56f040d4)
  (.lf
  0x129401287b1291e1287f1290012883128e412887128c41288b128ac1288f128951345d1360213461135f813465135ee13469135e41346d135da13471135d013475135c613479135bc1347d135b213481135a8134851359e13489135941348d1358a13491135801349513576134991356c1349d13562134a113558134a51354e134a913544134ad1353a134b113530134b513526134b91351c134bd13512134c1))
  (.nd (.lf
  0x165de165e0165e21772c1772e17730177321773417736177381773a1773c17754176a6176a8176aa176ac176ae1766a17646176481764a1764c1764e17650175f6175d0175c6175e4175da175b4175a0175bc175a2175a4186421864418646186481864a1864c1864e18650186521865418656186581865a1865c1865e18660186621866418666186681866a1866c1866e18670186721867418676186781867a)
  (.lf
  0x3aedf3aedb3aed93aed73aed53aed13aecf3aecd3aecb3aec73aec33aec13aebf3aebb3aeb93aeb73aeb53aeb13aeaf3aead3aeab3aea73aea53aea33aea13ae9d3ae9b3ae993ae973ae933ae913ae8f3ae8d3ae893ae873ae853ae833ae7f3ae7d3ae7b3ae793ae753ae733ae713ae6f3ae6b3ae673ae653ae633ae5f3ae5d3ae5b3ae593ae553ae533ae513ae693ae4f3ae4b3ae493ae473ae433ae413ae3f)))
  (.nd (.nd (.lf
  0x2f7b02f5502f4a02efe0286d02864047b703b8702f7f02f5702f4c02f000282d02824047b903b8902f8302f5902f4e02f02027ed027e4047bb03b8b02f8702f5b02f5002f04027ad027a4047bd03b8d02f8b02f5d02f5202f060276602763047bf03b8f02f8f02f5f02f5402f08027200271d047c103b9102f9302f6102f5602f0a026da026d7047c303b9302f9702f6302f5802f0c0269402691047c503b95)
  (.lf
  0x34f5f34b4334b4134b3d34b2734b2534b2334b0334aff34ac535656356523568a3563a35342353343533635326353183530e35302352f8352ea352de352d8352c8352c0352ca352ac352a23529c3528c352823524635236350a034fb434fa234f7a34b3a34b063565735655356533564f3564d3568b3564b3564735645356413563b356373534b353493534535343353413533f3533b35339353353533735333))
  (.nd (.lf
  0xd77a0db620d77e0db400d7820db1e0d7860dafc0d78a0dada0d78e0dab80d7920da960d7960da740d79a0da520d79e0da300d7a20da0e0d7a60d9ec0d7aa0d9ca0d7ae0d9a80d7b20d9860d7b60d9640d7ba0d9420d7be0d9200d7c20d8fe0d7c60d8dc0d7ca0d8ba0d7ce0d8980d7d20d8760d7d60d8540d7da0d8320d7de0d8100d7e20d7e80ddd60dfb40ddda0dfaa0ddde0dfa00de1c0df960de200df8c)
  (.lf 0)))

def shaXorReads393 : BTree :=
  .nd (.nd (.nd (.lf
  0x1d28e1d28821a8021a081fb931fb8f1f66d1d7a31d5871d5761d23c1d236219fa219b81fb611fb5d1f66f1d7f71d6bb1d5781d2161d210219a62196e1fb2b1fb271f6711d7bb1d6bd1d57a1d1da1d1d421960219361faf71faf31f6731d6e51d6bf1d57c1d1201d11a2192c218f61fac31fabf1f6751d6e71d6c11d57e1d10e1d10821914216d01fa951fa911f6771d6e91d6c31d41e1d0fc1d0f6216be2162c)
  (.lf
  0x1f54b1f5491f5471f5431f5411f53f1f53b1f5391f5371f5351f5311f52f1f52d1f52b1f5271f5231f5211f51f1f51b1f5191f5171f5151f5111f50f1f50d1f50b1f5071f5051f5031f5251f5011f4fd1f4fb1f4f91f4f51f4f31f4f11f4ef1f4eb1f4e91f4e71f4e51f4e11f4df1f4dd1f4db1f4d71f4d51f4d31f4d11f4cd1f4cb1f4c91f4c71f4c31f4c11f4bf1f4bd1f4bb1f4b71f4b51f4b31f4af1f4ad))
  (.nd (.lf
  0x265861dbb81db6718c6d18c6816ef816ede27842277bd26635265a52658a1dbae1db6b18c6f18c6a16ebe16ea62782c277c126639265a72658e1dba41db6f18c7118c6c16e8616e6c27816277c52663d265a9265921db9a1db7318c7318c6e16e4416e2c27800277c9265ab265941db901db7718c7518c7016e0216dec277ea277cd265ad265961db861db7b18c7718c7216dc216db0277d3265af265981db81)
  (.lf
  0x1a1f71a1f31a1cb1a1bd1a1bb1a1b71a1911a1831a1811a17d1a1551a1471a1451a1411a1191a10b1a1091a1051a0e11a0d31a0d11a0cd1a0a91a09b1a0991a0951a06f1a0611a05f1a05b1a0351a0271a0251a02119ff919feb19fe919fe519fbb19fad19fab19fa719f7f19f7119f6f19f6b19f4119f3319f3119f2d19f0319ef519ef319eef19ec719eb919eb719eb319e8b19e7d19e7b19e7719e4d19e3f)))
  (.nd (.nd (.lf
  0x2910129109290f5290ef2904729045290412902f2902b290272900d290052900328fd128fcd28fb928fab28fa728fa528f7728f7128f6f28f9128f6d28f5d28ee128edd28ed928e5f28d3928d2f2911d291192911c29116290ff290f7290fe290f4290ed290e9290ec290e7290df290e62909b290932909a290912908729090290832907f290822905d290592905c290462902e290132900f290122900c29001)
  (.lf
  0x18b1f18b1d18b1b18b1718b1518b131946a1943a19400193c41938c1935619320192e8192ac1926c1922c191ec191ac1916c1912a190e4190a2190621901e18fdc18f9c18f5818f1218ecc18e8618e4018dfe18dbe18d8218d4818d0e1946b194511944d1943b1941f1941d1941919401193e5193e3193df193c5193a9193a7193a31938d193711936f1936b193571933b1933919335193211930319301192fd))
  (.nd (.lf
  0x1c4c61c4b81c4ae1c4ad1c4821c4621c4481c4471c4961c4781c4611c4581c3d61c3c81c3b81c3b71c2941c2861c27e1c2791c2441c22e1c2271c2241c2021c1f41c1ea1c1e91c1b81c1a91c1a21c19c1c1781c16a1c1651c15e1c1321c1241c1231c11a1c0ec1c0de1c0d71c0d21c0a41c0921c08e1c08d1c05e1c0501c04b1c0441c0161c0041c0001bfff1bfd21bfc41bfbd1bfb81bf7c1bf761bf741bf73)
  (.lf 0)))

def shaXorReads394 : BTree :=
  .nd (.nd (.nd (.lf
  0x3eaff3eafd3eaf73eaf4402633f8c13ec203eb593eb513eb493eb463eb444021b3f86f3ec183ea403ea3b3ea333ea303ea2f402413f84b3ec0c3eb223e9e93e9e23e9e13e9db401953f7f73ec003eb0e3ea453e9c03e9b93e9b54015f3f7dd3ebfa3eaf63e9a73e9a03e99d3e99b401713f7bd3ebec3eb483e9923e98d3e9893e9874017b3f7a13ebe63ea323e9483e9453e9353e933400cf3fbc93ebdc3e9da)
  (.lf
  0x3dafd3dafb3dae73dae53dae33dae13dacd3dac93dac73dac53dac13da553da513da253da213da1d3d9cf3d9cd3d9c93d9b73d9b53d9ef3d9b33d9af3d9ad3d9d33d9ab3d9a73d99f3d99d3d9993d98b3d9833d98f3d9813d97d3d9553d9533d94f3d94b3d9173d91b3d9153d9113d9093d8ff3d8fb3d8f73d8bf3d8bd3d8b93d8b73d8b13d8cd3d8af3d8ab3d8a93d8b33d8a73d8a33d8a13d8d33d89f3d89b))
  (.nd (.lf
  0x3a8953a8693a852351da34deb2fa732fa492fa442f6f02f6343ad583abe93a8993a86b3a854351d434def2fa772fa4b2fa462f6e42f6263ad4c3abed3a89d3a86d3a8563506634e952fa7b2fa4d2fa482f6de2f61a3ad403abf13a8a13a86f3a8583505834e992fa7f2fa4f2fa4a2f6d22f68e3ad323abf53a8a53a8713a85a3505234e132fd362fa832fa512fa4c2f6c63ad263abf93a8a93a8733a85c35046)
  (.lf
  0x2d6ab2d6a72d6a32d69f2d69d2d6992d6952d6932d6912d68d2d68b2d6892d6872d6832d6812d67d2d67b2d6772d6752d6712d66f2d66b2d6692d6652d6632d65f2d6572d6552d6532d64f2d6332d6312d62f2d62b2d6192d6172d6152d5c72d5c32d5c12d5c92d5bf2d5bb2d5b92d5b72d5b32d2cb2d2c92d2c72d2c32d2bf2d2bd2d2bb2d2b72d2b52d2ad2d2b12d2ab2d2a72d2a52d2a32d29f2d29d2d299)))
  (.nd (.nd (.lf
  0x3c31a3c2f23c2c63c2aa3c2943c26c3c24c3c1f03c1e83c19c3c1823c1723c1623c14e3c1463c0963c0583bfce3bfba3bf9a3bf923bc2c3bb883baf23ba183b95a3b8aa3d0083cfba3cf923cf8a3cf763cf063cefe3cef63ceee3ceba3ceb23ce9a3ce863ce723ce603ce4e3ce3c3ce283ce143ce003cd483cd2c3cd243cc463cc383cc283cc183cb183cad63caa43d23e3d1ec3d1ca3d1c23d1983d14e3d108)
  (.lf
  0x269712696f2696b2696926965269af269632695f2695d2695b2695726955269512694f2694b2694926945269432693f2693d26939270782707226ffe26fee26fae26f3c26f0226eb626e4226d9a26d9026d8026d6c26cda26cce26ce626c4226c8a26bf426c4826bbc26b2a26b2026b1626aee26ac826a8c269f8269ee26a0026982270792707727073270712706f2706d2706926fff26ffd26ffb26ff726fef))
  (.nd (.lf
  0x4189841cfa4188841cf04189041ce84188a41cdc4187441cd04180441cc0418c641cb24181041ca6418c441c964150641c8e411dc41c88411c641c804123c41c6c4188441c664186841c4e4184441c464183241c3c4183041c304183441c1c4195a41bfa4150a41bd64119841bb64187c41b944186e4191441882418fc41818418f641822418d8417ea418cc418ca41520414e64122c411ca411b60102f011d4)
  (.lf 0)))

def shaXorReads395 : BTree :=
  .nd (.nd (.nd (.lf
  0x123c91136911328112ff112f6112f014b7614a8412ffd12fe5123cb1136d1132a113011115a1115414b6a14a8212fff12fe7123cd113711132c11303111481114214b6014a801307d1307912363113751132e11305111361113014b5614a7e12ebd12ea51221b113791133011307111241111e14b4c14a7c12ebf12ea71221d1137d1133211309111121110c14b4214a7a12ec112ea91221f11381113341130b)
  (.lf
  0x415704155041510414f04119041170411304111040d3040d1040cd040cb0408b0408904085040830404d0404b040470404504007040050400103fff03fbf03fbd03fb903fb703f7f03f7d03f7903f7703f3f03f3d03f3903f3703eff03efd03ef903ef703ec103ebf03ebb03eb903e7903e7703e7303e7103e3903e3703e3303e3103dfb03df903df503df303db303db103dad03dab03d7503d7303d6f03d6d))
  (.nd (.lf
  0x381463818c381063817c38100380e6380da380ce380c2380b6380ac380a038092380883808038082380663805e37ffe37ff237f6437fe437f5837fd637f4c37fce37f3e37fbc37f6a37fb437f2237fa837f1837f8837f0237f7637ef637eec37ed637ec237ebe37ea237e6e37e6637e6237e5a38708389a638700388f4386ee388ea386f0388e0386dc388d6386c8388ce386ce388b8386b4388ae386b2388a2)
  (.lf 0))) (.nd (.nd (.lf
  0x305e030540304a03040030360302c03022030180300e0300402ffa02ff0037ee037bc03782037140367203638035ca0359003522034b40347a03440033d2033980332a032f0032b603248031a6037e0037ac037730374b037720373e03705036dd03704036d1036a9036d00369c03662036290360103628035f4035ba0358103559035800354c03513034eb03512034de034a40346a034310340903430033fc)
  (.lf
  0xabd50abd30abbf0abbd0abb90abb70aba30aba10ab9d0ab9b0ab830ab810ab7d0ab7b0ab610ab5f0ab5b0ab590ab3f0ab3d0ab390ab370ab1d0ab1b0ab170ab150aafb0aaf90aaf50aaf30aad90aad70aad30aad10aab70aab50aab10aaaf0aa9f0824e08228081ee081a40816808128080de080a2080580801c07fdc07f9c07f5c07f1c07ed207e8c07e5007e0607dca07d8007d3a07cfe07cb407c6e07c32))
  (.nd (.lf
  0x160cf160c2160b7160b2160b1174791745017447174181740f173e0173d3173a417395173661735b1732c17323172f4172eb172be172b5172881727f17250172431721417205171d8171c91719c1718d17160171511712417119170ec170e3170b6170a91707c1707117044170371700816ffd16fce16fc516f9816f8f16f6216f5516f2816f1d16ef016ee316eb616eab16e7e16e7116e3c16e3116dfa16df1)
  (.lf 0)))

def shaXorReads396 : BTree :=
  .nd (.nd (.nd (.lf
  0x3db1c3db143daf23dae9410a040fbc3f5e13f5d13e6ed3db923db333db1e3dada3dacf4109240fb23f6ed3f6e93e6c33dabc3da5d3da5b3da583da564107a40fa23f5573f5533e6ab3dabe3da393da2a3da283da274104440fa43f56b3f5673e6673d9e63d9be3d9bd3d9ba3d9b94103e40f8e3f5353f5313e6413da083da013d9f53d9f23d9f04102840fd43f5ef3f4fd3e61b3d9e83d9e53d9dc3d9db3d9d4)
  (.lf
  0x10bde10ace10bbc10ad210b9a10ad610b7c10ada10b6010ade10b4410ae210b2810ae610b0810aea10af0116f011894116f41188a116f811880116fc11876117001186c117041186211708118581170c1184e1171011844117141183a11718118301171c11826117201181c117241181211728118081172c117fe11730117f411734117ea11738117e01173c117d611740117cc11744117c211748117b81174c))
  (.nd (.lf
  0x12ec212ec412ec6140b2140b4140b6140b8140ba140bc140be140c0140c2140c4140c6140c8140ca140cc140ce140d0140d2140d4140d6140d8140da140dc140de140e0140e2140e4140e6140e8140ea140ec140ee140f014e8a14e5c14e3014e0414dd814dac14d8014d5414d2814d0614cea14cd414cc014cac14c9814c8414c7014af214af414af614af814afa14afc14afe14b0014b0214b0414b0614b08)
  (.lf
  0x372613725d371f7371f3371f9371f1371ed371e7371eb371e5371e1371df371dd371d9371d7371d5371d3371cf371cd371cb371c9371c5371c3371c1371bf371bb371b9371b7371b5371b1371ad371ab371ff371a9371a5371a3371a13719d371993718f3718d370673706537063370613705d370593705737055370513704f3704d3704b370473703f3703d370413703b3703537033370313702d3702b37029)))
  (.nd (.nd (.lf
  0x38bc037fc069780693005161050e10452f039990391903902038be037fe06926068e805163050e3045310399d0391b03904038c003800068f6068aa05165050e504533039a10391d03906038c203802068a00686205167050e704535039a50391f03908038c403804068700682405169050e904537039a9039210390a038c6038060681a067de0516b050eb04539039ad039230390c038c803808067d406796)
  (.lf
  0x2ccdf2ccdb2ccd92ccd72ccd52ccd12cccf2cccd2cccb2ccc72ccc52ccc32ccc12ccbb2ccb92ccb72ccb52ccb12ccaf2ccad2ccab2cca72cca52cca32cca12cb8f2cb8d2cb652dd082dd042dcf62dce82dcde2dd022dcd22dcc22dcba2dcb42dca82dc9a2dc902dc8c2dc802dc6c2dc642dc702dc502dc442dc3a2dc522dc822dc1e2dc162dc202dc022dbf62dbec2dc042dc6e2dd092dd072dd052dcff2dcfd))
  (.nd (.lf
  0x1e3601e2d01dee01de501dae01da501d6e01d6501d3001d2701ce801cdf01ca801c9f01c6a01c6101c2401c1b01bdc01bd301b9e01b9501b5801b4f01b1201b0901aca01ac101a8c01a8301a4401a3b01a04019fb019c4019bb019860197d0193e01935018fe018f5018c0018b7018780186f018380182f017fa017f1017b2017a9017720176901732017290170e0170d02b6f02b3702b0402afb02abe02ab5)
  (.lf 0)))

def shaXorReads397 : BTree :=
  .nd (.nd (.nd (.lf
  0x1e5421e4bb1d9011d8ba1d8851d2481fe651f8011e5361e4eb1d9051d8bc1d8871d1ea1fe671f8031e52c1e4bf1d9091d8be1d8891d1801fe691f8051e5261e4cd1d90d1d88b1d8801d1821fe6b1f8071e5181e4ef1d9111d88d1d8821d1841f9f91f8091e50e1e4ed1d9151d88f1d8841d1861f9fb1f21b1e5061e4c11d9191d8911d8861d1881f96d1f1db1e4e51e4d81d91d1d8931d8881d18a1f96f1f1dd)
  (.lf
  0x1101711015110111100f1100b11009110051100310fff10ffd10ff910ff710ff310ff110fed10feb10fe710fe510fe110fdf10fdb10fd910fd510fd310fcf10fcd10fc910fc710fc310fc110fbd10fbb10fb710fb510fb110faf10fab10fa910fa510fa310f9f10f9d10f9910f9710f9310f9110f8d10f8b10f8710f8510f8110f7f10f7b1106510f7910f7510f731106b10f7110f6d10f6b114f110f6910f65))
  (.nd (.lf
  0x3f5023f4ff3f4fc3f4fb3f4f8411394113540d32408753f6703f66b3f6673f6613f65c3f65a4123b412374081b3f6453f61a3f4d43f3963f3953f3923f391410fd410f9408093f6213f6003f4c83f3823f3813f37f3f37840f5f40f5b408293f6533f5a83f4be3f3863f36f3f3683f36740f6940f654083b3f5f23f5a13f4b43f3f23f3a33f3573f35440e9d40e99407d93f5d23f5893f4a83f3463f3453f343)
  (.lf
  0x11f0f11f0b11edb11ecd11ecb11ec711e9711e8911e8711e8311e5311e4511e4311e3f11e0f11e0111dff11dfb11dc711db911db711db311d7d11d6f11d6d11d6911d3711d2911d2711d2311cf311ce511ce311cdf11cab11c9d11c9b11c9711c6111c5311c5111c4d11c1711c0911c0711c0311bd111bc311bc111bbd11b8911b7b11b7911b7511b4111b3311b3111b2d11af911aeb11ae911ae511ab111aa3)))
  (.nd (.nd (.lf
  0x1554a154a2154661542a153b81537a159cd159a11599d1599b1592d1592915927158f1158ed158eb158b5158b1158af1580d15809158071579915795157931575b15757157551563d1563915637155c7155c3155c1155511554d1554b154a9154a5154a31546d1546915467154311542d1542b153bf153bb153b9159a0159631595f159621592c158f0158b4158791587515878158431583f158421580c157d1)
  (.lf
  0x12672126681265e126541264a12640126361262c1262212618126101255a12532125281251e12713127111270d1270b12709127071270312701126ff126fd126f9126f7126f5126f3126ef126ed126eb126e9126e5126e3126e1126df126db126d9126d7126d5126d1126cf126cd126cb126c7126c5126c3126c1126bd126bb126b9126b7126b3126b1126af126ad126a9126a7126a5126a31269f1269d1269b))
  (.nd (.lf
  0x318663186b31867332f8332f2332e6332e0332d8332d2332bc3325e332503324233238332323322a33224331f4331c43319433138331243311232ff032a6e32a36329ee329b6329823292032862328343283f3283732835347da347723469c3463e345fe345943457c344423443c3443034428343ec343b83438434354342d6342d03423234214341c4341a23415033d6433cfc33cd233b7e33b7833b4633af0)
  (.lf 0)))

def shaXorReads398 : BTree :=
  .nd (.nd (.nd (.lf
  0x2f95a2f9122dd592dd552ca932b6f12b6a62b4b32b4ac2b4a62f9382f9062dd452dd412ca952b6a92b6262b4b12b49c2b4962f9322f8fe2dd672dd632ca672b6292b60a2b4672b4642b45e2f9242f8f22dd2b2dd272ca552b8c12b60d2b5e62b3be2b3b82f8dc2f8ca2dd172dd132ca732b8192b5eb2b5ca2b3a22b39c2f8c02f8322d3d72d3cb2ca432b8c92b81b2b5cc2b3742b36e2f82c2f80e2d3d92d3cd)
  (.lf
  0x2c7a32c7a12c79d2c79b2c7992c7972c7932c7912c78f2c78d2c7892c7872c7852c7832c77f2c77d2c77b2c7792c7772c7732c7712c76f2c76b2c7692c7672c7652c7612c7512c74f2c74d2c7492c71f2c71d2c71b2c7172c7152c7132c7112c70d2c70b2c7092c7072c7032c7012c6ff2c6fd2c6ed2c6eb2c6e92c6e72c6e32c6e12c6df2c6dd2c6c72c6c52c6c32c6c12c6bd2c6bb2c6a32c6a52c6a12c69d))
  (.nd (.lf
  0x29a502988320276200d41e9b71e99d1e99834cc6349f733893338733385c29a462988720270200d21e9b91e99f1e99a34cbe34a3533897338753385e29a3c2988b202621fff81e9bb1e9a11e99c34cb034a393389b338773386029a322988f2025c1ffec1e9bd1e9a31e99e34ca634a3d3389f338793386229a28298932024e200d01e9bf1e9a51e9a034c9634a41338a33387b3386429a1e29897202482001c)
  (.lf
  0x1e8e11e8dd1e8db1e8cd1e8cb1e8c71e8c51e8b71e8b51e8b11e8af1e8a11e89f1e89b1e8991e88b1e8891e8851e8831e8751e8731e86f1e86d1e85f1e85d1e8591e8571e8491e8471e8431e8411e8331e8311e82d1e82b1e81d1e81b1e8171e8151e8071e8051e8011e7ff1e7f11e7ef1e7eb1e7e91e7db1e7d91e7d51e7d31e7c51e7c31e7bf1e7bd1e7af1e7ad1e7a91e7a71e7991e7971e7931e7911e783)))
  (.nd (.nd (.lf
  0x3f1d03f1ba3f2963f19a3f1583f0de3f0d43f0c63ee063ee163ed7e3f2c53f2bf3f2c43f2bd3f2b53f2bc3f2b23f2ab3f2893f2aa3f2873f2713f2863f26d3f2693f26c3f2673f2633f2663f2603f24f3f2473f24e3f2403f2363f22e3f21e3f2163f20f3f20b3f20e3f2063f1e23f1da3f1cc3f1b83f1b03f1983f1543f0dc3f0d03ee0e3ee023ed7a3ea7c3ed4c3ed423ed3a3ed303ed263ed1c3ed123ed08)
  (.lf
  0x1f75a1f7501f7441f73a205ed205f1205eb205e7205e5205e3205df205dd205d9205f5205d7205d3205d1205cf205cb205a120555205532054f205412053f2053d20539205372052920527203e7202eb202e9202e7202df202dd202d9202e1202d7202cb202c9202cf202c7202c3202c1202bf202bb202b9202b5202d3202b3202af202ad202ab202a12029f2029d2029b202972029520291202a72028f2028b))
  (.nd (.lf
  0x40f2440f1440f0f40f0440ea440e7840e0a40def40e9040df840de540de240eac40e8040db340dae40c4e40c444069c4064540c1840ba840630405ad40c0440bea40622405a140bf240bd24060c4059740bcc40b8e405fc4058b40bae40b76405f44057f40b5e40b3e405d24057140b2440ade405c04056f40ae040aba405404053740a9e40a0c405384053540a04409d04051a40509409fa408ee404ee404eb)
  (.lf 0)))

def shaXorReads399 : BTree :=
  .nd (.nd (.nd (.lf
  0x14453133fb128391280b12800127b4155f3155d614441133fd1283d1280d12802127b6155b71559a14431133ff128411280f12804127b81557d155601442113401128451281112806127ba15541155261441113403128491281312808127bc15509154ee14401134051284d1280a127d5127be154d3154b8143f113407128511280c127d7127c0154991547e143e113409128551280e127d9127c21545d15442)
  (.lf
  0x3e4573e4553e4513e44f3e44b3e4493e4453e4373e4353e4333e3e13e3df3e3dd3e3db3e3d73e3d33e3d13e3cf3e3cb3e3c93e3c53e3c33e3bf3e3bb3e3b93e3b73e3b33e3b13e3ad3e3e73e3ab3e3a73e3a53e3a33e3973e37f3e3773e3753e3713e3453e3433e3413e16d3e16b3e1673e1653e1613e14f3e14b3e1493e1453e1413e13f3e13d3e1393e1353e1313e12f3e12b3e1273e1253e1233e11f3e11b))
  (.nd (.lf
  0x2382c239a8238302399e2383423994238382398a23868239802386c23976238702396c238742396223878239582387c2394e2388023944238842393a23888239302388c23926238902391c238942391223898239082389c238fe238a0238f4238a4238ea238a8238e0238ac238d6238b0238cc238b4238c2238b8238be1eec21eea41ee8a1ee801ee681ee5e1ee441ee3a1ee221ee181ee001edf61edde1edd4)
  (.lf 0))) (.nd (.nd (.lf
  0xea6a0ea600ea560ea4c0ea420ea380ea2e0ea240ea1a0ea100ea06184d2184a0184661842e183f4183bc183841834418304182c4182801823a181f8181b81817818134180ee180a8180661802617fe617fa217f5c17f1a17eda17e9617e5017e0e17dca17d881946019430193f6193ba193821934c19316192de192a21926219222191e2191a21916219120190da19098190581901418fd218f9218f4e18f08)
  (.lf
  0x560f055e3055d5055d3055cf055a70559905597055930556d0556705d2705c9505c9105c6b05bcf05bcb05ba505ac905ac505a9f05a8305a7f05a5905a3d05a3905a13059f7059f3059cd059b1059ad059870596b05967059410592505921058fb0579f0579b057750571905715056ef056930568f05669053cc053c2053b8053ae053a40539a05390053860537c05372053680535e053540534a0534005336))
  (.nd (.lf
  0x1467e1467214660146521464014634146221461c14616159c8159941596c1595a1593415920158fa158e4158be158a815882158701584a1583a1581415800157da157c8157a01578c157641574e1572615714156ec156dc156b4156a41567c1566c156441563015608155f6155ce155ba155921558015558155441551e1550c154e6154d6154b01549c15476154601543a15424153fe153ec153c6153b21538a)
  (.lf 0)))

def shaXorReads400 : BTree :=
  .nd (.nd (.nd (.lf
  0xed610ed430ed2c0d53c0d36f075c80758e0f0d80ef0b0ed650ed450ed2e0d5320d37307590075500f0ce0ef490ed690ed470ed300d5280d377075460750a0f0c40ef4d0ed6d0ed490ed320d51e0d37b07500074c20f0ba0ef510ed710ed4b0ed340d5140d37f074c4074820f0b00ef550ed750ed4d0ed360d50a0d38307484074420f0a60ef590ed790ed4f0ed380d5000d38707444074020f09c0ef5d0ed7d)
  (.lf
  0x2342e232d92341c232dd2340c232e123406232e5233fa232e9233f2232ed233e0232f1233da232f5233d0232f9233bc232fd233b423301233a6233052339e23309233982330d23386233112337e2331523577233722336a2331b235132335e2335423321234ab2334a2332724097242482409b2423e2409f24234240a32422a240a724220240ab242122410f2420c240b1241fa240b5241f4240b9241e6240bd))
  (.nd (.lf
  0x3b18e3b1a637e863c4723c38c3c41e3c36c3c3023c2de3c3a43c29c3c2763c2543c1f63c22a3c1ae3c1883c17a3c16c3c1563c1ba3c09e3c0683c04a3bfc43bfa43bfae3bf823bc1e3bb563bad03b9de3b9763b8b43b80c3d2463d1f43d1d83d27a3d1ae3d1643d10e3d0f63d0da3d0a83d0983d0c63d0723d05e3d0443d0323cdf23cddc3cdcc3c83c3c8aa3c6cc3c6523c5fc3c5e63c5a63c5943c5723c4e6)
  (.lf
  0x23700235002330022f0022d0022b002290022500223002210021f0021b002190021700215002110020f0020d0020b00207002050020300201001fd001fb001f9001f7001f3001f1001ef001ed001e9001e7001e5001e3001df001dd001db001d9001d5001d3001d1001cf001cb001c9001c7001c5001c1001bf001bd001bb001b7001b5001b301ee201ea601e6001e1a01dd801d9801d5801d1401cd201c92)))
  (.nd (.nd (.lf
  0x613d061150610a060be059ea059e70794906d3b06141061170610c060c0059a4059a10794b06d3d06145061190610e060c20595e0595b0794d06d3f061490611b06110060c405918059150794f06d410614d0611d06112060c6058d9058d00795106d43061510611f06114060c805899058900795306d45061550612106116060ca05859058500795506d47061590612306118060cc05819058100795706d49)
  (.lf
  0x36c8536c8336c7f36c7b36c7936c7d36c7736c7336c7136c6f36c6b36c6936c6736c6536c6136c5f36c5d36c5b36c5736c5536c5336c5136c4d36c4b36c4936c4736c4336c4136c3f36c3d36c3936c3736c3536c3336c2f36c2d36c2b36c2936c2536c2336c2136c1f36c1b36c1936c1736c1536c1136c0f36c0d36c0b36c0736c0536c0336c0136bfd36bf736bf536bf936bf336bef36bed36bfb36beb36be7))
  (.nd (.lf
  0x2265e227682266222752226662273c2266a227262266e2271022672226fa22676226e42267a226ce2267e226b822682226a2226862268c1402e1400213fc613fbc13f7613f6c13f2813f1e13ed813ece13e8613e7c13e3813e2e13de813dde13d9613d8c13d4413d3a13cf213ce813ca413c9a13c5413c4a13c0613bfc13bba13bb013b6a13b6013b1c13b1213ad013ac613a8013a7613a3213a28139e2139d8)
  (.lf 0)))

def shaXorReads401 : BTree :=
  .nd (.nd (.nd (.lf
  0x20da820da22466424626229fd229f32161321467213972108a20d6a20d642461c2460a229cb229c721615213df213992108620d1620d0a245e22298f2298b21617213b12139b2101820d1820d0c260f023dd723dcf231692220d2220322200221fe221f6260ca260be23ddb23dd12316b2211f22115221122211022108260b625f6223dab23da72316d220a92209f2209c2209a2209425f5a25f3423d4f23d3f)
  (.lf
  0x21b0021ac221a9c21a92219fc219b0219622192e21926216c82162221618221eb22105220ff220fb2206322069220612205d2203f220472203d2203921fdd21fe321fdb21fd721f5d21f6321f5b21f5721f4d21f4b21f4721f4521eff21f0721efd21ef921ec121eeb21ebf21eb521e5521e5b21e5321e4f21d9721d9d21d9521d9121d6921d6721d6321d4521d1921d1f21d1721d1321cef21cf521ced21ce9))
  (.nd (.lf
  0x29aeb29a9229a691e3221e1e71bc0b1bb831bb7a19f9c19f802ad842ac6329aef29a9429a6b1e30c1e1eb1bc0f1bb871bb7e19f5e19f422ad6e2ac6729af329a9629a6d1e2f61e1ef1bc131bb8b1bb8219f2019f042ad582ac6b29af729a9829a6f1e2e01e1f31bb8f1bb8619ee419ec82ad422ac6f29afb29a9a29a711e2ca1e1f71bb931bb8a19ea819e8c2ad2c2ac7329aff29a9c29a731e2b41e1fb1bb95)
  (.lf
  0x1ccae1cc921cc721cc501cc2e1cc0c1cbe61ceed1ceeb1cee71cee51ced71ced51ced11cecf1cebf1cebd1ceb91ceb71cea71cea51cea11ce9f1ce8f1ce8d1ce891ce871ce771ce751ce711ce6f1ce5f1ce5d1ce591ce571ce471ce451ce411ce3f1ce2f1ce2d1ce291ce271ce171ce151ce111ce0f1cdff1cdfd1cdf91cdf71cde71cde51cde11cddf1cdcf1cdcd1cdc91cdc71cdb71cdb51cdb11cdaf1cd9f)))
  (.nd (.nd (.lf
  0x2e38c2e3682e3422e3202e3022e2fa2e2962e2842e2702e1722e7ee2e7842e7502e7062e6d02e68c2e65c2e5fc2e5c42e57e2e5462e50a2e4e42e47e2e45c2e43e2e4122e3ee2e3d42e3b02e3942e3722e3502e32c2e3102e2f02e2e62e2dc2e2ce2e2522f0222efc42eed22ee982eda82ec242ec162ebe02eb222eaec2ea5e2ea262e9f62e91e2f0202efbc2eeaa2ee952ee912ee942ee8e2ed7b2ed772ed7a)
  (.lf
  0x198ad198ab198a7198a5198a3198a11989d1989b198991989719893198911988f1988d198891988719885198831987f1987d1987b198791987519873198711986f1986b198691986719865198611985f1985d1985b198571985519853198511984d1984b198491984719843198411983f1983d198391983719835198331982f1982d1982b198291982519823198211981f1981b198191981719815198111980f))
  (.nd (.lf
  0x250a2249b6249862493525096249a0249302492925088249982491e2491d2507c24988248c8248c7250682487024868248672505e24700246f6246f5246c4246b2246a22469f246722466e24666246652463024628246202461d245e4245e3260f4260f126116260ea260cc260bf260d2260c2260b7260b22600825f6a25f5c25f3525faa25f6825f5225f3b25f8c25f6625f4825f2725f6425f3e25f2825f1d)
  (.lf 0)))

def shaXorReads402 : BTree :=
  .nd (.nd (.nd (.lf
  0x31df1312053113830e3830e3730e3435886355fc331a9331a531dfb311a43113b30db730db430dae35878355fe331853318131da5311a7310ba30d8f30d8c30d86358703538a331773317331d95310bd3105230d6a30d6930d6635860353e6331613315d31db3310553100630d5130d4a30d483585a3538c32fff32ffb31d653100930f8030d1d30d1630d1035848353b432f8f32f8b31cb1312c930f8330f5c)
  (.lf
  0x4022a40208401ee40190401584015040172400bc4001c400063fff43ffe03ffcc40052400303fcc43fc6a3fc2c3fc103fb863fb763fb423faca3fa6e3fa483f9f23f9623f93e402c1402bf402bb40279402774029140275402714026f4026d402694022b4022940227402234020d402094020740203401f5401ef401ed401c140199401914018f401634015b40159401514014f4014b40149401734014740143))
  (.nd (.lf
  0x33ea533ea038b04387b9342f833fa433ecb33ea733ea238afa387bd3431a33f9c33ecf33ea933ea438af0387c1342f233f9433ed333eab33ea638aea387c5342fe33f8c33ed733ead33ea838ae0387c933f8433edb33eaf33eaa33e7638ad2389bb33f7833edf33eb133eac33e0838acc389bf33f6c33ee333eb333eae33dfc38ac03892133f6033ee733eb533eb033e0038a463892533f5633eeb33eb233e79)
  (.lf
  0x2e8c62e87e2e8742e86a2e8602e85a2e84c2e8462e83a2e82e2e8202e8262e7e62e7a82e7642e71c2e6de2e69a2e6542e61c2e5d62e59c2e55e2e8d92e8d72e8d32e8d12e8cf2e8cd2e8c92e8c52e8c32e8c12e8bd2e8bb2e8b92e8b72e8b32e8b12e8af2e8ad2e8a92e8a72e8a52e8a32e89f2e89d2e89b2e8992e8952e8932e8912e8c72e88f2e88b2e8892e8872e8832e8812e87f2e87d2e8792e8772e875)))
  (.nd (.nd (.lf
  0x20804208082080c2081020814208182081c1e1c01e1c41e1c81e1cc1e1d01e1d41e1d81e1dc1e1e01e1e41e1e81e1ec1e1f01e1f41e1f81e1fc1e2001e2041e2081e20c1e2101e2142244a2244e22452224562245a2245e22462224662246a2246e22472224762247a2247e22482224862248a2248e22492224962249a2249e1e67c1e6801e6841e6881e68c1e6901e6941e6981e69c1e6a01e6a41e6a81e6ac)
  (.lf
  0x284cc284c2284b8284ae284a42849a28490284862847c28472284682845e284542844a28440284362842c2842228418284102853b285392853528533285312852f2852b285292852728525285212851f2851d2851b285172851528513285112850d2850b28509285072850328501284ff284fd284f9284f7284f5284f3284ef284ed284eb284e9284e5284e3284e1284df284db284d9284d7284d5284d1284cf))
  (.nd (.lf
  0xbdad0be720bdb10be680bdb50be5e0bdb90be540bdbd0be4a0bdc10be400bdc50be360bdc90be2c0bdcd0be220bdd10be180bdd50be0e0bdd90be040bddd0bdfa0bde10bdf00bde50bdeb0c8650ca0a0c8690ca000c86d0c9f60c8710c9ec0c8750c9e20c8790c9d80c87d0c9ce0c8810c9c40c8850c9ba0c8890c9b00c88d0c9a60c8910c99c0c8950c9920c8990c9880c89d0c97e0c8a10c9740c8a50c96a)
  (.lf 0)))

def shaXorReads403 : BTree :=
  .nd (.nd (.nd (.lf
  0x14b29141bf14170141471412c1406c174c2174bc159e5159dd14b2b141c314149141321412e1406e174c6159e7159df14b2d141c71414b141341413014070184ee169411693115c1914e9d14e9314e9014e8e14e8618526184cc169431693315c1b14e6f14e6514e6214e6014e581851c1849a169471693515c1d14e4114e3714e3414e3214e2c1851218460169491693715c1f14e1514e0b14e0814e0614e00)
  (.lf
  0x69310692f0692b06929068e9068f9068e7068e3068ab068a9068a5068a30686306873068610685d06825068230681f0681d067df067dd067d9067d706797067a706795067910675706767067550675106717067270671506711066d9066d7066d3066d106693066910668d0668b0664d0664b0664706645066050661506603065ff065c5065d5065c3065bf0658506595065830657f0654706545065410653f))
  (.nd (.lf
  0xfb160fb0d0fab60faad0fa580fa4f0f9fe0f9f50f9a20f9990f9400f9370f8ec0f8eb174711743f1743217407173fa173cb173be1738d1738017353173461731b1730e172e3172d6172ad172a0172771726a1723b1722e171fd171f0171c1171b41718517178171491713c1711117104170db170ce170a117094170691705c1702f1702216ff516fe816fbd16fb016f8716f7a16f4d16f4016f1516f0816edb)
  (.lf 0))) (.nd (.nd (.lf
  0x7214071ce07148070c20703c06fb606ef0075ef075d7075d3075b307557075530752d075110750d074e7072cb072c7072a107285072810725b0723f0723b07215071f9071f5071cf071730716f07149070ed070e9070c307067070630703d06fe106fdd06fb7075d6075970756f075960755607510074cb074a3074ca0748b074630748a0744b074230744a0740b073e30740a073cb073a3073ca0738b07363)
  (.lf
  0xb3ad0b3ab0b3a90b3a70b3a30b3a10b39f0b39d0b3990b3970b3950b3930b38f0b38d0b38b0b3890b3850b3830b3810b37f0b37b0b3790b3770b3750b3710b36f0b36d0b36b0b3670b3650b3630b3610b35d0b35b0b3590b3570b3530b3510b34f0b34d0b3490b3470b3450b3430b33f0b33d0b33b0b3390b3350b3330b3310b32f0b32b0b3290b3270b3250b3210b31f0b31d0b31b0b3170b3150b3130b311))
  (.nd (.lf
  0x280e027f1d2804227f6f2803627ecf2802c27edf2802027ee12801227ead2800c27fbf27ff827eab27fc827e8327e8a27e8927e6627e4127e1e27e0b27b5827b0727b4c27ac727b4227acb27b3827ab127b2e27b0d27ad728ea92912228e55290cc28e83290c228e3b290bc28e2b290ae28e1f290a428e132909c28e452907228dfd2906828df12905028deb2904828dd92903028dcd2901a28dc128fee28db5)
  (.lf 0)))

def shaXorReads404 : BTree :=
  .nd (.nd (.nd (.lf
  0xf39414e4412280299c029600141b0139b00fba00f3b412224118a029560291a0141d0139d00fbc00f3d41218411ac02910028d20141f0139f00fbe00f3f41210411d4028e00289201421013a100fc000f41412044112e028a00285201423013a300fc200f43411fa410d2028600281201425013a500fc400f45411f240fee02820027d201427013a700fc600f47411e640f58027e00279201429013a900fc8)
  (.lf
  0x21dfc2189221df02168e21dc02156e21cb62189621cb02189a21ca62189e21c562169221c502157221c0a2157621b8c2157a21b302157e21a562158221a422158621a202158a21a162158e21a1021592219ca215962197c218a2218b0218a6218c2218aa2169821696215b02159a215a42159e215be221f0223ec22156223e22215a223d8220bc223cc2200a223c22202c223b8222f2223ae2215e223a422162))
  (.nd (.lf
  0x33a6233a14339e6356e835702356b8356623560c355d6355ac355863555635536354ce354aa3547e354663543e354243540c354e4353d6353c43539c353ac353583526a35276350c634fe434ff834f9634f4c34b1434abc36b2636ad236aa436a8236a5c368e03682e3680c367da3672e366d43674e3668e36616365aa36594365683652a3646c364403645a363783609a35ff235fd835f6435f1c35ed835e90)
  (.lf
  0x383b0383a63839a3838e383843837a38370383643836838356383483833c38334383583832038324383103839c382f8382fc382e83839e382703824a382363822c3822638278382123820838140383b1383af383ab383a9383a7383a5383a13839b383993839738393383913838f3838d383893838738385383833837f3837d3837b383793837538373383713836f3836b383673836538369383633835f3835d)))
  (.nd (.nd (.lf
  0x5e0205d4208cb208c640768d0760d06a7f05eed05e5f05e4805e0405d4408c7208c260768f0760f06a8105ef105e6105e4a05e0605d4608c1c08be0076910761106a8305e7505e6305e4c05e0805d4808bd608b98076930761306a8505e7905e6505e4e05e0a05d4a08ba608b58076950761506a8705e7d05e6705e5005e0c05d4c08b6608b18076970761706a8905e8105e6905e5205e0e05d4e08b2608ada)
  (.lf
  0x2fd932fd8f2fd8d2fd8b2fd892fd852fd832fd812fd7f2fd7b2fd792fd772fd752fd712fd6f2fd6d2fd6b2fd672fd652fd632fd612fd5b2fd552fd532fd512fd4d2fd4b2fd492fd5f2fd472fd432fd412fdb92fd3f2fd3b2f8b32f8b52f8b12f8ad2f8ab2f8a92f8a52f8a32f89f2f89d2f8992f8972f8952f8932f88f2f88d2f8892f8872f8832f8812f87f2f87d2f8792f8772f8732f8712f86d2f86b2f869))
  (.nd (.lf
  0x10ef111182110c11117810ef31116e110bf11164110bd11150110bb1114a110b91112c110b711126110b511108110b311102110b1110e4110af110de110ad110a3121e51258a121b9125821217912578121351256c120f112564120a91245a121f3124521233b124481233d124421233f12436123391242c11efb1242011eb71241611e731240e11e2f1240611deb123fc11da3123f011d59123dc11d15123d4)
  (.lf 0)))

def shaXorReads405 : BTree :=
  .nd (.nd (.nd (.lf
  0x237f922c712218121b7c219c9219be2591025775235b122c332218521b7e2197f21974257cc257772359322c352218921b742198121940257c6257792356922bd3222ed2218d21b762194225809257bc2354322aef2213921dd921b78216d6257b6257712350322a0d2213b21ddd219c82163a257d9257a82350522a0f2213d21de12197e2163c2578b233452299b2213f21de5219802163e26937251f12405f)
  (.lf
  0x14a0c14a02149f8149ee14e8514e8314e7f14e7d14e5714e5514e5114e4f14e2b14e2914e2514e2314dff14dfd14df914df714dd314dd114dcd14dcb14da714da514da114d9f14d7b14d7914d7514d7314d4f14d4d14d4914d4714d2314d2114d1d14d1b14d0114cff14cfb14cf914ce514ce314cdf14cdd14ccf14ccd14cc914cc714cbb14cb914cb514cb314ca714ca514ca114c9f14c9314c9114c8d14c8b))
  (.nd (.lf
  0x118ec0ffe80ffd90ffd00ffcd0ffc00ffa41ea5b1ea251ea0e11927118ee1189f0ff860ff770ff6e0ff6b0ff600ff481ea5f1ea101e9e11192b118f0118a30ff2a0ff1b0ff120ff0f0ff020fee81ea631ea121e9e51192f118a71189e0feca0febb0feb20feaf0fea40fe881ea671ea141e9e911933118ab118a20fe6a0fe5b0fe520fe4f0fe420fe2a1ea6b1ea161e9ed11937118af118a60fe0c0fdfd0fdf4)
  (.lf
  0xddd10ddcd0ddcb0ddc90ddc70ddc30ddc10ddbf0ddbd0ddb90ddb70ddb50ddb30ddaf0ddad0ddab0dda90dda50dda30dda10dd9f0dd9b0dd990dd970dd950dd910dd8f0dd8d0dd8b0dd870dd850dd830dd810dd7d0dd7b0dd790dd770dd730dd710dd6f0dd6d0dd690dd670dd650dd630dd5f0dd5d0dd5b0dd590dd550dd530dd510dd4f0dd4b0dd490dd470dd450dd410dd3f0dd3d0dd3b0dd370dd350dd33)))
  (.nd (.nd (.lf
  0x1a2cb1a2c91a2911a28d1a28b1a2531a24f1a24d1a1dd1a1d91a1d71a1671a1631a1611a12b1a1271a1251a0811a07d1a07b1a00b1a0071a00519fcd19fc919fc719f9119f8d19f8b19f5319f4f19f4d19f1519f1119f0f19ed919ed519ed319e9d19e9919e9719e5f19e5b19e5919e1d19e1919e1719d0519d0119cff1a3c11a3bd1a3c01a3881a34a1a30c1a2ce1a2901a2521a2151a2111a2141a1dc1a19f)
  (.lf
  0x114fb114f7114f5110611105f1105b1105910f5110f4f10f4b10f4910f3b10f3910f3510f3310f2510f2310f1f10f1d10edb10ed910ed510ed310ecb149a81498a1496c149501493014912148f2148d4148b81489814876148541483614816147f8147dc147bc1479e14782147661474a1472a1470c146f0146d0146b2146921467414654146361461e149a91499b149971498b1497d1497b149771496d1495f))
  (.nd (.lf
  0x3f0103ef803ef403eec03eba03eb603eae03eab03e7b03e7203e6e03e6603e3b03e3203e2e03e2603df403df003de803de503db503dac03da803da003d6e03d6a03d6203d5f03d2803d2403d1c03d1903ce903ce003cdc03cd403ca203c9e03c9603c9303c7c03c77050d6050d3050a6050a20509c0509905069050600505c05054050220501e050160501304fdc04fd804fd004fcd04f9d04f9404f9004f88)
  (.lf 0)))

def shaXorReads406 : BTree :=
  .nd (.nd (.nd (.lf
  0x2f3492eefb2ec832e9b02e24433e6f3225f3132b3017f30175301723017033fca33e73322633132d301533014b301483014633fc033e5b3228f3130b300a7300833007c3007033fb833e4f32161311f3300a9300853007e300723431533fae321493117b300ad300873008030074342f933fa6321bb3114d30174300af30089300763431b33f9e32139310d53014a300b33008b30078342f333f96321b131073)
  (.lf
  0x30f2c30ecc30e8230e4e30e3230dac30d7a30d6430d4630d0630cda30b6630b2830b0a30ad830a7630a1c309d8309b2309a2312bf3128931285312813125331257312513124d311e9311f7311e7311e33112d3112b31127311253112331199311213111d310ab310af310a9310a53103f310433103d3103930ff330ffb30ff130fed30f9d30f9b30f9730f7530f4930f5130f4730f4330f1f30f2d30f1d30f19))
  (.nd (.lf
  0x35ba535b8a2bc762bc33263312632c2590a2577636e8236dcb35c3935ba735b8e2bc6c2bc37263332632e257c42577836e5436dcf35c3d35ba935b922bc622bc3b263352633025808257be36e4e36dd335bab35b942bc582bc3f2633726332257b42577036e2236dd735bad35b962bc4e2bc432633926334257d8257aa36ddd35baf35b982bc492633b263362578a37d9d36d6936d4d36d362c5892759127577)
  (.lf
  0x24fbc24fb224fa824f9e24f9424f8a24f8024f7624f6c24f6224f5824f4e24f4424f3a24f302505d2505b250572505525053250512504d2504b250492504725043250412503f2503d250392503725035250332502f2502d2502b250292502525023250212501f2501b250192501725015250112500f2500d2500b2500725005250032500124ffd24ffb24ff924ff724ff324ff124fef24fed24fe924fe724fe5)))
  (.nd (.nd (.lf
  0x4b2e04af004aaa04a6404a1e049d8049900495004910050a0050580501a04fd404f8c04f4c04f0e04ec804e8204e3c04df604dae04d6e04d2e04cf004ca804c6804c2804bea04ba204b6204b2204ae404a9e04a5804a12049cc04984049440490405cfc05cbe05c8005c3805bf805bba05b7205b3205af205ab405a6e05a28059e20599c0595605910058c8058880584805808057c80578a0574205704056bc)
  (.lf
  0x1e5171e51b1e5151e5111e50f1e50d1e5091e5071e4e31e4e71e4df1e4db1e4d9221e2220ee220562203221fc021e7e21e7621e6821e4a21e4021d8421d3c21cc621c9a21c6021c2021ba821b9621b3e21af821a4a21a3421a32219dc2198c218ec218da218c8216ac215d2215c2221e3220ef220e3220df220592205722055220512204f2204d220492203321fd321fd121fcd21fcb21fc121fbf21e8321e81))
  (.nd (.lf
  0xa8c80a9400a89a0a9360a86e0a92c0a8420a9220a8160a9180a7ea0a90e0a7be0a9040a7920a8fc0a8f80a8d00a8cc0a8a20a89e0a8760a8720a84a0a8460a81e0a81a0a7f20a7ee0a7c60a7c20a79a0a7960a7720b26a0b40e0b26e0b4040b2720b3fa0b2760b3f00b27a0b3e60b27e0b3dc0b2820b3d20b2860b3c80b28a0b3be0b28e0b3b40b2920b3aa0b2960b3a00b29a0b3960b29e0b38c0b2a20b382)
  (.lf 0)))

def shaXorReads407 : BTree :=
  .nd (.nd (.nd (.lf
  0x17649166c916055160251601a15f781901d18ff81764b166cb16059160271601c15f7a18fdb18fb61764d166cd1605d160291601e15f7c18f9b18f761764f166cf160611602b1602015f7e18f5718f321765116659160651602215fed15e8c18f1118eec175f716641160691602415fef15e8e18ecb18ea6175d11666f1606d1602615ff115e9018e8518e60175c716663160711602815ff315e9218e3f18e1a)
  (.lf
  0x3e9ef3e9bf3f2c93f2cf3f2b33f2af3f2613f25d3f2533f2413f23d3f2393f2593f2373f2333f22f3f2253f2213f2273f21f3f21b3f2833f2173f2133f2073f1e73f1e53f1ed3f1e33f1df3f1db3f1d13f1cf3f1cd3f1bd3f1bb3f2973f1b93f1b33f1b13f1a13f19b3f1993f15b3f1593f1553f0e13f0df3f0dd3f0d93f0d53f0d13f0cd3f0c73ee0f3ee0b3ee073ee173ee033edff3ed7f3ed7b3ed773ed4e))
  (.nd (.lf
  0x33ee83403033eec3402433ef03401c33ef43401433ef83400833efc33ffe33f0033ff233f0433fec33fe833f0c34dca3521c34dce3521234dd23520c34dd63520234dda351f634dde351ee34de2351e434de6351de34dea3506e34dee3506834e943505e34e983504e34e1235048350303504034e16350363503434f2234e1a34f1834e9c34f0c34ea034f0434ea434efa34ea834ef034e1e34ee434e2234edc)
  (.lf 0))) (.nd (.nd (.lf
  0x1e76a1e7541e73e1e7281e7121e6fc1e6e6239ea239e0239d6239cc239c2239b8239ae239a42399a23990239862397c23972239682395e239542394a23940239362392c23922239182390e23904238fa238f0238e6238dc238d2238c8245a4245902457a245642454e24538245222450c244f6244e0244ca244b42449e24488244722445c24446244302441a24404243ee243d8243c2243ac243962438024368)
  (.lf
  0x409a040500400a03fce03f8e03f4e03f0e03ec403e8803e4803dfe03dc203d7803d3203cf603cac0446b04445044410443d04409044070440304401043c3043c1043bd043bb0437d0437b04377043750433504339043330432f042f5042f9042f3042ef042b7042b5042b1042af0426f042730426d04269042310422f0422b04229041e9041ed041e7041e3041ab041a9041a5041a30416304167041610415d))
  (.nd (.lf
  0x25ce025c8625c8225c6825c2a25bc025bba25aee25b6e25aea25b6825aec25b1a25ae825ae425aae25a6e25a6425a5e2594225a2225944259ea25940259ae2591e2592025904258c8258c2258bc257d0258502580c2584a257b2257dc257942578c26faa2706e26f9e2706826fac26fec26f8826f7a26eca26ec226e4026eba26e3e26eb426e1e26e1826da226d9826d7a26d8e26d8a26d7e26d7426d5026ce4)
  (.lf 0)))

def shaXorReads408 : BTree :=
  .nd (.nd (.nd (.lf
  0xd5740d54500534004740da100d7a70d5c70d5760d5490052a004720d9ee0d7ab0d5cb0d5780d54d00520004700d9cc0d7af0d5cf0d57a0d551005160046e0d9aa0d7b30d5d30d57c0d5530050c0046c0d9880d7b70d5d70d57e0d555005020046a0d9660d7bb0d5db0d5800d557004f8004680d9440d7bf0d5df0d5820d559004ee004660d9220d7c30d5e30d5840d55b004e4004640d9000d7c70d5e70d586)
  (.lf
  0x30be02f8d030b402f91030aa02f95030a002f990309602f9d0308c02fa10308202fa50307802fa90306e02fad0306402fb10305a02fb50305002fb90304602fbd0303c02fc10303202fc50302802fc90301e02fcd0301402fd10300a02fd50300002fd902ff602fdd02fec02fe102fe703bef0445203bf30441a03bf7043d603bfb0439003bff0434a03c030430803c07042c803c0b0428403c0f0424203c13))
  (.nd (.lf
  0x355963556435542366dc3675436b3036adc36aac36a8a36a64368e83683636814367e236736366de36b3236ade36aae36a8c36a66368ec3683836816367e636b3636ae236ab036a8e36a68368f03683c36818367e8367383790437a44379f237a0637aee379ba3799e379823796437a2c379363791a3790637a4637a08379d437af0379a2379843796837a2e3793a379f637a0a37a48379bc379a437af23796a)
  (.lf
  0x3a4ef3a4eb3a4e93a4e73a5013a4e53a4e13a4df3a4dd3a4d93a4d53a4d33a4d13a4cd3a4c93a4c73a4c53a4c13a4bd3a4bb3a4b93a4b53a4b13a4af3a4ad3a4a93a4a53a4a33a4a13a49d3a4993a4973a4953a4913a48d3a48b3a4893a4853a4813a47f3a47d3a4793a4753a4733a4713a46d3a4693a4673a4653a4613a45d3a45b3a4593a4553a44b3a4493a4473a4433a3fb3a3f93a3f73a3f33a3f13a3ed)))
  (.nd (.nd (.lf
  0xa5aa0a5a4104580fc140bcd70bc570b1190a8bf0a7510a7340a5980a5921044e0fbba0bcd90bc590b11b0a8f30a8910a7200a5860a580104440fb5a0bcdb0bc5b0b11d0a8c70a8650a70a0a5740a56e1043a0fafa0bcdd0bc5d0b11f0a8990a8390a6f60a5620a55c104300fa980bcdf0bc5f0b1210a86d0a80d0a6e20a5500a54a104260fa3c0bce10bc610b1230a8410a7e10a6ce0a53e0a5381041c0f9e0)
  (.lf
  0x324b5324b1324ad324ab324a9324a7324a3324a13249f3249b3249932497324af32495324913248f3248d324893248732485324833247f3247d3247b324793247532473324713246f3246b324693246732465324613245f3245d3245b324573245532453324513244d324473242b32429324253241f323fb323f9323f5323f1323cd323cb323c7323bf323a5323a33239f3239d3239b32399323953239332391))
  (.nd (.lf
  0x330e632ff332fe832f8232a7532f6632a4132f60329f532f4a329bb32f33329583294d328f8328e832865328d63283b328c232809328b5327ba327a5347dd3477f346ce346af34652346553462e34611345a6345c53458c345a9345403453a3444b344f6344b5344d6344353446b3442234405343c8343cb343a2343953437c3436b3434c3433c342e134334342cd343203423d34207341c2341af3417834167)
  (.lf 0)))

def shaXorReads409 : BTree :=
  .nd (.nd (.nd (.lf
  0x2c6512b32f2a3b92a21429fbb29f1e2e2912e2862c6532b3312a4bf2a3972a1fa29f082e2812e2722c62d2b3332a4c12a36b2a1da29ea22e2c12e1742c6352b0ef2a4c32a34f2a1b029ea42e1692e1582c15f2b0f12a4c52a32d29fb829e4a2e1552c1232b0f32a4c72a30529fba29e1e2f7532dba12c8132ba4b2b9c32b9b82b8a82f7342f6832db992c8152ba4f2b9c52b9ba2b8aa2f72a2f6792db5b2c81d)
  (.lf
  0x1a73d1a73b1a7371a7351a7331a7311a7271a7251a7231a7211a71d1a6ed1a6eb1a6e91a6e71a6e31a6e11a6df1a6dd1a6d91a6d71a6d51a6d11a6cf1a6cd1a6cb1a6c71a6c51a6c31a6c11a6bd1a6bb1a6b91a7131a6b71a6b31a6b11a6af1a6ab1a42b1a4291a42719d6d19d5f19d2919d2719d2519d1d19cdd19cdb19cd719cd519c991b7e21b7d81b7ce1b7c41b75a1b72a1b7261b7121b7081b6fe1b6e8))
  (.nd (.lf
  0x1bb6d16d3916d1f16d1a159c42574a254032429b2427d242661beb01bb7116d3d16d2116d1c159a81599025736254072429f2427f242681be9c1bb7516d4116d2316d1e1596e159562572025445242a3242812426a1be861bb7916d4516d2516d20159361591c2570a25449242a7242832426c1be701bb7d16d4916d2716d22158fc158e0256f42544d242ab242852426e1be5a1bb8116d4d16d2916d24158c0)
  (.lf
  0xea750ea710ea6f0ea6d0ea6b0ea670ea650ea630ea610ea5d0ea5b0ea590ea570ea530ea510ea4f0ea4d0ea490ea470ea450ea430ea3f0ea3d0ea3b0ea390ea350ea330ea310ea2f0ea2b0ea290ea270ea250ea210ea1f0ea1d0ea1b0ea170ea150ea130ea110ea0d0ea0b0ea090ea070ea030ea010e9ff184e0184b0184761843e18404183cc183941835418314182d4182901824a18208181c81818818144)))
  (.nd (.nd (.lf
  0x236ae2369e236872368123686236752366f23674236622364623632236192361523618236092360323608235f0235dc235c3235bf235c2235aa2358f2357f2358e235522352423caa23c9e23c9223c8623c7a23c6e23c6223c5623c0623bfa23bee23be223bda23ba223b9a23b3423b2c23b2223b1a23ae823ada23abc23a6223a5623a2223a1a23a08232462323e232342424c24242242382422e242242421a)
  (.lf
  0x16fd516fd316fcf16fc716f9f16f9d16f9916f9116f6916f6716f6316f5716f2f16f2d16f2916f1f16ef716ef516ef116ee516ebd16ebb16eb716ead16e8516e8316e7f16e7316e4316e4116e3d16e3316e0116dff16dfb16df316dc116dbf16dbb16db716d9f1747f173df173db173d9173a11739d1739b1724f1724b17249172111720d1720b171d5171d1171cf1719917195171931715d1715917157170b5))
  (.nd (.lf
  0x14d9e14c2014aa7149de14d7214c1614aa5149e214d4614c0c14aa3149e014d1a14c0214aa1149da14cf814bf814a9f149d214cdc14bee14a9d149d414cc614be414a9b149d814cb214bd614a99149d614c9e14bd014a97149d014c8a14bc214a95149c814c7614bbc14a93149ca14c6214bae14a91149ce14ba814a8f14a6a149cc14b9a14a8d14a60149c614b9414a8b14a56149be14b8614a8914a4c149c0)
  (.lf 0)))

def shaXorReads410 : BTree :=
  .nd (.nd (.nd (.lf
  0x3bb1d3bb173bb143bb123d1d93c4213ba7e3ba6b3ba633ba5b3ba583ba563d27b3c36f3b9bc3b9b93b9b13b9ae3b9ac3b9a53d1af3c3073b90e3b9033b8fd3b8fa3b8f83b8f33d1653c2e13bbd23b8c83b8c53b8773b8713b8683d10f3c3a73bb163b7f13b7ed3b7e43b7e03b7db3d0f73c29f3ba5a3b76f3b76d3b7693b7603b75e3d0db3c2793b9b03b7403b73d3b7373b7353b7323d0a93c2573b8fc3b6c5)
  (.lf
  0x37ad137acf37abb37aad37aab37ab137aa937aa537aa337ac537aa137a9d37a9b37a9937a9537a8d37a7737a7937a7537a7137a6f37a6d37a6937a6737a6537a6337a5f37a5537a5337a5137a4d377bf377bd377bb377b7377af377ad377cb377ab377a7377a5377a33779f3779137789377953778737783377813777f37775377713717f371833717b371753716d3716b371613715f3714d3714b3713737131))
  (.nd (.lf
  0x39e3739905398b6398873262631b952c6032c5d62c58b2c3002c10c39f4e39e3b39909398b83988b3261631b992c6052c58f2c5862c2fa2c10a39f4839e3f3990d398ba3988f3260e31b9d2c6092c5932c58a2c2e82c10839f3c39e4339911398bc398933260631ba12c60b2c5972c58e2c2e22c10639f3039e4739915398be39895325fc31ba52c60f2c59b2c5922c2d02c10439f2039e4b39919398c039897)
  (.lf
  0x2adf72adf32adf12ade32ade12addd2addb2adcd2adcb2adc72adc52adb72adb52adb12adaf2ada12ad9f2ad9b2ad992ad8b2ad892ad852ad832ad752ad732ad6f2ad6d2ad5f2ad5d2ad592ad572ad492ad472ad432ad412ad332ad312ad2d2ad2b2ad1d2ad1b2ad172ad152ad072ad052ad012acff2acf12acef2aceb2ace92acdb2acd92acd52acd32acc52acc32acbf2acbd2acaf2acad2aca92aca72ac99)))
  (.nd (.nd (.lf
  0x2698a273282731e273142730a27300272f6272ec272e2272d8272ce272c4272ba272942728c27274272582724e272442721e27214271f0271d8271c8271c0271b826aa026a8626a7626a6626992287942878c28740287382870c286ac286a42869228664286442862828612285fa285de285d6285c2285a2285942857a285702855e2854c280c427e7027e3427c2027c0e27bfc27bea27b18283a02838e28376)
  (.lf
  0x23e7223e6c23e5c23e5223e4823e3e23e3623e3023e2023e1623e0e23cf623f2f23f2d23f2b23f2723f2523f2323f1f23f1d23f1b23f1923f1523f1323f1123f0f23f0b23f0923f0723f0523f0123eff23efd23efb23ef723ef523ef323ef123eed23eeb23ee923ee723ee523ee123edf23edd23ed923ed723ed523ed323ecf23ecd23ecb23ec923ec723ec323ec123ebf23ebb23eb923eb723eb523eb123eaf))
  (.nd (.lf
  0x2def22dff62def02dfec2deee2dfe22de7e2dfd82df342dfce2df0e2dfc42de7c2dfbc2dfb22df962df8c2df622deec2df582deea2df4e2dee82df442de7a2df3c2df322df162df0c2de882de782de762f0ae2f18c2f0182f1842f0b42f17c2f0122f1722ef522f15e2ef662f1542ef3e2f14c2edfc2f1422ed962f1382ee662f12e2ed442f1262ee602f11c2ece82f1122f09e2f10a2f00c2f1022eee82f0fa)
  (.lf 0)))

def shaXorReads411 : BTree :=
  .nd (.nd (.nd (.lf
  0xc8010bd7f0bd630bd4c0bd080bc48122a411da4107f9107910c8030bd830bd650bd4e0bd0a0bc4a1229a11d5a107fb107930c8050bd870bd670bd500bd0c0bc4c1229411d12107fd107950c8070bd8b0bd690bd520bd0e0bc4e1228811cce107ff107970c8090bd8f0bd540bd2b0bd100bc501228011c8610801107990c80b0bd930bd560bd2d0bd120bc521227611c3c108031079b0c80d0bd970bd580bd2f)
  (.lf
  0x41bd541bd341bcf41bb941bb741bb541ba741b9741b9541b9341b8f4191541913419114190d418ff418fd41903418fb418f7418f5418f3418d9418d5418d3418db418d1418cd415274152541521414e9411d34122f411d1411cd411cb01eec01eb801e7401e2e01de601da601d6601d2801ce001ca001c6201c1c01bd401b9601b5001b0a01ac201a8401a3c019fc019bc0197e01936018f6018b80187001830))
  (.nd (.lf
  0x2554e25544255382552e25522255182550c25502254f6254ec254e0254d6254ca254c0254bc254ba268dc268c8268bc268b2268a62689c26890268862687a26870268642685a2684e26844268382682e26822268182680c26802267f6267ec267e0267d6267ca267c0267b4267aa2679e26794267882677e26772267682675c26752267462673c26730267262671a2671026704266fa266ee266e4266d8266ce)
  (.lf 0))) (.nd (.nd (.lf
  0x39c2839c1e39c1439c0a39c0039bf639bec39be239bd839bb039ba639b9c39b9239ace39ac439aa239a7a39a6239a4e39a4439a2c39a24399e8399cc399c2399ba399a43999a3999039792397863977e397763976a397603975839750397463973c39732397283971e397143970c39700396f6396ec396e4396da396d0396c6396bc396b2396a83969c39692395bc3959e395863a0983a08c39fe039fd839fcc)
  (.lf
  0x9975099710994109933099310992d098ff098f1098ef098eb098bf098b1098af098ab0987f098710986f0986b0983f098310982f0982b097fb097ed097eb097e7097b5097a7097a5097a10977309765097630975f0973309725097230971f096f3096e5096e3096df096af096a10969f0969b096690965b09659096550962309615096130960f095dd095cf095cd095c9095970958909587095830955509547))
  (.nd (.lf
  0x663b0662e065f9065ec065b9065ac065790656c0653506528064f3064e6064af064a2064690645c0642306416063dd063d00639b0638e063570634a0631106304062cf062c20628b0627e062490623c06205061f8061c3061be061a9075e9075ad075a00756b0755e075270751a074e1074d40749f074920745f074520741f07412073df073d20739f073920735f073520731f07312072df072d20729b0728e)
  (.lf 0)))

def shaXorReads412 : BTree :=
  .nd (.nd (.nd (.lf
  0x3b1d737969379333786c371423713c3d17e3d14a3b89b3b8973b1c737a2f379173785237108371023d12a3b8053b80137e813793b3790137840371223710c3e7783d01b3d0173cbff3bd773bd703bbe13bbc03bbbe3eb183e7283cffb3cff13cc693bb9f3bb983bb973bb903bb8e3eb023e71e3cf9f3cf9b3cbc33baad3baa73ba763ba723ba703eaea3e7643cfaf3cfab3cc133ba3c3ba323ba313ba2e3ba21)
  (.lf
  0x1d4c0169a01d080169e01cc6016a201c86016a601c42016aa01bfc016ae01bba016b201b76016b601b30016ba01aea016be01aa8016c201a64016c601a22016ca019e2016ce019a2016d20195e016d60191c016da018dc016de01898016e201856016e601816016ea017d2016ee01790016f201750016f6016fc022e402b58022e802b20022ec02adc022f002a96022f402a54022f802a10022fc029ce02300))
  (.nd (.lf
  0x3ebe43e9443ebd83e9403ebce3e9143ebc63e8f43ebbc3e9043ebb43e94a3eba43e8ce3eb9a3e8c63eb943e9563eb843e96a3eb7e3e8863eb763e88e3e8663e8503e8443e8303e8323e8183e80e3e7ee3e7fe3e22e3e2383e2263e2103e1de3e1e63e0943e04c3dfc03dfe03dfb23de9c00600006020060400606006080060a0060c0060e00610006120061400616006180061a0061c0061e006200062200624)
  (.lf
  0x34c4f34c4b34c4934c4534c6134c4334c3f34bf934bf734bf334bef34bed34beb34be734be534be334bfb34be134bdd34bdb34bd934bd534bd134bcf34bcd34bc934bc734bc334bc134bbd34bbb34bb934cd734bb734bb334bb134baf34bab34b9f34b9d34b9b34b9734b9334b9134b8f34b8b34b8934b8734bff34b8534b8134b7f34b7d34b7934b6934b6734b6534b6134b5f34b5d34b6b34b5b34b5734b55)))
  (.nd (.nd (.lf
  0xf7500f7460f73c0f7320f7280f71e0f7140f70a0f7000f6f60f6ec0f6e20f6800f6840f6880f68c0f6900f6940f6980f69c0f6a00f6a40f6a80f6ac0f6b00f6b40f6b80f6bc0f6c00f6c40f6c80f6cc0f6d00f6d40f84e0f8520f8560f85a0f85e0f8620f8660f86a0f86e0f8720f8760f87a0f87e0f8820f8860f88a0f88e0f8920f8960f89a0f89e0f8a20f8a60f8aa0f8ae0f8b20f8b60f8ba0f8be04460)
  (.lf
  0x2c30d2c30b2c3072c3032c3012c2ff2c2fb2c2f72c2f52c2f32c2ef2c2eb2c2e92c2e72c2e32c2df2c2dd2c2db2c2d72c2d32c2d12c2cf2c2cb2c2c72c2c52c2c32c2bf2c2bb2c2b92c2b72c2b32c29f2c29d2c29b2c2972c27f2c27d2c27b2c2772c25f2c25d2c25b2c2572c23f2c23d2c23b2c2372c21f2c21d2c21b2c2172c2152c1fd2c1fb2c1f72c1f52c1d92c1d72c1d32c1d12c1a52c1a32c19f2c19d))
  (.nd (.lf
  0x2ffaf302ec2ffed302e0300f7302d4300f3302ce2ff11302c4302b930297301263011c3000b301162ff993010a2ffb3300fe2fff1300f82ffcf2ff792ff342ff2c2ff0f2ff27312fb31518312ab31510312cf3150631299314f831273314ee31207314e43113d314da311a9314d2310ed314c4310f1314bc31013314b230f8d314a830f63314a0312d331496312a73148e3126f314803120b3147a3114131472)
  (.lf 0)))

def shaXorReads413 : BTree :=
  .nd (.nd (.nd (.lf
  0x1a6151a5fe1a5ce1a5381f4301f2d21c5291c5251b6b31a6271a6171a6001a5d01a53a1f4241f2c61c4f11c4ed1b6b51a62b1a6191a6021a5d21a53c1f41c1f2bc1c4cf1c4cb1b6b71a62f1a61b1a6041a5d41a53e1f4121f2b21c4711c46d1b6b91a6331a61d1a6061a5d61a5401f4041f2a41c49f1c49b1b6bb1a6371a61f1a6081a5d81a5421f3fa1f29a1c3c11c3bd1b6631a63b1a6211a60a1a5da1a544)
  (.lf
  0xbb690bb6d0bb670bb630bb610bb5f0bb5d0bb590bb570bb550bb510bb4f0bb4d0bb4b0bb470bb450bb430bb410bb3d0bb3b0bb350bb330bb310bb2d0bb2b0bb390bb290bb250bb230bb370bb210bb1d0bb1b0bb190bb170bb130bb110bb0f0bb0b0bb090b9ed0b9eb0b9e70b9e50b9c30bafc0baf20baea0bade0bada0bacc0babe0bab40bab00baa00ba960bac80ba820ba780ba6c0ba680ba6e0ba520ba84))
  (.nd (.lf
  0x385e538718385b1387103870d3859a38581385833856a385b3385563855b3901d3904e390113904838ffb39036390213900038fe738fd638fd53903138fc238f8a38e4f38f4638e4338f3c38e3538ef038e2b38ee638e1938ed838e1138ed238e0138e8a38df538e7838ddb38e7238dd138e5a38dc738db838db738d9738d9438d6a38d5138d5538d4438d2c38d2338cf638cdb38ce438cc938cbd38cba38c98)
  (.lf
  0xfca70fca30fca10fc4d0fc4b0fc470fc450fbf10fbef0fbeb0fbe90fb930fb910fb8d0fb8b0fb310fb2f0fb2b0fb290fad10facf0facb0fac90fa730fa710fa6d0fa6b0fa190fa170fa130fa110f9bd0f9bb0f9b70f9b50f95b0f9590f9550f9530f8f3103fc103aa10348102ec1029010232101d41017a1011a100be10062100040ffa20ff460fee60fe860fe280fdca0fd680fd0c0fcac0fc500fbf40fb96)))
  (.nd (.nd (.lf
  0x10b3710b3a10b1e10a2c10a2210a1810a0e10a04109fa109f0109e6109dc109d2109c8109be109b4109aa109a0109961098c10982109781096e109641095a10950109461093c10932109281091e109141090a1189a11890118861187c11872118681185e118541184a11840118361182c11822118181180e11804117fa117f0117e6117dc117d2117c8117be117b4117aa117a0117961178c1178211778121b6)
  (.lf
  0x1185f1185b118591185711855118511184f1184d1184b118471184511843118411183d1183b118391183711833118311182f1182d118291182711825118231181f1181d1181b118191181511813118111180f1180b11809118071180511801117ff117fd117fb117f7117f5117f3117f1117ed117eb117e9117e7117e3117e1117df117dd117d9117d7117d5117d3117cf117cd117cb117c9117c5117c3117c1))
  (.nd (.lf
  0x10b19121e2121a6121621211e120da12090120481200011fb811f7011f2811ee411ea011e5c11e1811dd411d8a11d4011cfc11cb811c6e11c2411bda11b9611b4e11b0611aba11a7011a24119d4119d9119d5119d312c1812bfe12be212bc012ba412b8812b6612b4a12b2e12b1212af612ada12abe12a9c12a7a12a5e12a4212a2012a04129e2129c6129aa1298e12972129501292e1290c128f0128d4128d9)
  (.lf 0)))

def shaXorReads414 : BTree :=
  .nd (.nd (.nd (.lf
  0x2c76a2c4902a7552a7512921b287a42862728625286222861c2c74e2c4842a73f2a73b29229287cc287a72860928606286002c71e2c45a2a71f2a71b291f9287cf2877a2860b285f4285e82c7162c4422a70f2a70b291e92877d2874e2860d285f6285ea2c70c2c4362a6f92a6f5291db287512871c285d1285ce285c82c6fe2c42a2a6e72a6e3291c72871f286ca285b1285ae285a82c6e82c3f22a6d72a6d3)
  (.lf
  0x291cd291cb291bf291bb291b9291b7291b3291b129199291a52919729193291912918f291832917f29173291712916d2916b2915f2915d291592914f2914d291752914b2914729145291432913f28f6128f4f28f4d28f4928f0928ef728eeb28ee928ee528ecd28ecb28ebb28eb928e9b28e9f28e9928e9528e7328e7128e6d28e6328cf32913528cf128cdd28cb928cb728cb328ca928c7f2974e2973c296cc))
  (.nd (.lf
  0x303c02649a26321224672243f2243a2116e20cf6317d43158330405303d9303c226490263252246b224412243c2116420cf8317943158730409303db303c426486263292246f224432243e2114c20cfc3178a3158b3040d303dd303c62647c263592247322445224402114620cfa317823158f30411303df303c8264722635d2247722447224422113e20cd2317723159330415303e1303ca26468263612247b)
  (.lf
  0x11d6511d6111d5f11d2111d1f11d1b11d1911cdd11cdb11cd711cd511c9511c9311c8f11c8d11c4b11c4911c4511c4311c0111bff11bfb11bf911bbb11bb911bb511bb311b7311b7111b6d11b6b11b2b11b2911b2511b2311ae311ae111add11adb11a9b11a9911a9511a9311a5111a4f11a4b11a4911a0511a03119ff119fd119b1119af119ab119a91196d1e4b61e4a21e48c1e4761e4601e44a1e4341e41e)))
  (.nd (.nd (.lf
  0x3b60e3b5c83b5843b5453b50b3b5443b5093b4cf3b5083b4cc3b48c3b44d3b4133b44c3b4103b3d03b2943b2883b27c3b26c3b2623b2123b20b3b1e53b20a3b17d3b1753b17c3b1723b0183b00e3b0043affa3aff03afe63afda3afd23afc83afbe3afb43afa63af9c3af923af8a3af823af7a3af703af663af5c3af523af483af3e3af343af2a3af203af163af0c3af023aef83bd563bd4c3bd403bd343bd28)
  (.lf
  0x1d9a91d9a71d9a51d9a11d99f1d99d1d99b1d9971d9951d9931d9911d98d1d9891d9871d98b1d9851d9811d97f1d97d1d9791d9771d9751d9731d96f1d96d1d96b1d9691d9651d9631d9611d95f1d95b1d9591d9571d9551d9511d94d1d94b1d94f1d9491d9451d9431f0501f0461f0381f0321f0201f0161f00a1effe1eff01efe41efd21efc61efda1efb41efa81efa21ef901ef861ef781ef6c1ef5e1ef54))
  (.nd (.lf
  0x37b7c3794e377103770f37b743794837700376ff37b4c37920376ee376e737b2a378f037702376df37b1e378ea376f2376eb37b04378d637704376c937ad0378ca376f0376cd37aac378ba376b6376b537aa2378b2376b0376ab37a9c37892376ed3769e37a8c37872376933768e37a6e3785c376893768637a68378543767e3767d37a5e37834376703766f3782e377bc376953766437810377b6376613765a)
  (.lf 0)))

def shaXorReads415 : BTree :=
  .nd (.nd (.nd (.lf
  0x105150cab10c03b0c00f0c0040bfb811d7f11d56105170cab30c03f0c0110c0060bfba11d3911d10105190cab50c0430c0130c0080bfbc11cf511ccc1051b0cab70c0470c0150c00a0bfbe11cad11c841051d0cab90c04b0c0170c00c0bfc011c6311c3a1051f0cabb0c04f0c0190c00e0bfc211c1911bf0105210cabd0c0530c0100bfdb0bfc411bd311baa105230cabf0c0570c0120bfdd0bfc611b8b11b64)
  (.lf
  0x38ca738ca538ca138c9d38c8d38c8f38c8b38c8738c8538c8338c7f38c7d38c7b38c7938c7538c7338c7138c6f38c6b38c3f38c3d3c95e3c94c3c91a3c90c3c8e83c8da3c8dc3c8ee3c7ec3c7a23c7ac3c7783c76e3c7623c7f03c71c3c70e3c6ec3c6fa3c6f83c6a23c6983c6463c5c23c55c3c5443c53a3c50c3c4d83c4983c3ce3c95f3c95d3c9593c9533c94d3c94b3c91b3c9193c9173c9153c9113c90d))
  (.nd (.lf
  0x1368c1399a136901394c136941390013698138b41369c13864136a013812136a4137c4136a813774136ac13722136b0136b60dbfa0ddca0dbfe0ddc00dc020ddb60dc060ddac0dc0a0dda20dc0e0dd980dc120dd8e0dc160dd840dc1a0dd7a0dc1e0dd700dc4e0dd660dc520dd5c0dc560dd520dc5a0dd480dc5e0dd3e0dc620dd340dc660dd2a0dc6a0dd200dc6e0dd160dc720dd0c0dc760dd020dc7a0dcf8)
  (.lf 0))) (.nd (.nd (.lf
  0x3c3123c2e63c3b23d0fe3d0e23d0b23d0b43d0ce3d0783d24e3d1fe3d1da3d2723d1a43d2523d2003d1dc3d2743d1a63d15a3d11a3d1003d0e43d0b63d0ba3d0d03d07a3d0663d2543d2023d1e03d27e3d1a83d15e3d11c3de5c3de6a3de1e3de203de383dfcc3df8e3df723df4c3df263df0c3dff03df743df4e3df283df0e3deb83de843dfce3de6c3de223de243de3a3dfd03dff23df903df763df503df2a)
  (.lf
  0x4de504de304ddf04ddd04da304da104d9d04d9b04d6304d6104d5d04d5b04d2304d2104d1d04d1b04cdf04cdd04cd904cd704c9d04c9b04c9704c9504c5d04c5b04c5704c5504c1d04c1b04c1704c1504bd904bd704bd304bd104b9704b9504b9104b8f04b5704b5504b5104b4f04b1704b1504b1104b0f04ad304ad104acd04acb04a8d04a8b04a8704a8504a4704a4504a4104a3f04a01049ff049fb049f9))
  (.nd (.lf
  0x4e1a04de604dd404da404d9204d6404d5204d2404d1204ce004cce04c9e04c8c04c5e04c4c04c1e04c0c04bda04bc804b9804b8604b5804b4604b1804b0604ad404ac204a8e04a7c04a4804a3604a02049f0049bc049aa0497a049680493a04928048fa048e005d2005d1005ce805cd605ca805c9605c6405c5205c2205c1005be205bd005b9e05b8c05b5c05b4a05b1c05b0a05adc05aca05a9805a8605a52)
  (.lf 0)))

def shaXorReads416 : BTree :=
  .nd (.nd (.nd (.lf
  0x136a50f1c80f1930efb30ef210ef0807b7007b2e137c6136a90f1be0f1970efb70ef230ef0c07b3007aee13776136ad0f1b40f19b0ef250ef0e07af007aae13724136b10f1aa0f19f0ef270ef1007ab007a84136b70f1a50ef290ef1207a820f6810f6670f6620f2d70f1310f1150f0fe0dbfb08eaa0f6850f6690f6640f4b60f2db0f1350f1170f1000ddcc0dbff08e8408e4a0f6890f66b0f6660f4ac0f2df)
  (.lf
  0x2bae82ba312bade2ba352bad62ba392bac82ba3d2bac22ba412bab42ba452baae2ba492ba9e2ba4d2ba982ba512ba8e2ba552ba802ba592ba782ba5d2ba702ba612ba692c8432c9de2c8472c9d42c84b2c9ca2c84f2c9c02c8532c9b62c8ed2c9ac2c8572c9a22c85b2c9982c85f2c98e2c8632c9842c8672c97a2c86b2c9702c86f2c9662c8732c95c2c8772c9522c87b2c9482c87f2c93e2c8832c9342c887))
  (.nd (.lf
  0x7a6007a6407a680864008644086480864c0865008654086580865c0866008664086680866c0867008674086780867c0868008684086880868c0869008694086980869c086a0086a4086a8086ac086b0086b4086b8086bc0929e092a2092a6092aa092ae092b2092b6092ba092be092c2092c6092ca092ce092d2092d6092da092de092e2092e6092ea092ee092f2092f6092fa092fe09302093060930a0930e)
  (.lf
  0x2621025e7025e5025e1025df025a3025a10259d0259b0255d0255b02557025550251702515025110250f024d1024cf024cb024c90248f0248d02489024870244f0244d02449024470240b024090240502403023c5023c3023bf023bd0237f0016e001640015a00150001460013c00132001280011e001140010a00100000f6000ec000e2000d8000ce000c4000ba000b0000a60009c00092000880007e00074)))
  (.nd (.nd (.lf
  0x72be072bb091fb085dd07a09079df079d4079880727807275091fd085df07a0d079e1079d60798a072320722f091ff085e107a11079e3079d80798c071ec071e909201085e307a15079e5079da0798e071ad071a409203085e507a19079e7079dc07990071660716309205085e707a1d079e9079de07992071270711e09207085e907a21079eb079e007994070e0070dd09209085eb07a25079e2079ad07996)
  (.lf
  0x36b6136b5f36b5b36b3b36b0136aff36afd36af936af736b0336af536af136aef36aed36ae936ab736a9336a7336a7136a6b368fd368fb368f7368f3368a3368a13689f3689b368993689736893368493681f36845367ef367eb3673d37d9437d8837d8c37d7637d6c37d6e37d9837d5237d4837d3c37d3437d2a37d1e37d1637d0a37d0037d0c37cee37ce437cec37cce37cc637cc037cb237ca637ca037c92))
  (.nd (.lf
  0x2ac822acbc2ac862aca62ac8a2ac902bd7a2c0c42bd7e2c0b02bd822c09a2bdc02c0842bdc42c06e2bdc82c0582bdcc2c0422bdd02c02c2bdd42c0162bdd82c0002bddc2bfea2bde02bfd42bde42bfbe2bde82bfa82bdec2bf922bdf02bf7c2bdf42bf662bdf82bf502bdfc2bf3a2be002bf242be042bf0e2be082bef82be0c2bee22be102becc2be142beb62be182bea02be1c2be8a2be202be742be242be5e)
  (.lf 0)))

def shaXorReads417 : BTree :=
  .nd (.nd (.nd (.lf
  0x23b5d239ff231c7231b423188231042724826ca824a4724a4323b5f231e1231c9231b62318a231062722026c80249ff249f723b6d231e5231cb231b82318c231082721826c5424a01249f923b11231e9231ba231952318e2310a271f626c46249df249db23af5231ed231bc23197231902310c271dc26b76249c9249c123ad9231f1231be23199231922310e271ca26b94249cb249c323aaf23267232602325f)
  (.lf
  0x23c1723c1923c1523c1123bc923bcb23bc723bc323baf23bb323bad23ba923b9323b9123b8d23b8123b7f23b7d23b7923b6123b4f23b4d23b4923b4723b4523b6523b4323b3f23b0323b0923b0123afd23afb23af923aed23ae123acd23acb23ac723ac523ab723ab523ab123aa723aa523aa323a9f23a8523a8323a8123a7d23a7b23a7923a7723a7323a7123a4323a4523a4123a3d23a3b23a3923a3523a2b))
  (.nd (.lf
  0x2d1422cf172bdc32bda52bd8e1e9681e62f1db2d1db111db0c1c3681bf162d1302cf1b2bdc72bda72bd901e9541e6331db311db131db0e1c3601bf142d12a2cf592bdcb2bda92bd921e93e1e6371db351db151db101c3581bebc2d1202cf5d2bdcf2bdab2bd941e9281e63b1db391db171db121c3481bf122d1122cf612bdd32bdad2bd961e9121e63f1db3d1db191db141c3421bebe2d10c2cf652bdd72bdaf)
  (.lf
  0x1dc351dc311dc2f1dc2d1dc2b1dc271dc251dc231dc211dc1d1dc1b1dc191dc171dc131dc111dc0f1dc0d1dc091dc071dc051dc031dbff1dbfd1dbfb1dbf91dbf51dbf31dbf11dbef1dbeb1dbe91dbe71dbe51dbe11dbdf1dbdd1dbdb1dbd71dbd51dbd31dbd11dbcd1dbcb1dbc91dbc71dbc31dbc11dbbf1dbbd1dbb91dbb71dbb51dbb31dbaf1dbad1dbab1dba91dba51dba31dba11db9f1db9b1db991db97)))
  (.nd (.nd (.lf
  0x30f3d30f1730f3c30eed30ec130eec30ea030e6f30e4330e6e30e4130e1d30e4030da630d9430d7330d5730d7230d5530d2f30d5430d2d30d0330d2c30d0130cd730d0030b7330b5930b7230b3630b1730afd30b1630aed30ad530aec30a8b30a6730a8a30a2e309cf309c5309ce30970303983038e303843037a30370303663035c30352303483033e303343032a30320303183030a30302302f8302f0302e4)
  (.lf
  0x1adaf1adad1ada91ad9b1ad691ad671ad631ad551ad231ad211ad1d1ad131ace11acdf1acdb1acd31ac9d1ac9b1ac971ac8b1ac6f1a9c01a9b61a9ac1a9a21a9981a98e1a9841a97a1a9701a9661a95c1a9521a9481a93e1a9341a92a1a9201a9161a90c1a9021a8f81a8ee1a8e41a8da1a8d01a8c61a8bc1a8b21a8a81a89e1a8941a9c11a9bf1a9bb1a9b91a9b71a9b51a9b11a9af1a9ad1a9ab1a9a71a9a5))
  (.nd (.lf
  0x294e628ec728eb828eb6294dc28e9c28e9428e8f28e7928e7428e6c28e602913228ce028cdc28cdb28cb228ca628c9b28c9428c8128c722a6342a4ab2a89a2a6322a4a02a4652a86c2a4862a4632a45a2a8502a47e2a4612a4482a8482a45f2a45c2a4582a7e42a41e2a4152a4122a7de2a3ea2a3e92a3e62a7be2a3de2a3ce2a3c52a7902a3bc2a3a72a3a22a77e2a38a2a3812a37e2a7622a36e2a35d2a35a)
  (.lf 0)))

def shaXorReads418 : BTree :=
  .nd (.nd (.nd (.lf
  0x37bca37742356633565f3465f336973368f3368c3368a3368437bba377363560d356093461b336753366d3366a336683366237bb23772a355d7355d3345cf336553364f3364c3364a3364437ba83771e355ad355a9345b33363b33633336303362e3362837b7a3770e35587355833452d336ff336f7336f4336f2336ec37b72376fe3555735553345013339d3339533392333903338a37b4a376e63553735533)
  (.lf
  0x41df941e1f41df741df341df141def41deb41ddd41ddb41dd941dcd41dbd41dbb41dbf41db941db541d5f41d6141d5d41d5941d5741d5541d5141d4541d4141d3f41d3b41d3941d3741d4941d3541d3141d2f41d4d41d2d41d2941d2741d2541d2141d1d41d1b41d1941d1541d1141d0f41d0d41c2541c2341c0b41c0d41c0941c0541bf541bf341be341bdf41bc341bc541bc141bbd41bb141baf41b9d41b99))
  (.nd (.lf
  0x36116396e839659362cd362593625036106360ea396e039675362d13625d36254360f4360f0396d23965d362d53626136258360d8360cc396c839687362d9362653625c360bc360b6396c2396313626036085360723606e396b83968b3626435f9835f8535f82396ac396133608435fc535f8e35f88396a4395fd35f8435f6b35f3a35f3639696395e935fc435f2d35efc35ef43968e395d335f6a35ebd35eb6)
  (.lf
  0x2fce92fcdf2fcdb2fcd92fcd72fcd32fcd12fccf2fccd2fcc92fcc72fcc52fcc32fcbf2fcbd2fcbb2fcb92fcb52fcb32fcb12fcaf2fcab2fca92fca72fca52fca12fc9f2fc9d2fc9b2fc972fc952fc932fc912fc8d2fc8b2fc892fc872fc832fc812fc7f2fc7d2fc792fc772fc752fc732fc6f2fc6d2fc6b2fc692fc652fc632fc612fc5f2fc5b2fc592fc572fc552fc512fc4f2fc4d2fc4b2fc472fc452fc43)))
  (.nd (.nd (.lf
  0x37250382c0382c4382c838266381e0381e4381e8382cc382d0382d4382d8382dc3826a381ec381f0381f4381f8381fc38200382043812c38130389b8389bc3891e3892238926389283892c389c0389c4389c8389cc3893038934389383893c3894038944389463894a3894e38952389563906a3906e390723907639024390283909c3907a3907e39082390863908a3908e390a03902c390a238f9438f4e38f60)
  (.lf
  0x2886728865288612885f2885d2885b288572885528853288512884d2884b2884728845288412883f2883d2883b288372883528833288312882d2882b28829288492882728823288212881f2881b288192881728815288112880b288092880f28807287ff287fd287fb287f9287f5287f3287f1287ed287eb287e928803287e7287e3287e1287df287db287d9287bf287bd287b92878728765287632875f2875d))
  (.nd (.lf
  0x15ce115d3615ce515d2c15ce915d2215ced15d1815cf115d0e15cf515d0415cf915cff16a2316aec1694516ae21697316ad81697716ace1697b16ac41697f16aba1698316ab0168fb16aa6168b716a9c168bb16a92168bf16a8816a2716a7e168c316a741698716a6a1698b16a601698f16a561699316a4c1699716a42168ff16a38168c716a2b16a1816a12168cb16a081699b169fe1699f169f4169a3169ea)
  (.lf 0)))

def shaXorReads419 : BTree :=
  .nd (.nd (.nd (.lf
  0x1907e19048177a917799167d115c9b15c7b15c6415c3a15bc21903e190041793b17937165d515c9f15c7d15c6615c3c15bc418ffa18fc21759517591165b315ca315c6815c4115c3e15bc618fb818f821757f1757b165b515ca715c6a15ad715ac415aac18f7818f3e1756117549165b715cab15c6c15c4315ac615aae18f3418ef8175631754b165b915caf15c6e15c4515ac815ab018eee18eb2175651754d)
  (.lf
  0x7e4107e3f07e3b07e3907e0307e0107dfd07dfb07dbb07db907db507db307d7d07d7b07d7707d7507d3707d3507d3107d2f07cef07ced07ce907ce707cb107caf07cab07ca907c6b07c6907c6507c6307c2307c2107c1d07c1b07be307be107bdd07bdb07ba307ba107b9d07b9b07b6307b6107b5d07b5b07b2307b2107b1d07b1b07ae307ae107add07adb07aa307aa107a9d07a9b07a7f082460821e081e2))
  (.nd (.lf
  0x1dfe41dfdb1dfce1dfc51dfb81dfaf1dfa21df991df8c1df831df761df6d1df601df571df4a1df411df341df2b1df1e1df151df081deff1def21dee71deda1ded11dec41debb1deae1dea51de981de8f1de821de791de6c1de611de541de491de3c1de311de241de1b1de0e1de051ddf81ddef1dde21ddd91ddcc1ddc31ddb61ddad1dda01dd971dd8a1dd7f1dd721dd691dd641dd6120cb520ca420ca120c8e)
  (.lf 0))) (.nd (.nd (.lf
  0x8985089ac0896c08927088ff08926088e6088a00885b088330885a0881a087d40878e087480853c08532085280851e085140850a08500084f6084ec084e2084d8084ce084c4084ba084b0084a60849c08492084880847e084740846a08460084560844c08442084380842e084240841a09b0809acc09a8a09a4609a04099c00997e0993a098f8098b80987809838097f4097ae0976c0972c096ec096a809662)
  (.lf
  0xc14f0c1430c1350c1330c12f0c1210c1130c1110c10d0c0ff0c0f10c0ef0c0eb0c0e10c0d10c0cf0c0cb0c0c70c0b50c0b30c0af0c0ad0c0a10c45b0c4410c43d0c43b0c3910c38d0c38b0c36d0c3690c3670c30d0c3090c3070c2e90c2e50c2e30c2ab0c2a70c2a50c2890c2850c2830c2670c2630c2610c2450c2410c23f0c2230c21f0c21d0c2010c1fd0c1fb0c18b0c1870c1850c14d0c1490c1470c12b))
  (.nd (.lf
  0x30ace30acd30ac130abc30a9e30a5b30a9630a5d30a6330a6030a0b30a0030990307273095a3059b309573094e3074d31f47320e431f3b320dc31f2f31faa31f2331f9a31f1731f9431f0b31f8231f4b31f7a31ef931f6e31eed31f6631ec931f5c31ecd31f5231ebd31ed431ea931e6e31e6d31e5a31a6f31a4e319fb31a42319e531a36319c531a2c319ab31a1e3198b3199a3197f3197a31979319403193d)
  (.lf 0)))

def shaXorReads420 : BTree :=
  .nd (.nd (.nd (.lf
  0xb243f3043f0ec00be600b223f0fa3ee5000bd000b2040d2e3ee3600bba00b1e3ee2c3eda600ba400b1c3eda83eae000b8e00b1a3ead83ea9e00b7800b183ead23ea1000b6200b163eaca00b0e41b8a01f3300ded0064000633005d7005cc0049141f3a41b7a01f3500def0064200635005d9005ce005b80048f41f2e41b8c01f3700df10064400637005db005d0005ae0048d41f2241b4c01f3900df300646)
  (.lf
  0x297da29722297d42967e297c82968a297be29644297b629654297ac2960e297a02961229794296222978e295c82977c297722978a29776297302970029726297042971829708297142970c296842a4ba2a6262a49c2a61a2a48c2a6122a4ac2a6062a46e2a5fc2a4262a5f42a4d42a5e82a4d82a5e02a4dc2a5d82a4e02a5ca2a4e42a5c02a4e82a5b62a4ec2a5ae2a4f02a5a22a4f42a59a2a4f82a58e2a42c))
  (.nd (.lf
  0x462004624046280521e05222052260522a0522e05232052360523a0523e05242052460524a0524e05252052560525a0525e05262052660526a0526e05272052760527a0527e05282052860528a0528e05292052960529a05e7405e7805e7c05e8005e8405e8805e8c05e9005e9405e9805e9c05ea005ea405ea805eac05eb005eb405eb805ebc05ec005ec405ec805ecc05ed005ed405ed805edc05ee005ee4)
  (.lf
  0x38af938af538af338af138aef38aeb38ae938ae738ae538ae138adf38add38adb38ad738ad538ad338ad138acd38acb38ac938b3938ac738ac338ac138abf38a4b38a4938a4738a4d38a4538a4138a3f38a3d38a3938a3738a3538a3338a2f38a2d38a2b38a2938a2538a2338a2138a1f38a1b38a1938a1738a1538a1138a0f38a0d38a0b38a0738a0538a0338a01389fd389fb389f9389f7389f3389ef389ed)))
  (.nd (.nd (.lf
  0x830708287076f306b3306ae806abf06aa4069e4093da0938c0830908289076f506b3706aea06ac106aa6069e60939a0934e0830b0828b076f706b3b06aec06ac306aa8069e8093440932a0830d0828d076f906b3f06ac506aae06aaa069ea093280830f0828f076fb06b4306ac706ab006aac069ec0a47808f2f08eaf08311077950771707700076bc075fc0a4ac0a45808f3108eb108313077990771907702)
  (.lf
  0x30ba930ba530ba330ba130b9f30b9d30b9930b9730b9530b9130b8f30b8d30c9b30b8b30b8730b8530b8330b4f30acb30ab930abb30ab730ab330ab130aaf30aab30a5930a5730a5530a5130a4f30a4d30a5f30a4b30a4730a4530a4330a3930a05309ff309fd309f930635306333063130599304c7304c13094d304bf304bb30491312ae3124631238311d0310fa31100310a030fe630fe030f1430f0630efc))
  (.nd (.lf
  0x18545185bc18543185aa18541185981853f185861853d18533194fd19710194fb1970a194f9196ec194f7196e6194f5196c8194f3196c2194f1196a4194ef1969e194ed19680194eb1967a194e91965c194e719656194e519644194e319632194e119620194df1960e194dd195fc194db195ea194d919570194d719566194d51955c194d319552194d119548194cf1953e194cd19534194cb1952a194c919520)
  (.lf 0)))

def shaXorReads421 : BTree :=
  .nd (.nd (.nd (.lf
  0x2380b2380227e0627a8f2595f25079240d3238102380d235b227b0327ad2258f12507b240d72380f238042359427ac227a8d258b524713240db24067238062356a27aba27a7325881246d3240df24069238082354427ab427a8b258472468b240e32406b2380a2350627b0927a822580524645240e72406d2380c2350827a85257d524611240eb2406f2380e2334628c59273452612b252ad2522325218251fe)
  (.lf
  0x15eeb15ee915ee515ee315ee115edf15edb15ed915ed715ed515ed115ecf15ecd15ecb15ec715ec515ec315ec115ebd15ebb15eb915eb715eb315eb115eaf15ead15eab15ea715ea515ea315e7315e7115e6f15e6d15e6915e6715e6515e6315e6115e5d15e5b15e5915e5515e5315e5115e4f15e4b15e4915e4715e4515e4115e3f15e3d15e9915e3b15e3715e3515e3315e2f15a5f15a5d15a5b15a5515a53))
  (.nd (.lf
  0xd03820a90209f116f0c16d770f5310f4d50f4be0d3950d3900d01a0d01620a7a209f516ed216d7b0f5330f4d70f4c00d3970d3920cff80cff420a64209f916e9a16d7f0f5350f4d90f4c20d3990d3940cfd60cfd220a4e209fd16e6016d830f5370f4db0f4c40d39b0d3960cfb40cfb020a3820a0116e2016d870f4dd0f4c60d39d0d3980cf920cf8e20a2220a0516de016d8b0f4df0f4c80d39f0d39a0cf70)
  (.lf
  0x15699156951569315663156611565d1565b1562715625156211561f155ed155eb155e7155e5155b1155af155ab155a91557715575155711556f1553b1553915535155331550315501154fd154fb154cd154cb154c7154c515493154911548d1548b1545715455154511544f1541b154191541515413153e3153e1153dd153db153a9153a7153a3153a11536b1536915365153631533715335153311532f152f7)))
  (.nd (.nd (.lf
  0x1bf711bf6d1c8181c7db1c7a11c7da1c79a1c75b1c71b1c75a1c7141c6cd1c6891c6cc1c6821c6381c5e91c5af1c5e81c5ac1c56d1c53f1c56c1c53d1c5111c53c1c50a1c4d81c4501c4421c3dd1c3b51c3dc1c27d1c2771c27c1c2361c1e51c1e11c1e41c1ad1c19b1c1ac1c15d1c1591c15c1c1141c0cf1c0cb1c0ce1c0881c0411c03d1c0401bffd1bff91bffc1bfc11bfb71bfc01bf781bf361b9761b96c)
  (.lf
  0x15109151071510315101150ff159c615992159581591e158e2158a61586e15838157fe157c61578a1574c15712156da156a21566a1562e155f4155b81557e155421550a154d41549a1545e15422153ea153b0153721533e152fe159c7159ad159a91599315975159731596f159591593d1593b159371591f1590315901158fd158e3158c7158c5158c1158a71588b15889158851586f15853158511584d15839))
  (.nd (.lf
  0x6f8906f8006f7c06f7406f4906f4006f3c06f3406f0206efe06ef606ef306ec406ec006eb806eb506e8806e8406e7c06e7906e4e06e4a06e4206e3f06e2c06e2708248082450821d08216082120820c081e1081d8081d4081cc0819a081960818e0818b0815b081520814e081460811b081120810e08106080d4080d0080c8080c5080950808c08088080800804e0804a080420803f0800f080060800207ffa)
  (.lf 0)))

def shaXorReads422 : BTree :=
  .nd (.nd (.nd (.lf
  0x30762362433488533497322833226f3226a32266369a036237347af3349932287322713226c322683698e3622b346d93349b322a13229732294322923698236223347153349d3219b32169321643216236920362153460d334473219f3216b321663214c368aa36207346f5333f53226e321c5321bf321bc368a436201345e9333e732270321a33216d3213a3678e361f5344b1333d5322963221b321b5321b2)
  (.lf
  0x320f932105320f7320f3320f1320ef31ff531fe531fd53221331fbf31fb931e9d31e9b31e9731e8d31e2f31e4531e2d31e2931e2731e5131e2531e2131e1f31e3931e1d31e1731d7931d7731d6b31d5b31d5931d5731d5331d3d31d2f31d2b31d1931d1531d0d31d0b31d0731cfd31cdf31cdd31cd931cd731cd531cd331c6531c6131c5f31c5d31c5931c4131c3f31c4931c3d31c2d31c2b31c2931c2531c23))
  (.nd (.lf
  0x27c6d27c6827aa0386a6384f137e0137dd537dbe2d9262d2e127f2427c9927c6f27c6a27a7c3869c384f537e0537dd737dc02d91c2d4b127f1427c9d27c7127c6c27a9e38694384f937e0937dd937dc22d9142d7f327f0e27ca127c7327c6e27afe38680384fd37e0d37ddb37dc42d9082d7f727f0627ca527c7527c7027a9c386783850137e1137ddd37dc62d9002d7fb27efa27ca927c7727c7227a7e38670)
  (.lf
  0x2647726473264712646f2646d264692646726465264632645f2645d2645b264592645526453264512644f2644b264492644726445264412643f2643d2643b264372643526433264312642d2642b264292642726423264212641f2641d264192641726415264132640f2640d2640b26409264052640326401263ff263fb263f9263f7263f5263f1263ef263ed263eb263e7263e5263e3263e1263dd263db263d9)))
  (.nd (.nd (.lf
  0xaecc0aec40aeae0ae9a0ae860ae7c0ae720bc260bc1c0bc120bc080bbfa0bbf20bbe80bbe00bbd60bbcc0bbc00bbb60bbac0bba20bb9a0bb900bb860bb7c0bb720bb660bb5e0bb540bb4a0bb400bb320bb280bb200bb180bb0e0b9ea0bafa0baf00bae60badc0bad20bac60babc0bab20baa80ba9e0ba940ba8c0ba800ba760ba6a0ba600ba580ba4e0ba460ba3c0ba320ba260ba1e0ba120ba0a0ba000b9d6)
  (.lf
  0x22b6922b6722b6322b5d22b5b22b5922b5522b5322b5122b5f22b4f22b4b22b4922b9522b4722b4322b4122bd722b3f22b3b22b3922b3722b3322b3122b2b22b2722b2322b2122b1f22b1d22b1922b1722b1322b1122b0d22b0b22b0922b0722b0122aff22afd22b9b22afb22af722af522af322ac522ac322abf22abd22ab922ab322aaf22aad22aa922aa522aa322a9d22a9922a9722a9522a9322a8f22a8d))
  (.nd (.lf
  0x141cc1423c141d014232141d414228141d81421e141dc14214141e01420a141e414200141e8141f6141ec141f214e8c14f7214e5e14f6814e9614f5e14e6814f5414e3a14f4a14e0e14f4014de214f3614db614f2c14d8a14f2214d5e14f1814d3214f0e14d1014f0414cf614efa14e9a14ef014e6c14ee614e3e14edc14e1214ed214de614ec814dba14ebe14d8e14eb414d6214eaa14d3614ea214e9e14e74)
  (.lf 0)))

def shaXorReads423 : BTree :=
  .nd (.nd (.nd (.lf
  0x17aca176541af6f1af5419979186a717b0917ad717acc176561af391af1e1997b186a917b0d17ad917ace176581aeff1aee41997d186ab17b1117adb17ad01765a1aec71aeac1997f186ad17b1517ad217a9d1765c1ae8d1ae7219981186af17b1917ad417a9f175f81ae511ae3419983186b117b1d17ad617aa1175d21ae131adf819985186b317b2117ad817aa3175c81add71adb619987186b517b2517ada)
  (.lf
  0x3c4c13c4bd3c4093c40d3c4073c4033c3e73fe503fe483fe3e3fe343fe2a3fe1e3fe143fdba3fdaa3fd883fd7a3fd563fd443fd903fd203fcfe3fcf23ff783fcaa3fc5e3fbe43fbf23fb283fb2c3fb343faa83f9aa3f9143f8d63f89c3f84c3fe513fe4f3fe4b3fe493fe473fe453fe413fe3f3fe3d3fe3b3fe373fe353fe333fe313fe2d3fe2b3fe293fe273fe233fe1f3fe1d3fe1b3fe173fe153fe133fe11))
  (.nd (.lf
  0x39bca39bd63a1203a2ea3a0c23a2e43a0b63a2d63a0a43a2d03a05e3a2c43a0a83a2bc3a04c3a2b23a0863a2a63a02c3a29c3a08a3a2923a2263a2863a2143a2803a1dc3a2723a1e03a26a3a1b63a2603a1343a2563a1383a24c3a2183a2423a21c3a23a3a2203a2303a2243a1f23a1e43a1ea3a1e83a1bc3a1ba3a1963a13c3a18e3a1403a1823a1443a17c3a1483a1723a14c3a16a3a1503a15e3a1543a158)
  (.lf 0))) (.nd (.nd (.lf
  0x29b8629b7029b5a29b4429b2e29da229d8c29d7629d6029d4a29d3429d1e29d0829cf229cdc29cc629cb029c9a29c8429c6e29c5829c4229c2c29c1629c0029bea29bd429bbe29ba829b9229b7c29b6629b5029b3a29b2429a5429a4a29a4029a3629a2c29a2229a1829a0e29a04299fa299f0299e6299dc299d2299c8299be299b4299aa299a0299962998c29982299782996e299642995a29950299462993c)
  (.lf
  0x7fb307fb107fad07fab07f7307f7107f6d07f6b07f3307f3107f2d07f2b07ef307ef107eed07eeb07eaf07ead07ea907ea707e6907e6707e6307e6107e2707e2507e2107e1f07de307de107ddd07ddb07da107d9f07d9b07d9907d5d07d5b07d5707d5507d1707d1507d1107d0f07cd507cd307ccf07ccd07c9107c8f07c8b07c8907c4b07c4907c4507c4307c0907c0707c0307c0107bc907bc707bc307bc1))
  (.nd (.lf
  0x2e3b22e3962e3902e3742e3622e3522e34a2e32e2e31e2e3122e30c2e2f22e2e82e2a82e2e22e2b62e2d42e2d02e2c82e2542e24c2e16c2e22c2f7562fdaa2f7402fda22f73e2fd942f73a2fd8c2f73c2fd822f7642fd782f7622fd6e2f7682fd622f75e2fd522f75c2fd482f7602fd402f6da2fdb62f8b22f8aa2f75a2f8a42f7582f8962f74a2f88c2f6a42f8802f5ca2f8762f5aa2f8682f5942f8602f6aa)
  (.lf 0)))

def shaXorReads424 : BTree :=
  .nd (.nd (.nd (.lf
  0xddd401886018440e0e80e0630de830ddf30ddd801846018060e0d20e0670de870ddf50dddc017fc017be0e0bc0e06b0de8b0ddf70dde0017c00177e0e0a60e06f0ddf90dde2017800173e0e0900e0730ddfb0dde401740017140e0790ddfd0dde6017120e3870e0050dfe90dfd202b720e5660e38b0e0090dfeb0dfd402b4a02b100e55c0e38f0e00d0dfed0dfd602b0602aca0e5520e3cd0e0110dfef0dfd8)
  (.lf
  0x96e8092e5096a4092e90965e092ed09618092f1095d2092f50958c092f90954a092fd0950609301094c0093050947a09309094380930d093f809311093b80931509378093190931f09f110a46a09f150a44809f190a41c09f1d0a3ee09f210a3c409f250a39c09f290a37009f2d0a34a09f310a31e09f350a2f809f390a2cc09f3d0a2a209f410a27409f450a24a09f490a21c09f4d0a1f609f510a1ce09f55))
  (.nd (.lf
  0x6d1806d1a06d1c0792c0792e07930079320793407936079380793a0793c0793e07940079420794407946079480794a0794c0794e07950079520795407956079580795a0795c0795e07960079620796407966079680796a08580085820858408586085880858a0858c0858e08590085920859408596085980859a0859c0859e085a0085a2085a4085a6085a8085aa085ac085ae085b0085b2085b4085b6085b8)
  (.lf
  0x3a9573a9533a94f3a94d3a99b3a94b3a9473a9453a9433a92b3a9293a9273a9253a9233a91f3a91d3a91b3a90f3a90d3a9073a9053a9013a8eb3a8e93ab7c3ab803ab603ab5a3ab863ab5e3ab343ab123ab0a3aafe3aaee3aae43ab823aaf43aa563aa403aa2c3aa163a9fa3a9f03a9d83aa063a9c63a9ea3a9b43a9a83a9a03a93e3a9e63a9123a8f43ab7d3ab813ab7b3ab773ab5d3ab613ab593ab553ab53)))
  (.nd (.nd (.lf
  0xcfc00cf902ebf0227b016910166b0166000e0400ce600ce302ec10227d016950166d0166200e0600cd000ccd02ec30227f016990166f0166400e0800cba00cb702ec5022810169d016710166600e0a00ca400ca102ec702283016a1016730166800e0c00c8e00c8b02ec902285016a5016750166a00e0e00c7800c7502ecb02287016a9016770166c00e1000c6200c5f02ecd02289016ad016790166e00e12)
  (.lf
  0x33aeb33ae733adf33adb33ae333ad933ad533ad133acf33acb33ac733a4d33a4f33a4b33a4733a3133a2f33a2b339fb339f9347db346a5346a13469d34673346433463f345e134595345933449b344413443d3444d3442f3442934427343ef343ed342d5342d1342b93421934215341f3341c9341c5341ab341a7341a33416134155341513413133ced33cd333cc133b7d33b7933b4f33b4b33b4733b1f33a7f))
  (.nd (.lf
  0x3d77c3d7663d7613d74f3d74a3d25d3d1343d13f3e7773e74c3e72b3e73a3e72f3e7313e7103e70a3e5653e6d43e5533e6c43e54b3e6ac3e5673e6843e52d3e63e3e5313e62c3e5333e6063e5073e6003e4ff3e5e83e5133e5e03e4ed3e79f3e5823e56f3e39e3e38d3e36e3e3593e3103e30b3e2e43e2f53e2dc3e2e93e2d43e2ca3e2a33e2bb3e2963e3333e28e3e2753e2363e1e03e1ab3e1bc3e1a33e1b5)
  (.lf 0)))

def shaXorReads425 : BTree :=
  .nd (.nd (.nd (.lf
  0x2c66b2c65430a38304d72e9952d3a52c88d2c81f2c6d02c656309f8304ab2e9472d30d2c8912c8212c6d22c62e304c03049d2e9372d1e52c8952c8232c6d42c6363094b304ba2e8f12d1e72c8252c75d2c6682c1603074b2e2432cff72c8272c7452c66a2c12431b0d3016d2f02f2dbb52dba92dba42dba231f3e31b01301432efd32dbcb2dbb92dba62db9a31f3231af73005f2ef9d2db6b2db612db5e2db5c)
  (.lf
  0x1c7861c7201c6f81c68c1c66e1c5fe1c5de1c5821c5621c5321c4f61c4b61c47e1c4761c3c61c2841c2421c1f21c1b61c1681c1301c0dc1c0a21c04e1c0141bfc21bf7a1bf2a1c8251c8131c80f1c8071c7b11c7d11c7af1c7a91c7951c7931c78f1c7871c72d1c72b1c7211c71f1c7071c7051c7011c6f91c69b1c6991c6951c68d1c67d1c67b1c6771c66f1c60d1c60b1c6071c5ff1c5db1c5df1c5d91c5d5))
  (.nd (.lf
  0x12efa12e0e267ce265f725477254412542a1cdc81cb8b17d1517cdc17c8d12ef012dde267b8265fb2547b2542c253fd1cdb01cb8f17d1917cde17c9112ee612dd2267a2265ff2547f2542e254011cd981cb9317d1d17c9517c8c12eda12e022678c266032548325430254051cd801cb9717d2117c9917c9012dfa12dba26776266072548725432254091cd681cb9b17d2517c9d17c9412df012dbe267602660b)
  (.lf
  0x192a81926819228191e8191a81916819126190e01909e1905e1901a18fd818f9818f5418f0e18ec818e8218e3c18dfa18dba18d7e18d4418d0a19467194591945519437194291942719423193fd193ef193ed193e9193c1193b3193b1193ad193891937b19379193751935319345193431933f1931d1930f1930d19309192e5192d7192d5192d1192a91929b1929919295192691925b1925919255192291921b)))
  (.nd (.nd (.lf
  0x24ddc24dd224dc824dbe24db424daa24d9e24d9424d8c24d8224d7824d6e24d6424d5a2628e262842627826270262662625c26252262482623e262342622a26220262142620a26200261f6261ec261e2261d8261ce261c2261b8261ae261a62619e261942618a2606a260602605626fa626f9a26f9026f8426f7626e3626e2c26e2426e1026d6826d5e26d5626d4a26c2426c1a26c1026c0626bfc26bac26ba2)
  (.lf
  0x17eab17e8517e8317e7f17e6517e3f17e3d17e3917e2317dfd17dfb17df717ddf17dbd17dbb17db717d9d17d7717d7517d7117d5b17d4b184e8184b81847e184461840c183d41839c1835c1831c182dc182981825218210181d0181901814c18106180c01807e1803e17ffe17fba17f7417f3217ef217eae17e6817e2617de217da017d5e184e9184c5184c1184b9184911848f1848b1847f184571845518451))
  (.nd (.lf
  0x187b818564182b8182b5187b21856218274182711878e185601822e1822b187881855e181ec181e9187661855c181ac181a9187601855a1816c181691873e1855818128181251873818556180e2180df18722185541809c180991870e185521805a18057186fa185501801a18017186e61854e17fda17fd7186d41854c17f9617f93186c21854a17f5017f4d185f01854817f0e17f0b185de1854617ece17ecb)
  (.lf 0)))

def shaXorReads426 : BTree :=
  .nd (.nd (.nd (.lf
  0x3eb693df5d3dd783d20c3d1e13d1d53d1d23d1cf3eb553df9f3dd6c3d27f3d2713d26e3d26c3d26b3ea633dfc33dd5e3d1b43d1a93d1a33d1a03d19f3e9e73deb33dd563d24c3d15f3d1593d1573d1523ea493de8d3dd503d1fc3d11d3d1193d1153d1103e9a33dfa13dd443d1d43d0ff3d0fd3d0fb3d0f83e9913de673dd3c3d2703d0e33d0e13d0df3d0dc3e9473de193dd303d1a23d0b33d0af3d0ad3d0aa)
  (.lf
  0x3ba113b9ff3b9fb3b9d53b96f3b96d3b9613b9553b8a33b8a13b89d3b8953b8113c46e3c3863c4183c3683c2fe3c2d83c39c3c2983c2723c2503c1f23c2263c1aa3c1843c1743c1683c1523c1b63c09a3c0643c0463bfc03bfa03bfaa3bf7e3bc1a3bb523bacc3b9da3b9723b8b03c46f3c3873c3653c35f3c34b3c4193c3493c3453c3373c3693c3353c3313c31d3c31b3c3173c2ff3c2f53c2f33c2ef3c2d9))
  (.nd (.lf
  0x2d2e42d2322d22a3a3e63a3a139e7539de339dca32d1132c442d2eb2d2e62d2142d2003a3dc3a3a539e7939de539dce32c4732c1c2d2ed2d2e82d2062d2043a3d23a3a939de739dd032c1f32bf82d2ef2d2ea2d17c2d15a3a3c83a3ad39de939dd232bef32bd02d7d32d2ec2d17e2d1723a3b339deb39dd432bcd2d7d52d2ee2cfce3a8313a33f3a3233a30c33e7b2e8112e80f2e80c2e8023ab6a3a8353a343)
  (.lf
  0x2be652be612be5f2be512be4f2be4b2be492be3b2c0d02c0bc2c0a62c0902c07a2c0642c04e2c0382c0222c00c2bff62bfe02bfca2bfb42bf9e2bf882bf722bf5c2bf462bf302bf1a2bf042beee2bed82bec22beac2be962be802be6a2be542be3e2c0d12c0c32c0bf2c0bd2c0af2c0ad2c0a92c0a72c0992c0972c0932c0912c0832c0812c07d2c07b2c06d2c06b2c0672c0652c0572c0552c0512c04f2c041)))
  (.nd (.nd (.lf
  0x31250311e63112a31120310a83103c30ff030f9a30f4630f1c30ee630e7830e4830e2a30d9e30d8030d5c30d3430d0c30ce030b5e30b2030b0230ae630a6c30a16309e8309be309ac3131831310312fe3116e31166310f43106c3102a30f9230f6630f2630ec630e9030e5e30e2230df030de630dd030dc030d2830cfa30c9630c8430b7430b3c30a8430a3c309f030986309763242c323fe323d2323a632364)
  (.lf
  0x25ce725ced25ce525ce125cdf25cdd25c8525c7925c6925c6725c6325c2d25bc125bbf25bbb25b9b25b9925b9725b9325b7125b6f25b6d25b6925b4525b4325b4125b3d25b1d25b1b25b1925ae725acd25aaf25aad25aa925a7325a6525a6325a5f25a2d25a2b25a2925a2525a23259f3259f1259ed259eb259b7259b5259b1259af2597d2597b25977259472590525903258ff258cb258c3258c1258bd2588d))
  (.nd (.lf
  0x36ae436af036ab236ae836a9036a6e36a6a368f4368f23689a36868368923681a367f0367ea3673e379ee3b0103aeee3b006379f43affe3aeec3aff437af43afec3aeea3afe0379a03afd63aee83afca379663afc03aee63afba379383afb03aee43afa2379083af983aee23af8e37afa3af8637a1c3af7e37af83af7637a1a3af6837a183af6237a163af5437a343af4e379463af4037a143af3a37a123af2c)
  (.lf 0)))

def shaXorReads427 : BTree :=
  .nd (.nd (.nd (.lf
  0x144d414362125b31259b112c9108e5108611084a1081210776144c814360125b51259d112cb108e9108631084c1081410778144bc1435e1254712543112cd108ed108651084e108161077a144b41435c1249712467112cf108f11086710850108181077c144ae1435a1249912469112d1108f510869108521081a1077e144a2143581249b1246b112d3108f91086b108541081c1078014498143561249d1246d)
  (.lf
  0x267a0263402604025ae0256802522024dc024ac0246c02416023d00238a02b6d02b4302b3502b3102af902af702af302af102ab302ab102aad02aab02a6b02a7b02a6902a6502a2d02a2b02a2702a25029e5029f5029e3029df029a7029a5029a10299f029610295f0295b029590291b029190291502913028d3028e3028d1028cd02893028a3028910288d0285302863028510284d0281302823028110280d))
  (.nd (.lf
  0x2f74e2f6882f5062f67a2f5082f6682f5262f6602f5342f6542f5322f64c2f5302f63c2f52e2f6302f5122f6282f50c2f61c2f50e2f6122f5102f6082f50a2f6002f5022f5f02f5242f5e62f5042f5de2f5222f5cc2f4622f5a22f5202f58a2f51e2f5822f51c2f5502f51a2f5482f42c2f53c2f4202f4082f4022f3ec2f3a62f3a02f3422f3922f3342f38a2f3262f3702f31a2f3562f2f22f2f63074630738)
  (.lf 0))) (.nd (.nd (.lf
  0x94b0094e009330092f00932009170091300916008fa008d9008d5008d8008bc0089a008780085600834008130080f00812007f7007f3007f6007da011d8011ce011c4011ba011b0011a60119c01192011880117e011740116a01160011560114c01142011380112e011240111a0111001106010fc010f2010e8010de010d4010ca010c0010b601edc01ea001e5a01e1401dd201d9201d5201d0e01ccc01c8c)
  (.lf
  0x70a30709d07099070610705f0705b07059070190701d070170701306fdb06fd906fd506fd306f9306f9706f9106f8d06f5306f5706f5106f4d06f1506f1306f0f06f0d06ed706ed506ed106ecf06e9b06e9906e9506e9306e6106e5f06e5b06e5906e350a4740a4520a4260a3f80a3ce0a3a60a37a0a3540a3280a3020a2d60a2ac0a27e0a2540a2260a2000a1d80a1b00a1860a15e0a1300a1060a0dc0a0b4))
  (.nd (.lf
  0xc1bb0c1ae0c19f0c1920c17f0c1720c1610c1540c1410c1340c11f0c1120c0fd0c0f00c0df0c0d00c0c50c0b40c0ab0c0a00c09f10403103be103b11035e1034f102fe102f3102a0102971024610239101e6101db1018a101811012e10121100d0100c51007210069100181000b0ffb80ffa90ff580ff4d0fefa0feed0fe9c0fe8d0fe3a0fe2f0fdde0fdd10fd7e0fd6f0fd1e0fd130fcc00fcb30fc620fc57)
  (.lf 0)))

def shaXorReads428 : BTree :=
  .nd (.nd (.nd (.lf
  0x3f3c43f2003d8e93d8cf3ce373cb373caf03c9a33c99a3c9983f3bc3f1d43d8e53d8c13ce1b3cb1d3cae43c97f3c97c3c97a3f3b43f1fe3d8db3d8d73ce0b3caeb3caa83ca943c9873c9823f29a3f1c63d8893d8853cd513ca9d3ca5c3c0ce3c0ca3c0c93f1f03f16c3dbcd3d8913cd353cbfd3ca533ca203c0143c00e3f15c3f14c3d8233d81f3cd3f3cc6b3ca613ca103bff83bff23f1463f1183d80b3d807)
  (.lf
  0x7ea607a2a07e6007a2e07e1e07a3207dda07a3607d9807a3a07d5407a3e07d0e07a4207ccc07a4607c8807a4a07c4207a4e07c0007a5207bc007a5607b8007a5a07b4007a5e07b0007a6207ac007a6607a6c0864208e920864608e5a0864a08e160864e08dd40865208d940865608d500865a08d0e0865e08cce0866208c8e0866608c4e0866a08c0a0866e08bc40867208b820867608b420867a08b020867e))
  (.nd (.lf
  0x38b6038b8038ba044ec044ee044f0044f2044f4044f6044f8044fa044fc044fe04500045020450404506045080450a0450c0450e04510045120451404516045180451a0451c0451e04520045220452404526045280452a0515e05160051620516405166051680516a0516c0516e05170051720517405176051780517a0517c0517e05180051820518405186051880518a0518c0518e05190051920519405196)
  (.lf
  0x35c9735c9335c8f35c8d35c8b35c8735c8535c8335c8135c7d35c7b35c7735dd735c7535c7135c41362403623436228362203621236204361f8361f2361b23619c361ae361a0361823617436166361443612e36114360e8360ee360ca360b43606c35f8035f8635f3435ef235eac35e6e35e2435dde362413623f3623b3623936235362333622f3622d3622936227362213621f3621d3621b362173621336211)))
  (.nd (.nd (.lf
  0x38970381702c51020bf020a7020900204c01f8c04d3e04cf2038990381902c53020c3020a9020920204e01f8e04ce804caa0389b0381b02c55020c7020ab020940205001f9004cb804c6a0389d0381d02c57020cb020ad020960205201f9204c7804c2a0389f0381f02c59020cf020af020980205401f9404c3804bec038a10382102c5b020d3020b10209a0205601f9604be204ba4038a30382302c5d020d7)
  (.lf
  0x2c9332c9312c92f2c92b2c9292c9272c9252c9212c91f2c91d2c91b2c9172c9152c9132c9112c90d2c90b2c9092c9072c9032c9012c8ff2c8fd2c8f92c8f72c8f52c8f32c8ef2c8eb2c8e92c8e72c8e32c8e12c8df2c8dd2c8d92c8d72c8d52c8d32c8cf2c8cd2c8cb2c8c92c8c52c8c32c8c12c8bf2c8bb2c8b92c8b72d7be2d7b82d7ac2d7a02d78e2d7822d7842da3c2d7642d75a2d74e2d65a2d63c2d61c))
  (.nd (.lf
  0x3b9463b93d3b8543b8493b7d43b7cb3b78e3b7853b7283b71f3b6ec3b6e93cc093cdaa3cc5d3cd9e3cc0d3cd923cc8b3cd883cbe93cf5b3cd7c3cd743cb5d3cd6a3cb553cd5e3cb1f3cd203caed3cd163ca9f3cd0a3ca5b3cd003ca633ccf83cc033cce43cc6f3ccde3cbd33cccc3cbef3ccc63cb8f3ccb63cb633ccb03caf53cc9e3cae93cc823ca993cc743cc113cc633cbd03cbbf3cba83cb9d3cb7e3cb76)
  (.lf 0)))

def shaXorReads429 : BTree :=
  .nd (.nd (.nd (.lf
  0x1f9161d0b11d0ad1beed1b7a51b6f31b64a1b3b41b390217201f6071f5931d7ef1c8471c83d1c83a1c8361c83021866216fe1f6091f5951d7a71c8031c7f91c7f61c7f41c7ec21700216581f60b1f5971d6791c7c91c7c11c7be1c7bc1c7b62167c215121f60d1f5991d67b1c7831c7791c7761c7741c76e2150e2143e1f60f1f59b1d67d1c7451c73d1c73a1c7381c732214f0214121f6111f59d1d67f1c6eb)
  (.lf
  0x10700106f6106e8106e2106ec106ee106c8106ba106ae106a41069c10690106b21067e106781066410656106401062e1061c1076d1076b107671076510763107611075d1075b107591076f1075710753107511074f1074b107491074710745107411073d1073b1073910735107331072d107311072b10727107251072f107231071f1071d1071b1071710715107131073f107111070d1070b107091070510703))
  (.nd (.lf
  0x418594194c418764186d4186b4186541860419444188141855418404183c4183b418c04181741800417fd417fb417f8418b84182d41824418214181f4181c418b04180c41807417ec417e9417e54195741939418c9418a4418a04189c414f6414f0414ea414e5414e3414e14121e4119541192411914118e4118b41216411b8411b5411b3411ae411ad4120c411d5411a2411a14119e4119d418584120641134)
  (.lf
  0xd1460d1240d1020d0e00d0be0d09c0d07a0d0580d0360d0140cff20cfd00cfae0cf8c0cf6a0d3630d3550d3510d3450d3370d3350d3310d3230d3150d3130d30f0d3010d2f30d2f10d2ed0d2df0d2d10d2cf0d2cb0d2bd0d2af0d2ad0d2a90d29b0d28d0d28b0d2870d2790d26b0d2690d2650d2570d2490d2470d2430d2350d2270d2250d2210d2130d2050d2030d1ff0d1f10d1e30d1e10d1dd0d1cf0d1c1)))
  (.nd (.nd (.lf
  0x1352a13520135161350c13502134f8134ee134e413ff613fac13f5c13f0e13ebe13e6c13e1e13dce13d7c13d2a13cd813c8a13c3a13bec13ba013b5013b0213ab613a6613a18139c81397613928138dc1389013840137ee137a013750136fe13ff013fa413f5413f0613eb613e6413e1613dc613d7413d2213cd013c8213c3213be413b9813b4813afa13aae13a5e13a10139c01396e13920138d41388813838)
  (.lf
  0x1141d114191141711415114131140f1140d1140b11409114051140311401113ff113fb113f9113f7113f5113f1113ef113ed113eb113e7113e5113e3113e1113dd113db113d9113d7113d3113d1113cf113cd113c9113c7113c5113c3113bf113bd113bb12c1212bf812bd812bba12b9e12b7e12b6012b4412b2812b0c12af012ad412ab412a9212a7412a5812a3812a1a129fa129dc129c0129a41298812968))
  (.nd (.lf
  0x20e6620e6020ddc20de120ddd20dcf221e4220f02205a2203421fc221fb621f3e21f0221eb021e4c21d8621d3e21cde21c9c21c6621c2221bdc21b9821b4021afa21ac021ab421a5e219de2198e2194a21944218d2216d8216dd216d9216b122f3a22f3422f1a22f1422f0c22f0222efc22eee22ee022ed622eca22ec222dfc22dee22dd622dc422db222d9e22d4622d2222cf822c9c22c9222c7c22c4422bf0)
  (.lf 0)))

def shaXorReads430 : BTree :=
  .nd (.nd (.nd (.lf
  0x29e37292a52925f2918c28cb028caa2cfe02af952af9129e19292a92923d2916828c7a28c742f0242cc6b2cc672b8bd2a8c72a8bf2a8bc2a8ba2a8b42efc82ef922cc852cc812b8152a8ad2a8a32a8a02a8982a8902ef8c2eef42cc492cc452b8032a8852a87b2a8782a8762a8702eeb22eea42cbe72cbdf2b8432a8692a8612a85e2a85c2a8562eebe2ee462cbe92cbe12b7792a8032a7fb2a7f82a7f62a7f0)
  (.lf
  0x29e4529e4329e3f29e3d29e3b2b8b42b80c2b7fa2b83a2b7702b7362b6d82b6882b6222b5f62b5da2b5c02b5ac2b53a2b50a2b4ca2b4d62b4ec2b4a42b4922b45c2b3b62b39a2b36c2b34a2b3402b3382b2842b2742afee2afba2b8b52b8b32b8af2b8372b80d2b80b2b8072b8052b7fb2b83b2b7f92b7e52b79f2b79d2b7992b7712b72d2b7372b72b2b7272b6eb2b6e92b6e52b6d92b6a32b68f2b68b2b689))
  (.nd (.lf
  0x1e6c91e6411e6381e56c1e4ca32a963273d315bd315623153927652275bb1e6cd1e6451e63c1e55e1e4e832a9032741315c1315643153b27648275bf1e6d11e6491e6401e5561e4f032a5032745315c5315663153d2763e275c31e64d1e6441e54a1e4c432a0e32749315c9315683153f27634275c71e6511e6481e5401e4ba329ce3274d315cd3156a315412762a275cb1e6531e64c1e53a1e4ea3299232751)
  (.lf
  0x22938229242290e228f8228e2228ca228b22289a228822286a228522283c228262280e227f8227e2227cc227b6227a02278a227742275e22748227322271c22706226f0226da226c4226ae22698229392292b22927229252291722915229112290f22901228ff228fb228f9228eb228e9228e5228e3228d5228d3228cf228cb228bd228bb228b7228b3228a5228a32289f2289b2288d2288b228872288322875)))
  (.nd (.nd (.lf
  0x3cd803cd783cd6e3cd623cd5a3cd1a3cd0e3cd063ccfc3ccee3cce23ccd63ccca3ccbe3ccb43cca83cc9c3cc7c3cc723cbce3cba63cb7c3cb703cb0a3cac63ca843d52e3d51e3d5123d5063d4fa3d4ee3d4e23d4d63d4c63d4ae3d3f03d3e43d3d83d3cc3d3c03d3b43d3a83d39c3d3903d3843d3783d36a3d3543d2d43d2ca3d2983d2903d2883d1b83d16c398783986e398643985a39850398443983c3982c)
  (.lf
  0x1fc7e1fc5a1fc3a1fc1c1fbfe1fa661fa561fa4a1fa3e1fa2c1fa241fa181fa0e1fa5a1f9821f9881f9281fe7f1fe7d1fe3d1fe3b1fe391fe371fe331fe311fe171fe151fe111fe0f1fdf71fdf51fdf11fdef1fdd91fdd71fdd31fdd11fdb71fdb51fdb11fdaf1fd931fd911fd8d1fd8b1fd6f1fd6d1fd691fd671fd4b1fd491fd451fd431fd2b1fd291fd251fd231fd091fd071fd031fd011fce51fce31fcdf))
  (.nd (.lf
  0x3de043d9983d9443d6e73ddfc3d98c3d9543d6533dde63d9483d9163d6413ddd43d9183d9083d6393ddc03d8fc3d8be3d6513ddba3d8b83d86a3d62b3dd983d8aa3d85c3d6953dfe53dd903d8a23d8523d89a3d8443d6c63d6093d8803d8383d69c3d5f13d87a3d82e3d6963d5e93d8723d8183d6563d5f73d8023d7f23d5f43d5cf3d7e83d7c83d5b93d5b03d7b43d7a43d5a03d5893d79c3d78c3d3433d33a)
  (.lf 0)))

def shaXorReads431 : BTree :=
  .nd (.nd (.nd (.lf
  0x10a5a1054213b3513b04127751168f10a9510a6710a5c1054413ae913ab8127771169110a9910a6910a5e1054613a9913a68127791169310a9d10a6b10a601054813a4b13a1a1277b1169510aa110a6d10a621054a139fb139ca1277d1169710aa510a6f10a641054c139a9139781277f1169910aa910a6610a311054e1395b1392a127811169b10aad10a6810a33105501390f138de127831169d10ab110a6a)
  (.lf
  0x398713986f3986b398693986739865398613985f3985d3985b398573985539853398513984b39849398473984d39845398413983f3983d39837398313982f398333982d39829398273983939825398213981f398353981d398193981739815398113980f3980d398853980b398073980539803397ff397fd397fb397f9397f5397ed397eb3987d397e9397e5397e3397e1397dd397db397d9397d7397d3397d1))
  (.nd (.lf
  0x1ac541acbe1ac581ac5e1bb6c1beae1bb701be9a1bb741be841bb781be6e1bb7c1be581bb801be421bb841be2c1bb881be161bb8c1be001bb901bdea1bbc01bdd41bbc41bdbe1bbc81bda81bbcc1bd921bbd01bd7c1bbd41bd661bbd81bd501bbdc1bd3a1bbe01bd241bbe41bd0e1bbe81bcf81bbec1bce21bbf01bccc1bbf41bcb61bbf81bca01bbfc1bc881bc001bc701bc041bc581bc081bc421bc0c1bc2c)
  (.lf 0))) (.nd (.nd (.lf
  0xd9a40d9820d9600d93e0d91c0d8fa0d8d80d8b60d8940d8720d8500d82e0d80c1401813fd613f8613f3813ee813e9613e4813df813da613d5413d0213cb413c6413c1613bca13b7a13b2c13ae013a9013a42139f2139a01395213906138ba1386a13818137ca1377a137280dfba0dfb00dfa60df9c0df920df880df7e0df740df6a0df600df560df4c0df420df380df2e0df240df1a0df100df060defc0def2)
  (.lf
  0x46d3046d1046cf046cd046c9046c7046c5046c3046bf046bd046bb046b9046b5046b3046b1046af046ab046a9046a7046a5046a10469f0469d0469b046970469504693046910468d0468b046890468704683046810467f0467d046790467704675046730466f0466d0466b046690466504663046610465f0465b046590465704655046510464f0464d0464b046470464504643046410463d0463b0463904637))
  (.nd (.lf
  0xac0e0abfc0abea0abdc0abca0abc00abae0aba40ab920ab840ab720ab620ab500ab400ab2e0ab1e0ab0c0aafc0aaea0aada0aac80aab80aaa60aaa00aa9a0b9580b9480b93c0b92a0b91e0b90c0b8fc0b8ea0b8d80b8c60b8b80b8a60b8980b8860b8760b8640b8540b8420b8320b8200b8140b8020b7f40b7e20b7d20b7c00b7b00b79e0b7920b7800b7760b7640b75a0b7480b73e0b72c0b7200b70e0b702)
  (.lf 0)))

def shaXorReads432 : BTree :=
  .nd (.nd (.nd (.lf
  0xe9790e9620ce640ccdd05bbe05b800ecd20eb850e9a50e97b0e9640ce5a0cce105b8205b400ecc80eb890e9a90e97d0e9660ce500cce505b4205b000ecbe0eb8d0e9ad0e97f0e9680ce460cce905b0205ac20ecb40eb910e9b10e9810e96a0ce3c0cd1905ab805a7c0ecaa0eb950e9b50e9830e96c0ce320cd1d05a7205a360eca00eb990e9b90e9850e96e0ce280cd2105a2c059f00ec960eb9d0e9bd0e987)
  (.lf
  0x1aba01aa0d1ab961aa111ab8c1aa151ab821aa191ab781aa1d1ab6e1aa211ab641aa251ab5a1aa291ab501aa2d1ab461aa311ab3c1aa351ab321aa391ab281aa3d1ab1e1aa411ab141aa451ab0a1aa491ab001aa4d1aaf61aa511aaec1aa551aae21aa591aad81aa5d1aace1aa611aac41aa651aaba1aa691aab01aa6d1aaa61aa711aa9c1aa751aa921aa791aa881aa7d1aa831b9bd1bb5e1b9c11bb581b9c5))
  (.nd (.lf
  0x26a5e269b6269b8283a628398283b02837c28380283582830a282f2282fa282ce282d0282d2282d42828828270282782825c2825e282602822c280ba2805827fe027fb227e6227e2827bc827bb827bac27b9227b6427aee2975229742296d0296be296a4296a82966e2967029630295fe295f2295f429618295c02964a2959e2959629576295782963e2957a29544295142951629528295182951a294d828e7e)
  (.lf
  0x95700953009490093b00939009350092d0091f0091d00919009110090300901008fd008f1008e3008e1008dd008d3008c5008c3008bf008b3008a5008a30089f0089100883008810087d0086f008610085f0085b0084d0083f0083d008390082b0081d0081b008170080d007ff007fd007f9007f1007e3007e1007dd007d1007c3007c1007bd007b9007ab007a9007a5007a300795007930078f0078d00787)))
  (.nd (.nd (.lf
  0x41650415c0607f05469048750484d04842047f60411e0411b060810546b048790484f04844047f8040d8040d5060830546d0487d0485104846047fa0409904090060850546f048810485304848047fc040520404f060870547104885048550484a047fe0400c04009060890547304889048570484c0480003fcd03fc40608b054750488d048590484e0480203f8d03f840608d05477048910485b0485004804)
  (.lf
  0x369193691736915368b1368ad368ab368a9368a5367b7367a9367a7367913678f3678d3678b36787367853676f3676d36769361e5361e1361df361db361d9361d5361d3361cf361cb361c9361c7361c1361bf361bd36363361bb361b736179361713616d3616936153361513614d361493613b3613936135361333611f361213611d361193610d3610b3610736103360ff360fd360f9360f7360f5360f3360d9))
  (.nd (.lf
  0xed820ee7e0ed860ee740ed8a0ee6a0ed8e0ee600ed920ee560ed960ee4c0ed9a0ee420ed9e0ee380eda20ee2e0eda60ee240edaa0ee1a0edae0ee100edb20ee060edb60edfc0edba0edf20edbe0ede80edc20edde0edc60edd40edca0edd00ef020f0e00ef060f0d60ef0a0f0cc0ef480f0c20ef4c0f0b80ef500f0ae0ef540f0a40ef580f09a0ef5c0f0900ef600f0860ef640f07c0ef680f0720ef6c0f068)
  (.lf 0)))

def shaXorReads433 : BTree :=
  .nd (.nd (.nd (.lf
  0x21391204ff204d3204ca204b22046a23f9c236e821da521da121393204e7204d5204cc204b42046c23f94236d621d4d21d49213952063e204e9204d7204b62046e23f8a236c421d2721d23213012064720640204d9204b82047023f7e236b221cfd21cf9212932064920642204db204ba2047223f762369a21c8321c7f212352064b20644204dd204bc2047423f6a2368221c3d21c392120f2064d20580204df)
  (.lf
  0x1fb851fb831fb7f1fb7d1fb511fb4f1fb4b1fb471fb0f1fb131fb0d1fb091fad91fae51fad71fad31fab71fab51fab11faab1fa8b1fa891fa851fa811f9db1f9d91f9d51f9d31f9af1f9ad1f9a91f9a51f9431f93b1f9371f9351f91d2171e21714216ea21648215062144021416213da2136a213662132a21324212f02128a2122821206210e42106a210542103c2100620fbc20f1020efa20ed820e6e20e5a))
  (.nd (.lf
  0x1931e29d2429ab128925288fb288e42090c207931ac231abfb1abf6192fc192e629d0e29ab528929288fd288e620902207971ac271abfd1abf8192c0192aa29cf829ab92892d288ff288e8208f82079b1ac2b1abff1abfa192801926a29ce229abd2893128901288ea208ee207cb1ac2f1ac011abfc192401922a29ccc29ac12893528903288ec208e4207cf1ac331ac031abfe19200191ea29cb629ac528939)
  (.lf
  0x1ae7b1ae771ae4f1ae411ae3f1ae3b1ae111ae031ae011adfd1add51adc71adc51adc11ad931ad851ad831ad7f1ad4d1ad3f1ad3d1ad391ad0b1acfd1acfb1acf71accb1acbd1acbb1acb71ac831ac7d1beb61bea21be8c1be761be601be4a1be341be1e1be081bdf21bddc1bdc61bdb01bd9a1bd841bd6e1bd581bd421bd2c1bd161bd001bcea1bcd41bcbe1bca81bc901bc781bc601bc4a1bc341bc1e1beb7)))
  (.nd (.nd (.lf
  0x2b5552b5582b5522b54a2b5272b4fb2b5262b4f92b40f2b4f82b40d2b4052b40c2b4022b3fb2b3f32b3fa2b3f02b3e32b3df2b3e22b3dd2b3b32b3dc2b38b2b3872b38a2b3842b2c22b29d2b2992b29c2b2962b1912b18d2b1902b1772b1732b1762afdf2afdb2afde2af9e2a9f02a9e62a9de2a9d42a9ca2a9c22a9b82a9ae2a9a42a99a2a9902a9862a97c2a9702a9662a95e2a9542a94c2a9422a9382a92e)
  (.lf
  0x19b1019b0619afc19af219ae819ade19ad419aca19ac019ab619aac19aa219bcf19bcd19bc919bc719bc519bc319bbf19bbd19bbb19bb919bb519bb319bb119baf19bab19ba919ba719ba519ba119b9f19b9d19b9b19b9719b9519b9319b9119b8d19b8b19b8919b8719b8319b8119b7f19b7d19b7919b7719b7519b7319b6f19b6d19b6b19b6919b6519b6319b6119b5f19b5b19b5919b5719b5519b5119b4f))
  (.nd (.lf
  0x2109e210972104c2104a2108d2103e2103821036210262101d210082100420ff120fbe20fba20fb620f5420f2b20f0e20f0620f3a20f2920ef820ef220f3420f2720eda20ed620e9a20e8b20e6a20e6820e9420e8920e5620e5420e2020e1120dd420dd020e1a20e0f20d9c20d9420d6d20d5c20d5420d5020d3620d2d20ce420ce020d2520cd8221e9221e6221322210322100220fa220ac22067220642205c)
  (.lf 0)))

def shaXorReads434 : BTree :=
  .nd (.nd (.nd (.lf
  0x2e9bc2e9b63289632838309df309db2fae32edf52ed612eb7c2e9302e92a3287c32810309b9309b52fad12ed992ed372eb3e2e95c2e956327d6327a0309a9309a52fabf2ee552ed672eb062e9002e8fa3279c30759307552f30b2ed3d2ecd12ead82e23e2e2383487e3243532431312c7302b7302af302ac302aa302a4347a8346ac3240d3240931291302953028b302883028630280346d23464a323dd323d9)
  (.lf
  0x3e8a13e95f3e89f3e89b3e8993e8973e8933e8913e8833e8813e87d3e8733e8713e86f3e86b3e85d3e8573e8553e83f3e83d3e83b3e8393e8233e81f3e81d3e81b3e7ed3e7eb3e7e93e7f93e7e73e7e33e7e13e7df3e7db3e21b3e2193e2173e2133e2033e2013e1ff3e1c33e1bf3e0333e03d3e0313e02d3dfbb3dfb93dfb53dee53dea13f63a3f6183f5fc3f5983f5803f5ce3f67c3f53c3f5203f50e3f4f6))
  (.nd (.lf
  0x307933078c305003ac333aba53ab88364773631030a4e3079530790304e63ac373aba73ab8c36306362c730a4630797307923059c3ac3b3aba93ab9036300362cb30a043079930794304d63ac3f3abab3ab94362f6362cf3079b3079630632304aa3abad3ab96362ea362d33079d30798304c63049c3abaf3ab98362de362d73094a3079f3079a304903abb13ab9a362e1307a13079c3074a3706f31b8731b71)
  (.lf
  0x2e3e12e3dd2e3db2e3c12e3bf2e3bb2e3b92e39f2e39d2e3992e37f2e37d2e37b2e3772e35d2e35b2e3592e3552e3392e3372e3352e3312e3152e2bf2e2bd2e2b92e2b32e2b12e2af2e2ab2e2a32e2a12e29f2e29b2e2992e28d2e28b2e27d2e27b2e2792e2772e26b2e2692e2672e2652e2612e1672e1632d9762d96c2d9602d9642d94e2d9422d93e2d92e2d9222d94c2d9102d9122d9302d8f42d8ea2d8e0)))
  (.nd (.nd (.lf
  0x40d6840d5e40d5440d4a40d4040d363f4d83f4d03f4c63f4b83f4ae3f4a43f49c3f4923f48a3f4263f41a3f4123f3083f2fe3ee4e3ee323eda43eade3ead641f3e41f3441f2841f1e41f1641f0841f0041ef841ee841ee041ed841ed041ec641eb841eb041ea84171a4170e416c24169e416924168a415964154c414cc414684145e414544135841148414464143e414344142c41422414184140e41402413fa)
  (.lf
  0x27f8227f7827f6827f5827f5027f4427f3027f2627f1627f3227f0427f1a27ef027ee627edc27ec827eca27ecc27ea827ea227e9627e8027e8627e3e27e0827b0427ac427ac827aae27b0a27f8f27f8d27f8527f8327f8127f7f27f7b27f7927f7727f7527f7127f6927f6727f6527f6127f5f27f5927f5727f5327f5127f4f27f4d27f4927f4527f4327f4127f3d27f3b27f3127f2f27f2b27f2727f2527f23))
  (.nd (.lf
  0x5e9705fcc05e9b05fc205e9f05fb805ea305fae05ea705fa405eab05f9a05eaf05f9005eb305f8605eb705f7c05ebb05f7205ebf05f6805ec305f5e05ec705f5405ecb05f4a05ecf05f4005ed305f3605ed705f2c05edb05f2205edf05f1805ee305f0e05ee705f0405eeb05efa05eef05ef506af106c9606af506c8c06af906c8206afd06c7806b0106c6e06b0506c6406b0906c5a06b0d06c5006b1106c46)
  (.lf 0)))

def shaXorReads435 : BTree :=
  .nd (.nd (.nd (.lf
  0x166fe1649414ceb14ce7141071312713123131181310c130e8166f81649614cd514cd1141091321013129131251310e130ea166ee1649814cc114cbd1410b1321b13212130991309613090166e41647614cad14ca91410d1321f13214130851306c1304e166d81647014c9914c951410f1322313216130871306e13050166a81647214c8514c81141111322713218130891307013052166a21647414c7114c6d)
  (.lf
  0x4a1504a1304a0f04a0d049cf049cd049c9049c7049870499704985049810494704957049450494104907049170490504901048e905d2e05cf605cb805c7a05c3205bf205bb405b6c05b2c05aec05aae05a6805a22059dc05996059500590a058c2058820584205802057c2057840573c056fe056b60567805630055f0055b80557c05d2f05cfd05cf905cf705cc105cbf05cbb05cb905c8305c8105c7d05c7b))
  (.nd (.lf
  0x3ad0e3ae383acf43ae2c3acf83ae263ace23ae1c3acda3ae123acca3ae063acbe3adfe3acb03adf43aca83ade63ac9c3addc3ac743add23ac6c3adc83ac8e3ac843ac5a3ac7e3ac5e3ac42103fb103ea103a9103961034710334102eb102d81028f1027c102311021e101d3101c010179101661011910106100bd100aa100611004e100030fff00ffa10ff8e0ff450ff320fee50fed20fe850fe720fe270fe14)
  (.lf 0))) (.nd (.nd (.lf
  0x496604926047580474e047440473a04730047260471c0471204708046fe046f4046ea046e0046d6046cc046c2046b8046ae046a40469a04690046860467c04672046680465e046540464a046400463605d1c05ce405ca405c6005c1e05bde05b9a05b5805b1805ad805a9405a4e05a08059c20597c05936058f0058ae0586e0582e057ee057ae0576a05728056e4056a20565e0561c055dc055a002b4802b0e)
  (.lf
  0xb73c0b71e0b7000b6e20b6c00b69c0b67c0b65c0b63e0b61e0b6000b5e40b5c40b5a20b9570b9550b9510b94f0b93b0b9390b9350b9330b91d0b91b0b9170b9150b8fb0b8f90b8f50b8f30b8d70b8d50b8d10b8cf0b8b70b8b50b8b10b8af0b8970b8950b8910b88f0b8750b8730b86f0b86d0b8530b8510b84d0b84b0b8310b82f0b82b0b8290b8130b8110b80d0b80b0b7f30b7f10b7ed0b7eb0b7d10b7cf))
  (.nd (.lf
  0x1fd951fd881fd731fd641fd531fd401fd2f1fd201fd0f1fcfe1fce91fcda1fccd1fcba1fca51fc981fc811fc741fc5d1fc501fc3f1fc261fc1f1fc121fc011fbe81fbe21fa691fbd81fa591fba01fa4d1fb961fa411fb381fa351fb301fa331facc1fa311fac61fa2f1fa5d1f9f21f9ba1f9851f98b1f9561f92b1f9261f913211c3212d2211bd212c2211ab212bc211af212b021195212a4211892129e2117b)
  (.lf 0)))

def shaXorReads436 : BTree :=
  .nd (.nd (.nd (.lf
  0x41542414bc40a79406db3f0f53ec413e77b3e5fc3e3383e336414b0413a4406bd406b93f1153e7553e6f73e5dc3e2f23e2864139a413844077d4076d3ee273ec533e7ac3e6ef3e1ec3e1ea41378413743fa413fa3d3ee353e7a53e6b73e5743e1ca3e1c84136c4134a3fa853fa073ed913e6e93e6a13e3923e1f23e1d64134c410f03f97f3f97b3eaa33e6bd3e66b3e3663e04a3e048410ee410de3f9533f94d)
  (.lf
  0x17b5c18a9218c3618a9618c2c18a9a18c2218a9e18c1818aa218c0e18aa618c0418aaa18bfa18aae18bf018ab218be618ab618bdc18aba18bd218abe18bc818ac218bbe18ac618bb418aca18baa18ace18ba018ad218b9618ad618b8c18ada18b8218ade18b7818ae218b6e18ae618b6418aea18b5a18aee18b5018af218b4618af618b3c18afa18b3218afe18b2818b0218b1e18b0618b1418b0a18b1019a22))
  (.nd (.lf
  0x229fc229ca2298e23dd623dda23daa23d4e23d5023d5223d5423d0223ce223c4023c4223c4423c4623bd023bb823b8623b5823b5a23b6a23b0e23af223ad623aac23a9223a9423a9623a4a23a3023534234fa234e02333e24d0824d0c24cd624cbe24d3824c6024c9224c6224c2a24c1224b1024af224aca24acc24a9e24a3024a3224a46249fe24a00249de249c8249ca249ac24994248d0248782470a246ba)
  (.lf
  0x38065380633805d37fff37ffd37ff937ff537ff337ff137fed37fe737fe537fe337fdb37fd937fd737fd537fd137fcf37fcb37fc937fc137fbf37fbd37fbb37fb737fb537fb137faf37fab37fa937fa737fa537f9337f8d37f8937f8737f8337f7737f7537f7337f0537eeb37ed737ed537ec937ec537ec337ec137ea737ea137e6f37e8b37e6d37e6937e63373d2373c8373be373b4373aa373a0373963738c)))
  (.nd (.nd (.lf
  0x5ddd05d5d051c7045d5045980456f0455404494070940704805ddf05d5f051c9045d90459a0457104556044960703e0700005de105d61051cb045dd0459c0457304558044980700e06fc205de305d63051cd045e10459e045750455a0449a06fb806f7a05de505d65051cf045e5045a0045770455c0449c06f8806f3a05de705d67051d1045e9045a2045790455e0449e06f4806efc05de905d69051d3045ed)
  (.lf
  0x2eab72eab32ea5f2ea572ea292ea272ea252ea212e9f72e91f2e9152e9112e0922e0942e0802e0782e06c2e0642e0582e0502e0442e03c2e0322e0282e01e2e0142e00a2dffe2dff42dfea2dfe02dfd62dfcc2dfc22dfba2df942df602df562df4c2df422df3a2df142de862e0932e0952e0912e08d2e08b2e0892e0852e0832e0812e07f2e07b2e0792e0772e0752e0712e06f2e06d2e06b2e0672e0652e063))
  (.nd (.lf
  0x7f8c07f8307f4c07f4307f0c07f0307ece07ec507e8807e7f07e4007e3707e0207df907dba07db107d7c07d7307d3607d2d07cee07ce507cb007ca707c6a07c6107c2207c1907be207bd907ba207b9907b6207b5907b2207b1907ae207ad907aa207a9907a7e07a7d08ea708e7108e3e08e3508df608ded08db608dad08d7808d6f08d3008d2708cf008ce708cb008ca708c7008c6708c3208c2908bec08be3)
  (.lf 0)))

def shaXorReads437 : BTree :=
  .nd (.nd (.nd (.lf
  0x1fe701fbf5219bd20f3320171201281fef51fec41fe721fb1f2197320ea3201752012a1fef71febe1fe741fae72193d20e93201791fef91feee1feb01fe761faaf2193f20e292017d200f91fef01feaa1fe781fa83216d520e1920181200fb1fef21fea01f9fc1f9dd2163520d7520185200fd1fef41fe961f9fe1f9a72163720d3520189200ff1fef61fe8c1f9701f9452163920d2b2018d201011fef81f972)
  (.lf
  0x12fb112faf12fab12fa912fa71307712fa512fa112f9f12f9d12f9912ea312e9f12ea112e9d12e9912e9712e9512e9312e8f12e8d12e8b12e8712e8512e8312cfb12cf712cf312cef12f9212f7e12f6a12e7412e6a12e6012e4e12e3e12e3212ed412e1e12e4212e0c12ddc12dd012ed812db812dbc12de212d9212d7c12d4012d3a12d4612d4a12d1412cd812cae12c9012c7c12c5012f9312f9112f8d12f8b))
  (.nd (.lf
  0x40154400763fffb3fff93fff64028d40188400a44006c3ffe93ffe3402b540134400603ffd73ffd43ffd1402494009a4009340062400564005540215400484003c400394003740034402d33fffa3fcda3fccf3fccd3fcc6402ed3ffe83fc873fc7e3fc733fc6c4029d3ffd63fc4b3fc423fc313fc2e40233400543fc363fc183fc173fc1340243400363fba83fb8d3fb8a3fb89401fd3fccc3fb923fb7c3fb7b)
  (.lf
  0xd8b70d8b30d8a50d8970d8950d8910d8830d8750d8730d86f0d8610d8530d8510d84d0d83f0d8310d82f0d82b0d81d0d80f0d80d0d8090d7fb0d7f51401a13fd813f8813f3a13eea13e9813e4a13dfa13da813d5613d0413cb613c6613c1813bcc13b7c13b2e13ae213a9213a44139f4139a21395413908138bc1386c1381a137cc1377c1372a136d81401b14019140151401313fd913fd713fd313fd113f89)))
  (.nd (.nd (.lf
  0x169d0169c6169bc17c8817c7e17c7417c6a17c6017c5617c4c17c4217c3817c2e17c2417c1a17c1017c0617bfc17bf217be817bde17bd417bca17bc017bb617bac17ba217b9817b8e17b8417b7a17b7017b66184ca184961845c18424183ea183b01837018330182f0182b01826c18226181e4181a41816418120180da18094180521801217fd217f8e17f4817f0617ec617e8217e3c17dfa17dba17d74184c4)
  (.lf
  0x13cd113ccd13cc313c8513c8313c7f13c7313c3513c3313c2f13c2513be713be513be113bd913b9b13b9913b9513b8913b4b13b4913b4513b3b13afd13afb13af713aef13ab113aaf13aab13a9f13a6113a5f13a5b13a5113a1313a1113a0d13a01139c3139c1139bd139af139711396f1396b1396113923139211391d13915138d7138d5138d1138c91388b1388913885138791383b138391383513827137e9))
  (.nd (.lf
  0xcc400b37012b6011fe00cae00b35012ac011fc00c9800b33012a2011fa00c8200b3101298011f800c6c00b2f0128e011f600c5600b2d01284011f400c4000b2b0127a011f200c2a00b2901270011f000c1400b2701266011ee00bfe00b250125c011ec00be800b2301252011ea00bd200b2101248011e800bbc00b1f0123e011e600ba600b1d01234011e400b9000b1b01eea01ee701eba01eb601eb001ead)
  (.lf 0)))

def shaXorReads438 : BTree :=
  .nd (.nd (.nd (.lf
  0x2de6d2de6a2de682de62321283204c2ffbd2ffb92ed8f2df312df2b2df282df262df2032120320422ff692ff652ed5f2df0b2df052df022df002defa32108320962ff012fefd2ed352de452de3f2de3c2de3a2de34320fa320ca2ff1b2ff172ee532de312de212de1c2de162ddfc320f2320cc2ff512ff4d2eccf2de292de232de1e2de182ddfe31ff231fd42ff3f2ff3b2ecaf2dfaa2de2b2de252de1a2de0c)
  (.lf
  0x2eac12eacf2eabf2eabb2eaab2eaa92ea9d2ea772ea752ea932ea6b2ea672ea512ea4f2ea3b2ea2b2ea172ea152e9fd2e9fb2e9e32e9e12e9d52e9d32e9c52e9c32e9bf2e9852e9832e9b52e9812e9752e9672e9652e9612e95f2e9292e9552e9252e9212e8f52e8f92e8e92e8e52e2332f0262efca2ef942eeb42eec82ee142ee042edd42ed242edc22ece02ec8e2ec622ec2c2ec002ebc42eb862eb502eb42))
  (.nd (.lf
  0x24ed224e83247b0245fe35d2435bfb34a6b34a1c349ed2ab4c2aa6124f0f24ed424e87247a22460035d1835bff34a6f34a1e349f12ab422aa6524f1324e8b24e8224792245fc35d1235c0334a7334a20349f52ab382aa6924f1724e8f24e862478a245fa35d0435c0734a7734a22349f92ab2e2aa6d24f1b24e9324e8a24782245f235cfc35c0b34a7b34a24349fb2ab242aa7124f1f24e9724e8e24776245be)
  (.lf
  0x243e5243e1243df243d1243cf243cb243c9243bb243b9243b5243b3243a5243a32439f2439d2438f2438d24389243872437924377243732436f243612435f2435b243592434b24349243452434324335243332432f2432d2431f2431d2431924317243111eec41eea61ee821ee601ee3c1ee1a1edf81edd61edb41ed921ed701ed4e1ed2c1ed0a1ece81ecc61eca41ec801ec5c1ec381ec141ebf01ebcc1eba8)))
  (.nd (.nd (.lf
  0x40f6e40f3540f3140f3440f2e40f0040de940de140de840dbc405b3405af405b2405ab405a7405aa405a54059f405a44059c4059040584405784056a405604052b405274052a40524404de40d2440d1a40d1040d0640cfc40cf240ce840ce040cd440ccc40cc240cb840cac40ca240c9040c8840c7e40c6e40c6640c4a40ba440b9c40b9440b8840b8040b5840b1a40a96409d6408f4417c2417b8417ac4179e)
  (.lf
  0x211e1211df211db211d9211d7211d5211cf211c9210f3210f1210ed210cf20fef20fed20fe920fe720fd520fd320fb120fad20fab2102f20fa920f9920f8b20f8920f8520f8320f8120f7f20f7b20f7920ed320ed120ecd20ecb20ec920ec720ec320ec120ebd20ebb20eb720eb520e4d20e4b20e4720e4520e4320e4f20e4120dc520db920dcb20db720db320dad20dab20d9120d8d20d7d20d6320d4f20d4b))
  (.nd (.lf
  0x45c604716045ca0470c045ce04702045d2046f8045d6046ee045da046e4045de046da045e2046d0045e6046c6045ea046bc045ee046b2045f2046a8045f60469e045fa04694045fe0468a046020468004606046760460a0466c0460e046620461204658046160464e0461a046440461e0463a0462204630046260462c05220053c405224053ba05228053b00522c053a6052300539c05234053920523805388)
  (.lf 0)))

def shaXorReads439 : BTree :=
  .nd (.nd (.nd (.lf
  0x1457e14454170a51708a15f5d1501f145bb1458b14580144421706d1705215f5f15021145bf1458d1458214432170331701615f6115023145c31458f145841442216ff916fdc15f6315025145c714591145861441216fc116fa615e8115027145cb14588145531440216f8b16f7015e8315029145cf1458a14555143f216f5116f3615e851502b145d31458c14557143e216f1916efe15e871502d145d71458e)
  (.lf
  0x3dc033dc013dbff3dbfb3dbf93dbf73dbf53dbf13dbef3dbed3dbeb3dbe73dbe53dbe33dbe13dbdd3dbdb3dbd93dbd73dbd33dbd13dbc33dbc13dbbd3dbbb3dbb93dbb73dbb33dbb13dbad3dbaf3dbab3dba73db2f3db2d3db293db253db113db033daef3daed3dad73db313dad53dad13da713da6f3da633da613da413da473da3f3da3b3da113da0f3da0b3da033d9ff3f0963f08c3f0803f0723f0623efec))
  (.nd (.lf
  0x2bc022bce22bc062bcd82bc0a2bcce2bc0e2bcc42bc122bcba2bc162bcb02bc1a2bca62bc1e2bc9c2bc222bc922bc262bc882bc2a2bc7e2bc2e2bc742bc322bc6a2bc362bc602bc3a2bc562bc3e2bc4c2bc422bc482c5882ced82c58c2cecc2c5902cec42c5942ceba2c5982ceac2c59c2cea62c5a02ce9c2c5a42cf0c2ce902ce862c5aa2cf082ce7e2ce762c5dc2cf042ce6e2ce662c5e22cf002ce5c2ce54)
  (.lf 0))) (.nd (.nd (.lf
  0x1dbda1dbd01dbc61dbbc1dbb21dba81db9e1db941db8a1eeba1ee9a1ee781ee541ee321ee101edee1edcc1edaa1ed881ed661ed441ed221ed001ecde1ecbc1ec981ec741ec501ec2c1ec081ebe41ebc01eb9c1eb781eb561eb321eb0e1eaec1eaca1eeb21ee901ee6e1ee4a1ee281ee061ede41edc21eda01ed7e1ed5c1ed3a1ed181ecf61ecd41ecb21ec8e1ec6a1ec461ec221ebfe1ebda1ebb61eb921eb6e)
  (.lf
  0x678c0674c0670c066c8066820663c065fa065ba0657a06536064f4064b00646a06424063de0639c0635806312062d00628c0624a06206061c40699d0698f0698b069650695706955069510692106913069110690d068df068d1068cf068cb0689b0688d0688b06887068590684b068490684506815068070680506801067cf067c1067bf067bb0678d0677f0677d067790674d0673f0673d067390670d066ff))
  (.nd (.lf
  0x1d3ea1d1341d3e01d0001d3d61cff41d3d01cfe81d3c21cfdc1d3b61cfd01d3ae1cfc21d3a21cfb61d3981cfaa1d3921cf9e1d3881cf921d35a1cf861d3501cf7a1d32e1cf6e1d3021cf621d2ae1cf561d1ce1cf4a1d1c21cf3e1d1bc1cf321d1ac1cf261d1a41cf1a1d0381cc9c1d0321d0021d0261d0041d0181d0061d0101cfc41cbf81cbe21cef41f0521f17c1f0481f1721f04e1f16c1f0341f1601f022)
  (.lf 0)))

def shaXorReads440 : BTree :=
  .nd (.nd (.nd (.lf
  0xf8220d3180cee7002c2001aa0f85f0f83b0f8240d2f60ceeb002b8001a80f8630f83d0f8260d2d40ceef002ae001a60f8670f83f0f8280d2b20cef3002a4001a40f86b0f8410f82a0d2900cef70029a001a20f86f0f8430f82c0d26e0cefb00290001a00f8730f8450f82e0d24c0ceff002860019e0f8770f8470f8300d22a0cf030027c0019c0f87b0f8490f8320d2080cf07002720019a0f87f0f84b0f834)
  (.lf
  0x3e5c03df783e5a03df5a3e5883df2e3e4923dfa43e4803dfd83e47a3df943e4683df7c3e4563df583e4503df2c3e4443df363e3de3e0103e3d63dfdc3e3c83df543e3b83df343e3b03df103e3a43dec83e37e3de863e3443e0183e16c3de723e14e3de2e3e13e3de2c3e1383de3e3e1243dfda3e11e3e0163e10e3df923e1083df7e3e0f43df563e0ee3df323e04e3e0143deca3dec23de943eb283f0903eb3c))
  (.nd (.lf
  0x23d1223cf223cc824b1e24aea24d1a24d1c24cde24cc624d4024c7224c9a24c7424c3224c1c24b2024d1e24d2024ce024cc824d4224c7624c9c24c7a24c3424d2224d2624ce224cca24d4424c7c24c9e24c8024c3824c1e25daa25d42261442610a260e225ffc25fba25fa025f7a25efc25e3e25d8825dac261462610c260e42600025fbe25fa225f7c25f0025e42261482610e260e62600225fc025fa625f80)
  (.lf
  0x39f4439f3639f2e39f2239f1639f0839efe39ef439ee639fee39ec639eba39eb039e9a39e7e3a09b3a0993a0953a0913a08f3a08d39fe739fe539fe339feb39fe139fdd39fdb39fd939fd539fd139fcf39fcd39fc939fc539fc339fc139fbd39fb939fb739fb539fb139fab39fa739fa539fa139f9d39f9b39f9939f9539f9339f8f39fad39f8d39f8939f8739ff339f8539f8139f7b39f7939f7539f7339f6f)))
  (.nd (.nd (.lf
  0xa88f09cbf09c3d09c2609be209b220c5cc0c4840b1f10b1ed0a86309cc309c3f09c2809be409b240c5c00c46c0b1df0b1db0a83709cc709c4109c2a09be609b260c5b60c4720b1cd0b1c90a80b09ccb09c4309c2c09be809b280c5b00c4780b1bb0b1b70a7df09ccf09c4509c2e09bea09b2a0c5a80c48c0b1a90b1a50a7b309cd309c4709c3009bec09b2c0c59e0c4880b1950b1910a78709cd709c4909c32)
  (.lf
  0x322f0322e2322d8322d4322c0322b2322a8322c2321da321d2321d0325b7325b5325b1325af325ad325b9325ab325a7325a5325a33259f3259d3259b325993259532593325913258f3258b325893258732585325833257f3257d3257b3257732573325713256f3256b32569325673257932565325613255f3255d325593255732555325533254f3254b3254732545325413253f3253d325493253b3253732535))
  (.nd (.lf
  0x2a3532a7422a3152a7322a2f32a7062a2d52a6f02a6312a6ea2a29b2a6ce2a27f2a6c42a2652a6a62a2492a69a2a2352a6862a20d2a66a2a1f92a65c2a1d32a6482a1a92a64029fab2a63629f2129f3529e8c29ea729e8429e8f29e2a29e2d29e2229e112b7f32b8ae2b7f52b8062b7eb2b8392b79e2b76f2b72c2b7352b6ea2b6d72b6a22b6852b63a2b6212b5fe2b5f42b5732b5d82b5792b5d22b5752b5b8)
  (.lf 0)))

def shaXorReads441 : BTree :=
  .nd (.nd (.nd (.lf
  0x280db27e2a2c2162c0f529f1d2952328331280d227be127bca2c1f62c0f329f07294db283b728335280d427bba2c1d22c0f129e9f28e81283b928339280d627bae2c19e2c0ef29ea128ced283bb2833d280d827b942c16c2c0ed29e4928ca5283bd28341280da27b662c0d529e1d28c87283bf2829b27be027af02d6d72b8a32a4bd297712975d29758297562d7b42d6d12b8a52a49f297752975f2975a29746)
  (.lf
  0x196ed196eb196e7196dd196db196d9196d5196cb196c9196c7196c3196b9196b7196b5196b1196a7196a5196a31969f1969519693196911968d19683196811967f1967b196711966f1966d196691965f1965d1965b196571964d1964b196491964519643196391963719633196311962719625196211961f19615196131960f1960d1960319601195fd195fb195f1195ef195eb195e9195df19575195711956f))
  (.nd (.lf
  0x13ac713ab213a98226652260c225e319fb019c4b152cd152451523c13a7a13a7713a6213a4a226692260e225e519f7419c4f152d1152491524013a2c13a2913a14139fa2266d22610225e719f3619c53152d51524d15244139dc139d9139c4139a82267122612225e919ef819c5715251152481398a13987139721395a2267522614225eb19ebc19c5b152551524c1393c13939139241390e2267922616225ed)
  (.lf
  0xe9170e9130e9110e90f0e90d0e9090e9070e9050e9030e8ff0e8fd0e8fb0e8f90e8f50e8f30e8f10e8ef0e8eb0e8e90e8e70e8e50e8e10e8df0e8dd0e8db0e8d70e8d50e8d30e8d10e8cd0e8cb0e8c90e8c70e8c30e8c10e8bf0e8bd0e8b90e8b70e8b50e8b30e8af0e8ad0e8ab0e8a90e8a50e8a30e8a10e89f0e89b0e8990e8970e8950e8910e88f0e88d0e88b0e8870e8850e8830e8810e87d0e87b0e879)))
  (.nd (.nd (.lf
  0x216a8215d8215ce220f821fd421f5421ef621d8e21d1021ce621bb221b4a21aba21a64219e8219982194e218f2218fa216b0221e5220f9220f5220f121fd521fc721fc321fbb21fb721f5521f3d21f0321ef721d8f21d8b21d8721d1121ce521cdf21ce721cdd21c9d21bb321b9d21b9921b4b21b4721b4121aeb21ac121abb21ab921ab521a65219e9219e7219df21999219932198f219792194f2194b21949)
  (.lf
  0x15df115def15deb15de915de715de515de115ddf15ddd15ddb15dd715dd515dd315dd115dcd15dcb15dc915dc715dc315dc115dbf15dbd15db915db715db515db315daf15dad15dab15da915da515da315da115d9f15d9b15d9915d9715d9515d9115d8f15d8d15d8b15d8715d8515d8315d8115d7d15d7b15d7915d7715d7315d7115d6f15d6d15d6915d6715d6515d6315d5f15d5d15d5b15d5915d5515d53))
  (.nd (.lf
  0x1122a1108c10ee010edd11220110d01108010ebd112161107410efb10ee21120c110ce1104c10f05112021104010efd10ee4111f8110cc1103410f0f111ee1102810f0710ee6111e4110ca1101c10f09111da1101010f0d10ee8111d0110c81100410f0b111c610ff810eff10eea111bc110c610fec10f01111b210fe010f0310eec111a8110c410fd410ef51119e10fc810ef710eee11194110c210fbc10ef9)
  (.lf 0)))

def shaXorReads442 : BTree :=
  .nd (.nd (.nd (.lf
  0x3bb11390ec3905337c0b36a2d36a1b36a1636a143ba55390e23904737c7936a3136a1d36a18369fa3b9ab390d43903d37be3369993696f3696a369683b8f7390ce3900737bc93699d369713696c3694a3b86d390c238fdb37c2936b3e3690d36907368cc3b7df3909738f9e37b8936a1a36887368813687a3b75d38f8f38f8037b9136a1c36863368613685e3b73138f7a38f4b37b593696e3684d3684b36800)
  (.lf
  0x35ed235e8a35e4e35e0036b2136acd36acb36ac736ac536ac336abf36ab536a9f36a9d36a7d36a7b36a7936a7736a5736a5536a5336a5136a4d368db368c1368433683f36829368273682536821368073680536803367d5367d136747367453674136729367273672536721366e3366cf36749366cd366c13668336689366813663f366033661136601365fd365c3365c1365af365a5365a3365a13659d3659b))
  (.nd (.lf
  0x2b1562af3639b7c398913922f3920f391f830934307732bbf92bbdb2bbd62b1502af4c39b6c398cf3923339211391fa30924307772bbfd2bbdd2bbd82b1422af5639b5a398d33923739213391fc3091a3077b2bc012bbdf2bbda2b13c2af3039b54398d73923b39215391fe309123077f2bc052bbe12bbdc2b12e2af3439b4a398db3923f392173920030908307832bc092bbe32bbde2b11e2af4039b3c398df)
  (.lf
  0x29dab29da729da529d9929d9729d9329d9129d8329d8129d7d29d7b29d6d29d6b29d6729d6529d5729d5529d5129d4f29d4129d3f29d3b29d3929d2b29d2929d2529d2329d1529d1329d0f29d0d29cff29cfd29cf929cf729ce929ce729ce329ce129cd329cd129ccd29ccb29cbd29cbb29cb729cb529ca729ca529ca129c9f29c9129c8f29c8b29c8929c7b29c7929c7529c7329c6529c6329c5f29c5d29c4f)))
  (.nd (.nd (.lf
  0x1d0841d0481cf0c1f58e1f5841f57a1f5701f5661f55c1f5521f5481f53e1f5341f52a1f51e1f5141f50a1f5001f4f81f4ee1f4e41f4da1f4d01f4c61f4bc1f4b21f3961f3841f3781f36c1f3621f2061f1be1f4a01f4961f48c1f4821f4781f46e1f4661f45c1f4521f4481f43c1f4341f42a1f4201f4161f40a1f4001f3f61f3ec1f3e41f3da1f3ce1f3c41f3ba1f3b01f3a61f39e1f38c1f1fe1f1ae2060e)
  (.lf
  0x23abf23abd23ab923a6923a6523a6323a5f23a5b23a5923a5723a5323a2923a2523a6d23a2323a1f23a1d23a1b23a1723a1523a1123a0d23a0923a052324b232512324723243232412323f2323b232392323723235232312322f2322d2424e242442423a24230242262421c242142420224206241f0241ea241dc2420a241c8241be241b4241aa241f22419824190241862417a241742416c2415c2415e2414a))
  (.nd (.lf
  0x24c8624e3224ca424e2624c8824e1c24c3c24e1224c2224e0824b2224dfe24d2a24df424d2c24dec24cea24de224ce824dd424d4824dce24c7824dc024ca224db624c8424dac24c3624da024d2424d9624d2824d8e24ce424d8624ce624d7e24d4624d7224c7e24d6824ca024d6024c8224d5424c3a24c20261502657c26114265702614a26568261522655c262922655425ffe2654625fbc2653c25fc626536)
  (.lf 0)))

def shaXorReads443 : BTree :=
  .nd (.nd (.nd (.lf
  0x1b9aa1b4c81e0ae1de651d4331c2511b9eb1b9b71b9ac1b4ca1e0a21de4d1d2a31c2011b9ef1b9b91b9ae1b4cc1e09a1de351d2a51c1c51b9f31b9b01b97b1b47e1e08e1e0271d2431c1771b9f71b9b21b97d1b4641e0861e0291d2451c13f1b9fb1b9b41b97f1b4661e07c1e01f1d1e91c0eb1b9ff1b9b61b9811b4681e0721e0191d1731c0b11ba031b9b81b9831b46a1e06a1e0131d1751c05d1ba071b985)
  (.lf
  0x415b9415b7415b5415b3415af415ad415a9415a7415a34159f4159d4159b4157541573415714156f4156b4156541563415614155d4152f4149b414a541499414954132b4132941325413214131f4131d41319413114130f4130d412ab412a7411154111b411134110f410c1410bf410bb410b7410b33ec3c3ec323ec283ec243ec143ec083ec0e3ebf63ebee3ebe23ebda3ebd03ebd43ebba3ebb03eba63eb9c))
  (.nd (.lf
  0x1cd881cd761cd701cd5e1cd581cd461cd401cd2e1cd281cd161cd101ccfe1ccf81cce61cce01ccce1ccc81ccb61ccb01cc9e1cc941cc821cc741cc621cc521cc401cc301cc1e1cc0e1cbfc1cbe81cbd81eebe1ee9e1ee921ee7c1ee701ee581ee4c1ee361ee2a1ee141ee081edf21ede61edd01edc41edae1eda21ed8c1ed801ed6a1ed5e1ed481ed3c1ed261ed1a1ed041ecf81ece21ecd61ecc01ecb41ec9c)
  (.lf 0))) (.nd (.nd (.lf
  0x35e1a35220352183521035206351fe351f4351ec351e2351d83506c35062350563504c350443503a34f2634f1c34f1234f0834efe34ef434eea34ee034ed634ecc34ec234eb834eae34e6434e5a372fe36ff636fee36fe236fda36fce36fc236fb636faa36f9e36f9236f8636f7836f6c36f6236f5836f4c36f4236f3636f2a36f1e36f0a36eee36ed436eba36ea036e8636e6c36e5236e26372743726837260)
  (.lf
  0x853e085340852a08520085160850c08502084f8084ee084e4084da084d0084c6084bc084b2084a80849e084940848a08480084760846c08462084580844e084440843a08430084260841c084120853f0853d085390853708535085330852f0852d0852b085290852508523085210851f0851b085190851708515085110850f0850d0850b08507085050850308501084fd084fb084f9084f7084f3084f1084ef))
  (.nd (.lf
  0x41a00417a4419f841780419e441774419dc41768419d04175c419c841756419bc41742419b641748419ac4172c419a2415e84199a415de41994415f241634415ee41628415f64161e415ba41616415aa41606415a04160041578415f8415664155441530414a8414a641336413264133041312412b0412ac4111e4111c410c8410b8410d800b0700ae900adc00acb00abe00aaf00aa200a9300a8600a7700a6a)
  (.lf 0)))

def shaXorReads444 : BTree :=
  .nd (.nd (.nd (.lf
  0x3d0903c89e3b6773b673378ff366dd366db366d8366d6366d03d08a3c89a3b63f3b63b37a3f36b2e3675536753367503674a3d07e3c88c3b5e93b5e5378e336b3136ada36693366903668a3d0543c8823b59f3b599378c936add36aaa3661b36618366123d04e3c87a3b5653b56137ae936aad36a88365b1365ac365a63d0363c86c3b5413b53d378ad36a8b36a623659936596365903d0283c86e3b4f53b4d5)
  (.lf
  0x3fc883fc3e3fc143fbaa3fb963fb603fad83fa7a3fa5e3f9f83f9e03f972402cd402ab402a7402a5402a14043b4029b402954025f4025d402594025740255402534024f4023d4022140261401fb401f7401e9401e7401e3401df401dd401db401d7401d5401d3401d1401cd401cb401c9401c74018140179400cb400c9400c5400c140099400914008f4008b400894008740083400814007f400974007d40079))
  (.nd (.lf
  0x39c5739c3f39c3a3b9a43b91439c5b39c4139c3c3b8f23b8ce39c5f39c4339c3e3b8c43b7ea39c6339c4539c403b7da3b76639c6739c4739c423b7683b74639c6b39c4939c443b73c3b6ce39c6f39c4b39c463b6c43b69839c7339c4d39c483b6823b62e39c7739c4a39bbf3b6403b60639c7b39c4c39bc13b5f63b5c239c7f39bc339bbe3b5ac3b57a39c8339bc039bbb3b57c3b52a39c8539bc239ae93b51a)
  (.lf
  0x33970339363393833924339183390c338fe33ca933ca733c9f33c9d33c9b33c9933c9533c8d33c8b33c8933c8533c8333c7f33c9133c7d33c7933c7733c7533c7133c6f33c6d33c6b33c6733c6533c6333cb133c6133c5d33c5b33c5933c5533c5133c4f33c4d33c4933c4533c4333c4133c3d33c3b33c3733c3533c2f33c2d33c2933c2733c2333c2133c1f33c1d33c1733c1533c1333c1133c0b33c0933c07)))
  (.nd (.nd (.lf
  0x2e14c2f27a2f27e2f2822f2862f28a2f28e2f2922f2962f29a2f29e2f2a22f2a62f2aa2f2ae2f2b22f2b62f2ba2f2be2f2c22f2c62f2ca2f2ce2f2d22f2d62f2da2f2de2f2e22f2e62f2ea303e4303e8303ec303f0303f4303f8303fc3040030404304083040c3041030414304183041c3042030424304283042c3043030434304383043c3044030444304483044c30450304543156c3157031574315783157c)
  (.lf
  0x2b18a2b1702afd02af6c2b7c12b7c52b7bf2b7bb2b7b92b7b72b7b32b7b12b7af2b7c92b7ad2b7a92b7a72b7a52b7a12b77b2b75f2b75d2b30d2b30b2b3092b3072b3032b3012b2fd2b2fb2b2f72b2f52b2f12b2ef2b2eb2b2e92b2e72b2e52b2e12b2df2b2db2b2d92b2732b2712b26d2b26b2b2532b2512b24f2b24d2b2492b2452b2432b2412b23d2b23b2b2372b2352b2312b22f2b22d2b22b2b2272b225))
  (.nd (.lf
  0x26eef2714a26e9b2713e26e6b2713426e0d2712c270cd271202709727116270472710e2704b2710426fd7270fa26f65270ee26f2d270e626ef3270da26e9f270d3270a42709b27066270602704f2705326fe426fdd26f7026f6926f3a26f3126f0026ef726eac26ea526e7226e712879f288b828805288ae287b1288a42880d2889c287b7288902875328884287212887e286d328874286d728866286db28860)
  (.lf 0)))

def shaXorReads445 : BTree :=
  .nd (.nd (.nd (.lf
  0x1c0d61c0aa1a5b71a553195cf1891d188bb18786185ee185e81c08c1c0561a40d1a3f9195d11893d1892118772185dc185d61c04a1c01c1a40f1a3fb195d3188c3188871875e185ca185c41bffe1bfca1a4111a3fd195d5189451885b1874a185b8185b21bfbc1bf821a4131a3ff195d71888f1882f18736185a6185a01bf721bf3a1a87d1a879195d9188631880318720185941858e1bf281bee21a4151a401)
  (.lf
  0xa38b0a3890a3850a3830a35f0a4ab0a35d0a3590a3390a3370a3330a3310a30d0a4a70a30b0a3070a2e70a2e50a2e10a2df0a2b90a4a30a2b70a2b30a28f0a28d0a2890a2870a2610a49f0a25f0a25b0a2370a2350a2310a22f0a20b0a49b0a2090a2050a1e30a1e70a1e10a1dd0a1bd0a4970a1bb0a1b70a1910a1950a18f0a18b0a16b0a4930a1690a1650a1410a13f0a13b0a1390a1130a48f0a1110a10d))
  (.nd (.lf
  0x30565305d230595305c83054b305be3053f305ae30533305a6305a13051a3051530504304fd304ea304e3304d0304cd304b230485304ac30475304a030469304943045d3048d31a1531b043183b31af83182731cb331aec31ae43182f31ad63180d31ac8317e931ac0317dd31ab43179f31aa4317ed31a98317a531a8e3178131a763177d31a68317a331a623180131a5831753319de3174d319b63173d319ac)
  (.lf
  0x41b3541b2141b1d41b1b41b1941b1541b1341b1141b0f41b0b41b0741b0541b0341aff41ac341ac141abf41abb41ab341aaf41ab741aad41aa941aa741aa541a8d41a8541a8341aa141a8141a7d41a4341a4541a4141a3b416fb416f9416f5416f1416ef416fd416ed416e9416e341709416e1416dd416db416d9416d5416b94167d4167f4167b4167741665416634165f4165d4165b41659416514164d41591)))
  (.nd (.nd (.lf
  0xc1c80c1ac0c1900c1700c1520c1320c1100c0ee0c0ce0c0b20c45a0c43a0c38a0c3660c3060c2e20c2a40c2820c2600c23e0c21c0c1fa0c1840c1460c1240c1020c4400c41f0c41b0c41e0c4030c3ff0c4020c3e70c3e30c3e60c3cb0c3c70c3ca0c3af0c3ab0c3ae0c3900c36c0c3490c3450c3480c32b0c3270c32a0c30c0c2e80c2c70c2c30c2c60c2aa0c2880c2660c2440c2220c2000c1df0c1db0c1de)
  (.lf
  0xd3660d3480d3260d3040d2e20d2c00d29e0d27c0d25a0d2380d2160d1f40d1d20d1b00d18e0d16c0d14a0d1280d1060d0e40d0c20d0a00d07e0d05c0d03a0d0180cff60cfd40cfb20cf900cf6e0d3670d34f0d34b0d3490d32f0d32d0d3290d3270d30d0d30b0d3070d3050d2eb0d2e90d2e50d2e30d2c90d2c70d2c30d2c10d2a70d2a50d2a10d29f0d2850d2830d27f0d27d0d2630d2610d25d0d25b0d241))
  (.nd (.lf
  0x2b1202acc02a6202a46029dc029c00297a02934028ca0288a0284a0280a027ca0278a0276e02728026e20269c02656025ec025d00258a02544024fe024940245402438023f2023ac023b1023ad02387037dc037a80374a0373a036dc036a8036980365e03600035f0035b60355803548034ea034da034a00346603408033f8033be033600335003316032dc0327e0326e03210031dc031cc0316e031970316f)
  (.lf 0)))

def shaXorReads446 : BTree :=
  .nd (.nd (.nd (.lf
  0x26b5726147260df25d12259d8259d22a1aa29fa827e5327e4f26b0b2610d25ff925cae259a22599c29f9e29f18285452854126ae7260e525fb725c5e2596a2596429f0e29ef827c1927c1526aaf2600125f9d25c10258e6258e029efa29e7627c0727c0326a5525fbf25f7725bfe258aa258a429e7829e6e27bf927bf526a5725fa325ef925bea258742586e29e7c29e4427bdb27bd726a5925f7d25e3b25bd6)
  (.lf
  0x273212731f2731b273192731727315273112730f2730d2730b27307273052730327301272fd272fb272f9272f7272f3272f1272ef272ed272e9272e7272e5272e3272df272dd272db272d9272d5272d3272d1272cf272cb272c9272c7272c5272c1272bf272bd272bb272b7272a727297272a927295272912728f2728d2728927279272772727527271272692725b272592725527253272512724f2724b27249))
  (.nd (.lf
  0x1eb621eb5f2f33e2f2d92e1452e0b52e09a207a32079e1ef1e1eb401eb3d1eb3a2f3382f2dd2e1492e0b72e09e207a5207a01ef121eb1c1eb191eb162f32c2f2e12e14d2e0b92e0a2207a7207a21ef041eef81eaf81eaf52f31e2f2e52e0bb2e0a4207a9207a41eef21eef01ead61ead32f3122f2e92e0bd2e0a6207ab207a61eee01eab41eab11eaae2f2ef2e0bf2e0a8207ad207a81eee61eaa3303a12f27b)
  (.lf
  0x20c8720c8320c8120c7320c7120c6d20c6b20c5d20c5b20c5720c5520c4720c4520c4120c3f20c3120c2f20c2b20c2920c1b20c1920c1520c1320c0520c0320bff20bfd20bef20bed20be920be720bd920bd720bd320bd120bc320bc120bbd20bbb20bad20bab20ba720ba520b9720b9520b9120b8f20b8120b7f20b7b20b7920b6920b6720b6320b6120b5120b4f20b4b20b4920b3920b3720b3320b3120b21)))
  (.nd (.nd (.lf
  0x369a9369b036959369553695836934368d2367bc367a13679d367a036782366ee366e7366a9366e6366a6366543661f365f33661e365813657d36580365733656f3657236558363e9363e1363e8363de363d3363cb363d2363c83637d3636b3637c3609e35fbf35fb935fbe35fa935fa535fa835f5a35f1135f0d35f1035edd35ec935edc35e7c35e58357f0357e6357dc357d4357ca357c0357b6357ac357a2)
  (.lf
  0x1cf851cf831cf7f1cf7d1cf791cf771cf731cf711cf6d1cf6b1cf671cf651cf611cf5f1cf5b1cf591cf551cf531cf4f1cf4d1cf491cf471cf431cf411cf3d1cf3b1cf371cf351cf311cf2f1cf2b1cf291cf251cf231cf1f1cf1d1cf191cf171cf131cf111cc9b1cc811cc7d1cc7b1cc611cc5f1cc5b1cc591cc3f1cc3d1cc3b1cc371cc1d1cc1b1cc191cc151cbf31cbf71cbf11cbed1cbdd1d4121d40a1d3fe))
  (.nd (.lf
  0x3369c3346a33386332f13367c3343a3335a332dd3364033432332d0332cf3361e333de332c3332c033616333c23325b3325833610333bc332613325c333ae3337c3324b332483335c333163323e3323d3333933306332a63328a3330033278332663326533281332703326a33268332143320633202331f7331e9331dc331d4331c6331b8331b033199331963318a33145331363312e3316c3313b331223311a)
  (.lf 0)))

def shaXorReads447 : BTree :=
  .nd (.nd (.nd (.lf
  0xa9fe0a6700fe890fe480bf790b4b70aa370aa0b0aa000a6720fe2b0fdec0bf7b0b4b90aa3b0aa0d0aa020a6740fdcd0fd8c0bf7d0b4bb0aa3f0aa0f0aa040a6760fd6b0fd2c0bf7f0b4bd0aa430aa110aa060a6780fd0f0fcce0bf810b4bf0aa470aa130aa080a67a0fcaf0fc700bf830b4c10aa4b0aa150aa0a0a67c0fc530fc120bf850b4c30aa4f0aa0c0a9d70a67e0fbf70fbb80bf870b4c50aa530aa0e)
  (.lf
  0x3be473be453be413be3f3be3b3be393be353be313be2f3be2d3be293be253be233be213be1d3be193be173be153be113be0d3be093be0b3be073be033be013bdff3bdfb3bdf93bdf73bdf53bdf13bdef3bded3c0413bdeb3bde73bde53bde33bddd3bdd53bdd33bdd73bdd13bdcd3bdcb3bdc93bdc53bdc33bdc13bddf3bdbf3bdbb3bdb93bdb73bdb33bc0b3bb513bb4f3bb493bb3b3baf13baef3ba933ba91))
  (.nd (.lf
  0x39e3239f5a39e3639f5439e3a39f4239e3e39f3a39e4239f2c39e4639f2639e4a39f1439e4e39f0c39e5239f0039e5639ef239e5a39eec39e5e39ece39e6239ec839e6639ebc39e6a39eae39e6e39ea839e7239e9439e7639e823a2fa3a55e3a2fe3a5563a3023a54c3a3403a5403a3443a5363a3483a5223a34c3a51c3a3503a50c3a3543a5063a3583a4f03a35c3a4e83a3603a4de3a3643a4d23a3683a4c6)
  (.lf 0))) (.nd (.nd (.lf
  0x284082840c283442967a2963629606296082960a2961e2976029764296e4296e8296ec297682976c296f0296f4296f8296fc2967c2968029638296522960c2961029620295c62977029774296fe29702297062970a296822a3d82a3b62a3942a3682a34c2a32a2a4d22a4d62a4da2a4de2a4e22a4e62a4ea2a4ee2a4f22a4f62a42a2a3fe2a3da2a3b82a3962a36a2a34e2a32c2a3042a4fa2a4fe2a5022a506)
  (.lf
  0xc4a00c3400c1e00c0800bf200bdc00bc600bb000b9a00b8400b6e00b5800deb00ddd00dd900dd700dc900dc700dc300dc100db300db100dad00dab00d9d00d9b00d9700d9500d8700d8500d8100d7f00d7100d6f00d6b00d6900d5b00d5900d5500d5300d4500d4300d3f00d3d00d2f00d2d00d2900d2700d1900d1700d1300d1100d0300d0100cfd00cfb00ced00ceb00ce700ce500cd700cd500cd100ccf))
  (.nd (.lf
  0x3fde43fbd13fdde3f8833fdd03f88d3fdc03faab3fdb83f9b53fda43f9053fd6c3f8c73fd643fbc73fd5c3fae53fd403f9d73fd2a3f8ff3fd123f8bd3fd003f8793fce63fbcd3fc9a3f80b3fc943f7e33fc8c3f7c93fc4c3f7af3fbcf3fb123fb083f78d3fb003f4773faf63f4793faa13f9c63f9a13f9303f9093f8de3f8c93f8843f88f3f85c3f83f3f8043f7f3402c9404c240289404b4402b1404aa40265)
  (.lf 0)))

def shaXorReads448 : BTree :=
  .nd (.nd (.nd (.lf
  0xf1790f1220f0f90dd220dc6f08a26089e40f6cd0f6450f63c0f4020f35d0f17d0f1240f0fb0dd180dc73089e6089a40f6d10f6490f6400f3f80f3610f1810f1260f0fd0dd0e0dc77089a6089660f6d50f64d0f6440f3ee0f3650f1850f1280f0ff0dd040dc7b0895c0891e0f6510f6480f3e40f3690f1890f12a0f1010dcfa0dc7f08920088e00f6550f64c0f3da0f36d0f18d0f12c0f1030dcf00dc83088d6)
  (.lf
  0x3019c2fef3301962fef73018c2f9fd301813015e30155300f0300e8300cb300de300ab300d4300b7300c2300b1300b931325314643132931456313093144a311f131440311793143a3114b314303133d31426313413141c3134531412312213140831183313f831349313ee3134d313e431351313de31225313d431187313c831157313c2310e3313ba3108d313b031091313a430fc53139a30fb33139030fd5))
  (.nd (.lf
  0x10ae410ae810aec116ee116f2116f6116fa116fe11702117061170a1170e11712117161171a1171e11722117261172a1172e11732117361173a1173e11742117461174a1174e11752117561175a1175e11762117661176a12814128181281c1282012824128281282c1283012834128381283c1284012844128481284c1285012854128581285c1286012864128681286c1287012874128781287c1288012884)
  (.lf
  0x290b028fd028fb028f7028c9028bb028b9028b5028890287b0287902875028490283b028390283502809027fb027f9027f5027c9027bb027b9027b5027890277b027790277502745027370273502731026ff026f1026ef026eb026b9026ab026a9026a50267302665026630265f0262d0261f0261d02619025eb025dd025db025d7025a70259902597025930256102553025510254d0251b0250d0250b02507)))
  (.nd (.nd (.lf
  0x9e6b0923b0865d0863308628085dc07ed407ed109e6d0923d08661086350862a085de07e8e07e8b09e6f0923f08665086370862c085e007e4f07e4609e710924108669086390862e085e207e0807e0509e73092430866d0863b08630085e407dc907dc009e7509245086710863d08632085e607d8207d7f09e7709247086750863f08634085e807d3c07d3909e7909249086790863608601085ea07cfd07cf4)
  (.lf
  0x38425384233841f3841d3841938417384113840d3840b38409384053840338401383ff383f9383f7383f5383f3383ed383e7383e5383e3383df383db383d9383e9383d7383d3383d1383cf383c9383c7383c5383c3383bf383bb383b9383b7383b33803b3803338035380313802d3802b3802938025380233801b3801f380193801538013380113800d3800938007380053800137fc537fa137f9f37f9b37f97))
  (.nd (.lf
  0x303a4306e2303a8306dc303e6306ce303ea306be303ee306b4303f23069a303f630692303fa30670303fe30662304023063c30406306263040a306163040e305823041230574304163056c3041a3055e3041e30554304223054c30426305403042a305343042e30528304323052030436305023043a304f23043e304d8304423047c30446304703044a304643044e30458304523048631528318363152c3182a)
  (.lf 0)))

def shaXorReads449 : BTree :=
  .nd (.nd (.nd (.lf
  0x25da325d9f24b1323cbd23cb723cb223c4a23c32282b22821a25d3d25d3924ae923de623cbf23cb923c4c23c34282a82820825d0f25d0b24acf23deb23de823cbb23c4e23c362829e2820625cab25ca724ad123def23db023bd523bd223bcc2826c280ac25c5b25c5724aa123db323d6623bbd23bba23bb4282522809425c0d25c0924a3523d6f23d6823b8b23b8823b8228246280ae25bfb25bf724a3723d73)
  (.lf
  0x24702246b4246702462e24cff24cfd24cf924cf724cf524cf324cef24cd124ccf24ccd24cb924cb524cb324d3324cb124cad24cab24ca924c6924c5724c5524c8d24c5324c4f24c4d24c4b24c4924c4524c4324c4124c2524c1724c0d24c0b24c0724c0524b1924b1724b0b24b0124ae524ae724ae324add24ad324abf24abb24ab924ab724ac124ab524ab124aaf24aad24aa524a9924a4f24a4d24a3924a27))
  (.nd (.lf
  0x2bd8f1e79c1e6af1daf91daf01c1861bf002d04a2cfa92be1b2bdba2bd911e7861e6b31dafd1daf41c1001bed02d03e2cfad2be1f2bdbc2bd931e7701e6b71daff1daf81c0fa1befa2d0322cfb12be232bd952bd781e75a1e6bb1db011dafc1c0721bc962d0242cfb52be272bd972bd7c1e7441e6bf1db031dafe1c06c1bc7e2d01c2cfb92be2b2bd992bd801e72e1e6c31db051db001c0241bc662d00c2cfbd)
  (.lf
  0x1eeb31eeaf1eea11ee931ee911ee8d1ee7f1ee711ee6f1ee6b1ee5b1ee4d1ee4b1ee471ee391ee2b1ee291ee251ee171ee091ee071ee031edf51ede71ede51ede11edd31edc51edc31edbf1edb11eda31eda11ed9d1ed8f1ed811ed7f1ed7b1ed6d1ed5f1ed5d1ed591ed4b1ed3d1ed3b1ed371ed291ed1b1ed191ed151ed071ecf91ecf71ecf31ece51ecd71ecd51ecd11ecc31ecb51ecb31ecaf1ec9f1ec91)))
  (.nd (.nd (.lf
  0x311c2311b4310c8310643101a325b4325aa325a2325983258e325843257a3256e325643255c32552325443253a325323252a323183231032306322fc322f2322e8322de322d2322ca322bc322b0322a6321e2321d8321cc32ebc32eb432ea832e9c32e9032e7e32e7232e6632e5a32e5232e4632e3a32e2c32e2432e1832b4c32b2432aee32ad432aa632a8232a1e329e2329a23296e3290c328543282a327fa)
  (.lf
  0x1bae71bae51bae31badd1badb1bad91bad51bad31bad11bacf1bacb1bac91bac71bac51bac11babf1babd1babb1bab71bab51bab31bab11baad1baab1baa91bae11baa71baa31baa11ba9f1ba9b1ba991ba971ba951ba931ba8f1ba8d1ba8b1ba871ba851ba831ba811ba7d1ba7b1ba791ba771ba731ba711ba6f1ba6d1ba691ba671ba651ba631ba5f1ba5d1ba5b1ba591ba551ba531ba511ba4f1ba4b1ba47))
  (.nd (.lf
  0x2b27e2b1f82b17c2b1792aff82afec2afe42afe12afb22afb02afa82afa52af8e2af892c5852c5822cc5e2c7fe2c5692c5662cc3c2c7be2c55c2c55b2cbda2c7b62c5532c5502cbd02c7b02c5442c5432cbc02c7a62c53d2c53a2cbb82c79a2c5352c5322cbb02c7922c5282c5272cb6e2c7842c51e2c51d2cb682c77a2c5702c4ad2cb2c2c7702c49e2c49d2cb262c7682c4922c4912cb0a2c7602c4862c485)
  (.lf 0)))

def shaXorReads450 : BTree :=
  .nd (.nd (.nd (.lf
  0x3365333188328d2328cc371343712034f4d34f4933a6533637333933317a328e2328dc3711236e1434b1534b1133a17336fb3336d33164328be328b8370f834abd34ab9339e9333993329d33002327ac327a63bbc436b2736b23356eb347f5347ed347ea347e8347e03bb0a3baa436ad336acf35705347953478d3478a34788347823ba4e3b9a036aa536aa1356bb346c5346bd346ba346b8346b23b9983b8e0)
  (.lf
  0x41202411f8411ee411e440f1a40ecc40eba40eb640c6040c3c40c2840c1440be240bbc40b7e40b3040b0a40aae40a6840a604195341993419514194d4194b41955419494194541943419414193d418c3418c1418bf418bb418b9418b7418b5418b1418af418ad4193b418ab4189d4151141513414ef414eb412294122741223412214121f4122b4121d412194121741215412114120f4120d4120b4120741205))
  (.nd (.lf
  0x36ec839cc839c8b370ce36ee836eb536eb239cbc39c99370c236ece36e9736e9039cb639c91370a836eb436e8136e7e39cac39c953709236e9636e6736e6439ca039bc736e8036e3d36e3836e3639bd239bcb3730736e6636dfa36df839bd73727b36e3c36de03a121382c1382bb382b6382b23a2ec3a0c338488382c5382bd382b8382ac3a2e23a0b73847e382c9382bf382ba382b43a2da3a0a53846e382bc)
  (.lf
  0x319d4319b8319a43196231952319683192e31906318d6318c43185431848317a831672315f031b0b31b0931b0531b0331aff31afd31af931af531af331cb531af131aed31aeb31ae931ae531ae331adf31add31ad931ad731ad331ad131acb31ac931ac731ac531ac131abf31abb31ab931ab531ab331aaf31aad31aa531aa131a9f31a9d31a9931a9731a9531a9331a8f31a8d31a8b31a8931a8531a8131a77)))
  (.nd (.nd (.lf
  0xde520de560de5a0de5e0de620de660de6a0de6e0de720de760de7a0de7e0de820de860de8a0e0040e0080e00c0e0100e0140e0180e01c0e0200e0240e0280e02c0e0300e0340e0380e03c0e0400e0440e0480e04c0e0500e0540e0580e05c0e0600e0640e0680e06c0e0700e0740e3ca0e3ce0e3d20e3d60e3da0e3de0e3e20e3e60e3ea0e3ee0e3f20e3f60e3fa0e3fe0e4020e4060e40a0e40e0e4120e416)
  (.lf
  0x29fd629fca29ff429f6029f6429f4c29f6829ee229ec829df229e4e29de22a18b2a1892a1852a1832a17f2a17d2a1792a1772a1732a1712a1612a15f2a15d2a15b2a1572a1072a1032a1012a0fd2a0fb2a0f72a0f52a0ef2a0ed2a0eb2a0e92a0e52a0e32a0df2a0dd2a0d92a0d72a0d32a1132a0d12a0cd2a0cb2a0c92a0c52a0c12a0bf2a0bd2a0b92a0992a0952a0932a08f2a08b2a0892a0872a0832a07f))
  (.nd (.lf
  0x197df197fc197e3197f2197e7197ed1a6251a9ba1a86b1a9b01a6291a9a61a62d1a99c1a6311a9921a6351a9881a6391a97e1a63d1a9741a6411a96a1a6451a9601a8891a9561a6491a94c1a86f1a9421a64d1a9381a6511a92e1a6551a9241a6591a91a1a65d1a9101a6611a9061a88d1a8fc1a6651a8f21a8731a8e81a6691a8de1a66d1a8d41a6711a8ca1a6751a8c01a6791a8b61a67d1a8ac1a6811a8a2)
  (.lf 0)))

def shaXorReads451 : BTree :=
  .nd (.nd (.nd (.lf
  0x1689c1687e1a7a01a178187ab187a71782916966168b3168b1168441683e1a7961a71a1879718793179911697116968168311682e168281a78c1a6a6187831877f177c5169751696a168171680e167f61a75c1a0c81876f1876b177ab169791696c1681916810167f81a7501a6a81875b18757177ad1697d1696e1681b16812167fa1a74a1a0561874718743177af16981168f61681d16814167fc1a7401a01c)
  (.lf
  0x8db708db508db108daf08d7908d7708d7308d7108d3108d2f08d2b08d2908cf108cef08ceb08ce908cb108caf08cab08ca908c7108c6f08c6b08c6908c3308c3108c2d08c2b08bed08beb08be708be508ba508ba308b9f08b9d08b6508b6308b5f08b5d08b2508b2308b1f08b1d08ae708ae508ae108adf08aa108a9f08a9b08a9908a5908a5708a5308a5108a1908a1708a1308a11089d9089d7089d3089d1))
  (.nd (.lf
  0x1e8f81e8ef1e8e21e8d91e8cc1e8c31e8b61e8ad1e8a01e8971e88a1e8811e8741e86b1e85e1e8551e8481e83f1e8321e8291e81c1e8131e8061e7fd1e7f01e7e71e7da1e7d11e7c41e7bb1e7ae1e7a51e7981e78f1e7821e7791e76c1e7631e7561e74d1e7401e7371e72a1e7211e7141e70b1e6fe1e6f51e6e81e6df1e6da1e6d9245a92459824595245822457f2456c245692455624553245402453d2452a)
  (.lf 0))) (.nd (.nd (.lf
  0x917c09172091680915e091540914a09140091360912c09122091180910e09104090fa090f0090e6090dc090d2090c8090be090b4090aa090a0090960908c09082090780a46e0a44c0a4200a3f20a3c80a3a00a3740a34e0a3220a2fc0a2d00a2a60a2780a24e0a2200a1fa0a1d20a1aa0a1800a1580a12a0a1000a0d60a0ae0a0840a05c0a02e0a00409fda09fba075d00758c0754e07508074c00748007440)
  (.lf
  0xccb70ccb50ccb10ccaf0ccad0ccab0cca70cca50cca30cca10cc9d0cc9b0cc990cc970cc930cc910cc8f0cc8d0cc890cc870cc850cc830cc7f0cc7d0cc7b0cc790cc750cc730cc710cc6f0cc6b0cc690cc670cc650cc610cc5f0cc5d0cc5b0cc570cc550cc530cc510cc4d0cc4b0cc490cc470cc430cc410cc3f0cc3d0cc390cc370cc350cc330cc2f0cc2d0cc2b0cc290cc250cc230cc210cc1f0cc1b0cc19))
  (.nd (.lf
  0x34fb234f7934faa34f6734f9c34f6f34b3034b2934b2a34b0534aaf36b0d369be36997369b63698d369503692b3691f3691a368fe368b3367c4367ab3679936792367723677136674361e336668361d736660361cd36630361c536628363653655036173365443614b3653e3613d3647236123363b636101363aa361053639e360dd36367360d63607c3607b35fb435f9735fae35f8d35f4535f4235f0335f00)
  (.lf 0)))

def shaXorReads452 : BTree :=
  .nd (.nd (.nd (.lf
  0x5c3004e600465415924155201f6100e1b0066e00621005fa005c5004dc0046341546414ce01f6300e1d0067000623005fc005c7004d200461414c64146a01f6500e1f0067200625005fe005c9004c80045f414624139e01f6700e210067400627005cb005c0004be0045d414584137c01f6900e230067600629005cd005c2004b40045b413704135a01f6b00e25006780062b005cf005c4004aa0045941350)
  (.lf
  0x2dc3e2da0a2dc322d9f02dc2a2d9a42dc242d7462dc182d7282dc0c2dbb62dc002dbba2dbfa2db6c2dbf02db482dbe42db122dbdc2db162dbd82f02c2f2282efd02f21e2ef9a2f2122eeba2f20a2eece2f2022ee1a2f1f82f0362f1ee2efe42f1e22efa42f1dc2ef022f1d22ef062f1c82f03a2f1be2efe82f1b42efa82f1a82ef0a2f1a02ef0e2f0c82ee282f0be2ee2c2f0842ede22f07e2edbe2f0742edd0))
  (.nd (.lf
  0xa7c00a7940a76e0b2680b26c0b2700b2740b2780b27c0b2800b2840b2880b28c0b2900b2940b2980b29c0b2a00b2a40b2a80b2ac0b2b00b2b40b2b80b2bc0b2c00b2c40b2c80b2cc0b2d00b2d40b2d80b2dc0b2e00b2e40bd6a0bd6e0bd720bd760bd7a0bd7e0bd820bd860bd8a0bd8e0bd920bd960bd9a0bd9e0bda20bda60bdaa0bdae0bdb20bdb60bdba0bdbe0bdc20bdc60bdca0bdce0bdd20bdd60bdda)
  (.lf
  0x395ca395b0395943957839562395563954a3953a3950a3950039504394ea394d6394ca394e6394ec393a4393503932e39318392e4392ea392b23966739665396613964d3964b39649396453963d3963b396393963539627396253967b396233961f3961d3961b396173961539609396073960339601395f3395f1395ed395eb395e1395df395db395d9395cb395c9395c5395c3395b1395af395ab395a939595)))
  (.nd (.nd (.lf
  0xa48c0a0e608f5908ed90833b077690772a07701076e6076260a0e80a0c008f5b08edb0833d0776d0772c07703076e8076280a4880a09408f5d08edd0833f077710772e07705076ea0762a0a0960a06e08f5f08edf08341077750773007707076ec0762c0a4840a04408f6108ee108343077790773207709076ee0762e0a03a0a01608f6308ee3083450777d077340770b076f0076300a48009fea08f6508ee5)
  (.lf
  0x3036730363303613035f3035d303593035730355303533034f3034d3034b303493034530343303413033f3033b303393033730335303313032f3032d3032b3032730325303233039d303213031d3031b3031930315303113030f3030d3030b303073030530303302ff302fd302fb30313302f9302f5302f3302f1302ed302eb302e9302e7302e5302e1302df302dd302d9302d7302d5302d3302cf302cd302cb))
  (.nd (.lf
  0x1bef81bee51d7e51d79d1d6361d6301d5ef1d6261d5dd1d61c1d5ed1d6121d5d91d6081d56d1d5fe1d55f1d6af1d4c41d4bb1d4ac1d54d1d4961d49b1d4861d5411d46e1d4731d45a1d5351d4541d4491d3421d37b1d31c1d3131d2ec1d36f1d2bc1d2c11d26e1d2911d25c1d2531d2221d2331d2001d1f91d1e21d1d11d1281d1221d0771d1041d0c71d0fe1d0c51d0e01d0c31d0da1d0c11d0b51d0a81d0ab)
  (.lf 0)))

def shaXorReads453 : BTree :=
  .nd (.nd (.nd (.lf
  0x28d1e28c4b2720325961252932524a252152507828d1628c4f26abf258f325295252172520c2507a28d0a28c4d26a7d258b725299252192520e2471228d0028c4526a73258832529d2521b25210246d228c6228c3726a5f25849252a12521d252122468a28c4628c39269b725807252a52521f252142464428c3b269b9257d7252a925221252162461029dbf283a72735f261792615b261542612a2a18229df7)
  (.lf
  0x16757167551674f1674d1674b167491674716743167411673f1673b167391673716735167311672f1672d1672b167271672516723167b7167211671d1671b16751167191671516713167111670d1670b16709167071670516701166ff166fd166f9166f7166f5166f3166ef166ed166eb166e9166e5166e3166e1166df166db166d9166d7166d5166d1166ab166a9166a7166a3166a11669f1669d1669b16697))
  (.nd (.lf
  0x1360a11df211def11de211dc8209d720984209591813a17cfb1369f136171360e11daa11da711d9a11d7e209db209862095d180f417cff136a31361b1361211d6011d5d11d5011d38209df209882095f180ae17d03136a71361f1361611d1a11d1711d0a11cf4209e32098a209611806c17d07136ab136231361a11cd611cd311cc611cac209e72098c209631802c17d0b136af136271361e11c8e11c8b11c7e)
  (.lf
  0x15945159411591b1590d1590b15907158df158d1158cf158cb158a315895158931588f1586b1585d1585b1585715835158271582515821157fb157ed157eb157e7157c3157b5157b3157af15787157791577715773157491573b15739157351570f15701156ff156fb156d7156c9156c7156c31569f156911568f1568b156671565915657156531562b1561d1561b15617155f1155e3155e1155dd155b5155a7)))
  (.nd (.nd (.lf
  0x1d0521cefc1c9461c93c1c9321c9281c91e1c9121c90a1c9001c8f61c8ec1c8e21c8d81c8ce1c8c41c8b81c8ae1c8a21c89a1c8901c8881c87c1c8721c8681c85e1c8561c84c1c6f41c6ba1c6661c6301da6c1da621da581da4e1da441da3a1da301da241da1a1da101da081d9fe1d9f41d9e81d9de1d9d41d9cc1d9c21d9b81d9ae1d9a41d99a1d9901d9841d97c1d9721d9681d95e1d9541d9481f04c1f040)
  (.lf
  0x155cf155cd155c9155bd15593155911558d15583155591555715553155471551f1551d155191550f154e7154e5154e1154d9154b1154af154ab1549f154771547515471154631543b154391543515427153ff153fd153f9153ef153c7153c5153c1153b51538b1538915385153771534d1534b15347153431530b153091530515303152e714f7a14f7014f6614f5c14f5214f4814f3e14f3414f2a14f2014f16))
  (.nd (.lf
  0x87bc087b8087b0087ad08776087720876a08767087300872c0872408721086f2086ee086e6086e3086ce086c909b1609b1309ae609ae209adc09ad909aa909aa009a9c09a9409a6209a5e09a5609a5309a2309a1a09a1609a0e099dc099d8099d0099cd0999d09994099900998809956099520994a09947099170990e0990a09902098d7098ce098ca098c2098970988e0988a09882098570984e0984a09842)
  (.lf 0)))

def shaXorReads454 : BTree :=
  .nd (.nd (.nd (.lf
  0x359dd34889334d7334af334a6334963752e3726d359cb347b1334db334b1334a8334983752637279359bb346db334df334b3334aa3349a37520371f535a1134717334e3334b5334ac3349c3751437203359793460f334573344d3344a334463750a371fd35a43346f9334ae3341d333f9333f437500371e93596b345eb334b033421333fb333e6374ea371fb3594f344b3334b233403333fd333d4374e437205)
  (.lf
  0x33108330ea32fc832fb832fa432f9832f3a329243289e3288c3287e327d833485334833347d3347b334793347f3347733473334713346f3346b334693346733465334413343d3343b334393343533433333ef333ed333e9333e1333df333dd333c7333c5333c3333c1333bd333bb333b9333b7333b5333b1333af333ad3331b33317333153333b333133330f333073334b3330533301332a5332833326f3326b))
  (.nd (.lf
  0x27ab227a8a385623854937dc137daa2d84e2d84327c5b27c5627b0827aa83855337dc337dac2d84927c5d27c5827a8438b3d384db384bf384a82e4f1298d1298b7298b228c583901238b41384df384c1384aa2e8d22e491298d5298b9298b428e4e28c5638ff638b45384e3384c3384ac2e8c22e495298d9298bb298b628e4628c3e38fee38b83384e7384c5384ae2e8b82e499298dd298bd298b828e3428c40)
  (.lf
  0x278622784c27836278202780a277f4277de27a7127a6327a5f27a5d27a4f27a4d27a4927a4727a3927a3727a3327a3127a2327a2127a1d27a1b27a0d27a0b27a0727a05279f7279f5279f1279ef279e1279df279db279d9279cb279c9279c5279c3279b5279b3279af279ad2799f2799d27999279972798927987279832798127973279712796d2796b2795d2795b27957279552794727945279412793f27931)))
  (.nd (.nd (.lf
  0x1243c12432124281241e124141240a12400123f6123ec123d81239a12390123861237c12372123681235611a8a11a42119f6119a01234e1234412332123281231e123141230a12300122f6122ec122e2122d8122ce122c4122ba122ae122a0122981228e122841227a12272122641225a12252122481223e122341222c11998131d6131cc131c2131b8131ae13182130dc130d2130c8130be130b4130aa13048)
  (.lf
  0x229d3229d1229c5229a12299f222ea222e6222d8222cc222c2222ba222b0222a2222a42229022284222862226e222662225a22250222442223a222522222a2221e222162227422122220ca220c42201e2201421f7c21f2021eca222eb222e9222e7222e3222e1222df222db222d9222d7222d5222d1222cf222cd222cb222c7222c5222c3222c1222bd222bb222b9222b7222b3222b1222af222ad222a9222a7))
  (.nd (.lf
  0x1792e179721793217968178721795e17852179541785617950188ee18a46188f218a3c1891018a321891418a281893818a1e188c018a141894218a0a1888c18a0018860189f618834189ec18808189e2187e6189d8187cc189ce1891a189c41891e189ba18922189b0188c4189a6189461899c18890189921886418988188381897e1880c18974189261896a1892a189601892e18956188c81894e1894a18898)
  (.lf 0)))

def shaXorReads455 : BTree :=
  .nd (.nd (.nd (.lf
  0x1c2621bf051a77f199b518abd18a8b18a80186a61c25c1becd1a72b199b718ac118a8d18a82186a81c1d01bf031a6fb199b918ac518a8f18a84186aa1c1ca1becf1a6fd199bb18ac918a8618a51186ac1c1481bf011a6ff199bd18acd18a8818a53186ae1c1421bed11a701199bf18ad118a8a18a55186b01c0ba1befb1a703199c118ad518a8c18a57186b21c0b41bc971a705199c318ad918a8e18a59186b4)
  (.lf
  0x3f70b3f7073f7053f7033f6ff3f6fd3f6fb3f6f93f6f33f6e73f6e53f6e33f6df3f6dd3f6db3f6d93f6d53f6d33f6d13f6cf3f6cd3f6c93f6c73f6c53f6c13f6bd3f6bb3f6bf3f6b93f6b53f6b33f6b13f6ad3f6ab3f6a9406a73f6a73f6a33f6a13f69f3f69b3f6993f6973f6953f68d3f6893f5cb3f5c93f5c53f5c33f5c13f5bf3f5bb3f5b93f5b7404ca404ce404ba404ae404a040490404924047c40470))
  (.nd (.lf
  0x1211212100120ca120b8120801206e120381202611ff011fde11fa811f9611f6011f4e11f1c11f0a11ed811ec611e9411e8211e5011e3e11e0c11dfa11dc411db211d7a11d6811d3411d2211cf011cde11ca811c9611c5e11c4c11c1411c0211bce11bbc11b8611b7411b3e11b2c11af611ae411aae11a9c11a6411a5211a1811a06119c4119b2119721194e0dbf00dbd20dbc60dbb00dba40db8e0db820db6c)
  (.lf 0))) (.nd (.nd (.lf
  0x2d0cc2d0c22d0b62d0aa2d0a02d0942d0882d07a2d06e2d0602d0582d04e2d0422d0362d02a2d0202d0162d00a2cffe2d6d22d6c62d6ba2d6b22d6aa2d69c2d6902d6862d67a2d66e2d6622d6522d62e2d6142d5be2d5b62d2c62d2ba2d2aa2d2a22d2962d28a2d2822d26a2d2522d23a2d2222d1fa2d1f22d1562cedc2ced02cec82cebe2ceb42ceaa2cea02ce962ce8e2ce842ce7c2ce722ce6a2ce602ce58)
  (.lf
  0x7c4e07c0c07bcc07b8c07b4c07b0c07acc07a8c08241082330822f08209081fb081f9081f5081c9081bb081b9081b5081850817708175081710814308135081330812f08103080f5080f3080ef080bf080b1080af080ab0807d0806f0806d08069080390802b080290802507ff707fe907fe707fe307fb707fa907fa707fa307f7707f6907f6707f6307f3707f2907f2707f2307ef707ee907ee707ee307eb3))
  (.nd (.lf
  0x329b03297a3297c3291c329163286c3285e328403282e3280e32800327e6327ca327ae3279833fd43476e33fc83476833fd83457433fdc3456a343183455c342fc345563431e3430e342f634306342b2342a833f82342a233fda3429033f6a34286341163428033f5434350342763426e3411c3426433f383422c34226341ec3418c3418433f763415a33f143412a33d5e33d6033d2e33cfa33aba33cf033ad2)
  (.lf 0)))

def shaXorReads456 : BTree :=
  .nd (.nd (.nd (.lf
  0x23780e5710e3cb0e3af0e398037f80e7500e5750e3cf0e3b10e39a037d2037a60e7460e5790e3d30e3b30e39c0379c0376a0e73c0e5b70e3d70e3b50e39e0376c037380e7320e5bb0e3db0e3b70e3a00372e036fc0e7280e5bf0e3df0e3b90e3a2036fe036c80e71e0e5c30e3e30e3bb0e3a4036ca036960e7140e5c70e3e70e3bd0e3a60368c0365c0e70a0e5cb0e3eb0e3bf0e3a803652036200e7000e5cf)
  (.lf
  0xc1ce0c0710c1b20c0750c1960c0790c1760c07d0c1580c0810c1380c0850c1160c0890c0f40c08d0c0d60c0910c0bc0c0950c09b0cb150ccba0cb190ccb00cb1d0cca60cb210cc9c0cb250cc920cb290cc880cb2d0cc7e0cb310cc740cb350cc6a0cb390cc600cb3d0cc560cb410cc4c0cb450cc420cb490cc380cb4d0cc2e0cb510cc240cb550cc1a0cb590cc100cb5d0cc060cb610cbfc0cb650cbf20cb69))
  (.nd (.lf
  0xca8c0ca8e0ca90105f0105e2105d2105c2105b0105a0105901058010570105081050a1050c1050e10510105121051410516105181051a1051c1051e10520105221052410526105281052a1052c1052e1053010532105341162e11630116321163411636116381163a1163c1163e11640116421164411646116481164a1164c1164e11650116521165411656116581165a1165c1165e11660116621166411666)
  (.lf
  0x3a7b13a7ad3a7ab3a7a93a7a73a7a33a7a13a79f3a79d3a7993a7973a7953a7933a78f3a78b3a7893a7873a7833a7813a77f3a78d3a77d3a7793a7773a82d3a7753a7713a76d3a76b3a7673a7653a7633a76f3a7613a75d3a75b3a7593a7553a7533a7513a74f3a7493a7473a7453a7433a73f3a73d3a6bf3a6bd3a6b93a6b73a6b53a6b33a6af3a6ad3a6ab3a6a93a6a53a6a33a6673a66b3a6653a6613a65f)))
  (.nd (.nd (.lf
  0x3b4502eff022f7022d1022c60227a01beb01be203b4702f01022fb022d3022c80227c01ba401ba103b4902f03022ff022d5022ca0227e01b5e01b5b03b4b02f0502303022d7022cc0228001b1801b1503b4d02f0702307022d9022ce0228201ad901ad003b4f02f090230b022db022d00228401a9201a8f03b5102f0b0230f022dd022d20228601a5301a4a03b5302f0d02313022df022d40228801a1301a0a)
  (.lf
  0x3497b3497934977349713496d3496b3496f349693496534963349613495d3495b34959349e93495734953349513494f3494b349493494734945349413493f3493d3493b349373493534933349313492b3492934927349d734925349213491f3491d3491934917349153492d349133490f3490d3490b34907349053490334901348ff348fb348f9348f7348f3348f1348ef34973348ed348e9348e7348e5348e1))
  (.nd (.lf
  0x41d0341e9041d0941e8641d0741e4241ce741e1a41cdb41e1241cc941e0241ccf41df841cb941df241ca141dea41ca541dba41cab41db441db341d5841c7d41d4441c7141d3a41c7f41d2e41c5741d2641c5f41d1c41c3941d1441c4141c2241c2141c0441c0141be141bde41bbc41bbb41b9b41b9841976419174196e419014190a41905418e4418d7418de418dd41518414fb4124041231411bf0f80a103f0)
  (.lf 0)))

def shaXorReads457 : BTree :=
  .nd (.nd (.nd (.lf
  0x31857317d22f7c72e9972dba52da092d4ce2d3a4317ad3167a2f79f2e9492dba72d9ef2d4282d30c3167d316342f7a12e9392db5f2d9a32d42a2d1e43162e315ff2f3bd2e8f32db3d2d7452d42c2d1e63160f2f3472e2452daff2d7272d42e2cff6221e820627206171f6411d7f91d7f31d7f01d7ee1d7e8221022206220629206191f6431d7b91d7a81d7a61d7a21d7a1220662203e2062b2061b1f6451d6f3)
  (.lf
  0x1d26f1d2931d26d1d2691d25d1d25b1d2571d2551d2231d2351d2211d21d1d2011d20f1d1ff1d1fb1d1e31d1e11d1dd1d1d31d1291d1271d1231d1191d1171d1151d1111d1071d1051d1031d0ff1d0f51d0f31d0f11d0ed1d0e31d0e11d0df1d0db1d0d11d0cf1d0cd1d0c91d0b71d0a91d7e21d7c21d6a21d6981d68e1d6841d64a1d6401d6381d5081d4fe1d4f41d4ea1d4e01d4d61d4ce1d3461d3241d2f8))
  (.nd (.lf
  0x18c7c173e8173ce27a2627765265dd265b9265a21dc8a1dae718ca518c8318c7e173ac1739027a1027769265e1265bb265a41dc801daeb18ca918c8518c801736e17356279fa2776d265e5265bd265a61dc761daef18cad18c8718c82173341731e279e427771265e9265bf265a81dc6c1daf318cb118c8918c84172fc172e6279ce27775265ed265c1265aa1dc621daf718cb518c8b18c86172c6172b0279b8)
  (.lf
  0x19f3b19f3719f3519eff19efd19ef919ef719ec319ec119ebd19ebb19e8719e8519e8119e7f19e4919e4719e4319e4119e0719e0519e0119dff19dc319dc119dbd19dbb19d8119d7f19d7b19d7919d3b19d3919d3519d3319cef19ced19ce919ce719c9d0eefe0eef40eeea0eee00eed60eecc0eec20eeb80eeae0eea40ee9a0ee900ee860ee7c0ee720ee680ee5e0ee540ee4a0ee400ee360ee2c0ee220ee18)))
  (.nd (.nd (.lf
  0x27ee227ed427ec427ebc27eb427ea627e9c27e9227e7e27e7627e3a27e0227ad027ac027ab827aac2820e2818c28180281762816c28162281562814c2814028136281262810e280fc280e4280462803a2803028024280182801027ffc27fe827fc427e6a27e2227b5c27b5027b4627b3c27b3228214281f6281ce281a82819a2811c28194280ea280a0280922808628078280702800227e4627b8628205281fd)
  (.lf
  0x17a7f17a7d17a7b17a7717a7517a7317a7117a6d17a6b17a6917a6717a6317a6117a5f17a5d17a5917a5717a5517a5317a4f17a4d17a4b17a4917a4517a4317a4117a3f17a3b17a3917a3717a3517a3117a2f17a2d17a2b17a2717a2517a2317a2117a1d17a1b17a1917a1717a1317a1117a0f17a0d17a0917a0717a0517a03179ff179fd179fb179f9179f5179f3179f1179ef179eb179e9179e7179e5179e1))
  (.nd (.lf
  0x1a7941a71b1a4a81a13e1a7661a6a71a49e1a1021a75e1a4961a0ca1a0c91a7541a6a91a48e1a0921a7481a4821a0581a0571a73e1a47a1a01e1a01d1a7361a47019fe219fe11a7261a4641a42319fa41a71c1a45c19f6819f671a6e21a45219f2a19f291a6d61a4461a42119eec1a6ce1a43c1a3f719eb01a6c41a43219e7519e721a6bc19e3519e3219e301a6b219dee19deb19de81a42a19daa19da719da4)
  (.lf 0)))

def shaXorReads458 : BTree :=
  .nd (.nd (.nd (.lf
  0x3e25c3df5c3df533df513df4b3df483f8bf3eb453e0da3df9e3df313df2b3df253df223f8713ea413e0d03dff53dfc23df133df0b3df083f88b3e9e33e0c63df8c3debd3debb3deb73deb23f7fd3e9c13e0bc3df703de8c3de8b3de893de833f7df3e9a13e0b03dfc93dfa03df4a3de5f3de5d3f7bf3e9933e0a63df243de6f3de6b3de693de663f7a93e9493e09c3df0a3de313de1f3de1b3de183fbc53e975)
  (.lf
  0x3ce513ce4f3ce4b3ce473ce3f3ce3d3ce393ce2d3ce2b3ce293ce253ce1d3ce173ce153ce113ce053ce033ce013cdfd3cd4d3cd4b3cd493cd373cd313cd2f3cd3d3cd2d3cd293cd273cd253cc913cc673cc513cc473cc3f3cc3d3cc3b3cc393cc353cc333cc2b3cc293cc253cc233cc1b3cc193cc153cb833cb2b3cb193cb053cb013cad93cad73cacb3cabf3caa73caa53ca8b3ca7f3ca3f3d2403d1f03d1cc))
  (.nd (.lf
  0x3a32e3a3053406a33ed52e6152e49b2e4922e40a2e4063a9903a8b33a3873a3303a3073406233ed92e5d32e49f2e4962e3f42e3e43a9883a8b73a38b3a3323a3093405833edd2e5992e4a32e49a2e3c82e3c23a9823a8bb3a38f3a3343a30b3404e33ee12e55b2e4a72e49e2e3a22e3a03a97a3a8bf3a3933a3363a30d3404233ee52e5232e4ab2e4a22e3822e3803a96c3a8c33a3973a3383a30f3403a33ee9)
  (.lf
  0x2bcd52bcd12bccf2bccd2bccb2bcc72bcc52bcc32bcc12bcbd2bcbb2bcb92bcb72bcb32bcb12bcaf2bcad2bca92bca72bca52bca32bc9f2bc9d2bc9b2bc992bc952bc932bc912bc8f2bc8b2bc892bc872bc852bc812bc7f2bc7d2bc7b2bc772bc752bc732bc712bc6d2bc6b2bc692bc672bc632bc612bc5f2bc5d2bc592bc572bc552bc532bc4f2bc4d2bc4b2d14a2d1442d1322d1262d1362d1182d1062d0fc)))
  (.nd (.nd (.lf
  0x353e2353ce353ba35394353623526035258350b634fd634fc034f8234f3634b1c359d6359c4359b4359ac35972359623595a359443593a359323590c358fc358ec358d6358c4358923588235876358663585e35856358463583435820358103501e350163500634f4034b4a36aca36ac236a9c36a7636a503684236824368023674436724366cc3668036600365c0365a03658c36536365223644c3643836382)
  (.lf
  0x2618626062260582606e262912628f2628b262892628726285262812627d2627b2627f262792627526273262712626d2626b262692626726263262612625f2625d262592625726255262532624f2624d2624b262492624526243262412623f2623b262392623726235262312622f2622d2622b262272622526223262212621d262192621726215262112620f2620d2620b26207262052620326201261fd261fb))
  (.nd (.lf
  0x3cfce3d75c3cf403d7563d7463cf383cf1c3ced83db9e3dc9e3dc9c3dc8e3db843dc843db663dc763db503dc6a3db123dc603db183dc583db963dc4e3da663dc483da323dc3a3d9e23dc2e3d9fa3dc263d9e03dc1c3db883dc103db6e3dc083db4a3dc023db263dbf83dbc83dbee3db363dbe63da6a3dbdc3da303dbce3dbc23dbbc3db863dbb03db723dba63dba43db283db223daee3daea3dad83dad03da62)
  (.lf 0)))

def shaXorReads459 : BTree :=
  .nd (.nd (.nd (.lf
  0x1087c108531064810642143821432812215121fd110ef108cd1087e108551063610630143721432612217121ff110dd108d11085710840106241061e143241221912201110ab108d51085910842105fc105f614ab2131ef131db125b71139111313112fc112c21123e14c4e14ab0131f3131dd125b91139511315112fe112c41124014c4414aae131f7131df125bb113991131711300112c61124214c3a14aac)
  (.lf
  0x32cf032cd032c9032c703293032910328d0328b032610325f0325b0325903225032230321f0321d031f1031ef031eb031e9031bf031bd031b9031b703183031810317d0317b03127037f2037c0037860376203718036f4036c0036760363c03618035ce03594035700352603502034b80347e0344403420033d60339c033780332e032f4032ba032960324c03228031f4031aa03186037f3037c7037c3037c1))
  (.nd (.lf
  0x33c9233e3c33cb433e3033ca233e2433cb233e1c33c5233e1433c4a33e0a33c3833df633c2a33dee33c3233de633c1a33dd833c0c33dd033bfe33dc633bf833dba33cae33dae33bd833da633bce33d9c33be033d5233bb833d363398833d303397c339b833972339aa339403399e3393e3399833942339663391c339583391a3394c339463390434e8434e7a34e5834db634ccc34daa34cbc34d9c34cce34d90)
  (.lf 0))) (.nd (.nd (.lf
  0x29900294a02904028c2028820284202802027c2027820273e026f8026b20266c02626025e4025a00255a02514024ce0248c0244c02408023c20016c00162001580014e001440013a00130001260011c0011200108000fe000f4000ea000e0000d6000cc000c2000b8000ae000a40009a00090000860007c00072000680005e000540004a02b5602b1c02ad802a9202a5002a0c029ca0298602940028fa028b8)
  (.lf
  0x9db209da809d9e09d9409d8a09d8009d7609d6c09d6209d5809d4e09d4409d3a09d3009d2609d1c09d1209d0809cfe09cf409cea09ce009e0d09e0b09e0709e0509e0309e0109dfd09dfb09df909df709df309df109def09ded09de909de709de509de309ddf09ddd09ddb09dd909dd509dd309dd109dcf09dcb09dc909dc709dc509dc109dbf09dbd09dbb09db709db509db309db109dad09dab09da909da7))
  (.nd (.lf
  0x129271291a12909128fc128ed128e0128cd128c0128b5128a81289f1289a128991402513fec13fe313fa013f9313f5013f4513f0213ef513eb213ea313e6013e5513e1213e0513dc213db313d7013d6113d1e13d0f13ccc13cc113c7e13c7113c2e13c2313be013bd713b9413b8713b4413b3913af613aed13aaa13a9d13a5a13a4f13a0c139ff139bc139ad1396a1395f1391c13913138d0138c71388413877)
  (.lf 0)))

def shaXorReads460 : BTree :=
  .nd (.nd (.nd (.lf
  0x3cecc3cecb400123ffb03e6553e62b3d9a13d01e3cea63cea53cea23cea1400023ffb63e5fb3e5f73d9a33d00f3cff63ce923ce913ce8e3fff23ff963e6593e5ff3d9753cfff3cfc03ce7e3ce7d3ce7a3ffec3ff9a3e5db3e5d73d9773cfc63cf993cf583ce6d3ce663ffd83ff9e3e7cd3e7ab3d9793cfd83cfb53ceac3ce573ce54400503ffc63e5793e5733d8dd3d7433cf813cf6c3ce423ce404002e3fcba)
  (.lf
  0xac160aa640abf20aa680abd20aa6c0abb60aa700ab9a0aa740ab7a0aa780ab580aa7c0ab360aa800ab140aa840aaf20aa880aad00aa8c0aaae0aa900aa960b51a0b94e0b51e0b9320b5220b9140b5260b8f20b52a0b8ce0b52e0b8ae0b5320b88e0b5360b86c0b53a0b84a0b53e0b8280b5420b80a0b5460b7ea0b54a0b7c80b54e0b7a60b5520b7880b5560b76c0b55a0b7500b55e0b7340b5620b7160b566))
  (.nd (.lf
  0x9bd809bda09bdc0a8e40a8b80a88c0a8600a8340a8080a7dc0a7b00a7840a7620a7460a7300a71c0a7060a6f20a6de0a6ca0a6b60a6a20a5ce0a5ba0a5a80a5960a5840a5720a5600a54e0a53c0a52a0a5180a5060a4be0b2240b2140b2020b1f00b1de0b1cc0b1ba0b1a80b1940b1820b1700b15e0b14c0b13a0b0e40b0e60b0e80b0ea0b0ec0b0ee0b0f00b0f20b0f40b0f60b0f80b0fa0b0fc0b0fe0b100)
  (.lf
  0x350733503b3503734f2934f2734f2334f2134f1f34f1d34f1934f1734f1534f1334f0f34f0d34f0b34f0934f0534f0334f0134eff34efb34ef934ef734ef534ef134eef34eed34eeb34ee734ee534ee334ee134edd34edb34ed934ed734ed334ed134ecf34ecd34ec934ec734ec534ec334ebf34ebd34ebb34eb934eb534eb334eb134eaf34eab34e6934e6734e6534e6134e5f34e5d34e5b34e4d34e4b34e49)))
  (.nd (.nd (.lf
  0x5b7605b28044fb0447b038cb02d2b02c9f02c8802c4402b8405b3605ae8044fd0447d038cd02d2f02ca102c8a02c4602b8605af605aaa044ff0447f038cf02d3302ca302c8c02c4802b8805aa005a640450104481038d102cb702ca502c8e02c4a02b8a05a5a05a1e0450304483038d302cbb02ca702c9002c4c02b8c05a14059d80450504485038d502cbf02ca902c9202c4e02b8e059ce059920450704487)
  (.lf
  0x2da492da472da4f2da452da3f2d9cd2d9cb2d9c72d9c52d9c12d9bf2d9bb2d9b92d9b72d9cf2d9b52d9b12d9af2d9ad2d9932d9912d97f2d97d2d9792d6412d6272d6292d6252d6212d60b2d6e32d6092d6032d5eb2d5e92d5d32d5d12d5472d5452d5412d53f2d53d2d53b2d5372d5352d5332d5312d52f2d52b2d5292d5272d5232d51b2d5172d5152d5112d4792d4772d4752d4712d46f2d46d2d4b32d46b))
  (.nd (.lf
  0x3e67e3e66f3e6423e63d3f64f3fe8a3f66d3fe803f6493fe763f62f3fe6a3f6553fe623f5e33f7743f6ef3f76c3f5db3f7603f6f53f7543f55d3f74c3f5f13f7423f6773f7363f5073f72e3f66f3f7223f6353f7183f6053f7103f5b33f7063f6793f6fa3f5e53f6f13f6e63f6de3f67b3f6d43f52f3f6c83f6573f6c03f62d3f6b43f6653f6ac3f5af406a53f6a03f69a3f5e93f6873f5ca3f5c23f5613f5ba)
  (.lf 0)))

def shaXorReads461 : BTree :=
  .nd (.nd (.nd (.lf
  0x1c0f61c0f020ea420e8a1f6391f5c51d1211c7c51c73b1c4d21c09e1c09820e8820e301f63b1f5c71d10f1c77f1c6e11c4741c0681c06220e2a20e101f63d1f5c91d0fd1c7411c6a91c4a21c00e1c00820e0e20d781f63f1f5cb1d0eb1c6e71c6551c3c41bfdc1bfd620d6c20d3c1f2131f20f1d0d91c6b11c61b1c2a01bf921bf8c20d2c20d221f1cb1f1c31d0bf1c65d1c5c51c2401bf4c1bf4620d241f1cd)
  (.lf
  0x104611045f1045b104591045710455104511044f1044d1044b104471044510443104411043d1043b104391043710433104311042f1042d104291042710425104231041f1041d1041b0f9870f9830f9810f9210f91f0f91b0f9190f8db1123c11232112281121e112141120a11200111f6111ec111e2111d8111ce111c4111ba111b0111a61119c11192111881117e111741116a112ee11152111401112e1111c))
  (.nd (.lf
  0x408a4408a14089f4089a4089840895409ae40886408814087f40876408744087340a86409f140990408604082f4081f4081a409e74097e40869408544080c408084080740a48409734084c4082d4082b408284082640a8f40a1c40961408434083c4083a4083840ac04094d407e9407e2407dc407db407d840b414092c407c8407564075440753407514092340906407c24074540742407404073f409c44090d)
  (.lf
  0x11bcb11bc711bc511b8511b8311b7f11b7d11b3d11b3b11b3711b3511af511af311aef11aed11aad11aab11aa711aa511a6311a6111a5d11a5b11a1711a1511a1111a0f119c3119c1119bd119bb119710d72c0d7220d7180d70e0d7040d6fa0d6f00d6e60d6dc0d6d20d6c80d6be0d6b40d6aa0d6a00d6960d68c0d6820d6780d66e0d6640d65a0d6500d6460d63c0d6320d6280d61e0d6140d60a0d6000d72d)))
  (.nd (.nd (.lf
  0x115ae115a41159a11590115861157c11572115681155e115541154a11540115361152c11522115181150e11504114fa1105e10f4e10f3810f2210ed81499a1497a1495c149401492014902148e2148c4148a81488814866148441482614806147e8147cc147ac1478e14772147561473a1471a146fc146e0146c0146a2146821466414644146261498e14934148f61489c1487a148581481a147c01472e146d4)
  (.lf
  0xdacf0dacb0dac90daaf0daad0daa90daa70da8d0da8b0da870da850da6b0da690da650da630da490da470da430da410da270da250da210da1f0da050da030d9ff0d9fd0d9e30d9e10d9dd0d9db0d9c10d9bf0d9bb0d9b90d99f0d99d0d9990d9970d97d0d97b0d9770d9750d95b0d9590d9550d9530d9390d9370d9330d9310d9170d9150d9110d90f0d8f50d8f30d8ef0d8ed0d8d30d8d10d8cd0d8cb0d8b1))
  (.nd (.lf
  0x28f0028ed828eae28e8c28d2e28cd228cba28cbf28cbb28c932a4562a44e2a4462a4402a4102a40a2a3c22a3a02a39a2a3582a3362a3302a2f02a2ea2a2ca2a2ac2a2762a25a2a23e2a2382a2022a1fc2a1dc2a1a629fb229f2c29f3129f2d29f0d2b7dc2b7d22b7ca2b7602b7122b6c82b65a2b6182b5662b55a2b5542b54e2b5462b4fa2b40e2b4042b3fc2b3f22b3ec2b3de2b3b22b3862b3802b29e2b298)
  (.lf 0)))

def shaXorReads462 : BTree :=
  .nd (.nd (.nd (.lf
  0x2ca1d2ca192b3612a8a92a85f2a7222a6502a64a2e9e42e9ae2ca272ca232b3632a8812a7f92a7302a72e2a7282e9a82e98e2ca0b2ca072b3652a8dd2a8652a70229f2a29f242e9722e9502c9ef2c9eb2b2912a8012a7d12a70429f3e29f382e94a2e91a2c1c92c1c52b27d2a8e52a7af2a6da29eb029eaa2e9262e9082c1932c18f2aff72a8132a7d72a6c229e9829e922e8ea2e2482c1572c1532afc32a7b5)
  (.lf
  0x2b43b2b4392b4352b4332b4312b42f2b42b2b4292b4272b4252b4212b41f2b3d92b3d72b3d12b3cb2b3972b3952b3912b38f2b2d32b2d12b2cd2b2cb2b2b92b2b72b2b32b2b12b2af2b2ad2b2a92b2a72b2652b2632b25f2b25d2b19f2b19d2b1992b1972b1832b1812b17d2b17b2afeb2afe92afe52afe32afaf2afad2afa92afa72af9b2cc642cc7e2cc422cbd82cbdc2cbbe2cc1a2cb942cb742cb342cb36))
  (.nd (.lf
  0x27c7b2388f238612385c22b1e2285433c2c338ad32723326f1326da27d9427c7f23893238632385e22b162297c33c22338b132727326f3326dc27d8a27c8323897238652386022b0a2297633c16338b53272b326f5326de27d8027c872389b238622381322afc2281033c08338b93272f326e0326b127d7627c8b2389f238642381722b9822af433c00338bd32733326e2326b527d6c27c8f238a32381b23812)
  (.lf
  0x1e7e31e7df1e7dd1e7cf1e7cd1e7c91e7c71e7b91e7b71e7b31e7b11e7a31e7a11e79d1e79b1e78d1e78b1e7871e7851e7771e7751e7711e76f1e7611e75f1e75b1e7591e74b1e7491e7451e7431e7351e7331e72f1e72d1e71f1e71d1e7191e7171e7091e7071e7031e7011e6f31e6f11e6ed1e6eb1e6dd140301400413fbe13f6e13f2013ed013e7e13e3013de013d8e13d3c13cea13c9c13c4c13bfe13bb2)))
  (.nd (.nd (.lf
  0x3b7643b7443b6cc3b6963b62c3b6043b5c03b5783b5283b4ea3b4c43b46c3b42a3b3ec3b3c63b3943b38a3b3803b3163b3043b24c3b1f83b1ba3b1b03e5be3e5a43e5943e4ce3e4bc3e4b43e4aa3e4a03e4963e43c3e4283e41e3e4143e4083e3fc3e3f03e37c3e34a3e24e3e2463e23e3e1923e1863e17c3e1723e15c3e1523e0ea3e0203def43e7743e5603e54e3e52a3e51a3e5103e4e83e4dc3e2a03e72d)
  (.lf
  0x1e08f1e08d1e08b1e0871e0851e0831e0e11e0811e07d1e07b1e0791e0751e0731e0711e06f1e06b1e0691e0671e0651e0611e05f1e05d1e05b1e0571e0551e0531e0511e04d1e04b1e0491e0471e0431e0411e03f1fe821fe461fe1a1fdfc1fddc1fdc21fd961fd781fd541fd301fd101fcea1fcce1fca61fc821fc5e1fc441fc281fc061fbea1fbd01fba41fb681fb3a1fb001face1fa9a1fa6e1f9c81f98c))
  (.nd (.lf
  0x3f4503f3743f27f3f2283f4443f3623f2913f2843f3fe3f3583f2953f2923f3e03f33e3f1ea3f1e93f3c23f32a3f2013f1ee3f3ba3f3223f1d53f1d23f3b23f2f83f1ff3f1be3f2d63f2a83f29b3f2983f1f13f1c03f19e3f19c3f1703f16e3f1663f15d3f1443f11c3f1193f1083f1283f1073f0fe3f0d63f1173f0e23f0ca3f0c83ee9c3ee383ee113ee083ee533ee1c3ee1a3ee183edb33ed923ed823ed80)
  (.lf 0)))

def shaXorReads463 : BTree :=
  .nd (.nd (.nd (.lf
  0x133bb127b511713116e5116da1168e1155010fc5133bd127b711717116e7116dc116901154610fb9133bf127b91171b116e9116de116921153c10fad133c1127bb1171f116eb116e0116941153210fa1133c3127bd11723116ed116e2116961152810f95133c5127bf11727116e4116af116981151e10f89133c7127c11172b116e6116b11169a1151410f7d133c9127c31172f116e8116b31169c1150a11067)
  (.lf
  0x3d2e33d2e13d2b13d2af3d2393d2373d2253d2233d1953d1933d18f3d1773d13d3d7353d7153d7113d70d3d6f93d6f33d6ef3d6ed3d6e93d6e33d64f3d6493d6473d6273d6213d61f3d61d3d6193d6173d6133d6073d6053d6033d5f33d5ef3d3293d31b3d3193dab83daac3daa63da963da883da7e3da4e3da1a3d96e3d9683d9a43d9423d97a3d9463d90e3d8f43d8683d85a3d8503d8423d8363d82c3d814))
  (.nd (.lf
  0x2077e209322078220928207862091e2078a209142078e2090a207922090020796208f62079a208ec207ca208e2207ce208d8207d2208ce207d6208c4207da208ba207de208b0207e2208a6207e62089c207ea20892207ee20888207f22087e207f620874207fa2086a207fe208602080220856208062084c2080a208422080e20838208122082e20816208242081a208201e16e1e4aa1e1721e4961e1761e480)
  (.lf 0))) (.nd (.nd (.lf
  0x1590a158ce158921585a15824157ea157b21577615738156fe156c61568e156561561a155e0155a41556a1552e154f6154c0154861544a1540e153d61539c1535e1532a103e81039210330102d4102781021a101bc1016210102100a61004a0ffec0ff8a0ff2e0fece0fe6e0fe100fdb20fd500fcf40fc940fc380fbdc0fb7e0fb1c0fabc0fa5e0fa040f9a80f9460e7540e74a0e7400e7360e72c0e7220e718)
  (.lf
  0x2b0b02b0902acb02ac902ac502ac302a8302a8702a8102a7d02a4502a4302a3f02a3d029fd02a01029fb029f7029bf029bd029b9029b70297902977029730297102933029310292d0292b028eb028ef028e9028e5028ab028af028a9028a50286b0286f02869028650282b0282f0282902825027eb027ef027e9027e5027ab027af027a9027a50276d0276b02767027650272702725027210271f026e1026df))
  (.nd (.lf
  0x10bd610bc610bb410ba410b9210b8610b7410b6a10b5810b4e10b3c10b3210b2010b1210b0010afa10af4121de121a21216e1215e1212a1211a120e6120d21209e1208812056120401200e11ff811fc611fb011f7e11f6811f3611f2411ef011ee011eac11e9c11e6811e5811e2411e1411de011dcc11d9811d8211d4e11d3c11d0811cf811cc411cb011c7c11c6611c3211c1c11be811bd611ba211b8e11b5c)
  (.lf 0)))

def shaXorReads464 : BTree :=
  .nd (.nd (.nd (.lf
  0x6902068c21210a118b10eeda0ed630eb830eb5f0eb48068b80687a120c2118b50eed00ed670eb870eb610eb4a0687c0683c12078118b90eec60ed6b0eb8b0eb630eb4c06832067f612030118bd0eebc0ed6f0eb8f0eb650eb4e067ec067ae11fe8118c10eeb20ed730eb930eb670eb50067b00676e11fa0118c50eea80ed770eb970eb690eb52067700672e11f58118f50ee9e0ed7b0eb9b0eb6b0eb5406730)
  (.lf
  0x1fdb01f8a71fd8c1f8ab1fd681f8af1fd441f8b31fd241f8b71fd021f8bb1fcde1f8bf1fcbe1f8c31fc9c1f8c71fc781f8cb1fc541f8cf1fc341f8d31fc161f8d71fbf81f8db1fa5e1f8df1fa4e1f8e31fa421f8e71fa361f8eb1fa221f8ef1fa1c1f8f31fa121f8f71fa081f8fb1f9861f8ff1f97a1f9031f9741f9071f90f2012f203d420133203c820137203c02013b203b62013f203ac20143203a620147))
  (.nd (.lf
  0x2f7a02f3bc2f346313223132631306311ee3117631148310d8310703102430fba30fa830fca30ede30e9830e6a30ea630df630dda30dc830d4030d2030cf230c8a30b7c30b4830af830a8e30a32309d43097e3099e307603225e322623228e3216032148321ba32138321b032112321143211631ff83221631e9031e4831e5431e3c31d6e31d3431d3631d0231ce231c6831c4431c4c31c3431c3631ccc317f0)
  (.lf
  0x10bb010b9010b7010b3010b1010af01ede01ea201e5c01e1601dd401d9401d5401d1001cce01c8e01c4a01c0401bc201b7e01b3801af201ab001a6c01a2a019ea019aa0196601924018e4018a00185e0181e017da01798017580171801edf01edd01ed901ed701ea301ea101e9d01e9b01e5d01e5b01e5701e5501e1701e1501e1101e0f01dd501dd301dcf01dcd01d9501d9301d8f01d8d01d5501d5301d4f)))
  (.nd (.nd (.lf
  0x6cf9060bf054e7054bf054b40546804d8b04d8206cfb060c1054eb054c1054b60546a04d4b04d4206cfd060c3054ef054c3054b80546c04d0404d0106cff060c5054f3054c5054ba0546e04cc504cbc06d01060c7054f7054c7054bc0547004c8504c7c06d03060c9054fb054c9054be0547204c4504c3c06d05060cb054ff054cb054c00547404bfe04bfb06d07060cd05503054cd054c20547604bbf04bb6)
  (.lf
  0x35de735c6536b11369d3369cb369c7369373693536931368d3368cf368b9367bd367b9367b1367cf3678336777366f3366ef366eb366a7366a33669936655366513663d3655d3655936555363df363d9363d5363ef363c9363c13609f360913608b35f5b35f5735f5335e8135e7d35e79357f2357e8357de357f6357cc357c2357b8357ae357a43579a35790357863577a35770357843575e357543574a35740))
  (.nd (.lf
  0x1ea5c1ec921ea601ec6e1ea641ec4a1ea681ec261ea6c1ec021ea701ebde1ea741ebba1ea781eb961ea7c1eb721ea801eb501ea841eb2c1ea881eb081ea8c1eae61ea901eac41ea941ea9a1040e103cc1037c103721031a10310102be102b4102621025810204101fa101a61019c1014c10142100ec100e21009010086100341002a0ffd60ffcc0ff740ff6a0ff180ff0e0feb80feae0fe580fe4e0fdfa0fdf0)
  (.lf 0)))

def shaXorReads465 : BTree :=
  .nd (.nd (.nd (.lf
  0x23143230eb220792166d2166521662216602165a251ba24bc223145230ed21fed215272151f2151c2151a21514251ae24bb823147230ef21f8d214692145d214582145421448251a824bac23149230f121f6d2146b2145f2145a214562144a2518e24ba22314b230f321f11213f2213ec213e6213e1213dd2518624b962314d230f521edb213b32139d213962138e213762515e24c002314f230f721e8f213b5)
  (.lf
  0x21335214c1213332132f21321214b72131f2131b212ed214ad212eb212e72129d214a32129b212972121f214992121d21219211fb2148f211f9211f5210eb21101210e9210e1210b1210ad210a9210a7210a5210af210a32109f2109d2109b2108f210392102d2102b210272101f20ffd20ffb20ff320fb720f5b20f5920f5520f4d20f4b20f4920f4520f3d20f3b20f3920f3520f2d20eab20ea920ea520e9d))
  (.nd (.lf
  0x18d9218d8029b4029b09288e7288d020830208171abe71abe218d5618d4629b2a29b0d288e9288d2208262081b1abe91abe418d1c18d0c29b13288eb288d4208211abeb1abe618cf42abd929a9f29a8329a6c1e16f1bbbf1bba51bba01a3e62af242abdd29aa329a8529a6e1e4ac1e1731bbc31bba71bba21a3c81a3b42af102abe129aa729a8729a701e4981e1771bbc71bba91bba41a3921a3782aefa2ac1f)
  (.lf
  0xf26d0f2690f2670f2650f2630f25f0f25d0f25b0f2590f2550f2530f2510f24f0f24b0f2490f2470f2450f2410f23f0f23d0f23b0f2370f2350f2330f2310f22d0f22b0f2290f2270f2230f2210f21f0f21d0f2190f2170f2150f2130f20f0f20d0f20b0f2090f2050f2030f2010f1ff0f1fb0f1f90f1f70f1f50f1f10f1ef0f1ed0f1eb0f1e70f1e50f1e30f1e10f1dd0f1db0f1d90f1d70f1d30f1d10f1cf)))
  (.nd (.nd (.lf
  0x2b9082b8fe2b8f42b8ea2b8e02b8d62b8702b8662b85c2b7942b7562b7022b6ba2b6482c9e22c9d82c9ce2c9c42c9ba2c9b02c9a62c99c2c9922c9882c97e2c9742c96a2c9602c9562c94c2c9422c9382c92e2c9242c91a2c9102c9062c8fc2c8f22c8e62c8dc2c8d22c8c82c8be2d7bc2d7b22d7a82d79c2d78c2d7802d7782d76a2d7602d7562d74c2d64a2d63a2d5f82d5f02d4a62d49a2d48c2d4822d456)
  (.lf
  0x19e7119e6f19e6b19e5119e2f19e2d19e2919e0f19de719de519de119dcb19da319da119d9d19d8919d5d19d5b19d5719d4319d1519d1319d0f19cf719cc519cc319cbf19ca519c8f1a3ec1a3ba1a37e1a3401a3021a2c41a2861a2481a20e1a1d21a1981a15c1a1201a0e81a0b01a0761a03c1a00019fc219f8619f4819f0a19ece19e9219e5419e1219dce19d8c19d4619cfa19ca81a3ed1a3c71a3c31a3bb))
  (.nd (.lf
  0x2301c22d0c22d0222d012301222d2022ccc22ca12300822cc222c9622c952300222cd422cbf22cb422c5e22c5422c4d22c46239ee22c1622c0a22bf322c1e22c0022bfb22bf822bb422bb222bac22bab22ad822ad022ace22acb229ea229e4229e1229de229b8229b6229ae229ab229842298323cae237b32404423dc623ca4237a32403c23da423c98237852403223d3a23c8a2378923fd823d3423c802378b)
  (.lf 0)))

def shaXorReads466 : BTree :=
  .nd (.nd (.nd (.lf
  0x2ff582ff232fb562fb5033d6833d1831c9931c9130b69302892ff5d2ff442fb442fb3e33d1a33cd031c9b31c9330b31302b52ffff2fe382fb322fb2c33cc433b8631c7731c7330b0d302912ff8f2fbf42fb202fb1a33b9c33b7431a0b31a0730ae1300052ffa72fbe02fb0e2fb0833b6633b36318b3318af30a7f2ffe32ff952fc0a2fc082fc0233b2033afe318773187330a252ffc32ffad2fbba2faf62faf0)
  (.lf
  0x3f8373f8353f7fb3f7ed3f7eb3f7e93f7d53f7d33f7d13f7cf3f7cb3f7c73f7b73f7b53f7b13f7ab3f79f3fbb73f79d3f7993f7973f7953f7913f7833f77d3f77b3f4673f4613f45f3f45d3f4553f4513f44d3f47b3f44b3f4473f4453f4433f4053f4013f3ff3f3fd3f3e13f3df3f3d73f3d53f3c93f3c53f3c33f3e73f3c13f3bd3f3bb3f3b93f3b53f3b33f3a93f3a73f2a93f29d3f1c73f1f33f1c53f1c1))
  (.nd (.lf
  0x3724b31b68316a33167c316743725a3724f31b6d31b6a31612315fe3725331b6f316a23160e3811732d7f32d7732d7232d6e383a83811b32eb832d8332d7932d7432d64383a03811f32eae32d8732d7b32d7632d70383903812332ea432d8b32d7d32d7832d4c383863812732e9432d7a32cf332ce932cde3837c3803f32e8c32d7c32cf732ceb32cd8383723804332e7432cfb32ced32ce832cd23836a38047)
  (.lf
  0x2f4cb2f4c72f4c52f4c32f4c12f4bd2f4bb2f4b92f4b72f4b32f4b12f4af2f4ab2f4a72f4a52f4a32f4ad2f4a12f49d2f4992f49b2f4972f4912f48f2f4932f48d2f4892f4872f4852f4812f47f2f47b2f47d2f4792f4752f4732f4712f46d2f46b2f4692f4672f4612f45f2f45d2f45b2f4572f4552f4532f4512f44d2f44b2f4492f4472f4432f4412f43f2f43d2f4392f4372f4352f4332f42f2f42b2f429)))
  (.nd (.nd (.lf
  0x15284152881528c1529015294152981529c152a0152a4152a8152ac152b0152b4152b8152bc152c0152c4152c8152cc152d0152d40e3580e35a0e35c0e35e0e3600e3620e3640e3660e3680e36a0e36c0e36e0e3700e3720e3740e3760e3780e37a0e37c0e37e0e3800e38216d3816d3c16d4016d4416d4816d4c16d5016d5416d5816d5c16d6016d6416d6816d6c16d7016d7416d7816d7c16d8016d8416d88)
  (.lf
  0x280192801528013280112800d2800b27fff27ffd27ff927fed27feb27fe927fcb27fc927fc727fc527fc127e8f27e8b27e6b27e6727e4327e2527e2327e1f27e0d27b5f27b5d27b5927b5727b5327b5127b4d27b4b27b4927b4727b4327b4127b3f27b3d27b3927b3727b3527b3327b2f27b0f27a8928215281f7281f1281ed281cf281c5281c1281b3281af281a92819b2812f2812b2811d281192811528195))
  (.nd (.lf
  0x90210911e0902509114090290910a0902d0910009031090f609035090ec09039090e20903d090d809041090ce09045090c409049090ba0904d090b009051090a6090550909c09059090920905d09088090610907e0906509074090690906f09c6109e0609c6509dfc09c6909df209c6d09de809c7109dde09c7509dd409c7909dca09c7d09dc009c8109db609c8509dac09c8909da209c8d09d9809c9109d8e)
  (.lf 0)))

def shaXorReads467 : BTree :=
  .nd (.nd (.nd (.lf
  0x140f814038176f2173b615bf915ba914ddb141db141551413e140fa1403a176e61737815bfb15bab14daf141df1415714140140fc1403c176de1733e15bfd15bad14d83141e31415914142140fe1403e176d41730615bff15baf14d57141e71415b141441410014040176cc172ce15c0115bb114d2b141eb1415d141461410214042176c21729815c0315bb314d09141ef1415f1414814104140441769a17262)
  (.lf
  0x5993059910598d0598b0594d0594b0594705945059070590505901058ff058bf058cf058bd058b90587f0588f0587d058790583f0584f0583d05839057ff0580f057fd057f9057bf057cf057bd057b9057810577f0577b0577905739057490573705733056fb056f9056f5056f3056b3056c3056b1056ad05675056730566f0566d0562d0563d0562b05627055ed055fd055eb055e7055b5055b3055af055ad))
  (.nd (.lf
  0xd94d0d93a0d92b0d9180d9090d8f60d8e70d8d40d8c50d8b20d8a30d8900d8810d86e0d85f0d84c0d83d0d82a0d81b0d8080d7f90d7ed1401d13fdb13fce13f8b13f7e13f3d13f3013eed13ee013e9b13e8e13e4d13e4013dfd13df013dab13d9e13d5913d4c13d0713cfa13cb913cac13c6913c5c13c1b13c0e13bcf13bc213b7f13b7213b3113b2413ae513ad813a9513a8813a4713a3a139f7139ea139a5)
  (.lf 0))) (.nd (.nd (.lf
  0x3736036fa036c6036940365a0361e035ec035b2035760354403508034d60349c0346203426033f4033ba0337e0334c03312032d80329c0326a0322e031fa031c80318c0698e0695406910068ce0688a0684806804067be0677c0673c066fc066b8066720662c065ea065aa0656a06526064e4064a00645a06414063ce0638c0634806302062c00627c0623a061f6069a0069240689e06818067d2066cc06686)
  (.lf
  0x88db088d90889b0889908895088930885308857088510884d08815088130880f0880d087cf087cd087c9087c70878908787087830878108743087410873d0873b0870508703086ff086fd086d70b95a0b93e0b9200b8fe0b8da0b8ba0b89a0b8780b8560b8340b8160b7f60b7d40b7b20b7940b7780b75c0b7400b7220b7040b6e60b6c40b6a00b6800b6600b6420b6220b6040b5e80b5c80b5a60b95b0b94d))
  (.nd (.lf
  0x236e22342d236dc23421236bc23411236b42340523690234152368a233ef2366a233e523664234a92363c233cd23636233c123612233b32360a233c3235e8234a7235e223395235ca23397235b62337d2357b235742356e2337b23517235102350a23359234bf233362332b2484924b7c2483924b762482d24b6a2482324b5e2484724b502480d24b482480324b3c247f324b32247f924b8b24b2824a6c247d5)
  (.lf 0)))

def shaXorReads468 : BTree :=
  .nd (.nd (.nd (.lf
  0xecc41d8441d4a034b6034860201101f910136b00f8a00f4a00ef700ee500ece41d7e41d4e0347c0344c0201301f930136d00f8c00f4c00ef900ee700ed041d7641d1e03442034100201501f950136f00f8e00f4e00efb00ee900ed241d6c41d120341e033de0201701f970137100f9000f5000efd00eeb00ed441c2641c16033d4033a40201901f990137300f9200f5200eff00ed600ead41c1441bf00339a)
  (.lf
  0x1cafe1c98a1caf41c98e1caec1c9921cae01c9961cad61c99a1cace1c99e1cac21c9a21cab81c9a61caae1c9aa1caa61c9ae1ca9c1c9b21ca921c9b61ca881c9ba1ca7e1c9be1ca741c9c21ca6c1c9c61ca5e1c9ca1ca541c9ce1ca4c1c9d21ca441c9d61ca381c9da1ca2e1c9de1ca241c9e21ca1a1c9e61ca0e1c9ea1ca081c9ee1c9f81c9f21c9fa1d8c21da641d8c61da5a1d8ca1da521d8ce1da461d8d2))
  (.nd (.lf
  0x2aff42afc02af942cc6a2cc842cc482cbe62cbe82cbc62cc202cb9a2cb7a2cb422cb442cb202cb102caf82cae62cad22caae2cab82ca8e2ca902ca642ca522ca702ca402ca1c2ca262ca0a2c9ee2c1c82c1922c1562c0e62dfa42df762deda2debc2dea62de662df242defe2de382de102de122de142dddc2ddcc2ddb42dd9e2dd8a2dd8c2dd582dd442dd662dd2a2dd162d3d62d3d82d3da2d4382d39a2d304)
  (.lf
  0x386d5386d1386cb386c7386cd386c5386c1386bf386bd386b9386b7386b1386af386ab386a9386a7386a53869f3869d3869b3869938695386933868f3868d3868538683386813867f3867b3867938677386753867138669386673866d38665386613865f3865d38659386553865338651386493864738645386433863b3863938637386353862d3862b386293862738623386213861f386333861d3861938617)))
  (.nd (.nd (.lf
  0x7eb807e7c06a4b069cb05e110522f05215051fe051ba050fa07e7207e3406a4d069cd05e13052330521705200051bc050fc07e4207df606a4f069cf05e15052370521905202051be050fe07dec07dae06a51069d105e170523b0521b05204051c00510007dbc07d7006a53069d305e190523f0521d05206051c20510207d6607d2a06a55069d505e1b0524305208051df051c40510407d2007ce206a57069d7)
  (.lf
  0x2f19b2f0c92f0c72f0c52f0c32f0bf2f0bd2f0bb2f0b92f0892f0872f0852f0832f07f2f07d2f07b2f0792f0752f0732f0712f06f2f06b2f0692f0672f0652f0612f05f2f05d2f05b2f0572f0552f0532f0512f04d2f04b2f0492f0472f0432f0412eff72eff52eff12efef2efb72efb52efb12efaf2ef2b2ef292ef252ef232ef212ef1f2ef1b2ef192ee432ee412ee3d2ee392ee372f7542f7302f7262f71c))
  (.nd (.lf
  0xafdd0b0940afdb0b08a0afd90b0800afd70b0760afd50b06c0afd30b0620afd10b0580afcf0b04e0afcd0b0440afcb0b03a0afc90b0300afc70b0260afc50b01c0afc30b0120afc10b0080afbf0affe0afbd0afbb0b9610bc1e0b9430bc160b9250bc0c0b9050bc040b8e10bbf60b8bf0bbec0b96f0bbe20b9ab0bbda0b9af0bbd20b97d0bbc80b9ad0bbba0b97f0bbb20b9730bba80b9670bb9e0b9690bb92)
  (.lf 0)))

def shaXorReads469 : BTree :=
  .nd (.nd (.nd (.lf
  0x24730245ef22c6f219bf21579210c420f6120f322487d2472422c2f219752157d210c620ead20ea22471c2437122c312194121581210be20eaf20e92246e0245f722bd1219432187d2158520f5c20e28246cc245ad22aed2187f216d72158920f5e20e1824684245c922a09218812163b2158d20f6020d74245d1245b822a0b216892163d2159120eac20d34245cb229992163f215952154320eae20d2a25765)
  (.lf
  0x13c9913c9713c9313c9113c4913c4713c4313c4113bfb13bf913bf713bf313bad13baf13bab13ba513b5f13b5d13b5913b5713b1113b0f13b0b13b0913ac513ac313abf13abd13a7513a7313a6f13a6b13a2313a2713a2113a1d139d7139d5139d1139cf1398513983139811397d1393713935139331392f138eb138e9138e5138e31389f1389d13899138971384f1384d1384913845137f9137fd137f7137f3))
  (.nd (.lf
  0x3fec43fcc73fab53f44e3f3ec3f3eb3f3e94064d3feb63fc6d3f9cd3f47c3f43f3f3b03f3ad4063b3feae3fc2f3f8fd3f40c3f2a63f2a13f29f406253fea43fc193f8bb3f3e43f1fc3f1fb3f1f54060f3fe9a3fb8b3f8773f3cc3f1873f1803f161406153fe923fbcb3fb7d3f3e83f3a03f13f3f13d405e33fb5b3f8093f4343f3ac3f1313f12f3f12c405cd3fb2b3f7e13f42c3f29e3f18e3f18d3f18b405ed)
  (.lf
  0xdf430df3f0df3d0df3b0df390df350df330df310df2f0df2b0df290df270df250df210df1f0df1d0df1b0df170df150df130df110df0d0df0b0df090df070df030df010deff0defd0def90def70def50def30deef0deed0deeb0dee90dee50dee30dee10dedf0dedb0ded90ded70ded50ded10decf0decd0decb0dec70dec50dec30dec10debd0debb0deb90deb70deb30deb10deaf0dead0dea90dea70dea5)))
  (.nd (.nd (.lf
  0x18d9618d5a18d201944a19414193da1939e1936619330192f8192bc1927c1923c191fc191bc1917c1913e190fa190b4190721903218fee18fac18f6c18f2818ee218e9c18e5618e1018dce18d8e18d5218d181947219408193cc19132190ec1902618f6018f1a18ed418e8e18e481944519441194441940e193d2193971939319396193611935d193601932b193271932a192f3192ef192f2192b7192b3192b6)
  (.lf
  0x146cc146ae1468e1467014650146321461a149a5149a31499f1499d1498714985149811497f149691496714963149611494d1494b14947149451492d1492b14927149251490f1490d1490914907148ef148ed148e9148e7148d1148cf148cb148c9148b5148b3148af148ad14895148931488f1488d14873148711486d1486b148511484f1484b1484914833148311482d1482b14813148111480d1480b147f5))
  (.nd (.lf
  0x2688026840267c02679026420263e026360263302603025fa025f6025ee025bc025b8025b0025ad02576025720256a02567025300252c0252402521024ea024e6024de024db024ab024a20249e024960246b024620245e0245602424024200241802415023de023da023d2023cf02398023940238c02389023720236d037f4037f1037cc037c8037c2037bf037940379003788037850376103758037540374c)
  (.lf 0)))

def shaXorReads470 : BTree :=
  .nd (.nd (.nd (.lf
  0x2f3052e23f2de432de1f2dd6a2cfe82cfe232d6f31323301712f03d2f0332f0302f02e32eb632d6531327301472efeb2efe12efde2efd232eb032d7131307300712efab2efa12ef9e2ef9c32e9e32d4d311ef300732ef112eefd2eef82eebc32e9832cdf31177300752ef152eeff2eefa2eed032e8032cd931149300772f0322ee2f2ee232ee1c32e7632cd3310d9300792efe02ee332ee252ee0c32e6c32ccd)
  (.lf
  0x2fe612fefb2fe5f2fe5b2fe592ff152fe572fe532fe512ff4b2fe4f2fe4b2fe492ff392fe472fe432fe412fe3f2fe3b2fe2f2fbff2fbfd2fbf92fbf72fbeb2fbe92fbe52fbe32fbd72fbd52fbd12fbcf2fbc52fbc32fbbf2fbbd2fbb12fbaf2fbab2fba92fb9d2fb9b2fb972fb952fb892fb872fb832fb812fb752fb732fb6f2fb6d2fb612fb5f2fb5b2fb592fb4f2fb4d2fb492fb472fb3d2fb3b2fb372fb35))
  (.nd (.lf
  0x26367263452634025e902576c36fd636d7335be135bbb35ba42bd482bbb32636b263472634225e842575a36fca36d7735be535bbd35ba62bd3e2bbb72636f263492634425e7c2578836fbe36d7b35be935bbf35ba82bd342bbbb263732634b2634625e722575c36fac36d7f35bed35bc135baa2bd2a2bbbf263772634d2634825e08258c436fa236d8335bf135bc335bac2bd202bbc32637b2634f2634a25ccc)
  (.lf
  0x256a12569d2569b2568d2568b25687256852567725675256712566f256612565f2565b256592564b25649256452564325635256332562f2562d2561f2561d256192561725609256072560325601255f3255f1255ed255eb255dd255db255d7255d5255c7255c5255c1255bf255b1255af255ab255a92559b25599255952559325585255832557f2557d2556f2556d25569255672555925557255532555125543)))
  (.nd (.nd (.lf
  0x1d6c01d2e01ce601ca601c6801c2201bda01b9c01b5601b1001ac801a8a01a4201a02019c2019840193c018fc018be0187601836017f8017b0017700173001eb401e6e01e2801de001da001d6001d2201cda01c9a01c5c01c1601bce01b9001b4a01b0401abc01a7e01a36019f6019b60197801930018f0018b20186a0182a017ec017a4017640172402b3e02b0202abc02a7402a36029ee029b00296a02924)
  (.lf
  0x220dd220db220d721e3f21e3d2202f21e3b21e3721e2f21e2d21e2921e2721e2521e2321e1d21e1b21e1921e1f21e1721e1321e0d21e0f21e0b21e0721e0521e0321dff21dfd21df921df721df321df121ded21deb21dc121d7921d7721d7521d7121cb921cb721cc121cb521cb121caf21cad21ca921ca721c9721c9521c9121c5921c5721c5521c5121c1921c1321c1121c0d21c0b21b9321b9121b8d21b8b))
  (.nd (.lf
  0x77660787e0776a078740776e0786a077720786007776078560777a0784c0777e078420778207838077860782e0778a078240778e0781a077920781007796078060779a077fc0779e077f2077a2077e8077a6077de077aa077d4077ae077ca077b2077c0077b6077bc0839208536083960852c0839a085220839e08518083a20850e083a608504083aa084fa083ae084f0083b2084e6083b6084dc083ba084d2)
  (.lf 0)))

def shaXorReads471 : BTree :=
  .nd (.nd (.nd (.lf
  0x180bb18096166bd15f79150a5150751506a1501e1807918054166bf15f7b150a9150771506c150201803918014166c115f7d150ad150791506e1502217ff917fd4166c315f7f150b11507b150701502417fb517f901665715e8d150b5150721503d1502617f6f17f4a1663715e8f150b9150741503f1502817f2d17f081666d15e91150bd15076150411502a17eed17ec81666115e93150c115078150431502c)
  (.lf
  0x3c43d3c43b3c4393c4353c3c73c3bf3c3bd3c3b93c3a13c2bb3c2b93c2b53c2af3c28f3c28d3c2893c27f3c27d3c2613c25f3c2593c24b3c2493c2453c2433c2413c23f3c23b3c2393c2253c2233c21f3c21d3c21b3c2193c2153c2133c2113c20f3c20b3c1e73c1e53c1e33c1df3c1dd3c1db3c1d93c1d53c1cd3c1c53c1d13c1c33c1bf3c0c33c0c13c0bd3c0bb3c0b93c0b73c0b53c0b13c0af3c0ad3c0a9))
  (.nd (.lf
  0x2fa742fc762fa782fc6c2fa7c2fc642fa802fc582fa842fc4e2fa882fc442fa8c2fc3c2fa902fc322fa942fc242fa982fc1e2fa9c2fc142faa02faaa2faa42faae3076a3093a3076e3092c3077230926307763091c3077a309103077e3090630782308fc30786308f63078a308ec3078e308e4307be308d6307c2308d0307c6308c4307ca308ba307ce308b0307d2308aa307d63089a307da30894307de30886)
  (.lf 0))) (.nd (.nd (.lf
  0x1e4181e4021e3ec1e3d61e3c01e3aa1e3941e37e1e3681e3521e33c1e3261e3101e2fa1e2e41e2ce1e2b81e2a21e28c1e2761e2601e24a1e234121c41218412140120fc120b41206a1202211fda11f9211f4a11f0611ec211e7e11e3a11df611dae11d6411d1e11cda11c9211c4811bfe11bb811b7011b2811ae011a9811a4e11a02119ae1e4a81e4921e47c1e4661e4501e43a1e4241e40e1e3f81e3e21e3cc)
  (.lf
  0x5fd305fd105fcd05fcb05fc905fc705fc305fc105fbf05fbd05fb905fb705fb505fb305faf05fad05fab05fa905fa505fa305fa105f9f05f9b05f9905f9705f9505f9105f8f05f8d05f8b05f8705f8505f8305f8105f7d05f7b05f7905f7705f7305f7105f6f05f6d05f6905f6705f6505f6305f5f05f5d05f5b05f5905f5505f5305f5105f4f05f4b05f4905f4705f4505f4105f3f05f3d05f3b05f3705f35))
  (.nd (.lf
  0x21e6021dfa21e4421dee21d8221d7a21d3a21cce21cc421cc221c9e21c9821c5e21c5a21c1621c1421baa21b9421ba021b8821b3c21b3421af221a5c21a4821a4621a2e21a2421a3021a26219da219d2219c02198a218e2218c0218dc218b4218ca218c62169e2169c215d4215bc215ca215a8215e022b9222eb622b8622eaa22b9022ea022b8a22e9822b8822e8c22b8c22e8222b6022e7822b9622e6a22bd8)
  (.lf 0)))

def shaXorReads472 : BTree :=
  .nd (.nd (.nd (.lf
  0x300d6d60d5a50cf090cedb0cec4001160002e0d6cc0d5a90cf0d0cedd0cec60010c0002c0d6c20d5ad0cf110cedf0cec8001020002a0d6b80d5b10cf150cee10ceca000f8000280d6ae0d5b50cf190cee30cecc000ee000260d6a40d5b90cf1d0cece0ce9f000e4000240d69a0d5bd0cf210ced00cea3000da000220d6900d5c10cf250ced20cea7000d0000200d6860d5c50cf290ced40ceab000c60001e)
  (.lf
  0x4178a4115a417824149041776412fc4176c412de4175e412be4175041126417464149c4173a413024172e412d6415ec4146e415e04114e415d4410f6415c84109c415c2410d6415b441050415ae411524159c41026415744110041562410564155c4152c414944148441320412fa41318412d8412a8412a64110e4110a410b2410a6410ae0070300afe0070700ae00070b00ac20070f00aa60071300a8a00717))
  (.nd (.lf
  0x2cba82cb882cb602de282de2a2dfac2df7e2dee22dec42deae2de6e2df2c2df062de402de2c2de2e2dfae2df802dee42dec62deb02de702df2e2df082de422dfb02df822dee62dec82deb22de722df302df0a2de442de302ecd42ecb22f09a2f0082eee42ef642ef3c2edf22ed942ed642ed3a2ee582ecd62f09c2f00a2eee62ef682ef402edf42ed982ed662ed3c2f0a02f00e2eeea2ef6c2ef442edf62ed9a)
  (.lf
  0x3a01d3a0193a0173a0153a0133a00f3a00d3a00b3a0093a0053a0033a0013a06d39fff39ffb39ff939ff739ee339edb39ed93a07539ed739eb339ea73a07b39ea539ea139e9339e9139e8d39e8939e8739dc039dba39db239da439d9839d8e39d8639d7c39d6e39d6639d5a39d5639d4639d3e39d3039d3439d1c39d2039d7239d0039cfa39cee39d0439cdc39cd039cd239cbe39cb239ca839c9e39bd439dc1)))
  (.nd (.nd (.lf
  0xc4d60c4960b1010b0b90a52d09ca709c5a09c3109c1609b560c4b80c0d20b1030b0bb0a51b09cab09c5c09c3309c1809b580c0b60c0a60b1050b0bd0a50909caf09c3509c1e09c1a09b5a0c0a20b1070b0bf0a4c109cb309c3709c2009c1c09b5c1040a0bcab0bc2b0b2270a8f70a8ed0a8ea0a8e80a8e0105e6103ca0bcad0bc2d0b2170a8cb0a8c10a8be0a8bc0a8b4105cc1036e0bcaf0bc2f0b2050a89d)
  (.lf
  0x329a9329a33299f32989329733296f3296b3290f329133290d3290932857328553284f3284b3282d3282b328273281f327fd327ff327fb327f7327e3327e1327c9327c3327b9330da330ce330c4330b8330d0330a2330943309633080330743306c330883305833050330423303a3302e33024330163300c32fee32a6632a30329ec329b23297e3291e328603283032802327d0330db330d9330d5330d3330cf))
  (.nd (.lf
  0x2eba22eb912eb7e2eb762eb312eb332eaf82eafb2eac02eacd2eaaa2ea742ea632ea912ea502ea392ea162e9f92e9e22e9c92e9c42e9842e97b2e9b32e9662e9602e9192e9532e8f42e8f72e2322e237302a13027d2fece2fff32febc2ff832feac2ff9b2fe9a2ffd52fe8e2ffb52fe882ff612fe802fef92fe5a2ff132fe522ff492fe4a2ff372fe422fe2d2fbfe2fbf82f9cf2fbe42fab32fbd02fab52fbbe)
  (.lf 0)))

def shaXorReads473 : BTree :=
  .nd (.nd (.nd (.lf
  0x2d2332d21c2b32329f1f296392954829535295222d2122d2012b32529f0929759296532952c294da2d2052d1b02b32729ea32975b2960d2952e28e802d1aa2d15b2b0e929ea5296d7296112953028cec2d17f2cfda2b0eb29e4b296d9296212953228ca42cfcf2b0ed29e1f296db295c72953428c862e8032c80f2b8a92a4fb2a4c92a4be2a4bc2e7c72e7b02c8112b8ab2a4ff2a4cb2a4c02a49e2e77d2e748)
  (.lf
  0x18d2f18d2d18d2918d2718d031a5201a5161a50a1a5001a4f61a50e1a4e81a4da1a4d01a4c61a4be1a4b21a4ae1a4a01a4941a48a1a4801a4761a46c1a4681a4581a44e1a4441a43a1a43019e3619dec19da819d621a87619cca1a5211a51f1a51b1a5191a5171a5151a5111a50d1a50b1a5091a5051a5031a5011a4ff1a4fb1a4f91a4f71a50f1a4f51a4f11a4ef1a4ed1a4e91a4e71a4e51a4e31a4df1a4dd))
  (.nd (.lf
  0xf5d20e36b0e3510e34c244dc242b51b1621ac091158a1100c0f6070f5eb0f5d40e36d0e3530e34e244c6242b91b1241ac0d11580110000f6090f5ed0f5d60e36f0e3550e350244b0242bd1b0ea1ac111157610ff40f60b0f5ef0f5d80e3710e3570e3522449a242c11b0b21ac151156c10fe80f60d0f5f10f5da0e3730e3540e31924484242c51b07a1ac191156210fdc0f60f0f5dc0f5b30e3750e3560e31b)
  (.lf
  0x184dc184ac184721843a18400183c8183901835018310182d01828c1824618204181c41818418140180fa180b4180721803217ff217fae17f6817f2617ee617ea217e5c17e1a17dd617d9417d52184dd184db184d7184d5184ad184ab184a7184a518473184711846d1846b1843b18439184351843318401183ff183fb183f9183c9183c7183c3183c1183911838f1838b18389183511834f1834b1834918311)))
  (.nd (.nd (.lf
  0x22f1922f1522f0122efd22ef522ef322eef22ee922ed122ecf22ecb22f4722ec722ec322e0722dff22dfd22d0f22cff22cf922cf722c9f22c9d22cb322c8122c7d22bcd22ba922ba722f3822f1f22f1b22f1e22f1822f1122f0d22f1022f0b22f0322f0a22f0022ef222ee522ee122ee422edb22ed722eda22ece22ec622e0622df922def22df822de922dd722de822dd522dc522dd422db722db322db622db1)
  (.lf
  0x172e8172b21727c1724017202171c61718a1714e17116170e0170a61706e1703416ffa16fc216f8c16f5216f1a16ee016ea816e6e16e2e16dee16db2174771745b17457174451742717425174211740d173ef173ed173e9173d1173b3173b1173ad1739317375173731736f173591733b1733917335173211730317301172fd172e9172cd172cb172c7172b31729717295172911727d1725f1725d1725917241))
  (.nd (.lf
  0x131b412e6812ca712c2a1318412e5a12ccf12c2c1317e12e5212cc512c2e130d812e4612d0512c28130cc12e3812cfd12c1c130c412e2a12cff12c38130ba12e2412d0312c34130ae12f7a12e1812d01130a612e0a12ce712c361304412f7812e0412cc91303812dd412ccb12c3e1303212dc812ccd12c321302612dc212ca112c761301e12db212ca312c741301412da812ca512c481300c12da012c7812c27)
  (.lf 0)))

def shaXorReads474 : BTree :=
  .nd (.nd (.nd (.lf
  0x398723965f37c1737c0f37c0c37c0a3c41f3ba573986a3964337c8737c7d37c7a37c783c36d3b9ad398603963337bf337be937be637be23c3033b8f9398523968d37bd937bcf37bcc37bc83c2df3b86939846397f337c6037c2f37c2b37c283c3a53b7e139840395ff37c0e37ba137b9337b883c29d3b75f3982e395e337c7c37b9737b9537b903c2773b73339826395d737be837b5d37b5b37b583c2553b6ad)
  (.lf
  0x360253603d360233601f3601d3601b360113600f3600d3600b3600735fff35ffd35ffb35e6735e5f35e1935e1735e0d35def35c67379e4379f8379c6379ac37990379743795637a1e379283790c378f637a36378da378c037ae0378a43787a378863786237848378363782237812377fe377ec377e037896373ea373d63713a37100379e5379f9379e3379df379dd379db379d7379c7379c5379c3379bf379b7))
  (.nd (.lf
  0x39222391f930860307f32bbc52bbbc2b0422afc4399dc399233928739224391fb30856307f72bbc72bbc02b0322af3839980399273928b391fd391e03084c307fb2bbc92bbc42b02a2af323996c3992b3928f391ff391e430842307ff2bbcb2bbc62b01c2af5a399643992f3929339201391e830836308032bbcd2bbc82b0102af7a3995a399333929739203391ec3082c308072bbcf2bbca2b16a2b0063994c)
  (.lf
  0x29b6729b6329b6129b5329b5129b4d29b4b29b3d29b3b29b3729b3529b2729b2529b2129b1f29b1929a5629a4c29a4229a3829a2e29a2429a1a29a1029a06299fc299f2299e8299de299d4299ca299c0299b6299ac299a2299982998e299842997a29970299662995c29952299482993e299342992a29a5729a5529a5129a4f29a4d29a4b29a4729a4529a4329a4129a3d29a3b29a3929a3729a3329a3129a2f)))
  (.nd (.nd (.lf
  0x2305e230542304a23040230362302c23022230182300e2300622c4a22c0e22c0422bb022adc229f6229be22fe822fde22fbe22f9622f8c22f8222f7822f6e22f6422f5c22f4c22e3622e2c22de422dce22dbc22daa22d5422d3222d0822cd022cc622cb822c5822c1a22bfe22bba22ad4229e8229b223dca23dc023d9e23d3823d2e23d2423d1a23cf823cd423c2a23c2023c1423bc623bac23b9023b7c23b4c)
  (.lf
  0x247dd247db247d7247d3247d1247cf247cb247c9247c5247c3247bf247bd247b9247b7247b3247b1247ad247ab247a7247a5247a3247a12479d247992479324795247912478d2478b2478924785247832477f2477d247792477724773247712476d2476b2476724765247612475d2475b2475924755247532474f2474d247492474524743247412473d2473b2473724735247312472f2472b2487f2472924725))
  (.nd (.lf
  0x29264294522924429448293d42943e293ca29434293922942a2936029420292d429416292ec2940a2930629400292a6293fa292aa293ec293ce293e6293d229398293962936a293642933c292d829332292f0293282930a2931e292ae29314292b2292682a8cc2a9ec2a8962a9e22a8ce2a9d82a8a62a9cc2a87e2a9c42a8da2a9be2a7fe2a9b02a8e22a9a62a80e2a99e2a7bc2a9962a8182a98c2a7a02a982)
  (.lf 0)))

def shaXorReads475 : BTree :=
  .nd (.nd (.nd (.lf
  0x20f9c20b0f1f7bd1d43b1c9a91c9701c25b1c25020f8c20af71f7bf1d2a71c9ad1c9721c2111c20020f6a20cc51f7c11d2a91c9b11c9741c1c91c1c420e3c20d3f1f7c31d2471c9b51c9761c1851c17620e3220ab31f7c51d2491c9b91c2a41c1411c13e20e0020d011f7c71d1eb1c9bd1c25a1c0f91c0ea20dfa20d091f7c91d1811c9c11c2101c0b31c0b020de420d1d1f7cb1d1831c9c51c1c81c06b1c05c)
  (.lf
  0x419ef419eb419e5419e3419dd419db419d9419e1419d7419d3419d1419e7419cf419cb419c9419c7419c3419bf419bd419bb419b7419b5419b341a51419b1419ad419ab41a55419a9419a5419a341a33419a14199d4199b41999419954163d4163b4163941635416334162f4162d416294162741625416a3416234161f4161d4161b4161741613416114160f4160d4160941607416414160541601415ff415fd))
  (.nd (.lf
  0x1e3141e3021e2fe1e2ec1e2e81e2d61e2d21e2c01e2bc1e2aa1e2a61e2941e2901e27e1e27a1e2681e2641e2521e24e1e23c1e2381e2261e2221e21c2293622922229162290c22900228f6228ea228e0228d4228c8228bc228b0228a4228982288c2288022874228682285c22850228442283a2282e22824228182280c22800227f6227ea227e0227d4227ca227be227b4227a82279e22792227882277c22772)
  (.lf 0))) (.nd (.nd (.lf
  0x387963878a3877e387763876c38762387563874c387403873638720387143859e3858c38560383ae383a4383963838c38382383783836e383623835a3834e383443833a38330383283831c383143830a38302382f6382ee382e438274382463823e382343822a38220382183820e3813c390183900c38ff438fec38fe038fce38fbc38e4838e3c38e3038e2038e1438e0838dfc38df038dd638dca38dbe38db0)
  (.lf
  0x96630965f0965d0961f0961d0961909617095d9095d7095d3095d109593095910958d0958b095510954f0954b095490950d0950b0950709505094c7094c5094c1094bf094810947f0947b094790943f0943d0943909437093ff093fd093f9093f7093bf093bd093b9093b70937f0937d09379093770933b069ac069840694006904068ba0687e06834067ee067b20677206732066e8066a20665c06620065e0))
  (.nd (.lf
  0x362e03159035f803157035c00315503586031530355003151035180314f034e20314d034aa0314b034700314903436031470340003145033c8031430338e03141033580313f033200313d032e60313b032ac0313903276031370323e031350320803133031d4031310319c0312f031190445b0442304416043df043d2043990438c04353043460431104304042d1042c40428d042800424b0423e04207041fa)
  (.lf 0)))

def shaXorReads476 : BTree :=
  .nd (.nd (.nd (.lf
  0x379b4379ae3df143d7183cb4f3cb493b8e5379a53799d3799a37998379923defc3d70e3cb413cb393b83937af3379813797e3797c379763de7e3d7043cb113caf73b7b33796b37963379603795e379583de583d6fc3cb293cb253b77d37a3137a2b37a2837a2637a203de4e3d6f03ca893ca733b6ff3793d3793537932379303792a3de483d6e43ca433ca353b6e13791d3791937916379143790e3de0a3d73a)
  (.lf
  0x3f43d3f43b3f4373f4353f4333f4313f42d3f1953eeb53eeb33eea93ee993ee693ee673ee633ee613edc33edc73edc13edbd3eabf3eabd3eab93eab73eab53eab33ea553ea533ea510f8060f7fc0f7f20f7e80f7de0f7d40f7ca0f7c00f7b60f7ac0f7a20f7980f78e0f7840f77a0f7700f7660f75c0f7520f7480f73e0f7340f72a0f7200f7160f70c0f7020f6f80f6ee0f6e40f6da0f8070f8050f8010f7ff))
  (.nd (.lf
  0x3a0883a06f3bc363bb603a0313a02e3bb623baec3a0773a06e3bada3ba143a07d3a0303b9e23b9803a0793a0763b9823b8c23a07f3a07c3b8b83b81c3a2093a0783b8163a20b3a07e3d2423a70b3a7093a7043dd823d1f83a7213a70f3a7063dd743d1ce3a7083a6eb3a6e93dd6e3d26a3a72d3a7233a7203dd603d19e3a6e83a6d13a6cf3dd583d1563a7313a72f3a72c3dd4c3d1143a6ce3a6933a68d3dd42)
  (.lf
  0x339af339ab339a9339a7339b5339a5339a13399f3399d339993399533993339913398d3396733965339633395f3395b3395933957339533394d3394b32f2e32f2632f1c32f1032f0832efc32ef232ee432ef032ef432eca32e0e32e0a32dfa32df032de632ddc32dd432dca32dbe32db632dac32e1632d3832d2e32d2632d1c32d1232c4832c2032bf032f2f32f2d32f2932f2732f2532f2332f1f32f1d32f1b)))
  (.nd (.nd (.lf
  0x37e3c37e4037e4437e4837e4c37e50384da384de384e2384e6384ea384ee384f2384f6384fa384fe38502385063850a3850e38512385163851a3851e38522385263852a3852e38532385363853a3853e38542385463854a38b8038b8438b8838b8c38b9038b9438b9838b9c38ba038ba438ba838bac38bb038bb438bb838bbc38bc038bc438bc838bcc38bd038bd438bd838bdc38be038be438be838bec38bf0)
  (.lf
  0x2a8ff2a8fd2a8f92a8f72a8f52a8f32a8ef2a8ed2a8452a8432a83f2a83d2a83b2a8392a8312a82f2a82d2a8472a82b2a8272a8252bb9a2bb8e2bb842bb922bb862bb682bb642bb562bb482bb3e2bb342bb282bb4e2bb162bb0a2bb2e2baf82baee2bb102badc2bad22bad02babe2bac02baaa2baa22ba942ba8a2ba842ba762ba662bb9b2bb992bb952bb912bb8f2bb8d2bb892bb852bb832bb932bb812bb7d))
  (.nd (.lf
  0x2b8cb2b91e2b8292b9142b82d2b90a2b8512b9042b7892b8f82b74b2b8f02b6f72b8e42b6af2b8dc2b6312b8cf2b8722b86c2b8312b8602b8352b8572b7962b78d2b7582b7512b7042b6fb2b6bc2b6b32b64a2b6352b6162b6152cc6d2cdc02cc872cdb42cc772cda82cc912cda22cc532cd982cbfd2cd8a2cc232cd822cc032cd7a2cc2d2cd702cba52cd642cb852cd5a2cb5b2cd4e2cb5f2cd442cc7b2cd3a)
  (.lf 0)))

def shaXorReads477 : BTree :=
  .nd (.nd (.nd (.lf
  0x195f8195f21d2ee1d2d21b6311b6191a5dd1978d1976b19754195e6195e01d2be1d2861b6331b61b1a5df19791197561972d195c4195761d27e1d2661b6351b61d1a5e119795197581972f195c6195781d25e1d2301b6371b61f1a5e3197991975a19731195c81957a1d2241d20c1b6391b6211a5e51979d1975c19733195ca1957c1d2021d1a21b63b1b6231a5e7197a11975e19735195cc1957e1d1981d0a4)
  (.lf
  0xaf960af980af860af780af6e0af680af5a0af7a0af4a0af3e0af340af2a0af220af160af120af040aef60aeec0aee80aed80aece0af000aeb20ae9c0ae880ae840ae7a0ae6a0afb70afb50afb10afaf0afad0afab0afa70afa50afa30afa10af9d0af9b0af970af990af950af910af8f0af8d0af890af870af850af830af7f0af7d0af790af770af730af710af6f0af6d0af690af670af650af630af5f0af5d))
  (.nd (.lf
  0x34cd934c3234ba134c2434b9534dc534c1634c1034c0134c0434ba334ba534b7434f5b34b6c34af734aec34ad834ad534aa735dd33623a35dc93622c35da93621c35dbb3621635dbd3620835d97361fc35d9b361ee35d7b361e635d67361a635dd53619435daf3618e35d5b3618635db93616435db53615e35d293615435d1f3612c35db73612635d0b3610e35cfb360e235ceb360d235ce1360b835cd336068)
  (.lf
  0xd3800d2200d0c00cf600ce000cca00cb400c9e00c8800c7200c5c00c4600c3000c1a00c0400bee00bd800bc200bac00b9600b8000b6a00b5400de700de500de100ddf00dd300dd100dcd00dcb00dbd00dbb00db700db500da700da500da100d9f00d9100d8f00d8b00d8900d7b00d7900d7500d7300d6500d6300d5f00d5d00d4f00d4d00d4900d4700d3900d3700d3300d3100d2300d2100d1d00d1b00d0d)))
  (.nd (.nd (.lf
  0xfc020fba80fb460fae60fa850fa810fa840fa2b0fa270fa2a0f9cf0f9cb0f9ce0f96d0f9690f96c0f9040ca0e0ca040c9fa0c9f00c9e60c9dc0c9d20c9c80c9be0c9b40c9aa0c9a00c9960c98c0c9820c9780c96e0c9640c95a0c9500c9460c93c0c9320c9280c91e0c9140c90a0c9000c8f60c8ec10ea210e8410e6210e4410e2410e0210de010dbe10d9c10d7e10d5e10d3c10d1a10cf810cd610cb810c9c)
  (.lf
  0x10c5510c5110c4910c3b10c3910c3510c2d10c1f10c1d10c1910c0d10bff10bfd10bf910beb10bdd10bdb10bd710bc910bbb10bb910bb510ba710b9910b9710b9310b8910b7b10b7910b7510b6d10b5f10b5d10b5910b5110b4310b4110b3d10b3510b2710b2510b2110b1510b0710b0510b0110afd10af710a2e10a2410a1a10a1010a06109fc109f2109e8109de109d4109ca109c0109b6109ac109a210998))
  (.nd (.lf
  0x8ea008e6808e4c08de208da208d8608d1c08cdc08c9c08c5c08c4008bfa08b9008b5008b1008af408aae08a4408a04089c40898408968088fe088e20889c0883208816087d00878a0874408749087450871f09b1009af609a9209a7609a0c099f0099860996a09900098c0098800984009824097de0977409734096f4096d8096920964c09606095c0095560953a094f4094ae0944409404093c40938409368)
  (.lf 0)))

def shaXorReads478 : BTree :=
  .nd (.nd (.nd (.lf
  0x2919f2919b285bb26f5f26f2426ca226ca126c9a2b4322b3f4291ab291a72858f26f2726eea26c8326c7626c702b4282b3e629189291852859126eed26e9626c5e26c5d26c5a2b41c2b3d829165291612856926e9926e6626bd726bcc26bc62b3c22b396291552915128559270c326e6926e0026b8226b7c2b38c2b2d22917b29177280d12708d26e0b26e0226b6826b662b2c82b2b828f6728f6327fab270cb)
  (.lf
  0x27bff27bfd27bf127bef27bed27beb27be727bdf27bd527b1d27b1927b1527af3283a228394283ac2836e283662835428306282ec282f6282c2282b8282b0282a6282842826a28274282482823c2823428222280b62805427fdc27fae27e5e27e1427bc227bb227ba827b8e27b60283a3283a1283952839328391283ad2838f2838b283892837728373283712836f2836d283692836728365283632835f28355))
  (.nd (.lf
  0x24fc024ef11e2011e1791e1701e0cc1e0163055c3041f2f2bf2f26a2f24124fb624ef51e2051e17d1e1741e0be1e01030556304232f2c32f26c2f24324fac24ef91e2091e1811e1781e0b81e00a3054e304272f2c72f26e2f24524fa224efd1e20d1e1851e17c1e0aa1de64305423042b2f2cb2f2702f24724f9824f011e2111e1891e1801e0a41de4c305363042f2f2cf2f2722f24924f8e24f051e2151e18d)
  (.lf
  0x20a3320a2f20a2d20a1f20a1d20a1920a1720a111e4b21e49e1e4881e4721e45c1e4461e4301e41a1e4041e3ee1e3d81e3c21e3ac1e3961e3801e36a1e3541e33e1e3281e3121e2fc1e2e61e2d01e2ba1e2a41e28e1e2781e2621e24c1e2361e2201e4b31e4b11e4ad1e4ab1e49f1e49d1e4991e4971e4891e4871e4831e4811e4731e4711e46d1e46b1e45d1e45b1e4571e4551e4471e4451e4411e43f1e431)))
  (.nd (.nd (.lf
  0x376e3376dd376e2376da376d2376c2376bb376b3376ba376af376a9376ae376a63769a3768b376833768a376813767937680376763766937663376683765e376533764b37652376493764537648376423763537631376343762f371733762e37170371523712a36d1c36d1036d0836d0036cf636cea36ce036cd836cce36bd636bcc36bc236bb836bae36ba236b9a36b9036b8236b7a36b7236b6836b5e36afe)
  (.lf
  0x1c91a1c9041c8fe1c8f01c8e41c8dc1c8d21c8c61c8bc1c8b21c8a61c8a41c8921c8c21c8801c8761c86a1c8621c8861c8501c7481c6ee1c6c01c66c1c62c1c9491c9471c9431c9411c93f1c93d1c9391c9371c9351c9331c92f1c92d1c92b1c9291c9251c9231c9211c91f1c9191c9171c9151c91b1c9131c90f1c90d1c90b1c9071c9051c9031c9011c8ff1c8fb1c8f91c8f71c8f31c8f11c8ef1c8ed1c8e9))
  (.nd (.lf
  0x35964355f435516355153595e355be3550d3550a359563557a354fe354fd3594035574354f6354f3359363554a3552e3552d3590e354d4354ba354b9358fe354a03549435493358f83549a3548535476358d83545e3545735454358d2354443544335434358c03541c353fc353fb3588e355fd35414353f03587a355ff354303540035872353de353b23538b35862353e7353bc353b035858353b63538d35374)
  (.lf 0)))

def shaXorReads479 : BTree :=
  .nd (.nd (.nd (.lf
  0xd16b0d1520ca710bfb90b5390b50d0b5020b4b60d1490d1300ca730bfbb0b53d0b50f0b5040b4b80d1270d10e0ca750bfbd0b5410b5110b5060b4ba0d1050d0ec0ca770bfbf0b5450b5130b5080b4bc0d0e30d0ca0ca790bfc10b5490b5150b50a0b4be0d0c10d0a80ca7b0bfc30b54d0b5170b50c0b4c00d09f0d0860ca7d0bfc50b5510b50e0b4d90b4c20d07d0d0640ca7f0bfc70b5550b5100b4db0b4c4)
  (.lf
  0x3c5083c4ca3c4663c3c03c81d3c81b3c8173c8153c8113c80f3c80b3c8073c8053c8033c7ff3c7fd3c7f93c7f73c7f33c7e93c7e73c7e53c7e13c7dd3c7db3c7d93c7d53c7d33c7d13c8cb3c7cf3c7cb3c7c93c7bd3c7bb3c7b73c7b53c7b33c79f3c79b3c7993c7973c7933c7893c7873c7853c7573c7513c74f3c74d3c7493c7473c7453c7433c73f3c73d3c73b3c7393c7353c7313c72f3c72d3c7293c713))
  (.nd (.lf
  0xf69e0f7560f6a20f74c0f6a60f7420f6aa0f7380f6ae0f72e0f6b20f7240f6b60f71a0f6ba0f7100f6be0f7060f6c20f6fc0f6c60f6f20f6ca0f6e80f6ce0f6de0f6d20f6d80ccc40ce940ccc80ce8a0cccc0ce800ccd00ce760ccd40ce6c0ccd80ce620ccdc0ce580cce00ce4e0cce40ce440cce80ce3a0cd180ce300cd1c0ce260cd200ce1c0cd240ce120cd280ce080cd2c0cdfe0cd300cdf40cd340cdea)
  (.lf 0))) (.nd (.nd (.lf
  0x3118831158310e4321b4321743217632178320323221e3227232276322983217c321803227a3227e3229c3218432188321c03218c32222321903219432196320343222631f4e3228232286322a03219a3219e321c4321a2334023340433406333243334433354334b6334ba334be334c23344e334c6334ca334ce334d233452334083340c3341033414334183332633346333563330a334d6334da334de334e2)
  (.lf
  0x3e5503e5303e4f03e2303e1503e1303e0f03ddf03dd103dcf03dcb03d9d03d8f03d8d03d8903d5903d4b03d4903d4503d1303d0503d0303cff03cd103cc303cc103cbd03c8d03c8703aea03ae003ad603acc03ac203ab803aae03aa403a9a03a9003a8603a7c03a7203a6803a5e03a5403a4a03a4003a3603a2c03a2203a1803a0e03a04039fa039f0039e6039dc039d2039c8039be03aeb03ae903ae503ae3))
  (.nd (.lf
  0x1d4401d1201d0001cd001cbe01c9001c7e01c4c01c3a01c0601bf401bc401bb201b8001b6e01b3a01b2801af401ae201ab201aa001a6e01a5c01a2c01a1a019ec019da019ac0199a01968019560192601914018e6018d4018a201890018600184e018200180e017dc017ca0179a017880175a017480171a0170002b6202b5202b2a02b1802ae602ad402aa002a8e02a5e02a4c02a1a02a08029d8029c602994)
  (.lf 0)))

def shaXorReads480 : BTree :=
  .nd (.nd (.nd (.lf
  0x6e9006e600efc00efb50ed3d0ed260d41a0d40f06e5606e340efbb0ed3f0ed280d41506e321360d0f0ed0ef470ef2b0ef140824c14014136110f2cc0f0f10ef4b0ef2d0ef1608226081ea13fd2136150f2c20f0f50ef4f0ef2f0ef18081ec081ac13f82136190f2b80f1330ef530ef310ef1a081a20816413f341361d0f2ae0f1370ef570ef330ef1c081660812413ee4136210f2a40f13b0ef5b0ef350ef1e)
  (.lf
  0x274aa273cd274a2273d127498273d52748c273d927484273dd2747a273e127470273e527468273e92745c273ed27452272a52744a272b527442273f127434273f52742e273f927424273fd2741a27401274102740527409283a9285342839b2852a283b3285202837f28516283832850c2835b28502283cf284f8283d3284ee283d7284e4283db284da283df284d0283e3284c6283e7284bc283eb284b2283ef))
  (.nd (.lf
  0x16f0016f4016f8022e2022e6022ea022ee022f2022f6022fa022fe02302023060230a0230e02312023160231a0231e02322023260232a0232e02332023360233a0233e02342023460234a0234e02352023560235a0235e02f6602f6a02f6e02f7202f7602f7a02f7e02f8202f8602f8a02f8e02f9202f9602f9a02f9e02fa202fa602faa02fae02fb202fb602fba02fbe02fc202fc602fca02fce02fd202fd6)
  (.lf
  0x15d6015cc015c2015b8015ae015a40159a01590015860157c01572015680155e015540154a01540015360152c01522015180150e0163b016390163501633016310162f0162b016290162701625016210161f0161d0161b016170161501613016110160d0160b01609016070160301601015ff015fd015f9015f7015f5015f3015ef015ed015eb015e9015e5015e3015e1015df015db015d9015d7015d5015d1)))
  (.nd (.nd (.lf
  0x6d8406d380665e0665b0859d0798906dbb06d9106d8606d3a0661f066160859f0798b06dbf06d9306d8806d3c065df065d6085a10798d06dc306d9506d8a06d3e0659f06596085a30798f06dc706d9706d8c06d400655806555085a50799106dcb06d9906d8e06d420651906510085a70799306dcf06d9b06d9006d44064d2064cf085a90799506dd306d9d06d9206d460648c06489085ab0799706dd706d94)
  (.lf
  0x375ba375a6375963758a3759a37578375683756c375583754e37472374363742c3742a370dc370d4370b63709e36e4a36e0e3762d3762b3762737623376213761f3761b376193761737615376113760f3760b376093760537601375ff375fd375f9375f5375f1375ef375eb375e7375e3375e9375e1375dd375db375d9375d5375d3375d1375cf375cb375c9375c7375c5375c1375bf375b9375bb375b7375b3))
  (.nd (.lf
  0x26622266c426626266ae2662a266982662e26682266322666c26636266562663a266402771a27a642771e27a502772227a3a2776027a242776427a0e27768279f82776c279e227770279cc27774279b627778279a02777c2798a2778027974277842795e27788279482778c27932277902791c277942790627798278f02779c278da277a0278c4277a4278ae277a827898277ac27882277b02786c277b427856)
  (.lf 0)))

def shaXorReads481 : BTree :=
  .nd (.nd (.nd (.lf
  0x21daf21d5021a9021a84259c22599223a9323a8722cdf222092209d21d2a21a04219fe259802595a23a9523a8922c692211b2207b21d00219ae219a82594a258ec23a9723a8b239f9220a521fef21c862196a21964258d42589e23a4b23a4722c292208321f8f21c402192221916258922586823a3123a2d22bc721ff521f6f21bec21924219182585e25826235352353122ae921f9721f1321bcc216c6216c0)
  (.lf
  0x22c5d22c6122c4b22c4722c11239f122c0f22c0b22c0922c2122c0522c0122bb722bbf22bb122bad22adf22ae122add22ad9229f9229f7229ed229df229c1229bf229bb229b72298922fea22fe022fc622f9a22f8e22f8422f7c22f7222f6622f9c22f4e22ffa22e3022df422dde22dc822dc222da622d4e22d2a22d0422cc822cba22cc022c5222c1422c0622bbc22acc229e2229ac22feb22fe922fe522fe3))
  (.nd (.lf
  0x2bddd2ac452ac152abfe225702244d1cba51cb771cb721b13c1b1302bfec2bde12ac492ac172ac0022566224511cba91cb791cb741b1061b0f62bfd62bde52ac4d2ac192ac022255c224551cbad1cb7b1cb761b0ce1b0be2bfc02bde92ac512ac1b2ac0422552224591cbb11cb781cb291b09c1b0862bfaa2bded2ac552ac062abd7225482245d1cbb51cb7a1cb2d1b0641b04e2bf942bdf12ac592ac082abdb)
  (.lf
  0xf3cb0f3c70f3c50f3c30f3c10f3bd0f3bb0f3b90f3b70f3b30f3b10f3af0f3ad0f3a90f3a70f3a50f3a30f39f0f39d0f39b0f3990f3950f3930f3911cef01ceda1cec21ceaa1ce921ce7a1ce621ce4a1ce321ce1a1ce021cdea1cdd21cdba1cda21cd8a1cd721cd5a1cd421cd2a1cd121ccfa1cce21ccca1ccb21cc961cc761cc541cc321cc101cbea1cef11cee31cedf1cedb1cecd1cecb1cec71cec31ceb5)))
  (.nd (.nd (.lf
  0x2fdbf2fdbb2f9c32f9af2f9a52f9952f9912f9872f9172f90f2f90d2f8132f8012f7fd301633012d301623012b2fec53012a2fec22feaf2fea12feae2fe9f2fe912fe9e2fdf72fdf12fdf62fdef2fde92fdee2fde72fde12fde62fdde2fdd22fdc52fdc12fdc42fdbe2f9c92f9c52f9c82f9c22f9a32f9972f9a22f9942f9832f9192f9822f9162f9092f9012f9082f8fb2f8f72f8fa2f8f52f8ed2f8f42f8eb)
  (.lf
  0x1ad501ad0e1acce1ac861b3731b3451b3411b33d1b3091b30d1b3071b3031b2d31b2df1b2d11b2cd1b29f1b29d1b2991b2971b2651b2631b25f1b25d1b2311b22f1b22b1b2211b2031b2011b1fd1b1e91b1c91b1c71b1c31b1af1b1851b1831b17f1b1711b1431b1411b13d1b1331b10d1b10b1b1071b0f91b0d51b0d31b0cf1b0c11b0a31b0a11b09d1b0891b06b1b0691b0651b0511b0331b0311b02d1b019))
  (.nd (.lf
  0x271bc26b0326afa26af626adf26ad826ad026acc26aa726a9c26a9426a9026a8226a3626a1d26a1626a6c26a2c26a0e26a0d26a6226a4126a2426a2026998269952698e269862691b2690e2821928216287902839028201281fe2876c28388281fb281f82873a28372281f2281e52871028364281f4281df286c228352281cb281c8286a828304281d2281d1286a0282ee281b9281b628686282e4281ac281ab)
  (.lf 0)))

def shaXorReads482 : BTree :=
  .nd (.nd (.nd (.lf
  0x344df344db3336b320233201f3201c3201a32014366b8366ac344733446f3329b320c3320c1320be320bc320b636710366583440d34409332b13243a320b1320af320ac320a436646365fa343d3343cf333333243d3241431fcf31fcc31fc636604365e43439d343993360d32417323e431e8531e8231e7c365d836584343733436f33213323e7323b431e1531e1031e0a365c6365ba3434734343331d1323b7)
  (.lf
  0x40c4540c4340c3f40c1940c0b40c0940c0540c0340bfb40bf940bf540bef40bd340bd140bcd40bcb40bc340bc140bb940bb140b7740b7540b6d40b6140b3f40b3d40b2740b2340adf40ae340add40ad940abb40ab940ab540aa140a0d40a0b40a0740a0540a0340a5b40a01409fd409fb41480412ec412c84129c41106410a24108a4107e41046410324101a4100a40ffc40ff240f3e40f1040e0c40dfa40db4))
  (.nd (.lf
  0x3515034e1d34e0d34e0834d983916a390753514634e2134e0f34e0a34dc239160390793513e34e2534e0c34dc934d9439152390273512834e2934e0e34dcd34d3e3914c3902b3511834e2d34dd134dc834d18391403909f3510e34e3134dd534dcc34d1c391383907d3510234e3534dd934dd034d203912c39081350fc34e3934ddd34dd434dbc3912439085350f234e3d34de134dd834cf23911a39089350e6)
  (.lf
  0x3053b3053730535305313059f3052f3052b3052930527305233052130513305113050d30503304fb304f9304f5304f3304e1304df304db304d9304cb304c9304833047f3047d3047b3047730473304713046f3046b3046730465304633045f3045b30459307483073a307203070a30706306f2306e8306a0306843067430658306483062a3060a305fc305f2305e6305d8305ce305c4305b8305b2305a230516)))
  (.nd (.nd (.lf
  0x2bc0c2bc102bc142bc182bc1c2bc202bc242bc282bc2c2bc302bc342bc382bc3c2bc402bc442c5d82c5da2c5de2c5e02c5e42c5e62c5ea2c5ec2c5f02c5f22c5f62c5f82c5fc2c5fe2c6022c6042c6082c60a2c60e2c6102c6142c6162d7f02d7f42d7f82d7fc2d8002d8042d8082d80c2d8102d8142d8182d81c2d8202d8242d8282d82c2d8302d8342d8382d83c2d8402d8442e8102e7d22e7982e75c2e714)
  (.lf
  0x28d5b28d8528d5928d5528d5328d5128d4d28d4928d4728d4528d4128d3f28d3d28d3b28d2328d1f28d1d28d1b28d1728d1528d1128d0f28d0b28d0928d0728d2728d0528d0128cff28cfd28c6328c6128c5f28c5d28c5328c4728c3529128290d8290ce290c4290b8290ac290dc2907a290782907c290562903c2902228ff428fea28ff628fc828fb428fa028f4628f3a28f2c28f2628f1628efe28ed628eac))
  (.nd (.lf
  0x12507126441250b1263a125ff126301260312626126071261c1260b1260f12562125591253c125361250f1252c1251312522125171251d131f113352131f5133481321d1333e1322113334132251332a13229133201322d133161319b1330c1312d1330213131132f813135132ee13139132e41313d132da13231132d013235132c613239132bc1323d132b213241132a81319f1329e1314113294131451328a)
  (.lf 0)))

def shaXorReads483 : BTree :=
  .nd (.nd (.nd (.lf
  0x165af1659715acb14e9914e3514cc414b1c14ac217f0a17ed4165b11659915ad514e6b14e0914cb014b1e14ac417eca17e90165531654f15a4514e3d14ddd14c9c14b2014ac617e8617e4a16505164f115a2914e1114db114c8814b2214ac817e4017e0816507164f315a2b14de514d8514c7414b2414aca17dfe17dc416509164f515a2d14db914d5914c5e14b2614acc184f217d821650b164f715a2f14d8d)
  (.lf
  0x6ecb06ec906ec506ec306e8f06e8d06e8906e8706e5506e5306e4f06e4d06e2f075f2075b60758607530074ea074ba0747a0743a073fa073ba0737a0733a072fa072a40725e07218071d2071a20714c0711c070c607096070400701006fba06f8a06f4a06ef406eb606e7a06e40075f3075bd075b9075b70757707587075750757107539075370753307531074f3074f1074ed074eb074ab074bb074a9074a5))
  (.nd (.lf
  0x19d3019cf119ce419c9f19c9a19c811b36d1b3391b32c1b2ff1b2da1b2c91b2a81b2911b27c1b2571b2421b21b1b20e1b1e31b1d01b1a91b18c1b16b1b1501b12d1b1141b0f31b0e61b0bb1b0ae1b0831b0761b04b1b03e1b0131b0061afdb1afce1afa31af961af6b1af5e1af351af281aefb1aeee1aec31aeb61ae891ae7c1ae4d1ae401ae0f1ae021add31adc61ad911ad841ad4b1ad3e1ad091acfc1acc9)
  (.lf 0))) (.nd (.nd (.lf
  0x7f3907f6007f2107ef907f2007ee007e9a07e5507e2d07e5407e1407dcf07da707dce07d8e07d4807d0307cdb07d0207cc207c7c07c3707c0f07c3607bf707bcf07bf607bb707b8f07bb607b7707b4f07b7607b3707b0f07b3607af707acf07af607ab6078e8078de078d4078ca078c0078b6078ac078a2078980788e078840787a07870078660785c07852078480783e078340782a07820078160780c07802)
  (.lf
  0x94a40946809428093e8093a80935e09b1d09af509af109aef09ab309ab709ab109aad09a7509a7309a6f09a6d09a2d09a3109a2b09a27099ef099ed099e9099e7099a7099ab099a5099a10996909967099630996109921099250991f0991b098e1098e5098df098db098a1098a50989f0989b09861098650985f0985b09823098210981d0981b097dd097db097d7097d50979509799097930978f0975509759))
  (.nd (.lf
  0x2c3e62c2d52c3c02c2c92c3aa2c2bd2c2a32c2a02c2832c2802c2652c2602c24e2c2412c22e2c2212c2012c1fe2c1ec2c1db2c1ab2c1a62c1772c1742c1622c1392c0d72d7c12dacc2d7c52dac02d7c32daa82d7a32daa22d7952da8e2d7912da462d7932da412da3e2d9c62d7732d9ba2d7712d9b02d76f2d9902d65d2d9782d63f2d6202d61f2d6052d6022d5d02d5cf2d5402d4a12d5362d4952d52a2d493)
  (.lf 0)))

def shaXorReads484 : BTree :=
  .nd (.nd (.nd (.lf
  0x1c9c0104d00fbd00f7d408ba408aa01caa01c5e0105100fbf00f7f408944088c01c5401c180105500fc100f81408804086601c0e01bd00105900fc300f834085e4082e01bde01b920105d00fc500f85408684085601b8801b4c0106100fc700f874084a4082c01b4201b060106500fc900f89408424082201afc01abe0106900fcb00f8b407da407d001acc01a800106d00fcd00f8d407ca4075201a7601a38)
  (.lf
  0x253842527e2537c252822537225286253642528a2535a252da253542529025348252d82534025296253362529a2532a2529e25322252a225318252a62530c252aa25304252ae252fa252b2252ee252b6252e4252ba252d4252be252ca252c2252c6261202628a261242627c261282627425fd42626a25fd82626225fdc26258261622624e26166262422616a26238260242623026028262262616e2621826172))
  (.nd (.lf
  0x3e08e3dfaa3dfb03f64c3f6243f60a3f5a63f58e3f5e03f6ec3f5563f56a3f5343f5ee3f6743f39c3f37c3f36c3f3f63f34a3f3843f31a3f2f23f2fa3f2083f17e3f1103f11a3f4e23ee483ee443edb03eaac3ea183ead0409b44098e4097c4099e409dc40b144092840908408e6408c240a804087a40a8a408104083240840407e04075a4076040732408344070a406f6406e640a78406bc4077c3fa403fa84)
  (.lf
  0x38db138d9338d9138d8f38d8d38d8938d4f38d4d38d4b38d4338d4138d3f38d3d38d2138d1f38d1d38d1b38d1738cdd38cd938cd738ccb38cc738cc538cc338cb938cb738cb538cb338c2938c2738c2538c2338c1b38c1938c1738c1538c1138c0938c0738c0d38c0538c0138bff38bfd38bf938bf738bf53905a39050390443903a3900438fd83909238f8c38f4838f5a38eec38ef438eda38e9238e8438e7a)))
  (.nd (.nd (.lf
  0x6acb06ab406a70069b009aa809a5c082d508255076c106b4f06acd06ab606a72069b209a5209a14082d708257076c306b5306acf06ab806a74069b409a22099d6082d908259076c506b5706ad106aba06a76069b6099cc0998e082db0825b076c706b5b06ad306abc06a78069b80999c09950082dd0825d076c906b5f06ad506abe06a7a069ba0994609908082df0825f076cb06b6306ad706ac006a7c069bc)
  (.lf
  0x2ee6d2ee692ee652ee633027a30270302663025c302543024830240302363022a30222302163020e30204301f6301ec301e2301d830210301c4301ba301c6301a6301a0301ac301883018a30156300ec300e4300d2300c03027b302793027530273302713026f3026b302693026730265302613025f3025d3025b302573025530253302513024d3024b302493024730243302413023f3023d302393023730235))
  (.nd (.lf
  0x149c514a36149c314a2c149bd14a22149b514a18149b714a0e149bb14a04149b9149fa149b3149f0149ad149af159cf15b98159d315b8e1597715b84159db15b7a159d515b7015a6315b6615a6515b5c15a7f15b5215a6115b48159d915b3e157ad15b341577115b2a1573315b20156f915b16156c115b0c1568915b021565115af81561515aee155db15ae41559f15ada1556515a9e1552915a98154f115a8c)
  (.lf 0)))

def shaXorReads485 : BTree :=
  .nd (.nd (.nd (.lf
  0x232f3232aa2327522c7026ac32697225075235b3232f7232ac2327722c322696a268e92507723595232fb232792326e22c34269ad2695e247112356b232ff2327b2327022bd226956268f7246d123545233032327d2327222aee2694a268e12468923507233072327f2327422a0c2693e268f524643235092330b232812327622a0e268f92460f233472330f23283232782299a27af72611f251ff240ef24071)
  (.lf
  0x14b5f14b5d14b5914b5714b5514b5314b4f14b4d14b4b14b4914b4514b4314b4114b3f14b3b14b3914b3714b3514b3114b2f14ab515b9e15b9415b8a15b8015b7615b6c15b6215b5815b4e15b4415b3a15b3015b2615b1c15b1215b0815afe15af415aea15ae015aa815aa015a9415a8a15acc15a3a15a0c15a04159f8159ee1531a15b9f15b9d15b9915b9715b9515b9315b8f15b8d15b8b15b8915b8515b83))
  (.nd (.lf
  0xf5050f4e90f4d20d3c90d3a90d3a40d3060d30220c6c2099d173c216cf70f5070f4eb0f4d40d3cd0d3ab0d3a60d2e40d2e020c56209a11738416cfb0f5090f4ed0f4d60d3d10d3ad0d3a80d2c20d2be20c40209a51734a16cff0f50b0f4ef0f4d80d3d50d3af0d3aa0d2a00d29c20c2a209a91731216d030f50d0f4f10f4da0d3d90d3b10d3ac0d27e0d27a20c14209ad172da16d070f50f0f4f30f4dc0d3dd)
  (.lf
  0xe0d70e0d30e0d10e0c30e0c10e0bd0e0bb0e0ad0e0ab0e0a70e0a50e0970e0950e0910e08f0e0810e3160e3020e2ec0e2d60e2c00e2aa0e2940e27e0e2680e2520e23c0e2260e2100e1fa0e1e40e1ce0e1b80e1a20e18c0e1760e1600e14a0e1340e11e0e1080e0f20e0dc0e0c60e0b00e09a0e0840e3170e3090e3050e3030e2f50e2f30e2ef0e2ed0e2df0e2dd0e2d90e2d70e2c90e2c70e2c30e2c10e2b3)))
  (.nd (.nd (.lf
  0x1ae991ae971ae611ae5d1ae5b1ae231ae1f1ae1d1ade71ade31ade11ada51ada11ad9f1ad5f1ad5b1ad591b35a1b3231b31b1b3221b2ed1b2e71b2ec1b2b51b2ad1b2b41b2741b2401b1fb1b1f71b1fa1b1c01b19a1b15c1b11f1b1171b11e1b0df1b0d71b0de1b0931b08f1b0921b05b1b0571b05a1b0231b01f1b0221afeb1afe71afea1afb31afaf1afb21af7b1af771af7a1af451af411af441af0e1aed3)
  (.lf
  0x1430314301142fd142fb142f9142f7142f3142f1142ef142ed142e9142e7142e5142e3142df142dd142db142d9142d5142d3142d1142cf142cb142c9142c7142c5142c1142bf142bd142bb142b7142b5142b3142b1142ad142ab142a9142a7142a3142a11429f1429d142991429714295142931428f1428d1428b142891428514283142811427f1427b142791427714275142711426f1426d1426b1426714265))
  (.nd (.lf
  0x57470573e0573a0573205700056fc056f4056f1056c1056b8056b4056ac0567a056760566e0566b0563b056320562e05626055fb055f2055ee055e6055ba055b6055ae055ab0557e0557a055720556f0555c05557069a6069a306979069720696e0696806936069320692a06927068f7068ee068ea068e2068b0068ac068a4068a10687106868068640685c0682a068260681e0681b067e4067e0067d8067d5)
  (.lf 0)))

def shaXorReads486 : BTree :=
  .nd (.nd (.nd (.lf
  0x2f9fb2f7f02f34834e893348f3226731353313353132e3132a351c234e7f33491322693135731337313303132c351b834db533493322933135b31339313323130a35633351a63349532163312273121d3121a311f23519e34da1334453214d311893117f3117c3117a3519834d8f333f3321bd3133431159311533114c3518e34d81333e53213b31336310e5310df310d43517e34d77333cf321b33133831087)
  (.lf
  0x30c9930c9730c9330c8f30c8730c8530c8130b7930b7730b7530b4530b4130b3f30b3d30af330aef30a8730a8530a8130a7330a3f30a3d30a3730a29309f3309f1309ed309e3309cb30987309833097b309793099b30977309733075d3242e32406323d6323a8323663232e32326321e83207c32012320b4320a231fc431e7a31e0831de831df231d9c31d8c31daa31d5c31ca431c8e31c8231c7031a04318ac))
  (.nd (.lf
  0x26c0a268fc3806837e1b36dad36d5836d2f2ce422c5ef275d52754d2754426c00269043805437e1f36db136d5a36d312cef92ce38275d9275512754826bae2690237f5a37e2336db536d5c36d332ce302c5f5275dd275552754c26ba42690037f4e37e2736db936d5e36d352cef52ce24275e1275592755026b9e268fe37f4237e2b36dbd36d6036d372ce1c2c5fb275e52755d2755426b96268fa37f3637e2f)
  (.lf
  0x266f7266f3266f1266e3266e1266dd266db266cd266cb266c7266c5266b7266b5266b1266af266a12669f2669b266992668b26689266852668326675266732666f2666d2665f2665d266592665726649268de268ca268b42689e26888268722685c26846268302681a26804267ee267d8267c2267ac26796267802676a267542673e2672826712266fc266e6266d0266ba266a42668e26678266622664c268df)))
  (.nd (.nd (.lf
  0x804607ffe07fbe07f7e07f3e07efe07ec007e7a07e3207df407dac07d6e07d2807ce007ca207c5c07c1407bd407b9407b5407b1407ad407a9408e7808e3c08df408db408d7608d2e08cee08cae08c6e08c3008bea08ba208b6208b2208ae408a9e08a5608a16089d6089960895808910088d20888c0884408806087c00877a08734086f608e6e08e3008de808da808d6a08d2208ce208ca208c6208c2408bde)
  (.lf
  0x217c9217c7217c3217c1217bf217bd217b9217b7217b5217b3217af217ad217ab217a9217a5217a3217a12179f2179b217992179721795217932178f2178d2178b217872178521783217812177d2177b217792177721773217672167b2167921675216732152f215332152d215292148b214892148521483214812147f214712146d213ff213fd213f9213f5213cd213cb213c9213bb213b9223f4223ea223e0))
  (.nd (.lf
  0x108ca10972108ce10968108d21095e108d610954108da1094a108de10940108e210936108e61092c108ea10922108ee10918108f21090e108f610904108fa109001133a114de1133e114d411342114ca11346114c01134a114b61134e114ac11352114a211356114981135a1148e1135e11484113621147a11366114701136a114661136e1145c113721145211376114481137a1143e1137e11434113821142a)
  (.lf 0)))

def shaXorReads487 : BTree :=
  .nd (.nd (.nd (.lf
  0x16b5d16b2d16b22166c819fbd19fa2186671765716b6116b2f16b24166ca19f8119f64186691765916b6516b3116b26166cc19f4319f261866b1765b16b6916b3316b28166ce19f0519eea1866d1765d16b6d16b2a16af51665819ec919eae1866f175f916b7116b2c16af71664019e8d19e7018671175d316b7516b2e16af91666e19e4f19e2e18673175c916b7916b3016afb1666219e0d19de618675175e7)
  (.lf
  0x3fdeb3fde73fde53fde33fddf3fddd3fdd93fdd73fdd33fdd13fdcd3fdcb3fdc73fdc33fdc13fdbf3fdb93fdb73fdb13fdaf3fda73fda53fd9d3fd9b3fd973fd6f3fd6d3fd6b3fd673fd653fd633fd613fd5d3fd553fd513fd4f3fd413fd3f3fd3d3fd3b3fd2d3fd2b3fd293fd273fd233fd153fd133fd113fd053fd013fcfb3fcf93fcf53fce93fce73fce53fce13fc9d3fc9b3fc9f3fc993fc953fc933fc91))
  (.nd (.lf
  0x381fa3821c381fe38210382023820a38206381343812e3813a3890638b2e387a838b22387ac38b1c387b038b10387b438b08387b838afc387bc38af4387c038ae8387c438ade387c838ad6389ba38ac8389be38ac23892038a483892438a3e389d238a363892a38a2e3892e38a20389c238a16389c638a10389ca38a06389ce389fc38932389f238936389e63893a389dc3893e3899e3894238990389663898a)
  (.lf 0))) (.nd (.nd (.lf
  0x2680a267f4267de267c8267b22679c26786267702675a267442672e2671826702266ec266d6266c0266aa266942667e2666826652264da264d0264c6264bc264b2264a82649e264942648a26480264762646c26462264582644e264442643a26430264262641c2641226408263fe263f4263ea263e0263d6263cc263c2263b827a6a27a5627a4027a2a27a14279fe279e8279d2279bc279a6279902797a27964)
  (.lf
  0x702b070290702506ff706fe906fe706fe306fb306fa506fa306f9f06f7106f6306f6106f5d06f3106f2306f2106f1d06eed06edf06edd06ed906eb106ea306ea106e9d06e7706e6906e6706e6306e3d06e3706c9c06c9206c8806c7e06c7406c6a06c6006c5606c4c06c4206c3806c2e06c2406c1a06c1006c0606bfc06bf206be806bde06bd406bca06bc006bb606bac06ba206b9806b8e06b8406b7a06b70))
  (.nd (.lf
  0x2a03e2a0282a01e29ff02a01829fe82a00e29fd82a00029fcc29ffc29f9229f8829f6229f7e29f6629f7829f4e29f6a29eee29ee429ed429ecc29e6429e5c29df429e5029e0a29e0429de429dfc2b1642b7b82b15e2b7b22b1682b7a62b1462b7a02b13a2b3082b12c2b3022b1222b2f42b1142b2e62b1082b2de2b1002b2722b0dc2b2502b0d02b2422b0c62b23a2b0b82b22e2b0b02b2242b0a02b21a2b098)
  (.lf 0)))

def shaXorReads488 : BTree :=
  .nd (.nd (.nd (.lf
  0xdef80de610d7c50d76a0d74100c3200c260deee0de650d7c90d76c0d74300c1c00c100dee40de690d7cd0d76e0d74500c0600bfa0deda0de6d0d7d10d7700d74700bf000be40ded00de710d7d50d7720d74900bda00bce0dec60de750d7d90d74b0d72e00bc400bb80debc0de790d7dd0d74d0d73200bae00ba20deb20de7d0d7e10d74f0d73600b9800b8c0dea80de810d7e50d7510d73a00b8200b760de9e)
  (.lf
  0x66780615b066320615f065f006163065b006167065700616b0652c0616f064ea06173064a606177064600617b0641a0617f063d40618306392061870634e0618b063080618f062c6061930628206197062400619b061fc0619f061a506da1075e006da5075a406da90756206dad0751e06db1074d806db50749606db90745606dbd0741606dc1073d606dc50739606dc90735606dcd0731606dd1072d606dd5))
  (.nd (.lf
  0x3f55e3f5623f5104089e4087e409f0409e640972409604094c40b40409224090c40916409ec408ae409b8409924099840a4a40a8440ac240938409c0409c6409ac40a4e4097a4096240a5640aca40a90409ca408e0408c6411a0411324187e418624187241802418264180e418a2414f8411d6411b0411a64185a418664183e417fe4182e417e64195841508411964187a4186c418804181641820417e8418c8)
  (.lf
  0x3a1983a1a03a1843a1783a1a23a1683a15c3a2f33a2f53a2f13a2ed3a2eb3a2e93a2e53a2e33a2e13a2df3a2db3a2d93a2d73a2d53a2d13a2cf3a2cd3a2cb3a2c73a2c53a2c33a2c13a2bd3a2bb3a2b93a2b73a2b33a2b13a2af3a2ad3a2a93a2a73a2a53a2a33a29f3a29d3a29b3a2993a2953a2933a2913a28f3a28b3a2893a2873a2853a2813a27f3a27d3a27b3a2793a2753a2733a2713a26d3a26b3a269)))
  (.nd (.nd (.lf
  0xb2610b24a0b10a0b09e10fc610ef60c7c30c7430bd0b0b2810b2630b24c0b10c0b0a010fba10ef80c7c50c7450bd0d0b2850b2650b24e0b10e0b0a210fae10eb20c7c70c7470bd0f0b2890b2670b2500b1100b0a410fa210eb40c7c90c7490bd110b28d0b2520b2290b1120b0a610f9610eb60c7cb0c74b0bd130b2910b2540b22b0b1140b0a810f8a10eb00c7cd0c74d0bd150b2950b2560b22d0b1160b0aa)
  (.lf
  0x33a8233a423395033fd333fd133fcd33fcb33fc733fd733fc533fc133fbf33fbd33fb933fb733fb53431733fb333faf33fad342fb33fab33fa733fa53431d33fa333f9f33f9d342f533f9b33f9733f953430133f9333f8f33f8d33f8b33f8733f8533f8133f7f33f7b33f7933f7533f7333f6f33f6d33f6933f6733f6333f6133f5f33f5d33f5933f5733f533412133f5133f4d33f4b3411b33f4933f4533f43))
  (.nd (.lf
  0x3764d377f63776d377dc3763b37895373fa373e837177373e03716f37139370f6370ee36e173710b3bbbb3bb093ba683ba6d3ba0e3ba1d3b9483b8d73b8623b82f3b8263b7af3b7903b7513b7123b6f53b6ca3b6d33b65e3b6693b6463b6313b5e23b5cf3b5a63b58b3b5663b54b3b5323b5353b5043b4d13b4b83b4973b4763b4533b4483b4353b3f43b3f73b3b43b39b3b3703b3683b29b3b3583b29d3b344)
  (.lf 0)))

def shaXorReads489 : BTree :=
  .nd (.nd (.nd (.lf
  0x2ba332b9b72b9ac2b32e2f3cd2f3842d3a32c6572ba372b9b92b9ae2b3302f37f2f36c2d30b2c62f2ba3b2b9bb2b9b02b3322f3662f3552d1e12c6372ba3f2b9bd2b9b22b0ee2f3872f2fa2d1e32c1612ba432b9bf2b9b42b0f02f2fd2cff52c1252ba472b9c12b9b62b0f2309f52f02b2dba32c8992c8292c81e2c81230c703073d2efcf2db9b2c89d2c82b2c8202c81430c66307232ef992db5d2c8a12c82d)
  (.lf
  0x1b56b1b5691b5651b5631b5611b55f1b55b1b5591b5571b5551b5511b5491b5471b5451b5411b51f1b51d1b5211b51b1b5171b5151b5131b50f1b50d1b50b1b5091b5051b5031b5011b4ff1b4fb1b4f91b4f71b4f51b4ed1b4e91b4e71b4e51b4e11b4df1b4d71b4cf1b4b51b4b11b4af1b4ad1b4ab1b4a71b4a51b4a31b49f1b49d1b49b1b4991b4951b4931b4911b48f1b48b1b4891b4871b4851b4811b479))
  (.nd (.lf
  0x155082557e25491242ef24290242671bce41bbf116d0916d00154e8154d22556825495242f324292242691bcce1bbf516d0d16d04154b2154982555225499242f7242942426b1bcb81bbf916d0f16d08154781545c2553c2549d242fb2426d242501bca21bbfd16d1116d0c1543c1542025526254a1242ff2426f242541bc8a1bc0116d1316d0e15400153e825510254a52430324271242581bc721bc0516d15)
  (.lf
  0x193171931319311192e1192df192db192d9192a5192a31929f1929d19265192631925f1925d19225192231921f1921d191e5191e3191df191dd191a5191a31919f1919d19165191631915f1915d19123191211911d1911b190dd190db190d7190d51909b1909919095190931905b1905919055190531901719015190111900f18fd518fd318fcf18fcd18f9518f9318f8f18f8d18f5118f4f18f4b18f4918f0b)))
  (.nd (.nd (.lf
  0x2492c24924248c5248c1248c424862246fe246ae246612465d246602462c23f2c23f2223f1823f0e23f0423efa23ef023ee623edc23ed223ec823ebe23eb423eaa23ea023e9623e8c23e8223e7823e6e23e6423e5a23e5023e4623e3c23e3223e2823e1e23e1423e0a253f8253ee253e4253da253d0253c4253ba253b0253a82539e253902538825380253762536c25362253582534e253442533a2533025326)
  (.lf
  0x17b8617b7c17b7217b6817b5e17c8b17c8917c8517c8317c8117c7f17c7b17c7917c7717c7517c7117c6f17c6d17c6b17c6717c6517c6317c6117c5d17c5b17c5917c5717c5317c5117c4f17c4d17c4917c4717c4517c4317c3f17c3d17c3b17c3917c3517c3317c3117c2f17c2b17c2917c2717c2517c2117c1f17c1d17c1b17c1717c1517c1317c1117c0d17c0b17c0917c0717c0317c0117bff17bfd17bf9))
  (.nd (.lf
  0x16862167121653c164b1168581670a16536164b316850167001651e164951683c166f6164a01649716832166ec164bc16499167f4166e2164ac16477167e8166da164d616471167e0166d0164ce16473167d8166a0164d016475167c216694164d41646f1668c165ca164d21646b16682165c216519164c01667a1666516584164b6166501657c164b81648f1662816572164ba1648d1666716622165661649a)
  (.lf 0)))

def shaXorReads490 : BTree :=
  .nd (.nd (.nd (.lf
  0x3c38e3c3893df473d20d3c44e3c42f3c4253c4223c4203c41b3df213d26d3c4443c37f3c3773c3743c3733c36e3dfa33d1b53c43c3c3153c3133c30b3c3083c3063debf3d1533c4783c4343c2e73c2e33c2e03c2db3de8f3d1113c3b83c3b33c3ab3c3a83c3a63c39f3de633d0f93c4243c2b43c2ad3c2a33c2a13c29e3de753d0dd3c3763c2833c2813c27e3c27b3c2783de2b3d0ab3c30a3c2653c2633c25d)
  (.lf
  0x3baa53baa33ba9f3ba513b9a13b9a33b9973b9933b8e13b8f13b8df3b8db3b84d3b8673b8353b8313b7b73b7d93b7ad3b7a93b7a13b79f3b79b3b7593b70b3b72d3b7093b7033b6c33b6b73b6af3b6a73b6673b6813b6653b6613b64f3b64d3b6493b6173b5eb3b5ef3b5db3b5d73b5933b5ab3b5913b58d3b5533b56b3b5513b54d3b5233b5213b5133b50d3b4fd3b4fb3b4f73b4db3b4a93b4a73b4a33b49b))
  (.nd (.lf
  0x3a52a3a34939e1d39df739de032f0032b032d8052d7e12d7dc2d7882d6a03a5243a34d39e2139df939de232eee32adb2d8092d7e32d7de2d77c2d6963a5163a35139e2539dfb39de432ee632ab32da3a2d80d2d7e52d7e02d76c3a50e3a35539e2939dfd39de632edc32a8d2d8112d7e72d7e22d7622d67e3a4fa3a35939e2d39dff39de832ed632a4d2d8152d7e92d7e42d7582d6723a4f23a35d39e3139e01)
  (.lf
  0x2abbf2abbb2abb92abb72abb52abb12abaf2abad2abab2aba72aba52aba32aba12ab9d2ab9b2ab992ab972ab932ab912ab8f2ab8d2ab892ab872ab852ab832ab7f2ab7d2ab7b2ab792ab752ab732ab712ab6f2ab6b2ab692ab672ab652ab612ab5f2ab5d2ab5b2ab572ab552ab532ab512ab4d2ab4b2ab492ab472ab432ab412ab3f2ab3d2ab392ab372ab352ab332ab2f2ab2d2ab2b2ab292ab252ab232ab21)))
  (.nd (.nd (.lf
  0x2b44c2b4422b4382b42e2b4242b3d62b3942b2d02b2b62b2ac2b2622b19c2b1802afe82afac2cc622cc5a2cc3a2cbd62cbce2cbbc2cbb42cb922cb6c2cb322cb2a2cb182cb042caf02cadc2cac82caa42ca9c2ca822ca782ca5a2ca482ca382ca2e2ca122ca022c9f82c9e62c1882c1422c8062c7fc2c7bc2c7b42c7aa2c7a02c7962c78c2c7822c7782c76e2c7642c74c2c71a2c7102c7062c6fc2c6e62c6dc)
  (.lf
  0x2531525313253112530d2530b25309253052530325301252ff252fb252f9252f7252f5252f1252ef252ed252eb252e7252e5252e3252e1252dd252d7252d5252d3252cf252cd252cb260a6260922607e25e9825e9425e8625e7a25e7025e0625cca25cce25cb825c7625c6c25c2425ae225ade25aca25ac025ab625a6c2593c25936259282591a25916258c6257ce2580a257b0257da260a7260a5260a12609f))
  (.nd (.lf
  0x3235a32460321fc324523208e3244c32444324203241e323f4323ee323c0323be3239c3237a323923235e3238a323623220632200320983209232024336e63383a336c8338323375033826336ca3381c33752338123369a3380833676337fe33700337f43363e337ea33702337e03339e337d633372337cc33336337c2336e4337b8336c6337ae3374e337a4336943379a33672337903365833786336383377a)
  (.lf 0)))

def shaXorReads491 : BTree :=
  .nd (.nd (.nd (.lf
  0x112a9112511081f0c8df0c84f0c8380c7f40c73412e2212d02112ab11253108210c8630c8510c83a0c7f60c73612e1612d00112ad11255108230c8670c8530c83c0c7f80c73812e1012ce6112af11257108250c86b0c8550c83e0c7fa0c73a12de012cc8112b111259108270c86f0c8570c8400c7fc0c73c12dd612cca112b31125b108290c8730c8590c8420c7fe0c73e12dca12ccc112b51125d1082b0c877)
  (.lf
  0x1c5f01c5d01c5901c5701c1901c1701c1301c1101bd101be101bcf01bcb01b9301b9101b8d01b8b01b4d01b4b01b4701b4501b0701b0501b0101aff01abf01acf01abd01ab901a8101a7f01a7b01a7901a3901a4901a3701a33019f901a09019f7019f3019b9019c9019b7019b30197b0197901975019730193301943019310192d018f301903018f1018ed018b5018b3018af018ad0186d0187d0186b01867))
  (.nd (.lf
  0x29b5229b4829b3c29b3229b2629b1c29b1829b162af2c2af182af0c2af022aef62aeec2aee02aed62aeca2aec02aeb42aeaa2ae9e2ae942ae882ae7e2ae722ae682ae5c2ae522ae462ae3c2ae302ae262ae1a2ae102ae042adfa2adee2ade42add82adce2adc22adb82adac2ada22ad962ad8c2ad802ad762ad6a2ad602ad542ad4a2ad3e2ad342ad282ad1e2ad122ad082acfc2acf22ace62acdc2acd02acc6)
  (.lf 0))) (.nd (.nd (.lf
  0x3aa0c3a98e3a9863a97e3a9743a96a3a9603a9563a94a3a9423a9243a91a3a9043ab7a3ab583ab503ab483ab403ab383ab2e3ab103ab063aafc3aaea3aae03aa6e3aa5c3aa463aa343aa1c3aa003a9f63a9e03a9d63a9ce3a9c43a9bc3a9b23a9a43a93a3a9323a9163a8fc3a8283a81e3a8143a80a3a8003a7f63a7ec3a7e23a7d83a7ce3a7c43a7ba3a7b03a7a63a79c3a7923a7863a77c3a7743a76a3a760)
  (.lf
  0xa3240a2fe0a2d20a2a80a27a0a2500a2220a1fc0a1d40a1ac0a1820a15a0a12c0a1020a0d80a0b00a0860a05e0a0300a00609fdc09fbc09f9a0a4710a46f0a46b0a4690a44f0a44d0a4490a4470a4230a4210a41d0a41b0a3f50a3f30a3ef0a3ed0a3cb0a3c90a3c50a3c30a3a30a3a10a39d0a39b0a3770a3750a3710a36f0a3510a34f0a34b0a3490a3250a3230a31f0a31d0a2ff0a2fd0a2f90a2f70a2d3))
  (.nd (.lf
  0x96ad096a0096670965a0962109614095db095ce095950958809553095460950f09502094c9094bc0948309476094410943409401093f4093c1093b409381093740933d09338093230a4730a4510a4440a4250a4180a3f70a3ea0a3cd0a3c00a3a50a3980a3790a36c0a3530a3460a3270a31a0a3010a2f40a2d50a2c80a2ab0a29e0a27d0a2700a2530a2460a2250a2180a1ff0a1f20a1d70a1ca0a1af0a1a2)
  (.lf 0)))

def shaXorReads492 : BTree :=
  .nd (.nd (.nd (.lf
  0x3cc993cc953bfe33bd793ba733b5d23b37a3b3743e7e83e2823cc4f3cc4b3bfdb3bba33ba3d3b5963b34e3b3483e7e23e2803cc433cc2d3bd6f3baa93b8ed3b5583b3283b3243e2183e1c03cc313cc1d3bb713ba393b8573b5383b3383b3323e2123e1a03cb8b3cb873badf3b9373b7b93b4f03b2323b21c3e1b23e0323cb233cb033b9f33b8433b7933b4ac3b2543b2343e03a3dfba3cad13cacd3b9633b7bd)
  (.lf
  0x4e220488a04ddc0488e04d9a0489204d5a0489604d1a0489a04cd60489e04c94048a204c54048a604c14048aa04bd0048ae04b8e048b204b4e048b604b0e048ba04aca048be04a84048c204a3e048c6049f8048ca049b2048ce04970048d204930048d6048dc054d005d16054d405cde054d805c9e054dc05c5a054e005c18054e405bd8054e805b94054ec05b52054f005b12054f405ad2054f805a8e054fc))
  (.nd (.lf
  0x14320143401436014380143a0143c0143e01440014420144401446014480144a0102c0103001034010380103c0104001044010480104c0105001054010580105c0106001064010680106c0107001074010780107c0108001084010880108c0109001094010980109c010a0010a4010a8005bc005b2005a80059e005940058a00580005760056c00562005580054e005440053a00530005260051c0051200508)
  (.lf
  0x341133410f3410d3410b34109341053410334101340ff340fb340f9340f7340f5340f1340ef340ed340eb340e7340e5340e3340e1340dd340db340d9340d7340d3340d1340cf340cd340cb340c7340c5340c3340bf340bd340bb340b9340b5340ad340ab340a9340a5340a3340a1340b13409f3409b340993409734093340913408f3408d340893408734085340833407f3407d3407b340b3340793407534073)))
  (.nd (.nd (.lf
  0x2059014b1014760144d013b20137203f4003ef202c1f02b9f0205b014b5014780144f013b40137403f0003eb402c2102ba10205d014b90147a01451013b60137603eaa03e6c02c2302ba30205f014bd0147c01453013b80137803e7a03e2c02c2502ba502061014c10147e01455013ba0137a03e3a03dee02c2702ba702063014c50148001457013bc0137c03de403da602c2902ba902065014c90148201459)
  (.lf
  0x2c1b32c1af2b9a62b9a22b9942b98a2b97c2b9802b96a2b9602b9562b9a82b94a2b93c2b9322b9242b9282b9aa2b90c2b9022b8f62b8ee2b8e22b8da2b8d02b86a2b85e2b8582b78e2b7522b6fc2b6b42b63c2b9a72b9a52b9a32b99f2b99d2b99b2b9972b9952b9932b9912b98d2b98b2b9892b9872b9832b97f2b97d2b9812b97b2b9772b9752b9732b96f2b96d2b96b2b9692b9652b9632b9612b95f2b95b))
  (.nd (.lf
  0x3451b347f93479c347a3347663475e346c7347543466f3474c34629345f6345ed345c13454e345433451434517344ec344ef356f9357ec35707357e2356fb357f5357d8357d0356c3357c635681357bc35617357b2355e1357a8355f73579e3559135794355fb3578a355413577c354c935772356f5357833576835760356c7357563566f3574c3561b35742355f335738355b93572e355953572435563357fd)
  (.lf 0)))

def shaXorReads493 : BTree :=
  .nd (.nd (.nd (.lf
  0x1c6df1b7ad1b7731b7661b74a1b72c1ffda1fd9c1d6751d65d1c6a71b7b11b7751b7681b74c1b72e1ffce1fd7e1d6771d65f1c6531b7b51b7771b76a1b74e1b7301ffc61fd5e1d6b71d6b31c6191b7b91b7791b76c1b7501b7321ffbc1fd341d5251d5151c5c31b7bb1b77b1b76e1b7521b7341ffb01fd161d5551d5511c59d1b6f71b6f51b6f21b6f01b6ea1ffa41fcf01d5271d5171c54b1b8101b6db1b6d9)
  (.lf
  0xc6d90c70b0c6d70c6d30c6d10c6cf0c6cb0c6c90c6c50c6c30c6bf0c6bd0c6bb0c6b90c6b50c6b30c6af0c6b10c6ad0c6a90c6a70c6a50c6a10c69f0c69d0c69b0c6970c6950c6930c6c70c6910c68d0c68b0c6890c6850c6830c67f0c67d0c6790c6770c6750c6730c66f0c66d0c6690c66b0c6670c6630c6610c65f0c65b0c6590c6570c6550c6510c64f0c64d0c6810c64b0c6470c6450c6430c63f0c63d))
  (.nd (.lf
  0x39e9f39e8639e8139e8f3a56d3a6fc3a5633a6e63a5553a6de3a56f3a6cc3a53f3a6c43a52f3a6883a5333a67c3a51b3a6743a5353a6463a5713a63e3a4ff3a6363a5053a60a3a5033a6023a4d73a5fa3a4cb3a5e83a4bf3a5de3a4b33a5c83a4a73a5aa3a49b3a5a03a48f3a5943a4833a58c3a4773a5803a46b3a5763a45f3a44f3a44c3a4303a3fd3a4263a3ef3a4183a4013a40c3a3db3a41b3a4043a3c5)
  (.lf
  0xce4b0ce470ce450ce430ce410ce3d0ce3b0ce390ce370ce330ce310ce2f0ce2d0ce290ce270ce250ce230ce1f0ce1d0ce1b0ce190ce150ce130ce110ce0f0ce0b0ce090ce070ce050ce010cdff0cdfd0cdfb0cdf70cdf50cdf30cdf10cded0cdeb0cde90cde70cde30cde10cddf0cddd0cdd90cdd70cdd50cdd30cdcf0cdcd0cdcb0cdc90cdc50cdc30cdc10cdbf0cdbb0cdb90cdb70cdb50cdb10cdaf0cdad)))
  (.nd (.nd (.lf
  0x11430114261141c1141211408113fe113f4113ea113e0113d6113cc113c212c1012bf612bd612bb812b9c12b7c12b5e12b4212b2612b0a12aee12ad212ab212a9012a7212a5612a3612a18129f8129da129be129a21298612966129441292212904128e8128c8128b00dbde0dbbc0db9a0db780db560db340db120daf00dace0daac0da8a0da680da460da240da020d9e00d9be0d99c0d97a0d9580d9360d914)
  (.lf
  0x11fb211f6a11f2611ee211e9e11e5a11e1611dce11d8411d3e11cfa11cb211c6811c1e11bd811b9011b4811b0011ab811a6e11a22119ce1197c121e1121b1121ad121a51216f1216d12169121611212b12129121251211d120e7120e5120e1120d51209f1209d120991208b120571205512051120431200f1200d1200911ffb11fc711fc511fc111fb311f7f11f7d11f7911f6b11f3711f3511f3111f2711ef1))
  (.nd (.lf
  0x17d6017d6517d61194401940a193ce193921935c19326192ee192b21927219232191f2191b21917219134190ee190a8190681902818fe218fa218f6218f1c18ed618e9018e4a18e0418dc418dc918dc51a3bc1a3841a3461a3081a2ca1a28c1a24e1a2101a1d81a19a1a1621a1261a0ea1a0b21a07c1a03e1a00619fc819f8c19f4e19f1019ed419e9819e5a19e1819dd019d8e19d4819d0019cae19cb319caf)
  (.lf 0)))

def shaXorReads494 : BTree :=
  .nd (.nd (.nd (.lf
  0x292ca292c42dae62da802b73d2b7392a8d9292ef292e7292e4292e2292dc2da782da5e2b6df2b6db2a7cf29309292ff292fc292fa292f42da562da262b6952b6912a7ad292ad2929929294292922928c2da282d9fa2b6452b6412a811292b12929b2929629278292722d9fe2d9de2b6052b6012a78929267292612925e29258292522d9e02d9a82b5e12b5dd2a771292412923f2923c2923a292342d98a2d738)
  (.lf
  0x2a84f2a84d2a8492a7ef2a7ed2a8d12a7eb2a7e72a7e52a7e32a7df2a7c72a7c52a7c32a7bf2a7a52a7992a8072a7972a7932a7912a78f2a78b2a7812a77f2a77d2a7692a7652a7632a7612a75d2a74f2a74d2a74b2a7472a7432a7392a7372a7332a7252a7192a7172a7132a7092a7072a7012a6fd2a6f32a6f12a6ef2a6eb2a6e12a6df2a6dd2a6cf2a6cd2a6cb2a6c92a6c52a6b92a6b72a6b52a6a72a6a5))
  (.nd (.lf
  0x303ac263be263a52242b2242620d7e20cbe315e4315db303c5303ae263b4263a92242d2242820cc220cbc315e7303c7303b0263af2242f2242a20cba326b33156d315513153a2753f1e67d1e6631e65e1e50232cba326b731571315533153c27710275431e6811e6651e6601e6201e4fe32c96326bb31575315553153e27706275471e6851e6671e6621e6121e50432c90326f9315793155731540276fc2754b)
  (.lf
  0x225a7225a3225a12259f2259d225992259722595225932258f2258d2258b225892258522583225812257f2257b225792257722575225712256f2256d2256b225672256522563225612255d2255b225592255722553225512254f2254d225492254722545225432253f2253d2253b225392253522533225312252f2252b225292252722525225212251f2251d2251b225172251522513225112250d2250b22509)))
  (.nd (.nd (.lf
  0x3bf573bf5e3bf543bf4c3bb783babf3babb3babe3b9f03b9863bf463bf3c3bf323bf283bf1e3bf143bf0a3befe3bef43beec3bee23bed83bece3bec43bdaa3bd9e3bd943bd8a3bd803bd5c3bbf43bbec3bbac3bab63ba2a3b9443b8523b7d23b78c3b7263c81a3c80e3c8023c7f63c7e43c7d83c7ce3c7ba3c7b23c7963c7843c74c3c7423c7383c72c3c70a3c6fe3c6de3c68a3c67e3c6743c66c3c63e3c5ba)
  (.lf
  0x1f1391f1371f1351f1311f12f1f12d1f12b1f1271f1251f1211f11f1f11b1f1171f1151f1131f10f1f10d1f10b1f1091f1031f1011f0ff1f0fd1f0f91f0f71f0f51f1051f0f31f0ef1f0ed1f0eb1f0e71f0e51f0e31f0e11f0dd1f0db1f0d91f0d71f0d31f0d11f0cd1f0cb1f0c71f0c51f0c31f0c11f0bd1f0bb1f0b91f0b71f0b31f0b11f0af1f0ad1f0ab1f0a71f0a51f0a31f09f1f09d1f0991f0971f093))
  (.nd (.lf
  0x3ca303c24e3c1273c1243ca1c3c2003c11c3c11b3ca0e3c1ec3c1123c1113c9fe3c1a43c1083c1073c9f23c18e3c0f83c0f73c9cc3c17e3c0ec3c0eb3c9bc3c1643c0df3c0dc3c9aa3c1503c0903c08f3c9943c1483c0d23c0a73c9763c0983c07c3c07b3c9703c0723c06e3c0633c9683c0c43c0543c0453c0043bfbc3bf703bf6f3bffa3bf9c3bf773bf643bfea3bf963bf5a3bf593bf8e3bf8a3bf7d3bf7a)
  (.lf 0)))

def shaXorReads495 : BTree :=
  .nd (.nd (.nd (.lf
  0xcb330cb070cafc0cab01164f105450d9d90d9c00cb370cb090cafe0cab211651105470d9b70d99e0cb3b0cb0b0cb000cab411653105490d9950d97c0cb3f0cb0d0cb020cab6116551054b0d9730d95a0cb430cb0f0cb040cab8116571054d0d9510d9380cb470cb110cb060caba116591054f0d92f0d9160cb4b0cb080cad30cabc1165b105510d90d0d8f40cb4f0cb0a0cad50cabe1165d105530d8eb0d8d2)
  (.lf
  0x3ccf13ccef3cceb3cce73cce53cce33ccdf3ccdb3ccd93ccd73ccd13cccf3cccd3cccb3ccc73ccc53ccc13ccbf3ccbb3ccb93ccb73ccb53ccb13ccaf3ccab3cca93cca53cca13cc9f3cc9d3cc873cc833cc7f3cc7d3cc793cc773cc753cc733cc653cc613cbd13cbcf3cbcb3cbc73cba93cba73cba33cb9f3cb7f3cb7d3cb793cb773cb733cb713cb6d3cb6b3cb0d3cb0b3cb073cafd3cac93cac73cac33cabd))
  (.nd (.lf
  0x16d7616ed016d7a16e9816d7e16e5e16d8216e1e16d8616dde16d8a16d9017c8e184d417c92184a417c961846a17c9a1843217c9e183f817ca2183c017ca61838817caa1834817cae1830817cb2182c817ce21828417ce61823e17cea181fc17cee181bc17cf21817c17cf61813817cfa180f217cfe180ac17d021806a17d061802a17d0a17fea17d0e17fa617d1217f6017d1617f1e17d1a17ede17d1e17e9a)
  (.lf 0))) (.nd (.nd (.lf
  0xce900ce860ce7c0ce720ce680ce5e0ce540ce4a0ce400ce360ce2c0ce220ce180ce0e0ce040cdfa0cdf00cde60cddc0cdd20cdc80cdbe0cdb40cdaa0cda00cd960cd8c0cd820cd780d35c0d33e0d31c0d2fa0d2d80d2b60d2940d2720d2500d22e0d20c0d1ea0d1c80d1a60d1840d1620d1400d11e0d0fc0d0da0d0b80d0960d0740d0520d0300d00e0cfec0cfca0cfa80cf860d3540d3340d3120d2f00d2ce)
  (.lf
  0x49be0497c0493c048fc050cf050c1050bd0509305085050830507f0505105043050410503d0500d04fff04ffd04ff904fc704fb904fb704fb304f8504f7704f7504f7104f4504f3704f3504f3104f0104ef304ef104eed04ebb04ead04eab04ea704e7504e6704e6504e6104e2f04e2104e1f04e1b04de904ddb04dd904dd504da704d9904d9704d9304d6704d5904d5704d5304d2704d1904d1704d1304ce3))
  (.nd (.lf
  0x7e9e07e6a07e5807e2807e1607de407dd207da207d9007d5e07d4c07d1807d0607cd607cc407c9207c8007c4c07c3a07c0a07bf807bca07bb807b8a07b7807b4a07b3807b0a07af807aca07ab807a8a07a7008e9c08e8c08e6408e5208e2008e0e08dde08dcc08d9e08d8c08d5a08d4808d1808d0608cd808cc608c9808c8608c5808c4608c1408c0208bce08bbc08b8c08b7a08b4c08b3a08b0c08afa08ac8)
  (.lf 0)))

def shaXorReads496 : BTree :=
  .nd (.nd (.nd (.lf
  0x4e9c0f7ae0f6530ead40e9a30e7c30e7950e77e04e9204e560f7a40f6830eaca0e9a70e7c70e7970e78004e4c04e100f79a0f6870eac00e9ab0e7cb0e7990e78204e0604dc80f7900f68b0eab60e9af0e7cf0e79b0e78404dca04d880f7860f68f0eaac0e9b30e7d30e79d0e78604d8a04d480f77c0f6930eaa20e9b70e7d70e7880e75904d4a04d0a0f7720f6970ea980e9bb0e7db0e78a0e75d04d0004cc2)
  (.lf
  0x160e4160a3160c6160a7160ad16b3716cdc16b3b16cd216b3f16cc816b4316cbe16b4716cb416b4b16caa16b4f16ca016b5316c9616b5716c8c16b5b16c8216b5f16c7816b6316c6e16b6716c6416b6b16c5a16b6f16c5016b7316c4616b7716c3c16b7b16c3216b7f16c2816b8316c1e16b8716c1416b8b16c0a16b8f16c0016b9316bf616b9716bec16b9b16be216b9f16bd816ba316bce16ba716bc416bab))
  (.nd (.lf
  0x1f2181f1d61f1d82007a2007c2007e20080200822008420086200882008a2008c2008e20090200922009420096200982009a2009c2009e200a0200a21fe5e1fe601fe621fe641fe661fe681fe6a1f9f81f9fa1f96c1f96e2185a2186c2185e2168221538214f6214ec214e2214d8214ce214c4214ba214b0214a62149c2149221104210b6210b8210922102220ff620f5020f4020f3020ea020e9020e2620e16)
  (.lf
  0x7eb007e7007e5007cd007cb007c7007c5007b5007b3007af007ad0079f0079d0079900797007890044e004440043a00430004260041c0041200408003fe003f4003ea003e0003d6003cc003c2003b8003ae003a40039a00390003860037c00372003680035e003540034a00340003360032c003220044f0044d004490044700445004430043f0043d0043b004390043500433004310042f0042b0042900427)))
  (.nd (.nd (.lf
  0x3bd003b840357b0357205429047f703c0503bdd03bd203b86035400353d0542b047f903c0903bdf03bd403b880350d035040542d047fb03c0d03be103bd603b8a034d2034cf0542f047fd03c1103be303bd803b8c034980349505431047ff03c1503be503bda03b8e0345e0345b054330480103c1903be703bdc03b900342b03422054350480303c1d03be903bde03b92033f0033ed054370480503c2103beb)
  (.lf
  0x3483734835348333482f3482734825348233481f3481d3481b3482b348193481534813348113480f3480b34809348073480334801347ff34829347fd347f73479d347a53479b3479734767347653475f3475d3475b34761347593475534753347513474d3462d3462b34677345fd345f9345f7345f5345f1345c33454f3454d34549345473451534519345133450f344ed35b8035b7835b6e35b6235b5a35b4e))
  (.nd (.lf
  0xe5ca0e6fe0e5ce0e6f40e5d20e6ea0e5d60e6e00e5da0e6d60e5de0e6cc0e5e20e6c20e5e60e6b80e5ea0e6ae0e5ee0e6a40e5f20e69a0e5f60e6900e5fa0e6860e5fe0e67c0e6020e6720e6060e6680e60a0e65e0e60e0e6540e6120e64a0e6160e6400e61a0e6360e61e0e62c0e6220e6280e75a0e9380e75e0e92e0e7620e9240e7a00e91a0e7a40e9100e7a80e9060e7ac0e8fc0e7b00e8f20e7b40e8e8)
  (.lf 0)))

def shaXorReads497 : BTree :=
  .nd (.nd (.nd (.lf
  0x1f6b31f69c1f65e1f5b022dc022dac210f9210f5204c11f6d31f6b51f69e1f6601f5b222da422d562107b2106f204c31f6d71f6b71f6a01f6621f5b422d4c22d342107d21071204c51f6db1f6b91f6a21f6641f5b622d2822d0a2107f210732003f1f6df1f6a41f67b1f6661f5b822d0022cd22101521011200411f6e11f6a61f67d1f6681f5ba22cca22ca020fc720fc31fbcd1f6e51f6a81f67f1f66a1f5bc)
  (.lf
  0x20432204282041e204142040a20400203fc203ee1ff641ff381fbbe1fb701fb541fb141faea1faa01fa741f9ce1f9a01f948206112060f2060d20607206052060b20603205ff205fd20615205fb205f7205612055f2055b205592054d2054b205472054520535205332052f2052b20463204612045d2045b204592045720453204512044f2044d2044b204472044520465204432043f2043d2043b2043720435))
  (.nd (.lf
  0x28ac82893f2779f2774c277211deb21dd1f19c6519bdd19bd41811c1810028ab228943277a32774e277251de9c1dd2319c6919be119bd8180d6180ba28a9c28947277a727750277271de861dd2719c6d19be519bdc180901807828a862894b277ab27752277291de701dd2b19c7119be919be01804e1803828a702894f277af277542772b1de581dd2f19c7519bed19be41800e17ff828a5a28953277b327756)
  (.lf
  0xf0480f03e0f0340f02a0f0200f0160f00c0f0020eff80efee0efe40efda0efd00efc60efbc0f0e90f0e70f0e30f0e10f0df0f0dd0f0d90f0d70f0d50f0d30f0cf0f0cd0f0cb0f0c90f0c50f0c30f0c10f0bf0f0bb0f0b90f0b70f0b50f0b10f0af0f0ad0f0ab0f0a70f0a50f0a30f0a10f09d0f09b0f0990f0970f0930f0910f08f0f08d0f0890f0870f0850f0830f07f0f07d0f07b0f0790f0750f0730f071)))
  (.nd (.nd (.lf
  0x2a1fd2a1e52a1e12a1dd2a1c529fb729fb329f9d2a4a62a4532a44f2a4522a44d2a4472a44c2a4452a4412a4442a43f2a4112a43e2a40e2a3e32a3c32a3e22a3c12a3a12a3c02a39e2a3792a3592a3782a3572a3372a3562a3342a30f2a2f12a30e2a2ee2a2ce2a2b02a2912a2772a2902a2752a25b2a2742a2592a23f2a2582a23c2a21d2a2032a21c2a2002a1e02a1c12a1a72a1c029fb629f30294c6294bc)
  (.lf
  0x1906719035190331902f1902318ff118fef18feb18fe118faf18fad18fa918fa118f6f18f6d18f6918f5d18f2b18f2918f2518f1718ee518ee318edf18ed118e9f18e9d18e9918e8b18e5918e5718e5318e4518e1318e1118e0d18e0318dd118dcf18dcb18dc318d9118d8f18d8b18d8718d5518d5318d4f18d4d18d1b18d1918d1518d1318cfb194731940f1940b19409193d3193cf193cd191391913519133))
  (.nd (.lf
  0x1f4f41f4061f2a61f2a51f4e81f3fc1f29c1f29b1f4e01f3f21f28f1f28c1f4d61f3e81f2841f2831f4cc1f3dc1f2771f2741f4c01f3d61f26f1f26c1f4b61f3c81f2621f2611f4aa1f3be1f2571f2541f3b61f3901f24b1f2481f3a81f3801f23d1f23a1f3a01f3741f22e1f22d1f3981f3681f35d1f2241f4a61f3881f3711f35e1f20a1f2001f1fa1f1f71f1ba1f1aa1f1961f1951f1b61f1a7205ee1fe87)
  (.lf 0)))

def shaXorReads498 : BTree :=
  .nd (.nd (.nd (.lf
  0x31279312752fffd2eeeb2eee32eee02eede2eed833466332f0311fd311f92ff8d2ef6d2ef632ef602ef5e2ef583343c332dc311333112f2ffa52ef452ef3b2ef382ef362ef3033434332ce3119f3119b2ffe12edf72edf12edee2edec2ede6333e8332c2310b5310b12ffbf2ed9b2ed932ed902ed8e2ed88333c43325a31049310452ff6b2ed6c2ed692ed632ed602ed5e333ba332603100130ffd2ff032ed41)
  (.lf
  0x3d18b3d1813d17d3d1793d14b3e7823e7563e73e3ec3e3e6f43e6de3e6b23e68c3e6603e6323e6143e6223e5f43e5e63e5d43e7a03e5703e38e3e35a3e3123e2f63e2ea3e2c43e3283e3343e2843e1d23e1c63e1c43e0463deea3e7833e7813e7573e74d3e74b3e7493e73f3e73b3e7393ec3f3e7373e7333e7113e70f3e70b3e6f53e6dd3e6df3e6db3e6d73e6d53e6d33e6c53e6c13e6b33e6b13e6ad3e68d))
  (.nd (.lf
  0x3a83e34e4c34e432fa352fa302f3862f35a3ac413a8573a84034e512fa372fa322f2fc3abcf3abb33ab9c36247309f4307bd307a33079e3abd33abb53ab9e365183624b30c76307c1307a5307a03073c3abd73abb73aba0365103624f30c64307c5307a7307a2307223abdb3abb93aba2365063625330c5a307c9307a9307a4307163abdf3abbb3aba4364fc3625730c3a30948307cd307ab307a63abe33abbd)
  (.lf
  0x2e7fc2e7ba2e7762e7322e6f02e6ac2e66a2e62a2e5ec2e5ae2e5702e5322e4f82e4c62e2262e21c2e20c2e2042e1fa2e1ec2e1f02e1da2e1cc2e1c42e1b62e1ac2e1a22e1962e18a2e17c2e1602e7fd2e7fb2e7f72e7bb2e7b92e7b72e7b32e7772e7752e7732e76f2e7332e7312e72f2e72b2e6f12e6ef2e6ed2e6e92e6ad2e6ab2e6a92e6a52e66b2e6692e6672e6632e6612e62b2e6292e6252e6232e5ed)))
  (.nd (.nd (.lf
  0x3f3a63f1c43f16a3f14a3f1383f1243eeac3ee943ed9e3ea883ea5a409a6409844096a4095440940409344091c408fe408d8408b2408904086e4081440800407f8407f0407d44074a407384072240710406fc406e8406ca406c2406ae3fa263fa183f98c3f974402be402744026c4022640206401ec4018e4014e401464013e4001840010400003fff03ffde3ffca3ffc03fcb83fc7a3fc263fc1e3fb9a3fb80)
  (.lf
  0x2655526553265512654f2654d265492654726545265432653f2653d2653b265372653526533265312652d2652b265292652726523265212651f265852651d265192651726515265112650f2650d2650b26507265052650326501264fd264fb264f9264f7264f3264f1264ef264ed264e9264e7264e5264e3264df26301262ff262fd262f9262f7262f5262f3262ef262ed262eb262e9262e5262e3262e1262df))
  (.nd (.lf
  0x2cc902e3602ccd02e2c02cd102e2202cd502e1802cd902e0e02cdd02e0402ce102dfa02ce502df002ce902de602ced02ddc02cf102dd202cf502dc802cf902dbe02cfd02db402d0102daa02d0502da002d0902d9602d0d02d8c02d1102d8202d1502d7802d1902d6e02d1d02d6402d2102d5a02d2502d5002d2902d4602d2d02d3c02d3102d370393f03ae40394303ada0394703ad00394b03ac60394f03abc)
  (.lf 0)))

def shaXorReads499 : BTree :=
  .nd (.nd (.nd (.lf
  0x140d31405313073125e51254c124e5124c21247a15ec215612140d514055130751254f124e7124d0124c41247c15eba155d8140d714057130a3124ed124d2123eb123e8123e215eb21559c140d91405913001124f1124d4123cf123c21239e15ea415562140db1405b13003124f5124d6123d1123c4123a015e7015ad8140dd1405d13005125c1124f9124d8123c6123a215e6815a56140df1405f13007125c3)
  (.lf
  0x49d20498a0494a0490a050d9050ab050a7050a50506705065050610505f0502905027050230502104fe304fe104fdd04fdb04f9b04f9904f9504f9304f5b04f5904f5504f5304f1d04f1b04f1704f1504ed704ed504ed104ecf04e9104e8f04e8b04e8904e4b04e4904e4504e4304e0504e0304dff04dfd04dbd04dbb04db704db504d7d04d7b04d7704d7504d3d04d3b04d3704d3504cff04cfd04cf904cf7))
  (.nd (.lf
  0x39b0239b9439af439ae039ad039ac639ab039aa439a9c39ab839a8639a7c39a6439a6839a5039a4a39a1839a3839a2e39a2839a0239a20399f6399e0399ce399c43997a399bc39970399b639962399a03997e39994399503998a39944399843a09c3a1fe3a0923a1f639fe83a1cc39fec3a1aa39fd23a11639fca3a10e39fba3a10639fa83a0fa39f9e3a0f239f903a0ea39fae3a0e039ff43a0d639f703a0ca)
  (.lf 0))) (.nd (.nd (.lf
  0x3d8303d5d03d4103d3d03d170444904427044480440e043c8043820433d043150433c042fd042d5042fc042bc042770424f0427604236041f1041c9041f0041b00416b041430416a0412a040e40409f040770409e0405e0401803fd303fab03fd203f9303f6b03f9203f5303f2b03f5203f1303eeb03f1203ed203e8d03e6503e8c03e4d03e2503e4c03e0c03dc703d9f03dc603d8603d4003cfb03cd303cfa)
  (.lf
  0xad590ad4b0ad3d0ad3b0ad370ad2d0ad1f0ad1d0ad190ad0d0acff0acfd0acf90aceb0acdd0acdb0acd70acc90acbb0acb90acb50aca70ac990ac970ac930ac870ac790ac770ac730ac650ac570ac550ac510ac450ac370ac350ac310ac230ac150ac130ac0f0abff0abf10abef0abeb0abdf0abd10abcf0abcb0abc30abb50abb30abaf0aba70ab990ab970ab930ab870ab790ab770ab730ab650ab570ab55))
  (.nd (.lf
  0x1b3101b30f1b2e21b2e11b2b61b2a11b27e1b2671b2391b2221b1ee1b1eb1b1b91b1b01b17b1b1721b1451b1341b0fe1b0fb1b0c61b0c31b0941b08b1b05c1b0531b0241b01b1afec1afe31afb41afab1af7c1af731af461af3d1af101af031aed61aecb1ae9e1ae911ae641ae551ae261ae171adea1addb1ada81ad991ad621ad531ad1c1ad111acda1acd11ac961ac891ac6b1c81b1c4321c36d1c79d1c426)
  (.lf 0)))

def shaXorReads500 : BTree :=
  .nd (.nd (.nd (.lf
  0x3ea193ea153deed3da2f3d9f33d8d43d2623d260401b63ead13eacd3ded53dc983d9dd3d9c53d14c3d14041b86409b5409b13f63f3e7963e78c3e7893e7873e78441b7441b664098f4098b3f6313e76c3e7603e75e3e75b3e75941b6841b584097d409773f5ff3e7663e74e3e7453e7423e74141b4841af84099f409593f59f3ec503ec4b3ec443ec433ec4041b4241af0409dd4094b3f5853e7a33e7123e700)
  (.lf
  0x1468614600146681460414648146081462a1460c146121507e152221508215218150861520e1508a152041508e151fa15092151f015096151e61509a151dc1509e151d2150a2151c8150a6151be150aa151b4150ae151aa150b2151a0150b615196150ba1518c150be15182150c215178150c61516e150ca15164150ce1515a150d215150150d615146150da1513c150de15132150e215128150e61511e150ea))
  (.nd (.lf
  0x1a87c1a4141a8601b7f41b7f81b7fc1b7fe1b7601b7401b7421b7441b7461b7481b6ee1b6d41b6a81b6aa1b6ac1b6ae1b6b01b6601b6301b6321b6341b6361b6381b63a1b5d81b3e01b39e1b3a01b3a21b3a41b3a61b3a81c8341c7f01c7ba1c7721c7361c6dc1c6a41c6501c6161c5c01c59a1c5481c5281c4f01c4ce1c4701c49e1c3c01c29c1c23c1c20a1c1b21c1801c12c1c0f41c09c1c0661c00c1bfda)
  (.lf
  0x362f5362ef362eb362e9362e7362e3362df362dd382a2382923828038254381763816c3815c381523814438104380fe380e4380cc380b43809e38086380783805a37f6237f5637f4a37f3c37f6837f2037f1637f0037ef437ee837ebc37e9e37e64382a3382a13829d3829538293382913828d3828b382813827f3827b3825538253382513824d3817738175381733816d3816b381693816738163381613815d)))
  (.nd (.nd (.lf
  0x45610397d039340390b038f003830062920625405195051150456303981039360390d038f203832062620621605197051170456503985039380390f038f4038340620c061ce051990511904567039890393a03911038f603836061dc061b00519b0511b045690398d03913038fc038f803838061ae0519d0511d0456b0399103915038fe038fa0383a075f005db505d350519f0460504587045700452c0446c)
  (.lf
  0x2e5152e5052e4ff2e4d72e4db2e4d52e4d12e4752e4792e4732e46f2e4532e4572e4512e44d2e4312e4352e42f2e42b2e41d2e41b2e40d2e4072e3fb2e3f92e3f52e3e72e3d92e3cb2e3c72e3c32e3a92e3ab2e3a72e3a32e38f2e38d2e3872e3832e36b2e3692e3652e3612e3492e3432e33f2e33d2e3232e3212e31d2e3172e3052e3072e3032e2ff2e2fd2e2fb2e2f72e2f52e2a72e2972e2952e28f2e287))
  (.nd (.lf
  0x4f1c04f1304ed604ecd04e9004e8704e4a04e4104e0404dfb04dbc04db304d7c04d7304d3c04d3304cfe04cf504cb604cad04c7604c6d04c3604c2d04bf804bef04bb004ba704b7004b6704b3004b2704af204ae904aac04aa304a6604a5d04a2004a17049da049d1049920498904952049490491204909048ee048ed05d2d05cf505cc005cb705c8205c7905c3a05c3105bfa05bf105bbc05bb305b7405b6b)
  (.lf 0)))

def shaXorReads501 : BTree :=
  .nd (.nd (.nd (.lf
  0x1f8cd1f8861f8511f7fe22a5a2293b20f311fe731f8d11f8881f8531f80022a4e2296d20ea11fe751f8d51f88a1f8551f80222a442297920e911fe771f8d91f8571f84c1f80422a3c2297b20e271fe791f8dd1f8591f84e1f80622a142294120e171f9fd1f8e11f85b1f8501f8082296a2293f20d731f9ff1f8e51f85d1f8521f21a229512294e20d331f9711f8e91f85f1f8541f1da2294b20d291f9731f8ed)
  (.lf
  0x122861227c122b4122661225e1226a1224c1224012236122a8119ec11992123511234f1234b123491234712345123411233712335123331232f1232d1232b123291232712323123211231f1231b123191231712315123111230f1230d1230b12307123051230312301122ff122fb122f9122f7122f3122f1122ef122ed122e9122e7122e5122e3122e1122dd122db122d9122d5122d3122d1122cf122cb122c9))
  (.nd (.lf
  0x41667416854165241593415824154841547414c7414c4414644139f4145a4137d4145041371413544135141144410ff411514149f4148d414884148341442412ff412f9412f2412f141436412e3412da412d3412cb4142e412e5412a5412a24129f414264113d411224110d411094148c4141a410ab410a9410a541414412fe410ad410914108d41406412ca410854108341081413fe4129e4104d4104b41049)
  (.lf
  0xd8c20d8a00d87e0d85c0d83a0d8180d7f60dbef0dbed0dbe90dbe70dbd10dbcf0dbcb0dbc90dbaf0dbad0dba90dba70db8d0db8b0db870db850db6b0db690db650db630db490db470db430db410db270db250db210db1f0db050db030daff0dafd0dae30dae10dadd0dadb0dac10dabf0dabb0dab90da9f0da9d0da990da970da7d0da7b0da770da750da5b0da590da550da530da390da370da330da310da17)))
  (.nd (.nd (.lf
  0x162c1162bd162c0162a5162a1162a416288162661624516241162441622916225162281620d162091620c161f0161cf161cb161ce161b3161af161b21619716193161961617a161581613716133161361611a160f8160d615e2a15e2015e1615e0c15e0215df815dee15de415dda15dd015dc615dbc15db215da815d9e15d9415d8a15d8015d7615d6c15d6215d5815d4e15d4415d3a15d3015d2615d1c15d12)
  (.lf
  0x1352b135271352513523135211351d1351b135191351713513135111350f1350d13509135071350513503134ff134fd134fb134f9134f5134f3134f1134ef134eb134e9134e7134e5134e1134df134dd1402213fe013f9013f4213ef213ea013e5213e0213db013d5e13d0c13cbe13c6e13c2013bd413b8413b3613aea13a9a13a4c139fc139aa1395c13910138c41387413822137d41378413732136e014023))
  (.nd (.lf
  0x3c6c03c65e3c5f03c5d43c59a3c57a3c55e3c4dc3c49a3c3f23c3f73c3f33c3ed3d72c3d7243d71e3d7163d7103d7023d6fa3d6f23d6e83d6da3d6d43d6483d63e3d6363d6303d6283d6203d6183d6063d5f23d5e63d5e03d5cc3d5ac3d5863d3383d3183d2b23d3173d2b33e7243e71c3e7163e55a3e54c3e5403e53a3e5283e51e3e5143e5043e4fc3e4f43e4ee3e4e03e4d43e3863e3523e3003e2b23e2ac)
  (.lf 0)))

def shaXorReads502 : BTree :=
  .nd (.nd (.nd (.lf
  0x2cb222cb1c30ed830e922ec4b2ec472dddf2cc8c2cc752cb152cb122cb0c30e7c30e602ec412ec3d2ddcf2cc8f2cc4e2cafd2cafa2caf430e6230e242ebf12ebed2ddb72cc512cbf42caeb2cae82cae230e2e30df22ebbd2ebb92dda12cbfb2cbf62cad72cad42cace30dec30de42eb992eb952dd8f2cbff2cbf82cabf2cab02caaa30dd630d842eb732eb6f2dd912cc282cc012cac12caba2cab430dc430d60)
  (.lf
  0x2db322daf42dae82dbc02da582da2a2da002d9e22d98c2d7322d7122d6ec2d5fe2d59a2d59e2d5622d54a2d5062d4da2d4c02d4182d4082d3f82d3e62d39e2d2fa2d1c42d1b42db9d2db952db912db8f2db8d2db8b2db872db572db512db332db2f2db2b2dae52daf52dae32dadf2dadd2dae92dadb2dad72da812dbc12da7f2da7b2da5f2da5d2da592da552da272da2b2da252da212d9fb2da012d9f92d9f5))
  (.nd (.lf
  0x1e9871e98234b9634a85338e7338863385d29974299071fece1fbf41e9891e98434b8a34a89338eb338883385f2996a2990b1fec81fb1e1e98b1e98634b7e34a8d338ef3386133844299602990f1febc1fae61e98d1e98834b6834a91338f3338633384829956299131feb41faae1e98f1e98a34b5e34a95338f7338653384c2994c299171fea61fa821e9911e98c34b5434a99338fb3386733850299422991b)
  (.lf
  0x244f8244e2244cc244b6244a02448a244742445e24448244322441c24406243f0243da243c4243ae24398243822436a243542433e2432824312245a7245a5245a12459f24593245912458d2458b2457d2457b24577245752456724565245612455f245512454f2454b245492453b24539245352453324525245232451f2451d2450f2450d2450924507244f9244f7244f3244f1244e3244e1244dd244db244cd)))
  (.nd (.nd (.lf
  0x3ff933ffa23ff913ff8d3ff903ff8b3ff873ff8a3ff853ff813ff843ff7e3fcc03fc653fc613fc643fc063fbfa3fba33fb693fba23fb673fb633fb663fb403fac63f9bc3f9253f91d3f9243f91a3f8a73f89f3f8a63f8523fe8e3fe843fe7a3fe6e3fe663fe5c3f7703f7663f75c3f7523f7483f73c3f7323f7283f7203f7163f70c3f7023f6f83f6e23f6d83f6ce3f6c43f6b83f6b03f6a63f69e3f6943f5c8)
  (.lf
  0x201df201dd201d9201d7201d5201e3201d3201cf201cd201cb201c7201c5201c3201c1201bd201bb201b9201b7201b3201b1201ad211c0211b4211a6211ac2119221186211782116c2116021150211542113c21130211262111a211c6210ca20fe220fa420f9420f7020f7420e3820e0a20eb020dee20dc220db020d8a20d4820cc0211c1211bf211b9211b7211b5211b3211a9211a7211a5211ad211a32119f))
  (.nd (.lf
  0x14960161e0149a016140149e0160a014a201600014a6015f6014aa015ec014ae015e2014b2015d8014b6015ce014ba015c4014be015ba014c2015b0014c6015a6014ca0159c014ce01592014d201588014d60157e014da01574014de0156a014e201560014e601556014ea0154c014ee01542014f201538014f60152e014fa01524014fe0151a0150201510015060150c020b402258020b80224e020bc02244)
  (.lf 0)))

def shaXorReads503 : BTree :=
  .nd (.nd (.nd (.lf
  0x13446133fa12dfc12dbb14fdf14443134831345313448133fc12df212dbf14fe11443313487134551344a133fe12de812de514fe3144231348b134571344c1340012d9812d9514fe5144131348f134591344e1340212d8212d7f14fe71440313493134501341b1340412d6e12d4314fe9143f313497134521341d1340612d6412d3d14feb143e31349b134541341f1340812d5a12d4914fed143d31349f13456)
  (.lf
  0x3e3f23e3ea3e3843e3503e2503e2523e1983e1883e17e3e1763e2703e1543e0fc3e19c3e0263deda3e5cb3e5bf3e5bb3e5b93e5a73e5ab3e5a53e59f3e5973e7153e5953e58f3e4d13e4cf3e4c53e4c13e4bf3e4c93e4bd3e4b93e4b73e4b53e4b13e4af3e4ad3e4cd3e4ab3e4a53e4a33e4a13e49d3e49b3e4993e4973e45f3e44d3e43f3e4433e43d3e4393e42b3e4293e4253e4233e4213e41f3e41b3e419))
  (.nd (.lf
  0x27592276aa27596276a02759a276962759e2768c275a227682275a627678275aa2766e275ae27664275b22765a275b627650275ba27646275be2763c275c227632275c627628275ca2761e275ce27614275d22760a275d627600275da275f6275de275ec275e2275e827c2627df627c2a27dec27c2e27de227c3227dd827c3627dce27c3a27dc427c3e27dba27c4227db027c4627da627c4a27d9c27c7a27d92)
  (.lf 0))) (.nd (.nd (.lf
  0xf0b40f0aa0f0a00f0960f08c0f0820f0780f06e0f0640f05a0f0500f0460f03c0f0320f0280f01e0f0140f00a0f0000eff60efec0efe20efd80efce0efc41b3601b32a1b2d81b2a61b27a1b2361b20c1b1ce1b18a1b14e1b1121b0e41b0ac1b0741b03c1b0041afcc1af941af5c1af261aeec1aeb41ae7a1ae3e1ae001adc41ad821ad3c1acfa1acba1beb41bea01be8a1be741be5e1be481be321be1c1be06)
  (.lf
  0x680f0680b06809067cb067c9067c5067c3067890678706783067810674906747067430674106709067070670306701066c5066c3066bf066bd0667f0667d066790667706639066370663306631065f7065f5065f1065ef065b7065b5065b1065af0657706575065710656f06533065310652d0652b064f1064ef064eb064e9064ad064ab064a7064a50646706465064610645f064210641f0641b06419063db))
  (.nd (.lf
  0x17d441946c1943c1941619402193dc193c6193a01938e19368193581933219322192fa192ea192be192ae1927e1926e1923e1922e191fe191ee191be191ae1917e1916e191401912c190fc190e6190b6190a41907419064190341902018ff018fde18fae18f9e18f6e18f5a18f2a18f1418ee418ece18e9e18e8818e5818e4218e1218e0018dd018dc018d9018d8418d5418d4a18d1a18d1018cfa18cf81a3ea)
  (.lf 0)))

def shaXorReads504 : BTree :=
  .nd (.nd (.nd (.lf
  0x31b3ff503f8860042a003193ff463f83a00420003173ff3a3f7ee00416003153ff303f7e40040c003133ff243f7c400402003113ff1e3f9ea003f80030f3ff143fbbc003ee0030d3ff0a3f78e003e40030b3ff003f46a003da003093fef23f45a003d0003073fee83f47e003c6003053fede3f402003bc003033fed83f3d8003b2003013fece3f3d2003a8002ff3fec23f3ea0039e002fd3feba3f43e00394)
  (.lf
  0x369e63699a369d83699e369123690e3688837c6c37d8e37c6e37d8037c7637d7837be437d7037bc637d6437c2637d9637d5c37d5037c1a37d4637c8037d3e37bec37d3637bd237d2837c6637d2037c1437d1837c8437d0e37bf037cfe37bd637cf637c3e37cf037b9a37ce037b9e37cda37b6037cd237b7037cc837b3e37cbc37b4237cb437b1637ca837ade37c9e37c6a37c9437c1837c8c37c8837c4637bf4))
  (.nd (.lf
  0x1b7b41b7b81b7ba1c5a21c54e1c83e1c7fa1c7c21c77a1c73e1c6e41c6ac1c6581c61e1c5c81c5a41c8421c7fe1c7c41c77e1c7401c6e61c6b01c65c1c6221c8461c8021c7c81c7821c7441c6ea1c6b41c6601c6261c5cc1d5801d5821d7f41d7a41d6d61d6d81d6da1d6dc1d6de1d6e01d6e21d5841d5861d7f61d7ba1d6e41d6e61d6e81d6ea1d6ec1d6ee1d6f01d7f81d7a01d6f21d6f41d6f61d6f81d6fa)
  (.lf
  0x39be339bdf39bdd39bdb39bd939bb739bb539bb339bb139bad39bab39ba939ba739ba339ba139b9f39b9d39b9939b9739b9539b9339ae339adf39ad139acf39acb39ac939ac739ac539ac139aa739aa539abb39aa339a9f39a8739a7f39a7b39a7739a6539a6b39a6339a5f39a5139a4f39a4b39a4939a4739a4539a4139a3b39a2f39a3139a2d39a2939a2739a2539a21399fb399f9399e9399e5399e3399cf)))
  (.nd (.nd (.lf
  0x8fd908fc208f7e08ebe0baa20b9f60a7630a75f09bf10906b08fdb08fc408f8008ec00ba9a0b9f40a7470a74309bf308fef08fdd08fc608f8208ec20ba8e0b9da0a7310a72d09bf508ff308fdf08fc808f8408ec40ba880b9c80a71d0a71909bf708ff708fe108fca08f8608ec60ba7c0b9ca0a7070a70309bf908ffb08fe308fcc08f8808ec80ba720b9cc0a6f30a6ef09bfb08fff08fe508fce08f8a08eca)
  (.lf
  0x31a1d319a13199d3199b31999319933197b3194731945319413193f31929319273192331921318ff318fd318f9318f7318f5319ff318f3318e73189f3189d3188f3188d3186f31865318613185f317b7317bb317b5317b1316873168b31685316813164b3164931645316433163f322473222f320d1320713206f3206b32063320613205d3205732055320513204b320093200531feb31fe731fe131fdd31e8b))
  (.nd (.lf
  0x25e5a25e2f25d9a25d9425d7125d6f25d4a25d4425d1525d0725cb425c9d25c5225c4525c1a25c1225ba925bf425b8925bec25b5525bca25b2b25afd25aa425a8b25a5825a3d25a1825a01259e0259c5259aa2598d2597225951258fa258dd258b8258a12587c2586b258422583125800257ef257a42579b270b5270832703227024270032701126fca26fb326f5826f4326f2026f0926ee626ed726e9226e81)
  (.lf 0)))

def shaXorReads505 : BTree :=
  .nd (.nd (.nd (.lf
  0x273db272102720d272042b0202af5b2951b27bcb273df2720f2720626ac02b00e2af7b294d927bbb273e3273772720826a7e2b16b2b00828e7f27baf273e7273792720a26a742afca2af5928ceb27b95273eb2737b2723c26a602af642af6128ca327b672737d272a32720c269ba2af4f28c8527af12737f272b32720e269bc2c1352a4b929757283f9283c1283b6283aa2c5722c1332a49b29747283fd283c3)
  (.lf
  0x18753187511874d187411873f1873d187391872d1872b1872918725187231871718715187111870f1870318701186fd186fb186ef186ed186e9186e7186dd186db186d7186d5186cb186c9186c5186c3185f9185f7185f3185f1185e7185e5185e1185df185d5185d3185cf185cd185c3185c1185bd185bb185b1185af185ab185a91859f1859d18599185971858d1858b18587185851857b1852e185241851a))
  (.nd (.lf
  0xf5b10f5550f53e0dc2b0dc260d8440d840226ba2268318d7418ce30f5570f5400dc2d0dc280d8220d81e226a42268718d3a18ce70f5590f5420dc2f0dc2a0d8000d7fc2268d18ced0f55b0f5440dc310dc2c0d7f022619225fd225e619bd31528115267152621402f140202261d225ff225e81a3da19bd7152851526915264140061400313ff213fde2262122601225ea1a3a819bdb152891526b1526613fc0)
  (.lf
  0xfe090fe050fe030fdad0fdab0fda70fda50fd4b0fd490fd450fd430fcef0fced0fce90fce70fc8f0fc8d0fc890fc870fc330fc310fc2d0fc2b0fbd70fbd50fbd10fbcf0fb790fb770fb730fb710fb170fb150fb110fb0f0fab70fab50fab10faaf0fa590fa570fa530fa510f9ff0f9fd0f9f90f9f70f9a30f9a10f99d0f99b0f9410f93f0f93b0f9390f8ed1746e1743c17404173c81738a1735017318172e0)))
  (.nd (.nd (.lf
  0x20dfe20dea20dc020dae20d8220d46212da212cc212c0212b4212aa212a2212742126c21262212582124c21242211e8211de211d4210f020fec20fd220fa820f8820f7e20ed020ec620eba20e4a20e4020db620daa20d6220cf2216e4214fa214322140a21312212e421216211f22104820ef020e5220dce2171b216f7216f3216e5215412153d214fb214332142f2142921427214232140b21313213112130b)
  (.lf
  0x163fe163e0163c01639e16380163601633e1631c162fa162d8162ba1629e1627e1625c1623e1622216206161e6161c8161ac16190161701614e1613016110160ee160d0160b816461164531644f1644316435164331642f1642116413164111640d163ff163f1163ef163eb163e1163d3163d1163cd163c1163b3163b1163ad1639f163911638f1638b1638116373163711636d1636116353163511634d1633f))
  (.nd (.lf
  0xb9bc0b9850c4c40c45d0c7160c5e20c4c60c4490c70c0c5d60c4c80c4750c7020c5ca0c48e0c4850c6fa0c5c40c4a40c46d0c6ea0c5ba0c4a60c4730c6e20c5ae0c4a80c4790c6dc0c5a60c48d0c39a0c6d00c59c0c4890c3780c6ca0c5940c46f0c3540c6be0c5860c4690c3340c6b40c57c0c47d0c3160c6a60c5720c4710c2f40c6a00c5680c4860c45f0c6960c5600c4990c4640c68a0c5560c4b50c462)
  (.lf 0)))

def shaXorReads506 : BTree :=
  .nd (.nd (.nd (.lf
  0x359e2359e038aac389af37c0936a1535a03359e9359e4359ce38aa43896537c75369fb35a07359eb359e6359bc38a98388f937be13696935a2135a1935a1635a1438a903896337bc53694b35a2f3599b3597e3597c38a86388d937c25368cd35a5535a4b35a4835a4638a7e3896137b873687b359e83599f359813596c38a72388c137b8f3685f359ea35987359833595238a683895f37b573680135a1835989)
  (.lf
  0x354a13549f3549b354793545d354613545b354553544b3544935445354373542f3542d3541f3541d3541b35419354153541135407354df3540535401353e5353e3353df353db353d1353cf353cb353bf353bd353bb353b7353a135397353a7353953539135365353633535f353533526335265352613525d3525b352713525935255350b9350c1350b7350b334fd934fdf34fd734fd334fc334ff334fc134fbd))
  (.nd (.lf
  0x29dc03941e3924938bad38b7b38b642fcc82fa592aa7b2aa4b2aa462a09829dc6394183924d38bb138b7d38b662fcbe2fa5d2aa7f2aa4d2aa482a08e29dc4394083925138bb538b7f38b682fcb42fa612aa832aa4a2a9fb2a07e29ec0393fe3925538bb938b6a38b3b2fcaa2fa652aa872aa4c2a9ff2a06e29dc8393f23925938bbd38b6c38b3f2fc9e2fa692aa8b2aa032a9fa2a05c29ebe393de3925d38bc1)
  (.lf
  0x28b0528b0128aff28af128aef28aeb28ae928adb28ad928ad528ad328ac528ac328abf28abd28aaf28aad28aa928aa728a9928a9728a9328a9128a8328a8128a7d28a7b28a6d28a6b28a6728a6528a5728a5528a5128a4f28a4128a3f28a3b28a3928a2b28a2928a2528a2328a1528a1328a0f28a0d289ff289fd289f9289f7289e9289e7289e3289e1289d3289d1289cd289cb289bd289bb289b7289b5289a7)))
  (.nd (.nd (.lf
  0x191d0191901914e1910c190c819086190461900218fc018f8018f3c18ef618eb018e6618e2018dde18d9e18d6618d2c1a51e1a5141a5081a4fe1a4f41a4ec1a4e21a4d81a4ce1a4c41a4ba1a4b01a4a61a49c1a4921a4881a47e1a4741a46a1a4601a4561a44c1a4421a4381a42e19df219dae19d6819d1a19cce1a8281a8201a8161a80c1a8021a7f81a7ca1a7c01a7b81a7ae1a7a41a79a1a7901a7621a758)
  (.lf
  0x2372d2372b23727237252372323751237212371d2371b2371923715237052370323701236fd236f7236f5236f3236ef236e5236e3236e1236dd236d3236d1236cf236cb236bd236bb236b9236b5236a9236a7236a5236a123693236912368f2368b2367f2367d2367b236772366d2366b23669236652365723655236532364f2363f2363d2363b236372362723625236232361f23613236112360f2360b23601))
  (.nd (.lf
  0x2174c21838217502182e2166821824215222181a2147c218102147a21806213f0217fc213c6217f2213c4217e8213ae217de21754217d421758217ca2175c217c021670217b621534217ac21478217a22147621798213e42178c213c2217862176a21778217682177221764216742166e21530215282148021474214722146c213f8213e2213c0213b8213be221fc222e22210e222d622206222ce22118222c4)
  (.lf 0)))

def shaXorReads507 : BTree :=
  .nd (.nd (.nd (.lf
  0x1aa2f1a9fd1a9f21a78a1ef721ec351c24f1b4cb1aa331a9ff1a9f41a72c1ef621ec111c1ff1b4cd1aa371aa011a9f61a7061ef561ebed1c1c31b47f1aa3b1a9f81a9c31a7081ef481ebc91c1751b4651aa3f1a9fa1a9c51a70a1ef3c1eba51c13d1b4671aa431a9fc1a9c71a70c1ef321eb811c0e91b4691aa471a9fe1a9c91a70e1ef2a1eefd1c0af1b46b1aa4b1aa001a9cb1a7101ef1c1eb3b1c05b1b46d)
  (.lf
  0x40d1e40d1240d0840cfe40cf440cea40d2840cd640cd840cc640cbc40cb040ca640c9440c9640c8040d2c40c7040c4c40ba640be840bec40b8c40bac40b5c40b2040ad640a9c409ce408ec40d2740d2540d2140d1f40d1d40d1b40d1740d1540d1340d1140d0d40d0b40d0940d0740d0340d0140cff40cfd40cf940cf740cf540cf340cef40ced40ceb40d2940ce940ce540ce340ce140cdd40cdb40cd740cd9))
  (.nd (.lf
  0x191e6191d4191a61919419166191541912419112190de190cc1909c1908a1905c1904a190181900618fd618fc418f9618f8418f5218f4018f0c18efa18ec618eb418e8018e6e18e3a18e2818df818de618db818da618d7c18d6a18d4218d3018d0818cf01a3e21a3d21a3b01a39e1a3741a3621a3361a3241a2f81a2e61a2ba1a2a81a27c1a26a1a23e1a22c1a2041a1f21a1c81a1b61a18e1a17c1a1521a140)
  (.lf 0))) (.nd (.nd (.lf
  0x3262a32620326143260a32602325f8325ee325e4325da325ce325c4325bc31c0031bf831bee31be631bdc33ca633c9833c8833c7c33c7433c6a33c6033c5833c4c33c4033c3433c2633c1c33c1033c0433bf633bec33be433bd433bc833bc033bb433984339783396c339343392c33922339143390a33e6a33e6233e5633e4a33e4033e3633e2c33e2233e1833e1033e0433df433dec33de033dd433dcc33dc0)
  (.lf
  0x5c0b05c0505c0105bc905bc705bc305bc105b8105b8505b7f05b7b05b4105b4505b3f05b3b05b0105b0505aff05afb05ac305ac105abd05abb05a7d05a7b05a7705a7505a3705a3505a3105a2f059f1059ef059eb059e9059ab059a9059a5059a305965059630595f0595d0591f0591d0591905917058d7058db058d5058d1058970589b0589505891058570585b0585505851058170581b0581505811057d7))
  (.nd (.lf
  0x3e5ba3e5b63e5a83e59e3e5903e58e3e4be3e4903e4b63e4883e4b03e4743e4a43e4783e4983e45a3e45c3e44c3e4403e4383e4223e3e23e4183e3d43e40e3e3c63e4023e3c03e3f63e3ae3e3ec3e3e83e3823e3783e34e3e3463e24a3e1683e2403e14c3e1963e1423e18e3e1323e1823e1283e1743e11c3e26e3e15e3e1583e1363e0fa3e0f83e19a3e0e63e0243e01c3ded83dec63de963f0983f0b23f08e)
  (.lf 0)))

def shaXorReads508 : BTree :=
  .nd (.nd (.nd (.lf
  0x378813787d3656b35615355dc354133540e354083c14a3c0a63788d378893652d355df355b2354e9354e6354e03c1423c07a37869378653646f355b53558c353dd353d8353d23c0623c05a3784f3784b364433558f3555c353c9353c6353c03c0443bfd03783d378393645d3555f3553c353a33539e353983bfbe3bf6e378293782536373356ed3553f354c2353ae353a83bf9e3bf7637819378153609d35709)
  (.lf
  0x41ee341ef141ee141edd41edb41ef341ed941ed541ed341ed141ecd41ecb41ec941ec741ec141ebd41ebb41ec341eb941eb541eb341ebf41eb141ead41eab41ea9417214171f4171d4171b417174171341711417254170f4170b416c5416c3416c1416bb416a14169f4169941697416954169d416934168f4168d4168b41687416534159941597415954158341553415514154d41549414cf414cd414c9414c5))
  (.nd (.lf
  0x38f2e38ef938eee3908b38f5e38f2438efb38ef63908f38f1c38efd38ef838edc390a138efa38ec838e9b38e943902d38efc38ebe38e9d38e86390a338eb238ea138e9a38e7c38f9538ea538e9c38e6c38e6a38f4f38ea938ea038e9638e5c38f6138ea438e2d38de638de038eff38ea838dab38da638d9e38f0338e2c38d8038d7538d6438f0738daa38d7938d5c38d5838d7d38d7438d2a38d2638d7838d11)
  (.lf
  0x32be732be132bdd32bc132bc532bbf32bbb32ba532ba932ba332b9f32b8932b8d32b8732b8332b6532b6932b6332b5f32b3f32b4132b3b32b3732b1532b1932b1332b0f32aff32afd32af932ae932ac532ac932ac332abf32aaf32aad32aa132a9b32a8932a8732a5f32a5932a4932a4732a4332a1932a0932a07329dd329d7329c9329c7329c33299d3298d3298b32969329633294932947329433290732875)))
  (.nd (.nd (.lf
  0x25452254562545a2545e25462254662546a2546e25472254762547a2547e25482254862548a2548e25492254962549a2549e254a2254a6254aa254ae254b2265cc265d0265d4265d8265dc265e0265e4265e8265ec265f0265f4265f8265fc2660026604266082660c2661026614266182661c2662026624266282662c2663026634266382663c2775e27762277662776a2776e27772277762777a2777e27782)
  (.lf
  0x2a5c12a5bf2a5bb2a5b92a5b72a5b52a5b12a5af2a5ab2a5ad2a5a92a5a52a5a32a5a12a59d2a59b2a5992a5972a5932a5912a58f2a58d2a5832a5812a57f2a57d2a5792a5752a5732a5712a56d2a56b2a5692a5772a5672a5632a5612a5892a55f2a55b2a5592a5572a5532a5512a54f2a54d2a5492a5472a5452a5432a53f2a53d2a53b2a5392a5352a5332a5312a52f2a52b2a5292a5272a5252a5212a51f))
  (.nd (.lf
  0x231df23c6a23a5123c5e231e323c52231e723c02231eb23bf0231ef23bea231f323bde2326923ba4231f723b9e231fb23b9623a4f23b2e231ff23b282320323b1e2320723b142320b23adc2320f23ace2321323ab82325b23a5e2321923a282326d23a6b23a1e23a162324d23a0b2324a2324f232422323a2322323230232272324923dd923f2623ddd23f1c23ded23f1423df123f0823db523f0023d7123ef4)
  (.lf 0)))

def shaXorReads509 : BTree :=
  .nd (.nd (.nd (.lf
  0x195c11958d18583179491782f17598174a8174901ac78195c31958f1853b1784d1783117582174aa174921c8221a5871a5231972b189251890918902188f4188e41c7e01c7b01a5891a5251971b189291890b18904188f6188e61c7ce1c7941a58b1a527197091892d1890d1890618900188fa1c7601c72c1a58d1a529196f7188c7188bd188ba188b8188b21c71c1c7061a58f1a52b196e5189491893f1893c)
  (.lf
  0x967909677096730967109633096310962d0962b095ed095eb095e7095e5095a7095a5095a10959f0955f0956f0955d09559095210951f0951b09519094db094d9094d5094d309495094930948f0948d0944d0945d0944b094470940d0941d0940b09407093cd093dd093cb093c70938d0939d0938b093870934f0934d09349093470932b0a8de0a8b20a8860a85a0a82e0a8020a7d60a7aa0a77e0a75c0a740))
  (.nd (.lf
  0x2bfb32bfa02bf9d2bf8a2bf872bf742bf712bf5e2bf5b2bf482bf452bf322bf2f2bf1c2bf192bf062bf032bef02beed2beda2bed72bec42bec12beae2beab2be982be952be822be7f2be6c2be692be562be532be402be3d2be372d14d2d6c82d16d2d6bc2d1352d6b62d16f2d6ae2d1392d6a62d11b2d6922d1092d6882d0ff2d6802d0f52d6742d0e52d6682d16b2d65e2d1652d6302d1672d62a2d1692d5c0)
  (.lf
  0x509005050050300501004ff004fb004f9004f7004f5004f1004ef004ed004eb004e7004e5004e3004e1004dd004db004d9004d7004d3004d1004cf004cd004c9004c7004c5004c3004bf004bd004bb004b9004b5004b3004b1004af004ab004a9004a7004a5004a10049f0049d0049b004970049500493037ea037b80377e0374803710036da036a60366e03634035fe035c60358c035560351e034e8034b0)))
  (.nd (.nd (.lf
  0xb8ee0b8ca0b8aa0b88a0b8680b8460b8240b8060b7e60b7c40b7a20b7840b7680b74c0b7300b7120b6f40b6d60b6b40b6900b6700b6500b6320b6120b5f40b5d80b5b80b95e0b9020b8de0b89e0b87c0b85a0b8380b7fa0b7d80b7b60b6c80b6a40b6640b6260b5cc0b5aa0b95f0b90b0b9070b9030b8e70b8e30b8df0b8a50b8a10b89f0b8830b87f0b87d0b8610b85d0b85b0b83f0b83b0b8390b8010b7fd)
  (.lf
  0xc9e70c9e30c9e10c9df0c9dd0c9d90c9d70c9d50c9d30c9cf0c9cd0c9cb0c9c90c9c50c9c30c9c10c9bf0c9bb0c9b90c9b70c9b50c9b10c9af0c9ad0c9ab0c9a70c9a50c9a30c9a10c99d0c99b0c9990c9970c9930c9910c98f0c98d0c9890c9870c9850c9830c97f0c97d0c97b0c9790c9750c9730c9710c96f0c96b0c9690c9670c9650c9610c95f0c95d0c95b0c9570c9550c9530c9510c94d0c94b0c949))
  (.nd (.lf
  0x3fe363fdf73fe283fddb3fe1c3fdcf3fe123fdc53fe0c3fdb53fda93fd8e3fd843fd713fd7e3fd733fd743fd533fd433fd343fd373fd1c3fd1f3fd0e3fd083fcfd3fcf13fcd83ff773fcd23fca73fc8a3fc573fbee3fbe83fbdb3fbf13fb263fb203fb0b3fb1d3faf43faed3fae03faa53fa8c3fa863f9a93f9133f8d43f8cf3f8983f89b3f8583f8493f7fe3f80d404cd41470404d14126e404bd4125c404b9)
  (.lf 0)))

def shaXorReads510 : BTree :=
  .nd (.nd (.nd (.lf
  0x24c2f24a08246802467a28c9a28c70269a32699f257f924c7b24c1924a062463a2463428c802691726913257a324c3524b1b249e2245ec245e62a4aa2879d28799270c12614926143261402613e261382a4ae2a464287c7287c3270872610f261092610626104260fe2a4902a46228775287712702f260e7260e1260de260dc260d62a4742a46028749287452701b2600325ffb25ff825ff625ff02a45e2a424)
  (.lf
  0x25c4325c4125c3d25c3b25bb125baf25bab25b9f25b8725b7f25b7b25b7925b6525b6325b5f25b5725b3925b3725b2d25b2925b0325b0125afb25af925a8925a8325a8125a7d25a4125a3f25a3b25a3725a1f25a1d259fb259f7259e7259e5259c9259c725993259912598f259832595b259592595525953258ed258eb258db258d92589f2589d2589925895258692586725863258612582725825258212581f))
  (.nd (.lf
  0x2e0ed2e0c92e0b2207d9207b7207b21f0261eefa1ee3e1ee3b2f4da2f2852e0f12e0cb2e0b4207dd207b9207b41f0141eece1ee1c1ee192f4d02f2892e0f52e0cd2e0b6207e1207bb207b61f0081eec61edfa1edf72f4c62f28d2e0f92e0cf2e0b8207e5207bd207b81effc1eeda1edd81edd52f4bc2f2912e0fd2e0d12e0ba207e9207bf207ba1eff61eed21edb61edb32f4b22f2952e1012e0d32e0bc207ed)
  (.lf
  0x1dec31debf1debd1deaf1dead1dea91dea71de991de971de931de911de831de811de7d1de7b1de6d1de6b1de671de631de551de531de4f1de4b1de3d1de3b1de371de331de251de231de1f1de1d1de0f1de0d1de091de071ddf91ddf71ddf31ddf11dde31dde11dddd1dddb1ddcd1ddcb1ddc71ddc51ddb71ddb51ddb11ddaf1dda11dd9f1dd9b1dd991dd8b1dd891dd851dd811dd731dd711dd6d1dd6b1dd65)))
  (.nd (.nd (.lf
  0x350a63500034fae34fa034b3634b2e356aa356583551e354fa354903547435452353723538e3524034fd034fb834b0a356a5356ab356993569335691356593563d355293551f3551d3550735501354fb35499354913548f3548b35487354753547135453354513537d35379353733538f353713536b352413523d3523934fe934fd134fcb34fc934fb934fa5356a33569b356a23569835690355283551b35513)
  (.lf
  0x1b86b1b8691b8651b8631b8611b85f1b85b1b8591b8571b8551b8511b84f1b84d1cb241cb1a1cb101cb061cafa1cafc1caea1cade1cad41cb261cac01cac41cab01caa41ca9a1ca901ca861ca7c1ca721ca681ca621ca581ca4a1ca421ca361ca2c1ca221ca181ca101ca061c9fc1cb251cb231cb1f1cb1d1cb1b1cb191cb151cb131cb111cb0f1cb0b1cb091cb071cb051cb011caff1cafb1cafd1caf91caf5))
  (.nd (.lf
  0x31314312a9312863128031300312543124c3124b311f4311ea311e2311df31168311243111731114311963114e3111c31119310ee310d1310ac310a4310693104c31040310383102030ff830ff530fec30fb530f9630f8e30f7230f4e30f4b30f4230f4030f2a30f2330f2030f1830ee230ed930eca30ec230e8030e7e30e7d30e7430e6330e5a30e4c30e4430e3030e2f30e2630e1e30dea30de530daa30d9a)
  (.lf 0)))

def shaXorReads511 : BTree :=
  .nd (.nd (.nd (.lf
  0x9ef609eaa097970978e0b4770a67309f2f09f0309ef809eac097570974e0b4790a67509f3309f0509efa09eae097170970e0b47b0a67709f3709f0709efc09eb0096d0096cd0b47d0a67909f3b09f0909efe09eb20968a096870b47f0a67b09f3f09f0b09f0009eb409644096410b4810a67d09f4309f0d09f0209eb6095fe095fb0b4830a67f09f4709f0409ecf09eb8095b8095b50b4850a68109f4b09f06)
  (.lf
  0x3bc4d3bc4b3bc473bc453bc413bc3f3bc3b3bc073bb833bb813bb7d3bb373ba9d3ba9b3ba973ba8d3ba073ba053ba013b9c93b92f3b92d3b9293b91d3b87f3b8833b87d3b8793b81938ab638ab038aa038aa238ab838a8838a7c38a7838a6438a6a38a6c3890238aba388743885838866388443883e38830388263881e38814388083884a387fa387ec387e438730385d6385c4385ba38ab738ab538ab138aaf))
  (.nd (.lf
  0x384f438692384f838682384fc3867a3850038668385043865e38508386583850c386483851038638385143862a38518386223851c38616385203860638524385fe38528385f23852c385ec38530385de38534385a838538385a23853c38574385403856c3854438550385483855238b3c3901438b403900838b4438ff038b8238fe238b8638fdc38b8a38fca38b8e38fb838b9238e4438b9638e3638b9a38e22)
  (.lf 0))) (.nd (.nd (.lf
  0x201a0201a4201a82155c2155e21560215622156421568218882188c218902168c2156c21894218982189c216902157021574215782157c2158021584215882158c2159021594218a0218a4218a821694215982159c215a022152221542215821dd221dd421dd6222f02215c221602216422168222f42216c2217022174221782217c2218022184221882218c21dd821ddc21de021de4222f8221902219422198)
  (.lf
  0x2e0b02e0902e0502e0302e0102dff02dfb02df902df702df502df102def02ded02deb02de702de502de302de102ddd02ddb02dd902dd702dd302dd102dcf02dcd02dc902dc702dc502dc302dbf02dbd02dbb02db902db502db302db102daf02dab02da902da702da502da102d9f02d9d02d9b02d9702d9502d9302d9102d8d02d8b02d8902d8702d8302d8102d7f02d7d02d7902d7702d7502d7302d6f02d6d))
  (.nd (.lf
  0x3b8813b8183b7f33c4833c8163c3913c80a3c4313c7fe3c3713c7e63c3053c7dc3c2ed3c7d43c47d3c8c93c7ca3c7b63c4293c79a3c3833c7863c30f3c74e3c48b3c7463c3af3c73e3c42d3c72e3c37d3c70c3c3233c7003c2eb3c6e23c3d73c6903c2b33c6863c2873c67a3c2913c6703c2093c6403c2353c63a3c1d33c5b63c19f3c52e3c4893c5203c3993c5163c4333c4d23c3813c46a3c3213c3c23c2e9)
  (.lf 0)))

/-- The inputs of the XOR gates by wires: 20 bits each, 64 per leaf. -/
def shaXorReads : BTree :=
  .nd (.nd (.nd (.nd (.nd (.nd (.nd (.nd (.nd (shaXorReads0) (shaXorReads1)) (.nd (shaXorReads2) (shaXorReads3))) (.nd (.nd (shaXorReads4) (shaXorReads5)) (.nd
  (shaXorReads6) (shaXorReads7)))) (.nd (.nd (.nd (shaXorReads8) (shaXorReads9)) (.nd (shaXorReads10) (shaXorReads11))) (.nd (.nd (shaXorReads12) (shaXorReads13))
  (.nd (shaXorReads14) (shaXorReads15))))) (.nd (.nd (.nd (.nd (shaXorReads16) (shaXorReads17)) (.nd (shaXorReads18) (shaXorReads19))) (.nd (.nd (shaXorReads20)
  (shaXorReads21)) (.nd (shaXorReads22) (shaXorReads23)))) (.nd (.nd (.nd (shaXorReads24) (shaXorReads25)) (.nd (shaXorReads26) (shaXorReads27))) (.nd (.nd
  (shaXorReads28) (shaXorReads29)) (.nd (shaXorReads30) (shaXorReads31)))))) (.nd (.nd (.nd (.nd (.nd (shaXorReads32) (shaXorReads33)) (.nd (shaXorReads34)
  (shaXorReads35))) (.nd (.nd (shaXorReads36) (shaXorReads37)) (.nd (shaXorReads38) (shaXorReads39)))) (.nd (.nd (.nd (shaXorReads40) (shaXorReads41)) (.nd
  (shaXorReads42) (shaXorReads43))) (.nd (.nd (shaXorReads44) (shaXorReads45)) (.nd (shaXorReads46) (shaXorReads47))))) (.nd (.nd (.nd (.nd (shaXorReads48)
  (shaXorReads49)) (.nd (shaXorReads50) (shaXorReads51))) (.nd (.nd (shaXorReads52) (shaXorReads53)) (.nd (shaXorReads54) (shaXorReads55)))) (.nd (.nd (.nd
  (shaXorReads56) (shaXorReads57)) (.nd (shaXorReads58) (shaXorReads59))) (.nd (.nd (shaXorReads60) (shaXorReads61)) (.nd (shaXorReads62) (shaXorReads63)))))))
  (.nd (.nd (.nd (.nd (.nd (.nd (shaXorReads64) (shaXorReads65)) (.nd (shaXorReads66) (shaXorReads67))) (.nd (.nd (shaXorReads68) (shaXorReads69)) (.nd
  (shaXorReads70) (shaXorReads71)))) (.nd (.nd (.nd (shaXorReads72) (shaXorReads73)) (.nd (shaXorReads74) (shaXorReads75))) (.nd (.nd (shaXorReads76)
  (shaXorReads77)) (.nd (shaXorReads78) (shaXorReads79))))) (.nd (.nd (.nd (.nd (shaXorReads80) (shaXorReads81)) (.nd (shaXorReads82) (shaXorReads83))) (.nd (.nd
  (shaXorReads84) (shaXorReads85)) (.nd (shaXorReads86) (shaXorReads87)))) (.nd (.nd (.nd (shaXorReads88) (shaXorReads89)) (.nd (shaXorReads90) (shaXorReads91)))
  (.nd (.nd (shaXorReads92) (shaXorReads93)) (.nd (shaXorReads94) (shaXorReads95)))))) (.nd (.nd (.nd (.nd (.nd (shaXorReads96) (shaXorReads97)) (.nd
  (shaXorReads98) (shaXorReads99))) (.nd (.nd (shaXorReads100) (shaXorReads101)) (.nd (shaXorReads102) (shaXorReads103)))) (.nd (.nd (.nd (shaXorReads104)
  (shaXorReads105)) (.nd (shaXorReads106) (shaXorReads107))) (.nd (.nd (shaXorReads108) (shaXorReads109)) (.nd (shaXorReads110) (shaXorReads111))))) (.nd (.nd
  (.nd (.nd (shaXorReads112) (shaXorReads113)) (.nd (shaXorReads114) (shaXorReads115))) (.nd (.nd (shaXorReads116) (shaXorReads117)) (.nd (shaXorReads118)
  (shaXorReads119)))) (.nd (.nd (.nd (shaXorReads120) (shaXorReads121)) (.nd (shaXorReads122) (shaXorReads123))) (.nd (.nd (shaXorReads124) (shaXorReads125)) (.nd
  (shaXorReads126) (shaXorReads127)))))))) (.nd (.nd (.nd (.nd (.nd (.nd (.nd (shaXorReads128) (shaXorReads129)) (.nd (shaXorReads130) (shaXorReads131))) (.nd
  (.nd (shaXorReads132) (shaXorReads133)) (.nd (shaXorReads134) (shaXorReads135)))) (.nd (.nd (.nd (shaXorReads136) (shaXorReads137)) (.nd (shaXorReads138)
  (shaXorReads139))) (.nd (.nd (shaXorReads140) (shaXorReads141)) (.nd (shaXorReads142) (shaXorReads143))))) (.nd (.nd (.nd (.nd (shaXorReads144)
  (shaXorReads145)) (.nd (shaXorReads146) (shaXorReads147))) (.nd (.nd (shaXorReads148) (shaXorReads149)) (.nd (shaXorReads150) (shaXorReads151)))) (.nd (.nd (.nd
  (shaXorReads152) (shaXorReads153)) (.nd (shaXorReads154) (shaXorReads155))) (.nd (.nd (shaXorReads156) (shaXorReads157)) (.nd (shaXorReads158)
  (shaXorReads159)))))) (.nd (.nd (.nd (.nd (.nd (shaXorReads160) (shaXorReads161)) (.nd (shaXorReads162) (shaXorReads163))) (.nd (.nd (shaXorReads164)
  (shaXorReads165)) (.nd (shaXorReads166) (shaXorReads167)))) (.nd (.nd (.nd (shaXorReads168) (shaXorReads169)) (.nd (shaXorReads170) (shaXorReads171))) (.nd (.nd
  (shaXorReads172) (shaXorReads173)) (.nd (shaXorReads174) (shaXorReads175))))) (.nd (.nd (.nd (.nd (shaXorReads176) (shaXorReads177)) (.nd (shaXorReads178)
  (shaXorReads179))) (.nd (.nd (shaXorReads180) (shaXorReads181)) (.nd (shaXorReads182) (shaXorReads183)))) (.nd (.nd (.nd (shaXorReads184) (shaXorReads185)) (.nd
  (shaXorReads186) (shaXorReads187))) (.nd (.nd (shaXorReads188) (shaXorReads189)) (.nd (shaXorReads190) (shaXorReads191))))))) (.nd (.nd (.nd (.nd (.nd (.nd
  (shaXorReads192) (shaXorReads193)) (.nd (shaXorReads194) (shaXorReads195))) (.nd (.nd (shaXorReads196) (shaXorReads197)) (.nd (shaXorReads198)
  (shaXorReads199)))) (.nd (.nd (.nd (shaXorReads200) (shaXorReads201)) (.nd (shaXorReads202) (shaXorReads203))) (.nd (.nd (shaXorReads204) (shaXorReads205)) (.nd
  (shaXorReads206) (shaXorReads207))))) (.nd (.nd (.nd (.nd (shaXorReads208) (shaXorReads209)) (.nd (shaXorReads210) (shaXorReads211))) (.nd (.nd (shaXorReads212)
  (shaXorReads213)) (.nd (shaXorReads214) (shaXorReads215)))) (.nd (.nd (.nd (shaXorReads216) (shaXorReads217)) (.nd (shaXorReads218) (shaXorReads219))) (.nd (.nd
  (shaXorReads220) (shaXorReads221)) (.nd (shaXorReads222) (shaXorReads223)))))) (.nd (.nd (.nd (.nd (.nd (shaXorReads224) (shaXorReads225)) (.nd (shaXorReads226)
  (shaXorReads227))) (.nd (.nd (shaXorReads228) (shaXorReads229)) (.nd (shaXorReads230) (shaXorReads231)))) (.nd (.nd (.nd (shaXorReads232) (shaXorReads233)) (.nd
  (shaXorReads234) (shaXorReads235))) (.nd (.nd (shaXorReads236) (shaXorReads237)) (.nd (shaXorReads238) (shaXorReads239))))) (.nd (.nd (.nd (.nd (shaXorReads240)
  (shaXorReads241)) (.nd (shaXorReads242) (shaXorReads243))) (.nd (.nd (shaXorReads244) (shaXorReads245)) (.nd (shaXorReads246) (shaXorReads247)))) (.nd (.nd (.nd
  (shaXorReads248) (shaXorReads249)) (.nd (shaXorReads250) (shaXorReads251))) (.nd (.nd (shaXorReads252) (shaXorReads253)) (.nd (shaXorReads254)
  (shaXorReads255))))))))) (.nd (.nd (.nd (.nd (.nd (.nd (.nd (.nd (shaXorReads256) (shaXorReads257)) (.nd (shaXorReads258) (shaXorReads259))) (.nd (.nd
  (shaXorReads260) (shaXorReads261)) (.nd (shaXorReads262) (shaXorReads263)))) (.nd (.nd (.nd (shaXorReads264) (shaXorReads265)) (.nd (shaXorReads266)
  (shaXorReads267))) (.nd (.nd (shaXorReads268) (shaXorReads269)) (.nd (shaXorReads270) (shaXorReads271))))) (.nd (.nd (.nd (.nd (shaXorReads272)
  (shaXorReads273)) (.nd (shaXorReads274) (shaXorReads275))) (.nd (.nd (shaXorReads276) (shaXorReads277)) (.nd (shaXorReads278) (shaXorReads279)))) (.nd (.nd (.nd
  (shaXorReads280) (shaXorReads281)) (.nd (shaXorReads282) (shaXorReads283))) (.nd (.nd (shaXorReads284) (shaXorReads285)) (.nd (shaXorReads286)
  (shaXorReads287)))))) (.nd (.nd (.nd (.nd (.nd (shaXorReads288) (shaXorReads289)) (.nd (shaXorReads290) (shaXorReads291))) (.nd (.nd (shaXorReads292)
  (shaXorReads293)) (.nd (shaXorReads294) (shaXorReads295)))) (.nd (.nd (.nd (shaXorReads296) (shaXorReads297)) (.nd (shaXorReads298) (shaXorReads299))) (.nd (.nd
  (shaXorReads300) (shaXorReads301)) (.nd (shaXorReads302) (shaXorReads303))))) (.nd (.nd (.nd (.nd (shaXorReads304) (shaXorReads305)) (.nd (shaXorReads306)
  (shaXorReads307))) (.nd (.nd (shaXorReads308) (shaXorReads309)) (.nd (shaXorReads310) (shaXorReads311)))) (.nd (.nd (.nd (shaXorReads312) (shaXorReads313)) (.nd
  (shaXorReads314) (shaXorReads315))) (.nd (.nd (shaXorReads316) (shaXorReads317)) (.nd (shaXorReads318) (shaXorReads319))))))) (.nd (.nd (.nd (.nd (.nd (.nd
  (shaXorReads320) (shaXorReads321)) (.nd (shaXorReads322) (shaXorReads323))) (.nd (.nd (shaXorReads324) (shaXorReads325)) (.nd (shaXorReads326)
  (shaXorReads327)))) (.nd (.nd (.nd (shaXorReads328) (shaXorReads329)) (.nd (shaXorReads330) (shaXorReads331))) (.nd (.nd (shaXorReads332) (shaXorReads333)) (.nd
  (shaXorReads334) (shaXorReads335))))) (.nd (.nd (.nd (.nd (shaXorReads336) (shaXorReads337)) (.nd (shaXorReads338) (shaXorReads339))) (.nd (.nd (shaXorReads340)
  (shaXorReads341)) (.nd (shaXorReads342) (shaXorReads343)))) (.nd (.nd (.nd (shaXorReads344) (shaXorReads345)) (.nd (shaXorReads346) (shaXorReads347))) (.nd (.nd
  (shaXorReads348) (shaXorReads349)) (.nd (shaXorReads350) (shaXorReads351)))))) (.nd (.nd (.nd (.nd (.nd (shaXorReads352) (shaXorReads353)) (.nd (shaXorReads354)
  (shaXorReads355))) (.nd (.nd (shaXorReads356) (shaXorReads357)) (.nd (shaXorReads358) (shaXorReads359)))) (.nd (.nd (.nd (shaXorReads360) (shaXorReads361)) (.nd
  (shaXorReads362) (shaXorReads363))) (.nd (.nd (shaXorReads364) (shaXorReads365)) (.nd (shaXorReads366) (shaXorReads367))))) (.nd (.nd (.nd (.nd (shaXorReads368)
  (shaXorReads369)) (.nd (shaXorReads370) (shaXorReads371))) (.nd (.nd (shaXorReads372) (shaXorReads373)) (.nd (shaXorReads374) (shaXorReads375)))) (.nd (.nd (.nd
  (shaXorReads376) (shaXorReads377)) (.nd (shaXorReads378) (shaXorReads379))) (.nd (.nd (shaXorReads380) (shaXorReads381)) (.nd (shaXorReads382)
  (shaXorReads383)))))))) (.nd (.nd (.nd (.nd (.nd (.nd (.nd (shaXorReads384) (shaXorReads385)) (.nd (shaXorReads386) (shaXorReads387))) (.nd (.nd
  (shaXorReads388) (shaXorReads389)) (.nd (shaXorReads390) (shaXorReads391)))) (.nd (.nd (.nd (shaXorReads392) (shaXorReads393)) (.nd (shaXorReads394)
  (shaXorReads395))) (.nd (.nd (shaXorReads396) (shaXorReads397)) (.nd (shaXorReads398) (shaXorReads399))))) (.nd (.nd (.nd (.nd (shaXorReads400)
  (shaXorReads401)) (.nd (shaXorReads402) (shaXorReads403))) (.nd (.nd (shaXorReads404) (shaXorReads405)) (.nd (shaXorReads406) (shaXorReads407)))) (.nd (.nd (.nd
  (shaXorReads408) (shaXorReads409)) (.nd (shaXorReads410) (shaXorReads411))) (.nd (.nd (shaXorReads412) (shaXorReads413)) (.nd (shaXorReads414)
  (shaXorReads415)))))) (.nd (.nd (.nd (.nd (.nd (shaXorReads416) (shaXorReads417)) (.nd (shaXorReads418) (shaXorReads419))) (.nd (.nd (shaXorReads420)
  (shaXorReads421)) (.nd (shaXorReads422) (shaXorReads423)))) (.nd (.nd (.nd (shaXorReads424) (shaXorReads425)) (.nd (shaXorReads426) (shaXorReads427))) (.nd (.nd
  (shaXorReads428) (shaXorReads429)) (.nd (shaXorReads430) (shaXorReads431))))) (.nd (.nd (.nd (.nd (shaXorReads432) (shaXorReads433)) (.nd (shaXorReads434)
  (shaXorReads435))) (.nd (.nd (shaXorReads436) (shaXorReads437)) (.nd (shaXorReads438) (shaXorReads439)))) (.nd (.nd (.nd (shaXorReads440) (shaXorReads441)) (.nd
  (shaXorReads442) (shaXorReads443))) (.nd (.nd (shaXorReads444) (shaXorReads445)) (.nd (shaXorReads446) (shaXorReads447))))))) (.nd (.nd (.nd (.nd (.nd (.nd
  (shaXorReads448) (shaXorReads449)) (.nd (shaXorReads450) (shaXorReads451))) (.nd (.nd (shaXorReads452) (shaXorReads453)) (.nd (shaXorReads454)
  (shaXorReads455)))) (.nd (.nd (.nd (shaXorReads456) (shaXorReads457)) (.nd (shaXorReads458) (shaXorReads459))) (.nd (.nd (shaXorReads460) (shaXorReads461)) (.nd
  (shaXorReads462) (shaXorReads463))))) (.nd (.nd (.nd (.nd (shaXorReads464) (shaXorReads465)) (.nd (shaXorReads466) (shaXorReads467))) (.nd (.nd (shaXorReads468)
  (shaXorReads469)) (.nd (shaXorReads470) (shaXorReads471)))) (.nd (.nd (.nd (shaXorReads472) (shaXorReads473)) (.nd (shaXorReads474) (shaXorReads475))) (.nd (.nd
  (shaXorReads476) (shaXorReads477)) (.nd (shaXorReads478) (shaXorReads479)))))) (.nd (.nd (.nd (.nd (.nd (shaXorReads480) (shaXorReads481)) (.nd (shaXorReads482)
  (shaXorReads483))) (.nd (.nd (shaXorReads484) (shaXorReads485)) (.nd (shaXorReads486) (shaXorReads487)))) (.nd (.nd (.nd (shaXorReads488) (shaXorReads489)) (.nd
  (shaXorReads490) (shaXorReads491))) (.nd (.nd (shaXorReads492) (shaXorReads493)) (.nd (shaXorReads494) (shaXorReads495))))) (.nd (.nd (.nd (.nd (shaXorReads496)
  (shaXorReads497)) (.nd (shaXorReads498) (shaXorReads499))) (.nd (.nd (shaXorReads500) (shaXorReads501)) (.nd (shaXorReads502) (shaXorReads503)))) (.nd (.nd (.nd
  (shaXorReads504) (shaXorReads505)) (.nd (shaXorReads506) (shaXorReads507))) (.nd (.nd (shaXorReads508) (shaXorReads509)) (.nd (shaXorReads510)
  (shaXorReads511)))))))))

def shaXorFan0 : BTree :=
  .nd (.nd (.nd (.lf
  0x5777777777777777777777777777766469999999999999999999999999999885699999999999999999999999999998856999999999999999999999999999988569999999999999999999999999999885699999999999999999999999999998859cccccccccccccccccccccbbbbbbbaa79cccccccccccccccccccccbbbbbbbaa7)
  (.lf
  0x4444444444444444444441111111111111111111111111111111144444444444444444444444444444411111111111111111111111111111111444444444444444444444444444444111111111111111111111111111111114444444444444444444444444444441111111111111111111111111111111144444444444444444))
  (.nd (.lf
  0x1111111111111111100000000000000000000000000000000111111111111111111111111111111110000000000000000000000000000000011111111111111111111111111111111000000000000000000000000000000001111111111111111111111111111111100000000000000000000000000000000111111111111111)
  (.lf 0))) (.nd (.nd (.lf
  0x100100100100100100100100100100100100100100100100100100100100100100100100100100100100100100100100100100100100100100100100100100100100100111111111111113333333333321001210010010012121212100100121001001212100121212121001212100101001001001001001001001001001001)
  (.lf 0)) (.nd (.lf
  0x2222222221122222222222222222222222222222211222222222222222222222222222222112222222222222222222222222222221122222222222222222222222222222211222222222222222222222222222222112222222222222222222222222222221122222222222222222222222222222211222222222222222222222)
  (.lf 0)))

def shaXorFan1 : BTree :=
  .nd (.nd (.nd (.lf
  0x100100100100100100100100100100100100100100100100100100100100100100100100100100100100100100100100100100100100100100100100100100100100100100100100100100100100100100100100100100100100100100100100100100100100100100100100100100100100100100100100100100100100100)
  (.lf 0)) (.nd (.lf
  0x2222222222222211222222222222222222222222222222112222222222222222222222222222221122222222222222222222222222222211222222222222222222222222222222112222222222222222222222222222221122222222222222222222222222222211222222222222222222222222222222112222222222222222)
  (.lf 0))) (.nd (.nd (.lf
  0x100100100100100100100100100100100100100100100100100100100100100100100100100100100100100100100100100100100100100100100100100100100100100100100100100100100100100100100100100100100100100100100100100100100100100100100100100100100100100100100100100100100100100)
  (.lf 0)) (.nd (.lf
  0x4444444444411111111111111111111111111111111444444444444444444444444444444133333333333111111111111111111111111111111114444444444444444444444444444441111111111111111111111111111111144444444444444444444444444444411111111111111111111111111111111444444444444444)
  (.lf 0)))

def shaXorFan2 : BTree :=
  .nd (.nd (.nd (.lf
  0x10010010010010010010010010010010010010010010010010010010010010010010010010010010010010010010010010010010010010010010010010010010010010010010010010010010010010010010010010010010010010010010010010010010010010010010010010010010010010010010010010010010010010)
  (.lf 0)) (.nd (.lf
  0x11111111111111111111111111111111000000000000000000000000000000000000000000000000000000000000000011111111111111111111111111111111000000000000000000000000000000000000000000000000000000000000000011111111111111111111111111111111000000000000000)
  (.lf 0))) (.nd (.nd (.lf
  0x1001001001001001001001001001001001001001001001001001001001001001001001001001001001001001001001001001001001001001001001001001001001001001001001001001001001001111111111111111100121212121210010012121001001210010010010010010012121210012100100100110010010010010)
  (.lf 0)) (.nd (.lf
  0x4444441111111111111111111111111111111144444444444444444444444444444411111111111111111111111111111111444444444444444444444444444444111111111111111111111111111111114444444444444444444444444444441111111111111111111111111111111144444444444444444444444444444411)
  (.lf 0)))

def shaXorFan3 : BTree :=
  .nd (.nd (.nd (.lf
  0x100100100100100100100100100100100100100100111111111111111121001001210012121001210010012121212100121001001001001212100121001001210011001001001001001001001001001001001001001001001001001001001001001001001001001001001001001001001001001001001001001001001001001)
  (.lf 0)) (.nd (.lf
  0x4444444444444422444444444444444444444444444444224444444444444444444444444444442244444444444444444444444444444422444444444444444444444444444444224444444444444444444444444444442244444444444444444444444444444422444444444444444444444444444444224444444444444444)
  (.lf 0))) (.nd (.nd (.lf
  0x1001001001001001001001001001001001001001001001001001001001001001001001001001001001001001001001001001001001001001001001001001001001001001001001001001001001001001001001001001001001001001001001001001001001001001001001001001001001001001001001001001001001001001)
  (.lf 0)) (.nd (.lf
  0x4444444444444444444444111111111111111111111111111111114444444444444444444444444444441111111111111111111111111111111144444444444444444444444444444411111111111111111111111111111111444444444444444444444444444444111111111111111111111111111111114444444444444444)
  (.lf 0)))

def shaXorFan4 : BTree :=
  .nd (.nd (.nd (.lf
  0x9aaaaaaaaaaaaaaaaaaaaaaaaaaaaaa99aaaaaaaaaaaaaaaaaaaaaaaaaaaaaa99aaaaaaaaaaaaaaaaaaaaaaaaaaaaaa99aaaaaaaaaaaaaaaaaaaaaaaaaaaaaa99aaaaaaaaaaaaaaaaaaaaaaaaaaaaaa99aaaaaaaaaaaaaaaaaaaaaaaaaaaaaa97888888888888888888888888888888778888888888888888888888888888887)
  (.lf
  0x4444444444444444444444444111111111111111111111111111111114444444444444444444444444444441111111111111111111111111111111144444444444444444444444444444411111111111111111111111111111111444444444444444444444444444444111111111111111111111111111111114444444444444))
  (.nd (.lf
  0x111111111111111111111111111111110000000000000000000000000000000000000000000000000000000000000000111111111111111111111111111111110000000000000000000000000000000000000000000000000000000000000000111111111111111)
  (.lf 0))) (.nd (.nd (.lf
  0x10010010010010010010010010010010010010010010010010010010010010010010010010010010010010010010010010010010010010010010010010010010010010010010010010010010011111111111111212100100121212121210010010010010012121001210012121210012100121001211001001001001001001)
  (.lf 0)) (.nd (.lf
  0x4411111111111111111111111111111111444444444444444444444444444444111111111111111111111111111111114444444444444444444444444444441111111111111111111111111111111144444444444444444444444444444411111111111111111111111111111111444444444444444444444444444444111111)
  (.lf 0)))

def shaXorFan5 : BTree :=
  .nd (.nd (.nd (.lf
  0x10010010010010010010010010010010010010011111111111111111111112121001212121210012100100100100100121001001001001001001001001001001001001001100100100100100100100100100100100100100100100100100100100100100100100100100100100100100100100100100100100100100100100)
  (.lf 0)) (.nd (.lf
  0x2222222222222211222222222222222222222222222222112222222222222222222222222222221122222222222222222222222222222211222222222222222222222222222222112222222222222222222222222222221122222222222222222222222222222211222222222222222222222222222222112222222222222222)
  (.lf 0))) (.nd (.nd (.lf
  0x10010010010010010010010010010010010010010010010010010010010010010010010010010010010010010010010010010010010010010010010010010010010010010010010010010010010010010010010010010010010010010010010010010010010010010010010010010010010010010010010010010010010010)
  (.lf 0)) (.nd (.lf
  0x1111111111111111111111111144444444444444444444444444444411111111111111111111111111111111444444444444444444444444444444111111111111111111111111111111114444444444444444444444444444441111111111111111111111111111111144444444444444444444444444444411111111111111)
  (.lf 0)))

def shaXorFan6 : BTree :=
  .nd (.nd (.nd (.lf
  0x1001001001001001001001001001001001001001001001001001001001001001001001001001001001001001001001001001001001001001001001001001001001001001001001001001001001001001001001001001001001001001001001001001001001001001001001001001001001001001001001001001001001001001)
  (.lf 0)) (.nd (.lf
  0x2222222222222211222222222222222222222222222222112222222222222222222222222222221122222222222222222222222222222211222222222222222222222222222222112222222222222222222222222222221122222222222222222222222222222211222222222222222222222222222222112222222222222222)
  (.lf 0))) (.nd (.nd (.lf
  0x100100100100100100100100100100100100100100100100100100100100100100100100100100100100100100100100100100100100100100100100100100100100100100100100100100100100100100100100111111111111112121001212100121212100100100100100100100121212121210012100121001211001001)
  (.lf 0)) (.nd (.lf
  0x1111111111111111111111111144444444444444444444444444444411111111111111111111111111111111444444444444444444444444444444111111111111111111111111111111114444444444444444444444444444441111111111111111111111111111111144444444444444444444444444444411111111111111)
  (.lf 0)))

def shaXorFan7 : BTree :=
  .nd (.nd (.nd (.lf
  0x1001001001001001001001001001001001001001001001001001001001001001001001001001001001001001001001001001001001001001001001111111111111113333333333300121212121001212100121210012100100100121212100121001001210010100100100100100100100100100100100100100100100100100)
  (.lf 0)) (.nd (.lf
  0x2222222221122222222222222222222222222222211222222222222222222222222222222112222222222222222222222222222221122222222222222222222222222222211222222222222222222222222222222112222222222222222222222222222221122222222222222222222222222222211222222222222222222222)
  (.lf 0))) (.nd (.nd (.lf
  0x1111111111111111111111111111111111111111111111111111111111111111111111111111111111111111111111111111111111111111111111111111111111111111111111111111111111111111111111111111111111111111111111111111111111111111111111111111111111111111111111111111111111111111)
  (.lf 0)) (.nd (.lf
  0x4444444444444444411111111111111111111111111111111444444444444444444444444444444111111111111111111111111111111114444444444444444444444444444441111111111111111111111111111111144444444444444444444444444444411111111111111111111111111111111444444444444444444444)
  (.lf 0)))

def shaXorFan8 : BTree :=
  .nd (.nd (.nd (.lf
  0x788888888888888888888888888888877888888888888888888888888888888778888888888888888888888888888887788888888888888888888888888888879aaaaaaaaaaaaaaaaaaaaaaaaaaaaaa99aaaaaaaaaaaaaaaaaaaaaaaaaaaaaa99aaaaaaaaaaaaaaaaaaaaaaaaaaaaaa99aaaaaaaaaaaaaaaaaaaaaaaaaaaaaa9)
  (.lf
  0x4444444444444444444444411111111111111111111111111111111444444444444444444444444444444111111111111111111111111111111114444444444444444444444444444441111111111111111111111111111111144444444444444444444444444444411111111111111111111111111111111444444444444444))
  (.nd (.lf
  0x1111111111111111111111111111111111111111111111111111111111111111111111111111111111111111111111111111111111111111111111111111111111111111111111111111111111111111111111111111111111111111111111111111111111111111111111111111111111111111111111111111111111111111)
  (.lf 0))) (.nd (.nd (.lf
  0x10010012121010010010010010010010010010010010010010010010010010010010010010010010010010010010010010010010010010010010010010010010010010010010010010010010010010010010010010010010010010010010010010010010010010010010010010010010010010010010010010010010010010)
  (.lf 0)) (.nd (.lf
  0x2222222221122222222222222222222222222222211222222222222222222222222222222112222222222222222222222222222221122222222222222222222222222222211222222222222222222222222222222112222222222222222222222222222221122222222222222222222222222222211222222222222222222222)
  (.lf 0)))

def shaXorFan9 : BTree :=
  .nd (.nd (.nd (.lf
  0x1001001001001001001001001001001001001001001001001001001001001001001001001001001001001001001001001001001001001001001001001001001001001001001001001001001001001001001001001001001001001001001001001001001001001001001001001001001001001001001001001001001001001001)
  (.lf 0)) (.nd (.lf
  0x2222222222222211222222222222222222222222222222112222222222222222222222222222221122222222222222222222222222222211222222222222222222222222222222112222222222222222222222222222221122222222222222222222222222222211222222222222222222222222222222112222222222222222)
  (.lf 0))) (.nd (.nd (.lf
  0x1001001001001001001001001001001001001001001001001001001001001001001001001001001001001001001001001001001001001001001001001001001001001001001001001001001001001001001001001001001001001001001001001001001001001001001001001001001001001001001001001001001001001001)
  (.lf 0)) (.nd (.lf
  0x1111444444444444444444444444444444111111111111111111111111111111114444444444444444444444444444441111111111111111111111111111111144444444444444444444444444444411111111111111111111111111111111444444444444444444444444444444111111111111111111111111111111114444)
  (.lf 0)))

def shaXorFan10 : BTree :=
  .nd (.nd (.nd (.lf
  0x100100100100100100100100100100100100100100100100100100100100100100100100100100100100100100100100100100100100100100100100100100100100100100100100100100100100100100100100100100100100100100100100100100100100100100100100100100100100100100100100100100100100100)
  (.lf 0)) (.nd (.lf
  0x7777766666666645777777777777777777777666666666457777777777777777777776666666664577777777777777777777766666666645777777777777777777777666666666457777777777777777777776666666664577777777777777777777766666666644555555555555555555555444444444345555555555555555)
  (.lf 0))) (.nd (.nd (.lf
  0x100100100100100100100100100100100100100100100100100100100100100100100100100100100100100100100100100100100100100100100100100100100100100100100100100100100100100100100100100100100100100100100100100100100100100100100100100100100100100100100100100100100100100)
  (.lf 0)) (.nd (.lf
  0x4444444411111111111111111111111111111111444444444444444444444444444444111111111111111111111111111111114444444444444444444444444444441111111111111111111111111111111144444444444444444444444444444411111111111111111111111111111111444444444444444444444444444444)
  (.lf 0)))

def shaXorFan11 : BTree :=
  .nd (.nd (.nd (.lf
  0x100100100100100100100100100100100100100100100100100100100100100100100100100100100100100100100100100100100100100100100100100100100100100100100100100100100100100100100100100100100100100100100100100100100100100100100100100100100100100100100100100100100100100)
  (.lf 0)) (.nd (.lf
  0x1111111111301111111111111111111111111130111111111111111111111111111111301111111111111111111111111111112011111111111111111111111111112011111111111111111111111111111121111111111111111111111111113111111111111111111111111111111311111111111111111111111111112111)
  (.lf 0))) (.nd (.nd (.lf
  0x10010010010010010010010010010010010010010010010010010010010010010010010010010010010010010010010010010010010010010010010010010010010010010010010010010010010010010010010010010010010010010010010010010010010010010010010010010010010010010010010010010010010010)
  (.lf 0)) (.nd (.lf
  0x4444444444111111111111111111111111111111114444444444444444444444444444441111111111111111111111111111111144444444444444444444444444444413333333333333331111111111111111111111111111111144444444444444444444444444444411111111111111111111111111111111444444444444)
  (.lf 0)))

def shaXorFan12 : BTree :=
  .nd (.nd (.nd (.lf
  0x1111111111111111111111111111111111111111111111111111111111111111111111111111111111111111111111111111111111111111111111111111111111111111111111111111111111111111111111111111111111111111111111111111111111111111111111111111111111111111111111111111111111111111)
  (.lf 0)) (.nd (.lf
  0x1111111111111111100000000000000000000000000000000000000000000000000000000000000001111111111111111111111111111111100000000000000000000000000000000000000000000000000000000000000001111111111111111111111111111111100000000000000000000000000000000000000000000000)
  (.lf 0))) (.nd (.nd (.lf
  0x1212121001001001212101001001001001001001001001001001001001001001001001001001001001001001001001001001001001001001001001001001001001001001001001001001001001001001001001001001001001001001001001001001001001001001001001001001001001001001001001001001001001001001)
  (.lf 0)) (.nd (.lf
  0x4444111111111111111111111111111111114444444444444444444444444444441111111111111111111111111111111144444444444444444444444444444411111111111111111111111111111111444444444444444444444444444444111111111111111111111111111111114444444444444444444444444444441111)
  (.lf 0)))

def shaXorFan13 : BTree :=
  .nd (.nd (.nd (.lf
  0x10010010010010010010010010010010010010010010010010010010010010010010010010010010010010010010010010010010010010010010010010010010010010010010010010010010010010010010010010010010010010010010010010010010010010010010010010010010010010010010010010010010010010)
  (.lf 0)) (.nd (.lf
  0x2222222222222211222222222222222222222222222222112222222222222222222222222222221122222222222222222222222222222211222222222222222222222222222222112222222222222222222222222222221122222222222222222222222222222211222222222222222222222222222222112222222222222222)
  (.lf 0))) (.nd (.nd (.lf
  0x100100100100100100100100100100100100100100100100100100100100100100100100100100100100100100100100100100100100100100100100100100100100100100100100100100100100100100100100100100100100100100100100100100100100100100100100100100100100100100100100100100100100100)
  (.lf 0)) (.nd (.lf
  0x1111111111111111111114444444444444444444444444444441111111111111111111111111111111144444444444444444444444444444413333333333331111111111111111111111111111111144444444444444444444444444444411111111111111111111111111111111444444444444444444444444444444111111)
  (.lf 0)))

def shaXorFan14 : BTree :=
  .nd (.nd (.nd (.lf
  0x10010010010010010010010010010010010010010010010010010010010010010010010010010010010010010010010010010010010010010010010010010010010010010010010010010010010010010010010010010010010010010010010010010010010010010010010010010010010010010010010010010010010010)
  (.lf 0)) (.nd (.lf
  0x2222222222222211222222222222222222222222222222112222222222222222222222222222221122222222222222222222222222222211222222222222222222222222222222112222222222222222222222222222221122222222222222222222222222222211222222222222222222222222222222112222222222222222)
  (.lf 0))) (.nd (.nd (.lf
  0x100100100100100100100100100100100100100100100100100100100100100100100100100100100100100100100100100100100100111111111111110010010012121210012121001001210010010012100121212100121210012121001212110010010010010010010010010010010010010010010010010010010010010)
  (.lf 0)) (.nd (.lf
  0x4441111111111111111111111111111111144444444444444444444444444444413333333333333311111111111111111111111111111111444444444444444444444444444444111111111111111111111111111111114444444444444444444444444444441111111111111111111111111111111144444444444444444444)
  (.lf 0)))

def shaXorFan15 : BTree :=
  .nd (.nd (.nd (.lf
  0x12101001001001001001001001001001001001001001001001001001001001001001001001001001001001001001001001001001001001001001001001001001001001001001001001001001001001001001001001001001001001001001001001001001001001001001001001001001001001001001001001001001001001)
  (.lf 0)) (.nd (.lf
  0x2222222221122222222222222222222222222222211222222222222222222222222222222112222222222222222222222222222221122222222222222222222222222222211222222222222222222222222222222112222222222222222222222222222221122222222222222222222222222222211222222222222222222222)
  (.lf 0))) (.nd (.nd (.lf
  0x1111111111111111100000000000000000000000000000000111111111111111111111111111111110000000000000000000000000000000011111111111111111111111111111111000000000000000000000000000000001111111111111111111111111111111100000000000000000000000000000000111111111111111)
  (.lf 0)) (.nd (.lf
  0x4444444444444444444111111111111111111111111111111114444444444444444444444444444441111111111111111111111111111111144444444444444444444444444444411111111111111111111111111111111444444444444444444444444444444111111111111111111111111111111114444444444444444444)
  (.lf 0)))

def shaXorFan16 : BTree :=
  .nd (.nd (.nd (.lf
  0x78888888888888888888888888888887788888888888888888888888888888879aaaaaaaaaaaaaaaaaaaaaaaaaaaaaa99aaaaaaaaaaaaaaaaaaaaaaaaaaaaaa99aaaaaaaaaaaaaaaaaaaaaaaaaaaaaa99aaaaaaaaaaaaaaaaaaaaaaaaaaaaaa99aaaaaaaaaaaaaaaaaaaaaaaaaaaaaa99aaaaaaaaaaaaaaaaaaaaaaaaaaaaaa9)
  (.lf
  0x1111111111111111111111144444444444444444444444444444411111111111111111111111111111111444444444444444444444444444444111111111111111111111111111111114444444444444444444444444444441111111111111111111111111111111144444444444444444444444444444411111111111111111))
  (.nd (.lf
  0x1111111111111111111111111111111111111111111111111111111111111111111111111111111110000000000000000000000000000000011111111111111111111111111111111000000000000000000000000000000001111111111111111111111111111111100000000000000000000000000000000111111111111111)
  (.lf 0))) (.nd (.nd (.lf
  0x1001001001001001001001001001001001001001001001001001001001001001001001001001001001001001001001001001001001001001001001001001001001001001001001001001001001001001001001001001001001001001001001001001001001001001001001001001001001001001001001001001001001001001)
  (.lf 0)) (.nd (.lf
  0x2222222221122222222222222222222222222222211222222222222222222222222222222112222222222222222222222222222221122222222222222222222222222222211222222222222222222222222222222112222222222222222222222222222221122222222222222222222222222222211222222222222222222222)
  (.lf 0)))

def shaXorFan17 : BTree :=
  .nd (.nd (.nd (.lf
  0x10010010010010010010010010010010010010010010010010010010010010010010010010010010010010010010010010010010010010010010010010010010010010010010010010010010010010010010010010010010010010010010010010010010010010010010010010010010010010010010010010010010010010)
  (.lf 0)) (.nd (.lf
  0x2222222222222211222222222222222222222222222222112222222222222222222222222222221122222222222222222222222222222211222222222222222222222222222222112222222222222222222222222222221122222222222222222222222222222211222222222222222222222222222222112222222222222222)
  (.lf 0))) (.nd (.nd (.lf
  0x10010010010010010010010010010010010010010010010010010010010010010010010010010010010010010010010010010010010010010010010010010010010010010010010010010010010010010010010010010010010010010010010010010010010010010010010010010010010010010010010010010010010010)
  (.lf 0)) (.nd (.lf
  0x4444444444444444444444444444441111111111111111111111111111111144444444444444444444444444444411111111111111111111111111111111444444444444444444444444444444111111111111111111111111111111114444444444444444444444444444441111111111111111111111111111111144444444)
  (.lf 0)))

def shaXorFan18 : BTree :=
  .nd (.nd (.nd (.lf
  0x1001001001001001001001001001001001001001001001001001001001001001001001001001001001001001001001001001001001001001001001001001001001001001001001001001001001001001001001001001001001001001001001001001001001001001001001001001001001001001001001001001001001001001)
  (.lf 0)) (.nd (.lf
  0x100100100100100100100100100100100100100100100100100100100100100100100100100100100100100100100100100100100100100100100100100100100100100100100100100100100100100100100100100100100100100100100100100100100100100100100100100100100100100100100100100100100100100)
  (.lf 0))) (.nd (.nd (.lf
  0x1001001001001001001001001001001001001001001001001001001001001001001001001001001001001001001001001001001001001001001001001001001001001001001001001001001001001001001001001001001001001001001001001001001001001001001001001001001001001001001001001001001001111111)
  (.lf 0)) (.nd (.lf
  0x1111111144444444444444444444444444444411111111111111111111111111111111444444444444444444444444444444111111111111111111111111111111114444444444444444444444444444441111111111111111111111111111111144444444444444444444444444444411111111111111111111111111111111)
  (.lf 0)))

def shaXorFan19 : BTree :=
  .nd (.nd (.nd (.lf
  0x1001001001001001001001001001001001001001001001001001001001001001001001001001001001001001001001001001001001001001001001001001001001001001001001001001001001001001001001001001111111111111121210010010010012121210010012100100100121001001210010012121212121100100)
  (.lf 0)) (.nd (.lf
  0x4444444444444422444444444444444444444444444444224444444444444444444444444444442244444444444444444444444444444422444444444444444444444444444444224444444444444444444444444444442244444444444444444444444444444422444444444444444444444444444444224444444444444444)
  (.lf 0))) (.nd (.nd (.lf
  0x100100100100100100100100100100100100100100100100100100100100100100100100100100100100100100100100100100100100100100100100100100100100100100100100100100100100100100100100100100100100100100100100100100100100100100100100100100100100100100100100100100100100100)
  (.lf 0)) (.nd (.lf
  0x4444444444444444444444441111111111111111111111111111111144444444444444444444444444444411111111111111111111111111111111444444444444444444444444444444133333333331111111111111111111111111111111144444444444444444444444444444411111111111111111111111111111111444)
  (.lf 0)))

def shaXorFan20 : BTree :=
  .nd (.nd (.nd (.lf
  0x1111111111111111111111111111111111111111111111111111111111111111111111111111111111111111111111111111111111111111111111111111111111111111111111111111111111111111111111111111111111111111111111111111111111111111111111111111111111111111111111111111111111111111)
  (.lf 0)) (.nd (.lf
  0x11111111111111111111111111111111000000000000000000000000000000000000000000000000000000000000000011111111111111111111111111111111000000000000000000000000000000000000000000000000000000000000000011111111111111111111111111111111000000000000000)
  (.lf 0))) (.nd (.nd (.lf
  0x100100100100100100100100100100100100100100100100100100100100100100100100100100100100100100100100100100100100100100100100100100100100100100100100100100100100100100100100100100100100100100100100100100100100100100100100100100100100100100100100100100100100100)
  (.lf 0)) (.nd (.lf
  0x1111444444444444444444444444444444111111111111111111111111111111114444444444444444444444444444441111111111111111111111111111111144444444444444444444444444444411111111111111111111111111111111444444444444444444444444444444111111111111111111111111111111114444)
  (.lf 0)))

def shaXorFan21 : BTree :=
  .nd (.nd (.nd (.lf
  0x1001001001001001001001001001001001001001001001001001001001001001001001001001001001001001001001001001001001001001001001001001001001001001001001001001001001001001001001001001001001001001001001001001001001111111111121212121001212100100121210012121212100100100)
  (.lf 0)) (.nd (.lf
  0x2222222222222211222222222222222222222222222222112222222222222222222222222222221122222222222222222222222222222211222222222222222222222222222222112222222222222222222222222222221122222222222222222222222222222211222222222222222222222222222222112222222222222222)
  (.lf 0))) (.nd (.nd (.lf
  0x1001001001001001001001001001001001001001001001001001001001001001001001001001001001001001001001001001001001001001001001001001001001001001001001001001001001001001001001001001001001001001001001001001001001001001001001001001001001001001001001001001001001001001)
  (.lf 0)) (.nd (.lf
  0x4111111111111111111111111111111114444444444444444444444444444441111111111111111111111111111111144444444444444444444444444444413333333333333111111111111111111111111111111114444444444444444444444444444441111111111111111111111111111111144444444444444444444444)
  (.lf 0)))

def shaXorFan22 : BTree :=
  .nd (.nd (.nd (.lf
  0x100100100100100100100100100100100100100100100100100100100100100100100100100100100100100100100100100100100100100100100100100100100100100100100100100100100100100100100100100100100100100100100100100100100100100100100100100100100100100100100100100100100100100)
  (.lf 0)) (.nd (.lf
  0x2222222222222211222222222222222222222222222222112222222222222222222222222222221122222222222222222222222222222211222222222222222222222222222222112222222222222222222222222222221122222222222222222222222222222211222222222222222222222222222222112222222222222222)
  (.lf 0))) (.nd (.nd (.lf
  0x100100100100100100100100100100100100100100100100100100100100100100100100100100100100100100100100100100100100100100100100100100100100100100100100100100100100100100100100100100100100100100100100100100100100100100100100100100100100100100100100100100100100100)
  (.lf 0)) (.nd (.lf
  0x1111111111111111114444444444444444444444444444441111111111111111111111111111111144444444444444444444444444444411111111111111111111111111111111444444444444444444444444444444111111111111111111111111111111114444444444444444444444444444441111111111111111111111)
  (.lf 0)))

def shaXorFan23 : BTree :=
  .nd (.nd (.nd (.lf
  0x100100100100100100100100100100100100100100100100100100100100100100100100100100100100100100100100100100100100100100100100100100100100100100100100100100100100100100100100100100100100100100100100100100100100100100100100100100100100100100111111111111111112100)
  (.lf 0)) (.nd (.lf
  0x2222222221122222222222222222222222222222211222222222222222222222222222222112222222222222222222222222222221122222222222222222222222222222211222222222222222222222222222222112222222222222222222222222222221122222222222222222222222222222211222222222222222222222)
  (.lf 0))) (.nd (.nd (.lf
  0x1111111111111111111111111111111111111111111111111111111111111111111111111111111111111111111111111111111111111111111111111111111111111111111111111111111111111111111111111111111111111111111111111111111111111111111111111111111111111111111111111111111111111111)
  (.lf 0)) (.nd (.lf
  0x1111111111111111111444444444444444444444444444444111111111111111111111111111111114444444444444444444444444444441111111111111111111111111111111144444444444444444444444444444411111111111111111111111111111111444444444444444444444444444444111111111111111111111)
  (.lf 0)))

def shaXorFan24 : BTree :=
  .nd (.nd (.nd (.lf
  0x788888888888888888888888888888877888888888888888888888888888888778888888888888888888888888888887788888888888888888888888888888879aaaaaaaaaaaaaaaaaaaaaaaaaaaaaa99aaaaaaaaaaaaaaaaaaaaaaaaaaaaaa99aaaaaaaaaaaaaaaaaaaaaaaaaaaaaa99aaaaaaaaaaaaaaaaaaaaaaaaaaaaaa9)
  (.lf
  0x1111111111111111111111111444444444444444444444444444444111111111111111111111111111111114444444444444444444444444444441111111111111111111111111111111144444444444444444444444444444411111111111111111111111111111111444444444444444444444444444444111111111111111))
  (.nd (.lf
  0x1111111111111111100000000000000000000000000000000000000000000000000000000000000001111111111111111111111111111111111111111111111111111111111111111111111111111111111111111111111111111111111111111111111111111111111111111111111111111111111111111111111111111111)
  (.lf 0))) (.nd (.nd (.lf
  0x100100100100100100111111111111210010012121212121212121212100100121210012121001001001001001211001001001001001001001001001001001001001001001001001001001001001001001001001001001001001001001001001001001001001001001001001001001001001001001001001001001001001001)
  (.lf 0)) (.nd (.lf
  0x2222222221122222222222222222222222222222211222222222222222222222222222222112222222222222222222222222222221122222222222222222222222222222211222222222222222222222222222222112222222222222222222222222222221122222222222222222222222222222211222222222222222222222)
  (.lf 0)))

def shaXorFan25 : BTree :=
  .nd (.nd (.nd (.lf
  0x10010010012121001001210012121210010010010010010012100101001001001001001001001001001001001001001001001001001001001001001001001001001001001001001001001001001001001001001001001001001001001001001001001001001001001001001001001001001001001001001001001001001001)
  (.lf 0)) (.nd (.lf
  0x2222222222222211222222222222222222222222222222112222222222222222222222222222221122222222222222222222222222222211222222222222222222222222222222112222222222222222222222222222221122222222222222222222222222222211222222222222222222222222222222112222222222222222)
  (.lf 0))) (.nd (.nd (.lf
  0x100100100100100100100100100100100100100100100100100100100100100100100100100100100100100100100100100100100100100100100100100100100100100100100100100100100100100100100100100100100100100100100100100100100100100100100100100100100100100100100100100100100100100)
  (.lf 0)) (.nd (.lf
  0x1111111111111111111111444444444444444444444444444444111111111111111111111111111111114444444444444444444444444444441111111111111111111111111111111144444444444444444444444444444411111111111111111111111111111111444444444444444444444444444444111111111111111111)
  (.lf 0)))

def shaXorFan26 : BTree :=
  .nd (.nd (.nd (.lf
  0x10010010010010010010010010010010010010010010010010010010010010010010010010010010010010010010010010010010010010010010010010010010010010010010010010010010010010010010010010010010010010010010010010010010010010010010010010010010010010010010010010010010010010)
  (.lf 0)) (.nd (.lf
  0xcccccbbbbbbbaa79cccccccccccccccccccccbbbbbbbaa79cccccccccccccccccccccbbbbbbbaa79cccccccccccccccccccccbbbbbbbaa79cccccccccccccccccccccbbbbbbbaa79cccccccccccccccccccccbbbbbbbaa79cccccccccccccccccccccbbbbbbbaa79cccccccccccccccccccccbbbbbbbaa79cccccccccccccccc)
  (.lf 0))) (.nd (.nd (.lf
  0x100100100100100100100100100100100100111111111111111333333333330012100100121212121212121210010010010012100121001210012100121210100100100100100100100100100100100100100100100100100100100100100100100100100100100100100100100100100100100100100100100100100100100)
  (.lf 0)) (.nd (.lf
  0x1111111111444444444444444444444444444444111111111111111111111111111111114444444444444444444444444444441111111111111111111111111111111144444444444444444444444444444411111111111111111111111111111111444444444444444444444444444444111111111111111111111111111111)
  (.lf 0)))

def shaXorFan27 : BTree :=
  .nd (.nd (.nd (.lf
  0x1001111111111111100121001212121001001212100121210012100100100121001212121212121001001211001001001001001001001001001001001001001001001001001001001001001001001001001001001001001001001001001001001001001001001001001001001001001001001001001001001001001001001001)
  (.lf 0)) (.nd (.lf
  0x1111311111111111111111111111111111112111111111111111111111111111111311111111111111111111111111111113111111111111111111111111111112011111111111111111111111111111301111111111111111111111111111113011111111111111111111111111112011111111111111111111111111111120)
  (.lf 0))) (.nd (.nd (.lf
  0x1001001001001001001001001001001001001001001001001001001001001001001001001001001001001001001001001001001001001001001001001001001001001001001001001001001001001001001001001001001001001001001001001001001001001001001001001001001001001001001001001001001001001001)
  (.lf 0)) (.nd (.lf
  0x3333333331111111111111111111111111111111144444444444444444444444444444411111111111111111111111111111111444444444444444444444444444444111111111111111111111111111111114444444444444444444444444444441111111111111111111111111111111144444444444444444444444444444)
  (.lf 0)))

def shaXorFan28 : BTree :=
  .nd (.nd (.nd (.lf
  0x100100100100100100100100100100100100100100100100100100100100100100100100100100100100100100100100100100100100100100100100100100100100100100100100100100100100100100100100100100100100100100100100100100100100100100100100100100100100100100100100100100100100100)
  (.lf 0)) (.nd (.lf
  0x111111111111111111111111111111110000000000000000000000000000000000000000000000000000000000000000111111111111111111111111111111110000000000000000000000000000000000000000000000000000000000000000111111111111111)
  (.lf 0))) (.nd (.nd (.lf
  0x10010010010010010010010011111111111111111111133333333333333333001001210010010010010012100100100100100121210012121210010010010012121212101001001001001001001001001001001001001001001001001001001001001001001001001001001001001001001001001001001001001001001001)
  (.lf 0)) (.nd (.lf
  0x1111114444444444444444444444444444441111111111111111111111111111111144444444444444444444444444444411111111111111111111111111111111444444444444444444444444444444111111111111111111111111111111114444444444444444444444444444441111111111111111111111111111111144)
  (.lf 0)))

def shaXorFan29 : BTree :=
  .nd (.nd (.nd (.lf
  0x1001212100110010010010010010010010010010010010010010010010010010010010010010010010010010010010010010010010010010010010010010010010010010010010010010010010010010010010010010010010010010010010010010010010010010010010010010010010010010010010010010010010010010)
  (.lf 0)) (.nd (.lf
  0x2222222222222211222222222222222222222222222222112222222222222222222222222222221122222222222222222222222222222211222222222222222222222222222222112222222222222222222222222222221122222222222222222222222222222211222222222222222222222222222222112222222222222222)
  (.lf 0))) (.nd (.nd (.lf
  0x10010010010010010010010010010010010010010010010010010010010010010010010010010010010010010010010010010010010010010010010010010010010010010010010010010010010010010010010010010010010010010010010010010010010010010010010010010010010010010010010010010010010010)
  (.lf 0)) (.nd (.lf
  0x4444444444444444444441111111111111111111111111111111144444444444444444444444444444411111111111111111111111111111111444444444444444444444444444444111111111111111111111111111111114444444444444444444444444444441111111111111111111111111111111144444444444444444)
  (.lf 0)))

def shaXorFan30 : BTree :=
  .nd (.nd (.nd (.lf
  0x1001001001001001001001001001001001001001001001001001001001001001001001001001001001001001001001001001001001001001001001001001001001001001001001001001001001001001001001001001001001001001001001001001001001001001001001001001001001001001001001001001001001001001)
  (.lf 0)) (.nd (.lf
  0x2222222222222211222222222222222222222222222222112222222222222222222222222222221122222222222222222222222222222211222222222222222222222222222222112222222222222222222222222222221122222222222222222222222222222211222222222222222222222222222222112222222222222222)
  (.lf 0))) (.nd (.nd (.lf
  0x1001001001001001001001001001001001001001001001001001001001001001001001001001001001001001001001001001001001001001001001001001001001001001001001001001001001001001001001001001001001001001001001001001001001001001001001001001001001001001001001001001001001001001)
  (.lf 0)) (.nd (.lf
  0x4444411111111111111111111111111111111444444444444444444444444444444133333333333331111111111111111111111111111111144444444444444444444444444444411111111111111111111111111111111444444444444444444444444444444111111111111111111111111111111114444444444444444444)
  (.lf 0)))

def shaXorFan31 : BTree :=
  .nd (.nd (.nd (.lf
  0x1001001001001001001001001001111111111111133333333333001210012121001001212100100100121212121212121001001210012121210012121010010010010010010010010010010010010010010010010010010010010010010010010010010010010010010010010010010010010010010010010010010010010010)
  (.lf 0)) (.nd (.lf
  0x2222222221122222222222222222222222222222211222222222222222222222222222222112222222222222222222222222222221122222222222222222222222222222211222222222222222222222222222222112222222222222222222222222222221122222222222222222222222222222211222222222222222222222)
  (.lf 0))) (.nd (.nd (.lf
  0x1111111111111111100000000000000000000000000000000111111111111111111111111111111110000000000000000000000000000000011111111111111111111111111111111000000000000000000000000000000001111111111111111111111111111111100000000000000000000000000000000111111111111111)
  (.lf 0)) (.nd (.lf
  0x1111111111111111111114444444444444444444444444444441111111111111111111111111111111144444444444444444444444444444411111111111111111111111111111111444444444444444444444444444444111111111111111111111111111111114444444444444444444444444444441111111111111111111)
  (.lf 0)))

def shaXorFan32 : BTree :=
  .nd (.nd (.nd (.lf
  0xacccccccccccccccccccccccccccccca6888888888888888888888888888888657777777777777777777777777777775244444444444444444444444444444428aaaaaaaaaaaaaaaaaaaaaaaaaaaaaa8577777777777777777777777777777754666666666666666666666666666666424444444444444444444444444444442)
  (.lf
  0x1111111444444444444444444444444444444111111111111111111111111111111114444444444444444444444444444441111111111111111111111111111111144444444444444444444444444444411111111111111111111111111111111444444444444444444444444444444111111111111111111111111111111114))
  (.nd (.lf
  0x1111111111111111100000000000000000000000000000000111111111111111111111111111111110000000000000000000000000000000011111111111111111111111111111111000000000000000000000000000000001111111111111111111111111111111100000000000000000000000000000000111111111111111)
  (.lf 0))) (.nd (.nd (.lf
  0x1001001001001001001001001001001001001001001001001001001001001001001001001001001001001001001001001001001001001001001001001001001001001001001001001001001001001001001001001001001001001001001001001001001001111111111111112100121210010010010012100100121001001001)
  (.lf 0)) (.nd (.lf
  0x2222222221122222222222222222222222222222211222222222222222222222222222222112222222222222222222222222222221122222222222222222222222222222211222222222222222222222222222222112222222222222222222222222222221122222222222222222222222222222211222222222222222222222)
  (.lf 0)))

def shaXorFan33 : BTree :=
  .nd (.nd (.nd (.lf
  0x1001001001001001001001001001001001001001001001001001001001001001001001001001001001001001001001001001001001001001001001001001001001001001001001001001001001001001001001001001001001001001001001001001001001001001001001001001001001001001001001001001001001001001)
  (.lf 0)) (.nd (.lf
  0x2222222222222211222222222222222222222222222222112222222222222222222222222222221122222222222222222222222222222211222222222222222222222222222222112222222222222222222222222222221122222222222222222222222222222211222222222222222222222222222222112222222222222222)
  (.lf 0))) (.nd (.nd (.lf
  0x1001001001001001001001001001001001001001001001001001001001001001001001001001001001001001001001001001001001001001001001001001001001001001001001001001001001001001001001001001001001001001001001001001001001001001001001001001001001001001001001001001001001001001)
  (.lf 0)) (.nd (.lf
  0x4444444444444411111111111111111111111111111111444444444444444444444444444444111111111111111111111111111111114444444444444444444444444444441111111111111111111111111111111144444444444444444444444444444411111111111111111111111111111111444444444444444444444444)
  (.lf 0)))

def shaXorFan34 : BTree :=
  .nd (.nd (.nd (.lf
  0x100100100100100100100100100100100100100100100100100100100100100100100100100100100100100100100100100100100100100100100100100100100100100100100100100100100100100100100100100100100100100100100100100100100100100100100100100100100100100100100100100100100100100)
  (.lf 0)) (.nd (.lf
  0x111111111111111111111111111111110000000000000000000000000000000000000000000000000000000000000000111111111111111111111111111111110000000000000000000000000000000000000000000000000000000000000000111111111111111)
  (.lf 0))) (.nd (.nd (.lf
  0x10010010010010010010010010010010010010010010010010010010010010010010010010010010010010010010010010010010010010010010010010010010010010010010010010010010010010010010010010010010010010010010010010010010011111111111111111133333333333333212100100121001001001)
  (.lf 0)) (.nd (.lf
  0x4444444444444444444444111111111111111111111111111111114444444444444444444444444444441111111111111111111111111111111144444444444444444444444444444411111111111111111111111111111111444444444444444444444444444444111111111111111111111111111111114444444444444444)
  (.lf 0)))

def shaXorFan35 : BTree :=
  .nd (.nd (.nd (.lf
  0x10010010010010010010010010010010010010010010010010010010010010010010010010010010010010010010010011111111111111113333333333333210012121001001001210012121001212121210010010012100100100121001212101001001001001001001001001001001001001001001001001001001001001)
  (.lf 0)) (.nd (.lf
  0x4444444444444422444444444444444444444444444444224444444444444444444444444444442244444444444444444444444444444422444444444444444444444444444444224444444444444444444444444444442244444444444444444444444444444422444444444444444444444444444444224444444444444444)
  (.lf 0))) (.nd (.nd (.lf
  0x10010010010010010010010010010010010010010010010010010010010010010010010010010010010010010010010010010010010010010010010010010010010010010010010010010010010010010010010010010010010010010010010010010010010010010010010010010010010010010010010010010010010010)
  (.lf 0)) (.nd (.lf
  0x4444444444444444444111111111111111111111111111111114444444444444444444444444444441111111111111111111111111111111144444444444444444444444444444411111111111111111111111111111111444444444444444444444444444444111111111111111111111111111111114444444444444444444)
  (.lf 0)))

def shaXorFan36 : BTree :=
  .nd (.nd (.nd (.lf
  0x1111111111111111111111111111111111111111111111111111111111111111111111111111111111111111111111111111111111111111111001001001001001001001001001001001001001001001001001001001001001001001001001001001001001001111111111111111111111111111111111111111111111111111)
  (.lf 0x0)) (.nd (.lf
  0x1111111111111111100000000000000000000000000000000000000000000000000000000000000001111111111111111111111111111111100000000000000000000000000000000000000000000000000000000000000001111111111111111111111111111111100000000000000000000000000000000000000000000000)
  (.lf 0))) (.nd (.nd (.lf
  0x1001001001001001001001001001001001001001001001001001001001001001001001001001001001001001001001001001001001001001001001001001001001001001001001001001001001001001001001001001001001001001001001001001001001001001001001001111111111111111110010010012100100121001)
  (.lf 0)) (.nd (.lf
  0x4444444444444444441111111111111111111111111111111144444444444444444444444444444411111111111111111111111111111111444444444444444444444444444444111111111111111111111111111111114444444444444444444444444444441111111111111111111111111111111144444444444444444444)
  (.lf 0)))

def shaXorFan37 : BTree :=
  .nd (.nd (.nd (.lf
  0x1001001001001001001001001001001001001001001001001001001001001001001001001001001001001001001001001001001001001001001001001001111111111212121001001212100100121212100100100121212121212100121212121100100100100100100100100100100100100100100100100100100100100100)
  (.lf 0)) (.nd (.lf
  0x2222222222222211222222222222222222222222222222112222222222222222222222222222221122222222222222222222222222222211222222222222222222222222222222112222222222222222222222222222221122222222222222222222222222222211222222222222222222222222222222112222222222222222)
  (.lf 0))) (.nd (.nd (.lf
  0x100100100100100100100100100100100100100100100100100100100100100100100100100100100100100100100100100100100100100100100100100100100100100100100100100100100100100100100100100100100100100100100100100100100100100100100100100100100100100100100100100100100100100)
  (.lf 0)) (.nd (.lf
  0x4444444444111111111111111111111111111111114444444444444444444444444444441111111111111111111111111111111144444444444444444444444444444411111111111111111111111111111111444444444444444444444444444444111111111111111111111111111111114444444444444444444444444444)
  (.lf 0)))

def shaXorFan38 : BTree :=
  .nd (.nd (.nd (.lf
  0x10010010010010010010010010010010010010010010010010010010010010010010010010010010010010010010010010010010010010010010010010010010010010010010010010010010010010010010010010010010010010010010010010010010010010010010010010010010010010010010010010010010010010)
  (.lf 0)) (.nd (.lf
  0x2222222222222211222222222222222222222222222222112222222222222222222222222222221122222222222222222222222222222211222222222222222222222222222222112222222222222222222222222222221122222222222222222222222222222211222222222222222222222222222222112222222222222222)
  (.lf 0))) (.nd (.nd (.lf
  0x100100100100100100100100100100100100100100100100100100100100100100100100100100100100100100100100100100100100100100100100100100100100100100100100100100100100100100100100100100100100100100100100100100100100100100100100100100100100100111111111111111100121001)
  (.lf 0)) (.nd (.lf
  0x1111111111114444444444444444444444444444441333333331111111111111111111111111111111144444444444444444444444444444411111111111111111111111111111111444444444444444444444444444444111111111111111111111111111111114444444444444444444444444444441111111111111111111)
  (.lf 0)))

def shaXorFan39 : BTree :=
  .nd (.nd (.nd (.lf
  0x10010010010010010010010010010010010010010010010010010010010010010010010010010010010010010010010010010010010010010010010010010010010010010010010010010010010010010010010010011111111111111133333333333210012100121212121212100100121001212100100121210010012121)
  (.lf 0)) (.nd (.lf
  0x2222222221122222222222222222222222222222211222222222222222222222222222222112222222222222222222222222222221122222222222222222222222222222211222222222222222222222222222222112222222222222222222222222222221122222222222222222222222222222211222222222222222222222)
  (.lf 0))) (.nd (.nd (.lf
  0x1111111111111111111111111111111111111111111111111111111111111111111111111111111111111111111111111111111111111111111111111111111111111111111111111111111111111111111111111111111111111111111111111111111111111111111111111111111111111111111111111111111111111111)
  (.lf 0)) (.nd (.lf
  0x1114444444444444444444444444444441111111111111111111111111111111144444444444444444444444444444411111111111111111111111111111111444444444444444444444444444444111111111111111111111111111111114444444444444444444444444444441111111111111111111111111111111144444)
  (.lf 0)))

def shaXorFan40 : BTree :=
  .nd (.nd (.nd (.lf
  0x9aaaaaaaaaaaaaaaaaaaaaaaaaaaaaa99aaaaaaaaaaaaaaaaaaaaaaaaaaaaaa99aaaaaaaaaaaaaaaaaaaaaaaaaaaaaa99aaaaaaaaaaaaaaaaaaaaaaaaaaaaaa978888888888888888888888888888887788888888888888888888888888888877888888888888888888888888888888778888888888888888888888888888887)
  (.lf
  0x1111111114444444444444444444444444444441111111111111111111111111111111144444444444444444444444444444411111111111111111111111111111111444444444444444444444444444444111111111111111111111111111111114444444444444444444444444444441111111111111111111111111111111))
  (.nd (.lf
  0x1111111111111111111111111111111111111111111111111111111111111111111111111111111111111111111111111111111111111111111111111111111111111111111111111111111111111111111111111111111111111111111111111111111111111111111111111111111111111111111111111111111111111111)
  (.lf 0))) (.nd (.nd (.lf
  0x100121001210010012121001210010010010010010010010010012121210010100100100100100100100100100100100100100100100100100100100100100100100100100100100100100100100100100100100100100100100100100100100100100100100100100100100100100100100100100100100100100100100100)
  (.lf 0)) (.nd (.lf
  0x2222222221122222222222222222222222222222211222222222222222222222222222222112222222222222222222222222222221122222222222222222222222222222211222222222222222222222222222222112222222222222222222222222222221122222222222222222222222222222211222222222222222222222)
  (.lf 0)))

def shaXorFan41 : BTree :=
  .nd (.nd (.nd (.lf
  0x10010010010010010010010010010010010010010010010010010010010010010010010010010010010010010010010010010010010010010010010010010010010010010010010010010010010010010010010010010010010010010010010010010010010010010010010010010010010010010010010010010010010010)
  (.lf 0)) (.nd (.lf
  0x2222222222222211222222222222222222222222222222112222222222222222222222222222221122222222222222222222222222222211222222222222222222222222222222112222222222222222222222222222221122222222222222222222222222222211222222222222222222222222222222112222222222222222)
  (.lf 0))) (.nd (.nd (.lf
  0x10010010010010010010010010010010010010010010010010010010010010010010010010010010010010010010010010010010010010010010010010010010010010010010010010010010010010010010010010010010010010010010010010010010010010010010010010010010010010010010010010010010010010)
  (.lf 0)) (.nd (.lf
  0x1111114444444444444444444444444444441111111111111111111111111111111144444444444444444444444444444411111111111111111111111111111111444444444444444444444444444444111111111111111111111111111111114444444444444444444444444444441111111111111111111111111111111144)
  (.lf 0)))

def shaXorFan42 : BTree :=
  .nd (.nd (.nd (.lf
  0x1001001001001001001001001001001001001001001001001001001001001001001001001001001001001001001001001001001001001001001001001001001001001001001001001001001001001001001001001001001001001001001001001001001001001001001001001001001001001001001001001001001001001001)
  (.lf 0)) (.nd (.lf
  0xcccccbbbbbbbaa79cccccccccccccccccccccbbbbbbbaa79cccccccccccccccccccccbbbbbbbaa79cccccccccccccccccccccbbbbbbbaa79cccccccccccccccccccccbbbbbbbaa79cccccccccccccccccccccbbbbbbbaa79cccccccccccccccccccccbbbbbbbaa79cccccccccccccccccccccbbbbbbbaa79cccccccccccccccc)
  (.lf 0))) (.nd (.nd (.lf
  0x2100121212121210010012100121001001210010012121212121211001001001001001001001001001001001001001001001001001001001001001001001001001001001001001001001001001001001001001001001001001001001001001001001001001001001001001001001001001001001001001001001001001001001)
  (.lf 0)) (.nd (.lf
  0x4444444444444444444444441111111111111111111111111111111144444444444444444444444444444411111111111111111111111111111111444444444444444444444444444444111111111111111111111111111111114444444444444444444444444444441111111111111111111111111111111144444444444444)
  (.lf 0)))

def shaXorFan43 : BTree :=
  .nd (.nd (.nd (.lf
  0x121212100121100100100100100100100100100100100100100100100100100100100100100100100100100100100100100100100100100100100100100100100100100100100100100100100100100100100100100100100100100100100100100100100100100100100100100100100100100100100100100100100100100)
  (.lf 0)) (.nd (.lf
  0x1111111111111111111112011111111111111111111111111120111111111111111111111111111111301111111111111111111111111111113011111111111111111111111111111131111111111111111111111111111111211111111111111111111111111111113111111111111111111111111111111121111111111111)
  (.lf 0))) (.nd (.nd (.lf
  0x100100100100100100100100100100100100100100100100100100100100100100100100100100100100100100100100100100100100100100100100100100100100100100100100100100100100100100100100100100100100100100100100100100100100100100100100100100100100100100100100100100100100100)
  (.lf 0)) (.nd (.lf
  0x4444444111111111111111111111111111111114444444444444444444444444444441111111111111111111111111111111144444444444444444444444444444413333333333333333331111111111111111111111111111111144444444444444444444444444444411111111111111111111111111111111444444444444)
  (.lf 0)))

def shaXorFan44 : BTree :=
  .nd (.nd (.nd (.lf
  0x1111111111111111111111111111111111111111111111111111111111111111111111111111111111111111111111111111111111111111111111111111111111111111111111111111111111111111111111111111111111111111111111111111111111111111111111111111111111111111111111111111111111111111)
  (.lf 0)) (.nd (.lf
  0x11111111111111111111111111111111000000000000000000000000000000000000000000000000000000000000000011111111111111111111111111111111000000000000000000000000000000000000000000000000000000000000000011111111111111111111111111111111000000000000000)
  (.lf 0))) (.nd (.nd (.lf
  0x1113333333333333321212100100100100100100121212121210010012121001001001210010010012121210100100100100100100100100100100100100100100100100100100100100100100100100100100100100100100100100100100100100100100100100100100100100100100100100100100100100100100100100)
  (.lf 0)) (.nd (.lf
  0x4444444444444444444411111111111111111111111111111111444444444444444444444444444444111111111111111111111111111111114444444444444444444444444444441111111111111111111111111111111144444444444444444444444444444411111111111111111111111111111111444444444444444444)
  (.lf 0)))

def shaXorFan45 : BTree :=
  .nd (.nd (.nd (.lf
  0x10010010010010010010010010010010010010010010010010010010010010010010010010010010010010010010010010010010010010010010010010010010010010010010010010010010010010010010010010010010010010010010010010010010010010010010010010010010010010010010010010010010010010)
  (.lf 0)) (.nd (.lf
  0x2222222222222211222222222222222222222222222222112222222222222222222222222222221122222222222222222222222222222211222222222222222222222222222222112222222222222222222222222222221122222222222222222222222222222211222222222222222222222222222222112222222222222222)
  (.lf 0))) (.nd (.nd (.lf
  0x1001001001001001001001001001001001001001001001001001001001001001001001001001001001001001001001001001001001001001001001001001001001001001001001001001001001001001001001001001001001001001001001001001001001001001001001001001001001001001001001001001001001001001)
  (.lf 0)) (.nd (.lf
  0x4444411111111111111111111111111111111444444444444444444444444444444111111111111111111111111111111114444444444444444444444444444441111111111111111111111111111111144444444444444444444444444444411111111111111111111111111111111444444444444444444444444444444111)
  (.lf 0)))

def shaXorFan46 : BTree :=
  .nd (.nd (.nd (.lf
  0x100100100100100100100100100100100100100100100100100100100100100100100100100100100100100100100100100100100100100100100100100100100100100100100100100100100100100100100100100100100100100100100100100100100100100100100100100100100100100100100100100100100100100)
  (.lf 0)) (.nd (.lf
  0x2222222222222211222222222222222222222222222222112222222222222222222222222222221122222222222222222222222222222211222222222222222222222222222222112222222222222222222222222222221122222222222222222222222222222211222222222222222222222222222222112222222222222222)
  (.lf 0))) (.nd (.nd (.lf
  0x100100100100100100100100100100100100100100100100100100100100100100100100100100100100100100100100100100100100100100100100100100100100100100100100100100100100100100100100100100100100100100100100100100121212121001210012121210012100121212100121001001001001001)
  (.lf 0)) (.nd (.lf
  0x4441111111111111111111111111111111144444444444444444444444444444413333333333333331111111111111111111111111111111144444444444444444444444444444411111111111111111111111111111111444444444444444444444444444444111111111111111111111111111111114444444444444444444)
  (.lf 0)))

def shaXorFan47 : BTree :=
  .nd (.nd (.nd (.lf
  0x121212121001210012121001001001212100100121001210011001001001001001001001001001001001001001001001001001001001001001001001001001001001001001001001001001001001001001001001001001001001001001001001001001001001001001001001001001001001001001001001001001001001001)
  (.lf 0)) (.nd (.lf
  0x2222222221122222222222222222222222222222211222222222222222222222222222222112222222222222222222222222222221122222222222222222222222222222211222222222222222222222222222222112222222222222222222222222222221122222222222222222222222222222211222222222222222222222)
  (.lf 0))) (.nd (.nd (.lf
  0x1111111111111111100000000000000000000000000000000111111111111111111111111111111110000000000000000000000000000000011111111111111111111111111111111000000000000000000000000000000001111111111111111111111111111111100000000000000000000000000000000111111111111111)
  (.lf 0)) (.nd (.lf
  0x1111144444444444444444444444444444411111111111111111111111111111111444444444444444444444444444444111111111111111111111111111111114444444444444444444444444444441111111111111111111111111111111144444444444444444444444444444411111111111111111111111111111111444)
  (.lf 0)))

def shaXorFan48 : BTree :=
  .nd (.nd (.nd (.lf
  0x9aaaaaaaaaaaaaaaaaaaaaaaaaaaaaa99aaaaaaaaaaaaaaaaaaaaaaaaaaaaaa99aaaaaaaaaaaaaaaaaaaaaaaaaaaaaa99aaaaaaaaaaaaaaaaaaaaaaaaaaaaaa978888888888888888888888888888887788888888888888888888888888888877888888888888888888888888888888778888888888888888888888888888887)
  (.lf
  0x4444444111111111111111111111111111111114444444444444444444444444444441111111111111111111111111111111144444444444444444444444444444411111111111111111111111111111111444444444444444444444444444444111111111111111111111111111111114444444444444444444444444444441))
  (.nd (.lf
  0x1111111111111111111111111111111111111111111111111111111111111111111111111111111111111111111111111111111111111111111111111111111111111111111111111111111111111111111111111111111111111111111111111111111111111111111111111111111111111111111111111111111111111111)
  (.lf 0))) (.nd (.nd (.lf
  0x1001001001001001001001001001001001001001001001001001001001001001001001001001001001001001001001001001001001001001001001001001001001001001001001001001001001001001001001001001001001001001001001001001001001001001001001001001001001001001001001001001001001001001)
  (.lf 0)) (.nd (.lf
  0x2222222221122222222222222222222222222222211222222222222222222222222222222112222222222222222222222222222221122222222222222222222222222222211222222222222222222222222222222112222222222222222222222222222221122222222222222222222222222222211222222222222222222222)
  (.lf 0)))

def shaXorFan49 : BTree :=
  .nd (.nd (.nd (.lf
  0x100100100100100100100100100100100100100100100100100100100100100100100100100100100100100100100100100100100100100100100100100100100100100100100100100100100100100100100100100100100100100100100100100100100100100100100100100100100100100100100100100100100100100)
  (.lf 0)) (.nd (.lf
  0x2222222222222211222222222222222222222222222222112222222222222222222222222222221122222222222222222222222222222211222222222222222222222222222222112222222222222222222222222222221122222222222222222222222222222211222222222222222222222222222222112222222222222222)
  (.lf 0))) (.nd (.nd (.lf
  0x100100100100100100100100100100100100100100100100100100100100100100100100100100100100100100100100100100100100100100100100100100100100100100100100100100100100100100100100100100100100100100100100100100100100100100100100100100100100100100100100100100100100100)
  (.lf 0)) (.nd (.lf
  0x4444444444444444441111111111111111111111111111111144444444444444444444444444444413333333333311111111111111111111111111111111444444444444444444444444444444111111111111111111111111111111114444444444444444444444444444441111111111111111111111111111111144444444)
  (.lf 0)))

def shaXorFan50 : BTree :=
  .nd (.nd (.nd (.lf
  0x10010010010010010010010010010010010010010010010010010010010010010010010010010010010010010010010010010010010010010010010010010010010010010010010010010010010010010010010010010010010010010010010010010010010010010010010010010010010010010010010010010010010010)
  (.lf 0)) (.nd (.lf
  0x1111111111111110000000000000000000000000000000011111111111111111111111111111111000000000000000000000000000000001111111111111111111111111111111111111111111111111111111111111111000000000000000000000000000000000000000000000000000000000000000011111111111111111)
  (.lf 0))) (.nd (.nd (.lf
  0x100100100100100100100100100100100100100100100100100100100100100100100100100100100100100100100100100100100100100100100100100100100100100100100100100100100100100100100100100100100100100100100100100100100100100100100100100100100100100100100100100100100100100)
  (.lf 0)) (.nd (.lf
  0x1111111111111111111111114444444444444444444444444444441111111111111111111111111111111144444444444444444444444444444411111111111111111111111111111111444444444444444444444444444444111111111111111111111111111111114444444444444444444444444444441111111111111111)
  (.lf 0)))

def shaXorFan51 : BTree :=
  .nd (.nd (.nd (.lf
  0x10010010010010010010010010010010010010010010010010010010010010010010010010010010010010010010010010010010010010010010010010010010010010010010010010010010010010010010010010010010010010010010010010010010010010010010010010010010010010011111111111113333333333)
  (.lf 0)) (.nd (.lf
  0x1111111111111111111111201111111111111111111111111112011111111111111111111111111111201111111111111111111111111111113011111111111111111111111111111130111111111111111111111111111112244444444444444444444444444442444444444444444444444444444444224444444444444444)
  (.lf 0))) (.nd (.nd (.lf
  0x1001001001001001001001001001001001001001001001001001001001001001001001001001001001001001001001001001001001001001001001001001001001001001001001001001001001001001001001001001001001001001001001001001001001001001001001001001001001001001001001001001001001001001)
  (.lf 0)) (.nd (.lf
  0x4444444444444444444444411111111111111111111111111111111444444444444444444444444444444111111111111111111111111111111114444444444444444444444444444441333333333333333311111111111111111111111111111111444444444444444444444444444444111111111111111111111111111111)
  (.lf 0)))

def shaXorFan52 : BTree :=
  .nd (.nd (.nd (.lf
  0x1111111111111111111111111111111111111111111111111111111111111111111111111111111111111111111111111111111111111111111111111111111111111111111111111111111111111111111111111111111111111111111111111111111111111111111111111111111111111111111111111111111111111111)
  (.lf 0)) (.nd (.lf
  0x111111111111111111111111111111110000000000000000000000000000000000000000000000000000000000000000111111111111111111111111111111110000000000000000000000000000000000000000000000000000000000000000111111111111111)
  (.lf 0))) (.nd (.nd (.lf
  0x1001001001001001001001001001001001001001001001001001001001001001001001001001001001001001001001001001001001001001001001001001001001001001001001001001001001001001001001001001001001001001001001001001001001001001001001001001001001001001001001001001001001001001)
  (.lf 0)) (.nd (.lf
  0x1111111111111111111144444444444444444444444444444411111111111111111111111111111111444444444444444444444444444444111111111111111111111111111111114444444444444444444444444444441111111111111111111111111111111144444444444444444444444444444411111111111111111111)
  (.lf 0)))

def shaXorFan53 : BTree :=
  .nd (.nd (.nd (.lf
  0x1001001001001001001001001001001001001001001001001001001001001001001001001001001001001001001001001001001001001001001001001001001001001001001001001001001001001001001001001001001001001001001001001001001001001001001001001001001001001001001001001001111111111111)
  (.lf 0)) (.nd (.lf
  0x2222222222222211222222222222222222222222222222112222222222222222222222222222221122222222222222222222222222222211222222222222222222222222222222112222222222222222222222222222221122222222222222222222222222222211222222222222222222222222222222112222222222222222)
  (.lf 0))) (.nd (.nd (.lf
  0x10010010010010010010010010010010010010010010010010010010010010010010010010010010010010010010010010010010010010010010010010010010010010010010010010010010010010010010010010010010010010010010010010010010010010010010010010010010010010010010010010010010010010)
  (.lf 0)) (.nd (.lf
  0x1111111111111111114444444444444444444444444444441111111111111111111111111111111144444444444444444444444444444413333333333333333311111111111111111111111111111111444444444444444444444444444444111111111111111111111111111111114444444444444444444444444444441111)
  (.lf 0)))

def shaXorFan54 : BTree :=
  .nd (.nd (.nd (.lf
  0x1001001001001001001001001001001001001001001001001001001001001001001001001001001001001001001001001001001001001001001001001001001001001001001001001001001001001001001001001001001001001001001001001001001001001001001001001001001001001001001001001001001001001001)
  (.lf 0)) (.nd (.lf
  0x2222222222222211222222222222222222222222222222112222222222222222222222222222221122222222222222222222222222222211222222222222222222222222222222112222222222222222222222222222221122222222222222222222222222222211222222222222222222222222222222112222222222222222)
  (.lf 0))) (.nd (.nd (.lf
  0x1001001001001001001001001001001001001001001111111111111111111113333333333333333321001001210012100100100121212121212100100100100100121001001001001212100100101001001001001001001001001001001001001001001001001001001001001001001001001001001001001001001001001001)
  (.lf 0)) (.nd (.lf
  0x4411111111111111111111111111111111444444444444444444444444444444111111111111111111111111111111114444444444444444444444444444441111111111111111111111111111111144444444444444444444444444444411111111111111111111111111111111444444444444444444444444444444111111)
  (.lf 0)))

def shaXorFan55 : BTree :=
  .nd (.nd (.nd (.lf
  0x10010010010010010010010010010010010010010010010010010010010010010010010010010010010010010010010010010010010010010010010010010010010010010010010010010010010010010010010010010010010010010010010010010010010010010010010010010010010010010010010010010010010010)
  (.lf 0)) (.nd (.lf
  0x2222222221122222222222222222222222222222211222222222222222222222222222222112222222222222222222222222222221122222222222222222222222222222211222222222222222222222222222222112222222222222222222222222222221122222222222222222222222222222211222222222222222222222)
  (.lf 0))) (.nd (.nd (.lf
  0x1111111111111111100000000000000000000000000000000111111111111111111111111111111110000000000000000000000000000000011111111111111111111111111111111000000000000000000000000000000001111111111111111111111111111111100000000000000000000000000000000111111111111111)
  (.lf 0)) (.nd (.lf
  0x4441111111111111111111111111111111144444444444444444444444444444411111111111111111111111111111111444444444444444444444444444444111111111111111111111111111111114444444444444444444444444444441111111111111111111111111111111144444444444444444444444444444411111)
  (.lf 0)))

def shaXorFan56 : BTree :=
  .nd (.nd (.nd (.lf
  0x7888888888888888888888888888888778888888888888888888888888888887788888888888888888888888888888877888888888888888888888888888888778888888888888888888888888888887788888888888888888888888888888877888888888888888888888888888888778888888888888888888888888888887)
  (.lf
  0x4444444441111111111111111111111111111111144444444444444444444444444444411111111111111111111111111111111444444444444444444444444444444111111111111111111111111111111114444444444444444444444444444441111111111111111111111111111111144444444444444444444444444444))
  (.nd (.lf
  0x11111111111111111111111111111111000000000000000000000000000000000000000000000000000000000000000011111111111111111111111111111111000000000000000000000000000000000000000000000000000000000000000011111111111111111111111111111111000000000000000)
  (.lf 0))) (.nd (.nd (.lf
  0x100100100100100100100100100100100100100100100100100100100100100100100100100100100100111111111111111210012100121212121210010012121210010010012121210010012121001001210010011001001001001001001001001001001001001001001001001001001001001001001001001001001001001)
  (.lf 0)) (.nd (.lf
  0x1111111111111111114444444444444444444444444444441111111111111111111111111111111144444444444444444444444444444411111111111111111111111111111111444444444444444444444444444444111111111111111111111111111111114444444444444444444444444444441222222222222222222222)
  (.lf 0)))

def shaXorFan57 : BTree :=
  .nd (.nd (.nd (.lf
  0x1113333333333332100121210012121210012100121212121210010012100100121210010010012100121010010010010010010010010010010010010010010010010010010010010010010010010010010010010010010010010010010010010010010010010010010010010010010010010010010010010010010010010010)
  (.lf 0)) (.nd (.lf
  0x2222222222222211222222222222222222222222222222112222222222222222222222222222221122222222222222222222222222222211222222222222222222222222222222112222222222222222222222222222221122222222222222222222222222222211222222222222222222222222222222112222222222222222)
  (.lf 0))) (.nd (.nd (.lf
  0x1001001001001001001001001001001001001001001001001001001001001001001001001001001001001001001001001001001001001001001001001001001001001001001001001001001001001001001001001001001001001001001001001001001001001001001001001001001001001001001001001001001001001001)
  (.lf 0)) (.nd (.lf
  0x1111111111111111111111144444444444444444444444444444411111111111111111111111111111111444444444444444444444444444444111111111111111111111111111111114444444444444444444444444444441111111111111111111111111111111144444444444444444444444444444411111111111111111)
  (.lf 0)))

def shaXorFan58 : BTree :=
  .nd (.nd (.nd (.lf
  0x100100100100100100100100100100100100100100100100100100100100100100100100100100100100100100100100100100100100100100100100100100100100100100100100100100100100100100100100100100100100100100100100100100100100100100100100100100100100100100100100100100100100100)
  (.lf 0)) (.nd (.lf
  0x2222222222222211222222222222222222222222222222112222222222222222222222222222221122222222222222222222222222222211222222222222222222222222222222112222222222222222222222222222221122222222222222222222222222222215666666666666666666666666666666567777777777777777)
  (.lf 0))) (.nd (.nd (.lf
  0x100100100100100100100100100100100100100100100100100100100100100100100100100100100100100100100100111111111111111111210012100121001001212121001001001212121001210010010010012100100121001210011001001001001001001001001001001001001001001001001001001001001001001)
  (.lf 0)) (.nd (.lf
  0x1111111111444444444444444444444444444444133333333333333311111111111111111111111111111111444444444444444444444444444444111111111111111111111111111111114444444444444444444444444444441111111111111111111111111111111144444444444444444444444444444411111111111111)
  (.lf 0)))

def shaXorFan59 : BTree :=
  .nd (.nd (.nd (.lf
  0x10010010010010010010010010010010010010010010010010011111111111111111333333333333300121212100100100121001001210010012121210012100121212100100121001212121010010010010010010010010010010010010010010010010010010010010010010010010010010010010010010010010010010)
  (.lf 0)) (.nd (.lf
  0x2222222221122222222222222222222222222222211222222222222222222222222222222112222222222222222222222222222221122222222222222222222222222222211222222222222222222222222222222112222222222222222222222222222221122222222222222222222222222222211111111111111111111111)
  (.lf 0))) (.nd (.nd (.lf
  0x1111111111111111111111111111111111111111111111111111111111111111111111111111111111111111111111111111111111111111111111111111111111111111111111111111111111111111111111111111111111111111111111111111111111111111111111111111111111111111111111111111111111111111)
  (.lf 0)) (.nd (.lf
  0x4111111111111111111111111111111114444444444444444444444444444441111111111111111111111111111111144444444444444444444444444444411111111111111111111111111111111444444444444444444444444444444111111111111111111111111111111114444444444444444444444444444441111111)
  (.lf 0)))

def shaXorFan60 : BTree :=
  .nd (.nd (.nd (.lf
  0x1001001001001001001001001001001001001001001001001001001001001001001001001001001001001001001001001001001001001001001001001001001001001001001001001001001001001001001001001001001001001001001001001001001001001001001001001001001001001001001001001001001001001001)
  (.lf 0)) (.nd (.lf
  0x1111111111111111100000000000000000000000000000000000000000000000000000000000000001111111111111111111111111111111100000000000000000000000000000000000000000000000000000000000000001111111111111111111111111111111100000000000000000000000000000000000000000000000)
  (.lf 0))) (.nd (.nd (.lf
  0x1001001001001001001001001001001001001001001001001001001001001001001001001001001001001001001111111111111111001001212100121210012121001001210010012100100121001212100100100121212121100100100100100100100100100100100100100100100100100100100100100100100100100100)
  (.lf 0)) (.nd (.lf
  0x1111111111111111111111444444444444444444444444444444111111111111111111111111111111114444444444444444444444444444441111111111111111111111111111111144444444444444444444444444444411111111111111111111111111111111444444444444444444444444444444111111111111111111)
  (.lf 0)))

def shaXorFan61 : BTree :=
  .nd (.nd (.nd (.lf
  0x3333333210010010012121001212121001001001212121212121001001212100121001001212101001001001001001001001001001001001001001001001001001001001001001001001001001001001001001001001001001001001001001001001001001001001001001001001001001001001001001001001001001001001)
  (.lf 0)) (.nd (.lf
  0x4444444444444422444444444444444444444444444444224444444444444444444444444444442244444444444444444444444444444422444444444444444444444444444444224444444444444444444444444444442122222222222222222222222222222211222222222222222222222222222222112222222222222222)
  (.lf 0))) (.nd (.nd (.lf
  0x100100100100100100100100100100100100100100100100100100100100100100100100100100100100100100100100100100100100100100100100100100100100100100100100100100100100100100100100100100100100100100100100100100100100100100100100100100100100100100100100100100100100100)
  (.lf 0)) (.nd (.lf
  0x4444441111111111111111111111111111111144444444444444444444444444444411111111111111111111111111111111444444444444444444444444444444133333333333333311111111111111111111111111111111444444444444444444444444444444111111111111111111111111111111114444444444444444)
  (.lf 0)))

def shaXorFan62 : BTree :=
  .nd (.nd (.nd (.lf
  0x10010010010010010010010010010010010010010010010010010010010010010010010010010010010010010010010010010010010010010010010010010010010010010010010010010010010010010010010010010010010010010010010010010010010010010010010010010010010010010010010010010010010010)
  (.lf 0)) (.nd (.lf
  0x2222222222222211222222222222222222222222222222112222222222222222222222222222221122222222222222222222222222222211222222222222222222222222222222112222222222222222222222222222221122222222222222222222222222222211222222222222222222222222222222112222222222222222)
  (.lf 0))) (.nd (.nd (.lf
  0x10010010010010010010010010010010010010010010010010010010010010010010010010010010010010010010010010010010010010010010010010010010010010010010010010010010010010010010010010010010010010010010010010010010010010010010010010010010010010010010010010010010010010)
  (.lf 0)) (.nd (.lf
  0x4444444444444444444441111111111111111111111111111111144444444444444444444444444444411111111111111111111111111111111444444444444444444444444444444111111111111111111111111111111114444444444444444444444444444441111111111111111111111111111111144444444444444444)
  (.lf 0)))

def shaXorFan63 : BTree :=
  .nd (.nd (.nd (.lf
  0x100100100100100100100100100100100100100100100100100100100100100100100100111111111111111111133333333333333330012121001001210012121001210010012121210010012100100121001001001001001010010010010010010010010010010010010010010010010010010010010010010010010010010)
  (.lf 0)) (.nd (.lf
  0x2222222221122222222222222222222222222222211222222222222222222222222222222112222222222222222222222222222221122222222222222222222222222222211222222222222222222222222222222112222222222222222222222222222221122222222222222222222222222222211222222222222222222222)
  (.lf 0))) (.nd (.nd (.lf
  0x1111111111111111100000000000000000000000000000000111111111111111111111111111111110000000000000000000000000000000011111111111111111111111111111111000000000000000000000000000000001111111111111111111111111111111100000000000000000000000000000000111111111111111)
  (.lf 0)) (.nd (.lf
  0x4444411111111111111111111111111111111444444444444444444444444444444111111111111111111111111111111114444444444444444444444444444441111111111111111111111111111111144444444444444444444444444444411111111111111111111111111111111444444444444444444444444444444111)
  (.lf 0)))

def shaXorFan64 : BTree :=
  .nd (.nd (.nd (.lf
  0x2444444444444444444444444444444257777777777777777777777777777664577777777777777777777777777776645777777777777777777777777777766457777777777777777777777777777664577777777777777777777777777776645777777777777777777777777777766457777777777777777777777777777664)
  (.lf
  0x4444444444444444444444444444411111111111111111111111111111111444444444444444444444444444444111111111111111111111111111111114444444444444444444444444444441111111111111111111111111111111144444444444444444444444444444411111111111111111111111111111111444444444))
  (.nd (.lf
  0x1111111111111111100000000000000000000000000000000111111111111111111111111111111110000000000000000000000000000000011111111111111111111111111111111000000000000000000000000000000001111111111111111111111111111111100000000000000000000000000000000111111111111111)
  (.lf 0))) (.nd (.nd (.lf
  0x2121212100121001210012121212100110010010010010010010010010010010010010010010010010010010010010010010010010010010010010010010010010010010010010010010010010010010010010010010010010010010010010010010010010010010010010010010010010010010010010010010010010010010)
  (.lf 0)) (.nd (.lf
  0x2222222221122222222222222222222222222222211222222222222222222222222222222112222222222222222222222222222221122222222222222222222222222222211222222222222222222222222222222112222222222222222222222222222221122222222222222222222222222222211222222222222222222222)
  (.lf 0)))

def shaXorFan65 : BTree :=
  .nd (.nd (.nd (.lf
  0x10010010010010010010010010010010010010010010010010010010010010010010010010010010010010010010010010010010010010010010010010010010010010010010010010010010010010010010010010010010010010010010010010010010010010010010010010010010010010010010010010010010010010)
  (.lf 0)) (.nd (.lf
  0x2222222222222211222222222222222222222222222222112222222222222222222222222222221122222222222222222222222222222211222222222222222222222222222222112222222222222222222222222222221122222222222222222222222222222211222222222222222222222222222222112222222222222222)
  (.lf 0))) (.nd (.nd (.lf
  0x10010010010010010010010010010010010010010010010010010010010010010010010010010010010010010010010010010010010010010010010010010010010010010010010010010010010010010010010010010010010010010010010010010010010010010010010010010010010010010010010010010010010010)
  (.lf 0)) (.nd (.lf
  0x4444441111111111111111111111111111111144444444444444444444444444444413333333333331111111111111111111111111111111144444444444444444444444444444411111111111111111111111111111111444444444444444444444444444444111111111111111111111111111111114444444444444444444)
  (.lf 0)))

def shaXorFan66 : BTree :=
  .nd (.nd (.nd (.lf
  0x1001001001001001001001001001001001001001001001001001001001001001001001001001001001001001001001001001001001001001001001001001001001001001001001001001001001001001001001001001001001001001001001001001001001001001001001001001001001001001001001001001001001001001)
  (.lf 0)) (.nd (.lf
  0x1111111111111111100000000000000000000000000000000000000000000000000000000000000001111111111111111111111111111111100000000000000000000000000000000000000000000000000000000000000001111111111111111111111111111111100000000000000000000000000000000000000000000000)
  (.lf 0))) (.nd (.nd (.lf
  0x12100100100121212121212121001001210012100121210010100100100100100100100100100100100100100100100100100100100100100100100100100100100100100100100100100100100100100100100100100100100100100100100100100100100100100100100100100100100100100100100100100100100100)
  (.lf 0)) (.nd (.lf
  0x4444444444444411111111111111111111111111111111444444444444444444444444444444111111111111111111111111111111114444444444444444444444444444441111111111111111111111111111111144444444444444444444444444444411111111111111111111111111111111444444444444444444444444)
  (.lf 0)))

def shaXorFan67 : BTree :=
  .nd (.nd (.nd (.lf
  0x10010010010010010010010010010010010010010010010010010010010010010010010010010010010010010010010010010010010010010010010010010010010010010010010010010010010010010010010010010010010010010010010010010010010010010010010010010010010010010010010010010010010010)
  (.lf 0)) (.nd (.lf
  0x4444444444444422444444444444444444444444444444224444444444444444444444444444442244444444444444444444444444444422444444444444444444444444444444224444444444444444444444444444442244444444444444444444444444444422444444444444444444444444444444224444444444444444)
  (.lf 0))) (.nd (.nd (.lf
  0x100100100100100100100100100100100100100100100100100100100100100100100100100100100100100100100100100100100100100100100100100100100100100100100100100100100100100100100100100100100100100100100100100100100100100100100100100100100100100100100100100100100100100)
  (.lf 0)) (.nd (.lf
  0x4444444444411111111111111111111111111111111444444444444444444444444444444111111111111111111111111111111114444444444444444444444444444441333333333333333333111111111111111111111111111111114444444444444444444444444444441111111111111111111111111111111144444444)
  (.lf 0)))

def shaXorFan68 : BTree :=
  .nd (.nd (.nd (.lf
  0x9aaaaaaaaaaaaaaaaaaaaaaaaaaaaaa99aaaaaaaaaaaaaaaaaaaaaaaaaaaaaa99aaaaaaaaaaaaaaaaaaaaaaaaaaaaaa99aaaaaaaaaaaaaaaaaaaaaaaaaaaaaa99aaaaaaaaaaaaaaaaaaaaaaaaaaaaaa99aaaaaaaaaaaaaaaaaaaaaaaaaaaaaa99aaaaaaaaaaaaaaaaaaaaaaaaaaaaaa99aaaaaaaaaaaaaaaaaaaaaaaaaaaaaa9)
  (.lf
  0x11111111111111111111111111111111444444444444444444444444444444111111111111111111111111111111114444444444444444444444444444441111111111111111111111111111111144444))
  (.nd (.lf
  0x11111111111111111111111111111111000000000000000000000000000000000000000000000000000000000000000011111111111111111111111111111111000000000000000000000000000000000000000000000000000000000000000011111111111111111111111111111111000000000000000)
  (.lf 0))) (.nd (.nd (.lf
  0x10010010012121001001212121001212121001001210010011001001001001001001001001001001001001001001001001001001001001001001001001001001001001001001001001001001001001001001001001001001001001001001001001001001001001001001001001001001001001001001001001001001001001)
  (.lf 0)) (.nd (.lf
  0x4444444444111111111111111111111111111111114444444444444444444444444444441111111111111111111111111111111144444444444444444444444444444411111111111111111111111111111111444444444444444444444444444444111111111111111111111111111111114444444444444444444444444444)
  (.lf 0)))

def shaXorFan69 : BTree :=
  .nd (.nd (.nd (.lf
  0x1001001001001001001001001001001001001001001001001001001001001001001001001001001001001001001001001001001001001001001001001001001001001001001001001001001001001001001001001001001001001001001001001001001001001001001001001001001001001001001001001001001001001001)
  (.lf 0)) (.nd (.lf
  0x2222222222222211222222222222222222222222222222112222222222222222222222222222221122222222222222222222222222222211222222222222222222222222222222112222222222222222222222222222221122222222222222222222222222222211222222222222222222222222222222112222222222222222)
  (.lf 0))) (.nd (.nd (.lf
  0x1001001001001001001001001001001001001001001001001001001001001001001001001001001001001001001001001001001001001001001001001001001001001001001001001001001001001001001001001001001001001001001001001001001001001001001001001001001001001001001001001001001001001001)
  (.lf 0)) (.nd (.lf
  0x4411111111111111111111111111111111444444444444444444444444444444111111111111111111111111111111114444444444444444444444444444441111111111111111111111111111111144444444444444444444444444444411111111111111111111111111111111444444444444444444444444444444111111)
  (.lf 0)))

def shaXorFan70 : BTree :=
  .nd (.nd (.nd (.lf
  0x100100100100100100100100100100100100100100100100100100100100100100100100100100100100100100100100100100100100100100100100100100100100100100100100100100100100100100100100100100100100100100100100100100100100100100100100100100100100100100100100100100100100100)
  (.lf 0)) (.nd (.lf
  0x2222222222222211222222222222222222222222222222112222222222222222222222222222221122222222222222222222222222222211222222222222222222222222222222112222222222222222222222222222221122222222222222222222222222222211222222222222222222222222222222112222222222222222)
  (.lf 0))) (.nd (.nd (.lf
  0x12121001001001001001212121001212121001212121001001001001001212110010010010010010010010010010010010010010010010010010010010010010010010010010010010010010010010010010010010010010010010010010010010010010010010010010010010010010010010010010010010010010010010)
  (.lf 0)) (.nd (.lf
  0x1111111111111444444444444444444444444444444133333333333333333333111111111111111111111111111111114444444444444444444444444444441111111111111111111111111111111144444444444444444444444444444411111111111111111111111111111111444444444444444444444444444444111111)
  (.lf 0)))

def shaXorFan71 : BTree :=
  .nd (.nd (.nd (.lf
  0x12121001210100100100100100100100100100100100100100100100100100100100100100100100100100100100100100100100100100100100100100100100100100100100100100100100100100100100100100100100100100100100100100100100100100100100100100100100100100100100100100100100100100)
  (.lf 0)) (.nd (.lf
  0x2222222221122222222222222222222222222222211222222222222222222222222222222112222222222222222222222222222221122222222222222222222222222222211222222222222222222222222222222112222222222222222222222222222221122222222222222222222222222222211222222222222222222222)
  (.lf 0))) (.nd (.nd (.lf
  0x1111111111111111111111111111111111111111111111111111111111111111111111111111111111111111111111111111111111111111111111111111111111111111111111111111111111111111111111111111111111111111111111111111111111111111111111111111111111111111111111111111111111111111)
  (.lf 0)) (.nd (.lf
  0x4444444444444444444444444111111111111111111111111111111114444444444444444444444444444441111111111111111111111111111111144444444444444444444444444444411111111111111111111111111111111444444444444444444444444444444111111111111111111111111111111114444444444444)
  (.lf 0)))

def shaXorFan72 : BTree :=
  .nd (.nd (.nd (.lf
  0x7888888888888888888888888888888778888888888888888888888888888887788888888888888888888888888888877888888888888888888888888888888778888888888888888888888888888887788888888888888888888888888888877888888888888888888888888888888778888888888888888888888888888887)
  (.lf
  0x1444444444444444444444444444444111111111111111111111111111111114444444444444444444444444444441111111111111111111111111111111144444444444444444444444444444411111111111111111111111111111111444444444444444444444444444444111111111111111111111111111111114444444))
  (.nd (.lf
  0x1111111111111111111111111111111111111111111111111111111111111111111111111111111111111111111111111111111111111111111111111111111111111111111111111111111111111111111111111111111111111111111111111111111111111111111111111111111111111111111111111111111111111111)
  (.lf 0))) (.nd (.nd (.lf
  0x1001001001001001001001001001001001001001001001001001001001001001001001001001001001001001001001001001001001001001001001001001001001001001001001001001001001001001001001001111111111111111133333333333330012121210010012100100100121212121212121212100121001001001)
  (.lf 0)) (.nd (.lf
  0x2222222221122222222222222222222222222222211222222222222222222222222222222112222222222222222222222222222221122222222222222222222222222222211222222222222222222222222222222112222222222222222222222222222221122222222222222222222222222222211222222222222222222222)
  (.lf 0)))

def shaXorFan73 : BTree :=
  .nd (.nd (.nd (.lf
  0x100100100100100100100100100100100100100100100100100100100100100100100100100100100100100100100100100100100100100100100100100100100100100100100100100100100100100100100100100100100100100100100100100100100100100100100100100100100100100100100100100100100100100)
  (.lf 0)) (.nd (.lf
  0x2222222222222211222222222222222222222222222222112222222222222222222222222222221122222222222222222222222222222211222222222222222222222222222222112222222222222222222222222222221122222222222222222222222222222211222222222222222222222222222222112222222222222222)
  (.lf 0))) (.nd (.nd (.lf
  0x100100100100100100100100100100100100100100100100100100100100100100100100100100100100100100100100100100100100100100100100100100100100100100100100100100100100100100100100100100100100100100100100100100100100100100100100100100100100100100100100100100100100100)
  (.lf 0)) (.nd (.lf
  0x4444444444444444444444444444111111111111111111111111111111114444444444444444444444444444441333333333333311111111111111111111111111111111444444444444444444444444444444111111111111111111111111111111114444444444444444444444444444441111111111111111111111111111)
  (.lf 0)))

def shaXorFan74 : BTree :=
  .nd (.nd (.nd (.lf
  0x10010010010010010010010010010010010010010010010010010010010010010010010010010010010010010010010010010010010010010010010010010010010010010010010010010010010010010010010010010010010010010010010010010010010010010010010010010010010010010010010010010010010010)
  (.lf 0)) (.nd (.lf
  0xcccccbbbbbbbaa79cccccccccccccccccccccbbbbbbbaa79cccccccccccccccccccccbbbbbbbaa79cccccccccccccccccccccbbbbbbbaa79cccccccccccccccccccccbbbbbbbaa79cccccccccccccccccccccbbbbbbbaa78aaaaaaaaaaaaaaaaaaaaa99999998865777777777777777777777666666666457777777777777777)
  (.lf 0))) (.nd (.nd (.lf
  0x10010010010010010010010010010010010010010010010010010010010010010010010010010010010010010010010010010010010010010010010010010010010010010010010010010010010011111111111111133333333333321001212100121212121001001212121001001212121210012100100121001001001010)
  (.lf 0)) (.nd (.lf
  0x4444444444444444111111111111111111111111111111114444444444444444444444444444441111111111111111111111111111111144444444444444444444444444444411111111111111111111111111111111444444444444444444444444444444111111111111111111111111111111114444444444444444444444)
  (.lf 0)))

def shaXorFan75 : BTree :=
  .nd (.nd (.nd (.lf
  0x1001001001001001001001001001001001001001001001001001001001001001001001001001001001001001001001001001001001001001001001111111111111110010010012100121212121212100100100121212100100121001210010012121212100110010010010010010010010010010010010010010010010010010)
  (.lf 0)) (.nd (.lf
  0x1111111111111113111111111111111111111111111113111111111111111111111111111111131111111111111111111111111111121111111111111111111111111111111301111111111111111111111111111130111111111111111111111111111111201111111111111111111111111111112011111111111111111111)
  (.lf 0))) (.nd (.nd (.lf
  0x1001001001001001001001001001001001001001001001001001001001001001001001001001001001001001001001001001001001001001001001001001001001001001001001001001001001001001001001001001001001001001001001001001001001001001001001001001001001001001001001001001001001001001)
  (.lf 0)) (.nd (.lf
  0x4444444444444444441111111111111111111111111111111144444444444444444444444444444411111111111111111111111111111111444444444444444444444444444444111111111111111111111111111111114444444444444444444444444444441111111111111111111111111111111144444444444444444444)
  (.lf 0)))

def shaXorFan76 : BTree :=
  .nd (.nd (.nd (.lf
  0x1111111111111111111111111111111111111111111111111111111111111111111111111111111111111111111111111111111111111111111111111111111111111111111111111111111111111111111111111111111111111111111111111111111111111111111111111111111111111111111111111111111111111111)
  (.lf 0)) (.nd (.lf
  0x111111111111111111111111111111110000000000000000000000000000000000000000000000000000000000000000111111111111111111111111111111110000000000000000000000000000000000000000000000000000000000000000111111111111111)
  (.lf 0))) (.nd (.nd (.lf
  0x1001001001001001001001001001001001001001001001001001001001001001001001001001001001001001001001001001001001001001001001001001001001001001001001001001001001001001001001001001001001001001001001001111111111113333333332100121210012121212121210010012121001210012)
  (.lf 0)) (.nd (.lf
  0x4444444444441111111111111111111111111111111144444444444444444444444444444411111111111111111111111111111111444444444444444444444444444444111111111111111111111111111111114444444444444444444444444444441111111111111111111111111111111144444444444444444444444444)
  (.lf 0)))

def shaXorFan77 : BTree :=
  .nd (.nd (.nd (.lf
  0x100100100100100100100100100100100100100100100100100100100100100100100100111111111111111111113333333333333333300100121001212121212100121001001001212100100121001001001001001001001001212101001001001001001001001001001001001001001001001001001001001001001001001)
  (.lf 0)) (.nd (.lf
  0x2222222222222211222222222222222222222222222222112222222222222222222222222222221122222222222222222222222222222211222222222222222222222222222222112222222222222222222222222222221122222222222222222222222222222211222222222222222222222222222222112222222222222222)
  (.lf 0))) (.nd (.nd (.lf
  0x10010010010010010010010010010010010010010010010010010010010010010010010010010010010010010010010010010010010010010010010010010010010010010010010010010010010010010010010010010010010010010010010010010010010010010010010010010010010010010010010010010010010010)
  (.lf 0)) (.nd (.lf
  0x1111111111111111111111111111144444444444444444444444444444411111111111111111111111111111111444444444444444444444444444444111111111111111111111111111111114444444444444444444444444444441111111111111111111111111111111144444444444444444444444444444411111111111)
  (.lf 0)))

def shaXorFan78 : BTree :=
  .nd (.nd (.nd (.lf
  0x1001001001001001001001001001001001001001001001001001001001001001001001001001001001001001001001001001001001001001001001001001001001001001001001001001001001001001001001001001001001001001001001001001001001001001001001001001001001001001001001001001001001001001)
  (.lf 0)) (.nd (.lf
  0x2222222222222211222222222222222222222222222222112222222222222222222222222222221122222222222222222222222222222211222222222222222222222222222222112222222222222222222222222222221122222222222222222222222222222211222222222222222222222222222222112222222222222222)
  (.lf 0))) (.nd (.nd (.lf
  0x2121010010010010010010010010010010010010010010010010010010010010010010010010010010010010010010010010010010010010010010010010010010010010010010010010010010010010010010010010010010010010010010010010010010010010010010010010010010010010010010010010010010010010)
  (.lf 0)) (.nd (.lf
  0x4444444444411111111111111111111111111111111444444444444444444444444444444111111111111111111111111111111114444444444444444444444444444441111111111111111111111111111111144444444444444444444444444444411111111111111111111111111111111444444444444444444444444444)
  (.lf 0)))

def shaXorFan79 : BTree :=
  .nd (.nd (.nd (.lf
  0x10010010010010010010010010010010010010010010010010010010010010010010010010010010010010010010010010010010010010010010010010010010010010010010010010010010011111111111111111133333333333333300100100121001001212100100121001210012121212121001210012100121001001)
  (.lf 0)) (.nd (.lf
  0x2222222221122222222222222222222222222222211222222222222222222222222222222112222222222222222222222222222221122222222222222222222222222222211222222222222222222222222222222112222222222222222222222222222221122222222222222222222222222222211222222222222222222222)
  (.lf 0))) (.nd (.nd (.lf
  0x1111111111111111100000000000000000000000000000000111111111111111111111111111111110000000000000000000000000000000011111111111111111111111111111111000000000000000000000000000000001111111111111111111111111111111100000000000000000000000000000000111111111111111)
  (.lf 0)) (.nd (.lf
  0x4444444444444444444444444441111111111111111111111111111111144444444444444444444444444444411111111111111111111111111111111444444444444444444444444444444111111111111111111111111111111114444444444444444444444444444441111111111111111111111111111111144444444444)
  (.lf 0)))

def shaXorFan80 : BTree :=
  .nd (.nd (.nd (.lf
  0x7888888888888888888888888888888778888888888888888888888888888887788888888888888888888888888888877888888888888888888888888888888778888888888888888888888888888887788888888888888888888888888888877888888888888888888888888888888778888888888888888888888888888887)
  (.lf
  0x1111111111111111111111111111111444444444444444444444444444444111111111111111111111111111111114444444444444444444444444444441111111111111111111111111111111144444444444444444444444444444411111111111111111111111111111111444444444444444444444444444444111111111))
  (.nd (.lf
  0x1111111111111111111111111111111111111111111111111111111111111111111111111111111111111111111111111111111111111111111111111111111111111111111111111111111111111111111111111111111111111111111111111111111111111111111111111111111111111111111111111111111111111111)
  (.lf 0))) (.nd (.nd (.lf
  0x10010010010010010010010010010010010010010010010010010010010010010010011111111111112121212100100121001001212100121001212100100121212100100121001210012121100100100100100100100100100100100100100100100100100100100100100100100100100100100100100100100100100100)
  (.lf 0)) (.nd (.lf
  0x2222222221122222222222222222222222222222211222222222222222222222222222222112222222222222222222222222222221122222222222222222222222222222211222222222222222222222222222222112222222222222222222222222222221122222222222222222222222222222211222222222222222222222)
  (.lf 0)))

def shaXorFan81 : BTree :=
  .nd (.nd (.nd (.lf
  0x1001001001001001001001001001001001001001001001001001001001001001001001001001001001001001001001001001001001001001001001001001001001001001001001001001001001001001001001001001001001001001001001001001001001001001001001001001001001001001001001001001001001001001)
  (.lf 0)) (.nd (.lf
  0x2222222222222211222222222222222222222222222222112222222222222222222222222222221122222222222222222222222222222211222222222222222222222222222222112222222222222222222222222222221122222222222222222222222222222211222222222222222222222222222222112222222222222222)
  (.lf 0))) (.nd (.nd (.lf
  0x1001001001001001001001001001001001001001001001001001001001001001001001001001001001001001001001001001001001001001001001001001001001001001001001001001001001001001001001001001001001001001001001001001001001001001001001001001001001001001001001001001001001001001)
  (.lf 0)) (.nd (.lf
  0x4444444444444444444444111111111111111111111111111111114444444444444444444444444444441333333333333333111111111111111111111111111111114444444444444444444444444444441111111111111111111111111111111144444444444444444444444444444411111111111111111111111111111111)
  (.lf 0)))

def shaXorFan82 : BTree :=
  .nd (.nd (.nd (.lf
  0x100100100100100100100100100100100100100100100100100100100100100100100100100100100100100100100100100100100100100100100100100100100100100100100100100100100100100100100100100100100100100100100100100100100100100100100100100100100100100100100100100100100100100)
  (.lf 0)) (.nd (.lf
  0x1111111111111110000000000000000000000000000000000000000000000000000000000000000111111111111111111111111111111110000000000000000000000000000000000000000000000000000000000000000111111111111111111111111111111110010010010010010010010010010010010010010010010010)
  (.lf 0))) (.nd (.nd (.lf
  0x1001001001001001001001001001001001001001001001001001001111111111111111111001001001212100121001210010010010010012121001210010010012100121001001001100100100100100100100100100100100100100100100100100100100100100100100100100100100100100100100100100100100100100)
  (.lf 0)) (.nd (.lf
  0x1111111111111111444444444444444444444444444444111111111111111111111111111111114444444444444444444444444444441111111111111111111111111111111144444444444444444444444444444411111111111111111111111111111111444444444444444444444444444444111111111111111111111111)
  (.lf 0)))

def shaXorFan83 : BTree :=
  .nd (.nd (.nd (.lf
  0x2121001001212100100121001212100121210010012121212121001212121001210100100100100100100100100100100100100100100100100100100100100100100100100100100100100100100100100100100100100100100100100100100100100100100100100100100100100100100100100100100100100100100100)
  (.lf 0)) (.nd (.lf
  0x4444444444444422444444444444444444444444444444224444444444444444444444444444442244444444444444444444444444444422444444444444444444444444444444224444444444444444444444444444442244444444444444444444444444444422444444444444444444444444444444224444444444444444)
  (.lf 0))) (.nd (.nd (.lf
  0x10010010010010010010010010010010010010010010010010010010010010010010010010010010010010010010010010010010010010010010010010010010010010010010010010010010010010010010010010010010010010010010010010010010010010010010010010010010010010010010010010010010010010)
  (.lf 0)) (.nd (.lf
  0x1144444444444444444444444444444411111111111111111111111111111111444444444444444444444444444444111111111111111111111111111111114444444444444444444444444444441111111111111111111111111111111144444444444444444444444444444411111111111111111111111111111111444444)
  (.lf 0)))

def shaXorFan84 : BTree :=
  .nd (.nd (.nd (.lf
  0x1111111111111111111111111111111111111111111111111111111111111111111111111111111111111111111111111111111111111111111111111111111111111111111111111111111111111111111111111111111111111111111111111111111111111111111111111111111111111111111111111111111111111111)
  (.lf 0)) (.nd (.lf
  0x1111111111111111100000000000000000000000000000000000000000000000000000000000000001111111111111111111111111111111100000000000000000000000000000000000000000000000000000000000000001111111111111111111111111111111100000000000000000000000000000000000000000000000)
  (.lf 0))) (.nd (.nd (.lf
  0x10010010010010010010010010010010010010010010010010010010010010010010010010010010011111111111110012121001210012121001001001210012121001212121210012121001210012100110010010010010010010010010010010010010010010010010010010010010010010010010010010010010010010)
  (.lf 0)) (.nd (.lf
  0x1111111111114444444444444444444444444444441111111111111111111111111111111144444444444444444444444444444411111111111111111111111111111111444444444444444444444444444444111111111111111111111111111111114444444444444444444444444444441111111111111111111111111111)
  (.lf 0)))

def shaXorFan85 : BTree :=
  .nd (.nd (.nd (.lf
  0x1111113333333333333333001001001001212121001210012121001210012100100121212100100121001001210010010100100100100100100100100100100100100100100100100100100100100100100100100100100100100100100100100100100100100100100100100100100100100100100100100100100100100100)
  (.lf 0)) (.nd (.lf
  0x2222222222222211222222222222222222222222222222112222222222222222222222222222221122222222222222222222222222222211222222222222222222222222222222112222222222222222222222222222221122222222222222222222222222222211222222222222222222222222222222112222222222222222)
  (.lf 0))) (.nd (.nd (.lf
  0x100100100100100100100100100100100100100100100100100100100100100100100100100100100100100100100100100100100100100100100100100100100100100100100100100100100100100100100100100100100100100100100100100100100100100100100100100100100100100100100100100100100100100)
  (.lf 0)) (.nd (.lf
  0x1111111111111111111111111111444444444444444444444444444444111111111111111111111111111111114444444444444444444444444444441333333333333111111111111111111111111111111114444444444444444444444444444441111111111111111111111111111111144444444444444444444444444444)
  (.lf 0)))

def shaXorFan86 : BTree :=
  .nd (.nd (.nd (.lf
  0x10010010010010010010010010010010010010010010010010010010010010010010010010010010010010010010010010010010010010010010010010010010010010010010010010010010010010010010010010010010010010010010010010010010010010010010010010010010010010010010010010010010010010)
  (.lf 0)) (.nd (.lf
  0x2222222222222211222222222222222222222222222222112222222222222222222222222222221122222222222222222222222222222211222222222222222222222222222222112222222222222222222222222222221122222222222222222222222222222211222222222222222222222222222222112222222222222222)
  (.lf 0))) (.nd (.nd (.lf
  0x10010010010010010010010010010010010010010010010010010010010010010010010010010011111111111111111111001001210012121001001210010012100121001001001210010012100100100121001212100110010010010010010010010010010010010010010010010010010010010010010010010010010010)
  (.lf 0)) (.nd (.lf
  0x1111111111111111111111111144444444444444444444444444444411111111111111111111111111111111444444444444444444444444444444111111111111111111111111111111114444444444444444444444444444441111111111111111111111111111111144444444444444444444444444444411111111111111)
  (.lf 0)))

def shaXorFan87 : BTree :=
  .nd (.nd (.nd (.lf
  0x100100100100100100100100100100100100100100100100111111111111121210012121001212100100100121210012121210012100100121210012121212100110010010010010010010010010010010010010010010010010010010010010010010010010010010010010010010010010010010010010010010010010010)
  (.lf 0)) (.nd (.lf
  0x2222222221122222222222222222222222222222211222222222222222222222222222222112222222222222222222222222222221122222222222222222222222222222211222222222222222222222222222222112222222222222222222222222222221122222222222222222222222222222211222222222222222222222)
  (.lf 0))) (.nd (.nd (.lf
  0x1111111111111111100000000000000000000000000000000111111111111111111111111111111110000000000000000000000000000000011111111111111111111111111111111111111111111111111111111111111111111111111111111111111111111111111111111111111111111111111111111111111111111111)
  (.lf 0)) (.nd (.lf
  0x1111111111111111111111111114444444444444444444444444444441111111111111111111111111111111144444444444444444444444444444411111111111111111111111111111111444444444444444444444444444444111111111111111111111111111111114444444444444444444444444444441111111111111)
  (.lf 0)))

def shaXorFan88 : BTree :=
  .nd (.nd (.nd (.lf
  0x7888888888888888888888888888888778888888888888888888888888888887788888888888888888888888888888877888888888888888888888888888888778888888888888888888888888888887788888888888888888888888888888877888888888888888888888888888888778888888888888888888888888888887)
  (.lf
  0x4111111111111111111111111111111114444444444444444444444444444441111111111111111111111111111111144444444444444444444444444444411111111111111111111111111111111444444444444444444444444444444111111111111111111111111111111114444444444444444444444444444441111111))
  (.nd (.lf
  0x111111111111111111111111111111110000000000000000000000000000000000000000000000000000000000000000111111111111111111111111111111110000000000000000000000000000000000000000000000000000000000000000111111111111111)
  (.lf 0))) (.nd (.nd (.lf
  0x10010010010010010010010010010010010010010010010010010010010010010010010010010010010010010010010010010010010010010010010010010010010010010010010010010010010010010010010010010010010010010010010010010010010010010010010010010010010010010010010010010010010010)
  (.lf 0)) (.nd (.lf
  0x2222222221122222222222222222222222222222211222222222222222222222222222222112222222222222222222222222222221122222222222222222222222222222211222222222222222222222222222222112222222222222222222222222222221122222222222222222222222222222211222222222222222222222)
  (.lf 0)))

def shaXorFan89 : BTree :=
  .nd (.nd (.nd (.lf
  0x100100100100100100100100100100100100100100100100100100100100100100100100100100100100100100100100100100100100100100100100100100100100100100100100100100100100100100100100100100100100100100100111111111111111111111111333333333333333333332100100100100100121001)
  (.lf 0)) (.nd (.lf
  0x2222222222222211222222222222222222222222222222112222222222222222222222222222221122222222222222222222222222222211222222222222222222222222222222112222222222222222222222222222221122222222222222222222222222222211222222222222222222222222222222112222222222222222)
  (.lf 0))) (.nd (.nd (.lf
  0x10010010010010010010010010010010010010010010010010010010010010010010010010010010010010010010010010010010010010010010010010010010010010010010010010010010010010010010010010010010010010010010010010010010010010010010010010010010010010010010010010010010010010)
  (.lf 0)) (.nd (.lf
  0x1111111111111114444444444444444444444444444441111111111111111111111111111111144444444444444444444444444444413333333333333311111111111111111111111111111111444444444444444444444444444444111111111111111111111111111111114444444444444444444444444444441111111111)
  (.lf 0)))

def shaXorFan90 : BTree :=
  .nd (.nd (.nd (.lf
  0x1001001001001001001001001001001001001001001001001001001001001001001001001001001001001001001001001001001001001001001001001001001001001001001001001001001001001001001001001001001001001001001001001001001001001001001001001001001001001001001001001001001001001001)
  (.lf 0)) (.nd (.lf
  0x7777777777777769aaaaaaaaaaaaaaaaaaaaaaaaaaaaaa9122222222222222222222222222222214555555555555555555555555555555456666666666666666666666666666665788888888888888888888888888888879cccccccccccccccccccccbbbbbbbaa79cccccccccccccccccccccbbbbbbbaa79cccccccccccccccc)
  (.lf 0))) (.nd (.nd (.lf
  0x10010010010010010010010010010010010010010010010010010010010010010010010010010010010010010010010010010010010010010010010010010010010010010010010010010010010010010010010010010010010010010010010010010010010010010010010010010010010010010010010010010010010010)
  (.lf 0)) (.nd (.lf
  0x1111111111111111114444444444444444444444444444441111111111111111111111111111111144444444444444444444444444444411111111111111111111111111111111444444444444444444444444444444111111111111111111111111111111114444444444444444444444444444441111111111111111111111)
  (.lf 0)))

def shaXorFan91 : BTree :=
  .nd (.nd (.nd (.lf
  0x100100100100100100100100100100100100100100100100100100100100100100100100100100100100100100100100100100100100100100100100100100100100100100100100100100100100100100100100100100100100100100100100100100100100100100100100100100100100100100100100100100100100100)
  (.lf 0)) (.nd (.lf
  0x1111113442111111111111111111111111111111120111111111111111111111111111111301111111111111111111111111111112111111111111111111111111111111131111111111111111111111111111111201111111111111111111111111111201111111111111111111111111111112011111111111111111111111)
  (.lf 0))) (.nd (.nd (.lf
  0x1111111111111111111111111111111111111111111111111111111111111111111111111111111111111111111111111111111111111111100100100100100100100100100100100100100100100100100100100100100100100100100100100100100100100100100100100100100100100100100100100100100100100100)
  (.lf 0)) (.nd (.lf
  0x1111111111111111111111111444444444444444444444444444444111111111111111111111111111111114444444444444444444444444444441111111111111111111111111111111144444444444444444444444444444411111111111111111111111111111111444444444444444444444444444444111111111111133)
  (.lf 0)))

def shaXorFan92 : BTree :=
  .nd (.nd (.nd (.lf
  0x10010010010010010010010010010010010010010010010010010010010010010010010010010010010010010010010010010010010010010010010010010010010010010010010010010010010010010010010010010010010010010010010010010010010010010010010010010010010010010010010010010010010010)
  (.lf 0)) (.nd (.lf
  0x11111111111111111111111111111111000000000000000000000000000000000000000000000000000000000000000011111111111111111111111111111111000000000000000000000000000000000000000000000000000000000000000011111111111111111111111111111111000000000000000)
  (.lf 0))) (.nd (.nd (.lf
  0x1001001001001001001001001001001001001001001001001001001001001001001001001001001001001001001001001001001001001001001001001001001001001001001001001001001001001001001001001001001001001001001001001001001001001001001001001001001001001001001001001001001001001001)
  (.lf 0)) (.nd (.lf
  0x1111111111111144444444444444444444444444444411111111111111111111111111111111444444444444444444444444444444111111111111111111111111111111114444444444444444444444444444441111111111111111111111111111111144444444444444444444444444444411111111111111111111111111)
  (.lf 0)))

def shaXorFan93 : BTree :=
  .nd (.nd (.nd (.lf
  0x10010010010010010010010010010010010010010010010010010010010010010010010010010010010010010010010010010010010010010010010010010010010010010010010010010010010010010010010010010010010011111111111111100121210010010012100100121001001212121001210012100121001212)
  (.lf 0)) (.nd (.lf
  0x2222222222222211222222222222222222222222222222112222222222222222222222222222221122222222222222222222222222222211222222222222222222222222222222112222222222222222222222222222221122222222222222222222222222222211222222222222222222222222222222112222222222222222)
  (.lf 0))) (.nd (.nd (.lf
  0x1001001001001001001001001001001001001001001001001001001001001001001001001001001001001001001001001001001001001001001001001001001001001001001001001001001001001001001001001001001001001001001001001001001001001001001001001001001001001001001001001001001001001001)
  (.lf 0)) (.nd (.lf
  0x4444444444444411111111111111111111111111111111444444444444444444444444444444111111111111111111111111111111114444444444444444444444444444441333333333333331111111111111111111111111111111144444444444444444444444444444411111111111111111111111111111111444444444)
  (.lf 0)))

def shaXorFan94 : BTree :=
  .nd (.nd (.nd (.lf
  0x100100100100100100100100100100100100100100100100100100100100100100100100100100100100100100100100100100100100100100100100100100100100100100100100100100100100100100100100100100100100100100100100100100100100100100100100100100100100100100100100100100100100100)
  (.lf 0)) (.nd (.lf
  0x2222222222222211222222222222222222222222222222112222222222222222222222222222221122222222222222222222222222222211222222222222222222222222222222112222222222222222222222222222221122222222222222222222222222222211222222222222222222222222222222112222222222222222)
  (.lf 0))) (.nd (.nd (.lf
  0x100100100100100100100100100100100100100100100100100100100100100100100100100100100100100100100100100100100100100100100100100100100100100100100100100100100100100100100100100100100100100100100100100100100100100100100100100100100100100100100100100100100100100)
  (.lf 0)) (.nd (.lf
  0x4444444444444111111111111111111111111111111114444444444444444444444444444441111111111111111111111111111111144444444444444444444444444444411111111111111111111111111111111444444444444444444444444444444111111111111111111111111111111114444444444444444444444444)
  (.lf 0)))

def shaXorFan95 : BTree :=
  .nd (.nd (.nd (.lf
  0x100100100100100100100100100100100100100100100100100100100100100100100100100100100100100100100100100100100100100100100100100100100100100100100100100100100100100100100100100100100100100100100100100100100100100100100100100100100100100100100100100100100100100)
  (.lf 0)) (.nd (.lf
  0x2222222221122222222222222222222222222222211222222222222222222222222222222112222222222222222222222222222221122222222222222222222222222222211222222222222222222222222222222112222222222222222222222222222221122222222222222222222222222222211222222222222222222222)
  (.lf 0))) (.nd (.nd (.lf
  0x1111111111111111100000000000000000000000000000000111111111111111111111111111111110000000000000000000000000000000011111111111111111111111111111111000000000000000000000000000000001111111111111111111111111111111100000000000000000000000000000000111111111111111)
  (.lf 0)) (.nd (.lf
  0x1111111111111111111111111111144444444444444444444444444444411111111111111111111111111111111444444444444444444444444444444111111111111111111111111111111114444444444444444444444444444441111111111111111111111111111111144444444444444444444444444444411111111111)
  (.lf 0)))

def shaXorFan96 : BTree :=
  .nd (.nd (.nd (.lf
  0x9aaaaaaaaaaaaaaaaaaaaaaaaaaaaaa99aaaaaaaaaaaaaaaaaaaaaaaaaaaaaa99aaaaaaaaaaaaaaaaaaaaaaaaaaaaaa99aaaaaaaaaaaaaaaaaaaaaaaaaaaaaa99aaaaaaaaaaaaaaaaaaaaaaaaaaaaaa99aaaaaaaaaaaaaaaaaaaaaaaaaaaaaa99aaaaaaaaaaaaaaaaaaaaaaaaaaaaaa99aaaaaaaaaaaaaaaaaaaaaaaaaaaaaa9)
  (.lf
  0x1111111111111114444444444444444444444444444441111111111111111111111111111111144444444444444444444444444444411111111111111111111111111111111444444444444444444444444444444111111111111111111111111111111114444444444444444444444444444441111111111111111111111111))
  (.nd (.lf
  0x1111111111111111100000000000000000000000000000000111111111111111111111111111111110000000000000000000000000000000011111111111111111111111111111111000000000000000000000000000000001111111111111111111111111111111100000000000000000000000000000000111111111111111)
  (.lf 0))) (.nd (.nd (.lf
  0x11111111111111333333333332121001210012121212100121001212100121210012100121210012100100121210010100100100100100100100100100100100100100100100100100100100100100100100100100100100100100100100100100100100100100100100100100100100100100100100100100100100100100)
  (.lf 0)) (.nd (.lf
  0x2222222221122222222222222222222222222222211222222222222222222222222222222112222222222222222222222222222221122222222222222222222222222222211222222222222222222222222222222112222222222222222222222222222221122222222222222222222222222222211222222222222222222222)
  (.lf 0)))

def shaXorFan97 : BTree :=
  .nd (.nd (.nd (.lf
  0x100100100100100100100100100100100100100100100100100100100100100100100100100100100100100100100100100100100100100100100100100100100100100100100100100100100100100100100100100100100100100100100100100100100100100100100100100100100100100100100100100100100100100)
  (.lf 0)) (.nd (.lf
  0x2222222222222211222222222222222222222222222222112222222222222222222222222222221122222222222222222222222222222211222222222222222222222222222222112222222222222222222222222222221122222222222222222222222222222211222222222222222222222222222222112222222222222222)
  (.lf 0))) (.nd (.nd (.lf
  0x100100100100100100100100100100100100100100100100100100100100100100100100100100100100100100100100100100100100100100100100100100100100100100100100100100100100100100100100100100100100100100100100100100100100100100100100100100100100100100100100100100100100100)
  (.lf 0)) (.nd (.lf
  0x4444444444444444444444111111111111111111111111111111114444444444444444444444444444441111111111111111111111111111111144444444444444444444444444444411111111111111111111111111111111444444444444444444444444444444111111111111111111111111111111114444444444444444)
  (.lf 0)))

def shaXorFan98 : BTree :=
  .nd (.nd (.nd (.lf
  0x10010010010010010010010010010010010010010010010010010010010010010010010010010010010010010010010010010010010010010010010010010010010010010010010010010010010010010010010010010010010010010010010010010010010010010010010010010010010010010010010010010010010010)
  (.lf 0)) (.nd (.lf
  0x1001001001001001001001001001001001001001001001001001001001001001001001001001001001001001001001001001001001001001001001001001001001001001001001001000000000000000000000000000000000000000000000000000000000000000011111111111111111111111111111111000000000000000)
  (.lf 0))) (.nd (.nd (.lf
  0x1111111111113333333333333332121212121212100100121001001001001210012100100121212100100100100100100101001001001001001001001001001001001001001001001001001001001001001001001001001001001001001001001001001001001001001001001001001001001001001001001001001001001001)
  (.lf 0)) (.nd (.lf
  0x4444444444444444444444444444441111111111111111111111111111111144444444444444444444444444444411111111111111111111111111111111444444444444444444444444444444111111111111111111111111111111114444444444444444444444444444441111111111111111111111111111111144444444)
  (.lf 0)))

def shaXorFan99 : BTree :=
  .nd (.nd (.nd (.lf
  0x1001001001001001001001001001001001001001001001001001001001001001001001001001001001001001001001001001001001001001001001001001001001001001001001001001001001001001001001001001001001001001001001001001001001001001001001001001001001001001001001001001001001001001)
  (.lf 0)) (.nd (.lf
  0x4444444444444422444444444444444444444444444444224444444444444444444444444444442244444444444444444444444444444422444444444444444444444444444444224444444444444444444444444444442244444444444444444444444444444422444444444444444444444444444444224444444444444444)
  (.lf 0))) (.nd (.nd (.lf
  0x1001001001001001001001001001001001001001001001001001001001001001001001001001001001001001001001001001001001001001001001001001001001001001001001001001001001001001001001001001001001001001001001001001001001001001001001001001001001001001001001001001001001001001)
  (.lf 0)) (.nd (.lf
  0x4444444444444444444444444441111111111111111111111111111111144444444444444444444444444444411111111111111111111111111111111444444444444444444444444444444111111111111111111111111111111114444444444444444444444444444441111111111111111111111111111111144444444444)
  (.lf 0)))

def shaXorFan100 : BTree :=
  .nd (.nd (.nd (.lf
  0x1111111111111111111111111111111111111111111111111111111111111111111111111111111111111111111111111111111111111111111111111111111111111111111111111111111111111111111111111111111111111111111111111111111111111111111111111111111111111111111111111111111111111111)
  (.lf 0)) (.nd (.lf
  0x111111111111111111111111111111110000000000000000000000000000000000000000000000000000000000000000111111111111111111111111111111110000000000000000000000000000000000000000000000000000000000000000111111111111111)
  (.lf 0))) (.nd (.nd (.lf
  0x1001001001001111111111111111133333333333333001210010010012121001210010012121212100121001210012121001001001210010100100100100100100100100100100100100100100100100100100100100100100100100100100100100100100100100100100100100100100100100100100100100100100100100)
  (.lf 0)) (.nd (.lf
  0x4444444444444444444444444411111111111111111111111111111111444444444444444444444444444444111111111111111111111111111111114444444444444444444444444444441111111111111111111111111111111144444444444444444444444444444411111111111111111111111111111111444444444444)
  (.lf 0)))

def shaXorFan101 : BTree :=
  .nd (.nd (.nd (.lf
  0x1001212121212121001100100100100100100100100100100100100100100100100100100100100100100100100100100100100100100100100100100100100100100100100100100100100100100100100100100100100100100100100100100100100100100100100100100100100100100100100100100100100100100100)
  (.lf 0)) (.nd (.lf
  0x2222222222222211222222222222222222222222222222112222222222222222222222222222221122222222222222222222222222222211222222222222222222222222222222112222222222222222222222222222221122222222222222222222222222222211222222222222222222222222222222112222222222222222)
  (.lf 0))) (.nd (.nd (.lf
  0x10010010010010010010010010010010010010010010010010010010010010010010010010010010010010010010010010010010010010010010010010010010010010010010010010010010010010010010010010010010010010010010010010010010010010010010010010010010010010010010010010010010010010)
  (.lf 0)) (.nd (.lf
  0x4444444111111111111111111111111111111114444444444444444444444444444441111111111111111111111111111111144444444444444444444444444444413333333333111111111111111111111111111111114444444444444444444444444444441111111111111111111111111111111144444444444444444444)
  (.lf 0)))

def shaXorFan102 : BTree :=
  .nd (.nd (.nd (.lf
  0x1001001001001001001001001001001001001001001001001001001001001001001001001001001001001001001001001001001001001001001001001001001001001001001001001001001001001001001001001001001001001001001001001001001001001001001001001001001001001001001001001001001001001001)
  (.lf 0)) (.nd (.lf
  0x2222222222222211222222222222222222222222222222112222222222222222222222222222221122222222222222222222222222222211222222222222222222222222222222112222222222222222222222222222221122222222222222222222222222222211222222222222222222222222222222112222222222222222)
  (.lf 0))) (.nd (.nd (.lf
  0x1001001001001001001001001111111111111111133333333333333210010010012121001210012100121001001210010012121212100121210012100100121010010010010010010010010010010010010010010010010010010010010010010010010010010010010010010010010010010010010010010010010010010010)
  (.lf 0)) (.nd (.lf
  0x1111111111444444444444444444444444444444133333333311111111111111111111111111111111444444444444444444444444444444111111111111111111111111111111114444444444444444444444444444441111111111111111111111111111111144444444444444444444444444444411111111111111111111)
  (.lf 0)))

def shaXorFan103 : BTree :=
  .nd (.nd (.nd (.lf
  0x1212121001210012100100100100100100100100100121001212121001210012121211001001001001001001001001001001001001001001001001001001001001001001001001001001001001001001001001001001001001001001001001001001001001001001001001001001001001001001001001001001001001001001)
  (.lf 0)) (.nd (.lf
  0x2222222221122222222222222222222222222222211222222222222222222222222222222112222222222222222222222222222221122222222222222222222222222222211222222222222222222222222222222112222222222222222222222222222221122222222222222222222222222222211222222222222222222222)
  (.lf 0))) (.nd (.nd (.lf
  0x1111111111111111111111111111111111111111111111111111111111111111111111111111111111111111111111111111111111111111111111111111111111111111111111111111111111111111111111111111111111111111111111111111111111111111111111111111111111111111111111111111111111111111)
  (.lf 0)) (.nd (.lf
  0x1111111111144444444444444444444444444444411111111111111111111111111111111444444444444444444444444444444111111111111111111111111111111114444444444444444444444444444441111111111111111111111111111111144444444444444444444444444444411111111111111111111111111111)
  (.lf 0)))

def shaXorFan104 : BTree :=
  .nd (.nd (.nd (.lf
  0x9aaaaaaaaaaaaaaaaaaaaaaaaaaaaaa99aaaaaaaaaaaaaaaaaaaaaaaaaaaaaa99aaaaaaaaaaaaaaaaaaaaaaaaaaaaaa99aaaaaaaaaaaaaaaaaaaaaaaaaaaaaa99aaaaaaaaaaaaaaaaaaaaaaaaaaaaaa99aaaaaaaaaaaaaaaaaaaaaaaaaaaaaa99aaaaaaaaaaaaaaaaaaaaaaaaaaaaaa99aaaaaaaaaaaaaaaaaaaaaaaaaaaaaa9)
  (.lf
  0x1111111111111111144444444444444444444444444444411111111111111111111111111111111444444444444444444444444444444111111111111111111111111111111114444444444444444444444444444441111111111111111111111111111111144444444444444444444444444444411111111111111111111111))
  (.nd (.lf
  0x1111111111111111111111111111111111111111111111111111111111111111111111111111111111111111111111111111111111111111111111111111111111111111111111111111111111111111111111111111111111111111111111111111111111111111111111111111111111111111111111111111111111111111)
  (.lf 0))) (.nd (.nd (.lf
  0x10010010010010010010010010010010010010010010010010010010010010010010010010010010010010010010010010010010010010010010010010010010010010010010010010010010010010010010010010010010010010010010010010011111111111111111111111133333333333333333333210010010010010)
  (.lf 0)) (.nd (.lf
  0x2222222221122222222222222222222222222222211222222222222222222222222222222112222222222222222222222222222221122222222222222222222222222222211222222222222222222222222222222112222222222222222222222222222221122222222222222222222222222222211222222222222222222222)
  (.lf 0)))

def shaXorFan105 : BTree :=
  .nd (.nd (.nd (.lf
  0x10010010010010010010010010010010010010010010010010010010010010010010010010010010010010010010010010010010010010010010010010010010010010010010010010010010010010011111111111111111001212121001001212100100100121212100121001001001001212121001001001001211001001)
  (.lf 0)) (.nd (.lf
  0x2222222222222211222222222222222222222222222222112222222222222222222222222222221122222222222222222222222222222211222222222222222222222222222222112222222222222222222222222222221122222222222222222222222222222211222222222222222222222222222222112222222222222222)
  (.lf 0))) (.nd (.nd (.lf
  0x1001001001001001001001001001001001001001001001001001001001001001001001001001001001001001001001001001001001001001001001001001001001001001001001001001001001001001001001001001001001001001001001001001001001001001001001001001001001001001001001001001001001001001)
  (.lf 0)) (.nd (.lf
  0x1111111111111144444444444444444444444444444411111111111111111111111111111111444444444444444444444444444444111111111111111111111111111111114444444444444444444444444444441111111111111111111111111111111144444444444444444444444444444411111111111111111111111111)
  (.lf 0)))

def shaXorFan106 : BTree :=
  .nd (.nd (.nd (.lf
  0x100100100100100100100100100100100100100100100100100100100100100100100100100100100100100100100100100100100100100100100100100100100100100100100100100100100100100100100100100100100100100100100100100100100100100100100100100100100100100100100100100100100100100)
  (.lf 0)) (.nd (.lf
  0xcccccbbbbbbbaa79cccccccccccccccccccccbbbbbbbaa79cccccccccccccccccccccbbbbbbbaa79cccccccccccccccccccccbbbbbbbaa79cccccccccccccccccccccbbbbbbbaa79cccccccccccccccccccccbbbbbbbaa79cccccccccccccccccccccbbbbbbbaa79cccccccccccccccccccccbbbbbbbaa79cccccccccccccccc)
  (.lf 0))) (.nd (.nd (.lf
  0x1001001001001001001001001001001001001001001001001001001001001001001001001001001001001001001001001001001001001001001001001001001001001001001001001001001001001001001001001001001001001001001001001001001001001001001001001001001001001001111111111121210012121001)
  (.lf 0)) (.nd (.lf
  0x1144444444444444444444444444444411111111111111111111111111111111444444444444444444444444444444111111111111111111111111111111114444444444444444444444444444441111111111111111111111111111111144444444444444444444444444444411111111111111111111111111111111444444)
  (.lf 0)))

def shaXorFan107 : BTree :=
  .nd (.nd (.nd (.lf
  0x10010010010010010010010010010010010010010010010010010010010010010010010010010010010010010010010010010010010010010010010010010010010010010010010010010010010010010010010010010010010010010010011111111111110012100121001001210012121001001212100121212121210010)
  (.lf 0)) (.nd (.lf
  0x1111111111111111111111111111131111111111111111111111111111113111111111111111111111111111113111111111111111111111111111111131111111111111111111111111111112111111111111111111111111111113111111111111111111111111111111201111111111111111111111111111120111111111)
  (.lf 0))) (.nd (.nd (.lf
  0x10010010010010010010010010010010010010010010010010010010010010010010010010010010010010010010010010010010010010010010010010010010010010010010010010010010010010010010010010010010010010010010010010010010010010010010010010010010010010010010010010010010010010)
  (.lf 0)) (.nd (.lf
  0x4133333333333331111111111111111111111111111111144444444444444444444444444444411111111111111111111111111111111444444444444444444444444444444111111111111111111111111111111114444444444444444444444444444441111111111111111111111111111111144444444444444444444444)
  (.lf 0)))

def shaXorFan108 : BTree :=
  .nd (.nd (.nd (.lf
  0x1001001001001001001001111111111111111111111111111111111111111111111111111111111111111111111111111111111111111111111111111111111111111111111111111111111111111111111111111111111111111111111111111111111111111111111111111111111111111111111111111111111111111111)
  (.lf 0)) (.nd (.lf
  0x1111111111111111100000000000000000000000000000000000000000000000000000000000000001111111111111111111111111111111100000000000000000000000000000000000000000000000000000000000000001111111111111111111111111111111100000000000000000000000000000000000000000000000)
  (.lf 0))) (.nd (.nd (.lf
  0x10010010010010010010010010010010010010010010010010010010010010010010010010010010010010010010010010010010010010010010010010010010010010010010010010010010010010010010010010010010010010010010010010010010010010010010010010010010010010010010010011111111111111)
  (.lf 0)) (.nd (.lf
  0x4444444444444444444444444444111111111111111111111111111111114444444444444444444444444444441111111111111111111111111111111144444444444444444444444444444411111111111111111111111111111111444444444444444444444444444444111111111111111111111111111111114444444444)
  (.lf 0)))

def shaXorFan109 : BTree :=
  .nd (.nd (.nd (.lf
  0x100100100100100100100100100100100100100100100100100100100100100100100100100100100100100100100100100100100100100100111111111111111111133333333333333330012100100121001001001212100100100121210010012121001210012121001212100100101001001001001001001001001001001)
  (.lf 0)) (.nd (.lf
  0x2222222222222211222222222222222222222222222222112222222222222222222222222222221122222222222222222222222222222211222222222222222222222222222222112222222222222222222222222222221122222222222222222222222222222211222222222222222222222222222222112222222222222222)
  (.lf 0))) (.nd (.nd (.lf
  0x100100100100100100100100100100100100100100100100100100100100100100100100100100100100100100100100100100100100100100100100100100100100100100100100100100100100100100100100100100100100100100100100100100100100100100100100100100100100100100100100100100100100100)
  (.lf 0)) (.nd (.lf
  0x4444444444444111111111111111111111111111111114444444444444444444444444444441111111111111111111111111111111144444444444444444444444444444411111111111111111111111111111111444444444444444444444444444444111111111111111111111111111111114444444444444444444444444)
  (.lf 0)))

def shaXorFan110 : BTree :=
  .nd (.nd (.nd (.lf
  0x10010010010010010010010010010010010010010010010010010010010010010010010010010010010010010010010010010010010010010010010010010010010010010010010010010010010010010010010010010010010010010010010010010010010010010010010010010010010010010010010010010010010010)
  (.lf 0)) (.nd (.lf
  0x2222222222222211222222222222222222222222222222112222222222222222222222222222221122222222222222222222222222222211222222222222222222222222222222112222222222222222222222222222221122222222222222222222222222222211222222222222222222222222222222112222222222222222)
  (.lf 0))) (.nd (.nd (.lf
  0x10010010010010010010010010010010010010010010010010010010010010010010010010010010010010010010010010010010010010010010010010010010010010010010010010010010010010010010010010010010010010010010010010010010010010010010010010010010010010010010010010010010010010)
  (.lf 0)) (.nd (.lf
  0x4444444444411111111111111111111111111111111444444444444444444444444444444111111111111111111111111111111114444444444444444444444444444441111111111111111111111111111111144444444444444444444444444444411111111111111111111111111111111444444444444444444444444444)
  (.lf 0)))

def shaXorFan111 : BTree :=
  .nd (.nd (.nd (.lf
  0x100100100100100100100100100100100100100100100100100100100100100100100100100100100100100100100100100100100100100100100100100100100100100100100100100100100100100100100100100100100100100100100100100100100100100100100100100100100111111111111110010012121001210)
  (.lf 0)) (.nd (.lf
  0x2222222221122222222222222222222222222222211222222222222222222222222222222112222222222222222222222222222221122222222222222222222222222222211222222222222222222222222222222112222222222222222222222222222221122222222222222222222222222222211222222222222222222222)
  (.lf 0))) (.nd (.nd (.lf
  0x1111111111111111100000000000000000000000000000000111111111111111111111111111111110000000000000000000000000000000011111111111111111111111111111111000000000000000000000000000000001111111111111111111111111111111100000000000000000000000000000000111111111111111)
  (.lf 0)) (.nd (.lf
  0x1111111111111444444444444444444444444444444111111111111111111111111111111114444444444444444444444444444441111111111111111111111111111111144444444444444444444444444444411111111111111111111111111111111444444444444444444444444444444111111111111111111111111111)
  (.lf 0)))

def shaXorFan112 : BTree :=
  .nd (.nd (.nd (.lf
  0x9aaaaaaaaaaaaaaaaaaaaaaaaaaaaaa99aaaaaaaaaaaaaaaaaaaaaaaaaaaaaa99aaaaaaaaaaaaaaaaaaaaaaaaaaaaaa99aaaaaaaaaaaaaaaaaaaaaaaaaaaaaa99aaaaaaaaaaaaaaaaaaaaaaaaaaaaaa99aaaaaaaaaaaaaaaaaaaaaaaaaaaaaa99aaaaaaaaaaaaaaaaaaaaaaaaaaaaaa99aaaaaaaaaaaaaaaaaaaaaaaaaaaaaa9)
  (.lf
  0x4444444444444441111111111111111111111111111111144444444444444444444444444444411111111111111111111111111111111444444444444444444444444444444111111111111111111111111111111114444444444444444444444444444441111111111111111111111111111111144444444444444444444444))
  (.nd (.lf
  0x1111111111111111111111111111111111111111111111111111111111111111111111111111111111111111111111111111111111111111111111111111111111111111111111111111111111111111111111111111111111111111111111111111111111111111111111111111111111111111111111111111111111111111)
  (.lf 0))) (.nd (.nd (.lf
  0x100100100100100100100100100100100100100100100100100100100100100100100100100100100100100100100100100100100100100100100111111111111111111333333333333330012100121001210010012100121210010010010012121001212121001210012121210010100100100100100100100100100100100)
  (.lf 0)) (.nd (.lf
  0x2222222221122222222222222222222222222222211222222222222222222222222222222112222222222222222222222222222221122222222222222222222222222222211222222222222222222222222222222112222222222222222222222222222221122222222222222222222222222222211222222222222222222222)
  (.lf 0)))

def shaXorFan113 : BTree :=
  .nd (.nd (.nd (.lf
  0x10010010010010010010010010010010010010010010010010010010010010010010010010010010010010010010010010010010010010010010010010010010010010010010010010010010010010010010010010010010010010010010010010010010010010010010010010010010010010010010010010010010010010)
  (.lf 0)) (.nd (.lf
  0x2222222222222211222222222222222222222222222222112222222222222222222222222222221122222222222222222222222222222211222222222222222222222222222222112222222222222222222222222222221122222222222222222222222222222211222222222222222222222222222222112222222222222222)
  (.lf 0))) (.nd (.nd (.lf
  0x10010010010010010010010010010010010010010010010010010010010010010010010010010010010010010010010010010010010010010010010010010010010010010010010010010010010010010010010010010010010010010010010010010010010010010010010010010010010010010010010010010010010010)
  (.lf 0)) (.nd (.lf
  0x4444444444444444444444444411111111111111111111111111111111444444444444444444444444444444111111111111111111111111111111114444444444444444444444444444441111111111111111111111111111111144444444444444444444444444444411111111111111111111111111111111444444444444)
  (.lf 0)))

def shaXorFan114 : BTree :=
  .nd (.nd (.nd (.lf
  0x1001001001001001001001001001001001001001001001001001001001001001001001001001001001001001001001001001001001001001001001001001001001001001001001001001001001001001001001001001001001001001001001001001001001001001001001001001001001001001001001001001001001001001)
  (.lf 0)) (.nd (.lf
  0x5555544444444434555555555555555555555444444444345555555555555555555554444444443455555555555555555555544444444431222222222222222222222222222222112222222222222222222222222222221111111111111111111111111111111110000000000000000000000000000000011111111111111111)
  (.lf 0))) (.nd (.nd (.lf
  0x1001001001001001001001001001001001001001001001001001001001001001001001001001001001001001001001001001001111111111111111133333333333333001210012100121001212121210010012121210010010010010012100100100121212121010010010010010010010010010010010010010010010010010)
  (.lf 0)) (.nd (.lf
  0x1111111111111111111111111111111144444444444444444444444444444411111111111111111111111111111111444444444444444444444444444444111111111111111111111111111111114444444444444444444444444444441111111111111111111111111111111144444444444444444444444444444411111111)
  (.lf 0)))

def shaXorFan115 : BTree :=
  .nd (.nd (.nd (.lf
  0x1001001001001001001001001001001001001001001001001001111111111133333333212100121212121210010012100121001210012100121212121212100101001001001001001001001001001001001001001001001001001001001001001001001001001001001001001001001001001001001001001001001001001001)
  (.lf 0)) (.nd (.lf
  0x1111111111111111111111111131111111111111111111111111111111211111111111111111111111111111113111111111111111111111111111111211111111111111111111111111111113111111111111111111111111111111131111111111111111111111111111113111111111111111111111111111111130111111)
  (.lf 0))) (.nd (.nd (.lf
  0x100100100100100100100100100100100100100100100100100100100100100100100100100100100100100100100100100100100100100100100100100100100100100100100100100100100100100100100100100100100100100100100100100100100100100100100100100100100100100100100100100100100100100)
  (.lf 0)) (.nd (.lf
  0x4444444444444444441111111111111111111111111111111144444444444444444444444444444411111111111111111111111111111111444444444444444444444444444444133333333333311111111111111111111111111111111444444444444444444444444444444111111111111111111111111111111114444444)
  (.lf 0)))

def shaXorFan116 : BTree :=
  .nd (.nd (.nd (.lf
  0x1111111111111111111111111111111111111111111111111111111111111111111111111111111111111111111111111111111111111111111111111111111111111111111111111111111111111111111111111111111111111111111111111111111111111111111111111111111111111111111111111111111111111111)
  (.lf 0)) (.nd (.lf
  0x11111111111111111111111111111111000000000000000000000000000000000000000000000000000000000000000011111111111111111111111111111111000000000000000000000000000000000000000000000000000000000000000011111111111111111111111111111111000000000000000)
  (.lf 0))) (.nd (.nd (.lf
  0x10010010010010010010010010010010010010010010010010010010010010010010010010010010010010010010010010010010010010010010010010011111111111111111113333333333333333210012100100121001001001001210012121001212100121001001212121001001210010010100100100100100100100)
  (.lf 0)) (.nd (.lf
  0x1111111111111111111111111111444444444444444444444444444444111111111111111111111111111111114444444444444444444444444444441111111111111111111111111111111144444444444444444444444444444411111111111111111111111111111111444444444444444444444444444444111111111111)
  (.lf 0)))

def shaXorFan117 : BTree :=
  .nd (.nd (.nd (.lf
  0x100100100100100100100100100100100111111111111111111333333333333333001001001210012121001212121001001001001001212121212100121001001001210010100100100100100100100100100100100100100100100100100100100100100100100100100100100100100100100100100100100100100100100)
  (.lf 0)) (.nd (.lf
  0x2222222222222211222222222222222222222222222222112222222222222222222222222222221122222222222222222222222222222211222222222222222222222222222222112222222222222222222222222222221122222222222222222222222222222211222222222222222222222222222222112222222222222222)
  (.lf 0))) (.nd (.nd (.lf
  0x1001001001001001001001001001001001001001001001001001001001001001001001001001001001001001001001001001001001001001001001001001001001001001001001001001001001001001001001001001001001001001001001001001001001001001001001001001001001001001001001001001001001001001)
  (.lf 0)) (.nd (.lf
  0x1111111111111111111111111144444444444444444444444444444411111111111111111111111111111111444444444444444444444444444444111111111111111111111111111111114444444444444444444444444444441111111111111111111111111111111144444444444444444444444444444411111111111111)
  (.lf 0)))

def shaXorFan118 : BTree :=
  .nd (.nd (.nd (.lf
  0x100100100100100100100100100100100100100100100100100100100100100100100100100100100100100100100100100100100100100100100100100100100100100100100100100100100100100100100100100100100100100100100100100100100100100100100100100100100100100100100100100100100100100)
  (.lf 0)) (.nd (.lf
  0x2222222222222211222222222222222222222222222222112222222222222222222222222222221122222222222222222222222222222211222222222222222222222222222222112222222222222222222222222222221122222222222222222222222222222211222222222222222222222222222222112222222222222222)
  (.lf 0))) (.nd (.nd (.lf
  0x100100100100100100100100100100100100100100100100100100100100100100100100100100100100100100100100100100100100100100100100100100100100100100100100100100100100100100100100100100100100100100100100100100100100100100100100100100100100100100100100100100100100100)
  (.lf 0)) (.nd (.lf
  0x4444444444111111111111111111111111111111114444444444444444444444444444441111111111111111111111111111111144444444444444444444444444444411111111111111111111111111111111444444444444444444444444444444111111111111111111111111111111114444444444444444444444444444)
  (.lf 0)))

def shaXorFan119 : BTree :=
  .nd (.nd (.nd (.lf
  0x10010010010010010010010010010010010010010010010010010010010010010010010010010010010010010010010010010010010011111111111111333333333321212121212100100100121212121001210010012121001212100121210012100101001001001001001001001001001001001001001001001001001001)
  (.lf 0)) (.nd (.lf
  0x2222222221122222222222222222222222222222211222222222222222222222222222222112222222222222222222222222222221122222222222222222222222222222211222222222222222222222222222222112222222222222222222222222222221122222222222222222222222222222211222222222222222222222)
  (.lf 0))) (.nd (.nd (.lf
  0x1111111111111111100000000000000000000000000000000111111111111111111111111111111110000000000000000000000000000000011111111111111111111111111111111000000000000000000000000000000001111111111111111111111111111111100000000000000000000000000000000111111111111111)
  (.lf 0)) (.nd (.lf
  0x4444444444411111111111111111111111111111111444444444444444444444444444444111111111111111111111111111111114444444444444444444444444444441111111111111111111111111111111144444444444444444444444444444411111111111111111111111111111111444444444444444444444444444)
  (.lf 0)))

def shaXorFan120 : BTree :=
  .nd (.nd (.nd (.lf
  0x7888888888888888888888888888888778888888888888888888888888888887788888888888888888888888888888877888888888888888888888888888888778888888888888888888888888888887788888888888888888888888888888877888888888888888888888888888888778888888888888888888888888888887)
  (.lf
  0x4444444444444444411111111111111111111111111111111444444444444444444444444444444111111111111111111111111111111114444444444444444444444444444441111111111111111111111111111111144444444444444444444444444444411111111111111111111111111111111444444444444444444444))
  (.nd (.lf
  0x1111111111111111100000000000000000000000000000000000000000000000000000000000000001111111111111111111111111111111100000000000000000000000000000000000000000000000000000000000000001111111111111111111111111111111100000000000000000000000000000000000000000000000)
  (.lf 0))) (.nd (.nd (.lf
  0x10010010010010010010010010010010010010010010010010010010010010010010010010010010010010010010010010010010010010010010010010010010010010010010010010010010010010010010010010010010010010010010010010010010010010010010010010010010010010010010010010010010010010)
  (.lf 0)) (.nd (.lf
  0x1111111111111111111111111144444444444444444444444444444411111111111111111111111111111111444444444444444444444444444444111111111111111111111111111111114444444444444444444444444444441111111111111111111111111111111144444444444444444444444444444411111111111111)
  (.lf 0)))

def shaXorFan121 : BTree :=
  .nd (.nd (.nd (.lf
  0x1001001001001001001001001001001001001001001001001001001001001001001001001001001001001001001001001001001001001001001001001001001001001001001001001001001001001001001001001001001001001001001001001001001001001001001001001001001001001001001001001001111111111111)
  (.lf 0)) (.nd (.lf
  0x2222222222222211222222222222222222222222222222112222222222222222222222222222221122222222222222222222222222222211222222222222222222222222222222112222222222222222222222222222221122222222222222222222222222222211222222222222222222222222222222112222222222222222)
  (.lf 0))) (.nd (.nd (.lf
  0x100100100100100100100100100100100100100100100100100100100100100100100100100100100100100100100100100100100100100100100100100100100100100100100100100100100100100100100100100100100100100100100100100100100100100100100100100100100100100100100100100100100100100)
  (.lf 0)) (.nd (.lf
  0x1111111111111111114444444444444444444444444444441111111111111111111111111111111144444444444444444444444444444413333333333331111111111111111111111111111111144444444444444444444444444444411111111111111111111111111111111444444444444444444444444444444111111111)
  (.lf 0)))

def shaXorFan122 : BTree :=
  .nd (.nd (.nd (.lf
  0x10010010010010010010010010010010010010010010010010010010010010010010010010010010010010010010010010010010010010010010010010010010010010010010010010010010010010010010010010010010010010010010010010010010010010010010010010010010010010010010010010010010010010)
  (.lf 0)) (.nd (.lf
  0x2222222222222211222222222222222222222222222222112222222222222222222222222222221122222222222222222222222222222211222222222222222222222222222222112222222222222222222222222222221122222222222222222222222222222211222222222222222222222222222222112222222222222222)
  (.lf 0))) (.nd (.nd (.lf
  0x10010010010010010010010010010010010010010010010010010010010010010010010010010010010010010010010010010010010010010010010010010010010010010010010010010010010010010010010010010010010010010010010010010010010010010010010010010010010010010010010010010010010010)
  (.lf 0)) (.nd (.lf
  0x1111111111111111114444444444444444444444444444441111111111111111111111111111111144444444444444444444444444444411111111111111111111111111111111444444444444444444444444444444111111111111111111111111111111114444444444444444444444444444441111111111111111111111)
  (.lf 0)))

def shaXorFan123 : BTree :=
  .nd (.nd (.nd (.lf
  0x1001001001001001001001001001001001001001001001001001001001001001001001001001001001001001001001001001001001001001001001001001001001001001001001001001001001001001001001001001001001001001001001001001001001001001001001001001001001001001001001001001001001001001)
  (.lf 0)) (.nd (.lf
  0x2222222221122222222222222222222222222222211222222222222222222222222222222112222222222222222222222222222221122222222222222222222222222222211222222222222222222222222222222112222222222222222222222222222221122222222222222222222222222222211222222222222222222222)
  (.lf 0))) (.nd (.nd (.lf
  0x1111111111111111111111111111111111111111111111111111111111111111111111111111111111111111111111111111111111111111111111111111111111111111111111111111111111111111111111111111111111111111111111111111111111111111111111111111111111111111111111111111111111111111)
  (.lf 0)) (.nd (.lf
  0x4444444441111111111111111111111111111111144444444444444444444444444444411111111111111111111111111111111444444444444444444444444444444111111111111111111111111111111114444444444444444444444444444441111111111111111111111111111111144444444444444444444444444444)
  (.lf 0)))

def shaXorFan124 : BTree :=
  .nd (.nd (.nd (.lf
  0x100100100100100100100100100100100100100100100100100100100100100100100100100100100100100100100100100100100100100100100100100100100100100100100100100100100100100100100100100100100100100100100100100100100100100100100100100100100100100100100100100100100100100)
  (.lf 0)) (.nd (.lf
  0x111111111111111111111111111111110000000000000000000000000000000000000000000000000000000000000000111111111111111111111111111111110000000000000000000000000000000000000000000000000000000000000000111111111111111)
  (.lf 0))) (.nd (.nd (.lf
  0x100100100100100100100100100100100100100100100100100100100100100100100100100100100100100100100100100100100100100100100100100100100100100100100100100100100100100100100100100100100100100100100100100100100100100100100100100100100100100100100100100100100100100)
  (.lf 0)) (.nd (.lf
  0x1111111111111111111111111111114444444444444444444444444444441111111111111111111111111111111144444444444444444444444444444411111111111111111111111111111111444444444444444444444444444444111111111111111111111111111111114444444444444444444444444444441111111111)
  (.lf 0)))

def shaXorFan125 : BTree :=
  .nd (.nd (.nd (.lf
  0x10010010010010010010010010010010010010010010010010010010010010010010010010010010010010010010010010010010010010010010010010010010010010010010010010010010010010010010010010010010010010010010010010010010010010010010010010010010010010010011111111111111133333)
  (.lf 0)) (.nd (.lf
  0x4444444444444422444444444444444444444444444444224444444444444444444444444444442244444444444444444444444444444422444444444444444444444444444444224444444444444444444444444444442244444444444444444444444444444422444444444444444444444444444444224444444444444444)
  (.lf 0))) (.nd (.nd (.lf
  0x10010010010010010010010010010010010010010010010010010010010010010010010010010010010010010010010010010010010010010010010010010010010010010010010010010010010010010010010010010010010010010010010010010010010010010010010010010010010010010010010010010010010010)
  (.lf 0)) (.nd (.lf
  0x4444444444444411111111111111111111111111111111444444444444444444444444444444111111111111111111111111111111114444444444444444444444444444441111111111111111111111111111111144444444444444444444444444444411111111111111111111111111111111444444444444444444444444)
  (.lf 0)))

def shaXorFan126 : BTree :=
  .nd (.nd (.nd (.lf
  0x1001001001001001001001001001001001001001001001001001001001001001001001001001001001001001001001001001001001001001001001001001001001001001001001001001001001001001001001001001001001001001001001001001001001001001001001001001001001001001001001001001001001001001)
  (.lf 0)) (.nd (.lf
  0x2222222222222211222222222222222222222222222222112222222222222222222222222222221122222222222222222222222222222211222222222222222222222222222222112222222222222222222222222222221122222222222222222222222222222211222222222222222222222222222222112222222222222222)
  (.lf 0))) (.nd (.nd (.lf
  0x1001001001001001001001001001001001001001001001001001001001001001001001001001001001001001001001001001001001001001001001001001001001001001001001001001001001001001001001001001001001001001001001001001001001001001001001001001001001001001001001001001001001001001)
  (.lf 0)) (.nd (.lf
  0x4444444444444441111111111111111111111111111111144444444444444444444444444444413333333333333111111111111111111111111111111114444444444444444444444444444441111111111111111111111111111111144444444444444444444444444444411111111111111111111111111111111444444444)
  (.lf 0)))

def shaXorFan127 : BTree :=
  .nd (.nd (.nd (.lf
  0x10010010010010010010010010010010010010010010010010010010010010010010010010010010010010010010010010010010010010010010010010010010010010010010010010010010010010010010010010010010010010010010010010010010010010010010010010010010010010010010010010010010010010)
  (.lf 0)) (.nd (.lf
  0x2222222221122222222222222222222222222222211222222222222222222222222222222112222222222222222222222222222221122222222222222222222222222222211222222222222222222222222222222112222222222222222222222222222221122222222222222222222222222222211222222222222222222222)
  (.lf 0))) (.nd (.nd (.lf
  0x1111111111111111100000000000000000000000000000000111111111111111111111111111111110000000000000000000000000000000011111111111111111111111111111111000000000000000000000000000000001111111111111111111111111111111100000000000000000000000000000000111111111111111)
  (.lf 0)) (.nd (.lf
  0x4444444444444111111111111111111111111111111114444444444444444444444444444441111111111111111111111111111111144444444444444444444444444444411111111111111111111111111111111444444444444444444444444444444111111111111111111111111111111114444444444444444444444444)
  (.lf 0)))

/-- How often the XOR gates read a wire: 4 bits each, 256 per leaf. -/
def shaXorFan : BTree :=
  .nd (.nd (.nd (.nd (.nd (.nd (.nd (shaXorFan0) (shaXorFan1)) (.nd (shaXorFan2) (shaXorFan3))) (.nd (.nd (shaXorFan4) (shaXorFan5)) (.nd (shaXorFan6)
  (shaXorFan7)))) (.nd (.nd (.nd (shaXorFan8) (shaXorFan9)) (.nd (shaXorFan10) (shaXorFan11))) (.nd (.nd (shaXorFan12) (shaXorFan13)) (.nd (shaXorFan14)
  (shaXorFan15))))) (.nd (.nd (.nd (.nd (shaXorFan16) (shaXorFan17)) (.nd (shaXorFan18) (shaXorFan19))) (.nd (.nd (shaXorFan20) (shaXorFan21)) (.nd (shaXorFan22)
  (shaXorFan23)))) (.nd (.nd (.nd (shaXorFan24) (shaXorFan25)) (.nd (shaXorFan26) (shaXorFan27))) (.nd (.nd (shaXorFan28) (shaXorFan29)) (.nd (shaXorFan30)
  (shaXorFan31)))))) (.nd (.nd (.nd (.nd (.nd (shaXorFan32) (shaXorFan33)) (.nd (shaXorFan34) (shaXorFan35))) (.nd (.nd (shaXorFan36) (shaXorFan37)) (.nd
  (shaXorFan38) (shaXorFan39)))) (.nd (.nd (.nd (shaXorFan40) (shaXorFan41)) (.nd (shaXorFan42) (shaXorFan43))) (.nd (.nd (shaXorFan44) (shaXorFan45)) (.nd
  (shaXorFan46) (shaXorFan47))))) (.nd (.nd (.nd (.nd (shaXorFan48) (shaXorFan49)) (.nd (shaXorFan50) (shaXorFan51))) (.nd (.nd (shaXorFan52) (shaXorFan53)) (.nd
  (shaXorFan54) (shaXorFan55)))) (.nd (.nd (.nd (shaXorFan56) (shaXorFan57)) (.nd (shaXorFan58) (shaXorFan59))) (.nd (.nd (shaXorFan60) (shaXorFan61)) (.nd
  (shaXorFan62) (shaXorFan63))))))) (.nd (.nd (.nd (.nd (.nd (.nd (shaXorFan64) (shaXorFan65)) (.nd (shaXorFan66) (shaXorFan67))) (.nd (.nd (shaXorFan68)
  (shaXorFan69)) (.nd (shaXorFan70) (shaXorFan71)))) (.nd (.nd (.nd (shaXorFan72) (shaXorFan73)) (.nd (shaXorFan74) (shaXorFan75))) (.nd (.nd (shaXorFan76)
  (shaXorFan77)) (.nd (shaXorFan78) (shaXorFan79))))) (.nd (.nd (.nd (.nd (shaXorFan80) (shaXorFan81)) (.nd (shaXorFan82) (shaXorFan83))) (.nd (.nd (shaXorFan84)
  (shaXorFan85)) (.nd (shaXorFan86) (shaXorFan87)))) (.nd (.nd (.nd (shaXorFan88) (shaXorFan89)) (.nd (shaXorFan90) (shaXorFan91))) (.nd (.nd (shaXorFan92)
  (shaXorFan93)) (.nd (shaXorFan94) (shaXorFan95)))))) (.nd (.nd (.nd (.nd (.nd (shaXorFan96) (shaXorFan97)) (.nd (shaXorFan98) (shaXorFan99))) (.nd (.nd
  (shaXorFan100) (shaXorFan101)) (.nd (shaXorFan102) (shaXorFan103)))) (.nd (.nd (.nd (shaXorFan104) (shaXorFan105)) (.nd (shaXorFan106) (shaXorFan107))) (.nd
  (.nd (shaXorFan108) (shaXorFan109)) (.nd (shaXorFan110) (shaXorFan111))))) (.nd (.nd (.nd (.nd (shaXorFan112) (shaXorFan113)) (.nd (shaXorFan114)
  (shaXorFan115))) (.nd (.nd (shaXorFan116) (shaXorFan117)) (.nd (shaXorFan118) (shaXorFan119)))) (.nd (.nd (.nd (shaXorFan120) (shaXorFan121)) (.nd
  (shaXorFan122) (shaXorFan123))) (.nd (.nd (shaXorFan124) (shaXorFan125)) (.nd (shaXorFan126) (shaXorFan127)))))))

def shaXorOrder0 : BTree :=
  .nd (.nd (.nd (.lf
  0x1346e1332213d3713beb1460c144c014ed714d8b157961564a1606715f1b168a6167e5173ff170a817ba71797b183a31824618d0a18b0619673193ca19e5519c821a7421a5531aee91ae231b9811b6ef1c1571bf2d1c3841c2ad1c80e1c6171ca511c94f1cdc81ccc21d04e1cf471d2b61d1dc1d5b91d4781d6e21d621015b403af70572905caf087560d1f80d9bd0e41013077148961525415bf72008e20a3d)
  (.lf
  0xf6e70f6e60f6e30f6d60f6d50f6d20f6c50f6c40f6c10f6b40f6b30f6b00f6a30f6a20f69f0f6920f6910f68e0f6810f6800f67d0f6700f66f0f66c0f65f0f65e0f65b0f64d0f64c0f6490f63b0f63a0f6370f6290f6280f6250f6170f6160f6130f6050f6040f6010f5f30f5f20f5ef0f5e10f5e00f5dd0f5cf0f5ce0f5cb0f5bd0f5bc0f5b90f5ac0f5ab0f5a80f59a0f5990f5960f5880f5870f5840f577))
  (.nd (.lf
  0x1b3f51b39e1bec91bec71bec51bec41bec61bec31bec11bec01bebf1bebd1bebc1bebb1beba1beb81beb61beb51beb71beb41beb21beb11becc1beb01beae1bead1beac1beaa1bea91bea81bea71bea51bea41bea31bea21bea01be9f1be9e1be9d1be9b1be9a1be991be981be961be951be941be931be911be901be8f1be8e1be8c1be8b1be8a1be891be871be851be841be831be811be801be7f1be861be7e)
  (.lf
  0x412e03b64035af0356a0355f04ca304c840416f0412f03b65035b10356b0356004c8b04c64041700413003b66035b30356c0356104c6b04c44041710413103b67035b50356d0356204c4b04c24041720413203b68035770356e0356304c2b04c05041730413303b69035790356f0356404c0004be2041740413403b6a0357b0357004bdd04bbe041750413503b6b0357d0357104bc504b9e041760413603b6c)))
  (.nd (.nd (.lf
  0x1f6cc1f6cb1f6c91f6c51f5421f54d1f5411f53f1f5101f50f1f50d1f5071f4e71fd491fccb1fc951fc941fc741fc731fc721fc581fc571fc561fc331fc321fc311fc2f1fc1b1fc1a1fbfd1fbf61fbf41fbea1fbe91fbe71fbe31fbdb1fbda1fbd51fbcf1fddb1fbce1fbcc1fbca1fbc11fbbe1fbbd1fa331fa2f1fa2e1fa281fa261fa3d1fa251fa221fa211fa001f9ff1f9fe1f9f01f9eb1f9ea1f9e41f9e1)
  (.lf
  0x93cb08bab08b6308b5e08af3099cf093cc08bad08b6408b5f08aee099d0093cd08baf08b6508b6008ae9099d1093ce08bb108b6608b6108ae4099d2093cf08bb308b6708b6208adf099d3093d008bb508b6808ada099d4093d108b7708b6908ad5099d5093d208b7908b6a08ad0099d6093d308b7b08b6b08acb099d7093d408b7d08b6c08ac6099d8093d508b7f08b6d08ac1099d9093d608b8108b6e08abc))
  (.nd (.lf
  0x5efc05efb05efa05ef805ef705ef60665f0665d0665c0665b0665a06658066570665606655066530665206651066500664e0664d0664c0664b06649066480664706646066440664306642066410663f0663e0663d0663c0663a06639066380663706635066340663306632066300662f0662e0662d0662b0662a06629066280662606625066240662306621066200661f0661e0661c0661b0661a0661906617)
  (.lf 0)))

def shaXorOrder1 : BTree :=
  .nd (.nd (.nd (.lf
  0x26700264f0262f0260f025ed025cc025ac0258c0256a025470252402501024de024bd0249d0247d02e7402e5402e3202e1102df102dcf02dae02d8e02d6e02d4c02d2902d0602ce302cc002c9d02c7a02c5902c3902c1902bf902bd902bb702b9602b7402b5302b3102b1002af002ad202ab5034b10348f0346e0344c0342b03409033e6033c5033a50338503363033400331d032fc032dc032bc0329a03279)
  (.lf
  0x1d2e81c5491c4931c4861d3fe1d2d91c5451c4941c4871d3f71d2db1c5401c4961c4881d3f41d2dd1c53a1c4e01c4891d3ef1d2df1c5331c4e21c48a1d3ea1d2e11c52f1c4e41c48b1d3e41d3861c52b1c4e61c48c1d3e01d3881c5271c4981c48d1d3da1d3761c49a1c48e1c4481d3d61d3921c49c1c4821c43b1d3d11d3a51c49e1c42e1c3d31d3cb1d3991c4a01c4291c3d51d3c71d34a1c4a21c4241c3d7))
  (.nd (.lf
  0x1173a11739117381173611735117341173311731117301172f1172e1172c1172a11729117281172611725117231172211720116cc116cb116ca116c8116c7116c6116c5116c3116c2116c1116c0116be116bd116bc116bb116b9116b8116b7116ce116b6116b4116b3116b2116b0116a2116a1116a01169e1168f1168e1168d1168b11656116551165411652116511164711646116441164311642116411163d)
  (.lf
  0x18ac418aaf18aa413b6a13aad0f34c0f3380f2f10f2701962a1938618ac618ab018aa513b6513aaf0f34e0f3390f2ec0f268196251938818ac818ab118aa613b6013ab10f3500f33a0f2e70f267196001938a18aca18ab218aa713b5b13ac90f3520f33b0f2e20f27a195fd1938c18acc18ab318aa813b5613acb0f3540f33c0f2dd0f279195db1938e18ace18ab413b5113acd0f3560f33d0f2d80f25e195d8)))
  (.nd (.nd (.lf
  0xa5080a5070a5060a5050a5030a5020a5010a5000a4fe0a4fd0a4fc0a4fb0a4f90a4f80a4f70a62b0a6290a6280a6260a6240a6230a6210a61f0a61e0a61c0a61a0a6190a6170a6150a6140a6120a6100a60f0a60d0a60b0a60a0a6080a6060a6050a6030a6010a6000a5fe0a5fc0a5fb0a5f90a5f70a5f60a5f40a5f20a5f10a5ef0a5ec0a5eb0a5ea0a5e80a5e70a5e50a5e20a5e10a5e00a5de0a5dd0a5db)
  (.lf
  0x17d84174ee16f7218e0d18c4c17e0317e01174c616f6318e0818c3f17d7a17d78174de16f5818bdf18b5917d7017d6e1749816f3818b4818b3217d6717d65174ae16f9718b2018b0c17d5e17d5c1748016f8419a3c1997f18947189451814317807178031780219a381997e1893c1893a17ffe17775177711777019a3319978188fe188fc17fc6177b6177b1177b019a1e1996e188991889717fd2177a21779d))
  (.nd (.lf
  0x1cb001caf91caf81caf61caf51caf01caef1caed1caec1cae51cae41cae21cae11cad81cad71cad51cad41caca1cac91cac71cabe1cabc1cabb1cab91cab11cab01caaf1caad1caab1caaa1caa91caa51caa31caa21caa11ca9d1ca9b1ca9a1ca991ca881ca861ca851ca841ca801ca7e1ca7d1ca821ca7c1ca7a1ca791ca781ca751ca711ca701ca6f1ca6d1ca6b1ca6a1ca691ca661ca651ca641ca731ca63)
  (.lf 0)))

def shaXorOrder2 : BTree :=
  .nd (.nd (.nd (.lf
  0x7de607db707d8607d5607d2707cfa07ccc07c9b0ba1f0ba030b9e50b9c60b9a90b98d0b9710b9560b93b0b91d0b8fe0b8e00b8c20b8a40b8880b86d0b8500b8340b8170b7fa0b7de0b7c30b7a60b78a0b76d0b7510b7340b7140b6f40b6d60c2570c23a0c21e0c2010c1e50c1c90c1a90c1890c1690c1470c1240c1030c0e30c0c30c0a10c07e0c05b0c03a0c01a0bffa0bfd80bfb50bf940bf740bf520bf2f)
  (.lf
  0x691a069130691206910069090690206901068ff068f8068f1068f0068ee068e7068e0068df068dd068d6068cf068ce068cc068c5068be068bd068bb068b4068ad068ac068aa068a30689c0689b06899068920688b0688a06888068810687a0687906877068700686906868068660685f0685806857068550684e0684706846068440683d0683606835068330682c0682506824068220681b068140681306811))
  (.nd (.lf
  0x164701646f1646e1646c1646b1646a16469164671646616465164641646216461164601645f1645d1645c1645b16bde16bdc16bd916bd616bd416bd016bce16bc716bc616bc116bc216bc016d1e16bbc16bb516bb216bb016bad16bab16ba716ba616b2d16b2516b1e16b1d16b0e16b0016afc16af816ae616a5316a4f16a4d16a4716a4616a4516a4116a2d16a2b16a2716a2616a2216a3216a211693f1693b)
  (.lf
  0xce350a92e09c0109bff09bf509be9113440cebd0ce370a92f09bda09bd809bce09bc1121ea121720d75d0d61c08a89087be07b0f07195121df121740d7400d61e08a840883307b1007196121d4121760d7220d62008a7f0883607b1107197121c9121780d7030d62208a790883007b1207198121be1217a0d6e50d6240882b087a807b1307199121b21217c0d6c40d626087a30879d07b140719a121a71217e)))
  (.nd (.nd (.lf
  0x149d5149d4149cf149ce149c2149bd149bc149bb149b9149a7149a6149a5149a3149a2149611496d149601495e1495d149791495c1495a14944149451494314941149401493f1493d1493814937149361492d1492814927149261492414923149191491814916149091490814910149071490514904149031490114900148f8148f7148f5148f0148ef148ee148e8148e7148e6148e5148df148dd148dc148db)
  (.lf
  0x2815027f707bf007b1f07583074c7073d7073c5073ba027f2027d307beb07b210757e074c9073d9073c6073bb027d4027b307be607b2307579074cb073db073c7073bc027b40279407be107b2507574074cd073dd073c8073bd0278f0277107bdc07b270756f074cf073df073c9073be0276c0274e07bd707b290756a074d1073e1073ca073bf027490272b07bd207b4107565074d3073e3073cb073c002726))
  (.nd (.lf
  0x2b6f02b5202b5102b4f02b4e02b3002b2f02b2d02b2c02b0f02b0e02b0c02b0b02aef02aee02aec02aeb02ad102ad002ace02acd02ab4015a6015a4015870158401564015610154301540015210151e01500014fd014de014db014bb014b801498014950147701474014570145401437014340141701414013f7013f4013d7013d4013b5013b2013920138f0136f0136c0134c0134901329013260130801305)
  (.lf 0)))

def shaXorOrder3 : BTree :=
  .nd (.nd (.nd (.lf
  0xfe330fe310ff980fdeb0fde90fdc60fdc40fdb60fd920fd900fd820fcd80fcca0fcc811bd311bd011bce11bc111bbf11bbd11bc711bb611bb111bb311bac11baa11b6411b6111b5f11b4f11b4c11b4a11b3111b2e11b2d11b2511b2311b2111b1911b1711b1511afa11af811af611aee11aec11aea11ad511ad311ad111aab11aa911aa713806137fa137f81378813786137831373b137261372413723136e1)
  (.lf
  0x168f01631b15d1f1797d168f1160b015d2118638177e716dcd1644e164151641018633177cc16dae1645016416164111862c1775c16d9d1645216417164121861f1776616d7e164541641816413186191770c16d78164561641916414186151770516de4164581641a1860e176ec16d32164201641b186061769416d18164221641c18603176e316d02164241641d185fd1767216cf4164261641e185f81764e))
  (.nd (.lf
  0xbd3f0bd3e0bd3d0bd3b0bd3a0bd390bd380bd360bd350bd340bd330bd310bd300bd2f0bd2e0bd2c0bd2b0bd2a0bd290bd270bd260bd250bd240bd220bd210bd200bd1f0bd1d0bd1c0bd1b0bd1a0bd180bd170bd160bd150bd130bd120bd110bd100bd0e0bd0d0bd0c0bd0b0bd090bd080bd070bd060bd040bd030bd020bd010bcff0bcfe0bcfd0bcfc0bcfa0bcf90bcf80bcf70bcf50bcf40bcf30bcf20bcf0)
  (.lf
  0xf5150f5060f4fb08c7b08c6d08c6b081f2081eb081e8081e6081e2081d60f5170f5070f4fc08c7d08c6e08c6c081c7081bf081bb081b9081b3081a50f5190f5080f4fd08c7f08c6f081960818e0818a0818808183081770f51b0f5090f4fe08c8108c7008168081600815c0815a08154081490f51d0f50a0f4ff08c8308c710813a)))
  (.nd (.nd (.lf
  0xb900159f0159d0159c01582015810157f0157e0155f0155e0155c0155b0153b0153a01538015370151c0151b0151901518014f8014f7014f5014f4014d9014d8014d6014d5014b6014b5014b3014b20149301492014900148f0146f0146e0146c0146b0144f0144e0144c0144b0142f0142e0142c0142b0140f0140e0140c0140b013ef013ee013ec013eb013cf013ce013cc013cb013b0013af013ad013ac)
  (.lf
  0xdb570db4d0d2eb0cbc00cbb20e9a20e9960db580db4e0d2ec0cbc20cbb30e98f0e9800db300db2e0d2ed0cbc40cbb40e9770e9690db180db0c0d2ee0cbc60cbb50e95f0e9430db190db0d0d2ef0cbc80cb960e93f0e9330db1a0db0e0d2f00cbca0cb970e92f0e9180db1b0db0f0d2f10cbcc0cb980e9120e9060db1c0db100d2f20cbce0e9010e8d10db1d0db110d2f30cbd00e8cc0e8520daec0daea0d2f4))
  (.nd (.lf
  0x15eb015ead15eac15eab15ea815ea715ea615ea315ea215ea115e9e15e9d15e9c15e9915e9815e9715e9415e9315e9215e8f15e8e15e8d15e8a15e8915e8815e8515e8415e8315e8015e7f15e7e15e7b15e7a15e7915e7615e7515e7415e7115e7015e6f15e6c15e6b15e6a15e6715e6615e6515e6215e6115e6015e5d15e5c15e5b15e5815e5715e5615e5315e5215e5115e4e15e4d15e4c15e4915e4815e47)
  (.lf 0)))

def shaXorOrder4 : BTree :=
  .nd (.nd (.nd (.lf
  0xe0670e0650e0200e01e0dffe0dffc0dfe00dfdb0ebee0ebcd0eaf40eaf20eaf10eaed0eae80eae60eab20eaae0ea580ea510ea500ea470ea3c0ea330ea210ea1f0ea1e0e99c0e9630e95a0e9390e9320e9310e9280e8f70e8cb0e8370e8340e82d0e82a0e8290e8210f9aa0f9a60f9a50f9a10f9990f9950f98d0f9890f9880f9840f9830f97f0f97e0f97a0f9720f96e0f9660f9620f9610f95d0f9550f951)
  (.lf
  0x74270742407423074220741f0741e0741d0741a0741907418074150741407413074100740f0740e0740b0740a0ba320ba300ba200ba190ba180ba160ba040b9fd0b9fc0b9fa0b9e60b9df0b9de0b9dc0b9c70b9c00b9bf0b9bd0b9aa0b9a30b9a20b9a00b98e0b9870b9860b9840b9720b96b0b96a0b9680b9570b9500b94f0b94d0b93c0b9350b9340b9320b91e0b9170b9160b9140b8ff0b8f80b8f70b8f5))
  (.nd (.lf
  0x1929b1929a192a619299192971929619295192931918e1918d1918f1918c1918a19189191881918619185191841918319181191801917f1917e1917c1917b1917a19179191781917619175191741917219171191701916f1916d1916c1916b1916a1916919167191661916519163191601915f1915e1915c1915b1915919158191561915519154191611915319151190f2190f1190ef190ee190ed190ec190ea)
  (.lf
  0xbeb80beac14da014d84104181040b0d5f30c6ab0c6a314d9514d86104131040d0d5f40c68e0c6861565f156430f1230f1070ddcf0ce870ce7a15654156450f1180f1090ddd00ce5f0ce5115f3015f14112591124c0e5ae0d6710d66615f2515f16112541124e0e5af0d64f0d64216803167e00f3810f3650ed840dfd00df69167fd167e20f3760f3670ed850dfad0df6a170c0170a311c6711c5a0ee720e60a)))
  (.nd (.nd (.lf
  0x1990e1990a198fc198f5198f0198ee198de198dc198cd198a319899198971989e1988f1988d19884198801987e198751986e197fa197ed197eb197e4197e3197dd197dc197db197d3197d2197d1197cc197cb197c91979d1979b1949e194971949219452194501944f1944d194471944619445194431943f1943d1943b193ec1a3d01a3c01a3ba1a3671a3661a3641a3581a3291a32b1a3281a3261a3171a309)
  (.lf
  0x1e1a01dda019500194c02a210240801e1c01ddb019330193102a220240901e1e01ddc019190191502a230240a01e20018ff018fb02a240240b01e22018e2018e002a250240c01e24018c8018c40303302a28024620241a02415022210221e0303402a29024640241b0241602201021ff0303502a2a024660241c02417021de021dc0303602a2b024680241d02418021bb021b90303702a2c0246a0241e02419))
  (.nd (.lf
  0x4c1904bfb04bfa04bf804bf704bd804bd704bd504bd404bb704bb604bb404bb304b9704b9604b9404b9304b7704b7604b7404b7304b5504b5404b5204b5104b3204b3104b2f04b2e04b0f04b0e04b0c04b0b04aec04aeb04ae904ae804ac904ac804ac604ac504aa804aa704aa504aa404a8604a8504a8304a8204a6304a6204a6004a5f04a4004a3f04a3d04a3c04a1f04a1e04a1c04a1b049ff049fe049fc)
  (.lf 0)))

def shaXorOrder5 : BTree :=
  .nd (.nd (.nd (.lf
  0xb4d00b4f00b5100b5300b5500b5700b5900b5b00b5d00b5f00b6100b6300b6500b6700b6900b6b00b6d00b6f00b7100b7300b7500b7700b7900b7b0117401176011780117a0117c0117e01180011820118401186011880118a0118c0118e01190011920119401196011980119a0119c0119e011a0011a2011a4011a6011a8011aa011ac011ae017b6017b8017ba017bc017be017c0017c2017c4017c6017c8)
  (.lf
  0x1db111db101e8391e0d81daff1dafd1dafc1dafb1e82f1e0c51ddea1dade1dada1dad61e8221e0be1dd8c1dabe1daba1dab91e8191e0b71dd2e1da921da8f1da8d1e6f91e0ac1dcd91da741da701da6e1e6ee1e0de1dc7f1da601da5e1da5d1e6e61e0501ddeb1da3c1da351da301e41e1e0351dd8d1da171da131da0e1e4551e0261dd2f1d9f71d9ee1d9ed1e3661dfe31dcda1d9e51d9e11d9e01e3291dfd3))
  (.nd (.lf
  0xe8e70e8e60e8e50e8e30e8e20e8e10e8e00e8de0e8dd0e8da0e8d90e8d80e8d60e8d50e8d40e8d20e8ca0e8c90e8c80e81f0e81d0e81c0e81b0e8190e8180e8170e8160e8140e8130e8110e8100e80e0e80d0e80c0e80b0e8090e8080e8070e8060e8040e5fd0e5f10e4a30e4a10e4a00e49f0e49e0e49c0e49b0e49a0e4990e4970e4960e4950e4940e4920e4910e4900e48f0e48c0e48b0e48a0e48d0e489)
  (.lf
  0xefe90ee5f0ce180ce080c22c0c220145e81448713bb713ba513b9a0efde0ee610ce1a0ce090c2100c203145dd1448913bb913ba613b9b0efd30ee630ce1c0ce0a0c1f30c1e7145d21448b13bbb13ba713b9c0efc80ee650ce1e0ce0b0c1d60c1cb145c71448d13bbd13ba813b9d0efbd0ee670ce200ce0c0c1b60c1ab145bc1448f13bbf13ba913b9e0efb20ee690ce220ce0d0c1960c18b145b11449113bc1)))
  (.nd (.nd (.lf
  0x4bdf04bde04bc604bbd04bbb04ba604b9d04b9b04b8604b7d04b7b04b5e04b5c04b5b04b3b04b3904b3804b1804b1604b1504af504af304af204ad204ad004acf04ab704aae04aac04a8f04a8d04a8c04a6c04a6a04a6904a4904a4704a4604a2e04a2504a2304a0e04a0504a03049ee049e5049e3049ce049c5049c3049a6049a4049a30546e0546c054590545805457054550544305442054410543f0542d)
  (.lf
  0x11eb1141a6140e812fb912fb71264a11ecc11eb611eb21417f140dc12f7a12f781263311e8911e8411e8314173140d512f1b12f191261611e7911e7411e7314162140eb12ec012ebe1260a11e6411e5a11e581415d140ce12ed112ecf1258911e5e11e5b11e59141591410d12e9e12e9c1257411ef311e5f11e5c141541410412e8712e851256711ef511e5d1414f1410312e5512e531256811ef711dea14136))
  (.nd (.lf
  0x19ed319ed119f8719ed019ece19ecd19ecc19eca19ea919e9f19ea019e9e19e9c19e9b19e9a19e9819ce119ce019cdf19cdd19cdc19cd819cd719cd519cd419cd319cda19cd219cd019ccf19cce19ccc19cca19cc919cc819cc619cb319cb219cb119caf19cad19cac19cab19ca919ca619ca5197961979319792197911978e1978d1978c1978a19788197871978519784197821977f1977e1977d1977b19779)
  (.lf 0)))

def shaXorOrder6 : BTree :=
  .nd (.nd (.nd (.lf
  0x167a0167c0167e01680016820168401686016880168a0168c0168e016900169201694016960169801ca101ca301ca501ca701ca901cab01cad01caf01cb101cb301cb501cb701cb901cbb01cbd01cbf01cc101cc301cc501cc701cc901ccb01ccd01ccf01cd101cd301cd501cd701cd901cdb022d9022db022dd022df022e1022e3022e5022e7022e9022eb022ed022ef022f1022f3022f5022f7022f9022fb)
  (.lf
  0x2075920a7c2062e20629208eb2061a2060620c2e208d820615208d32060020c2d205ef20c33205eb20c1f205b220bff2059520c172057220bf32055120cac2053520a842052e204de204d6204e31fc0e2015020145201422013f2013e2021c201592014c2014a201492012a201232011c20118201172011e2010f2010920108201072016d20168200fb200f9200f8200f1200d1200ce200cb200eb200c1200b3))
  (.nd (.lf
  0x13f6613f5e13f5a13f5413f5313f5113f4e13f4b13f4913f4013f4313f3f13f3b13f1f13f1d13f0413f0113d8213d6813d6213d6413d6013d5c13d5713d8513d561410714105140c8140c7140c6140c4140c2140c1140c0140be140bd140bc140bb140b9140b8140b7140b6140b4140b3140b2140b1140af140ad140ac140ab140a9140a8140a7140a6140a4140a3140a1140a01409e1409d1409c1409b14099)
  (.lf
  0x157a51cd881cc771c9291c9101c9051846c183e115e0e15df615869157c01cd821cc791c92b1c91118467183e315e1015df715864157ae1cd7c1cc7b1c92d1c91218464183e515e1215dce1585d1579f1cd721cc7d1c92f1c8f01845e183e715e1415dd0158551579d1cd6b1cc7f1c9311c8f21845a183e915e1615dd215851157a21cd4c1cc811c9331c8f418454183eb15e1815dd4158491579e1cd471cc83)))
  (.nd (.nd (.lf
  0xfa830fa820fa810fa920fa800fa7e0fa7d0fa7c0fa7a0fa790fa780fa770fa750fa740fa730fa720fa700fa6f0fa6e0fa6d0fa6b0fa6a0fa690fa680fa660fa650fa640fa630fa610fa600fa5f0fa5e0fa5d0fa5b0fa5a0fa590fa570fa560fa550f9cb0f9c90f9c80f9c30f9c20f9c00f9bf0f9bd0f9bc0f9ba0f9b90f9b70f9b60f9b40f9b30f9b20fa540f9b10f9af0f9040f9060f9030f9000f8e00f8df)
  (.lf
  0x1dd3a1daac1f4641f26f1e72d1e72a1e4e21dd1f1da9c1f4581f2b61e7241e7211e4d91dc771da781f4511f1f21e71a1e7171e4cd1dc2c1da561f44c1f1af1e7111e70f1e4be1dbdd1da401f4491f1841e7071e7041e5541dbca1da201f4381f1731e6aa1e6a71e0671db8b1da041f4351f15c1e69d1e6991e00a1deb81db6e1f41d1f1521e6a21e6a01dffc1db3d1f40f1f15f1e64c1e64a1dff11debc1f3f4))
  (.nd (.lf
  0x87b0087a00879008770087600875008740087200871008700086f0086d0086c0086b0086a00868008670086600865008630086200861008600085e0085d0085c0085b00859008580085700f6e00f6c00f6b00f5100f5000f4e00f4d00f2e00f2d00f2b00f2a00f0b00f0a00f0800f0700eea00ee900ee700ee600eca00ec900ec700ec600eaa00ea900ea700ea600e8800e8700e8500e8400e6700e6600e64)
  (.lf 0)))

def shaXorOrder7 : BTree :=
  .nd (.nd (.nd (.lf
  0xaa040a9e80a9ca0a9ab0a98a0b28e0b2320b28d0b2750b2a00b29c0b29d0b29e0b29b0b28f0b2500b25e0b2560b26b0b2670b2680b26a0b2690b2600b25b0b25c0b25d0b24d0b24e0b24f0b2410b23d0b23e0b23f0b23c0ba2f0ba140b9f80b9da0b9bb0b99e0b9820ba570bbac0b9300b9120bbad0ba420bac20ba810ba410ba440ba800ba5d0b80d0b7f00b7d40b7b90b79c0b7800b7630b7470b7270b705)
  (.lf
  0xec6e0ec591004c0fbf70f2ca0ec700ec5a1004d0fbf80f2c30ec720ec5b1004e0fbf90f2be0ec740ec5c1004f0fbfa0f2ba0ec760ec5d100500fbfb0f2b50ec780ec5e100510fbfc0f2b10ec7a0ec5f0ff2f0fbfd0f2ac0ec7c0ec400ff300fbfe0f2a60ec7e0ec410ff310fbff0f2a10ec800ec420ff320fc000f29b0ec820ec430ff330fc010f2960ec840ec440ff340fc020f2930ec860ec450ff350fc03))
  (.nd (.lf
  0x995d0995c0995b09959099580995709956099540995309952099510994f0994e0994d0994c0994a09949099480994709945099440994309942099400993f0993e0993d0993b0993a09939099380993609935099340993309931099300992f0992e0992c0992b098d6098d5098d3098d2098bd098bc098ba098b9098b8098b7098b5098b4098b3098b2098b0098af098ae0a4d10a4cf0a4ce0a4c30a4c20a4c0)
  (.lf 0))) (.nd (.nd (.lf
  0x1ee1c1ee1b1ee191ee181ee171ee161ee141ee131ee121ee231ee111ee0f1ee0e1ee0d1ee0b1ee091ee081ee4b1ee071ee051ee041ee0a1ee031ee011ee001edff1edfd1edfc1edfb1edfa1edf81edf71edf61edf51edf31edf21edf11edf01edee1eded1edec1edeb1ede91ede81ede11ede01edde1eddd1eddc1eddb1edd91edd81edd61edd71edd51edd31ed971ed961ed941ed921ed881ed811ed771ed76)
  (.lf
  0xa19709107090fb08892084600a1d20a19609108090fc08889084620a1c50a19509109090fd08880084640a1c10a1940910a090fe08877084660a1b90a1930910b090ff0886e084680a6270a558098f9098ee092dc089ca0898a0897f0a6220a557098fb098ef092dd089cc0898b089800a61d0a556098fc098f0092de089ce0898c089810a6180a555098fd098f1092df089d00898d089820a6130a554098c8))
  (.nd (.lf
  0xf60a0f5fc0f5fb0f5f80f5ea0f5e90f5e60f5d80f5d70f5d40f5c60f5c50f5c20f5b40f5b30f5b00f5a30f5a20f59f0f5910f5900f58d0f57f0f57e0f57b0f56e0f56d0f56a0f55d0f55c0f5590f55212ba712ba412b9e12b9d12b9a12b9312b9212b8f12b8812b8712b8412b7d12b7c12b7912b7212b7112b6e12b6712b6612b6312b5c12b5b12b5812b5112b5012b4d12b4612b4512b4212b3b12b3a12b37)
  (.lf 0)))

def shaXorOrder8 : BTree :=
  .nd (.nd (.nd (.lf
  0x20ac620abe209b2209b0001900017107c0507c61002df01bf520dc4009a5006f3081fc081fe0674e069af069b1090ea06b96090ec06aa106df706df90a00d06fde0a00f06ee9071890718b0acdf072b60ace10820a073ab0820c0ba37074a00ba390c26e075950c2700ca310768a0ca330d1f00777f0d1f20d9b5078740d9b70df5b079690df5d0e77607a5e0e7780ee570f75e0f7600f001082080f003104a7)
  (.lf
  0xcec20cebb0ceba0ceb80ce9f0ce980ce970ce950ce790ce720ce710ce6f0ce500ce4d0d9b40d9b10d99b0d99a0d9970d97e0d97d0d97a0d9630d9620d95f0d9470d9460d9430d92a0d9290d9260d90c0d90b0d9080d8f00d8ef0d8ec0d8d30d8d20d8cf0d8b40d8b30d8b00d8950d8940d8910d8780d8770d8740d85c0d85b0d8580d8400d83f0d83c0d8240d8230d8200d8080d8070d8040d7ec0d7eb0d7e8))
  (.nd (.lf
  0x1a96b1a96a1a9691a9671a9661a9641a9631a9611a9601a95f1a9651a95e1a95c1a95b1a95a1a9581a9571a9561a9551a9531a9521a9511a9501a94e1a94c1a94b1a94a1a9481a9461a9451a9441a9421a9411a9401a93f1a93d1a9291a9231a9221a91b1a9191a8541a8531a8511a8501a8011a8001a7da1a7d91a7d81a7d71a7d51a7d31a7d11a7d01a7ce1a7bd1a59c1a59d1a59b1a5991a5981a5971a595)
  (.lf
  0x164702d2d02d0f022810224101c690165d016530164802d0a02cec022820224201c6a0165f0165402ce702cc9022830224301c6b016610165502cc402ca6022840224401c6c016630165602ca102c83022850224501c6d016650165702c7e02c5f022860224601c6e016670165802c6602c3f022870224701c6f016690165902c4602c1f022880224801c700166b0165a02c2602bff022890224901c710166d)))
  (.nd (.nd (.lf
  0x1dc1a1dc181dbec1dbd61dbd41dbcf1dbcd1dbac1db961db841db811db5b1db571db531db401db321db301db261db241db0b1daf71daed1daeb1dad51dac81dac61dab51daa81daa61da901da891da861da7d1da7b1da6d1da531da511da4d1da2f1da2c1da2a1da181da0d1da0a1da021da001d9ec1d9dc1d9d01d9ce1d9741d9721d96d1d96c1d96a1d9651d9641d9621d95c1d95b1d9591d9541d97a1d953)
  (.lf
  0x4f4f04951049420465b0531304f5004953049430463b0531404f5104955049440461c0531504f520495704945045f90531604f530495904946045d50531704f540495b04947045b50531804f550495d04948045950531904f560495f04949045760531a04f57049610494a045530531b04f58049630494b0452f0531c04f59049650494c0450f0531d04f5a049670494d044ef0531e04f5b049690494e044cf))
  (.nd (.lf
  0x56640565d0565c0565a056530564c0564b05649056430563c0563b05639056320562b0562a05628056220561b0561a05618056110560a0560905607055ff055f8055f7055f5055ef055e8055e7055e5055e1055da055d9055d7055d3055cc055cb055c9055c3055bc055bb055b9055b2055ab055aa055a8055a10559a0559905597055900558905588055860557f0557805577055750556e055670556605564)
  (.lf 0)))

def shaXorOrder9 : BTree :=
  .nd (.nd (.nd (.lf
  0x1117b110b7110b9110bb110bd110bf110c1110c3110c5110c710eed10eef10ef110ef311180110c9110cb110cd110cf110d11195a1195c1195e11960119621196411966119681196a1196c1196e11970119721197411976119781197a1197c1197e11980119821198411986119881198a11abb1198d11a891199011a551204d1204f12051120531205512087120581205a1205c1205e12060121041206212064)
  (.lf
  0x8ca0076f0076e3030f308cde08ca2076eb076e5030de077e5077d806a1206a0503730077e0077da06a0d06a070371a09bbb09b56078da078cd03d5709b9209b58078d5078cf03d42205a620527204f2204ca204c820583204bf204bd204ba204b82057f20524204ce204b1204af2057b2052b2050e2050a204a420569205652056320562205602054820520204f020496204902051a204f1204e52048520483))
  (.nd (.lf
  0x101d2101d1101f0101d0101ce101cd101cc101ca101c9101c8101c7101c5101c4101c3101c2101c0101bf101be101bd101bb101ba101b9101f1101b8101b6101b5101b4101b2101b1101b0101f2101af101ac101ab101aa101a9101a7101a6101a5101a3101a2101a1101a01019e1019d1019c101ae1019b10199101981019710195101941019310192101901018f1018e1018d1018b1018a101891018810186)
  (.lf
  0xe1620df641684b167c615eff15ec00f4100f34b0edb40ed700e15e0df8316845167c815f0115ec20f4050f34d0edb60ed720e15a0df6516842167ca15f0315ec30f3fa0f34f0edb80ed740e1320df8216839167cc15f0515ec40f3ef0f3510edba0ed760e10c0df6616835167ce15f0715ec50f3e40f3530edbc0ed780e1090df811682e167d015f0915ec60f3d90f3550edbe0ed7a0e0c60df67173fb1704e)))
  (.nd (.nd (.lf
  0x82d6082d5082d3082ce082cd082cb082c6082c5082c3082be082bd082bb082b6082b5082b30826c0826b0826908267082660826408262082610825f0825d0825c0825a0825808257082550825308252082500824e0824d0824b0824908248082460824408243082410823f0823e0823c0823a0823908237082350823408232082300822f0822d0822b0822a0822808226082250822308221082200821e0821c)
  (.lf
  0x15c071544c149e8149e0149de16dc316daa15c0015bfe1543b149ca149c5149c416d9816d7215c2015c1e1542e149b1149ad149ac16d7916d6f15bbb15bb9153fb1496b149671496616d7316d4015b9e15b9c1546c14977149731497216d3c16d2f15b6f15b6d153e7149841497f1497e16d2b16d1315b4a15b48153d6149561494c1494a16d1416cfd15b2215b2015408149581494d1494b16cff16cef15b02))
  (.nd (.lf
  0x1b1821b17f1b17e1b17d1b1791b1781b17a1b1771b1741b1731b1711b16e1c1501c14e1c1491c1481c1451c1401c13f1c13d1c12a1c1281c1261c0bb1c0b91c0b61c0b41c0b31c0b01c0ae1c0ad1c0ab1c0a91c0a71c0a41c0a21c0a11c0841c0821c0811c07f1c07c1c07b1c0791c0721c0711c06f1c0661c0651c0621c05a1c0591c04f1c04e1c04d1c04a1c0431c03c1c03b1c0381c0371c0351c02d1c02c)
  (.lf 0)))

def shaXorOrder10 : BTree :=
  .nd (.nd (.nd (.lf
  0x11ec611e8811e7811efe11f0011ede11ec811eca11f0111f0211e8a11e7a126a71269812697126a612676126a51264312652126441261e126111259112695126961267512674126a41263c12651126421261b12692126941267212673126a31263f12650126411261d1308a130a5130a91314912fff12fde12fe312fe412f7f12f2012ec512ed7130a7130891307b1300512fe212fd212fbf12f8112f22130a6)
  (.lf
  0x1ee7b1d34b1d2fb1ee741d34d1d2ed1ee6f1d34f1d2e71ee6c1d3281d2d81ee661d3291d2da1ee611d3141d2dc1ee5b1d30e1d2de00f730081600b830085420a4f007360034000020200f5007550035f0000107c2706750000d806aa30677206b9806ac506eeb06bba06fe006f0d071c307002072b8071e5073ad072da07b6c074fe075f3066b708ca5076e8077dd06a0a09b5b078d2002de002da002d9002d5))
  (.nd (.lf
  0x14a3314a3214a3114a2f14a2e14a2d14a2c14a2a14a2914a2814a2714a2514a2414a2314a2214a2014a1f14a1e14a1d14a1b14a1a14a1914a1814a1614a1514a1414a1314a1114a1014a0f14a0e14a0c14a0b14a0a14a0914a0814a0614a0514a0414a0214a0114a00149ff149fd149fc149fb149fa149f8149f7149f6149f5149f3149f2149f1149f0149cd149cc149b8149b7149b5149b4149a1149a01499e)
  (.lf
  0x7980078e007650075a20f3420f2001bb001b9000ffc00fbc009a9007b9007990078f007660075b20f2f20f0e01b8b01b7200ffd00fbd009aa007ba0079a00790007670075c20f2920f0701b7901b5800ffe00fbe009ab007bb0079b00791007680075d20f2420f1901b5f01b3f00fff00fbf009ac007bc0079c00792007690075e20f1520f0301b3a01b220100000fc0009ad007bd0079d007930076a0075f)))
  (.nd (.nd (.lf
  0x11e7d11e7c11e6e11e6c11e6b11e6a11e6811e1711e1611e1511e1311e1211e1111e1011e0e11e0d11e0b11e0c11e0a11e0811de411de511de311de111dd711dd911dd611dd411dc911dc811dc611dc011dbf11dbe11dbc11db011da711da611da411da311da211db211da111d9f11d8111d8411d8011d7e11d7d11d7c11d7611d7011d6611d6511d6311d6211d5b11d5a11d5811d5311d5211d5111d4f11d42)
  (.lf
  0xfa6007030032d00306002f8002a00023b20f5a20d5100fa7007040032e00307002f90029b0023a20f5620d2300fa8007050032f00308002fa002960023920b9020b7b00fa9007060033000309002fb002910023820b8b20b7f00faa00707003310030a002fc0028c0023720b8a20b6200fab00708003320030b002fd002870023620b5f20b5000fac00709003330030c002fe002820023520b4c20b4400fad))
  (.nd (.lf
  0x17060170501704017020170101700016ff016fd016fc016fb016fa016f8016f7016f6016f5016f3016f2016f1016f0016ee016ed016ec016eb016e9016e8016e7016e6016e4016e3016e2016e1016df016de016dd016dc016da016d9016d8016d7016d5016d4016d3016d2016d0016cf016ce016cd016cb016ca016c9016c8016c6016c5016c4016c3016c1016c0016bf016be016bc016bb016ba016b9016b7)
  (.lf 0)))

def shaXorOrder11 : BTree :=
  .nd (.nd (.nd (.lf
  0x1dc491e6d31e6cd1e6da1e6c21e7af1e6d91e6b31e6dd1e68f1e6891e6e01e6911e67a1e6741e66e1e6691e6611e67b1e6561e6511e6401e6421e6471e5e41e5d01e5ba1e5c01e57f1e5601e5401ed581ed541ed4c1ed451ed401ed291ed111ecb81ecf61ece81eca21ecc61eca41ec8c1ec7e1ec351ec2e1ec291ec221ec1c1ec171ec0c1ec011ebe41ebda1ebce1ebbf1ebb01eba71e92e1f3951f3971f398)
  (.lf
  0x129621291714705139aa12f761292612918146ff139ab12f321292812919146fa139ac12eeb1292a1291a146f1139ad12edb1292c1291b146ee139ae12e951292e1291c146e81394d12e96129301291d146e21395612e51129321291e146dc1393e12e25129341291f146d61393612ddb1293612920146d01393012dc71293812921146ca1393112dae1293a12922146bf1391412d991293c12923146bc13915))
  (.nd (.lf
  0x97a8097a4097a30979f0979e0979a097990979509794097900978f0978b0978a097860978509781097800977c0977b097770977609772097710976e09700096fc096fb096f7096f6096f3096ce096cb096c3096c0096b9096b5096b4096b0096af096ab096aa096a70968f0968c096710966e0965c096590964d0964a0964309640096320962e0b2290b2270b2210b21a0b2190b2170b2100b2090b2080b206)
  (.lf 0))) (.nd (.nd (.lf
  0x201bc201ba201b9201c8201b8201b6201b5201b4201b2201a5201a4201f2201a3201a1201a0201a72019f2019d2019c2019b201942019220191201902018e201802017e201812017d2017b2017a20179201752016f200d31f1351f1331f1321f1301f12d1f12c1f12b1f06e1f06c1f06b1f0691f0671f0661f0641f0621f0611f05f1f05d1f05c1f05a1f0591f0571f0561f0541f0521f0501f04f1f04d1f04b)
  (.lf
  0xb2c80ad620a6980a62e0bfeb0bfce0b2d50b2c90ad630a7480a6870bfc90bfab0b2d60b2ca0ad640a67a0bfa60bf8a0b2d70b2cb0ad650a74c0bf850bf6a0b2d80b2cc0ad6a0a7350bf650bf480b2a90b2a70ad220a71e0bf430bf250b2820b2780ad140a7080bf200bf040b2830b2790ad150a6f20beff0bee20b2840b27a0ad160a6dc0c2790bec10b2850b27b0ad170a6c60bebc0bea70b4d90b4d70acf4))
  (.nd (.lf
  0x14603145fc145fb145f9145f8145f1145f0145ee145ed145e6145e5145e3145e2145db145da145d8145d7145d0145cf145cd145cc145c5145c4145c2145c1145ba145b9145b7145b6145af145ae145ac145ab145a4145a3145a1145a0145991459814596145951458e1458d1458b1458a1458314582145801457f145781457714575145741456d1456c1456a1456914562145611455f1455e145571455614554)
  (.lf 0)))

def shaXorOrder12 : BTree :=
  .nd (.nd (.nd (.lf
  0x1c60e1c6051c6071c60f1ca4d1ca521ca3e1ca401ca411ca2f1ca281ca241ca1f1ca1c1ca1e1ca0b1ca071c9fe1c9f81c9f31c9f41c9f21c9e11c9dd1c9ba1c9b41c9ae1c9a41c99e1c9961c98a1c96d1c9671c9581cdc21cdba1cdbd1cdb31cdb11cda41cd9f1cd981cd9a1cd9b1cd871cd811cd7a1cd701cd581cd4e1cd5c1cd3e1cd341cd0c1cd1c1cd011ccfb1ccf01ccbd1ccb81ccb11ccbf1cca81cca2)
  (.lf
  0x6ea806ea706ea406ea306ea206e9f06e9e06e9d06e9a06e9906e9806e9506e9406e9306e9006e8f06e8e06e8b06e8a06e8906e8606e8506e8406e8106e8006e7f06e7c06e7b06e7a06e7706e7606e7506e7206e7106e7006e6d06e6c06e6b06e6806e6706e6606e6306e6206e6106e5e06e5d06e5c06e5906e5806e5706e5406e5307188071850717f0717e0717b0717407173071700716907168071650715e))
  (.nd (.lf
  0x17bd717bd617bd517bd317bbf17bbc17bc017bbb17bb917bb817bb717bb517bb3179d5178c9178c7178c6178c5178cb178c4178c2178c1178c0178be178bd178bc178bb178b9178b5178b4178b3178b1178b0178af178ae178ac178ab178aa178a9178a7178a6178a5178b7178a4178a2178a1178a01789d1789c1789b178b61789a17898178971789617894178931789217891178901788e1788d1789e1788c)
  (.lf
  0x1b6e0167781670a13ab0134ee134e71bf971bf191b6e2167051630013ab2134e1134761bf8a1bf1b1b6e4167761670013ab3134bc134751bf871bf1d1b6e6166fb1630313ab413561134b81bf7d1bf1f1b6e816774166f813ab5134b4134741bf731bf211b6ea166f41630613ab6134d6134ae1bf5d1bf231b6ec16772166ee13ab7134aa1347b1c3001c2941bf1c16c4e16c1113f4213e2413d7e1c2fa1c296)))
  (.nd (.nd (.lf
  0x16a5e16a0f16a0c16a0b16a0a16a0416a0316a0216a00169fc169fa169f4169f3169f2169cf169c61698c1698a1697d168e2168e1168df168dd168da168ce177fd177eb177e31777b17779177761776b17763177ab177621776017758177971775717753176d8176f2176d7176d5176d1176d0176c3176c1176ac176ae176ab176a8176a6176a5176a317696176881772517686176841766e1766d1766317661)
  (.lf
  0x3f2703f0709d9409b3e07916078b5077c50778603f0203ee309d6e09b4007911078b7077c70778703ee403ec409d4609b420790c078b9077c90778803ebf03ea109d1f09b4407907078bb077cb0778903e9c03e7d09cf709b4607902078bd077cd0778a03e7e03e5e09cce09b48078fd078bf077cf03e5903e3b09ca709b4a078f8078c1077d103e3603e1709c8109b4c078f3078c3077d303e1803df709c5b))
  (.nd (.lf
  0x379803791037900378e037760376f0376e0376c0375803751037500374e0373b0373403733037310371e0371b0364d0364b0364a03649036480364603645036440364303641036400363f0363e0363c0363b0363a03639036370363603635036340363203631036300362f0362d0362c0362b0362a03628036270362603625036230362203621036200361e0361d0361c0361b0361903618036170361603614)
  (.lf 0)))

def shaXorOrder13 : BTree :=
  .nd (.nd (.nd (.lf
  0x9520095040950209501094bb094b9094b8094aa094a8094a709499094970949609fcf09fcd09fcc09f8009f7e09f7d09f5709f5509f5409f0809f0609f0509edf09edd09edc09eb609eb409eb309e8d09e8b09e8a09e3e09e3c09e3b09dc909dc709dc609d5409d5209d5109d0509d0309d0209cdc09cda09cd909c4109c3f09c3e09c1809c1609c1509bc909bc709bc609ba009b9e09b9d0acd00acce0accd)
  (.lf
  0x1afcd1afc119e90197d7190e018e281afc41afa019e6c197cf190c618e291af9b1af7d19dd3197a01911118e2a1af7e1af5a19db61949d190c818e2b1af5b1af4d19d9d1945619135190ca1af381af1919d811944a190cb1af131aeff19d3d194421901a1aef01ae2619d05193ef191131ba971b9361ace51a3d819a6d19a5819a541ba931b93c1acdd1a36d19a6f19a5919a551ba901b8fa1ad081a38b19a71))
  (.nd (.lf
  0xd57a0d5790d5780d5760d5750d5740d5730d5710d5700d56f0d56e0d56c0d56b0d56a0d5690d5670d5660d5650d5640d5620d5610d5600d55f0d55d0d55c0d55b0d55a0d5580d5570d5560d5550d5530d5520d5510d5500d54e0d54d0d54c0d54b0d5490d5480d5470d5460d5440d5430d5420d9a20d9a00d9860d9830d96f0d9680d94e0d94b0d9310d92e0d9170d9100d9000d8f40d8e30d8d70d8c10d8b8)
  (.lf
  0x9e7409e6a09e5e113241130a0d0a50ce170a9580a93f09e4f09e4d09e4309e36113261130b0d0870ce190a95a0a91609e2709e2509e1b09e0f11328112e90d06b0ce1b0a95c0a91809e0009dfe09df409de91132a112eb0d04f0ce1d0a95e0a91a09dda09dd809dce09dc11132c112ed0d0320ce1f0a9600a91c09db209db009da609d9a1132e112ef0d0150ce210a9620a91e09d8b09d8909d7f09d7411330)))
  (.nd (.nd (.lf
  0x2bbf02bbd02bbc02ba402b9b02b9902b7c02b7a02b7902b6102b5802b5602b3902b3702b3602b1e02b1502b1302afe02af502af302ad902ad702ad602abb02ab902ab8034bb034b9034b80349e0349d0349b0349a0347a0347903477034760345b0345a03458034570343703436034340343303418034170341503414033f5033f4033f2033f1033d1033d0033ce033cd033b1033b0033ae033ad0339103390)
  (.lf
  0x109bd1025a0fb5d0fb540fb49117fc1171c109c6109be1025b0fb5f0fb550fb4a11717117011097f1097d1025c0fb610fb56116f9116f310948109461025d0fb630fb57116ee116e810919109171025e0fb650fb58116e3116df10906109041025f0fb670fb59116e0116d61087c1087a102600fb690fb5a116d2116ab1083d10837102610fb6b0fb5b116a61169a1083e10838102620fb6d0fb5c1169411685))
  (.nd (.lf
  0x182c2182c1182bf182bc182ba182b9182b6182b4182b3182b1182af182c9182ad182aa182a9182a6182a4182a3182a01829e1829d1829a18298182cf182971829418293182901828918288182811827d1827c18279182701826f1826c1826518264182411823e1823d1823918238182371823318232182311822d1822c1839d1839b183991838f183901838e1838c1838a183891838718386183851838418383)
  (.lf 0)))

def shaXorOrder14 : BTree :=
  .nd (.nd (.nd (.lf
  0x135da135dd134ec134f0134e5134bf13563134b3134d8134a9134a3134c013fc413fc313fb513fae13fad13fa313f9c13f9413f8c13fb613f9b13f9a13f7913f8e13fb713f6713f6f13f7013f5613fdf13f5513f4113f4413f2013f0513d8313d6313d6513d5813d861472a147411471d147151470f1470914722146fe146f8146f5146ec146e6146e0146da146d4146ce146c8146c1146ba146b4146ae146c3)
  (.lf
  0x67620008b06b6606ad4067860676e067630008606b6106ad6067880676f067640008106b5c06ad80678a067700007c06b5706ada0678c067710007706b5206adc0678e0674f0007206b4d06ade06790067510006d06b4806ae006792067530006806b4306ae206794067550006306b3e06ae406796067560005e06b3906ae606798067570005906b3406ae80679a067580005406b2f06aea0679c067590004f))
  (.nd (.lf
  0x11f2511f2411f2311f2111f2011f1f11f1e11f1c11f1b11f1a11f1911f1811f1611f1511f1411f1211f1111f1011f0f11f0d11f0c11f0b11f0a11f0811f0711f0611f0511f0311e7b11e67129fc129fa129f9129f8129f7129f5129f4129f3129f2129f0129ef129ee129ed129eb129ea129e9129e8129e6129e5129e3129e2129e1129df129de129dd129db129da129d9129e4129d8129d6129d5129d4129d2)
  (.lf
  0x12bc31b7901b6d71ae0e1adcc15e5915e0d131d31318f12d5812bbf1b78d1b6d91ae101adcd15e5415e0f131d51319112c9f12bc01c14a1bed01b6b61b6a71b69c1676b162c613aca13abc13aba137d01349a1c1461bed21b6b81b6a81b69d16765162c813acc13abd13abb137ca134991c1291bef11b6ba1b6a91b69e16761162ca13ace13abe137c5134981c0ba1bef31b6bc1b6aa1b69f1675c162cc13ad0)))
  (.nd (.nd (.lf
  0xcab10cab00caae0caad0caac0caab0caa90caa80caa70caa60caa40caa30caa20caa10ca9f0ca9e0ca9d0ca9c0ca9a0ca990ca980ca970ca950ca940ca930ca920ca900ca8f0ca8e0ca8d0ca8b0ca8a0ca890ca880ca860ca850ca840ca830ca810ca800ca7f0ca5c0ca5a0ca580ca570ca550ca530ca520ca500ca4e0ca4d0ca4b0ca490ca480ca460ca440ca430ca410ca3f0ca3e0ca3c0c9830cce80c966)
  (.lf
  0x198b21bd291bb371a9ce1a9cc1a0b8199cb198011bd261bb4a1a9d61a9d41a0a319b6d199b81bbd61bb301a9ac1a9aa19ec1199511bbd21bb271a9351a93319e8519b701bbcf1bbb51a93b1a93919e7219b601bbc01bb1e1a8631a86119dcd19ba41bbb71b8bf1a7f21a7f019daf19b491b8c01b8b61a7fc1a7fa19d9819b381b8ae1b8a61a7cb1a7c919d8719b291b89a1b8901a7a61a7a419d3219b1b1b889))
  (.nd (.lf
  0x1d14d1d14c1d1491d1481d1471d1441d1431d1421d1401d13e1d13d1d13c1d1391d1381d1351d1341d1331d1301d12f1d12d1d12b1d1291d1311d1281d1261d1241d1231d1211d17b1d11f1d11d1d11b1d1181d1171d1161d0f91d0f81d0fa1d0f71d0f51d0e11d0df1d0dd1d0ce1d0cc1d0cb1d0d01d0c91d0c71d0c51d0c21d0c11d0c01d0be1d0bc1d0d11d0bb1d0b91d0b71d0b51d0b41d0b21d0af1d0ae)
  (.lf 0)))

def shaXorOrder15 : BTree :=
  .nd (.nd (.nd (.lf
  0x20a6b20a2a20a28209ac209aa209a9208a4208a2208a120a2420a2320a1f20a1d20a2520a1a20a1620a1220a1120a0e20a0c20a0820a0720a0220a0420a01209fd209fa209f8209f5209f3209ee209f0209ed209e9209e8209e4209e3209df209de209da209d6209d52076e2076d206f92034c2034a2034d20346203422033f2033d2033a2033820335203332032f2032e2032d20329202f9202db202af202ad)
  (.lf
  0xb5b80b57b0cf380c3380bae90b5ba0b57c0cf170c3390bae40b5bc0b57d0cef30c33a0baf30b5be0b57e0ced10c33b0baee0b5c00b57f0ceae0c33c0badb0b5c20b5800ce8a0c33d0bad30b5c40ce620c33e0badf0b5c60ce470c33f0bad40b5c80d9840ccad0c3420bda20bd5a0bd550d9690ccae0c3430bda40bd5b0bd560d94f0ccaf0c3440bda60bd5c0bd570d9320ccb00c3450bda80bd5d0bd580d918))
  (.nd (.lf
  0x8cc608cbc090d8090d6090d2090b7090b6090b4090b00909509094090920908e0907309072090700906a0904f0904e0904c090450902b0902a090280902109007090060900408ffd08fe308fe208fe008fd908fbf08fbe08fbc08fb508f9b08f9a08f9808f9308f7808f7708f7508f7108f5608f5508f5308f4f08f3408f3308f3108f2d08f1208f1108f0f08f0b08ef008eef08eed08ee708ecc08ecb08ec9)
  (.lf 0))) (.nd (.nd (.lf
  0x1c63d1c63c1c6391c6381c6371c6351c61f1e4ae1e4ac1e4a91e4a61e4a51e48d1e48c1e48b1e48a1e4881e4861e4851e4841e4811e4751e4741e4731e4711e46f1e46d1e46e1e46c1e46a1e4691e4771e4681e4661e3e31e3f61e3e21e3e01e3d41e3d31e3d11e3ce1e3c81e3d61e3c71e3c51e3c01e3bf1e3bd1e3bc1e3bb1e3ba1e3b81e3b71e3b61e3b51e3b31e3b11e3b01e3f81e3af1e3ad1e3931e392)
  (.lf
  0x545f082e6081b705e5705e17059020544e0544905448082e30818705e5805e18058f9054380543305432082da0815805e5905e19058f0054220541d0541c082d20812b05e5a05e1a058e70540c0540705406082ca080fb05e5b05e1b058de053f6053f1053f0082c2080cd05e5c05e1c058d5053e0053db053da082ba0809f05e5d05e1d058cb053ca053c5053c4082b20807005e5e05e1e058c2053b7053b4))
  (.nd (.lf
  0xf1c20f1bb0f1ba0f1b80f1b70f1b00f1af0f1ad0f1ac0f1a50f1a40f1a20f1a10f19a0f1990f1970f1960f18f0f18e0f18c0f18b0f1840f1830f1810f1800f1790f1780f1760f1750f16e0f16d0f16b0f16a0f1630f1620f1600f15f0f1580f1570f1550f1540f14d0f14c0f14a0f1490f1420f1410f13f0f13e0f1370f1360f1340f1330f12c0f12b0f1290f1280f1210f1200f11e0f11d0f1160f1150f113)
  (.lf 0)))

def shaXorOrder16 : BTree :=
  .nd (.nd (.nd (.lf
  0x1267f128f01309b130791385b13995143cb141d1149d814ba7154591525a15c5a15c4c166321640416fcf16dce178461781318151180b41895f1898d192171912a19b6819a421a3ef1a4401ab711acec1b5901b58a1bcf21be2b1ddde1dde31e5fb1e2371e8051e9201edbc1efc21f3c11f58f1fb1d1fd4a204d42016020c2b20a4020f4b20f5220ca9205aa206ce20fa020a50201661ffb907c0300381003c0)
  (.lf
  0xdf270df200df1f0df1d0df1c0df150df140df120df110df0a0df090df070df060deff0defe0defc0defb0def40def30def10def00dee90dee80dee60dee50dede0dedd0dedb0deda0ded30ded20ded00decf0dec80dec70dec50dec40debd0debc0deba0deb90deb20deb10deaf0deae0dea70dea60dea40dea30de9c0de9b0de990de980de910de900de8e0de8d0de860de850de830de820de7b0de7a0de78))
  (.nd (.lf
  0x1abd81abd71abd61abd41abd31abd21abd11abcf1abce1abcd1abcc1abca1abc91abc81abc71abc51abc41abc31abc01abbe1abbd1abbc1abbb1abb91abb81abb71abc21abb61abb41abb31abb21abb01abaf1abae1abad1abab1abaa1aba91aba81aba61aba51aba41aba31aba11aba01ab9f1ab9e1ab9c1ab9b1ab9a1ab991ab971ab961ab951ab941ab921ab911ab901abff1ab8f1ab8d1ab8c1abfd1ab8b)
  (.lf
  0x2eb1028e6022f0037dc037bd02ef202eb2028e7022f2037c40379d02ef302eb3028e8022f4037a40377e02ef402eb4028e9022f6037790375f02ef502eb5028ea022f80375a0374102ef602eb6028eb022fa0373c0372402ef702eb7028ec022fc0371f0371402ef802eb8028ed022fe0410e040e903518034d802efb0293d028fd028f2040f0040ca03519034d902efc0293f028fe028f3040c5040a60351a)))
  (.nd (.nd (.lf
  0x1ed711ed701ed661ed641ed631ed621ed601ed2a1ed281ed121ed101ed0e1ece71ece61ece41ecdb1ecda1ecf71ecd91ecd71ecd61ece91ecd51ecd31eccf1ecce1eccc1ecc51ecc11ecc71ecc01ecbe1ecaa1eca91eca71eca51ec8b1ec8d1ec8a1ec881ec841ec7f1ec7d1ec7b1ec5f1ec5e1ec5c1ec5b1ec581ec661ec571ec551ec541ec591ec531ec511ec501ec691ec4f1ec4d1ec4c1ec4b1ec451ec41)
  (.lf
  0x5fe005aa405a8a068540653d05fe105aa605a8b068430653e05fe205aa805a6c068320653f05fe305aaa05a6d068210654005fe405aac05a6e068100654105fe505aae05a6f067ff0654205fe605ab005a70067ee0654305fe705ab205a71067dd0654405fe805ab405a72067cc0654505fe905ab6067bb0654605fea05ab8067b10654705feb05aba090bb082f10654a0604105ff905ff409099082e90654b))
  (.nd (.lf
  0x59ee059ed059ec059ea059e9059e8059e7059e5059e4059e3059e2059e0059df059de059dd059db059da059d9059d8059d6059d5059d4059d3059d1059d0059cf059ce059cc059cb059ca059c9059c7059c6059c5059c4059c2059c1059c0059bf059bd059bc059bb059ba059b8059b7059b6059b5059b3059b2059b1059b0059ae059ad059ac059ab059a9059a8059a7059a6059a4059a3059a2059a10599f)
  (.lf 0)))

def shaXorOrder17 : BTree :=
  .nd (.nd (.nd (.lf
  0x1a3741a3921a3431a37f1a3a41a2651a2671a24a1a24c1a20d1a2681a1d71a44b1a3e11a3761a3941a3461a3811ace61ad1a1ad091acbd1ad221acf71ad051acfa1ad151acc61ad271acfc1acfe1ad0f1ad1c1ad291acc81acca1accc1ad1e1ac931ac951adc11ac751ad001ad021ad041ad111acce1ad2c1b5091b4fe1b4b31b4a41b4651b5a11b5101b5121b4ba1b4bc1b5a31b5251b5151b4be1b4c01b485)
  (.lf
  0x19f561c5701c3e419fc219f6d19f571c5691c4dd19fbc19f6f19f581c5661c4df19fb619f7119f591c5601c49019fb019f7319f5a1c5231c49219fab19f7519f3c1c5201c4e919fa519f7719f3e1c51c1c49519fa119f7919f401c5151c49719f9d19f7b19f421c5121c4e119f9719f7d19f441c50d1c4e319fef19f9319f7f1c5061c4e519f8f19f8119f461c5021c4e719ff319ff119f8b1c4fc1c49919f83))
  (.nd (.lf
  0x10ad910ad810ad710ad510ad310ad20f3120f30f0f30d0f30a0f3080f3060f3030f3000f2fe0f2fb0f2f90f2f60f2f40f2f00f2ef0f2eb0f2ea0f2e60f2e50f2e10f2e00f2dc0f2db0f2d70f2d60f2d20f2d10f2ce0f2cc0f2c90f2c70f2c20f2c40f2c10f2bd0f2b90f2b80f2b40f2b30f2b00f2ae0f2aa0f2a90f2a80f2a40f2a20f29f0f29c0f29a0f2970f2950f2920f2900f28b0f28d0f28a0f2860f271)
  (.lf
  0x179251282b127440f0e20f0d40f0d20f0ae0f01d18394181d417941179311792612826127460f0e40f0d50f0d30f0aa0f01c1836b181f317943179321792712821127480f0e60f0d60f0a50f01b18368181f51794517933179281281c1274a0f0e80f0d70f09f0f01a18362181f7179471793417929128171274c0f0ea0f0d80f09c0f01918359181f917949179351792a128121274e0f0ec0f0d90f0980f018)))
  (.nd (.nd (.lf
  0x98da098d9098d8098d7098c5098c3098c2098c1098bf098be0986f0986e0986c0986b0986a09869098680986609865098640986209861098600985f0985d0985c0985b0985a0985809857098560985509853098470982509824098220982109820098260981f0981d0981c0981b09819098180981709816098140981309812098110980f0980e0980d0984d0980c0980a098090980809806097ed097ec097eb)
  (.lf
  0x16eec1658915c6215ae617ce517cd616ee616ee41657d15c1015ae717cdc17ccf16eda16ed81657415c1115a8e17cda17cc716ecf16ecd1656a15c2515a7317cd817cbd16ec516ec11655815bc115a7417cb317c8d16ec616ec21655d15ba215a7b17cad17c8916eac16eaa1654915b7815a5917c9c17c8316ea216ea01654a15b5415a5817c9917c7f16eb316eb11653315b1415a3317c9217c7916e9516e93))
  (.nd (.lf
  0x1c2c81c2c71c2c61c2c41c2c21c2b51c2da1c2b01c2ac1c2ab1c1d71c1d51c1d31c1d21c1cd1c1cc1c1cb1c1c91c1c71c1c61c1c41c1c21c1c11c1bf1c1bd1c1bc1c1ba1c1b81c1b71c1b31c1b21c1b41c1b11c1af1c1ad1c1ab1c1a81c1a71c1a41c1a31c1a21c19f1c19e1c19d1c19b1c19a1c1ac1c1981c1951c1941c1911c1901c1921c18e1c18c1c18a1c1881c1871c1ce1c1851c1831c1811c17f1c17c)
  (.lf 0)))

def shaXorOrder18 : BTree :=
  .nd (.nd (.nd (.lf
  0x1b4291b59c1b5721b5591b5481b5371b47a1b4341b40d1b3f81d7771bcfa1d7761bd7a1d7751bcd01d7741bcb31d7731bc9c1d7721bc841d7711bd7d1bd0e1bd7c1bd0d1bd0c1bd0b1bd1a1bca31bd0a1bd091bd251bd081bd071bd7b1bd061bd191bca21ddd81deba1ddce1dd431dd201dc8b1dc2d1dbe01dbcb1db8d1db6f1db3e1debd1ddd31dd551dd1d1dc9c1dc251dbdf1dbc31db8c1ddf11ddd21dd57)
  (.lf
  0x64b00644006430064100640006390063800636006350062e0062d0062b0062a0062300622006200061f006180061700615006140060d0060c0060a006090060200601005ff005fe005f7005f6005f4005f3005ec005eb005e9005e8005e1005e0005de005dd005d6005d5005d3005d2005cb005ca005c8005c7005c0005bf005bd005bc005b5005b4005b2005b1005aa081fb081f9081f8081d3081d2081d0))
  (.nd (.lf
  0x15dbe15dbd15dc315dbc15dba15db915db815db615db515db415db315db215db015daf15dae15dac15dab15daa15da915da615da515da415da315da115da015d9f15d9e15d9c15d9b15d9a15d9915d9615d9515d9415da715d9315d9115d9015d8f15d8d15d8c15d8b15d8a15d8715d8615d8515d9715d8415d8215d8115d8015d7e15d7d15d7c15d7b15d7915d7815d7715d8815d7615d7415d7315d7215d70)
  (.lf
  0x6e39044f3044d207b6807b24079fc079b0078c00787e06e8706e3b044d3044b307b6a07b26079f7079b2078c20787f06e8206e3d044ae0448f0f75b0f4f30acdc0a9190798f07980079750668d0667f0667d04d7604d590f74b0f4f50acc20a91b0799107981079760668f066800667e04d5a04d3a0f73a0f5140aca50a91d079930798207977066910668104d3504d160f7280f5160ac880a91f0799507983)))
  (.nd (.nd (.lf
  0x12bd213068130661306413063130611306012fb012fae12fac12fab12fa912fa712fa612fa412fa212fa112f9f12f9e12f5e12f5c12f5b12f2f12f1512f1312ee712ee612ee412ee212ee012ed812e8f12e8c12e8b12e8212e8012e7f12e4a12e4812e4612e2012e1e12e1d12dd712dd512dcf12dbf12dbd12dbc12db112daf12dab12d9b12d9612d9412d8012d7d12d7c12d4112d4012d3e12d1f12d1d12d1b)
  (.lf
  0x48210622e05912059100547404e5b06051058830585f0526004e590820505e5505e15059130547b07c6b05e7405e3405895053c808a74063d10639105e750596008762063f0063b005e940595e090f3083ec083b8063f105ee108cae082fd082fb0641005edf096270894b0891f084060645d0962b0885408852082fe0645b0a1b4092d4092ca089610846c0a1920910c09100088550846a0a559098f7098ed))
  (.nd (.lf
  0x28430282602825028230282202804028030280102800027e1027e0027de027dd027c0027bf027bd027bc027a00279f0279d0279c0277e0277d0277b0277a0275b0275a02758027570273802737027350273402715027140271202711026f2026f1026ef026ee026d1026d0026ce026cd026b1026b0026ae026ad02691026900268e0268d0266f0266e0266c0266b0264e0264d0264b0264a0262e0262d0262b)
  (.lf 0)))

def shaXorOrder19 : BTree :=
  .nd (.nd (.nd (.lf
  0x24e102e4a02e4802e3502de702de502dd202d6402d6202d4f02d4102d3f02d2c02d1e02d1c02d0902cfb02cf902ce602cd802cd602cc302cb502cb302ca002c9202c9002c7d02bcf02bcd02bba02b8c02b8a02b7702b4902b4702b34034a7034a50349203464034620344f034210341f0340c033fe033fc033e90337b0337903366033580335603343033350333303320032b2032b00329d0326f0326d0325a)
  (.lf
  0x1414a1616b1513814abf141f01414b161621512a14b20141f21414c1615f1511814ac0141f41406e1614f1510c14aa3141f6140691614b150fa14a8e141f81406a1612e150eb14a8f141fa1406b1612b150d914a95141941406c1610e14fd714a90141961406d1610b14f8e14a911419813df0160fb14f8314a6d141db1419a160e914f4f147401419c160cf14f50146761419e160b614f2414652141a016bda))
  (.nd (.lf
  0xb9220b90d0b90c0b90a0b9030b8ef0b8ee0b8ec0b8e50b8d10b8d00b8ce0b8c70b8b30b8b20b8b00b8a90b8950b8940b8920b88d0b8790b8780b8760b8720b85e0b85d0b85b0b8550b8410b8400b83e0b8390b8250b8240b8220b81c0b8070b8060b8040b7ff0b7ea0b7e90b7e70b7e30b7cf0b7ce0b7cc0b7c80b7b40b7b30b7b10b7ab0b7970b7960b7940b78f0b77b0b77a0b7780b7720b75e0b75d0b75b)
  (.lf 0))) (.nd (.nd (.lf
  0x1f5f01f5ed1f5ec1f5eb1f5e81f5e71f5ea1f5e51f5e31f5e11f5de1f5dd1f5dc1f5da1f5d81f5d71f5d31f5d21f5d11f5ce1f5cd1f5cc1f5ca1f5c71f5c61f5c31f5c21f5c91f5c11f5bf1f5d41f5bd1f5bb1f5b91f4341f4281f4321f4271f4181f41a1f4171f40c1f40b1f4091f4071f4061f4001f1171f11d1f1161f1131f1101f1071f0ef1f0f41f0ee1f04a1f0491f0451efe01eff11efdf1efd920d26)
  (.lf
  0xbc750daba0d9570cb710cb6f0c49d0bc960bc7b0bc760dab60d9370cb680cb660c4420bc980bc7c0bc770dab20d9250cb5f0cb5d0c42c0bc380bc350bc340daac0d9020cb560cb540c4160bca00bc280bc150daa30d8eb0cb4d0cb4b0c4000bc2a0bc190bc160daa00d8ca0cb440cb420c3ef0bca60bc1a0bc170da8a0d8ac0cb3b0cb390c3e10bc1d0bc1b0bc180da870d88d0cb320cb300c3d60bc780bc1e))
  (.nd (.lf
  0x15787157801577f1577c1577515774157711576a15769157661575f1575e1575b1575415753157501574915748157451573e1573d1573a15733157321572f1572815727157241571d1571c1571915712157111570e157071570615703156fc156fb156f8156f1156f0156ed156e6156e5156e2156db156da156d7156d0156cf156cc156c5156c4156c1156ba156b9156b6156af156ae156ab156a4156a3156a0)
  (.lf 0)))

def shaXorOrder20 : BTree :=
  .nd (.nd (.nd (.lf
  0x4c9404c8004c7404c6004c5404c4004c3404c2004bce04bba04bae04b9a04b8e04b7a04abf04aab04a3604a2204a1604a02049f6049e2049d6049c2051f0051e8051dc051d4051b1051ab05188051820510705101050f5050ed050cc050c4050770506f0504e050460571d0571b0570f0570d05701056ff056f3056f1056e5056e3056d7056d5056c9056c7056990569705647056440562605623055f3055f0)
  (.lf
  0xaada0aad30aad20aad00aabd0aab60aab50aab30aa9f0aa980aa970aa950aa830aa7c0aa7b0aa790aa680aa610aa600aa5e0aa4b0aa440aa430aa410aa2d0aa260aa250aa230aa0f0aa080aa070aa050a9f30a9ec0a9eb0a9e90a9d60a9cf0a9ce0a9cc0a9b70a9b00a9af0a9ad0a99d0a9960a9950a9930a97d0a97a081f4081ec081ca081c9081c008199081980818f0816b0816a081610813d0813c08133))
  (.nd (.lf
  0x1816b1816a18169181671816618165181641816218161181601815f1814d1814c1809318092180901808f1808e1808d1808b1808a18089180881808518084180831808618082180801807f1807e1807c17fe917fe817fc017fbe17fbd17f9a17f9917f9817f9617f9518a3418a3218a3118a3018a2f18a2c18a2b18a2a18a2918a2718a2518a2418a2618a2318a2118a2018a1f18a1d18a1c18a1b18a1a18a18)
  (.lf
  0x79b6078c606e7806e410446b0444d07b2b079e8079b8078c806e7306e43044480442907b2c079e3079ba078ca06e6e06e450442a0440a07b2d079de079bc078cc06e6906e4704405043e707b2e079d9079be078ce06e6406e49043e2043c407b2f079d4079c0078d006e5f06e4b043bf043a10f5f00f53a0aa7e0a959079b90667304abc04a9c0f5de0f53c0aa630a95b079bb0667504a9704a790f5cc0f53e)))
  (.nd (.nd (.lf
  0x186af186b2186ae186ac1869b186a31869a186981868718686186841868318671186701866e1866d185b0185b3185af185ad1859118594185901858e1858318585185811857f1857418573185711856c185371853b18536185341850c1850e1850b18509184f5184f4184f2184ec184e0184df184d9184d8184d7184d6184d1184b11841e1898e1898c1898a1898818981189801897f188f5188f0188b9188b7)
  (.lf
  0x115d0115800f6200f6001d9801775011a70115e0115900f4100f3f01d9901776011a90115f0115a00f1e00f1c01d9a01777011ab011600115b00efe00efa01d9b01778011ad011610115c00ede00eda01d9c01779011af0116200ebe00eba01d9d0177a011710116300e9b00e9901d9e0177b011730116400e7b00e7701d9f0177c011750116500e5b00e5701da00177d011770116600e3800e3601da10177e))
  (.nd (.lf
  0x3c1703c1603c1503c1303c1203c1103c1003c0e03c0d03c0c03c0b03c0903c0803c0703c0603c0403c0303c0203c0103bff03bfe03bfd03bfc03bfa03bf903bf803bf703bf503bf403bf303bf203bf003bef03bee03bed03beb03bea03be903be803be603be503be403be303be103be003bdf0474c0474a0474904731047300472e0472d0470f0470e0470c0470b046ee046ed046eb046ea046ce046cd046cb)
  (.lf 0)))

def shaXorOrder21 : BTree :=
  .nd (.nd (.nd (.lf
  0x151751516915167151651515a15158151561514a1511e1511c1511015100150fe150f2150f0150ee150e214fdb14fd914fce15bf615bf015bee15b9215b8a15b8915b8715b6515b6415b6215b4115b2d15ab715ab615ab315ab215aae15aad15abd15aa915aa715aa515aa315a9515a0b15a01159fe159f8159f6159f2159c2159c01596315961159501594f1594b1592c158d517f6117f5917f5817eef17eed)
  (.lf
  0x1bd401b2161acc51ac541c4191c3ea1bd411b20f1ad261ac401c4141c3c21bd421b2081acfb1ac591c4101c3e91bd2c1b1ff1acfd1ac5f1c4091c3af1bbe11b1c71ad0e1ac3f1c4061c3e81bbd91b3b11ad1b1ac211c4011c3a31bbe71b02a1ad281ac171c3fc1c3e71bbc61b01c1acc71ac181c3f71c3931bbcc1b01d1acc91ac051c3f11c3971bbbc1b0211accb1a8141c38d1c2ea1b8c31b00b1ad1d1acf1))
  (.nd (.lf
  0xe07f0e05e0e05c0e03a0e0380e0170e0150dff50dff40dfd40dfd30dfb10dfb00df8d0e21c0e21a0e2190e2170e3cf0e2160e2140e2130e2110e20f0e20e0e20d0e38c0e20c0e20a0e2090e2080e2060e2050e2030e3430e2020e2000e1ff0e1fe0e1fc0e1fb0e1f90e2f70e1f80e1f60e1f50e1f40e1f20e1d70e1d60e2b90e1d50e1ce0e1cd0e1cc0e1c70e1c60e1c50e2870e1c30e1c10e1c00e1c90e1be)
  (.lf
  0x1212f0de9e0ddf00b6c00b67c0aae80aadb12ae012a4212171121300de930ddf20b6c20b67e0aaca0aabe12ad512a4412173121310de880ddf40b6c40b6800aaad0aaa012aca12a4612175121320de7d0ddf60b6c60b6820aa900aa841346a132c612a2312a1412a090e7730e5970be720be640be62097c0097bb13460132c812a2512a1512a0a0e7680e5990be740be650be63097b6097ae13455132e712a27)))
  (.nd (.nd (.lf
  0x3efe03efd03edd03edc03eda03ed903ebe03ebd03ebb03eba03e9b03e9a03e9803e9703e7703e7603e7403e7303e5803e5703e5503e5403e3503e3403e3203e3103e1103e1003e0e03e0d03df103df003dee03ded03dd103dd003dce03dcd03db103db003dae03dad03d9103d9003d8e03d8d03d7103d7003d6e03d6d03d5103d5003d4e03d4d03d3f0410f0410804106040f1040e8040e6040c9040c7040c6)
  (.lf
  0x109d61284c124941166e1166c10d0210ba9128431248e116331163110cd710bab1283f1246311cfb11cf910cb510bad1283312433116131161110c9110b351237a12365115e2115e010c9210a921234f12341115731157110b6310a321233212313114fe114f910b0910a331230e12305114e5114e310b0a109ef130651305f11eed11ee8118b51108f1108a110891305b12fb111ed511ed3118b6110541104f))
  (.nd (.lf
  0x1845c184591845818457184551845318452184501844d1844c1844a184491844718444184431844f184421843f1843e1843c1843a18439184361843518434184311842f1842e1842d1842a184321842918427184251842318422184201841c1841a1841918417184151841418411184101840f1840d1840c1965f1965c1965b1965a1964d1964c1964a1964119640196421963f1963d1963b196381963719636)
  (.lf 0)))

def shaXorOrder22 : BTree :=
  .nd (.nd (.nd (.lf
  0x1de331de2d1de271de211de041dd9c1dd471dce51dc931dc461e4091e4041e3fd1e3f51e3ef1e4631e4701e3df1e3d01e3d51e3a91e3ac1e3aa1e39b1e38a1e3831e3751e34b1e37b1e3401e34a1e3221e2e01e2ad1e29c1e2931e2851e2681e2341e1e41ea921ea8d1ea861ea7f1ea7a1ea741ea6e1ea681ea591e9fa1e9f51e9ef1e9e91e9e21e9dc1e9d61e9d01e9ca1e9c41e9bf1e9fd1e9b11e96e1e96d)
  (.lf
  0x70740703106f4100c03070690703306f4300bdf0705e0703506f4500bbf072b3071c50700406ff506fea01588072ae071c70700606ff606feb01565072a9071e60700806ff706fec01541072a4071e80700a06ff806fed015220729f071ea0700c06ff906fee014fe0729a071ec0700e06ffa06fef014df07295071ee0701006ffb06ff0014bc07290071f00701206ffc06ff1014990728b071f20701406ffd))
  (.nd (.lf
  0x130f8130f7130f6130f4130f3130f2130f1130ef130ee130ed130ec130ea130e9130e8130e7130e5130e3130e2130e1130df130de130dd130dc130da130d9130d8130e4130d7130d5130d41310d130d3130d1130d0130cf130ce130cc130cb130ca130c8130c7130c6130c5130c3130c11303613035130331303213031130301302e1302d1302c130371302b1302813027137d3137ce137cd137c9137c8137c3)
  (.lf
  0x146211c7e81c5c51c2771c2641c259174541725014c7214c6014710146141c7df1c5c71c2791c2651c25a1744e1725214c7414c611470a1467b1c7251c5c91c27b1c2661c25b1744a1725414c7614c62147041467c1c71f1c5cb1c27d1c2671c25c174451725614c7814c63147011467d1c71c1c5cd1c27f1c2681c25d174411725814c7a14c64146f9146101c7121c5cf1c2811c2691c25e1743c1740914c7c)))
  (.nd (.nd (.lf
  0xda510da4e0da4d0da4c0da490da480da470da450da430da420da3c0da3b0da3a0da380da240da230da200da1f0da1e0da1c0da1b0da190da170da150da140da120da110da0f0da0d0da0b0da0a0da030da020da010d9ff0d9f60d9de0d9dc0d65a0e3f50e3f40e3f20e3d60e3da0e3d30e3d10e3b40e3b60e3b30e3b10e3ab0e3aa0e3a80e3980e3870e3860e3840e36a0e3640e3630e3610e34f0e3230e325)
  (.lf
  0x1dd191bcda1b5471b5441b5431e8df1e4a31dc841dc741bccc1b5341b5311b5301e8aa1e47f1dc1f1dc1d1bcbe1b4781b4731b4721e8891e4821dbe31dbe11bcaf1b41e1b41a1b4191e8781e4801dbc11dbbc1bd131b40c1b4091b4081e8751e45e1db8a1db7d1bc981b3f41b3f01b3ef1e8511e4621db721db6d1bc8a1b39c1b39a1b3991e8481e44f1db3b1db391bc7f1b36e1b36d1b36c1e8451e44d1db1f))
  (.nd (.lf
  0x1d7251d7241d7231d7211d7201d71f1d7621d71e1d71c1d71b1d71a1d7181d7171d7161d7151d7131d7121d7111d7101d70e1d70d1d70c1d70b1d7091d7081d7071d7061d7041d7031d7021d7011d6ff1d6fe1d6fd1d6fc1d6fa1d6f91d6f81d6f71d6f51d6f41d6f31d6f21d6f01d6ef1d6ee1d6ed1d6ea1d6e91d6e81d6eb1d6e71d6e51d6471d6461d6441d6431d6421d6411d6401d63d1d62f005810057f)
  (.lf 0)))

def shaXorOrder23 : BTree :=
  .nd (.nd (.nd (.lf
  0x25510252e0250b024e8024c4024a40248402e7a02e5b02e3c02e1802df802dd902db502d9502d7502d5602d3302d1002ced02cca02ca702c8402c6002c4002c2002c0002be002bc102b9d02b7e02b5a02b3b02b1702af702adb02abd034b70349903475034560343203413033f0033cc033ac0338c0336d0334a0332703303032e3032c3032a403280032610323e0321b031f8031d4031b5031920316e0314f)
  (.lf
  0xd4ea0f8120e3920dacc0d53b0d4f00d4eb0f80d0e37e0dacd0d53d0d4f10d4ec0f8070e3480dace0d53f0d4f20f8010e3390dacf0d5010d4f30f7fa0e3010daa70d5030d4f40f7f40e2f20da9b0d5050d4f50f7ef0e2c30da9c0d5070d4f60f7e50e2b40da9d0d5090d4f70f7df0e29c0da9e0d50b0d4f80f7dc0e2810da9f0d50d0d4f90f7d50e2610da790d50f0d4fa0f7ce0e2470da6e0d5110d4fb0f7c9))
  (.nd (.lf
  0x94b6094af094ae094ac094a50949e0949d0949b094940948d0948c0948a094850947e0947d0947b09477094700946f0946d09467094600945f0945d0945b094540945309451094500944d093880938609385093840938309381093800937f0937e0937c0937b0937a09379093770937609375093740937209371093700936f0936d0936c0936b0936a09368093670936609365093630936209361093600935e)
  (.lf 0))) (.nd (.nd (.lf
  0x1ea1c1ea191ea171ea161ea151e9fe1e9b81e9b01e9b21e9af1e9ad1e98a1e9891e9871e9861e9851e9841e9821e9811e9801e97f1e97d1e97c1e97b1e99b1e97a1e9781e9771e9761e9741e9721e9711e9701e9581e9571e91c1e91b1e9121e9111e8ca1e8c91e8c71e8bb1e89e1ed5b1ed591ed571ed561ed551ed531ed511ed501ed4f1ed4d1ed4b1ed4a1ed491ed471ed461ed441ed431ed411ed3f1ed3e)
  (.lf
  0x916508f3a083f9083c5063fe05ebb05eaf0915f08f18083fa083c6063ff05ebd05eb00915b08ef6083fb083c70640005ebf05eb10915208ed2083fc083c80640105ec105eb20914d08ead083fd083c90640205ec305eb30914a08e89083fe083ca0640305ec505eb40914408e67083ff083cb0640405ec705e950914008e4308400083cc0640505ec905e960913b08e1e08401083cd0640605ecb05e9709137))
  (.nd (.lf
  0x9d1909d1809d1509cf109cf009ced09cc809cc709cc409ca109ca009c9d09c7b09c7a09c7709c5509c5409c5109c2d09c2c09c2909c0409c0309c0009bdd09bdc09bd909bb509bb409bb109b8c09b8b09b8809b6a0f4b20f4b00f4af0f4a80f4a70f4a50f4a40f49d0f49c0f49a0f4990f4920f4910f48f0f48e0f4870f4860f4840f4830f47c0f47b0f4790f4780f4710f4700f46e0f46d0f4660f4650f463)
  (.lf 0)))

def shaXorOrder24 : BTree :=
  .nd (.nd (.nd (.lf
  0x169af169ad1774a17748176bd176bb176ba176a71768317681176801767e1767d1765f1765e17643175ef175d8175d7175c01759517593175731755c1752e1752c174f9174e3174bf174bc174b8174b6174b51748b180b1180961809517f6217f5717f5017f4f17f4817efb17ef817ef717ef417ef317ef017ee217ee017ce417ce217cd117ccb17cc117c8c17c8417c8017c7d17c7b17c7a17c7617c7517c6d)
  (.lf
  0xc71c0c71b0c7180c6fb0c6fa0c6f70c6db0c6da0c6d70c6bd0c6bc0c6b90c6a00c69f0c69c0c6830768907686076850768407681076800767f0767c0767b0767a0767707676076750767207671076700766d0766c0766b0766807667076660766307662076610765e0765d0765c0765907658076570765407653076520764f0764e0764d0764a0764907648076450764407643076400763f0763e0763b0763a))
  (.nd (.lf
  0x19fb319faf19fae19fa91a09019fa81a08d19fa419fa019f9b1a11519f9a1a0f419f9619f9219f8e19f8d19f891a09219ea719eab19ea319d6119d5c19d5b19d5719d5619d5119d5019d4c19d4b19d4719d4619d4119d4019d2119d1d19ca81a3eb1a3e91a3b81a3b71a3b61a3b41a34d1a34c1a34b1a2bb1a2ba1a2b91a2bd1a2b81a2b61a2b51a2b21a2b11a2af1a2ae1a2b41a2ad1a2ab1a2aa1a2a91a189)
  (.lf
  0x15be0101c00a7800a3600a2b009c9021ad0218e015ff015bf0101d00a7a00a3700a2c009ca021950216e01600015c00101e00a7c00a3800a2d009cb021750214f01601015c10101f00a7e00a3900a2e009cc0214a0212b01602015c20102000a8000a3a00a2f009cd021320210c01603015c30102100a8200a3b00a30009ce02107020e801604015c40102200a8400a3c00a31009cf020ef020c901605015c5)))
  (.nd (.nd (.lf
  0x1b3661b3601b3411b3441b3401b31f1b3011b3081b3001b2fe1b2e11b2e01b2d71b2d21b2d11b2d01b2ce1b2cd1b2c71b2c61b2c41b2b11b29c1b29b1b2991b2981b2921b2911b2331b2311b2301b2261b2241b2221b21d1b22a1b21c1b1f91b1c21b1c11b1b81b1b61b0531b0521b0501b04a1affb1aff61aff51aff31aff21aff11afef1afee1afe91afe81afb41afaf1af941af921af901af8b1af751af74)
  (.lf
  0x36ac030be02ae302ae103cb4036ad030c002ac502ac3042c103cb703703036bb036b6034be042c203cb803705036bc036b7034a1042c303cb903707036bd036b80347d042c403cba03709036be036b90345e042c503cbb0370b036bf036ba0343a042c603cbc0370d036c00341b042c703cbd036cf036c1033f8042c803cbe036d1036c2033d4042c903cbf036d3036c3033b4042ca03cc0036d5036c403394))
  (.nd (.lf
  0x39c3039c0039a3039a00398303980039610395e0393e0393b0391b03918038f8038f5038d7038d4038b5038b20389403891038720386f038510384e0382f0382c0380e0380b037ec037e9037cb037c8037ab037a803789037860376a037670374c037490372f0372c05233052310522905222052210521f052130520c0520b05209051fc051f5051f4051f2051e7051e0051df051dd051d3051cc051cb051c9)
  (.lf 0)))

def shaXorOrder25 : BTree :=
  .nd (.nd (.nd (.lf
  0x8b8a08b8c08b8e08b9008b9208b9408b9608b9808b9a08b9c08b9e08ba008ba208ba408ba608ba808baa08bac08bae08bb008bb208bb40940d0940f09411094130941509417094190941b0941d0941f09421094230942509427094290942b0942d0942f09431094330943509437094390943b0943d0943f0944109443094450944709a3009a3209a3409a3609a3809a3a09a3c09a3e09a4009a4209a4409a46)
  (.lf
  0x1fbfe1f4e01f05e1ef451ef441ef411fbef1f4d01f0581efe41ef2f1ef2e1fbdf1f4c91f0531ef371ef351ef341fbd41f4a41f04e1ef181ef0f1ef0d1fde21f4ba1f0421ef131ef101ef0e1fbc31f4851f03e1ef1e1ef1c1ef1b1fa371f47e1f03a1efea1efe61efe51fa321f4721f0351eff61efc71eef71fa411f47f1f02f1efb91eeee1eeec1fa051f45c1f02a1efa61eee51eee41f9f11f45e1f0061ef93))
  (.nd (.lf
  0xec300ec2f0ec2e0ec2c0ec2b0ec2a0ec290ec270ec260ec250ec240ec220ec210ec200ec3f0ec1f0ec1d0ec1c0ec1b0ec190ec180ec170ec160ec140ec130ec120ec110ec0f0ec0e0ec0d0ec0c0ec0a0ec090ec080ec070ec050ec010ebea0ebe90ebe70ebe50ebcc0ebcb0ebc90ebc80ebc70ebc60ebc40ebc30ebc20ebc10ebbf0ebbe0ebbd0ebbc0ebba0ebb90ebb80ebb70ebb50ebb40ebb30ebb20ebb0)
  (.lf
  0xf1ff0f0c90ddf10dddb0d0f30d0e6157301561d14d6314d4b14d400f1f40f0e10ddf30dddc0d0d50d0c9157251561f14d6514d4c14d410f1e90f0e30ddf50dddd0d0b80d0ab1571a1562114d6714d4d0f1de0f0e50ddf70ddde0d09b0d08d1570f1562314d6914d4e0f1d30f0e70ddf90ddb50d07d0d071157041562514d6b14d2c0f1c80f0e90ddfb0ddb70d0600d055156f91562714d6d14d2e0f1bd0f0eb)))
  (.nd (.nd (.lf
  0x5de105de005dde05ddd05ddc05ddb05dd905dd805dd705dd605dd405dd305dd205de305dd105dcf05dce05dcd05dcb05dca05dc905dc805dc605dc505dc405dc305dc105dc005dbf05dbe05dbc05dbb05dba05db905db705db505db405db605db305db105db005daf05dae05dac05dab05daa05da805da705da605da505da305da205da105da005d9e05d9d05d9a05d9905d9805d9605d9505d9c05d9405d92)
  (.lf
  0x1365112fd012df51513315123142c5142c11363b12fbd12deb1512515116142c6142c21362d12f7e12d8a1511115105142b3142b1135e612f1f12d4e15107150f8142ab142a9135c1130a012ec4150f3150e81406714065135b312ed6150e3150de13fd413fd2135ab130a3150d514fd413f2913f27135851308614fcf14f8c142a2142a0135731307214f8714f7c13e0c13e0a135571300014f7d14f3b13e03))
  (.nd (.lf
  0x1ae4e1ae4d1ae4b1ae471ae461ae451ae421ae411ae401ae3e1ae3b1aeeb1ae3a1ae381b11f1b11d1b11c1b11a1b1191b1171b1161b1141b1131b1101b10f1b10e1b10d1b10b1b1091b1081b1071b1051b1041b1021b1011b0fe1b0fd1b0fc1b0fb1b0f91b0f71b0f61b0f51b0f31b0d91b0d61b0d51b0d31b0d21b0ce1b0d71b0cd1b0cb1b0ca1b0d01b0c91b0c71b0c61b0c51b0c31b0c11b0c01b0bf1b0bd)
  (.lf 0)))

def shaXorOrder26 : BTree :=
  .nd (.nd (.nd (.lf
  0x9920098cf098a0098a2098a4099220992409926099280992a098d1098a6098a8098aa0a0bc0a0be0a0c00a0c20a0c40a0c60a0c80a0ca0a0cc0a0ce0a0d00a0d20a0d40a0d60a0d80a0da0a0dc0a0de0a0e00a0e20a0e40a0e60a0e80a0ea0a0ec0a0ee0a0f00a0f20a0f40a0f60a72f0a74b0a7340a71d0a7070a6f10a6db0a6c50a6af0a6990a6880a67b0a74d0a7360a71f0a7090a6f30a6dd0a6c70a6b1)
  (.lf
  0x3aa001081fdd6003ac001031fdac003ae000fe1fd71003b0000f91fd41003b2000f41fd2c003b4000ef1fd06003b6000ea1fcf4003b8000e51fcef003ba000e0000bb1fcec003bc000db000ba067d2067a7000df067c1067a9000da06b0706afa0002706b0206afc0002206c1a06bef0024f06c0906bf10024a06f4f06f42005b006f4a06f440058a070530703700b9f070480703900b8a072270721a011d5))
  (.nd (.lf
  0x147dd147da147d9147d0147ce147cd147cc147ca147a3147a2147a11479f1479d1479c1479b147991479714796147951479314791147901478f1478d1478c1478b1478a14782147811477f1477e1477c1476b1476a147691476714762147561475514745147421469a1469914696146951466814667146651466414663146621464814647146451445f1445d1445c1445b1445a1445814457144561445514453)
  (.lf
  0x196e9196c816c1a16a4b16969169621d24e1d1be1cf281cee8196e6196ca16c1c16a421696b169571d2451d1c01cf2a1cee9196e0196cc16c1e16a3f1696d169591d2421d1c21cf2c1ceea196dc196ce16c2016a5516a291694d1d2391d1c41cf2e1ceeb196d5196d016c2216a241696f169471d5b51d41a1d1a11d1921d1871a08519f3f173e9173e8173e7173e4173e31d5911d41c1d1a31d1931d1881a082)))
  (.nd (.nd (.lf
  0x109a11099f10a60109991099710a5b1098f1098d10a56109751097310a511094d1094b10a4c1090e1090c10a47108fc108fa10880108741087010856108541085210857108511084f1084d108471081c10815108131080f107fd107f9107db107ac107aa107a6107a41079e1079d1079c1079a10796107541074e1074d1074c1074a107461071710711107101070f1070d10709106bb106b7106ae1069d1069b)
  (.lf
  0x1fcea1f0fb1f0f91ebb21e7b71fcb01fc501f0471f0241ebec1e7891fc9c1fc091efd51efd31e9301e7a420977209491fb121f3b01edb81edb51edb120970209411fb051f3a11edd11eda61eda02094d208b41fad31f6221ed901ed821ed8020882207e41fac71f3891ede21ed8a1ed7420850207de1faf01f3761edc91ed991ed6720849207d91fb761f3611ed2e1ed2d1ed2b2083d207d11faab1f3551ed1c))
  (.nd (.lf
  0x13be013a00139f0139d0139c0137d0137c0137a013790135a0135901357013560133701336013340133301314013130131101310012f3012f2012f0012ef012d1012d0012ce012cd012ae012ad012ab012aa0128b0128a012880128701268012670126501264012470124601244012430122701226012240122301205012040120201201011e2011e1011df011de011bf000b6000b2000b1000ad000ac000a8)
  (.lf 0)))

def shaXorOrder27 : BTree :=
  .nd (.nd (.nd (.lf
  0x1350713510134cc140ff140fc140f9140fa140e4140e9140db140d6140ea140cf1408f140cb1407a140511404b140441406f1403a140311400313ffb13fe813fd013f241429e13dc413dc613de813de913d8d1488f148811487d1488514887148711484b14846148451482f14833148141480b14805147fd147f0147ea147d8147c7147be147bf147c9147aa14783147711475b1474e14730148991465315319)
  (.lf
  0x107561238e1161810ca010ac01075712370115e810ca110c3e10ac2123661157610b6b10ac4123421150410b1d10ac6122dc1150510b1e10ac81304f1202c117fb110c8110a01109c130441202d117e6110ca110a11109d1303c1202e117e7110cc110a21109e12f4711ffa117e8110ce110a31109f12f4411ffb117e911177110d0110a412f3f12085117ea110d2110a512f3a11ffc117eb110a9110a612f05))
  (.nd (.lf
  0xa8e90a8e80a8e70a8e50a8e40a8e30a8e20a8e00a8df0a8de0a8dd0a8db0a8da0a8d90a8d80a8d60a8d50a8d40a8d30a8d10a8d00a8cf0a8ce0a8cc0a8cb0a8ca0a8c90a8c70a8c60a8c50a8c40a8c20a8c10a8c00a8bf0a8bd0a8bc0a8bb0a8ba0a8b80a8b70a8b60a8b50a8b30a8b20a8b10a8b00a8ae0a8ad0a8ac0a8ab0a8a90a8a80a8a70a8a60a8a40a8a30a8a20a8a10a89f0a89e0a89d0a89c0a89a)
  (.lf 0))) (.nd (.nd (.lf
  0x1feff1fefe1fefd1fefa1fef71fef61fef81fef51fef31fef21fef11feef1feee1feec1feeb1fee91fee81fee61fee51fee31fee11fee01fedf1fedc1fedb1fed81fed71fed31fed21fece1fecd1fecb1feb71feb61feb51feb31feb21feb11feb01feae1feaa1fea81fea71fea01fe9f1fe9e1fe9d1fe961fe951fe941fe931fe911fe8a1fe891fe881fe821fe801fe7d1fe7c1fe7a1fe741fe731fe721fe70)
  (.lf
  0xa6920a081098a90988f0988a0b3860b2590a6830a6810a082098ab098900988b0b37f0b24a0a6750a6730a08309893098910988c0b37c0b24b0a66a0a6680a0840990809894098920b3770b24c0a6600a65e0a0850990d0984c0b3720b23b0a6560a6540a0860990f098420b36c0b2380a64c0a64a0a08709911098430b3540b2390a6420a6400a08809913098440b3510b23a0a6380a6360a0890991509845))
  (.nd (.lf
  0x133731336c1336b133691336813361133601335e1335d133561335513353133521334b1334a1334813347133401333f1333d1333c133351333413332133311332a133291332713326133231326d1326a1326913268132651326413263132601325f1325e1325b1325a1325913256132551325413251132501324f1324c1324b1324a1324713246132451324213241132401323d1323c1323b132381323713236)
  (.lf 0)))

def shaXorOrder28 : BTree :=
  .nd (.nd (.nd (.lf
  0x13c2513c1a13c0f13c0413bf913bee14602145f7145ec145e1145d6145cb145c0145b5145aa1459f14594145891457e14573145681455d14552145471453c14531145261451b1451014505144fa144ef144e4144d9144ce144c314ecd14ec214eb714eac14ea114e9614e8b14e8014e7514e6a14e5f14e5414e4914e3e14e3314e2814e1d14e1214e0714dfc14df114de614ddb14dd014dc514dba14daf14da4)
  (.lf
  0x6d2c06d2906d1c06d1b06d1806d0b06d0a06d0706cfa06cf906cf606ce906ce806ce506cd806cd706cd406cc706cc606cc306cb606cb506cb206ca506ca406ca106c9406c9306c9006c8306c8206c7f06c7206c7106c6e06c6106c6006c5d06c5006c4f06c4c06c3f06c3e06c3b06c2e06c2d06c2a06c1d06c1c06c1906c0c06c0b06c0806bfb06df206df006dea06de306de206de006dd906dd206dd106dcf))
  (.nd (.lf
  0x17381173691736817366173641734717346173451733a1732f1732e1732c17323172ff17304172fe172fc172e5172e4172e2172e0172c0172c2172bf172bd172a4172a8172a3172a1172861728817285172831727317274172721726e17242172411723f1723d1722f172311722e1722c172201721f1721d1721b1720a1720c1720917207171f8171f9171f7171f4171eb171ea171e8171e6171db171da171d8)
  (.lf
  0x15f170f38c0f3630ed830dff10df77170e917095167d711c8a11c4c0ee6a0e79a0e672170e117097167d911c8511c4e0ee6c0e7940e666170da17099167db11c8011c500ee6d0e78e0e65a170d51709b167dd11c7b11c520ee6e0e7880e64c170d21709d167df11c7611c540ee6f0e63d0e63c170ca1709f167e111c7111c560ee700e62c0e62b170c7170a1167e311c6c11c580ee710e61b0e61a17a1517964)))
  (.nd (.nd (.lf
  0x159b3159a6159a5159a4159a2159a1159a01599f1599d1599c1599b1599a159441594315942159411593f1593a157ff157fe157fc157f7157dc157dd157db157d9157c615c4b15c4815c4715c4d15c4615c4415c4215bf415bf315bb615bb515bb315b8f15b8d15b8c15b6a15b6815b6715b4f15b4d15b4c15b2815b2615b0e15ad115acf15acd15acc15aca15ac815ac715ac515ac315ac215ac015abf15a9a)
  (.lf
  0x8fac08c7a0774f076bd075cd075b5075aa033980337808f8a08c7c0774a076bf075cf075b6075ab033730335508f6808c7e07745076c1075d1075b7033500333208f4608c8007740076c3075d3075b80332d0330e08f2408c820773b076c5075d5075960330f032ee08f0208c8407736076c7075d707598032ef032ce08ede08c8607731076c9075d90759a032cf032af08eb908c880772c076cb075db0759c))
  (.nd (.lf
  0x346f0346803467034650344d0344603445034430342c0342503424034220340a034030340203400033e7033e0033df033dd033c6033bf033be033bc033a60339f0339e0339c033860337f0337e0337c033640335d0335c0335a033410333a03339033370331e033170331603314032fd032f6032f5032f3032dd032d6032d5032d3032bd032b6032b5032b30329b0329403293032910327a032730327203270)
  (.lf 0)))

def shaXorOrder29 : BTree :=
  .nd (.nd (.nd (.lf
  0x20a5f20a5a20a57209cb209c9209c6209c5209c3209bb003ed003eb003ea011d8011d6011c301e5d01e5b01e480378d0378b03778043a4043a20438f049b6049b4049a105562055600555f05ad805ad605ad50858f0858d0858c08cec08cea08ce90946c0946a0946909b7709b7509b740a9c00a9be0a9bd0ce590ce570ce560d64a0d6480d6470df9b0df990df930f8f50f8c90f8c7106f0106ee106e710b6e)
  (.lf
  0x17677193fa193f1184bf17bd21764b193e3193dc184cf179df1763f19fe519f391913118996180a9180a5180a419fe019f2d191471898518053180411803e19fdc19f27190b0188f918054180421803f1a18a19fd7190a4188bd1805618043180401a17c19fd3190dd188a6180ba18057180441a18d19fcf1909c1886a18059180451a17919fcb190d8188391800f1800e1a17f19fc7190891881317f6d17f68))
  (.nd (.lf
  0xc4a60c44f0c44e0c44c0c44b0c4390c4380c4360c4350c4230c4220c4200c41f0c40d0c40c0c40a0c4090c3f70cde60cde40cde30cde20cde10cddf0cdde0cddd0cddc0cdda0cdd90cdd80cdd70cdd50cdd40cdd30cdd20cdd00cdcf0cdce0cdcd0cdcb0cdca0cdc90cdc80cdc60cdc50cdc40cdc30cdc10cdc00cdbf0cdbe0cdbc0cdbb0cdba0cdb90cdb70cdb60cdb50cdb40cdb20cdb10cdb00cdaf0cdad)
  (.lf
  0x90560905009042104d7104c3104b80c1e10be5309b3b09b2809033090310902c0901e104d9104c4104b90c1c50be5509b3d09b290900f0900d0900808ffa104db104c5104ba0c1a50be5709b3f09b2a08feb08fe908fe408fd6104dd104c6104bb0c1850be5909b4109b2b08fc708fc508fc008fb2104df104c7104bc0c1650be7109b4309b2c08fa308fa108f9c08f90104e1104c8104bd0c1430be7309b45)))
  (.nd (.nd (.lf
  0x1f1c01f1b01f1901f1801efd01efc01efa01ef901ed901ed801ed601ed501eba01eb901eb701eb601e9701e9601e9401e9301e7301e7201e7001e6f01e5401e5301e5101e5001e3f0221d0221602214021f7021f5021f4021d4021d2021d1021b1021af021ae021960218d0218b021760216d0216b0214e0214c0214b021330212a021280210b0210902108020f0020e7020e5020c8020c6020c5020ad020a4)
  (.lf
  0xdbcc0fcd10fca10e86b0e8690dfc90dbce0fc990fc8e0e85e0e85c0dfa60dbd010c3310b7f0fb040faca0ebd30e4010e3fc0e3fb10b8010b2c0fb050facb0eb3c0e3e40e3e00e3df10b3e10a890fb060facc0eb3d0e3c10e3bc0e3bb10a8710a1f0fb070facd0eb3e0e3a20e39e0e39d10a7810a090fb080face0eb3f0e3750e3710e37010a7310a020fb090facf0eb400e35a0e3550e35410a6e109aa0fb0a))
  (.nd (.lf
  0x172ba172ab172aa172a51729b1728f1728e1728c1727e172761727517267172651724617245172431723617235172341723217225172241722317221172141721317212172101720f1720217201171ff171fe171f1171f0171ee171ed171e0171df171dd171dc171cf171ce171cc171bf171be171bd171bb171ae171ad171ac171aa1719c1719b1719a171981718a1715f1715e1715c17159171581715717155)
  (.lf 0)))

def shaXorOrder30 : BTree :=
  .nd (.nd (.nd (.lf
  0xaafb0aadd0aac00aaa20aa860aa6b0aa4e0aa300aa120a9f60a9d90a9ba0a9a00a9800b2200b20f0b1fe0b1ef0b1df0b1ce0b1bf0b1af0b19e0b18d0b17c0b16b0b15c0b14e0b13e0b12d0b11e0b1100b1020b0f20b0e30b0d50b0c70b0b70b0a60b0970b0870b0760b0670b05b0ba230ba070b9e90b9ca0b9ad0b9910b9750b95a0b93f0b9210b9020b8e40b8c60b8a80b88c0b8710b8540b8380b81b0b7fe)
  (.lf
  0x2057900ef800ed10081e2052300ed800eb1008202051f00eb800e92008222051b00e8d00e6e008242046900e7500e4e008262045500e5500e2f008282044600e2a00e0c0082a2043300e0700de80082c2042f00def00dc90082e2042b00dc400da6008302042500da100d83008322041100d7e00d5f00834203e800d6600d4000836203e500d3b00d1c00838203df00d2300cfc0083a203da00d0300cdc0083c))
  (.nd (.lf
  0x11a571199b11e5511e5311e5111e5011e4f11e4d11e4b11e4a11e4911e4711e4611e4411e4311e4111e3f11e3e11e3d11e3b11e3911e3811e3711e3511e3411e3211e3111e2f11e2e11e2c11e2b11e2911e2811e0411e0311e0111e0011dfe11dfd11dfb11df911df811df711df511df411df211e0611df111def11dee11ded11deb11ddf11dd211dd311dd111dcf11dce11dcd11dcb11dca11dba11d9b11d9a)
  (.lf
  0x19c4414cec14c6f100ff100120f4e70f4ba1a5fc1a53019c6119c2214ce714c71100fc100130f4e80f4bb1a5f61a53219c6319c2414ce214c73100f5100160f4e90f4bc1a5f31a53419c6519c2614cdd14c75100f2100110f4ea0f4bd1a5ee1a53619c6719c2814cd814c7710076100150f4eb0f4be1a5ea1a53819c6919c2914cd314c79100721000f0f4ec0f4bf1a5e41a53a19c6b19c2a14cce14c7b10026)))
  (.nd (.nd (.lf
  0xb3020b3000b2fe0b2fc0b30f0b2fb0b2f90b2f70b29a0b2990b2980b2960b2770bc5a0bc580bc570bc560bc550bc530bc520bc510bc500bc4e0bc4d0bc4c0bc4b0bc490bc480bc470bc460bc440bc3f0bc3e0bc3d0bc3b0bc3a0bc2f0bc2e0bc2c0bc000bbff0bbfe0bbfc0bbfb0bbfa0bbf90bbf70bbf60bbf50bbf40bbf20bbf10bbf00bbef0bbed0bbec0bbeb0bcc30bbea0bbe80bbe70bbe60bbe40bbde)
  (.lf
  0x188281ac9f1aa79199c7199c5190421880718803188021ac9a1aa96199b4199b21900d187c2187c0187bf1ac971aa5c1994c1994a1905e187af187ae187ad1ac841aa491995719955190561896518799187981ac781aa42199981999618fe6189661876b1ac711aa2b19b0519b0318f411894b187461ac631aa21199081990518f08189381872c1ac4e1a9fd198e7198e518ef8189021871b1ac431aafe198d4))
  (.nd (.lf
  0x1cfcc1cfca1cfc71cfd61cfc61cfc41cff91cfc21cfbd1cfbc1cfba1cfb71cfb61cfb41cfb21cfbe1cfb01cfad1cfac1cfaa1cfa81cfa61cfa21cfa11cfa01cf9d1cf9b1cf9a1cf971cf961cf951cf931cf911cf8f1cf8b1cf8a1cf891cf861cf841cf831cf801cf7f1cf7e1cf7a1cf791cf781cf761cf731cff71cf721cf671cf661cf641cf631cf611cf5e1cf5d1cf5c1cf581cf571cf561cf541cf4d1cf4c)
  (.lf 0)))

def shaXorOrder31 : BTree :=
  .nd (.nd (.nd (.lf
  0x202a1202a0202a52029e2029c2028f2028d202852027c202772027620f4d20f4a20f4820f4720f4620f4420f4320f3c20f3b20f2220f2120f1f20f1e20f1c20f0d20f0c20f0b20f0920f0820f0620f2320f0520f0120f0020f0220eff20efd20efc20f0f20efb20ef920ef820ef720ef520eee20eed20eec20ee620ede20edd20edf20edc20eda20eaf20eb020eae20eac20eab20eaa20ea820ea220ea020e9f)
  (.lf
  0xa8090a2d10a2bf0b8d50afa90a80a0a2d30a2c00b8b70afaa0a80b0a2d50a2c10b8990afab0a80c0a2d70a2c20b87d0afac0a80d0a2d90a2c30b8620afad0a80e0a2db0a2c40b8450afae0a80f0a2dd0a2c50b8290afaf0a8100a2df0a2c60b80b0afb00a8110a2e10a2c70b7ee0afb10a8120a2e30a2c80b7d30af400a8130a2e50a2a90b7b80af410a8140a2e70a2aa0b79b0af420a8150a2e90a2ab0b77f))
  (.nd (.lf
  0x8600085f3085f2085f0085ef085e2085e1085df085de085d1085d0085ce085cd085c2085c1085bf085be085b4085b3085b1085b0085a6085a5085a3085a208598085970859508594085880858708585085840857c069a7069a40699606993069850698206974069710696306960069520694f069410693e069300692d0691f0691c0690e0690b068fd068fa068ec068e9068db068d8068ca068c7068b9068b6)
  (.lf 0))) (.nd (.nd (.lf
  0x1de281de261de251de231de221de201de1f1de1d1de031ddc11ddc01ddbe1dd9b1dd4e1dd4d1dd4b1dd461dd031dd021dd001dce41dc971dc961dc941dc8e1dc3f1dc411dc3e1dc3c1dc0c1c55a1c5581c5551c5501c5511c54f1c55c1c54b1c5471c5441c5421c53e1c53d1c53c1c5381c5321c5351c5311c5361c52d1c5291c4811c55d1c4651c43d1c43a1c4301c42c1c4331c42b1c4271c4221c4211c41f)
  (.lf
  0x561404de104da1047c9041d8041c70577c0560204de204da2047ca041da041a805778055f104de304da3047cb041dc041a9057710573104de404da4047cc041de041aa0576d0573004de504da5047cd041e0057690572a04de604da6047ce041e2057630572c04de704da7047cf041e4057600572d04de804da8047d0041e6057550574504de904da9047d1041e80574b0573704dea04daa047d2041ea0573f))
  (.nd (.lf
  0x104801047f1047e1047b1047a1047910476104751047410471104701046f1046c1046b1046a1046710466104651046210461104601045d1045c1045b1045810457104561045310452104511044e1044d1044c1044910448104471044410443104421043f1043e1043d1043a1043910438104351043410433104301042f1042e1042b1042a1042910426104251042410421104201041f1041c1041b1041a10417)
  (.lf 0)))

def shaXorOrder32 : BTree :=
  .nd (.nd (.nd (.lf
  0x108e11066a110f010af0115c9114bf11a501199512424122ef1305412bc6137d51348413fc813d6b1475414635150c614efe158b2157a9162bd1606b16be0167e8174031711617bab1797f1863f183a618fa318b0a19760193cc19fea19cec1a8e61a5571b5861ae281baa01b6f31c2491bf381dead1dbfc1e40f1e1ec1ea991e8931f2e41ef4b1f84c1f4e21ff051fc0620266200d620be32086c0222f04750)
  (.lf
  0x79f1079f0079ef079ec079eb079ea079e7079e6079e5079e2079e1079e0079dd079dc079db079d8079d7079d6079d3079d2079d1079ce079cd079cc079c9079c80e7710e76f0e76d0e7660e7650e7630e7610e75a0e7590e7570e7550e74e0e74d0e74b0e7490e7420e7410e73f0e73d0e7360e7350e7330e7310e72a0e7290e7270e7250e71e0e71d0e71b0e7190e7120e7110e70f0e70d0e7060e7050e703))
  (.nd (.lf
  0x1ba211ba0b1ba091ba051ba0d1ba031b9ff1b8651b8641b85f1b85e1b8551b8531b84b1b8471b71f1b70e1b6fe1bb151bb131bb111bb101bb0f1bb0d1bb0c1bb0b1bb0a1bb081bb071bb051bb041bb021bb001baff1bafe1bafc1bafa1baf81baf71baf51baf31baf11baf41baf01baee1baed1baec1baea1bae91bae81bae71bae51bae41bae31bae21bae01badf1badc1badd1badb1bad91bad81bad71bad5)
  (.lf
  0x29370473d0471903b3f03aff0353802f6802f2802f1d04714046f503b4003b000353902f6a02f2902f1e046fc046d503b4103b010353a02f6c02f2a02f1f046dc046b603b4203b020353b02f6e02f2b02f20046b10469203b4303b030353c02f7002f2c02f21046990467203b4403b040353d02f7202f2d02f22046790465203b4503b050353e02f7402f2e02f23046590463203b4603b060353f02f7602f2f)))
  (.nd (.nd (.lf
  0x1f2bd1f2b81f1cf1f1ce1f1cc1f1c71f1b71f1b61f1b41f1ad1f1881f1891f1871f1831f1721f17b1f1711f16f1f16e1f1751f16d1f16b1f16a1f1691f1661f1651f1621f1941f1611f15e1f14b1f19a1f14a1f1481f1471f1461f1441f1421f11b1f11a1f1181f0f01f0e91f0e81f0e61f0e31f0de1f0e21f0dd1f0db1f01c1f0231f01b1f0141ef7d1ef7c1ef751ef6e1ef521f58e1f5851f5841f5831f580)
  (.lf
  0x657d08b210829c06d460658f0657e08b220829d06d35065910657f08b230829e06d24065930658008b240829f06d13065950658108b25082a006d02065970658208b26082a106cf1065990658308b27082a206ce00659b0658408b28082a306ccf0659d0658508b29082a406cbe0659f0658608b2a082a506cad065a10658708b2b082a606c9c065a30658808b2c082a706c8b065a50656908b2d082a806c7a))
  (.nd (.lf
  0x4b0104afe04ade04adb04abd04aba04a9b04a9804a7804a7504a5504a5204a3404a3104a1404a11049f4049f1049d4049d1049b2049af06223062210621b0621406213062110620c062050620406202061fe061f7061f6061f4061f0061e9061e8061e6061e2061db061da061d8061d4061cc061cb061c9061c3061bb061ba061b8061b1061a9061a8061a6061a1061990619806196061920618a0618906187)
  (.lf 0)))

def shaXorOrder33 : BTree :=
  .nd (.nd (.nd (.lf
  0x1f51e1f4f51fce01fc851fde81fc411fc461fd551fcda1fc821fc631fde31fd721fceb1fc7f1fc5e1fc3c1fde61fc051fbf11fbe41fbd71fde71fbc61fa3b1fa3c1fd501fcd01fc841fc641fc471fc1f2014420158201322010e20133201b1201472015b201252010b2016a201772014f2011a20122200ff200d0200c3200b6200c62009c2004f20026200162016c201412015c2011d201262016e20a2720968)
  (.lf
  0x1cb3c1b1641b12a1b08c1cb741cb2c1b1661b12c1b0831cb701cb3a1b1681b12e1b07a1cb691cb2e1b16a1b1301b06c1cb641cb431b16c1b1321b05e1cedc1cd751ba981b9401b93e1b93d1ced71cd6a1ba941b9841b9421b93f1ced31cd5b1ba8d1b90e1b9041cecd1cd5f1ba891b9101b9051cec91cd421ba861b9121b9061cec21cd371ba7c1b9141b9071cebf1cd2a1ba761b9871b9081ceba1cd1f1ba70))
  (.nd (.lf
  0x10bd610bd510bd410bd210bd110bd010bcf10bcd10bcc10bcb10bca10bc910bc710bc610bc510bc310bc210bc110bc010bbe10bbd10bbc10bbb10bb910bb310b3d10b3c10b3a10b3910a9710a9910a9610a9410a4510a4410a4210a4110a4010a3f10a3810a36109ff109fe109fc109fa109e6109e5109e4109dd109dc111f9111f7111f6111f5111f4111f2111f1111f0111ef111ed111ec111eb111ea111e9)
  (.lf
  0x181fa181e8181dd1325c1318a1122d1121c108cb1066818c0418abb181fc181e9181de132571318c1122f1121d108c51066318c0118abd181fe181ea181df132521318e112311121e108be1067f18bf018abf18200181eb181e01324d13190112331121f108b71067b18bea18ac118202181ec181e113248131921123511220108b21067c18bca18ac318204181ed181e213243131941123711221108a61067e)))
  (.nd (.nd (.lf
  0x9daf09dae09dac09dab09d8809d8709d8509d8409d6209d6109d5f09d5e09d3a09d3909d3709d3509d1109d1309d1009d0e09ceb09cea09ce809ce709cc209cc109cc009cbe09c9b09c9a09c9909c9709c7509c7409c7209c7109c4f09c4e09c4c09c4b09c2709c2609c2409c2209bfc09bfe09bfb09bf909bd509bd709bd409bd209baf09bae09bad09baa09b8609b8509b8409b8209b670a2770a2750a273)
  (.lf
  0x1661516561186d41869c175811757f16ea3165d11655e1868c1867e1756a1756816eb4165c116534186761864c175511754f16e9616638165ac18647185b11754c1754a16e8c165ae185bc18592175201751e169ee1663c1859f1858217501174ff169ef166491857818543174ed174eb169f01662a185381851f174c5174c316a1d1660218513184f9174dd174db169ce16604184f6184e4174971749516983))
  (.nd (.lf
  0x1c72c1c72b1c72a1c7281c6ef1c6dc1c6ce1c6cd1c6ca1c6b81c6b71c6b51c6b41c6b11c6ab1c6a91c6a21c6991c6981c6961c6921c67e1c67d1c67b1c67a1c6781c6771c6741c6721c6711c6701c65f1c65d1c6571c6551c64d1c64c1c64b1c64a1c6481c62e1c62c1c62f1c62b1c6291c6281c6271c6251c6241c6231c6221c6201c61b1c61a1c59a1c5981c5971c5951c5921c5911c5901c58e1c58d1c58b)
  (.lf 0)))

def shaXorOrder34 : BTree :=
  .nd (.nd (.nd (.lf
  0x20c0820c6220a83208ee208e32091e20c4220c3420c2220c1920c1820c1a20cad20a85208cc20c3e20c3720c4120c0c20c1120bf520c6520a7320916081d4081a3081750814708118080e9080bc0808c0805e080300800107fd007fa207f7207f4207f1307ee407eb307e8507e5507e2707df907dca07d9907d6907d3a07d0d07cdf07cae07c7a069a1069900697f0696e0695d0694c0693b0692a0691906908)
  (.lf
  0x7e5607e4f07e4e07e4c07e2807e2107e2007e1e07dfa07df307df207df007dcb07dc407dc307dc107d9a07d9307d9207d9007d6a07d6307d6207d6007d3b07d3407d3307d3107d0e07d0707d0607d0407ce007cd907cd807cd607caf07ca807ca707ca507c7b07c780674d0674a0674906748067450674406743067400673f0673e0673b0673a0673906736067350673406731067300672f0672c0672b0672a))
  (.nd (.lf
  0x161401613a1613416133161301612a1612916127161211611a161191611716111161031610416102160ff160f9160f8160f6160ee160e7160e6160d6160d3160cd160cc160bc160ba160b4160b3160b11609d1609415cd215cd115ccf15cce15ccd15ccb15cca15cc915cc815cc615cc515cc415cc315cc115cbf15cbe15cc015cbd15cbb15cba15cb915cb715cb615cb515cb415cb215cb115cb015caf15cad)
  (.lf
  0x7dec07de407de007dde07dd907dcc0f54308c6407dbd07db507db107daf07da907d9b0f54508c6507d8c07d8407d8007d7e07d7907d6b0f54708c6607d5c07d5407d5007d4e07d4807d3c0f54908c6707d2d07d2507d2107d1f07d1a07d0f0f54b08c6807d0007cf807cf407cf207cec07ce11056a104f20b7da0b6b507a95069c6068400683e1055f104f40b7bf0b6b707a96069c80682f0682d10553104f6)))
  (.nd (.nd (.lf
  0x1392c1392a139281392713925139231392213920139111390f1390d1390b1390a138fa138f9138f8138ef138ed138ec138ea138e6138f3138e4138e21391a138e0138de138ff138dc1356c1355d135501354e13543135411353c1353b135361353413533135311352d134cb134c9134c7143e0143ca143c8143c7143c6143c4143b7143b6143a1143a01439e1439d1439c1439a1438814387143861438414361)
  (.lf
  0x13d6f12bd012bce122f611e77148971385f1385d1309f12691146401348b1348912bd11261a15255143ce143cc13860130a414f0713d7213d701348c12f2115bf8149db149d9143d013867157c41463c1463a13d731374e162c21545c1545a149dc143d61607514f0b14f091463d1433d16dc115c5d15c5b1545d149e6167f0157ca157c814f0c1495417812166351663315c5e154631711a1607316071157cb))
  (.nd (.lf
  0x25ad025a6025a5025a30258d0258602585025830256b0256402563025610254802541025400253e025250251e0251d0251b02502024fb024fa024f8024df024d8024d7024d5024be024b7024b6024b40249e0249702496024940247e0247b023ac023aa023a9023a8023a7023a5023a4023a3023a2023a00239f0239e0239d0239b0239a02399023980239602395023940239302391023900238f0238e0238c)
  (.lf 0)))

def shaXorOrder35 : BTree :=
  .nd (.nd (.nd (.lf
  0xa4ca0a4c80a4c70a49d0a49b0a49a0a47e0a47c0a47b0a4510a44f0a44e0a4400a43e0a43d0a42f0a42d0a42c0a4100a40e0a40d0a3e30a3e10a3e00a39a0a3980a3970a36d0a36b0a36a0a34e0a34c0a34b0a32f0a32d0a32c0b2260b2240b2230b2150b2130b2120b2040b2020b2010b1e50b1e30b1e20b1d40b1d20b1d10b1b50b1b30b1b20b1a40b1a20b1a10b1930b1910b1900b1820b1800b17f0b171)
  (.lf
  0x163ee15b3b151db151da172c6163ef15b3c151ca151c9172a9163f015b3d151b4151b31728b163f115b3e151a6151a51726b163aa15b3f15195151941723a1639415b401526915181172291639515a911526b15174172181639615a401526d151641720e1639715a411526f15155171fd1637915a421527115144171ec1637a15a431527315136171d41636515a441527515128171c71635715a45152771511b))
  (.nd (.lf
  0xbe000bdff0bdfe0bdfc0bdfb0bdfa0bdf90bdf70bdf60bdf50bdf40bdf20bdf10bdf00bdef0bded0bdec0bdeb0bdea0bde80bde70bde60bde50bde30bde20bde10bde00bdde0bddd0bddc0bddb0bdd90bdd80bdd70bdd60bdd40bdd30bdd20bdd10bdcf0bdce0bdcd0bdcc0bdca0bdc90bdc80bdc70bdc50bdc40bdc30bdc20bdc00bdbf0bdbe0bdbd0bdbb0bdba0bdb90bdb80bdb60bdb50bdb40bdb30bdb1)
  (.lf 0))) (.nd (.nd (.lf
  0x20e1420e0f20e0e20e0d20dff20dfe20dfd20dfc20dee20deb20dea20de920de720ddc20ddb20dda20dd320dcb20dca20dc920dc720c8a20c8920c8820c8620c7f20c7e20c8120c7d20c7b20c7a20c7920c6c20c6a20c6920c6d20c6820c6620a9320a9220a9020a74208e920917208e8208e6208e500f5f00f5d00f5c00f3e00f3d00f3b00f3a00f1b00f1a00f1800f1700ef700ef600ef400ef300ed700ed6)
  (.lf
  0xd29a0cb450c3f40c3f10c3f00e2bf0e2ab0d2cd0d29b0cb3c0c3e40c3e30c3e20e2b00e28f0d2ce0d29c0cb330c4840c3d80c3d70e2980e27f0d2cf0d29d0cb2a0c4870c3cd0e26f0e25f0d2d00d29e0cb200c4890c3c30e2560e2440d2d10d29f0cb170c48b0c3b90e2400e2230d2d20d2a00cb0e0c45f0c3af0e2300e1e70d2d30d2a10cb050c4a00c3a50e1db0e1460d2d40d2a20cafc0c4450c39b0e13c))
  (.nd (.lf
  0x155951559415591155901558f1558c1558b1558a1558715586155851558215581155801557d1557c1557b1557815577155761557315572155711556e1556d1556c1556915568155671556415563155621555f1555e1555d1555a1555915558155551555416065160621605c1605b1605816051160501604d1604616045160421603b1603a16037160301602f1602c1602516024160211601a16019160161600f)
  (.lf 0)))

def shaXorOrder36 : BTree :=
  .nd (.nd (.nd (.lf
  0x9cb309cb109c8d09c8b09c6709c6509bef09bed0a4b90a4b70a4ab0a4a90a48c0a48a0a46d0a46b0a45f0a45d0a41e0a41c0a3ff0a3fd0a3f10a3ef0a3d20a3d00a3c40a3c20a3b60a3b40a3a80a3a60a3890a3870a37b0a3790a35c0a35a0a33d0a33b0acb10acaf0ac3c0ac3a0ac210ac1f0abe80abe60ab8e0ab8c0ab720ab700ab560ab540ab3a0ab380aaff0aafd0aac40aac20aa8a0aa880aa6f0aa6d)
  (.lf
  0x80d7080ae080ad080ab080aa0807e0807d0807b0807a080500804f0804d0804c08022080210801f0801e07ff307ff207ff007fef07fc207fc107fbf07fbe07f9407f9307f9107f9007f6407f6307f6107f6007f3407f3307f3107f3007f0507f0407f0207f0107ed607ed507ed307ed207ea507ea407ea207ea107e7707e7607e7407e7307e4707e4607e4407e4307e1907e1807e1607e1507deb07dea07de8))
  (.nd (.lf
  0x18fb218fb118fb018fae18fad18fac18fab18fa918f7018f6e18f6d18f6b18f6a18f6918f6818f3818f3718f3018f2f18f2d18d3d18d2b18d2a18d2818d2718d2518d2418d2218d2118d2018d1f18d1d18d1b18d1a18d1918d1718d1618d1418d1318d1118d1018d0f18d0e18cd018cce18ccd18ccc18cc918cbd18ca318ca218ca018c9f18c9418c9318c9118c9018c7f18c7e18c7c18c7b18c7a18cff18c79)
  (.lf
  0x1f9a02077d20744203aa1faec1fa4f1f99a1f9991f9981f997207602075e203a01fb491fa4a1f9901f98f1f98e1f98b206502064e203951faad1fa471f97b1f9771f9761f97520609206072038f1fa921fa141f9cf1f9701f96e1f96d2060d205fe203811fb211faa81fa0e1f8d61f8d41f8d32060f2060b203791fa801fa0a1f8c21f8c11f8bd205ea205e2203691fb2f1f9861f8a71f8891f886205db205d9)))
  (.nd (.nd (.lf
  0x18b4e18b4618b3418b3318b2e18b2918b101912c1912919127191451911e1911a190ad190ab190aa190a8190a1190a0190db1909f190991909a1909719095190d619093190911908f1908319080190811907f1907c190821907b190781907718ffa18ff21910918fdf18fdc18f4d18f4b18f4618f2218f1618f1318f2818f1218f0f18f1c18f0e18f0b18ebb18eb518ead18eab18e9e18e9718e9518e8c18e8a)
  (.lf
  0x23db01dc3017bf017ab0141601412023dc01dc4017c1017ac013f6013f2023dd01dc5017c3017ad013d6013d2023de01dc6017c5017ae013b3013b1023df01dc7017c7017af013900138e023e001dc8017c9017b00136d0136b023e101dc9017cb017b10134a01348023e201dca017cd017b20132701325023e301dcb017cf017930130701303023e401dcc017d101794012e4012e2023e501dcd017d301795))
  (.nd (.lf
  0x464d0464604645046430462d0462604625046230460b046040460304601045e8045e1045e0045de045c7045c0045bf045bd045a7045a00459f0459d04587045800457f0457d045650455e0455d0455b045420453b0453a04538045210451a045190451704501044fa044f9044f7044e1044da044d9044d7044c1044ba044b9044b70449f0449804497044950447e0447704476044740445c044550445404452)
  (.lf 0)))

def shaXorOrder37 : BTree :=
  .nd (.nd (.nd (.lf
  0x1daa41da661da641da481da461da441da281da081da061d9ea1d9e81d9cc1d94b1d94a1d9481d9461d9441d9421d9401d93e1d9391d9371d9361d9341d9331d9501d9311d92f1d90b1d9091d9071e1ac1e1aa1e1a91e1a71e1a01e19f1e19d1e1961e1941e17c1e1691e1671e09c1e0971e0961e0861e0821e0811e07f1e07a1e0791e0781e0741e0731e0711e06d1e06c1e06a1e0461e0451dfb51dfb31dfb1)
  (.lf
  0x1d8d31c61e1c61c1b88e1b32f1e1c61dd891cc391cb2f1be0b1be071be061e20f1dd2b1cc351cb211be431be3e1be3d1e1b61dcd61cc301cb191bdf91bdf41bdf31e1811dc7c1cc291cb461bdec1bde71bde61e16f1dc341cc231cbf91be301be171be151e1d21dbf01cc201caff1bdd01bdc91e14e1dbaf1cc171caf11bdcb1bdca1e13b1db991cc131caeb1bdae1bdad1e12a1db561cc0f1cad91bdb61bdb5))
  (.nd (.lf
  0xe58e0e58d0e58c0e58a0e5890e5880e5870e5850e5840e5830e5820e5800e57f0e57d0e57e0e57c0e57a0e5790e5780e5760e5750e5740e5730e5710e5700e56f0e56e0e56c0e56b0e56a0e5930e5690e5670e5660e5650e5630e5610e5600e5620e55f0e55d0e55c0e55b0e5590e5580e5570e5560e5540e5530e5520e5510e54f0e54e0e54d0e54c0e54a0e5490e5480e5470e5450e5440e5430e5420e540)
  (.lf
  0xbe9a0be56096b6096a113d3313b8f132e8132d9132ce0ee540ed6d0c64c0c63e0c63c0ba2b0ba2113d2913b91132ea132da132cf0ee4f0ed6f0c64e0c63f0c63d0ba100ba0513d1e13bb0132ec132db132d00ee4a0ed710c6500c6400b9f40b9e713d1313bb2132ee132dc132d10ee450ed730c6520c6410b9d60b9c813d0813bb4132f0132dd132d20ee400ed750c6540c6420b9b70b9ab13cfd13bb6132f2)))
  (.nd (.nd (.lf
  0x439b0439a04398043970437c0437b0437904378043680473e0473704735047180471604715046fd046f4046f2046dd046d4046d2046b5046b3046b20469a046910468f0467a046710466f0465a046510464f0463a046310462f04612046100460f045ef045ed045ec045d4045cb045c9045b4045ab045a9045940458b045890456c0456a045690454904547045460452e04525045230450e0450504503044ee)
  (.lf
  0x12bcb11a7011a6e114e610f8d1399113857126861268111ef01192f1190b118d61398c138021266b1266911ed611935118d7118cd13987139191265f1265d11eab1190d118d8118ce13982137db1269c1269a11eac11cfd1190e118d91397d137a0126301262c11ead11d01118da118cf13978138d8126491264711eae1190f118db118d013973138d9126311262d11e8211910118dc118d11396e1373f12615))
  (.nd (.lf
  0x193f4193e019355193531935119357193501934d1934c1934a19348193471934419343193421933f1933e1933d1933a193391933819336193331933719332193301932e1932b1932a1932919327193251932419322193211931f1931b1931a1931c1931919316193151931219311193101930e1930c1930a19308193061930d193051930219301192ff192fd192fc192f9192f8192f7192f5192f3192f2192f0)
  (.lf 0)))

def shaXorOrder38 : BTree :=
  .nd (.nd (.nd (.lf
  0x134d3134c213db513d88160a81609e1697a16978174861747118c3518c3319d1019cfe1af2c1af201e98b1e9591f0d31f0cf1f53e1f53b209af209a00090e005a900f7500b86015b7011b901bfa018920223201e3e0286b0247602e9602aae034d3030da03afa037160412403d3e047530436704d8b049970527f0525c057fc057dd05cb005cde06262062f608206082fa0876f08851090f208cb10965f09675)
  (.lf
  0x19fb0734e072fb0720b071ca019de07349072fd0720d071cb019c007344072ff0720f071cc019a70733f07301072110198a0733a07303072130196d0733507305072150194f073300730707217019360732b073090721901918073260730b0721b018fe073210730d0721d018e50749d073af072dc072cd072c20220407498073b1072de072ce072c3021e107493073d0072e0072cf072c4021be0748e073d2))
  (.nd (.lf
  0x132a9132a8132a7132a6132a4132a3132a2132a11329f1329e1329d1329b1329a13299132981329613295132941329313291132901328f132c21328e1328c1328b1328a13288132871328613285132831328213281132801327e1327d1327c1327b13279132781327713276132741327313272132711326f131801317f1317e1317c1317b1317a13179131771317613175131741317213171131701316f1316d)
  (.lf
  0x14eda1ca211c91e1c5d01c5ba1c5af17e7117d1015537155221506c14ed91ca191c9201c5d21c5bb1c5b017e6d17d1215539155231506614ee11ca141c9221c5d41c5bc1c5b117e6917d2a1553b155241505f14ee01ca0f1c9241c5d61c5bd1c5b217e6417d2c1553d155251504c14ee31ca0c1c9261c5d81c5be17e5f17d2e1553f155261504714ee21ca041c9281c5da1c5bf17e5a17d3015541154fd1503f)))
  (.nd (.nd (.lf
  0xeb160eb150eb130eb120eb110eb100eb0e0eb0d0eb0c0eb0b0eb090eb080eb070eb060eb040eb030eb020eb010eaff0eafe0eafd0eb580eafc0eafa0ea620ea610ea5f0ea5e0ea560eaa70ea550ea530ea4b0ea4e0ea4a0ea480ea430eaa10ea420ea400ea370ea3a0ea360ea340ea2d0ea9b0ea2c0ea2a0ea290ea280ea260ea250e9a10e9be0e9a00e99e0e98e0e98d0e98b0e98a0e9760e9b80e9750e973)
  (.lf
  0x1bc991ef241eb721e5211e51a1db701bc8e1bc8c1bc8b1ef051eb9d1e5151e5121db381bc821bc811bc801ef011eb731e52c1e52a1db1b1bd221bd211bd201eefd1eb291e5021e4fe1daea1bcf91bc721eef41eb201e4f81e4f61dacd1bd031bc661eee91eb1c1e4ef1e4e51daab1bd771bd761eee61eb281e4ee1e4ec1da9d1bcdd1bc581eed61eb151e4db1e4d81da6b1bccf1bc421eed31eb4a1e4cf1e4cc))
  (.nd (.lf
  0x1c9001c8001c7001c5001c4001c3001c2001c0001bf001be001bd001bb001ba001b9001b8001b6001b5001b4001b3001b1001b0001af001ae001ac001ab001aa001a9001a7001a6001a5001a4001a2001a1001a00019f0019d0019c0019b0019a001980019700196001950019300192001910057d0057b005750056e0056d0056b005660055f0055e0055c0055800551005500054e0054a005430054200540)
  (.lf 0)))

def shaXorOrder39 : BTree :=
  .nd (.nd (.nd (.lf
  0x5cd605cbf05cb905cb305cb405cb505cb205cc105ce005cf105ce305d8305d7f05d8005d8205d8105cf705cee05cef05cf005cdd062630626406247062520625306254061cd061bc061aa0619a0618b0617a0624306232062310623306230062350623b0623f0624106245062400623d06251062480626106256062fa062f50830d081b80830c081590830b080fc0830a080a008309080420830807fe508307)
  (.lf
  0xe8f40e0750dcff0dcc00f0390e8b90e0580dd010dcc10f0350e8ba0e02e0dd030dcc20f0300e8bb0e0110dd050dcc30f02b0e8bc0dfe80dd070f0260e8bd0dfc40dd090f0210e8be0dfa00dd0b108db0fbcc0ebe20e4f00e4ab0e4a6108d20fbcd0eb900e4f20e4ac0e4a7108ce0fbce0eb910e4f40e4ad0e4a8108c80fbcf0eb920e4f60e4ae0e4a9108c20fbd00eb930e4f80e4af0e4aa108bf0fbd10eb94))
  (.nd (.lf
  0x9a7e09a7d09a7c09a7a09a7909a7809a7709a7509a7409a7309a7209a7009a6f09a6e09ffb09ff009fd609fc809fae09fa109f8709f7909f5f09f5009f3609f2909f0f09f0109ee709ed809ebe09eaf09e9509e8609e6c09e5f09e4509e3709e1d09e1009df609dea09dd009dc209da809d9b09d8109d7509d5b09d4d09d3309d2609d0c09cfe09ce409cd509cbb09cae09c9409c8809c6e09c6209c4809c3a)
  (.lf 0))) (.nd (.nd (.lf
  0x1f0911f08f1f08d1f08c1f08b1f0891f0881f0871f0861f0841f0831f0821f0811f07f1f07b1f07a1f0791f0771f0721f0711f0701f0271f00d1ef681ef671ef651ef621ef491dd971dd941dd411dd3e1dce01dcd31dc891dc861dc661dc631dbf41dbf11dbb51dbb21dba21db9f1db681db661db4d1db4b1db211db161db041db021dae01dadd1dabf1dabc1da941da8e1da761da751da621da5f1da3d1da36)
  (.lf
  0x895e08932084190644306411096c6096100895f089330841a0644506412096a20961108960089340841b06447064130969a096120897a089780841c06449096960960f088ac088aa0841d0644b096920960d088a3088a10841e0644d09688096210889a088980841f0644f0968409645088910888f0833606451096690962508888088860832f064530964f096340887f0887d08324064550963d0963808876))
  (.nd (.lf
  0x122a7122a41229d1229c1229912292122911228e1228712286122831227c1227b1227812271122701226d1226612265122621225b1225a12257122501224f1224c1224512244122411223a12239122361222f1222e1222b1222412223122201221912218122151220e1220d1220a1220312202121ff121f8121f7121f4121ed121ec121e9121e2121e1121de121d7121d6121d3121cc121cb121c8121c1121c0)
  (.lf 0)))

def shaXorOrder40 : BTree :=
  .nd (.nd (.nd (.lf
  0x1bb5d1bb591bb571bb541bb451bb411bb401bb3c1bb341bb311bb291bb251bb241bb221bb1a1bb181bb171b8b91dd221dcc81dc691dc161dc151dbd31dbd21dba61dba51db791db781db511db291db081daa21da851da841da671da261da091d9051d8f21d8be1d8ba1e1931e17d1e1661e15f1e15e1e09d1e0951e0911e0901e08c1e08b1e0871e0431e0411e0401e03c1e03b1e0301e02f1e0211dfba1dfb6)
  (.lf
  0xd0c50d0c20d0a80d0a70d0a40d08a0d0890d0860d06e0d06d0d06a0d0520d0510d04e0d0350d0340d0310d0180d0170d0140cffa0cff90cff60cfdb0cfda0cfd70cfbd0cfbc0cfb90cf9e0cf9d0cf9a0cf7f0cf7e0cf7b0cf610cf600cf5d0cf430cf420cf3f0cf240cf230cf200cf030cf020ceff0cee10cee00cedd0cec00cebf0cebc0ce9d0ce9c0ce990ce770ce760ce730ce4e0777e0777b0777a07779))
  (.nd (.lf
  0x19b9519b9419b9319b9119b9019b8f19b8e19b8c19b8b19b8a19b8919b8719b8619b8519b9a19b8419b82199d3199d5199d2199d0199bc1a4f51a4c41a4c21a4c11a4c01a4be1a4bd1a4bc1a4bb1a4b81a4b61a4b51a4b71a4b41a4b21a4b11a4b01a4ae1a4ad1a4ac1a4f41a4ab1a4a91a4a81a4a71a4a51a4a41a4a31a4a21a4a01a49f1a49e1a49d1a49b1a49a1a4991a4981a4951a4941a4931a4eb1a492)
  (.lf
  0x1c03016200108f0104b01040027ae0278801c4401c0401621010910104c01041027830276501c4501c0501622010930104d01042027600274201c4601c0601623010950104e010430273d0271f01c4701c0701624010970104f010440271a026fc01c4801c0801625010590105001045026f7026d801c4901c09016260105b0105101046026df026b801c4a01c0a016270105d01052026bf0269801c4b01c0b)))
  (.nd (.nd (.lf
  0x1bc081bc071bc051bc041bbff1bbfe1bbfc1bbfb1bbf61bbf51bbf01bbee1bbed1bc4b1bbec1bbea1b9fd1b9fc1b9fa1b9f51b9f41b9f31b9f11b9f01b9eb1b9ea1b8c81b89d1b87b1b8801b87a1b8781b8771be2a1be0f1be021be381be011bdfe1bdfd1bdfb1bdee1bde01bdde1bddc1be101bddb1bdd81bdd71bdd51bdc11bdc51bdc01bdbe1bdbc1bdba1bda91bdb11bda81bda61bda41bd961bd951bd91)
  (.lf
  0x3cf3038b304902042f303d0e03cf40388f04903042f403d1003cf50387004904042f503d1203cd60384c04905042f603d1403cd70382d04906042f703d1603cd80380904907042f803d1803cd9037ea04908042f903d1a03cda037c604909042fa03d1c03cdb037a60490a042fb03d1e03cdc037870490b042fc03d20037680490c042fd03d220374a037480490d042fe03d240372d0372b04f280491004354))
  (.nd (.lf
  0x4e8f04e8e04e8d04e8b04e8a04e8904e8804e8604e8504e8404e8304e8104e8004e7f04e7e04e7c04e7b04e7a04e7904e7704e7604e7504e7404e7204e7104e70057240572205721057180571705715057140570a057090570705706056fc056fb056f9056f8056ee056ed056eb056ea056e0056df056dd056dc056d2056d1056cf056ce056c4056c3056c1056c0056b4056b3056b1056b0056a3056a2056a0)
  (.lf 0)))

def shaXorOrder41 : BTree :=
  .nd (.nd (.nd (.lf
  0xc57b0c57d0c57f0c5810c5830c5850cd130cd150cd170cd190cd1b0cd1d0cd1f0cd210cd230cd250cd270cd290cd2b0cd2d0cd2f0cd310cd330cd350cd370cd390cd3b0cd3d0cd3f0cd410cd430cd450cd470cd490cd4b0cd4d0d5040d5060d5080d50a0d50c0d50e0d5100d5120d5140d5160d5180d51a0d51c0d51e0d5200d5220d5240d5260d5280d52a0d52c0d52e0d5300d5320d5340d5360d5380d53a)
  (.lf
  0x1f42c1fdc81f51c1f4251f4221f4211fdd01f4ee1f4191f4131f4121fda31f4db1f4081f3f91f3f71fd6d1f4cf1f4041f3ff1f3fd1fd3c1f4c51f11c1f10f1f10e1fd271f5901f49b1f1081f1051fcfe1f4971f0f31f0ec1fcb41f4881f0261f0211fca31f4aa1eff01efce20ca520c35015a00157c00a07007d720ca120c2a015770155900a08007d820c9e20bfe015540153500a09007d920c5d20c0f0153c))
  (.nd (.lf
  0xff0d0ff060ff050fefe0fefc0fef60fef50fef30feee0fedf0fee10fede0fedc0fed60fed50fed30fecb0fec40febc0febb0feb80feb20feaa0fea80fea60fea00fe9f0fe980fe960fe900fe8f0fe880fe850fe7f0fe7e0fe750fe730fe6d0fe670fe650fe630fe5d0fe5c0fe5a0fe530fe4c0fe4b0fe490fe410fe3a0fe390fe370fe2f0fe280fe220fe210fe1e0fe130fe140fe120fe100fe090fe080fe03)
  (.lf
  0x1122a0e5d60e5bd0d8670d85f15fe015ef4156281560d112a91122c0e5d80e5940d84e0d84315fd515ef61562a155eb112a41122e0e5da0e5960d8320d82715fca15ef81562c155ed1129f112300e5dc0e5980d8160d80b15fbf15efa1562e155ef1129a112320e5de0e59a0d7fa0d7ef15fb415efc15630155f111295112340e5e00e59c0d7de0d7d315fa915efe15632155f211290112360e5e20e59e0d7c2)))
  (.nd (.nd (.lf
  0x63250632306322063210631f0631e0631c0631b0631906318063170631606314063130631206311063100630e0630d0630c0630a0630906308063070630506304063030631d0630206300062ff062fe062fc062fb062f9062f3062f1062ef062ee062eb062e9062ea062e8062e5062e4062e2062e1062df062dd062dc062f4062da062d7062d6062d3062d2062d1062ce062cd062cc062ca062c7062c6062c5)
  (.lf
  0x15952147871478513f2a1384a15951159321477814776142a3138221592d158cf147601475e13e0d13824158ca158c1147521475013e04137ea158bc157f5147341473213dfd137b1157f0157d71489d1489b13dee13795157d2157cd146571465513d961377816400162b41544a15448149d3143ea143e6143e5163e0162ad1543a15438149c1143c1143bd143bc163dc162a91542d1542b149ab143ac143a7))
  (.nd (.lf
  0x1b7c41b8ca1b7c31b7bd1b7bc1b7b91b7b71b7b61b7b41b7b21b7b11b7af1b7ad1b7ac1b7a81b7a71b7a61b7a51b7a21b7a11b79f1b79c1b79b1b7971b7961b7951b7931b7911b78f1b7871b7861b7851b7831b7781b7771b76c1b76b1b76a1b7681b75e1b75d1b7521b7511b7501b74e1b7451b7431b7381b7371b7361b7341b72b1b7291b7151b7141b7131b7101b6f81b93a1b9381b9371b9351b93b1b934)
  (.lf 0)))

def shaXorOrder42 : BTree :=
  .nd (.nd (.nd (.lf
  0xdc0f0dc110dc130dbbf0dbc10dbc30dbc50dbc70dbc90db7d0dc150dc170dc190dc1b0dbcb0dbcd0dbcf0dbd10dbd30dc1d0dc1f0dc210dc230dbd50dbd70dbd90dbdb0dc240e3f90e4200e3fe0e3e60e3be0e3a70e4250e3570e32d0e3100e2e50e2d30e4220e4000e3e30e3c00e3a10e3740e3590e32f0e3120e4240e4020e3e50e3c20e3a30e3760e35f0e3350e3140ebd80ec030ebd70eba90eba80eba7)
  (.lf
  0x1c7521c7361c7a71c7541c72e1c7b01c7161c6f01c77f1c6d51c6cf1c7811c6c01c6ba1c7831c6bc1c6ae1cc3a1cb291cb281cb271cc341cb3e1cb351cb1f1cc2e1cb151cb141cc2b1cb401cb3f1cc241cb061cb051cc1f1cafb1cafa1cc181cb381caf21cc141cb2b1cae61cc101cb391cada1cc0c1cb2d1cacb1cc061cb421cabf1cc031cb171cab41cbfd1cb441cab21cbfa1cb081caa71cbf21cafd1ca9f))
  (.nd (.lf
  0x14bd514bd414bd314bd114bd014bcf14bce14bcc14bcb14bca14bc914bc714bc414bc314bc214bc014bbf14bbe14bc614bbd14bbb14b9b14b9a14b9814b9714b9614b9514b9314b9214b9014b8f14b8d14b8c14b8914b8b14b8814b8614b44150c4150bf150be150b9150b8150b0150ad15081150801507b1507a15077150741506f1506e15069150891506815064150601505e1504a1504915045150431503c)
  (.lf
  0x17253171d1171d01d4bd1d45f1d1c91d1861a02119f721729117255171c1171c01d6dc1d5c71d43c1d42d1d4221a90d1a6e717d2b17d1d17d1b17b9917b411d6d81d5c91d43e1d42e1d4231a90a1a6e917d2d17d1e17d1c17b9417b3c1d6cf1d5e81d4401d42f1d4241a9041a6eb17d2f17d1f17b8f17b361d6c91d5ea1d4421d4301d4251a9001a6ed17d3117d2017b8a17b2f1d6c61d5ec1d4441d4311d426)))
  (.nd (.nd (.lf
  0x10cd810cb610cb110ca810c9a10c9810c9710c9510c9310c7e10b6710b6510b6410b1510b1310b1110b1010b0e10b0c118701186e1186d1186c1186b11869118681186711866118641186311862118611185f1185e1185d1185c1185a11859118581185711855118541185311852118501184f1184e1184d1184b1184a11849118481184611845118441184311841118401183f1183e1183c1183b1183a11839)
  (.lf
  0x20d4d204612045f1f3221f31c1f31b20d6020d3d205402044c1f3241f30c1f30b20d5d20d362043d2043b1f3c31f3141f31220d5a20d5420545205431f3c71f30820d4120d2f20408204061f3b11f2fe20d4420d2120419204131f3a81f2ee20d1e20b7d204202041e1f6231f3d620b7720b69203f0203ee1f37c1f2ba20b7320b71203ad203ab1f3781f1c920b8320b6d203b0203a11f35c1f1b320b5b20b3e))
  (.nd (.lf
  0x11180111701116011140111301112011110110f0110e0110d0110c0110a0110901108011070110501104011030110201100010ff010fe010fd010fb010fa010f9010f8010f6010f5010f4010f3010f1010f0010ef010ee010ec010eb010ea010e9010e7010e6010e5010e4010e2010e1010e0010df010dd010dc010db010da010d8010d7010d6010d5010d3010d2010d1010d0010ce010cd010cc010cb010c9)
  (.lf 0)))

def shaXorOrder43 : BTree :=
  .nd (.nd (.nd (.lf
  0x1872618718186d5186bc186b1186a2186821866c185b218593185841856b1853a1850d184e3184b4184b019126191621903a190321903b19027190201903d19008190591905018fde18f3c18eef18ee518ef018ea318e9318e8d18e7b18d9818d9218d9018d8a18d0118c4b18c3618be118b5218b2819b0119aff199c3199ad19968199601992c1992e199241991f19953199331993419903198e3198cb1989b)
  (.lf
  0x128831201211969119521360112884120131196b11953135d8128bf11fa61196d11954135d31288511fa71196f11955135ce1288611bfd1197111956134ed1288711bfe1197311937134e81288811bff1197511938134e21288911c001197711939134bd1284711c01119791193a134b91283a11ad91197b1193b134b51283b11aca1197d1193c134af1238811ab51197f1193d134ab1236811aa211981134a5))
  (.nd (.lf
  0xa9bb0a9a60a9a50a9a30a9a10a9850a9840a9820a9810a9730a7bc0a7ba0a7b90a7b80a7b70a7b50a7b40a7b30a7b20a7b00a7af0a7ae0a7ad0a7ab0a7aa0a7a90a7a80a7a60a7a50a7a40a7a30a7a10a7a00a79f0a79e0a79c0a79b0a79a0a7990a7970a7960a7950a7940a7920a7910a7900a78f0a78d0a78c0a78b0a78a0a7880a7870a7860a7850a7830a7820a7810a7800a77e0a77d0a77c0a77b0a779)
  (.lf 0))) (.nd (.nd (.lf
  0x1fe521fe501fe451fe2f1fe2e1fe2c1fdf71fdf61fdf41fdf31fdf21fdf91fdf11fdef1fd931fd941fd921fd901fd8f1fd961fd8d1fd8b1fd7a1fd9a1fd791fd771fd701fd6f1fd541fd531fd461fd451fd431fcd51fcd31fc961fc8a1fc871fc6a1fc6b1fc691fc661fc4c1fc4e1fc4b1fc491fc2c1fc2b1fc261fc211fbff1ff471ff451ff441ff431ff421ff401ff3f1ff3e1ff3d1ff3b1ff3a1ff391ff38)
  (.lf
  0xb8b80ae060adde0a64d0a0c10a0b40bb300b89a0ae070addf0a6430a0c30a0b50bb1b0b87e0ae080ade00a6390a0c50a0b60bb150b8630ae090ade10a5880a0c70a0b70bb100b8460ae0a0ade20a5890a0c90a0b80bb0c0b82a0ae0b0ade30a58a0a0cb0a0990bb070b80c0ad5e0ad560a58b0a0cd0a09a0bb010b7ef0ad5f0ad570a58c0a0cf0a09b0bafd0baf40ad600ad580a58d0a0d10bae50bad60ad61))
  (.nd (.lf
  0x13cb513cae13cad13cab13caa13ca313ca213ca013c9f13c9813c9713c9513c9413c8d13c8c13c8a13c8913c8213c8113c7f13c7e13c7713c7613c7413c7313c6c13c6b13c6913c6813c6113c6013c5e13c5d13c5613c5513c5313c5213c4b13c4a13c4813c4713c4013c3f13c3d13c3c13c3513c3413c3213c3113c2a13c2913c2713c2613c1f13c1e13c1c13c1b13c1413c1313c1113c1013c0913c0813c06)
  (.lf 0)))

def shaXorOrder44 : BTree :=
  .nd (.nd (.nd (.lf
  0x18bc018bbe18bd118c0018ba918ba618b9e18b9818b9118bf518b8718b8018b8218b7518bfa18b6818b6a18bd318b3818af11967219671196701966d1966a1966719664196611961a19606195f2195e1195d3195c5195b31959e1958b19573195631954f1952e1950b194ed194cd194b319482193df193c7193de193c819e5019e4719e4019e4919e5a19e5119e5919e2919e2519e1c19e1519e1919e0d19e06)
  (.lf
  0x9be209bbe09bbd09bba09b9509b9409b9109b6c06fdd06fda06fd906fd806fd506fd406fd306fd006fcf06fce06fcb06fca06fc906fc606fc506fc406fc106fc006fbf06fbc06fbb06fba06fb706fb606fb506fb206fb106fb006fad06fac06fab06fa806fa706fa606fa306fa206fa106f9e06f9d06f9c06f9906f9806f9706f9406f9306f9206f8f06f8e06f8d06f8a06f8906f8806f8506f8406f8306f80))
  (.nd (.lf
  0x178f2178f1178f0178ee178ed178ec178eb178e9178e8178e7178e6178e4178e3178e2178e1178df178de178dd178dc178da178d9178d8178d7178d5178d4178d3178d2178d0178cf178ce178cd178641786317862178611785f1785e1785d1785c178441784317842178411783f1783e1783d1783c1783a17839178381783717835178341783317832178301782f1782e1782d1782b1782a178291782817826)
  (.lf
  0x18ae813b1013ae70f32a0f2980f25f194ad193aa18aea13b0b13ae90f32b0f2910f266193c5193ac18aec13b0613aeb0f32c0f28e0f277193c2193ae18aee13b0113aed0f32d0f2880f27619dd819c6c193a713e9313e5511c1b11537114b419cc019c6e193a913e8e13e5711c1d115cf1153119cb719c70193ab13e8913e5911c1e1152e1149d19c9e19c72193ad13e8413e5b11c1f11528114b619c9719c74)))
  (.nd (.nd (.lf
  0x163c9163c7163c6163c3163c2163c1163bf163bd163bc163bb163b8163b7163b4163b3163b2163b0163a8163a6163a41638e1638d1638a163891638816385163841638316381163801637e163761637516373163701636f1636e1636316362163601635e1635116352163501634e163531634c1634a163481634616341163401633e1633916338163301632f1632e163251632416323163211631f1631e1631c)
  (.lf
  0x76c8076ad06a62069e50395d0393f07830077ba076ca0768b06a5d069e70393a0391c0782b077bc076cc0768d06a58069e903917038f907826077be076ce0768f06a53069eb038f4038d507821077c0076d00769106a4e069ed038d6038b60781c077c2076d20769206a49069ef038b10389207817077c4076d40769306a44069f1038930387307812077c6076d60769406a3f069f30386e0384f0780d077c8))
  (.nd (.lf
  0x3a2a03a0e03a0d03a0b03a0a039ee039ed039eb039ea039ce039cd039cb039ca039ae039ad039ab039aa0398e0398d0398b0398a0396e0396d0396b0396a0394c0394b03949039480392903928039260392503906039050390303902038e3038e2038e0038df038c2038c1038bf038be038a00389f0389d0389c0387f0387e0387c0387b0385d0385c0385a038590383c0383b03839038380381a0381903817)
  (.lf 0)))

def shaXorOrder45 : BTree :=
  .nd (.nd (.nd (.lf
  0x455704544044b6044b4044a104473044710445e044500444e0443b0440d0440b043f8043ea043e8043d5043c7043c5043b204d7d04d7b04d6b04d3d04d3b04d2804cfa04cf804ce504cb704cb504ca204c1404c1204bff04bf104bef04bdc04b6e04b6c04b5904b4b04b4904b3604b2804b2604b1304b0504b0304af004ae204ae004acd04a9f04a9d04a8a04a7c04a7a04a6704a5904a5704a44056bb056b9)
  (.lf
  0x187d7187d61a8aa1a6cc1999f18ffd187e8187e71a8a51a6e1199a71910c18778187771a89a1a6ca1994318f491899d187551a8951a69f1990018f251899f187561a88b1a68c198f718f2b189a1187571a8861a68e198cf18f1f1890f186fd1a8831a690198a518eb8188c0186ef1a87d1a6de198a018e9c189a3186f01a8781a6791988618e9d189a5186dd1a8741a6761987718e82189a7186de1a86c1a66e))
  (.nd (.lf
  0xd03b0d0260d0250d0230d01e0d0090d0080d0060d0000cfeb0cfea0cfe80cfe10cfcd0cfcc0cfca0cfc30cfae0cfad0cfab0cfa40cf8f0cf8e0cf8c0cf850cf710cf700cf6e0cf670cf530cf520cf500cf490cf340cf330cf310cf2a0cf130cf120cf100cf090ceef0ceee0ceec0cee70cecd0cecc0ceca0cec60ceaa0cea90cea70cea30ce860ce850ce830ce7d0ce5e0ce5d0ce5b0ce540ce460cc8c0cc8a)
  (.lf
  0x6e2106d7606d741143c113190c94f0c63307ac507ab707aac06e3806e2206d6506d63114301131b0c92f0c64b07ac607ab807aad06e3a06e2306d5406d52114241131d0c90f0c64d07ac707ab907aae06e3c06e2406d4306d41114191131f0c8ef0c64f07ac807aba06e3e06e2506d3206d301140e113210c8cf0c65107ac907abb06e4006dfc06d2106d1f11402113230c8af0c65307aca07a9c06e4206dfe)))
  (.nd (.nd (.lf
  0x27a4027870278502784027640276202761027410273f0273e0271e0271c0271b026fb026f9026f8026e0026d7026d5026c0026b7026b5026a002697026950267802676026750265d02654026520263d02634026320261d0261402612025f5025f3025f2025da025d1025cf025ba025b1025af0259a025910258f02572025700256f0254f0254d0254c0252c0252a02529025090250702506024e6024e4024e3)
  (.lf
  0xeb5f10fb010fa6102b8102b20fb250eb7c0eb670eb6010fa110f7f102b9102b30fb260eb7d0eb680eb6110f8210f601024b102330fb270eb7e0eb690eb6210f7410f2a1024c102340fb280eb7f0eb6a0eb6310f2c10ecb1024d102350fb290eac40eab90eab710ecd10eb41024e102360fb2a0eac00eaba0eab810ea110e8c1024f102370fb2b0ebf90eac10eabb10e8e10e7710250102380fb2c0ebfa0eabc))
  (.nd (.lf
  0x179911798e1798c179a51798b1797a17b4617b4417b4317b4017b3f17b3d17b3b17b3a17b3917b3717b3517b3417b3317b3117b3017b2e17b2d17b2b17b2a17b2917b2817b2617b2517b2417b2317b2117b1f17b1e17b1d17b1b17b1917b1817b1717b1517b1417b1217b1117b0f17b0e17b0c17b0b17b0917b0817b0717b4917b0617b0417b0317b0217b0017afe17afd17afc17afa17af817af717afb17af6)
  (.lf 0)))

def shaXorOrder46 : BTree :=
  .nd (.nd (.nd (.lf
  0xf81a0f8110f80c0f8060f8000f7f90f7f30f7ea0f7e40f7ee0f7db0f7ec0f7d20f7ca0f7c40f7bd0f7b80f7b00f7b70f7a60f7a10f79b0f7930f8ce0f78d0f8cc0f77b0f8c50ff220ff0c0fefd0feed0fee00feca0feb90fea90fe970fe870fe740fe660fe520fe400fe2e0fe1f0fe0f0fe000fd340fd2c0fd260fd200fd1a0fd190fd180fd170fd2e0fcc20fcc50fc95108de108d5108d7108ca108c4108bd)
  (.lf
  0x3c00007202f8202dc007500035a0003700006202ac202a2007510035b0003200005202a720291007520035c0002d000042028a20280007530035d000280000320281200df007540035e000230000207c2907c1a07c0f069ac067520016b000d707c2b07c1b07c100699d0675400166000d607c2d07c1c07c110698c0677300161000d507c2f07c1d07c120697b067750015c000d407c3107c1e07c130696a))
  (.nd (.lf
  0x123fb123f6123f2123ee123ed123e9123e7123e2123e1123dc123db123d6123d5123d2123d0123cc123ca123c8123c4123bf123be123b9123b8123b3123b2123ae123ac123a7123a6123a2123a01239b1239a123951243f12394123901238b1238a123721236e12349123481232712326122e9125c3125c1125bf125be125bd125bb125ba125b8125b7125b5125b4125b2125b1125af125ae125ad125ac125a9)
  (.lf
  0x1278b12747123c5122fd1ae821ae031a53b1a4fc15597155361278d12749123c1122f91ae7e1ae051a53d1a4fd15592155381278f1274b123bb122df1ae761ae071a53f1a4fe1558d1553a127911274d123b5122fc1ae6e1ae091a5411a4ff155881553c127931274f123ad122d91ae6b1ae0b1a5431a500155831553e1279512751123a9122d81b7fc1b6941ade81add91adce15eb815dd1131ad1319f1319d)))
  (.nd (.nd (.lf
  0xc3f80c3eb0c3ea0c3e90c3e70c3dd0c3dc0c3db0c3d90c3d20c3d10c3d00c3ce0c3c80c3c70c3c60c3c40c3be0c3bd0c3bc0c3ba0c3b40c3b30c3b20c3b00c3aa0c3a90c3a80c3a60c3a00c39f0c39e0c39c0c3960c3950c3940c3920c3910c38b0c38a0c3880c3870c3810c3800c37e0c37d0c3770c3760c3740c3730c36e0c36d0c36b0c36a0c3650c3640c3620c3610c2fc0c2fb0c2f90c2f80c2f30c2f2)
  (.lf
  0x19b061920b18f421b2ec1b2c21a1b91a1b719909191f318f0a1b2e31b2dd1a1a31a1a1198e8191db18efe1b2af1b21a1a1971a195198d5191ba18eff1b2171b1f21a1231a121198c3191a718ed41b20a1b1f61a1071a105198bc191a918ecb1b2031b1e61a0db1a0d9198b1190fb18eda1b1fb1b1cc1a0b71a0b5198001904518eb31b1c31b0571a0a21a0a0197c81921c190101b3ac1b02e19ec019ebe197bc))
  (.nd (.lf
  0x1ce681ce671ce691ce661ce631ce621ce601ce5f1ce5d1ce5a1ce591ce581ce551ce541ce531ce511ce4f1ce4e1cdea1cde81d2b41d2b01d2af1d2ae1d2ab1d2a91d2a81d2a61d2a41d2a31d2a01d29e1d29d1d29b1d2961d2981d2941d2911d2901d28e1d28c1d28a1d2881d2861d2851d2831d27c1d27e1d27b1d2781d2771d2741d2731d2801d2721d26f1d26e1d26a1d2691d2681d2641d2631d2621d260)
  (.lf 0)))

def shaXorOrder47 : BTree :=
  .nd (.nd (.nd (.lf
  0x2075b2063a206302061e2061c2061820614206132060a205f2205f1205ed205de205bf205b72059a205982058520574205582055720537205342053220530205a9205a8205a420584205822057e2057d2057a205782056a205222051e2051d20519205182048a204682045e204542044b2044520441204322042e204352042d2042920424204282042320410203f32053e203e7203e3203e0203de203db203d9)
  (.lf
  0xb04c0b0030affe0c9d40bb990b3d00b04e0b0040afff0c9b80bb9a0b3d10b0500b0050b0000c99d0bb9b0b3d20b0520b0060b0010c9810bb9c0b3d30b0540b0070c9630bb9d0b3de0b0160b0080c9430bb9e0b3d40b0180b0090c9230bbaa0b3d50b01a0b00a0c9030bb530b3d60b01c0b00b0c8e30bb540b3d70b01e0b00c0c8c30bb550b3d80b0200b00d0c8a40bb560b3d90b0220b00e0c8820bb570b3da))
  (.nd (.lf
  0x84e1084e0084df084dd084dc084db084da084d8084d7084d6084d5084d3084d2084d1084d0084ce084cd084cc084cb084c9084c8084c7084c6084c4084c3084c2084c1084bf084be084bd084bc084ba084b9084b8084b7084b5084b4084b3084b2084b0084af084ae084ad084ab084aa084a9084a8084a6084a5084a4084a3084a1084a00849f0849e0849c0849b0849a084990849708496084950849408492)
  (.lf 0))) (.nd (.nd (.lf
  0x1df691df681df671df661df641df631df621df601ded71ded61ded51ded21ded11ded01decf1decd1decc1decb1deca1dec81dec71dec61dec51dec31dec21dec11e01f1dec01debe1deaf1deae1ddfd1ddfc1ddfb1ddff1ddfa1ddf81ddf71ddf61ddf41ddf21ddd71ddd61ddd41ddd01dd5c1dd5b1dd591dd581dd161dd151dd131dd111dca31dca21dca01dc9f1dc2a1dc291dc271dc231dbea1dbe91dbe7)
  (.lf
  0x481305d0205cbc052b0052ae04e080481505cfe05cbb052a7052a504e090481705ce905cc00529e0529c04e0a0481905cd005cbd052950529304e0b0481b05cca05cb60528c0528a04e0c0481d05cc405cb8052830528104e0d0481f062f0062240590a059080545e04e5d04e1d04e12062ec0623a05901058ff0544704e5f04e1e04e13062e606242058f8058f60543104e6104e1f04e14062e006236058ef))
  (.nd (.lf
  0x105421053b1053a1053810537105301052f1052d1052c105251052410522105211051a1051910517105161050f1050e1050c1050b105080f2580f2550f24f0f24e0f24b0f2440f2430f2400f2390f2380f2350f22e0f22d0f22a0f2230f2220f21f0f2180f2170f2140f20d0f20c0f2090f2020f2010f1fe0f1f70f1f60f1f30f1ec0f1eb0f1e80f1e10f1e00f1dd0f1d60f1d50f1d20f1cb0f1ca0f1c70f1c0)
  (.lf 0)))

def shaXorOrder48 : BTree :=
  .nd (.nd (.nd (.lf
  0xa7bd0b22e097cb0b2300b2310af160b6710ba3b0ba3d0ba3f0b5790be450c2720c2740c2760bd4d0c61f0ca350ca370ca390c5270cde70d1f40d1f60cc8d0d5d80d9b90d9bb0d4e00ddb40e1ba0e40e0dcbc0e5920e8af0ea090ebef0e4a40ed370f8280f8c20ed690ff3f0f0b20ff410ff42102f6101ed108e01096e103b8110ef0f313110f110c3d111fa115c2117601117511a4f1014011bd711bd811e56)
  (.lf
  0xd7ee0d7e70d7e60d7e40d7d20d7cb0d7ca0d7c80d7b60d7af0d7ae0d7ac0d79b0d7940d7930d7910d77e0d7770d7760d7740d7620d75b0d75a0d7580d7450d73e0d73d0d73b0d7270d7200d71f0d71d0d7080d7010d7000d6fe0d6ea0d6e30d6e20d6e00d6c90d6c20d6c10d6bf0d6a60d69f0d69e0d69c0d6850d67e0d67d0d67b0d6650d65e0d65d0d65b0d6410d63e0df5a0df570df510df500df4d0df46))
  (.nd (.lf
  0x1ad671ad661ad651ad631ad621ad611ad601ad5e1ad5d1ad5c1ad5b1ad591ad581ad571ad561ad541ad531ad521adc21ad511ad4f1ad4e1ad4d1ad4b1ad491ad481ad471ad451ad441ad431ad421ad411ad3f1ad3e1ad4a1ad3d1ad3b1ad3a1ad391ad371ad361ad351ad341ad321ad311ad301ad2f1ad2d1ad2b1acd21b5841b4ca1b4c91b4c41b4c31b4941b4921b48c1b48a1b4581b4541b3d41b3d31b3c8)
  (.lf
  0x329e0327f028c002880022a701cac01c9c0328603260028c102881022a801cae01c9d0325b0323d028c202882022a901cb001c7e032380321a028c302883022aa01cb201c7f03215031f7028c402884022ab01cb401c80031f2031d3028c502885022ac01cb6031da031b4028c602886022ad01cb8031af03191028c702887022ae01cba0318c0316d028c802888022af01cbc031740314e028c902889022b0)))
  (.nd (.nd (.lf
  0x1e0231dfe71dfe01dfde1dfdd1dfd01dfce1dfd51dfcd1dfcb1dfc91dfc71dfbf1de161de0d1de0b1ddc41dda91dda11dd791dd6a1dd661dd0c1dd091dced1dcb91dcad1dcab1dc581dc551dc531e8041e8021e7f41e7de1e7dd1e7d41e7d01e7ca1e7d21e7c91e7c71e7c61e7c51e7c31e7bd1e7bc1e7bb1e7b91e7b01e7841e7851e7831e7811e7801e7a11e77f1e77d1e77c1e78c1e77b1e7791e7781e777)
  (.lf
  0x534704fb3049cf05a4a0534804fb5049b0081b605fae05a4d0553f054f7054f20818605faf05a4e05541054f8054f30815705fb005a4f05543054f9054f40812a05fb105a5005545054fa054f5080fa05fb205a5105547054fb054f6080cc05fb305a5205549054fc0809e05fb405a530550b054fd0806f05fb505a540550d054fe0804005fb605a550550f054ff0801305fb705a56055110550007fe305fb8))
  (.nd (.lf
  0x5ba805b9e05b9d05b9b05b9a05b8f05b8e05b8c05b8b05b8005b7f05b7d05b7c05b7105b7005b6e05b6d05b6005b5f05b5d05b5c05b4e05b4d05b4b05b4a05b3e05b3d05b3b05b3a05b2e05b2d05b2b05b2a05b1f05b1e05b1c05b1b05b0f05b0e05b0c05b0b05b0005aff05afd05afc05af205af105aef05aee05ae205ae105adf05ade05ad1047430474104724047210470304700046e3046e0046c1046be)
  (.lf 0)))

def shaXorOrder49 : BTree :=
  .nd (.nd (.nd (.lf
  0x1528215284152c21521815cf915d5015d3615cfd15d3715d0015d0215d0415d0615d0815d0a15d0c15d0e15d1015d1215d1415d1615d1815d1a15d1c15d1e15d2015d2215d2415d2615d2815d2a15d2c15d2e15d3016423164251642716429164761642b1642d1642f16431164331643516437164391643b1643d1643f16441164431644516447164491644b163af163a31644d1644f16451164531645516457)
  (.lf
  0x1797e1b9e51b83918f9e18e5c18dc518db71b9e01b83b18f9818dc718db918db81b9db1b83d18f9218e5e18e5d1b9d61b83f18f8c18dc918dba1b9d11b84118f8618dcb18dbb1b9cc1b84318f8118dcd18dbc1b9c71b84518f7d18dcf18dbd1b9c21b78c18f7418dd118dbe1b9bd1b78218f7118dd318dbf1b9b81b98618f5f18e6018dc01b9b31b94118f5818dd518dc11b9ae1b94318f5318e6218dc21b9aa))
  (.nd (.lf
  0x10722107211072710720106e2106dc106e5106db106d9106d6106d5106c8106c6106be106b1106a7106a51067a1067910677106761066f103b7103b5103b4103b3103b2103b0103af103ae103ad103ab103aa103a9103a8103a6103a5103a4103a3103a1103a01039f1039e1039c1039b1039a10399103971039610395103941039210391103901038f1038d1038c1038b1038a1038810387103861038510383)
  (.lf
  0x1708f167d11679011c9911c460eea80ee640e7ac0e696170f217091167d31679111c9411c480eeaa0ee660e7a60e68a170ee17093167d51679211c8f11c4a0eeac0ee680e7a00e67e17a8a1791d170701706117056103e6103d8103d60f8210f7540f7520f75117a7b1791f170721706217057103e8103d9103d70f81d0f7720f7420f74017a771793e170741706317058103ea103da0f8160f7310f72f0f72e)))
  (.nd (.nd (.lf
  0x87ce087cc087c9087c8087c6087c3087c2087c0087bd08832087bc087ba08835087b8087b608a78087b4087b20882a087b0087ae087ac087aa087a2087a10879f0879708796087940878c0878b0878908767092c8092c6092c5092c4092c3092c1092c0092bf092be092bc092bb092ba092b9092b7092b6092b5092b4092b2092a00929f092310922f0922e0922d092320922c0922a09229092280922609225)
  (.lf
  0x153e8176e917690165cd165cb15b4b153dc153d8153d7176911768c165bd165bb15b161540f1540a15409176e01767c165a11659d15b03153d1153ce153cd1766f1765c165a21659e15af1153bb153ba153b9176441763b165901658e15ae41545f153ad153ac1763817630165881658615ada15460153a217615175fe1657c1657a15aa21545215391175ff175e5165731657115a891543e15398175da175d5))
  (.nd (.lf
  0x1b9af1b9ad1b9ac1b9a91b9a81b9a71b9a51b9a41b9a21b99f1b99e1b99d1b99a1b9991b9981b9961b9941b9931b9911b98e1b9901b98c1b98a1b97d1b97a1b9791b9781b9751b9741b9731b9721b96f1b96e1b96b1b96a1b9691b9661b9641b9671b9631b9611b95e1b95c1b95a1b9591b9571b9551b9601b9541b9521b9501b94d1b94c1b94b1b92c1b92b1c3821c37f1c37d1c37c1c3791c3761c3751c372)
  (.lf 0)))

def shaXorOrder50 : BTree :=
  .nd (.nd (.nd (.lf
  0x16f7a16f9c16f8916f9b16f8816f4216f4116f4016fda16fc716f7916f7816f7716f3f16f9a16f8716f3e16fd916fc616f7616f7516f7416f3d16f9916f8616f3c1780c1785a17809177a9177b31779f176fe176cb17733176a217730176741784f1780617774177b5177a1176fd176d2176db1769f178581780a17777177b7177a3176fc176ce176b5176a11814e18159181471800617fef17fe017ff417fe4)
  (.lf
  0x20d9320d9120d9a20d9020d8e20d8c20d8920d8820d8720d8320d8220d8120d7f20d6120d5f20d5920d5720d5b20d5620d5320d5220d4620d4220d5020d4020d3e20d2220d2020d1d20b7c20b7a20b7820b7e20b7620b7420b8420b7020b6e20b6c20b6a20b5c20b3f20b3d20b3b20b3120b2f20b2d20b2c20b2820b2620ac720ac320ac020aa220aa020a9e20a6120a5d20a59209d1209ce209cc209c1209bf))
  (.nd (.lf
  0x158b61580615802157e6157e3157b415be215bdf15bdd15bdc15bdb15bd915bd815bd715be415bd615bd415bd315bd215bd015bbd15baf15bae1598615985159841598315981159801597e1597d1597b1597a159781597715975159741597315972159701596f1596d1596c1593915938159361593515929159281592715926159241592215921159201591e1591d1591b1591a1591815917159161591515913)
  (.lf
  0x101200fd2009bf007cf007af0078520c9820c84019250190c0101300fd3009c0007d0007b00078620c9220c7601913018f20101400fd4009c1007d1007b10078720c8d20a87018f9018d90101500fd5009c2007d2007b20078820a8120929018d4018bb0101600fd6009c3007d3007b30078920922208e1018c2018900101700fd7009c4007d4007b40078a07b4207b3407b3207a5b0796d0789a0788b07880)))
  (.nd (.nd (.lf
  0x124f8124f6124f5124f4124f2124ec124eb124ea124e8124df124de124dd124db124da124d9124d8124d3124d1124d0124cf124cd124cc124c7124c6124c412465124371243912436124341237e123811237d1237b123541235a12353123511233c1233b12339123381231f1231e123181231712302128ef128ec128eb128ea128e7128e6128e5128e3128e2128e0128de128dc128db128d9128d8128d6128d3)
  (.lf
  0xf0b70dddf0d1f315ebd1560e111fc0e5be0d9b81678915edf0f3150ed940df8c1704c167ab11c0a0ee820e7791791b1706e103e40f7710f761181d01793d127420f0e00f01e18a94181f21318211225106811935918ab613a9f0f33e0f28119c231937b13e1311c33114a91a4f719c4514c3f1006b0f4da1adc41a519154fe1276b1236b1b6921ade615dcf131ab12bb21bece1b6b4162c413ac81349b1c24b))
  (.nd (.lf
  0x5db005d8005d0005cd005c5005c2005ba005b7005af005ac0222702225022120220b0220a02208021f0021e9021e8021e6021cd021c6021c5021c3021aa021a3021a2021a00218902182021810217f0216902162021610215f02147021400213f0213d021260211f0211e0211c02104020fd020fc020fa020e3020dc020db020d9020c1020ba020b9020b7020a00209902098020960207e020770207602074)
  (.lf 0)))

def shaXorOrder51 : BTree :=
  .nd (.nd (.nd (.lf
  0x1d0181d03b1d03e1d03c1d03f1d3851d3821d2e01d2e21d2291d21c1d21d1d21e1d21f1d22000380003be000b90018f0018e0018d0018c0018b0018a001890018800187001860018500184001830018200181001800017f0017e0017d0017c0017b0017a001790017800177001760017500174001730017207c0707c0907c2807c2a07c2c07c2e07c3007c3207c3407c3607c3807c3a07c3c07c3e07c4007c42)
  (.lf
  0x1353f130aa12ef414ef813dd61353a12ef614ef513dc91353012ef814eee13db2134dd12efa158ac14ba1141ce139f9139c1139bc158a714b68141da139fb139c2139bd158a414b5f141c2139fd139c3139be1589b14b52141c3139ff139c4139bf1589814b54141ae13a01139c5139c01589214b371418613a03139c61588c14b381417a139cc139c71588614b181417e139ce139c81587e14aff1416b139d0))
  (.nd (.lf
  0xaeae0aead0aeac0aeaa0aea90aea80aea70aea50aea40aea30aea20aea00ae9f0ae9e0ae9d0ae9b0ae9a0ae990ae980ae960ae950ae940ae930ae910ae900ae8f0ae8e0ae8c0ae8b0ae8a0ae890ae870ae860ae850ae840ae820ae810ae800b6700b66e0b66d0b66c0b66b0b6690b6680b6670b6660b6640b6630b6620b6610b65f0b65e0b65d0b65c0b65a0b6590b6580b6570b6550b6540b6530b6520b650)
  (.lf 0))) (.nd (.nd (.lf
  0x206842068320681206802067f2067e2067c2067b2067a2067920677206762067520694206742067220671206702066e2066d2066b2066c2066a206682066720666206642066320662206612065f2065e2065d2065c2065a206582065720656206542065320652206512064c2064a206492064b20648206462064520644206422064120640206962063f2063d2063c2063820637206352063420633206312062d)
  (.lf
  0xba590b2880ae610c6d10c6b40ba4e0ba460b2890ae630c6b00c6970ba4f0ba470b28a0ae650c6920c6810ba500ba480b50d0ae670d4120d1e80c4780c4730bc6e0b4ce0b4b40b4af0d40d0d1ce0c47f0c47d0bc6f0b4d00b4b50b4b00d4090d1b00c45b0c4590bc700b4d20b4b60b4b10d4040d1910c49b0c4990bc710b4d40b4b70b4b20d3fe0d1720c4410c43f0bc430b4800b47b0b47a0d3e60d1520c42b))
  (.nd (.lf
  0x14e2614e2314e1c14e1b14e1814e1114e1014e0d14e0614e0514e0214dfb14dfa14df714df014def14dec14de514de414de114dda14dd914dd614dcf14dce14dcb14dc414dc314dc014db914db814db514dae14dad14daa14da314da214d9f14d9814d9714d9414d8d14ed114ecf14ece14ec714ec614ec414ec314ebc14ebb14eb914eb814eb114eb014eae14ead14ea614ea514ea314ea214e9b14e9a14e98)
  (.lf 0)))

def shaXorOrder52 : BTree :=
  .nd (.nd (.nd (.lf
  0x1439014250141901405013f9013e5013d9013c50130a012f60125e0124a0123e0122a01bb901ba501b8201b6e01b6801b5401b1401b0001ac001aac01a8901a7501a1801a04019c4019b0019530193f0191c0190801902018ee02224022130219e0218a0217e0216a0213b02127020f8020e4020b5020a10204f0203b01fe901fd501fc901fb501fa901f9501f8901f7501f4601f3201f2601f1201ee301ecf)
  (.lf
  0x704d070460704507043070420703f0acde0acdb0acc50acc40acc10aca80aca70aca40ac8b0ac8a0ac870ac6d0ac6c0ac690ac4f0ac4e0ac4b0ac330ac320ac2f0ac180ac170ac140abfb0abfa0abf70abdf0abde0abdb0abc10abc00abbd0aba20aba10ab9e0ab850ab840ab810ab690ab680ab650ab4d0ab4c0ab490ab310ab300ab2d0ab130ab120ab0f0aaf60aaf50aaf20aad80aad70aad40aabb0aaba))
  (.nd (.lf
  0x1863718630186351862f1862b1861e1861c186181861718613186111860a1860c18609186051860018620185ff18622185fb185f7185f4185f1185ed185eb185e9185e4185e3185df185db185d9185d5185d4185d1185cf185ce185ca185c61864d185c5185c1185651855d1855b185571852c1852a185261852f1852518521184ff184fe1831a18318182cc184a61825f189561892318921189201891f1891d)
  (.lf
  0x1c94718421183ff15de51580e157ad1ccb21cc971c9491841b1840115de615808157bd1ccad1cc991c94b184161840315de7158b5158031cf811cf2b1cc92192eb18e63162d41613e1607e1cf7c1cf2d1cc94192e418dd8162d61613b1607d1cf751cf2f1cc96192e018dda162d71611e1607c1cf681cf311cc9818e0518ddc162d81611b1607b1cf621cf331cc9a18dfe18dde162d91610a1607a1cf5f1cf35)))
  (.nd (.nd (.lf
  0x17f4617f4417f4317fb117f4217f4017f3017f7d17f2f17f2d17f2c17f8a17f2b17f2917f2817fa517f2717f2517f2417f9c17f2317f2117f2017f1f17f1d17f1717dff17dfe17dfc17dfb17df517df417df217df117deb17dea17de817de717de217de117ddf17dde17dd817dd717dd517dd417dce17dcd17dcb17dca17dc417dc317dc117dc017dba17db917db717db617db017daf17dad17dac17da717da6)
  (.lf
  0x1fc3b1f8c31f8c01f8b02030a1ff491fde51fdbe1f9d01f89f1f89e202f11fdad1fc041fa1a1f8981f8971f896202e61fd951fbf01fa161f8c71f8c61f8c5202f61fd3e1fbe01f7501f74f1f74d1f74c202a41fd4b1fd2d1fbd21f7311f72e1f72d202ae1fde11fcfb1f6e21f6de1f6dc202871fcb31fbc51f55b1f5491f5482027a1fca11fa3a1f5281f5111f5021d5e71b123184fa183de183cf1b1751b169))
  (.nd (.lf
  0x3d6003d440285a028570283b028380281902816027f6027f3027d5027d2027b5027b20279302790027700276d0274d0274a0272a027270270702704026e6026e3026c6026c3026a6026a3026840268102663026600264302640026230262002601025fe025e0025dd025c0025bd025a00259d0257e0257b0255b0255802538025350251502512024f2024ef024d1024ce024b1024ae024910248e0411904117)
  (.lf 0)))

def shaXorOrder53 : BTree :=
  .nd (.nd (.nd (.lf
  0xf95c0f95a0f9570f94b0f9480f9450f93f0f93d0f9390f92e0f9290f9280f9220f91f0f91c0f91b0f9180f9150f8fa0f8f90f8f610b7b10b7910b7210aa010a9e10a7d10a1910a1710a1410a1310a1110a051098910988109851098410982109721091e109161090b1090a108f9108e91082d1082b108241078110778107771073210730107291107c1107a1107810fea10fe310fe110fdd10fdb10faa10f9e)
  (.lf
  0x1c0e81b4641ad231a4461a3801a37d1c2261c0d81b43c1acb61a3471a33f1c21f1c0d11b42e1aca91a2621a2601c21b1c0ce1b3ff1acaa1a2631a2611c2131c0c51b37f1ad161a2471a2451c20f1c0c21b3591ac8b1a2481a2461c2081c0771b38b1ac831a20b1a20a1c2001c06a1b3261ac7b1a1f21a1f11c1fc1c05d1b3051ac701a4471a1d51c1f31c0521b2ef1ac671a3dc1a1bf1c1ed1c0891b2e61ac4d))
  (.nd (.lf
  0xd4b90d4b80d4b70d4b50d4b40d4b30d4b20d4b00d4af0d4ae0d4ad0d4ab0d4aa0d4a90d4a80d4a60d4a50d4a40d4a30d4a10d4a00d49f0d49e0d49c0d49b0d49a0d4990d4970d4960d4950d4940d4920d4910d4900d48f0d48d0d48c0d48b0d48a0d4880d4870d4860d4850d4830d4820d4810d4800d47e0d47d0d47c0d47b0d4790d4780d4770d4760d4740d4730d4720d4710d46f0d46e0d46d0d46c0d46a)
  (.lf
  0x12237121640d8210d60e08aac087e807b0807ada071bb0718e1222c121660d8050d61008aa7087e207b0907adb071bc0718f12221121680d7e90d61208aa2087dc07b0a07adc071bd07190122161216a0d7cd0d61408a9d087d607b0b07add071be071911220b1216c0d7b10d61608a98087d007b0c07ade071bf07192122001216e0d7960d61808a93087ca07b0d07adf071c007193121f5121700d7790d61a)))
  (.nd (.nd (.lf
  0x3a3b03a3a03a3803a3703a1b03a1a03a1803a17039fb039fa039f8039f7039db039da039d8039d7039bb039ba039b8039b70399b0399a03998039970397b0397a03978039770395c0395b03959039580393903938039360393503916039150391303912038f3038f2038f0038ef038cf038ce038cc038cb038b0038af038ad038ac0388c0388b03889038880386d0386c0386a0386903849038480384603845)
  (.lf
  0x10df21087d102c31027011fab11b2f10de410de210840102c41027111fa811b2610db010dae10841102c51027211f9c11b1610d8a10d8810842102751002311f9811b0e10d6910d671080b102761002411bee11b0210d4510d41107e41031b1027711be711afb10d4610d421078f1027811be311aeb10d0110cff107901032711bdd11ae310cd610cd4107731032811ad211ac310cb410cb2107421032a11ac4))
  (.nd (.lf
  0x17e0a17e0817d5617d5518c2018c1c18c1b18c1a18c1518c1218c1418c1118c0f18c1618c0d18c0a18c0918c0718c0518c0318bff18bf318bf218bef18bed18bec18bd018bce18bcd18bcb18bc918bc818bc618bc418bc318bbf18bbc18bbd18bbb18bb818bb718bb518bb418bb218bb018bae18bad18bab18ba818ba718ba518ba318ba118b9f18b9c18b9b18b9718b9618b9518b9218b9018b8f18b8c18b8b)
  (.lf 0)))

def shaXorOrder54 : BTree :=
  .nd (.nd (.nd (.lf
  0x18625186141860b1860d186011862118629185f5185ee185ea185e8185dc186271862318624186261866918566185601852d1852e185311850518393182cd184ab18f9d18f9718f9118f8b18f8518fa518f7c18f7618f6418f6618f5e18f5418f3618d3718cfd18cf218ce218cd518cc518cbf18cbc18c9e18c8f18c7618c7218c4518c2e18bdc18b4418b161976219756197511974b197421973e1973519745)
  (.lf
  0x6bc206bb006ba5006c306fc706f1206bc406bb106ba6006b806fc206f1406bc606bb206ba7006ad06fbd06f1606bc806bb306ba8006a206fb806f1806bca06bb406ba90069706fb306f1a06bcc06bb506baa0068c06fae06f1c06bce06bb606bab0068106fa906f1e06bd006bb706bac0067606fa406f2006bd206bb80066b06f9f06f2206bd406bb90066006f9a06f2406bd606b970065506f9506f2606bd8))
  (.nd (.lf
  0x12e7012e6f12e6e12e4212e3c12e3412e3312e3112e1612de012ddf12ddd12dcd12dcc12dcb12dc912db812db712db612db412da212da112da012d9e12d8e12d8d12d8c12d7312d6612d5712d5612d5412d3912d3212d3112d2f12d1612d1512d1412d1212d1112cf912cf812cf612cf512cdb12cda12cd812cd712cbe12cbd12cbb12ca312c8212c8112c7f12c6512c6112c6012c5e12c4612c4512c4412c42)
  (.lf
  0x1c37a1c24f1bef41bee41bed916cb316be813fbb13e4013e3113e2f13d7a1c3731c26e1bef61bee51beda16cad1696813fb313e4213e3213d521c36b1c2701bef81bee61bedb16ca91696a13fb013e4413e3313d401c3681c2721befa1bee71bedc16ca31696c13fa713e4613e3413d511c3601c2741befc1bee81bedd16c9d1696e13fa413e4813e3513d7d1c35b1c2761befe1bee91bede16c9916a5613f9e)))
  (.nd (.nd (.lf
  0xd40c0d40b0d4080d4070d4060d4030d4020d4010d3ff0d3fd0d4290d3fc0d3e70d3e50d3e30d3e10d3e80d3e00d3de0d3dc0d3d90d3d80d3d70d3d50d3d30d3d20d3cf0d3ce0d3cd0d3ca0d3c90d3c80d3b30d3b20d3b10d3af0d3ad0d3ac0d3aa0d3a90d3a70d3a40d3a30d3a20d39f0d39e0d39d0d39b0d3990d3980d3930d3910d3900d38e0d3750d3740d3730d3710d36f0d36e0d36b0d36a0d3670d366)
  (.lf
  0x1a3341d91f1d9141af6c1af6a1a7fd1a3121d8f51d8ce1af481af461a7cc1a2ec1d8cb1d8bc1af2a1af281a7a71a2de1d8cf1bf3b1af031af011a58b1a29a1e1c21e1a51bcff1bcfd1b56b1ab881ab851ab841e20b1e19b1bce61bce41b5531ab641ab5f1ab5e1e1b31e18e1bcd91bcd71b5421ab381ab341ab331e17e1e17a1bccb1bcc91b52f1ab0e1ab091ab081e16b1e1641bcbd1bcbb1b4711aaf21aaee))
  (.nd (.lf
  0x1d4ce1d49e1d49f1d49d1d49b1d49a1d4f31d4991d4971d48c1d48b1d4891d4851d47f1d47e1d47c1d47b1d47a1d4141d4131d4111d40f1d40c1d40b1d40a1d4071d4061d4051d4031d4011d4001d3fd1d3fc1d3fb1d3f91d3f81d3f61d3f31d3f21d3f11d3ee1d3ed1d3ec1d3e91d3e81d3e71d3e51d3e31d3e21d3df1d3de1d3dd1d3db1d3d91d3d81d3d51d3d41d3d31d3d01d3cf1d3ce1d3cc1d3ca1d3c9)
  (.lf 0)))

def shaXorOrder55 : BTree :=
  .nd (.nd (.nd (.lf
  0x7bc407bc207bc107bbf07bbd07bbc07bba07bb807bb707bb507bb307bb207bb007bae07bad07bab07ba907ba807ba607ba407ba307ba107b9f07b9e07b9c07b9a07b9907b9707b9507b9407b9207b9007b8f07b8d07b8b07b8a07b8807b8607b8507b8307b8107b8007b7e07b7c07b7b07b7907b7707b7607b7407b7207b7107b6f07b6d008f10058c008f00058b0090d005a80090c005a70090b005a60090a)
  (.lf
  0xe1790d3ba0ccd60c5540c5400e1680d3bb0ccef0c5560c5410e1630d3bc0ccd70c5580c5420e15d0d3bd0ccd80c55a0c5430e1540d3be0ccd90c55c0c5440e1310d3bf0ccda0c55e0c5450e12e0d3950ccdb0c5600c5460e0e80d37d0ccdc0c5620c5470e0e50d37e0ccdd0c5640c5280e0a40d37f0ccde0c5660c5290e0a10d3800ccdf0c5680c52a0e05d0d3810cce00c56a0c52b0e05a0d3820cce10c56c))
  (.nd (.lf
  0x95d9095cf095ce095cc095cb095bf095be095bc095bb095b0095af095ad095ac095a2095a10959f0959e0959409593095910959009586095850958309582095780957709575095740956a0956909567095660955a095590955709556095490954809546095450953a0953909537095360952c0952b09529095280951c0951b09519095180950d0950c0950a09509094fd094fc094fa094f9094ee094ed094eb)
  (.lf 0))) (.nd (.nd (.lf
  0x1ea871ea851ea841ea831ea811ea801ea7e1ea7d1ea7b1ea791ea781ea771ea751ea731ea721ea711ea6f1ea6d1ea6c1ea6b1ea691ea651ea641ea631ea611ea5c1ea581ea571e9fc1e9fb1e9f91e9f81e9f61e9f41e9f31e9f21e9f01e9ee1e9ed1e9ec1e9ea1e9e81e9e71e9e61e9e41e9e31e9e11e9e01e9de1e9dd1e9db1e9da1e9d81e9d71e9d51e9d41e9d21e9d11e9cf1e9ce1e9cc1e9cb1e9c91e9c8)
  (.lf
  0x639805e7c0596e059280591d0881308783063d90639905e7d05970059290591e0880d08784063da0639a05e7e059720592a0591f0880708786063db0639b05e7f059340592b059200880108785063dc0639c05e80059360592c05921087fb0877f063dd0639d05e81059380592d087f508780063de0639e05e820593a0592e087ef08781063df0639f05e830593c0592f087e90877a063e0063a005e840593e))
  (.nd (.lf
  0x1147c114751147411472114711146a1146911467114651145e1145d1145b1145911452114511144f1144d114461144511443114411143a1143911437114351142e1142d1142b1142911422114211141f1141e114171141611414114131140c1140b114091140711400113ff113fd113fc113f5113f4113f2113f1113ea113e9113e7113e6113df113de113dc113db113d4113d3113d1113d0113c9113c8113c6)
  (.lf 0)))

def shaXorOrder56 : BTree :=
  .nd (.nd (.nd (.lf
  0x12f9c12f9912f9812f9612f9512f9112f9012f8d12eaf12eac12e7d12e7a12e7912e7712e4d12e4412dd212dce12d9212d8f12d7b12d7812d1912d1712cff12cfa12cc312cbf12ca712ca412c4b12c47138561383d1380413800137dd137d8137a41379f13768137661373e1373c136d5136d313698136961368413676136751365513653136461363313625135b8135ac135a61359e1356e135651355213547)
  (.lf
  0x756407563075620755f0755e0755d0755a0755907558075550755407553075500754f0754e0754b0754a0754907546075450754407541075400753f0753c0753b0753a0753707536075350753207531075300752d0752c0752b0752807527075260752307522075210751e0751d0751c0751907518075170751407513075120750f0750e0750d0750a075090750807505075040750307500074ff0c2690c267))
  (.nd (.lf
  0x19289192881928719285192841928319282192801927f1927e1927d1927b1927a192791927819277192751927419273192711926f1926e192701926d1926b1926a192691926719265192641926319261192601925f192661925e1925c1925b1925a192581925619255192541925319251192501924f1924d1924c1924b192571924a192481924719246192441924319242192411923f1923e1923d1923c1923a)
  (.lf
  0x18df018de4162dc160ce160771cf3e1cf3b18dec18de6162dd160b5160761d1e91d1d41960f195fc16977168be168ad1d1e41d1d6195f7195e816be9168bf168b91d4861d46f19ffb19f821725f17160171361d4801d47119ff419f8517406170b7170b41d6271d61c1a7301a71f17d19179b2179aa1d6241d61e1a7261a72117d1a179c3179ad1d5e91d5da1d5cf1b28c1b1251863b183e0183d2183d01839e)))
  (.nd (.nd (.lf
  0x19d3919d2a19d1319d0119d001ab7e1ab701ab6e1ab6d1ab6c1ab591ab571ab441ab431ab411ab2e1ab181ab171ab151ab031ab021ab011aafc1aafa1aae81aae71aae51aadf1aad31aad21aac01aabe1aabd1aabc1aaba1aab91aaa81aaa71aaa51aa981aa6e1aa6d1aa6b1aa6a1aa5e1aa5a1aa521aa511aa501aa4f1aa4d1aa3c1aa2e1aa301aa2d1aa2a1aa251aa241aa221aa1b1aa171aa161aa0f1aa0e)
  (.lf
  0x2a5a0276e036780305b02a6b02a5b0274b036790305c02a6d02a5c027280367a0305d02a6f02a5d027050367b0305e02a7102a5e026e10367c0305f02a7302a5f026c10367d0306002a7502a60026a10367e0306102a7702a61026820367f0306202a7902a620265e036800306302a7b02a630263e036810306402a7d02a640261e036820306502a7f02a65025ff036830306602a8102a66025db0368403067))
  (.nd (.lf
  0x48ca048c9048c8048c6048c5048c4048c3048c1048c0048bf048be048bc048bb048ba048b9048b7048b6048b5048b4048b2048b1048b0048af048ad048ac048ab048aa048a8048a7048a6048a5048a3048a2048a1048a00489e0489d0489c0489b04899048980489704896048940489304892048910488f0488e0488d0488c0488a04889048880488704885048840488304882048800487f0487e0487d0487b)
  (.lf 0)))

def shaXorOrder57 : BTree :=
  .nd (.nd (.nd (.lf
  0x3d2503d2703d2903d2b03d2d03d2f03d3103d33043230432504327043290432b0432d0432f04331043330433504337043390433b0433d0433f04341043430434504347043490434b0434d0434f04351043530435504357043590435b0435d049520495404956049580495a0495c0495e04960049620496404966049680496a0496c0496e04970049720497404976049780497a0497c0497e049800498204984)
  (.lf
  0x1eae11e2f41e1d81e01d1dfc41dfc31eace1e2d41e1521de1b1de181de111e9a61e2cb1e1421ddb21ddb11ddad1e9961e2ba1e23b1e1331dd731dd6d1e9641e2741e0ff1dd041dcf11ea141e25d1e1191dcc11dcbd1e8c21e2001e0e51dc5e1dc5c1f59d1efb71eebf1e9011e8fe1e8fd1e8fc1f5b41efae1eebc1e8f01e8ea1e8e91e8e71f5aa1efcf1eeb61e93f1e9381e9371e9351f5311efe11eeaf1e8d4))
  (.nd (.lf
  0xecc00ecbf0ecbe0ecbc0ecbb0ecba0ecb90ecb70ecb60ecb50ecb40ecb20ecb10ecb00ecaf0ecad0ecac0ecab0ecaa0eca80eca60eca50eca70eca40eca20eca10f8260f8230f8200f81c0f81b0f8190f8150f8100f80f0f80b0f8090f8050f8030f7ff0f7fd0f7f80f7f70f7f20f7f10f7e90f7e80f7e30f7ed0f7e20f7de0f7da0f7d80f7d40f7d30f7d10f7cd0f7c80f7c70f7c30f7c10f7bc0f7bb0f7b6)
  (.lf
  0x1048b103c70d60f0d5fc0c99a0c98f14e9214d58144921447d1447210486103c90d6110d5fd0c97e0c97314e8714d5a144941447e1447310481103cb0d6130d5fe0c9600c95514e7c14d5c144961447f144741047c103cd0d6150d5ff0c9400c93514e7114d5e14498144801447510477103e50d6170d6000c9200c91514e6614d601449a144811447610472103e70d6190d6010c9000c8f514e5b14d621449c)))
  (.nd (.nd (.lf
  0x4ff20523f04fe404fe204fd404fd204fd10590e0590c05907059060590505903058fe058fd058fc058fa058f5058f4058f3058f1058ec058eb058ea058e8058e3058e2058e1058df058da058d9058d8058d6058d1058d0058cf058cd058cc058c7058c6058c4058c3058be058bd058bb058ba058b5058b4058b2058b1058ac058ab058a9058a8058a3058a2058a00589f0589a0589905897058960584d0584c)
  (.lf
  0x136ee12e9f1268b125781257514ae81481c136e7136e512e881268d1256a14ae51480c1369f1369d12e561268e1256b14ad914a671368b1368912e2e1266f1255114ad6147fe1367d1367b12e07126631251e14ac6147f1136611365f12dfe126a01251f14ab7147e91364f1364d12df4126391252514ab2147d71363a1363812dea1264d1250414aad147c6136311362f12d891263a1250314aaa147c0135e5))
  (.nd (.lf
  0x1a6b41a6b31a6b21a6b01a6af1a6ad1a6ac1a6aa1a6a91a6a71a6cb1a6a61a6a41a6a31a6e01a6a21a6a01a69e1a69d1a69b1a69a1a6991a6981a6961a6951a6941a6931a6911a68d1a68b1a68a1a6881a6871a6861a68f1a6851a6831a6821a6dd1a6811a67f1a67e1a67d1a67b1a67a1a6781a6771a6751a6731a6721a6711a66f1a66d1a61e1a61b1a6191a6181a6161a61c1a6151a6131a6121a6e31a611)
  (.lf 0)))

def shaXorOrder58 : BTree :=
  .nd (.nd (.nd (.lf
  0x4e3204e3404e3604e3804e3a04e3c04e3e04e4004e4204e4404e4604e4804e4a04e4c04e4e04e5004e5204e5404e5604e5804e5a04e5c04e5e04e6004e6204e6404e6604e6804e6a04e6c0545d05478054620544b054350541f05409053f3053dd053c7053b6053a90547a054640544d05437054210540b053f5053df053c90547c054660544f05439054230540d053f7053e1053cb05937059390593b0593d)
  (.lf
  0x1c4a819d1e19ce91c4b61c4aa19f4c19d1a1c8811c8481a84d1a6f61c8731c85c1a8451a6f81c8551c8171a8421a6f91c8581c7d81a83e1a6fa1c7d41c7cb1a8151a7fe1c7b51c7a81a7b41a6fb1c7b11c7ac1a8161a7af1c78c1c7801a6fc1a5931c7861c7821a7451a57f1cb611cb181b0421b0391cb5c1cb451afcc1afc21cb561cb091afe21afc71cb521cafe1afb51af9d1cb4b1caf41af961af7a1cb47))
  (.nd (.lf
  0x13799137801377f1377d1377c13756137551375313751137391429c1429a14299142981429714295142941429314292142901428f1428e1428d1428b1428a14289142881428614285142841428314281142801427f1427e1427c1427b1427a14279142771427614275142741427214271142701426f1426d1426c1426b1426a14268142671426614265142631426214261142601425e1425d1425c1425b14259)
  (.lf
  0x1cf1b1cc821cc431931318dca16301162c516180160861cfa71cf1d1cc841cc451930b18dcc16302162c71617d160851cfa41cf1f1cc861cc471930718dce16304162c916174160841cf9e1cf211cc881cc491930318dd016305162cb16171160831cf981cf231cc8a1cc4a192fe18dd216307162cd16168160821cf901cf251cc8c1cc4b192fa18dd416308162cf16165160811cf8d1cf271cc8e1cc4c192f4)))
  (.nd (.nd (.lf
  0xfd560fd530fd510fd500fd3e0fd3d0fd3b0fd3a0fcf20fcf10fcef0fce70fcce0fcd00fccd0fccb0fca00fca40fc9f0fc980fc901000a1000710006100051000210001100000fffd0fffb0fffa0fff80fff40fff50fff30fff00ffef0ffec0ffeb0ffea0ffe90ffe60ffe50ffe20ffe10ffe00ffdd0ffdc0ffdb0ffd90ffd60ffd50ffd30ffd00ffcf0ffcd0ffcb0ffca0ffc90ffc60ffc50ffc30ffc20ffc0)
  (.lf
  0x1f8f81f8b61ede61ec481e69a1e5fe1e5291f8ae1f8a61ec111ec0f1e69f1e5301f8a31f88c1ec051ec031e6491e6001f8931f8831ebf31ebf11e6361e6241f88b1f7571ebdf1ebdd1e6171e5e21f7511f7081ebd61ebd41e6101e5f61f7291f6d01ebc31ebc11e5c61e5c21f6d91f5451ebbc1ebba1e5b01e58a1f5461f52e1ebe81ebe61e5791e5691f5001f4e51e9331e9311e5731e5492013b200931f3b8))
  (.nd (.lf
  0xde300ddc00ddb00dd900dc100dba00db900db700d9e00d9700d9600d9400d7b00d7400d7300d7100d5a00d5300d5200d5000d3800d3100d3000d2e00d1700d1000d0f00d0d00cf700cf000cef00ced00cd700cd000ccf00ccd00cb500cae00cad00cab00c9400c8d00c8c00c8a00c7400c6d00c6c00c6a00c5200c4b00c4a00c4800c3100c2a00c2900c2700c1100c0a00c0900c0700bef00be800be700be5)
  (.lf 0)))

def shaXorOrder59 : BTree :=
  .nd (.nd (.nd (.lf
  0xf9680f9640f95f0f9580f9530f94e0f9460f9420f93a0f9360f9310f92a0f9240f91d0f9170f9120fa530f9050f8cb102f9102ed10309102ab102a110298101761016d10171101681015b1016a1015110149101540ff950ff8f101f60ff850ff9b0fdde0fdb70fda90fd830fd740fd4f0fd390fce60fccf0fca310b8410b7410b2310a7e10a1d10a0a109ec109a61099e109941099110977109441091310902)
  (.lf
  0x10a7c10129100d2100861008110fd610a7710122100d41008710f9a10a721011f100961008810f7810a6d1011a100981008910f5510a68101151009a1008a10ede10a63101101009c1008b10eaf10a5e1010b1009e1008c10e9b10a5910106100a01008d10e8610a5410101100a21008e10e5e10a4f100fa100a41008f10e2610a4a100f7100a61009010dfe10883100a8100911007a10dec1085d100aa10092))
  (.nd (.lf
  0xa4890a4820a4810a47f0a4790a4720a4710a46f0a46a0a4630a4620a4600a45c0a4550a4540a4520a44c0a4450a4440a4420a43b0a4340a4330a4310a42a0a4230a4220a4200a41b0a4140a4130a4110a40b0a4040a4030a4010a3fc0a3f50a3f40a3f20a3ee0a3e70a3e60a3e40a3de0a3d70a3d60a3d40a3cf0a3c80a3c70a3c50a3c10a3ba0a3b90a3b70a3b30a3ac0a3ab0a3a90a3a50a39e0a39d0a39b)
  (.lf 0))) (.nd (.nd (.lf
  0x1ddaf1dd761dd7b1dd751dd0a1dd061dcf21dcc01dcc21dcbf1dc611dc601dc5d1dc0e1f85d1f85b1f85a1f8591f8581f8541f8531f8521f8561f8511f84f1f84e1f84d1f8341f8331f82d1f82c1f82a1f8291f8281f8271f8251f8241f8231f8221f8201f81f1f81e1f81d1f81b1f81a1f8181f8171f8151f8141f8131f8121f8101f80f1f80d1f80c1f80a1f8091f8071f8061f8041f8031f8011f8001f7fe)
  (.lf
  0x92e20afd20ac9f0a05c0a01c0990109304092e8092e30afce0ac820a05d0a01d0990209306092e9092e40afc90ac640a05e0a01e098c9092ab092a6092a50afc30ac460a05f0a01f098820928609268092630af940ac2a0a0600a020098830928809269092640af8e0ac0f0a0610a021098840928a0926a092650af8b0abf20a0620a022098850928c0926b092660af840abd50a0630a02309886092740926c))
  (.nd (.lf
  0x128151281412811128101280f1280c1280b1280a128071280612805128021280112800127fd127fc127fb127f8127f7127f6127f3127f2127f1127ee127ed127ec127e9127e8127e7127e4127e3127e2127df127de127dd127da127d9127d8127d5127d4127d3127d0127cf127ce127cb127ca127c9127c6127c5127c4127c1127c0127bf127bc127bb127ba127b7127b6127b5127b2127b1127b0127ad127ac)
  (.lf 0)))

def shaXorOrder60 : BTree :=
  .nd (.nd (.nd (.lf
  0xefa00ef950ef8a0ef7f0ef730ef680ef5d0ef520ef470ef3c0ef300ef240ef180ef0d0ef020eef70eeec0eee10eed60eecb0eebf0eeb410650106451063a1062f10624106191060e10603105f8105ed105e2105d7105cc105c1105b5105a91059d1059110585105791056e10563105571054c10541105361052b10520105151050a0f2500f2450f23a0f22f0f2240f2190f20e0f2030f1f80f1ed0f1e20f1d7)
  (.lf
  0x6b0f06b0e06b0b06b0a06b0906b0606b0506b0406b0106b00090e5090e3090ce090c7090c6090c4090ac090a5090a4090a20908a090830908209080090660905f0905e0905c090410903a09039090370901d09016090150901308ff908ff208ff108fef08fd508fce08fcd08fcb08fb108faa08fa908fa708f8f08f8808f8708f8508f6d08f6608f6508f6308f4b08f4408f4308f4108f2908f2208f2108f1f))
  (.nd (.lf
  0x16699166981669716695166941669316692166901668f1668e1668d1668c1668a16689166881668616685166841668316681166801667f1667e1667c1667b1667a16679166771667616675166741667216671166701666f1666d1666c1666b1666a16668166671666616665166631666216661166601665d1665c1665b1665a1665816657166561665516653166521665116650165c7165c6165b216e8316e82)
  (.lf
  0x13bdf0eefe0ee9f0cdfd0bf810bf7614501144b113be10eef30eea10cdfe0bf610bf54144f6144b313be30eee80eea30cdff0bf3f0bf31144eb144b513be50eedd0eea50ce000bf1c0bf10144e0144b713be70eed20eea70ce010befb0beee14ded14d76144b01043b103fd0d5eb0c7960c78814de214d78144b210436103ff0d5ed0c7730c76514dd714d7a144b410431104010d5ee0c7500c74214dcc14d7c)))
  (.nd (.nd (.lf
  0x1539c1539b15399153921538c1538b153891538415383153801537e15379153781537715375153701536f1536e15367153661536515364153621535c1535b1535a153531535215351153501534e1534d15347153461534415343153391533e153381533615335153301532e1532d1532c1532b1532915324153231539315322153201531f1531e1531c1531b14f9114f9b14f8114f7f14f4614f5414f4514f43)
  (.lf
  0x2dc007669075c2074d2074bd074b20672d0667002dc102da007664075c4074d4074be074b3067280667202da102d800765f075c6074d6074bf074b4067230667402d8102d610765a075c8074d8074c0074b50671e0668c02d5c02d3e07655075ca074da074c1074b6067190668e02d3902d1b07650075cc074dc074c2067140669002d1602cf80764b075ce074de074c30670f0669202cf302cd507646075d0))
  (.nd (.lf
  0x29a1029a00299f0299d0299c0299b0299a02998029970299602995029930299202991029900298e0298d0298c0298b02989029880298702986029840298302982029810297f0297e0297d0297c0297a02979029780297702975029740297302972029700296f0296e0296d0296b0296a02969029680296602965029640296302961029600295f0295e0295c0295b0295a029590295702956029550295402952)
  (.lf 0)))

def shaXorOrder61 : BTree :=
  .nd (.nd (.nd (.lf
  0x18fee18f4518f4318f3a18eee18eec18ee918ee818ee418ee318edf18ea418ea218ea018e9218e9118e8818e7c18e7a18e7918e7718d951a3521a3501a34e1a3391a3211a31f1a2f01a2ca1a2c91a24d1a2201a21e1a2261a2171a2141a2131a1f71a1f61a16a1a1681a15c1a10c1a10a1a0f91a0e41a0e21a0d51a0d31a0d11a0b01a0aa1a0a81a09819e7619e6919e6019dbe19dbc19da719da519da319d8f)
  (.lf
  0x17cf1175c416da016ad618ce418cdd17cb6175ab16d8216ad718cd318cc817cb7175a416dd816ad818cc318cb217ca11758616de716aab18cb818cb317ca21756516db316a8718cba18c9b17ca31754216da216a7b18c9c18c8717c711754716d8416a6718c8d18c6f17c691752516d8616a1418c7418c6617c1b1750716de916a1518c7018c5e17c0c174f416d4316a1618c4318c2c17bf3174d316d1b16a17))
  (.nd (.lf
  0xc8a30c8950c8810c8720c85e0c8510c83d0c8310c81d0c80f0c7fb0c7ee0c7da0c7ce0c7ba0c7ac0c7980c7890c7750c7660c7520c7430c72f0c7200c70c0c6ff0c6eb0c6df0c6cb0c6c10c6ad0c6a40c6900c6870ca250ca230ca1f0ca0b0ca0a0ca080ca020c9ee0c9ed0c9eb0c9e40c9d00c9cf0c9cd0c9c80c9b40c9b30c9b10c9ad0c9990c9980c9960c9920c97d0c97c0c97a0c9760c95f0c95e0c95c)
  (.lf
  0x69d1069940699210641104cc0b9ff0b67907a8207a7407a69069e4069d4069830698110636104ce0b9e10b67b07a8307a7507a6a069e6069d506972069701062b104d00b9c20b67d07a8407a7607a6b069e8069d6069610695f10620104d20b9a50b67f07a8507a7707a6c069ea069d7069500694e10615104d40b9890b68107a8607a7807a6d069ec069d80693f0693d1060a104d60b96d0b68307a8707a79)))
  (.nd (.nd (.lf
  0x1ab301ab201a9d01a9c01a9a01a9901a7f01a7e01a7c01a7b01a6601a6501a6301a6201a4901a4801a4601a4501a2c01a2b01a2901a2801a0e01a0d01a0b01a0a019f5019f4019f2019f1019d8019d7019d5019d4019ba019b9019b7019b6019a1019a00199e0199d019840198301981019800196701966019640196301949019480194601945019300192f0192d0192c01912019110190f0190e018f8018f7)
  (.lf
  0xdb210d3230d2f60f9e50f9300e0c00e0be0db220d4360f9e00f92b0e0960e0940db230d3250f9da0f9250e07a0e0780daed0d3270f9d50f91e0e04e0e04c0d9f10d3290f9d10f9160e0330e0310d9d50d32b0f9cd0f9ae0e0060e0040d9d60d32d0f9b80f9010dfed0dfeb0d9d70d32f0f8fb0f8d80dfc80dfc60d9d80d4450f8d40f8ca0dfa50dfa30d9d90d331100080ff250ebd60ebd40e3fa0dc1e0dc09))
  (.nd (.lf
  0x169481694616a1e1694516943169421694116939169371693616935169331692b1692a1692916927169231691e1691d169141691316912169111690f168ff168fe16901168fd168fb168fa168f9168f7168ae168ac168b8168ab168a9168a81676e1676c167691676a16768167661676416762167601675f1675d1675b1675a1675716756167551675316751167501674e1674d167871674b167481674716745)
  (.lf 0)))

def shaXorOrder62 : BTree :=
  .nd (.nd (.nd (.lf
  0x5c9e05c8f05c7e05c6c05c5c05c4c05c3b05c2a05c1905c0a05bfa05be905bd805bc905bbb05bad05b9f05b9005b8105b7205b6105b4f05b3f05b2f05b2005b1005b0105af305ae305ad20621a0620b061fd061ef061e1061d3061c2061b0061a006191061800616e0615f0614f0613e0612d0611c0610b060fa060eb060dd060cf060bf060b0060a00608f0607e0606f0606206055081d8081a7081790814b)
  (.lf
  0xc3410bda00ccc90c3600bd9e0d41d0ccca0c57a0d34d0cce70c5780dae70d4230cd420d9e50d3520cd400e4140dae80d5330df790d9e70d5310ebfe0e4150dd0f0e8bf0df7a0dd0d0fbcb0ebff0e4ee0f8ec0e8c60e4ec1003d0fbe80ec920fcb70f8ee0ec9010c2d100520fc78106940fcb90fc76110f710c31100c810b1c10695100c6117f8110f910c50114cc10b1f10aca1202b117fa1117c119a2114cd))
  (.nd (.lf
  0x11a0f11a0e11a0d11a0b11a0711a0611a0511a0311a0111a0011a09119ff119fd119fc119fb119f9119f8119f6119f5119f3119f1119f0119ef119ed119ec119eb119ea119e8119e7119e5119e4119e2119df119de119dd119db119da119d8119d7119d6119d4119d311a52119d2119d0119cf119ce119cc119c9119c8119c7119c5119c4119c3119c2119c0119bf119bc11abc119bb119b9119b8119b7119b5)
  (.lf
  0x1938f193771936c13ecf13e3d11c4711c301158f1142a19e1619c5619391193781936d13eca13e3f11c4911c311158b114be19e1119c58193931937913ec513e4111c4b11c3211585114bb19e0b19c5a193951937a13ec013e4311c4d11c091157e1140819e0419c5c193971935813ebb13e4511c4f11c0b115cc1157a19e0019c5e193991935a13eb613e4711c5111c0d115611149e19df919c601939b1935c)))
  (.nd (.nd (.lf
  0xaf810af7f0af7e0af7c0af7a0af790af760af750af740af710af700af6f0af6c0af6b0af6a0af680af660af650af630af620af600af5e0af5c0af5b0af580af570af560af550af530af510af390af370af360af330af320af310af300af2e0af2c0af290af280af270af240af230af220af1f0af1e0af4c0af1d0af1b0af190ad2f0ad2e0ad2d0ad290ad190a9920a9910a98e0b4960b4940b4930b4920b491)
  (.lf
  0x191ec18933180041800017fff1a3871a31c191d7191d5188ff17fcb17fc817fc71a3031a2cf191b6191b41889a17fd817fd417fd31a3771a2c21919c19198188d017ff717ff217ff11a2f11a2561919d191991885b17fe617fe217fe11a2521a222190f7190f51882517fbb17fb717fb61a25b1a231190411903f1880117f8617f8317f821a22d1a2191900c1900a187be17f9217f9017f8f1a2401a1fe1905d))
  (.nd (.lf
  0x1ccf81ccf71ccf51ccef1cced1cceb1ccbc1ccbb1ccb91ccb71ccb51ccb31ccb01ccbe1ccaf1ccac1ccab1cca91cca71cca51cca31cca01ce191ce171ce161ce151ce141ce121ce111ce101ce0f1ce0d1ce0c1ce0b1ce0a1ce081ce071ce061ce051ce031ce021ce011ce001cdfe1cdfd1cdfc1cdfb1cdf91cdf81cdf71cdf61cdf41cdf31cdf21cdf11cdef1cdee1cded1cdec1cddb1cdda1cdd91cdd81cdd6)
  (.lf 0)))

def shaXorOrder63 : BTree :=
  .nd (.nd (.nd (.lf
  0x200082000320002200001fffe1fffa1fff81fff21fff01ffef1ffed1ffe6200291ffe51ffe1200181ffe01ffde1fe621fe5c1fe591fe3d1fe3b1fe351fe161fe131fe101fe0f1fe0d1fe081fdcd1fdc31fdc21fdc01fdbb1fdb81fda71fda51fda11fd651fd5f1fd5c1fd371fd351fd331fd311fd261fd241fd231fd211fcf91fce91fcb11fcaf1fcae1fc9f1fc9d20c2f20c2920c2720c2620c2520c2320c21)
  (.lf
  0xaa770a20009a0209426093ea0aa5c0a1f809a0309428093eb0aa3f0a1f009a040942a093ec0aa210a1e809a050942c093ed0aa030a1e009a060942e093ee0a9e70a1d809a0709430093ef0a9c90a1d009a0809432093f00a9aa0a1c809a09094340a9890a1bf09a0a094360a9740a1b709a0b094380a7df0a29a09a6109a1909a14097c20a7e00a29b09a6309a1a09a15097b80a7e10a29c09a6509a1b09a16))
  (.nd (.lf
  0x7eb807e9207e9107e8f07e8a07e6307e6207e6007e5a07e3407e3307e3107e2c07e0507e0407e0207dfe07dd807dd707dd507dcf07da807da707da507d9e07d7807d7707d7507d6e07d4707d4607d4407d3f07d1907d1807d1607d1207ceb07cea07ce807ce407cba07cb907cb707cb307c8607c8507c8307c7f07c69065070650506504065030650206500064ff064fe064fd064fb064fa064f9064f8064f6)
  (.lf 0))) (.nd (.nd (.lf
  0x1d84c1d84b1d84a1d8481d8471d8451d8441d8421d8401d83f1d83e1d83c1d83a1d8391d8381d8361d8351d8331d8321d8301d82e1d82d1d82c1d82a1d8271d8251d92e1d8241d8221d8211d8281d8201d81e1d81d1d8f11d81c1d81a1d8181d8191d8171d8151d8141d8b51d8131d8111d8101d80c1d80a1d8091d8081d8071d8051d8041d8031d8021d8001d7ff1d7fe1d7fd1d7fb1d7fa1d7f91d7f81d7f6)
  (.lf
  0x3b8b0514205130047a3047630419403ba203b970524e0511b047a4047640419503ba403b980511605105047a5047650419603ba603b990524c050f1047a6047660419703ba803b9a050f2050de047a7047670419803baa03b9b0524a050c8047a8047680419903bac03b9c050c9050b5047a9047690419a03bae03b9d05248050a0047aa0476a0419b03bb003b7e0509b05089047ab0476b0419c03bb203b7f))
  (.nd (.lf
  0xef0b0ef080ef010ef000eefd0eef60eef50eef20eeeb0eeea0eee70eee00eedf0eedc0eed50eed40eed10eeca0eec90eec60eebe0eebd0eeba0eeb3081ea081e7081be081bd081ba0818d0818c081890815f0815e0815b08131081300812d0810208101080fe080d3080d2080cf080a6080a5080a20807608075080720804808047080440801a080190801607feb07fea07fe707fba07fb907fb607f8c07f8b)
  (.lf 0)))

def shaXorOrder64 : BTree :=
  .nd (.nd (.nd (.lf
  0xae400ae7f0b5110b46d0bc670bca80c4770c3f60cbb70cbf60d3120d4490dbfb0dbde0e41c0e2e90ec040eac50fb5e0fb9c1033d1028110bb6109df110fe10f4d118e71192411eec11e661268512610130a812ec7138ba13738143cf1432e149ec14934154661541a15c5f15b0a16636165b316fdc16f3b178571772f1815d17f931897d187c3192251901219b73199bd1a3f31a2771ab7c1aaa21b5951b39f)
  (.lf
  0xe63b0e6340e6330e6310e62a0e6230e6220e6200e6190e6120e6110e60f0e6080e6010e6000e5fe0e5f50e5f20ee560ee530ee520ee510ee4e0ee4d0ee4c0ee490ee480ee470ee440ee430ee420ee3f0ee3e0ee3d0ee3a0ee390ee380ee350ee340ee330ee300ee2f0ee2e0ee2b0ee2a0ee290ee260ee250ee240ee210ee200ee1f0ee1c0ee1b0ee1a0ee170ee160ee150ee120ee110ee100ee0d0ee0c0ee0b))
  (.nd (.lf
  0x1b84d1b7231b7251b7221b7201b7021b7071b7011b6ff1b6f21b68e1b68b1b68a1b6891b6901b6881b6861b6851b68c1b6841b6821b6811b6801b67e1b67d1b67c1b67b1b6791b6781b6771b6751b6731b6721b6711b6761b6701b66e1b66d1b66c1b66a1b6691b6681b6671b5ee1b5ed1b5ec1b5eb1b5e91b5e81b5e71b5e61b5e41b5e31b5e21b5e11b5df1b5de1b5dd1b5dc1b5da1b5d91b5d81b5d71b5d5)
  (.lf
  0x354802f4802f380450d044e603b5003b100354902f4a02f39044ed044c603b5103b110354a02f4c02f1a044cd044a703b5203b120354b02f4e02f1b044a20448303b5303b130354c02f5002f1c0448a0446403b5403b140354d02f520445f0444103b5503b150354e02f540443c0441d03b5603b160354f02f5604424043fe03b5703b170355002f58043f9043db03b5803b180355102f5a043d6043b803b59)))
  (.nd (.nd (.lf
  0x1f40d1f3f61f3f51f3fc1f3f31f3f01f3ef1f3ed1f10d1f10b1f1011f1001f0ff1f0e11f0df1f01e1f0181f0161efdc1efda1ef721fb1c1fb141fb0c1fb0b1fb0a1fb081fb061fafe1fafd1fafb1fae61facc1facb1fac91fac81fac01fae71fabf1fabd1fabc1fb3e1fabb1fab81fab61faa61faa41faa01fa9e1fa9d1fa9b1fa941fa901fa8f1fa8d1fa8a1fa871fa861fa841fa7b1fa7a1fb2c1fa791fa77)
  (.lf
  0x93af08b3c08574085280852309f10093b008b3d085760852909ee8093b108b3e085380852a09ebf093b208b3f0853a0852b09e96093b308b400853c0852c09e6d093b408b410853e0852d09e46093b508b42085400852e09e1e093b608b43085420852f09df7093b708b44085440853009dd1093b808b45085460853109da9093b908b46085480853209d82093ba08b470854a0853309d5c093bb08b480854c))
  (.nd (.lf
  0x607f06078060770607506070060680606706065060630605a0605906057060560605005f8b05f8905f8805f8705f8605f8405f8305f8205f8105f7f05f7e05f7d05f7c05f7a05f7905f7805f7705f7505f7405f7305f7205f7005f6f05f6e05f6d05f6b05f6a05f6905f6805f6605f6505f6405f6305f6105f6005f5f05f5e05f5c05f5b05f5a05f5905f5705f5605f5505f5405f5205f5105f5005f4f05f4d)
  (.lf 0)))

def shaXorOrder65 : BTree :=
  .nd (.nd (.nd (.lf
  0xe8900e6800e4800e2600e0300de200dc000d9d00d7a00d5900d3700d1600cf600cd600cb400c9300c7300c5100c3000c1000bee00bcd00bad00b8d0159501573015500152f0150d014ec014ca014a70148401463014430142301403013e3013c3013a10137e0135b0133801315012f4012d2012af0128c01269012480122801206011e3011c0018b4018b3018b2018b1018b0018af018ae018ad018ac018ab)
  (.lf
  0x1ba221b9281b78b1d1761d0611c2441c1621c15e1c15c1d1711d05b1c23f1c1641c15f1c15d1d16d1d0521c2371c1331c1321d1671d02f1c2311c0f01c0e91d1611d0541c22d1c0f21c0ea1d15d1d0261c2271c0f41c0eb1d1581d0431c21e1c1661c0ec1d1541d0161c21a1c1681c0ed1d14f1d0451c2121c16a1c0ee1d14a1d1131c20e1c16c1c0ef1d1451d10a1c2051c16e1c0941d13f1d0ee1c2021c135))
  (.nd (.lf
  0x111971119611195111931119211191111901118e1118d1118c1118b11189111881118711186111841118311182111811117f1117d110ec110ee110eb110e9110e7110e8110e6110e4110e3110ed110e2110e0110df110de110dc110db110da110d9110d7110d6110d5115c1115bd115c7115bc115b8115b5115b3115ae115ac115a8115af115a7115ca115a3115eb1159f1159b1159511593115911158e11589)
  (.lf
  0x18212181d313220131b8112451120110886105ab18b9d18ad318214181d51321b131ba1124711203107ee1059f18b9918ad518216181d613216131bc1124911205107e71059318b9318ad718218181d713211131be1124b11207107cf1058718b8d18ad91821a181d81320c131c01124d11209107c71057b18b8618adb1821c181d913207131c21124f1120b107b4106621965d1935b18ab818aa918a9e13b88)))
  (.nd (.nd (.lf
  0xa1ee0a1ed0a1ec0a1ea0a1e60a1e40a1de0a1dd0a1dc0a1da0a1d60a1d40a1ce0a1cd0a1cc0a1ca0a1c60a1c40a1c20a1bd0a1bc0a1ba0a1b50a7410a73f0a73e0a72b0a72a0a7280a7270a7150a7140a7120a7110a6ff0a6fe0a6fc0a6fb0a6e90a6e80a6e60a6e50a6d30a6d20a6d00a6cf0a6bd0a6bc0a6ba0a6b90a6a70a6a60a6a40a6a30a6910a6900a68e0a68d0a6800a67f0a67d0a67c0a6720a671)
  (.lf
  0x17fb2176af16f8516f8216f81190841904b17f8017f7e1769a16f2216f1f16f1e1907d1906517f8d17f8b1772916f1816f1016f0e190791906617fa817fa61766716f1416f1116f0f18ff918fea17f9f17f9d1765716fd516f1516f121910818f4e17f1a17f181762616fd616f1318f3b18f1717df817df61762116fbf16ee818f2118f1417dee17dec175f916f7116edc18f2718f1017de517de3175df16f62))
  (.nd (.lf
  0x1c4ce1c4cc1c4c91c4c81c4c71c4c51c4c21c4c31c4c11c4be1c4ea1c4bd1c4bb1c4b91c4b71c4b51ca4f1ca4c1ca4b1ca491ca461ca451ca441ca421ca3c1ca3f1ca3b1ca381ca371ca351ca331ca321ca2e1ca2d1ca2c1ca291ca271ca261ca231ca221ca201ca181ca171ca1b1ca161ca131ca1d1ca121ca101ca0e1ca0a1ca091ca081ca051ca031ca021ca001c9fd1c9fc1c9fa1c9f71c9f61c9f11c9f0)
  (.lf 0)))

def shaXorOrder66 : BTree :=
  .nd (.nd (.nd (.lf
  0x6cfb06cea06cd906cc806cb706ca606c9506c8406c7306c6206c5106c4006c2f06c1e06c0d06bfc09fed09fc509f9e09f7609f4d09f2609efe09ed509eac09e8309e5c09e3409e0d09de709dbf09d9809d7209d4a09d2309cfb09cd209cab09c8509c5f09c3709c0e09be709bbf09b9609b6d07180071750716a0715f07154071490713e07133071280711d0711207107070fc070f1070e6070db070d0070c5)
  (.lf
  0x66bd066bc066b9066b8069ae069ab069a00699f0699c0698f0698e0698b0697e0697d0697a0696d0696c069690695c0695b069580694b0694a069470693a0693906936069290692806925069180691706914069070690606903068f6068f5068f2068e5068e4068e1068d4068d3068d0068c3068c2068bf068b2068b1068ae068a1068a00689d068900688f0688c0687f0687e0687b0686e0686d0686a0685d))
  (.nd (.lf
  0x15c3015c2f15c2e15c2c15c2a15bcb15bca15bc815bc715bac15bab15ba915ba715b8215b8115b7f15b7e15b5e15b5d15b5b15b5a15b2515b2415b1f15b1e15b0b164f1164ef164ee164ed164ec164ea164e9164e8164e7164e5164e4164e3164e2164e0164df164de164dd164db164da164d9164d8164d6164d5164d4164d3164d1164d0164cf164ce164cc164cb164ca164c9164c7164c6164c5164c4164c2)
  (.lf
  0xbe8f09b1b08d9208d9008d8b08d7d104ff0bf4e0be9109b1c08d6e08d6c08d6508d59105010bf2b0be9309b1d08d4a08d4808d3f08d34105030bf0a0be9509b1e08d2508d2308d1908d0e113aa113330c7a50c66307ad206e0e06c8806c861139f113350c7820c66507ad306e1006c7706c7511394113370c75f0c66707ad406e1106c6606c6411389113390c73c0c66907ad506e1206c5506c531137e1133b)))
  (.nd (.nd (.lf
  0x142a7142a6142a41406414063140621406013fd113fcd13f3813f3613f2613f1b1429f13f1a13f1813e1113e1013e0e13e0913e0813e0713e0513e0013dff13dfe13df813df713df613df513df313def13dea13d8e13d8c13d8a13d79141d0141ca141c8141d6141c7141c4141bb141b9141b7141b6141b3141b2141b1141aa141a9141a814183141821418114177141761417b1417514172141711416f14161)
  (.lf
  0x19b6c192211ae3419cf319cf1193d6190461bbb21ab741ab721a3f419b711b87c1a55e1a55c19cf4199cc1dde21b5931b5911ab751a3fa1bf411ae2f1ae2d1a55f1a2851e2361bcf51bcf31b5941ab7b1dc031b8931b8911ae301aab01e4b11ddee1dddf1bcf61b59b1e1ee1bf3f1bf3d1b8861b3f31eb9b1e6031e5fc1dde01bcfb1e8951dc021dc001bf401bc9d1f3bc1e80d1e80b1e5ff1ddf01ef4c1e533))
  (.nd (.lf
  0x233b0233a02339023370233602335023340233202331023300232f0232d0232c0232b0232a02328023270232602325023230232202321023200231e0231d0231c0231b02319023180231702e8e02e8c02e8b02e7302e7202e7002e6f02e5302e5202e5002e4f02e3102e3002e2e02e2d02e1002e0f02e0d02e0c02df002def02ded02dec02dce02dcd02dcb02dca02dad02dac02daa02da902d8d02d8c02d8a)
  (.lf 0)))

def shaXorOrder67 : BTree :=
  .nd (.nd (.nd (.lf
  0xc2080c1510c14f0c14e0c12e0c12c0c12b0c0ab0c0a90c0a80c0880c0860c0850c0650c0630c0620bfe20bfe00bfdf0bfbf0bfbd0bfbc0bf5c0bf5a0bf590bf390bf370bf360bef60bef40bef30bed50bed30bed20ca070ca050ca040c9e90c9e70c9e60c89c0c89a0c8990c8790c8770c8760c8160c8140c8130c7b30c7b10c7b00c7900c78e0c78d0c76d0c76b0c76a0c74a0c7480c7470c7270c7250c724)
  (.lf
  0x15cdf17b8b16d7c163f215d2d15ce515ce017b8516d76163f315d2f15ce615ce117b8216de2163f415d3115ce717b7c16d31163f515cf615ce817b7916d17163f615cf815ce917b7316d07163f715cfa15cea17b6e16cf3163f815cfb15ceb17b6716ccc163f915cfc15cec17b6416b9e163ab15cfe15ced17b6016b8d1639815cff15cee17b5a16b851639915d0115cef17b4f16b071639a15d0315cf017ae2))
  (.nd (.lf
  0xc25c0c2480c2470c2450c23f0c22b0c22a0c2280c2230c20f0c20e0c20c0c2060c1f20c1f10c1ef0c1ea0c1d50c1d40c1d20c1ce0c1b50c1b40c1b20c1ae0c1950c1940c1920c18e0c1750c1740c1720c16e0c1550c1540c1520c14c0c1330c1320c1300c1290c1100c10f0c10d0c1080c0ef0c0ee0c0ec0c0e80c0cf0c0ce0c0cc0c0c80c0af0c0ae0c0ac0c0a60c08d0c08c0c08a0c0830c06a0c0690c067)
  (.lf 0))) (.nd (.nd (.lf
  0xcc000cbf00c9f00c9e00c9c00c9b00c7f00c7e00c7c00c7b00c6000c5f00c5d00c5c00c3c00c3b00c3900c3800c1c00c1b00c1900c1800bfd00bfc00bfa00bf900bd900bd800bd600bd500bb900bb800bb600bb500b9900b9800b9600b9500b8700f5a00f5800f5700f3700f3500f3400f1400f1200f1100ef900ef000eee00ed900ed000ece00eb900eb000eae00e9100e8f00e8e00e7600e6d00e6b00e56)
  (.lf
  0xdfc10d2090d1ff0caeb0c4470dfb90df9d0d43e0d43c0caec0c4310df940df710d20a0d2000caed0c41b0ebe00eb560dbfc0dbf30d2dd0cbe40cba40cb990eb520eaf50dbfe0dbf40d2de0cbe60cba50cb9a0eb4d0eaef0dbff0dbf50d2df0cbe80cba60cb9b0eb480eae90dbb00dbae0d2e00cbea0cba70cb9c0eb430eaeb0dba00db960d2e10cbec0cba80cb9d0eb260eab50dba10db970d2e20cbee0cba9))
  (.nd (.lf
  0x15f2415f1d160611605f1605e160571605616054160531604c1604b160491604816041160401603e1603d160361603516033160321602b1602a1602816027160201601f1601d1601c160151601416012160111600a16009160071600615fff15ffe15ffc15ffb15ff415ff315ff115ff015fe915fe815fe615fe515fde15fdd15fdb15fda15fd315fd215fd015fcf15fc815fc715fc515fc415fbd15fbc15fba)
  (.lf 0)))

def shaXorOrder68 : BTree :=
  .nd (.nd (.nd (.lf
  0xc1b10c1af0c1910c18f0c1710c16f0c10b0c1090c0eb0c0e90c0cb0c0c90c0420c0400c0220c0200c0020c0000bf9c0bf9a0bf7c0bf7a0bf160bf140ca220ca200c9cb0c9c90c9b00c9ae0c9950c9930c9790c9770c95b0c9590c93b0c9390c91b0c9190c8fb0c8f90c8db0c8d90c8bb0c8b90c8560c8540c8360c8340c7f30c7f10c7d30c7d10c7040c7020d1e00d1de0d10a0d1080d0cf0d0cd0d0770d075)
  (.lf
  0xb8f90b8df0b8de0b8db0b8c10b8c00b8bd0b8a30b8a20b89f0b8870b8860b8830b86c0b86b0b8680b84f0b84e0b84b0b8330b8320b82f0b8160b8150b8120b7f90b7f80b7f50b7dd0b7dc0b7d90b7c20b7c10b7be0b7a50b7a40b7a10b7890b7880b7850b76c0b76b0b7680b7500b74f0b74c0b7330b7320b72f0b7130b7120b70f0b6f30b6f20b6ef0b6d50749f0749c0749b0749a07497074960749507492))
  (.nd (.lf
  0x18a5a18a5918a5818a5518a5418a5318a5218a5018a4f18a4e18a9218a4d18a4b18a4a18a5618a4918a4718a4618a4518a4318a4218a4018a4118a3f18a3d18a3c18a9118a3b18a3918a3818a371897c1897a18979189781897618975189741897318971189701896f1897b1896e1896c1895818959189521895018932189311892f1892e1890b1890c1890a18908188e2188e1188df188de188db188dd188da)
  (.lf
  0x7c9507c9307c8707c7c1051c105000b7100b6c3069ce067c9067c710511105020b6f00b6c5069cf067b8067b60bee80be9709b1f08cff08cfd08cf108ce40bec70be9909b2008cd508cd308cc408cbb1135d113410c6ba0c67106e1606c1106c0f11352113430c69d0c67306e1706c0006bfe0ce9a0ce390a93009bb209bb009ba609b980ce740ce3b0a93109b8909b8709b7d09b6f1219c121800d6800d62a)))
  (.nd (.nd (.lf
  0x199c2199c1199bf199be199b1199b0199ae19949199481995419947199451993f199951993e1993c1993b19b021993a199381990d1990c1990419901198ed198ec198ea198e4198db198da198d8198d1198c9198c8198c6198c5198bf198be198b8198b6198b5198b4198ad198ac198731987219870197fc197f4197c4197c3197c1197c0197bf197bd197b8197b3197b2197b0197af197ae197ad197a7197a6)
  (.lf
  0x1e3001de501de001b9901b9702a0c023f301e3201de601de101b7f01b7b02a0d023f401e3401de701b6501b6102a0e023f501df601de801b4801b4602a0f023f601df801de901b2b01b2902a10023f701dfa01dea01b1101b0d02a11023f801dfc01deb01af401af202a12023f901dfe01dec01ad701ad502a13023fa01e0001ded01abd01ab902a14023fb01e0201dee01aa001a9e02a15023fc01e0401def))
  (.nd (.lf
  0x426e0426d0426c0426a04269042680426704265042640426304262042600425f0425e0425d0425b0425a04259042580425604255042540425304251042500424f0424e0424c0424b0424a04249042470424604245042440424204241042400423f0423d0423c0423b0423a04238042370423604235042330423204231042300422e0422d0422c0422b04229042280422704226042240422304222042210421f)
  (.lf 0)))

def shaXorOrder69 : BTree :=
  .nd (.nd (.nd (.lf
  0x20079200762006a2005b20058200541ffd61ffd51ffdd1ffbf1ffbd1fe601fe5e1fe571fe031fe011fdff1fe051fdfd1fdfb1fda01fd9e1fd9c1fd631fd5b1fd581fcde1fcdc1fcd71fcf71fc8d1fc8b2094520943209402094b2093e20930207ed207eb207e2207e1207df207dd207db207d8207d7207ce207cd207cb207c9207c6207c5207e7207c3207c0207ef207bf207bd207f2207bb207b82079720791)
  (.lf
  0x1be411bd2e1dfe21d9df1cbd61ca671bdf71bbe31dfd21d9701cbd01ca741bdea1bbe41dfd71d9681ca771ca591be161bbe91dfc11d9601c9d31c9cc1bdcc1bbc91de0f1d9571c9c81c9a91bdce1bbce1ddab1d97e1c9c51c9981bdaf1bbbe1dd681d9231ca531c9821be2f1bdb71dcef1d8f71c97f1c9731bd9e1dcbb1d8c81c9761c9631bda01dc5a1d8d41c95a1c9521bd8a1e8fa1e1c71dd951dd931dd8e))
  (.nd (.lf
  0xe7fe0e7f90e7f80e7f30e7f20e7ed0e7ec0e7e70e7e60e7e00e7df0e7da0e7d90e7d40e7d30e7ce0e7cd0e7c80e7c70e7c20e7c10e7bc0e7bb0e7b60e7b50e7b00e7af0e7aa0e7a90e7a40e7a30e79e0e79d0e7980e7970e7920e7910e78c0e78b0e64d0e6400e63e0e62f0e62d0e61e0e61d0e60d0e60c0e5fb0e5f80ea080ea060ea050ea040ea030ea010ea000e9ff0e9fe0e9fd0e9fb0e9fa0e9f90e9f7)
  (.lf
  0x13bc2132fe132e40ee1d0ed990c6620c6490b8f00b8e213cb013bc413300132e50ee180ed9b0c6640c6200b8d20b8c413ca513bc613302132c30ee130ed9d0c6660c6220b8b40b8a613c9a13bc813304132c50ee0e0ed9f0c6680c6240b8960b88a13c8f13bca13306132c70ee090eda10c66a0c6260b87a0b86f13c8413bcc13308132c90ee040eda30c66c0c6280b85f0b85213c7913bce1330a132ca0edff)))
  (.nd (.nd (.lf
  0x4c8704c8604c6a04c6904c6704c6604c4a04c4904c4704c4604c2a04c2904c2704c2604c0b04c0a04c0804c0704be804be704be504be404bc404bc304bc104bc004ba404ba304ba104ba004b8404b8304b8104b8004b6504b6404b6204b6104b4204b4104b3f04b3e04b1f04b1e04b1c04b1b04afc04afb04af904af804ad904ad804ad604ad504ab504ab404ab204ab104a9604a9504a9304a9204a7304a72)
  (.lf
  0x1392413654125231252111daf118f0118e41391013640124ff124fb11db6118f2118e51390c1362a12500124fc11d88118f4118ca138fb13623124ef124ed11d7a118f6118cb138ee135bb124e4124e011d6c118f8118cc138e5135ca124e5124e111d5711933138e1135a7124d6124d411d4c118fa138dd13581124ca124c811d4d118fc138da1356f124681246611d4e11d0013553135441243c1243a11d26))
  (.nd (.lf
  0x19e0e19e0a19e0919e0819e0519e0319e0219dfe19dfd19dfb19df819df719e5619df619df319df219ded19deb19dea19de819de619def19de419de119de019ddd19ddb19dda19cc519cc319cc219cbf19cbd19cbc19cba19cb819cb619c9d19c9b19c9c19c9a19c9819c9619c9319c9219c9119c8f19c8c19c8a19c8719c8619c8519c8319c7f19f3819f3519f3319f3219f3119f2f19f2e19f2c19f2b19f29)
  (.lf 0)))

def shaXorOrder70 : BTree :=
  .nd (.nd (.nd (.lf
  0x1ab541a5591b58f1ae2c1bbb11b8851dddd1bf3c1e1b11dbfd1e6db1e5241ed5d1e89f1f3bb1ef691f9661f560200981fc0c20a3e2050f20e81208df008190081b0081d0081f00821008230082500827008290082b0082d0082f00831008330083500837008390083b0083d0083f00841008430084500847008490084b0084d0084f008510085300a4900a4b00a4d00a4f00a5100a5300a5500a5700a5900a5b)
  (.lf
  0x72b90202c07452073ea072fa072bb020090744d073ec072fc072bd01fe507448073ee072fe072be01fc507443073f007300072bf01fa50743e073f207302072c001f8507439073f407304072c101f6607434073f60730601f420742f073f80730801f220742a073fa0730a01f0307425073fc0730c01edf07420073fe0730e01ec00741b074000731001e9d07416074020731201e79079c706e520f54d0a96c))
  (.nd (.lf
  0x13a7913a7813a7713a7513a7313a7213a7413a7113a6f13a6e13a9d13a6d13a6b13a6a13a6913a6713a6613a6513a6413a6213a6113a6013a5f13a5d13a5a13a5913a5b13a5813a5613a5513a5c13a5413a5213a5113a5013a4e13a4d13a4c13a4b13a4913a4713a4613a4513a4313a4213a4113a4013a3e13a3d13a3c13a4a13a3b13a3913a3813a3713a3513a3413a3213a3313a3113a2f13a2e13a2d13a2b)
  (.lf
  0x1c5a617e3717d3e1554f1550b14fe814ee71c9bb1c9381c5ea1c5a717e3117d40155511550d14fe214f5c1cdc31cc461c9151c9061c8fb1849e183b715dfa15dec15dea158ab1579b1cdbe1cc481c9171c9071c8fc1849a183b915dfc15ded15deb158a8157a61cdb61cc671c9191c9081c8fd18492183bb15dfe15dee158a1157ab1cdad1cc691c91b1c9091c8fe1848d183bd15e0015def1589e157981cdaa)))
  (.nd (.nd (.lf
  0xeb290eb270eb250eb240eb220eb200eb1f0eb1d0eb1c0ea880ea860ea840ea830ea810ea7f0ea7e0ea7c0ea7a0ea790ea770ea750ea740ea720ea700ea6f0ea6d0ea6b0ea6a0ea680ea670e9a60e9a40e9a30e9950e9930e9920e97f0e97d0e97c0e9680e9660e9650e9420e9400e93e0e93d0e93b0e93a0e9170e9150e9140e9050e9030e9020e8d00e8ce0e8cd0e8510e84f0e84d0e84c0e84a0e8480e847)
  (.lf
  0x1dd701d9191bcd11e95f1e9191dcf41dceb1d91a1bcc21e9151e8c51dcb41dcb21d8eb1bcb41e8bf1e8a51dc4d1dc4b1d8e31bd171f58c1f3941e7fd1e7f81e6341ddcf1ddcc1ddcb1f5811f38f1e7cf1e7cd1e5e11dd561dd531dd391f5751f3b21e7d71e7d51e6091dd1e1dd181dd101f5151f2b11e7f21e7c11e5a91dc9d1dc761dc731f4fd1f2a81e7f01e7b31e59e1dc2b1dc221dc201f4e81f2a41e79b))
  (.nd (.lf
  0x44800441004400043e00437004300042f0042d004260041f0041e0041c004150040e0040d0040b00406003ff003fe003fc003f8003f1003f0003ee003e8003e1003e0003de003dc003d5003d4003d2003d1003ca003c9003c7003c6003c3008ec008ea008e9008e8008e7008e5008e4008e3008e2008e0008df008de008dd008db008da008d9008d8008d6008d5008d4008d3008d1008d0008cf008ce008cc)
  (.lf 0)))

def shaXorOrder71 : BTree :=
  .nd (.nd (.nd (.lf
  0x8e8a08e6808e4408e1f08dfa08dd708db308d8f08d6a08d4608d1e08cf708cce096600966109618096150961609617096140960e0961c0961a097bd0961b097bc0961f096190963b0963a096240963c096350965e0967809663097400973c0973d0973f0973e0967a0967409fff09fd909fb009f8909f6409f3c09f1509ee909ec009e9709e6e09e4709e1f09df809dd409daa09d8309d5d09d3809d1209ce6)
  (.lf
  0xea1d0e4d40e12d107c60fbdf0e9530e4d60e108107b50fbe00e9540e4d80e0e41071e0fbe10e9230e4da0e0c2107190fbe20e9240e4dc0e0a0107000fbe30e8f50e4de0e07c106fd0fbe40e8c00e4e00e059106f20fbe50e8c10e4e20e035106dd0fbe60e8c20e4e40e4a5106c30fbe70e8c30e4e6106bd0f90c0e8c40e4e8106a10f8eb0e8c50e4ea1003e0fbe90f30e0ec940ec4c0ec471003f0fbea0f30b))
  (.nd (.lf
  0x9dec09dcd09dcc09dca09dc409da509da409da209d9d09d7e09d7d09d7b09d7709d5809d5709d5509d4f09d3009d2f09d2d09d2809d0909d0809d0609d0009ce109ce009cde09cd709cb809cb709cb509cb009c9109c9009c8e09c8a09c6b09c6a09c6809c6409c4509c4409c4209c3c09c1d09c1c09c1a09c1309bf409bf309bf109bec09bcd09bcc09bca09bc409ba509ba409ba209b9b09b7c09b7b09b79)
  (.lf 0))) (.nd (.nd (.lf
  0x1f24c1f24b1f22f1f2261f21f1f2211f21e1f21c1f2151f2141f2121f2111f2101f20f1f20d1f20c1f20b1f20a1f2081f2071f2051f2041f2021f2011f1ff1f1fe1f1fc1f1fb1f1f91f1f81f1f61f1f51f1c01f1c21f1be1f1bc1f1a61f1a81f1a51f1a31f12a1f1281f1271f1251f1241f1291f1231f1211f1201f11f1f0cc1f0cb1f0ca1f0c91f0c71f0c61f0c41f0c31f0c11f0c01f0bf1f0be1f0bc1f0bb)
  (.lf
  0x84290a2510a1ac0924d09235089690847c084350842a0a24c0a1ab0924e092360896a0847e084360842b0a2480a1aa0924f092370896b08440084370842c0a2430a1a909250092380896c08442084380842d0a23c0a1a809251092390896d08444084390a2380a1a7092520923a0896e084460843a0a2320a1a6092530923b0896f084480843b0a22d0a1a5092540923c089700844a0843c0a2250a1a409255))
  (.nd (.lf
  0x12247122401223f1223d1223c122351223412232122311222a1222912227122261221f1221e1221c1221b1221412213122111221012209122081220612205121fe121fd121fb121fa121f3121f2121f0121ef121e8121e7121e5121e4121dd121dc121da121d9121d2121d1121cf121ce121c7121c6121c4121c3121bc121bb121b9121b7121b0121af121ad121ac121a5121a4121a2121a11219a1219912197)
  (.lf 0)))

def shaXorOrder72 : BTree :=
  .nd (.nd (.nd (.lf
  0x1eac21e99c1f3961f3921f3911f38e1f38d1f38b1f2a21f2a01f29f1f29d1f28c1f28a1f2861f2821f2811f27e1f26c1f26a1f1c51f1c31f1ab1f1a91f1821f1801f15b1f1591f1581f1561f14e1f14c1f13f1f13d1f13c1f1391f0d71f0d41f9621f95f1f95e1f95a1f9551f9441f9431f9381f9361f9341f9331f9311f9271f9231f9071f9052008d2008b20086200802007f2007c2007520072200712006e)
  (.lf
  0x770c0770b077080770707706077030770207701076fe076fd076fc076f9076f8076f7076f4076f3076f2076ef076ee076ed076ea076e90d1eb0d1e90d1d90d1d20d1d10d1cf0d1bb0d1b40d1b30d1b10d19c0d1950d1940d1920d17d0d1760d1750d1730d15e0d1570d1560d1540d13f0d1380d1370d1350d1200d1190d1180d1160d1030d0fc0d0fb0d0f90d0e50d0de0d0dd0d0db0d0c80d0c10d0c00d0be))
  (.nd (.lf
  0x1a39f1a39e1a39d1a39b1a39a1a3991a3981a3961a3861a3851a3a51a3841a3821a34a1a8e41a8e01a8df1a8da1ab1a1a8d91a8d71a8d21a8ce1a8cb1a8c91a8c41a8c31a8be1a8bd1a8b81a8b71a8b11a8e81a8b01a8ac1a8a91a8a71a8a21a8a11a8991a8981a8931a8921a88a1a89c1a8891a8851a8821a8801a87c1a87b1a8771a8761a8721a8711a86d1a86b1a8491a84b1a8481a9171a8441a84e1a840)
  (.lf
  0x10710256e0255001c5501c1501632010730254b0252d01c5601c160163301075025280250a01c5701c17016340107702505024e701c5801c180163501079024e2024c301c5901c19016360107b024ca024a301c5a01c1a016370107d024aa0248301c5b01c1b016380107f0248a0247401c5c01c1c016390108102e7f02e5a022770223701c5f01689016490163e02e6102e3b022780223801c600168b0164a)))
  (.nd (.nd (.lf
  0x1dd261dd241dd071dd0f1dccf1dccd1dca41dc9a1dc981dc711dc311dc301dc2e1dc1b1dc131dc121dc101dbd81dbc81dbb91dbab1dba71db891db881db861db7b1db651db6a1db641db5c1db2f1db351db2e1db2c1db231db221db191db091daf11daf01daee1dae81dad31dad21dad01daca1dab31daaf1daad1daaa1da991da9b1da981da961da821da811da7f1da691da5c1da581da551da491da3b1da3e)
  (.lf
  0x432c0431803f8904f350491d0432e0431903f6a04f360491e043300431a03f4704f370491f043320431b03f2304f3804920043340431c03f0404f3904921043360431d03ee004f3a04922043380431e03ec104f3b049230433a0431f03e9e04f3c049240433c0430003e7a04f3d049250433e0430103e5b04f3e04926043400430203e3804f3f04927043420430303e1404f4004928043440430403df404f41))
  (.nd (.lf
  0x559b0558e0558d0558b0558a0557d0557c0557a055790556c0556b05569055680555b0555a05558055570554f0411404112040f7040f4040d5040d2040b4040b10409404091040720406f040510404e0402f0402c0400e0400b03fee03feb03fce03fcb03fae03fab03f8e03f8b03f6c03f6903f4903f4603f2803f2503f0603f0303ee503ee203ec303ec003ea003e9d03e7f03e7c03e5d03e5a03e3a03e37)
  (.lf 0)))

def shaXorOrder73 : BTree :=
  .nd (.nd (.nd (.lf
  0xec670ec690ec6b0ec6d0ec6f0ec710ec730ec750ec770ec790ec7b0ec7d0ec7f0ec810ec830ec850ec870ec890ec8b0ec8d0ec8f0ec910ec930ec950ec970ec990ec9b0ec9d0fc490fc4b0fc4d0fc4f0fc510fc530fc550fc570fc590fc5b0fc5d0fc5f0fc610fc630fc650fc670fc690fc6b0fc6d0fc6f0fc710fc730fc750fc770fc790fc7b0fc7d0fc7f0fc810fc83100991009b1009d1009f100a1100a3)
  (.lf
  0x2078c013d0013aa00a15007e52076520750013a50138700a16007e62076220745013820136400a17007e7207582063b0135f0134100a18007e82062f2061d0133c0131e00a19007e9206192061101319012fa00a1a007ea206162061001301012db00a1b007eb205fb205f3012d6012b800a1c007ec205ee205e4012b30129500a1d007ed205dd205b8012900127200a1e007ee205be2059b0126d0124e00a1f))
  (.nd (.lf
  0x102d0102aa102a9102a7102a01029f1029e1029c1029b1029410293101f31017510174101731016f1016e1016c101701016b1016510164101671016310161101601015f1015d1015c1015a1016910159101571015610155101501014f1014e1014d1014b1014a101481015310147101451014410143101410ff960ff940ff930ff910ff900ff8e101f50ff8d0ff8b0ff8a0ff890ff870ff860ff840ff830ff81)
  (.lf
  0xe1ac0df5e16890167ae15ee715ed515eca0f4940f31d0ed9c0ed8b0e1a40df8916889167b015ee915ed615ecb0f4890f31f0ed9e0ed8c0e1a10df5f16886167b215eeb15ed715ecc0f47e0f3210eda00ed8d0e19b0df881687d167b415eed15ed815ecd0f4730f3230eda20ed8e0e1950df6016878167b615eef15ed915ece0f4680f3250eda40ed8f0e1920df8716874167b815ef115eda15ecf0f45d0f327)))
  (.nd (.nd (.lf
  0x83b1083b0083ae083ad083ac083b7083ab083a9083a8083a7083a5083a4083a3083a2083a00839e0839d0839c0839a08399083960839808395083930839208397083910838f0838e0838d0838b0838a083890839f083880838608385083840838208381083800837f0837d0837c0837b0837a0837808375083740837308371083700836f083760836e0836c0836b083770836a0836808367083660836408363)
  (.lf
  0x14312163a7162421539f1539d14914143d3143041638f1622d1538f1538d148fc143e7143051638b162211538715385148f4143be14306163861621b1537c1537a148ed143a8142e81637f162151537315371148e31438f142d816374161f91536b15369148d014368142de16371161ed1535f1535d148d61436a142d016361161e41535715355148c51436c142ce1635d161d91534a15348148b31433b142cf))
  (.nd (.lf
  0x1b8151b8141b8131b8111b80f1b80e1b80d1b80b1b80a1b8081b8071b8051b7891b7801b77f1b77b1b77a1b7701b7721b76f1b76d1b7651b7631b7611b75f1b7561b7581b7551b7531b74d1b74c1b7491b7471b73c1b73e1b73b1b7391b72f1b7311b72e1b72c1b71d1b71a1b7181b7161b7051b7041b6fb1b6fa1b6f71b28f1b28d1b28b1b28a1b2871b2861b2851b2821b2811b2801b27d1b27c1b27b1b278)
  (.lf 0)))

def shaXorOrder74 : BTree :=
  .nd (.nd (.nd (.lf
  0x10285102841033710329103361032c102d3102c8102d21027a102831032e103351033110333102cb102d1102cf102821027e10bb810bb710ba610ba810b3410a9110a3e10a3d109f8109e3109e2109d710baa10bac10bae10b3810a9a10a3c10a3b109f2109e110bb510bb410bb210b3710a9810a3a10a39109f1109e011087111031108c11051110401100210fca10fba10f8c10f7310f4b10ed8111051108e)
  (.lf
  0x1cd691da631ce461cd5a1da371ce471cd5e1da161ce491cd411d9f81cde21cd361d9e41cde41cd291d9cb1cde61cd1e1e22d1d1091d1071d1051e2291d1061d0ed1d0eb1e2241d0ef1d0ec1e21f1d0da1d0d91e1df1d0991d0911e15d1d09b1d0921e1471d10b1d0931e1441d10d1d0941e1251d10f1d0951e1221d1111d0961e1121d0f11d0971e10e1d0f31d0981e10a1d0dc1d08f1e1051d09d1d0601e0ed))
  (.nd (.lf
  0x15091150901508f1508d1508b150881508715085150841505b1505a150581505715056150551505315051150501504f1504d150401503e1503615034150331502c1502b1502a1502815024150231502115020150141501315011150101500f1500e1500c1500b1500a150091500715006150051500415002150011500014fff14ffd14ffb14fc914fc814fc714fc514fc414fc314fc114fc014fbf14fbe14fbc)
  (.lf
  0x1d4371d42c1a82c1a74c17d3f17d2717b6917b471d6991d5fa1d4521d4381a8291a70917e9b17d4117d2817b631d6931d5fc1d4541d4391a8231a81817d4317cff17b5f17aff1d68d1d5fe1d4561d4171a81e1a70b17d4517d0117ba317b5b1d6851d6001d4581d4191a81a1a79417d4717d0317b5717b481d6821d6021d45a1d41b1a78f1a70d17d4917d0517b5017b4b1d67d1d6041d45c1d41d1a78b1a74e)))
  (.nd (.nd (.lf
  0x1156e1156c114fc114fb114f6114ef114e0114df114dd114db114c4117f4117f2117f0117ef117e3117e0117df117cf117cd117cb117c8117c7117c6117c4117c2117c1117bf117be117bc117ba117b9117b7117b5117b3117ce117b2117af117ae117a9117a7117fd117a6117a41171b11719117181171611714116fa116f2116f0116ef116e7116e5116e4116e1116de116dc116d5116d3116d1116aa116a8)
  (.lf
  0xfb9009a6007b6007960078c208e20188f0101800fd8009c5007d5007b50078b20f9d20dbd00f9a006f7003210031a002ec002e7002dc0024720f9720dc600f9b006f8003220031b002ed002e8002d70024620f9120da600f9c006f9003230031c002ee002e9002d20024520f8c20da800f9d006fa003240031d002ef002ea002cd0024420f8920d9900f9e006fb003250031e002f0002eb002c80024320f82))
  (.nd (.lf
  0x18680186701866018640186301862018610185f0185e0185d0185c0185a01859018580185701855018540185301852018500184f0184e0184d0184b0184a01849018480184601845018440184301841018400183f0183e0183c0183b0183a01839018370183601835018340183201831018300182f0182d0182c0182b0182a01828018270182601825018230182201821018200181e0181d0181c0181b01819)
  (.lf 0)))

def shaXorOrder75 : BTree :=
  .nd (.nd (.nd (.lf
  0x1a9a81a9251a9371a85f1a7ee1a7f81a7c71a7a21a5861b4e41b4d71b4b01b5241b46c1b3da1b3e01b3e91b37b1b3551b34d1b3431b3071b2c11b2c31b2b01b1f11b1eb1b1e71b1fa1b1b71b0491afde1afd51afac1af8a1af681af411af221aef61bbaf1bba61bbb41bb9c1bb941bb8e1bb881bb801bb771bb811bb791bb821bb781bb5b1bb581bb4f1bb471bb431bb3f1bb381bb321bb2d1bb261bbb61bb1d)
  (.lf
  0x128bc120521204113f7e12e94128a1120541204213f7712e50128a2120561204313f7212e241288a120571204413f6b12dda1288b120591204513f6812dc61288c1205b1204613f6012dad1288d1205d1204713f5b12d98128c01205f1204813f5712d831288e1208a1204913f5012d471288f1206111c0813f4c12d22128901206311c0213f4612d02128911206511c0313f3c12ce6128921206711c0413f39))
  (.nd (.lf
  0xa69e0a68c0b22d0b22b0b22a0b21f0b21e0b21c0b21b0b20e0b20d0b20b0b20a0b1fd0b1fc0b1fa0b1f90b1ee0b1ed0b1eb0b1ea0b1de0b1dd0b1db0b1da0b1cd0b1cc0b1ca0b1c90b1be0b1bd0b1bb0b1ba0b1ae0b1ad0b1ab0b1aa0b19d0b19c0b19a0b1990b18c0b18b0b1890b1880b17b0b17a0b1780b1770b16a0b1690b1670b1660b15b0b15a0b1580b1570b14d0b14c0b14a0b1490b13d0b13c0b13a)
  (.lf 0))) (.nd (.nd (.lf
  0x1fb6f1fb6e1fb6d1fb6c1fb6a1fb691fb681fb671fb661fb641fb631fb621fb601fb5e1fb5d1fb5f1fb5c1fb5a1fb591fb581fb561fb551fb54203531fb531fb511fb501fb4f1fb4d1fb4c1fb4b1fb4a1fb461fb441fae51fae41fae21fae11fae01fadf1fadd1fadc1fadb20267202642026220261202602025d2025b2025a202592025720256202552025420252202502024f2024e2024c2024b2024820249)
  (.lf
  0xb49b0ae0f0a70a0a7050a7040c2840c2140b4ac0b4aa0ae100a6f40a6ef0a6ee0c27f0c1f70b4780b4760ae110a6de0a6d90a6d80c1da0c1bf0b4450b43b0ae120a6c80a6c30a6c20c1ba0c19f0b4460b43c0ae130a6b20a6ad0a6ac0c19a0c17f0b4470b43d0ae140a69c0a6970a6960c17a0c15f0b4480b43e0ae150a6890a6860a6850c15a0c13d0b4490b43f0ae160a6790a6780a6770c1380c11a0b421))
  (.nd (.lf
  0x13b3013b2d13b2c13b2b13b2813b2713b2613b2313b2213b2113b1e13b1d13b1c13b1913b1813b1713b1413b1313b1213b0f13b0e13b0d13b0a13b0913b0813b0513b0413b0313b0013aff13afe13afb13afa13af913af613af51460a146071460114600145fd145f6145f5145f2145eb145ea145e7145e0145df145dc145d5145d4145d1145ca145c9145c6145bf145be145bb145b4145b3145b0145a9145a8)
  (.lf 0)))

def shaXorOrder76 : BTree :=
  .nd (.nd (.nd (.lf
  0x1ae751ae701ae691ae631ae5d1ae791aed81aed91ae481ae6a1ae3c1aeee1b7fe1b8021b7f31b8041b7ea1b7e31b7de1b7d91b7d31b7cc1b7c61b8cb1b7c01b7b81b7bf1b7a91b7be1b79d1b7981b7921b7881b7791b7711b7621b7571b7461b73d1b7301b7191b6f91c1541c1521c12b1c0bc1c0b71c0af1c0aa1c0a31c0831c0801c0731c0671c05b1c0501c0441c0411c02f1bfb21bfac1bfa61bf9f1bfb5)
  (.lf
  0x9ed609ecf09ece09ecc09ead09ea609ea509ea309e8409e7d09e7c09e7a09e5d09e5609e5509e5309e3509e2e09e2d09e2b09e0e09e0709e0609e0409de809de109de009dde09dc009db909db809db609d9909d9209d9109d8f09d7309d6c09d6b09d6909d4b09d4409d4309d4109d2409d1d09d1c09d1a09cfc09cf509cf409cf209cd309ccc09ccb09cc909cac09ca509ca409ca209c8609c7f09c7e09c7c))
  (.nd (.lf
  0x17b5417abf17aec17abb17ae917ab717ab317aaf17a9517a08179fd179fa179ec179e4179e7179e3179c0179be179b5179b0179c4179af17ed917ed717ed617ed517ed417ed217ed117ed017ece17ecd17ecb17eca17ec917ec717ec617ec517ec417ec217ec117ec017ebf17ebd17ebc17ebb17eba17eb817eb717eb617eb517eb317eb217eb117eb017ead17eaa17ea917ea817ea617ea517ea417eaf17ea3)
  (.lf
  0x19c7b14ca614c8b0ff530fd410f4c81a5aa1a54c19c7d14ca114c8d0ff4f0fcee0f4c91ae611ae0d1a5451557e1554012753123a4123231ae5e1ae0f1a5471557915542127551239d123241ae561ae111a54915574155441275612397122f71ae531ae131a54b1556f15546127571243e123911ae4c1ae151a54d1556a15548127581238d121b81ae491ae171a54f155651554a127591236f122fb1ae431ae19)))
  (.nd (.nd (.lf
  0x16ed316ed216ecc16ecb16ec016ebe16ebd16ebc16eba16eb916eb816eb716ea916ea816ea716ea616ea416e9f16e9e16eb016e9d16e9b16e9a16e9916e9716e9216e9116e9016e8e16e8d16e8816e8716e85169e4169e3169e2169e0169df169de169dd169db169da169d916a19169d8169d6169d5169d4169ca169c816989169881697f1697e168f5168f4168ec168eb168d4168d1168d0168c6167ef16dca)
  (.lf
  0x9fe909b0a079610787a077a7077970778c040f6040d609fc109b0c0795c07899077a9077980778d040d1040b209f9a09b0e079570789b077ab077990778e040b30409209f7209b10079520789d077ad0779a0778f040930407309f4909b120794d0789f077af0779b077900406e0404f09f2209b1407948078a1077b10779c07791040500403009efa09b1607943078a3077b30779d077920402b0400c09ed1))
  (.nd (.lf
  0x1fe701fe401fc701fc401fa701fa401f8701f8401f6501f6201f4401f4101f2401f2101f0201eff01ee101ede01ebf01ebc01e9c01e9901e7b01e7801e5901e5603aee03aec03ad703ad003acf03acd03ab603aaf03aae03aac03a9403a8d03a8c03a8a03a7103a6a03a6903a6703a5003a4903a4803a4603a3003a2903a2803a2603a1003a0903a0803a06039f0039e9039e8039e6039d0039c9039c8039c6)
  (.lf 0)))

def shaXorOrder77 : BTree :=
  .nd (.nd (.nd (.lf
  0x5bef05bed05bec05bde05bdc05bdb05b6805b6605b6405b5605b5405b5205b3505b3305b3205b1605b1405b1305ae905ae705ae60874a08748087470873908737087360871a0871808717087090870708706086f8086f6086f5086e7086e5086e4086d6086d4086d3086b7086b5086b4086a6086a4086a30869508693086920868408682086810867308671086700864608644086430860b0860908608085fa)
  (.lf
  0x1a36c19a4d191501914b1914a1b4c11b1111a38a19a4e190cd190b4190b21b4901b10a1a30619a23190cf190b5190b31b4551b1031a37a199fa19137190e2190df1b4521b1001a2f4199f3190d1190b61b3c71b0fa1a258199ea1910d190da1b3c31b0da1a25e199eb190ba190b71b3b41b0cf1a233199ec190bb190b81b0ec1b0d81a24319990190bc190b91b0e71b0d11a200199a019019190181b0e01b0c2))
  (.nd (.lf
  0xcc390cc380cc370cc350cc340cc330cc320cc300cc2f0cc2e0cc2d0cc2b0cc2a0cc290cc280cc260cc250cc240cc230cc210cc200cc1f0cc1e0cc1c0cc1b0cc1a0cc190cc170cc160cc150cc140cc120cc110cc100cc0f0cc0d0cc0c0cc0b0cc0a0cc080cc070cc060cc050cc030cc020cc010cc000cbfe0cbfd0cbfc0cbfb0cbf90cbf80cbf70d5d70d5d50d5d40d5d30d5d20d5d00d5cf0d5ce0d5cd0d5cb)
  (.lf
  0xc7c70c66107ad107aa306e5006e0c06c9906c971130e112ff112f40d1ed0cdeb0a9420a9340a9320a0030a00109ff909fef1131011300112f50d1d40cded0a9440a9350a93309fe009fde09fd409fc71131211301112f60d1b60cdef0a9460a93609fb809fb609fac09fa01131411302112f70d1970cdf10a9480a93709f9109f8f09f8509f781131611303112f80d1780cdf30a94a0a93809f6909f6709f5d)))
  (.nd (.nd (.lf
  0x2cac02cab02ca902ca802c8902c8802c8602c8502c6502c6402c6202c6102c4502c4402c4202c4102c2502c2402c2202c2102c0502c0402c0202c0102be502be402be202be102bc602bc502bc302bc202ba202ba102b9f02b9e02b8302b8202b8002b7f02b5f02b5e02b5c02b5b02b4002b3f02b3d02b3c02b1c02b1b02b1902b1802afc02afb02af902af802ae002adf02add02adc02ac202ac102abf02abe)
  (.lf
  0x10d040fdc90fdc70fb360eac310cfd10cdc0fdb00fdae0fb370ebfb10cd310cb70fd950fd930fb380ebdd10cb010c9b0fd7b0fd790fb390eb7210c9610c7b0fd610fd5f0fb3a0eb7310c8a10b680fd4a0fd480fb3b0eb7410b5f10b160fcf70fcf50fb3c0eb7510b1210aef0fce20fce00f90a0eb7610b0d10ae40fcb00fcac0f8e70eb77117f11179310b9910b93103180fb8a0fb4b0fb40117e11179510b9a))
  (.nd (.lf
  0x17467174661746417462174601745e1745d1745b1745917458174561745317452174511744f1744d1744c174491744817463174471744417443174401743f1743e1743b1743a1743917436174351743417431174301742f1742d1742c1742a1742817426174251742317421174201741e1741d1741b1741817417174161741117410174131740f1740d173f3173f0173ee173d4173d1173cf173b5173b3173b2)
  (.lf 0)))

def shaXorOrder78 : BTree :=
  .nd (.nd (.nd (.lf
  0x1158a1159711581115ce115601155811553115501154f115411155b11536115d11152c11526115ee115171150e114b0114ab11a4b11a5111a4011a3b11a3111a2c11a2511a2011a3311a1611a1011a0811a0211a0a119f7119f211a54119e6119e0119d9119e111a53119ca119cb119be11abd119bd11a8b119ac11a5f1241c1241612411124231240612401123f9123fc125c5123ea123e3123dd123d712539)
  (.lf
  0x7c06068c00678b00125000c907c4707c08068af0678d00120000c807c4907c0a0689e0678f0011b000c707c4b07c0b0688d0679100116000c607c4d07c0c0687c0679300111000c507c4f07c0d0686b067950010c000c407c5107c0e0685a0679700107000c307c53068490679900102000c207c55068380679b000fd000c107c57068270679d000f8000c007c59068160679f000f3000bf07c5b06805067a1))
  (.nd (.lf
  0x124541245312452124501244e1244d1244c1244a12449124481248b1244712445124441245912443124411242c1242d1242b124291242812427123751237312361123601234c1234a1232d1232c1232a12329122ed1230a122ec122ea122e711f9611f9511f9311f9211f9111f8f11f8e11f8d11f8c11f8a11f8911f8811f8711f8511f8411f8311f8211f8011f7f11f7e11f7d11f7b11f7a11f7911f7811f76)
  (.lf
  0x15ddd131b9131a512f3912bae1b7d61b6bf1adf61ade01add515e9515ddf131bb131a612f0412c621b7d11b6c11adf81ade11add615e9015de1131bd131a712e6612bb51b7cd1b6c31adfa1ade21add715e8b15df9131bf131a812e6212c841b7c71b6c51adfc1ade31add815e8615dfb131c1131a912e5e12bb41b7c11b6c71adfe1ade415e8115dfd131c3131aa12e3e12c831b7ba1b6c91ae001ade515e7c)))
  (.nd (.nd (.lf
  0xc0d50c0b80c0b60c0b50c0960c0940c0930c0730c0710c0700c0500c04e0c04d0c02f0c02d0c02c0c00f0c00d0c00c0bfef0bfed0bfec0bfcd0bfcb0bfca0bfaa0bfa80bfa70bf890bf870bf860bf690bf670bf660bf470bf450bf440bf240bf220bf210bf030bf010bf000c27a0bee10bedf0bec00bebe0bebd0cb900cb8e0cb890cb880cb870cb850cb800cb7f0cb7e0cb7c0cb770cb760cb750cb730cb6e)
  (.lf
  0x19ba11bde51bba11ab311ab2f1a32f19b4b19b4719b461bddd1bb9b1ab061ab041a30d19b3a19b3619b351bdd91bb951aaeb1aae91a2e719b2a19b2719b261bdd41bb8f1aad61aad41a2d919b1d19b1919b181bdbd1bb871aac31aac11a29619b7f19b7b19b7a1bdb91bb7f1aaab1aaa91a280199ce199ca199c91bda51bb731aa9b1aa991a270199ba199b7199b61bda21bb6f1aa671aa651a23a199501994f))
  (.nd (.lf
  0x1d3621d3611d3601d3441d3431d3421d3411d33f1d33e1d33d1d33c1d33a1d3391d3381d3371d3251d3231d3221d3241d3211d31f1d31e1d31d1d31b1d3121d30a1d3091d3071d3061d3051d3041d3021d3011d3001d2ff1d2fd1d2f81d2f71d2f61d2f41d2f31d2f21d2f11d2ef1d2ec1d2eb1d2ea1d2e61d2e51d2e41d2e31d2d71d2d51d2d41d2d31d2d21d2d01d2cf1d2ce1d2cc1d2cb1d2ca1d2c91d2c7)
  (.lf 0)))

def shaXorOrder79 : BTree :=
  .nd (.nd (.nd (.lf
  0x1fa591fa581fa571fa551fa531fa601fa521fa501fa4e1fa4d1fa4b1fa5e1fa491fa461fa451fa431fa151fa131fa101fa0f1fa111fa0d1fa0b1fa091fa071f9851f9841f9821f9811f97f1f87e1f728206981f7271f71b1f72f1f7191f6d31f6d51f6d21f5701f5711f56f1f56c1f56b1f5691f56420f9f20f9c20f9b20f9a20f9620f9520f9420f9320f9020f9820f8f20f8d20f8b20f8820f8720f8520f84)
  (.lf
  0xb3230b03e0affc0c6ae0bad00b3240b0400c6910bade0b2f20b0420c67e0bad10b2f30b0440d1cc0c3220bba00b5ce0b5860b5810d1ae0c3230bba10b5d00b5870b5820d18f0c3240bba20b5d20b5880b5830d1700c3250bba30b5d40b5890b5840d1510c3260bba40b5d60b58a0b5850d1320c3270bba50b5d80b58b0d1130c3280bba60b59a0b58c0d0f60c3290bba70b59c0b58d0d0d80c32a0bbab0b59e))
  (.nd (.lf
  0x8c0e08c0d08c0c08c0a08c0908c0808c0708c0508c0408c0308c0208c0008bff08bfe08bfd08bfb08bfa08bf908bf808bf608bf508bf408bf308bf108bf008bef08bee08bec08beb08bea08be908be708be608be508be408be208be108be008bdf08bdd08bdc08bdb08bda08bd808bd708bd608bd508bd308bd208bd108bd008bce08bcd08bcc08bcb08bc908bc808bc708bc608bc408bc308bc208bc108bbf)
  (.lf 0))) (.nd (.nd (.lf
  0x1e3981e3971e3961e3941e3891e3861e3851e3821e3811e3801e37f1e3721e3711e3701e36f1e3481e3471e3461e3451e3431e3421e3411e33f1e33d1e33c1e33b1e3491e33a1e3381e3371e3361e3341e3211e3201e31f1e31d1e2df1e2de1e2dd1e2db1e29b1e29a1e2991e2971e2961e2951e2941e2921e2901e28f1e28e1e28c1e28b1e2841e2831e2811e2691e2651e2641e2351e2331e2321e2311e1e1)
  (.lf
  0x58a40538f04e3304e28062b50622f0589d0589b0538404e3504e29062b10624c058720584e0537a04e3704e2a062ac0625a058730584f0537004e3904e2b062a50625505874058500536604e3b04e2c0629f0626905875058510535c04e3d04e2d0629a0626505876058520535204e3f04e2e06296062660587705853052e804e4104e0f06292062680587805854052de04e4304e100628e062670587905855))
  (.nd (.lf
  0x903209012090110900e08fee08fed08fea08fca08fc908fc608fa608fa508fa208f8408f8308f8008f6208f6108f5e08f4008f3f08f3c08f1e08f1d08f1a08efc08efb08ef808ed808ed708ed408eb308eb208eaf08e9008e8f08e8c08e6e08e6d08e6a08e4a08e4908e4608e2508e2408e2108e0008dff08dfc08ddd08ddc08dd908db908db808db508d9508d9408d9108d7108d7008d6d08d4d08d4c08d49)
  (.lf 0)))

def shaXorOrder80 : BTree :=
  .nd (.nd (.nd (.lf
  0x1a3ec1a3ed19c211a4c51a8e51ab2b1a4f31adc01b5851b5871b5881abf91b6651ba9f1bb161b68f1beca1c2481d8b11d80d1deac1c55b1df5d1dfa41e40e1c87b1e4af1e6d81ea981cc3d1eabf1eb9a1ed5c1f2e31ddef1f2e51f3ba1ee521f84b1e2431f85e1f9641f6a71ff041eec41ff281ff48202651f13620a3b2069320be21f61e20d1720dc220e8000f7600f74015b8015b601bfb01bf90223302231)
  (.lf
  0xde5b0de540de530de500de480de470de440de3c0de3b0de380de300de2f0de2c0de250de240de210de1a0de190de160de0f07968079650796407963079600795f0795e0795b0795a0795907956079550795407951079500794f0794c0794b0794a0794707946079450794207941079400793d0793c0793b0793807937079360793307932079310792e0792d0792c0792907928079270792407923079220791f))
  (.nd (.lf
  0x1b45a1b3e51b3e41b3e21b3e11b3d61b3cd1b3cb1b3c91b3bf1b3be1b3ba1b3b91b33d1b33c1b33a1b3391b3371b3421b3361b3341b3331b34a1b3321b3301b31b1b31c1b31a1b3181b3171b3161b3141b2f81b2f71b2f61b2f41b2a81b2a71b2a61b2a51b2a31b2a21b2a91b2a11b29f1b29e1b29d1b2391b1df1b1de1b1dd1b1db1b1da1b1d91b1d81b1d61b1d51b1d41b1d31b1d11b1d01b1cf1b1ce1b1b4)
  (.lf
  0x22bd03a3c03a1502ee002ea0028d50230e022c9022be03a1c039f502ee102ea1028d602310022ca022bf039fc039d502ee202ea2028d702312022cb022c0039dc039b502ee302ea3028d802314022cc022c1039bc0399502ee402ea4028d9022d6022cd022c20399c0397502ee502ea5028da022d8022ce022c30397c0395602ee602ea6028db022da022cf039510393302ee702ea7028dc022dc022d00392e)))
  (.nd (.nd (.lf
  0x1e61a1e6191e6151e6141e6121e6111e60d1e60c1e60a1e5c11e5951e58c1e5821e5801e56c1e56b1e5651e55f1e5531e5521e5451e53f1e51f1e91f1e8f81e8f71e8f61e8f41e8e61e9341e8e51e8e21e8e11e8ce1e8cd1e8cc1e8b71e8a81e8a71e88b1e8851e8841e8821e8791e8771e8741e86b1e86a1e85f1e8521e8501e84a1e8491e8611e8471e8441e8431e8411e8371e8361e82d1e82b1e8291e826)
  (.lf
  0x5fc505a640552d054ee07d4b05fc605a650552f054ef07d1d05fc705a6605531054f007cef05fc805a6705533054f107cbe05fc905a680553507c8a05fca05a690553707c6a05fcb05a6a05539069970652a05fce05ac005a7805a73069860652b05fcf05ac205a7905a74069750652c05fd005ac405a7a05a75069640652d05fd105ac605a7b05a76069530652e05fd205ac805a7c05a77069420652f05fd3))
  (.nd (.lf
  0x5c6d05c6605c6505c6305c5d05c5605c5505c5305c4d05c4605c4505c4305c3c05c3505c3405c3205c2b05c2405c2305c2105c1a05c1305c1205c1005c0b05c0405c0305c0105bfb05bf405bf305bf105bea05be305be205be005bd905bd205bd105bcf05bca05bc305bc205bc005bbc05bb505bb405bb205bae05ba705ba605ba405ba005b9905b9805b9605b9105b8a05b8905b8705b8205b7b05b7a05b78)
  (.lf 0)))

def shaXorOrder81 : BTree :=
  .nd (.nd (.nd (.lf
  0x18036180bc180a718047180491804b180be180b01805e1805f1805d18050180521801117f7317f7517f7717f7917f7b17cfe180c0180aa18065180551805b180581899418984188f8188bc188a51899e189a0189a218910188c1189a4189a6189a818912188c3188ab188711884618848187e2187d9187ea1877a18759189aa189ac189ae18914188c5188ad1913219148190bd190a5191101913a1913c1914d)
  (.lf
  0x19679196741c1be1c01f197461967b196751c1b91c0211973a1967d196761c1b51c02319737196c7196771c1ae1c02519731196c9196781c1a91c0271972b196cb1961d1c1a51c16119724196cd196091c1a01c16319721196cf195f51c1991c16519718196d1195e41c1961c134197131967f195d61c18f1c0f11970f19681195c81c18b1c0f319683195ba195b51c1861c0f519685195a8195a41c1821c167))
  (.nd (.lf
  0x102db102da102d9102d7102ce10292102911028f1028e1028d1028c1028a10289102881107511073110721106e1106d1106b10f1f10f1e1101710f1d10f1b10f1710f1610f1410f1310f1210f1110f0e10f0d10f0c10f0f10f0b10f0910f0610f0710f0510f0310f0210f0110eff10efe10efc10efb10ef910ef810ef610ef510ee010ebc10ebb10eba10eb810e5c10e5b10e6010e5a10e5810e5710e5610e54)
  (.lf
  0xf6ca0f6c817a531794c170821706a1705f103f8103e10f7eb0f76c0f6b90f6b717a4e1794e170841706b17060103fa103e20f7e60f76b0f6a80f6a617a4817950170861706c103fc103e30f7e00f7680f6970f69517a4417952170881706d103fe103ba0f7d90f7640f6860f68417a40179541708a1704b10400103bc0f7d60f7650f6750f67317a3a179561708c1704d10402103be0f7cf0f7660f6640f662)))
  (.nd (.nd (.lf
  0x91b5091b4091b2091ad091ac091ab091a908d6b08d6908d4708d4508d4308d2208d2108d1f08d1d08cfc08cfb08cf908cf808cd208cd108cd008ccd08cb3091a7091a4091a3091a2091a00919a0919909197091950919409193091900918f0918d0918c0918a0918809186091850918209181091800917f0917d0917b091780917709176091730917209171091700916d0916c0916909168091670916409163)
  (.lf
  0x15454174f2174d71651316511159b115440174d4174c71650516503159b215432174b9174a8164f7164f51594815400174a51748d160e4160e21593e154721749317484160c9160c7157fb153eb1747517124160ab160a9157e1153da1809e1806416fbb16fb91664415c1715c0e15c0c1803d17f6316f6d16f6b1662515c1915c0f15c0d1802517f5a16f5e16f5c165f515c2915c2415c231801e17f5216f53))
  (.nd (.lf
  0x1c2f11c2ef1c2ee1c2ec1c2d71c2d41c3851c2d31c2d11c2bf1c2bd1c2ba1c2b91c2b61c2b41c2b31c2a81c2a71c4d51c4d31c4d21c4d11c4d01c47d1c47a1c4791c47b1c4781c4761c4751c4741c4721c4711c4701c46f1c46d1c46b1c46a1c4691c4671c4631c45f1c45e1c45c1c45b1c45a1c4591c4571c4561c4551c4611c4541c4521c4511c4501c44e1c44d1c44c1c47f1c44b1c4491c4471c4461c444)
  (.lf 0)))

def shaXorOrder82 : BTree :=
  .nd (.nd (.nd (.lf
  0x1922019211191f5191e2191be191ab191ad190fe190471922219210191f7191e0191bd191af191b1191001904919b6419ba819b6519ba919b4d19b3b19b8019b1f19b81199cf199b91999b19b7219b6319ba719b4a19b3919b2c19b1c19b7e199cd19b7419b6219ba619b4c19b3c19b2b19b1e19b99199d41a3cf1a3f81a3d31a3601a3331a3111a2eb1a2dd1a2a21a2841a2781a23f1a4161a3c91a3681a335)
  (.lf
  0x9600095f0095e0095c0095b0095a00959009570095600955009540095200951009500094f0094d0094c0094b0094a00948009470094600945009430094200941009400093e0093d0093c0093b00939009380093700936009340093300932009310092f0092e0092d0092c0092a00929009280092700925009240092300922009200091f0091e0091d0091b0091a00919009180091600915009140091300911))
  (.nd (.lf
  0x154f5154f4154fa154f3154f1154f0154fb154ef154ed154ec154ea154e8154e7154e6154eb154e5154e3154e2154e1154df154de154dd154dc154da154d9154d8154d7154d5154d4154d3154d2154d0154cf154ce154cd154cb154ca154c9154c8154c6154c5154c4154c3154c1154c0154bf154be154bb154ba154b9154b8154b6154b5154b4154bc154b3154b1154b0154af154ad154ac154ab154fc154aa)
  (.lf
  0x78a6078910788606ec806e0b0467f0465e07b5007b3b07a3807998078a8078920788706ec306e0d0465f0463e07b5207b3c07a330799a078aa078930788806ebe06e0f0463f0461f07b5407b3d07a2e0799c078ac078940788906eb906e270461a045fc07b5607b3e07a290799e078ae078950788a06eb406e29045f7045d807b5807b3f07a24079a0078b00789606eaf06e2b045d9045b807b5a07b1607a1f)))
  (.nd (.nd (.lf
  0x12364123621235012336123341233312312123101230f1309a130981308b1307e1307d1306a130591300813007130041300312ff712ff612ff412fd612fd512fc912fc812fc612fc512fc412fb612f9412f8b12f8a12f7712f5912f2d12f2c12f2a12f1812ecd12ecc12eca12ebd12ebc12ece12ebb12eb912ea512ea412ea212e9b12e9a12e9912e9712e8412e5a12e5912e5212e4712e2912e2a12e2812e26)
  (.lf
  0x1b1831b16318523183cb182ce1d61d1b1801b16518502183cc1826b1d61f1b17b1b167183cd183191825502230015fb015bb0101900a72009c601e3b0161a015da0103800a70009e50286901c3e01bfe0161b010850247301c5d01c1d0163a0108302e94022760223601c5e0168702aab022950225501c7d01685034d1028af0286f0229601cca030d7028ce0288e022b501cc803af802eda02e9a028cf02302))
  (.nd (.lf
  0x1e4601e4301d7401d7201d7101d7001d6f01d6d01d6c01d6b01d6a01d6801d6701d6601d6501d6301d6201d6101d6001d5e01d5d01d5c01d5b01d5901d5801d5701d5601d5401d5301d5201d5101d4f01d4e01d4d01d4c01d4a01d4901d4801d4701d4501d4401d4301d4201d4001d3f01d3e01d3d01d3b01d3a01d3901d3801d3601d3501d3401d3301d3101d3001d2f01d2e01d2c01d2b01d2a01d2901d27)
  (.lf 0)))

def shaXorOrder83 : BTree :=
  .nd (.nd (.nd (.lf
  0xea100e9f00e8c00e3e00e3c00e2900e1b00e1900e0600dd800dd600dc300db500db300da000d9200d9000d7d00d4f00d4d00d3a00ccc00cca00cb700c6900c6700c5400c0600c0400bf101bf001bee01bde01bd601bd401bc101b9f01b9d01b8a01b4e01b4c01b3901b3101b2f01b1c01afa01af801ae501add01adb01ac801aa601aa401a9101a6f01a6d01a5a01a5201a5001a3d01a3501a3301a20019fe)
  (.lf
  0x139e7139041582214a8b13fda139e9139051581a14a9413f32139eb1391e1581614a8c13f15139ed139061581014a8d13de5139ef139071580714a6c13ddd139f1139bb158041473f13dd7139f3157e51467513dca139f5157b21465113db313951162b91524d14ba3141fe141e1141dc161c61524514b6a14200141e2141dd161c21523d14b6114202141e3141de161b91523614b5614204141e4141df161b5))
  (.nd (.lf
  0xb5ff0b5fe0b5fd0b5fb0b5fa0b5f90b5f80b5f60b5f50b5f40b5f30b5f10b5f00b5ef0b5ee0b5ec0b5eb0b5ea0b5e90b5e70b5e60b5e50b5e40b5e20b5e10b5e00b5df0b5dd0b5dc0b5db0ba2d0ba220ba120ba060b9f60b9e80b9d80b9c90b9b90b9ac0b99c0b9900b9800b9740b9650b9590b94a0b93e0b92e0b9200b9100b9010b8f20b8e30b8d40b8c50b8b60b8a70b8980b88b0b87c0b8700b8610b853)
  (.lf 0))) (.nd (.nd (.lf
  0x20bc520bc420bc220bc120bbf20bbe20bbc20bbb20bb920bb820bb620bb520bb320bb220bb020baf20bad20bac20baa20ba820ba720ba620ba320ba220ba020b9f20b9d20b9c20b9b20b9a20b9820b9720b9520b9420af620af520af320af220af020aee20aed20af820aec20aea20ae920ae820ae620ae520ae420afa20ae320ae120ae020adf20adc20adb20ada20ad920ad720ad620ad420ad320ad120acf)
  (.lf
  0xb4bc0b40c0d3a80d3540c3ad0c3ab0bbd60b4be0b40d0d3a50d02b0c3a30c3a10bbd70b4c00b40e0d3a00d00e0c3990c3970bbd80b47c0b40f0d39a0cff00c38e0c38c0bc9f0b45a0b2eb0d3920d2110c3840c3820bacb0b50e0b45c0d3760cfb30c37a0c3780bac00b45e0b2df0d3700cf940c3710c36f0bab60b5120b4ae0d36c0d2100c3680c3660bab70b4600d3680d1fb0c2ff0c2fd0bab80b4c20d363))
  (.nd (.lf
  0x14de714de014ddf14ddd14ddc14dd514dd414dd214dd114dca14dc914dc714dc614dbf14dbe14dbc14dbb14db414db314db114db014da914da814da614da514d9e14d9d14d9b14d9a14d9314d9214d9014d8f14d8c14d2a14d2714d2614d2514d2214d2114d2014d1d14d1c14d1b14d1814d1714d1614d1314d1214d1114d0e14d0d14d0c14d0914d0814d0714d0414d0314d0214cff14cfe14cfd14cfa14cf9)
  (.lf 0)))

def shaXorOrder84 : BTree :=
  .nd (.nd (.nd (.lf
  0x34410342d033db033c7033bb033a70339b0338703312032fe032f2032de032d2032be0328f0327b031e3031cf0317d031690313a0312603acb03ab703a6503a5103a4503a3103a2503a1103a05039f1039e5039d1039c5039b1039a5039910398503971038d9038c50389603882038530383f03810037fc037cd037b9037ad037990411604105040f9040e5040b6040a20409604082040530403f0401003ffc)
  (.lf
  0x727f0727e0727b0727a0727907276072750727407271072700726f0726c0726b0726a0726707266072650726207261072600725d0725c0725b0725807257072560725307252072510724e0724d0724c0724907248072470724407243072420723f0723e0723d0723a0723907238072350723407233072300722f0722e0722b0722a0722907226072250722407221072200acda0acd80acc70acc00acbf0acbd))
  (.nd (.lf
  0x1865c1865b1865a186581865718656186551865318652186511866a186501864e185aa185ab185a9185671856418563185611855e185541855318551185501854f185691854e1854c1854b1854a185321853018504185061850318500184cb184e1184ca184c8184c7184c6184c4184ad184aa184ac184a9184a7183b3181cc181ca181c9181c8181c7181c5181c4181c3181c2181c0181bf181be181bd181bb)
  (.lf
  0x1cf3c196231960e1697616903169021d4b61d4611d1cb1a01d19f7417257171b2171af1d4b31d4631d1cd1a01919f76172591719f1719d1d4ac1d4651d1cf1a01419f781725a1718d1718b1d4a71d4671d1d11a00f19f7a1725b1717e1715d1d4a31d4691d1d31a00919f7c1725c1717b171521d4941d46b1d1d51a00519f7e1725d17148171471d48f1d46d1d1d719ffe19f801725e171401713f1d65d1d60e)))
  (.nd (.nd (.lf
  0x17f0717f0517f0317f0117f1517f0017efe17cf817ce917ce617cdd17cd517cd317cdb17cce17ccc17cd917cc617cc417cbc17cba17cb217cb117caf17cae17cac17caa17c9d17c9b17c9817c9717c9617c9417c9317c9117c8f17c6f17c6417c6217c6117c1817c1717c1317c0617c0417c0317bf017bef17beb17bdf17bdd17bdc17bcb17bc817bc717bc617bc417bc3179db179da179d7189441894218940)
  (.lf
  0x694006920175d0113b00b4400b3300689006870175e0113c00b4600b340067e0067c0175f0113d00b4800b350067300671017600113e00b4a00b360066800666017610113f00b4c00b370065d0065b017620114000b4e00b380065200650017630114100b5000b390064700645017640114200b5200b3a0063c0063a017650114300b5400b3b006310062f017660114400b5600b3c00626006240176701145))
  (.nd (.lf
  0x3ef303eec03eeb03ee903ed203ecb03eca03ec803eb003ea903ea803ea603e8d03e8603e8503e8303e6c03e6503e6403e6203e4a03e4303e4203e4003e2703e2003e1f03e1d03e0603dff03dfe03dfc03de603ddf03dde03ddc03dc603dbf03dbe03dbc03da603d9f03d9e03d9c03d8603d7f03d7e03d7c03d6603d5f03d5e03d5c03d4603d4303c7403c7203c7103c7003c6f03c6d03c6c03c6b03c6a03c68)
  (.lf 0)))

def shaXorOrder85 : BTree :=
  .nd (.nd (.nd (.lf
  0x1164e11659116401163e115e6115d4115d3125f5125f3125f0125ee125eb125ea125ec125e8125e6125df125db125da125d9125d7125d5125ff125c9125c7125831257d1257c1254712545125431254a1253d1253b124a5124a4124a21249d124991249712492124901248d12432124311242f1237f123791237712357123551234e12f5812f5612f5412f1112f0e12f0c12ede12eb512eb312e1b12e1912e17)
  (.lf
  0x1b0201a8131a26619dbb1bf851bf6c1b00a1a8081a4451a2491bf631bf581b0011a7f71a24b1bf541bf491af311a7ac1a20c1bf4a1bf301af081ac041a1f31c5561c4d71be041b50a1ad011acf41acf21c5521c4b21be3a1b4fd1ad031acf51acf31c54c1c47c1bdf01b4b41ad101ad0c1ad0b1c5481c4b11bde21b4a51ad171accd1acbf1c5431c46c1be121b4661ad2a1ad251ad241c53f1c4b01bdc31b43d))
  (.nd (.lf
  0xdd830dd820dd810dd7f0dd7e0dd7d0dd7c0dd7a0dd790dd780dd770dd750dd740dd730dd720dd710dd6e0dd6d0dd6c0dd6a0dd690dd680dd670dd650dd640dd630dd620dd600dd5f0dd5e0dd5d0dd5b0dd5a0dd590dd580dd560dd550dd540dd700dd530dd510dd500dd4f0dd4d0dd4c0dd4b0dd4a0dd490dd470dd460dd450dd430dd420dd410dd400dd3e0dd3d0dd3c0dd3b0dd390dd380dd370dd360dd34)
  (.lf
  0x12a281215712143121380df220ddc20b6a80b6950ac420ac3612b6412a2a1215912144121390df170ddc40b6aa0b6960ac260ac1b12b5912a2c1215b121451213a0df0c0ddc60b6ac0b6970ac0b0abfe12b4e12a2e1215d121461213b0df010ddc80b6ae0b6980abee0abe212b4312a301215f121471213c0def60dde00b6b00b6990abd10abc412b3812a3212161121481213d0deeb0dde20b6b20b69a0abb3)))
  (.nd (.nd (.lf
  0x39bd039b4039b20399d03994039920397d039740397203955039530395203932039300392f0390f0390d0390c038ec038ea038e9038d1038c8038c6038a9038a7038a60388e03885038830386603864038630384b038420384003823038210382003808037ff037fd037e0037de037dd037c5037bc037ba037a50379c0379a0377d0377b0377a0375e0375c0375b037400373e0373d0372303721037200410d)
  (.lf
  0x1187710fc610a3410a2e10a2c128d4125d6118a41187810fb610a3510a2f10a2d128c7125d1118a51187910f88109f6109f0109ee128c3125cb118a61187a10f6d109d9109ce109cb128af12600118a71187b10f47109da109cf109cc128ac1257f118a81187c10ed3109d2109d0109cd128a61256f118a91187d10ea710ba1109d3109d11289c12546118aa1187e10e9410ba4109811289812549118ab1187f))
  (.nd (.lf
  0x18d5018d4f18d4e18d4c18d4b18d4a18d4918d4718d4618d4518d4418d4218d4018d3b18d3c18d3a18d3818d3418d3318d3118d3018d2f18d2e18d2c18cf718cf618cf518cef18cee18cea18ce918cdc18cdb18cda18cd918cd718cd618cd218cd118cb118caf18cae18cad18cab18caa18ca918cb418ca818ca618ca518ca418c9718c9518c8c18c8b18c8918c8818c8318c8218c8018c7718c6b18c6a18c68)
  (.lf 0)))

def shaXorOrder86 : BTree :=
  .nd (.nd (.nd (.lf
  0x1a89b1a8961a89e1a89d1a8911a88e1a88f1a8901a86e1a84a1a84c1a9181a84f1a7bc1a7b31a7b71a5941a5821b4cb1b4c61b4951b48f1b4591b3d51b3cc1b3b81b0f11b0eb1b0e61b0e21b1b21b0b91b0a51b09e1b0911b0801b0821b06e1b1b31b03d1afcb1afc61afa21af811af5d1af3a1af151aef21ba9b1ba9d1ba8f1baa21ba841ba7b1ba7f1ba7e1ba7d1ba661ba671ba5a1ba541ba551ba491ba44)
  (.lf
  0x6ef500f440717c06fe406f1106f0106ef600f21071710700306f1306f0206ef700efd071660700506f1506f0306ef800edd0715b0700706f1706f0406ef900ebd071500700906f1906f0506efa00e9e071450700b06f1b06f0606efb00e7a0713a0700d06f1d06f0706efc00e5a0712f0700f06f1f06f0806efd00e3b071240701106f2106f0906efe00e18071190701306f2306f0a06eff00df40710e07015))
  (.nd (.lf
  0x126fa126f9126f8126f6126f5126f4126f3126f1126f0126ef126ee126ec126eb126ea126e9126e7126e6126e5126e4126e2126e1126e0126df126dd126dc126db126da126d8126d7126d6126d5126d2126d1126d0126cf126cd126cc126cb126d3126ca126c8126c7126c6126c5126c3126c2126c1126bf126be126bd126bc126ba126b9126b8126b7126b5126b4126b3126b2126b0126af126ae126ad126ab)
  (.lf
  0x13e5613e1213d4d1c3301c2841bf0c1becd16c7716c0113f7413e5813e1413d7c1c3291c2861bf0e1becf16c7216c0313f6c13e5a13e1613d4c1c3231c2881bf101bed116c6c16c0513f6313e5c13e1813d3c1c31b1c28a1bf121bed316c6816c0713f5f13e5e13e1a13d4b1c3141c28c1bf141bed416c6316c0913f5c13e6013e1c13d801c3101c28e1bf161bed516c5c16c0b13f5813e6213e1e13d4a1c30c)))
  (.nd (.nd (.lf
  0xdb660db650db630db490db480db470db460db440db430db420db400db3f0db3e0db3d0db3b0db3a0db390db380db360db350db340db330db2c0db2b0db2a0db290db270db0b0db0a0db090db070db060db050db040db020db010db000daff0dafd0dafc0dafb0dafa0daf80daf70daf60daf50daf30daf20daf10daf00daee0dae90d9f30d9f20d9ec0d9eb0d9ea0d9e90d6df0d6dc0d6be0d6bd0d6bb0d6ba)
  (.lf
  0x1e0751bd731bd711b2d61ab601aa201e0b31e06f1bc551bc531b2cb1ab351aa141e0ae1e0471bc401bc3e1b2b51ab0a1aa091e0a51e0531bc461bc441b2961aaef1aa741e0a11e03d1bc341bc321b2371aada1a9ee1e0311e02d1bc271bc251b2211aac71a9e41e0221dfe81bc1e1bc1c1b22e1aaaf1a9d11dfdf1dfb71bc141bc121b1b91ab761aa9f1dfcf1dfbb1bc0c1bc0a1b04e1aa631dfca1dfac1bc02))
  (.nd (.lf
  0x1d6b41d6b31d6b01d6af1d6ae1d6aa1d6a91d6b71d6a81d6a51d6a41d6a11d69f1d69e1d69c1d69a1d6981d6961d6911d6901d68c1d68b1d6941d68a1d6881d6861d6841d6811d6801d67e1d6791d67b1d6781d6761d6741d6721d6701d66e1d66c1d66a1d6681d6641d6631d6621d6601d65e1d65c1d6591d6571d6561d6531d6511d6501d64d1d64b1d64a1d6481d6391d6381d6351d6331d6e31d6321d630)
  (.lf 0)))

def shaXorOrder87 : BTree :=
  .nd (.nd (.nd (.lf
  0xd6000d4100d1d00cfd00cdd00cbe00c9a00c7a00c5b00c3700c1700bf800bd400bb400b940159b0157d0155a0153601517014f3014d4014b10148e0146a0144a0142a0140a013ea013ca013ab0138801365013420131f012fb012dc012b901296012730124f0122f01210011ed011ca01be401bc801baa01b9101b7301b5901b4001b2301b0501aec01acf01ab101a9801a7a01a6101a4401a2701a09019f0)
  (.lf
  0xdaa60d3f60cd120cd030e7ea0da960d3f70cd140cd040e7e40da970d3f80cd160cd050e7dd0da980d3f90cd180cd060e7d70da990d3fa0cd1a0cd070e7d10da9a0d3c00cd1c0cd080e7cb0da780d3c10cd1e0cd090e7c50da6d0d3c20cd200cd0a0e7bf0da690d3c30cd220cd0b0e7b90da5f0d3c40cd240cd0c0e7b30da600d3c50cd260cd0d0e7ad0da610d3960cd280cd0e0e7a70da620d3830cd2a0cd0f))
  (.nd (.lf
  0x6d3406d3106d2306d2006d1206d0f06d0106cfe06cf006ced06cdf06cdc06cce06ccb06cbd06cba06cac06ca906c9b06c9806c8a06c8706c7906c7606c6806c6506c5706c5406c4606c4306c3506c3206c2406c2106c1306c1006c0206bff0960409602095fe095f7095f6095f4095ee095e7095e6095e4095df095d8095d7095d5095d1095ca095c9095c7095c1095ba095b9095b7095b2095ab095aa095a8)
  (.lf 0))) (.nd (.nd (.lf
  0x1cc121cc1a1cc0e1cc0a1cc071cc421cc051cc011cbff1cbfc1cbf61cc3e1cbf41cbf01cbed1cbeb1cbe71cbe61cbe31cbf71cbe11cbdd1cbd91cbd81cbd41cbd31cbd11cbcf1cbf81cbce1ca971ca581ca551c9d61ca571c9cb1c9c91c9c71c9c41c9c31ca541c9c21c9c01c9811c97e1c97d1c97c1c97a1c9791c9621c9601c95f1eabe1eabc1eabb1eaba1eab91eab71eab61eab51eab41eab21eab01eaaf)
  (.lf
  0x63aa05e8e0595208829087ad063eb063ab05e8f05954087a90875c063ec063ac05e90059560879e08761063ed063ad05e91059580879308760063ee063ae05e920595a0878808766063ef063af05e930595c091a5090dd083ed083b9063f205ee305ea305e980919b090bd083ee083ba063f305ee505ea405e99091960909b083ef083bb063f405ee705ea505e9a0919109079083f0083bc063f505ee905ea6))
  (.nd (.lf
  0xf4750f4720f46b0f46a0f4670f4600f45f0f45c0f4550f4540f4510f44a0f4490f4460f43f0f43e0f43b0f4340f4330f4300f4290f4280f4250f41e0f41d0f41a0f4130f4120f40f0f4080f4070f4040f3fd0f3fc0f3f90f3f20f3f10f3ee0f3e70f3e60f3e30f3dc0f3db0f3d80f3d10f3d00f3cd0f3c60f3c50f3c20f3bb0f3ba0f3b70f3b00f3af0f3ac0f3a50f3a40f3a10f39a0f3990f3960f38f0f38e)
  (.lf 0)))

def shaXorOrder88 : BTree :=
  .nd (.nd (.nd (.lf
  0x14749147461466b146691522915227152261522315222152201521f15208151f1151e1151e0151d0151bc151ac151ab1519b1518715178151481513b1513a1512d1512c1511f1510e15101150e0150d315bec15be915be715be515bbe15bb015b2b15b0c15aac15aaa15a9315a7d15a7c15a0715a0615a02159fd159f9159f1159ef159ee159d9159c5159c31594e1594c158c8158c6158bb158b9157ef157ed)
  (.lf
  0xc05c0c0550c0540c0520c03b0c0340c0330c0310c01b0c0140c0130c0110bffb0bff40bff30bff10bfd90bfd20bfd10bfcf0bfb60bfaf0bfae0bfac0bf950bf8e0bf8d0bf8b0bf750bf6e0bf6d0bf6b0bf530bf4c0bf4b0bf490bf300bf290bf280bf260bf0f0bf080bf070bf050beed0bee60bee50bee30becc0bec50bec40bec20beab0bea80ca300ca2d0ca190ca180ca150c9fc0c9fb0c9f80c9de0c9dd))
  (.nd (.lf
  0x19aea19ae919aeb19ae819ae619ae519ae419ae219ae119ae019adf19add19adc19adb19ada19ad819ad719ad619ad519ad319ad219ad119ad019ace19acd19acc19acb19ac919ac819ac719ac619ac419ac219ac119ac019abe19abd19abc19abb19ab819ab719ab619ab519ab319ab219ab119aba19ab019aae19aad19ac319aac19aaa19aa919aa819aa619aa519aa419aa319aa119aa019a9f19a9e19a9c)
  (.lf
  0x1d5f91d5e21d5d71b2641b04318602183f0183da1833b1d5fb1d5e31d5d81b2601b144185fc183f2183db183821d5fd1d5e41d5d91b2581b146185f9183f4183dc183251d5ff1d5e51b2541b148185f2183f6183dd183161d6011d5e61b2511b14a185ef183f8183b4183081d6031d5c41b24a1b14c185e5183fa183b6182ff1d6051d5c61b2461b14e185e1184fb183fc183b81d6071d5c81b2421b150185da)))
  (.nd (.nd (.lf
  0x1ace21acdf1acdb1ad061acda1acd81acd61acd31acba1ad1f1acb91acb21acb31acb11acaf1acad1acab1aca41aca21aca01ac9e1ad121ac9d1ac9b1ac991ac881ac871ac861ac801ac7f1ac7e1ac7c1ac771ac761ac6d1ac6c1ac6b1ac691ac641ac621ac601ac4a1ac491ac471ac421ac501ac411ac3d1ac3b1ac391ac341ac551ac331ac311ac5a1ac2f1ac2c1ac2b1ac291ac251ac231ac1d1ac1c1ac1a)
  (.lf
  0x2e4403c9a03693030cc030810307c02e2003c9b03694030ce030820307d02e0003c9c03695030d00308302de103c9d03696030920308402dbd03c9e03697030940308502d9d03c9f03698030960308602d7d03ca003699030980308702d5e03ca10369a0309a0308802d3b03ca20369b0309c0308902d1803ca30369c0309e0308a02cf503ca40369d030a00308b02cd203ca50369e030a20308c02caf03ca6))
  (.nd (.lf
  0x520d051fa051f9051f7051f6051e5051e4051e2051e1051d1051d0051ce051cd051bb051ba051b8051b7051a8051a7051a5051a405192051910518f0518e0517f0517e0517c0517b05169051680516605165051540515305151051500513d0513c0513a051390512805127051250512405111051100510e0510d050fe050fd050fb050fa050ea050e9050e7050e6050d6050d5050d3050d2050c1050c0050be)
  (.lf 0)))

def shaXorOrder89 : BTree :=
  .nd (.nd (.nd (.lf
  0x5a8f05a9105a9305a9505a9705a9905a9b05a9d05a9f05aa105aa305aa505aa705aa905aab05aad05aaf05ab105ab305ab505ab705ab905abb05abd05abf05ac105ac305ac505ac705ac906010060120601406016060180601a0601c0601e06020060220602406026060280602a0602c0602e06030060320603406036060380603a0603c0603e06040060420604406046060480604a0658c0658e0659006592)
  (.lf
  0x1f4601eee31ee791e8ed1e8351e81c1f4621eed91ee751e9391e6fc1e6fb1f4ae1eecf1ee711e8d21e6f11e6f01f4b41eff51ee6a1e9291e6fd1e6e81f4451ee671eb5f1e9001e4211e4201f43c1ee621eb511e8ee1e4581e4571f4301ee5d1eb381e93a1e3691e3681f4241ee581eb2e1e8d31e32e1e32b1f4151eae91e8ad1e31b1e3001e2fc1f3fa1eae21e88d1e3171e2f61e2f51f4021eac91e8801e312))
  (.nd (.lf
  0xf88b0f88a0f8890f8870f8860f8850f8840f8810f8800f87f0f87e0f87c0f87b0f87a0f8820f8790f8770f8760f8750f8730f8720f8710f8700f86e0f86d0f86c0f86b0f8690f8680f8660f8650f8630f8620f8610f8600f85e0f85d0f85c0f85b0f8590f8580f8570f8560f8550f8530f8520f8510f84f0f84e0f84c0f84b0f8490f8480f8470f8460f8440f8430f8410f8cf0f8400f83e0f83d0f83c0f83a)
  (.lf
  0xd5e30c81b0c80e14e0e14d70144aa144691044a103f70d6290d5e50c7f90c7ed14e0314d72144ac1446a10445103f90d62b0d5e70c7d80c7cd14df814d74144ae1446b10440103fb0d62d0d5e90c7b80c7ab15792155ee14d5114d4214d370f2560f0b90dde10ddd30ddd10d1e40d1da15788155f014d5314d4314d380f24c0f0bb0dde30ddd40ddd20d1c90d1bc1577d1560f14d5514d4414d390f2410f0bd)))
  (.nd (.nd (.lf
  0x57d8057d6057d5057d3057d1057d0057ce057cb057cc057ca057c8057c6057c3057c2057c1057bf057bc057bb057b8057b7057b6057b4057b3057b1057af057ad057bd057ac057aa057a8057a5057a4057a3057a10579f0579e0579b0579a0579905796057950579405791057900578f0578d0578b0578a05789057870578505783057820577f0577d0577b0577a0577705776057750577405772057700576e)
  (.lf
  0x1263d1525715232143e3143e1138431308713084130831524815231143ba143b81381713073130701306f1523a15230143a4143a21380d1300112ffd12ffc1522f152121438b14389137e112fe012fdc12fdb1520a151fc1435a14358137a912fd312fcf12fce151f4151ea1435f1435d1378c12fc012fbc12fbb151e2151d91434d1434b1377012f8212f7d12f7c151d3151c814337143351374512f2312f1e))
  (.nd (.lf
  0x1a0481a0461a0441a0431a0411a03f1a03d1a0591a03c1a0391a0571a0381a0361a0341a0321a0301a02f1a02d1a02b1a02a1a0281a0261a0251a0231a0221a0201a01f1a01c1a01b1a0181a0171a0161a0131a0121a0111a00e1a00d1a00c1a00a1a0081a0071a0041a0031a0021a00119fff19ffd19ffa19ff919ff819ff619ff51aee71aee31aee21aee11aedf1aed31aed61aed21aed01aece1aec81aec7)
  (.lf 0)))

def shaXorOrder90 : BTree :=
  .nd (.nd (.nd (.lf
  0x644406446064480644a0644c0644e06450064520645406456064580645a0645c0645e06460064620646406466064680646a0646c0646e084430844508447084490844b0844d0844f08451084530845508457084590845b0845d0845f08461084630846508467084690846b0846d0846f08471084730847508477084790847b0847d0899f089a1089a3089a5089a7089a9089ab089ad089af089b1089b3089b5)
  (.lf
  0x1d0a01bfd11bfcd1d0c31d0a21bfc81bfbc1d0bd1d0a41bfb31bf831d0b81d0a61bf6e1bf671d0b31d0a81bf6f1bf551d0b01d0aa1c15b1bf461d3aa1d39b1c4051c3e31d3a21d36a1c4001c3e51d39d1d35f1c3fb1c3e61d35a1d34c1c3f81c3941d3571d34e1c3f31c3951d3501d3331c3ee1c3961d3341d3301c2e71c2db1d32a1d31a1c2e11c2c91d3151d3101c4d81c2de20c38015b500a06007d620510))
  (.nd (.lf
  0x14208141a51472c1472914726147201471f1471c1471914714147131470e1470d14708147211470714703146fd146fc146f7146f6146f2146f0146eb146ea146e5146e4146df146de146d9146d8146d3146d2146cd146cc146c7146c6146c0146be146b9146b8146b3146b2146ad146c2146ac146a8146a4146a21469f1469d146911468d14688146871468314693146821467e146301462e146291489314891)
  (.lf
  0x1cefb1cef0197801958116c0216bf016bc416b501d2921d1a61cf101cefc1cef1197771956d16c0416bf116bbe16b4b1d28b1d1a81cf121cefd1cef2197731955916d1d16c0616bf216bb61d2871d1aa1cf141cefe1cef31976e1954616c0816bf316bb116b3f1d27d1d1ac1cf161ceff1cef41976b1952616c0a16bf416bac16b391d2791d1ae1cf181cf001cef519767196c016c0c16bf516ba916b331d275)))
  (.nd (.nd (.lf
  0x10a2010a1e10a0f10a0e10a0c10a0b109eb109ed109ea109e8109ba109b9109b7109b6109b5109b4109b3109b1109b0109af109ad1099610995109921098c1098a1097c1097b10979109781094310945109421094010915109141091210910109011090310900108fe1086f108721086e1086c10833108351083210830108291082a108281082510822108211081f1081e10807108061080410803107e6107e5)
  (.lf
  0x1f31a1ed041e76b1e7601e75f2005d2000d1f3101f30e1ecf41e7681e7671e765200091ffd81f32a1f3151ecd01e80f1e7521e750200011ffdb1f2fd1f2fb1ecd11e8071e7481fff91ffcb1f32c1f2ff1ecba1e7ff1e73e1fff61ffcd1f2ed1f2eb1ecbb1e7cc1e7361ffec1ffcf1f3e61f3d51ecbc1e7da1e72b200281ffe31f2bc1f2b91ec6e1eba11e7c0200171fe5d1f2171f1c81ec6f1e7b41e7181fe5a))
  (.nd (.lf
  0xad800ad700ad600ad400ad300ad200ad100acf00ace00acd00acc00aca00ac900ac800ac700ac500ac400ac300ac200ac000abf00abe00abd00abb00aba00ab900ab800ab600ab500ab400ab300ab100ab000aaf00aae00aac00aab00aaa00aa900aa700aa600aa500aa400aa200aa100aa000a9f00a9d00a9c00a9b00a9a00a9800a9700a9600a9500a9300a9200a9100a9000a8e00a8d00a8c00a8b00a89)
  (.lf 0)))

def shaXorOrder91 : BTree :=
  .nd (.nd (.nd (.lf
  0x11686116901164b1166a1162f11cf71160f115d911567114f5114dc11e5211e4c11e4511e4011e3a11e3311e2d11e0511dff11dfa11df311e0711de011dd811dbb11d9c11d9d11db111d8311d7111d6111d3311d2e11d1311d3711d0911d0711a8e11a5d11a6b125f1125f2125f9125e2125fc12645125d2125cc126011257e1256d12554125481254b124bd124b8124b9124ab124a9124bb124bc124c312498)
  (.lf
  0x117f91109810c5210c4210c3f12418117e51105f10c5410c4310c401240f117d81106010b4a10b4510b441240c117d91100610acc10aa210aa112408117da10fd710c4110ace10aa3123ff117db10fd810ad010aa4123fa117dc10f9b10aae10aa5123f3117dd10f7610aaf10aa6123ef117de10f5610ab010aa7123eb117ad10edf10ab110aa8123e5117ff10eb010ab210aa9123df1171e10e9c10ab410aaa))
  (.nd (.lf
  0xa16e0a16d0a16c0a16a0a1690a1680a1670a1650a1640a1630a1620a1600a15f0a15e0a15d0a15b0a15a0a1590a1580a1560a1550a1540a1530a1510a1500a14f0a14e0a14c0a14b0a14a0a1490a1470a1460a1450a1440a1420a1410a1400a13f0a13d0a13c0a13b0a13a0a1380a1370a1360a1350a1330a1320a1310a1300a12e0a12d0a12c0a12b0a1290a1280a1270a1260a1240a1230a1220a1210a11f)
  (.lf 0))) (.nd (.nd (.lf
  0x1f53a1f4fc1f4fb1f4fa1f4f71f4df1f6a61f6a41f6a31f6a21f6a81f6a11f69f1f69e1f69d1f69c1f69a1f6991f6981f6961f6951f6941f6931f6911f6901f68f1f68e1f68c1f68b1f68a1f6891f6871f6861f6851f6841f6821f6801f67f1f6811f67e1f67c1f67b1f67a1f6791f6761f6751f6781f6741f6721f6711f6701f66e1f66d1f66c1f66b1f6691f6681f6671f6661f6641f6631f6621f6611f65e)
  (.lf
  0x91e70af520aab10a06d0a02d098010927a091e80af380ad6c0a06e0a02e09802092e00927c0af340ad2b0a06f0a02f098030927e0af2d0ad260a0700a03009804092f40af2a0ad270a0710a03109805092f60af250ad280a0720a0320983f092f80af200ad250a0730a03309764092fa0af1a0ad180a0740a03409765092fc0af170a9cb0a0750a03509766092a90ad2a0a9ac0a0760a03609767092800a990))
  (.nd (.lf
  0x133af133a8133a7133a41339d1339c1339913392133911338e1338713386133831337c1337b1337813371133701336d1336613365133621335b1335a13357133501334f1334c1334513344133411333a13339133361332f1332e1332b133241346813466134651345e1345d1345b1345a1345313452134501344f134481344713445134441343d1343c1343a1343913432134311342f1342e134271342613424)
  (.lf 0)))

def shaXorOrder92 : BTree :=
  .nd (.nd (.nd (.lf
  0xf3fe0f3f30f3e80f3dd0f3d20f3c70f3bc0f3b10f3a60f39b0f3900f3850f37a0f36f122ca122bf122b4122a91229e12293122881227d12272122671225c12251122461223b12230122251221a1220f12204121f9121ee121e3121d8121cd121c2121b6121ab121a0121951218a12b9f12b9412b8912b7e12b7312b6812b5d12b5212b4712b3c12b3112b2612b1b12b1012b0512afa12aef12ae412ad912ace)
  (.lf
  0x8cba08cb706aa006a9d06a9c06a9b06a9806a9706a9606a9306a9206a9106a8e06a8d06a8c06a8906a8806a8706a8406a8306a8206a7f06a7e06a7d06a7a06a7906a7806a7506a7406a7306a7006a6f06a6e06a6b06a6a06a6906a6606a6506a6406a6106a6006a5f06a5c06a5b06a5a06a5706a5606a5506a5206a5106a5006a4d06a4c06a4b06a4806a4706a4606a4306a4206a4106a3e06a3d06a3c06a39))
  (.nd (.lf
  0x16e2e16e2d16e2c16e2a16e2816e2716e2616e2416e2316e2216e2116e1f16e1e16e1d16e2916e1c16e1a16e1916e4116e1816e1616e1516e1416e1216e1116e0f16e0e16e0c16e0b16e0a16e1016e0916e0716e0616e0516e0316e0116e0016dff16dfd16dfc16dfb16dfa16df816df716df616e0216df516df316df216e3716df116def16dee173f4173e6173d7173bf173a5173a3173931737e1735e1735c)
  (.lf
  0x14d830f1440f1010ddcc0cef00cee4156751563f14d850f1390f1030ddcd0cece0cec31566a1564114d870f12e0f1050ddce0ceab0cea015f7d15f061563a1127c1123e0e5a60d7530d74615f7215f081563c11277112400e5a80d7360d72815f6715f0a1563e11272112420e5a90d7170d70915f5c15f0c156401126d112440e5aa0d6f90d6eb15f5115f0e1564211268112460e5ab0d6d80d6ca15f4615f10)))
  (.nd (.nd (.lf
  0x1512215120151151511315112151081510415102150f7150f5150f4150e7150e5150e4150dd150db150d614fd314fd114fd014f8b14f8914f8814f7e14f7b14f7914f3d14f3a14f3814f3f14f3614f3414f2114f1f14f1d15c5915c5715c1b15c0615c0515c0315c0215bfd15c1d15bfc15bf215bcf15bce15bcc15bb815b9615b9b15b9515b9315b7515b7415b7215b6c15b5115b4715b4515b4415b1d15b1c)
  (.lf
  0x74f0066e2066a402bc702ba807619075e2074f2066dd066a602ba902b8907614075e4074f4066d8066a802b8402b650760f075e6074f6066d3066aa02b6602b460760a075e8074f8066ce066ac02b4102b2207605075ea074fa066c9066ae02b2302b0207600075ec074fc066c4066b002b0302ae6090e708c520777c0768e075bb075ac075a1034c1034a4090c908c540777707690075bd075ad075a20349f))
  (.nd (.lf
  0x32d7032bb032ba032b8032b70329903298032960329503278032770327503274032560325503253032520323303232032300322f032100320f0320d0320c031ed031ec031ea031e9031cc031cb031c9031c8031aa031a9031a7031a60318703186031840318303166031650316303162031440314303141031400312303122031200311f0310103100030fe030fd030e001bed01bea01bd201bcf01bb701bb4)
  (.lf 0)))

def shaXorOrder93 : BTree :=
  .nd (.nd (.nd (.lf
  0x1eb031eb021eb011eaf91eaf71e9941e98d1e98c1f2b01f2af1f2ad1f2ab1f2a71f2a61f29c1f2951f2941f2921f28f1f28d1f2881f27d1f27a1f2791f2771f2741f2721f2701f26e1f1551f1501f14f1f9671f9591f9571f9301f92e1f9291f9201f91e1f91c1f92c1f91b1f9191f9171f9121f9101f9131f90f1f90d1f9411f90b1f9091f9031f8f31f8f21f8f61f8f11f8ef1f8ed1f8e81f8e71f8e61f8de)
  (.lf
  0x188381800d176ef176ee1972e196631881217f3b176dd176dc1972a1961c187dd17f3c176e6176e51972719608187d417f3d176761767519720195f4187e517f3e1764a1764919717195e31876f17f3f1763e1763c19714195d51874c17cfb1781a1763d19710195c71873517cf2177f117607195b7195a71875317cf3177d1175ed195a119593186fb17cf417780175c51958d19578186ed17cb817782175ac))
  (.nd (.lf
  0xc7450c72c0c72b0c7290c7220c7090c7080c7060c7010c6e80c6e70c6e50c6e10c6c80c6c70c6c50c6c30c6aa0c6a90c6a70c6a60c68d0c68c0c68a0c6890c67d0c5260c5240c5230c5220c5210c51f0c51e0c51d0c51c0c51a0c5190c5180c5170c5150c5140c5130c5120c5100c50f0c50e0c50d0c50b0c50a0c5090c5080c5060c5050c5040c5030c5010c5000c4ff0c4fe0c4fc0c4fb0c4fa0c4f90c4f7)
  (.lf
  0x69fa069b6068c8068c6105bd104e40b8a00b6a707a8e07a60069fc069b8068b7068b5105b1104e60b8840b6a907a8f07a61069fe069ba068a6068a4105a5104e80b8690b6ab07a9007a6206a00069bc068950689310599104ea0b84c0b6ad07a9107a6306a02069be06884068821058d104ec0b8300b6af07a9207a6406a04069c0068730687110581104ee0b8130b6b107a9307a6506a06069c20686206860)))
  (.nd (.nd (.lf
  0x1a05019ee019ec019eb019d1019cf019ce019bc019b3019b10199a01998019970197d0197b0197a019600195e0195d0194b0194201940019290192701926019140190b01909018fa018f1018ef018d8018d6018d5018c3018ba018b80221b0221902218021fe021fd021fb021fa021db021da021d8021d7021b8021b7021b5021b4021940219302191021900217402173021710217002155021540215202151)
  (.lf
  0xdbb70ffd80fe8b0eaaa0eaa80e2ce0db7b0db7a0db790ffd20fe780ea930ea8b0e2a50dc080db6d0db6c0ffcc0fe690eaa40eaa20e2950dc0c0db5e0ffc70fe580ea940ea8c0e2790dc0e0db5f0ffc10fe440ea9e0ea9c0e2680dc100db600ffbd0fe320ea950ea8d0e2390dc120db610ffb00fe240e9c10e9bf0e2500dbbe0db620ffac0fe160e9b50e9b30e1e10dbc00db320ffa50fe050e9bb0e9b90e14f))
  (.nd (.lf
  0x173fd173dd173dc173db173d9173bb173b917399173981739717395173781737617356173551735417352173351733317330173151731417311172f6172f5172f2172d7172d6172d3172b8172b7172b41729917298172951727c1727b172791726317262171151711317112171101710e1710c171091710617105171031710217100170fe170fd170fb170f7170f6170f8170f5170f3170f1170ed170ec170eb)
  (.lf 0)))

def shaXorOrder94 : BTree :=
  .nd (.nd (.nd (.lf
  0x8fb408f9208f7008f4e08f2c08f0a08ee608ec108e9e08e7c08e5808e3308e0e08deb08dc708da308d7f08d5b08d3608d1008ce608cbd095fd095ed095de095d0095c0095b1095a30959509587095790956b0955b0954a0953b0952d0951d0950e094fe094ef094e1094d3094c5094b5094a4094930948409476094660945a0944f09ff109fc909fa209f7a09f5109f2a09f0209ed909eb009e8709e6009e38)
  (.lf
  0x1781716dda18b07179a31712216b93196b718991180b81781e193cb183b0179a41764119f371912f18995180bf19ceb18b1c183b117cfd1a74419a4719133189a91a554193d918b1d187581b1211a44219a4b191411ae2719cf8193da18fa71b9fe1acee1a44419a6b1b6f01a56619cf9199851c1591b58c1acf01a44a1bf2e1ae361a5671a1d61c4e81be2d1b58e1acff1c2ae1b87e1ae371ac741dde61c82e))
  (.nd (.lf
  0xff5c0ff590ff570ff540ff520ff4e0ff4d0ff490ff480ff4411bd611bd411bcd11bcc11bcb11bc911ba611ba511ba411ba211ba111ba011b9f11b9d11b9c11b9b11b9a11b9811b9711b9611b9511b9311b9211b9111ba811b9011b8e11b8d11b8c11b8a11b8211b8111b8011b7e11b7b11b7a11b7911b7711b7211b7111b7011b6e11b6911b6811b6711b6511b5e11b5d11b5c11b5a11b5411b5311b5211b50)
  (.lf
  0x1006a0f4db0f4ce0f4cc1a6631a4fb19c4919c3919c2e14d2314c4310138100690f4dc0f4cf0f4cd1a65f1a51a19c4b19c3a19c2f14d1e14c45101310fffc0f4dd0f4d01a6581a51c19c4d19c3b19c3014d1914c471012e0fff60f4de0f4d11a6531a51e19c4f19c3c19c3114d1414c4910127100680f4df0f4d21a64b1a52019c5119c3d19c3214d0f14c4b101241000e0f4e00f4d31a6471a52219c5319c3e)))
  (.nd (.nd (.lf
  0xb2e60b2e50b2e40b2e30b2e10b2e00b2c60b2c50b2c40b2c20b2c10b2c00b2be0b2bd0b2bc0b2bb0b2b90b2b80b2b70b2b60b2b40b2b30b2b20b2b10b2af0b2ae0b2ad0b2ac0b2a60b2a50b2a40b2a30b2a10b29f0b2740b2730b2710b2700b26f0b26e0b26c0b2610b25f0b2540b2520b2510b2450b4d60b2440b2420b2400b3b00b3ae0b3ab0b3aa0b3a60b3a50b3a40b3a30b3a10b39f0b39c0b39b0b39a)
  (.lf
  0x18ed818ed6186a417fb817dbf1a0ca1a0b218eb118eaf1868b17f8417db51a09919eb718e5718e55186751815617f9119eb419e8c18e4c18e48185b417fae19e8d19e6818e4d18e49185981815a19e6219dc318e3b18e39185861814819dce19dba18d0518d03185701800219db319d9b18c5918c571853f17fca19d9019d7f18c3b18c391851217fd619d7c19d3a18be518be3184f017ff519d3719d1418b56))
  (.nd (.lf
  0x1ccd41ccd31ccd21ccd01cccf1ccce1cccd1cccb1ccca1ccc91ccc81ccc61ccc51ccc41cbc91cbc51cbc41cbc61cbc31cbc01cbcb1cbbf1cbbd1cbbb1cbb81cbb71cbb51cbb31cbb11cbba1cbb01cbae1cc401cbac1cba91cba81cba51cba41cba31cba01cb9f1cb9e1cb9b1cb9a1cb991cb961cb951cb941cb911cb901cb8f1cb8d1cb8b1cbcc1cb8a1cb881cb861cb831cb811cb801cb7d1cb7c1cb7b1cb78)
  (.lf 0)))

def shaXorOrder95 : BTree :=
  .nd (.nd (.nd (.lf
  0x206592062c2062a2062820622206212061f2060c20605206042060220601205fd205fc205fa205f7205e9205e8205e6205e5205e1205e0205dc205d8205bb205ba205b6205b02059f2059e20593205912056f205712056e2056c2055d2055c2055a2055020506205052050320502205012052d20500204fe204fd209842098220976209752097320964209632094e2094c208b3208b120883208812087020851)
  (.lf
  0xa22a09a3f09a28096fe0a7ef0a22109a4109a29096f90a7f00a21909a4309a2a096f40a7f10a21109a4509a2b096cc0a7f20a20909a4709a2c096c10a7f30a20109a4909a0d096b70a7f40a1f909a4b09a0e096b20a7f50a1f109a4d09a0f096ad0a7f60a1e909a4f09a10096a80a7f70a1e109a5109a110968d0a7f80a1d909a5309a120966f0a7f90a1d109a5509a130965a0a7fa0a1c909a570964b0a7fb))
  (.nd (.lf
  0x64a5064a4064a3064a1064a00649f0649e0649c0649b0649a06499064970649606495064940649206491064900648f0648d0648c0648b0648a06488064870648606485064830648206481064800647e0647d0647c0647b06479064780647706476064740647306472087510874f0874e0874308742087400873f08732087310872f0872e0872308722087200871f0871308712087100870f0870208701086ff)
  (.lf 0))) (.nd (.nd (.lf
  0x1d7a61d7a51d7a41d7a21d7a11d7a01d79f1d79d1d79c1d79b1d79a1d7981d7971d7961d7951d7931d7921d7911d7901d78e1d78d1d78c1d78b1d7891d7881d7871d7861d7841d7831d7821d7811d77f1d77e1d77d1d77c1d77a1d7781bca01deab1dea91dea81dea71dea61dea41dea31dea11dea01de9e1de9d1de9b1de9a1de981de971de951de941de921de911de8f1de8e1de8c1de8b1de891de881de86)
  (.lf
  0x4d90047b8041f6041b6041ab057d20574f04dd104d91047b9041f8041b7041ac057cd0575e04dd204d92047ba041fa041b8041ad057c70575a04dd304d93047bb041fc041b9041ae057c40575b04dd404d94047bc041fe041ba041af057be0575d04dd504d95047bd04200041bb041b0057b90575c04dd604d96047be04202041bc041b1057b20575804dd704d97047bf04204041bd041b2057ae0575004dd8))
  (.nd (.lf
  0xefd80efd10efd00efce0efcd0efc60efc50efc30efc20efbb0efba0efb80efb70efb00efaf0efad0efac0efa50efa40efa20efa10ef9a0ef990ef970ef960ef8f0ef8e0ef8c0ef8b0ef840ef830ef810ef800ef790ef780ef760ef740ef6d0ef6c0ef6a0ef690ef620ef610ef5f0ef5e0ef570ef560ef540ef530ef4c0ef4b0ef490ef480ef410ef400ef3e0ef3d0ef360ef350ef330ef310ef2a0ef290ef27)
  (.lf 0)))

def shaXorOrder96 : BTree :=
  .nd (.nd (.nd (.lf
  0x10097100d710c2e10adf110f8110d411958119931204b1209312927129631309013029139cd13a04141d4141a314baa14b421525d1520315cf715d34164211645916dde16dec178161771d180b71805c189921887419130190d219a5019a181a4431a3481acef1acd11b58d1b4441be361bdd11de021dbf91e2411e1e51e9241e8901efcd1ef4a1f5941f4dd1fd991fbf920164200d420a512085700583003c2)
  (.lf
  0xe70b0e70a0e7070e6ff0e6fe0e6fb0e6f30e6f20e6ef0e6e70e6e60e6e30e6db0e6da0e6d70e6cf0e6ce0e6cb0e6c30e6c20e6bf0e6b70e6b60e6b30e6ab0e6aa0e6a70e69f0e69e0e69b0e6930e6920e68f0e6870e6860e6830e67b0e67a0e6770e66f0e66e0e66b0e6630e6620e65f0e6570e6560e6530e6490e6480e6450e6390e6380e6350e6280e6270e6240e6170e6160e6130e6060e6050e6020e5f3))
  (.nd (.lf
  0x1b6391b6381b6371b6351b6341b6331b6321b6301b62f1b62e1b62d1b62b1b62a1b6291b6281b6261b6251b6241b6231b6211b6201b61f1b61e1b61c1b61b1b61a1b6191b6171b6161b6151b6141b6121b6111b6101b60f1b60d1b60c1b60b1b60a1b6081b6071b6061b6051b6031b6021b6011b6001b5fe1b5fb1b5fa1b5fc1b5f91b5f71b5f61b5fd1b5f51b5f31b5f21b5f11b5ef1b5ab1b5aa1b5a91b5a7)
  (.lf
  0x34e202f050291102907028fc03fa703f8003523034e302f06029130290803f8703f6103524034e402f07029150290903f5c03f3e03525034e502f08029170290a03f3903f1a03526034e602f09029190290b03f2103efb03527034e702f0a0291b0290c03ef603ed703528034e802f0b0291d0290d03ede03eb803529034e902f0c0291f0290e03eb303e950352a034ea02f0d02921028ef03e9003e710352b)))
  (.nd (.nd (.lf
  0x1ef281ef261ef0b1ef0a1ef091ef071ef061ef191ef041ef021efe21ef001eefe1eefc1eef51eef31eef21eeeb1eeea1eee81eee11eee01eedf1eedd1eed71eed51eecd1eecc1eff31eecb1eec81eec71eb631eb5d1eb5c1eb501eb4e1eb4d1eb4b1eb351eb341eb2d1eb2b1eb2a1eafa1eae81eadd1eada1ead81ead21ead01eac51e9a21e99f1e99d1e9981e9901e98e1e9601e95d1e95b1e9ff1e9181e916)
  (.lf
  0x601b0600608ed00828a065580601d0600708eab0828b065590601f0600808e880828c0655a060210600908e660828d0655b060230600a08e420828e0655c060250600b08e1d0828f0655d060270600c08df8082900655e0602905fed08dd5082910655f0602b05fee08db208292065600602d05fef08d8e08293065610602f05ff008d6808294065620603105ff108d4208295065630603305ff208d1c08296))
  (.nd (.lf
  0x61bd061af061ae061ac061ab0619f0619e0619c0619b061900618f0618d0618c0617f0617e0617c0617b0616d0616c0616a061690615e0615d0615b0615a0614e0614d0614b0614a0613d0613c0613a061390612c0612b06129061280611b0611a06118061170610a061090610706106060f9060f8060f6060f5060ea060e9060e7060e6060dc060db060d9060d8060ce060cd060cb060ca060be060bd060bb)
  (.lf 0)))

def shaXorOrder97 : BTree :=
  .nd (.nd (.nd (.lf
  0x1db481db131db001dadc1dded1dd8f1dd321dcdd1dc821dc401e1c81e2181e1b81e1821e1761e23e1e4641e2141e1c11e1871e2451e1d71e2161e1be1e1911e1751e1eb1e1591e1431e1481e1041e11a1e0e91e0cf1e2441e1cc1e2191e1c01e1901e1741e8fb1e8f11e93e1e8d81e8b91e9281e9041e8f21e99a1e8db1e92d1e9021e8ef1e93b1e8de1e8ae1e88f1e8811e8731e85c1e85e1e8691e8401e834)
  (.lf
  0x1c8b01c83c1a89f1a7121a6e41c8a91c8131a8941a7141a6e61c8a61c8151a88c1a7161a6e81c8a01c84f1a8871a7181a6ea1c89c1c83e1a8811a71a1a6ec1c8961c8401a87e1a71c1a6ee1c8921c8421a8791a71e1a6f01c88d1c8441a8731a7201a6f21c8851c8461a86f1a7221a6f41cbc71caa81b5821b1451b1371b1351cbc11caa01b4c51b1471b1381b1361cbbc1ca8b1b4931b1491b1391cbb61cb51))
  (.nd (.lf
  0x10dd410dd310dd210dd010dcb10d9d10d9f10d9c10d9a10d9610d9510d7c10d7a10d7910d7810d7610d2510d2310d1d10d1a10d1710d1610d1910d1510d1310cec10cee10ceb10ce910ce310ce210ce010cc610c7510c7610c7410c7210c7110c7010c6e10c6d10c6810c6710c6510c6410b5510b5610b5410b4e10b2010aec10aea10ae910ae810ae710ae510ae310ae110c3c10c3a10c3910c2a10c2910c27)
  (.lf
  0xf015182c618207179571793c127ef127720f0fa0f0b60f0750ef75182c018209179591791a127ea127740f0fc0f0b80f06f0f016182bb1820b1795b1791c127e5127760f0fe0f0ba0f0690f00e182b71820d1795d1791e127e0127780f1000f0bc0f0660f00b182ae1820f1795f17920127db1277a0f1020f0be0f05f0f008182ab182111796117921127d61277c0f1040f0c00f05c0f005182a71821317963)))
  (.nd (.nd (.lf
  0x971e0971c097190976a097180971509714097120970f097210970e0970c0970a09706097050970409702096ee096ed096ea096e80976c096e7096e4096e3096e1096dc096de096db096d9096f1096d7096d4096d3096d0096c9096c8096c5096be096bd096bb096a00969f0969d0969b096a30969909697096a50969509693096910968a0968709686096830966c0966b096680965709656096540964809647)
  (.lf
  0x1664518986189251776e1776c16f6e1662c1662716626188ef188b8177ae177ac16f5f16607165fa165f7188b51888b1779a1779816f5416608165fb165f81888c1887b176f5176f316f341660a165fc165f91886818849176c6176c416f931661916614166131883418816176b8176b616f80165d4165d0165cf187fa187ca176991769716f1d165c4165c0165bf187da187b4177281772616f0b165b0165a7))
  (.nd (.lf
  0x1c7141c7111c7101c70d1c70b1c70a1c7071c7051c7041c7021c6ff1c6fe1c6fc1c6f91c6f81c6ee1c6ec1c6eb1c6e71c6e61c6e51c6e11c6e01c6df1c6da1c6d91c6d81c6c91c6c81c6c61c6a71c6a61c6a51c6a01c69f1c69e1c68f1c68e1c68d1c66e1c66c1c66b1c6651c6631c6611c65c1c65a1c6591c6141c6131c6111c60c1c60b1c60a1c6081c6031c6061c6021c6001c5fe1c5fb1c5fa1c82c1c82a)
  (.lf 0)))

def shaXorOrder98 : BTree :=
  .nd (.nd (.nd (.lf
  0x1eba31e79c1ee4f1edc21edb31eda81ed891ed8c1edcb1ed331ed191ecf11ecfd1ecf01edc41edb71eda51ed931ede41ed9b1ed351ed181ede71edc31edb91edd21ed911ed751ed6c1ed2f1ed221ecf51f3b91f3c81f62d1f3a91f6241f37d1f3791f35d1f3541f33c1f32b1f3ec1f3ca1f3be1f3e71f62a1f3d41f3751f35f1f3521f3411f3c51f3ae1f3a31f6261f37f1f3711f3d81f34a1f3371fb361fb24)
  (.lf
  0x7edf07eb207eb107eaf07eae07e8407e8307e8107e8007e5407e5307e5107e5007e2607e2507e2307e2207df807df707df507df407dc907dc807dc607dc507d9807d9707d9507d9407d6807d6707d6507d6407d3907d3807d3607d3507d0c07d0b07d0907d0807cde07cdd07cdb07cda07cad07cac07caa07ca907c79081f7081f5081d5081ce081cd081cb081a40819d0819c0819a081760816f0816e0816c))
  (.nd (.lf
  0x161cc1619b1619716191161901618d1618b1618716185161811617f1617a1617916175161731616f1616d161691616716163161611615d1615b1614e1614d1613f1613d1612f1612d1611f1611d1610f1610d160fe160fd160ec160eb160d2160d1160b9160b81609b16286162841628316281162801627e1627d1627c1627b16279162781627616275162731627216271162701626e1626d1626c1626b16269)
  (.lf
  0x79a1079890797e0669f0668804c5104c300f6b10f5240abbe0a943079a30798a0797f066a10668904c3104c110f6a00f5260ab9f0a945079a50798b066a30668a04c0c04bee0f68f0f5280ab820a947079a70798c066a50666104be904bca0f67e0f52a0ab660a949079a90796a066a70666304bcb04baa0f66d0f52c0ab4a0a94b079ab0796c066a90666504bab04b8a0f65c0f52e0ab2e0a94d079ad0796e)))
  (.nd (.nd (.lf
  0x136fb136f6136f5136f4136f2136ed136ec136eb136e9136e4136a3136a21369c13699136901368f1368d1368813682136811367f1367a136591365c13658136561364a1364c13649136471363f1363e1363c13637136291362c1362813626135ea135e9135e7135e2135c5135c4135c2135bd135b0135b2135af135ad135a2135a4135a11359f135801357f1357d1357c1356b1356a13568135671354d1354c)
  (.lf
  0xc29a0ba550b4640d9bf0cb940cb920c47a0bc900d63c0cae10cac70c29d0bc260e4110d2c30d2910cb950c4920df6f0d4300d42e0caee0c4050ebf00dbfa0dbf20d2dc0cbe20e7810d9d40d9c80d4310cbe00f9ac0e41a0e4180dc000d3330f8d30df750df730d9da0d4380ff430ebf60ebf40e41b0dc1c0fc8b0e8580e8560df760dbd210b900fb030fac90ebf70e423106920f8e60f8e20e8590e311110f4))
  (.nd (.lf
  0xe7c00e7900e5c00e5900e3a00e3700e1700e1400df600df300dd400dd100db100dae00d8e00d8b00d6d00d6a00d4b00d4800d2a00d2700d0a00d0700cea00ce700cc800cc500ca700ca400c8700c8400c6500c6200c4400c4100c2400c2100c0200bff00be100bde00bc100bbe00ba100b9e028600285e0284902842028410283f0282802821028200281e02806027ff027fe027fc027e3027dc027db027d9)
  (.lf 0)))

def shaXorOrder99 : BTree :=
  .nd (.nd (.nd (.lf
  0x519d0519605176051740516d0515f0515d051580514a051480514105133051310512c0511e0511c05115050e1050df050da050b8050b6050b1050a3050a10509a0508c0508a0508505063050610505c0503a050380503305025050230501c0500e0500c05007062200621e0621d061c8061c6061c5061b6061b4061b30618606184061830617406172061710615506153061520614406142061410613306131)
  (.lf
  0x16afd15b3a1518014bb014ae216af915a901516f14bb214b2816a5415a3a1515f14b7214ad116a4e15a3b1515014b7414ad216a4815a3c1514314b7614ad316a4315a3d1513514bb414ad416a2c15a3e1512714bb614b2116a2815a3f1511914b7814ad516a23159e71510914b7a14aa416940159d7150fb14b7c14a961692f1598e150ec14b7e14a97169221598f150da14b3e14a98169181599014fd814b40))
  (.nd (.lf
  0xb53e0b53d0b53c0b53a0b5390b5380b5370b5350b5340b5330b5320b5300b52f0b52e0b52d0b52b0b52a0b5290b5280b5260b5250b5240b5230b5210b5200b51f0b51e0b51c0b51b0b51a0b5190b5170b5160b50c0b50b0b5090b5080b5070b5060b5040b5030b5020b5010b4ff0b4fe0b4fd0b4fc0b4fa0b4f90b4f80b4f70b4f50b4f40b4f30b4f20b4f00b4ef0b4ee0b4ed0b4eb0b4ea0b4e90b4e80b4e6)
  (.lf 0))) (.nd (.nd (.lf
  0x20b1a20b1920b1720b1620b1420b1320b1220b5120b1120b0f20b0e20b0d20b0b20b0920b0820b0720b0620b0420b0320b2020b0220b0020aff20afe20afc20ab420aad20aac20aaa20a9920a6a20a6920a5520a532099f2099e2099c2099b20996209992098b209892095a209612095920956208b8208b7208b5208902088e2087220863208612085c20e7f20e7d20e7c20e7b20e8220e7a20e7820e7720e76)
  (.lf
  0xda400d9fd0cad70cabd0c3720bc720bc230da250d9fe0cad80cabe0c3690bc250da210d9fb0cad90cabf0c3000bc870da1a0d71b0cada0cac00c2f70bccd0da160d9c20cadb0cac10c2ee0bc890da100d6dd0cadc0cac20c2e50bc8b0da0c0d9f40cadd0cac30c2dc0bc8d0da080d9fa0cade0cac40c2d30bc8f0d9f50d9df0cadf0cac50c2ca0bc360d9c00d6530cae00cac60c2c10bca40e3f00e3d80d2c4))
  (.nd (.lf
  0x1571f157181571715715157141570d1570c1570a157091570215701156ff156fe156f7156f6156f4156f3156ec156eb156e9156e8156e1156e0156de156dd156d6156d5156d3156d2156cb156ca156c8156c7156c0156bf156bd156bc156b5156b4156b2156b1156aa156a9156a7156a61569f1569e1569c1569b15694156931569115690156891568815686156851567e1567d1567b1567a156731567215670)
  (.lf 0)))

def shaXorOrder100 : BTree :=
  .nd (.nd (.nd (.lf
  0x80c4080c20806608064080380803607faa07fa807f1b07f1907e8d07e8b07e2f07e2d07e0107dff07d4207d4007d1507d1307ce707ce507cb607cb40872808726086c5086c308662086600865408652086350863308627086250861908617085c7085c5085b9085b7085ab085a90859d0859b090d5090d3090b3090b1090910908f08f9608f9408f7408f7208f5208f5008f3008f2e08f0e08f0c08ea208ea0)
  (.lf
  0x7d2f07d2607d0307d0207cf907cd507cd407ccb07ca407ca307c9a07c77073aa073a7073a6073a5073a2073a1073a00739d0739c0739b0739807397073960739307392073910738e0738d0738c0738907388073870738407383073820737f0737e0737d0737a0737907378073750737407373073700736f0736e0736b0736a0736907366073650736407361073600735f0735c0735b0735a073570735607355))
  (.nd (.lf
  0x189c7189c6189d7189c5189c3189c2189c1189be189bd189bc189bb189b9189b8189b7189bf189b6189b4189b3189b2189b0189af18919189181891618915188ca188c9188c7188c6188b2188b1188af188ae1887518fa118f9c18f9b18f9618f9518f9018f8f18f8a18f8918f8418fa418f8318f7f18f7b18f7918f7518f7318f6318f6518f6118f5c18f5918f5718f5218f5118f3518f3318d3618cfc18cfa)
  (.lf
  0x1fad11facf1face1facd20c1520c0e206bc204a31faf91fad51fac51fac31fac21fac120bf820bf6206b52055f1faf51faf31faee1faeb1fae91fae820c5420c52206b02052a1fb741fb481fb451fb421fb401fb3f20a7a20a78206ab204871faaf1faac1faa91faa31faa11fa9f208ed208c7206a62047c1fab91fab31fab11fa951fa931fa91208de208dc206a2204621fab71faa71fa981fa8c1fa8b1fa88)))
  (.nd (.nd (.lf
  0x1854218540185391851e1851b18514184f8184f1184e5184c3184bd184bc184cd184bb184b919216192031920119200191ff191f0191eb191ea191e9191e7191e1191d4191d3191c0191bf191b3191b2191a1191a01919719196191941919319192191911910719101190f4190f3190691903e1903c190151900919007190011905a1900018ffe18ff81905118ff718fef18fe918fe818fe218fe018fda18fd9)
  (.lf
  0x1dac017890118f0115200ca600ca201dad0178a011910115300c8600c8201dae0178b011930115400c6300c6101daf0178c011950115500c4300c3f01db00178d011970115600c2300c1f01db10178e011990115700c0000bfe01db20178f0119b00be000bdc01db3017900119d00bc000bbc01db4017910119f00ba000b9c023cf01db7017e70179f0179a015a5015a2023d001db8017e9017a00179b01585))
  (.nd (.lf
  0x44bb0449d0449c0449a044990447c0447b04479044780445a0445904457044560443704436044340443304416044150441304412043f4043f3043f1043f0043d1043d0043ce043cd043ae043ad043ab043aa0438b0438a04388043870436d02e8502e8302e6802e6502e4602e4302e2502e2202e0502e0202de302de002dc202dbf02da202d9f02d8202d7f02d6002d5d02d3d02d3a02d1a02d1702cf702cf4)
  (.lf 0)))

def shaXorOrder101 : BTree :=
  .nd (.nd (.nd (.lf
  0x199311991819915198a91989c1989619895198921988c1988b198891987d1953919537195351951d1951b1951a194fd194f9194f719798194c3194c11ab551ab4c1ab491ab481ab2c1ab1e1aa941aa8f1aa8e1aa831aa801aa7d1aa4c1aa481aa471aa451aa431aa3a1aa381aa291aa281a9be1a9bc1a9b91a9c71a9b81a9b51a9201a91e1a91c1a7f41a7e81a7e51a7e41a7dc1a7d21bbad1bbac1bbaa1bba4)
  (.lf
  0x1c7a51bdac1b4261b4251db551c7ae1c79b1bdb41b3851b3841db431c7981c7771bd991b3631b3621db0d1c7931c77b1bd941b38e1b38d1daf91c76e1c7681bd871b32e1b32d1dad81c7651c74a1bd6c1b5a01b3111dab71c7601c7431bd601b50f1b2f31da8b1c75b1c73e1bd5b1b5111b2e81da721c7351c7311bd651b4b91b2e21da4f1c74b1c6f51bd431b4bb1b3b31da321c6f31c6d21bd441b5a21b227))
  (.nd (.lf
  0xdfb30dfac0dfab0df910df8e0df7f0dcbb0dcb90dcb80dcb70dcb60dcb40dcb30dcb20dcb10dcaf0dcae0dcad0dcac0dcaa0dca90dca80dca70dca60dca40dca30dca20dca00dc9f0dc9e0dc9d0dc9b0dc9a0dc990dc980dc960dc950dc940dc930dc910dc900dc8e0dc8f0dc8d0dc8b0dc8a0dc890dc870dc860dc850dc840dc820dc810dc800dc7f0dc7d0dc7c0dc7b0dc7a0dc780dc760dc750dc740dc72)
  (.lf
  0x132f312a3312a1c12a110e7140e5a70be820be6c0978c0976b13408132f512a3512a1d12a120e7080e5bf0be840be6d0978709710133fd132f712a3712a1e12a130e6fc0e5c10be860be6e0978209722133f2132f912a3912a1f0e6f00e5c30be880be6f0977d09707133e7132fb12a3b12a200e6e40e5c50be8a0be4609778096ef133dc132fd12a3d129fe0e6d80e5c70be8c0be4809773096e9133d1132ff)))
  (.nd (.nd (.lf
  0x3dea03de803dd303dca03dc803db303daa03da803d9303d8a03d8803d7303d6a03d6803d5303d4a03d480473c0473a047390471f0471e0471c0471b046fb046fa046f8046f7046db046da046d8046d7046bc046bb046b9046b80469804697046950469404678046770467504674046580465704655046540463804637046350463404619046180461604615045f6045f5045f3045f2045d2045d1045cf045ce)
  (.lf
  0x10ed412e8d12e7b11e2211e1a118bf1110110ea910ea812e7e12e4b11e2311e1b118c01110210e9512e4512e2111de811de6118c11108b10e8012e1c12dd811ddc11dda118c21105010e4312dd012dc311dc311dc1118c31103f10e2012dbb12db211dac11da8118c410ff910df612da912d9c11dad11da9118c510fc910de612d9012d8111db511db3118c610fb910db212d7912d4411d8711d85118c710f8b))
  (.nd (.lf
  0x193c6193c4193c1193c0193bf193bc193bb193ba193b7193b6196b5196b3196b1196b0196af196ad196ac196ab196aa196a8196a7196a5196a4196a21966e196581966b19657196551965419668196531965119650196651964f1964719646196621964519643196191961b196181961619605196071960419602195f1195f3195f0195ee195e0195e2195df195dd195d2195d4195d1195cf195c4195c6195c3)
  (.lf 0)))

def shaXorOrder102 : BTree :=
  .nd (.nd (.nd (.lf
  0x1f5391f4f81ff001fef91fefb1feed1fee71fee21feda1fed41feb81feb91fea91fea11fe9b1fe8f1fe7e1fe781ffbb1fe531fe2b1fded1fdf81fd851fd8e1fd761fd521fcd41fc891fc671fc4d1fc24202682025e2025c20251202692024a2024020239202352022e2022720229201f0201f12026b201e5201da206d2201ce201c7201c1201bb201c9201a6201f3201a9201952017f201832017020be420bd9)
  (.lf
  0x724a0720c0702e012c4072450720e07030012a10724007210070320127e0723b07212070340125a0723607214070360123a0723107216070380121b0722c072180703a011f8073a8072ba071e7071d8071cd01bd3073a3072bc071e9071d9071ce01bb50739e072db071eb071da071cf01b9c07399072dd071ed071db071d001b7e07394072df071ef071dc071d101b640738f072e1071f1071dd071d201b4b))
  (.nd (.lf
  0x137f7137f6137f5137d7137be137651379e13764137621376113781137601375e1375d1375c1375b137581370f137211370e1370b136d1136d0136ce136cd136cc136cb136c8136c6136c5136c3136c1136c0136ba136b9136b7136b613672136711366f1366e1366d1366c1366a13669136671367313666136641366313662136211361f1361e136451361d13614135fd135fc135fa135f7135f513624135f4)
  (.lf
  0x1c6e21c5dd1c28f1c250174191740b14c8a14c46146c91460e1c6dd1c5df1c2911c25117414173ec14c8c14c48146c4146181c6c71c5e11c2931c25217412173f114c8e14c4a146bb1467a1c6c41c5e31c2951c253173f2173d214c9014c4c146b5146121c6a11c5e51c2971c254173d3173b614c9214c4e146af1461e1ca4a1c8f31c5c21c5b31c5a817e9617d02155291551b15519150c214efb1ca471c8f5)))
  (.nd (.nd (.lf
  0xe08f0e08d0e06d0e0770e06c0e0690e0500e04b0e04a0e0470e0260e0300e0240e0220e0090e0080e0020e0010dff00dfef0dfea0dfdc0dfcc0dfcb0dfc50dfba0dfaa0dfa90dfa70dfa20df7c0e4090e4070e4030e3e80e3d70e3d40e3c90e3c70e3c30e3950e3900e38f0e3820e3800e37c0e34c0e34a0e3460e33d0e33b0e3370e3050e3030e2ff0e2ef0e2ec0e2ea0e2c70e2c50e2c10e2b10e2aa0e2a8)
  (.lf
  0x1d9fd1bc1f1b3f11b22f1e36a1e3611d9d51d9d31bc151b5961b39b1e3261e3081d9b31d9b11bc0d1b36f1e2fa1e2f01d9bc1d9ba1bc031b5991e2ec1e2d81d9a61d9a41bbfa1b56f1e2d01e2c51d99d1d9921bbf41b5571e2c61e2b71d99b1d9991bc4f1b5461e2b11e2801d9101d90e1b9f91b5331e2701e2551d92c1d92a1b9ef1b4761e2541e20a1d8ea1d8e81b8a11b41c1e2071e1f71d8e21d8e01b884))
  (.nd (.lf
  0x490004860048500483004820047600475004730047200467004660046400463004570045600454004530044600445004430044200435004340043200431004240042300421004200041300412004100040f00404004030040100400003f6003f5003f3003f2003e6003e5003e3003e2003da003d9003d7003d6003cf003ce003cc003cb003c400226002240022300222002210021f0021e0021d0021c0021a)
  (.lf 0)))

def shaXorOrder103 : BTree :=
  .nd (.nd (.nd (.lf
  0x471a046f6046d6046b70469304673046530463304614045f1045cd045ad0458d0456e0454b0452704507044e7044c7044a80448404465044420441e043ff043dc043b9043960437704d7104d4e04d2f04d0b04cec04cc804ca904c8504c6504c4504c2504c0604be304bbf04b9f04b7f04b6004b3d04b1a04af704ad404ab004a9104a6e04a4b04a2704a07049e7049c7049a80527e0527d0527c0527b0527a)
  (.lf
  0xdfc30d9f90d52d0f7750df9f0d9e60d52f0f0af0ebe40e4060dd110dcc90dcc40f0a90eb890e3e90dd130dcca0dcc50f0a40eb8a0e3c60dd150dccb0dcc60f0a10eb8b0e3930dd170dccc0dcc70f09b0eb8c0e37f0dd190dccd0dcc80f0970eb8d0e3490dd1b0dcce0f0930eb8e0e33a0dcdd0dccf0f08d0eb8f0e3020dcdf0dcd00f0870eacd0e2f00dce10dcd10f0830eace0e2c40dce30dcd20f07f0eacf))
  (.nd (.lf
  0x930d0930c0930b0930909308092b1092b0092ae092ad0929e0929d0929b0929a09299092980929609295092940929309291092900928f09b0309b0109b0009aff09afe09afc09afb09afa09af909af709af609af509af409af209af109af009aef09aed09aec09aeb09aea09ae809ae709ae609ae509ae309ae209ae109ae009ade09add09adc09adb09ad909ad809ad709ad609ad409ad309ad209ad109acf)
  (.lf 0))) (.nd (.nd (.lf
  0x1ec141ec121ec0e1ec0a1ec091ec071ec061ebfd1ebfc1ebfa1ebe51ebe31ebe21ebe01ebdc1ebd91ebd81ebcd1ebcc1ebcb1ebca1ebc81ebc71ebbd1ebb91ebb71ebaf1ebae1ebad1ebab1eba41e7981e79d1e7971e78e1e7741f2e21f2e01f2da1f2d91f2d81f2d61f2d01f2ce1f2cd1f2c61f2c51f2c41f2c31f2491f2471f2461f2451f2431f2411f2401f23f1f23d1f2391f2381f23b1f2371f2351f234)
  (.lf
  0x892108408064610642006415097af096260894e089220840906463064210641609733096530894f089230840a0646506422064170972e0966708950089240840b0646706423064180972a0966208951089250840c064690642406419097240968208952089260840d0646b064250641a0971b0967e08953089270840e0646d064260641b097160967f08954089280840f0646f064270641c097110968108955))
  (.nd (.lf
  0xf3b20f3ab0f3aa0f3a80f3a70f3a00f39f0f39d0f39c0f3950f3940f3920f3910f38a0f3890f3870f3860f37f0f37e0f37c0f37b0f3740f3730f3710f3700f36d11cf511cf211cf111cf011ced11cec11ceb11ce811ce711ce611ce311ce211ce111cde11cdd11cdc11cd911cd811cd711cd411cd311cd211ccf11cce11ccd11cca11cc911cc811cc511cc411cc311cc011cbf11cbe11cbb11cba11cb911cb6)
  (.lf 0)))

def shaXorOrder104 : BTree :=
  .nd (.nd (.nd (.lf
  0x18c4a18c481997b1997919972199701996f1996c1992a19928199201991c1991b19919199141991219911198fa198f3198e2198e1198ca1987b197f8194df194db194991949019435194311a3e81a3b91a31e1a2ff1a2c81a2be1a2241a2211a21c1a2181a1f51a1dc1a1db1a1c21a1c11a1aa1a1781a16b1a12d1a11919ec819eb219e9419e7e19dd519dbf19d8d19d781ab511ab4d1aa8d1aa891aa881aa84)
  (.lf
  0xc98e0c9870c9860c9840c9720c96b0c96a0c9680c9540c94d0c94c0c94a0c9340c92d0c92c0c92a0c9140c90d0c90c0c90a0c8f40c8ed0c8ec0c8ea0c8d40c8cd0c8cc0c8ca0c8b40c8ad0c8ac0c8aa0c8930c88c0c88b0c8890c8700c8690c8680c8660c84f0c8480c8470c8450c82f0c8280c8270c8250c80d0c8060c8050c8030c7ec0c7e50c7e40c7e20c7cc0c7c50c7c40c7c20c7aa0c7a30c7a20c7a0))
  (.nd (.lf
  0x19e7c19e7b19e7a19e7819e5e19e5d19e5c19dd719d7719d7619d7519d7319d6f19d6d19d7119d6c19d6a19d6819d6719d6519d6319d2619d2719d2519d2319d1819d1719d1519cfd19cfc19c2019c1e19c1d19c1c19c1b19c1919c1819c1719c1619c1419c1319c1219c1119c0f19c0e19c0d19c0c19c0a19c0919c0819c0719c0519c0419c0319c0219c0019bff19bfe19bfd19bfb19bfa19bf919bf819bf6)
  (.lf
  0x160d015cd0102b00a5600a45009d801fc001f990160e015ce0102c00a5800a26009d901fa001f790160f015cf0102d00a5a00a27009da01f8001f5a01610015d00102e00a5c00a28009db01f5501f3601611015d10102f00a5e009dc01f3d01f1601612015d20103000a60009dd01f1d01ef701613015d30103100a62009de01ef201ed301614015d40103200a64009df01eda01eb401615015d50103300a66)))
  (.nd (.nd (.lf
  0x1b2131b2121b2111b20c1b20b1b2091b2051b2021b2011b1fc1b1f81b1cb1b1c91b1c41b3ad1b0561b0541b02d1b02b1b0271b0251b0231b0161b0171b0151b0131b01e1b0111b00f1b00d1b0071b0061b0051afff1affe1affd1af331af2f1af0b1af061aef71bcfc1bcf11bcef1bcee1bced1bceb1bce31bce21bce11bcdf1bcdb1bcd61bcd51bcd31bcc81bcc71bcc61bcc41bcc31bcba1bcb91bcb71bcb6)
  (.lf
  0x31dc042d803cce036f1036b2031bd042d903ccf036f3036b30319a042da03cd0036f5036b403176042db03cd1036f7036b503157042dc03cd2036f903133042dd03cd3036fb0311403112042de03cd4036fd030f4030f0048f0042e103d2a03ce203cdd03ae6048f1042e203d2c03ce303cde03ac4048f2042e303d2e03ce403cdf03aa5048f3042e403d3003ce503ce003a82048f4042e503d3203ce603ce1))
  (.nd (.lf
  0x506e0506705066050640505a050530505205050050450503e0503d0503b050310502a05029050270501a0501305012050100500504ffe04ffd04ffb04ff004fe904fe804fe604fe004fd904fd804fd604fcf04fcc04f0504f0304f0204f0104f0004efe04efd04efc04efb04ef904ef804ef704ef604ef404ef304ef204ef104eef04eee04eed04eec04eea04ee904ee804ee704ee504ee404ee304ee204ee0)
  (.lf 0)))

def shaXorOrder105 : BTree :=
  .nd (.nd (.nd (.lf
  0xa8610a8630a8650a8670a8690a86b0a86d0a86f0a8710a8730a8750a8770a8790a87b0b0190b01b0b01d0b01f0b0210b0230b0250b0270b0290b02b0b02d0b02f0b0310b0330b0350b0370b0390b03b0b03d0b03f0b0410b0430b0450b0470b0490b04b0b04d0b04f0b0510b0530b59d0b59f0b5a10b5a30b5a50b5a70b5a90b5ab0b5ad0b5af0b5b10b5b30b5b50b5b70b5b90b5bb0b5bd0b5bf0b5c10b5c3)
  (.lf
  0x1efc51ef111ea521ea0a1f6dd1f0ea1ef121ea061e9621f54b1f0221ef1d1ea541ea001f5041efe81ef731e90a1e8c4201431f61a1f5991f58a1f5871f586201571f6151f57f1f57e1f57b1f57a201311f6101f5ac1f5a81f5a41f5a32010d1f60c1f51d1f5191f5181f517201201f6061f5911f4f41f4f01f4ed200ca1f6001f5221f4dc1f4da200af1f5fd1f4d31f4ce1f4cd200b81f5f61f4c61f4c41f4c3))
  (.nd (.lf
  0xfe3b0fe2d0fe2c0fe2a0fe290fe1d0fe1c0fe1a0fe190fe0e0fe0d0fe0b0fe0a0fdff0fdfe0fdfc0fdfb0fd330fd320fd300fd2f0fd2b0fd2a0fd280fd270fd250fd240fd220fd210fd1f0fd1e0fd1c0fd1b0fd160fd150fd130fd120fd110fd100fd0e0fd0d0fd0c0fd0b0fd090fd080fd070fd2d0fd060fd040fd030fd020fd000fcc30fcc10fcc40fcc00fcbe0fcbd0fcbc0fcba0fc940fc860f0b30f0b1)
  (.lf
  0x1606315ebf1561015601155f6112e5111fe0e5c00e5b20e5b00d9a10d99e1605915ec11561215602155f7112e0112000e5c20e5b30e5b10d9850d9811604e15ee01561415603155f8112db112020e5c40e5b40d96e0d9661604315ee21561615604155f9112d6112040e5c60e5b50d94c0d94a1603815ee41561815605155fa112d1112060e5c80e5b60d92f0d92d1602d15ee61561a15606155fb112cc11208)))
  (.nd (.nd (.lf
  0x5d2d05d2c05d2905d2805d4205d2705d2505d2305d2005d1f05d1e05d1b05d1a05d1905d1605d1405d1505d1305d1105d0f05d0c05d0a05d0b05d0905d0705d0505d0405d0105d0005cfd05cec05ceb05ce805cdc05cd305cd105ccf05cd405cce05cc905cc805cc605cc50638f0638e0638c0638b0638a063880638706386063840638206381063800637f0637d0637c0637a063790637806376063750637b)
  (.lf
  0x1497a1436013797137921379115b4315b2914948149461434e1377a137751377415b0d15ad21493b1493914338137501374b1374a15ace15ab81492b149291432813736137331373215ac915aaf1491c1491a1431c1370313700136ff15ac415abb1490c1490a1431113862137041370115abe15a9b149131491114303138631370215a9615a83148fb148f9142fa13848136a415a7e15a2c148f3148f1142fb))
  (.nd (.lf
  0x1af121af111af0d1aeef1aeec1ae251a9121a9101a90e1a9131a90c1a9091a9081a9061a9051a9151a9031a9011a8ff1a8fd1a8fb1a9141a8fa1a8f71a8f61a8f31a8f21a8f11a8ef1a8ee1a8ec1a8381a8371a8361a8341a8321a8311a82f1a82d1a82b1a8281a8271a82e1a8261a8241a8221a8201a81f1a8391a81d1a81b1a7931a7911a7901a78e1a78c1a78a1a7891a7861a7851a7841a7821a7801a77f)
  (.lf 0)))

def shaXorOrder106 : BTree :=
  .nd (.nd (.nd (.lf
  0xb4d30b4d50b4810b4670b4690b4da0bc690bccc0bc7e0bc800bc820bc840bc860bca30bc200bc220bc240bcc70bc880bcce0bc8a0bc8c0bc8e0bc9e0bc370bca50bc270bc910bc930bc950bcd00bc970bc990bc390bc290bc2b0c4790c4880c48a0c49c0c4600c4a10c4460c4300c41a0c4040c3f30c3e60c48d0c48f0c4910c4620c4a30c4480c4320c41c0c4060c4930c4950c4970c4640c4a50c44a0c434)
  (.lf
  0x209f62080f2080e209f1208aa20807209eb208ac207ff20a9420a45209e5209e12097a207a0209db2096e20789209d82095e2073f208922076f206fe20a4720737206dc2098020347203242096a203442031e20950203402030f208a62033b203132087a20336203142084d20331202ee2086a2032a202e720827202f7202f420a442081c202ab20812202a8208082028820800202782016b20165200151fc15))
  (.nd (.lf
  0x143ff143fe143fd143fc143fa143f9143f8143f6143f5143f414401143f3143f1143f0143ef143ed143ec143df143de143dc143c3143b2143b1143af143ae1439914398143971439414382143da143811437f1437e143831437d1437b1437a143b41437914377143481434714345143421434014c3c14c3a14c3914c3814c3714c3514c3414c3314c3214c3014c2f14c2e14c2d14c2b14c2a14c2914c2814c26)
  (.lf
  0x1d1991d18e1a06319f49173eb17309172fa172f91d5501d4471d1b11d19a1d18f1a05f19f4b1740c172e8172dc172db1d54b1d4491d1b31d19b1d1901a05619f5c173ed172cb172c3172bb1d5441d44b1d1b51d19c1d1911a05119f5e173ce172ac1729f1729c1d53d1d44d1d1b71d19d1a04c19f60173b017290172811727f1d5331d44f1d1b91d19e1a04719f621738c172771726c172681d5301d4511d1bb)))
  (.nd (.nd (.lf
  0x10dea10de910de710de110db610db510db310dad10d9010d8f10d8d10d8710d6f10d6e10d6c10d6610d5310d3f10d3d10d3c10d3b10d3a10d3910d3710cfc10cfb10cfa10cf810cd210cd110cd010cce10caf10cae10cad10cab10c8910c8810c8610c8510c8410c8310c8210c8010b5e10b5d10b5c10b5a10afd10afc10afa10af910af810af710af510af410af3110821107f1107d11034110301102e11023)
  (.lf
  0x1edca1ec68206d9203511f98d1f1b21ed321ec5a20322203211f9791f18a1ed161ec6a20319202d61f97d1f1931ee4c1ece320315202d01f9041f1771edbd1ecfc20308202cb1f8bf1f1781ecef202fd202c51f8881f1961edbf202ec202bf1f88d1f19b1edb6202e8202b81fa711f1791eda3202e1202b71f7241f0f51ed842029f2029b1f7221f0e41ede32029a202901f6d81f0eb1ed9a202842027d1f556))
  (.nd (.lf
  0x15510154a0154901547015300152901528015260150e015070150601504014ed014e6014e5014e3014cb014c4014c3014c1014a8014a1014a00149e014850147e0147d0147b014640145d0145c0145a014440143d0143c0143a014240141d0141c0141a01404013fd013fc013fa013e4013dd013dc013da013c4013bd013bc013ba013a20139b0139a013980137f0137801377013750135c013550135401352)
  (.lf 0)))

def shaXorOrder107 : BTree :=
  .nd (.nd (.nd (.lf
  0x16299162941628f162b81624f16249162431622e162201622216219161fe161ff16200161dd161581614516136161251611616108160f5160e0160c2160a516dc016da916d9316d5916d4f16d3616d2916d0f16cfe16cec16cc716b9816b8316b8216b7016ac216ac316ab016aaa16a7a16a7616a63169c2169c3169c116a18169c71697b168d3168c5177fc1776a177aa17796176d9176c2176ad1768717724)
  (.lf
  0x12d3311bf911678110ba10dba12c9a11bfa11679110bc10dbb12c9611bfb1167a110be10dbc12c8e11bfc11638110c010ce412c8811ad811619110c210cbf12be611ac91161a110c410cc012be311ab4115e911176110c612bde11aa11157710eec12bdb11a811150610eee12bd411a821150710ef0137d1128f9120301198b119431193e137cb128fa120311198c119441193f137c6128fb120321198e11945))
  (.nd (.lf
  0xaa760aa6a0aa5b0aa4d0aa3e0aa2f0aa200aa110aa020a9f50a9e60a9d80a9c80a9b90a9a90a99f0a9880a97f0acd30acd10accb0acb60acb50acb30acae0ac9a0ac990ac970ac910ac7d0ac7c0ac7a0ac730ac5f0ac5e0ac5c0ac550ac410ac400ac3e0ac390ac250ac240ac220ac1e0ac0a0ac090ac070ac010abed0abec0abea0abe50abd00abcf0abcd0abc70abb20abb10abaf0aba80ab930ab920ab90)
  (.lf 0))) (.nd (.nd (.lf
  0x1eeaa1eea71eea51eea31eea01ee9b1ee9d1ee9a1ee961ee921ee911ee8f1ee8c1ee891ee871ee841ee821ee7f1ee7d1ee781ee7a1ee771ee731ee701ee6e1ee6b1ee691ee651ee641ee601ee5f1ee5c1ee5a1ee571ee561ee551e31c1e31a1e3191e3161e3151e3141e3111e3101e30f1e30c1e30b1e30a1e2b51e27c1e27b1e2761e2611e2621e2601e2041e2061e2031e1f31ff271ff251ff241ff231ff22)
  (.lf
  0x991d0b2fd0b2920a5830a5650a0940991f0b2f80b2930a5840a5660a095098ce0b2f50b2900a5850a5670a0960989f0b2940b2760a5860a5680a097098a10bb860ba2e0adf90add10a7300a0e70a0a70a09c0bb810ba150adfa0add20a7190a0e90a0a80a09d0bb7d0b9f90adfb0add30a7030a0eb0a0a90a09e0bb790b9db0adfc0add40a6ed0a0ed0a0aa0a09f0bb730b9bc0adfd0add50a6d70a0ef0a0ab))
  (.nd (.lf
  0x13d1613d1513d1213d0b13d0a13d0713d0013cff13cfc13cf513cf413cf113cea13ce913ce613cdf13cde13cdb13cd413cd313cd013cc913cc813cc513cbe13cbd13cba13cb313cb213caf13ca813ca713ca413c9d13c9c13c9913c9213c9113c8e13c8713c8613c8313c7c13c7b13c7813c7113c7013c6d13c6613c6513c6213c5b13c5a13c5713c5013c4f13c4c13c4513c4413c4113c3a13c3913c3613c2f)
  (.lf 0)))

def shaXorOrder108 : BTree :=
  .nd (.nd (.nd (.lf
  0x168b71689c1688d168841687f1687a16872168b5168b2168b3168b4168581685e1684f168471683f1683c1683216840168af16823168b1168b01681d168171680a16801167f8173df173bc1739e1737b17357173361731a172f7172d9172b91729a1727d17264171141710f17107171081712f1712e1712d170ef170e81712c1712b170de170dd170cc170c6170bf170b217a8317a8417a9317a9a17a9917a98)
  (.lf
  0x6cb806cb106cb006cae06ca706ca006c9f06c9d06c9606c8f06c8e06c8c06c8506c7e06c7d06c7b06c7406c6d06c6c06c6a06c6306c5c06c5b06c5906c5206c4b06c4a06c4806c4106c3a06c3906c3706c3006c2906c2806c2606c1f06c1806c1706c1506c0e06c0706c0606c0406bfd06bfa0a00c0a00909fec09feb09fe809fc409fc309fc009f9d09f9c09f9909f7509f7409f7109f4c09f4b09f4809f25))
  (.nd (.lf
  0x1702d1702c1702b17029170281702717026170241702317022170211701f1701e1701d1701c1701a17019170181701717015170141701317012170101700f1700e1700d1700b1700a170091700817006170051700417003170011700016fff16ffe16ffc16ffb16ffa16ff916ff716ff616ff516ff416ff216ff116ff016fef16fed16fec16feb16fea16fe816fe716fe616fe516fe316fe216fe116fe016fde)
  (.lf
  0x1796b127bd127860f0ca0f0410f014182861821d1796d127b8127880f0cb0f03d0f00f1827a1821f1796f127b31278a0f0cc0f03a0f00c1826d1822117971127ae1278c0f0cd0f0340f0091823f1822317973127a91278e0f0ce0f02f0f0061823b1822517975127a4127900f0cf0f02a0f01218b7d18add1821e13202131c41120d107b11069f18b7a18adf18220131fd131c61120f107041055918b7618ae1)))
  (.nd (.nd (.lf
  0x165ec165ee165eb165e9165e8165e7165e5165e0165df1660d165de165dc165db165da165d8165d7165ca165c9165ba165b8165b7165b6165b41659c1659a1659b1659916597165961659516593165921658d1658c16585165841658316582165801657f165791657816576165701656f1656e1656c1656616565165641656216554165531655916552165501654f1654e1654c1654b16542165411653f1653e)
  (.lf
  0x76ff076dd075ed0317a0315a08d5308c9c076fa076df075ef031550313608d2e08c9e076f5076e1075f103137031170787107783076b0076a10769606a9e069b703ae403ac70786c07785076b2076a20769706a99069b903ac803aa807867077a4076b4076a30769806a94069bb03aa303a8507862077a6076b6076a40769906a8f069bd03a8003a610785d077a8076b8076a50769a06a8a069bf03a6203a41))
  (.nd (.lf
  0x2ff902ff802ff702ff502ff402ff302ff202ff002fef02fee02fed02feb02fea02fe902fe802fe602fe502fe402fe302fe102fe002fdf02fde02fdc02fdb02fda02fd902fd702fd602fd502fd402fd202fd102fd002fcf02fcd02fcc02fcb02fca02fc802fc702fc602fc502fc302fc202fc102fc002fbe02fbd02fbc02fbb02fb902fb802fb702fb602fb402fb302fb202fb102faf02fae02fad02fac02faa)
  (.lf 0)))

def shaXorOrder109 : BTree :=
  .nd (.nd (.nd (.lf
  0x14aa0149c0149a01487013b9013b7013a401396013940138101373013710135e013500134e0133b0132d0132b01318012ea012e8012d5012c7012c5012b2012a4012a20128f012810127f0126c0121e0121c01209011fb011f9011e60220702205021f2021e4021e2021cf021c1021bf021ac0215e0215c021490211b0211902106020d8020d6020c302095020930208002072020700205d0202f0202d0201a)
  (.lf
  0x180a817ca819f8819ea818e81186911804c17ca91a09119ea518e711867a1804d17ca719eaa19d6218e34186461804e17c8e19d5f19ce218e22185bf1804f17c6b19d5919cd918e26185a51805117c5b19d5419d1918e1a1857d1801017c5c19d4e19cdb18e1b1854817f7217bf819d4919ccb18e661851a180b917f7419d4419cea18bf8184eb17f7619d1f19cae18b4c184c017f7819d1b19ca718b36184d0))
  (.nd (.lf
  0xcd5c0cd5b0cd5a0cd580cd570cd560cd550cd530cd520cd510d1e60d1db0d1cb0d1bd0d1ad0d19e0d18e0d17f0d16f0d1600d1500d1410d1310d1220d1120d1050d0f50d0e70d0d70d0ca0d0ba0d0ac0d09d0d08e0d07f0d0720d0620d0560d0470d0390d0290d01c0d00c0cffe0cfee0cfdf0cfd00cfc10cfb10cfa20cf920cf830cf740cf650cf560cf470cf370cf280cf160cf070cef20cee50ced00cec4)
  (.lf
  0x8e9c104ef104af0c0570be8109b5309b0f08e8d08e8b08e8508e7a104f1104b00c0360be8309b5509b1108e6b08e6908e6308e56104f3104b10c0160be8509b5709b1308e4708e4508e3f08e31104f5104b20bff60be8709b5909b1508e2208e2008e1a08e0c11497112ec0ca2e0c62307abd07aaf07aa406e2806e1a06e1806ded06deb1148d112ee0ca160c62507abe07ab007aa506e2a06e1b06e1906ddc)))
  (.nd (.nd (.lf
  0x281102810027f1027f0027ee027ed027cd027cc027ca027c9027ad027ac027aa027a90278e0278d0278b0278a0276b0276a027680276702748027470274502744027250272402722027210270202701026ff026fe026de026dd026db026da026be026bd026bb026ba0269e0269d0269b0269a0267f0267e0267c0267b0265b0265a02658026570263b0263a02638026370261b0261a0261802617025fc025fb)
  (.lf
  0xe23a1087f108580fb130fad90e9c20e39f0e251108531084c0fb140fada0e9b60e3720e1e21084e1084b0fb150fadb0e9bc0e3560e15010846108160fb160fadc0e96e0e32c0e1201080e107fe0fb170fadd0e94d0e30f0e107107f8107ad0fb180fade0e9470e41d0e2e4107a5107950fb190fadf0e91e0e2d2107a2107940fb1a0fae00e90b0e42110793107550fb1b0fae10e8ed0e3ff10752107450fb1c))
  (.nd (.lf
  0x16c6e16c6b16c6a16c6716c6616c6516c6216c6116c6016c5e16c5d16c5b16c5916c5816c5616c5316c5216c5116c4f16c4d16c4c16c4916c4816c4716c4516c4316c4216c3f16c3e16c3d16c3b16c3a16c3816c3516c3416c3316c3116c2f16c2e16c2b16c2a16c2916c2616c2517a8c17a8017a7f17a7e17a7c17a7a17a7917a7617a7517a7417a7117a7017a6f17a6c17a6b17a6a17a6717a6617a6517a62)
  (.lf 0)))

def shaXorOrder110 : BTree :=
  .nd (.nd (.nd (.lf
  0xc7210c7000c6e00c6c20c6a50c6880d1dc0d1be0d19f0d1800d1610d1420d1230d1060d0e80d0cb0d0ad0d08f0d0730d0570d03a0d01d0cfff0cfe00cfc20cfa30cf840cf660cf480cf290cf080cee60cec50cea20ce7c0ce530d9a30d9870d9700d9500d9330d91c0d8f50d8dc0d8bd0d8a20d87d0d8610d8450d8290d80d0d7f10d7d50d7b90d79e0d7810d7650d7480d72a0d70b0d6ed0d6cc0d6a90d688)
  (.lf
  0x73a00344000a50001c20a0f208550073b00345000a00001b20a09208460073c003460009b0001a20a05208400073d003470009600019209fe208240073e003480009100018209f92081d0073f003490008c00017209f420810007400034a0008700016209ef20806007410034b0008200015209ea208ae007420034c0007d00014209e6207fa007430034d0007800013209e0207a1007440034e0007300012))
  (.nd (.lf
  0x1211e1211d1211c1211a12119121181211712115121141211312112121101210f1210e1210d1210b1210a12109121081210612102121011210312100120fe120fd120fc120fa120f8120f7120f6120f5120f3120f2120f1120ef120ee120ed12105120ec120ea120e9120e8120e6120e5120e4120e3120e1120e0120df120de120dc120db120da120d9120d7120d6120d5120f9120d4120d2120d1120d0120ce)
  (.lf
  0x1550612773127621240b122e31aec41adeb1a5231a5101a505155d315508127751276312407123091aebe1aded1a5251a5111a506155ce1550a127771276412402122ee1aeba1adef1a5271a5121a507155c91550c1277912765123f7122de1aeb41adf11a5291a5131a508155c41550e1277b12766123f4122d71aeaf1adf31a52b1a5141a509155bf155101277d12767123f0122e01aea81adf51a52d1a515)))
  (.nd (.nd (.lf
  0xb6ea0b6e90b6e70b6e60b6d30bb890bb870bb850bb8b0bb840bb820bb8c0bb800bb7e0bb7c0bb7a0bb780bb770bb750bb740bb720bb700bb6e0bb6d0bb6b0bb690bb680bb650bb640bba80bb630bb600bb5f0bb5d0bb4c0bb4b0bb490bb470bb460bb440bb430bb410bb3f0bb3d0bb3c0bb390bb380bb370bb330bb310bb2f0bb1a0bb190bb180bb160bb140bb130bb120bb0f0bb0e0bb0b0bb0a0bb090bb06)
  (.lf
  0x1a7ed194aa194a818c5a189041a8041a7dd1947a1947818c3c1889f1a7c31a7a1194681946618be6188d51a79d1a5a6194701946e18b571885f1ac001a57a1945e1945c18b2d1882b1b5031b4e61a3c31a3c119b5c1920e1920a192091b4f91b4d61a35b1a35919ba0191f6191f2191f11b4ae1b4a11a32e1a32c19b45191de191da191d91b49f1b46b1a30c1a30a19b34191bc191b9191b81b4611b4481a2e6))
  (.nd (.lf
  0x1d0341d0331d0321d0301d02d1d02c1d0501d02b1d0291d0281d0271d0221d0211d0201d0241d01f1d01d1d01c1d01b1d0191d0141d0131d0411d0121d0101d00f1d00e1d00c1d00b1d00a1d0091d0071d0061d0051d0041d0021d0011d0001d0361cfff1cffd1cffc1cffb1cf711cf6d1cf6c1d03a1cf6b1cf591cf531d03d1cf521cf501cf491cf481cf461cf441cf431cedf1cedd1cedb1ceda1ced91ced6)
  (.lf 0)))

def shaXorOrder111 : BTree :=
  .nd (.nd (.nd (.lf
  0x20923209212092020f5320f5120f4f20f4120f3f20f3e20f3720f3520f3320f3220f3120f2e20f2d20f2b20f2820f2a20f2720f2520f3920f1820f1620f1420f1220f1120ef320ef120ef020f1b20ee920ee720ee420ee220ee120ed620ed420ed320ed120ecc20ecb20ece20eca20ec820ec620ec420ec320ecd20ec120ebe20ebd20eba20eb920eb820eb520eb420eb320e2d20e2c20e0c20e0920e0720df7)
  (.lf
  0xa87c0a82f0c1990b3dd0afb20a83e0a8300c1790b3c60afb30a8400a8310c1590b3c70afb40a8420a8320c1370b3c80afb50a8440a8330c1140b3c90afb60a8460a8340c0f30b3ca0afb70a8480a8350c0d30b3cb0afb80a84a0a8360c0b30b3cc0afb90a84c0a8370c0910b35c0afba0a84e0a8380c06e0b35d0afbb0a8500a8390c04b0b35e0afbc0a8520a83a0c02a0b35f0afbd0a8540a83b0c00a0b360))
  (.nd (.lf
  0x86c2086bb086ba086b8086b2086ab086aa086a8086a10869a0869908697086900868908688086860867f0867808677086750866e0866708666086640865f086580865708655086510864a0864908647086410863a0863908637086320862b0862a08628086240861d0861c0861a086160860f0860e0860c08606085ff085fe085fc085f5085ee085ed085eb085e4085dd085dc085da085d3085cc085cb085c9)
  (.lf 0))) (.nd (.nd (.lf
  0x1df291df281df271df251df241df231df221df201df1f1df1d1df1c1df1a1df181df171df161df141df121df111df101df0e1df0c1df0b1df0a1df081df061df041df051df031df011df001deff1defd1defc1defb1defa1def81def71def61e0201def51def31def21def11deee1deea1dee91deeb1dee81dee61dee51dee41dee21dee11dee01deef1dedf1dedd1dedc1dedb1ded91de051dda81dda71dda4)
  (.lf
  0x47df05d5c05cf8053d8053d604df604831047eb047e005d5505cf9053c2053c004df704833047ec047e105d5105cfb053b1053af04df804835047ed047e205d4d05cfa053a3053a104df9047f7047ee047e305d4705ced053980539604dfa047f9047ef047e405d4405ce40538e0538c04dfb047fb047f005d3e05ce5053830538104dfc047fd047f105d3905ce6053790537704dfd047ff047f205d3105cd8))
  (.nd (.lf
  0x10577105741056d1056c1056910562105611055e1055610555105521054b1054a10547105401053f1053c1053510534105311052a10529105261051f1051e1051b105141051310510105091065410652106511064a1064910647106461063f1063e1063c1063b10634106331063110630106291062810626106251061e1061d1061b1061a1061310612106101060f10608106071060510604105fd105fc105fa)
  (.lf 0)))

def shaXorOrder112 : BTree :=
  .nd (.nd (.nd (.lf
  0x1b9821b2901c1511c1581b9e91c3831c4d61c1d81c80d1c82d1c59b1ca501cb331c8ef1cdc71ce1a1cbca1d04d1d1021cee01d2b51d3811d1791d5b81d5be1d4151d6e11d77000582002270058400585008ed00f6f0016f00f7100f7200b1d015b0000b7015b2011300188a01bf7017320222c006f50222e01d750286500f780286702868023ad02e8f015ba02e9102e93029e6034cc01bfd034ce034d003011)
  (.lf
  0x784b0784807847078460784307842078410783e0783d0783c0783907838078370783407833078320782f0782e0782d0782a0782907828078250782407823078200781f0781e0781b0781a0781907816078150781407811078100780f0780c0780b0780a078070780607805078020780107800077fd077fc077fb077f8077f7077f6077f3077f2077f1077ee077ed077ec077e9077e8077e7077e4077e3077e2))
  (.nd (.lf
  0x1a41b1a41a1a4191a4171a4131a4121a4111a40f1a40e1a40d1a4151a40c1a40a1a4091a4081a4071a4051a4041a4031a4011a4001a3ff1a4141a3fe1a3fb1a3ce1a3d21a3cd1a3cb1a3b31a3b21a3af1a3ae1a3ad1a3b01a3ac1a3aa1a3a91a3a81a3a61a3161a3151a33b1a2fe1a2fc1a2fb1a2fa1a2f81a2e11a2a71a2a61a2a41a2a31a28a1a28c1a2891a2871a2761adbf1adbd1adbc1adbb1adba1adb8)
  (.lf
  0x2aac022940225401c7c01683034bc03498028b0028700229701ccc01c8c01c810349303474028b1028710229801cce01c8d01c820347b03455028b2028720229901cd001c8e01c830345003431028b3028730229a01cd201c8f01c840343803412028b4028740229b01cd401c9001c850340d033ef028b5028750229c01cd601c9101c86033ea033cb028b6028760229d01cd801c9201c87033d2033ab028b7)))
  (.nd (.nd (.lf
  0x1e4f21e4f11e4e71e4e61e4e41e4e31e4e11e4df1e4de1e4dd1e4d71e4d51e4d41e4d31e4cb1e4ca1e4c91e4c81e4c61e4bc1e4bb1e4c01e4ba1e4b81e4b71e4b61e4b41e0631e0051e0061e0041e0021e0011e0001dffe1dffd1dff81dff71dff51dff01dfef1dfee1dfe91dfc51de1a1deb31de191de0a1ddc21ddb41dda61dda21dd651dd6e1dd641dd621dd081dcff1dcfd1dcea1dcb71dcb61dcb01dcaa)
  (.lf
  0x4d3705a300532e04fc104f7604f7104d1305a310532f04fc304f7704f7204cf405a320533004fc504f7804cd005a330533104f8704f7904cb105a340533204f8904f7a04c8d05a350533304f8b04f7b04c6d05a360533404f8d04f7c04c4d05a370533504f8f04f7d04c2d05a380533604f9104f7e04c0e05a390533704f9304f7f04beb05a3a0533804f9504f8004bc705a3b0533904f9704f8104ba705a3c))
  (.nd (.lf
  0x54a00549f0549e0549c0549b0549a05499054970549605495054940549205491054900548f0548d0548c0548b0548a05488054870548605485054830548205481054800547e0547d0546b0546a0546805467054540545305451054500543e0543d0543b0543a0542805427054250542405412054110540f0540e053fc053fb053f9053f8053e6053e5053e3053e2053d0053cf053cd053cc053ba05caa05ca8)
  (.lf 0)))

def shaXorOrder113 : BTree :=
  .nd (.nd (.nd (.lf
  0x12f3612ef512ef712ef912efb12e6d130bd130bf130c2130201302213024139cf139d1139d3139d5139a8139d7139d9139db139dd13a9c139e0139e2139e4139e6139e8139ea139ec139ee139f0139f2139f4139f6139521395a139f8139fa139fc139fe13a0013a02141cd141d9141bf141c1141ad141e7141e9141eb141ed141ef141f1141f3141f5141f7141f9141fb1419514197141991419b1419d1419f)
  (.lf
  0x203c62036a204c9203c12036c204cc203b92035920525203bb203b3205421fd191fd0e205611fd071fd042049c1fcc11fcbc204e01fcac1fca720a49201611fd571fd561fd4e200de1fc141fa2b1f5331f52607c7307c7007c65105050b6c8067b00be9c08cb508ca9113460c67606bf80ce3e09b6909b5f121850d62f0876412a5b0de0b0a970133200e5ea0962d13be90edc00b6cc144be0eeae0bea014d89))
  (.nd (.lf
  0x108881086510864107f1107ed107d2107d1107ca107c9107b8107ba107b7107b31071c1071b107051075810703106ff106f7106f5106e1106e0106d8106d7106c5106c1106a4106a3106601096d10969109681096710966109641096210961109601095e1095c1095b1095a1095810957109561096a109551095310952109511094f1093d1093b1093c1093a109381093710936109341093310932109311092f)
  (.lf
  0xe7fb0e7321733117077167b9167a41679911cd511c180ee900ee7c0e7f50e7261731217079167bb167a51679a11cd011c1a0ee920ee7d0e7ef0e71a172f31707b167bd167a61679b11ccb11c1c0ee940ee7e0e7e90e70e172d41707d167bf167a71679c11cc611c340ee960ee7f0e7e30e702172b51707f167c1167a81679d11cc111c360ee980ee800e7dc0e6f61729617081167c3167a911cbc11c380ee9a)))
  (.nd (.nd (.lf
  0x88df088de088dd088dc088da088d9088d8088d7088d5088d4088d3088d2088d0088cf088ce088cd088cb088ca088c9088c8088c6088c5088c4088c3088c1088c0088bf088be088bc088bb088ba088b9088b7088b6088b508977088b4088b2088b1088b0088ae088a9088a8088a7088a5088a00889f0889e0889c088970889608895088930888e0888d0888c0888a088850888408883088810887c0887b0887a)
  (.lf
  0x16aa915a5515a531536014980148d716aa416a8215a4d15a4b153581494e148c616a7e16a7315a3115a2f1534b14950148b416a6c16a68159de159dc1533d149dd1493116a5f16a10159d0159ce153421492116a0d169be159b9159b715334149e316a08169b9159ad159a715328149e4169fb169b5159ae159a815397149c8169f5169c5159af159a914f95149af169c91698d159471594514f9f149691697c))
  (.nd (.lf
  0x1c0d21c0d01c0cf1c0cd1c0cb1c0ca1c0c91c0c71c0c61c0c41c0c31c0c11c0bf1c0be1c0bd1c0751c0741c06d1c06c1c0691c0681c0611c0601c05e1c05c1c0561c0551c0531c0511c0491c0481c0461c0451c0401c0421c03f1c03d1c0331c0321c0311c02e1bfff1bffe1bffc1bffa1bff91bff81bff61bff31bff21bff11bfed1bfec1bfeb1bfea1bfe81bfe71bfe51bfe41bfe01bfdf1bfde1bfdd1bfdb)
  (.lf 0)))

def shaXorOrder114 : BTree :=
  .nd (.nd (.nd (.lf
  0x143d914375143b314341149ee149ed149eb149c7149b31498714986149811494f149511493214922149ea149e5149c9149b01496a14976149831495314955149e7149e9149cb149b21496c149781498514957149591544b15467154531543f1546d153ff1547115407153de1540c153d0153bd154621545515441154331541915473153ec153db1540e154641545715465154431540215475153ee153dd15410)
  (.lf
  0x1bbe01bbc01bbb01ba401ba301ba101ba001b8801b8701b8501b8401b6d01b6c01b6a01b6901b5301b5201b5001b4f01b3701b3601b3401b3301b1a01b1901b1701b1601aff01afe01afc01afb01ae301ae201ae001adf01ac601ac501ac301ac201aab01aaa01aa801aa701a8f01a8e01a8c01a8b01a7401a7301a7101a7001a5801a5701a5501a5401a3b01a3a01a3801a3701a1e01a1d01a1b01a1a01a03))
  (.nd (.lf
  0x152dc152db152da152d8152d7152d5152d6152d4152d2152d1152d0152ce152cd152cc152cb152c9152c8152c7152c6152c1152c0152bf152be152bc152ba152b9152b8152b6152b5152b4152bb152b3152b1152b0152c4152af152ad152ac152ab152a9152a8152a7152a6152a4152a3152a2152a11529f1529e1529d1529c1529a15299152981529715295152941529315292152901528f1528e1528d1528b)
  (.lf
  0xfc6009b3007c3007a3007790077020ec720ea301a8001a600100700fc7009b4007c4007a40077a0077120ec220ea501a5b01a430100800fc8009b5007c5007a50077b0077220ebf20ea701a3e01a260100900fc9009b6007c6007a60077c0077320ebb20e8f01a2101a080100a00fca009b7007c7007a70077d0077420eb620e8901a0f019ef0100b00fcb009b8007c8007a80077e0077520e1320e0b019ea)))
  (.nd (.nd (.lf
  0x11fc411fc311fc111fc011fbe11fbc11fba11fb911fb711fb611fb411fb211fb011faf11fad11fac11faa11fa111fa011f9f11f9d11f9b11f9a11bf211bf111bf011bed11bec11beb11be911be811be611be411be211be111bdf11bde11bdc11bda11ad611ac511ac211ac011ab111aaf11aad11a9e11a9c11a9011a6a11a6711a6611a6511a6311a621267e1267c1267b1267a1267912677126681266712666)
  (.lf
  0x33b00314002e60025a0022d209b8209ad00fb5007120033c00315002550022c209a8208a500fb6007130033d00316002500022b208a02087f00fb7007140033e003170024b0022a07b30079cf079c206e5a06e4d0439c0438207b31079ca079c406e5506e4f0437d0436b0f5740f5480a9b20a9670667b049d3049b30f5630f54a0a9980a9690667c049ae0499b20c4b20c49204dd1fb231fb201fb1f1fb1e))
  (.nd (.lf
  0x20dd020bf020be020bc020bb0209e0209d0209b0209a0207c0207b020790207802059020580205602055020380203702035020340201602015020130201201ff301ff201ff001fef01fd201fd101fcf01fce01fb201fb101faf01fae01f9201f9101f8f01f8e01f7201f7101f6f01f6e01f5001f4f01f4d01f4c01f2f01f2e01f2c01f2b01f0f01f0e01f0c01f0b01eed01eec01eea01ee901ecc01ecb01ec9)
  (.lf 0)))

def shaXorOrder115 : BTree :=
  .nd (.nd (.nd (.lf
  0x20084200592005c1ffd71ffda1ffca200501ffcc1ffce1ffe21fe581fe3a1fe001fe061fdb71fdba1fdae1fd61203561fc901fd011fc511fc9e2094a2094220960207e3207e620a36207d0207d3207e9207e8207f0207f4207f5207a92078a2073c206f12075620627205d4205f5205f9205c7205d7205af20592205702054f204e82047720e8420e8320e7320e6d20e6420e6720e5c20e5020e5220e5520ed9)
  (.lf
  0x130c0130af130ac150ae141be139b21301f1300b13009150ab141c0139b3130211300c1300a1507e141ac139b4130ad130231300d1507614185139b5130251300e1507214179139b6130101300f1506b1417d139b712f3412f331506514167139b812ef012eec1506214168139b912ef112eed1505c14169139ba12ef212eee150441416a1394e12ef312eef150411414413957130b012e6b15039141381393f))
  (.nd (.lf
  0xb1030b0fc0b0fb0b0f90b0f30b0ec0b0eb0b0e90b0e40b0dd0b0dc0b0da0b0d60b0cf0b0ce0b0cc0b0c80b0c10b0c00b0be0b0b80b0b10b0b00b0ae0b0a70b0a00b09f0b09d0b0980b0910b0900b08e0b0880b0810b0800b07e0b0770b0700b06f0b06d0b0680b0610b0600b05e0b05c0b0590af150af130af120af110af100af0e0af0d0af0c0af0b0af090af080af070af060af040af030af020af010aeff)
  (.lf 0))) (.nd (.nd (.lf
  0x2093a2093920937209362093420933209312092f2092e2092d2091a2077b20779207782077620774207732077220770207392073620735207332073220731207302072e2072c2072b2072a20728207222072120724207202071e2071d207262071c2071a207192076b207182071620715207142071220711207102070f2070d206fa206ed2073d206ec206ea206e9206ee206e8206e6206e5206e4206e2206e1)
  (.lf
  0xae290c9440c9290bc0d0bc030b44d0ae7d0ae350ae2a0c9240c9090bc0e0bc040b44e0ae3f0ae360ae2b0c9040c8e90bc0f0bc050b4220ae410ae370ae2c0c8e40c8c90bcc60bcc40b4170ae430ae380c8c50c8a80bbe10bbdf0b4070ae450ae390c8a90c8870bbd10bbc90b4080ae470ae3a0c8830c8650bbd20bbca0b4090ae490ae3b0c8600c8440bbd30bbcb0b40a0ae4b0ae3c0c83f0c8240bbd40bbcc))
  (.nd (.lf
  0x13eec13eeb13eea13ee713ee613ee513ee213ee113ee013edd13edc13edb13ed813ed713ed613ed313ed213ed113ece13ecd13ecc13ec913ec813ec713ec413ec313ec213ebf13ebe13ebd13eba13eb913eb813eb513eb413eb313eb013eaf13eae13eab13eaa13ea913ea613ea513ea413ea113ea013e9f13e9c13e9b13e9a13e9713e9613e9513e9213e9113e9013e8d13e8c13e8b13e8813e8713e8613e83)
  (.lf 0)))

def shaXorOrder116 : BTree :=
  .nd (.nd (.nd (.lf
  0x1d57b1d5681d57c1d5591d5581d54d1d5461d5421d5791d52a1d51e1d5151d5091d4d61d4f71d4ca1d5021d4cb1d4f41d4cc1d4a81d4cf1d4961d4f21d4841d4761d6e01d6d71d6d11d6cb1d6c51d6c11d6b61d6b51d6ab1d6b81d6a21d69b1d6921d68f1d6951d6871d67a1d67c1d6711d66d1d6651d65f1d6581d6541d64e1d63a1d6361d6e41d62d1d63f00569005670055b005590054d0054b0053f0053d)
  (.lf
  0x70730706c0706b0706807061070600705d0705607055070520704b0704a07047070400718407182071810717a0717907177071760716f0716e0716c0716b07164071630716107160071590715807156071550714e0714d0714b0714a0714307142071400713f071380713707135071340712d0712c0712a0712907122071210711f0711e071170711607114071130710c0710b07109071080710107100070fe))
  (.nd (.lf
  0x1773817737177361773417732177311813c1813a18139181381813718135181341813318132181301812f1812e1812d1812b1812a18129181281812618125181241812318121181201811f1811e1811c1811b1811a18119181171811618115181141811218111181101810f1810d1810c1810b1810a18107181061810518104181021810118100180ff180fd180fc180fb180fa180f8180f7180f6180f5180f3)
  (.lf
  0x1c29d1736e1735114c53146a0146241c65b1c5ed1c29f1734c1732b14c541468e146251c6121c5ef1c2a1173261731014c551468a146271c60d1c5f11c2a31730b172ef14c5614684146261c6041c5f31c2a5172ea172d214c571467f146221c9b51c93a1c5ec17e2d17d421550f14fca14ee81c9af1c93c1c5ee17e2817d441551114fac14f5b1c9a21c93e1c5f017e2317d461551214fa914ee91c99f1c940)))
  (.nd (.nd (.lf
  0x174c1174da174c0174ba174b3174b2174b0174af17494174aa17492174901747a1747c174741747217119177ee177ec177e5177ca177c8177c5177c4177c21775a17764177511774f177221770f1770a17708177021770117700176ea176a9176921768f1768d176e11768b176891767b17679176701765b1764f176471763a176311762c1762b176161761317600175fd175fb175e4175e2175e0175d4175d2)
  (.lf
  0x1fc431fc3d1fc3a1fc371fc3420866201001ffa11fddc1fd4c1fc251fc1d1fc1c2084b200cd1ff9c1fc031fbfb1fbf81fbf720868202191ff991fbf21fbee1fbec1fbeb20830200a91ff941fbe21fbe11fbde1fbdc20831200bb1ff8e1fcf51fbd61fbd11fbd02082f200f01ff891fde41fde01fdde1fddd208b0200121ff841fbc71fbc41fbc01fbbf2089d200511ff7e1fa391fa381fa361fa352082d1fffb))
  (.nd (.lf
  0x35c3035c2035c1035bf035be035bd035bc035ba035b9035b80411d0411b0411a0410204101040ff040fe040e2040e1040df040de040c0040bf040bd040bc0409f0409e0409c0409b0407f0407e0407c0407b0405d0405c0405a040590403c0403b04039040380401a04019040170401603ff903ff803ff603ff503fd903fd803fd603fd503fb903fb803fb603fb503f9903f9803f9603f9503f7903f7803f76)
  (.lf 0)))

def shaXorOrder117 : BTree :=
  .nd (.nd (.nd (.lf
  0xd0930d0920d0400d03e0d03d0d0050d0030d0020cfe60cfe40cfe30cfc80cfc60cfc50cfa90cfa70cfa60cf8a0cf880cf870cf6c0cf6a0cf690cf4e0cf4c0cf4b0cf2f0cf2d0cf2c0cf0e0cf0c0cf0b0ce820ce800ce7f0d9ad0d9a70d9a60d93a0d9380d9360d9240d9200d91e0d8ea0d8e00d8de0d8cd0d8cb0d8c80d8ae0d8aa0d8a40d7870d7850d7840d74e0d74c0d74b0d7300d72e0d72d0d7110d70f)
  (.lf
  0x1ba4d1b8351ac661a1b419a5d198fe1ba471b82d1ac4c1a17319a5f198f91ba421b8221ac451a16519a61198d71ba3e1b8211ac521a12819a27198aa1ba351b81b1ac361a10219a63198ab1ba321b8101ac571a0ee19a65198881ba291b8091ac5c1a0cf19a67198791ba261b78a1ac271a09d19a69197e91ba0a1b77c1ac1f19ebb19a29197ea1ba041b7731ac1519e9219a04197d81ba001b7641ac0d19e6d))
  (.nd (.lf
  0xd9110d8fa0d8f90d8f70d8f60d8db0d8dd0d8da0d8d80d8bc0d8be0d8bb0d8b90d89d0d8a30d89c0d89a0d8820d8810d87f0d87e0d8660d8650d8630d8620d84d0d84c0d84a0d8460d8310d8300d82e0d82a0d8150d8140d8120d80e0d7f90d7f80d7f60d7f20d7dd0d7dc0d7da0d7d60d7c10d7c00d7be0d7ba0d7a60d7a50d7a30d79f0d78b0d78a0d7880d7820d76e0d76d0d76b0d7660d7520d7510d74f)
  (.lf
  0x1214c0d97b0d5e008ae80883e07afc07aee07ae3071af071a2122b01214e0d9600d5e208ae30883807afd07aef07ae4071b0071a3122a5121500d9440d5e408ade0882407afe07af007ae5071b1071a41229a121520d9270d5e608ad90881e07aff07af107ae6071b2071a51228f121540d9090d5e808ad40881807b0007af207ae7071b3071a612284121560d8ed0d5ea08acf0881207b0107af307ae8071b4)))
  (.nd (.nd (.lf
  0x31700316f03154031530315103150031300312f0312d0312c03111031100310e0310d030ed030ec030ea030e9030db034bd034b6034b40349703495034940347c034730347103454034520345103439034300342e034110340f0340e033ee033ec033eb033d3033ca033c8033b3033aa033a8033930338a033880336b03369033680334803346033450332503323033220330a03301032ff032ea032e1032df)
  (.lf
  0x106b20fce30fb82114d5114ca10689106850fcb20fb841202111bd1110861108410b9c1032f103201031c1201d11bc21104c1104a10b9d10330103211031d1201711bc41103b1103910b3010332103221031e1201411bc510ff510ff310a8d102ca102c0102bd11fe811bc810fc510fc310a2a102cc102c1102be11fe211bae10fb510fb310a2b102cd102c2102bf11fdf11bb410f8710f85109f91027c10267))
  (.nd (.lf
  0x182de182dc182db182d9182d7182d6182d5182d3182d1182cb1828f1828d1828b1828518284182821827f18278182771827518274182721826a182681826718262182611825c1825a182591825818256182541825318252182501824f1824d1824c1824a182491824517e9817e9517e9317e9417e9217e8f17e8e17e8c17e8a17e8917e8717e8517e8417e8117e8017e7f17e7d17e7b17e7a17e7817e7717e75)
  (.lf 0)))

def shaXorOrder118 : BTree :=
  .nd (.nd (.nd (.lf
  0x1580a158b7157e7157b5161cb161cf161bf161d0161c1161b0161af161aa1619d161cd161921619316188161821617c16176161701616a161641615e161511614116132161201611016100160ed160d5160bb1609c16be216be116bd116bca16bc816bc916d2016bb916bb816bb716b2e16b1f16b0f16b0216ae716a5016a4a16a4916a3016a2f16a2e16a3d1693c16932169261691b1698e16906168bd168c2)
  (.lf
  0x6d9006bc306ad306abe06ab3002bd06d7f06bc506ad506abf06ab4002b806d6e06bc706ad706ac006ab5002b306d5d06bc906ad906ac106ab6002ae06d4c06bcb06adb06ac206ab7002a906d3b06bcd06add06ac3002a406d2a06bcf06adf06ac40029f06d1906bd106ae106aa20029a06d0806bd306ae306aa40029506cf706bd506ae506aa60029006ce606bd706ae706aa80028b06cd506bd906ae906aa9))
  (.nd (.lf
  0x12981129801297f1297d1297c1297b1297a12978129771297612975129731297212971129701296e1296b1296a129691296712966129651305213049130481303f1303e12f4c12f4b12f4a12f4612f4312f4112f3d12f3c12f3812f3712f0312f0212e6512e6712e6412e6012e5c12e5b12e3b12e3a12e3612e3512e1212e1012d7112d7012d6f12d6b12d6512d6412d6012d5f12d5b12d5a12d3612d3512c9e)
  (.lf
  0x1674013adc13ac5136b1134831c0781bf011b6ca1b6b11b6a61673a162ee13ade13ac6136ac134771c06e1bf031b6cc1b6b2167821673613ae013ac7136a7134711c0631bf051b6ce1b6b316732162f113ae213a9e13616134721c0571bf071b6d01b691167801672d13ae413aa01360f134791c04b1bf091b6d21b69316729162f413ae613aa21360a134781c0391bf0b1b6d41b6951677e1672513ae813aa4)))
  (.nd (.nd (.lf
  0xc6960c6940c6930d28f0d28d0d28c0d28b0d28a0d2880d2860d2850d2840d2820d2810d2800d27f0d27d0d27c0d27b0d2870d27a0d2780d2770d2760d2740d2730d2720d2710d26f0d26e0d26d0d26c0d26a0d2690d2680d2670d2650d2640d2630d2620d2600d25f0d25e0d25d0d25b0d25a0d2590d2580d2570d2550d2540d2530d2510d2500d24f0d24e0d24c0d24b0d24a0d2490d2470d2460d2450d244)
  (.lf
  0x1b3eb1aaac1a2861a2821a2811db521db331b3971b3951aa9c1a2741a2721a2711db3f1db271b36a1b3681aa5f1a23d1a23c1a23b1db0a1daf51b3a71b3a51aa561a3f61a2091a2081daf61dac91b3471b3451aa401a3f71a1eb1dad41daa91b30b1b3091aa341a3c71a1d01dab41da911b2d51b2d31aa1c1a35f1a1bb1da881da7e1b2ca1b2c81aa131a3321a1a71da6c1da541b2b41b2b21aa071a3101a199))
  (.nd (.lf
  0x1d4b81d4b71d4b51d4b21d4b11d4b01d4af1d4ad1d4ab1d4a91d4a61d4cd1d4a51d4a21d4a11d4951d4931d4921d4911d48e1d48d1d4871d4831d4821d4751d4741d5c01d5bd1d5bb1d5ae1d5b01d5ac1d5aa1d5a91d5ad1d5a81d5a61d5a51d5c31d5a41d5a21d5a11d5af1d5a01d59e1d59d1d59c1d59a1d5991d5981d5971d5951d58a1d5891d5881d5861d5851d5841d5831d5811d5801d57f1d57e1d578)
  (.lf 0)))

def shaXorOrder119 : BTree :=
  .nd (.nd (.nd (.lf
  0x1fcb91ffb81ffb51ffb41ffb31ffb01ffaf1ffba1ffae1ffab1ffaa1ffa81ffa71ffa51ffa31ffa21ffa01ff9f1ff9d1ff9b1ff981ff971ff961ff931ff921ff911ff8f1ff8d1ff8c1ff8a1ff881ff871ff851ff831ff821ff801ff7f1ff7d1ff7c1ff791ff781ff751ff741ff731ff701ff6f1ff6e1ff6c1ff6a1ff691ff671ff651ff641ff611ff601ff5f1ff5d1ff5c1ff5a1ff581ff561ff551ff531ff51)
  (.lf
  0xbd6a0d7aa0ccbc0c3530bd840bd6b0d78f0ccbd0c3540bd860bd6c0d7720ccbe0c3550bd880bd6d0d7560ccbf0c3560bd8a0bd4e0d7390ccc00c3570bd8c0bd4f0d71a0ccc10c3580bd8e0bd500d6fc0ccc20c3590bd900bd510d6db0ccc30c35a0bd920bd520d6b80ccc40c35b0bd940bd530d6950ccc50c35c0bd960bd540d6740ccc60c35d0bd980d6520ccc70c35e0bd9a0d6380ccc80c35f0bd9c0e1b7))
  (.nd (.lf
  0x8a6a08a6908a6808a6608a6508a6408a6308a6108a6008a5f08a5e08a5c08a5b08a5a08a5908a5708a5608a5508a5408a5208a5108a5008a4f08a4d08a4c08a4b08a4a08a4808a4708a4608a4508a4308a4208a4108a4008a3e08a3d08a3c08a3b08a3908a3808a3708a3608a3408a3308a3208a3108a2f08a2e08a2d08a2c08a2a08a2908a2808a2708a2508a2408a2308a2208a2008a1f08a1e08a1d08a1b)
  (.lf 0))) (.nd (.nd (.lf
  0x1e6d51e6d41e6d21e6d11e6cf1e6ce1e6cc1e6cb1e6c91e6c81e6c71e6c61e6c41e6c31e6c11e7ae1e6c01e6be1e6bd1e6bc1e6ba1e6b91e6b81e6b71e6b51e6b41e6b21e6dc1e6b11e6af1e6ae1e6ad1e6ab1e6901e68e1e68d1e68b1e68a1e6881e6df1e6871e6851e6841e6831e6811e6801e67f1e67e1e67c1e6791e6781e6771e6751e6731e6721e6711e66f1e66d1e66c1e66b1e6681e6671e6661e665)
  (.lf
  0x53f2053530823b07e9705e6805e2805889053dc052e90823607e6805e6905e290588a053c6052df0823107e3905e6a05e2a0588b05475053b50822c07e0a05e6b05e2b0588c053a80822707ddd05e6c05e2c0588d054790822207dad05e6d05e2d0588e054630821d07d7d05e6e05e2e0588f0544c0821807d4c05e6f05e2f05890054360821307d1e05e7005e3005891054200820e07cf005e7105e3105892))
  (.nd (.lf
  0x1127f1127e1127b1127a1127911276112751127411271112701126f1126c1126b1126a1126711266112651126211261112601125d1125c1125b11258112571125611253112521149911496114901148f1148c1148511484114811147a11479114761146f1146e1146b11463114621145f1145711456114531144b1144a114471143f1143e1143b11433114321142f1142711426114231141c1141b1141811411)
  (.lf 0)))

def shaXorOrder120 : BTree :=
  .nd (.nd (.nd (.lf
  0x1080d10800107ff107da1079210782107761076a1073b10733110361102d110211101a10fa810f9f10f7a10f5810f2f10f2610eb610e9f10e3c10e3310e1810e1110e0410dee10d8610d7d10d3110d2f1178f1178d1178811786117851178111772117701176d1176b116fc116f7116f4116eb116ea116e2116db116d9116d8116cf116a5116a311693116911164d116491162811622115fb115f8115f7115f5)
  (.lf
  0xb7150b70e0b70d0b70b0b6f50b6ee0b6ed0b6eb0b6d70b6d40c26d0c26a0c2560c2550c2520c2390c2380c2350c21d0c21c0c2190c2000c1ff0c1fc0c1e40c1e30c1e00c1c80c1c70c1c40c1a80c1a70c1a40c1880c1870c1840c1680c1670c1640c1460c1450c1420c1230c1220c11f0c1020c1010c0fe0c0e20c0e10c0de0c0c20c0c10c0be0c0a00c09f0c09c0c07d0c07c0c0790c05a0c0590c0560c039))
  (.nd (.lf
  0x193f0193e41986c1986a198691986719865198631986219861198601985e1985d1985c198681985b198591985819857198551985319851198501984e1984d1984a1984b198491984719846198451984219841198401983f1983d1983b1983a1983919837198361983519844198341983219831198301982e1982c1982b1982a19828198271982619825198231982219821198201981e1981d1981c1981b19819)
  (.lf
  0x19c8819c7a13e7013e6311c23114b91149f19c8019c7c13e6b13e6511c24114ac114a81a5a71a54e14c9c14c8f0ff4a0fcd30f4ca1a5711a55014c9714c910ff450fca20f4cb1ae3d1ae1b1555b1554e1275b12346122e41ae201ae1d15556155501275c122f8122e81b7271b6e915e2c15e1f1319b12bda12bb81b7111b6eb15e2715e211319c12bec12bd51bf5a1bf25166ea1630913ab8134a4134701bf2a)))
  (.nd (.nd (.lf
  0x1a0b41a0b11a0a71a0a61a0a41a09f19ec619ec519ec319ebd19e8919e8819e8619e8119e7519e7419e6e19e6119dc819dc919dc719dc519db219db119dab19da819da219da119d9f19d9419d8b19d8a19d8819d8319d3619d3519d3319d2e19d0f19d0e19d0c19d0719cf51a3d51a3bd1a3bb1a36a1a3551a3531a3881a3241a3221a31b1a3191a3041a3781a2ce1a2cc1a2f21a2c11a2bf1a2551a2531a251)
  (.lf
  0x24400242902029020270304302a38024420242a02006020040304402a39024440242b01fe601fe20304502a3a024460242c01fc601fc20304602a3b024480242d01fa601fa20304702a3c0244a0240e01f8601f820304802a3d0244c0240f01f6301f610304902a3e0244e0241001f4301f3f0304a02a3f024500241101f2301f1f0304b02a40024520241201f0001efe0304c02a41024540241301ee001edc))
  (.nd (.lf
  0x3138031350311603113030f5030f204d8004d7e04d6904d6204d6104d5f04d4804d4104d4004d3e04d2604d1f04d1e04d1c04d0504cfe04cfd04cfb04ce304cdc04cdb04cd904cc204cbb04cba04cb804ca004c9904c9804c9604c7f04c7804c7704c7504c5f04c5804c5704c5504c3f04c3804c3704c3504c1f04c1804c1704c1504bfd04bf604bf504bf304bda04bd304bd204bd004bb904bb204bb104baf)
  (.lf 0)))

def shaXorOrder121 : BTree :=
  .nd (.nd (.nd (.lf
  0x244d0244f02451024530245502457024590245b0245d0245f02461024630246502467024690246b02a6a02a6c02a6e02a7002a7202a7402a7602a7802a7a02a7c02a7e02a8002a8202a8402a8602a8802a8a02a8c02a8e02a9002a9202a9402a9602a9802a9a02a9c02a9e02aa002aa202aa40309503097030990309b0309d0309f030a1030a3030a5030a7030a9030ab030ad030af030b1030b3030b5030b7)
  (.lf
  0x1e9361e2221e1bf1e1bb1e1ba1e1b91efd11e8da1e21e1e18a1e1891e1851e1841ef5f1e8a91e23c1e21a1e1731e1711e16d1ef471e8881e1dc1e1d91e1d51e1cf1ef311e87c1e15a1e1561e1511e1501ef3a1e86e1e1411e1401e13f1e13d1ef151e8551e1321e1311e12e1e12c1ef231e84d1e1201e1031e0fe1e0fd1ef211e8641e11d1e11b1e1181e1171efeb1e83a1e10d1e0e31e0da1e0d91eef91e830))
  (.nd (.lf
  0xe4360e4350e4340e4320e4310e4300e4430e42f0e42d0e42c0e42b0e4290e4280e4270e4260e3a50e3a40e37b0e37a0e3780e3770e35e0e3600e35d0e35b0e3340e3360e3330e3310e3190e3180e3160e3150e2e80ed360ed340ed330ed320ed310ed2f0ed2e0ed2d0ed2c0ed2a0ed290ed280ed270ed250ed240ed230ed220ed200ed1f0ed1e0ed1d0ed1b0ed1a0ed190ed180ed160ed150ed130ed120ed10)
  (.lf
  0xef640ee8d0ce300cdec0c0b00c0a3145641449f13bcf13b900ef590ee8f0ce320cdee0c08e0c08014559144a113bd113b920ef4e0ee910ce340cdf00c06b0c05d1454e144a313bd313b930ef430ee930ce360cdf20c0480c03c14543144a513bd513b940ef380ee950ce380cdf40c0270c01c14538144a713bd713b950ef2c0ee970ce3a0cdf60c0070bffc1452d144a913bd913b960ef200ee990ce3c0cdf8)))
  (.nd (.nd (.lf
  0x52e4052e3052e1052e0052da052d9052d7052d6052d1052d0052ce052cd052c8052c7052c5052c4052bf052be052bc052bb052b6052b5052b3052b2052ad052ac052aa052a9052a4052a3052a1052a00529b0529a052980529705292052910528f0528e052890528805286052850528005259052570522d0521a0521805217052030520105200051ee051eb051e9051da051d7051d5051c4051c2051c105255)
  (.lf
  0x12ce9124d711ef913f2e13f0e12cd012cce124cb11efb13f0913df212cb412cb21246911edb13de613dc512c7212c701243d11ebf13dde13dbf12c5412c521238611ec113dd113dbb12c3912c371235e11ec313dbc13db412c1c12c1a1234011ec513d9113d7512bfb12bf91231d11e8714b9f14890138531384413082126931268c1268a14b651488213816138141306e126711266e1266d14b5b1487e1380c))
  (.nd (.lf
  0x196211961f196101960d1960b195fb195f9195f81a7401a7381a7371a7351a6641a6621a6611a65d1a65b1a65a1a6571a6561a6551a6521a6511a6681a6501a64a1a6491a6451a6441a6431a6401a63e1a63d1a63a1a6391a64e1a6381a6351a6341a6321a62d1a62c1a6291a6281a6271a6241a6221a6301a6211a61f1a5fb1a5f91a5f71a5f51a5f21a5f11a5fd1a5f01a5ed1a5ec1a5e81a5e71a5e61a5e3)
  (.lf 0)))

def shaXorOrder122 : BTree :=
  .nd (.nd (.nd (.lf
  0x2f6902f6b02f6d02f6f02f7102f7302f7502f770357a0357c0357e03580035820358403586035880358a0358c0358e03590035920359403596035980359a0359c0359e035a0035a2035a4035a6035a8035aa035ac035ae035b0035b2035b403ba103ba303ba503ba703ba903bab03bad03baf03bb103bb303bb503bb703bb903bbb03bbd03bbf03bc103bc303bc503bc703bc903bcb03bcd03bcf03bd103bd3)
  (.lf
  0x1fdbc200cf1fdaf1fda91fda4200c21fd6b1fd681fd66200b51fd3b1fd3a1fd3920167200c51fd2e1fd292009b1fcff1fcfa2004e1fcf11fce7200251fcb81fca01b1701b9701b91718dae18c981b96c1b91918db018c841b9651b91b18db118c6c1b95f1b91d18db218c631b95b1b91f18db318c5b1b9561b92118db418c401b9511b92318db518bd51b94e1b92518b5118b3a1b92d1b92718db618b091c137))
  (.nd (.lf
  0x13dab13da913da813da613da513da413da313da113da013d9f13d9e13d9c13d9b13d9a13d9913d9713d8713d44138d5138d3138d2138d1138d0138ce138cd138cc138cb138c9138c8138c7138c6138c4138c3138c2138d7138c1138bf138be138bd138bb138b9138b8138b7138b5138b4138b3138b2138b0138af138ae138ad138ab138aa138a9138a8138a6138a5138a3138a2138a01389f1389e1389d1389b)
  (.lf
  0x1cc4f1934e18da1162ef162e1162df161c7160981cfee1cf051cc6c1cc5b1cc501934918da3162f0162e2161bd160971cfea1cf071cc6e1cc5c1cc511934518da5162f2162e3161ba160961cfe21cf091cc701cc5d1cc521934018da7162f3162e4161b6160951cfdc1cf0b1cc721cc5e1cc531933b18da9162f5162e5161b11608e1cfd51cf0d1cc741cc5f1cc541933418dab162f6162e6161a71608d1cfd0)))
  (.nd (.nd (.lf
  0xf9eb0f9e80f9e70f9e40f9e30f9e20f9df0f9de0f9dd0f9db0f9d90f9d80f9d60f9d40f9ea0f9d30f9d00f9cf0f9cc0f9c70f9c60f9c40f9be0f8ff0f8fd0f8fc0f8d70f8d50f8d2103071030610303103021030510301102ff102fe1030a102fd102fb102b0102af102ad102ac102a6102a5102a3102a21029a10299102971029510231102301022e1022d1022c1022b102291022810227102261022510223)
  (.lf
  0x1e5cd1fc391f9471ed7b1ed791e7c21e5b21e5ac1e5a51fc231f9391ed6f1ed6d1e7b21e5b31e5af1e59a1fbf51f9371ed3a1ed2c1e78b1e58d1e57c1e5781fbe81f93c1ed1b1ed141e7aa1e5721e55c1e55a1fbe51f92a1ece11ecdf1e7931e54d1e54a1e53a1fbd81f9251ed031ecf81e8131e52e1e51c1e51b1fdda1fbcb1ecec1ecea1e7661e52f1e5111e5101fbc81f9401ecc41ecc21e7511e5fd1e508))
  (.nd (.lf
  0xc4c00c2f00c2e00c2c00c2b00c0f00c0e00c0c00c0b00bed00bec00bea00be900bcc00bcb00bc900bc800bac00bab00ba900ba800b8c0016e0016a001690016500164001600015f0015b0015a001560015500151001500014c0014b001470014600142001410013d0013c001380013700133001320012e0012d001290012800124001230011f0011e0011a001190011500114001100010f0010b0010a00106)
  (.lf 0)))

def shaXorOrder123 : BTree :=
  .nd (.nd (.nd (.lf
  0xd1900d1710d1530d1340d1150d0f80d0da0d0bd0d09f0d0810d0650d0490d02c0d00f0cff10cfd20cfb40cf950cf760cf580cf390cf190cef40ced20ceb00d43a0ce640dae10d98f0dae00d9580d9e10d9c10d9db0d9e00d8c90d8ab0d88c0d86d0d8530d8370d81b0d7ff0d7e30d7c70d7ab0d7900d7730d7570d73a0d71c0d6fd0d6de0d6b90d6960d6750d6540e3f10e3d90e3b50e3970e3690e34e0e324)
  (.lf
  0xfc3a1159010a621005c0fc4c0fc3b1158c10a5d1005d0fc4e0fc3c1158610a581005e0fc500fc3d1157f10a531005f0fc520fc3e1157b10a4e100600fc540fc3f1156210a49100610fc560fc401155910882100620fc580fc41115541085b100630fc5a0fc421154c1085c100640fc5c0fc431154710849100650fc5e0fc441154210811100660fc600fc451153c107fb0ff360fc620fc2611538107a80ff37))
  (.nd (.lf
  0xa3c90a3bf0a3be0a3bc0a3bb0a3b10a3b00a3ae0a3ad0a3a30a3a20a3a00a39f0a3930a3920a3900a38f0a3840a3830a3810a3800a3760a3750a3730a3720a3660a3650a3630a3620a3570a3560a3540a3530a3470a3460a3440a3430a3380a3370a3350a3340a3280a3270a3250a3240a3190a3180a3160a3150a30d08af508af108af008aec08aeb08ae708ae608ae208ae108add08adc08ad808ad708ad3)
  (.lf 0))) (.nd (.nd (.lf
  0x1f7cc1f7fa1f7cb1f7c91f7c81f7c71f7c51f7a11f7a01f79f1f79d1f79c1f79a1f7991f7971f7951f7941f7931f7901f78f1f78e1f78d1f78b1f78a1f7891f7881f7831f7821f7811f7801f77e1f76f1f76e1f76d1f76b1f7691f7681f7671f7651f75e1f75d1f75c1f6f21f6f11f6f01f6f31f6ef1f6ed1f6ec1f6eb1f6e91f6e81f6e71f6e61f6e41f6d61f6b51f6f61f6b41f6b21f6b11f6b71f6b01f6ae)
  (.lf
  0x925e089a2089960a5e60a54b09832098280925f089a4089970a5e30a54a098330982909260089a6089980a5dc0a549098340982a09261089a8089990a5d90a548098350982b09262089aa0899a0a5d20a547098500984e091f4089ac0899b0a5cf0a546097fa097ee091e1089ae0897c0a5c80a545097fb097ef091e2089b00897d0a5c50a544097fc097f0091e3089b20897e0a5be0a543097fd097f1091e4))
  (.nd (.lf
  0x12b9512b8e12b8d12b8b12b8a12b8312b8212b8012b7f12b7812b7712b7512b7412b6d12b6c12b6a12b6912b6212b6112b5f12b5e12b5712b5612b5412b5312b4c12b4b12b4912b4812b4112b4012b3e12b3d12b3612b3512b3312b3212b2b12b2a12b2812b2712b2012b1f12b1d12b1c12b1512b1412b1212b1112b0a12b0912b0712b0612aff12afe12afc12afb12af412af312af112af012ae912ae812ae6)
  (.lf 0)))

def shaXorOrder124 : BTree :=
  .nd (.nd (.nd (.lf
  0xd99c0d97f0d9640d9480d92b0d90d0d8f10d8d40d8b50d8960d8790d85d0d8410d8250d8090d7ed0d7d10d7b50d79a0d77d0d7610d7440d7260d7070d6e90d6c80d6a50d6840d6640d6400df520df470df3c0df310df260df1b0df100df050defa0deef0dee40ded90dece0dec30deb80dead0dea20de970de8c0de810de760de6b0de600de550de490de3d0de310de260de1b0de100e76c0e7600e7540e748)
  (.lf
  0x8f0408f0108ee108ee008edd08ebc08ebb08eb808e9908e9808e9508e7708e7608e7308e5308e5208e4f08e2e08e2d08e2a08e0908e0808e0508de608de508de208dc208dc108dbe08d9e08d9d08d9a08d7a08d7908d7608d5608d5508d5208d3108d3008d2d08d0b08d0a08d0708ce108ce008cdd08cb806b9506b9206b9106b9006b8d06b8c06b8b06b8806b8706b8606b8306b8206b8106b7e06b7d06b7c))
  (.nd (.lf
  0x16b1016b0516b7116b0416b0116af516af416ae916ae816aa316aa216aa016a9f16a9e16a9d16a9b16a9a16a9916a9816a9716a9516a9416a9316a9116a8d16a8b16a8a16a8816a3c16a3b16a3a16a3816a3716a3616a5916a3516a33169ab169aa169a8169a5169a4169a3169a1169a01699f1699e1699c1699b1699a169a6169991699716996169ac169951699316992169911698f16907168cd168cc168ca)
  (.lf
  0x12a4d0e6780e5d70be58096b10969e133791330f12a4f0e66c0e5d90be5a096ac096a41336e1331112a510e6600e5db0be5b096a609690133631331312a530e6540e5dd0be5c0968b09672133581331512a550e6460e5df0be5d0966d0965d1334d1331712a570e6360e5e10be5e096580964e133421331912a590e6250e5e30be5f096490964413c4d13bd6133120edeb0edad0c6320b7d00b7c513c4213bd8)))
  (.nd (.nd (.lf
  0x14b5a14b5814b4e14b4d14b4b14b4a14b4814b3414b3314b3214b2f14b2e14b2d14b2b14b1614b1414b1214afd14af514af314af114af014aee14aed14b0a14aeb14ae914ae714ade14add14b2314adc14ada14ad814acd14ac914ac814ac514ac414ac314ac114ab614ab514ab314ab114b1d14ab014aae14aac14aa914aa814aa714aa014a9e14a9d14a8514a8414a8314a8014a7f14a9214a7e14a7c14a7a)
  (.lf
  0x26220260207ba507b5307538074e5073f5073b4025fd025de07ba007b5507533074e7073f7073b5025df025be07b9b07b570752e074e9073f9073b6025bf0259e07b9607b5907529074eb073fb0259f0257f07b9107b5b07524074ed073fd0257a0255c07b8c07b5d0751f074ef073ff025570253907b8707b5f0751a074f107401025340251607b8207b6107515074f30740302511024f307b7d07b6307510))
  (.nd (.lf
  0x2d0702d0002cff02cfd02ce402cdd02cdc02cda02cc102cba02cb902cb702c9e02c9702c9602c9402c7b02c7402c7302c7102c5a02c5302c5202c5002c3a02c3302c3202c3002c1a02c1302c1202c1002bfa02bf302bf202bf002bda02bd302bd202bd002bb802bb102bb002bae02b9702b9002b8f02b8d02b7502b6e02b6d02b6b02b5402b4d02b4c02b4a02b3202b2b02b2a02b2802b1102b0a02b0902b07)
  (.lf 0)))

def shaXorOrder125 : BTree :=
  .nd (.nd (.nd (.lf
  0x13dcd13dcb13dc3162b7162b5162b2162ab162a7162a61629516292162901628d1628b162891624c1624a1624716225162231621f162181621616214161fc161fa161f8161f0161ee161ec161dc161da161d8160f3160f1160f0160dc160d9160d716dbd16dba16db916d9416d9216d9016d5716d5516d4e16d3a16d3716d3516d0e16d0d16d0b16cc416cc216cc016b9516b8016b7d16af216af016aeb16a71)
  (.lf
  0x1750616a07164401636a18528174f7169ff164421633418522174d2169f916444163351851c174ca169d2164461640f184fc174a31698616448182601749b168f21644a1825d17478168f3163ae18f9f18d80180a1177e916de516ddc16dd318f9918d7b1802f177ce16db516db016daf18f9318e5b180311775e16da316d9f16d9e18f8d18d70180331776816d8816d8016d7f18f8718d6a180351770e16dd4))
  (.nd (.lf
  0xc6070c6060c6050c6030c6020c6010c6000c5fe0c5fd0c5fc0c5fb0c5f90c5f80c5f70c5f60c5f40c5f30c5f20c5f10c5ef0c5ee0c5ed0c5ec0c5ea0c5e90c5e80c5e70c5e50c5e40c5e30c5e20c5e00c5df0c5de0c5dd0c5db0c5da0c5d90c5d80c5d60c5d50c5d40c5d30c5d10c5d00c5cf0c5ce0c5cc0c5cb0c5ca0c5c90c5c70c5c60c5c50c5c40c5c20c5c10c5c00c5bf0c5bd0c5bc0c5bb0c5ba0c5b8)
  (.lf
  0x8c77080230801b080170801508010080030f52b0f51108c9108c7807ff407fec07fe807fe607fe007fd20f52d0f51208c9308c4f07fc307fbb07fb707fb507fb007fa40f52f0f4f008c9508c5107f9507f8d07f8907f8707f8107f740f5310f4f208c9708c5307f6507f5d07f5907f5707f5207f440f5330f4f408c9908c5507f3507f2d07f2907f2707f2107f150f5350f4f608c9b08c5707f0607efe07efa)))
  (.nd (.nd (.lf
  0x1556015550153d0153401532015150151301512014fa014f1014ef014d2014d0014cf014af014ad014ac0148c0148a01489014710146801466014510144801446014310142801426014110140801406013f1013e8013e6013d1013c8013c6013a9013a7013a6013860138401383013630136101360013400133e0133d0131d0131b0131a01302012f9012f7012da012d8012d7012b7012b5012b40129401292)
  (.lf
  0xe3990dbb10d33b0d3030d2fa0fa3a0f98f0e36e0e36c0dba50d33d0d3040d2fb0fa340f98b0e3520e3500dba60d33f0d3050d2fc0fa310f9860e3280e3260dba70d3410d3060d2fd0fa2c0f9810e30b0e3090dba80d4410d3420d3070fa270f97b0e2e00e2de0dba90d4470d3080d2fe0fa210f9750e2cd0e2cb0db780d4330d3110d3090fa1b0f96f0e2a40e2a20db6b0d4340d30a0d2ff0fa180f9690e294))
  (.nd (.lf
  0x16851168501684d1684c1684a168481684616844168411683e1683d1683b1683816837168341683116833168301682d1682c1682a16828168271682416822168211681e1681c1681b1681816816168151681316811168101680d1680c1680b1680916807168051680216800167ff167fc167f716b6916b6716b6516b6416b6316b6016b5f16b5e16b6c16b5d16b5b16b5a16b6e16b5916b5716b5616b5516b53)
  (.lf 0)))

def shaXorOrder126 : BTree :=
  .nd (.nd (.nd (.lf
  0x3e2603e0503de503dc503da503d8503d6503d450473204710046ef046cf046ad0468c0466c0464c0462c0460a045e7045c6045a60458604564045410452004500044e0044c00449e0447d0445b0443804417043f5043d2043af0438c0436e04d6804d4704d2504d0404ce204cc104c9f04c7e04c5e04c3e04c1e04bfc04bd904bb804b9804b7804b5604b3304b1004aed04aca04aa904a8704a6404a4104a20)
  (.lf
  0x1e410366f0305202a990286d0368e0307102a970247903c960368f030c402e9803cb5036ae030c202ab1042c003cb603701034d5042df03cd5036ff030dd048ef042e003d2803afc0490e042ff03d260371904f270490f043520412604f460492e0435003d410530a04f47049810532904f660497f0436a05a2c0532a04fb905a4b0534904fb70499a05fad05a4c0553d05fcc05a6b0553b0652905fcd05abe))
  (.nd (.lf
  0x11149111481114711145111441114211143111411113f1113e1113d1113b111381113711136111341113311132111311112f1112e1112d1112c1112a111281112711126111241112311122111211111f1111e1111d111291111c1111a11119111181111611115111141111311111111101110f1110e1110c1110b1110a1113a1110911107110951109411092110911106a110691106711066110651106411062)
  (.lf
  0x13adb0f3640f3200f2b60f2651954b1939e18ade18a9c13b2913add0f3660f3220f2af0f27419548193a018ae018a9d13b2413adf0f3680f3240f2ab0f27819e4d19c251937d1936e1936313efc13e1511c3511c2711c25115be114a419e4a19c271937f1936f1936413ef713e1711c3711c2811c26115ba114a119e4219c4619381193701936513ef213e1911c3911c29115b6114a219e3c19c481938319371)))
  (.nd (.nd (.lf
  0xadb10adb00adae0adad0adac0adab0ada90ada80ada70ada60ada40ada30ada20ada10ad9f0ad9e0ad9d0ad9c0ad9a0ad990ad980ad970ad950ad940ad930ad920ad900ad8f0ad8e0ad8d0ad8b0ad8a0ad890ad880ad860ad850ad840ad830ad810ad800ad7f0ad7e0ad7c0ad7b0ad7a0ad790ad770ad760ad750ad740ad720ad710ad700ad6f0ad6d0ad550ad540ad530ad510ad500ad4f0ad4e0ad4c0ad4b)
  (.lf
  0x199401990f187441874217df91780417628198fb198f11872a1872817def17772175fa198f4198df1871e1871c17de6177b2175e3198cc1989a186d9186d717ddc1779e175ce198a219890186c5186c317dd2176f9175be1989d19881186b7186b517dc8176ca1759f198831986f186a7186a517dbe176b21758319874197ee1868a1868817db41769d1756c197e519536186741867217dab1784b1772c197de))
  (.nd (.lf
  0x1c8bc1c8ba1c8b81c8b71c8b41c8b31c8b21c8af1c8ae1c8ad1c8ab1c8aa1c8a81c8a51c8a41c8a31c8a11c89f1c89e1c89b1c89a1c8991c8971c8951c8941c8911c8901c88f1c88a1c8891c8881c8861c8841c8831c8801c87f1c87e1c87c1c8741c85b1c8571c8561c8591c8541c8521c7d71c7d61c7d31c7d21c7d01c7b61c7c11c7b41c7b21c7ab1c7a91c78b1c78a1c7881c7871cdc61cdc41cdc11cdc0)
  (.lf 0)))

def shaXorOrder127 : BTree :=
  .nd (.nd (.nd (.lf
  0x2048c20489204802047f2047d2046e2046d2046c2046a2045b2045a20459204512044e2044920448204422043e20438204372040e2040c2040b2040a2040520402204012041220400203fe203fd2041b203fc203fa203f9203f8203f6203f5203eb203ea203ae203a7203a6203a5203a32039e2039d2039c2039a2039720392203912038b2038a203892038820386203842037f2037e2037c203762037520374)
  (.lf
  0x8a7b099e7093e408b9d08b5c0882d099e8093e508b9f08b5d087a5099e9093e608ba10879a099ea093e708ba30878f099eb093e808ba50876a0acba0a28a099ee0943e093f6093f10ac9e0a28b099ef09440093f7093f20ac810a28c099f009442093f8093f30ac630a28d099f109444093f9093f40ac450a28e099f209446093fa093f50ac290a28f099f309448093fb0ac0e0a290099f40940a093fc0abf1))
  (.nd (.lf
  0x81b5081a60818508178081560814a081290811b080f9080ec080cb080bf0809d0808f0806e080610803f08033080120800407fe207fd307fb207fa507f8307f7507f5407f4507f2307f1607ef507ee707ec507eb607e9507e8807e6607e5807e3707e2a07e0807dfc07ddb07dcd07dab07d9c07d7b07d6c07d4a07d3d07d1c07d1007cee07ce207cbd07cb107c8907c7d081e1081df081d9081b2081b1081af)
  (.lf 0))) (.nd (.nd (.lf
  0x1c2391c2331c22f1c22a1c2291c2241c2231c2201c21d1c2181c2171c2141c2111c20c1c20b1c2061c2041c2011c1ff1c1fa1c1f91c1f61c1f11c1ef1c1f41c1eb1c1e71c1e21c1e11c1dd1c1db1c0191c01a1c0181c0141c00d1c00f1c00c1c0081c0031c0021bfe21bfcf1bfcb1bfc51bfbe1bf941bf921bf691bf661bfb61bf571bf4b1bf481d8b01d8ae1d8ad1d8ac1d8ab1d8a81d8a71d8a61d8b31d8a5)
  (.lf
  0x4a4a041800414003b760359304a4504a26041810414103b770359504a2d04a06041820414203b780359704a0d049e6041830414303b7903599049ed049c6041840414403b7a0359b049cd049a7041850414503b7b0359d049a204995041860414603b7c0359f052560522c04798047580418903bcc03b8c03b81052160520404799047590418a03bce03b8d03b82051ff051ec0479a0475a0418b03bd003b8e))
  (.nd (.lf
  0xf6610f65a0f6590f6570f64f0f6480f6470f6450f63d0f6360f6350f6330f62b0f6240f6230f6210f6190f6120f6110f60f0f6070f6000f5ff0f5fd0f5f50f5ee0f5ed0f5eb0f5e30f5dc0f5db0f5d90f5d10f5ca0f5c90f5c70f5bf0f5b80f5b70f5b50f5ae0f5a70f5a60f5a40f59c0f5950f5940f5920f58a0f5830f5820f5800f5790f5720f5710f56f0f5680f5610f5600f55e0f5560f5530f0000effd)
  (.lf 0)))

def shaXorOrder128 : BTree :=
  .nd (.nd (.nd (.lf
  0x1bcf71bca11ddf31db741e6041e51d1e80e1e76c1edcf1ecfb1f3ce1f31e1fb271fa89204db204fb20c4c208db081fd07c63069b0067ae090eb08ca706df806bf60a00e09b5d0718a0703e0ace00a96e0820b07c750ba380b6ca0c26f0be9e0ca320c6780d1f10ce400d9b60d6310df5c0de0d0e7770e5ec0f75f0f54f0f0020eeb01065a105070f25a0f10e1149b113480f4b80f36c122d41218712ba912a5d)
  (.lf
  0xee080ee070ee060ee030ee020ee010edfe0edfd0edfc0edf90edf80edf70edf40edf30edf20edef0edee0eded0edea0ede90ede80ede50ede40ede30ede00eddf0edde0eddb0edda0edd90edd60edd50edd40edd10edd00edcf0edcc0edcb0edca0edc70edc60edc50edc20edc10f75d0f75a0f74e0f74d0f74a0f73d0f73c0f7390f72b0f72a0f7270f71a0f7190f7160f7090f7080f7050f6f80f6f70f6f4))
  (.nd (.lf
  0x1b5d31b5d21b5d41b5d11b5cf1b5ce1b5cd1b5cb1b5ca1b5c91b5c81b5c41b5c31b5c21b5c51b5c11b5bf1b5be1b5c61b5bd1b5bb1b5ba1b5b91b5b71b5b61b5b51b5b41b5b21b5b11b5b01b5af1b5ad1b59d1b5801b57f1b57e1b57c1b57b1b5811b57a1b5781b5771b5761b5741b55b1b5491b5391b5381b5351b47e1b47d1b47b1b4791b4511b4501b44f1b44d1b44c1b44b1b4491b4241b40f1b4221b3f7)
  (.lf
  0x3b190355202f5c043b30439503b5a03b1a0355302f5e043900437603b5b03b1b0355402f60043710436503b5c03b1c0355502f6204d6c04d4d041690412903b5f035a5035650355a04d5404d2e0416a0412a03b60035a7035660355b04d2904d0a0416b0412b03b61035a9035670355c04d1104ceb0416c0412c03b62035ab035680355d04ce604cc70416d0412d03b63035ad035690355e04cce04ca80416e)))
  (.nd (.nd (.lf
  0x1fa761fa751fa731f9cc1f9c71f9c61f9c41f9bb1f9ba1f9b91f9b21f9b11f9b01f9af1f9ad1f9ac1f9a91f9a81f9a61f99f1f99e1f99d1f9961f9951f9941f9931f9911f98a1f9891f9881f97c1f97a1f9741f9731f9711f96c1f96b1f96a1f8d21f8ce1f8bb1f8bc1f8ba1f8b81f8911f8901f88e1f8851f8821f8811f87f1f8791f8751f87b1f8741f8711f71f1f71e1f71c1f7121f7111f7151f7101f70d)
  (.lf
  0x853409d34093bc08b490854e0853509d0d093bd08b4a085500853609ce5093be08b4b085520853709cbc093bf08b4c085540851809c95093c008b4d085560851909c6f093c108b4e085580851a09c49093c208b4f0855a0851b09c21093c308b500855c0851c09bf8093c408b510855e0851d09bd1093c508b52085600851e09ba9093c608b530856209b80093c708b540856409b64093c808b5508566099ce))
  (.nd (.lf
  0x5f4c05f4b05f4a05f4805f4705f4605f4505f4305f4205f4105f4005f3e05f3d05f3c05f3b05f3905f3805f3705f3605f3405f3305f3205f3105f2f05f2e05f2d05f2c05f2a05f2905f2805f2705f2505f2405f2305f2205f2005f1f05f1e05f1d05f1b05f1a05f1905f1805f1605f1505f1405f1305f1105f1005f0f05f0e05f0c05f0b05f0a05f0905f0705f0605f0505f0405f0205f0105f0005eff05efd)
  (.lf 0)))

def shaXorOrder129 : BTree :=
  .nd (.nd (.nd (.lf
  0x18aa018a9018a8018a7018a6018a5018a4018a3018a2018a1018a00189f0189e0189d0189c0189b0189a01899018980189702211021ef021cc021a90218802168021460212502103020e2020c00209f0207d0205a020390201701ff401fd301fb301f9301f7301f5101f3001f1001eee01ecd01eab01e8801e6701e45028480282702805027e2027c1027a10277f0275c0273902716026f3026d2026b202692)
  (.lf
  0x1c0951d13a1d0f01c1fb1c0f61c08a1d1361d0db1c1f21c0f81c08c1d12e1d09a1c1ec1c0fa1c08e1d12a1d09c1c1e91c0fc1c0901d1251d10c1c1e31c0fe1c0921d1201d10e1c1df1c1001c01e1d11c1d1101c1d91c1021c0201d1191d1121c0961c0221c0151d1141d0f21c0981c0241c0121d4101d2fa1c5571c4de1c4db1c4d91d40d1d2fc1c5531c4da1c48f1c4841d4081d2ee1c54d1c4911c4851d402))
  (.nd (.lf
  0x11588115841158311580115cd1157d115791155f1155e1155711556115521154e1154a115491154511544115401155a1153e1153a11535115d011534115301152b1152a11525115ed115241152011516115141150d11509114af114ae114aa1175f1175d1175b1175a117591175711756117551175411751117501174f1174e1174c1174b117491174a1174811746117451174411742117411173f1173e1173c)
  (.lf
  0x13aa10f3400f3320f3300f3100f27f1964b1935d18aba18aaa18a9f13b8313aa30f3420f3330f3310f3090f282196481937c18abc18aab18aa013b7e13aa50f3440f3340f3040f27e1963c1937e18abe18aac18aa113b7913aa70f3460f3350f2ff0f280196391938018ac018aad18aa213b7413aa90f3480f3360f2fc0f26a196331938218ac218aae18aa313b6f13aab0f34a0f3370f2f50f2691962e19384)))
  (.nd (.nd (.lf
  0xa66f0a66e0a6670a6660a6640a6630a65d0a65c0a65a0a6590a6530a6520a6500a64f0a6490a6480a6460a6450a63f0a63e0a63c0a63b0a6350a6340a6320a6310a5380a5370a5350a5340a5330a5320a5300a52f0a52e0a52d0a52b0a52a0a5290a5280a5260a5250a5240a5230a5210a5200a51f0a51e0a51c0a51b0a51a0a5190a5170a5160a5150a5140a5120a5110a5100a50f0a50d0a50c0a50b0a50a)
  (.lf
  0x16ed118f1b18ebc17ddb17dd9175cd16f5716ec918eb418eac17dd117dcf175ba16f3716eca18ea918e9617dc717dc51759e16f9616eaf18e9418e8617dbd17dbb1758216f8316eae18e7d18e6f17db317db11756b16f2016eb518e6c18d9617daa17da81755216fd416f1618e3018d9b17da117d9f1754d16f1718e2c18d9917d9817d961752116fd718e1518d9717d8f17d8d1750216fc018e1118d0917d86))
  (.nd (.lf
  0x1c9ee1c9eb1c9ea1c9e91c9e71c9e51c9e41c9e01c9df1c9de1c9dc1c9da1c9d81c9bc1c9b91c9b81c9b61c9b31c9b21c9b01c9ad1c9ac1c9aa1c9a31c9a11c99d1c99c1c99b1c9951c9941c9931c98b1c9891c9881c96e1c96c1c96b1c9661c9651c9641c9561c9541cb321cb301cb261cb251cb241cb221cb1e1cb1d1cb1c1cb1a1cb131cb121cb3d1cb111cb0f1cb0e1cb0d1cb0b1cb0a1cb041cb031cb01)
  (.lf 0)))

def shaXorOrder130 : BTree :=
  .nd (.nd (.nd (.lf
  0x70ba070af070a4070990708e07083070780706d07062070570704c070410acc60aca90ac8c0ac6e0ac500ac340ac190abfc0abe00abc20aba30ab860ab6a0ab4e0ab320ab140aaf70aad90aabc0aa9e0aa820aa670aa4a0aa2c0aa0e0a9f20a9d50a9b60a99c0a97c081ed081c108190081620813408105080d6080a9080790804b0801d07fee07fbd07f8f07f5f07f2f07f0007ed107ea007e7207e4207e14)
  (.lf
  0x685c068590684c0684b068480683b0683a068370682a0682906826068190681806815068080680706804067f7067f6067f3067e6067e5067e2067d5067d4067d1067c4067c3067c0067b3069aa069a8069a20699b0699a06998069910698a0698906987069800697906978069760696f0696806967069650695e0695706956069540694d0694606945069430693c0693506934069320692b069240692306921))
  (.nd (.lf
  0x164c1164c0164bf164bd164bc164bb164ba164b8164b7164b6164b5164b3164b2164b1164b0164ae164ad164ac164ab164a9164a8164a7164a6164a4164a3164a2164a11649f1649e1649d1649c1649a16499164981649716495164941649316492164901648f1648e1648d1648b1648a16489164881648616485164841648316481164801647f1647e1647c1647b1647a164791647716475164741647316471)
  (.lf
  0xc7190c66b07ad606e1306c4406c42113731133d0c6f80c66d07ad706e1406c3306c31113681133f0c6d80c66f07ad806e1506c2206c20113380cf7c0ce2b0a92809cc509cc309cb909cad1133a0cf5e0ce2d0a92a09c9e09c9c09c9209c871133c0cf400ce2f0a92b09c7809c7609c6c09c611133e0cf210ce310a92c09c5209c5009c4609c39113400cf000ce330a92d09c2a09c2809c1e09c10113420cede)))
  (.nd (.nd (.lf
  0x141601415e1415c1415b1415814157141561415314152141511414214141141401413e141351413a1413414128141271412514124141221411f1411e1411d1411a14119141181411214111141101410e1405b1405a140581402a13fee13fec13fea13fdd13fdb13fd713f2f13f2c13f2513f0d13f0a13f0813df113de213de113de013dda13dd913dd813dd413dd213dd013dce13dc713db013d9213d8f149d7)
  (.lf
  0x1e5251dc091db821f9651edce1edcc1e80a1e6071f5251e8a21e8a01e54b1e5262008f1f3cd1f3c21edc51e8081fc131efd81efd61eb9f1e8a620a3f1fb261f3cb1edc0200db1f5681ef6a1ece220dc3204da204d81f3c42086d1fc111fc0f1f34007bff07b1907592074a4073d1073c2073b7028560283907bfa07b1b0758d074a6073d3073c3073b80283a0281a07bf507b1d07588074c5073d5073c4073b9))
  (.nd (.lf
  0x2d8902d6d02d6c02d6a02d6902d4b02d4a02d4802d4702d2802d2702d2502d2402d0502d0402d0202d0102ce202ce102cdf02cde02cbf02cbe02cbc02cbb02c9c02c9b02c9902c9802c7902c7802c7602c7502c5802c5702c5502c5402c3802c3702c3502c3402c1802c1702c1502c1402bf802bf702bf502bf402bd802bd702bd502bd402bb602bb502bb302bb202b9502b9402b9202b9102b7302b7202b70)
  (.lf 0)))

def shaXorOrder131 : BTree :=
  .nd (.nd (.nd (.lf
  0xeaea0eae50eae30eae10eab40eab30eaf80eaad0ea650ea640ea5c0ea5a0ea460ea3f0ea3d0ea320ea2f0ea220e9910e9880e9860e97a0e9780e9720e9270e9250e90d0e90c0e8fb0e8f80e83e0e83c0e8390e8330e8310e82e0ff130ff110ff0f0fee70fee50fee30fed10fecf0fecd0fec20fec00febe0feb00feae0feac0fe8e0fe8c0fe8a0fe7b0fe790fe770fe590fe570fe550fe470fe450fe430fe35)
  (.lf
  0x16ad21639b15d0515cf117ad916ad31637b15d0715cf217acd16ab31637c15d0915cf317ac016aa71636615d0b15cf417abc16a851635a15d0d15cf517ab916a781635b15d0f15cd617ab416a651635c15d1115cd717a0916a121634515d1315cd8179fb16a061633d15d1515cd9179ed169fe1633315d1715cda179ea169f81632a15d1915cdb179c2169d11632b15d1b15cdc179b6169851631715d1d179b3))
  (.nd (.lf
  0xc0600c0470c0460c0440c03f0c0260c0250c0230c01f0c0060c0050c0030bfff0bfe60bfe50bfe30bfdd0bfc40bfc30bfc10bfba0bfa10bfa00bf9e0bf990bf800bf7f0bf7d0bf790bf600bf5f0bf5d0bf570bf3e0bf3d0bf3b0bf340bf1b0bf1a0bf180bf130befa0bef90bef70bef10beda0bed90bed70bed00beb70beb60beb40beaf0bea40bd4c0bd4a0bd490bd480bd470bd450bd440bd430bd420bd40)
  (.lf 0))) (.nd (.nd (.lf
  0xe4d00e4b00e2e00e2c00e2b00e0b00e0900e0800df000de700de500dc800dc600dc500da500da300da200d8200d8000d7f00d6700d5e00d5c00d3f00d3d00d3c00d2400d1b00d1900d0400cfb00cf900ce400cdb00cd900cbc00cba00cb900ca100c9800c9600c8100c7800c7600c5900c5700c5600c3e00c3500c3300c1e00c1500c1300bf600bf400bf300bdb00bd200bd000bbb00bb200bb000b9b00b92)
  (.lf
  0xcb9e0eb210eab00dba20db980d2e30cbf00cbaa0cb9f0eaf90ea890dba30db990d2e40cbf20cbab0cba00ea850ea630dba40db9a0d2e50cbf40cbac0cba10ea800ea520db770db750d2e60cbb60cbad0cba20ea7b0ea4c0db6a0db680d2e70cbb80cbae0cba30ea760ea440db540db4a0d2e80cbba0cbaf0ea710ea380db550db4b0d2e90cbbc0cbb00ea6c0ea230db560db4c0d2ea0cbbe0cbb10ea2e0e9a7))
  (.nd (.lf
  0x15fb915fb215fb115faf15fae15fa715fa615fa415fa315f9c15f9b15f9915f9815f9115f9015f8e15f8d15f8615f8515f8315f8215f7b15f7a15f7815f7715f7015f6f15f6d15f6c15f6515f6415f6215f6115f5a15f5915f5715f5615f4f15f4e15f4c15f4b15f4415f4315f4115f4015f3915f3815f3615f3515f2e15f2d15f2b15f2a15f2315f2215f2015f1f15f1c15eba15eb715eb615eb515eb215eb1)
  (.lf 0)))

def shaXorOrder132 : BTree :=
  .nd (.nd (.nd (.lf
  0xd05b0d0590d0210d01f0ceea0cee80cec90cec70cea60cea40d9910d98d0d9760d9730d95a0d9560d8fd0d8fb0d88f0d88b0d86f0d86b0d8490d8470d82d0d82b0d8110d80f0d7f50d7f30d7d90d7d70d7bd0d7bb0d7a20d7a00d7690d7670d68c0d68a0d66c0d66a0e3ed0e3d00e3ad0e38d0e3660e3440e2f40e2d70e2b60e29f0e29e0e2880e1ee0e1da0e13e0e13b0e0f20e0f00e0d60e0cd0e0ae0e0ac)
  (.lf
  0x7491074900748d0748c0748b0748807487074860748307482074810747e0747d0747c0747907478074770747407473074720746f0746e0746d0746a0746907468074650746407463074600745f0745e0745b0745a0745907456074550745407451074500744f0744c0744b0744a0744707446074450744207441074400743d0743c0743b0743807437074360743307432074310742e0742d0742c0742907428))
  (.nd (.lf
  0x188d8188651886718864188621883318832188301882f1880e1880d1880b1880a187c5192da192d8192d7192d6192dc192d5192d3192d2192d1192cf192ce192cd192cc192ca192c9192c8192c7192c5192c4192c3192c2192c1192bf192be192bd192bb192b9192b8192b7192b5192b4192b3192bc192b2192b0192af192ae192ac192ab192aa192a9192a7192a5192a3192a2192a01929f1929e192a41929d)
  (.lf
  0x878d0876d0719c12191121820d6600d62c08768087650719d12a7212a560de220de060b68c0a9a70a99e12a6712a580de170de080b68d0a9860a97e133371331b0e6140e5e50be600963f096331332c1331d0e6030e5e70be610962f0962913c0013be40edc80edbb0c63a0b7010b6f613bf513be60edc30edbd0c63b0b6e10b6d8144d5144b90eec70eea90ce020bedb0becd144ca144bb0eebb0eeab0ce03)))
  (.nd (.nd (.lf
  0x197a5197ef197a4197a2194ac194a719496194941947c19477194761947419473194721946b1946a194651946d194641946219461194601945b193e9193dd19a4119a3e19a3d19a3f19a3b19a3919a3719a3519a3419a3219a2019a1d19a1c19a19199f7199f6199f0199ef199ee199e3199e1199e0199de199dc199db199da199d7199d61998d1998b1999d1998919983199a51998219980199411993719935)
  (.lf
  0x1a8601a8202a16023fd01e0601df001a6901a6702a17023fe01e0801df101a4c01a4a02a18023ff01e0a01df201a2f01a2d02a190240001e0c01df301a1501a1102a1a0240101e0e01df4019f8019f602a1b0240201e1001df5019db019d902a1c0240301e1201dd6019c1019bd02a1d0240401e1401dd7019a4019a202a1e0240501e1601dd8019870198502a1f0240601e1801dd90196a0196802a2002407))
  (.nd (.lf
  0x421e0421d0421c0421a04219042180421704215042140421304212042100420f0420e0420d0420b0420a0420904d8404d8204d8104d6704d6604d6404d6304d4604d4504d4304d4204d2404d2304d2104d2004d0304d0204d0004cff04ce104ce004cde04cdd04cc004cbf04cbd04cbc04c9e04c9d04c9b04c9a04c7d04c7c04c7a04c7904c5d04c5c04c5a04c5904c3d04c3c04c3a04c3904c1d04c1c04c1a)
  (.lf 0)))

def shaXorOrder133 : BTree :=
  .nd (.nd (.nd (.lf
  0x2078120780206f6206f5206de206d6206d4202ce202ca202c9202c8202c6202c3202c2202be202bd202bc202b9202b6202b5202b3202b1202b02029920296202922028320271003830038500387003890038b0038d0038f00391003930039500397003990039b0039d0039f003a1003a3003a5003a7003a9003ab003ad003af003b1003b3003b5003b7003b9003bb003bd00b4100b4300b4500b4700b4900b4b)
  (.lf
  0x1dd8b1dd8a1e8ec1e2101dd3f1dd351dd311dd2d1dd2c1e93d1e1b71dcde1dcdc1dcd81dcd71dcd21e8d71e1831dc871dc811dc7e1dc7d1dc791e8b21e1701dde91dc641dc621dc3b1dc381e8871e1d31dbf81dbf61dbf21dbed1e87b1e14f1dbb71dbb61dbb41dbb01e86d1e13c1dba01db9e1db9b1db9a1e8541e12b1db621db5e1db5d1db591e84c1e0fc1db491db461db451db411e8631e1161db201db14))
  (.nd (.lf
  0xe9f60e9f50e9f40e9f30e9f10e9f00e9ef0e9ed0e9ec0e9eb0e9ea0e9e80e9e70e9e60e9e50e9e20e9e10e9e00e9df0e9de0e9dc0e9db0e9da0e9d80e9d70e9d60e9d50e9d30e9d20e9d10e9d00e9ce0e9cd0e9cc0e9cb0e9c90e9c80e9c70e9c60e9c40e9c30e9b10e9b00e9ae0e9ad0e9ac0e9ab0e9a90e9a80e99b0e99a0e9980e9970e9850e9840e9820e9810e9700e96f0e9590e9580e9570e9560e8f2)
  (.lf
  0xeda50c66e0c62a0b8420b83613c6e13bd01330c132cb0edfa0eda70c6700c62c0b8260b81913c6313bd21330e132cc0edf50eda90c6720c62e0b8080b7fc13c5813bd413310132cd0edf00edab0c6740c6300b7eb0b7e0146081446413bb113ba213b970effe0ee5b0ce140ce060ce040c2630c259145fe1446613bb313ba313b980eff40ee5d0ce160ce070ce050c2490c23c145f31448513bb513ba413b99)))
  (.nd (.nd (.lf
  0x4a7004a6f04a5004a4f04a4d04a4c04a2c04a2b04a2904a2804a0c04a0b04a0904a08049ec049eb049e9049e8049cc049cb049c9049c8049ad049ac049aa049a90499804d7004d6e04d6d04d5504d4c04d4a04d2d04d2b04d2a04d1204d0904d0704cea04ce804ce704ccf04cc604cc404ca704ca504ca404c8c04c8304c8104c6c04c6304c6104c4c04c4304c4104c2c04c2304c2104c0404c0204c0104be1)
  (.lf
  0x118fe135401350e123851238311d191190013535135061235d1235b11a9b1190213520134d51233f1233d11a7e11904134ca1348f1231c1231a11a7111906141c914100130811307f1268811eff11ef411ef2141c5140fd1306d1306b1266c11edd11ed811ed7141b8140f212ffa12ff81266011ec711eb311eaf141b4140ef12fd912fd71269d11ec911eb411eb0141af140e512fcc12fca1263211ecb11eb5))
  (.nd (.lf
  0x19f2819f2619f2519f2319f2219f2119f2019f1e19f1d19f1c19f1b19f1919f1819f1719f1619f1419f1319f1219f1119f0f19f0e19f0d19f3a19f0c19f0a19f0919f0819f0619f0519f0319f0219efd19efc19efb19eff19efa19ef819ef719ef619ef419ef319ef119ef019eee19eec19eeb19eed19eea19ee819ee719ee619ee419ee319ee119ee019ede19edd19edc19edb19ed919ed819ed719ed619ed4)
  (.lf 0)))

def shaXorOrder134 : BTree :=
  .nd (.nd (.nd (.lf
  0xa5d00a5f00a6100a6300a6500a6700a6900a6b00a6d00a6f00a7100a7300a7500a7700a7900a7b00a7d00a7f00a8100a830105c0105e01060010620106401066010680106a0106c0106e01070010720107401076010780107a0107c0107e01080010820108401086010880108a0108c0108e010900109201094010960165e01660016620166401666016680166a0166c0166e0167001672016740167601678)
  (.lf
  0x20ca620c3620c3220c3020ca220c4020c2020c1d20c6020c0b20c0020bfd20c5c20c1620c1220c1020c5820c0620bf420bf220cab20c6420c5020c4e20a7b20a7520a7120a702090f208ca208c9208c82090b208da208d9208d720906208d0208cf208ce20c2c20903208992089820c3f208fe2083a20c31208f82083220c39208f4207ab20c012078f2078e20c13207672075120c07207612074720c5120769))
  (.nd (.lf
  0x13a2a13a2913a2813a2613a2513a2413a2313a2113a2013a1f13a1e13a1c13a1b13a1a13a1913a1713a1613a1513a1413a1213a1113a1013a0f13a0d13a0c13a0b13a0a13a0813a0713a0613fc613fc113fbf13fbc13fba13fb413fb213fac13fab13fa813fa613fa213fa013f9813f9713f9313f9113f8b13f9913f8913f8513f8213f8d13f8013f7c13f7813f7613f7313f7113f6e13f6a13f6413f6513f62)
  (.lf
  0x1cc6b1c91d1c90a1c8ff18489183bf15e0215df0158971579a1cda51cc6d1c91f1c90b1c90018484183c115e0415df11588f157a01cd9e1cc6f1c9211c90c1c9011847f183c315e0615df21588b157a41cd951cc711c9231c90d1c90218479183c515e0815df315885157a31cd911cc731c9251c90e1c90318475183c715e0a15df41587d157a11cd8d1cc751c9271c90f1c90418470183df15e0c15df51586f)))
  (.nd (.nd (.lf
  0xe8450e8430e8420e8400e83f0e8270e8240e8220e7860e7840e7820fac70fac50fac40fac30fac20fac10fabf0fabe0fabd0fabb0faba0fab90fab80fab60fab50fab40fab30fab10fab00faaf0faae0faac0faab0faaa0faa90faa70faa60faa50faa40faa30faa10faa00fa9f0fa9d0fa9c0fa9b0fa9a0fa980fa970fa960fa950fa930fa910fa900fa8f0fa8d0fa8c0fa8b0fa8a0fa880fa870fa860fa85)
  (.lf
  0x1e7991e5891dbe41dbdc1dbda1f4d41f2b41e7a91e7a51e5591dbc91dbbd1dbba1f4bf1f2971e7941e7901e5411db8e1db7e1db7c1f4bb1f28e1e7631e7611e5281db731db6c1db6b1f4911f29a1e7731e7711e5131db3c1db371db361f4891f2841e7551e7531e5091debb1db1c1db1a1f4771f2871e74b1e7491e5001deb91dae91f46e1f2b51e7411e73d1e4f51ddcd1dacb1f4691f2751e7351e7331e4e9))
  (.nd (.lf
  0x8cb008ca008c9008c7008c6008c5008c4008c2008c1008c0008bf008bd008bc008bb008ba008b8008b7008b6008b5008b3008b2008b1008b0008ae008ad008ac008ab008a9008a8008a7008a6008a4008a3008a2008a10089f0089e0089d0089c0089a00899008980089700895008940089300892008900088f0088e0088d0088b0088a00889008880088600885008840088300881008800087f0087e0087c)
  (.lf 0)))

def shaXorOrder135 : BTree :=
  .nd (.nd (.nd (.lf
  0x9cbd09c9609c7009c4a09c2509bfd09bd609bac09b810a4f40a4f60a4f50a4f20a4ee0a4ef0a4f10a4f00a4ed0a4e90a4ea0a4ec0a4eb0a4e80a4e40a4e50a4e70a4e60a4e30a4df0a4e00a4e20a4e10a4de0a4da0a4db0a4dd0a4dc0a4d90a4d60ace90acbb0aced0acea0ad310ad320ad3f0ad300acec0abd60abb80ab990ab7c0ab600ab440ab280ab0a0aaed0aacf0aab20aa940aa780aa5d0aa400aa22)
  (.lf
  0xec960ec4d0ec48100400fbeb0f3050ec980ec4e0ec49100410fbec0f3010ec9a0ec4f0ec4a100420fbed0f2fa0ec9c0ec500ec4b100430fbee0f2f70ec9e0ec51100440fbef0f2f20ec600ec52100450fbf00f2ed0ec620ec53100460fbf10f2e80ec640ec54100470fbf20f2e30ec660ec55100480fbf30f2de0ec680ec56100490fbf40f2d90ec6a0ec571004a0fbf50f2d40ec6c0ec581004b0fbf60f2cd))
  (.nd (.lf
  0x9b7209b63099ab099a9099a8099a7099a6099a4099a3099a2099a10999f0999e0999d0999c0999a09999099980999709995099940999309992099900998f0998e0998d0998b0998a09989099880998609985099840998309981099800997f0997e0997c0997b0997a09979099770997609975099740997209971099700996f0996d0996c0996b0996a09968099670996609965099630996209961099600995e)
  (.lf 0))) (.nd (.nd (.lf
  0x1f0ba1f1381f0b91f0b71f0af1f0ae1f0ac1f0ab1f0aa1f0a91f07e1f07c1f0761f0ce1f0751f0731f0111f0131f0101f00e1ef7b1ef7a1ef781ef6d1ef6c1ee531ee511ee4e1ee4a1ee491ee471ee461ee451ee441ee421ee411ee401ee3f1ee3d1ee3c1ee3b1ee3a1ee371ee351ee341ee381ee331ee311ee301ee2f1ee2d1ee2c1ee2b1ee391ee2a1ee281ee271ee261ee241ee221ee211ee201ee1e1ee1d)
  (.lf
  0x923d089710844c0843d0a2220a1a3092560923e089720844e0843e0a2150a1a2091f3091f108973084500843f0a2120a1a1091db091cf0897408452084200a2050a1a0091dc091d00897508454084210a2020a19f091dd091d10897608456084220a1f50a19b091de091d20897b084580a1f20a19a091df091d3088ad0845a0a1e50a199091e0091d4088a40845c0a1e20a198091b0091ae0889b0845e0a1d5))
  (.nd (.lf
  0x121961218f1218e1218c1218b121880f7560f7530f7450f7440f7410f7340f7330f7300f7220f7210f71e0f7110f7100f70d0f7000f6ff0f6fc0f6ef0f6ee0f6eb0f6de0f6dd0f6da0f6cd0f6cc0f6c90f6bc0f6bb0f6b80f6ab0f6aa0f6a70f69a0f6990f6960f6890f6880f6850f6780f6770f6740f6670f6660f6630f6560f6550f6520f6440f6430f6400f6320f6310f62e0f6200f61f0f61c0f60e0f60d)
  (.lf 0)))

def shaXorOrder136 : BTree :=
  .nd (.nd (.nd (.lf
  0x2006d2006b20057200551ffd41ffd21ffd11ffc91ffc81ffc61ffc51ffc31ffc21ffc01fe321fe301fdd11fdb41fdb31fdb11fc921fc8e1fc531fc4f2094820946207d5207cf207b7207b52079a20798206f4206f0202d9202d7202d5202d3202d2202cf202952029320db020dae20d7e20d7b20d7a20d7720d6a20d6720d6620d6320d3420d3220d3120d2e20d2d20d2b20b8120b6820b3520b2420b2320b21)
  (.lf
  0xd0aa0d0a30d0a20d0a00d08c0d0850d0840d0820d0700d0690d0680d0660d0540d04d0d04c0d04a0d0370d0300d02f0d02d0d01a0d0130d0120d0100cffc0cff50cff40cff20cfdd0cfd60cfd50cfd30cfbf0cfb80cfb70cfb50cfa00cf990cf980cf960cf810cf7a0cf790cf770cf630cf5c0cf5b0cf590cf450cf3e0cf3d0cf3b0cf260cf1f0cf1e0cf1c0cf050cefe0cefd0cefb0cee30cedc0cedb0ced9))
  (.nd (.lf
  0x1a83c1a7bb1a7ba1a7b21a7b61a7b11a5a01a5921a5911a5811ab2a1ab291ab271ab261ab451ab251ab231ab221ab201ab1d1ab1b1a9a51a9a41a9a21a9a11a9a01a99f1a99d1a99c1a99a1a99b1a9991a9971a9961a9951a9931a9911a9901a98f1a98d1a98c1a98b1a98a1a9881a9871a9861a9851a9831a9821a9811a9801a97e1a97c1a97b1a97a1a9781a9771a9751a9741a9721a9711a96f1a96e1a96c)
  (.lf
  0x163f02e3602e17022790223901c610168d0164b0164002e1e02df70227a0223a01c620168f0164c0164102dfe02dd80227b0223b01c63016910164d0164202dd302db40227c0223c01c64016930164e0164302dbb02d940227d0223d01c65016950164f0164402d9b02d740227e0223e01c6601697016500164502d7b02d550227f0223f01c6701699016510164602d5002d32022800224001c680165b01652)))
  (.nd (.nd (.lf
  0x1da3a1da381da241da231da211da1b1d9fa1d9fc1d9f91d9f21d9da1d9d91d9d71d9d21d9b81d9b71d9b51d9b41d9af1d9b91d9ae1d9ac1d9ab1d9aa1d9a81d9a31d9a21d9a11d99f1d9911d9901d9981d98f1d9761d91e1d91d1d91b1d9111d90d1d9031d9021d9001d8ef1d8ee1d8ec1d8e71d8e61d8e51d8df1d8c01d7791dd861dd821dd801dd511dd4f1dd281dcd11dccb1dcc91dc781dc6f1dc6d1dc33)
  (.lf
  0x4929043460430503dd404f420492a043480430603db404f430492b0434a03d9404f440492c0434c03d7803d7404f450492d0434e03d5803d540530b04f48049830493b049360473f0530c04f49049850493c04937047220530d04f4a049870493d04938046fe0530e04f4b049890493e04939046de0530f04f4c0498b0493f0493a046bf0531004f4d0498d049400469b0531104f4e0494f049410467b05312))
  (.nd (.lf
  0x3e1903e1603df903df603dd903dd603db903db603d9903d9603d7903d7603d5903d56057200571e0571a0571305712057100570c057050570405702056fe056f7056f6056f4056f0056e9056e8056e6056e2056db056da056d8056d4056cd056cc056ca056c6056bf056be056bc056b6056af056ae056ac056a50569e0569d0569b056960568f0568e0568c056860567f0567e0567c056750566e0566d0566b)
  (.lf 0)))

def shaXorOrder137 : BTree :=
  .nd (.nd (.nd (.lf
  0x100a5100a7100a9100ab100ad100af100b1100b3100b5100b7100b9100bb100bd100bf100c1100c3100c5100c7100c9100cb100cd100cf100d1100d310c3710c3010b4310ab310ab510c4510c4710c4910b4710ab710c4b10c4d10c4f10b4910ab910abb10abd10abf10ac110ac310ac510ac710ac910acb10c5110c5310c6110b4b10acd10acf110ab110ad1105e110051101611179110af110b1110b3110b5)
  (.lf
  0x7ef2059620575012550122e00a20007f02057620559012350120f00a21007f120556205380120a011ec00a22007f2205332050c011e7011c900a23007f32052f20515011c4011b700a24007f420dc500f99006f6003200031900248208a800fb8007150033f003180022907b7307b6707506074f90248f07b6e07b6907501074fb0247a075fb075ee066bf066b202ac8075f6075f0066ba066b402ab208d08))
  (.nd (.lf
  0xff7f0ff7e0ff7d0fc250fc230fc220fc210fc1f0fc1d0fc1c0fc1b0fc190fc180fc170fc1e0fc160fc140fc130fc120fc100fc0f0fc0e0fc0d0fc0b0fc0a0fc090fc080fc060fbad0fbac0fbab0fba90fba80fba70fba60fba40fba30fba20fba10fb9f0fb9d0fb9b101ef101ec101ea101e9101e8101e6101e5101e4101e3101e1101e0101df101de101dc101db101da101ee101d9101d7101d6101d5101d3)
  (.lf
  0xeda60ed900e18d0df611686e167ba15ef315edb15ed00f4520f33f0eda80ed910e1880df8616868167bc15ef515edc15ed10f4470f3410edaa0ed920e1810df6216864167be15ef715edd0f43c0f3430edac0ed930e17c0df851685d167c015ef915ede0f4310f3450edae0ed6a0e1780df6316859167c215efb15ebc0f4260f3470edb00ed6c0e1660df8416853167c415efd15ebe0f41b0f3490edb20ed6e)))
  (.nd (.nd (.lf
  0x8362083610835f0835e0835d0835c0835a083580835708356083540835308352083510834f0834e0834d0834c0834a0834908348083590834708345083440834308341083400833f0833e0833c0833b0833a08339083370833208331083300832b08329083280832708325083200831f0831e0831c083170831608315083130830e07c91082f5082ef082ee082ed082eb082e7082e5082df082de082dd082db)
  (.lf
  0x1634d161541533c1533a148ab143d11432b1634916147153411533f148be1432016342161391533315331147b4143d41633a16126153271532514788143e81633616115153961539414779143bf1632c1610914f9414f9214761143aa16320160f414f9e14f9c147531439116313160df14f5714f55147351436e1630f161d114f4b14f491489e14370160a31607014f1a14f18146581437216dc716dc215c09))
  (.nd (.lf
  0x1b2771b2761b2731b2721b2711b26f1b26e1b26c1b2691b2681b2671b2651b2631b2621b25f1b25e1b25d1b25b1b2591b25a1b2571b2551b2531b2501b24f1b24e1b24c1b24b1b2491b2471b2451b2441b2411b2401b23f1b1b01b1ae1b1af1b1ad1b1aa1b1a91b1a61b1a51b1a41b1a31b1a01b19f1b19c1b19b1b19a1b1981b1961b1951b1931b1911b1901b18e1b18c1b23c1b18b1b1891b1871b1851b184)
  (.lf 0)))

def shaXorOrder138 : BTree :=
  .nd (.nd (.nd (.lf
  0x110531106310ffb10fd910fda1101510f711113911090110551104510ffd10fcd10fbd10f8f10f64118e9118eb11932118ed118ef11d28118f1118f3118f5118f7118f911934118fb118fd11d27118ff11901119031190511907119091192d1190c1193611d351192611d0511927119111191311eee11ef611ef811eda11eb811eba11ebc11ebe11e8611e7611e6111e6311efa11efc11edc11ec011ec211ec4)
  (.lf
  0x1d09f1d05a1e0ea1d0a11d0511e0611d0a31d02e1e05e1d0a51d0531e0581d0a71d0251e01a1d0a91d0421e0171d0ab1d0151eec11d3901d3871d3831eeba1d3841d3751d3741eeb71d3961d3911eeb01d3681d3671eeac1d3981d3971eea61d3491d3461eea11d3891d3471ee9c1d38b1d3481ee971d38d1d3261ee941d3931d3271ee8e1d3771d3131ee881d39a1d30d1ee851d3691d30b1ee7e1d39c1d2f9))
  (.nd (.lf
  0x14fbb14fba14fb914fb714fb614f7714f7614f7414f7314f6a14f6914f6714f6514f3214f3114f3014f2e14f2d14f2c14f2a14f2914f0514f0414f0214f0114f0014a6314a6114a6014a5f14a5e14a5c14a5b14a5a14a5914a5714a5614a5514a5414a5214a5114a5014a4f14a4d14a4c14a4b14a4a14a4814a4714a4614a4514a4314a4214a4114a4014a3e14a3d14a3c14a3b14a3914a3814a3714a3614a34)
  (.lf
  0x17d4b17d0717ae317adf1d6751d6061d45e1d41e1a7871a75017d4d17d0917ad617ad31d66f1d6081d4601d41f1a7811a75217d4f17d0b17ac817ac71d6691d60a1d4621d4201a77c1a75417d5117d0d17b5317abd1d6661d60c1d4641d4211a7771a70f17d5317d0f17aeb17ab820f4e20f4201bdf01bc700ffa00fba009a7007b7007970078d007640075920f3d20f3801bc201ba900ffb00fbb009a8007b8)))
  (.nd (.nd (.lf
  0x116a711699116961169511684116821168111668116661166411663116611165d116601165c1165a1162c1162a116291160d1160b1160a11603115ff115fc115de115dd115da1156a1156811566114f4114f2114f1114d9114d7114d611ee511ee311ee211ee111ee011ed211ed111ed011ecf11ecd11e9e11e9d11e9c11e9a11e9911e9811e9711e9511e9411e9311e9211e9011e8f11e8e11e8d11e8b11e7e)
  (.lf
  0x20d9200f9f006fc003260031f002f1002c30024220f7e20d9b00fa0006fd0032700300002f2002be0024120f7a20d9e00fa1006fe0032800301002f3002b90024020f7220d8400fa2006ff0032900302002f4002b40023f20f6d20d6200fa3007000032a00303002f5002af0023e20f6a20d5800fa4007010032b00304002f6002aa0023d20f6620d5c00fa5007020032c00305002f7002a50023c20f5e20d43))
  (.nd (.lf
  0x18180181701816018140181301812018110180f0180e0180d0180c0180a0180901808018070180501804018030180201800017ff017fe017fd017fb017fa017f9017f8017f6017f5017f4017310172f0172e0172d0172c0172a01729017280172701725017240172301722017200171f0171e0171d0171b0171a01719017180171601715017140171301711017100170f0170e0170c0170b0170a0170901707)
  (.lf 0)))

def shaXorOrder139 : BTree :=
  .nd (.nd (.nd (.lf
  0x1bc4a1b8bb1b8b71b89c1b70b1dd841dd361dd0e1dc6b1dc171dbd71dba81db7a1db691db341db181dae71dac51daa51da9a1da681da4b1da291da1a1d9fb1d9cd1d94d1d94e1d99e1d93a1d9781d90c1d8f41d8bb1d8c91e1ae1e1a11e1971e18f1e16a1e1601e09e1e0991e0921e08e1e0891e0841e07c1e0761e06e1e0481e0691e03e1e0371e0621dfb81dfb21dfad1dfbd1deb21ddb31dd6c1dce91dcaf)
  (.lf
  0x12ccb128481208b11c0513f0312caf1283c1206911c0613d6912c781283d1206b11c0713d6112c5a123891206d1203313d5d12c40123691206f13d5a12c23123451207113d4112c02123221207314728139a31309612958129121290d14724139a4130971295a129131290e1471b139a512ff01295c129141290f14717139a612ff11295e129151291014711139a712ff21296012916129111470b139a912ff3))
  (.nd (.lf
  0xb1390b12c0b12b0b1290b1280b11d0b11c0b11a0b1190b10f0b10e0b10c0b10b0b1010b1000b0fe0b0fd0b0f10b0f00b0ee0b0ed0b0e20b0e10b0df0b0de0b0d40b0d30b0d10b0d00b0c60b0c50b0c30b0c20b0b60b0b50b0b30b0b20b0a50b0a40b0a20b0a10b0960b0950b0930b0920b0860b0850b0830b0820b0750b0740b0720b0710b0660b0650b0630b0620b05a097c4097c1097ba097b7097ad097a9)
  (.lf 0))) (.nd (.nd (.lf
  0x20247202452024420243202412023f2023e2023d2023b2023a2023820237202342023320232202312022f2022d2022c2022b202262022520224202282022320221202202021f201ef201ee201ed201ec201ea201e9201e82026a201e7201e3201e2201e4201e1201df201de201dd201db201d9201d8201d7201d5201d4201d3201d2201d0201cf201cd201cc201ca201c6201c5201c4201c2201c0201bf201be)
  (.lf
  0xb41f0ae170a7490a66d0a66c0c1150c0f90b4160b4140ae180a74a0a6620c0f40c0d90b4030b3fb0ae190a7330a6580c0d40c0b90b4040b3fc0ae1a0a71c0a64e0c0b40c0970b4050b3fd0ae1b0a7060a6440c0920c0740b4060b3fe0ae1c0a6f00a63a0c06f0c0510b3e70b3e50ae1d0a6da0a62f0c04c0c0300b2e90b2e70ae1e0a6c40a6300c02b0c0100b2d30b2c70ae1f0a6ae0a62d0c00b0bff00b2d4))
  (.nd (.lf
  0x145a51459e1459d1459a14593145921458f1458814587145841457d1457c1457914572145711456e1456714566145631455c1455b1455814551145501454d1454614545145421453b1453a14537145301452f1452c1452514524145211451a14519145161450f1450e1450b145041450314500144f9144f8144f5144ee144ed144ea144e3144e2144df144d8144d7144d4144cd144cc144c9144c21460614604)
  (.lf 0)))

def shaXorOrder140 : BTree :=
  .nd (.nd (.nd (.lf
  0x1bf911bf8c1bf811bf7b1bf761bf5f1bf511bf331c3801c3771c3781c36e1c3641c3671c35a1c3591c3501c3481c3441c3431c3351c3371c32b1c3251c31e1c3171c3201c3261c3051c2fe1c3071c2f51c2f21c2d81c3861c2c01c2c11c2d91c8081c7fd1c8101c7f31c7ea1c8181c7271c7211c71a1c7151c70c1c7081c7001c6fa1c6ed1c6e81c6e31c6db1c6cb1c6a81c6aa1c6911c66d1c6641c65e1c615)
  (.lf
  0x9c6009c5909c5809c5609c3809c3109c3009c2e09c0f09c0809c0709c0509be809be109be009bde09bc009bb909bb809bb609b9709b9009b8f09b8d09b6e09b6b06ee806ee506ee406ee306ee006edf06ede06edb06eda06ed906ed606ed506ed406ed106ed006ecf06ecc06ecb06eca06ec706ec606ec506ec206ec106ec006ebd06ebc06ebb06eb806eb706eb606eb306eb206eb106eae06ead06eac06ea9))
  (.nd (.lf
  0x17ea117ea017edc17e9f17e9d17c5917c5a17c5817c5617c5517c5417c5217c5117c4f17c4e17c4c17c4b17c4a17c4917c4717c4617c4417c4317c4117c4017c3f17c3e17c3c17c3b17c3917c3817c3617c3517c3417c3317c3117c3017c2f17c2e17c2c17c2a17c2917c2b17c2817c2617c2517c2417c2217c2117c2017c1f17c1d17c1117c1017c0f17c0a17bfd17bfc17bfb17bf917be717be617be517bd9)
  (.lf
  0x1a551155601554c1275a1236c122d61b77d1b6db1ae1215e4f15e111319312c9912bc21b7751b6dd1ae1415e4a15e131319512c9512bc11b7661b6df1ae1615e4515e151319612c9112bbe1b75b1b6e11ae1815e4015e171319712c8912bba1b7441b6e31ae1a15e3b15e191319812c8512bbb1b7411b6e51ae1c15e3615e1b1319912be212bbc1b72a1b6e71ae1e15e3115e1d1319a12c0412bdf1bf9b1bf17)))
  (.nd (.nd (.lf
  0x16dc816dc616dc516dab16da816d9916d9716d9516d7a16d7116d6e16d7416d6d16d6b16de016d3f16d3d16d2e16d2c16d2a16d1516d1216d1016d0016cfc16cfa16cf116cee16ceb16cd316cca16cc616b9b16b9916b9716b9016b8b16b8916b8816b7616b7316aff16aee16aec16acd16aca16ac816acf16ac616ac416ab716ab516ab116aa516a9016a8e16a8316a8116a7f16a7d16a6e16a6d16a6216a60)
  (.lf
  0x9b180793e078a5077b50779e077930400d03fec09ea809b3007939078a7077b70779f0779403fed03fcc09e7f09b3207934078a9077b9077a00779503fcd03fac09e5809b340792f078ab077bb077a103fad03f8c09e3009b360792a078ad077bd077a203f8d03f6d09e0909b3807925078af077bf0778003f6803f4a09de309b3a07920078b1077c10778203f4503f2609dbb09b3c0791b078b3077c307784))
  (.nd (.lf
  0x39b0039a9039a8039a603990039890398803986039700396903968039660394e0394703946039440392b039240392303921039080390103900038fe038e5038de038dd038db038c4038bd038bc038ba038a20389b0389a03898038810387a03879038770385f0385803857038550383e0383703836038340381c038150381403812037fb037f4037f3037f1037d9037d2037d1037cf037b8037b1037b0037ae)
  (.lf 0)))

def shaXorOrder141 : BTree :=
  .nd (.nd (.nd (.lf
  0x85f8085f7085e9085e7085e6085d8085d6085d50906f0906d0906c0904a0904809047090260902409023090020900008fff08fde08fdc08fdb08fba08fb808fb708eec08eea08ee908ec708ec508ec408e5e08e5c08e5b08e3908e3708e3608e1408e1208e1108dcd08dcb08dca08da908da708da608d8508d8308d82095f3095f1095f0095c6095c4095c3095610955f0955e095500954e0954d0952309521)
  (.lf
  0x1a1ef199a81910f1910e1b0db1b0bb1a1d9199441913918fa61b0b71b0a91a1b3198fd1913b18f261b0a31b09d1a176198f81914c18f2c1b0981b08f1a164198d0190be18f201b08b1b0861a12b198a6190c018eb91b0811b0751a101198a11913d18ea61b07c1b0781a0ed198871913f18ea71b0661b0611a0ce198781914e18ea81b05b1b03c1a09c197e8190c218e731b0371afd019eba197e1190c418e68))
  (.nd (.lf
  0xd5ca0d5c90d5c80d5c60d5c50d5c40d5c30d5c10d5c00d5bf0d5be0d5bc0d5bb0d5ba0d5b90d5b70d5b60d5b50d5b40d5b20d5b10d5b00d5af0d5ad0d5ac0d5ab0d5aa0d5a80d5a70d5a60d5a50d5a30d5a20d5a10d5a00d59e0d59d0d59c0d59b0d5990d5980d5970d5960d5940d5930d5920d5910d58f0d58e0d58d0d58c0d58a0d5890d5880d5870d5850d5840d5830d5820d5800d57f0d57e0d57d0d57b)
  (.lf
  0x9f4f1131811304112f90d1590cdf50a94c0a93909f4009f3e09f3409f281131a11305112fa0d13a0cdf70a94e0a93a09f1909f1709f0d09f001131c11306112fb0d11b0cdf90a9500a93b09ef109eef09ee509ed71131e11307112fc0d0fe0cdfb0a9520a93c09ec809ec609ebc09eae1132011308112fd0d0e00ce130a9540a93d09e9f09e9d09e9309e851132211309112fe0d0c30ce150a9560a93e09e76)))
  (.nd (.nd (.lf
  0x2aaf02e8002e7902e7702e6202e5902e5702e3a02e3802e3702e1f02e1602e1402dff02df602df402dd702dd502dd402dbc02db302db102d9c02d9302d9102d7c02d7302d7102d5402d5202d5102d3102d2f02d2e02d0e02d0c02d0b02ceb02ce902ce802cc802cc602cc502ca502ca302ca202c8202c8002c7f02c6702c5e02c5c02c4702c3e02c3c02c2702c1e02c1c02c0702bfe02bfc02be702bde02bdc)
  (.lf
  0x10b94103190fb8c0fb4c0fb41117cc1179710b2f10b2d1031a0fb8e0fb4d0fb42117c9117a010a8c10a8a102ba0fb8f0fb4e0fb43117c31178210a2810a24102bb0fb910fb4f0fb44117bd1177b10a2910a25102bc0fb930fb500fb45117b811775109f5109f3102570fb950fb510fb46117b4117a2109c3109bb102580fb970fb520fb47117b01176f109c4109bc102590fb990fb530fb48117aa1176a109c5))
  (.nd (.lf
  0x173911738f1738e17372173701736f173501734e1734d1732a17329173271730f1730e1730c172ee172ec172eb172d1172cf172ce172b2172b0172af183a11839818397183961837218371183701836e1836c1836a1836718365183641835f1835d183601835c1835a183581834e1834d1834c183491833f1833e183381833518334183311832a18329183211831e1831d183131830e1830d1830b182c7182c5)
  (.lf 0)))

def shaXorOrder142 : BTree :=
  .nd (.nd (.nd (.lf
  0x123cd123cb123c0123ba123b4123af123a8123a31239c12396124401238c123741234b12328123031304d1304512f4f12f5112f5012f4e12f5212f0a12e6912e6a12e6812e4312e4112e1512d7712d7512d7612d7412d7212d3712ca112ca212ca012c8f12c9012c6412be812c0612bd912bee137cf137d6137c4137bd137201371f1375a1370c136bd136c7136bf136a8136221361b1361a1361913618135f9)
  (.lf
  0xee000be07c5d067f4067a3000e9000bd07c5f067e3067a5000e4000bc06b9306aa506774067650675a000b306b8e06aa706776067660675b000ae06b8906ac606778067670675c000a906b8406ac80677a067680675d000a406b7f06aca0677c067690675e0009f06b7a06acc0677e0676a0675f0009a06b7506ace067800676b067600009506b7006ad0067820676c067610009006b6b06ad2067840676d))
  (.nd (.lf
  0x11f7511f7411f7311f7211f7011f6f11f6e11f6c11f6b11f6a11f6911f6711f6611f6511f6411f6311f6111f6011f5f11f5d11f5c11f5b11f5a11f5811f5711f5611f5511f5411f5211f5111f5011f4e11f4d11f4c11f4b11f4911f4811f4711f4611f4411f4311f4211f4111f3f11f3e11f3d11f3c11f3a11f3911f3811f3711f3611f3411f3311f3211f3011f2f11f2e11f2d11f2b11f2a11f2911f2811f26)
  (.lf
  0x15dff131c51318112e3712bac1b7b31b6cb1ae021adc315e7715e01131c71318312e1312bab1b7ae1b6cd1ae041adc515e7215e03131c91318512de112bb11b7aa1b6cf1ae061adc715e6d15e05131cb1318712d6d12baf1b7a31b6d11ae081adc915e6815e07131cd1318912d6912bbd1b79e1b6d31ae0a1adca15e6315e09131cf1318b12d6212bb91b7991b6d51ae0c1adcb15e5e15e0b131d11318d12d5c)))
  (.nd (.nd (.lf
  0xcb6d0cb6c0cb6a0cb650cb640cb630cb610cb5c0cb5b0cb5a0cb580cb530cb520cb510cb4f0cb4a0cb490cb480cb460cb410cb400cb3f0cb3d0cb380cb370cb360cb340cb2f0cb2e0cb2d0cb2b0cb260cb250cb240cb220cb210cb1c0cb1b0cb190cb180cb130cb120cb100cb0f0cb0a0cb090cb070cb060cb010cb000cafe0cafd0caf80caf70caf50caf40caef0caba0cab80cab70cab60cab50cab30cab2)
  (.lf
  0x1994e1bd8e1bb751aa551aa531a20719b6e1995a199591bd831bb641aa3f1aa3d1a1ea19b6f1999a1bd7e1bb661aa331aa311a1cf19b5f19b071bd551bb5a1aa1f1aa1d1a1ba19ba3199061bd521bb551aa121aa101a1a419b48198e91bd4d1bb761aa061aa041a19819b37198d61bd4a1bb491aa721aa701a12419b28198c41bd381bb441a9eb1a9e91a10819b1a198bd1bd321bb3e1a9e21a9e01a0dc19b7c))
  (.nd (.lf
  0x1d2c61d2c51d2c41d2c21d2c11d2c01d2bf1d2bd1d2bc1d2bb1d2ba1d2281d2261d21b1d21a1d2181d2171d2161d2151d2131d2121d2111d2101d20c1d20b1d20a1d2091d2071d2061d2051d20e1d2041d2021d1e11d1e31d1e01d1de1d1db1d17a1d1781d1751d1741d1721d1701d16f1d16c1d16b1d16a1d1681d1661d1651d1631d1621d1601d15e1d15c1d15b1d1591d1571d1561d1531d1521d1511d14e)
  (.lf 0)))

def shaXorOrder143 : BTree :=
  .nd (.nd (.nd (.lf
  0x20f8120f8620f8020f7d20f7c20f7620f7520f7720f7420f7120f7820f7020f6e20f7920f6c20f6920f6820f6520f6420f6320f6020f5d20f6120f5c20f5920f5f20f5820f5520f5420b8f20b8e20b8d20b8920b8820b9220b8720b8520b6120b6020b5d20b4f20b4b20b4a20b4e20b4920b4720b4520b4320b2920acb20aca20ac120aa820aa620aa420a6620a6420a6220a3420a3220a3020a2f20a2d20a2b)
  (.lf
  0xb58e0d0bb0c32b0bb580b5a00b58f0d09e0c32c0bb590b5a20b5900d0800c32d0bb5a0b5a40b5910d0630c32e0bb5b0b5a60b5920d0480c32f0bb5c0b5a80b5930d02a0c3300bb360b5aa0b5940d00d0c3310bb290b5ac0b5950cfef0c3320bb2a0b5ae0b5960cfd10c3330bb2b0b5b00b5970cfb20c3340bb2c0b5b20b5980cf930c3350bb2d0b5b40b5990cf750c3360bb2e0b5b60b57a0cf570c3370bafc))
  (.nd (.lf
  0x8bbe08bbd08bbc08bba08bb908bb8090db090d0090ba090ae090980908c090760906809052090430902e0901f0900a08ffb08fe608fd708fc208fb308f9e08f9108f7b08f6f08f5908f4d08f3708f2b08f1508f0908ef308ee508ecf08ec008eaa08e9d08e8708e7b08e6508e5708e4108e3208e1c08e0d08df708dea08dd408dc608db108da208d8d08d7e08d6708d5a08d4108d3508d1b08d0f08cf308ce5)
  (.lf 0))) (.nd (.nd (.lf
  0x1e1e01e1db1c87a1c8771c8751c8701c86e1c86b1c8691c8661c8641c8601c85f1c85d1c7ce1c7c81c7bf1c7bc1c7ba1c7b71c79a1c7961c7951c7911c7901c78d1c7671c7631c7621c75e1c75d1c75a1c7581c7561c74c1c7301c6f41c6f21c6d41c6d11c6c21c6b31c6b01c6ad1c69b1c6951c6941c6861c6841c6821c6811c67f1c6761c88c1c6681c6661c6521c6501c64e1c6471c6451c6431c6411c63e)
  (.lf
  0x52d504e4504e1106289062600587a05856052cc04e4706282062570587b05857052c304e490627c062580587c05858052ba04e4b06277062590587d05859052b104e4d06273062490587e0585a052a804e4f0626f0624a0587f0585b0529f04e510626b0624b058800585c0529604e530625c06069058810585d0528d04e550605b06053058820585e0528404e57082f3081e505e5605e160590b0546505460))
  (.nd (.lf
  0x8d2808d2708d2408d0208d0108cfe08cd808cd708cd408cb60f2540f2520f2510f24a0f2490f2470f2460f23f0f23e0f23c0f23b0f2340f2330f2310f2300f2290f2280f2260f2250f21e0f21d0f21b0f21a0f2130f2120f2100f20f0f2080f2070f2050f2040f1fd0f1fc0f1fa0f1f90f1f20f1f10f1ef0f1ee0f1e70f1e60f1e40f1e30f1dc0f1db0f1d90f1d80f1d10f1d00f1ce0f1cd0f1c60f1c50f1c3)
  (.lf 0)))

def shaXorOrder144 : BTree :=
  .nd (.nd (.nd (.lf
  0x286c0286a02e9702e95034d4034d203afb03af90412504123047540475204d8c04d8a0546f0525a0590f057db05e1405d7e06390062f7083b6082f60891e08a75092c9091a8098ec097c90a0160a2780a7420a62c0adcf0aff20b4970b3af0bc5b0bb8a0c4710c2970cb910ca5d0d2900d4150dbf10dae50e4170e4120ebf30ebf10fac80fa51103081000b10b8f10b91110fa110f511871117f511ee612026)
  (.lf
  0x791e0791d0791a0791907918079150791407913079100790f0790e0790b0790a079090790607905079040790107900078ff078fc078fb078fa078f7078f6078f5078f2078f1078f0078ed078ec078eb078e8078e7078e6078e3078e2078e1078de078dd078dc078d9078d8078d7078d4078d30df560df540df530df4c0df4b0df490df480df410df400df3e0df3d0df360df350df330df320df2b0df2a0df28))
  (.nd (.lf
  0x1b06b1b0411b0441b0401b03e1afe61afe51afe31afdb1afda1afd91afd71afd11afa81afa51afa31afa11af841af851af831af801af721af711af6f1af631af621af611af5f1af3b1af1e1af1f1af1d1af1b1af101af0f1aef41aef31ae321abf81abf61abf51abf41abf31abf11abf01abef1abfb1abee1abec1abeb1abea1abe81abe71abe61abe51abe31abe21abe11abe01abde1abdd1abdc1abdb1abd9)
  (.lf
  0x391002ee802ea8028dd022de022d10390b038ed02ee902ea9028de022e0022d2038e8038c902eea02eaa028df022e2022d3038d0038aa02eeb02eab028e0022e4022d4038a50388602eec02eac028e1022e6022d50388d0386702eed02ead028e2022e8022b6038620384302eee02eae028e3022ea022b70384a0382402eef02eaf028e4022ec022b80381f0380002ef002eb0028e5022ee03807037e102ef1)))
  (.nd (.nd (.lf
  0x1e8201e81f1e81d1e8171e8161e6f71e6f61e6f51e6f21e6ec1e6eb1e6e41e6e31e6e21e4221e41c1e4531e4181e4161e36c1e3641e3631e3621e32c1e3271e3071e3051e2fb1e2f11e2ef1e2ed1e2d71e2d11e2cf1e2c71e2c41e2c21e2b61e2b31e2b01e27f1e27d1e2711e2591e2531e2511e2091e1fd1e1f81edbb1edaf1edae1edad1edac1edaa1eda91ed9f1ed9e1ed9c1ed7f1ed7e1ed7d1ed731ed72)
  (.lf
  0x5aca05a7d069310653005fd405a8c05a7e069200653105fd505a8e05a7f0690f0653205fd605a9005a80068fe0653305fd705a9205a81068ed0653405fd805a9405a82068dc0653505fd905a9605a83068cb0653605fda05a9805a84068ba0653705fdb05a9a05a85068a90653805fdc05a9c05a86068980653905fdd05a9e05a87068870653a05fde05aa005a88068760653b05fdf05aa205a89068650653c))
  (.nd (.lf
  0x5b7305b6c05b6b05b6905b6205b5b05b5a05b5805b5005b4905b4805b4605b4005b3905b3805b3605b3005b2905b2805b2605b2105b1a05b1905b1705b1105b0a05b0905b0705b0205afb05afa05af805af405aed05aec05aea05ae405add05adc05ada05ad305ad005a0a05a0805a0705a0605a0505a0305a0205a0105a00059fe059fd059fc059fb059f9059f8059f7059f6059f4059f3059f2059f1059ef)
  (.lf 0)))

def shaXorOrder145 : BTree :=
  .nd (.nd (.nd (.lf
  0x190bf190c11913e191401914f190c3190c5190e1190c719112190c9190d5190cc190671911418fa819142191441915a190ce190d0190e519a5119a4f19a5219a24199fb19a5c19a5e19a6019a6219a2819a6419a6619a6819a6a19a2a19a0519a0719a0919a0b19a0d19994199a4199ac1998619a6c19a6e19a7019a7219a2c19a0f1a3d91a36e1a38c1a3951a37b1a4481a3dd1a3721a3901a3411a4ea1a3df)
  (.lf
  0x1968719594195901c17d1c1691961e19580195751c1791c16b1960a1956c195651c1731c16d195f619558195511c16f1c13b195e5195451953f1c5961c3d419fe619f5d19f4f19f4d1c5931c3d619fdf19f5f19f5019f4e1c58c1c3d819fda19f6119f511c5891c3da19fd619f6319f521c5821c3dc19fd219f6519f531c57d1c3de19fce19f6719f541c5781c3e019fca19f6919f551c5751c3e219fc619f6b))
  (.nd (.lf
  0x10e5310e4b10e4a10e4810e2c10e2b10e2a10e2810e0c10e0910e0810e0610e0510dc910dc810dc610dc510dc310dc210dc010d9910d9810d9710d2d10d2b10d2a10d2910d2710d2210d2110d2010d1e10d1110d1010d0f10d0e10d0c10d0b10d0a10d0810cf110ce810ce710ce510cc410cc310cc210cbe10c5f10c5e10c5d10c5b10c5910c5810c6210c5710c5510b5210b5110b4d10b4c10add10adc10ada)
  (.lf
  0x17a35179581708e1704f10404103c00f7cb0f6530f6510f65017a2f1795a170901705110406103c20f7c50f6410f63f0f63e17a291795c170921705210408103c40f7bf0f62f0f62d0f62c17a241795e17094170531040a103c60f7b50f61d0f61b0f61a17a1f1796017096170541040c103c80f7b20f60b0f6090f60817a1b1796217098170551040e103ca0f7ac0f5f90f5f70f5f61839f181d21793f17930)))
  (.nd (.nd (.lf
  0x9162091600915e0915d091590915809157091550915109153091500914e0914c0914909148091470914509143091420913f0913e0915a0913d0913a09139091360913309132091300912f091350912d0912a0912909127091260912409122091200911f0911c0911b091540911a09117091160911308cf608ccc08cca08cc9098eb098ea098e8098e7098e6098e4098e3098e2098e1098df098de098dd098dc)
  (.lf
  0x16f4f165f615bc515bc015bbf1801b17f4916f3316f31165e415ba615ba115ba01801517ef916f9216f901661215b7c15b7715b761800817ef516f7f16f7d165ce15b5815b5315b5217f1017ef116f1c16f1a165be15b1915b1315b1217f0b17eec16f0816efe165a315b0815b0515b0417f0617ee616f0916eff165a415af415af315af217f0217ee416f0a16f061659115c6115ae815ae517f1417cea16eee))
  (.nd (.lf
  0x1c4431c4421c4411c43f1c4391c4371c4361c4341c3d21c3d11c3d01c3ce1c3cd1c3cc1c3cb1c3c81c3c71c3c61c3c51c3c31c3c11c3c01c3c91c3bf1c3bd1c3bc1c3bb1c3b91c3b81c3b71c3b61c3b41c3b31c3b21c3b11c3ae1c3ad1c3ac1c3ab1c3a91c3a81c3a71c3a61c3a41c3a21c3a11c3a01c39e1c39d1c39c1c39b1c3991c3921c3911c3901c38e1c38c1c38b1c38a1c3881c3871c2d01c2cf1c2cd)
  (.lf 0)))

def shaXorOrder146 : BTree :=
  .nd (.nd (.nd (.lf
  0x1a3181a2ed1a2f71a29b1a28d1a3fc1a3d11a3631a3371a3141a2f61a2e01a2a11a28b1ab831ab7d1abfa1ab611ab401ab0b1aaf01aafb1aac81aafd1aaa01aa641ab7a1abc11ab631ab371ab0d1aaf91aadc1aaca1aab11abfe1abfc1ab651ab391ab0f1aaf31aade1aacc1aab71b56a1b5ac1b5731b55d1b54c1b55c1b4751b4231b40e1b3f21b3ab1b3701b59a1b5701b55e1b54b1b54d1b4771b41d1b435)
  (.lf
  0x9100090f006f2006f0006ef006e9006e8006e6006e5006de006dd006db006da006d3006d2006d0006cf006c8006c7006c5006c4006bd006bc006ba006b9006b2006b1006af006ae006a7006a6006a4006a30069c0069b006990069800691006900068e0068d006860068500683006820067b0067a0067800677006700066f0066d0066c006650066400662006610065a0065900657006560064f0064e0064c))
  (.nd (.lf
  0x154a8154a7154a6154a4154a3154a2154a11549f1549e1549d1549c1549a15499154981549715495154931549215494154911548f1548e1548d1548b1548a15489154881548615485154841548315481154801547f1547e1547c1547b1547a15479154771547615422154211541f1541e1541d1541c1541815417154161542315415154131541215dcc15dca15dc815dc715dc615dc415dc215dc115dc915dc0)
  (.lf
  0x79a2078b20789706eaa06e2d045b90459807b5c07b1807a1a079a4078b40787506ea506e2f045990457907b5e07b1a07a15079a6078b60787706ea006e31045740455607b6007b1c07a10079a8078b80787906e9b06e33045510453207b6207b1e07a0b079aa078ba0787b06e9606e35045330451207b6407b2007a06079ac078bc0787c06e9106e3704513044f207b6607b2207a01079ae078be0787d06e8c)))
  (.nd (.nd (.lf
  0x12e0d12e0c12e0a12e0912e0312e0212e0012dfa12df912df812df612df012def12dee12dec12de612de512de412de212d8512d5212d5112d4f12d4912d2c12d2b12d2912d2412d0c12d0b12d0912d0412cf012cef12ced12ce812cd512cd412cd212ccd12cb912cb812cb612cb112c7d12c7c12c7a12c6f12c5c12c5812c5612c5112c3e12c3d12c3b12c3612c2112c2012c1e12c1912c0012bff12bfd12bf8)
  (.lf
  0x371302ef902eb9028ee023000412203517034d702efa0293b03d3b03536034f602f19029390475103b3e03afe0353702f660436403b5d03b1d0355602f6404d89041680412803b5e035a304994041870414703b7d035a10523c04797047570418803bca0523d047b604776041a703bc80574904dcf04d8f047b7041f40572b04dee04dae047d6041f205cba054720547004def0482305cc20525f0525d04e0e))
  (.nd (.lf
  0x1d2601d2501d2401d2201d2101d2001d1f01d1d01d1c01d1b01d1a01d1801d1701d1601d1501d1301d1201d1101d1001d0e01d0d01d0c01d0b01d0901d0801d0701d0601d0401d0301d0201d0101cff01cfe01cfd01cfc01cfa01cf901cf801cf701cf501cf401cf301cf201cf001cef01cee01ced01ceb01cea01ce901ce801ce601ce501ce401ce301ce101ce001cdf028640286202861028470284602844)
  (.lf 0)))

def shaXorOrder147 : BTree :=
  .nd (.nd (.nd (.lf
  0x19fc019e9019e1019df019cc019aa019a8019950198d0198b01978019700196e0195b019390193701924018e8018e6018d30285d0285b0284b0281d0281b02808027fa027f8027e502797027950278202774027720275f027510274f0273c0272e0272c027190270b02709026f60268802686026730260502603025f002582025800256d0255f0255d0254a0253c0253a02527025190251702504024f6024f4)
  (.lf
  0x1520d14b5714206141e5141e0161ad151f914b39141a214187161a6151e514b3a1418e14188161a3151d614b191418f141891619f151c314b00141901418a16199151b114afb141911418b161941519f14afc141921418c1618c1518e14b0d141931418d161861518514ae1141e614146161831516e14b26141e8141471617b1515e14ad0141ea14148161771514f14acc141ec141491616e1514614abe141ee))
  (.nd (.lf
  0xb8440b8370b8280b81a0b80a0b7fd0b7ed0b7e10b7d20b7c60b7b70b7a90b79a0b78d0b77e0b7700b7610b7540b7450b7370b7240b7170b7030b6f70b6e30b6d90ba2a0ba280ba240ba0f0ba0e0ba0c0ba080b9f30b9f20b9f00b9ea0b9d50b9d40b9d20b9cb0b9b60b9b50b9b30b9ae0b9990b9980b9960b9920b97d0b97c0b97a0b9760b9620b9610b95f0b95b0b9470b9460b9440b9400b92b0b92a0b928)
  (.lf 0))) (.nd (.nd (.lf
  0x20ace20acd20aba20ab920ab820ab720ab520ab220ab120ab020aae20a9720a4d20a5220a4c20a4a209952099420992209902098f2098e2098c20988209872098620955209532088a2088d2088920887208602085f2085d2085b208591f61d1f61b1f6191f6181f6161f6141f6131f6121f60f1f60e1f60b1f60a1f6091f6051f6041f6071f6031f6011f5ff1f5fc1f5fb1f5fa1f5f81f5f71f5f51f5f21f5f1)
  (.lf
  0xcf3a0c2f60c2f40bab90b4c40d35d0cf1a0c2ed0c2eb0baba0b4c60d3580cef50c2e40c2e20babb0b4c80d3550ced30c2db0c2d90ba5c0b4ca0ceb50ce940c2d20c2d00ba520b47e0ce910ce6e0c2c90c2c70ba530b4620ce690ce4c0c2c00c2be0ba540b5140dadf0d9a80cb8c0cb8a0c47b0bcc90bc920bc730dad50d9900cb830cb810c4800bc940bc790bc740dad00d9740cb7a0cb780c45c0bccf0bc7a))
  (.nd (.lf
  0x14cf814cf514cf414cf314cf014cef14cee14ceb14cea14ce914ce614ce514ce414ce114ce014cdf14cdc14cdb14cda14cd714cd614cd514cd214cd114cd014ccd14ccc14ccb14cc814cc714cc614cc314cc214cc114cbe14cbd14cbc14cb914cb814cb714cb414cb314cb214caf14cae14cad14caa14ca914ca814ca514ca414ca314ca014c9f14c9e14c9b14c9a14c9914c9614c9515794157911578b1578a)
  (.lf 0)))

def shaXorOrder148 : BTree :=
  .nd (.nd (.nd (.lf
  0x3ff003fdc03fd003fbc03fb003f9c03f9003f7c03f2a03f1603ee703ed303e8103e6d03e1b03e0703dfb03de703ddb03dc703dbb03da703d9b03d8703d7b03d67047450473404705046f1046e5046d1046a20468e046820466e046620464e046420462e045dc045c8045bc045a80459c0458804536045220451604502044f6044e2044d6044c2044930447f0442d0441904d5d04d4904d1a04d0604cd704cc3)
  (.lf
  0xacaa0aca30aca20aca00ac8d0ac860ac850ac830ac6f0ac680ac670ac650ac510ac4a0ac490ac470ac350ac2e0ac2d0ac2b0ac1a0ac130ac120ac100abfd0abf60abf50abf30abe10abda0abd90abd70abc30abbc0abbb0abb90aba40ab9d0ab9c0ab9a0ab870ab800ab7f0ab7d0ab6b0ab640ab630ab610ab4f0ab480ab470ab450ab330ab2c0ab2b0ab290ab150ab0e0ab0d0ab0b0aaf80aaf10aaf00aaee))
  (.nd (.lf
  0x181ba181b9181b8181b6181b5181b4181b3181b1181b0181af181ae181ac181ab181aa181a9181a7181a6181a5181a4181a2181a1181a01819f1819d1819c1819b1819a18198181971819618195181931819218191181ce181901818e1818d1818c1818a181881818718186181851818318182181811817f1817e1817d181891817c1817a18179181781817618175181741817318172181701816f1816e1816c)
  (.lf
  0x1d4661a7731a71117d1117ae817ab51d65a1d6101d4681a76d1a71317d1317ab117aae1d6521d6121d46a1a7691a71517d1417a9417a061d64c1d6141d46c1a7621a71717d15179fc179f81d63b1d6161d46e1a75d1a71917d16179e9179ce1d6341d6181d4701a7581a71b17d17179e6179e11d62b1d61a1d4721a7341a71d17d18179bf179bc07b28079f2079b4078c406e7d06e3f044900447007b2a079ed)))
  (.nd (.nd (.lf
  0x189291892b1892818926188f4188fb188f3188f11889618895188931889218891188cc188901888e188551885718854188521881f188211881e1881c187f9187fd187f8187f6187ce187cd187cb187ba187a4187a8187a3187a11878f187961878e1878c187741877318771187661873d187411873c1873a1872518727187241872218716187191871518713186d0186d6186cf186cd186c1186c0186be186bd)
  (.lf
  0xb5800b3d0061b00619017680114600b5a00b1e006100060e017690114700b5c00b1f00605006030176a0114800b5e00b20005fa005f80176b0114900b6000b21005ef005ed0176c0114a00b6200b22005e4005e20176d0114b00b6400b23005d9005d70176e0114c00b6600b24005ce005cc0176f0114d00b68005c3005c1017700114e00b6a005b8005b6017710114f00b6c005ad005ab01d9701774011a5))
  (.nd (.lf
  0x3c6703c6603c6503c6303c6203c6103c6003c5e03c5d03c5c03c5b03c5903c5803c5703c5603c5403c5303c5203c5103c4f03c4e03c4d03c4c03c4a03c4903c4803c4703c4503c4403c4303c4203c4003c3f03c3e03c3d03c3b03c3a03c3903c3803c3603c3503c3403c3303c3103c3003c2f03c2e03c2c03c2b03c2a03c2903c2703c2603c2503c2403c2203c2103c2003c1f03c1d03c1c03c1b03c1a03c18)
  (.lf 0)))

def shaXorOrder149 : BTree :=
  .nd (.nd (.nd (.lf
  0x12dc212dc012dba12da812da512da312d4312d3c12d3a12ce012cde12cdc12c6b12c6912c6712c2e12c2c12c2a1488b1488914880148841487a14877148231482214820148171481514813148061480214801147e8147e6147dc147d5147d3147d2147bb147b8147b7147c8147b6147ae147701476e1476c1472f1469c14697152531522b1522a1520715205151f2151cf151cd151be1519a151981518915177)
  (.lf
  0x1accf1acc01c5391c4601bdc71b42f1acc31acc11c5341c4af1bdab1b4001acc41acc21c52e1c4621bdb31b3801ad191ad181c52a1c4ae1bd981b35a1ac8f1ac8c1c4801c4661bd931b38c1ac901ac8d1c4ad1c43e1bd861b3271ac911ac8e1c4381c4311bd6b1b3061acf61ac731c42d1c3ec1bd5f1b2f01acf81ac681c4321c4281bd5a1b2e71acf91ac5e1c4231c3eb1bd641b2bd1ad0d1ac4f1c41d1c3ed))
  (.nd (.lf
  0xdd330dd320dd310dd2f0dd2e0dd2d0dd2c0dd2a0dd290dd280dd270dd250dd230dd220dd210dd1f0dd1e0dd1d0e1b90e1b50e1b30e1af0e1ae0e1aa0e1a90e1a50e1a30e19f0e19e0e19a0e1990e1980e1940e1900e18f0e18b0e18a0e1860e1850e1820e1800e17f0e17b0e16b0e16a0e1670e1650e1610e16c0e1600e15c0e1550e1530e1340e1300e10d0e10b0e0e90e0e70e0c70e0c50e0a50e0a30e081)
  (.lf
  0xaba512b2d12a3412163121490dee00dde40b6b40b69b0ab940ab8812b2212a36121651214a0ded50dde60b6b60b6720ab770ab6c12b1712a3812167121280deca0dde80b6b80b6740ab5b0ab5012b0c12a3a121691212a0debf0ddea0b6ba0b6760ab3f0ab3412b0112a3c1216b1212c0deb40ddec0b6bc0b6780ab230ab1612af612a3e1216d1212e0dea90ddee0b6be0b67a0ab050aaf912aeb12a401216f)))
  (.nd (.nd (.lf
  0x410b0410a040ef040ee040ec040eb040d0040cf040cd040cc040ac040ab040a9040a80408c0408b04089040880406d0406c0406a04069040490404804046040450402a0402904027040260400604005040030400203fe603fe503fe303fe203fc603fc503fc303fc203fa603fa503fa303fa203f8603f8503f8303f8203f6703f6603f6403f6303f4403f4303f4103f4003f2003f1f03f1d03f1c03f0103f00)
  (.lf
  0x10e7f10ba51094a1287612553118ac1188010e4210ba71091b12871124bf118ad1188110e1f10b33109081286d12740118ae1188210df510a901087e12868124ba118af1188310de510a301084412863124be118b01188410db110a311084512860124c1118b11188510d8b109f71084312859124c2118b21188610d6a109d41080c12856124c0118b31188710d4710b9e109d51284f1249a1192c1192a10d48))
  (.nd (.lf
  0x18c6718c6218c6118c5f18c2a18c2918c2818c2618c2518c2418c2318bd418b5f18b0518b3918b0418b0218b0118b0018af818af618af5184a2184a01849d1849c184971849618495184931849118498184901848e1848c18488184871848618483184821848a184811847e1847d1847b1847a184991847818476184741847218471184a31846f1846b1846e1846a1846818466184621846118463184601845d)
  (.lf 0)))

def shaXorOrder150 : BTree :=
  .nd (.nd (.nd (.lf
  0x1baa41ba371ba311baa61ba381ba0c1ba061ba131b8661b8601b8571b84c1b7241b7061c2431c23e1c2351c23a1c22c1c2251c2211c2191c2151c20d1c2071c20a1c1fe1c1f71c1f01c1f51c1e51c1de1c01c1c01b1c00e1c0101c0051bff51bfcc1d92d1bf951d8f01bfb71d8b41deb01dea21de9c1de961de901de8a1ded41de7f1de791de731de6d1ded81de621de5c1deb11de511de4b1de451de3f1de39)
  (.lf
  0x6f2506f0b00dd5071030701706f2706f0c00db2070f80701906f2906eea00d8f070ed0701b06f2b06eec00d6b070e20701d06f2d06eee00d4c070d70701f06f2f06ef000d28070cc0702106f3106ef100d08070c10702306f3306ef200ce8070b60702506f3506ef300cc9070ab0702706f3706ef400ca5070a00702906f3900c85070950702b06f3b00c660708a0702d06f3d00c420707f0702f06f3f00c22))
  (.nd (.lf
  0x126aa126a91314713145131441314313142131401313e1313d1313f1313c1313a13139131381313613135131341313313131131301312f1312e1312c1312b1312a13129131271312613125131241312213121131201311f1311d1311c1311b1311a13118131171311613115131131311213111131101310e1310c1310b1310a1310813107131061310513103131021310113100130fe130fd130fc130fb130f9)
  (.lf
  0x1c2901bf181bed616c5716c0d13f4f13e6413e2013d3a1c3081c2921bf1a1bed716c5416c0f13f4a13e6613e2213d491c8091c5a01c26f1c2601c255174691724814c6a14c5c14c5a147271462b1c7fb1c5a21c2711c2611c256174611724a14c6c14c5d14c5b147231461f1c7f71c5c11c2731c2621c2571745c1724c14c6e14c5e1471a146201c7f41c5c31c2751c2631c258174571724e14c7014c5f14716)))
  (.nd (.nd (.lf
  0xd69b0d69a0d6980d6970d67a0d6790d6770d6760d6590d6580d6560d6550d63b0dae40dae20dad80dad70dad40dad30dad20dac00dabf0dabe0dabc0dabb0dab90dab70dab50dab40dab10dab00daaf0daad0daab0daaa0daa80daa40daa20da8f0da8e0da900da8d0da8b0da890da860da850da840da810da800da7f0da7c0da7b0da7a0da760da740da720da6f0da6b0da670da5a0da570da560da550da52)
  (.lf
  0x1bc001affa1ab791dfbe1de171bbf91bbf71afed1ab871de091ddc51bbf31bbf11afb31ab621dda01dd7a1bc4e1bc4c1af8f1ab361dd611dd0d1b9f81b9f61af6d1ab0c1dcec1dcae1b9ee1b9ec1af491aaf11dcb81dc561b8a01b89e1af2b1aadb1dc571dc0f1b8831b8811af041aac91e91d1e4b31ddca1ddc81bd001b5711b56d1b56c1e8e81e49d1dd3d1dd381bce71b5581b5551b5541e8e31e4971dd1b))
  (.nd (.lf
  0x1d62c1d62a1d6281d63c1d6261d6231d76f1d76d1d76c1d76b1d76a1d7681d7671d7661d7651d7631d7611d7601d75f1d75d1d75c1d75b1d75a1d7581d7571d7561d7551d7531d7521d7511d7501d74e1d74d1d74c1d74b1d7491d7481d7471d7461d7441d7431d7421d7411d73f1d73e1d73d1d73c1d73a1d7391d7381d7371d7351d7331d7321d7311d72f1d72e1d72d1d72c1d72a1d7291d7281d7341d727)
  (.lf 0)))

def shaXorOrder151 : BTree :=
  .nd (.nd (.nd (.lf
  0x19d3019b50199c0197f01962019440192b0190d018f3018da018bc02217021f9021d6021b30218f0216f021500212c0210d020e9020ca020a60208702064020400202101ffe01fda01fba01f9a01f7a01f5b01f3701f1701ef801ed401eb501e9201e6e01e4f028510282e0280f027ec027c8027a802789027660274302720026fd026d9026b9026990267a026560263602616025f7025d3025b30259302574)
  (.lf
  0xe7a10da3e0d3840cd2c0ccf00e79b0da2c0d3850cd2e0ccf10e7950da2d0d3860cd300ccf20e78f0da2e0d3870cd320ccf30e7890da2f0d3880cd340ccf40e6300da300d38c0cd360ccf50e61f0da310d34e0cd380ccf60e60e0da050d34f0cd3a0e5f90d9f80d3500cd3c0e5ee0d9e40d3510cd3e0f8220e4050dadd0d5350d4ed0d4e80f81e0e3eb0dade0d5370d4ee0d4e90f8170e3c50dacb0d5390d4ef))
  (.nd (.lf
  0x95a40959d0959c0959a095960958f0958e0958c0958809581095800957e0957a0957309572095700956c0956509564095620955c0955509554095520954b0954409543095410953c0953509534095320952e0952709526095240951e0951709516095140950f095080950709505094ff094f8094f7094f5094f0094e9094e8094e6094e2094db094da094d8094d4094cd094cc094ca094c6094bf094be094bc)
  (.lf 0))) (.nd (.nd (.lf
  0x1eaae1eaac1eaab1eaaa1eaa91eaa71eaa51eaa41eab11eaa31eaa11eaa01ea9f1ea9d1ea9c1ea9b1ea9a1ea931ea661ea5f1ea5e1ea5b1ea5a1ea511ea501ea4e1ea4c1ea4b1eb691ea4a1ea481ea471ea461ea441ea431ea421ea411ea3f1ea3e1ea3d1ea3c1ea3a1ea391ea381ea371ea351ea341ea331ea321ea311ea2f1ea2e1ea2d1ea2b1ea291ea281ea271ea251ea231ea221ea211ea1f1ea1e1ea1a)
  (.lf
  0x5e9b0918b09055083f1083bd063f605eeb05ea705e9c0918709030083f2083be063f705eed05ea805e9d091830900c083f3083bf063f805eef05ea905e9e0917c08fe8083f4083c0063f905ef105eaa05e9f0917908fc4083f5083c1063fa05ef305eab05ea00917408fa0083f6083c2063fb05eb505eac05ea10916e08f7e083f7083c3063fc05eb705ead05ea20916a08f5c083f8083c4063fd05eb905eae))
  (.nd (.lf
  0xf38b0f3840f3830f3800f3790f3780f3750f36e0a0050a00209fe309fe209fdf09fbb09fba09fb709f9409f9309f9009f6c09f6b09f6809f4309f4209f3f09f1c09f1b09f1809ef409ef309ef009ecb09eca09ec709ea209ea109e9e09e7909e7809e7509e5209e5109e4e09e2a09e2909e2609e0309e0209dff09ddd09ddc09dd909db509db409db109d8e09d8d09d8a09d6809d6709d6409d4009d3f09d3c)
  (.lf 0)))

def shaXorOrder152 : BTree :=
  .nd (.nd (.nd (.lf
  0x162b0162ac162a4162a01629f1629b16298162961625816255162511624d1624516241162301622c1621d1621a161e6161e3161561615316146161431613816135161241612216114161121610716105160bf160bd16db816da616d5b16d5816d3416d2816d0916cf916cea16ce816b7c16b7916b7816b7216ac016abe16abd16abb16aba16aae16aad16a8c16a7516a72169bf169bc169bb169b8169b7169b4)
  (.lf
  0xc9da0c9c20c9c10c9be0c9a70c9a60c9a30c98c0c98b0c9880c9700c96f0c96c0c9520c9510c94e0c9320c9310c92e0c9120c9110c90e0c8f20c8f10c8ee0c8d20c8d10c8ce0c8b20c8b10c8ae0c8910c8900c88d0c86e0c86d0c86a0c84d0c84c0c8490c82d0c82c0c8290c80b0c80a0c8070c7ea0c7e90c7e60c7ca0c7c90c7c60c7a80c7a70c7a40c7850c7840c7810c7620c7610c75e0c73f0c73e0c73b))
  (.nd (.lf
  0x19a9b19a9a19a9919a9719a9619a9519a9419a9219a9119a9019a8f19a8d19a8c19a8b19a8a19a8819a8719a8619a8519a8319a8219a8119a8019a7e19a7d19a7c19a7b19a7819a7719a7619a7919a7519a7319a3119a3019a2e19a2d19a1619a1719a1519a1319a1219fe819fe319feb19fe219fde19fdb1a18b19fd91a17d19fd51a18e19fd11a17a19fcd1a18019fc919fc519fc019fbf19fba19fb919fb4)
  (.lf
  0x183fe183ba182f41d6091d5ca1b23d1b152185d718400183bc182ed1d60b1d5cb1b1ab1b154185d218402183be183921d60d1d5cc1b1a71b156185cb18404183c0182f51d60f1d5cd1b1a11b158185c818406183c2182dd1d6111d5ce1b19d1b15a185c318408183c4182da0221c021f8015fc015bc0101a00a7400a3400a29009c7021f3021d5015fd015bd0101b00a7600a3500a2a009c8021d0021b2015fe)))
  (.nd (.nd (.lf
  0x1ac121ac111ac101ac0b1ac0a1ac081a8681a85e1a8101a80f1a80d1a80b1a8091a8051a8031a7cd1a7c41a7a01a79e1a7981ac011a5a51a5a31b5661b5651b5631b5621b5611b55f1b55a1b54f1b54e1b53e1b53d1b53c1b53b1b52b1b52a1b5291b5281b5261b46d1b4601b4211b41f1b4141b4131b4121b4101b4031b4021b4011b3ea1b3e81b3a31b3a21b3a01b3941b3931b3921b3901b3711b3671b3a4)
  (.lf
  0x369f030a40308d02c8c03ca7036a0030a60308e02c6803ca8036a1030a80308f02c4803ca9036a2030aa0309002c2803caa036a3030ac0309102c0803cab036a4030ae0307202be803cac036a5030b00307302bc903cad036a6030b20307402ba503cae036a7030b40307502b8603caf036a8030b60307602b6203cb0036a9030b80307702b4303cb1036aa030ba0307802b1f03cb2036ab030bc02aff03cb3))
  (.nd (.lf
  0x50bd050ad050ac050aa050a90509605095050930509205081050800507e0507d0506c0506b0506905068050580505705055050540504305042050400503f0502f0502e0502c0502b0501805017050150501405003050020500004fff04fee04fed04feb04fea04fde04fdd04fdb04fda04fcd03ae803ae503ac903ac603aa703aa403a8403a8103a6303a6003a4303a4003a2303a2003a0303a00039e3039e0)
  (.lf 0)))

def shaXorOrder153 : BTree :=
  .nd (.nd (.nd (.lf
  0x659406596065980659a0659c0659e065a0065a2065a4065a6065a8065aa065ac065ae065b0065b2065b4065b6065b8065ba065bc065be065c0065c2065c4065c60853b0853d0853f08541085430854508547085490854b0854d0854f08551085530855508557085590855b0855d0855f08561085630856508567085690856b0856d0856f08571085730857508b7a08b7c08b7e08b8008b8208b8408b8608b88)
  (.lf
  0x1e2d91e2d51f1121e9a41e8721e30d1e2cc1e2c81f1041e9911e9251e85b1e2da1e2b41f0f21e9611e85d1e2771e2751f0201ea021e8681e25e1e25a1ef771e8c31e83d1e2051e2011fcd11f59f1f1311efbd1efbb1efb81efb61fc781f5b11f12e1efa91efa81efa51efa41fc5f1f5a21f06d1ef981ef951ef921ef911fc381f5201f0681effa1ef891ef851ef841fc451f4f11f0631efc61ef5e1ef5d1ef5b))
  (.nd (.lf
  0xf8390f8380f8cd0f8370f8350f8340f8330f8310f8300f82f0f8c60f82e0f82c0f82b0ed680ed660ed650ed640ed630ed610ed600ed5f0ed5e0ed5c0ed5b0ed5a0ed590ed570ed560ed550ed540ed520ed510ed500ed4f0ed4d0ed4c0ed4b0ed4a0ed480ed470ed460ed450ed430ed420ed410ed400ed3e0ed3d0ed3c0ed3b0ed390ed380ec3e0ec3d0ec3b0ec3a0ec390ec380ec360ec350ec340ec330ec31)
  (.lf
  0xdde50ddd50d1ab0d19d157721561114d5714d4514d3a0f2360f0bf0dde70ddd60d18c0d17e157671561314d5914d4614d3b0f22b0f0c10dde90ddd70d16d0d15f1575c1561514d5b14d4714d3c0f2200f0c30ddeb0ddd80d14e0d140157511561714d5d14d4814d3d0f2150f0c50dded0ddd90d12f0d121157461561914d5f14d4914d3e0f20a0f0c70ddef0ddda0d1100d1041573b1561b14d6114d4a14d3f)))
  (.nd (.nd (.lf
  0x576c0576b0576805767057800576605764057620575f0575905757057540574e0574d0574a057440574305742057400573e0573d0573a05739057350573305e1305e1205e1005e0f05e0e05e0c05e0b05e0a05e0905e0705e0605e0505e0405e0205dff05dfe05e0005dfd05dfb05dfa05df905df705df605df505e0105df405df205df105df005dee05ded05dec05deb05de905de805de705de605de405de2)
  (.lf
  0x12f1d151c0151ba14327143251372e12ec612ec312ec2151ae151a41431b14319136fa12ed512ed412ed31519c15193143101430e136f1130a112ea112ea01518b1517d1430214300136e8130a212e891517e15173142f8142f4136a01308512e571516b15163142f9142f51368c1307112e2f1515b15154142e6142e41367e12ffe12e081514b15140142d6142d41365d12fdd12dff1514115131142dc142da))
  (.nd (.lf
  0x1aeca1aec61aec31aec21aec01aebf1aebc1aeb91aeb81aeb71aeb51aeb21aeb11aeae1aeab1aeaa1aea71aea61aeac1aea51aea31aea11ae9e1ae9d1ae9c1ae9a1ae991ae971ae951ae931ae911ae8e1ae8d1ae8b1ae881ae871ae861ae841ae811ae801ae7c1ae7b1ae7a1ae771ae741ae731ae711ae6f1ae6d1ae681ae671ae661ae641ae621ae601ae5c1ae5b1ae5a1ae581ae571ae551ae521ae511ae50)
  (.lf 0)))

def shaXorOrder154 : BTree :=
  .nd (.nd (.nd (.lf
  0x89b7089b9089bb089bd089bf089c1089c3089c5089c7089c9089cb089cd089cf089d1089d3089d5089d7089d9092d7092eb092ed092ef092f1092f3092a809277092790927b0927d0927f092f5092f7092f9092fb092fd092aa092810928309285092ff09301093030930509307092ac09287092890928b098fa0990e09910099120991409916098cd09896098980989a0989c0989e099180991a0991c0991e)
  (.lf
  0x11b600a25007f520153003820016c2012f00384001672012c003860016220127003880015d200f40038a00158200ee0038c00153200ea0038e0014e200e600390001492006500392001442004c003940013f20044003960013a2004100398001352003c0039a00130200370039c0012b2002f0039e0012620021003a0001211feca003a20011c1fe42003a4001171fe24003a6001121fe20003a80010d1fdd9))
  (.nd (.lf
  0x1486d1486c1486b14869148671486614865148631486214861148601485e1485c1485b1485a1485814857148561486e148551485314852148511484f1484e1483d1483c1483b14839148381483e148371483514834148301482b14829148281482714825148241481e1481d148191481814811148101480e1480d147fa147f9147f7147f5147f4147fb147f3147ec147eb147e5147e4147e2147e1147e0147de)
  (.lf
  0x1d1b01cf1a1cf011cef619709196c216c0e16bf616ba416b2c1d2701d1b21cf1c1cf0219703196c416c1016bf716b2316b1a1d26c1d1b41cf1e1cf03196ff196c616c1216be316b1b16b0d1d2661d1b61cf201cee1196fa1967a16c1416be516afa16ae21d25d1d1b81cf221cee3196f51967c16c1616be716af616ae51d25a1d1ba1cf241cee5196f01967e16c1816a5116967169661d2511d1bc1cf261cee7)))
  (.nd (.nd (.lf
  0x107df107de107861078810785107831077e1077d1077b10779107741076f1076d1076c107391073810737107341072f1072e1072d1072b106ed106ec106ea106e9106cd106cf106cc106ca106ad106ac106aa106a9106751067410672106711066d10c3410b8710b8510b8110b7e10b7310b3f10b2b10b2910a8810a8610a8410a7910a1c10a1a10a7410a0810a0610a6f10a01109fb10a6a109a9109a710a65)
  (.lf
  0x1fe3e1f1b11f1ae1ec701e7871e70c1fe341fe141f1921f18b1ec711e7a61e7031fe151fe111f17f1f17d1ec491e79e1e6de1fe071fdce1f18f1f1761ec4a1e8061e76f1fdc11fdb61f1681f1631ec371e7691fdb91fda81f1981f1951ec381e8101fd9d1fd601f19e1f19c1ebf51e7fc1fd5d1fd361f1911f1431ebe91e7e11fd321fce41f0f81f0f61ebea1e7e41fd281fc8f1f0fd1f0e51ebeb1e7ed1fcf8))
  (.nd (.lf
  0xa8800a87015af015ad015ac0159401593015910159001572015710156f0156e0154f0154e0154c0154b0152e0152d0152b0152a0150c0150b0150901508014eb014ea014e8014e7014c9014c8014c6014c5014a6014a5014a3014a20148301482014800147f01462014610145f0145e01442014410143f0143e01422014210141f0141e0140201401013ff013fe013e2013e1013df013de013c2013c1013bf)
  (.lf 0)))

def shaXorOrder155 : BTree :=
  .nd (.nd (.nd (.lf
  0x1248f124641243812380123591233712314130751306912fb512fb412fb312fb212f6012f1712eb812eb712e8a12e8312e4e12e2212dd412dc412daa12d9512d7e12d4512d1e12d0012ce212cc612ca812c6e12c5012c3512c1812bf7138411380113808137d9137a1137841376b1374013729136df136da136e31369b13687136771365b1364b136361362b135e1135bc135b1135a31357b13566135481350b)
  (.lf
  0x123d91170a10e8710c4410aab123d31170b10e5f10c4610aac123ce1170c10e2710c4810aad123c61170d10e0010b4610884123c21170e10ded10ab610860123bc116ae10db910c4a10861123b61169c10d9310c4c10862123b01168910d7210c4e10863123aa1167510d5810b481085f123a11167610d5910ab8107ae1239e1167710d0710aba107af123981163710cdf10abc107b0123921161710cba10abe))
  (.nd (.lf
  0xa11e0a11d0a11c0a11a0a1190a1180a1170a1150a1140a1130a1120a1100a10f0a10e0a10d0a10b0a10a0a1090a1080a1060a1050a1040a1030a1010a1000a0ff0a0fe0a0fc0a0fb0a0fa0a9140a9120a9110a9100a90f0a90d0a90c0a90b0a90a0a9080a9070a9060a9050a9030a9020a9010a9000a8fe0a8fd0a8fc0a8fb0a8f90a8f80a8f70a8f60a8f40a8f30a8f20a8f10a8ef0a8ee0a8ed0a8ec0a8ea)
  (.lf 0))) (.nd (.nd (.lf
  0x1f65d1f65c1f6601f65b1f6591f6581f6571f6551f6541f6531f6521f6501f64f1f64e1f64d1f64b1f64a1f6491f6481f6461f6451f6441f6431f6421f6401f63f1f63e1f63d1f63b1f63a1f6391f6371f6361f6351f6a91f6341f6321f6311f6301f62e1f6271f3ea1f3e91f3e31f3e21f3e11f3e01f3de1f3dd1f3dc1f3e41f3db1f3d91f34e1f34d1f34b1f3491f33f1f33e1f33a1f3381f3211ff031ff01)
  (.lf
  0xa9790a0770a03709768092820b3ac0b2660a72e0a72c0a07a0992309909099040b3a70b2620a7180a7160a07b099250990a099050b3a00b2630a7020a7000a07c099270990b099060b39d0b2650a6ec0a6ea0a07d099290990c099070b3980b2640a6d60a6d40a07e098d0098cb098ca0b3930b25a0a6c00a6be0a07f098a50988d098880b38d0b2570a6aa0a6a80a080098a70988e098890b38a0b2580a694))
  (.nd (.lf
  0x134231341c1341b134191341813411134101340e1340d13406134051340313402133fb133fa133f8133f7133f0133ef133ed133ec133e5133e4133e2133e1133da133d9133d7133d6133cf133ce133cc133cb133c4133c3133c1133c0133b9133b8133b6133b5133ae133ad133ab133aa133a3133a2133a01339f133981339713395133941338d1338c1338a1338913382133811337f1337e133771337613374)
  (.lf 0)))

def shaXorOrder156 : BTree :=
  .nd (.nd (.nd (.lf
  0x12ac312ab812aad12aa212a9712a8c12a8112a7612a6b12a6013464134591344e13443134381342d13422134171340c13401133f6133eb133e0133d5133ca133bf133b4133a91339e13393133881337d13372133671335c13351133461333b133301332513d2d13d2213d1713d0c13d0113cf613ceb13ce013cd513cca13cbf13cb413ca913c9e13c9313c8813c7d13c7213c6713c5c13c5113c4613c3b13c30)
  (.lf
  0x6a3806a3706a3406a3306a3206a2f06a2e06a2d06a2a06a2906a2806a2506a2406a2306a2006a1f06a1e06a1b06a1a06a1906a1606a1506a1406a1106a1006a0f06a0c06a0b06df606df306de806de706de406dd706dd606dd306dc606dc506dc206db506db406db106da406da306da006d9306d9206d8f06d8206d8106d7e06d7106d7006d6d06d6006d5f06d5c06d4f06d4e06d4b06d3e06d3d06d3a06d2d))
  (.nd (.lf
  0x1733e17339173201731d17301172fb172f0172df172c5172bc172a01729e1728a172821726d1726a1723c172391722b172281721a172171720d17206171fc171f3171e5171e3171d5171d3171c6171c3171b4171b0171a11719e171901718e17183171811717d171531714b1714a17169171421716117138170b9170b5173f9173f7173f5173c3173c9173c2173c0173a9173ab173a8173a6173841738817383)
  (.lf
  0x1564411263112480e5ac0d6b50d6a715f3b15f12156461125e1124a0e5ad0d6920d68616829167d215f0b0f3ce0f3570ed7c0e0c30df8016825167d415f0d0f3c30f3590ed7e0e0800df681681f167d615f0f0f3b80f35b0ed7f0e07d0df7d16819167d815f110f3ad0f35d0ed800e0390de4b16812167da15f130f3a20f35f0ed810e0360de3f1680e167dc15f150f3970f3610ed820e0120de3316806167de)))
  (.nd (.nd (.lf
  0x15b1115b0f15aff15afe15afc15afb15afa15af915af715aed15aec15aeb15ae915ae015adf15ade15adc15adb15ad615ad515a9e15a9d15a8d15a8c15a8a15a8515a7515a7215a7015a6615a6515a6b15a6415a6215a6115a7615a6015a5e15a5d15a5c15a5a15a5715a5215a5115a4f15a4a15a4915a4815a4615a2e159e4159e3159e0159db159d5159d4159d2159cd159bf159be159bc159bb159b6159b5)
  (.lf
  0x3480090a708c5607772076af075bf075ae075a303481034610908508c580776d076b1075c1075af075a40345c0343d0906108c5a07768076b3075c3075b0075a50343e0341e0903c08c5c07763076b5075c5075b1075a603419033fb0901808c5e0775e076b7075c7075b2075a7033f6033d708ff408c6007759076b9075c9075b3075a8033d8033b708fd008c6207754076bb075cb075b4075a9033b803397))
  (.nd (.lf
  0x1b9b01b9801b8001b7d01b6601b6301b4a01b4701b2d01b2a01b1201b0f01af601af301ad901ad601abe01abb01aa201a9f01a8701a8401a6b01a6801a4e01a4b01a3101a2e01a1601a13019fa019f7019dd019da019c2019bf019a6019a301989019860196c01969019510194e01935019320191a0191701900018fd018e4018e1018c9018c6034c7034c5034b2034ab034aa034a803490034890348803486)
  (.lf 0)))

def shaXorOrder157 : BTree :=
  .nd (.nd (.nd (.lf
  0x1f8dd1f94b1f8dc1f8d91f8d81f8d01f8cd1f8cc1f8ad1f8ac1f8aa1f8701f86f1f86e1f86c1f86a1f8681f8661f8631f7071f7051f7031f70b1f7011f6ff1f6bf1f6bd1f6bb20dc120dbf20db220d7620d7420d7120d7020d6e20d6b20d4f20d4c20d4b20d4920d3c20d3b20d3a20d3820d3520d2520d1c20d1a20b7220b6720b6420b6320b5720b5620b5a20b5420b5220b4020b3720b3620abd20a9d20a9a)
  (.lf
  0x195791956b186e417cb91781c175ad1956719554186a017ca4177f31758b19555195421869017ca5177d31756d19530195101867917ca6177841755619511194f21864517c721778617557194f3194d2185be17c6a1771317526194d3194c4185a417c1c1771517508194b8194871857c17c0d176f0174f5194881942b1854717bf4176de174d819426194161851917be417818176e71940e193fe184ea17bd1))
  (.nd (.lf
  0xc4f60c4f50c4f40c4f20c4f10c4f00c4ef0c4ed0c4ec0c4eb0c4ea0c4e80c4e70c4e60c4e50c4e30c4e20c4e10c4e00c4de0c4dd0c4dc0c4db0c4d90c4d80c4d70c4d60c4d40c4d30c4d20c4d10c4cf0c4ce0c4cd0c4cc0c4ca0c4c90c4c80c4c70c4c50c4c40c4c30c4c20c4c00c4bf0c4be0c4bd0c4bb0c4ba0c4b90c4b80c4b60c4b50c4b40c4b30c4b10c4b00c4af0c4ae0c4ac0c4ab0c4aa0c4a90c4a7)
  (.lf
  0x10575104f00b7f60b6b307a9407a6606a08069c4068510684f104cd104be104b30c26b0be4909b3109b2309b21090e0090de090d9090cf104cf104bf104b40c2530be4b09b3309b2409b22090c0090be090b8090ad104d1104c0104b50c2360be4d09b3509b250909e0909c090960908b104d3104c1104b60c21a0be4f09b3709b260907c0907a0907409067104d5104c2104b70c1fd0be5109b3909b2709058)))
  (.nd (.nd (.lf
  0x2131021300212e0212d02112021110210f0210e020ee020ed020eb020ea020cf020ce020cc020cb020ab020aa020a8020a70208c0208b020890208802069020680206602065020450204402042020410202602025020230202202003020020200001fff01fdf01fde01fdc01fdb01fbf01fbe01fbc01fbb01f9f01f9e01f9c01f9b01f7f01f7e01f7c01f7b01f6001f5f01f5d01f5c01f3c01f3b01f3901f38)
  (.lf
  0xdbc20db260ffa10fdf70e96d0e96b0e11f0dbc40db240ffb30fddc0e94c0e94a0e1060dbc60db250fdd70fdc20e9460e9440e0da0dc040dbc80fdbd0fda80e91d0e91b0e0c10db7c0fda60fd870e90a0e9080e0970dc140fd880fd6c0e8ec0e8ea0e07b0dc160fd710fd5b0e88f0e88d0e04f0dc180fd540fd450e8860e8840e0340dc1a0fd3f0fced0e87d0e87b0e0070dbca0fce80fcd70e8740e8720dfee))
  (.nd (.lf
  0x170e7170e6170e5170e3170e2170e0170dc170db170d9170d7170d6170d4170d1170d0170cf170cd170cb170c9170c5170c4170c3170c1170be170bd170b0170af173e2173e1173de173c7173c6173c4173bd1739d1739f1739c1739a17386173851737c173791736217361173591735817343173421734017337173191731b1731817316173081730717305172f8172e7172e6172da172d8172ca172c9172c7)
  (.lf 0)))

def shaXorOrder158 : BTree :=
  .nd (.nd (.nd (.lf
  0x9e1109deb09dc309d9c09d7609d4e09d2709cff09cd609caf09c8909c6309c3b09c1209beb09bc309b9a09b710a4c40a4b50a4a70a4970a4880a4780a4690a45b0a44b0a43a0a4290a41a0a40a0a3fb0a3ed0a3dd0a3ce0a3c00a3b20a3a40a3940a3850a3770a3670a3580a3480a3390a3290a31a0a30e0acca0acad0ac900ac720ac540ac380ac1d0ac000abe40abc60aba70ab8a0ab6e0ab520ab360ab18)
  (.lf
  0x1be2e1b5a41c6181bf431b87f1b3121e2391dde71cb3b1be341dc061c9501bf441bd6e1e9231e23a1ddec1dde41e1f01dc071dadb1ccda1efcc1e92c1e2421e2401e8971e1f11e0cb1dc0b1f5931efc41e92a1e9211ef541e8981e8331e1f41fd981f5981efcb1efc81f52c1eff91ef551e899201631f5ad1f5971fc181f4b31ef4e205a500f5600f3800818205a200f3300f150081a2058000f1000ef10081c))
  (.nd (.lf
  0x11b4911b4811b4711b4511b3f11b3e11b3d11b3b11b3611b3511b3411b3211b2b11b2a11b2911b2711b1f11b1e11b1d11b1b11b1311b1211b1111b0f11b0911b0811b0711b0511b0011aff11afe11afc11af511af411af311af111af011ae811ae711ae511ae411ade11add11adb11ada11acf11ace11acc11abe11aba11ab911ab711ab611aa611aa511aa311a8c11a8811a8711a8511a5e11a5a11a6011a59)
  (.lf
  0x19c3314d0a14c4d1011d100210f4e10f4d41a6411a52419c5519c3f19c3414d0514c4f101191000d0f4e20f4d51a63b1a52619c5719c4019c3514d0014c5110114100670f4e30f4d61a6361a52819c5919c4119c3614cfb14c691010f0ffd70f4e40f4d71a62e1a52a19c5b19c4219c3714cf614c6b1010a0ffd10f4e50f4d81a62a1a52c19c5d19c4314cf114c6d10105100220f4e60f4d91a6251a52e19c5f)))
  (.nd (.nd (.lf
  0xb3970b3960b3950b3920b3910b3db0b3900b38e0b3a80b38c0b3890b3880b3850b3840b3830b3820b3800b37e0b37b0b37a0b3790b3760b3750b3740b3710b3700b36f0b36d0b36b0b36a0b3680b3550b3530b3500b34f0b34e0b34d0b34a0b3490b3460b3450b3440b3410b3400b33f0b33d0b33b0b33a0b3290b3280b3270b3150b3140b3340b3130b3110b32e0b30e0b30c0b30a0b3080b3060b3050b303)
  (.lf
  0x18b54184dd17fe519cff19cfa18b2c18b2a184d517fba1ace91ab4f19b5b19b59192081894e1894a189491ace01ab5619b9f19b9d191ef18935189341892c1acd71ab3a19b4419b42191d81890618901189001acd41aa9019b3319b31191b7188a11889c1889b1acb71aa8a19b2419b221919e188d7188d2188d11acae1aa8619b1619b141919f188611885d1885c1aca31aa7e19b7819b76190f81882d18829))
  (.nd (.lf
  0x1cb771cb821cb761cb731cb721cb6f1cb6e1cb6d1cb6b1cb6a1cb681cb661cb651cb631cb601cb5f1cb5e1cb5b1cb5a1cb591cb581cb551cb541cb501cb4f1cb4e1cb4c1cb4a1cb491caea1cae81cae01cade1cadc1cad31cacf1cacd1cac61cac31cac11d04c1d0481d0471d0461cff21cff11cff51cff01cfed1cfec1cfe81cfe71cfe61cfe41cfe11cfe01cfde1cfdb1cfda1cfd81cfd31cfd21cfce1cfcd)
  (.lf 0)))

def shaXorOrder159 : BTree :=
  .nd (.nd (.nd (.lf
  0x2084f2084720845208442083f2083e2083c208292082320821208192081820817208152080d2080c2080a208052080420802207fe207fd207fb207f92079f2079e2079c20794207922078820709207062070520704206fd206fc206fb206da206d7203502034e20323203202031b2031820317203112030d2030c20306203042030320300202fe202fc202fa202ed202eb202e9202e4202f3202e3202e0202df)
  (.lf
  0xa1c009a59096410a7fc0a1b809a5b096300ba130afe30a7ff0a2fd0a2b50a2b00b9f70afe40a8000a2ff0a2b60a2b10b9d90afe50a8010a3010a2b70a2b20b9ba0afe60a8020a3030a2b80a2b30b99d0afe70a8030a3050a2b90a2b40b9810afe80a8040a3070a2ba0b9660afa40a8050a2c90a2bb0b94b0afa50a8060a2cb0a2bc0b92f0afa60a8070a2cd0a2bd0b9110afa70a8080a2cf0a2be0b8f30afa8))
  (.nd (.lf
  0x86fe086f1086f0086ee086ed086e0086df086dd086dc086cf086ce086cc086cb086c0086bf086bd086bc086b0086af086ad086ac0869f0869e0869c0869b0868e0868d0868b0868a0867d0867c0867a086790866c0866b08669086680865d0865c0865a086590864f0864e0864c0864b0863f0863e0863c0863b086300862f0862d0862c08622086210861f0861e08614086130861108610086040860308601)
  (.lf 0))) (.nd (.nd (.lf
  0x1de851de841de831de811de801de7e1de7d1de7b1de7a1de781de771de751de741de721de711de6f1de6e1de6c1de6b1de691de681de671de661de641de631de611de601de5e1de5d1de5b1de5a1de581de571de561de551de531de521de501de4f1de4d1de4c1de4a1de491de471de461de441de431de411de401de3e1de3d1de3b1de3a1de381de371de351de341de321de311de2f1de2e1de2c1de2b1de29)
  (.lf
  0x4d98047c004206041be041b3057a90575104dd904d99047c1041c8041bf041b4057a60575204dda04d9a047c2041ca041c0041b5057a00574604ddb04d9b047c3041cc041c10579c0574704ddc04d9c047c4041ce041c2057970574804ddd04d9d047c5041d0041c3057920564504dde04d9e047c6041d2041c40578c0563504ddf04d9f047c7041d4041c5057860562404de004da0047c8041d6041c605781))
  (.nd (.lf
  0xef250ef1e0ef1d0ef1b0ef190ef120ef110ef0f0ef0e0ef070ef060ef040ef030eefc0eefb0eef90eef80eef10eef00eeee0eeed0eee60eee50eee30eee20eedb0eeda0eed80eed70eed00eecf0eecd0eecc0eec50eec40eec20eec00eeb90eeb80eeb60eeb50eeb2104a6104a3104a2104a11049e1049d1049c1049910498104971049410493104921048f1048e1048d1048a1048910488104851048410483)
  (.lf 0)))

def shaXorOrder160 : BTree :=
  .nd (.nd (.nd (.lf
  0xf7000b80015b1011b3018b50188c0222d01e38028660247002e9002aa9034cd030d403af4037110411f03d380474e0436204d86049910523904fc9057260554d05cac05ace0622a0604f0820107c67087530857a090ef08cab0960a0944c0a01209b610a4d30a30b0ace40a9720b22f0b0580ba3c0b6ce0c2730bea20ca360c67c0d1f50ce440d9ba0d6350e40d0df6d0e8b00e77a0f8290f7740ff400fc89)
  (.lf
  0x7a5d07a5a07a5907a5807a5507a5407a5307a5007a4f07a4e07a4b07a4a07a4907a4607a4507a4407a4107a4007a3f07a3c07a3b07a3a07a3707a3607a3507a3207a3107a3007a2d07a2c07a2b07a2807a2707a2607a2307a2207a2107a1e07a1d07a1c07a1907a1807a1707a1407a1307a1207a0f07a0e07a0d07a0a07a0907a0807a0507a0407a0307a00079ff079fe079fb079fa079f9079f6079f5079f4))
  (.nd (.lf
  0x1b5a61b5211b5201b51e1b51d1b51c1b5231b51b1b5191b4f61b4f51b4f31b4f21b4f11b4f01b4ee1b4ed1b4ec1b4eb1b4891b4881b4461ba9e1ba9a1ba9c1ba961ba921ba8e1baa11ba8c1ba881ba831ba821ba7a1ba791ba771ba741ba711ba6f1ba6b1ba6a1ba651ba631ba601ba5e1ba591ba581ba531ba511ba4e1ba4c1ba481ba461ba431baa31ba401ba3c1ba361ba341ba301baa51ba2e1ba281ba23)
  (.lf
  0x34eb02f0e02923028f003e7803e520352c034ec02f0f02925028f103e4d03e2f0352d034ed02f100292703e2a03e0b0352e034ee02f110292903e1203deb0352f034ef02f120292b03df203dcb03530034f002f130292d03dd203dab03531034f102f140292f03db203d8b03532034f202f150293103d9203d6b03533034f302f160293303d7203d4b03534034f402f170293503d5203d3c03535034f502f18)))
  (.nd (.nd (.lf
  0x1e8c01e8be1e8bc1f3c01f3ab1f3a61f3a51f3a41f39f1f39d1f39c1f61f1f39b1f3991f3881f3871f3851f37a1f36e1f36f1f36d1f36b1f36a1f3691f3621f3601f3591f3581f3561f3461f3451f3441f3421f3301f32f1f32e1f3251f31f1f3191f3181f3161f30a1f3071f3111f3061f3041f3031f3021f3001f2fa1f2f91f2f81f2f61f2f41f2f31f2f21f2f01f2ea1f2e91f3d01f2e81f2c21f2c11f2c0)
  (.lf
  0x65640603505ff308cf408297065650603708cc708298065660603908cad08299065670603b08b18082f206ddf065bd065750657008b19082ea06dce065bf065760657108b1a082e206dbd065c1065770657208b1b082d906dac065c3065780657308b1c082d106d9b065c5065790657408b1d082c906d8a065c70657a08b1e082c106d79065890657b08b1f082b906d680658b0657c08b200829b06d570658d))
  (.nd (.lf
  0x60ba060af060ae060ac060ab0609f0609e0609c0609b0608e0608d0608b0608a0607d0607c0607a060790606e0606d0606b0606a06061060600605e0605d0605404d7a04d7704d5b04d5804d3904d3604d1804d1504cf604cf304cd504cd204cb304cb004c9204c8f04c7204c6f04c5204c4f04c3204c2f04c1004c0d04bed04bea04bcc04bc904bac04ba904b8c04b8904b6a04b6704b4704b4404b2404b21)
  (.lf 0)))

def shaXorOrder161 : BTree :=
  .nd (.nd (.nd (.lf
  0x1e92b1e9031e8f31e9401e90e1e8b31efbc1efad1ef971efd21efec1efca1efbe1efac1ef961ef9b1f0081efee1efaa1ef9a1ef881ef641ef431f00c1ef391ef171ef161ef1f1efed1f00b1efc91efbf1efab1ef991f00a1ef611f59e1f5b51f5af1f5321f5231f5ae1f5b31f5b21f5ab1f51b1f5b01f5b61f59a1f5a71f52f1f4ef1f5211f4d21f4ca1f49c1f4a61f4b81f4ac1f4b61f5b71f58b1f59b1f5a9)
  (.lf
  0x1b48b1b14b1b13a1cbb21ca8e1b4561b14d1b13b1cbad1ca901b3db1b14f1b13c1cc3f1cbaa1b3c61b1511b13d1cba61ca931b3c21b1531b13e1cba11ca951b1551b13f1b0f21cb9c1cb371b1571b1401b0ed1cb971cb2a1b1591b1411b0e41cb921cb201b15b1b1421b0de1cb8c1cb161b15d1b1221b0bc1cb871cb411b15f1b1241b0b41cb841cb071b1611b1261b0a61cb7e1cafc1b1621b1281b09a1cb79))
  (.nd (.lf
  0x10c2610c2510c2410c2210c2110c2010c1f10c1d10c1c10c1b10c1a10c1810c1710c1610c1510c1310c1210c1110c1010c0e10c0d10c0c10c0b10c0910c0810c0710c0610c0410c0310c0210c0110bff10bfe10bfd10bfc10bfa10bf910bf810bf710bf510bf410bf310bf210bf010bef10bee10bed10beb10bea10be910be810be610be510be410be310be110be010bdf10bde10bdc10bdb10bda10bd910bd7)
  (.lf
  0x17922127d11277e0f1060f0c20f0550ef32182a1182151796517923127cc127800f1080f0c40f0520ef261829b182171796717924127c7127820f10a0f0c60f04b0ef1a18c1e18a96181f4181e5181da1326b13184112271121911217108dc1068218c1818a98181f6181e6181db1326613186112291121a11218108d41068318c0e18ab7181f8181e7181dc13261131881122b1121b108cf1068d18c0b18ab9)))
  (.nd (.nd (.lf
  0x963e096390963709628096220a00009ffe09ffc09fdd09fdc09fda09fd809fb509fb409fb209fb109f8e09f8d09f8c09f8a09f6609f6509f6309f6109f3b09f3d09f3a09f3809f1409f1609f1309f1109eee09eed09eec09eea09ec509ec409ec209ec109e9c09e9b09e9909e9809e7309e7209e7109e6f09e4c09e4b09e4909e4809e2409e2309e2109e2009dfd09dfc09dfb09df909dd609dd709dd509dd2)
  (.lf
  0x165a5187a518794176661766416f0c165aa165a8165a61879118764176561765416f0d16639165ab165a91876c18749176251762316eef1663a1658a1873e18730176201761e16ee7166471657e1873118712175f8175f616edb166281657518717186f9175de175dc16ed0165fd1656b186f6186f2175cc175ca16ec7165ff1655f186eb186c2175b9175b716ec81660016560186e2186b01759d1759b16ead))
  (.nd (.lf
  0x1c8281c8271c8261c8241c8221c8211c8201c81d1c81c1c81b1c81a1c8021c8011c8001c7ff1c7ec1c7eb1c7e41c8491c7e31c7e11c7db1c7da1c7c61c7c51c7c41c7c31c7a41c7a31c7a21c7ad1c7a11c79f1c79e1c79d1c7791c7781c7761c77a1c7751c7731c7721c7711c76f1c76d1c76c1c76b1c7691c7491c7481c7471c7451c7441c7421c7411c73f1c73d1c73c1c73b1c7391c7381c7341c7331c72d)
  (.lf 0)))

def shaXorOrder162 : BTree :=
  .nd (.nd (.nd (.lf
  0x1fb171fb2a1faf11fb771faed1fb7a1faae1faf81fb3b1fa831fb371fb1a1fb021fad91fb3c1faf21fb781fb3d1fa971fb2b1fb161fb321fad7203521faf41fb431fab01fab2204cd204f9204f4204ef2058b204a7205a1204952048820541204f720546204df2050b204d02052620695205682049d204e1204e4204fa205282053d2050d2052c205672054d204e62047520c4420c4820c4520c3a20c0220c63)
  (.lf
  0x814808141081400813e0811908112081110810f080ea080e3080e2080e0080bd080b6080b5080b30808d0808608085080830805f080580805708055080310802a08029080270800207ffb07ffa07ff807fd107fca07fc907fc707fa307f9c07f9b07f9907f7307f6c07f6b07f6907f4307f3c07f3b07f3907f1407f0d07f0c07f0a07ee507ede07edd07edb07eb407ead07eac07eaa07e8607e7f07e7e07e7c))
  (.nd (.lf
  0x16268162671626616264162621626116287162601625e1625d1625c1625a1625416253162521623f1623e1623d1623c1623a162391623716236162341623316232162311622a1622916228162271621316211162101620f1620d1620c1620b1620a162081620716205162041620216201161f6161f5161f3161f2161ea161e9161e2161e1161e0161df161d6161d5161d4161d316152161501614a1614916142)
  (.lf
  0x66ab0666704b8b04b6b0f64a0f5300ab100a94f079af07970066ad0666904b6604b480f6380f5320aaf30a951079b107971066af0666b04b4304b250f6260f5340aad50a953079b307972066b10666d04b2004b020f6140f5360aab80a955079b507973066b30666f04afd04adf0f6020f5380aa9a0a957079b707974066b50667104ada04abb0f53f08c6107e1a07e1207e0e07e0c07e0607dfb0f54108c63)))
  (.nd (.nd (.lf
  0x1354a135491351f1351e1351c1351b1351a13519135171351613515135141351213511134c6134cd134c5134c3134881399413992139901398f1398d1398b1398a1398813986139851398313981139801397e1397c1397b1397913977139761397413972139711396f1396d1396c1396a1396813967139651396313962139601395e1395d1395b1394b139541394a13948139461393c1393b1393a1393813934)
  (.lf
  0x103131030b0fb200ebfc10aff0fcb10fcad0f8e80eb781179f10b9810b92103170fb88114c11068a106860fcb30fb8611bd9110fd110fb10b9b1032d1199710b0810b021068c1027b125f71189e11872110ff10baf122f1114c7114c510b0b109d81307811eeb11ee7118b41110612bc71199f1199d114c810f701385c126841268011eef1190a1348d122f5122f3119a0119081410c1309e1309c1268711efd))
  (.nd (.lf
  0x27c2027bb027ba027b8027a20279b0279a02798027800277902778027760275d0275602755027530273a02733027320273002717027100270f0270d026f4026ed026ec026ea026d3026cc026cb026c9026b3026ac026ab026a9026930268c0268b02689026710266a0266902667026500264902648026460263002629026280262602610026090260802606025ee025e7025e6025e4025cd025c6025c5025c3)
  (.lf 0)))

def shaXorOrder163 : BTree :=
  .nd (.nd (.nd (.lf
  0x613006122061200611f061110610f0610e06100060fe060fd060c5060c3060c2060a6060a4060a3060950609306092060840608206081081de081dc081db081ad081ab081aa08122081200811f0809608094080930800b080090800807fda07fd807fd707f7c07f7a07f7907f4c07f4a07f4907eee07eec07eeb07ebd07ebb07eba07e5f07e5d07e5c07dd407dd207dd107da307da107da007d7307d7107d70)
  (.lf
  0x14a991690e1599114f8f14b1c14a9a169091599214f8414bac14b29168d81599314f5114b06168d51587414f5214b08167ed1587514f2514b10173d81640815c551527f1526515260173a41640d15c5615281152661526117394163fc15c3e1528315267152621735f163ea15c3f1528515268152631733f163eb15b9915264152171521417321163ec15b8515201151fe17302163ed15b61151ec151eb172f1))
  (.nd (.lf
  0xb4e50b4e40b4e30b4e10b4e00b4df0b4de0b4dc0b4db0b46e0be440be420be410be400be3f0be3d0be3c0be3b0be3a0be380be370be360be350be330be320be310be300be2e0be2d0be2c0be2b0be290be280be270be260be240be230be220be210be1f0be1e0be1d0be1c0be1a0be190be180be170be150be140be130be120be100be0f0be0e0be0d0be0b0be0a0be090be080be060be050be040be030be01)
  (.lf 0))) (.nd (.nd (.lf
  0x20e7420e7220e7120e7020e6e20e6c20e6b20e6a20e6820e6520e6320e6620e6220e6020e5f20e5e20e5b20e5a20e5920e5820e5620e5320e4f20e5120e4e20e4c20e4b20e5420e4a20e4820e4720ed820e4620e4420e4320e4220e4020e3d20e3c20e3b20e3920e3720e3620e3520e3320e3220e3120e3020e2a20e2820e2720e2e20e2620e2420e2320e2220e1e20e1d20e1b20e1f20e1a20e1820e1720e16)
  (.lf
  0xd2920cb8d0c4940c4850c4820e3e70e3ca0d2c50d2930cb840c4960c4860c4830e3b00e3960d2c60d2940cb7b0c4630c45e0c45d0e38e0e3830d2c70d2950cb720c4a40c49f0c49e0e3680e34d0d2c80d2960cb690c4490c4440c4430e3450e33e0d2c90d2970cb600c4330c42e0c42d0e31f0e3060d2ca0d2980cb570c41d0c4180c4170e2fa0e2ed0d2cb0d2990cb4e0c4070c4020c4010e2ee0e2c80d2cc))
  (.nd (.lf
  0x1566f156681566715665156641565d1565c1565a1565915652156511564f1564e1564b155e9155e6155e5155e4155e1155e0155df155dc155db155da155d7155d6155d5155d2155d1155d0155cd155cc155cb155c8155c7155c6155c3155c2155c1155be155bd155bc155b9155b8155b7155b4155b3155b2155af155ae155ad155aa155a9155a8155a5155a4155a3155a01559f1559e1559b1559a1559915596)
  (.lf 0)))

def shaXorOrder164 : BTree :=
  .nd (.nd (.nd (.lf
  0x8e8008e7e08def08ded08d5f08d5d08d3a08d3808d1408d1209601095ff095e2095e0095d4095d2095b5095b3095a7095a509599095970958b095890957d0957b0956f0956d0953f0953d095310952f0951209510094f3094f1094e5094e3094d7094d5094c9094c709488094860947a0947809ff509ff309fa609fa409f2e09f2c09e6409e6209e1509e1309def09ded09da009d9e09d7a09d7809d2b09d29)
  (.lf
  0x735207351073500734d0734c0734b0734807347073460734307342073410733e0733d0733c0733907338073370733407333073320732f0732e0732d0732a0732907328073250732407323073200731f0731e0731b0731a073190731607315081f1081ef081ee081c6081c5081c3081c20819508194081920819108167081660816408163081390813808136081350810a081090810708106080db080da080d8))
  (.nd (.lf
  0x18cf118cf018ce618ce118ce018cd418cc718cc418cc118cbe18cbb18cb718c9d18c9a18c8e18c8618c7518c6e18c7118c6518c5d18c4418c4218c2d18be818bd718b3f18b3c18b1918b1519075190731907219071190701906e1906d1906c1906b18fd518fd418fd218fd118fcf18fce18fcd18fcc18fca18fc918fc718fc618fc418fc218fc118fc018fbf18fbd18fbc18fbb18fb918fb718fb618fb518fb3)
  (.lf
  0x208d4208d12069d204521fa821fa811fa7f1fa7e1fa7d1fa7c2089c2089a206992043a1fb381fb351fb331fb301fb2e1fb2d2091d2091b2040d1fb221fa6a1f9cb1f9ca1f9c91f9c82087e2087c204041fb101fa641f9c11f9c01f9bf1f9bc207af207ad204141fb291fa5f1f9c31f9b71f9b41f9b3207b4207b22041d1fad01fa5a1f9f91f9d11f9ab1f9aa2074e2074c203ec1fac41fa541f9a31f9a21f9a1)))
  (.nd (.nd (.lf
  0x18f4a18f3d18f1a18f1918f0d18f0918f0418f0318f0118f0018ef418ef918ef318ef118ede18edd18edb18ed318ece18ecd18ec618ec518ec418ed518ec318ec118ec018ebf18ebd18eae18e7618e7518e5418e5318e5218e5118e4718e4618e4518e4418e4218e4118e4018e3f18e3d18e3818e3718e3618d0718d0218c5518c5618c5418c5218c5118c5018c3d18c3818bfe18bfd18bfb18be218b4f18b53)
  (.lf
  0x1583023d101db9017eb017a10179c0156201560023d201dba017ed017a20179d015420153e023d301dbb017ef017a30179e0151f0151d023d401dbc017f1017a4014ff014fb023d501dbd017b3017a5014dc014da023d601dbe017b5017a6014b9014b7023d701dbf017b7017a70149601494023d801dc0017b9017a80147601472023d901dc1017bb017a90145601452023da01dc2017bd017aa0143601432))
  (.nd (.lf
  0x2cd402cd102cb102cae02c8e02c8b02c6d02c6a02c4d02c4a02c2d02c2a02c0d02c0a02bed02bea02bcb02bc802baa02ba702b8802b8502b6702b6402b4502b4202b2402b2102b0402b0102ae502ae202ac702ac40474804746047330472c0472b04729047110470a0470904707046f0046e9046e8046e6046d0046c9046c8046c6046ae046a7046a6046a40468d0468604685046830466d046660466504663)
  (.lf 0)))

def shaXorOrder165 : BTree :=
  .nd (.nd (.nd (.lf
  0x1bba01bb9f1bb9e1bb9a1bb981bb921bb8d1bb8c1bb8b1bb891bb861bb841bb7e1bb7c1bb741bb6d1bb6a1bb691bb671bb621bb651bb611bb5f1bb531bb501bb4e1bb4d1bb4b1bb461bb3b1bb361bb351bb2f1bb2c1bb2b1bb211bb1c1bb1b1b8b81b8ad1b8aa1b8a91b8a71b8971dddb1ddd91dd7f1dd7e1dd7c1dd231dcc71dcc51dc6a1db501db4e1db2b1db071db051dae61dae41dae21dac41dac21dac0)
  (.lf
  0x1da111c6d31c6c31bd451b5131b2281d9f01c6b91c6b21bd2d1b5141b2291d9de1c6ac1c69c1bbe21b4bd1b1c81d96f1c6931c6871bbda1b4bf1b3b21d9671c6831c6791bbe81b4841b02f1d95f1c6751c6691bbc71b4411b0301d9561c88b1c6531bbcd1b4321b0311d97d1c64f1c6461bbbd1b4271b0321d9221c6421c6311b8c41b59e1b3861d8ff1c63f1c6301b8b31b3641d8c71c63a1c62d1b8a41b38f))
  (.nd (.lf
  0xdc710dc700dc770dc6f0dc6d0dc6c0dc6b0dc680dc670dc660dc650dc630dc620dc610dc600dc5e0dc5d0dc5c0dc5b0dc590dc580dc570dc560dc540dc530dc520dc510dc4f0dc4d0dc4c0dc500dc4b0dc490dc480dc470dc450dc440dc430dc420dc400dc3f0dc3e0dc6a0dc3d0dc3b0dc3a0dc390dc370dc360dc350dc340dc320dc310dc300dc2f0dc2d0dc2c0dc2b0dc2a0dc280dc270dc260e5910e58f)
  (.lf
  0x12a3f12a000e6cc0e5c90be8e0be4a0976d09701133c61330112a4112a020e6c00e5cb0be900be4c096fd096dd133bb1330312a4312a040e6b40e5cd0be920be4e096f8096df133b01330512a4512a050e6a80e5cf0be940be50096f2096cf133a51330712a4712a060e69c0e5d10be960be52096ca096c41339a1330912a4912a070e6900e5d30be980be54096bf096ba1338f1330b12a4b12a080e6840e5d5)))
  (.nd (.nd (.lf
  0x45b2045b1045af045ae04592045910458f0458e0457304572045700456f045500454f0454d0454c0452c0452b04529045280450c0450b0450904508044ec044eb044e9044e8044cc044cb044c9044c8044ad044ac044aa044a9044890448804486044850446a044690446704466044470444604444044430442304422044200441f04404044030440104400043e1043e0043de043dd043be043bd043bb043ba)
  (.lf
  0x10d8c12d3d12d2011d7911d77118c810f7210d6b12d1a12d0f11d6b11d69118c91110010f4a12cfc12cf311d5611d541192e10ed712ce112cc911d4911d431166f1110412cc012cad11d4a11d44116341108d12ca512c7611d4b11d4511cfc1105212c6a12c4f11d2511d23116141104112c4912c3411d1811d16115e310ffa12c2f12c1311a9a11a981157410fcb12c0e12bf611a7d11a7b114ff10fbb12bf1))
  (.nd (.lf
  0x195c1195b2195b4195b1195af1959f195a01959d1959b1958a1958c19589195871957f1957e1957c195741956219564195611955f1955719556195501954d19544195431952f1952c1952419523195211950c1950419503194ee194eb194e4194e3194e1194ce194c6194c5194b4194b1194a4194a3194a1194831943a1943919437194281942419423194211940d1940c1940b19409193f9193f8193f7193f5)
  (.lf 0)))

def shaXorOrder166 : BTree :=
  .nd (.nd (.nd (.lf
  0x20bd120bce20bd220bc020bba20bb420bae20bab20ba120ba420b9620af420aef20af920af720afb20add20ad520ad020abc20ab320a9820a542099320998209582088f20864008ef0058700ba300b8f018cb018b7024930247f02b0602af2030f7030e303d5b03d4704ff904ff1060730607107c8207c800a31e0a31c0b06b0b0690b6fc0b6fa0beb20beb00c6e40c6e20e77e0e77b0fca60fc9711a9211a8d)
  (.lf
  0x738a072e3071f3071de071d301b2e07385072e5071f5071df071d401b1007380072e7071f7071e0071d501af70737b072e9071f9071e1071d601ada07376072eb071fb071e2071d701abc07371072ed071fd071e301aa30736c072ef071ff071e401a8507367072f107201071c201a6c07362072f307203071c401a4f0735d072f507205071c601a3207358072f707207071c801a1407353072f907209071c9))
  (.nd (.lf
  0x135f2135f1135f0135de135dc1359a135991359713595135941359313591135901358f1358e1358c1358b1358a135891358713586135771357613574135641355c1355b13559135581354613545134fe134fd134fc134fb134f9134f8134f713500134f6134f4134f3134f2134c11349d13491132c0132be132bd132bc132bb132b9132b8132b7132b6132b4132b3132b2132b1132af132ae132ad132ac132aa)
  (.lf
  0x1c5c41c5b41c5a917e9017d041552b1551c1551a150bc14efc1ca3d1c9141c5c61c5b51c5aa17e8b17d061552d1551d150af14edb1ca391c9161c5c81c5b61c5ab17e8617d081552f1551e1508314edc1ca341c9181c5ca1c5b71c5ac17e8217d0a155311551f1507d14ede1ca301c91a1c5cc1c5b81c5ad17e7c17d0c15533155201507514edd1ca2a1c91c1c5ce1c5b91c5ae17e7617d0e155351552115071)))
  (.nd (.nd (.lf
  0xe2990e28e0e28c0e27e0e27c0e27b0e25e0e25c0e25b0e2430e2410e23f0e23e0e23c0e23b0e1e60e1e40e1e30e1450e1430e1420e1240e1220e1210e0fc0e0fa0e0f90e0de0e0dc0e0db0e0b70e0b50e0b40e09b0e0990e0980e0710e06f0e06e0e0540e0520e0510e02a0e0280e0270e00d0e00b0e00a0dfe40dfe20dfe10dfc00dfbe0dfbd0df980df960df950ebec0ebd90ebcf0eb1b0eb1a0eb180eb17)
  (.lf
  0x1b40b1efb21eb971e62d1e62b1ddc71bd051bd021bd011ef9f1eb931e5ef1e5ed1dd3b1bd241bce91bce81ef8d1eb9c1e5ec1e5ea1dd171bd751bcde1bcdc1ef8a1eb8c1e5a71e5a41dc721bcd21bcce1bccd1ef7e1eb871e5a01e59c1dc1c1bd791bcc01bcbf1ef3f1eb821e5881e57b1dbd91bcb51bcb11bcb01ef2c1eb7e1e5941e5921dbbe1bd181bd151bd141ef271eb781e5441e5391db7f1bc9e1bc9a))
  (.nd (.lf
  0x219002180021700215002140021300212002100020f0020e0020d0020b0020a0020900208002060020500204002030020100200001ff001fe001fc001fb001fa001f9001f7001f6001f5001f4001f2001f1001f0001ef001ed001ec001eb001ea001e8001e7001e6001e5001e3001e2001e1001e0001de001dd001dc001db001d9001d8001d7001d6001d4001d3001d2001d1001cf001ce001cd001cc001ca)
  (.lf 0)))

def shaXorOrder167 : BTree :=
  .nd (.nd (.nd (.lf
  0x52790527805277052760527505274052730527205271052700526f0526e0526d0526c0526b0526a052690526805267052660526505264052630526205261057fb057fa057f9057f8057f7057f6057f5057f4057f3057f2057f1057f0057ef057ee057ed057ec057eb057ea057e9057e8057e7057e6057e5057e4057e3057e2057e1057e0057df057de05ca105c9205c8205c7005c5f05cb705cd505cd705cbe)
  (.lf
  0xe2b20dce50dcd30f07a0ead00e29a0dce70dcd40f0760ead10e2820dce90dcd50f0710ead20e2620dceb0dcd60f06b0ead30e2490dced0dcd70f0650ea160e24a0dcef0dcd80f0610ea170e1ea0dcf10dcd90f05b0ea180e1490dcf30dcda0f0570ea190e1280dcf50dcdb0f0510e9510e1000dcf70dcdc0f04d0e9520e0e20dcf90dcbd0f0470e9210e0bb0dcfb0dcbe0f0430e9220e09f0dcfd0dcbf0f03e))
  (.nd (.lf
  0x9ace09acd09acc09aca09ac909ac809ac709ac509ac409ac309ac209ac009abf09abe09abd09abb09aba09ab909ab809ab609ab509ab409ab309ab109ab009aaf09aae09aac09aab09aaa09aa909aa709aa609aa509aa409aa209aa109aa009a9f09a9d09a9c09a9b09a9a09a9809a9709a9609a9509a9309a9209a9109a9009a8e09a8d09a8c09a8b09a8909a8809a8709a8609a8409a8309a8209a8109a7f)
  (.lf 0))) (.nd (.nd (.lf
  0x1f2331f2311f22c1f22b1f22a1f2281f2271f2251f2241f2221f21b1f21a1f2191f1f01f1ef1f1ee1f1ed1f1eb1f1e91f1e81f1e71f1e51f1e41f1e21f1e11f1df1f1dd1f1dc1f1db1f1d91f1d81f1d61f1f31f1d51f1d31f1d21f1d11f1cb1f1bf1f1bb1f1ba1f1b81f1a21f1a11f1a01f0b61f0b51f0b31f0b21f0b01f0a71f0a51f0a41f0a21f0a01f09f1f09e1f09c1f09a1f0981f0971f0951f0931f092)
  (.lf
  0x89290841006431064280641d0970b09680089560892a0841106433064290641e0970809673089570892b08412064350642a096f009664089580892c08413064370642b096eb09665089590892d08414064390642c096e5096660895a0892e084150643b0642d096e0096500895b0892f084160643d0642e096d8096510895c08930084170643f0642f096d5096520895d08931084180644106430096d109613))
  (.nd (.lf
  0x11cb511cb411cb111cb011caf11cac11cab11caa11ca711ca611ca511ca211ca111ca011c9d11c9c11c9b11c9811c9711c9611c9311c9211c9111c8e11c8d11c8c11c8911c8811c8711c8411c8311c8211c7f11c7e11c7d11c7a11c7911c7811c7511c7411c7311c7011c6f11c6e11c6b11c6a11c6911c6611c6511c6411c6111c60122d2122cf122c9122c8122c5122be122bd122ba122b3122b2122af122a8)
  (.lf 0)))

def shaXorOrder168 : BTree :=
  .nd (.nd (.nd (.lf
  0x1aa7c1aa781aa771aa751aa691aa5b1aa271aa191a9ff1a9fb1a9fa1a9f71a9f61a9f41a9c41a9c21a9c11a9bf1a9b41a9a71a9281a9241a8571a8551a7c61a7be1a7a91a7971b4d81b4d41b4ac1b4aa1b3d01b3ce1b3731b3541b30f1b2f91b2c01b2be1b2b91b2b71b1f41b1f01b1e91b1e51b1be1b1b51afdf1afdc1afd41afd21af881af861af6e1af641bba81bba51bb971bb931bb7b1bb721bb711bb6e)
  (.lf
  0xc7870c7800c77f0c77d0c7640c75d0c75c0c75a0c7410c73a0c7390c7370c71e0c7170c7160c7140c6fd0c6f60c6f50c6f30c6dd0c6d60c6d50c6d30c6bf0c6b80c6b70c6b50c6a20c69b0c69a0c6980c6850c6820d1ef0d1ec0d1d70d1d60d1d30d1b90d1b80d1b50d19a0d1990d1960d17b0d17a0d1770d15c0d15b0d1580d13d0d13c0d1390d11e0d11d0d11a0d1010d1000d0fd0d0e30d0e20d0df0d0c6))
  (.nd (.lf
  0x19bf519bf419bf319bf119bf019bef19bee19bec19beb19bea19be919be719be619be519be419be219be119be019bdf19bdd19bdc19bdb19bda19bd819bd719bd619bd519bd319bd219bd119bd019bce19bcd19bcc19bcb19bc919bc819bc719bc619bc419bc319bc219bc119bbf19bbe19bbd19bbc19bba19bb919bb819bb719bb519bb419bb319bb219bb019bae19bad19baf19bac19baa19b9b19b9819b96)
  (.lf
  0x9e001eaf01e9101616015d60103400a68009e101e8c01e6d01617015d70103500a6a009e201e7401e4e01618015d80103600a6c009e301e4901e3c01619015d90103700a6e009e40284c0282d01c3f01bff0161c01087010470103c028340280e01c4001c000161d01089010480103d02809027eb01c4101c010161e0108b010490103e027e6027c701c4201c020161f0108d0104a0103f027ce027a701c43)))
  (.nd (.nd (.lf
  0x1bcab1bd0f1bcaa1bca81bca71bca61bca41bc941bc931bc921bc901bc8f1bc861bc851bc7b1bc791bc781bd1b1bc771bc751bc741bc731bc6d1bc6b1bc6a1bc691bc671bc651bc601bd701bc5f1bc5d1bc5c1bc5b1bc591bc571bc521bc511bc491bc3d1bc3c1bc431bc3b1bc391bc381bc371bc311bc2f1bc2e1bc2d1bc2b1bc2a1bc241bc231bc211bc1b1bc1a1bc191bc171bc161bc111bc101bc0e1bc09)
  (.lf
  0x3a5e048f5042e603d3403ce703a3e048f6042e703cf603ce803a1e048f7042e803cf803ce9039fe048f8042e903cfa03cea039de048f9042ea03cfc03ceb039be048fa042eb03cfe03cec0399e048fb042ec03d0003ced0397e048fc042ed03d0203cee0395f048fd042ee03d0403cef0393c048fe042ef03d0603cf003919048ff042f003d0803cf1038f604900042f103d0a03cf2038d204901042f203d0c))
  (.nd (.lf
  0x4edf04ede04edd04edb04eda04ed904ed804ed604ed504ed404ed304ed104ed004ecf04ece04ecc04ecb04eca04ec904ec704ec604ec504ec404ec204ec104ec004ebf04ebd04ebc04ebb04eba04eb804eb704eb604eb504eb304eb204eb104eb004eae04ead04eac04eab04ea904ea804ea704ea604ea404ea304ea204ea104e9f04e9e04e9d04e9c04e9a04e9904e9804e9704e9504e9404e9304e9204e90)
  (.lf 0)))

def shaXorOrder169 : BTree :=
  .nd (.nd (.nd (.lf
  0xb5c50b5c70b5c90b5cb0b5cd0b5cf0b5d10b5d30b5d50b5d70bd710bd730bd750bd770bd790bd7b0bd7d0bd7f0bd810bd830bd850bd870bd890bd8b0bd8d0bd8f0bd910bd930bd950bd970bd990bd9b0bd9d0bd9f0bda10bda30bda50bda70bda90bdab0c54b0c54d0c54f0c5510c5530c5550c5570c5590c55b0c55d0c55f0c5610c5630c5650c5670c5690c56b0c56d0c56f0c5710c5730c5750c5770c579)
  (.lf
  0x200bd1f5f31f4a21f49a1f499200671f5ee1f4a01f4961f495200141f5e61f48a1f4871f486200051f5e21f4a81f47a1f479200231f5df1f5951f4b11f4821fff51f5d91f5881f4a51f46b1ffe91f5d51f57c1f4671f45d200331f5cf1f5a51f4631f456200271f5c81f51a1f4ab1f4a91fe651f5c41f5961f4b51f4b21fe381f5be1f5891f4431f4421fe1a1f5ba1f57d1f4471f43a1ff2c1f5a61f4331f42f))
  (.nd (.lf
  0xf0ad0f0ab0f0a80f0a60f0b50f0a30f0b40f09e0f0a00f09a0f0960f0920f0900f08c0f08b0f0890f0910f0860f0820f07e0f07d0f0790f0780f0740f0730f06e0f06d0f06a0f0680f0640f0630f0600f05e0f05a0f0590f0560f0540f0500f04f0f04c0f04a0f0460f0450f0420f0700f0400f03c0f0380f0370f0330f0320f02e0f02d0f0290f0280f0240f0230f01f0ff230ff210ff1f0ff170ff160ff14)
  (.lf
  0xe5ca0e5b70d9150d90f1602215ee81561c15607155fc112c71120a0e5cc0e5b80d8fe0d8f31601715eea1561e15608155fd112c21120c0e5ce0e5b90d8e10d8d61600c15eec1562015609155fe112bd1120e0e5d00e5ba0d8bf0d8b71600115eee156221560a155ff112b8112260e5d20e5bb0d89e0d89815ff615ef0156241560b15600112b3112280e5d40e5bc0d8830d87b15feb15ef2156261560c112ae)))
  (.nd (.nd (.lf
  0x63740637206371063700636e0636d0636c063850636b063690636806367063650636406362063610635f0635e0635d0635c0635a06359063570635806356063540635306352063500634f0634e0634d0634b0634a06349063630634806346063450634406342063410633f0633e0633c0633b0633a06339063370633606334063350633306331063300632f0632d0632c0632b0632a06328063270632606340)
  (.lf
  0x1381e1369115a2815a09148ec148ea142e7138201368315a2315a03148e2148e0142d7137e81365e15a1e15a0d148cf148cd142dd137af1365015a19159fa148d5148d3142c7137931364115a14159f3148c4148c2142c8137761362e15a0e159ec148b2148b0142b41374c135eb159e1159cb148aa148a8142ac1386113734159c615969148bd148bb1406813705159641595c147b3147b113fd51386515958))
  (.nd (.lf
  0x1a77d1a77b1a77a1a7781a7761a7751a7721a7711a7701a76e1a76c1a76b1a7681a7671a7661a7641a7631a7611a75f1a75e1a75c1a75a1a7591a7571a7551a7331a7321a72f1a72e1a72d1a7251a7241b97f1b7ff1b7fd1b8011b7fb1b7f91b7f71b7f41b7f21b8031b7f11b7ee1b7ed1b7e91b7e81b7e71b7e41b7e21b7e11b7dd1b7dc1b7db1b7d81b7d71b7d51b7d21b7d01b7cf1b7cb1b7ca1b7c91b7c5)
  (.lf 0)))

def shaXorOrder170 : BTree :=
  .nd (.nd (.nd (.lf
  0xc41e0c4080cbb90cbbb0cbbd0cbbf0cbc10cbc30cbc50cbc70cbc90cbcb0cbcd0cbcf0cbd10cbd30cbd50cbd70cbd90cbdb0cbdd0cbdf0cbe10cbe30cbe50cbe70cbe90cbeb0cbed0cbef0cbf10cbf30d4350d3140d3160d3180d31a0d31c0d31e0d3200d3220d4440d3240d4370d3260d3280d32a0d32c0d32e0d3300d4460d3320d4390d3340d3360d3380d33a0d33c0d33e0d3400d43f0d3430dbfd0dc0d)
  (.lf
  0x1b83718dc31c08b196bf1c48319f5b1c7571a7491cab31b1431cdde1b9851d0901c1601d30c1c4dc1c8781c8371c8321c8301c86f1c8391c8331c8311c86c1c83b1c8341c8651c84c1c8121c8621c8141c8111c84e1c84d1c84a1c83d1c7cc1c7c91c83f1c7bb1c7a61c8411c7b81c7af1c8431c7971c77c1c8451c7921c77d1c8471c78e1c77e1c8501c7641c74d1c8161c75f1c74e1c8511c7591c7501c7ca))
  (.nd (.lf
  0x14c2514c2314c2414c2214c2014c1f14c1e14c1c14c1b14c1a14c1914c1714c1614c1514c1414c1214c1114c1014c0f14c0d14c0c14c0b14c0a14c0714c0514c0414c0614c0314c0114c0014bfe14bfc14bfb14bfa14bf914bf714bf614bf514bff14bf414bf214bf114c0914bf014bee14bed14bec14bea14be914be814be714be514be414be314be214be114bdf14bde14bdd14bdb14bda14bd914bd814bd6)
  (.lf
  0x1d17c1a04219f641736d172471723b172371d51f1d4531d1bd1d17e1a03e19f661734b172491722a172261d5141d4551d1bf1d1801a03a19f68173251724b17219172151d50a1d4571d1c11d1821a03519f6a1730a1724d17205172031d4c81d4591d1c31d1831a03119f6c172e91724f171fa171f21d4c41d45b1d1c51d1841a02c19f6e172cc17251171e4171e11d4c11d45d1d1c71d1851a02719f70172ad)))
  (.nd (.nd (.lf
  0x1101e1101c10ff110fed10feb10fb110fad10fab10fa510fa310fa210f8310f7e10f7c10f7510f5f10f5a10f2d10f2910f2710ece10eca10ec810eb310eb110ea210e8f10e8b10e8910e7a10e7610e7410e3910e3710e3610e1910e1510e1410e0110dfd10df810ddf10dde10dda10dab10da910da810d8310d8110d8010d6410d6210d6110d5110d4e10d4d10d4c10d4a10d4910d0310cfe10cf510cdb10cd9)
  (.lf
  0x1f0251ed3420275200da1f50c1ef761ed1720dba20db3204c7204c51f3af1f3ad1f3ac20db420dac204be204bb1f3a71f3a21f3a020da420d7c204cf204ac1f6251f6211f62020da120d78204ee204a51f3d11f37e1f37b20d9c20d732058a205881f3771f3731f37020d9420d6f20494204921f3d71f35b1f35a20d8d20d6820484204811f3501f3481f34720d8a20d6420473204711f3361f3351f33420d85))
  (.nd (.lf
  0x133901332013310132f013160130f0130e0130c012f5012ee012ed012eb012d3012cc012cb012c9012b0012a9012a8012a60128d0128601285012830126a0126301262012600124901242012410123f0122901222012210121f0120701200011ff011fd011e4011dd011dc011da011c1011be0112f0112d0112c0112b0112a01128011270112601125011230112201121011200111e0111d0111c0111b01119)
  (.lf 0)))

def shaXorOrder171 : BTree :=
  .nd (.nd (.nd (.lf
  0x17662176521761c17614175f3175d9175c817598175991757d1756617531175481751c174fc174e4174bd174d91748c174a91747b1813e17ff917fc117fcd17fea17fda17fb017f7c17f8917fa417f9b17f1617ce717d5917d5a17cde17d5817c8817c8217c7e17c7817c7317c6617c1517c0117bed17be117bbd17bc1179d6189431892a188fa1888a188cb1885618820187fc187b9187a7187951876518740)
  (.lf
  0x11940137c0128fc120071198f11946119411371d128fd1200811991119471194213719128fe12086119921194813714128cc12009119571194913709128cd1200a119591194a136bc128b51200b1195b1194b136b2128b61200c1195d1194c136ad128bb1200d1195f1194d136a91289f1200e119611194e13613128a01200f119631194f13610128811201011965119501360b1288212011119671195113606))
  (.nd (.lf
  0xab8b0ab760ab750ab730ab6f0ab5a0ab590ab570ab530ab3e0ab3d0ab3b0ab370ab220ab210ab1f0ab190ab040ab030ab010aafc0aae70aae60aae40aade0aac90aac80aac60aac10aaac0aaab0aaa90aaa30aa8f0aa8e0aa8c0aa870aa730aa720aa700aa6c0aa580aa570aa550aa4f0aa3b0aa3a0aa380aa310aa1d0aa1c0aa1a0aa130a9ff0a9fe0a9fc0a9f70a9e30a9e20a9e00a9da0a9c50a9c40a9c2)
  (.lf 0))) (.nd (.nd (.lf
  0x1ff201ff1f1ff1e1ff1d1ff1b1ff1a1ff191ff181ff161ff151ff141ff131ff111ff0f1ff0e1ff0d1ff0b1ff0a1ff091ff081ff061fedd1fed91fed51fed11fecf1fec71fec61fec41fec31fec21fec11febf1febe1febd1febc1feba1fead1feab1fea51fea31fea21fe9a1fec81fe991fe971fe8e1fe901fe8d1fe8b1fe871fe861fe841fe811fe7f1fe791fe771fe751fe6c1ffbc1fe6b1fe691fe541fe55)
  (.lf
  0xa0a00bb6f0b99f0adfe0add60a6c10a0f10a0ac0a0a10bb6a0b9830adff0add70a6ab0a0f30a0ad0a0a20bb660b9670ae000add80a6950a0f50a0ae0a0a30bb610b94c0ae010add90a6840a0f70a0af0a0a40bb4d0b9310ae020adda0a6760a0b90a0b00a0a50bb480b9130ae030addb0a66b0a0bb0a0b10a0a60bb420b8f40ae040addc0a6610a0bd0a0b20bb3e0b8d60ae050addd0a6570a0bf0a0b30bb3a))
  (.nd (.lf
  0x13c2e13c2b13c2413c2313c2013c1913c1813c1513c0e13c0d13c0a13c0313c0213bff13bf813bf713bf413bed13d3113d2f13d2e13d2713d2613d2413d2313d1c13d1b13d1913d1813d1113d1013d0e13d0d13d0613d0513d0313d0213cfb13cfa13cf813cf713cf013cef13ced13cec13ce513ce413ce213ce113cda13cd913cd713cd613ccf13cce13ccc13ccb13cc413cc313cc113cc013cb913cb813cb6)
  (.lf 0)))

def shaXorOrder172 : BTree :=
  .nd (.nd (.nd (.lf
  0x17a9717a8917a8617a8717a8817a8517a8117a9217a8217a9117a3117a9017a8f17a8e17a8d17a1617a1017a04179f6179a11799a179931798d179ab1839c183731836d183661835e183611834f18340183391832b1832218314182c8182c3182bd182b5182b2182ca182a51829f18299182d01828a1827e1827118266182421823a182341822e18c1d18c1318e5918c1718c0618bf418bee18bcf18bf618bd2)
  (.lf
  0x9f2409f2109efd09efc09ef909ed409ed309ed009eab09eaa09ea709e8209e8109e7e09e5b09e5a09e5709e3309e3209e2f09e0c09e0b09e0809de609de509de209dbe09dbd09dba09d9709d9609d9309d7109d7009d6d09d4909d4809d4509d2209d2109d1e09cfa09cf909cf609cd109cd009ccd09caa09ca909ca609c8409c8309c8009c5e09c5d09c5a09c3609c3509c3209c0d09c0c09c0909be609be5))
  (.nd (.lf
  0x16fdd16fce16fcd16fcb16fca16fb516fb416fb216fb116fb016faf16fad16fac16fab16faa16fa816fa716fa616fa516fa316fa216fa116fa016f9e16f9d16f8e16f8d16f8b16f8a16f4816f4716f4516f4416f431791717915179141791317912179101790f1790e1790d1790c1790a1790917908179061790517904179031790117900178ff178fe178fc178fb178fa178f9178f7178f6178f517919178f4)
  (.lf
  0x18222131f8131c811210107011068018b6e18ae318224131f3131ca11211106f61068418b6918ae518226131ee131cc11212106f31068e18b6318ae718228131e9131ce11213106de1068f18b5d18ae91822a131e4131d011214106c2106a019528193a218ae213b1f13ae10f3260f2a50f26219507193a418ae413b1a13ae30f3280f2a00f25d194e7193a618ae613b1513ae50f3290f29d0f275194c9193a8)))
  (.nd (.nd (.lf
  0x1653d1653c1653a1652f1652e1652d1652b16526165251653516524165221651d1651c1651a165191651816517165151650b1650a1651016509165071650216501164ff164fe164fd164fc164fa164f9164f4164f3160e1160dd160c5160c6160c4160c1160a2160a6160a11609f1608f1640316402163ff1640b163fe163df163fa163de163db163da163d8163d6163d5163d3163d2163d0163cd163cc163cb)
  (.lf
  0x7858077aa076ba076a60769b06a85069c103a4203a2107853077ac076bc076a70769c06a80069c303a2203a010784e077ae076be076a80769d06a7b069c503a02039e107849077b0076c0076a90769e06a76069c7039e2039c107844077b2076c2076aa0769f06a71069df039c2039a10783f077b4076c4076ab076a006a6c069e1039a2039810783a077b6076c6076ac06a67069e3039820396207835077b8))
  (.nd (.lf
  0x2fa902fa802fa702fa502fa402fa302fa202fa002f9f02f9e02f9d02f9b02f9a02f9902f9802f9602f9502f9402f9302f9102f9002f8f02f8e02f8c02f8b02f8a02f8902f8702f8602f8502f8402f8202f8102f8002f7f02f7d02f7c02f7b03af203af003aef03ad503ad403ad203ad103ab403ab303ab103ab003a9203a9103a8f03a8e03a6f03a6e03a6c03a6b03a4e03a4d03a4b03a4a03a2e03a2d03a2b)
  (.lf 0)))

def shaXorOrder173 : BTree :=
  .nd (.nd (.nd (.lf
  0x200c0200a01ff701f6901f6701f5401f0601f0401ef101ec301ec101eae01ea001e9e01e8b03aeb03ae903ad903aab03aa903a9603a8803a8603a7303965039630395003942039400392d0391f0391d0390a038fc038fa038e7038b9038b7038a403876038740386103833038310381e037f0037ee037db047280472604713046c5046c3046b004622046200460d045ff045fd045ea0457c0457a0456704559)
  (.lf
  0x17f7a1a8e11a73f19a4819134189ab1899b189981a8dc1a6da19a4919149189ad1899c189991ab191a8d319a4a190b1189131890e1890d1a8cf1a6d019a22190a6188c4188bf188be1a8cc1a6c7199f9190de1899a188ac188a91a8c71a6c0199f21909d188721886f1a8bf1a6bb199e7190d918843188411a8ba1a6b6199e81908c18844188421a8b21a6ae199e91908d187e0187df1a8ad1a6a81998f1908e))
  (.nd (.lf
  0xcead0cea10ce890ce7b0ce610ce520d1e30d1e10d1dd0d1c80d1c70d1c50d1bf0d1aa0d1a90d1a70d1a00d18b0d18a0d1880d1810d16c0d16b0d1690d1620d14d0d14c0d14a0d1430d12e0d12d0d12b0d1240d10f0d10e0d10c0d1070d0f20d0f10d0ef0d0e90d0d40d0d30d0d10d0cc0d0b70d0b60d0b40d0ae0d09a0d0990d0970d0900d07c0d07b0d0790d0740d05f0d05e0d05c0d0580d0440d0430d041)
  (.lf
  0x6dda114821130d0c9f90c62707abf07ab107aa606e2c06e1c06dcb06dc9114771130f0c9db0c62907ac007ab207aa706e2e06e1d06dba06db81146c113110c9bf0c62b07ac107ab307aa806e3006e1e06da906da711460113130c9a40c62d07ac207ab407aa906e3206e1f06d9806d9611454113150c9890c62f07ac307ab507aaa06e3406e2006d8706d8511448113170c96d0c63107ac407ab607aab06e36)))
  (.nd (.nd (.lf
  0x25f9025f8025d8025d7025d5025d4025b8025b7025b5025b40259802597025950259402579025780257602575025560255502553025520253302532025300252f025100250f0250d0250c024ed024ec024ea024e9024c9024c8024c6024c5024a9024a8024a6024a50248902488024860248502477028500284e0284d028350282c0282a0280d0280b0280a027ea027e8027e7027cf027c6027c4027af027a6)
  (.lf
  0xfae20e8900e3e210744107180fb1d0fae30e8870e3bf10715107080fb1e0fae40e87e0e3a010707106bc0fb1f0fae50e8750e373106b61069e0f9090f9070e86c0e35810696106910f8e50f8e10e85f0e32e1108111031103141030c0fb210ebdc0ebd10ebd0110331101f103151030d0fb220eb790eb640eb5d1102210fee103161030e0fb230eb7a0eb650eb5e10ff010fae102b7102b10fb240eb7b0eb66))
  (.nd (.lf
  0x17a6117a6017a5d17a5c17a5b17a5817a5717a5517a5217a5117a5617a5017a4c17a4d17a4b17a4717a4917a4617a4317a4217a3f17a3d17a3e17a3c17a3917a3817a3617a3417a3317a3017a2e17a2d17a2b17a2a17a2817a2617a2517a2317a2117a2017a1e17a1c17a1a17a1917a1717a1417a1317a1117a0f17a0d17a0a17a0317a02179f4179f1179f0179ee179a01799e1799b17999179981799417992)
  (.lf 0)))

def shaXorOrder174 : BTree :=
  .nd (.nd (.nd (.lf
  0xd6680d6440e1b60e3ce0e1d00e38b0e1d10e3420e1a60e2f60e1bf0e2b80e1c40e2860e1c80e2520e1d20e21d0e1d80e1390e10e0e0ee0e0cb0e0aa0e0860e0630e03f0e01c0dffa0dfd90dfb20df900e8b10e8a50e8c70e89a0e8000e7fa0e7f40e7ee0e7e80e7e10e7db0e7d50e7cf0e7c90e7c30e7bd0e7b70e7b10e7ab0e7a50e79f0e7990e7930e78d0e64e0e8010e8020e8030e7e20e5fc0f8240f827)
  (.lf
  0x209dc20790007450034f0006e00011209d72092b00746003500006900010209d3207010074700351000640000f206f82034b00748003520005f0000e203482032700749003530005a0000d203432031f0074a00354000550000c2033e203100074b00355000500000b20339203090074c003560004b0000a20334203020074d00357000460000920330202f00074e0035800041000082032b202f20074f00359))
  (.nd (.lf
  0x120cd120cc120cb120c9120c8120c7120c6120c4120c3120c2120c1120bf120be120bd120bc120ba120b9120b8120b7120b6120b4120b3120b2120b0120ae120ad120af120ac120aa120a9120a8120a6120a5120a4120a3120a1120a01209f1209e1209c1209b1209a120991209712096120951209412091120901208f124201241b1241a124151241412410124221240e1240a124051240412400123fe123f8)
  (.lf
  0x1a50a155ba155281277f12768123e8122dd1aea21adf71a52f1a5161a50b155b51552a1278112769123e4122da1ae9f1adf91a5311a517155b01552c127831276a123de122e11ae981adfb1a5331a518155ab1552e1278512741123d8122ff1ae921adfd1a5351a4f6155a6155301278712743123d1123001ae8c1adff1a5371a4f8155a1155321278912745123c9122fe1ae891ae011a5391a4fa1559c15534)))
  (.nd (.nd (.lf
  0xbb050bb040bb020bb000baff0baf90baf80baf70baf50bae60bae10ba7f0ba7c0baf00ba7a0ba770baeb0ba760ba740bad80ba720ba6f0ba7b0ba6e0ba6b0badc0ba6a0ba670ba660ba640ba600c4700c46f0c46d0c46c0c47c0c46b0c4690c4680c4670c4650c4580c4570c4980c4560c4540c4530c4520c4500c43e0c43d0c43c0c43a0c4280c4270c4260c4240c4120c4110c4100c40e0c3fc0c3fb0c3fa)
  (.lf
  0x1a2e419b25191ae191a5191a31b43a1b3d91a2d81a2d619b17191b0191a6191a41b42c1b3e61a2951a29319b79190ff190fa190f91b3fa1b3831a27f1a27d199c81904819044190431b37c1b35f1a26f1a26d199b5190111900f1900e1b35c1b3561a2391a2371994d19061190601905f1b3881b32c1a2061a204199581921d19058190571b3231b2fd1a1e91a1e7199991921e18fe71b3021b2f21a1ce1a1cc))
  (.nd (.lf
  0x1ced51ced21ced11ced01cece1cecc1cecb1cec81cec71cec61cec41cec31cec11cebe1cebd1cebc1ceb81ceb71ceb61ceb41ceb31ceb11ceaf1cead1ceac1ceab1cea81cea71cea51cea31cea21cea01ce9f1ce9d1ce991ce981ce9a1ce971ce941ce931ce8f1ce8e1ce901ce8d1ce8b1ceb91ce891ce861ce851ce811ce801ce7f1ce7d1ce7b1ce7a1ce771ce761ce821ce751ce721ce711ce6e1ce6d1ce6c)
  (.lf 0)))

def shaXorOrder175 : BTree :=
  .nd (.nd (.nd (.lf
  0x20df520df420ded20de520de320dd420dd120dd020cc520cc220cc120cc820cb620cb420c9a20c9720c9620cae20c9520c9320c9120c8f20c8e20a8620a8220a7f2092a209282092620cc920ca820caa20ca420ca020c6120c5f20c5b20c5a20c5720c9d20c5520a8920a772091320910209152090e2090a20907209052090120900208fc208fb208f7208f6208f2208f12078d2076a20766207642075d2075c)
  (.lf
  0xafbe0a8560a83c0bfea0b3610afbf0a8580a83d0bfc80b32b0af460a85a0a81e0bfa50b31b0af470a85c0a81f0bf840b3360af480a85e0a8200bf640b3300af490a8600a8210bf420b31c0af4a0a8620a8220bf1f0b31d0af4b0a8640a8230befe0b31e0af4f0a8660a8240bede0b31f0ad3b0a8680bebb0b2ef0ad3c0a86a0bea50b2f00ad3d0a86c0ca0f0bb970b3ce0b04a0b0020affd0c9f20bb980b3cf))
  (.nd (.lf
  0x85c4085bd085bc085ba085b6085af085ae085ac085a8085a1085a00859e0859a0859308592085900858a0858308582085800857e0857b08516085140851308512085110850f0850e0850d0850c0850a0850908508085070850508504085030850208500084ff084fe084fd084fb084fa084f9084f8084f6084f5084f4084f3084f1084f0084ef084ee084ec084eb084ea084e9084e7084e6084e5084e4084e2)
  (.lf 0))) (.nd (.nd (.lf
  0x1dd9d1dd781dd771dd491dd481dcfc1dcfb1dcf51dce61dc921dca51dc911dc8f1dc451dc471dc441dc421dc0a1dfa31dfa11dfa01df9f1df9e1df9d1df9b1df9a1df991df971df961df951df941df921df911df901df8f1df8d1df8c1df8b1df8a1df881df871df861df851df821df811df801df7f1df7d1df7c1df7b1df841df7a1df781df771df761df741df731df721df711df6f1df6e1df6d1df6c1df6a)
  (.lf
  0x536f0536d04dfe04801047f305d2e05cd9053650536304dff04803047f405d2a05cda0535b0535904e0004805047f505d2405b93053510534f04e0104807047f605d2105b84052e7052e504e0204809047d705d1c05b75052dd052db04e030480b047d805d1705b65052d4052d204e040480d047d905d1005b53052cb052c904e050480f05d0d05b42052c2052c004e060481105d0605ccd052b9052b704e07))
  (.nd (.lf
  0x105f9105f2105f1105ef105ee105e7105e6105e4105e3105dc105db105d9105d8105d1105d0105ce105cd105c6105c5105c3105c2105bb105ba105b8105b6105af105ae105ac105aa105a3105a2105a01059e105971059610594105921058b1058a10588105861057f1057e1057c1057a1057310572105701056f105681056710565105641055d1055c1055a1055810551105501054e1054d105461054510543)
  (.lf 0)))

def shaXorOrder176 : BTree :=
  .nd (.nd (.nd (.lf
  0x3af30223503af50364e0411e0286e041200412103c750474d02e990474f0429f04d85034d604d87048ce0523803afd0523a0523b04f06057250412705727054ea05cab0475605cad05a0b0622904d8e0622b0622d05f8c066600820008202082040650808752069b3087540851708c4e090ee090f008a730960906dfb0960b0938909b040a0110a013099ac0a4d208af60a4d40a4d50a1900a9150ace30ace5)
  (.lf
  0x77df077de0d9b00d9ae0d99d0d9960d9950d9930d9800d96d0d96c0d96a0d9650d9540d9530d9510d9490d93e0d93d0d93b0d92c0d9210d91b0d9190d90e0d9070d9060d9040d8f20d8e80d8e70d8e50d8d50d8c60d8c50d8c30d8b60d8a80d8a70d8a50d8970d88a0d8890d8870d87a0d8730d8720d8700d85e0d8570d8560d8540d8420d83b0d83a0d8380d8260d81f0d81e0d81c0d80a0d8030d8020d800))
  (.nd (.lf
  0x1adb71adb61adb51adb31adb21adb11adb01adae1adad1adac1adab1ada91ada81ada71ada61ada41ada31ada21ada11ad9f1ad9e1ad9d1ad9c1ad9a1ad991ad981ad971ad951ad941ad931ad921ad901ad8f1ad8e1ad8d1ad8b1ad8a1ad891ad881ad861ad851ad841ad831ad811ad801ad7f1ad7e1ad7c1ad7b1ad7a1ad791ad781ad761ad751ad741ad721ad711ad701ad6f1ad6d1ad6c1ad6b1ad6a1ad68)
  (.lf
  0x28770229e01cda01c9301c88033b20338b028b8028780229f01cdc01c9401c89033920336c028b902879022a001c9e01c9501c8a0336703349028ba0287a022a101ca001c9601c8b0334403326028bb0287b022a201ca201c970332103302028bc0287c022a301ca401c9803309032e2028bd0287d022a401ca601c99032e9032c2028be0287e022a501ca801c9a032c9032a3028bf0287f022a601caa01c9b)))
  (.nd (.nd (.lf
  0x1dc511dc501dc4e1dc4a1dc081e1c31e1b21e1af1e20c1e1a41e1a21e1b41e19a1e1981e18d1e18b1e17f1e1791e1771e16c1e1ce1e1631e1611e1551e14c1e14b1e14a1e1391e1371e1361e1281e1271e1261e1001e0f91e1131e0f81e0f61e0f41e0d51e0d21e0ce1e0c71e0c21e0c11e0bf1e0ba1e0b91e0b41e0b21e0b11e0a91e0a81e0db1e0a71e0a41e0a31e04d1e04c1e04b1e0391e0321e02c1e02a)
  (.lf
  0x533a04f9904f8204b8705a3d0533b04f9b04f8304b6805a3e0533c04f9d04f8404b4505a3f0533d04f9f04f8504b2205a400533e04fa104f8604aff05a410533f04fa304f6704adc05a420534004fa504f6804ab805a430534104fa704f6904a9905a440534204fa904f6a04a7605a450534304fab04f6b04a5305a460534404fad04f6c04a2f05a470534504faf04f6d04a0f05a480534604fb1049ef05a49))
  (.nd (.lf
  0x5ca705c9d05c9c05c9a05c9905c8e05c8d05c8b05c8a05c7d05c7c05c7a05c7905c6b05c6a05c6805c6705c5b05c5a05c5805c5705c4b05c4a05c4805c4705c3a05c3905c3705c3605c2905c2805c2605c2505c1805c1705c1505c1405c0905c0805c0605c0505bf905bf805bf605bf505be805be705be505be405bd705bd605bd405bd305bc805bc705bc505bc405bba05bb905bb705bb605bac05bab05ba9)
  (.lf 0)))

def shaXorOrder177 : BTree :=
  .nd (.nd (.nd (.lf
  0x141a11414e141fd141ff1420114203142051420714ba214b6914b6014b5314b5514bb114bb314b7314b7514b7714bb514bb714b7914b7b14b7d14b9114b3f14b4514b2214b2a14b0714b0914b1114ae414bb914bc514b8014b8214b8414b8a1524e152461525615237152131526a1526c1526e15270152721527415276152781527a1527c1521615200151ee151dd151cc151b6151a815197151831527e15280)
  (.lf
  0x104100c67a156480f10c0ce4215f19112510d633167e40f36a0df6c170a711c5f0e5ef179770f7730f55118243127970eeb118af3131d71065d193b413af40f25c19c8113e68114a51a55214c940fc8c1ae2115553122e51b6ee15e2412bc51bf2b1630c1347c1c2a916c2413d421c616172931461d1c94c17d5714efd1ccc118409157a71cf4118dea1606a1d1d9195e6167e71d47719f86170aa1d6201a728))
  (.nd (.lf
  0x1092e1092d1092c1092a109291092710926109241092310922109211091f108f7108f5108f4108f2108f1108f0108ef108ed108ec108eb108ea108e7108e410879108781087610867107f7107f6107f4107f3107ea107e9107d8107d6107d510817107d4107cc107c5107c4107c2107c1107c0107bf107bd107bc10769107681076610765107641076310761107601075e1075d1075b1075a107261072510723)
  (.lf
  0xee810e7d60e6ea1726f17083167c5167aa11cb711c3a0ee9c0ee580e7d00e6de1726017085167c71678811cb211c3c0ee9e0ee5a0e7ca0e6d21710d17087167c91678a11cad11c3e0eea00ee5c0e7c40e6c61710a17089167cb1678c11ca811c400eea20ee5e0e7be0e6ba171011708b167cd1678e11ca311c420eea40ee600e7b80e6ae170fc1708d167cf1678f11c9e11c440eea60ee620e7b20e6a2170f9)))
  (.nd (.nd (.lf
  0x88780887308872088710886f0886a088500884e0884c0884908848088460884308842088400883d0883c0883a0883708828088260882308822088200881d0881c0881a08817088160881408811088100880e0880b0880a08808088050880408802087ff087fe087fc087f9087f8087f6087f3087f2087f0087ed087ec087ea087e7087e6087e4087e1087e0087de087db087da087d8087d5087d4087d2087cf)
  (.lf
  0x168f61593d1593b14f5814975168de168db157fa157f814f4c14982168d9167f6157e0157de14f1b14952177e4177c9166421664015c0a154561545115450177c61777a166241662215c01154421543d1543c1775917752165f3165ef15c2115434154301542f1775f17723165f4165f015bbc15401153fd153fc17709176da165e3165e115b9f154741546f1546e17703176d3166101660e15b70153ed153e9))
  (.nd (.lf
  0x1bfda1bfd81bfd71bfd51bfd41bfd31bfd21bfc91bfc61bfc41bfc31bfc11bfbb1bfba1bfb91bf821bf751bf6b1bf6a1bf641bf621bf611bf601bf531bf501bf371bf451bf361bf341bf311b9e81b9e61b9e41b9e31b9e11b9df1b9de1b9dc1b9da1b9d91b9d71b9d51b9d41b9d21b9d01b9cf1b9cd1b9cb1b9ca1b9c81b9c61b9c51b9c31b9c11b9c01b9be1b9bc1b9bb1b9b91b9b71b9b61b9b41b9b21b9b1)
  (.lf 0)))

def shaXorOrder178 : BTree :=
  .nd (.nd (.nd (.lf
  0x15c0b15c6315c2215c1215c2615bc215ba315b7915b5515b1515b0715af615c6515c1415c1615c2815bc415ba515b7b15b5715b1815c6715c1815c1a15c2b15bc615ba815b7d15b5915b1a166431663b1664816629165fe166111660116616165d2165c2165ad165af1663d1664a1662b16603166051660c16618165d6165c81665e1664c1664d1664e166091660b1661a165d5165c516fc916fdb16fc816f7b)
  (.lf
  0x1a0201a00019ff019e7019e6019e4019e3019ca019c9019c7019c6019af019ae019ac019ab0199301992019900198f01976019750197301972019590195801956019550193e0193d0193b0193a01922019210191f0191e01907019060190401903018ed018ec018ea018e9018d1018d0018ce018cd018b620dbe20dbc20db920db820db620db520dab20da920da520da720da320da020d9f20d9820d9720d96))
  (.nd (.lf
  0x1528a15289152c315288152861521d1521c1521a1521915204158b0158ae158b3158aa158a6158a2158a01589c1589a1589515894158901588e158891588815883158821587f1587c1586d1586c158671586615862158601585b1585a15857158541584f1584e1584b1584815843158421583f1583c158371583615833158301582b1582a15827158241581f1581e1581b1581815813158121580d1580c15809)
  (.lf
  0x19d20100c00fcc009b9007c9007a90077f0075620e0a20df8019cd019b40100d00fcd009ba007ca007aa007800075720df220de6019bb0199b0100e00fce009bb007cb007ab007810075820dec20dd5019960197e0100f00fcf009bc007cc007ac0078220dcf20cc601979019610101000fd0009bd007cd007ad0078320cc320cc00195c019430101100fd1009be007ce007ae0078420cc720c9b0194a0192a)))
  (.nd (.nd (.lf
  0x1265c1265a126591269912658126561265512654126341262b1262a126461262912627126261262512624126221262112620126121260b126061260512603126021258c1258b12585125801257212573125711256e125691255f1255d1255c1255b125601255a125581255712556125521254c12527125261251c1251312512125111250f1250e1250d125201250c1250a12509125081250612505124f9124fa)
  (.lf
  0x20513205111fc121fa961f5661f5651f5620f51308c790820908207081ff104a90b67307a7f069de069b2104cb0be4709b2f090f4090ed112ea0c62107abc06e2606dfa1130c0cde90a9400a0170a010121290d5da08a7607af9071ac129ff1214b0ddb60b69c0ace2132c412a210e5950be70097ca13b8d132e60ed6b0c64a0ba3a1446213baf0ee590ce120c27114d2d14484103bb0d6030ca34155ec14d4f))
  (.nd (.lf
  0x1ec801eaa01ea901ea701ea601e8701e8601e8401e8301e6601e6501e6301e6201e44006ee006eb006e3006e0006d8006d5006cd006ca006c2006bf006b7006b4006ac006a9006a10069e00696006930068b00688006800067d00675006720066a006670065f0065c006540065100649006460063e0063b006330063000628006250061d0061a006120060f0060700604005fc005f9005f1005ee005e6005e3)
  (.lf 0)))

def shaXorOrder179 : BTree :=
  .nd (.nd (.nd (.lf
  0x20e3e20e3820e3f20e2b20e2f20e1c20e2020e1020e0020df020ddd20dcd20c8b20c8020c8220c6b20c6e20a7d2091820a4120a951b9291c09d1c4ac1c7851cab71cdeb1d0ac1d3111c8351c82f1c6be1c6881c6891c68a1c6561c6321c6331c6341cb361cb341ca941ca961c9d51c9bd1c9be1c9bf1c9771c9781ce271ce1b1cd191cd0e1cd0f1cce81ccea1ccd71ccd81ccd91d1081d1041d0441d0171d037)
  (.lf
  0x130b212e301501d1413c13937130b412ddc150191412e139321301112dc8150161412f139331301312db314ff21413013916130b612d9d14fee1411613917130b812d8b14fe71405d138fe130ba12d5314fe11402c138f21301512d2e14fde13ff0138e91301712d1014fad13fd9138f61301912cf414fa813f311391d1301b12cd614fa213f14139021301d12cba14f7013de41356012f3512c7e14f6c13ddc))
  (.nd (.lf
  0xaefe0aefd0aefc0aefa0aef90aef80aef70aef50aef40aef30aef20aef00aeef0aeee0aeed0aeeb0aeea0aee90aee80aee60aee50aee40aee30aee10aee00aedf0aede0aedc0aedb0aeda0aed90aed70aed60aed50aed40aed20aed10aed00aecf0aecd0aecc0aecb0aeca0aec80aec70aec60aec50aec30aec20aec10aec00aebe0aebd0aebc0aebb0aeb90aeb80aeb70aeb60aeb40aeb30aeb20aeb10aeaf)
  (.lf 0))) (.nd (.nd (.lf
  0x206e0206df206d3206d02021720216202152021320212202112020f2020e2020d2020c2020a20209202082020720204202032020220201201ff201fe201fc2021a201fb201f9201f8201f7201f5201f4201ae201ad201aa201a82019a2019920197201962018c2018d2018b2018920188201872018420182201742026c2017320171200d720692206902068f2068e2068d2068b2068a20689206882068620685)
  (.lf
  0xb3e80ae4d0ae3d0c81f0c8020bc9d0bc9b0b2ea0ae4f0ae3e0c7fd0c7e10baca0bac80b2d90ae510ae200c7dc0c7c10babf0babd0b2da0ae530ad6b0c7bc0c79f0bab00baa40b2db0ae550ae210c79a0c77c0bab10baa50b2dc0ae570c7770c7590bab20baa60b2dd0ae590c7540c7360bab30baa70b2de0ae5b0c7340c7110bab40baa80b2aa0ae5d0c7120c6f00bab50baa90b2870ae5f0c6f10c6d00ba5b))
  (.nd (.lf
  0x13e8213e8113e7e13e7d13e7c13e7913e7813e7713e7413e7313e7213e6f13e6e13e6d13e6a13e6914ed514ed214ecc14ecb14ec814ec114ec014ebd14eb614eb514eb214eab14eaa14ea714ea014e9f14e9c14e9514e9414e9114e8a14e8914e8614e7f14e7e14e7b14e7414e7314e7014e6914e6814e6514e5e14e5d14e5a14e5314e5214e4f14e4814e4714e4414e3d14e3c14e3914e3214e3114e2e14e27)
  (.lf 0)))

def shaXorOrder180 : BTree :=
  .nd (.nd (.nd (.lf
  0x5200051e00501004ff004f3004f1004e5004e3004c6004c4004a7004a500499004970048b004890046c0046a0040900407003fb003f900f0100eed00ee100ecd00ec100ead00e7e00e6a00e5e00e4a00df800de400d6f00d5b00d2c00d1800d0c00cf800cec00cd800ca900c9500c8900c7500c4600c3200c2600c1200be300bcf00bc300baf015a801597015450153101502014ee01479014650145901445)
  (.lf
  0x70fd070f6070f5070f3070f2070eb070ea070e8070e7070e0070df070dd070dc070d5070d4070d2070d1070ca070c9070c7070c6070bf070be070bc070bb070b4070b3070b1070b0070a9070a8070a6070a50709e0709d0709b0709a0709307092070900708f070880708707085070840707d0707c0707a0707907072070710706f0706e070670706607064070630705c0705b070590705807051070500704e))
  (.nd (.lf
  0x180f2180f1180f0180ee180ed180ec18108180eb180e9180e8180e7180e5180e4180e2180e1180df180de180dd180e3180dc180da180d9180d8180d5180d4180d3180d2180d0180cf180ce180d6180cd180cb180ca180c9180c7180c6180c4180c5180c3180c1180af180ae180ac180ab180781807718076180741807318072180711806f1806e1806d1806b1806a18069180681806618061180601863d18639)
  (.lf
  0x1c5f217e1d17d481551314fa314f5a1c9991c9421c5f417e1817d4a1551414f6f14eea1c98d1c9441c5f617e1417d4c1551514f6b14f591c9861c9461c5f817e0e17d4e1551614f6114eeb1cd031cc8d1c93f18437183f715de015825157be1ccf91cc8f1c94118430183f915de215821157e21ccee1cc911c9431842b183fb15de3158191579c1ccc01cc931c94518426183fd15de415815157991ccb61cc95)))
  (.nd (.nd (.lf
  0x175c3175b0175ae175a8175a6175a117596175891758717578175701756e175621753e1753c17538175441753717530175221751a175181750e1750c17504174f3174e7174e5174d6174d0174cf174ce174cc174c8174a7174a1174a01749f1749d174991748317481174761813f1809d1809b17f6717ffa17f6617f6417f5e17fc217f5d17f5b17f5617fce17f5517f5317f4d17feb17f4c17f4a17f4717fdb)
  (.lf
  0x1ff7a1fd4d1fa2d1fa291fa27207a4200521ff761fcd91fa421fa3f1fa3e207b11ffea1ff711fc811fa061fa031fa012070c200311ff6b1fc621f9f21f9ee1f9ec207002001a1ff661fc361f9e91f9e71f9e62073b1ff621fe631fd5a1f9f61f9f51f9f4203261ff5b1fe361fce61fa1f1f9d81f9d62031d1ff571fe171fc7e1f9531f9501f94f203121ff521fe0c1fc5d1f8fe1f8fd1f8fa203071ff4d1fdc5))
  (.nd (.lf
  0x3f7503f5703f5603f5403f5303f3403f3303f3103f3003f1303f1203f1003f0f03ef103ef003eee03eed03ed003ecf03ecd03ecc03eae03ead03eab03eaa03e8b03e8a03e8803e8703e6a03e6903e6703e6603e4803e4703e4503e4403e2503e2403e2203e2103e0403e0303e0103e0003de403de303de103de003dc403dc303dc103dc003da403da303da103da003d8403d8303d8103d8003d6403d6303d61)
  (.lf 0)))

def shaXorOrder181 : BTree :=
  .nd (.nd (.nd (.lf
  0xd70e0d6f30d6f10d6f00d6d20d6d00d6cf0d6af0d6ad0d6ac0e40c0e40a0e3ef0e3cd0e3cb0e3af0e38a0e3880e3670e3410e33f0e31e0e31c0e31a0e2f90e2d60e2d40e2bb0e2850e2830e26e0e26c0e26a0e2550e2280e2250e2220e22b0e2210e21f0e11b0e1190e1110e08c0e08a0e0880e0450e0440e0410dfbc0dfb80dfb60f9a00f99e0f99b0f9940f9910f98e0f9790f9760f9730f96d0f96a0f967)
  (.lf
  0x19a06197d91b8681b7591a86619dd019a08197a11b8621b7481a81219db719a0a194a01b85c1b73f1a80719d9e19a5319a0c1b8481b7321a7f619d82199931b71c1b70f1a7ab19d3e199a31b6fd1b6f51ac0319d06199ab1c2451c1561b5081ace71a3e01a3db1a3da1c23c1c15a1b4fc1acde1a3751a3701a36f1c2361c12e1b4b21ad0a1a3931a38e1a38d1c2301c0e61b4a31acbe1a3451a33e1a33d1c22b))
  (.nd (.lf
  0xd7490d7350d7340d7320d72b0d7160d7150d7130d70c0d6f80d6f70d6f50d6ee0d6d70d6d60d6d40d6cd0d6b40d6b30d6b10d6aa0d6910d6900d68e0d6890d6700d66f0d66d0d6690d64e0d64d0d64b0d6450d6370d4df0d4dd0d4dc0d4db0d4da0d4d80d4d70d4d60d4d50d4d30d4d20d4d10d4d00d4ce0d4cd0d4cc0d4cb0d4c90d4c80d4c70d4c60d4c40d4c30d4c20d4c10d4bf0d4be0d4bd0d4bc0d4ba)
  (.lf
  0x71a712279121580d8d00d5ec08aca0880c07b0207af407ae9071b5071a81226e1215a0d8b10d60408ac50880607b0307af507aea071b6071a9122631215c0d8920d60608ac00880007b0407af607aeb071b7071aa122581215e0d8750d60808abb087fa07b0507af7071b8071ab1224d121600d8590d60a08ab6087f407b0607af8071b90718c12242121620d83d0d60c08ab1087ee07b0707ad9071ba0718d)))
  (.nd (.nd (.lf
  0x32ca032c1032bf032a2032a00329f032870327e0327c0325f0325d0325c0323c0323a03239032190321703216031f6031f4031f3031db031d2031d0031b3031b1031b0031900318e0318d031750316c0316a0314d0314b0314a0313203129031270310a0310803107030ef030e6030e403ae303ae103ae003ac103ac003abe03abd03aa203aa103a9f03a9e03a7f03a7e03a7c03a7b03a5b03a5a03a5803a57)
  (.lf
  0x1026311fd811b8910f6c10f6a109c71027d102681026411fd411b7d10f4610f44109c81027f102691026511fce11b7410ed210ed0109c9102731026a1026611fca11b6b10ea610ea4109ca1031f102741026b11fc511b6210e9310e9110980103231026c11fbf11b5910e7e10e7c10949103241026d11fbb11b4d10e4110e3f1091a103251026e11fb511b4110e1e10e1c10907103261026f11fb111b3810df4))
  (.nd (.lf
  0x17e7217e7017e7417e6f17e6c17e6b17e6817e6717e6617e6317e6217e6117e5e17e5d17e5c17e5917e5817e5717e5417e5317e5217e5017e4e17e4d17e4b17e4a17e4817e4517e4417e4317e4017e3f17e3e17e3b17e3a17e3917e3617e3517e3417e3217e3017e2f17e2c17e2b17e2a17e2717e2617e2517e2217e2117e2017e1e17e1c17e1b17e1917e1717e1617e1317e1217e1117e0f17e0d17e9a17e0c)
  (.lf 0)))

def shaXorOrder182 : BTree :=
  .nd (.nd (.nd (.lf
  0x173f8173c8173aa1738717363173441732217303172e3172c1172a7172871727017240172301721c1720b171f5171e7171d9171c8171b1171a51718f17186171541715b1716a17164170b617ba017b9f17b9d17b9e17bb217bb117bb417baf17bae17bb017b6d17edb17bad17bac17ba517b5217ae517ad517aca17b5517aed17aea17ab017a96179fe179e5179e8179c1179b1179d41863a186311863618628)
  (.lf
  0x28606cc406bdb06aeb06aaa0028106cb306bdd06aed06aab0027c06ca206bdf06aef06aac0027706c9106be106af10027206c8006be306af30026d06c6f06be506af50026806c5e06be706af70026306c4d06be906af90025e06c3c06beb06afb0025906c2b06bed06afd0025406fdb06eed06bbc06bad06ba2006e406fd606eef06bbe06bae06ba3006d906fd106f0e06bc006baf06ba4006ce06fcc06f10))
  (.nd (.lf
  0x12c9d12c9b12c9812c9412c9312c8d12c8c12c8b12c8712c6312be712be512c0512be112bdd12bd812bed12bd71304e1304c1304a130431305713042130401303b1303a1303812f7312f7212f7112f7012f6e12f6d12f6c12f6a12f6912f6812f8c12f6712f6512f6412f6312f6112f5312f2e12f0b12f0912f0712eff12efe12efc12eb212eb112eb012eab12ea912ea812ea712e7512e7412e7312e7612e72)
  (.lf
  0x136051347e1c0341bf0d1b6d61b69716721162f713aea13aa613600134821c02a1bf0f1b6d81b6981677c1671c13aec13aa8135d7134811bfad1bf111b6da1b69916718162fa13aee13aaa135d2134801bfa71bf131b6dc1b69a1677a1671213af013aac135cf1347f1bfa11bf151b6de1b69b1670e162fd13af213aae135cb1347d1c37e1c24d1bef21bee31bed816cb816be613fc013e3e13e3013e2e13d53)))
  (.nd (.nd (.lf
  0xd2420d2410d2400d23f0d23d0d23c0d23b0d23a0d2380d2370d2360d2350d2340d2320d2310d2300d22e0d22d0d22c0d22b0d2290d2280d2270d2260d2240d2230d2220d2210d21f0d21e0d21d0d21c0d21a0d2190d2180d2170cf1b0cf180cefa0cef90cef70cef60ced80ced70ced50ced40ceb70ceb40ceb20ceb10ce8f0d43b0ce8d0ce8b0ce680ce670ce650ce630ce490d4160d4140d4110d4100d40f)
  (.lf
  0x1da4c1da2d1b2951b2931aa731a2ea1a1251da2e1da191b2361b2341a9ec1a2dc1a1091da0c1da031b2201b21e1a9e31a2991a0dd1d9eb1d9d11b22d1b22b1a9cf1a2831a0b91d9db1d9751b1bc1b1ba1a9d71a3f51a2731d9711d9471b04d1b04b1a9ad1a23e1d9691d9411aff91aff71a9361a3f91d9611d9381afec1afea1a93c1a3c81d9581d93b1afb21afb01a8641a3611d9791d9181af8e1af8c1a7f3))
  (.nd (.lf
  0x1d5771d5761d5751d5731d5721d5711d5c11d5701d5401d5381d57a1d5371d5351d52f1d52e1d52c1d52b1d5241d5231d5211d5201d51b1d51a1d5161d5131d50f1d50e1d50c1d50b1d5011d5001d4fe1d4fd1d4fc1d4fb1d4f91d4f81d4f11d4f01d4ee1d4ed1d4ec1d5031d4eb1d4e91d4e81d4e71d4e51d4e41d4e31d4f51d4e21d4e01d4df1d4de1d4dc1d4db1d4da1d4d91d4d71d4d41d4d31d4d21d4d0)
  (.lf 0)))

def shaXorOrder183 : BTree :=
  .nd (.nd (.nd (.lf
  0x1ff501ff4e1ff4c1ff4b1fa721fa1e1fa1d1fa1b1fa191fa181f8ca1f75a1f7591f7541f7341f7331f7301f6e11f6e31f6e01f55f1f55e1f55c1f55a1f5591f52a1f52907c0207c0007bfe07bfd07bfb07bf907bf807bf607bf407bf307bf107bef07bee07bec07bea07be907be707be507be407be207be007bdf07bdd07bdb07bda07bd807bd607bd507bd307bd107bd007bce07bcc07bcb07bc907bc707bc6)
  (.lf
  0xd41e0cccb0c57c0c5340c52f0e1b10d41f0cccc0c57e0c5350c5300e1ab0d4200cccd0c5800c5360c5310e1a70d4210ccce0c5820c5370c5320e1a00d4220cccf0c5840c5380c5330e19c0d42b0ccd00c5860c5390e1960d3ef0ccd10c5480c53a0e1910d3f00cceb0c54a0c53b0e18c0d3f10ccd20c54c0c53c0e1870d3f20ccd30c54e0c53d0e1830d3f30ccd40c5500c53e0e17d0d3f40ccd50c5520c53f))
  (.nd (.lf
  0x8a1a08a1908a1808a1608a1508a1408a1308a1108a1008a0f08a0e08a0c08a0b08a0a08a0908a0708a0608a0508a0408a0208a0108a00089ff089fd089fc089fb089fa089f8089f7089f6089f5089f3089f2089f1089f0089ee089ed089ec089eb089e9089e8089e7089e6089e4089e3089e2089e1089df089de089dd096080960609605095fc095fb095f9095f8095ec095eb095e9095e8095dd095dc095da)
  (.lf 0))) (.nd (.nd (.lf
  0x1e6631e6621e6601e65f1e65d1e65c1e65b1e65a1e6581e6571e6551e6541e6521e6501e64f1e64e1e6431e6411e63f1e63e1e63c1e63b1e63a1e6391e6321e6301e5e81e5e71e5e51e5e31e5d41e5d31e5d11e5cf1e5bf1e5be1e5bc1e5bb1e5b91e5b81e5b61e5b51e5861e5851e5831e57e1e5641e5631e5611e55e1e5501e5421e53e1e53c1e5231ea971ea951ea911ea901ea8f1ea8c1ea8b1ea8a1ea89)
  (.lf
  0x540a07cbf07c9005e7205e3205893053f407c8b07c6d05e7305e3305894053de0884b0875d063d20639205e76059620592205917088450876e063d30639305e770596405923059180883f0875e063d40639405e78059660592405919088390877d063d50639505e7905968059250591a0882508782063d60639605e7a0596a059260591b0881f0877e063d70639705e7b0596c059270591c0881908787063d8))
  (.nd (.lf
  0x114101140d114051140411401113fa113f9113f6113ef113ee113eb113e4113e3113e0113d9113d8113d5113ce113cd113ca113c3113c2113bf113b8113b7113b4113ad113ac113a9113a2113a11139e1139711396113931138c1138b1138811381113801137d1137611375113721136b1136a11367113601135f1135c1135511354113511134a1149511493114921148b1148a1148811487114801147f1147d)
  (.lf 0)))

def shaXorOrder184 : BTree :=
  .nd (.nd (.nd (.lf
  0x115d21156311501114ee11bbc11bba11bb911bb711bb011bad11b8711b8511b8411b7c11b7611b7311b6d11b6a11b5711b5511b4311b4011b3a11b3711b0c11b0a11b0411b0111ae111adf11ac711abf125e4125e0125d3125cf125ce125ca1257b1256c125411253f124b6124b4124b3124b1124b0124ae124ad124aa124a8124a6124a01249e12496124931246212460123301232e130761305d1305c13058)
  (.lf
  0xc0380c0350c0190c0180c0150bff90bff80bff50bfd70bfd60bfd30bfb40bfb30bfb00bf930bf920bf8f0bf730bf720bf6f0bf510bf500bf4d0bf2e0bf2d0bf2a0bf0d0bf0c0bf090beeb0beea0bee70beca0bec90bec60bea90759407591075900758f0758c0758b0758a0758707586075850758207581075800757d0757c0757b0757807577075760757307572075710756e0756d0756c075690756807567))
  (.nd (.lf
  0x198181981719816198141981219811198101980e1980c1980b1980a1980819806198051980419802197f71953e1953d1953b19533195171951819515195131950219501194ff194f6194da194d9194d7194d5194bd194bf194bc194ba1948e1948f1948d1948a19436194301942e1942c1942019418194121941019407194061940219401193f3193f2193e8193e6193d7192911928f1928e1928d1928c1928b)
  (.lf
  0x1bf2716770166e613ab91349e1347a1c2b71c2a216c2c16c1f13e2c13d5913d451c2b11c2a416c2716c2113e2d13d8413d541c5ff1c5f5172cd172b314c581462f1461b1c5fc1c5f7172ae1729414c591461c1461a1c9691c94817e0917d501551714f2614ef41c9551c94a17e0617d521551814eef14eec1cca61cc9b184121840515de8157e4157ac1cca11cc9d1840b1840715de9157b3157b01cf4e1cf39)))
  (.nd (.nd (.lf
  0x1a25c1a2501a24e1a2301a22e1a22c1a2411a22b1a2291a1fd1a1fb1a1fa1a1ed1a1e21a1e01a1d31a1c81a1c61a1b01a1ae1a1ad1a1721a16e1a16c1a1621a15f1a15d1a1271a11c1a11a1a0ff1a0fc1a0fa1a0f11a0eb1a0ea1a0e81a0e61a0cc1a0c91a0c71a09a19eb819eb619eb319e8e19e8b19e7f19e6619e6519e6319dcf19dc219dc019db919db419daa19d9a19d9219d9119d7e19d7d19d7919d3b)
  (.lf
  0x304d02a42024560241401ebd01ebb0304e02a430245801e9a01e980304f02a440245a01e7a01e760305002a450245c01e5701e55036700305302a9b02a5302a4e02858036710305402a9d02a5402a4f02836036720305502a9f02a5502a5002817036730305602aa102a5602a51027f4036740305702aa302a5702a52027d0036750305802aa502a58027b0036760305902a6702a5902791036770305a02a69))
  (.nd (.lf
  0x4b9904b9204b9104b8f04b7904b7204b7104b6f04b5704b5004b4f04b4d04b3404b2d04b2c04b2a04b1104b0a04b0904b0704aee04ae704ae604ae404acb04ac404ac304ac104aaa04aa304aa204aa004a8804a8104a8004a7e04a6504a5e04a5d04a5b04a4204a3b04a3a04a3804a2104a1a04a1904a1704a01049fa049f9049f7049e1049da049d9049d7049c1049ba049b9049b70499f0499c048cd048cb)
  (.lf 0)))

def shaXorOrder185 : BTree :=
  .nd (.nd (.nd (.lf
  0x30b9030bb030bd030bf030c1030c3030c5030c7030c9030cb030cd030cf036d2036d4036d6036d8036da036dc036de036e0036e2036e4036e6036e8036ea036ec036ee036f0036f2036f4036f6036f8036fa036fc036fe03700037020370403706037080370a0370c03cf903cfb03cfd03cff03d0103d0303d0503d0703d0903d0b03d0d03d0f03d1103d1303d1503d1703d1903d1b03d1d03d1f03d2103d23)
  (.lf
  0x1e23d1e1091e0d11e0c81eef01e8231e1ca1e0f21e0c91e0c61eefa1e81a1e2131e0ef1e0d01e0ca1eedc1e6fa1e1bc1e0e21e0b01e0ad1eed21e6ef1e1861e0e71e0e41e0df1f0051e6e71e23f1e05c1e0521e0511eb641e41f1e1d61e0571e0381e0361eb581e4561e2151e0541e0281e0271eb371e3671e1bd1e0161dfe51dfe41eb301e32a1e1881e0121dfda1dfd41eaeb1e2ff1e1721e00d1dfdb1dfd9))
  (.nd (.lf
  0xed0f0ed0e0ed0d0ed0b0ed0a0ed090ed140ed080ed060ed050ed040ed020ed010ed000ecff0ecfd0ecfc0ecfb0ecfa0ecf80ecf60ecf50ecf40ecf20ecf10ecf00ecef0eced0ecec0eceb0ecf70ecea0ece80ece70ece60ece40ece30ece20ece10ecdf0ecde0ecdd0ecdc0ecda0ecd90ecd80ecd70ecd50ecd40ecd30ecd20ecd00eccf0ecce0eccd0eccb0ecca0ecc90ecc80ecc60ecc40ecc30ecc50ecc2)
  (.lf
  0xbfe70bfda14ed314d2f14486144771446c104a4103bd0d6050d5f70d5f50ca260ca1c14ec914d3114488144781446d1049f103bf0d6070d5f80d5f60ca0c0c9ff14ebe14d501448a144791446e1049a103c10d6090d5f90c9ef0c9e114eb314d521448c1447a1446f10495103c30d60b0d5fa0c9d10c9c514ea814d541448e1447b1447010490103c50d60d0d5fb0c9b50c9aa14e9d14d56144901447c14471)))
  (.nd (.nd (.lf
  0x51ae051ac0519b051990519805253051850518305172051700516f052510515b051590514605144051430524f0512f0512d0511a05118051170524d0510405102050f3050f0050ee0524b050dd050db050ca050c7050c505249050b4050b20509f0509d0509c052470508805086050750507205070052450505f0505d0504c0504905047052430503605034050210501f0501e052410500a0500804ff704ff4)
  (.lf
  0x1380a12ffb12665126621266114b4f14886137e0137de12fda126a21269f1269e14b4914888137a8137a612fcd1263e126371263514b46148701378b1378912fba1264f1264c1264b14b301484a1376f1376d12f7b12640126381263614b1514844137441374212f1c1261c126181261714af6148421372d1372b12ec11260f1260d1260c14af214832136f9136f712ed21258f1258e1258d14aec14831136f0))
  (.nd (.lf
  0x1a5e11a5e01a5dd1a5dc1a66b1a5db1a5d81a5d71a5d51a5cf1a5cd1a5c91a5c81a5c71a5c41a5c31a5ff1a5c21a5c01a5be1a5bc1a5b31a5b21a5b01a5ae1a5b51a5ad1a5ab1a5a91a5751a5741a5731a5701a5691a73e1a73c1a7391a72c1a72b1a7291a6db1a6d91a6d81a6d61a6d51a6d41a6d31a6d11a6cf1a6ce1a6cd1a6c81a6c61a6c51a6c41a6c21a6c11a6bf1a6be1a6bc1a6ba1a6b91a6b81a6b5)
  (.lf 0)))

def shaXorOrder186 : BTree :=
  .nd (.nd (.nd (.lf
  0x3bd503bd703bd903bdb041cb041cd041cf041d1041d3041d5041d7041d9041db041dd041df041e1041e3041e5041e7041e9041eb041ed041ef041f1041f3041f5041f7041f9041fb041fd041ff042010420304205047fa047fc047fe04800048020480404806048080480a0480c0480e04810048120481404816048180481a0481c0481e04820048220482404826048280482a0482c0482e048300483204834)
  (.lf
  0x1c124195251950d1c1211c0f719505194ef1c11d1c0f9194e5194cf1c1181c0fb194c7194b51c1121c0fd194a5194841c10d1c0ff19457194251c10a1c10119458194131c1031c09f19459193fb1c09b1c097196b9193e11c4f71c49b19f4a19ea11c4f21c49d19d5e19ce31c4ed1c49f19d5819ce41c4cd1c4a119d5319ce51c4ca1c4b319d4d19ce61c4c41c4a419d4819ce71c4bf1c4a619d4319ce81c4ba))
  (.nd (.lf
  0x1389a13899138981389613895138941389313891138901388f138a41388e1388c1388b1388a13888138871388613885138831388213881138801387e1387d1387b1387c1387a138781387713876138741387313872138711386f1386e1386d1386c1386a1386813852138511384f1384e1383313832138301382f1382e1382d1382b1382a137f2137f1137ef137ed137b8137b9137b7137b51379d1379c1379a)
  (.lf
  0x1cf0f1cc761cc601cc551932f18dad162f8162e7161a21608c1cfc91cf111cc781cc611cc561932c18daf162f9162e81619e1608b1cfc31cf131cc7a1cc621cc571932618dc4162fb162e9161981608a1cfc01cf151cc7c1cc631cc581932018dc6162fc162ea16195160891cfb91cf171cc7e1cc641931d18dc8162fe162eb1618e160881cfb11cf191cc801cc651931718e5f162ff162c316189160871cfae)))
  (.nd (.nd (.lf
  0x1022210232102211021f1021e1021d1021b1021a10219102181021610215102141021310211102101020f1020e1020c1020b1020a1020910207102061020510204102021020110200101ff101fe101fc101fb101fa101f8101f71000c0ffbc0ffba0ffb90ffb20ff9f0ff9d0ff9c0ff800fddf0fdd60fdd40fdbc0fdbb0fdb90fdb80fda20fdaa0fda10fd9f0fd8e0fd8d0fd8b0fd8a0fd700fd750fd6f0fd6d)
  (.lf
  0x1e5061fa301f9151eccb1ecc91e7471e6051e5321fa2a1f93f1ecad1ecab1e73f1e6441e4f31fa231f9481ec901ec8e1e7ac1e5f31e4eb1fa021f94a1ec831ec811e7561e5f11e4f01f9ef1f8f41ec651ec631e7201e5ad1e4dc1f9e21f9001ec741ec671e71b1e59b1e4d11f9de1f8ea1ec721ec601e70d1e58e1e4bf1f9da1f8ff1ec6d1ec6b1e7051e5751e4c31f94d1f8e31ec441ec421e6a81e54e1e064))
  (.nd (.lf
  0x1050010100100000fc000fb000f7000f6000f2000f1000ed000ec000e8000e7000e3000e2000de000dd000d900f6a00f6800f5300f4c00f4b00f4900f3000f2900f2800f2600f0d00f0600f0500f0300eec00ee500ee400ee200ecc00ec500ec400ec200eac00ea500ea400ea200e8a00e8300e8200e8000e6900e6200e6100e5f00e4900e4200e4100e3f00e2700e2000e1f00e1d00e0400dfd00dfc00dfa)
  (.lf 0)))

def shaXorOrder187 : BTree :=
  .nd (.nd (.nd (.lf
  0xe3070e2db0e2c90e2a00e2900e2740e2630e2240e24b0e1dc0e14a0e1170e1010e0d10e0bc0e0920e0760e0490e02f0e0000dfe90dfbb0dfa10ebce0eaf70eaee0eaf60eaec0eab60eaaf0eb570ea5d0eaa60ea4d0eaa00ea390ea9a0ea240e9bd0e9890e9b70e9600e9480e9290e9190e8fc0e8e80e83b0e8630e8620e8610e8600e85a0f9a70f9a20f99d0f9960f9900f98a0f9850f9800f97c0f9740f970)
  (.lf
  0xfc640fc2711532107a00ff380fc660fc281152d107980ff390fc680fc2911527107500ff3a0fc6a0fc2a11522107480ff3b0fc6c0fc2b1151e107130ff3c0fc6e0fc2c1150a1070b0fcfe0fc70114b5106b90fcff0fc72114a7106990fcb80fc741109710c381013d100ca100821007d1105c10c3210136100cc100831007e1105d10b4210133100ce100841007f1100410a9d1012c100d0100851008010fd5))
  (.nd (.lf
  0x8ad208ace08acd08ac908ac808ac408ac308abf08abe08aba08ab908ab508ab408ab008aaf08aab08aaa08aa608aa508aa108aa008a9c08a9b08a9708a9608a9208a9108a8d08a8c08a8808a8708a8308a8208a7e08a7d08a7a0882f0882c087a7087a40879c08799087910878e0876c087690a4cd0a4cb0a4c50a4be0a4bd0a4bb0a4b60a4af0a4ae0a4ac0a4a80a4a10a4a00a49e0a4980a4910a4900a48e)
  (.lf 0))) (.nd (.nd (.lf
  0x1f6ad1f6ac1f6aa1f5381f5371f5361f5341f4f61f4f21e2301e22f1e22b1e2281e2261e2231e2211e21d1e21c1e1e31e1de1e1d01e15c1e1571e1461e13e1e1301e12f1e1241e1211e11f1e11c1e1111e10f1e10c1e1081e1071e0f31e0f11e0ee1e0ec1e0e61e0e81e0e11e0601e05d1e05b1e05a1e0561e0291e01b1e0191e0151e0131e0111e01c1e0101e00e1e01e1e00c1de151de1c1de141ddb01ddb9)
  (.lf
  0x89b40a5bb0a542097fe097f2091e5089b60a5b50a541097ff097f3091e6089b80a5b00a5400983e0983c091b1089ba0a5ab0a53f0975e097520910d089bc0a5a60a53e0975f097530910e089be0a5a10a53d09760097540910f089c00a59c0a53c097610975509110089c20a5970a53b097620975609111089c40afdb0acd70a05a0a01a098ff09300092e6092e10afd80acbc0a05b0a01b0990009302092e7))
  (.nd (.lf
  0x12ae512ade12add12adb12ada12ad312ad212ad012acf12ac812ac712ac512ac412abd12abc12aba12ab912ab212ab112aaf12aae12aa712aa612aa412aa312a9c12a9b12a9912a9812a9112a9012a8e12a8d12a8612a8512a8312a8212a7b12a7a12a7812a7712a7012a6f12a6d12a6c12a6512a6412a6212a6112a5e1282d1282a1282912828128251282412823128201281f1281e1281b1281a1281912816)
  (.lf 0)))

def shaXorOrder188 : BTree :=
  .nd (.nd (.nd (.lf
  0xe73c0e7300e7240e7180e70c0e7000e6f40e6e80e6dc0e6d00e6c40e6b80e6ac0e6a00e6940e6880e67c0e6700e6640e6580e64a0e63a0e6290e6180e6070e5f40f74f0f73e0f72c0f71b0f70a0f6f90f6e80f6d70f6c60f6b50f6a40f6930f6820f6710f6600f64e0f63c0f62a0f6180f6060f5f40f5e20f5d00f5be0f5ad0f59b0f5890f5780f5670f5550eff80efed0efe20efd70efcc0efc10efb60efab)
  (.lf
  0x6b7906b7806b7706b7406b7306b7206b6f06b6e06b6d06b6a06b6906b6806b6506b6406b6306b6006b5f06b5e06b5b06b5a06b5906b5606b5506b5406b5106b5006b4f06b4c06b4b06b4a06b4706b4606b4506b4206b4106b4006b3d06b3c06b3b06b3806b3706b3606b3306b3206b3106b2e06b2d06b2c06b2906b2806b2706b2406b2306b2206b1f06b1e06b1d06b1a06b1906b1806b1506b1406b1306b10))
  (.nd (.lf
  0x168c9168c8168c7168c4168c1167ea166e2166e0166df166de166dd166db166da166d9166d8166d6166d5166d4166d3166d1166d0166cf166ce166cc166cb166ca166c9166c8166c6166c5166c4166c2166c1166c0166bf166bd166bc166bb166ba166b8166b7166b6166b5166b3166b2166b1166b0166af166ad166ac166ab166a9166a7166a5166a6166a4166a2166a1166a8166a01669e1669d1669c1669a)
  (.lf
  0x133140ede60edaf0c6340b7b50b7a813c3713bda133160ede10edb10c6350b7980b78c13c2c13bdc133180eddc0edb30c6360b77c0b76f13c2113bde1331a0edd70edb50c6370b75f0b75313c1613be01331c0edd20edb70c6380b7430b73613c0b13be21331e0edcd0edb90c6390b7220b71614522144ab13bdb0ef140ee9b0cdfa0bfc50bfb714517144ad13bdd0ef090ee9d0cdfc0bfa20bf961450c144af)))
  (.nd (.nd (.lf
  0x14a7814a7614a7514a7314a7114a7014a6e14a6914a681473d1473a14672146701466f1464f1464c1464a154581544e1544d1544715446154441543715436154351542915428154271542615424153f7153f615468153f5153f3153f2153f1153ef153e3153e2153e1153df153d2153cc15403153cb153c9153c8153c7153c5153c0153bf153be153b4153b2153b1153b0153ae153a7153a6153a5153a3153a1)
  (.lf
  0x74f507405024ee024cf07b7807b650750b074f707407024d0024af0768707599074c6074b7074ac0674b0666402e8402e66076820759b074c8074b8074ad067460666602e6702e470767d075ba074ca074b9074ae067410666802e4202e2307678075bc074cc074ba074af0673c0666a02e2402e0307673075be074ce074bb074b0067370666c02e0402de40766e075c0074d0074bc074b1067320666e02ddf))
  (.nd (.lf
  0x2af102aea02ae902ae702ad302acc02acb02ac902ab602ab3029e5029e3029e2029e1029e0029de029dd029dc029db029d9029d8029d7029d6029d4029d3029d2029d1029cf029ce029cd029cc029ca029c9029c8029c7029c5029c4029c3029c2029c0029bf029be029bd029bb029ba029b9029b8029b6029b5029b4029b3029b1029b0029af029ae029ac029ab029aa029a9029a7029a6029a5029a4029a2)
  (.lf 0)))

def shaXorOrder189 : BTree :=
  .nd (.nd (.nd (.lf
  0x16a6b16a6a16a6916a5d16a5a169c4169b3169b017810177e2177e0177de177dc17769177551774d1774c17747176d4176be1761817612176101760e1760c1760b17609175f1175f017592175911758e1758d17576175751755b175591752f1752b17514175131751217510174fb1748f1748a17488191171906819038190371903519031190301902e1902b1902a1902819025190041900218ff518ff318ff0)
  (.lf
  0x16d8a16d8118f8018d66180371770616deb16de618f7a18d5e1800c176ed16d4216d4118f7718d5817f361769516d1a16d1918f6218d5117f37176e416d0316d0118f5d18d5417f381767316cf616cf518f5a18d5317f391764816cd016ccf18f5518d4117f3a1763416ba116ba018f3418d3f17cfa1762f16dd516b9218d3518cfe17cef1760316dd616b8718cfb18cf317cf0175e916db116b5218ced18ce7))
  (.nd (.lf
  0xc5b70c5b60c5b50c5b30c5b20c5b10c5b00c5ae0c5ad0c5ac0c5ab0c5a90c5a80c5a70c5a60c5a40c5a30c5a20c5a10c59f0c59e0c59d0c59c0c59a0c5990c5980c5970c5950c5940c5930c5920c5900c58f0c58e0c58d0c58b0c58a0c5890ca280ca1d0ca0e0ca000c9f10c9e20c9d30c9c60c9b70c9ab0c99c0c9900c9800c9740c9620c9560c9420c9360c9220c9160c9020c8f60c8e20c8d60c8c20c8b6)
  (.lf
  0x7ef807ef307ee60f5370f4f708c9d08c5907ed707ecf07ecb07ec907ec307eb50f5390f4f808c9f08c5b07ea607e9e07e9a07e9807e9307e870f53b0f4f908ca108c5d07e7807e7007e6c07e6a07e6407e570f53d0f4fa08ca308c5f07e4807e4007e3c07e3a07e3507e2910656104ab0ba340b67507a8007a7207a67069e0069d2069d0069a5069a31064c104ad0ba1b0b67707a8107a7307a68069e2069d3)))
  (.nd (.nd (.lf
  0x1291012710126f0126e012560124d0124b012360122d0122b0120e0120c0120b011eb011e9011e8011c8011c6011c501be801be601be501bcd01bcc01bca01bc901baf01bae01bac01bab01b9601b9501b9301b9201b7801b7701b7501b7401b5e01b5d01b5b01b5a01b4501b4401b4201b4101b2801b2701b2501b2401b0a01b0901b0701b0601af101af001aee01aed01ad401ad301ad101ad001ab601ab5)
  (.lf
  0xe2920db590d3130d30b0fa120f9630e2780e2760db5a0d3150d30c0fa0e0f95e0e2670e2650db5b0d3170d30d0fa090f9590e2380e2360db5c0d3190d30e0fa020f9520e24f0e24d0db5d0d31b0d30f0f9fd0f94d0e1e00e1de0db310d31d0d3100f9f80f9470e14e0e14c0db1e0d4420d31f0f9f30f9410e11e0e11c0db1f0d3210d2f50f9f00f93b0e1050e1030db200d4430d4320f9e90f9370e0d90e0d7))
  (.nd (.lf
  0x16b5116b4f16b4e16b4c16b4a16b4916b4816b4616b4516b4416b4316b4116b4016b3e16b3d16b3b16b3a16b3816b3716b3516b3416b3216b3116b2f16b2b16b2a16b2916b2716b1916b1816b1716b1516b0c16b0b16b0a16ae316ae116ae016ae416adf16add16adc16adb16ad9169651696416963169611695f1695e1695d1695b1695a1695616958169551695316952169511694f1694e1694c1694b16949)
  (.lf 0)))

def shaXorOrder190 : BTree :=
  .nd (.nd (.nd (.lf
  0x4a00049e0049c00499e0522805212051fb051e6051d2051bc051a905193051800516a051550513e0512905112050ff050eb050d7050c2050ae05097050820506d050590504405030050190500404fef04fdf04fce057190570b056fd056ef056e1056d3056c5056b5056a4056950568505674056630565205642056310562105610055fe055ee055e0055d2055c2055b1055a00558f0557e0556d0555c05550)
  (.lf
  0x654805fec05abc082f8065490603f0829a065680603d08b17082f9065bb08b36082b1065b9093aa08b370856a093c908b5608568099cd093ca08ba9099ec093e908ba70a289099ed0943c0a19d09a0c0943a0a7de0a29909a5f0a7fd0a19e09a5d0aff40a7fe0a2fb0ad3a0a81d0a2f90b3bf0aff50a8700b2f10ad3e0a86e0bb960b3cd0b0480bad20b2f40b0460c3210bb9f0b5cc0c3400bad50b5ca0ccac))
  (.nd (.lf
  0x11043110141101311011110101100f1100e1100c1100b1100a110091100710fbe10f9410f9310f9110f9010f6910f6810f6610f6510f4f11a4e11a4c11a4a11a4911a4811a4611a4511a4411a4311a4111a3f11a3e11a3d11a3a11a3911a3811a3711a3511a3411a3011a2f11a2d11a2b11a2a11a2911a2711a2611a2411a2311a2111a1f11a1e11a3211a1d11a1b11a1a11a1911a1711a1511a1411a1311a11)
  (.lf
  0x1936613eed13e1b11c3b11c2a115ad114a319e3819c4a19385193721936713ee813e1d11c3d11c2b115aa1146619e3319c4c19387193731936813ee313e1f11c3f11c2c115a51145a19e2e19c4e19389193741936913ede13e2111c4111c2d115a11144e19e2a19c501938b193751936a13ed913e2311c4311c2e1159c1144219e2119c521938d193761936b13ed413e2511c4511c2f115991143619e1e19c54)))
  (.nd (.nd (.lf
  0xad4a0ad490ad470ad460ad450ad660ad440ad420ad410ad400ad230ad1e0ad1d0ad1c0ad1a0ad070ad060ad050ad030ad020ad010ad000acfe0acfd0acfc0acfb0acf90acf80acf70acf60a98d0a98b0a9760aff10afef0afdc0afda0afd70afd60afd50afd40afd10afd00afcd0afcc0afcb0afc80afc70afc60afc40afc20afc10af950af930af920af910af8f0af8d0af8a0af890af880af860af850af83)
  (.lf
  0x1951f185b7185b517da21766b197d4194fb185971859517d991784e197ca194dc185891858717d90178051979a1949f1856f1856d17d871777319491194531853e1853c17e04177b41944e19433185111850f17d7b177a01944b1941c184ef184ed17d71176fa1943e19408184dc184da17d68176cc193eb193d0184d4184d217d5f176b31a3d41a3561920619204189481814a18145181441a3691a325191ee))
  (.nd (.lf
  0x1cdbb1cdb91cdbc1cdb81cdb51cdb41cdb21cdae1cdb01cdac1cda91cda81cda61cda31cda21cda01cd9d1cd9c1cd971cd941cd991cd931cd901cd8f1cd8c1cd8b1cd8a1cd861cd851cd841cd801cd7f1cd7e1cd7b1cd791cd781cd761cd6e1cd6d1cd591cd571cd561cd541cd4d1cd4b1cd491cd481cd461cd401cd3a1cd391cd331cd2e1cd2c1cd0d1cd0a1cd1b1cd091cd061cd051cd021cd001ccff1ccfa)
  (.lf 0)))

def shaXorOrder191 : BTree :=
  .nd (.nd (.nd (.lf
  0x2036820367203662036b203652036320362203612035f2035b20358203b220357203541fd141fd131fd111fd101fd0d1fd0c1fd0a1fd021fcc71fcc61fcc41fcc31fcbb1fcba1fca51fc9b1fc0b2015f2015d2013c201482013a201372013620115201142011320111201042010320101200f7200f6200e0200c8200c7200b1200ac200a8200a7200a5200b9200a3200a12009f2009d2005e2000e2000c2000a)
  (.lf
  0xa291099f50940c093fd0abd40a292099f60940e093fe0abb60a293099f709410093ff0ab970a294099f809412094000ab7a0a295099f909414094010ab5e0a296099fa09416094020ab420a297099fb09418094030ab260a298099fc0941a094040ab080a229099fd0941c094050aaeb0a220099fe0941e094060aacd0a218099ff09420094070aab00a21009a0009422094080aa930a20809a010942409409))
  (.nd (.lf
  0x81a808182081810817f0817a0815308152081500814c0812608125081230811d080f6080f5080f3080ee080c8080c7080c5080c10809a0809908097080910806b0806a08068080630803c0803b08039080350800f0800e0800c0800607fdf07fde07fdc07fd507faf07fae07fac07fa707f8007f7f07f7d07f7707f5107f5007f4e07f4707f2007f1f07f1d07f1807ef207ef107eef07ee907ec207ec107ebf)
  (.lf 0))) (.nd (.nd (.lf
  0x1d8a31d8a21d8a11d89f1d89e1d89c1d89b1d8991d8981d8971d8961d8951d8931d8921d8911d88f1d88e1d88d1d88c1d88a1d8881d8871d8891d8861d8841d8831d8821d8801d87e1d87d1d87c1d87a1d8791d8781d8771d8751d8731d8721d8711d86e1d86d1d86c1d86b1d8691d8661d8651d8681d8641d8621d8611d8601d85e1d85d1d85c1d85b1d8591d8581d8561d8551d8521d8511d8501d84f1d84d)
  (.lf
  0x3b83051ed051d80479b0475b0418c03bd203b8f03b84051d9051c50479c0475c0418d03bd403b9003b85051c0051af0479d0475d0418e03bd603b9103b86052540519c0479e0475e0418f03bd803b9203b8705197051860479f0475f0419003bda03b9303b880525205173047a0047600419103bdc03b9403b890516e0515c047a1047610419203b9e03b9503b8a0525005147047a2047620419303ba003b96))
  (.nd (.lf
  0xeff70eff60eff30efec0efeb0efe80efe10efe00efdd0efd60efd50efd20efcb0efca0efc70efc00efbf0efbc0efb50efb40efb10efaa0efa90efa60ef9f0ef9e0ef9b0ef940ef930ef900ef890ef880ef850ef7e0ef7d0ef7a0ef720ef710ef6e0ef670ef660ef630ef5c0ef5b0ef580ef510ef500ef4d0ef460ef450ef420ef3b0ef3a0ef370ef2f0ef2e0ef2b0ef230ef220ef1f0ef170ef160ef130ef0c)
  (.lf 0)))

def shaXorOrder192 : BTree :=
  .nd (.nd (.nd (.lf
  0x4d88090f10960c0a0140ace60f9ab10b8d110f21179d125f6180b21895c1997c1ab521bbb01dddc1e1ad1e4b0008170085600a4700a860105a010990165c0169b01c9f01cde022d702316029100294f02f3b02f7a03578035b703b9f03bde041c904208047f80483704e3004e6f05473053b9059350597405eb605ef5064320647108441084800899d089dc092d50928e098f8098ad0a0ba0a0f90a7460a68b)
  (.lf
  0xe7010e6fa0e6f90e6f70e6f50e6ee0e6ed0e6eb0e6e90e6e20e6e10e6df0e6dd0e6d60e6d50e6d30e6d10e6ca0e6c90e6c70e6c50e6be0e6bd0e6bb0e6b90e6b20e6b10e6af0e6ad0e6a60e6a50e6a30e6a10e69a0e6990e6970e6950e68e0e68d0e68b0e6890e6820e6810e67f0e67d0e6760e6750e6730e6710e66a0e6690e6670e6650e65e0e65d0e65b0e6590e6520e6510e64f0e64b0e6440e6430e641))
  (.nd (.lf
  0x1bad31bad21bad11bacf1bace1bacb1baca1bac81bac71bac51bacd1bac41bac21bac11bac01babe1babd1babc1babb1bab81bab51bab41bab61bab31bab11bab01baaf1baad1baac1baab1baaa1baa81baa71ba2c1ba391ba2b1ba241ba1e1ba1d1ba1b1ba191ba181ba171ba161ba121ba111ba151ba101ba0e1b8741b8731b8711b8701b86e1b86d1b86b1b86a1b85a1b85b1b8591b8561b8521b8511b84f)
  (.lf
  0x2f24046390461303b4703b070354002f7802f3002f250460e045f003b4803b080354102f3a02f3102f26045eb045cc03b4903b090354202f3c02f3202f27045d3045ac03b4a03b0a0354302f3e02f33045b30458c03b4b03b0b0354402f4002f34045930456d03b4c03b0c0354502f4202f35045680454a03b4d03b0d0354602f4402f36045450452603b4e03b0e0354702f4602f370452d0450603b4f03b0f)))
  (.nd (.nd (.lf
  0x1f5781f5a01f5771f5741f5731f51f1f5161f5141f5121f4eb1f4ea1f4d91f4d81f4d71f4d51f4cb1f4c21f4c11f4be1f4bd1f49e1f4981f4941f4921f4901f48f1f48d1f4841f4831f4781f4761f4751f4711f46f1f46d1f46a1f4681f4661f4611f45b1f45a1f4571f4541f4a71f4531f4501f4af1f44f1f44d1f44b1f4481f4411f4401f43e1f4391f4371f42e1f42b1f42a1f41f1f41e1f41c1f4111f40e)
  (.lf
  0x65a70656a08b2e082a906c69065a90656b08b2f082aa06c58065ab0656c08b30082ab06c47065ad0656d08b31082ac06c36065af0656e08b32082ad06c25065b10656f08b33082ae06c14065b308b34082af06c03065b508b35082b006bf9065b709fd7093ab08b380856c085240851f09faf093ac08b390856e085250852009f88093ad08b3a08570085260852109f60093ae08b3b08572085270852209f37))
  (.nd (.lf
  0x61810617906178061760616f06168061670616506160061590615806156061500614906148061460613f0613806137061350612e0612706126061240611d0611606115061130610c061050610406102060fb060f4060f3060f1060ec060e5060e4060e2060de060d7060d6060d4060d0060c9060c8060c6060c0060b9060b8060b6060b1060aa060a9060a7060a10609a060990609706090060890608806086)
  (.lf 0)))

def shaXorOrder193 : BTree :=
  .nd (.nd (.nd (.lf
  0x2095d208ab208ad20a482097e2096f2095f2089320a4e209812096b20a37208a72087b2084e2086b20828208a920813208802082b20a9620a422097d2096c209542088520853005740056500557005490053b0052b0051c0050c004fd004ef004e1004d1004c2004b2004a300495004870047700468004580044700436004250041400405003f7003e7003db003d0003c500f5200f2f00f0c00eeb00ecb00eab)
  (.lf
  0x1b9441b9091ceb21cd1a1ba6d1b9891b90a1ceae1ce281ba641b9461b90b1cea91ce2a1ba5f1b9481b90c1cea41ce2c1ba5b1b9161b90d1ce9e1ce2e1ba521b9181b8361ce9b1ce301ba4f1b91a1b8381ce951ce321ba4a1b91c1b83a1ce911ce341ba411b91e1b83c1ce8a1ce361ba3d1b9201b83e1ce871ce381ba3a1b9221b8401ce831ce3a1ba2f1b9241b8421ce7c1ce3c1ba2a1b9261b8441ce781ce3e))
  (.nd (.lf
  0x111e7111e6111e5111e3111e2111e1111e0111de111dd111dc111db111d9111d8111d7111d6111d4111d3111d2111d1111cf111ce111cd111cc111ca111c9111c8111c7111c5111c4111c3111c2111c0111be111bd111bc111ba111b9111b8111b7111b5111b4111b3111bf111b2111b0111af111ae111ac111ab111aa111a9111a7111a6111a5111a4111a2111a1111a01119f1119d1119c1119b1119a11198)
  (.lf
  0x18bc518ac518206181ee181e31323e131ac1123911222108a31067d18bc118ac718208181ef181e413239131ae1123b112231089f1066918bb918ac91820a181f013234131b01123d112241089a1066518bb318acb1820c181f11322f131b21123f111fb108951066618baf18acd1820e181cf1322a131b411241111fd108901066718baa18acf18210181d113225131b611243111ff1088a105b718ba218ad1)))
  (.nd (.nd (.lf
  0xa2710a26e0a26d0a26c0a2690a2680a2670a2650a2630a2620a2600a25f0a2720a25d0a25b0a2590a2560a2550a2540a2520a2500a24f0a24d0a24b0a24a0a2470a2460a2450a2420a2410a2400a23f0a23d0a23b0a2390a2360a2370a2350a2330a2310a2300a22e0a22c0a2270a2260a2240a21e0a21d0a21c0a21a0a2160a2140a20e0a20d0a20c0a20a0a2060a2040a1fe0a1fd0a1fc0a1fa0a1f60a1f4)
  (.lf
  0x16606184c1184b5174ad174ab168e916617184cc183ae1747f1747d168ea165d31912b1911f18142181401780116fc116fbe16fbd19119190ae17ffd17ffb1776f16f7316f7016f6f190a91903917fc517fc3177af16f6416f6116f60190a21903417fd117fcf1779b16f5916f5616f55190981902c17fee17fec176f616f3916f3616f35190941902617fde17fdc176c716f9816f9516f94190901902117fb4))
  (.nd (.lf
  0x1c5881c5871c5861c5841c5831c5811c5801c57e1c57c1c57a1c5791c5771c5741c5731c5721c56f1c56e1c56d1c56b1c56a1c5681c5651c5641c59c1c5631c5611c55f1c5251c5241c5261c5221c51f1c51e1c51b1c51a1c5191c5171c5161c5141c5111c5101c50f1c50c1c50b1c50a1c5081c5071c5051c5031c5011c5001c4fe1c4fd1c4fb1c4f91c4f61c4f81c4f51c4f31c4f11c4ef1c4ee1c4ec1c4cf)
  (.lf 0)))

def shaXorOrder194 : BTree :=
  .nd (.nd (.nd (.lf
  0x68f7068e6068d5068c4068b3068a206891068800686f0685e0684d0683c0682b0681a06809067f8067e7067d6067c5067b4090cd090ab0908909065090400901c08ff808fd408fb008f8e08f6c08f4a08f2808f0608ee208ebd08e9a08e7808e5408e2f08e0a08de708dc308d9f08d7b08d5708d3208d0c08ce208cb906de906dd806dc706db606da506d9406d8306d7206d6106d5006d3f06d2e06d1d06d0c)
  (.lf
  0x672706726067250672206721067200671d0671c0671b0671806717067160671306712067110670e0670d0670c067090670806707067040670306702066ff066fe066fd066fa066f9066f8066f5066f4066f3066f0066ef066ee066eb066ea066e9066e6066e5066e4066e1066e0066df066dc066db066da066d7066d6066d5066d2066d1066d0066cd066cc066cb066c8066c7066c6066c3066c2066c1066be))
  (.nd (.lf
  0x15cac15cab15cd415caa15ca815ca715ca615ca515ca315ca215ca115c9f15c9e15c9d15c9c15c9a15c9915c9815c9715c9515c9315c9215c9415c9115c8f15c8e15cd515c8d15c8b15c8a15c8915c8715c8615c8515c8415c8215c8115c8015c7f15c7d15c7c15c7b15c7a15c7815c7715c7615c7515c7315c7215c7115c7015c6e15c6d15c6c15c6b15c6915c6815c3915c3815c3615c3515c3415c3315c31)
  (.lf
  0xb7a20b6b907a97069c90681e0681c10548104f80b7860b6bb07a98069ca0680d0680b1053d104fa0b7690b6bd07a99069cb067fc067fa10532104fc0b74d0b6bf07a9a069cc067eb067e910527104fe0b7300b6c107a9b069cd067da067d8104f70bfd40be8909b1708dfd08dfb08df508de9104f90bfb10be8b09b1908dda08dd808dd208dc5104fb0bf900be8d09b1a08db608db408daf08da1104fd0bf70)))
  (.nd (.nd (.lf
  0x143571435c14356143541435314352143501434f1434a143491434314334143331433214330143241432314322143181431614315143141430d1430b1430a1430914307142ff142fe142fd142f2142f1142f0142f3142ef142ed142ec142eb142e9142e3142e2142e1142df142d3142d2142d9142d1142cc142cb142ca142c0142bf142be142bd142bb142ba142b9142b8142b6142b5142b0142af142ad142a8)
  (.lf
  0x1540d180b316fd216fd01663715c6617987167f3167f11607415b171895e178491784716fd31663e183a81711e1711c167f4165c31912518154181521784a16fd818b0d17984179821711f16f211997d18962189601815517850193ce183ac183aa179851769e1a43f1921a19218189631815b19cf618b1318b11183ad17f851ab5319b6b19b691921b1896a1a564193d5193d318b14188051b5891a3f21a3f0))
  (.nd (.lf
  0x238b0238a02389023870238602385023840238202381023800237f0237d0237c0237b0237a02378023770237602375023730237202371023700236e0236d0236c0236b02369023680236702366023640236302362023610235f0235e0235d0235c0235a02359023580235702355023540235302352023500234f0234e0234d0234b0234a02349023480234602345023440234302341023400233f0233e0233c)
  (.lf 0)))

def shaXorOrder195 : BTree :=
  .nd (.nd (.nd (.lf
  0xb16f0b16e0b1440b1420b1410b1330b1310b1300b0f80b0f60b0f50b0bd0b0bb0b0ba0b0ac0b0aa0b0a90b08d0b08b0b08a0b07c0b07a0b0790b9ef0b9ed0b9ec0b9d00b9ce0b9cd0b9270b9250b9240b9080b9060b9050b8ea0b8e80b8e70b8cc0b8ca0b8c90b8ae0b8ac0b8ab0b85a0b8580b8570b8210b81f0b81e0b7b00b7ae0b7ad0b7770b7750b7740b73e0b73c0b73b0c2440c2420c2410c20b0c209)
  (.lf
  0x171b516358159e9152791510a171a416359159d81527b150fd17191163441599415215150ed171821633c15995151ff150d81717f1633215996151ed14fdc1717a1632815997151dc14fdd1714316329159981525f151cb171391631615999151b5170ba1631a15877151a7170ac160af158781519617b9a16dcc1640a15d2715ce215cdd17b9516dad1640e15d2915ce315cde17b9016d9b163fd15d2b15ce4))
  (.nd (.lf
  0xbdb00bdaf0c2650c25a0c24b0c23d0c22e0c2210c2120c2040c1f50c1e80c1d80c1cc0c1b80c1ac0c1980c18c0c1780c16c0c1580c14a0c1360c1270c1130c1060c0f20c0e60c0d20c0c60c0b20c0a40c0900c0810c06d0c05e0c04a0c03d0c0290c01d0c0090bffd0bfe90bfdb0bfc70bfb80bfa40bf970bf830bf770bf630bf550bf410bf320bf1e0bf110befd0beef0bedd0bece0beba0bead0c2620c260)
  (.lf 0))) (.nd (.nd (.lf
  0xed400ed300eb700eb600eb400eb300e9800e9700e9500e9400e7400e7300e7100e7000e5400e5300e5100e5000e3500e3400e3200e3100e1200e1100e0f00e0e00dee00ded00deb00dea00dcf00dce00dcc00dcb00dac00dab00da900da800d8900d8800d8600d8500d6500d6400d6200d6100d4600d4500d4300d4200d2200d2100d1f00d1e00d0200d0100cff00cfe00ce200ce100cdf00cde00cc300cc2)
  (.lf
  0xe1250d2d50d2a30caf30c42f0c3900e1130e0fd0d2d60d2a40cae20c4190c3860e0f40e0df0d2d70d2a50cae30c4030c37c0e0d40e0b80d2d80d2a60cae40c4810c3f20e0b20e09c0d2d90d2a70cae50c3e50e0910e0720d2da0d2a80cae60c48c0e06b0e0550d2db0d2a90cae70c48e0e0460e02b0d2060d1fc0cae80c4900e0250e00e0d2070d1fd0cae90c4610dfff0dfe50d2080d1fe0caea0c4a20dfde))
  (.nd (.lf
  0x1600e1600b16004160031600015ff915ff815ff515fee15fed15fea15fe315fe215fdf15fd815fd715fd415fcd15fcc15fc915fc215fc115fbe15fb715fb615fb315fac15fab15fa815fa115fa015f9d15f9615f9515f9215f8b15f8a15f8715f8015f7f15f7c15f7515f7415f7115f6a15f6915f6615f5f15f5e15f5b15f5415f5315f5015f4915f4815f4515f3e15f3d15f3a15f3315f3215f2f15f2815f27)
  (.lf 0)))

def shaXorOrder196 : BTree :=
  .nd (.nd (.nd (.lf
  0xa9fa0a9f80b1f30b1f10b1c30b1c10b1600b15e0b1520b1500b1220b1200b1140b1120b1060b1040b0e70b0e50b0d90b0d70b0cb0b0c90b09b0b0990ba270ba250ba0b0ba090b9b10b9af0b9950b9930b9790b9770b95e0b95c0b9430b9410b8900b88e0b8750b8730b83c0b83a0b8020b8000b7e60b7e40b7cb0b7c90b7920b7900b7590b7570b71c0b71a0c25f0c25d0c2260c2240c1ed0c1eb0c1d10c1cf)
  (.lf
  0x7de707dbc07dbb07db907db807d8b07d8a07d8807d8707d5b07d5a07d5807d5707d2c07d2b07d2907d2807cff07cfe07cfc07cfb07cd107cd007cce07ccd07ca007c9f07c9d07c9c07c760ba360ba330ba1e0ba1d0ba1a0ba020ba010b9fe0b9e40b9e30b9e00b9c50b9c40b9c10b9a80b9a70b9a40b98c0b98b0b9880b9700b96f0b96c0b9550b9540b9510b93a0b9390b9360b91c0b91b0b9180b8fd0b8fc))
  (.nd (.lf
  0x18c7318c4f18c4e18c4718c4618c3718c3218c3018c2f18bdb18bdd18bda18bd818b4318b4518b4218b4018b2518b2418b2218b2118b1f18a9018a8e18a8c18a8b18a8a18a8818a8718a8618a8518a8318a8218a8118a8018a7d18a7c18a7b18a7a18a7818a7718a7618a7518a7318a7218a7118a7e18a7018a6e18a6d18a6c18a6a18a6918a6818a6718a6518a6318a6218a6618a6118a5f18a5e18a5d18a5c)
  (.lf
  0x2036f1fb191f9801f87a1f8771f876205b5205b12035a1fb011fa6f1f88a1f87d1f87c206972059c20594203b51fad81f7251f7141f71320587205771fd0f1fafa1f7201f71a1f7171f71620554205521fd091faea1f6d41f6c81f6c71f6c620509205071fcc01fb411f56d1f5511f54f1f54e2053b205391fcab1faa21f5631f50a1f5091f50808c6907cd207cca07cc607cc407cbb07cb008c6a07ca107c99)))
  (.nd (.nd (.lf
  0x18e8518e8318e7e18e6e18e6b18e6a18e6918e3218e2f18e2e18e2018e1f18e2418e1e18e1618e1418e1218e1018e0f18e0c18e0b18e6418e0a18e0718e0618d0b18be018b5818b4a18b4918b3118b3018b2619b6719b5819b5719b5619b9c19b5519b5319b5219b5119b4f19b4e19b4119b4019b3e19b3d19b3019b2f19b2d19b2119b2019b1319b1119b1019b0f19b7519b0e19b0c19b0b19b0a19b08199c4)
  (.lf
  0x12c1012bf023e601dce017d5017960129e0129c023e701dcf017d7017970127b01279023e801dd0017d9017980125b01257023e901dd1017db017990123b01237023ea01dd2017dd0121801216023eb01dd3017df011f5011f3023ec01dd4017e1011d2011d002a08023ef01e2a01de201ddd01beb01be902a09023f001e2c01de301dde01bd001bce02a0a023f101e2e01de401ddf01bb601bb202a0b023f2))
  (.nd (.lf
  0x443904432044310442f0441804411044100440e043f6043ef043ee043ec043d3043cc043cb043c9043b0043a9043a8043a60438d0438604385043830436f0436c0429e0429c0429b0429a04299042970429604295042940429204291042900428f0428d0428c0428b0428a04288042870428604285042830428204281042800427e0427d0427c0427b04279042780427704276042740427304272042710426f)
  (.lf 0)))

def shaXorOrder197 : BTree :=
  .nd (.nd (.nd (.lf
  0x1dfbc1dfaa1dfa81dfa61de081de071ddbc1ddba1dd9f1dcf81dcf61dce81e4b21e4ab1e4a81e4a01e49c1e49b1e49a1e4961e4951e4a21e4941e4911e4611e45f1e45d1e4521e44e1e44c1e4441e4421e4401e43a1e4351e4341e4301e42e1e42a1e4291e4271e4251e35f1e32f1e3251e3031e2f91e2f81e2e91e2ce1e2cd1e2c11e2c01e2bd1e2791e26f1e26e1e2571e2501e24d200902008a200882007b)
  (.lf
  0x1e0fb1db441cc0b1cad21bd9c1bd9a1e1151db0e1cc081cabd1bd9d1bd9b1e0d71dafa1cc411cc021bd891bd881e0c41dad91cbfe1caac1be311bd6d1e0bd1dab81cbf51caa61be081bd611e0b61da8c1cbf11ca9e1be3f1bd5c1e0ab1da731cbee1ca871bdf51bd661e0dd1da501cbe81ca811bde81bd471e04f1da331cbe41ca831be321bd481e0341da121cbdf1ca981be091bd491e0251d9f11cbda1ca6c))
  (.nd (.lf
  0xe53f0e53e0e53d0e53b0e53a0e5390e5380e5360e5350e5340e5330e5310e5300e52f0e52e0e52c0e52b0e52a0e5290e5270e5260e5250e5240e5220e5210e5200e51f0e51d0e51c0e51b0e51a0e5180e5170e5160e5150e5130e5120e5110e5100e50e0e50d0e50c0e50b0e5090e5080e5070e5060e5040e5030e5020e5010e4ff0e4fe0e4fc0e8ae0e8aa0e8a90e8a40e8a30e89f0e89e0e8990e8980e7ff)
  (.lf
  0x132de132d30ee3b0ed770c6560c6430b99a0b98f13cf213bb8132f4132df132d40ee360ed790c6580c6440b97e0b97313ce713bba132f6132e0132d50ee310ed7b0c65a0c6450b9630b95813cdc13bbc132f8132e1132d60ee2c0ed7d0c65c0c6460b9480b93d13cd113bbe132fa132e2132d70ee270ed950c65e0c6470b92c0b91f13cc613bc0132fc132e3132d80ee220ed970c6600c6480b90e0b90013cbb)))
  (.nd (.nd (.lf
  0x44e5044e3044ce044c5044c3044a6044a4044a30448b0448204480044630446104460044400443e0443d044250441c0441a043fd043fb043fa043da043d8043d7043b7043b5043b404394043920439104375043730437204d7504d7304d7204d5304d5204d5004d4f04d3404d3304d3104d3004d1004d0f04d0d04d0c04cf104cf004cee04ced04ccd04ccc04cca04cc904cae04cad04cab04caa04c8a04c89)
  (.lf
  0x1261311e7211912118dd118d21396913727126091260711e2411914118de118d313964136e0125881258611e25118e6118df118d41395f136d9125791257611e2611930118e8118d513953136e2125651256111e27118ea118e0139471369a125661256211de911931118e113944136951254f1254d11ddd11cfe118ec1392d13679125181251411dc4118ee118e2139291365a125191251511dae11cff118e3))
  (.nd (.lf
  0x192ef192ed192ea192e8192e7192e5192e3192e9192e2192df192de18e0418e0118e0218e0018dfd18dfc18df918df818e0318df718df518df318df118def18dee18deb18de919e5319e4f19e4e19e4c19e4619e4519e4419e4119e3f19e4819e3e19e3b19e3a19e3719e3619e3519e3219e3119e5819e3019e2d19e2c19e2819e2719e2619e2419e2219e2019e1d19e1b19e1a19e1719e1419e1319e1019e0f)
  (.lf 0)))

def shaXorOrder198 : BTree :=
  .nd (.nd (.nd (.lf
  0xa01509b650a4f30a4d70ace70aceb0b2330b2360ba400b6d20c2bc0c2990ca7e0ca5f0d1f90d42d0d9be0d63a0e4160df720ebf20e8550f9ad0f8db102f70fc9110b8e1066c110f310af11179e114c211e571199c125f8122f21307a12bcd1385a134871410b13d6e14898146391531a14f0815bf9157c7162c11606e16dbf167eb178451711b18150179801895d183a91912418b0f19b00193d21a3ee19cf0)
  (.lf
  0x72e2072d0072c50219a07489073d4072e4072d1072c60217a07484073d6072e6072d2072c70215b0747f073d8072e8072d3072c8021370747a073da072ea072d4072c90211807475073dc072ec072d5072ca020f407470073de072ee072d6072cb020d50746b073e0072f0072d7072cc020b107466073e2072f2072d80209207461073e4072f4072d90206f0745c073e6072f6072b70204b07457073e8072f8))
  (.nd (.lf
  0x1316c131691316a1316813166131651316b131641316213161131601315e1315d1315c1315b13159131581315713156131541315313152131511314f1314e1314d1314c1314a12fc212f8812f8712f8512f8412f2912f2812f2612f2412ec913a9a13a9813a9713a9613a9513a9313a9213a9113a9013a8e13a8c13a8b13a8d13a8a13a8813a8713a8613a8413a8313a8213a8113a8013a7e13a7d13a7c13a7a)
  (.lf
  0x14f601c9ff1c92a1c5dc1c59d17e5517d3215543154ff1503714ee41c9f91c92c1c5de1c59f17e4f17d3415545155011502e14f5f1c9ef1c92e1c5e01c5a117e4917d3615547155031501a14ee51c9ec1c9301c5e21c5a317e4617d38155491550514ff914f5e1c9e61c9321c5e41c5a417e4117d3a1554b1550714ff114ee61c9e21c9341c5e61c5a517e3c17d3c1554d1550914fed14f5d1c9d91c9361c5e8)))
  (.nd (.nd (.lf
  0xe95e0e9610e95d0e95b0e9370e9490e9360e9340e92e0e92d0e92b0e92a0e9110e91a0e9100e90e0e9000e9070e8ff0e8fd0e8f10e8f00e8ee0e8e90e8940e8930e8910e88c0e88b0e88a0e8880e8830e8820e8810e87f0e87a0e8790e8780e8760e8710e8700e86f0e86d0e8680e8670e8660e8640e85b0e8540ebe10ebdf0ebda0eb550eb530eb510eb500eb4e0eb4c0eb4b0eb490eb470eb460eb440eb42)
  (.lf
  0x1da571bcc11bc481eff21eec91e4c51e4bd1da411bcb21bc361eec51eb041e4d01e4c11da1e1bd161bc291eb4f1eaf81e0681e0651da051bc9b1bc201eb3b1eaf41e0091e0071d9d61bcf81bc8d1eb2c1eafb1dffb1dff91d9b01bc831eae71eadb1dff41dff21d9bd1bd231eadc1ead31dfec1dfea1d9a71bd041eac41e9a01deb61deb41d9941bcea1e9a11e9991ddb71ddb51d99c1bd781e98f1e95e1dd72))
  (.nd (.lf
  0x53c0053500534005320052c0052500524005220051d0051600515005130050d005060050500503004fe004f7004f6004f4004f0004e9004e8004e6004e2004db004da004d8004d2004cb004ca004c8004c3004bc004bb004b9004b3004ac004ab004a9004a40049d0049c0049a004960048f0048e0048c0048800481004800047e0047800471004700046e0046900462004610045f0045900452004510044f)
  (.lf 0)))

def shaXorOrder199 : BTree :=
  .nd (.nd (.nd (.lf
  0x7f860830607f260830507ec80830407e690830307e0b0830207dae0830107d4d0830007cf1082ff07c9208869087700886808771088670877208866087730886508774088640877508863087760886208777088610877808860087790885f0885e0885d0885c0885b0885a08859088580885708856090dc090bc0909a0907809054090f90919d0919e0919f0919c08f7d08f5b08f3908f1708ef508ed108eac)
  (.lf
  0xe4fa0e4b0108b80fbd20eb950e4bc0e4b1108b10fbd30eb960e4be0e4b2108a70fbd40ead40e4c00e4b3108a20fbd50ead50e4c20e4b41089d0fbd60ead60e4c40e4b5108990fbd70ead70e4c60e4b6108940fbd80ead80e4c80e4b71088f0fbd90ead90e4ca0e4b8108890fbda0eada0e4cc0e4b9108850fbdb0ea1a0e4ce0e4ba107ef0fbdc0ea1b0e4d00e4bb107eb0fbdd0ea1c0e4d20e152107ce0fbde))
  (.nd (.lf
  0x9c2009c1109bf709bea09bd009bc209ba809b9909b7f09b7009ff809ff609ff209fd309fd209fd009fca09fab09faa09fa809fa309f8409f8309f8109f7b09f5c09f5b09f5909f5209f3309f3209f3009f2b09f0c09f0b09f0909f0309ee409ee309ee109eda09ebb09eba09eb809eb109e9209e9109e8f09e8809e6909e6809e6609e6109e4209e4109e3f09e3909e1a09e1909e1709e1209df309df209df0)
  (.lf 0))) (.nd (.nd (.lf
  0x1da151da0f1d9f61d9f41d9e61d9e31d9ca1d9c71d9c61d9c51d9c21d9c11d9c01d9be1d98c1d9961d98b1d9831d9821d9811d9271d9291d9261d8fd1d8fc1d8fb1d8de1d8dd1d8db1d8da1d8d81d8d51ccd61f2df1f2dd1f2dc1f2d31f2d51f2d21f2cf1f2cb1f38a1f2ca1f2c71f2681f2671f2621f2601f25f1f2641f25e1f25c1f25b1f25a1f2581f2571f2561f2661f2551f2521f2511f2501f24e1f24d)
  (.lf
  0x88740831b06457096200961e0886d0886b08312064590a2740a1b3092d6092cb089620846e0842e084230a26f0a1b2092d8092cc08963084700842f084240a26a0a1b1092d9092cd089640847208430084250a2640a1b0092da092ce089650847408431084260a25e0a1af092a3092a1089660847608432084270a25a0a1ae0924b09233089670847808433084280a2570a1ad0924c09234089680847a08434))
  (.nd (.lf
  0x121bd121b5121b4121b1121aa121a9121a61219f1219e1219b12194121931219012189122ce122cc122cb122c4122c3122c1122c0122b9122b8122b6122b5122ae122ad122ab122aa122a3122a2122a01229f122981229712295122941228d1228c1228a1228912282122811227f1227e122771227612274122731226c1226b122691226812261122601225e1225d122561225512253122521224b1224a12248)
  (.lf 0)))

def shaXorOrder200 : BTree :=
  .nd (.nd (.nd (.lf
  0x1dfaf1dfab1dd5f1dd5d1e4901e47e1e47d1e47b1e47a1e4781e45b1e4591e44b1e4491e4481e4451e43e1e43b1e4331e4311e4241e41a1e4151e4121e4111e3601e2f71e2ea1e2bc1e2af1eb991eb961eb951eb921eb911eb8f1eb8e1eb8b1eb841eb811eb801eb7d1eb6f1eb6d1eb6c1eb6a1eb221eb1f1eb1e1eb1b1eb1a1eb181eb171eb141eaf61eaf31eaf21eaf01eaef1eae61eae51ead61ead51eac3)
  (.lf
  0x7776077750777407771077700776f0776c0776b0776a0776707766077650776207761077600775d0775c0775b0775807757077560775307752077510774e0774d0774c0774907748077470774407743077420773f0773e0773d0773a0773907738077350773407733077300772f0772e0772b0772a0772907726077250772407721077200771f0771c0771b0771a0771707716077150771207711077100770d))
  (.nd (.lf
  0x1a4901a48f1a48e1a48c1a48b1a48a1a4961a4891a4871a4861a4851a4831a4821a4811a4801a47f1a47d1a47c1a47b1a4791a4781a4771a4b91a4761a4741a4731a4721a4701a46f1a46e1a46d1a46b1a46a1a4691a4681a4661a4651a4641a4631a4611a4601a45f1a45e1a45c1a45b1a45a1a4591a4571a4561a4551a4541a4521a4511a4501a44f1a44d1a44c1a3e51a3e61a3e41a3e21a3a31a3a21a3a0)
  (.lf
  0x16280105f010530269f0267901c4c01c0c016290106101054026740265501c4d01c0d0162a01063010550265c0263501c4e01c0e0162b01065010560263c0261501c4f01c0f0162c01067010570261c025f601c5001c100162d0106901058025f1025d201c5101c110162e0106b01039025d9025b201c5201c120162f0106d0103a025b90259201c5301c13016300106f0103b025990257301c5401c1401631)))
  (.nd (.nd (.lf
  0x1bd8f1bd8d1bd8c1bd821bd811bd801bd691bd681bd671bd5d1bd561bd581bd541bd511bd621bd501bd4e1bd4c1bd461bd3b1bd3c1bd3a1bd371bd361bd341bd331bd311bd2f1bd2a1bd281bbdf1bbde1bbdd1bbdb1bbd71bbe51bbd51bbd31bbd11bbc81bbc41bbca1bbc31bbc11bbbf1bbba1bbb81b8c11b8bd1b8ba1b8b51b8b01b8af1b8a51b89b1b8981b88f1b88b1b8881ddc61dd921dd831dd341dd37)
  (.lf
  0x430c043070411004f2904911043560430d04308040f204f2a04912043580430e04309040d304f2b049130435a0430f0430a040af04f2c049140435c043100430b0408f04f2d049150435e043110407004f2e0491604320043120404c04f2f0491704322043130402d04f300491804324043140400904f3104919043260431503fe904f320491a043280431603fc904f330491b0432a0431703fa904f340491c))
  (.nd (.lf
  0x569f05694056930569105690056840568305681056800567305672056700566f05662056610565f0565e05651056500564e0564d05641056400563e0563d056300562f0562d0562c056200561f0561d0561c0560f0560e0560c0560b055fd055fc055fa055f9055ed055ec055ea055e9055df055de055dc055db055d1055d0055ce055cd055c1055c0055be055bd055b0055af055ad055ac0559f0559e0559c)
  (.lf 0)))

def shaXorOrder201 : BTree :=
  .nd (.nd (.nd (.lf
  0xd53c0d53e0dce00dce20dce40dce60dce80dcea0dcec0dcee0dcf00dcf20dcf40dcf60dcf80dcfa0dcfc0dcfe0dd000dd020dd040dd060dd080dd0a0dd0c0dd0e0dd100dd120dd140dd160dd180dd1a0e4bf0e4c10e4c30e4c50e4c70e4c90e4cb0e4cd0e4cf0e4d10e4d30e4d50e4d70e4d90e4db0e4dd0e4df0e4e10e4e30e4e50e4e70e4e90e4eb0e4ed0e4ef0e4f10e4f30e4f50e4f70e4f90ec630ec65)
  (.lf
  0x151600a0a007da20c5620c0301511014f200a0b007db20c9c20a88014f9014d300a0c007dc20a7220914014ce014b000a0d007dd20911208c5014ab0148d00a0e007de2090c208d6014880146900a0f007df20908208ea014700144900a10007e02090220897014500142900a11007e1208fd20869014300140900a12007e2208f9207f701410013e900a13007e3208f3207ac013f0013c900a14007e4208ef))
  (.nd (.lf
  0xfe010fdf40fdf50fdf30fdf10fdf00fdef0fded0fdec0fde80fde70fdd20fdd00fdcf0fdce0fdcc0fdcb0fdb40fdb30fd9d0fd9c0fd9b0fd9a0fd980fd970fd800fd7f0fd7d0fd670fd660fd650fd630fd5e0fd4d0fd4c0fd370fd350fcf90fce40fcdf0fcdd0fcdc0fcdb0fcd90fcc60fcab0fcaa0fca80fc960fc93102f8102f5102f3102f2102f1102ef102ee102ec102fa102eb102e9102e8102e7102e5)
  (.lf
  0xd7b715f9e15f0015634155f31128b112380e5e40e5a00d7a70d79c15f9315f0215636155f4112861123a0e5e60e5a20d78c0d77f15f8815f0415638155f5112811123c0e5e80e5a40d76f0d763168a11678b15ee115ed215ec70f4b40f3170ed960ed880ed860e1b40df8b168981678d15ee315ed315ec80f4aa0f3190ed980ed890ed870e1b00df8a16895167ac15ee515ed415ec90f49f0f31b0ed9a0ed8a)))
  (.nd (.nd (.lf
  0x62c3062c1062be062bd062c9062bc062b9062b8062b7062b4062b3062b0062af062ae062ab062aa062a9062a7062a4062a3062a1062a00629e0629c0629b062a60629906297062950629406291062900628d0628c0628b0628806287062860628406281062800627e0627d0627b062790627806283062760627406272062710626e0626d0626a0625f0625e0625b062500624f0624d0605c083b5083b3083b2)
  (.lf
  0x143a6163d7162a1153fa153f814965143931438e1438d163d11629e1546b1546914971143731436514362163ce1629a153e6153e41497d143741436614363163c816293153d5153d314949143761436714364163c41628e15406154041493c1433f1433a14339163be16256153c3153c11492c1432d1432a14329163b91624e153b7153b51491d1431f1431e1431d163b516248153aa153a81490d143d214313))
  (.nd (.lf
  0x1b9321b9311b9301b92e1b8fb1b8f91b8fc1b8f81b8f61b8f31b8f51b8f21b8f01b8ef1b8ee1b8ec1b8eb1b8ea1b8e91b8e71b8e61b8e51b8e41b8e21b8e11b8e01b8df1b8dd1b8dc1b8db1b8da1b8d81b8d61b8d51b8ff1b8d41b8d21b8d11b8d01b8ce1b8cc1b8c71b8c61b8331b8321b8311b8301b82e1b82c1b82b1b82a1b8281b8271b8261b8251b8231b81f1b81e1b8201b81d1b81a1b8191b8181b816)
  (.lf 0)))

def shaXorOrder202 : BTree :=
  .nd (.nd (.nd (.lf
  0xeba60eba50eba40eba30eade0eadd0ec020ebde0eba20eba10eba00eb9f0eb9e0eb9d0eb9c0ec000ebe60eb9b0eb9a0eb990eb980eb970eb810eb800fb600fb620fb640fb660fb680fb6a0fb6c0fb6e0fc050fb710fb730fb750fb770fb790fb7b0fb7d0fb7f0fb810fb830fb850fb870fb890fb8b0fb8d0fb9e0fb900fb920fb940fb960fb981033c1033b1033a1033910338102d6102d5102d41028710286)
  (.lf
  0x1cbec1caf31ca8a1cbe91cae71ca8c1cbe21cadb1ca8d1cbde1cacc1ca8f1cbdb1cac01ca911cbd51cab51ca921dd421ce291ce1e1ce1c1dce11ce2b1ce1f1ce1d1dc8a1ce2d1ce201dc671ce2f1ce211dbf51ce311ce221dbb31ce331ce231dba31ce351ce241db671ce371ce251db4c1ce391ce261db171ce3b1cddf1db031ce3d1cde01dae11ce3f1cde11dabd1ce411cddd1da951ce421cd741da771ce44))
  (.nd (.lf
  0x1503b1503115030150261501e1501c1501814ff714ff614ff314ff014feb14fea14fe514ffa14fe414fe014fb014fb214faf14fab14fa614fb414fa514fa114f7114f6e14f6414f6314ef914f2714ef714ef314ef1150d0150ce150cc150cb150ca150c8150c7150b6150b5150b4150b2150aa150a9150a7150a6150a5150a4150a2150a1150a01509f1509d1509c1509a150991509715096150951509415092)
  (.lf
  0x1a8fc1a6ef17d3317d2117b8617b561d6bd1d5ee1d4461d4321d4271a8f81a6f117d3517d2217b8017b421d6b91d5f01d4481d4331d4281a8f41a6f317d3717d2317b7d17b221d6b11d5f21d44a1d4341d4291a8ed1a6f517d3917d2417b7817b1a1d6ac1d5f41d44c1d4351d42a1a8ea1a6f717d3b17d2517b7217b131d6a61d5f61d44e1d4361d42b1a8331a74a17d3d17d2617b6f17b0d1d6a01d5f81d450)))
  (.nd (.nd (.lf
  0x118371183611835118341183211831118301182f1182d1182c1182b1182a11828118271182611825118231182211821118201181e1181d1181c1181b11819118181181711816118141181311812118111180f1180e1180d1180c1180a11809118081192911807118051180411803118011166b1162e1163011625116231160811cf8116071160511604116101160211600115db115df115d8115d61156f11570)
  (.lf
  0x20399203961f3531f18c20b3820b322041a2038c1f33b1f17c20b2e20b2520385203821f3c61f32320b2720ac82037b203771f3eb20abf20aa720373203711f3c920aa120a5e2053c2036d1f3bd20a58209d22035e2035c1f3aa209cd209c2203be203b61f629209bc209ba1fd201fd1e1f3d2209b6209a51fd421fd031f374209a6208781fcbf1fcbd1f35e208772086f1fca91fca61f35120f4c01bf800ff9))
  (.nd (.lf
  0x10c8010c7010c6010c4010c3010c2010c1010bf010be010bd010bc010ba010b9010b8010b7010b5010b4010b3010b2010b0010af010ae010ad010ab010aa010a9010a8010a6010a5010a4010a3010a1010a00109f0109e0109c0109b0109a01889018870188601885018840188201881018800187f0187d0187c0187b0187a01878018770187601875018730187201871018700186e0186d0186c0186b01869)
  (.lf 0)))

def shaXorOrder203 : BTree :=
  .nd (.nd (.nd (.lf
  0x1989119882197f91953a19520194fa194dd19799194a6194321941d194041945a1a3bf1a3571a32a1a3081a2e21a2d41a2251a25a1a21a1a2351a2021a1e51a1ca1a1b51a1701a1661a11e1a1031a0d71a0b31a09e19ebc19e8019e6719dc419da919d9319d7b19d2d19d031ab501ab581ab2d1aa911aa8b1aa851aa7f1aa7b1aa971aa5d1aa4a1aa3b1aa2f1aa1a1a9fe1a9f81aa181a9d91a9d81a9ba1a9d2)
  (.lf
  0x1234411a83119831349f1232111a841198513fc2130911290012088120791203413fbd13093129011207b120391203513fb812fe9129021207d1203a1203613faf12feb129031207f1203b1203713fa912fed12904120811203c1203813fa112fef129051208d1208913f9d12f75128ce1204a1203d13f9512f31128cf1204c1203e13f8f12eea128b71204e1203f13f8612eda128b8120501204013f8112e93))
  (.nd (.lf
  0xa7780a7770a7760a7740a7730a7720a7710a76f0a76e0a76d0a76c0a76a0a7690a7680a7670a7650a7640a7630a7620a7600a75f0a75e0a75d0a75b0a75a0a7590a7580a7560a7550a7540a7530a7510a7500a73d0a73c0a73a0a7390a7260a7250a7230a7220a7100a70f0a70d0a70c0a6fa0a6f90a6f70a6f60a6e40a6e30a6e10a6e00a6ce0a6cd0a6cb0a6ca0a6b80a6b70a6b50a6b40a6a20a6a10a69f)
  (.lf 0))) (.nd (.nd (.lf
  0x1ff371ff351ff341ff331ff311ff301ff2f1ff2e1fbbb1fbba1fbb91fbb81fbb61fbb51fbb41fbb31fbb11fbb01fbaf1fbae1fbad1fbab1fbaa1fba91fba71fba61fba51fba41fba11fba01fb9f1fb9e1fb9c1fb9b1fb9a1fb991fb971fb961fb951fba31fb941fb921fb911fb901fb8e1fb8d1fb8c1fb8b1fb891fb881fb871fb861fb851fb831fb821fb811fb7f1fb7e1fb7d1fb7c1fb791fb731fb721fb71)
  (.lf
  0xad590a58e0a0d30bae00ba7d0ad690ad670a58f0a0d50baef0ba780ad210ad1f0a5900a0d70baea0ba730ad100ad080a5910a0d90bad70ba700ad110ad090a5920a0db0ba6c0ba450ad120ad0a0a5930a0dd0ba680ba620ad130ad0b0a5940a0df0ba610ba5e0acf20acee0a5950a0e10c2930c2660b4a10b4990ae0d0a7370a7320a7310c28e0c24d0b4a30b49a0ae0e0a7200a71b0a71a0c2890c2300b4a4))
  (.nd (.lf
  0x13c0513bfe13bfd13bfb13bfa13bf313bf213bf013bef13bec13b8a13b8713b8613b8513b8213b8113b8013b7d13b7c13b7b13b7813b7713b7613b7313b7213b7113b6e13b6d13b6c13b6913b6813b6713b6413b6313b6213b5f13b5e13b5d13b5a13b5913b5813b5513b5413b5313b5013b4f13b4e13b4b13b4a13b4913b4613b4513b4413b4113b4013b3f13b3c13b3b13b3a13b3713b3613b3513b3213b31)
  (.lf 0)))

def shaXorOrder204 : BTree :=
  .nd (.nd (.nd (.lf
  0x19dff19dfc19e5719dec19de719df019ddc19cc419cbe19cb919ca019c9f19ca119c8e19c8d19ca31a73d1a6661a65e1a6671a65c1a6691a6461a63f1a64d1a64f1a62f1a6df1a6231a6311a5f81a66a1a5fe1a6dc1a5e21a5e91a66c1a5d01a5ca1a6e21a6001a5d11a5d21a7ad1a57b1a56a1aee41aed41aedd1aede1aecb1aecd1aebd1aeb31aeea1aed71aead1aedc1aeda1ae941ae8f1aedb1ae851ae7d)
  (.lf
  0x6f7f06f7e06f7b06f7a06f7906f7606f7506f7406f7106f7006f6f06f6c06f6b06f6a06f6706f6606f6506f6206f6106f6006f5d06f5c06f5b06f5806f5706f5606f5306f5206f5106f4e06f4d06f4c06f4906f480a0080a00609fee09fe709fe609fe409fc609fbf09fbe09fbc09f9f09f9809f9709f9509f7709f7009f6f09f6d09f4e09f4709f4609f4409f2709f2009f1f09f1d09eff09ef809ef709ef5))
  (.nd (.lf
  0x1782517824178231782117820177fb177fa177f8177f7177db177da177d8177d717795177941779217791177901778f1778d1778c17721177201771e1771c1771b17b9c17b9817b9717b9317b9217b8e17b8d17b8917ba117b8817b8417b8117ba217b7f17b7b17b7717b7617b7517b7117b6c17b6b17b6817e9c17b6617b6217b5e17ba417b5d17b5917b4e17b5117b4d17ae417ae117ad817ad417acc17ac9)
  (.lf
  0x193af13e7f13e5d11c2011521114bc19c9419c76193b113e7a13e5f11c2111515114bd19c8b19c78193b313e7513e6111c221150b114a01a5ce1a54019c7114cbf14c810ff6e0fdc30f4c31a5cb1a54219c7314cba14c830ff670fdfa0f4c41a5c51a54419c7514cb514c850ff640fd8f0f4c51a5bf1a54619c7714cb014c870ff5e0fd730f4c61a5b41a54819c7914cab14c890ff5a0fd570f4c71a5af1a54a)))
  (.nd (.nd (.lf
  0x163141631816312163101630e160ad160a416fc516fc316fc216fb816fb716f6a16f6916f6816f6716f6516f5b16f5a16f5116f4e16f4d16f4c16f4b16f4916f3016f2f16f8f16f2e16f2c16f2b16f7c16f2a16f2816f2716f2616f2416f2316f1916f0416f0216efd16efc16efb16ef916ef816ef716f0516ef616ef416ef316ef216ef016eeb16eea16ee916ee316ee116ee016edf16edd16ed716ed616ed5)
  (.lf
  0x76d80769506a3a069f5038500383007808077ca076da06a35069f70382b0380c07803077cc076dc06a30069f90380d037ed077fe077ce076de06a2b069fb037e8037c9077f9077d0076e006a26069fd037ca037a9077f4077d2076e206a21069ff037aa0378a077ef077d4076e406a1c06a01037850376b077ea077d6076e606a1706a03037660374d0a00a09b080796607878077a5077960778b04113040f5))
  (.nd (.lf
  0x3816037f9037f8037f6037f5037d7037d6037d4037d3037b6037b5037b3037b2037960379503793037920377403773037710377003756037550375303752037390373803736037350371c02222022200220302200021e0021dd021bd021ba0219c021990217c021790215a0215702139021360211702114020f6020f3020d4020d1020b3020b0020910208e0206e0206b0204d0204a0202b020280200802005)
  (.lf 0)))

def shaXorOrder205 : BTree :=
  .nd (.nd (.nd (.lf
  0x56b8056aa056a8056a70568b05689056880567a0567805677056690566705666056580565605655056380563605634056170561505613056050560305601055c8055c6055c5055b7055b5055b4055a6055a4055a305595055930559205584055820558105573055710557005c8505c8305c8105c7305c7105c6f05c5205c5005c4f05c4105c3f05c3e05c3005c2e05c2d05c1f05c1d05c1c05c0005bfe05bfd)
  (.lf
  0x197e718e7218911186dc1a8691a617197e018e35188c2186481a8461a61d197d618e23188aa185c01a9161a841197ce18e2718870185a61a83d1a60c1979f18e1c188451859c1a83a1a60f1949c18e1d188471859d1a7b81a5d41945518e6718997187e11a7b51a5a11944918bf9187d81a59e1a57d1944118b4d187e91a5801a562193ee18b37187791b4d01b11b1a3d719a4c1914319138191361b4c71b115))
  (.nd (.lf
  0xcc890cc880cc870cc850cc840cc830cc820cc800cc7f0cc7e0cc7d0cc7b0cc7a0cc790cc780cc760cc750cc740cc730cc710cc700cc6f0cc6e0cc6c0cc6b0cc6a0cc690cc670cc660cc650cc640cc620cc610cc600cc5f0cc5d0cc5c0cc5b0cc5a0cc580cc570cc560cc550cc530cc520cc510cc500cc4e0cc4d0cc4c0cc4b0cc490cc480cc470cc460cc440cc430cc420cc410cc3f0cc3e0cc3d0cc3c0cc3a)
  (.lf
  0x6d1006d0e113f7113250c88e0c65507acb07a9d06e4406e0006cff06cfd113ec113270c86b0c65707acc07a9e06e4606e0206cee06cec113e1113290c84a0c65907acd07a9f06e4806e0406cdd06cdb113d61132b0c82a0c65b07ace07aa006e4a06e0606ccc06cca113cb1132d0c8080c65d07acf07aa106e4c06e0806cbb06cb9113c01132f0c7e70c65f07ad007aa206e4e06e0a06caa06ca8113b511331)))
  (.nd (.nd (.lf
  0x24cb024c2024c0024ab024a2024a00248b024820248002e7e02e7c02e7b02e6002e5f02e5d02e5c02e4102e4002e3e02e3d02e1d02e1c02e1a02e1902dfd02dfc02dfa02df902dde02ddd02ddb02dda02dba02db902db702db602d9a02d9902d9702d9602d7a02d7902d7702d7602d5b02d5a02d5802d5702d3802d3702d3502d3402d1502d1402d1202d1102cf202cf102cef02cee02ccf02cce02ccc02ccb)
  (.lf
  0x10e7910e3a10251102390fb2d0ebd20eabd10e3510e1a102521023a0fb2e0eb6b0eabe10e1310e02102531023b0fb2f0eb6c0eabf10df010de0102541023c0fb300eb6d0ea0f10ddd10dac102551023d0fb310eb6e0ea1010da710d84102561023e0fb320eb6f0ea1110d7f10d651001d100190fb330eb700ea0e10d5f10d521001e1001a0fb340eb710e94e10d4f10d350fde50fde30fb350ebf80eac210d40))
  (.nd (.lf
  0x17af417af317b4a17af217af017aef17aee17ae617ade17add17adc17ada17ad217ad117ad017ace17ac617ac517ac417ac217ac117aac17aad17aab17aa917aa817aa717aa517aa417aa317aa217aa117a9f17a9e17a9d17a9b17a0517a0117a00179f7179f5179d3179d2179d0179cf179cd179e0179cc179ca179c9179c8179c6179c5179bb179ba179b8179b7179a9179ac179a8179a6179791746b17468)
  (.lf 0)))

def shaXorOrder206 : BTree :=
  .nd (.nd (.nd (.lf
  0x108bb108b3108a9108ab108e2108ac108ad1088e108e510866107f2107d3107cb107b9107bb1071d1070610759106f8106e3106e4106c7106a61066e1107610f211101810f1a10f1910f1810f0810efd10ef710ec110e9d10e6210e4c10e2f10e0b10dca10dc410d9e10d2e10d2410d1210d1810ced10cc510c6010c5a10c6310b4f10ade10ad4115c3115c8115c5115c4115c6115b0115cb115ec1159611594)
  (.lf
  0x677700157000d307c3307c1f07c14069590677900152000d207c3507c2007c15069480677b0014d000d107c3707c2107c16069370677d00148000d007c3907c2207c17069260677f00143000cf07c3b07c2307c1806915067810013e000ce07c3d07c2407c19069040678300139000cd07c3f07c25068f30678500134000cc07c4107c26068e2067870012f000cb07c4307c04068d1067890012a000ca07c45))
  (.nd (.lf
  0x125a8125a7125a6125a4125a3125a1125a01259e1259d1259c1259b125991259812597125c6125961259412593125921253712536125341253312531125301252f1252e1252c1252a12529125281248912487124861253a124851248312482124811247f1247e1247d1247c1247a12479124781247712475124741247312472124701246f1246e1246d1246b1246a1245d1245e1245c1245a124571245812456)
  (.lf
  0x1305012bb01b7f81b6961adea1adda1adcf15eb315dd3131af131a01319e1304612bb31b7f51b6b51adec1addb1add015eae15dd5131b1131a112f4d12bb71b7ef1b6b71adee1addc1add115ea915dd7131b3131a212f4812bb61b7eb1b6b91adf01addd1add215ea415dd9131b5131a312f4212bad1b7e51b6bb1adf21adde1add315e9f15ddb131b7131a412f3e12bc41b7df1b6bd1adf41addf1add415e9a)))
  (.nd (.nd (.lf
  0xc2f00c2ef0c2ea0c2e90c2e70c2e60c2e10c2e00c2de0c2dd0c2d80c2d70c2d50c2d40c2cf0c2ce0c2cc0c2cb0c2c60c2c50c2c30c2c20c2bd0c2960c2940c2920c2910c28f0c28d0c28c0c28a0c2880c2870c2850c2830c2820c2800c27e0c27d0c27b0c1db0c1be0c1bc0c1bb0c19e0c19c0c19b0c17e0c17c0c17b0c15e0c15c0c15b0c13c0c13a0c1390c1190c1170c1160c0f80c0f60c0f50c0d80c0d6)
  (.lf
  0x190621b0261afe119e8419e82197b71921f1b0221afd619e7119e6f197ab1920d1b0121afae19dcc19dca197f3191f41b00e1af9319dae19dac194ab191dd1b0081af6719d9719d951947b191bb1b0031af4f19d8619d8419469191aa1af2e1af0c19d3119d2f19471191ac1af051ae3319d0a19d081945f190fd1be0e1bbae1ab811ab7f1a3c419b6119b5e19b5d1bdff1bbb31ab5c1ab5a1a35c19ba519ba2))
  (.nd (.lf
  0x1d25e1d25c1d2581d2571d2561d2541d2521d2501d24c1d24b1d24a1d2481d2461d2441d2401d23f1d23e1d23c1d23a1d2381d2341d2331d2321d2301d22e1d22c1d2251d2241d2231d2211d1fd1d1fb1d1f91d1f61d1ff1d1f51d1f21d1f11d1ef1d1ec1d2011d1eb1d1e81d1e71d1e51d1dd1d3801d37e1d37d1d37c1d37b1d3791d3731d3721d38f1d3711d36f1d36e1d36d1d36b1d3661d3651d3951d364)
  (.lf 0)))

def shaXorOrder207 : BTree :=
  .nd (.nd (.nd (.lf
  0x203d6203d4203d1203cf203cb203ca203c8203c5203c2203c0203ba203bc203b71fd1c1fd181fd171fd081fcc91fcc21fcb61fcaa206cd206cc206ca206c8206c6206c4206c3206c0206bf206be206bb206ba206b9206b8206b6206b4206b3206b1206af206ad206ac206aa206a8206a7206a5206a3206a1206a02069e2069c2069b1fb341fa6e1fa6d1fa6c1fa691fa681fa661fa651fa631fa611fa5d1fa5c)
  (.lf
  0xb0240b00f0c85f0bb350b3620b0260b0100c83e0bb230b3630b0280b0110c81e0bb240b3640b02a0b0120c7fc0bb250b3650b02c0b0130c7db0bb260b3660b02e0b0140c7bb0bb270b3670b0300b0150c7990bb280b32c0b0320aff60c7760bafb0b3200b0340aff70c7530bae80b3370b0360aff80c7300bae30b3310b0380aff90c70d0baf20b3210b03a0affa0c6ec0baed0b3220b03c0affb0c6cc0bada))
  (.nd (.lf
  0x8491084900848f0848d0848c0848b0848a0848808487084860848508483084820848108c4d08c4b08c4a08c4908c4808c4608c4508c4408c4308c4108c4008c3f08c3e08c3c08c3b08c3a08c3908c3708c3608c3508c3408c3208c3108c3008c2f08c2d08c2c08c2b08c2a08c2808c2708c2608c2508c2308c2208c2108c2008c1e08c1d08c1c08c1b08c1908c1808c1708c1608c1408c1308c1208c1108c0f)
  (.lf 0))) (.nd (.nd (.lf
  0x1dbe61dbc71dbc61dbc41dbc01db941db931db911db901db761e40d1e40b1e40a1e4081e4071e4051e4031e4021e4011e3ff1e3fe1e3fc1e3fb1e3f91e3f41e3f31e3f21e3f01e3ee1e3ed1e3ec1e3ea1e3e91e3e81e4651e3e71e3e51e3e41e3de1e3dd1e3db1e3da1e3d91e3cf1e3cd1e3cc1e3cb1e3c91e3c41e3c31e3c21e3ab1e3a81e3a71e3a61e3a41e3a31e3a21e3a11e39f1e39e1e39d1e39c1e39a)
  (.lf
  0x58ed0541b04e6304e2004e15062db06239058e6058e40540504e6504e2104e16062d80623c058dd058db053ef04e6704e2204e17062d406246058d4058d2053d904e6904e2304e18062cf06244058ca058c8053c304e6b04e2404e19062c806237058c1058bf053b204e6d04e2504e1a062c206234058b8058b6053a404e2f04e2604e1b062bf0623e058af058ad0539904e3104e2704e1c062ba06238058a6))
  (.nd (.lf
  0xf1bf0f1bc0f1b50f1b40f1b10f1aa0f1a90f1a60f19f0f19e0f19b0f1940f1930f1900f1890f1880f1850f17e0f17d0f17a0f1730f1720f16f0f1680f1670f1640f15d0f15c0f1590f1520f1510f14e0f1470f1460f1430f13c0f13b0f1380f1310f1300f12d0f1260f1250f1220f11b0f11a0f1170f110090e2090df090c3090c2090bf090a1090a00909d0907f0907e0907b0905b0905a090570903609035)
  (.lf 0)))

def shaXorOrder208 : BTree :=
  .nd (.nd (.nd (.lf
  0x1212712421125c411f97129fd13053130551273f13148137d41383c13859132c113a9b13fc7141081410a138d61429d1472d148941446014c3d150c5150d114a6415316158b115be0154f915dcd162bc162be162c015cd3164f216bdf16d6916dbe166e316e84174021740417811170491791817baa17eda178ca1813d1863e18957181cd18a3518fa2190761912318a8f192db1975f1986d1929219afe19fe9)
  (.lf
  0xdf450df420df3b0df3a0df370df300df2f0df2c0df250df240df210df1a0df190df160df0f0df0e0df0b0df040df030df000def90def80def50deee0deed0deea0dee30dee20dedf0ded80ded70ded40decd0decc0dec90dec20dec10debe0deb70deb60deb30deac0deab0dea80dea10dea00de9d0de960de950de920de8b0de8a0de870de800de7f0de7c0de750de740de710de6a0de690de660de5f0de5e))
  (.nd (.lf
  0x1b3c51b3b71b3b61b0f01b0ef1b0ea1b0e91b0e51b0e31b0df1b1b11b0dd1b0b81b0b61b0a81b0a41b09c1b0991b0901b08e1b0851b07f1b07e1b07b1b0791b0671b0601b05d1b03b1b0381afcf1afca1afc91afc51af9f1af9c1af7f1af7c1af5c1af591af4c1af391af181af141aefe1aef11b4e71b4e11b4df1b4de1b4dd1b4db1b4da1b4d31b4d21b4a91b4a81b4a71b4a61b4961b48d1b4821b4811b47f)
  (.lf
  0x1cbe031490312a028ca0288a022b101cc0031310310b028cb0288b022b201cc203106030e7028cc0288c022b301cc4030ee030d8028cd0288d022b401cc603ada03abb02edb02e9b028d002304022c4022b903ac203a9c02edc02e9c028d102306022c5022ba03a9703a7902edd02e9d028d202308022c6022bb03a7403a5502ede02e9e028d30230a022c7022bc03a5c03a3502edf02e9f028d40230c022c8)))
  (.nd (.nd (.lf
  0x1e7751e76e1e75e1e7641e75d1e75b1e75a1e7591e7571e74f1e74e1e74d1e7461e7451e7441e7431e73c1e73b1e73a1e7391e7371e7321e7311e7301e72e1e7291e7281e7271e7251e7231e71f1e71e1e71c1e7161e7151e7141e7121e70e1e70b1e70a1e7081e7021e7011e7001e6fe1e6a61e6a51e6a41e69b1e6981e6971e69e1e6961e6941e6931e6921e6481e6331e6281e6231e61f1e61e1e61d1e61c)
  (.lf
  0x5a57055130550107fb305fb905a58055150550207f8405fba05a59055170550307f5505fbb05a5a055190550407f2405fbc05a5b0551b0550507ef605fbd05a5c0551d0550607ec605fbe05a5d0551f0550707e9605fbf05a5e055210550807e6705fc005a5f055230550907e3805fc105a60055250550a07e0905fc205a6105527054eb07ddc05fc305a6205529054ec07dac05fc405a630552b054ed07d7c))
  (.nd (.lf
  0x46a00469d046800467d046600465d046400463d0461e0461b045fb045f8045da045d7045ba045b70459a045970457804575045550455204534045310451404511044f4044f1044d4044d1044b2044af044910448e0446f0446c0444c044490442b044280440904406043e6043e3043c3043c0043a00439d043810437e05ca605ca405c9f05c9805c9705c9505c9005c8905c8805c8605c7f05c7805c7705c75)
  (.lf 0)))

def shaXorOrder209 : BTree :=
  .nd (.nd (.nd (.lf
  0x16ddf16db716d9c16d7d16d7716de316dd716db216da116d8316dd916de816db416da516d8516d8716dea16d4416d1c16d0516cf816cd216ba316b9416ddb16ddd16db616da416d8916d8b177e8177cd1775d177671770d1781b177f2177d217781177831781d177f4177d417785177871771417716176f1176df176e8176781764c17640176421781f177f6177d6177891778b17718180a2180301803218034)
  (.lf
  0x1b90f18f4f18dd718d9c1b9a31b91118f3118dd918d9e1b9a01b91318ddb18da018cf81b99b1b91518ddd18da218ceb1b9951b98818ddf18da418ce31b98d1b94518de118da618cde1b98f1b97e18de318da818cc21b97b1b94718de518daa18cb91b9761b94918de718dac18cb51c1d41c08d1975c196c1196bc196ba1c1d01c08f19757196c3196bd196bb1c1c81c09119752196c5196be1c1c31c0931974a))
  (.nd (.lf
  0x1038210381103801037e1037d1037c1037b10379103781037710376103741037310372103b9103711036f1036e1036d1036b1036a10369103681036610365103641036310361103601035f1035e1035c1035a103591035b103581035610355103541035210351103501034f1034d1034c1034b1034a10348103471034610345103431034210341103401033e10334102e4102e3102e1102e0102df102de102dc)
  (.lf
  0x17a7217940170761706417059103ec103db0f8130f77d0f71f0f71d17a6d1794217078170651705a103ee103dc0f80a0f7670f70e0f70c17a68179441707a170661705b103f0103dd0f8040f7630f6fd0f6fb17a63179461707c170671705c103f2103de0f7fe0f76d0f6ec0f6ea17a5e179481707e170681705d103f4103df0f7fb0f7690f6db0f6d917a591794a17080170691705e103f6103e00f7f50f76a)))
  (.nd (.nd (.lf
  0x92240922309221092200921f0921e0921c0921b0921a09219092170921609215092140921209211092100920f0920d0920c0920b0920a0920909207092060920509203092020920109200091fe091fd091fc091fb091f9091f8091f7091f6091f0091ee091ed091ec091ea091e9091ce091cd091cb091ca091c9091c8091c7091c5091c4091c3091c1091c0091bf091be091bc091bb091ba091b9091b7091b6)
  (.lf
  0x165691656715a6a1543115381175c1175b1165571655515a6f153fe15382175a7175971655c1655a15a7a154701536d175a01758a165471654315a56153ea153611757717571165481654415a4e153d915359175611753f165321653015a321540b1534c17539175321652916527159df1545e153cf175431751b1653816536159d1153bc175161750f165201651e159ba1546117503174e81650e1650c159b0))
  (.nd (.lf
  0x1c3711c3701c36d1c36c1c36a1c3651c3631c3661c3621c35f1c35e1c35c1c3581c3571c3551c3541c3521c34f1c34d1c34c1c3491c3471c3461c3421c3411c33f1c33d1c33b1c33a1c3341c3331c3361c3321c32f1c32e1c32c1c32a1c3281c3241c3221c3211c31d1c31c1c31a1c3161c3151c3131c3111c30f1c3191c30e1c30b1c30a1c3041c3031c3021c2ff1c2fd1c3061c2fc1c2f91c2f81c2f61c2f4)
  (.lf 0)))

def shaXorOrder210 : BTree :=
  .nd (.nd (.nd (.lf
  0x17fb917faa17fa017faf1815e18149180031807a17fd717ff61807b1807917f881815c1814b1800517fcc17fd917ff817fe717fbc17f8718955189671894c18939189031889e188d4188761887818809187c6187b118969189531893718905188a0188d6188601882c188061896b1894f1892d18907188a2188dc188661882e1880819207192241920c191f9191dc191c3191a8191c2190fc190641905519063)
  (.lf
  0x209bd209b9209b7209b4209a7209a4209a2208792087620874009a4009a2009a1009a00099f0099d0099c0099b0099a00998009970099600995009930099200991009900098e0098d0098c0098b00989009880098700986009840098300982009810097f0097e0097d0097c0097a00979009780097700975009740097300972009700096f0096e0096d0096b0096a00969009680096600965009640096300961))
  (.nd (.lf
  0x1591215911159101590e1590d1590c1590b1590915908159061590515903159021590115900158fe158fd158f9158f8158f6158f5158f4158f3158f1158f0158ef158ee158ec158eb158ea158e9158e7158e6158e4158e3158e1158e0158df158de158dc158db158da158d9158d7158d6158d4158d3158d1158d0158c5158c4158c2158b8157ec157eb157e9157e8157ba157b9157b7157b6157aa154f8154f6)
  (.lf
  0x6ee606dff047420472507b4407b3507b3307a560796f0789c0788c0788106ee106e01047200470107b4607b3607a510798e0789e0788d0788206edc06e0304702046e107b4807b3707a4c07990078a00788e0788306ed706e05046e2046c207b4a07b3807a4707992078a20788f0788406ed206e07046bd0469e07b4c07b3907a4207994078a4078900788506ecd06e090469f0467e07b4e07b3a07a3d07996)))
  (.nd (.nd (.lf
  0x128d2128d1128c9128c8128c6128c4128c2128c1128b2128b0128ae128ab128aa128b9128a9128a7128a5128a31289b1289a1289712896128951289312877128751287312872128701286f1286c1286b1286912867128bd1286612864128621285f1285e1285d1285b1285a1285812855128541285312851128501284e1284b1284a128491284412842128411283e12837128361283412832128311282f12382)
  (.lf
  0x1bef016be413e3c13d7b1c59e1c26d1727814c681462c1c8f11c5c017d001552714edf1cc441c913183b515df81587a1cee21cc6618d9d162ec1609a1d17d1cf04195d716bf816b6b1d4181d19f19f3d17408174011d5c51d43a1a6e517d2917ba91d6131b1971b15c1855c183c6182d21d6151b1921b15e18558183c81828c1d6171b18d1b1601852b183c9182801d6191b23b1b18818527183ca182731d61b))
  (.nd (.lf
  0x205b0205402053020510203a0203302032020300201802011020100200e01ff501fee01fed01feb01fd401fcd01fcc01fca01fb401fad01fac01faa01f9401f8d01f8c01f8a01f7401f6d01f6c01f6a01f5201f4b01f4a01f4801f3101f2a01f2901f2701f1101f0a01f0901f0701eef01ee801ee701ee501ece01ec701ec601ec401eac01ea501ea401ea201e8901e8201e8101e7f01e6801e6101e6001e5e)
  (.lf 0)))

def shaXorOrder211 : BTree :=
  .nd (.nd (.nd (.lf
  0x7c4407c4607c4807c4a07c4c07c4e07c5007c5207c5407c5607c5807c5a07c5c07c5e067ac06aff06bf406f470703c0721f07314074090057a0057800577005310052f0052e00512005100050f004d7004d5004d4004b8004b6004b50047d0047b0047a0045e0045c0045b0044d0044b0044a0043c0043a004390042b00429004280041a004180041700f6700f6500f5500f4700f4500f3200f2400f2200f0f)
  (.lf
  0x139c91587014af91416c139d2139ca1586a14afa1416d139d4139cb1586114b0c1416e139501394f1585e14ae014145139d6139581585614b2514139139d8139401585214acf1413d139da139411584a14acb14131139dc139421584614abb14132139de139431583e14abc14133139df139181583a14b1f14117139e11391f1583214abd1405e139e3139081582e14aa21402d139e5139031582614a8a13ff1))
  (.nd (.lf
  0xb64f0b64e0b64d0b64b0b64a0b6490b6480b6460b6450b6440b6430b6410b6400b63f0b63e0b63c0b63b0b63a0b6390b6370b6360b6350b6340b6320b6310b6300b62f0b62d0b62c0b62b0b62a0b6280b6270b6260b6250b6230b6220b6210b6200b61e0b61d0b61c0b61b0b6190b6180b6170b6160b6140b6130b6120b6110b60f0b60e0b60d0b60c0b60a0b6090b6080b6070b6050b6040b6030b6020b600)
  (.lf 0))) (.nd (.nd (.lf
  0x206262062520623205d5205d3205f4205d2205d0205cf205f6205ce205cc205cb205ca205c8205c6205c5205d6205c4205c2205c1205c0205bc205ae205ad205ac205902058f2058e2058d2056b205662054c2054e2054b20549204ec204eb204e9204e72047b2047a20478204762046520be120bdf20bde20bdd20bdc20bda20bd820bd720bd620bd420bd320bd020bcf20bcc20bcb20bca20bc920bc720bc6)
  (.lf
  0xc4290bc330b4660b4530b44f0d3e20d1330c4150c4130bc100b4680b4540b4500d3dd0d1140c3ff0c3fd0bc110b46a0b4550b4510d3da0d0f70c3ee0c3ec0bc120b50f0b46b0b4560d3d40d0d90c3e00c3de0bc130b5100b4570b4520d3d00d0bc0c3d50c3d30bc140b4b30b4590b4580d3cb0d38d0c3cb0c3c90bcc80b4b80b4180d3c60d3530c3c10c3bf0bbe20b4ba0b40b0d3ae0d0640c3b70c3b50bbd5))
  (.nd (.lf
  0x14e9714e9014e8f14e8d14e8c14e8514e8414e8214e8114e7a14e7914e7714e7614e6f14e6e14e6c14e6b14e6414e6314e6114e6014e5914e5814e5614e5514e4e14e4d14e4b14e4a14e4314e4214e4014e3f14e3814e3714e3514e3414e2d14e2c14e2a14e2914e2214e2114e1f14e1e14e1714e1614e1414e1314e0c14e0b14e0914e0814e0114e0014dfe14dfd14df614df514df314df214deb14dea14de8)
  (.lf 0)))

def shaXorOrder212 : BTree :=
  .nd (.nd (.nd (.lf
  0x1e7d01e690283d02829027d7027c3027b7027a3026e8026d4026c8026b4026a802694026650265102645026310262502611025e2025ce025c2025ae025a20258e024d3024bf024b30249f02e8702e7602e6a02e5602e2702e1302e0702df302dc402db002da402d9002d8402d7002c6f02c5b02c4f02c3b02c2f02c1b02c0f02bfb02bef02bdb02bac02b9802b6902b5502b2602b12034c4034b30348403470)
  (.lf
  0xaab70aa9d0aa9c0aa990aa810aa800aa7d0aa660aa650aa620aa490aa480aa450aa2b0aa2a0aa270aa0d0aa0c0aa090a9f10a9f00a9ed0a9d40a9d30a9d00a9b50a9b40a9b10a99b0a99a0a9970a97b072b5072b2072b1072b0072ad072ac072ab072a8072a7072a6072a3072a2072a10729e0729d0729c0729907298072970729407293072920728f0728e0728d0728a072890728807285072840728307280))
  (.nd (.lf
  0x1891c1891b1891a188e8188e7188e6188e5188e31887f1887d188801887c1884e1884d188501884c1884a188401883f1883d1880f187f3187f2187f0187ee187ed187ec1878a187891878818787187851878318782187811877f1877e1877d1877c1875f1875e1875d1875c1875a1870c1870a187091870718706187051870d18704187021870118700186fe1866518664186671866318661186601865f1865d)
  (.lf
  0x1cc9c18dfa18de0162da160fa160791cf5a1cf371cc9e18df418de2162db160e8160781d2361d1c61cf301970a196a116a5716a3116a1f1d22d1d1c81cf321969e19680169711693d1693a1d22a1d1ca1cf34196991968216972169301692c1d1fc1d1cc1cf36196941968416973169241691f1d1f81d1ce1cf381968d196861697416919169151d1f31d1d01cf3a1968819622169751690a169001d1ee1d1d2)))
  (.nd (.nd (.lf
  0x17da417da317d9e17d9d17d9b17d9a17d9517d9417d9217d9117d8c17d8b17d8917d8817d8317e0017d8217d8017d7f17d7e17d7c17d7717d7617d7517d7317d7217d6d17d6c17d6a17d6917d6417d6317d6117d6017d5b1809f1809a1809718063180291802818027180241802318022180201801f1801d18019180181801a1801718014180131800a180091800717f1217f0f17f1317f0e17f0c17f0a17f08)
  (.lf
  0x183ce182631824e1b16f1b16b184a518248017540113200b7200b2a00b25006ec006ea017550113300b7400b2b00b26006e1006df017560113400b7600b2c00b27006d6006d4017570113500b7800b2d00b28006cb006c9017580113600b7a00b2e00b29006c0006be017590113700b7c00b2f006b5006b30175a0113800b3e00b30006aa006a80175b0113900b4000b310069f0069d0175c0113a00b4200b32))
  (.nd (.lf
  0x4104040fd040fc040fa040e4040dd040dc040da040c2040bb040ba040b8040a10409a0409904097040810407a04079040770405f0405804057040550403e0403704036040340401c04015040140401203ffb03ff403ff303ff103fdb03fd403fd303fd103fbb03fb403fb303fb103f9b03f9403f9303f9103f7b03f7403f7303f7103f5903f5203f5103f4f03f3603f2f03f2e03f2c03f1503f0e03f0d03f0b)
  (.lf 0)))

def shaXorOrder213 : BTree :=
  .nd (.nd (.nd (.lf
  0x10f8110f7b10ec710ec510ec310e8810e7210e6f10e7310e6e10e4e10dd910dce10dcc10da510da310da010d7510d6010d5d10d5c10d5a10d3210cf410cf310cef10ccc10cc910cc710cbc10ca710ca510ca410ca210c7910c7d10c6b10c691179c1179a11791117961178c1178a117801177e1177a117791177711774117681176711765117a3117631176111703116ff116fe116871167f1167c1167b1164f)
  (.lf
  0x1a3711a1741c1e81c0881b2bc1ac461a38f1a1671c1e41c0871b2151ac531a3401a1291c1dc1bffb1b20e1ac371a4491a1111c01d1bff71b2071ac581a3de1a0ef1c0161bfee1b1fe1ac5d1a3731a0d01c0111bfe61b1c61ac281a3911a0cb1c00a1bfef1b3af1ac201a34219ec21c0061bfd91b0291ac161a37e19e911bfe11bfd01b01a1ac0e1a34419e771bfca1bfc01b01b1a8671a26419dd11bfbf1bf93))
  (.nd (.lf
  0xd4690d4680d4670d4650d4640d4630d4620d4600d45f0d45e0d45d0d45b0d45a0d4590d4580d4560d4550d4540d4530d4510d4500d44f0d44e0d44c0d44b0d44a0ddb30ddb10ddb00ddaf0ddae0ddac0ddaa0dda90ddab0dda80dda60dda50dda40dda20dda10dda00dd9f0dd9d0dd9c0dd9b0dd9a0dd980dd970dd960dd950dd930dd920dd910dd900dd8e0dd8c0dd8b0dd8d0dd8a0dd880dd870dd860dd84)
  (.lf
  0x8a8e087c407b0e07ae0071c10719412ba512a011214d1213e121330df580ddb80b69e0b6900b68e0acd40acc812b9b12a031214f1213f121340df4e0ddba0b6a00b6910b68f0acb70acab12b9012a221215112140121350df430ddbc0b6a20b6920ac9b0ac8e12b8512a241215312141121360df380ddbe0b6a40b6930ac7e0ac7012b7a12a261215512142121370df2d0ddc00b6a60b6940ac600ac5212b6f)))
  (.nd (.nd (.lf
  0x382a03829038270382603806038050380303802037e7037e6037e4037e3037c3037c2037c0037bf037a3037a2037a00379f0378403783037810378003765037640376203761037470374603744037430372a0372903727037260371703ade03adc03adb03ac303aba03ab803a9b03a9903a9803a7803a7603a7503a5d03a5403a5203a3d03a3403a3203a1d03a1403a12039fd039f4039f2039dd039d4039d2)
  (.lf
  0x11ab010c8f10c8b107431032b11aac11a9f10c9010c8c106fc102c611a8f11a6d10b6210b60106d4102c711a6811a5c10b0610b00106b5102c911a611199910b0710b011068b10279128ed125fd1189f118731108810bb010ba210b9f128e8125fa118a0118741104d10bb110ba310ba0128e1125fb118a1118751103c10b3610b3210b31128dd125e1118a21187610ff610a9310a8f10a8e128d7125dc118a3))
  (.nd (.lf
  0x18b8a18b8818b8518b8418b7f18b7e18b8118b7c18b7918b7818b7418b7318b7218b7018b6f18b6d18b6b18b6718b6618b6418b6218b6118b5e18b5c18b5b18afe18afc18afb18af918af018d8418d8218d8118d7f18d7e18d7c18d7a18d7918e5a18d7818d7618d7518d7418d7218d7118d6f18d6e18d6c18d6b18d6918d6818d6518d6418d6318d6218d6018d5f18d5d18d5c18d5a18d5918d5718d5618d52)
  (.lf 0)))

def shaXorOrder214 : BTree :=
  .nd (.nd (.nd (.lf
  0x19730197261971f197431971b1970e195b9195a31958f1957b19569197f61953219516194f5194d8194be1948b1942f1941719400193e519fe419fec19fee1a18c1a17e1a18f1a17b1a18319fc119fed19fb51a08b19faa1a1a81a08e19f9c1a1161a0f619fbb19f8a1a09519eb019d5d19d6919d5219d6419d7019d4219d2219cb41a8e71a8dd1ab1c1a8d81a8d61a8c61a8c01a8bb1a8b61a8e91a8b51a8a4)
  (.lf
  0x6b990064a06f9006f2806bda06b9b0063f06f8b06f2a06bdc06b9d0063406f8606f2c06bde06b9e0062906f8106f2e06be006b9f0061e06f7c06f3006be206ba00061306f7706f3206be406ba10060806f7206f3406be6005fd06f6d06f3606be8005f206f6806f3806bea005e706f6306f3a06bec005dc06f5e06f3c06bee005d106f5906f3e06bf0005c606f5406f4006bf2005bb0718606fe206f0f06f00))
  (.nd (.lf
  0x12c2912c2812c2712c2512c0b12c0a12c0912c0712bef12bca1273e1273c1273b1273a12739127371273612735127341273212731127301272f1272d1272c1272b1272a12728127271272612725127231272212721127201271e1271d1271c1271b12719127181271712716127141271312712127111270f1270e1270d1270c1270a1270912708127071270512704127031270212700126ff126fe126fd126fb)
  (.lf
  0x13e4a13e3613d501c3531c2781bf001beea1bedf16c931697013f9213e4c13e3713d3e1c34e1c27a1bf021beeb1bee016c8e16a5813f8a13e4e13e3813d4f1c34a1c27c1bf041beec1bee116c8a16bf913f8713e5013e3913d7f1c3401c27e1bf061beed1bee216c8416bfb13f8313e5213e3a13d4e1c33c1c2801bf081beee16c8016bfd13f7d13e5413e3b13d3f1c3381c2821bf0a1beef16c7c16bff13f7a)))
  (.nd (.nd (.lf
  0xd3650d3620d3610d3600d35e0d35c0d3890d35b0d3590d3570d2150d2140d2130ceb60ceaf0ce930ce920ce8e0ce6d0ce6b0ce6a0dbf00dbee0dbed0dbec0dbeb0dbe90dbe80dbe70dbe60dbe40dbe30dbe20dbe10dbdf0dbad0dbac0dbab0db950db940db920db930db910db8f0db8e0db8d0db8b0db8a0db890db880db860db850db840db830db810db800db7f0db7e0db740db720db710db700db6e0db67)
  (.lf
  0x1aaed1e1cd1e1581bcae1bcac1b4181aadd1aad91aad81e1531e0a01bd121bd101b4071aacb1aac61aac51e1381e0981bc971bc951b3ee1aab21aaae1aaad1e1341e0931bc891bc871b3981aaa11aa9e1aa9d1e1011e08d1bc7e1bc7c1b36b1aa621aa611aa601e0f51e0881bd1e1bd1c1b3a81ab771aa581aa571e0d31e0831bc701bc6e1b3481ab781aa411e0cc1e07b1bc631bc611b30c1ab861aa351e0bb))
  (.nd (.lf
  0x1d3c51d3c41d3c31d3c01d3bf1d3c61d3be1d3bb1d4161d3ba1d3b81d3b51d3b21d3b11d3b71d3b01d3ae1d3ac1d3a91d3a81d3a71d3a41d3a31d3a11d39f1d39e1d35e1d35c1d35b1d3591d3561d3551d3541d3521d3511d3351d3321d32f1d32e1d32c1d32b1d3191d3171d3161d6df1d6dd1d6db1d6da1d6d61d6d51d6d41d6d21d6d01d6ce1d6cc1d6ca1d6c81d6c41d6c31d6c21d6c01d6be1d6bc1d6ba)
  (.lf 0)))

def shaXorOrder215 : BTree :=
  .nd (.nd (.nd (.lf
  0x5a500909005a400908005a300907005a200906005a100905005a0009040059f009030059e009020059d009010059c009000059b008ff0059a008fe00599008fd00598008fc00597008fb00596008fa00595008f900594008f800593008f700592008f600591008f500590008f40058f008f30058e008f20058d00f5b00f3900f1600ef200ed200eb200e9300e6f00e4f00e3000e0d00de900dca00da700d84)
  (.lf
  0xc52c0e0160d38b0cce20c56e0c52d0e0130d3490cce30c5700c52e0dff20d34a0cce40c5720dfd10d34b0cce50c5740dfae0d34c0cce60c5760e8ac0dadb0d4240cd440ccfc0ccf70e8a70dadc0d4250cd460ccfd0ccf80e8a10dac60d4260cd480ccfe0ccf90e89c0dac70d4270cd4a0ccff0ccfa0e8960dac80d4280cd4c0cd000ccfb0e7fc0dac90d42c0cd4e0cd010e7f60daca0d3f50cd100cd020e7f0))
  (.nd (.lf
  0x94ea094e0094df094dd094dc094d2094d1094cf094ce094c4094c3094c1094c0094b4094b3094b1094b0094a3094a2094a00949f09492094910948f0948e0948309482094800947f0947509474094720947109465094640946209461094590945809456094550944e06def06dec06dde06ddb06dcd06dca06dbc06db906dab06da806d9a06d9706d8906d8606d7806d7506d6706d6406d5606d5306d4506d42)
  (.lf 0))) (.nd (.nd (.lf
  0x1e9c61e9c51e9c31e9c21e9c01e9be1e9bd1e9bc1e9ba1e9b71e9b61e9b51e9b31e9ac1e9ab1e9aa1e9a81e96c1e96b1e96a1e9681e9671e9661e9651e9501e94f1e94d1e9521e94c1e94a1e9491e9531e9481e9461e9451e9441e9421e9411e8dd1e90f1e8dc1e8d51e8cb1e8b61e8b41e8b01e8921cc3c1cc381cc371cc331cc321cc2f1cc2d1cc2a1cc281cc251cc261cc221cc1e1cc1b1cc191cc161cc1c)
  (.lf
  0x5930087e30877b063e1063a105e850594005931087dd0877c063e2063a205e860594205932087d708759063e3063a305e870594405933087d10875a063e4063a405e880594605914087cb0875b063e5063a505e890594805915087c508758063e6063a605e8a0594a05916087bf08757063e7063a705e8b0594c08831087b9063e8063a805e8c0594e08834087b5063e9063a905e8d0595008a77087b1063ea))
  (.nd (.lf
  0x113c5113be113bd113bb113ba113b3113b2113b0113af113a8113a7113a5113a41139d1139c1139a1139911392113911138f1138e113871138611384113831137c1137b113791137811371113701136e1136d113661136511363113621135b1135a1135811357113501134f1134d1134c113490f4b60f4b30f4ad0f4ac0f4a90f4a20f4a10f49e0f4970f4960f4930f48c0f48b0f4880f4810f4800f47d0f476)
  (.lf 0)))

def shaXorOrder216 : BTree :=
  .nd (.nd (.nd (.lf
  0x1350d1350a135091350514102140fe140f4140f1140f0140ed140ec140e3140de140da140d2140d0140341403013ff913ff713ff313fe713fcf13fcc13f1613f0713dc113dbe13dbd13db913db813db61488e1488c1487f1487b1487614874148731486f1484d148491484814843148411483f1482e1482c148091480714800147fc147ef147ed147c4147c2147c1147bc147ad147a9147a8147801475914757)
  (.lf
  0xc2580c2510c2500c24e0c23b0c2340c2330c2310c21f0c2180c2170c2150c2020c1fb0c1fa0c1f80c1e60c1df0c1de0c1dc0c1ca0c1c30c1c20c1c00c1aa0c1a30c1a20c1a00c18a0c1830c1820c1800c16a0c1630c1620c1600c1480c1410c1400c13e0c1250c11e0c11d0c11b0c1040c0fd0c0fc0c0fa0c0e40c0dd0c0dc0c0da0c0c40c0bd0c0bc0c0ba0c0a20c09b0c09a0c0980c07f0c0780c0770c075))
  (.nd (.lf
  0x19239192381923719235192341923319232192301922f1922e1922d1922b1922a192291922819226192231921519214192121920f191fd191fc191fa191f8191e6191e5191e3191df191d2191d1191cf191ce191cd191cc191ca191c9191c8191c7191c5191c4191061910519103191021904f1904e1904c1904a1901b19afd19afb19afa19af919af819af619af519af419af319af119af019aef19aee19aec)
  (.lf
  0x1d5eb1d5db1d5d01b2881b12718632183e2183d3183d1183911d5ed1d5dc1d5d11b2831b1291862d183e4183d41838b1d5ef1d5dd1d5d21b27e1b12b1861d184a4183e6183d51d5f11d5de1d5d31b2791b12d1861a183e8183d61837a1d5f31d5df1d5d41b2741b12f18612183ea183d7183751d5f51d5e01d5d51b26d1b1311860f183ec183d8183551d5f71d5e11d5d61b26a1b13318607183ee183d918343)))
  (.nd (.nd (.lf
  0x1aa0d1aa0c1aa0a1aa081aa031aa6f1aa021aa001a9f21a9f11a9ef1a9ed1a9e81a9e71a9e51a9df1a9de1a9dd1a9db1a9d01a9cb1a9d31a9ca1a9c81a9b21a9b11a9af1a9a91a9311a9321a9301a92e1a92d1a9381a92c1a92a1a85c1a8601a85b1a8591a7ec1a7ef1a7eb1a7e91a7e11a7f91a7e01a7de1a7c21a7c81a7c11a7bf1a79c1a7a31a79b1a7991a58f1a58e1a58c1a5871a5601aceb1ace81ace3)
  (.lf
  0x2a8302a47025bb036850306802a8502a480259b036860306902a8702a490257c036870306a02a8902a4a02559036880306b02a8b02a4b02536036890306c02a8d02a4c025130368a0306d02a8f02a4d024f00368b0306e02a91024cc0368c0306f02a93024b0024ac0368d0307002a95024900248c03c9703690030c60307e0307902e8103c9803691030c80307f0307a02e6303c9903692030ca030800307b))
  (.nd (.lf
  0x487a04879048780487604875048740487304871048700486f0486e0486c0486b0486a04869048670486604865048640486204861048600485f0485d0485c0485b0485a04858048570485604855048530485204851048500484e0484d0484c0484b04849048480484704846048440484304842048410483f0483e0483d0483c0483a04839048380523705235052340522705226052240522305211052100520e)
  (.lf 0)))

def shaXorOrder217 : BTree :=
  .nd (.nd (.nd (.lf
  0x4986049880498a0498c04f8a04f8c04f8e04f9004f9204f9404f9604f9804f9a04f9c04f9e04fa004fa204fa404fa604fa804faa04fac04fae04fb004fb204fb404fb604fb804fba04fbc04fbe04fc004fc204fc40550e05510055120551405516055180551a0551c0551e05520055220552405526055280552a0552c0552e05530055320553405536055380553a0553c0553e0554005542055440554605548)
  (.lf
  0x1e8d11e8d01e8cf1f4f31ef591eeab1e9261e8af1e8ac1e8ab1f5241ef461eea81e88e1e88c1e88a1f4d11efd01eea21e87f1e87e1e87d1f4c81ef331ee9e1e8711e8701e86f1f4a31ef0c1ee981e8591e8571e8561f49f1efef1ee931e85a1e8581e84e1f48c1ef1a1ee8d1e8671e8661e8651f47d1efe31ee8a1e83e1e83c1e83b1f4741eef61ee831e9271e8321e8311f4811eeed1ee801e8ff1e8251e824))
  (.nd (.lf
  0xf7b40f7af0f7ae0f7aa0f7a90f7a50f7a30f7a00f79d0f79a0f7970f7920f7910f78c0f78b0f7870f7860f7840f7810f77a0f7770f76f0f8c30f8c10f8bf0f8be0f8bd0f8bb0f8ba0f8b90f8b80f8b60f8b50f8b30f8b20f8b00f8af0f8ae0f8c40f8ad0f8ab0f8aa0f8a90f8a70f8a50f8a40f8a30f8a10f8a00f89f0f8a60f89e0f89c0f89b0f89a0f8980f8970f8960f8950f8930f8920f8900f88f0f88d)
  (.lf
  0x144821046d103e90d61b0d6020c8e00c8d514e5014d641449e1448310468103eb0d61d0d5d90c8c00c8b514e4514d66144a01446110463103ed0d61f0d5db0c8a10c89414e3a14d68144a2144631045e103ef0d6210d5dd0c87f0c87114e2f14d6a144a41446510459103f10d6230d5df0c85c0c85014e2414d6c144a61446710454103f30d6250d5e10c83b0c83014e1914d6e144a8144681044f103f50d627)))
  (.nd (.nd (.lf
  0x584a05849058480584705845058440584305842058400583f0583e0583d0583b0583a05839058380583605835058340583305831058300582f0582e0582c0582b0582a05829058270582605825058240582205821058200581f0581d0581c0581b0581a05818058170581605815058130581205811058100580e0580d0580c0580b0580905808058070580605804058030580205801057ff057fe057fd057da)
  (.lf
  0x135e312d4d12619124f114aa514a9f135c0135be12d28126891260e14a9b14a65135b6135b412d081259014a81147ab135aa135a812cec1268f14a7b14a66135841358212cd11269014a771477a135721357012cb51267014a7214763135561355412c731266414a6a14747135271352112c55126a11473c14673135281352212c3a1263b1466d1464e135291352312c1d1264e1464d14638134d1134cf12bfc))
  (.nd (.lf
  0x1a60e1a60b1a60a1a6081a6071a6061a60d1a6051a6031a6021a6011a5d31a5ba1a5b91a7ae1a5b81a5b61a5791a57c1a5781a5761a56f1a57e1a56e1a56c1a56b1a0891a0871a0861a0841a0811a0801a07f1a07c1a07b1a07a1a0771a0761a0751a0721a0711a0701a06d1a06c1a06b1a0681a0671a0661a0651a0621a0611a05e1a05d1a05c1a05a1a0551a0541a0521a0501a0581a04f1a04d1a04b1a049)
  (.lf 0)))

def shaXorOrder218 : BTree :=
  .nd (.nd (.nd (.lf
  0x593f05941059430594505947059490594b0594d0594f05951059530595505957059590595b0595d0595f05961059630596505967059690596b0596d0596f0597105eb805eba05ebc05ebe05ec005ec205ec405ec605ec805eca05ecc05ece05ed005ed205ed405ed605ed805eda05edc05ede05ee005ee205ee405ee605ee805eea05eec05eee05ef005ef20643406436064380643a0643c0643e0644006442)
  (.lf
  0x1cae91af5e1af571cadf1cad01af511af4a1cad11cac41af1a1af161cac51cab81b1341aefc1ce731ce401ba1f1b7811ce6f1ce4b1ba071b7741ce6a1ce431ba011b7671ce641ce451b8671b75a1ce5e1ce4c1b8611b74b1ce5b1ce481b8541b7401ce561ce4a1b8491b7331ce501cde31b71e1b71b1cde91cde51b9831b6fc1d0f41d0e21c0261c0091d0de1d0cf1c0281c0041d0ca1d09e1c0291c0001d0c6))
  (.nd (.lf
  0x142581425714256142541425314252142511424f1424e1424d1424c1424a14249142481424714245142441424314242142401423f1423e1423d1423b1423a14239142381423614235142341423314231142301422f1422e1422c1422b1422a14229142271422614225142241422214221142201421f1421d1421c1421b1421a14218142171421614215142131421214211142101420e1420d1420c1420b14209)
  (.lf
  0x18e611630a162d11615c160801cf871cf291cc901cc4d192ee18dd61630b162d3161591607f1d2b21d17f1cf061cef71ceec19794195c916bfa16bec16bea16bdb16b681d2ac1d1811cf081cef81ceed1978f195bb16bfc16bed16beb16bd716b611d2a51d1a01cf0a1cef91ceee19789195a916bfe16bee16bd216b6d1d2a11d1a21cf0c1cefa1ceef197831959516c0016bef16bcc16b6f1d2951d1a41cf0e)))
  (.nd (.nd (.lf
  0xffbe0ffb80ffb70ffb50ffb10ffaf0ffad0ffab0ffaa0ffa80ffa70ffa60ffa40ffa20ffb40ffa00ff990fddb0fdd90fdd80fdc10fdbf0fdbe0fda70fda50fda30fd890fd860fd840fd720fd6b0fd690fd5a0fd580fd550fd440fd420fd400fcec0fcea0fce90fcd60fcd40fcd20fc9d0fc9b0fc9a10b8a10b8910b8310b7c10b7810b7610b7510b2810b2710b2510b2410a8210a8310a8110a7f10a2310a22)
  (.lf
  0x1f3b61edc61e7fb1e7f61e7f520138200921f3b51f3b31edc71e7e01e7d81e7cb20134200821f62c1f6281ed8d1e7e31e7d91e7d320106200971f3821f3801ed8e1e7ec1e7bf1e7be200fa200991f3841f3721ed8f1e7b81e7b61e7b1200cc200951f3661f3641ed5e1e7961e7881e786200ad200941f3681f34f1ed5f1eba21e7a31e7a2200a4200831f3391f3311ecf31eb9e1e7911e78d200a02005a1f329))
  (.nd (.lf
  0xbce00bc700bc600bc400bae00ba700ba600ba400b8e00b8b00b1c00b1a00b1900b1800b1700b1500b1400b1300b1200b1000b0f00b0e00b0d00b0b00b0a00b0900b0800b0600b0500b0400b0300b0100b0000aff00afe00afc00afb00afa00af900af700af600af500af400af200af100af000aef00aed00aec00aeb00aea00ae800ae700ae600ae500ae300ae200ae100ae000ade00add00adc00adb00ad9)
  (.lf 0)))

def shaXorOrder219 : BTree :=
  .nd (.nd (.nd (.lf
  0x1087110834108261081b10802107dd107871077c1076b107351072a106e8106ce106a81067011080110321101b10fef10faf10fa010f8010f6110f2b10ecc10ea010e8d10e7810e3410e1210def10ddc10da610d7e10d5e10d3310d3610cf710ccd10caa10c7a10c7f10b5910aee10ae211792117941179811799117841177c11776117a11176e11769117a811700116f8116ed116f6116f5116d7116ac11697)
  (.lf
  0x1007710db81085e100ac100931007010d921084a100ae100941006d10d7110812100b0100951001710d56107fc100b20ff770ff7310d57107a9100b40ff780ff6c10d06107a1100b60ff790ff6910cde10799100b80ff7a0ff6210cb910751100ba0ff7b0ff5f10c9e10749100bc0ff7c0ff5810c9f10714100be1007c0ff5510b6a1070c100c00ff5010b1a106ba100c20ff4b10b1b1069a100c40ff461241e))
  (.nd (.lf
  0xa3950a38e0a38d0a38b0a3860a37f0a37e0a37c0a3780a3710a3700a36e0a3680a3610a3600a35e0a3590a3520a3510a34f0a3490a3420a3410a33f0a33a0a3330a3320a3300a32a0a3230a3220a3200a31b0a3140a3130a3110a30f0a30c0a18f0a18d0a18c0a18b0a18a0a1880a1870a1860a1850a1830a1820a1810a1800a17e0a17d0a17c0a17b0a1790a1780a1770a1760a1740a1730a1720a1710a16f)
  (.lf 0))) (.nd (.nd (.lf
  0x1f7fc1f7c21f7c11f7bf1f7be1f7bc1f7bb1f7b91f7b81f7b71f7b61f7b41f7b31f7b11f7b01f7ae1f7ac1f7ab1f7c31f7aa1f7a81f7a71f7a61f7a41f7851f77d1f77c1f77a1f7781f7771f7761f7741f7711f76a1f7641f7621f7601f7461f7451f7431f7421f7401f7471f73f1f73d1f73c1f8611f73b1f7391f7381f7371f7351f6fc1f6fb1f6fe1f6fa1f6f71f6cd1f6c41f6ba1f6b91f5551f5541f552)
  (.lf
  0x92670af800abb70a0640a02409887092e5092750926d0af7b0ab980a0650a0250984b092ea0926e0af770ab7b0a0660a02609836092ec0926f0af720ab5f0a0670a02709837092ee092700af6d0ab430a0680a02809838092f0092710af670ab270a0690a02909839092f2092720af610ab090a06a0a02a0983a092a7092730af5d0aaec0a06b0a02b0985109276091f50af590aace0a06c0a02c0980009278))
  (.nd (.lf
  0x127ab127a8127a7127a6127a3127a2127a11279e1279d1279c12799127981346c1346913463134621345f1345813457134541344d1344c1344913442134411343e1343713436134331342c1342b1342813421134201341d1341613415134121340b1340a1340713400133ff133fc133f5133f4133f1133ea133e9133e6133df133de133db133d4133d3133d0133c9133c8133c5133be133bd133ba133b3133b2)
  (.lf 0)))

def shaXorOrder220 : BTree :=
  .nd (.nd (.nd (.lf
  0xf1cc0f1c10f1b60f1ab0f1a00f1950f18a0f17f0f1740f1690f15e0f1530f1480f13d0f1320f1270f11c0f11111491114861147b1147011464114581144c1144011434114281141d1141211406113fb113f0113e5113da113cf113c4113b9113ae113a3113981138d11382113771136c11361113561134b0f4ae0f4a30f4980f48d0f4820f4770f46c0f4610f4560f44b0f4400f4350f42a0f41f0f4140f409)
  (.lf
  0x8f0708f0008eff08efd08ee308edc08edb08ed908ebe08eb708eb608eb408e9b08e9408e9308e9108e7908e7208e7108e6f08e5508e4e08e4d08e4b08e3008e2908e2808e2608e0b08e0408e0308e0108de808de108de008dde08dc408dbd08dbc08dba08da008d9908d9808d9608d7c08d7508d7408d7208d5808d5108d5008d4e08d3308d2c08d2b08d2908d0d08d0608d0508d0308ce308cdc08cdb08cd9))
  (.nd (.lf
  0x16e7f16e7e16e7d16e7b16e7a16e7916e7816e7616e7516e7416e7316e7116e7016e6f16e8116e6e16e6c16e6b16e6a16e6916e6716e6616e6516e6316e6216e6116e6016e5e16e5d16e5c16e5b16e5a16e5816e5716e5616e5416e5316e5216e5116e4f16e4e16e4d16e4c16e4a16e4916e4816e4716e4616e4416e4316e4216e4016e3e16e3d16e3c16e3a16e3916e3616e3516e3316e3216e3116e3816e30)
  (.lf
  0x144b61042c104030d5ef0c72d0c71f14dc114d7e144b810427104050d5f00c70a0c6fe14db614d80144ba10422104070d5f10c6e90c6de14dab14d82144bc1041d104090d5f20c6c90c6c0156ac1563514d7b0f1700f0f90ddc70cf720cf64156a11563714d7d0f1650f0fb0ddc90cf540cf46156961563914d7f0f15a0f0fd0ddca0cf350cf271568b1563b14d810f14f0f0ff0ddcb0cf140cf06156801563d)))
  (.nd (.nd (.lf
  0x14f4214f4814f4114f3314f1514f1714f1414f1214f1115259152501524b1524a1524315242152411523f1523b15239152341522c152111520f1520b151fb151f7151f5151e9151e7151e3151d8151d4151d1151c7151c5151c1151b9151b7151af151a3151a11519d15192151901518c1517f1517c1517a15172151701516c15162151601515c15153151511514c151421513e1513c15134151301512e15126)
  (.lf
  0x74e0074a10670a0669402cd002cb207641075d2074e2074a3067050669602cad02c8f0763c075d4074e4074a5067000669802c8a02c6b07637075d6074e6074a7066fb0669a02c6c02c4b07632075d8074e8074a8066f60669c02c4c02c2b0762d075da074ea074a9066f10669e02c2c02c0b07628075dc074ec074aa066ec066a002c0c02beb07623075de074ee074ab066e7066a202bec02bcc0761e075e0))
  (.nd (.lf
  0x295102950034cb034c9034c8034b0034af034ad034ac0348e0348d0348b0348a0346d0346c0346a034690344b0344a03448034470342a03429034270342603408034070340503404033e5033e4033e2033e1033c4033c3033c1033c0033a4033a3033a1033a00338403383033810338003362033610335f0335e0333f0333e0333c0333b0331c0331b0331903318032fb032fa032f8032f7032db032da032d8)
  (.lf 0)))

def shaXorOrder221 : BTree :=
  .nd (.nd (.nd (.lf
  0x19d3f19d2b19d291b4e91b4e51b4e31b49b1b49a1b4981b4691b4671b45c1b3de1b3dc1b3d81b3e71b3c11b3bb1b3791b3771b3751b3531b3511b34c1b32a1b3281b31e1b2ae1b2ac1b2aa1b1ef1b1ec1b1ea1b1f71b1e41b1e01b04f1b0481b0451afad1afab1afa91af401af3e1af3c1eb8a1eb881eb861eb7c1eb791eb771eb761eb741eb711eb271eb241eb231eb131eb101eb0f1eb0e1eb0c1eb0b1eb09)
  (.lf
  0x18c2b18be917be3174cb16dd216d0418bd618b3d17bcf174a416cf718b3e18b1a17bd01749c16cd118b1718aff179de1747916ba21975b196b218993180a3177f5177f0177ef19758196b81898318038177d5177d0177cf1974f196a6188f718039177881777e1777c1974c1966f188bb1803a1778a1777f1777d197401966c188a41803b1781917717177111973b196691886c1803c17719177121973619666))
  (.nd (.lf
  0xc9580c93f0c93e0c93c0c9380c91f0c91e0c91c0c9180c8ff0c8fe0c8fc0c8f80c8df0c8de0c8dc0c8d80c8bf0c8be0c8bc0c8b80c8a00c89f0c89d0c8970c87e0c87d0c87b0c8740c85b0c85a0c8580c8530c83a0c8390c8370c8330c81a0c8190c8170c8110c7f80c7f70c7f50c7f00c7d70c7d60c7d40c7d00c7b70c7b60c7b40c7ae0c7950c7940c7920c78b0c7720c7710c76f0c7680c74f0c74e0c74c)
  (.lf
  0x7a6e069ee069d90692e0692c105ff104d80b9520b68507a8807a7a07a6f069f0069da0691d0691b105f4104da0b9370b69d07a8907a7b07a70069f2069db0690c0690a105e9104dc0b9190b69f07a8a07a7c07a71069f4069dc068fb068f9105de104de0b8fa0b6a107a8b07a7d069f6069dd068ea068e8105d3104e00b8dc0b6a307a8c07a7e069f8069b4068d9068d7105c8104e20b8be0b6a507a8d07a5f)))
  (.nd (.nd (.lf
  0x18f5018f4018df018de018dc018db018c1018c0018be018bd0189301be301be101be001bc601bc401bc301bb101ba801ba601b8f01b8d01b8c01b7a01b7101b6f01b6001b5701b5501b3e01b3c01b3b01b2101b1f01b1e01b0c01b0301b0101aea01ae801ae701acd01acb01aca01ab801aaf01aad01a9601a9401a9301a8101a7801a7601a5f01a5d01a5c01a4201a4001a3f01a2501a2301a2201a1001a07)
  (.lf
  0xdc05100030ff100eb360eb2a0e3de0dc200dc0a0dc060fffe0ff010eb370eb2b0e3ba0dc220dc0b0dc070fff70fef00eb380eb2c0e39c0dbd40dbb80dbb20fff10fee40eb390eb2d0e36f0dbd60dbb90dbb30ffed0fece0eb3a0eb2e0e3530dbd80dbba0dbb40ffe70febf0eb3b0eb2f0e3290dbda0dbbb0dbb50ffe30feaf0eb5b0eb590e30c0dbdc0dbbc0dbb60ffde0fe9a0ea920ea8a0e2e10dbdd0dbbd))
  (.nd (.lf
  0x1674316785167421673f1673e1673d1673b16783167391673716735167331673116781167301672e1672c1672a167281677f167271672416723167201671f1677d1671e1671b1671a16717167161677b1671516713167111670f1670d167791670c16709167081670616704167771670316701166ff166fd166fc16775166fa166f7166f6166f2166f116773166f0166ed166f3166ec166e916771166e8166e5)
  (.lf 0)))

def shaXorOrder222 : BTree :=
  .nd (.nd (.nd (.lf
  0x811c080ed080c00809008062080340800507fd407fa607f7607f4607f1707ee807eb707e8907e5907e2b07dfd07dce07d9d07d6d07d3e07d1107ce307cb207c7e0874408733087240871408703086f2086e1086d0086c1086b1086a00868f0867e0866d0865e086500864008631086230861508605085f4085e3085d2085c3085b5085a708599085890857d090d1090af0908d09069090440902008ffc08fd8)
  (.lf
  0x10ef2128f81202f1198912307119a3119871308f128ff1207712bea1230812075139a21309512956134dc12beb12954141d3139af130bc13d77134de12e6c14ba9141d5139f71464213d78139591525c14bab141fc14f0e146431414d15c511525e14bb81587614f0f14ae31640715c541527d16091158791518216dd01640915d25167fa1609215d231781516dd11644c183a517121167fb163a218d86180b6))
  (.nd (.lf
  0x119b4119b311a8a119b2119b0119af119ae119ab119aa119a911a56119a8119a6119a51013f1013c1013a101371013510132101301012d1012b101281012610123101211011e1011c101181011710113101121010e1010d1010910108101041010310100100fe100fb100f9100f6100f41007b100791007510074100711006f100271006c100250ff750ff720ff700ff6d0ff6b0ff680ff660ff630ff610ff5d)
  (.lf
  0x13eb113e4911c5311c0f1155c114b119df419c621939d1935e13eac13e4b11c5511c1111551114b219dee19c641939f1935f13ea713e4d11c5711c131154b114b319de519c66193a11936013ea213e4f11c5911c1511546114b719de219c68193a31936113e9d13e5111c5b11c171153f114b819dde19c6a193a51936213e9813e5311c5d11c191153b114ba1a7361a4f919c4719c3819c2d14d2814c411013b)))
  (.nd (.nd (.lf
  0xb48f0b48e0b48d0b48c0b48a0b4890b4880b4a90b4870b4850b4840b4830b4750b4740b4730b4720b4700b46f0b43a0b4390b4370b4360b4350b4340b4320b4310b4300b42f0b42d0b42c0b42b0b42a0b4280b4270b4260b4250b4230b41e0b41d0b41c0b41a0b4190b4130b4120b4100b3fa0b3f90b3f80b3f60b3f50b3f40b3f30b3f10b3f00b3ef0b3ee0b3ec0b3eb0b3ea0b3e90b3e40b3e20b3e10b3e0)
  (.lf
  0x1905b187ac17fad17fac17fab1a1f81a1e31905419052187971815717fa317fa21a1ec1a1c918fe518fe31876a1815817f1c1a1d21a1b118f4018f3e187451814617dfa1a1ac1a16f18f0718f051872b1800117df01a1711a16018ef718ef51871a17fc917e051a1611a11d18efc18efa186da17fd517ddd1a1261a0fd18ed118ecf186c617ff317dd31a0fe1a0f218ec918ec7186b317fe317dc91a0e91a0d6))
  (.nd (.lf
  0x1cdd51cdd41cdd31cdd11cdd01cdcf1cdce1cdcc1cdcb1cdca1cdc91cd711cd6f1cd681cd671cd651cd641cd631cd621cd601cd531cd521cd5d1cd511cd4f1cd431cd3f1cd3d1cd3b1cd321cd351cd311cd2f1cd281cd271cd251cd241cd231cd221cd201cd1d1cd171cd181cd161cd141cd131cd121cd101ccfd1ccfc1ccf41ccf21ccf11cce71cce61cce41cce31cce21cce91cce11ccdf1ccde1ccdd1ccdb)
  (.lf 0)))

def shaXorOrder223 : BTree :=
  .nd (.nd (.nd (.lf
  0x20c1c20c1b20c0920bfb20bfa20c0d20bf920bef20bee20bf120bed20beb20bea20c4d20be920be720be620be520a8a20a6f20a6e20a6d20919208c6208c4208d5208c3208c1208c0208cd208bf208bd208bc208bb208b92089620895208942083920838208372083620834207f6207a8207aa207a7207a5207852078b20784207822075520754207522074f2074b2074a207482074620743207572074220740)
  (.lf
  0x97ab0a7e20a29d09a6709a1c09a17097a60a7e30a29e09a6909a1d09a18097a10a7e40a29f09a6b09a1e0979c0a7e50a2a009a2d09a1f097970a7e60a2a109a2f09a20097920a7e70a2a209a3109a210978d0a7e80a2a309a3309a22097880a7e90a2a409a3509a23097830a7ea0a2a509a3709a240977e0a7eb0a2a609a3909a25097790a7ec0a2a709a3b09a26097740a7ed0a2a809a3d09a270976f0a7ee))
  (.nd (.lf
  0x64f5064f4064f3064f1064f0064ef064ee064ec064eb064ea064e9064e7064e6064e5064e4064e2064e1064e0064df064dd064dc064db064da064d8064d7064d6064d5064d3064d2064d1064d0064ce064cd064cc064cb064c9064c8064c7064c6064c4064c3064c2064c1064bf064be064bd064bc064ba064b9064b8064b7064b5064b4064b3064b2064b0064af064ae064ad064ab064aa064a9064a8064a6)
  (.lf 0))) (.nd (.nd (.lf
  0x1d7f51d7f41d7f31d7f01d7ef1d7ee1d7f21d7ed1d7eb1d7ea1d7e91d7e71d7e61d7e51d7e41d7e21d7e11d7e01d7df1d7dd1d7dc1d7db1d7da1d7d81d7d51d7d41d7d31d7d11d7d01d7cf1d7ce1d7cc1d7cb1d7ca1d7d61d7c91d7c71d7c61d7d71d7c51d7c31d7c21d80e1d7c11d7bf1d7be1d7bd1d7bb1d7ba1d7b91d7b81d7b61d7b51d7b41d7b31d7b11d7b01d7af1d7ae1d7ac1d7ab1d7aa1d7a91d7a7)
  (.lf
  0x524605073047ac0476c0419d03bb403b800507405060047ad0476d0419e03bb6052440504a047ae0476e0419f03bb80504b05037047af0476f041a003bba0524205022047b004770041a103bbc0501d0500b047b104771041a203bbe0524004ff5047b204772041a303bc004ff604fe5047b304773041a403bc20523e04fd5047b404774041a503bc404fd004fcb047b504775041a603bc6057d70575304dd0))
  (.nd (.lf
  0x7f8807f5c07f5b07f5807f2c07f2b07f2807efd07efc07ef907ece07ecd07eca07e9d07e9c07e9907e6f07e6e07e6b07e3f07e3e07e3b07e1107e1007e0d07de307de207ddf07db407db307db007d8307d8207d7f07d5307d5207d4f07d2407d2307d2007cf707cf607cf307cc907cc807cc507c9807c9707c9407c710effc0effa0eff90eff20eff10efef0efee0efe70efe60efe40efe30efdc0efdb0efd9)
  (.lf 0)))

def shaXorOrder224 : BTree :=
  .nd (.nd (.nd (.lf
  0xb3f00b7e01172011b1017b4017f301df701e360242f0246e02a6802aa703093030d2036d00370f03cf703d360432104360049500498f04f8804fc70550c0554b05a8d05acc0600e0604d0658a065c9085390857808b7808bb70940b0944a09a2e09a6d0a2ca0a3090a83f0a87e0b0170b0560b59b0b5da0bd6f0bdae0c5490c5880cd110cd500d5020d5410dcde0dd240e4bd0e4fd0ec610ec9f0fc470fc87)
  (.lf
  0xde770de700de6f0de6d0de6c0de650de640de620de610de5a0de590de570de560de4f0de4e0de4c0de4a0de430de420de400de3e0de370de360de340de320de2b0de2a0de280de270de200de1f0de1d0de1c0de150de140de120de110de0e0e7750e7720e76b0e76a0e7670e75f0e75e0e75b0e7530e7520e74f0e7470e7460e7430e73b0e73a0e7370e72f0e72e0e72b0e7230e7220e71f0e7170e7160e713))
  (.nd (.lf
  0x1ab891ab6a1ab691ab681ab661ab3f1ab3e1ab3d1ab3b1ab141ab131ab121ab101aaf81aaf71aaf61aaf41aae41aae31aae21aae01aad11aad01aacf1aacd1aab61aab81aab51aab31aaa41b6641b6621b6611b6601b65f1b65d1b65c1b65b1b65a1b6591b6571b6561b6551b6531b6521b6511b6501b64e1b64d1b64c1b64b1b6491b6481b6471b6461b6441b6431b6421b6411b63f1b63d1b63c1b63e1b63b)
  (.lf
  0x34da02efd02941028ff028f4040ad040860351b034db02efe0294302900028f50408d040670351c034dc02eff0294502901028f604062040430351d034dd02f000294702902028f70404a040240351e034de02f010294902903028f80401f040000351f034df02f020294b02904028f90400703fe003520034e002f030294d02905028fa03fe703fc003521034e102f040290f02906028fb03fc703fa003522)))
  (.nd (.nd (.lf
  0x1ec401ec471ec3f1ec3d1ec3c1ec3b1ec391ec0d1ec0b1ec021ec001ebfe1ebf91ebf81ebf61ebf41ebf01ebef1ebed1ebdb1ebd21ebd31ebd11ebcf1ebc61ebc51ebc01ebbe1ebb61ebb51ebb31ebb11ebaa1eba91eba81eba51e9141e92f1e9091e9071e89a1efc11efb31efb11efb01efa11efa01ef9e1ef9c1ef8e1ef8c1ef821ef811ef801ef601ef581ef571ef3e1ef3d1ef3c1ef2d1ef2b1ef321ef2a)
  (.lf
  0x604305ffa05ff509077082e10654c0604505ffb05ff609053082d80654d0604705ffc05ff70902f082d00654e0604905ffd05ff80900b082c80654f0604b05ffe08fe7082c0065500600d05fff08fc3082b8065510600f0600008f9f0828406552060110600108f7c0828506553060130600208f5a0828606554060150600308f380828706555060170600408f160828806556060190600508ef40828906557))
  (.nd (.lf
  0x599e0599d0599c0599a05999059980599705995059940599305992059900598f0598e0598d0598b0598a05989059880598605985059840598305981059800597f0597e0597c0597b0597a05979059770597605975062280622606225062190621806216062150620a062090620706206061fc061fb061f9061f8061ee061ed061eb061ea061e0061df061dd061dc061d2061d1061cf061ce061c1061c0061be)
  (.lf 0)))

def shaXorOrder225 : BTree :=
  .nd (.nd (.nd (.lf
  0x1b4421b4331b4281b3871b3651b3b01b33e1b3131b5a51b5171b5221b4cd1b4cf1b4871be371be3b1bdf21bde31be131becb1be0d1be401bdf61bde91be331be0a1be421bdf81bdeb1be1f1bdcd1bdcf1bdb01bdb81bd9f1bda11bd8b1bd6f1be351be0c1be441bdfa1bded1be181dd9a1dd451dce31dc8d1dc371de011dd991dd441dce21dc8c1de001dd981dd301dcdb1dc831dc3a1dc0d1dbcc1db9d1db60)
  (.lf
  0x19f4819ea41c8eb1c74f1a8e21a74b1a7481a7461c8e51c7511a8db1a7471a7081a6fd1c8df1c7531a8d41a8171a6fe1c8da1c7551a8d01a70a1a6ff1c8d61c7171a8ca1a8191a7001c8d01c6d61a8c51a70c1a7011c8cc1c6bb1a8c11a74d1a7021c8c71c6bd1a8b91a74f1a7031c8c21c6bf1a8b31a7511a7041c8bf1c8361a8ae1a7531a7051c8b91c8381a8a81a70e1a7061c8b51c83a1a8a31a7101a707))
  (.nd (.lf
  0xf2730f26f11077110711106f1102c1102b1102a110281102711026110241101910fe910fe810fe610fe510fe010fdf10f4110f4010f3f10f3e10f3c10f3b10f3a10f3910f3710f3510f3410f3310f3110f3010f2510f2410f2210f2010ec010ec210ebf10ebd10e6a10e9e10e6910e6710e6610e6510e6310e6110e5210e5110e4f10e4d10e3210e3110e3010e2d10e0f10e1010e0e10e0a10dd810dd710dd5)
  (.lf
  0x18356181fb1794b179361792b1280d127500f0ee0f0da0f0940f00d1834a181fd1794d179371792c12808127520f0f00f0db0f08e0f00a1833c181ff1794f179381792d12803127540f0f20f0dc0f0880f007183321820117951179391792e127fe1276c0f0f40f0dd0f0840f0041831f18203179531793a1792f127f91276e0f0f60f0de0f0800f0171831b18205179551793b127f4127700f0f80f0df0f07b)))
  (.nd (.nd (.lf
  0x97e9097e8097e7097e6097e5097e3097e2097e1097df097de097dd097dc097da097d9097d8097d7097d5097d4097d30983b097d2097d0097cf097ce097cc097510974f097500974e0974c0974b0974a097490974709746097450974309742097410967d0967b0967909677097c8097c5097bf097be097b5097b3097b10973a0973909738097350973409732097300972d0972c097290972709726097230971f)
  (.lf
  0x1652a15c6015b0617c6e17c6516e8b16e891653915af517c6017c19169eb169e51652115c6417c1617c07169ec169e61650f15c1317c0217bf1169ed169e71651415c1517bee17be016a1c16a1a1650615c2717bdb17bcc169cd169cb164f815bc317bc917bbe1698216980160e515ba417bc2179dc168e7168e3160ca15b7a179d917988168e8168e4160ac15b56189891895417800177fe16fbc1664b16646))
  (.nd (.lf
  0x1c17e1c17b1c1781c1771c1751c1741c1cf1c1721c1701c13a1c1381c1361c1251c1231c1201c11f1c11c1c11b1c11a1c1171c1161c1151c1131c1111c13c1c1101c10e1c10c1c1091c1081c1071c1051c1041c0a01c09e1c09a1c80c1c80a1c8071c8061c8041c7fc1c80f1c7fa1c7f81c7f61c7f21c7f11c7f01c7ee1c7e91c7e71c7e51c7e01c7de1c7dc1c7261c7241c7221c7201c71e1c71b1c7191c718)
  (.lf 0)))

def shaXorOrder226 : BTree :=
  .nd (.nd (.nd (.lf
  0x1dd121dc9e1dc241dbe51dbc21db8f1e62e1e6061e6451e5f41e7ad1e5ae1e5aa1e58f1e5761e54f1e52d1e5311e6011e6371e5e91e5f71e5c71e5b11e57a1e5741e54c1e6081e6311e5df1e5ce1e5ab1e5b41e57d1e55d1e53b1e7fe1e8121e8011e7f31e7f11e7eb1e7b51e7951e7a71e79f1e7701e76a1e8111e8001e7e81e7ea1e7ee1e7e21e78a1e7ab1eba01e8091e7fa1e7e91e7e51e7e61e7e71e7a0)
  (.lf
  0x81cf081a2081a10819f0819e081740817308171081700814608145081430814208117081160811408113080e8080e7080e5080e4080bb080ba080b8080b70808b0808a08088080870805d0805c0805a080590802f0802e0802c0802b0800007fff07ffd07ffc07fcf07fce07fcc07fcb07fa107fa007f9e07f9d07f7107f7007f6e07f6d07f4107f4007f3e07f3d07f1207f1107f0f07f0e07ee307ee207ee0))
  (.nd (.lf
  0x15d6f15d6e15d6d15d6b15d6a15d6915d6815d6715d6515d6415d6315d6115d5f15d5e15d6015d5d15d5b15d5a15d5915d5715d5615d5515d5415d5215d5115d4f15d4e15d4c15d4b15d4a15d4915d4715d4615d4515d4415d4215d4115d4015d3f15d3d15d3c15d3b15d3a15d3815d3515d33162bb161ca161c9161c5161c4161be161c0161bc161b8161b4161b3161ae161ac161a8161a9161a5161a11619c)
  (.lf
  0x7978066930668204d1704cf70f7170f5180ac6a0a921079970798407979066950668304cf204cd30f7060f51a0ac4c0a92307999079850797a066970668404cd404cb40f6f50f51c0ac300a9250799b079860797b066990668504caf04c900f6e40f51e0ac150a9270799d079870797c0669b0668604c9104c700f6d30f5200abf80a9290799f079880797d0669d0668704c7104c500f6c20f5220abdc0a941)))
  (.nd (.nd (.lf
  0x12d0e12cfd12cfb12cf212ce412ce312cc812cc712cc112cac12caa12ca912c7512c6d12c6c12c4e12c4c12c4a12c3312c3112c3012c1212c1012c0f12bf512bf312bf213842138401383e13819138181381213811138101380f1380913807137e5137e4137e2137da137ac137ab137a5137a2137901378f1378d1378513773137721376c1376a1374913748137461374113731137301372a13728136fe136fd)
  (.lf
  0x92db089c80a53a097630975709112089c60ace80a0590a019098fe092fe0a9770a0780a03809769092840b2550a7450a7430a079099210b2490a5870a5690a098098a30ba430adf80add00a7470a0e50ba630acf30acef0a5960a0e30c2770b4a00b4980ae0c0a74e0c2780b2860b27c0acf50a69a0ca3a0bc660bc5c0b4a50ae6b0c6800ba510ba490b28b0ae690d1fa0c4760c4720bc6d0b4cc0ce4b0c29c))
  (.nd (.lf
  0x262a0260e0260d0260b0260a025ec025eb025e9025e8025cb025ca025c8025c7025ab025aa025a8025a70258b0258a025880258702569025680256602565025460254502543025420252302522025200251f02500024ff024fd024fc024dd024dc024da024d9024bc024bb024b9024b80249c0249b02499024980247c00f6400f6100f4300f4000f2000f1d00eff00efc00edf00edc00ebf00ebc00e9d00e9a)
  (.lf 0)))

def shaXorOrder227 : BTree :=
  .nd (.nd (.nd (.lf
  0x324c0324a032370322903227032140320603204031f1031c3031c1031ae031a00319e0318b0315d0315b031480311a0311803105040d9040d7040c404076040740406104033040310401e03f7003f6e03f5b03f4d03f4b03f3803f0a03f0803ef503ec703ec503eb203ea403ea203e8f03e6103e5f03e4c03e3e03e3c03e29052300522e0522b0521d0521b052150520705205051fe051c8051c6051bf0519f)
  (.lf
  0x15c521524f14bba14baf14bad16bd515c531524714b7f14b6e14b6b16bcf15c3c1523e14b8114b6f14b6c16bcb15c3d1523814b8314b7014b6d16bc315b981520e14bae14b8514b7116bbd15b84151fa14b4114b3b16bba15b60151e614b3d14b3c16bb315b35151d714b1b14b1a16bae15b36151c414b2714b0316ba815b37151b214b0414b0116b2615b38151a014b0514b0216b2215b391518f14b0f14b0e))
  (.nd (.lf
  0xb7560b7420b7410b73f0b7390b7210b7200b71e0b7190b7000b6ff0b6fd0b6f90b6e00b6df0b6dd0b6db0b6cf0b5780b5760b5750b5740b5730b5710b5700b56f0b56e0b56c0b56b0b56a0b5690b5670b5660b5650b5640b5620b5610b5600b55f0b55d0b55c0b55b0b55a0b5580b5570b5560b5550b5530b5520b5510b5500b54e0b54d0b54c0b54b0b5490b5480b5470b5460b5440b5430b5420b5410b53f)
  (.lf 0))) (.nd (.nd (.lf
  0x20d1620d1420d1120dad20d1020d0e20d0d20d0c20d0a20d0920d0820d1320d0720d0520d0420d0320d0120d0020cff20cfe20cfc20cf920cf820cfb20cf720cf520cf220cf120cee20ced20cec20cf020ceb20ce920ce820cf320ce720ce520ce420ce320ce120cdf20cde20cdd20cdb20cda20cd920d2820cd820cd620cd520d2a20cd420cd220cd120d1920cd020cce20ccd20ccc20cca20b1e20b1d20b1c)
  (.lf
  0xbc1c0da820d86c0cb290cb270c3cc0bccb0bcca0da7d0d8520cb1f0cb1d0c3c20bc7d0bbe30da730d8360cb160cb140c3b80bc7f0bbda0da700d81a0cb0d0cb0b0c3ae0bc810bbdb0da580d7fe0cb040cb020c3a40bc830bbdc0da530d7e20cafb0caf90c39a0bc850bbdd0da4f0d7c60caf20caf00c38f0bca20bca10da4a0da070cad50cabb0c3850bc1f0bacc0da440d9fc0cad60cabc0c37b0bc210bac1))
  (.nd (.lf
  0x1569915698156951568e1568d1568a15683156821567f1567815677156741566d1566c1566915662156611565e1565715656156531564c157901578e1578d157861578515783157821577b1577a1577815777157701576f1576d1576c157651576415762157611575a1575915757157561574f1574e1574c1574b15744157431574115740157391573815736157351572e1572d1572b1572a157231572215720)
  (.lf 0)))

def shaXorOrder228 : BTree :=
  .nd (.nd (.nd (.lf
  0x55e4055e2055d6055d405ca305ca005c9405c9105c6105c5e05c0e05c0c05bcd05bcb05bbf05bbd05bb105baf05ba305ba105b9505b9205b8605b8305b7705b7405b4405b4105b2405b2205b0505b0305af705af50620f0620d06201061ff061f3061f1061e5061e3061d7061d5061a4061a206195061930616306161060ef060ed060e1060df060d3060d1060b4060b20817d0817b0814f0814d080f1080ef)
  (.lf
  0x810e0810d08104080df080de080d5080b2080b1080a808082080810807808054080530804a08026080250801c07ff707ff607fed07fc607fc507fbc07f9807f9707f8e07f6807f6707f5e07f3807f3707f2e07f0907f0807eff07eda07ed907ed007ea907ea807e9f07e7b07e7a07e7107e4b07e4a07e4107e1d07e1c07e1307def07dee07de507dc007dbf07db607d8f07d8e07d8507d5f07d5e07d5507d30))
  (.nd (.lf
  0x18a1718a1618a1518a1318a1218a1118a1018a0e18a0d18a0c18a0b18a0918a0818a0718a0618a0418a00189ff189fe189fc189fb189fa18a02189f9189f7189f618a01189f5189f3189f2189f1189ef189ee189ed189ec189ea189e9189e818a03189e7189e5189e418a2d189e3189e1189e0189df189dd189dc189db189da189d8189d6189d5189d4189d2189d1189d0189cf189cd189cc189cb189ca189c8)
  (.lf
  0xaa460a95d079bd0667604a7404a560f5ba0f5400aa280a95f079bf0667704a5104a320f5a90f5420aa0a0a961079c10667804a3304a120f5970f5440a9ee0a963079c30667904a13049f20f5850f5460a9d10a965079c50667a049f3049d220c4320c3b206c9204c41fb181fb151fb131fb0f1fb0e1fb0d20c4720c1e206c5205291fb311fb281fb071fb031fb001faff20c0520bfc206c1204ad1fad61fad4)))
  (.nd (.nd (.lf
  0x188b4188b3188a71888d1887a18877188691883618835188261881518810187fb187db187c9187c7187d2187b3187a0187e318793187901876d18763187611874a187481873f187321872f1872d18751187111870f186f8186f5186f4186f3186ea186e9186e8186e6186e1186e01869e1869d18694186921868d1867d1867b186771864b18649186431864218640185bb185ba185a2185a01859e1857918577)
  (.lf
  0x11790116700e1500e1301da20177f0117b0116800df500df101da3017800117d0116900dd200dd001da4017810117f0116a00daf00dad01da501782011810116b00d8c00d8a01da601783011830116c00d6c00d6801da701784011850116d00d4900d4701da801785011870116e00d2900d2501da901786011890116f00d0900d0501daa017870118b0117000ce900ce501dab017880118d0115100cc600cc4))
  (.nd (.lf
  0x46ca046ac046ab046a9046a80468b0468a04688046870466b0466a04668046670464b0464a04648046470462b0462a046280462704609046080460604605045e6045e5045e3045e2045c5045c4045c2045c1045a5045a4045a2045a1045850458404582045810456304562045600455f045400453f0453d0453c0451f0451e0451c0451b044ff044fe044fc044fb044df044de044dc044db044bf044be044bc)
  (.lf 0)))

def shaXorOrder229 : BTree :=
  .nd (.nd (.nd (.lf
  0x17eeb17ee917ee517ee317efd17edf17edd17ce117cd717cd217cca17cc817cc317c8b17c8717c8617c0917c0017bfe188ee188ec188ea1888918887188851883c1883a1881b1881918817187f5187b7187b51879f187501874e18739186d3186d1186cc186ca186c8186bb1859b185991858d1851718515185081997719974199731996b1996919966199641995f1995e1995d1992f1992b199271992319921)
  (.lf
  0x1c2e61c2cc1b8b21b0021ac921c2e31c2c31b8a31af321ac941c2dc1c2cb1b88d1af091ac961dd881c8761c8291be051b5161b50d1b50b1dd2a1c8711c8231be3c1b5181b50e1b50c1dcd51c86a1c81e1bdf11b4cc1b4b71b4b51dc7b1c8671c8031bde41b4ce1b4b81b4b61dc361c8611c7ed1be141b59f1b4861b4831dbef1c84b1c7cf1bdc41b4431b4401dbae1c7c71c7c01bdc81b4311b4301db981c7bd))
  (.nd (.lf
  0xe1bc0e1bb0e2530e1770e1750e1740e1d30e1730e1710e1700e21e0e16f0e16d0e1590e1d90e1580e1560e1380e13a0e1370e1350e12c0e12b0e1290e10f0e0ed0e0ef0e0ec0e0ea0e0e30e0cc0e0ca0e0c80e0a90e0ab0e0a80e0a60e0850e0870e0840e0820e0620e0640e0610e05f0e03e0e0400e03d0e03b0e01b0e01d0e01a0e0180dff90dffb0dff80dff60dfd80dfda0dfd70dfd50dfcf0dfce0dfb4)
  (.lf
  0x12a1612a0b0e75c0e59b0be760be66097aa0973b1344a132e912a2912a1712a0c0e7500e59d0be780be67097a5097361343f132eb12a2b12a1812a0d0e7440e59f0be7a0be68097a00973113434132ed12a2d12a1912a0e0e7380e5a10be7c0be690979b0972813429132ef12a2f12a1a12a0f0e72c0e5a30be7e0be6a09796097201341e132f112a3112a1b12a100e7200e5a50be800be6b097910971a13413)))
  (.nd (.nd (.lf
  0x40ae040a5040a30408e04085040830406604064040630404b04042040400402304021040200400803fff03ffd03fe803fdf03fdd03fc803fbf03fbd03fa803f9f03f9d03f8803f7f03f7d03f6003f5e03f5d03f3d03f3b03f3a03f2203f1903f1703efa03ef803ef703edf03ed603ed403eb703eb503eb403e9403e9203e9103e7903e7003e6e03e5103e4f03e4e03e2e03e2c03e2b03e1303e0a03e0803df3)
  (.lf
  0x1104e12fad12f9a11ea711e9f118b7110421103e1103d12fa812f9d11ea811ea0118b810ffc10ff810ff712fa312f9311ea911ea1118b910fcc10fc810fc712f8e12f5f11eaa11ea2118ba10fbc10fb810fb712f5a12f1611e8111e7f118bb10f8e10f8a10f8912f1212ee811e7111e6f118bc10f6f10f6e10f6312ee312eb611e2011e18118bd10f4c10f4910f4812ead12e9011e2111e19118be10ed610ed5))
  (.nd (.lf
  0x1963519632196311962f1962d1962c1962919628196271961519614196131961119601195ff195ed195ec195eb195e9195dc195da195ce195cd195cc195ca195c0195be195ae195ad195ac195aa1959a195981958619585195841958219572195701955e1955d1955c1955a1954c1954a195471952b1952a195271950a1950919506194ea194e9194e6194cc194cb194c8194b0194af19481194801947f1947d)
  (.lf 0)))

def shaXorOrder230 : BTree :=
  .nd (.nd (.nd (.lf
  0x1e94e1e9561e9541e9551e9101e8ba1f2db1f2d41f2c81f2481f2441f23a1f23c1f22d1f22e1f2201f1f11f1ea1f1e31f1e01f1d71f1f41f1c11f1a71f0b41f0a61f0a11f0991f0941f08e1f1371f09b1f07d1f0cd1f0121ef631f8471f8411f83a1f8321f7f71f7f91f7f01f7e51f7e01f7e61f7d91f7ce1f7fb1f7a21f79b1f7961f7911f7a31f7841f7731f7701f75f1f6f51f6f41f8601f6b61f6f81f6b8)
  (.lf
  0x6ff20147507286071f40701606ffe06ff30145507281071f60701806fff06ff4014350727c071f80701a070000141507277071fa0701c07001013f507272071fc0701e06fdf013d50726d071fe0702006fe1013b607268072000702206fe30139307263072020702406fe5013700725e072040702606fe60134d07259072060702806fe70132a07254072080702a06fe8013060724f0720a0702c06fe9012e7))
  (.nd (.lf
  0x137c2137bc137bb1371e1371b137181375713716137121370a13708136b5136b4136b0136be136af136ab136a6136a513615136121360e1360d13609136081360413603135ff135fe135f6135d6135d5135db135d1135cd134eb134ef134ea134e6134e4134e0134be13562134bb134b7134b2134d7134b1134ad134a8134a7134a2134a11349c1383b1383913838138371383613834137ff137fe137fd137fb)
  (.lf
  0x14c65146f3146111c70e1c5d11c2831c26a1c25f17437173ea14c7e14c66146ed1460f1c7061c5d31c2851c26b17432173cd14c8014c67146e7146161c7011c5d51c2871c26c1742b173af14c8214c3e146e1146171c6fb1c5d71c2891c24a174271738b14c8414c40146db146341c6f61c5d91c28b1c24c174221736c14c8614c42146d5146151c6e91c5db1c28d1c24e1741c1734a14c8814c44146cf14633)))
  (.nd (.nd (.lf
  0xe3220e3200e2fe0e3080e2fd0e2fb0e2dd0e2dc0e2da0e2d80e2c00e2ca0e2be0e2bc0e2af0e2ae0e2ac0e2a10e2970e2910e28b0e2890e2730e2750e2720e2700e25a0e2640e2590e2570e2350e2340e2320e2310e22f0e24c0e22e0e22c0e1f10e1f00e1eb0e1dd0e1510e14b0e1410e13f0e1160e1180e1150e1120e0f80e1020e0f70e0f50e0d30e0d20e0d00e0ce0e0b30e0bd0e0b10e0af0e0900e093)
  (.lf
  0x1db1d1bd1f1b5971b3aa1b3a91e83f1e4461daf41daf21bc711b5981b3491e82a1e4411dacf1dacc1bc641b56e1b30d1e8271e43d1dab21dab01bd741b5561b2d81e81b1e4361daa01da9e1bc561b5451b2cc1e8141e4371da7a1da6a1bc411b5321b2b61e6f31e42b1da5b1da591bc471b4741b2971e6e91e42c1da431da3f1bc351b41b1b2381e41b1e4191da1f1da1c1bc281b40a1b2231e4131e36d1d9ff))
  (.nd (.lf
  0x57e0057300572005700056f0056400563005610056000556005550055300552005480054700545005440053a0053900537005360052a0052900527005260051b0051a00518005170050b0050a0050800507004fc004fb004f9004f8004ee004ed004eb004ea004e0004df004dd004dc004d0004cf004cd004cc004c1004c0004be004bd004b1004b0004ae004ad004a2004a10049f0049e004940049300491)
  (.lf 0)))

def shaXorOrder231 : BTree :=
  .nd (.nd (.nd (.lf
  0x312b0310c030e803adf03abc03a9d03a7a03a5603a3603a16039f6039d6039b60399603976039570393403911038ee038ca038ab0388703868038440382503801037e2037be0379e0377f03760037420372504109040ea040cb040a7040870406804044040250400103fe103fc103fa103f8103f6203f3f03f1b03efc03ed803eb903e9603e7203e5303e3003e0c03dec03dcc03dac03d8c03d6c03d4c04738)
  (.lf
  0xe2480da6a0d5130d4fc0f7c20e1e90da630d5150d4fd0f7be0e1480da640d5170d4fe0f7b90e1270da650d5190d4ff0f7b10e0ff0da660d51b0d5000f7ab0e0e10da3f0d51d0d4e10f7a40e0ba0da320d51f0d4e20f79e0e09e0da330d5210d4e30f7990e0740da340d5230d4e40f7950e0570da350d5250d4e50f78e0e02d0da360d5270d4e60f7880e0100da370d5290d4e70f7830dfe70da060d52b0f77f))
  (.nd (.lf
  0x935d0935c0935b09359093580935709356093540935309352093510934f0934e0934d0934c0934a09349093480934709345093440934309342093400933f0933e0933d0933b0933a09339093380933609335093340933309331093300932f0932e0932c0932b0932a09329093270932609325093240932209321093200931f0931d0931c0931b0931a09318093170931609315093130931209311093100930e)
  (.lf 0))) (.nd (.nd (.lf
  0x1ed3d1ed3b1ed271ed261ed251ed211ed0d1ed0c1ed0b1ed091ecb91ecb71ecb61ecb41ecb31ecb21ecd21ecb11ecaf1ecae1eca11eca01ec9e1ec9d1ecbd1ec9c1ec9a1ec991eca31ec981ec961ec951ec941ec921ec871ec861ec851ec7a1ec781ec771ec761ec361ec341ec331ec321ec301ec2f1ec2d1ec2c1ec2a1ec281ec271ec261ec241ec231ec211ec201ec1e1ec1d1ec1b1ec1a1ec181ec161ec15)
  (.lf
  0x8df908402083ce0640705ecd0912e08dd608403083cf0640805ecf091340912b08404083d00640905ed109125090f708405083d10640a05ed309121090f808335083330640b05ed50911d090fa0832e0832c0640c05ed709118090f608323083210640d05ed90911408cf50831a083180640e05edb08cc808cb0083110830f0640f05edd097c6096360894c08920084070645f0641f06414097b20962a0894d))
  (.nd (.lf
  0xf4620f45b0f45a0f4580f4570f4500f44f0f44d0f44c0f4450f4440f4420f4410f43a0f4390f4370f4360f42f0f42e0f42c0f42b0f4240f4230f4210f4200f4190f4180f4160f4150f40e0f40d0f40b0f40a0f4030f4020f4000f3ff0f3f80f3f70f3f50f3f40f3ed0f3ec0f3ea0f3e90f3e20f3e10f3df0f3de0f3d70f3d60f3d40f3d30f3cc0f3cb0f3c90f3c80f3c10f3c00f3be0f3bd0f3b60f3b50f3b3)
  (.lf 0)))

def shaXorOrder232 : BTree :=
  .nd (.nd (.nd (.lf
  0x17c6c17c5f17c5e17c121895b1893f1893e1892418883188811886e18851187d0187b81879e1878b18776187601873718721187201870e186b9186ab186aa186971869618681186801866b185b9185ac1858b1857e185761856a1854518533184e7184e219122191201911c19118190231901f1901e1901c190161900518fec18fdb18ee218ee018e8f18e8918d9418d9118d8f18d8d18d8c18d8918d8818d00)
  (.lf
  0x763907636076350763407631076300762f0762c0762b0762a0762707626076250762207621076200761d0761c0761b0761807617076160761307612076110760e0760d0760c076090760807607076040760307602075ff075fe075fd075fa075f9075f8075f5075f40ca2c0ca2a0ca1b0ca140ca130ca110c9fe0c9f70c9f60c9f40c9e00c9d90c9d80c9d60c9c40c9bd0c9bc0c9ba0c9a90c9a20c9a10c99f))
  (.nd (.lf
  0x1a1881a1871a1861a1841a1811a1591a1581a1561a1551a1541a1531a1511a14f1a14e1a14d1a14a1a1491a1481a1471a1451a1441a1431a1421a1401a13f1a13e1a1a91a13d1a13b1a13a1a1391a1371a1361a1351a15a1a1341a1321a1311a1301a1181a1171a1131a1101a0f71a0f51a0c61a0c51a0c31a0c21a0c01a0bf1a0bd1a0ae1a0ad1a0ac1a0961a09319eaf19eb119eae19eac19e9719e9619e7d)
  (.lf
  0x102300a4600a3d00a32009d0020c4020a501606015c60102400a4800a3e00a33009d1020ac0208601607015c70102500a4a00a3f009d2020810206301608015c80102600a4c00a40009d30205e0203f01609015c90102700a4e00a41009d402046020200160a015ca0102800a5000a42009d50201b01ffd0160b015cb0102900a5200a43009d601ff801fd90160c015cc0102a00a5400a44009d701fe001fb9)))
  (.nd (.nd (.lf
  0x1af691af661af501af451af441af421af261af271af251af231aefb1af001aefa1aef81ae2b1b5061b5051b5021b5011b4ff1b4fa1b4f81b4af1b4ad1b4a01b49e1b49c1b4621b45f1b45d1b4471b43e1b4391b4381b4361b42b1b42a1b3fd1b3fb1b3821b37d1b37a1b35e1b35b1b3571b3891b3501b34e1b3241b3221b3201b3031b2fc1b2fa1b2f11b2eb1b2ea1b2e91b2e41b2dc1b2db1b2d91b2ba1b219)
  (.lf
  0x42cb03cc1036d7036c503375042cc03cc2036d9036c603352042cd03cc3036db036c70332f042ce03cc4036dd036c80330b042cf03cc5036df036c9032eb042d003cc6036e1036ca032cb042d103cc7036e3036cb032ac042d203cc8036e5036cc03288042d303cc9036e7036cd03269042d403cca036e9036ce03246042d503ccb036eb036af03223042d603ccc036ed036b003200042d703ccd036ef036b1))
  (.nd (.lf
  0x51bd051b6051b5051b3051aa051a3051a2051a0051940518d0518c0518a051810517a05179051770516b051640516305161051560514f0514e0514c0513f0513805137051350512a051230512205120051130510c0510b0510905100050f9050f8050f6050ec050e5050e4050e2050d8050d1050d0050ce050c3050bc050bb050b9050af050a8050a7050a50509805091050900508e050830507c0507b05079)
  (.lf 0)))

def shaXorOrder233 : BTree :=
  .nd (.nd (.nd (.lf
  0x9a4809a4a09a4c09a4e09a5009a5209a5409a5609a5809a5a09a5c09a5e09a6009a6209a6409a6609a6809a6a0a2cc0a2ce0a2d00a2d20a2d40a2d60a2d80a2da0a2dc0a2de0a2e00a2e20a2e40a2e60a2e80a2ea0a2ec0a2ee0a2f00a2f20a2f40a2f60a2f80a2fa0a2fc0a2fe0a3000a3020a3040a3060a8410a8430a8450a8470a8490a84b0a84d0a84f0a8510a8530a8550a8570a8590a85b0a85d0a85f)
  (.lf
  0x1eedb1eeda1f9e81f4b71efff1ef861eed11eed01f9f81f4b91effc1effb1eff81eff71f9d71f4461efba1eb651eb611eb601f9521f43d1efa71eb571eb531eb521f8fc1f4311ef941eb441eb3a1eb391f8b21f4201ef871eb3f1eb321eb311f8a11f41b1ef5c1eafc1eaed1eaec1f89a1f3fb1ef421eb051eadf1eade1f8c91f4031efe71eacb1eac71eac61f7531f1141ef361ea0d1e9a71e9a31f72c1f103))
  (.nd (.lf
  0xebaf0ebae0ebad0ebab0ebaa0eadc0ff3e0ff1e0ff1d0ff1c0ff1b0ff190ff180ff0b0ff0a0ff080ff070fefb0fefa0fef80fef70feec0feeb0fee90fee80fedb0feda0fed80fed70fec90fec80fec60fec50feb70feb60feb40feb30fea50fea40fea20fea10fe950fe940fe920fe910fe840fe830fe810fe800fe720fe710fe6f0fe6e0fe620fe610fe5f0fe5e0fe510fe500fe4e0fe4d0fe3f0fe3e0fe3c)
  (.lf
  0xddfd0ddb90d0450d038156ee1562914d6f14d300f1b20f0ed0ddff0ddbb0d0270d01b156e31562b14d7114d320f1a70f0ef0de010ddbd0d00a0cffd156d81562d14d7314d330f19c0f0f10de030ddbf0cfec0cfde156cd1562f14d7514d340f1910f0f30de050ddc10cfce0cfc0156c21563114d7714d350f1860f0f50de070ddc30cfaf0cfa1156b71563314d7914d360f17b0f0f70de090ddc50cf900cf82)))
  (.nd (.nd (.lf
  0x5d9105d9b05d9005d8e05d8d05d8c05d8b05d8905d8805d8705d8505d8405cf605cf505cf305cf205ce105d7d05d7a05d7905d7805d7605d7505d7305d7105d6f05d6e05d6d05d6b05d6905d6705d6605d6305d6105d5f05d5e05d5b05d5a05d5905d5805d5605d5405d5205d5005d4f05d4c05d4b05d6405d4a05d4805d4605d4305d4105d4005d3d05d3c05d3b05d3805d3605d3505d3405d3205d3705d30)
  (.lf
  0x13e011352a12fdf14f3c14f3713dfc13dfa1352b12fd114f3e14f2213ded13deb1352c12fbe14f1e14f0613d9513d93134ce12f8015c4915bf1149d2149d0143e41384c138471384615c4315bea149c0149be143bb138261381c1381a15c4015be8149aa149a8143a5138281381d1381b15bb115b9014964149621438c137ec137e7137e615b8b15b71149701496e1435b137b3137ae137ad15b6615b501497c))
  (.nd (.lf
  0x1b0ba1b0b21b0b31b0b11b0af1b0ae1b0ad1b0ab1b0aa1b0a21b0a11b09f1b0971b0961b0951b0931b0921b08a1b0891b0871b0761b0741b0771b0731b0711b0701b06f1b0691b0681b0651b0641b0621b05c1b05a1b0591b0361b0351b0341b0331afc01afbe1afbd1afc31afbc1afba1afb91afb81afb61afa71af9a1af991af971af951af791af781af761af561af551af541af521af4e1af371af361af34)
  (.lf 0)))

def shaXorOrder234 : BTree :=
  .nd (.nd (.nd (.lf
  0xa69b0a74f0a7380a7210a70b0a6f50a6df0a6c90a6b30a69d0ae420ae440ae460ae480ae4a0ae4c0ae4e0ae500ae520ae540ae560ae580ae5a0ae5c0ae5e0ae600ae620ae640ae660ae680ae6a0ae6c0ae6e0ae700ae720ae740ae760ae780ae7a0ae7c0b4a20b4b90b4bb0b4bd0b4bf0b4c10b47d0b45b0b45d0b45f0b5130b4610b4c30b4c50b4c70b4c90b4cb0b47f0b4630b5150b4650b4cd0b4cf0b4d1)
  (.lf
  0x72220721c011bd0731c0730f018c7073170731101896074110740401e5a0740c0740601e4207b17074a2073cf07597074c40666208c500768c075b907781076ae069b509b0607876077a320c3d208cb20a212097f2097c2097920a1b2096d209692096520a1720952209512094f20a1320891208862088420a4620a0d208542085220a0a208562084820a032084220841209ff2082620825209fb2081b2081a))
  (.nd (.lf
  0x1445214451144501444e1444d1444c1444b14449144481444714446144441444314442144411443f1443e1443d1443c1443a14439144381443714435144341443314432144301442f1442e1442d1442b1442a144291442814426144251442314422144201441f1441e1441d1441b1441a1441914418144161441514414144241441314411144101440f1440d1440c1440b1440a1440814405144041440714403)
  (.lf
  0x19f4117407173d5173cc173cb173be1d58c1d43b1d1a51d1941d1891a07d19f43173ae173ad173a1173a01d56d1d43d1d1a71d1951d18a1a07819f451738a173891737f1737d1d5661d43f1d1a91d1961d18b1a07319ff01736b1736a1735b1735a1d5611d4411d1ab1d1971d18c1a06e19f4717349173481733c173381d55d1d4431d1ad1d1981d18d1a06919ff21740a173241731e1731c1d5551d4451d1af)))
  (.nd (.nd (.lf
  0x106971109b11099110831106111059110571105611049110481104611038110011100010ffe10ff210fd210fd110fcf10fce10fc210fc110fbf10fb210f9810f9710f9510f8410f5d10f6210f5c10f5910f5310f5210f5010f4310edc10edb10ed910ecf10ead10eac10eaa10ea310e9910e9810e9610e9010e8410e8310e8110e7b10e4710e4610e4410e3e10e2410e2310e2110e1b10dfb10dfa10df710df1)
  (.lf
  0x1ed151ed1320822207d21fab51f3331ecde1ecdd1ecdc2081f207c71fa9a1f3201ed001ecfa1ecf920814207ea1faf71f30d1ecf21ecee1eced20809207f11fb3a1f3131ee4d1edd01edbe20801207f31f9ce1f3091edc11ecc8207f8207a21f9be1f2f51edb21eca62079b207951f9b61f2ef1eda71ec91207872070a1f9fb1f3d31ed831ec8020707206f71f9a51f2be1ed8b1ec6220702206f21f9c21f1ca))
  (.nd (.lf
  0xa7000a3000a20009e0009d000990009800094000930008f0008e0008a000890008500084000800007f0007b0007a000760007500071000700006c0006b000670006600062000610005d0005c000580005700053000520004e0004d000490004800044000430003f0003e0003a000390003500034000300002f0002b0002a000260002500021015ab015a9015960158f0158e0158c015740156d0156c0156a)
  (.lf 0)))

def shaXorOrder235 : BTree :=
  .nd (.nd (.nd (.lf
  0x1522d152241522e15209151f3151ef151de151bf151ad151a91518a151791516a153181514d1513f15132151241511a15106150fc150e9150d414fd514f9014f9a14f5314f4714f1615bfa15bf515c1c15bb715b9a15b6b15b4215b1015ab915abc15aba15ad315a9c15a8415a0a15a0415a0c159fb159f415a2d159da159cc1596a1595e1595d15933158fb158fc157f6157d8162b3162ae162a8162a21629d)
  (.lf
  0x11ffd117ec110aa110a712f0011ffe117ed110ac110a812e6111fff117ee10ee910ee112e5d120001180010eea10ee212e3d120011171f10eeb10ee312e38120021170f1117810ee412e111200311710110ae10ee512e0e1200411711110b010ee612d6c1200511712110b210ee712d681200611713110b410ee812d6111fa4116af1117a10dbd12d5d11fa51169d110b610dbe12d3811bf81168a110b810dbf))
  (.nd (.lf
  0xa8990a8980a8970a8950a8940a8930a8920a8900a88f0a88e0a88d0a88b0a88a0a8890a8880a8860a8850a8840a8830a8810a8800a87f0acd60acc90acb90acac0ac9d0ac8f0ac800ac710ac620ac530ac440ac370ac280ac1c0ac0d0abff0abf00abe30abd30abc50abb50aba60ab960ab890ab790ab6d0ab5d0ab510ab410ab350ab250ab170ab070aafa0aaea0aadc0aacc0aabf0aaaf0aaa10aa920aa85)
  (.lf 0))) (.nd (.nd (.lf
  0x1fe4e1fe4d1fe4f1fe4c1fe4a1fe491fe481fe461fe2a1fe291fe281fe261fe1d1fdec1fdee1fdeb1fde91fd891fd881fd861fd841fd831fd8a1fd821fd801fd7f1fd7e1fd7c1fd7b1fd751fd741fd511fd4f1fce31fce21fcd21fccd1fc981fc971fc861fc7b1fc6f1fc6e1fc6c1fc651fc421fc481fc401fc3e1fc2e1fc2d1fc201fc1e1fc021eec31eec01eebe1eebb1eeb91eeb51eeb41eeb31eeb21eeae)
  (.lf
  0xb34b0b2370a5790a55b0a08a098cc098460b3470b2350a57a0a55c0a08b09895098520b3420b28c0a57b0a55d0a08c09897098400b33c0b3320a57c0a55e0a08d09899098410b3380b2470a57d0a55f0a08e099030989b0b3250b2460a57e0a5600a08f0989d0b3330b3100a57f0a5610a090099170b32d0b30b0a5800a5620a091099190b3070b2950a5810a5630a0920991b0b3010b2910a5820a5640a093))
  (.nd (.lf
  0x1323313232132311322e1322d1322c1322913228132271322413223132221321f1321e1321d1321a1321913218132151321413213132101320f1320e1320b1320a132091320613205132041320113200131ff131fc131fb131fa131f7131f6131f5131f2131f1131f0131ed131ec131eb131e8131e7131e6131e3131e2131e1131de131dd131dc131d9131d813d3513d3213d2c13d2b13d2813d2113d2013d1d)
  (.lf 0)))

def shaXorOrder236 : BTree :=
  .nd (.nd (.nd (.lf
  0x14d9914d8e1578c15781157761576b15760157551574a1573f15734157291571e1571315708156fd156f2156e7156dc156d1156c6156bb156b0156a51569a1568f15684156791566e15663156581564d1605d16052160471603c16031160261601b160101600515ffa15fef15fe415fd915fce15fc315fb815fad15fa215f9715f8c15f8115f7615f6b15f6015f5515f4a15f3f15f3415f2915f1e168b61689a)
  (.lf
  0x6dc806dc106dc006dbe06db706db006daf06dad06da606d9f06d9e06d9c06d9506d8e06d8d06d8b06d8406d7d06d7c06d7a06d7306d6c06d6b06d6906d6206d5b06d5a06d5806d5106d4a06d4906d4706d4006d3906d3806d3606d2f06d2806d2706d2506d1e06d1706d1606d1406d0d06d0606d0506d0306cfc06cf506cf406cf206ceb06ce406ce306ce106cda06cd306cd206cd006cc906cc206cc106cbf))
  (.nd (.lf
  0x171d6171cb171ca171c9171c4171ba171b9171b7171b6171a9171a8171a6171a2171971719617194171921718917188171871718417179171781717617175171741717317171171701716f1716e1716c1716b171681716717165171621712a171291712717126171251704a170481704617045170441704217041170401703f1703d1703c1703b1703a17038170371703617035170331703217031170301702e)
  (.lf
  0x1709a103cc0f7a70f5e70f5e50f5e417a0e179661709c103ce0f79f0f5d50f5d30f5d217a0b179681709e103cf0f7980f5c30f5c10f5c0179f21796a170a0103d00f7940f77e0f5b10f5af1799f1796c170a2103d10f78f0f5a00f59e0f59d1799c1796e170a4103d20f7890f58e0f58c0f58b1799617970170a6103d30f7820f77c0f57c0f57a182951821917969127c2127840f0c80f0480f013182911821b)))
  (.nd (.nd (.lf
  0x15a9815a9715a8215a8015a7f15a2b15a2915a2715a2615a2415a2215a2115a1f15a1d15a1c15a1a15a1815a1715a1515a1315a1215a1015a0f159eb159e8159e5159ca159c8159c71596815966159651595b1595915957159561595415953159311592f1592e158ce158cc158cb158c0158be158bd157f4157f2157f1157d6157d4157d31663f166311662f1662e1662d166211661f1661e1661d1661b165ed)
  (.lf
  0x32aa0328b08e9608c8a07727076cd075dd0759d0328c0326c08e7408c8c07722076cf075df0759e032670324908e5008c8e0771d076d1075e10759f032440322608e2b08c9007718076d3075e3075a0032210320308e0608c9207713076d5075e5031fe031df08de308c940770e076d7075e7031e0031c008dbf08c9607709076d9075e9031bb0319d08d9b08c9807704076db075eb031980317908d7708c9a))
  (.nd (.lf
  0x325803251032500324e032350322e0322d0322b032120320b0320a03208031ef031e8031e7031e5031ce031c7031c6031c4031ac031a5031a4031a20318903182031810317f0316803161031600315e031460313f0313e0313c031250311e0311d0311b03103030fc030fb030f9030e2030df030100300e0300d0300c0300b030090300803007030060300403003030020300102fff02ffe02ffd02ffc02ffa)
  (.lf 0)))

def shaXorOrder237 : BTree :=
  .nd (.nd (.nd (.lf
  0x10b6c10b58114e1114d4114d2123161230d1230b12c1612c1412c0d1465f1465d1464914f9814f9614f86157d1157cf157bb17bf617bea17be9184b8184b6184b31941f1941b1941a1a7961a5a21a5851b8951b70c1b7091d8bf1d8b91d8b71dcc31dca91dca61e1fb1e1f91e1f61fc9a1fc291fc27202742026f2026d0158b0158901576015680156601553015250152301510014e2014e0014cd014bf014bd)
  (.lf
  0x19fc319f3b1908a187de17f6e17f6919fbd19f041908b187d517f6f17f6a19fb719efe18ffc187e617f7017f6b19fb119f001910b1877017f7117f6c19fac19ef218f481874d180bb17cfc1a08f19fa618f2418733180a617cf51a08c19fa218f2a187541804617cf619f9e19ee218f1e186fc1804817cf71a11419f9818eb7186ee1804a17cbe1a0f319f9418e9a186e5180bd17cbf19f9019ed218e9b186a1))
  (.nd (.lf
  0xcdac0cdab0cdaa0cda80cda70cda60cda50cda30cda20cda10cda00cd9e0cd9d0cd9c0cd9b0cd990cd980cd970cd960cd940cd930cd920cd910cd8f0cd8e0cd8d0cd8c0cd8a0cd890cd880cd870cd850cd840cd830cd820cd800cd7f0cd7e0cd7d0cd7b0cd7a0cd790cd780cd760cd750cd740cd730cd710cd700cd6f0cd6e0cd6c0cd6b0cd6a0cd690cd670cd660cd650cd640cd620cd610cd600cd5f0cd5d)
  (.lf
  0x9b2d08f8108f7f08f7908f6e104e3104c90c1200be7509b4709b2e08f5f08f5d08f5708f4c104e5104ca0c0ff0be7709b4909b0508f3d08f3b08f3508f2a104e7104a80c0df0be7909b4b09b0708f1b08f1908f1308f08104e9104aa0c0bf0be7b09b4d09b0908ef908ef708ef108ee4104eb104ac0c09d0be7d09b4f09b0b08ed508ed308ecd08ebf104ed104ae0c07a0be7f09b5109b0d08eb008eae08ea8)))
  (.nd (.nd (.lf
  0x20a202085020830208202062020600205f020470203e0203c0201f0201d0201c01ffc01ffa01ff901fe101fd801fd601fc101fb801fb601fa101f9801f9601f8101f7801f7601f5901f5701f5601f3e01f3501f3301f1e01f1501f1301ef601ef401ef301edb01ed201ed001eb301eb101eb001e9001e8e01e8d01e7501e6c01e6a01e4d01e4b01e4a0285502853028520283302832028300282f0281402813)
  (.lf
  0xfad00eb410e3300e32b0e32a10a69109a20fb0b0fad10eb5c0e3130e30e0e30d10a641099a0fb0c0fad20ea960e2e60e2e30e2e210a5f109900fb0d0fad30eaab0e2d10e2d00e2cf10a5a109760fb0e0fad40ea970e41e0e2a70e2a610a551094e0fb0f0fad50eaa50e41f0e29610a501090f0fb100fad60ea980e3fd0e27a10a4b108fd0fb110fad70ea9f0e3e10e26910a46108750fb120fad80ea990e3bd))
  (.nd (.lf
  0x17151171501714f1714d1714c17146171451713e1713d1713c1713b1713517134171331713217130170b3170b116cba16cb716cb616cb516cb116cb016cb216caf16cac16cab16ca816ca716ca516ca216ca116ca016c9f16c9c16c9b16c9716c9616c9516c9216c9116ca616c9016c8d16c8c16c8816c8716c8916c8616c8316c9816c8216c7f16c7e16c7b16c7a16c7916c7616c7516c7416c7016c6f16c71)
  (.lf 0)))

def shaXorOrder238 : BTree :=
  .nd (.nd (.nd (.lf
  0xb7e20b7c70b7aa0b78e0b7710b7550b7380b7180b6f80b6da0c25b0c23e0c2220c2050c1e90c1cd0c1ad0c18d0c16d0c14b0c1280c1070c0e70c0c70c0a50c0820c05f0c03e0c01e0bffe0bfdc0bfb90bf980bf780bf560bf330bf120bef00becf0beae0ca1e0ca010c9e30c9c70c9ac0c9910c9750c9570c9370c9170c8f70c8d70c8b70c8960c8730c8520c8320c8100c7ef0c7cf0c7ad0c78a0c7670c744)
  (.lf
  0x203d700ce300cbd0083e203d000cb800c9900840203cc00ca000c7900842203c700c8000c5a00844203c300c5500c3600846203b800c3d00c16008481fd1d00c1d00bf70084a1fd1a00bf200bd30084c1fcca00bda00bb30084e1fcb700bba00b93008501fc1900b9a00b840085220a20209780073700341000b40001f20a1c209710073800342000af0001e20a18209720073900343000aa0001d20a142089e))
  (.nd (.lf
  0x11d9811d9711d9611d9411d9311d9211d9e11d9111d8f11d8e11d8d11d8b11d8a11d7511d7411d7211d6f11d6e11d6d11d6711d6011d5f11d5e11d5c11d3411d3211d3111d2f11d2d11d2c11d2b11d2911d1411d1211d3611d1111d0f11d0e11d0d11d0b11d0a11d0811d0611d0411d0211925119281192311921119201191f1191d1191c1191b1191a11918119171191612126121241212312122121211211f)
  (.lf
  0x100100f4ed0f4c01a5de1a53c19c6d19c2b14cc914c7d100140ff760f4ee0f4c11a5d91a53e19c6f19c2c14cc414c7f0ff710fddd0f4ef0f4c21aee51adc61a51b1a50c1a501155e7155001276d1275f1275d1241d1236a1aed51adc81a51d1a50d1a502155e2155021276f127601275e12417122e21aecf1ade71a51f1a50e1a503155dd15504127711276112412122fa1aec91ade91a5211a50f1a504155d8)))
  (.nd (.nd (.lf
  0xbbd90bbc80bbc60bbc50bbc40bbc30bbc10bbc00bbbf0bbbe0bbbc0bbbb0bbba0bbb90bbb70bbb60bbb50bc9a0bbb40bbb20bbb10bbb00bbae0bac70bac60bac50bac30babc0baa20baa10baa00ba9e0ba9d0ba9c0ba9a0ba990ba980ba970ba950ba940ba930ba920ba900ba8f0ba8e0baa30ba8d0ba8b0ba8a0ba890ba870ba860ba850ba840ba820ba580ba560b72a0b7290b7260b70a0b7090b7070b706)
  (.lf
  0x198d218efd1889d186db1ac3c1aaff198c2198c018ed2188d3186c71ac381a9c5198bb198b918eca1885e186b41ac301a9f3198b0198ae18ed91882a186a81ac2d1a9c6197ff197fd18eb2188041868e1ac241a9da197c7197c518e5818964187c11ac1b1a9ae197bb197b918e4e187b01ac131a926197b6197b418e4f189681ac091a921197aa197a818e3c1894d1ac061a85d197f2197f018d06189361a80c))
  (.nd (.lf
  0x1cf4a1cf3f1d1031d1011d0ff1d0fe1d0fd1d0fb1d0ea1d0e91d0e81d0e61d0e51d0e41d0e31d0d71d0d61d0d51d0d41d0d21d08d1d08b1d08c1d08a1d0881d0871d0861d0841d0831d0821d0811d0801d07e1d07d1d07c1d07a1d0791d0781d0771d0751d0741d0731d0721d0701d06f1d06e1d08e1d06d1d06b1d06a1d0691d0671d0661d0651d0641d0621d05f1d05e1d05d1d0591d0581d0571d0561d035)
  (.lf 0)))

def shaXorOrder239 : BTree :=
  .nd (.nd (.nd (.lf
  0x20e9d20e9c20e9b20ea420e9a20e9820e9720ea620e9620e9420e9320e9220e9020e8e20e8d20e8c20e8a20e8820e8720e8620e1220e1120e0520e0620e0420e0220dfa20df920df120def20de120de220de020dde20dd820dd720dce20dcc20cbe20cbf20cbd20cbb20cba20cb920cb720cb320cb220cb120caf20c8520c8320c7720c7520c7320c7220c8c20c7120c6f20a8f20a8e20a8c20a7e209a120925)
  (.lf
  0xaf430a8160a2eb0a2ac0b7620af440a8170a2ed0a2ad0b7460af450a8180a2ef0a2ae0b7250af4e0a8190a2f10a2af0b7040ad370a81a0a2f30b6e40ad380a81b0a2f50b6d00ad390a81c0a2f70c24c0b3c00afe90a8720a82a0a8250c22f0b3c10afea0a8740a82b0a8260c2130b3c20afeb0a8760a82c0a8270c1f60b3c30afec0a8780a82d0a8280c1d90b3c40afed0a87a0a82e0a8290c1b90b3c50afee))
  (.nd (.lf
  0x68a8068a506897068940688606883068750687206864068610685306850068420683f068310682e068200681d0680f0680c067fe067fb067ed067ea067dc067d9067cb067c8067ba067b70874d0874b087450873e0873d0873b087340872d0872c0872a087250871e0871d0871b087150870e0870d0870b08704086fd086fc086fa086f3086ec086eb086e9086e2086db086da086d8086d1086ca086c9086c7)
  (.lf 0))) (.nd (.nd (.lf
  0x1c41c1c4181c4171c4131c4121c40f1c40d1c40a1c4081c4041c4251c4031c3ff1c3fd1c3fa1c3f61c3f51c3f21c3f01c3981c2eb1c2e91c2e51c2e21c2e01c2dd1df5c1df5a1df581df571df561df541df531df521df511df4f1df4e1df4c1df4b1df491df481df471df461df441df431df411df401df3e1df3d1df3c1df5f1df3b1df391df381df371df351df331df311df321df301df2e1df2d1df2c1df2a)
  (.lf
  0x572f04deb04dab047d3041ec0573b0572e04dec04dac047d4041ee057360573404ded04dad047d5041f005d7b05ccc0545c0545a04df004825047e5047da05d7405cb1054460544404df104827047e6047db05d7005cdb054300542e04df204829047e7047dc05d6a05ce70541a0541804df30482b047e8047dd05d6505ce2054040540204df40482d047e9047de05d6005cfc053ee053ec04df50482f047ea))
  (.nd (.lf
  0x1041610415104121041110658106551064f1064e1064b1064410643106401063910638106351062e1062d1062a10623106221061f1061810617106141060d1060c106091060210601105fe105f7105f6105f3105ec105eb105e8105e1105e0105dd105d6105d5105d2105cb105ca105c7105c0105bf105bc105b4105b3105b0105a8105a7105a41059c1059b10598105901058f1058c10584105831058010578)
  (.lf 0)))

def shaXorOrder240 : BTree :=
  .nd (.nd (.nd (.lf
  0x106591065b0f259090f50f25b112e81149a1149c0f4b70a0180f4b911cf6122d3122d50f76212ba812baa1282e1346d1346f1326e13d3613d3813b8b1460b1460d13eff14ed614ed814d2b1579515797155ea160661606815ebb168a516b6a1676f173fe1740016cbb17ba617ba81746c183a2183a417e9918c2118d85184a119660196b61935619e5419f36197971a7411a7431a08a1aee81b1201a9111b980)
  (.lf
  0xd7d00d7cf0d7cc0d7b40d7b30d7b00d7990d7980d7950d77c0d77b0d7780d7600d75f0d75c0d7430d7420d73f0d7250d7240d7210d7060d7050d7020d6e80d6e70d6e40d6c70d6c60d6c30d6a40d6a30d6a00d6830d6820d67f0d6630d6620d65f0d63f07873078700786f0786e0786b0786a0786907866078650786407861078600785f0785c0785b0785a0785707856078550785207851078500784d0784c))
  (.nd (.lf
  0x1a5831a5561a4f21a4f11a4ef1a4ee1a4ed1a4e91a4e81a4e71a4e61a4e41a4e31a4e21a4e11a4df1a4de1a4dd1a4dc1a4da1a4d91a4d81a4d71a4d51a4d41a4d31a4d21a4cf1a4ce1a4cd1a4d01a4cc1a4ca1a4c91a4c81a4c61a43d1a43c1a43e1a43b1a4391a4381a4371a4351a4341a4331a4321a4301a42f1a42e1a42d1a42b1a42a1a4291a4281a4261a4251a4241a4231a4211a4201a41f1a41e1a41c)
  (.lf
  0x163b02c0602bdf0228a0224a01c720166f0163c02be602bc00228b0224b01c73016710163d02bbb02b9c0228c0224c01c740167302ba302b7d0228d0224d01c750167502b7802b590228e0224e01c760167702b6002b3a0228f0224f01c770167902b3502b16022900225001c780167b02b1d02af6022910225101c790167d02afd02ada022920225201c7a0167f02ad502abc022930225301c7b0168102ab7)))
  (.nd (.nd (.lf
  0x1d9511d9201d9171d9151d9131d8f61d8f31d8cd1d8c51d8c41d8d01d8c31d8c11e6291e5fa1e5f81e5dc1e5dd1e5db1e5d91e5d81e5d71e5d51e5cc1e5cb1e5ca1e5c81e5a81e5a31e5a21e59d1e5991e5981e5971e5771e5711e5701e56f1e56d1e55b1e5581e5571e5551e5381e5371e5361e5341e5191e5181e5171e50f1e50e1e50d1e50c1e50a1e5071e5051e5041e4ff1e4fd1e4fc1e4fb1e4f91e4f4)
  (.lf
  0x531f04f5c0496b0492f044b00532004f5d0496d049300448c0532104f5e0496f049310446d0532204f5f04971049320444a0532304f600497304933044260532404f610497504934044070532504f620497704935043e40532604f6304979043c10532704f640497b0439e0532804f650497d0437f05a2d0532b04fbb04f7304f6e04d7805a2e0532c04fbd04f7404f6f04d5605a2f0532d04fbf04f7504f70))
  (.nd (.lf
  0x555d055560555505553055510554e054e9054e7054e6054e5054e4054e2054e1054e0054df054dd054dc054db054da054d8054d7054d6054d5054d3054d2054d1054d0054ce054cd054cc054cb054c9054c8054c7054c6054c4054c3054c2054c1054bf054be054bd054bc054ba054b9054b8054b7054b5054b4054b3054b2054b0054af054ae054ad054ab054aa054a9054a8054a6054a5054a4054a3054a1)
  (.lf 0)))

def shaXorOrder241 : BTree :=
  .nd (.nd (.nd (.lf
  0x12066120681208c1206a1206c1206e12070120721207412076120781207a1207c1207e1208012082129291292b1292d1292f12931129331293512937129391293b1293d1293f1294112943129451296d129481296c1294b1294d1294f12951129531295512957129591295b1295d1295f12961130921309412fea12fec12fee130b1130b3130b51301213014130b7130b9130bb13016130181301a1301c1301e)
  (.lf
  0x20516204e220474204702046f204f520466204632045d2045c20456204502044f2044d2044a204d720443204402043f20439204f820430204172040f204f3204342042a20403204b920426204162041520547204b0204212041c204a6203f4203f1203ed205a0203e4203a9203a820491203e1203a22039f20486203dc20394203932048b203d5203b12038d204f6204d5203d22038020457203cd20378204dc))
  (.nd (.lf
  0x10185101841018310181101801017f1017e1017c1017b1017a1017910177100f0100ef100ee100ec100eb100ea100f1100e9100e7100e6100e5100e3100e2100e1100e0100de100dd100dc100db100d9100d8100d6108df108da108d9108d3108d6108d1108cd108c9108c7108c3108c1108bc108ba108b6108b5108b0108af108a8108aa108a5108a11089e1089c108981089710893108921088d108e31088c)
  (.lf
  0x167ad1679e1679311cf311c0c0ee840ee760ee740e8ab0e76e173ba17050167af1679f1679411cee11c0e0ee860ee770ee750e8a60e762173b71706f167b1167a01679511ce911c100ee880ee780e8a00e7561737717071167b3167a11679611ce411c120ee8a0ee790e89b0e74a1737417073167b5167a21679711cdf11c140ee8c0ee7a0e8950e73e1733417075167b7167a31679811cda11c160ee8e0ee7b)))
  (.nd (.nd (.lf
  0x821b0821908217082160821408212082110820f0820d07cc307cc107cc007c8f07c8d07c8c0891d0891b0891a08919089180891608915089140891308911089100890f0890e0890c0890b0890a0890908907089060890508904089020890108900088ff088fd088fc088fb088fa088f8088f7088f6088f5088f3088f2088f1088f0088ee088ed088ec088eb088e9088e8088e7088e6088e4088e3088e2088e1)
  (.lf
  0x15b00153c414933149301492f16cf016cd415af015aee153b8149201491f1491e16cc516b9c15ae315ae1153ab149df1490f1490e16b9616b9115ad915ad7153a0149e11491516b8a16b7b15aa115a9f15390149e2148fd16b7516aef15a8815a8615388149c6148fe16afe16acb15a6915a671537d149ae148ff16acc16ac715a6e15a6c1537414968148e416ace16ab815a7915a771536c14974148d116aaf))
  (.nd (.lf
  0x1bfb11bfb01bfaf1bfab1bfaa1bfa91bfa51bfa41bfa31bfa01bf9e1bfb41bf9d1bf9a1bf991bf961bf901bf8f1bf8d1bf8b1bf891bf861bf801bf7f1bf7c1bf7a1bf791bf771bf741bf721bf701bf5e1bf5c1bf591bf4f1bf4e1bf4c1bf321c1551c14d1c14b1c1441c1531c1431c1411c1311c1301c12d1c12c1c0e41c0e51c0e31c0e11c0e01c0e71c0df1c0dd1c0dc1c0db1c0d91c0d71c0d61c0d51c0d3)
  (.lf 0)))

def shaXorOrder242 : BTree :=
  .nd (.nd (.nd (.lf
  0x13088130741300212fe112fd412fc112f8312f251385413864138491381f13821137e9137b013794137771374d1373513706138661384b1382313825137eb137b213796137791374f138691384d1382713829137ee137b4137981377b1375214402143d814406143db143a914390143691436b1436d1433c1432c14321143d5143e9143c0143ab143921436f14371143b51433e143d7143eb143c2143ad14396)
  (.lf
  0x2d4002d0002cf002cb002ca002c6002c5002c1002c0002bc002bb002b7002b6002b2002b1002ad002ac002a8002a7002a3002a20029e0029d002990029800294002930028f0028e0028a002890028500284002800027f0027b0027a002760027500271002700026c0026b002670026600262002610025d0025c002580025700253002520024e0024d0024901bf401bf201bf101bdc01bdb01bd901bd801bbf))
  (.nd (.lf
  0x1499d1499c1499b14999149981499714996149941499314992149911498f1498e1498d1498c1498a149891498815317153151531315312153111530f1530e1530d1530c1530a1530915308153071530515304153031530215300152ff152fe152fd152fb152fa152f9152f8152f6152f5152f4152f3152f1152f0152ef152ee152ec152eb152ea152e9152e7152e6152e5152e4152e2152e1152e0152df152dd)
  (.lf
  0x20f1020ef401b1d01b040100100fc1009ae007be0079e007940076b0076020eef20eea01b0b01aeb0100200fc2009af007bf0079f007950076c0076120f1a20ee501ae601ace0100300fc3009b0007c0007a0007760076d0076220ee020ed701ac901ab00100400fc4009b1007c1007a1007770076e0076320ed220eb101ab701a970100500fc5009b2007c2007a2007780076f20ecf20ea101a9201a7901006)))
  (.nd (.nd (.lf
  0x11d4111d4011d3e11d3d11d3c11d3b11d3911d3811d2111d2211d2011d1e11d1d11d1c11d1a11d1511ab211a9711a9511a9411a7911a7a11a7811a7611a7511a7411a7211a6c1199a120251202312022120201201e1201c1201b12019120181201611fec11feb11fea11fe711fe61208311fe511fe311fe111fde11fdd11fdc11fda11fd911fd711fd511fd311fd211fd011fcf11fcd11fcb11fc911fc811fc6)
  (.lf
  0x70a003340030d002ff0027d0023420b4620b3300fae0070b003350030e002e0002780023320b4220acc00faf0070c003360030f002e1002730023220ac920aa900fb00070d0033700310002e20026e0023120aa320a6700fb10070e0033800311002e3002690023020a6320a3500fb20070f0033900312002e4002640022f20a31209cf00fb3007100033a00313002e50025f0022e20a2c209be00fb400711))
  (.nd (.lf
  0x16b6016b5016b4016b2016b1016b0016af016ad016ac016ab016aa016a8016a7016a6016a5016a3016a2016a1016a00169e0169d0169c0222b0222902228022100220f0220d0220c021ee021ed021eb021ea021cb021ca021c8021c7021a8021a7021a5021a4021870218602184021830216702166021640216302145021440214202141021240212302121021200210202101020ff020fe020e1020e0020de)
  (.lf 0)))

def shaXorOrder243 : BTree :=
  .nd (.nd (.nd (.lf
  0x1f2b21f2a91f2a51f2b31f2961f2981f2991f2831f27f1f2891f2761f3cf1f2b71f1c61f1ac1f1851f17a1f1741f1511f15d1f1991f13a1f0d51f0d11f0da1f0151ef701f9631f95c1f9681f9461f93b1f93a1f93d1f92b1f9241f9221f92d1f9211f9141f9421f9491f8f51f8f71f8e91f8df1f94c1f8cf1f8b71f8841f86b1f8651f7041f70c1f6c01f54c1f5052009620091200812007d20077200732006f)
  (.lf
  0x12d841293e12924146b6138fd12d481294012925146b0138f112d231294212906146aa138e812d031294412907146a3138f512ce712946129081469e1391c12ccc12947129091468f1390112cb0129491290a1468b1355f12c791294a1290b146851353e12c5b1294c1290c146801353912c411294e146311352f12c241295014623134db12c0312952150c1141cc139b0130be130ae130ab150bb141d8139b1))
  (.nd (.lf
  0xb1ff0b1f80b1f70b1f50b1f00b1e90b1e80b1e60b1e00b1d90b1d80b1d60b1cf0b1c80b1c70b1c50b1c00b1b90b1b80b1b60b1b00b1a90b1a80b1a60b19f0b1980b1970b1950b18e0b1870b1860b1840b17d0b1760b1750b1730b16c0b1650b1640b1620b15d0b1560b1550b1530b14f0b1480b1470b1450b13f0b1380b1370b1350b12e0b1270b1260b1240b11f0b1180b1170b1150b1110b10a0b1090b107)
  (.lf 0))) (.nd (.nd (.lf
  0x1f0431f0411f0401f03d1f03c1f0391f0381f0371f0341f0331f0441f0321f0301f02e1f02c1f02b1f0291f0041f0031f0091f0021f000206cf1effe1eb681eb671eb621eb5a1eb591eb551eb491eb481eb461eb451eb431eb411eb401eb3e1eb3c1eafd1eb061eae41eacc1eacf1eaca1ea121ea111ea101ea0e1ea531ea0c1ea091ea081ea051ea041ea551ea031e90d1e90c1e8c61e89c20a3a20a382093b)
  (.lf
  0xa6b00ca590ca290bc680bc5d0b4a60ae6d0ae2d0ae220ca540ca100bc6a0bc5e0b4a70ae6f0ae2e0ae230ca4f0c9f30bc6b0bc5f0b4a80ae710ae2f0ae240ca4a0c9d50bc6c0bc600b4ad0ae730ae300ae250ca450c9b90bc420bc400b4790ae750ae310ae260ca400c99e0bc320bc300b44a0ae770ae320ae270ca3b0c9820bc0b0bc010b44b0ae790ae330ae280c9670c9480bc0c0bc020b44c0ae7b0ae34))
  (.nd (.lf
  0x145531454c1454b145491454814541145401453e1453d145361453514533145321452b1452a1452814527145201451f1451d1451c145151451414512145111450a145091450714506144ff144fe144fc144fb144f4144f3144f1144f0144e9144e8144e6144e5144de144dd144db144da144d3144d2144d0144cf144c8144c7144c5144c4144c113efe13efb13efa13ef913ef613ef513ef413ef113ef013eef)
  (.lf 0)))

def shaXorOrder244 : BTree :=
  .nd (.nd (.nd (.lf
  0x1d0491cff41cff61cfe91cfe51cfdd1cfd41cfcf1cfc81cfd71cffa1cfb81cfb31cfbf1cfa91cfa31cf9c1d04f1cf921cf8c1cf851d0401cf7b1cf741cff81cf6f1cf701d0391cf4f1cf401d2b11d2aa1d2b71d29f1d2971d2991d28d1d29a1d2b81d27f1d2821d2811d26b1d2651d25f1d2591d2531d24d1d2471d2411d23b1d2351d22f1d2271d1fe1d1f71d2001d1ed1d20d1d1e21d5bf1d5931d5941d5c2)
  (.lf
  0x715d0715a07153071520714f0714807147071440713d0713c0713907132071310712e0712707126071230711c0711b0711807111071100710d071060710507102070fb070fa070f7070f0070ef070ec070e5070e4070e1070da070d9070d6070cf070ce070cb070c4070c3070c0070b9070b8070b5070ae070ad070aa070a3070a20709f0709807097070940708d0708c0708907082070810707e0707707076))
  (.nd (.lf
  0x1788a17889178cc178881788617885178841788217881178801787f1787d1787c1787b1787a17878178761787517877178741787217871178b8178701786e1786d1786c1786a1786917868178671785617855178541785917853178511780f1780e1780b17808177c1177c0177be177bd177bc177bb177b9177b8177a7177a8177a6177a4177461774517743177401773f177411773e1773c1773b177421773a)
  (.lf
  0x1bf1e16c4a16c1313f3d13e2613d481c2f31c2981bf2016c4416c1513f1e13e2713d3d1c2ed1c29a1bf2216c4016c1713f0213e2813d471c2d51c29c1bf2416c3916c1913e2913d8113d6a1c2be1c29e1bf2616c3616c1b13e2a13d6613d461c2bb1c2a01bf2816c3016c1d13e2b13d5e13d391c6901c5e71c299173b11739214c50146a9146191c68b1c5e91c29b1738d1737314c52146a6146281c6621c5eb)))
  (.nd (.nd (.lf
  0x17651176531765017645176371763617629176221761d1761b17619176171760617605175f5175f4175ec175eb175e6175db175d1175d0175c9175c2175bf175bd175bb175b6175b5175b4175b21759a1757c1757e1757b1757917560175671755f1755d17555175541754e1753b1753a17549175351753317528175271751d175151750b1750a174fe174fd174f1174f0174ea174e9174e2174e1174df174c2)
  (.lf
  0x9b4e078ee078c5077d503df803dd709c3309b50078e9078c7077d703dd803db709c0a09b52078e4078c9077d903db803d9709be309b54078df078cb077db03d9803d7707b400796b0789806dfd047550f4f10a9170798d0668b04d8d20a26201401ffb61fce51fcdb1fcd81fcce1fccc20967201511ffb11fc831fc801fc7d1fc791fc752095c2011b1ffac1fc611fc601fc5c1fc5b1fc5a2088c201051ffa6))
  (.nd (.lf
  0x361303612036110360f0360e0360d0360c0360a0360903608036070360503604036030360203600035ff035fe035fd035fb035fa035f9035f8035f6035f5035f4035f3035f1035f0035ef035ee035ec035eb035ea035e9035e7035e6035e5035e4035e2035e1035e0035df035dd035dc035db035da035d8035d7035d6035d5035d3035d2035d1035d0035ce035cd035cc035cb035c9035c8035c7035c6035c4)
  (.lf 0)))

def shaXorOrder245 : BTree :=
  .nd (.nd (.nd (.lf
  0xac960ac940ac930ac780ac760ac750ac5a0ac580ac570ac060ac040ac030abcc0abca0abc90abad0abab0abaa0ab1e0ab1c0ab1b0aae30aae10aae00aaa80aaa60aaa50aa540aa520aa510aa360aa340aa330aa180aa160aa150a9df0a9dd0a9dc0d1c40d1c20d1c10d1a50d1a30d1a20d1860d1840d1830d1670d1650d1640d1480d1460d1450d1290d1270d1260d0ee0d0ec0d0eb0d0b30d0b10d0b00d095)
  (.lf
  0x19a5a19a561ba8a1b9011acbc1a30719a2b19a2619a251ba851b8fe1ad211a37c19a5719a0e199fc1ba801b8f41acb51a2f519a10199fd1ba751b8fd1aca71a25919a01199fe1ba721b9021aca81a25f19a02199ff1ba6c1b9031ad141a23419a0319a001ba681b8d71ac8a1a24419992199911ba611b9001ac821a201199a2199a11ba5c1b8cd1ac7a1a1f0199aa199a91ba561b8341ac6f1a1d419a5b19984))
  (.nd (.lf
  0xd8a00d8990d8850d87c0d8690d8600d8500d8440d8340d8280d8180d80c0d7fc0d7f00d7e00d7d40d7c40d7b80d7a90d79d0d78e0d7800d7710d7640d7550d7470d7380d7290d7190d70a0d6fb0d6ec0d6da0d6cb0d6b70d6a80d6940d6870d6730d6670d6510d6430d9ab0d9a90d9a40d98b0d98c0d98a0d9880d9790d9780d9720d9710d95e0d95d0d95b0d9550d9420d9410d93f0d9340d9140d91d0d913)
  (.lf
  0x112f00cff70ce230a9640a92009d6509d6309d5909d4c11332112f10cfd80ce250a9660a92209d3d09d3b09d3109d2511334112f20cfba0ce270a9680a92409d1609d1409d0a09cfd11336112f30cf9b0ce290a96a0a92609cee09cec09ce209cd4122d01212b0d9b20d5dc08af20884a07afa07aec07ae1071ad071a00719e122c61212d0d9980d5de08aed0884407afb07aed07ae2071ae071a10719f122bb)))
  (.nd (.nd (.lf
  0x338e0338d03372033710336f0336e0334f0334e0334c0334b0332c0332b033290332803308033070330503304032e8032e7032e5032e4032c8032c7032c5032c4032a9032a8032a6032a503285032840328203281032660326503263032620324303242032400323f032200321f0321d0321c031fd031fc031fa031f9031d9031d8031d6031d5031ba031b9031b7031b6031970319603194031930317303172)
  (.lf
  0x1083f108391001f0fb6f0fb3d11680116691080a10808100200fb700fb3e1166511650107e3107e10fde60fb720fb3f1165e1164a1078d107890fdca0fb741165f1162d1078e1078a0fdb10fb76116261160e10772107700fd960fb7811609115f9107401073c0fd7c0fb7a115fd115ea107411073d0fd620fb7c115d51156b106fb106f90fd4b0fb7e11565114f7106d3106d10fcf80fb80114f0114da106b4))
  (.nd (.lf
  0x183801837f1837e1837c1837b18379183781837618374183541835318351183501834818347183451834418342183411833a18336183301832f1832d1832c183281832718324183231831218315183111830f1830a18309183061830518304183031830118300182fe182fd182fb182fa182f9182f8182f6182f3182f2182f1182ef182ee182ec182eb182e9182e8182e7182e6182e4182e3182e2182e1182df)
  (.lf 0)))

def shaXorOrder246 : BTree :=
  .nd (.nd (.nd (.lf
  0x146a51470014692146891474414694146601462a150c0150ba150b1150821507c15078150701506a1508a150611504b150461503d15032150271501f14ff814ff414fec14fe614ffe14fb114fb314fa714fb514f7214f6614efa14f2814ef2158af158b4158a31589d15896158911588a15884158801586e15868158631585c15858158501584c158441584015838158341582c15828158201581c158141580f)
  (.lf
  0x6b2a06aec0679e0004a06b2506aee067a00004506b2006af0067a20004006b1b06af2067a40003b06b1606af4067a60003606b1106af6067a80003106b0c06af8067aa0002c06df406b9a06ac706ab806aad002db06de506b9c06ac906ab906aae002d606dd406bbb06acb06aba06aaf002d106dc306bbd06acd06abb06ab0002cc06db206bbf06acf06abc06ab1002c706da106bc106ad106abd06ab2002c2))
  (.nd (.lf
  0x129d1129d0129cf129ce129ca129c9129cc129c8129c6129c5129cd129c4129c2129c1129c0129be129bd129bc129bb129b9129b8129b7129b6129b4129b3129b2129b1129b0129ae129ad129ac129aa129a9129a8129a7129a6129a4129a3129a2129a01299f1299e1299d1299b1299a12999129981299612995129941299312991129901298f1298e1298c1298b1298a129891298812986129851298412982)
  (.lf
  0x13abf137bf134971c0b51bef51b6be1b6ab1b6a016758162ce13ad213ac01371c134961c0b11bef71b6c01b6ac1b6a116752162d013ad413ac113717134951c0a81bef91b6c21b6ad1b6a21674c162d213ad613ac213713134941c0a51befb1b6c41b6ae1b6a3167861674913ad813ac313710134931c0851befd1b6c61b6af1b6a416744162d513ada13ac4136bb134921c07d1beff1b6c81b6b01b6a516784)))
  (.nd (.nd (.lf
  0xc9640c9490c9470c9450c9280c9260c9250c9080c9060c9050c8e80c8e60c8e50c8c80c8c60c8c40ccec0c8a70c8a50c8880c8860c8840c8640c8620c8610c8430c8410c8400c8230c8210c8200c8010c7ff0c7fe0c7e00c7de0c7dd0c7c00c7be0c7bd0c79e0c79d0c79b0c77b0c7790c7780c7580c7560c7550c7350c7330c7310c7130c7100c70e0c6f20c6ef0c6ed0c6d20c6cf0c6cd0c6b30c6b10c6af)
  (.lf
  0x1b70a1a58a1a58819d0b19b7d1dd851dd521b5691b5671ab821a3ca1a3c61a3c51dd271dcd01b5521b5501ab5d1a3621a35e1a35d1dccc1dc701b5411b53f1ab321a3361a3311a3301dc6c1dc261b52e1b52c1ab071a3131a30f1a30e1dc321dbdb1b4701b46e1aaec1a2ee1a2e91a2e81dbeb1dbd01b4171b4151aad71a2df1a2db1a2da1dba91db851b4061b4041aac41a29c1a2981a2971db951db611b3ed))
  (.nd (.lf
  0x1d5ba1d5b71d5b41d5b31d5b11d5921d5901d58e1d58d1d58b1d56f1d56c1d56b1d5691d5651d5671d5641d5621d5601d55e1d55c1d55b1d5571d5561d5541d5531d5511d54f1d54c1d54a1d5491d5471d5451d5431d53f1d53c1d53b1d5391d5341d5321d5291d5281d5271d5251d51d1d51c1d5171d5121d5111d5081d5071d5061d5041d4d51d4f61d4c71d4c51d4c91d4c31d4c01d4bf1d4bc1d4bb1d4ba)
  (.lf 0)))

def shaXorOrder247 : BTree :=
  .nd (.nd (.nd (.lf
  0x202aa2028c2028b202822027f20155201522021d2014d2012e2012b201292011020130200fd200f3200ef200ed200e9200e8200e4200e3200c02006420060200482004720043200402004b2003e2003a2003820035200322004a2002e200202001d1fe6f1fe681fe441fe411fe231fe1f1fe1e1fe0a1fdd81fdd51fdd31fdcb1fdb01fdab1fd6c1fd6a1fd401fd3d1fd2f1fd2b1fd051fcfc1fcf31fcf01fcee)
  (.lf
  0xccb10c3460bdaa0bd5e0bd590d9010ccb20c3470bdac0bd5f0d8e40ccb30c3480bd6e0bd600d8c20ccea0c3490bd700bd610d8a10ccb40c34a0bd720bd620d8860ccb50c34b0bd740bd630d86a0ccb60c34c0bd760bd640d8510ccb70c34d0bd780bd650d8350ccb80c34e0bd7a0bd660d8190ccee0c34f0bd7c0bd670d7fd0ccb90c3500bd7e0bd680d7e10ccba0c3510bd800bd690d7c50ccbb0c3520bd82))
  (.nd (.lf
  0x8ec208ea708ea608ea408e9f08e8408e8308e8108e7d08e6208e6108e5f08e5908e3e08e3d08e3b08e3408e1908e1808e1608e0f08df408df308df108dec08dd108dd008dce08dc808dae08dad08dab08da408d8a08d8908d8708d8008d6408d6308d6108d5c08d3e08d3d08d3b08d3708d1808d1708d1508d1108cf008cef08ced08ce708cc308cc208cc008cbe08cac08a7208a7008a6f08a6e08a6d08a6b)
  (.lf 0))) (.nd (.nd (.lf
  0x1e3901e38e1e38d1e38c1e3881e3871e37a1e3791e3761e3741e35d1e37d1e35c1e35a1e3591e37c1e3581e3561e3551e3541e3521e3511e3501e34f1e34d1e34c1e3331e3321e3301e3231e2e61e2e51e2e31e2e11e2ac1e2ae1e2ab1e2a91e2a81e2a71e2a51e2a41e2a21e2a11e29f1e29d1e28a1e2891e2871e2861e26b1e26c1e26a1e2661e24e1e24c1e24b1e2491e2481e2471e1ea1e1e91e1e71e6d7)
  (.lf
  0x53b3082680804105e5f05e1f058b9053a7053a6053a5082630801405e6005e20058b0054760539b0539a0825e07fe405e6105e21058a705477053900825907fb405e6205e220589e05461053850825407f8505e6305e23058840544a0537b0824f07f5605e6405e240588505434053710824a07f2505e6505e25058860541e053670824507ef705e6605e2605887054080535d0824007ec705e6705e2705888))
  (.nd (.lf
  0xf1120f10f112e7112e4112e3112e2112df112de112dd112da112d9112d8112d5112d4112d3112d0112cf112ce112cb112ca112c9112c6112c5112c4112c1112c0112bf112bc112bb112ba112b7112b6112b5112b2112b1112b0112ad112ac112ab112a8112a7112a6112a3112a2112a11129e1129d1129c1129911298112971129411293112921128f1128e1128d1128a112891128811285112841128311280)
  (.lf 0)))

def shaXorOrder248 : BTree :=
  .nd (.nd (.nd (.lf
  0xf9500f94c0f9440f9400f9380f9340f9330f92f0f9270f9230f9140f9110f9100f90e0ff270ff240ff020feff0fef20feef0fe9c0fe990fe6b0fe680fe260fe230fe180fe150fe070fe040fdf90fdf60fde10fdd30fdac0fd9e0fd770fd680fd5d0fd4e0fd470fd380fcf40fce510b8c10b8210b7010b2110a04109e7109ac109a5109a41099d1099c10993109701093f1086a10868108361082e1081a10818)
  (.lf
  0xb8e10b8da0b8d90b8d70b8c30b8bc0b8bb0b8b90b8a50b89e0b89d0b89b0b8890b8820b8810b87f0b86e0b8670b8660b8640b8510b84a0b8490b8470b8350b82e0b82d0b82b0b8180b8110b8100b80e0b7fb0b7f40b7f30b7f10b7df0b7d80b7d70b7d50b7c40b7bd0b7bc0b7ba0b7a70b7a00b79f0b79d0b78b0b7840b7830b7810b76e0b7670b7660b7640b7520b74b0b74a0b7480b7350b72e0b72d0b72b))
  (.nd (.lf
  0x190e9190e7190e8190e6190e3190d4197611975e1975a1975519754197501974e1974919748197411973f1973d197391973419744197331972f1972d1972919725197231971e1971d1971a1971919716197121970d1970c195b8195a6195a2195921958e1957a195771956a19568197f5195531954119531195121950f194f4194f1194d4194d1194b9194b719489194861942a19427194151940f193ff193fd)
  (.lf
  0xe609170bb170a511c6211c5c0ee730e5fa0e5f61798f17972103d40f7790f7780f56b0f5691798917974103d50f7700f55a0f5580f55718235182271279f127920f0d00f0250eec11822f182291279a127940f0d10f0200f01018afd18aeb131df131d211215106bf1065f18af218aed131da131d411216106611065e193bd193b013afc13aef0f32e0f2840f260193b8193b213af713af10f32f0f2720f26d)))
  (.nd (.nd (.lf
  0x1a3021a3001a2d31a2e31a2d21a2d01a2c61a2d51a2c51a2c31a2a01a29f1a29d1a2921a2911a2901a28e1a27c1a27b1a27a1a26c1a26b1a26a1a2691a2361a2271a2111a2101a20e1a2031a1e41a1e61a1df1a1dd1a1d11a1cb1a1c51a1c31a1be1a1bd1a1b61a1ab1a1a61a1a51a1a01a19e1a19d1a19c1a19a1a1941a1931a1921a1901a1201a11f1a1121a10d1a1041a0e11a0e01a0de1a0d81a0bc1a0bb)
  (.lf
  0x219b021970303802a2d0246c0241f0217b021770303902a2e0242e0242002158021560303a02a2f024300242102138021340303b02a30024320242202115021130303c02a310243402423020f5020f10303d02a320243602424020d2020d00303e02a330243802425020b2020ae0303f02a340243a024260208f0208d0304002a350243c024270206c0206a0304102a360243e024280204c020480304202a37))
  (.nd (.lf
  0x49fb049df049de049dc049db049bf049be049bc049bb0499d034c2034c0034a3034a0034820347f034600345d0343f0343c0341d0341a033fa033f7033d9033d6033b9033b6033990339603377033740335403351033310332e033100330d032f0032ed032d0032cd032ae032ab0328d0328a0326b032680324803245032250322203202031ff031e1031de031bf031bc0319c031990317b031780315903156)
  (.lf 0)))

def shaXorOrder249 : BTree :=
  .nd (.nd (.nd (.lf
  0x17ca017cc017ce017d0017d2017d4017d6017d8017da017dc017de017e0017e2017e4017e6017e8017ea017ec017ee017f001df901dfb01dfd01dff01e0101e0301e0501e0701e0901e0b01e0d01e0f01e1101e1301e1501e1701e1901e1b01e1d01e1f01e2101e2301e2501e2701e2901e2b01e2d01e2f01e3101e3302431024330243502437024390243b0243d0243f02441024430244502447024490244b)
  (.lf
  0x1dc801d9c81d9851d9771e2fe1dfd81dc391d9c31d9971d9861e2f31dfc21dbf71d98d1d9871d95d1e2d31de101dbb81d9951d9881d9841e2ca1ddac1db9c1d9891d9801d97b1e2b91dde81dd691db5f1d9281d9241e2731dcf01db471d8f91d8f81e25c1dcbc1db121d8d91d8ca1e1ff1dc5b1dafe1d8d61d8d11efb51e9051e22c1e1d41e1cb1e1c91e1c41efa31e9061e2271e2171e2121e2111e20d1ef90))
  (.nd (.lf
  0xe4870e4860e4850e4830e4820e4810e4800e47f0e47d0e47c0e47b0e4790e4780e4770e4760e4740e4730e4720e4710e46f0e46e0e46d0e46c0e46a0e4690e4680e4670e4650e4640e4630e4620e45f0e45e0e45d0e45c0e45a0e4590e4580e4570e4550e4540e4530e4520e4510e44f0e44e0e44d0e44b0e44a0e4490e4610e4480e4460e4450e4440e4410e4400e43f0e43e0e43c0e43b0e43a0e4390e437)
  (.lf
  0x13baa13b9f0efa70ee6b0ce240ce0e0c1760c16b145a61449313bc313bab13ba00ef9c0ee830ce260ce0f0c1560c1491459b1449513bc513bac13ba10ef910ee850ce280ce100c1340c126145901449713bc713bad0ef860ee870ce2a0ce110c1110c105145851449913bc913bae0ef7b0ee890ce2c0cde80c0f00c0e51457a1449b13bcb13b8c0ef6f0ee8b0ce2e0cdea0c0d00c0c51456f1449d13bcd13b8e)))
  (.nd (.nd (.lf
  0x542c0542b05429054170541605415054130540105400053ff053fd053eb053ea053e9053e7053d5053d4053d3053d1053bf053be053bd053bb053ae053ad053ac053aa053a00539f0539e0539c053950539405393053910538b0538a053890538705386053800537f0537d0537c053760537505373053720536c0536b053690536805362053610535f0535e053580535705355053540534e0534d0534b0534a)
  (.lf
  0x1405612e2d12e2b1255011ed911dde141291404a12e0612e041251a11eb711dc5141231405712dfd12dfb1251b11eb911db7141201403d12df312df11252411ebb11db81411b1403912de912de71250111ebd11db9141131403212d8812d861250211e8511d891405f1400212d4c12d4a124f011e7511d821402913fed12d2712d25124e611ef111e6013fe913fde12d0712d05124e711e6213fd613f2d12ceb))
  (.nd (.lf
  0x19776197741977219778197711976f1977a1976d1976a19769197661976519764197081970719706197051970219701196fe196fd196fc196f9196f8196f7196f4196f3196f2196ef196ee196ed196eb196ea196e8196e5196e4196e3196e1196df196de196db196da196d9196d7196d61970b196d4196d2196a01969d1969c1969b1969819697196961969319692196911968f1968e1968c1968a1968919624)
  (.lf 0)))

def shaXorOrder250 : BTree :=
  .nd (.nd (.nd (.lf
  0x22fd022ff02301023030230502307023090230b0230d0230f0231102313029120291402916029180291a0291c0291e02920029220292402926029280292a0292c0292e02930029320293402936029380293a0293c0293e02940029420294402946029480294a0294c02f3d02f3f02f4102f4302f4502f4702f4902f4b02f4d02f4f02f5102f5302f5502f5702f5902f5b02f5d02f5f02f6102f6302f6502f67)
  (.lf
  0x200b0200e5200b4200ab200aa200c4200bf200be200bc2009a20066200622005f2004d20045200112000f2003f200242001320006201b02003b1fffd1fffc20146200361fff41fff12015a200301ffeb1ffe820124200492002b2002a2010a2001e2001c2001b201691fe6d1fe671fe66201761fe431fe3f1fe392014e1fe251fe211fe18201191fe1b1fe0b1fe09201211fdd41fdc61fdc4200fe1fdc91fdbd))
  (.nd (.lf
  0x1409814094140931409114090140881408714085140841407f1407e1407c1407b14073140721407014027140241402314021140201401e1401d1401b1401a140191401814016140151401314012140101400f1400d140281400c1400a1400914008140061400513fff13ffe13ffc13ff613ff513ff413fe513fe413fe313fe213fe013f4713f4513f3513f3313f2113f1213f1113f0f13f0613daf13dae13dac)
  (.lf
  0x1c9351c8f61844e183ed15e1a15dd615845157c11cd441cc851c9371c8f718448183ef15e1c15dd81583d157af1cd2d1cc871c9391c8f818445183f115e1e15dda15839157bf1cd0b1cc891c93b1c8f918440183f315e2015ddc15831158001cd071cc8b1c93d1c8fa1843b183f515e2215dde1582d157c21d04a1cee41cc681cc591cc4e1935218d9f162ed162e0162de161ce160991cff31cee61cc6a1cc5a)))
  (.nd (.nd (.lf
  0xf8dd0f8dc0f8da0fa500fa4d0fa4c0fa4b0fa480fa470fa460fa440fa420fa410fa3f0fa3d0fa3c0fa390fa380fa520fa370fa350fa330fa300fa2f0fa2e0fa2b0fa2a0fa290fa260fa250fa240fa220fa1f0fa200fa1e0fa1c0fa1a0fa170fa160fa150fa140fa110fa100fa0d0fa0c0fa0b0fa080fa060fa050fa030fa010fa000f9fe0f9fc0f9fb0f9f90f9f70fa070f9f60f9f40f9f20f9ef0f9ee0f9ed)
  (.lf
  0x1f1411e6271e6251dfed1ddd11f3f11f1401e6211e6161deb71dd541f10c1f0e01e6181e60e1ddb81dd1c1f1091f0d01e5c51e5c31dd6f1dc9b1f0d91f0191e5911e5811dcf91dc211f01d1efdd1e5681e5661dcb11dbde1ef711ef501e5481e5461dc521dbbb1fd471f9601edc81edb01e7f71e6351e62f1e62a1fc771f95b1eda41eda11e7d11e5f21e5e01e5de1fc701f9fc1ed871ed851e7df1e5f51e5f0))
  (.nd (.lf
  0xe6300e4700e4600e4400e4300e2500e2400e2200e2100e0200e0100dff00dfe00de100de000dde00ddd00dbf00dbe00dbc00dbb00d9c00d9b00d9900d9800d7900d7800d7600d7500d5800d5700d5500d5400d3600d3500d3300d3200d1500d1400d1200d1100cf500cf400cf200cf100cd500cd400cd200cd100cb300cb200cb000caf00c9200c9100c8f00c8e00c7200c7100c6f00c6e00c5000c4f00c4d)
  (.lf 0)))

def shaXorOrder251 : BTree :=
  .nd (.nd (.nd (.lf
  0xb6e50c2bb0c2ba0c2b90c2b80c2b70c2b60c2b50c2b40c2b30c2b20c2b10c2b00c2af0c2ae0c2ad0c2ac0c2ab0c2aa0c2a90c2a80c2a70c2a60c2a50c2a40c2a30c2a20c2a10c2a00c29f0c29e0ca7d0ca7c0ca7b0ca7a0ca790ca780ca770ca760ca750ca740ca730ca720ca710ca700ca6f0ca6e0ca6d0ca6c0ca6b0ca6a0ca690ca680ca670ca660ca650ca640ca630ca620ca610ca600d1e70d1cd0d1af)
  (.lf
  0xf28c0ec880ec460fcfc0fc040f2870ec8a0fcfd0f90d0f2830ec8c0fcb60f8ed0f26c0ec8e115bf10c36100530fc7a0fc320fc2d115b910c2f100540fc7c0fc330fc2e115b410b41100550fc7e0fc340fc2f115b110a9c100560fc800fc350fc30115a910a7b100570fc820fc360fc31115a410a76100580fc840fc37115a010a71100590fc460fc381159d10a6c1005a0fc480fc391159810a671005b0fc4a))
  (.nd (.lf
  0xa4bf0a4b40a4b30a4b10a4b00a4a60a4a50a4a30a4a20a4960a4950a4930a4920a4870a4860a4840a4830a4770a4760a4740a4730a4680a4670a4650a4640a45a0a4590a4570a4560a44a0a4490a4470a4460a4390a4380a4360a4350a4280a4270a4250a4240a4190a4180a4160a4150a4090a4080a4060a4050a3fa0a3f90a3f70a3f60a3ec0a3eb0a3e90a3e80a3dc0a3db0a3d90a3d80a3cd0a3cc0a3ca)
  (.lf 0))) (.nd (.nd (.lf
  0x1ed6b1ed981ed6a1ed681ed381ed371ed311ed301ed201ed231ed1f1ed1d1ed081ed071ed051ed011ecff1f84a1f8481f8461f8451f8441f8421f8401f83f1f83e1f83c1f83b1f8391f8381f8361f8311f8301f82f1f7f61f7f51f7f41f7f81f7f31f7f11f7ee1f7ef1f7ed1f7eb1f7ea1f7e91f7e71f7e41f7e31f7e21f7df1f7de1f7dd1f7dc1f7da1f7d81f7d71f7d61f7d51f7d31f7d21f7d11f7cf1f7cd)
  (.lf
  0x98c6092a4089d20898e089830a60e0a5530987c0987009257089d40898f089840a6090a5520987d0987109258089d608990089850a6040a5510987e0987209259089d808991089860a5ff0a5500987f098730925a089da08992089870a5fa0a54f09880098740925b0899c08993089880a5f50a54e09881098750925c0899e08994089890a5f00a54d0984a098480925d089a0089950a5ed0a54c0983109827))
  (.nd (.lf
  0x12b3012b2f12b2c12b2512b2412b2112b1a12b1912b1612b0f12b0e12b0b12b0412b0312b0012af912af812af512aee12aed12aea12ae312ae212adf12ad812ad712ad412acd12acc12ac912ac212ac112abe12ab712ab612ab312aac12aab12aa812aa112aa012a9d12a9612a9512a9212a8b12a8a12a8712a8012a7f12a7c12a7512a7412a7112a6a12a6912a6612a5f12ba312ba112ba012b9912b9812b96)
  (.lf 0)))

def shaXorOrder252 : BTree :=
  .nd (.nd (.nd (.lf
  0xbf0e0beec0becb0beaa0ca1a0c9fd0c9df0c9c30c9a80c98d0c9710c9530c9330c9130c8f30c8d30c8b30c8920c86f0c84e0c82e0c80c0c7eb0c7cb0c7a90c7860c7630c7400c71d0c6fc0c6dc0c6be0c6a10c6840d1d80d1ba0d19b0d17c0d15d0d13e0d11f0d1020d0e40d0c70d0a90d08b0d06f0d0530d0360d0190cffb0cfdc0cfbe0cf9f0cf800cf620cf440cf250cf040cee20cec10ce9e0ce780ce4f)
  (.lf
  0x680a068030680206800067f9067f2067f1067ef067e8067e1067e0067de067d7067d0067cf067cd067c6067bf067be067bc067b5067b2090e9090e6090cc090cb090c8090aa090a9090a60908809087090840906409063090600903f0903e0903b0901b0901a0901708ff708ff608ff308fd308fd208fcf08faf08fae08fab08f8d08f8c08f8908f6b08f6a08f6708f4908f4808f4508f2708f2608f2308f05))
  (.nd (.lf
  0x169311692e16925169211691a169171690d1690b1690816905168d7168bc168c0168bb16d6816d6616d6516d6416d6a16d6316d6116d6016d8e16d5f16d5d16d5416d5316d5116d5016d4c16d4b16d4916d4816d4716d4616d2516d2416d2316d2716d2216d1f16ce616ce516ce316ce216ce016cdf16cdd16cdc16cdb16ce716cda16cd816cd716cd616cc916cc816cbf16cbe16cbc16b2016b1316b1416b12)
  (.lf
  0xd6a10d628087980879207b150719b12abf12a48121770de720ddf80b6840aa740aa6912ab412a4a121790de670ddfa0b6860aa590aa4c12aa912a4c1217b0de5c0ddfc0b6870aa3c0aa2e12a9e12a4e1217d0de510ddfe0b6880aa1e0aa1012a9312a501217f0de450de000b6890aa000a9f412a8812a52121810de390de020b68a0a9e40a9d712a7d12a54121830de2d0de040b68b0a9c60a9b8133841330d)))
  (.nd (.nd (.lf
  0x148d9148d8148cc148d2148cb148c9148c8148c7148c1148bf148b9148b8148b6148b5148af148ae148ac148a7148a6148ba148a5148a3148a2148a11489f147b0147a7147a6147a4147841477b14775147741477214766147651475d1475c1474d1474f1474c1474a14739147381473614731146791489a146781466e1465c1465b14659146541463f14ba614ba414b9e14b9d14b6614b6414b6314b5d14b5c)
  (.lf
  0x270807bcd07b4307560074d5073e5073cc073c102703026e407bc807b450755b074d7073e7073cd026e5026c407bc307b4707556074d9073e9073ce026c5026a407bbe07b4907551074db073eb073ac026a50268507bb907b4b0754c074dd073ed073ae026800266107bb407b4d07547074df073ef073b0026620264107baf07b4f07542074e1073f1073b2026420262107baa07b510753d074e3073f3073b3))
  (.nd (.lf
  0x12e6012e3012c3012c0012a00129d0127d0127a0125c012590123c012390121a01217011f7011f4011d4011d102e8a02e8802e7502e6e02e6d02e6b02e5502e4e02e4d02e4b02e3302e2c02e2b02e2902e1202e0b02e0a02e0802df202deb02dea02de802dd002dc902dc802dc602daf02da802da702da502d8f02d8802d8702d8502d6f02d6802d6702d6502d4d02d4602d4502d4302d2a02d2302d2202d20)
  (.lf 0)))

def shaXorOrder253 : BTree :=
  .nd (.nd (.nd (.lf
  0x136de136dc136d8136d7136941369213686136441364213635135ee135ec135e0135c8135c6135ba1359d1357a135781350f1350413501140fb140f8140f6140e7140e2140e0140d9140d7140d4140cd14097140951408e1408c1408a140ca14082140801407814076140751405414052140501404e1404c14049140471404514043140411403f1403c1403b14038140351402f140041400113fcb13fc913f23)
  (.lf
  0x16ccd164281641f185f31763316b9f163ad163ac185ec1762e16b8e1642a1639c185e61760216b861642c1639d185e0175e816b081642e1639e185dd175c716ad4164301639f185d6175aa16ad516432163a0185d0175a316ab416434163a1185cc1758516aa8164361636b185c71756416a86164381636c185c21754116a791643a16367185a71754616a661643c16368185591752416a131643e1636918555))
  (.nd (.lf
  0xbcef0bcee0bced0bceb0bcea0bce90bce80bce60bce50bce40bce30bce10bce00bcdf0bcde0bcdc0bcdb0bcda0bcd90bcd70bcd60bcd50bcd40bcd20bcd10bcc20bcc10bcbf0bcbe0bcbd0bcbc0bcba0bcb90bcb80bcb70bcb50bcb40bcb30bcb20bcb00bcaf0bcae0bcad0bcab0bcaa0bca90c61e0c61c0c61b0c61a0c6190c6170c6160c6150c6140c6120c6110c6100c60f0c60d0c60c0c60b0c60a0c608)
  (.lf
  0x81320812e0812c081270811a0f51f0f50b0f50008c8508c720810b08103080ff080fd080f7080eb0f5210f50c0f50108c8708c73080dc080d4080d0080ce080c9080be0f5230f50d0f50208c8908c74080af080a7080a3080a10809b0808e0f5250f50e0f50308c8b08c750807f0807708073080710806c080600f5270f50f0f50408c8d08c76080510804908045080430803d080320f5290f5100f50508c8f)))
  (.nd (.nd (.lf
  0x138d0138c0138a013890136a013690136701366013470134601344013430132401323013210132001300012ff012fd012fc012e1012e0012de012dd012be012bd012bb012ba0129b0129a012980129701278012770127501274012540125301251012500123401233012310123001215012140121201211011f2011f1011ef011ee011cf011ce011cc011cb011ba015a10159a015980157b015790157801558)
  (.lf
  0xcbd20e84e0e83a0d9f00d9ee0d20b0cbd40e8490e8350d9cf0d9c30d20c0cbd60e8440e82f0d9d00d9c40d20d0cbd80e82b0e8250d9d10d9c50d20e0cbda0e8260e7870d9d20d9c60d4400cbdc0e7830e77c0d9d30d9c70d20f0cbde0fa4e0f9a80e3f80e3f60dc010d3350d3000d2f70fa490f9a30e3dd0e3db0dc020d3370d3010d2f80fa430f99c0e3b90e3b70dc030d3390d3020d2f90fa3e0f9970e39b))
  (.nd (.lf
  0x15e4415e4315e4215e3f15e3e15e3d15e3a15e3915e3815e3515e3415e3315e3015e2f15e2e15e2b15e2a15e2915e2615e25168a4168a2168a01689f1689d168991689716894168931689b168921688f1688e1688c1688a16888168851688316882168801687e1687c1687916877168761687316871168701686d1686c1686b1686a16867168661686316862168611685f1685c1685b16857168561685516852)
  (.lf 0)))

def shaXorOrder254 : BTree :=
  .nd (.nd (.nd (.lf
  0x32570323403211031ee031cd031ab0318803167031450312403102030e103ad603ab503a9303a7003a4f03a2f03a0f039ef039cf039af0398f0396f0394d0392a03907038e4038c3038a1038800385e0383d0381b037fa037d8037b70379703775037570373a0371d04103040e3040c1040a0040800405e0403d0401b03ffa03fda03fba03f9a03f7a03f5803f3503f1403ef203ed103eaf03e8c03e6b03e49)
  (.lf
  0x1d3c11d38a1c4a31c41e1c3d91d3bc1d38c1c4a51c41a1c3db1d3b61d38e1c4a71c4151c3dd1d3b31d3941c4a91c40e1c3df1d3ad1d3781c4ab1c40b1c3e1017530113100b70006f4017720115000b6e0058901d9601773011a300f7701db501792011a100b89023ce01db6017e5015b9023ed01dd5017e3011bc02a07023ee01e2801bfc02a260240d01e26018950303202a2702460022340305102a460245e))
  (.nd (.lf
  0x1163b1163a11639116211161f1161e1161d1161b115f4115f3115f2115f0115ef1151c1151b1151a115181151311512115101150f114f8114ed114eb114ea114e9114e8114e2114d0114cf111741117311171111701116f1116d1116c1116b1116a11168111671116611165111631116211161111601115e1115d1115c1115b1115911158111571115611154111531115111152111501114e1114d1114c1114a)
  (.lf
  0x1939018ad018ab513b4c13acf0f3580f3140f2d30f27d195bf1939218ad218a9313b4713ad10f35a0f3160f2cf0f27c195bc1939418ad418a9513b4213ad30f35c0f3180f2c80f264195991939618ad618a9713b3d13ad50f35e0f31a0f2c50f263195961939818ad818a9913b3813ad70f3600f31c0f2bf0f27b195711939a18ada18a9a13b3313ad90f3620f31e0f2bb0f26b1956e1939c18adc18a9b13b2e)))
  (.nd (.nd (.lf
  0xa5d80a5d70a5d60a5d40a5d30a5d10a5ce0a5cd0a5cc0a5ca0a5c90a5c70a5c40a5c30a5c20a5c00a5bf0a5bd0a5ba0a5b90a5b80a5b60a5b40a5b30a5b10a5af0a5ae0a5ac0a5aa0a5a90a5a70a5a50a5a40a5a20a5a00a59f0a59d0a59b0a59a0a5980a55a0adce0adcc0adcb0adca0adc90adc70adc60adc50adc40adc20adc10adc00adbf0adbd0adbc0adbb0adba0adb80adb70adb60adb50adb30adb2)
  (.lf
  0x1779c19a1a19967188cf188cd17ff0176fb176f8176f7199f4199611885a1885817fdf176cd176c9176c8199e21992d188241882217fb5176b4176b1176b0199dd1993018800187fe17f81176a01769c1769b199d819925187bd187bb17f8e1772d1772b1772a1998a1991e187ab187a917fa91766a17669176681999c199871879c1879a17fa11784c17659176581995219932187691876717f1b1784d17627))
  (.nd (.lf
  0x1ca611ca601ca761ca5f1ca5d1ca5c1ca5b1c9d41c9d21c9d11c9d01c9ce1c9cd1c9a81c9a71c9a51c9971c9911c9901c98e1c98c1c9851c9841c9741c9721c9711c9751c9701c9681c95e1c95d1c95b1c9591c94e1c8ed1c8ea1c8e91c8e81c8e61c8e31c8e21c8e01c8de1c8e41c8dd1c8db1c8d91c8d71c8d51c8d41c8d11c8cf1c8ce1c8cb1c8ca1c8d21c8c91c8c61c8ee1c8c51c8c31c8c11c8be1c8bd)
  (.lf 0)))

def shaXorOrder255 : BTree :=
  .nd (.nd (.nd (.lf
  0x1f9f31f9e01f9dd1f9dc1f9d91f9d41f9d31f9541f94e1f8f91f8e21f8e01f8b51f8b31f8af1f8a51f8a21f89d1f89c1f8951f8941f8c41f8921f8641f7561f74e1f74b1f74a1f72a1f70e1f6da1f6cf1f6c11f5471f5441f53c1f52d1f5011f4ff204d3204d1204cb204c3204c2204c0204b7204b6204b5204b3204b2204ab204aa204a8204a2204a12055e204a02049e2049b2049a20498204972048f2048e)
  (.lf
  0x99da093d708b8308b6f08ab7099db093d808b8508b7008ab2099dc093d908b8708b7108aad099dd093da08b8908b7208aa8099de093db08b8b08b7308aa3099df093dc08b8d08b7408a9e099e0093dd08b8f08b7508a99099e1093de08b9108b7608a94099e2093df08b9308b5708a8f099e3093e008b9508b5808a8a099e4093e108b9708b5908a85099e5093e208b9908b5a08a80099e6093e308b9b08b5b))
  (.nd (.lf
  0x661606615066140661206611066100660f0660d0660c0660b0660a0660806607066060660506603066020660106600065fe065fd065fc065fb065f9065f8065f7065f6065f4065f3065f2065f1065ef065ee065ed065ec065ea065e9065e8065e7065e5065e4065e3065e2065e0065df065de065dd065db065da065d9065d8065d6065d5065d4065d3065d1065d0065cf065ce065cc065cb065ca081e4081d7)
  (.lf 0))) (.nd (.nd (.lf
  0x1be7c1be7b1be7a1be781be771be751be741be721be711be701be761be6f1be6d1be6c1be6b1be691be681be671be661be641be631be621be611be601be5e1be5d1be5c1be5a1be591be581be571be551be541be531be521be501be4f1be4e1be4d1be4b1be4a1be491be481be461be451be281be271be251be241be231be221be201be1e1be1d1be1c1be1a1be191bdd31c2471c2421c2411c23d1c23b1c234)
  (.lf
  0x357f0357204ba504b7e041770413703b6d035810357304b8504b5f041780413803b6e035830357404b5a04b3c041790413903b6f035850357504b3704b190417a0413a03b70035870357604b1404af60417b0413b03b71035890355704af104ad30417c0413c03b720358b0355804ace04aaf0417d0413d03b730358d0355904ab604a900417e0413e03b740358f04a8b04a6d0417f0413f03b750359104a68))
  (.nd (.lf
  0xf5760f5730f5660f5650f5620f5540f7590f7570f7500f7490f7480f7460f73f0f7380f7370f7350f72d0f7260f7250f7230f71c0f7150f7140f7120f70b0f7040f7030f7010f6fa0f6f30f6f20f6f00f6e90f6e20f6e10f6df0f6d80f6d10f6d00f6ce0f6c70f6c00f6bf0f6bd0f6b60f6af0f6ae0f6ac0f6a50f69e0f69d0f69b0f6940f68d0f68c0f68a0f6830f67c0f67b0f6790f6720f66b0f66a0f668)
  (.lf 0)))

/-- The XOR gates in the order in which they are packed: 20 bits each, 64 per leaf. -/
def shaXorOrder : BTree :=
  .nd (.nd (.nd (.nd (.nd (.nd (.nd (.nd (shaXorOrder0) (shaXorOrder1)) (.nd (shaXorOrder2) (shaXorOrder3))) (.nd (.nd (shaXorOrder4) (shaXorOrder5)) (.nd
  (shaXorOrder6) (shaXorOrder7)))) (.nd (.nd (.nd (shaXorOrder8) (shaXorOrder9)) (.nd (shaXorOrder10) (shaXorOrder11))) (.nd (.nd (shaXorOrder12) (shaXorOrder13))
  (.nd (shaXorOrder14) (shaXorOrder15))))) (.nd (.nd (.nd (.nd (shaXorOrder16) (shaXorOrder17)) (.nd (shaXorOrder18) (shaXorOrder19))) (.nd (.nd (shaXorOrder20)
  (shaXorOrder21)) (.nd (shaXorOrder22) (shaXorOrder23)))) (.nd (.nd (.nd (shaXorOrder24) (shaXorOrder25)) (.nd (shaXorOrder26) (shaXorOrder27))) (.nd (.nd
  (shaXorOrder28) (shaXorOrder29)) (.nd (shaXorOrder30) (shaXorOrder31)))))) (.nd (.nd (.nd (.nd (.nd (shaXorOrder32) (shaXorOrder33)) (.nd (shaXorOrder34)
  (shaXorOrder35))) (.nd (.nd (shaXorOrder36) (shaXorOrder37)) (.nd (shaXorOrder38) (shaXorOrder39)))) (.nd (.nd (.nd (shaXorOrder40) (shaXorOrder41)) (.nd
  (shaXorOrder42) (shaXorOrder43))) (.nd (.nd (shaXorOrder44) (shaXorOrder45)) (.nd (shaXorOrder46) (shaXorOrder47))))) (.nd (.nd (.nd (.nd (shaXorOrder48)
  (shaXorOrder49)) (.nd (shaXorOrder50) (shaXorOrder51))) (.nd (.nd (shaXorOrder52) (shaXorOrder53)) (.nd (shaXorOrder54) (shaXorOrder55)))) (.nd (.nd (.nd
  (shaXorOrder56) (shaXorOrder57)) (.nd (shaXorOrder58) (shaXorOrder59))) (.nd (.nd (shaXorOrder60) (shaXorOrder61)) (.nd (shaXorOrder62) (shaXorOrder63)))))))
  (.nd (.nd (.nd (.nd (.nd (.nd (shaXorOrder64) (shaXorOrder65)) (.nd (shaXorOrder66) (shaXorOrder67))) (.nd (.nd (shaXorOrder68) (shaXorOrder69)) (.nd
  (shaXorOrder70) (shaXorOrder71)))) (.nd (.nd (.nd (shaXorOrder72) (shaXorOrder73)) (.nd (shaXorOrder74) (shaXorOrder75))) (.nd (.nd (shaXorOrder76)
  (shaXorOrder77)) (.nd (shaXorOrder78) (shaXorOrder79))))) (.nd (.nd (.nd (.nd (shaXorOrder80) (shaXorOrder81)) (.nd (shaXorOrder82) (shaXorOrder83))) (.nd (.nd
  (shaXorOrder84) (shaXorOrder85)) (.nd (shaXorOrder86) (shaXorOrder87)))) (.nd (.nd (.nd (shaXorOrder88) (shaXorOrder89)) (.nd (shaXorOrder90) (shaXorOrder91)))
  (.nd (.nd (shaXorOrder92) (shaXorOrder93)) (.nd (shaXorOrder94) (shaXorOrder95)))))) (.nd (.nd (.nd (.nd (.nd (shaXorOrder96) (shaXorOrder97)) (.nd
  (shaXorOrder98) (shaXorOrder99))) (.nd (.nd (shaXorOrder100) (shaXorOrder101)) (.nd (shaXorOrder102) (shaXorOrder103)))) (.nd (.nd (.nd (shaXorOrder104)
  (shaXorOrder105)) (.nd (shaXorOrder106) (shaXorOrder107))) (.nd (.nd (shaXorOrder108) (shaXorOrder109)) (.nd (shaXorOrder110) (shaXorOrder111))))) (.nd (.nd
  (.nd (.nd (shaXorOrder112) (shaXorOrder113)) (.nd (shaXorOrder114) (shaXorOrder115))) (.nd (.nd (shaXorOrder116) (shaXorOrder117)) (.nd (shaXorOrder118)
  (shaXorOrder119)))) (.nd (.nd (.nd (shaXorOrder120) (shaXorOrder121)) (.nd (shaXorOrder122) (shaXorOrder123))) (.nd (.nd (shaXorOrder124) (shaXorOrder125)) (.nd
  (shaXorOrder126) (shaXorOrder127)))))))) (.nd (.nd (.nd (.nd (.nd (.nd (.nd (shaXorOrder128) (shaXorOrder129)) (.nd (shaXorOrder130) (shaXorOrder131))) (.nd
  (.nd (shaXorOrder132) (shaXorOrder133)) (.nd (shaXorOrder134) (shaXorOrder135)))) (.nd (.nd (.nd (shaXorOrder136) (shaXorOrder137)) (.nd (shaXorOrder138)
  (shaXorOrder139))) (.nd (.nd (shaXorOrder140) (shaXorOrder141)) (.nd (shaXorOrder142) (shaXorOrder143))))) (.nd (.nd (.nd (.nd (shaXorOrder144)
  (shaXorOrder145)) (.nd (shaXorOrder146) (shaXorOrder147))) (.nd (.nd (shaXorOrder148) (shaXorOrder149)) (.nd (shaXorOrder150) (shaXorOrder151)))) (.nd (.nd (.nd
  (shaXorOrder152) (shaXorOrder153)) (.nd (shaXorOrder154) (shaXorOrder155))) (.nd (.nd (shaXorOrder156) (shaXorOrder157)) (.nd (shaXorOrder158)
  (shaXorOrder159)))))) (.nd (.nd (.nd (.nd (.nd (shaXorOrder160) (shaXorOrder161)) (.nd (shaXorOrder162) (shaXorOrder163))) (.nd (.nd (shaXorOrder164)
  (shaXorOrder165)) (.nd (shaXorOrder166) (shaXorOrder167)))) (.nd (.nd (.nd (shaXorOrder168) (shaXorOrder169)) (.nd (shaXorOrder170) (shaXorOrder171))) (.nd (.nd
  (shaXorOrder172) (shaXorOrder173)) (.nd (shaXorOrder174) (shaXorOrder175))))) (.nd (.nd (.nd (.nd (shaXorOrder176) (shaXorOrder177)) (.nd (shaXorOrder178)
  (shaXorOrder179))) (.nd (.nd (shaXorOrder180) (shaXorOrder181)) (.nd (shaXorOrder182) (shaXorOrder183)))) (.nd (.nd (.nd (shaXorOrder184) (shaXorOrder185)) (.nd
  (shaXorOrder186) (shaXorOrder187))) (.nd (.nd (shaXorOrder188) (shaXorOrder189)) (.nd (shaXorOrder190) (shaXorOrder191))))))) (.nd (.nd (.nd (.nd (.nd (.nd
  (shaXorOrder192) (shaXorOrder193)) (.nd (shaXorOrder194) (shaXorOrder195))) (.nd (.nd (shaXorOrder196) (shaXorOrder197)) (.nd (shaXorOrder198)
  (shaXorOrder199)))) (.nd (.nd (.nd (shaXorOrder200) (shaXorOrder201)) (.nd (shaXorOrder202) (shaXorOrder203))) (.nd (.nd (shaXorOrder204) (shaXorOrder205)) (.nd
  (shaXorOrder206) (shaXorOrder207))))) (.nd (.nd (.nd (.nd (shaXorOrder208) (shaXorOrder209)) (.nd (shaXorOrder210) (shaXorOrder211))) (.nd (.nd (shaXorOrder212)
  (shaXorOrder213)) (.nd (shaXorOrder214) (shaXorOrder215)))) (.nd (.nd (.nd (shaXorOrder216) (shaXorOrder217)) (.nd (shaXorOrder218) (shaXorOrder219))) (.nd (.nd
  (shaXorOrder220) (shaXorOrder221)) (.nd (shaXorOrder222) (shaXorOrder223)))))) (.nd (.nd (.nd (.nd (.nd (shaXorOrder224) (shaXorOrder225)) (.nd (shaXorOrder226)
  (shaXorOrder227))) (.nd (.nd (shaXorOrder228) (shaXorOrder229)) (.nd (shaXorOrder230) (shaXorOrder231)))) (.nd (.nd (.nd (shaXorOrder232) (shaXorOrder233)) (.nd
  (shaXorOrder234) (shaXorOrder235))) (.nd (.nd (shaXorOrder236) (shaXorOrder237)) (.nd (shaXorOrder238) (shaXorOrder239))))) (.nd (.nd (.nd (.nd (shaXorOrder240)
  (shaXorOrder241)) (.nd (shaXorOrder242) (shaXorOrder243))) (.nd (.nd (shaXorOrder244) (shaXorOrder245)) (.nd (shaXorOrder246) (shaXorOrder247)))) (.nd (.nd (.nd
  (shaXorOrder248) (shaXorOrder249)) (.nd (shaXorOrder250) (shaXorOrder251))) (.nd (.nd (shaXorOrder252) (shaXorOrder253)) (.nd (shaXorOrder254)
  (shaXorOrder255))))))))

def shaAndReads0 : BTree :=
  .nd (.nd (.nd (.lf
  0x6df006e1006e3006e5006e7006e9006eb006ed006ef006f1006f3006f5006f7006f9006fb006fd4113e006ff00451401b8000013f82c001713ea4e002e10f8c1002e00cf57001700d5fd000000d7e7004500de8d00b100e077017100e43d023760e627031280e81103c800f6d70e9fb048f00ebe50cd6d05560119490edcf061b80efb90d41306e30136b50f1a307a800f38d0dca3086d21ea99152d709332)
  (.lf
  0x2452d2452c24517245162450124500244eb244ea244d5244d4244bf244be244a9244a824493244922447d2447c244672446624451244502443b2443a24425244242440f2440e243f9243f8243e3243e2243cd243cc243b7243b6243a1243a02438b2438a24375243742435d2435c243472434624331243302431b2431a1eeab1eeaa1ee871ee861ee651ee641ee411ee401ee1f1ee1e1edfd1edfc1eddb1edda))
  (.nd (.lf
  0x2900828fff28fdd28fcf28fce28fa928fa828f8728f7b28f7528f7428f6b28f6a28f5928f3d28edb28eda28eb128e9128d3728d3628cd528cbc288bd288bc288b3288b2288a9288a82889f2889e28895288942888b2888a288812888028877288762886d2886c288632886228859288582884f2884e288432884228839288382882f2882e28825288242881d2881c28813288122880128800287f7287f6287ef)
  (.lf 0))) (.nd (.nd (.lf
  0x104341042b1042a10421104200f9850f9840f91d0f91c11239112381122f1122e11225112241121b1121a11211112101120711206111fd111fc111f3111f2111e9111e8111df111de111d5111d4111cb111ca111c1111c0111b7111b6111ad111ac111a3111a211199111981118f1118e11185111841117b1117a111711117011167111661115f1115e1114d1114c1113b1113a1112911128111171111611105)
  (.lf
  0x187bf187a918795187811876d1875918745187311871b18707186f3186e1186cf185fd185eb185d9185c7185b5185a3185911857f18537197261971619704196f2196e0196ce196bc196aa19698196861967419662196501963c1962a1961819606195f4195e219590195921959419596195981959a1959c1959e195a0195a2195a4195a6195a8197271971719705196f3196e1196cf196bd196ab1969919687))
  (.nd (.lf
  0xa2eb0a2ea0a2bd0a2bc0a2930a2920a2650a2640a23b0a23a0a20d0a1e90a1c10a1c00a1970a16f0a16e0a1450a1440a1170a1160a0ed0a0c50a0c40a09b0a0730a0720a0490a0480a01b0a01a09e0909e0809dff09dfe09df509df409deb09dea09de109de009dd709dd609dcd09dcc09dc309dc209db909db809daf09dae09da509da409d9b09d9a09d9109d9009d8709d8609d7d09d7c09d7309d7209d69)
  (.lf 0)))

def shaAndReads1 : BTree :=
  .nd (.nd (.nd (.lf
  0x34602345a3345a234589345883453d3453c3451f3451e344f3344f234451344503441f3441e343bd343bc343893438834379343783433f3433e343373433634323343223421d3421c341bf341be34175341743414b3414a33d8933d8833d0f33d0e33ce733ce633b8d33b8c33b6133b6033b4133b4033b1333b1233a6933a6833a1b33a1a3477934778346a9346a8346473464634635346343459b3459a34581)
  (.lf
  0x3b6843b6183b5f03b5ae3b56c3b5143b4e23b49c3b4623b4203b3de3b3ba3b2dc3b2cc3b2bc3b2aa3b2f83b2423b1fc3b18c3b1a437e843c4703c38a3c41c3c36a3c3003c2dc3c3a23c29a3c2743c2523c1f43c2283c1ac3c1863c1783c16a3c1543c1b83c09c3c0663c0483bfc23bfa23bfac3bf803bc1c3bb543bace3b9dc3b9743b8b23b80a3d2443d1f23d1d63d2783d1ac3d1623d10c3d0f43d0d83d0a6))
  (.nd (.lf
  0x19abc19ab319ab219aa919aa81a3cb1a3ca1a3951a3941a3591a3581a31b1a31a1a2dd1a2dc1a29f1a29e1a2611a2601a2231a2221a1e91a1e81a1ad1a1ac1a1731a1721a1391a1381a0fd1a0fc1a0c31a0c21a08d1a08c1a0511a0501a0171a01619fdb19fda19f9f19f9e19f6119f6019f2319f2219ee719ee619eab19eaa19e6d19e6c19e2b19e2a19de319de219d9f19d9e19d5919d5819d1119d1019cc1)
  (.lf 0))) (.nd (.nd (.lf
  0x38a5938a5838a5138a50388c9388c838879388783885f3885e38855388543884d3884c388413884038837388363882d3882c388233882238819388183880f3880e3880538804387fd387fc387f3387f2387e9387e8387df387de385d1385d0385c9385c8385bf385be3beb73beb63beab3beaa3bea13bea03be953be943be8b3be8a3be7f3be7e3be753be743be6d3be6c3be5f3be5e3be573be563be4d3be4c)
  (.lf
  0x18b0e19a9e1aa801ba381c9f61d9401f90a201aa215a2221a6233482411c252c82604c2740a28348296862a4042ba642c8b42dbda2ee34300b4310e6321a63342234692359a03688a37ba43b7f63c3b43d1223de903e9cc3f802401a4410b00077f016fb0236102fe503c6b048db0554d061a306e1d07a6b086bf0931d09f8d0aa950b5970c0990cb9110aef1176d12893134d914611150fb160ab16bb317b5b))
  (.nd (.lf
  0x39f5f39f5e39f5739f5639f4b39f4a39f3f39f3e39f3339f3239f2939f2839f1d39f1c39f1139f1039f0539f0439efb39efa39eef39eee39ed339ed239ecb39eca39ec139ec039eb739eb639eab39eaa39e9739e963a2013a2003a1f93a1f83a1cf3a1ce3a1b13a1b03a1a73a1a63a1133a1123a10b3a10a3a0ff3a0fe3a0f73a0f63a0ed3a0ec3a0e33a0e23a0d93a0d83a0d13a0d03a0c73a0c63a0b93a0b8)
  (.lf 0)))

def shaAndReads2 : BTree :=
  .nd (.nd (.nd (.lf
  0xe2f00e3100e3300e3500e3700e3900e3b00e3d00e3f00e4100e4300e4500e4700e4900e4b00e4d00e4f00e5100e5300e5500e5700e5900e5b00e5d00e5f00e6100e6300e6500e6700e6900e6b00b1101ef301ef501ef701ef901efb01efd01eff01f0101f0301f0501f0701f0901f0b01f0d01f0f01f1101f1301f1501f1701f1901f1b01f1d01f1f01f2101f2301f2501f2701f2901f2b01f2d01f2f01f31)
  (.lf
  0xed070ed060ecfd0ecfc0ecf30ecf20ece90ece80ecdf0ecde0ecd50ecd40eccb0ecca0ecc10ecc00ecb70ecb60ecad0ecac0eca30eca20ec990ec980ec8f0ec8e0ec850ec840ec7b0ec7a0ec710ec700ec670ec660ec5d0ec5c0ec530ec520ec490ec480ec3f0ec3e0ec350ec340ec2b0ec2a0ec210ec200ec170ec160ec0d0ec0c0ec030ec020ebf90ebf80ebef0ebee19457194561942519424193eb193ea))
  (.nd (.lf
  0x220522204b2204a21fcf21fce21e8521e8421e7b21e7a21e7121e7021e6521e6421e4721e4621d7d21d7c21cd121cd021cc921cc821ca121ca021c5d21c5c21c1b21c1a21bad21bac21ba321ba221b3721b3621af721af621aef21aee21a3921a3821a2921a28219d5219d4219c3219c2218e7218e6218df218de218cd218cc216a7216a6215d7215d6215cd215cc220f3220f22206b2204121fc521fc421fb9)
  (.lf 0))) (.nd (.nd (.lf
  0x419a7419a64199f4199e419974199641637416364162b4162a416214162041619416184160b4160a4160341602415fb415fa4155741556414d1414d04133b4133a4131541314412af412ae4116d4116c410c5410c441b8141b8041b5f41afb41af341aeb41aea41adb41ada41ad341acb41a9d41a9c41a9141a9041a7341a7241a6741a6141a5941a4941a4841701416cd416cc416b1416b0416a7416a641675)
  (.lf
  0xe5800e5a00e5c00e5e00e6000e6200e6400e6600e6800e6a006c0006c2006c4006c6006c8006ca006cc006ce006d0006d2006d4006d6006d8006da006dc006de006e0006e2006e4006e6006e8006ea006ec006ee006f0006f2006f4006f6006f8006fa006fc006fe01fb201fb401fb601fb801fba01fbc01fbe01fc001fc201fc401fc601fc801fca01fcc01fce01fd001fd201fd401fd601fd801fda01fdc))
  (.nd (.lf
  0x177b0177a0173b0173a050bf050be05081050800503f0503e04ffb04ffa04fb504fb404f7304f7204f3304f3204eef04eee04ea904ea804e6304e6204e1d04e1c04dd704dd604d9504d9404d5504d5404d1504d1404cd104cd004c8f04c8e04c4f04c4e04c0f04c0e04bcb04bca04b8904b8804b4904b4804b0904b0804ac504ac404a7f04a7e04a3904a38049f3049f2049ad049ac0496b0496a0492b0492a)
  (.lf 0)))

def shaAndReads3 : BTree :=
  .nd (.nd (.nd (.lf
  0x20d382213522134220b1220b02208f2208e21fff21ffe21fa121fa021f8121f8021f2d21f2c21eb721eb621ea321ea221db521db421d5721d5621d2f21d2e21d0521d0421c8b21c8a21c4521c4421bf321bf221bd121bd021b6921b6821b1d21b1c21adb21ada21a7d21a7c21a7121a70219f3219f22199f2199e21959219582190f2190e2190321902216b7216b6215f7215f6215ed215ec220fd220fc2205f)
  (.lf
  0x3cee53cea93ce953ce813ce693ce593ce453ce333ce213ce0d3cd533cd393cd433cc973cc4d3cc413cc1f3cb893cb213cacf3ca8f3ca4f3db9a3db683db443db0c3daf43dadc3da723da343d9c03da043d9d63d9863d9943d9583d91e3d9043d8c83d8e63d8c23d8d83d8863dbca3d8203d8083d7e43d7bc3d7aa3d7843d7763d7ce3d2643d1423db9b3db693db453db0d3daf53dadd3da733da353d9c13da05))
  (.nd (.lf
  0x126511265012647126461263d1263c126331263212629126281261f1261e12615126141255f1255e12539125381252f1252e12525125241360513604135fb135fa135f1135f0135e7135e6135dd135dc135d3135d2135c9135c8135bf135be135b5135b4135ab135aa135a1135a013597135961358d1358c135831358213579135781356f1356e13565135641355b1355a135511355013547135461353d1353c)
  (.lf 0))) (.nd (.nd (.lf
  0x3143231429314283141f3141e31415314143140b3140a313fb313fa313f1313f0313e9313e8313e1313e0313d7313d6313cd313cc313c5313c4313bd313bc313b3313b2313a7313a63139d3139c31393313923138931388313813138031375313743136b3136a31363313623122f3122e3119131190311613116031f4131f4031f3531f3431f2931f2831f1d31f1c31f1131f1031f0531f0431efd31efc31ef1)
  (.lf 0)) (.nd (.lf
  0x2fcd52fcd42fccb2fcca2fcc12fcc02fcb72fcb62fcad2fcac2fca32fca22fc992fc982fc8f2fc8e2fc852fc842fc7b2fc7a2fc712fc702fc672fc662fc5d2fc5c2fc532fc522fc492fc482fc3f2fc3e2fc352fc342fc2b2fc2a2fc212fc202fc172fc162fc0f2fc0e3183f3183e31833318323182131820318193181831811318103180531804317e3317e2317d7317d631799317983178f3178e3178531784)
  (.lf 0)))

def shaAndReads4 : BTree :=
  .nd (.nd (.nd (.lf
  0x1d42b1d29f1d2a11d23f1d2411d1e71d1651d1671d1691d16b1d16d1d16f1e4c31d1711f75d1f75f1f7611f7631f7651f7671f7691f76b1f76d1f76f1f7711f7731f7751f7771f7791f77b1f77d1f77f1f7811f7831f7851f7871f7891f78b1f78d1f78f1f7911f7931f7951f2171f1d32294d1f1d520051200532005520057200592005b2005d2005f20061200632006520067200692006b2006d2006f20071)
  (.lf
  0x1dfbf1dfbe1dfa91dfa81df931df921df7d1df7c1df671df661df511df501df3b1df3a1df251df241df0f1df0e1def91def81dee11dee01decb1deca1deb51deb41de9f1de9e1de891de881de731de721de5b1de5a1de431de421de2b1de2a1de151de141ddff1ddfe1dde91dde81ddd31ddd21ddbd1ddbc1dda71dda61dd911dd901dd791dd78103d3103d210379103781031710316102bb102ba1025f1025e))
  (.nd (.lf
  0x253a625397253962538f2538e25387253862537f2537e25375253742536b2536a2535f2535e25357253562534b2534a253432534225339253382532f2532e25325253242531b2531a2530f2530e2530725306252fd252fc252f3252f2252e9252e8252df252de252d1252d0260a3260a22608f2608e2607b2607a25e9325e9225e8b25e8a25e8125e8025e7725e7625e0d25e0c25e0325e0225cc725cc625cbf)
  (.lf 0))) (.nd (.nd (.lf
  0x6fca06f8306f8206f4306f4206f0506f0406ec706ec606e8b06e8a06e5106e50075bb075ba07573075720753507534074ef074ee074a7074a607467074660742707426073e7073e6073a7073a607367073660732707326072e7072e6072a9072a807263072620721d0721c071d7071d60718f0718e07151071500710907108070cb070ca0708307082070450704406ffd06ffc06fbf06fbe06f7706f7606f37)
  (.lf
  0x82a5082a7082a9082ab082ad082af082b1082b3082b5082b7082b9082bb082bd082bf082c1082c3082c5082c7082c9082cb082cd082cf08eee08ef008ef208ef408ef608ef808efa08efc08efe08f0008f0208f0408f0608f0808f0a08f0c08f0e08f1008f1208f1408f1608f1808f1a08f1c08f1e08f2008f2208f2408f2608f2808f2a08f2c08eef08ef108ef308ef508ef708ef908efb08efd08eff08f01))
  (.nd (.lf
  0x807508074080310803007fef07fee07faf07fae07f6f07f6e07f2f07f2e07eef07eee07eab07eaa07e6507e6407e2307e2207ddf07dde07d9d07d9c07d5907d5807d1307d1207cd107cd007c8d07c8c07c4707c4607c0507c0407bc507bc407b8507b8407b4507b4407b0507b0407ac507ac4050b3050b20506f0506e050310503004feb04fea04fa304fa204f6304f6204f2504f2404edf04ede04e9904e98)
  (.lf 0)))

def shaAndReads5 : BTree :=
  .nd (.nd (.nd (.lf
  0x2a4922a4812a4802a4672a4662a4212a4202a3ed2a3ec2a3d12a3d02a3a52a3a42a38d2a38c2a3712a3702a3452a3442a3232a3222a2f72a2f62a2e32a2e22a2c32a2c22a2a52a2a42a27b2a27a2a25f2a25e2a2432a2422a2292a2282a2072a2062a1ed2a1ec2a1cd2a1cc2a1b92a1b829fa529fa429f1529f1429ef529ef429e7329e7229e6b29e6a29e4129e402b8b12b8b02b8092b8082b7f72b7f62b79b)
  (.lf
  0x1677416776167781677a1677c166ac166ae166b0166b2166b4166b6166541662c1666a1665e1662e166301663216634165d8165da165dc1771a1771c1771e17720177221772417726177281772a177521769c1769e176a0176a2176a4176681763a1763c1763e176401764217644175f4175ce175c4175e2175d8175b21759a175ba1759c1759e186021860418606186081860a1860c1860e186101861218614))
  (.nd (.lf
  0x1622d1622c1621116210161f5161f4161d5161d4161b7161b61619b1619a1617f1617e1615f1615e1613d1613c1611f1611e160ff160fe160dd160dc160bf160be1644b1644a16429164281640716406163e5163c9163c8163a7163a6163851636916368163471634616325163241630316302162e1162e0162bf162a31628716286162651626416243162271620b161ef161ee161cd161b1161951617916178)
  (.lf 0))) (.nd (.nd (.lf
  0x354f5354ed354d1354973549635489354883546f3546e3544d353f9353f3353eb35387353813537b3537a3536f3536e353673524f3523b3523a350ad34fcf34fce34fc734fc634f8b34f5134f2a349e1349e0349d9349d8349cb349ca349c1349c0349b7349b6349ad349ac349a3349a234997349963498f3498e34875348743486d3486c348633486234859348583484f3484e34845348443483b3483a34831)
  (.lf 0)) (.nd (.lf
  0x3719f3719e3718b3718a3705f3705e3705337052370493704837039370383702f3702e370253702437019370183700d3700c36efd36efc36edd36edc36ec136ec036ea936ea836e9536e9436e7536e7436e5b36e5a36e2f36e2e36e0736e063651d3651c36513365123650936508364ff364fe364f5364f4364eb364ea364e1364e0364d7364d6364cd364cc364c3364c2364b9364b8364ad364ac364a5364a4)
  (.lf 0)))

def shaAndReads6 : BTree :=
  .nd (.nd (.nd (.lf
  0x3e9d23e9ad3e9ac3e9813e9803e9793e9783e9273e9263e91d3e91c3e8f73e8f63e8e13e8e03e8d93e8d83e8cb3e8ca3e8b33e8b23e8a53e8a43e89d3e89c3e8953e8943e87f3e87e3e86d3e86c3e8533e8523e8213e8203e7fd3e7fc3e7e53e7e43e7dd3e7dc3e2153e2143e1fd3e1fc3e02f3e02e3dfb73dfb63f6373f6363f6133f6123f5f93f5f83f5953f5943f57d3f57c3f5753f5743f54b3f54a3f539)
  (.lf
  0xde970de961400f1400e13fcb13fca13f7b13f7a13f2d13f2c13edd13edc13e8b13e8a13e3d13e3c13ded13dec13d9b13d9a13d4913d4813cf713cf613ca913ca813c5913c5813c0b13c0a13bbf13bbe13b6f13b6e13b2113b2013ad513ad413a8513a8413a3713a36139e7139e613995139941394713946138fb138fa138af138ae1385f1385e1380d1380c137bf137be1376f1376e1371d1371c0ddcf0ddce))
  (.nd (.lf
  0x1c9441c93b1c93a1c9311c9301c9271c9261c91d1c91c1c9111c9101c9091c9081c8fd1c8fc1c8f51c8f41c8eb1c8ea1c8e11c8e01c8d71c8d61c8cd1c8cc1c8c11c8c01c8b71c8b61c8ad1c8ac1c8a11c8a01c8991c8981c88f1c88e1c8851c8841c87b1c87a1c8711c8701c8671c8661c85d1c85c1c8551c8541c74d1c74c1c6f31c6f21c6b91c6b81c6651c6641c62f1c62e1da6b1da6a1da611da601da57)
  (.lf 0))) (.nd (.nd (.lf
  0x3dbbf3dbbe3dbb53dbb43dba93dba83db2b3db2a3daf13daf03dad33dad23da6d3da6c3da3d3da3c3da0d3da0c3f0933f0923f0873f0863f07b3f07a3f06f3f06e3f05d3f05c3efe53efe43efd93efd83efd13efd03efc33efc23efb73efb63efa93efa83efa13efa03ef953ef943ef8d3ef8c3ef3d3ef3c3ef313ef303ef253ef243ef193ef183ef0f3ef0e3eeff3eefe3eed93eed83eecd3eecc3eeb73eeb6)
  (.lf
  0x2b3f82b3e02b3da2b3882b29a2b18e2b1742afdc2af9d2af992af8a2c55e2c5462c5382c52e2c4ae2c4a02c4882c45e2c4382c3ca2c2aa2c2882c26e2c2462c2262c20c2c17c2c14e2c0df2c0da2db4e2dab42da662da102d9d22d6f42d6ee2d57e2d5782d5722d5582d4e82d37a2d3742d36c2d35c2d2f22cfeb2cfdc2ee922ed782ed722ed042ecfe2ecc02ecba2ebdc2ebac2eb282eae42ea5a2e9f02e97c))
  (.nd (.lf
  0x1d7001d6001cd001cc001c3001c2001b9001b801ed301ed201e9501e9401e4f01e4e01e0901e0801dc701dc601d8701d8601d4701d4601d0301d0201cc101cc001c8101c8001c3d01c3c01bf701bf601bb501bb401b7101b7001b2b01b2a01ae501ae401aa301aa201a5f01a5e01a1d01a1c019dd019dc0199d0199c01959019580191701916018d7018d6018930189201851018500181101810017cd017cc)
  (.lf 0)))

def shaAndReads7 : BTree :=
  .nd (.nd (.nd (.lf
  0x185ac1859b1859a18589185881852b1852a185211852018517185161850d1850c1850318502184f9184f81837b1837a1833b1833a182fb182fa182bb182ba18277182761823118230181ef181ee181af181ae1816f1816e1812b1812a180e5180e41809f1809e1805d1805c1801d1801c17fdd17fdc17f9917f9817f5317f5217f1117f1017ed117ed017e8d17e8c17e4717e4617e0517e0417dc117dc017d7f)
  (.lf
  0x292372921729225291f5291e5291d7291c32919d291a92918729163291532917928f6528f0d28eef28ebf28ea328e672913928cad28c772a8b62a8922a8722a8582a7f22a8d42a7ca2a7a82a80a2a7842a76c2a7522a73c2a71c2a70c2a6f62a6e42a6d42a6bc2a6ac2a6922a6762a6802a6642a64c2a72a29f2629f3a29eac29e9429e3229e142a8b72a8932a8732a8592a7f32a8d52a7cb2a7a92a80b2a785))
  (.nd (.lf
  0xffc20ff630ff620ff050ff040fea70fea60fe450fe440fde90fde80fd890fd880fd290fd280fccb0fcca0fc6d0fc6c0fc0f0fc0e0fbb50fbb40fb550fb540faf50faf40fa930fa920fa370fa360f9db0f9da0f9790f9780f9110f910103c1103c010361103601030110300102a3102a21024910248101e9101e81018d1018c1013110130100d3100d210075100741001b1001a0ffbb0ffba0ff5b0ff5a0fefd)
  (.lf 0))) (.nd (.nd (.lf
  0x2d44b2d44a2d4412d4402d27d2d27c2d25b2d25a2d2412d2402d22d2d22c2d2192d2182d2092d2082d1ad2d1ac2d1752d1742dacf2dace2dac52dac42dabd2dabc2daa52daa42da952da942da8b2da8a2da432da422d9c92d9c82d9bd2d9bc2d9b32d9b22d9ab2d9aa2d97b2d97a2d6232d6222d6072d6062d5e72d5e62d5432d5422d5392d5382d52d2d52c2d5252d5242d5132d5122d4732d4722d4692d468)
  (.lf 0)) (.nd (.lf
  0x2ae8f2ae8e2ae792ae782ae632ae622ae4d2ae4c2ae372ae362ae212ae202ae0b2ae0a2adf52adf42addf2adde2adc92adc82adb32adb22ad9d2ad9c2ad872ad862ad712ad702ad5b2ad5a2ad452ad442ad2f2ad2e2ad192ad182ad032ad022aced2acec2acd72acd62acc12acc02acab2acaa2af1f2af1e2af092af082aef32aef22aedd2aedc2aec72aec62aeb12aeb02ae9b2ae9a2ae852ae842ae6f2ae6e)
  (.lf 0)))

def shaAndReads8 : BTree :=
  .nd (.nd (.nd (.lf
  0x24608257902691c27ae828c6e29e382af982c0de2cfea2e2462f30c3074e316162f0292efcd2ef972eeb72eecb2ee172ee092edd72ed272edc52ece32ec9b2ec652ec5b2ec032ebcf2eb8d2eb532eb452eb092eac72ea812ea8b2ea472ea0b2e9ed2e9a32e9932e9452e9352e8ef327b72e2413016b301413005530057300593005b3005d300172fe632fe652fe672fe692fe6b2f9f32f9d92f9db2f9dd2f969)
  (.lf
  0x1e3051e3041e2ef1e2ee1e2d91e2d81e2c31e2c21e2ad1e2ac1e2971e2961e2811e2801e26b1e26a1e2551e2541e23f1e23e1e2291e228225cd225cc225c3225c2225b9225b8225af225ae225a5225a42259b2259a225912259022587225862257d2257c225732257222569225682255f2255e22555225542254b2254a225412254022537225362252d2252c225232252222519225182250f2250e2250522504))
  (.nd (.lf
  0x264eb264ea264e1264e0262fb262fa262f1262f0262e7262e6262dd262dc262cf262ce262c7262c6262bf262be262b5262b4262ab262aa262a1262a0262972629625f0d25f0c25e4f25e4e275332753227529275282751f2751e27513275122750b2750a274ff274fe274f7274f6274ed274ec274e1274e0274d9274d8274d1274d0274c7274c6274bd274bc274af274ae274a7274a62749f2749e2749127490)
  (.lf 0))) (.nd (.nd (.lf
  0xa2e20a2b50a2b40a28b0a28a0a25d0a25c0a2330a2320a2070a2060a1df0a1de0a1b90a1b80a18d0a18c0a1670a1660a13d0a13c0a10f0a10e0a0e30a0e20a0bd0a0bc0a0910a0900a06b0a06a0a0410a0400a0130a01209fe709fe609fc709fc609fa709fa60b21b0b21a0b2090b2080b1f70b1f60b1e50b1e40b1d30b1d20b1c10b1c00b1af0b1ae0b19d0b19c0b18b0b18a0b1790b1780b1670b1660b155)
  (.lf
  0x1127f11281112831128511287112891128b1128d1128f112911129311295112f3111571114511133111211110f110fd110eb110d9110a71259e125a0125a2125a4125a6125441247e12480124821248412486124881248a1248c1248e124901249212494123e4123aa123ac123ae123b0123b2123b41235e122021220412206122081220a1220c1259f125a1125a3125a5125a7125451247f124811248312485))
  (.nd (.lf
  0x84b9084b8084af084ae084a5084a40849b0849a084910849008487084860847d0847c084730847208469084680845f0845e08455084540844b0844a084410844008437084360842d0842c0842308422084190841809b0709b0609acb09aca09a8909a8809a4509a4409a0309a02099bf099be0997d0997c0993909938098f7098f6098b7098b609877098760983709836097f3097f2097ad097ac0976b0976a)
  (.lf 0)))

def shaAndReads9 : BTree :=
  .nd (.nd (.nd (.lf
  0x2eb4a2eb112eb102eadf2eade2ea7b2ea7a2ea6d2ea6c2ea332ea322ea1b2ea1a2e9cd2e9cc2e9ab2e9aa2e99b2e99a2e94d2e94c2e93d2e93c2e9052e90430139301382fecb2feca2feb92feb82fea92fea82fe972fe962fe8b2fe8a2fe832fe822fe5d2fe5c2fe552fe542fe4d2fe4c2fe452fe442fe3d2fe3c2fbfb2fbfa2fbe72fbe62fbd32fbd22fbc12fbc02fbad2fbac2fb992fb982fb852fb842fb71)
  (.lf
  0x273402734227298272aa2727a2726a2725c2725e2722427226271f8271e0271ce271e8272362720026abc26a7a26a7026a5c269b2269b4283a428396283ae283782837a2835628308282f0282f8282c6282c8282ca282cc282862826e2827628256282582825a2822a280b82805627fde27fb027e6027e2627bc627bb627baa27b9027b6227aec2975029740296ce296bc296a0296a22966a2966c2962e295fc))
  (.nd (.lf
  0x17fd017f8d17f8c17f4717f4617f0517f0417ec517ec417e8117e8017e3b17e3a17df917df817db917db817d7317d72184c3184c21848d1848c18453184521841b1841a183e1183e0183a7183a618367183661832718326182e7182e6182a7182a618263182621821d1821c181db181da1819b1819a1815b1815a1811718116180d1180d01808b1808a1804918048180091800817fc917fc817f8517f8417f3f)
  (.lf 0))) (.nd (.nd (.lf
  0x375c2375b5375b4375ad375ac375a1375a0375933759237587375863757f3757e375753757437565375643755d3755c37553375523744b3744a374353743437429374283741f3741e370e5370e4370d9370d8370b1370b03709d3709c36e4336e4236e0136e0037757377563774f37747377463773b3773a3772d377233772237715377143770737706376f5376e1376d9376d8376d1376d0376c1376c0376b9)
  (.lf 0)) (.nd (.lf
  0x38c1338c1238c0338c0238bfb38bfa39057390563904b3904a3903f3903e390333903238ffd38ffc38fc538fc438fb338fb238f8538f8438f4138f4038f3938f3838ee938ee838ee138ee038ed538ed438e8d38e8c38e8138e8038e7538e7438e6538e6438e5338e5238d9938d9838d6d38d6c38d4738d4638d2f38d2e38cf938cf838ce738ce638cdf38cde38ca938ca838c9338c9238c5538c5438c4d38c4c)
  (.lf 0)))

def shaAndReads10 : BTree :=
  .nd (.nd (.nd (.lf
  0x41bc841ba541ba441989419884196b4196a41933419324192941928419214192041501415004124f4124e4194f4194e41947419464193f4193e418bd418bc418b3418b24189f4189e414ed414ec41225412244121b4121a41213412124120941208411ff411fe411f5411f4411eb411ea411e1411e040ed140ed040ec740ec640eb540eb440c7340c7240c3740c3640c2f40c2e40c2540c2440be140be040bd9)
  (.lf
  0xe6bd0e6bc0e6b30e6b20e6a90e6a80e69f0e69e0e6950e6940e68b0e68a0e6810e6800e6770e6760e66d0e66c0e6630e6620e6590e6580e64f0e64e0e6450e6440e63b0e63a0e6310e630103e1103e010389103881032710326102cb102ca1026f1026e1021110210101b3101b21015910158100f9100f81009d1009c10041100400ffe30ffe20ff810ff800ff250ff240fec50fec40fe650fe640fe070fe06))
  (.nd (.lf
  0x1fa6d1fa6c1f9bd1f9bc1f9b51f9b41f9531f9521fe4d1fe251fe241fe011fde31fdcd1fdcc1fda11fda01fd831fd821fd5b1fd5a1fd371fd1b1fd1a1fcf51fcf41fcd51fcad1fcac1fc8d1fc8c1fc691fc681fc4b1fc2f1fc0d1fbf11fbd51fbd41fbc11fb8b1fb8a1fb571fb231fb221faed1fab91fa8d1f9e71f9931f992205e9205e8205e1205e0205d5205d4205cd205cc20551205502053b2053a203e9)
  (.lf 0))) (.nd (.nd (.lf
  0x3fc043fbf93fbf83fb6b3fb653fb3f3fb3e3fac53fac43f9bb3f9ba3f9233f9193f9183f8a53f8503fe8d3fe8c3fe833fe823fe793fe783fe6d3fe6c3fe653fe643fe5b3fe5a3f76f3f76e3f7653f7643f7593f7583f7513f7503f7453f7443f73b3f73a3f7313f7303f7273f7263f71f3f71e3f7153f7143f7093f7083f7013f7003f6f73f6f63f6e13f6e03f6d73f6d63f6cb3f6ca3f6c33f6c23f6b73f6b6)
  (.lf
  0x1646916da318531194bd19c911ac731bef71d0a71f1b31f91f20cd7215e5229872332d24603257992690d27adb28c7d29e212af8b2c0db2cfdd2e2312f3033083b3161d3279b339df34ab735c55370ed37edb3b7ff3ca3d3d1293dea33e9c73f815409f94123f0f8c00cf560d5fc0d7e60de8c0e0760e43c0e6260e8100e9fa0ebe40edce0efb80f1a20f38c1ea980f8de20a08119682268a136d024308254b4))
  (.nd (.lf
  0x300202ff902ff802fef02fee037df037de037ab037aa037710373d0373c03703036cf0369b0369a036610366003627035f3035f2035b9035b80357f0354b0354a03511034dd034dc034a3034a203469034680342f033fb033fa033c1033c00338703353033520331903318032df032de032a503271032700323703203031cf031ce02e6102e6002e5702e5602e4d02e4c02e4302e4202e3902e3802e2f02e2e)
  (.lf 0)))

def shaAndReads11 : BTree :=
  .nd (.nd (.nd (.lf
  0x1c4ba1c4851c4841c47b1c47a1c3cb1c3ca1c2891c2881c2471c2461c1f71c1f61c1bb1c1ba1c16d1c16c1c1351c1341c0e11c0e01c0a71c0a61c0531c0521c0191c0181bfc71bfc61bf7f1bf7e1bf2f1bf2e1d7d71d7d61d6331d6321d6291d6281d61f1d61e1d6151d6141d60b1d60a1d6011d6001d5f71d5f61d4c11d4c01d4a91d4a81d4931d4921d4831d4821d46b1d46a1d4571d4561d44f1d44e1d33f)
  (.lf
  0x320b9320a731fc931e7f31e0d31ded31df731da131d9131daf31d6131cad31c9531c9731c7531a09318b131875317c9316ab3165731625336d4336b43373c3368633664336463362a336ee3338c3336633296332ac3332e336083320e331cc331a633182331743315e32ffc32f8c32f7432f6a32f5232fe232952328f2328ce328de328ba327a8336d5336b53373d3368733665336473362b336ef3338d33367))
  (.nd (.lf
  0x11817118161180d1180c1180311802117f9117f8117ef117ee117e5117e4117db117da117d1117d0117c7117c6117bd117bc117b3117b2117a9117a81179f1179e11795117941178b1178a11781117801177711776121b5121b412173121721212f1212e120eb120ea120a3120a21205b1205a120131201211fcb11fca11f8311f8211f3b11f3a11ef511ef411eb111eb011e6d11e6c11e2911e2811de511de4)
  (.lf 0))) (.nd (.nd (.lf
  0x2efb32efb22ef272ef262ef1d2ef1c2ee3f2ee3e2f7372f7362f72d2f72c2f7232f7222f7192f7182f70f2f70e2f7072f7062f6fd2f6fc2f6f52f6f42f6e92f6e82f6e12f6e02f6d52f6d42f6cb2f6ca2f6c32f6c22f6b92f6b82f6b12f6b02f6992f6982f5c12f5c02f5af2f5ae2f5972f5962f57d2f57c2f5752f5742f56d2f56c2f5652f5642f40f2f40e2f3f32f3f22f3d72f3d62f3c52f3c42f37b2f37a)
  (.lf 0)) (.nd (.lf
  0x2ce052ce042cdfd2cdfc2cdf32cdf22cdeb2cdea2cddf2cdde2cdd72cdd62cdcf2cdce2e7f92e7f82e7b52e7b42e7712e7702e72d2e72c2e6eb2e6ea2e6a72e6a62e6652e6642e6272e6262e5e92e5e82e5ab2e5aa2e56d2e56c2e52f2e52e2e4f52e4f42e4c32e4c22e2232e2222e2172e2162e2092e2082e1ff2e1fe2e1f52e1f42e1e92e1e82e1e12e1e02e1d52e1d42e1c92e1c82e1bf2e1be2e1b12e1b0)
  (.lf 0)))

def shaAndReads12 : BTree :=
  .nd (.nd (.nd (.lf
  0xca370ca390ca3b0ca3d0ca3f0ca410ca430ca450ca470ca490ca4b0ca4d0ca4f0d7ef0ca51105ef105e1105d1105c1105af1059f1058f1057f1056f104db104dd104df104e1104e3104e5104e7104e9104eb104ed104ef104f1104f3104f5104f7104f9104fb104fd104ff105011050310505136bd10507115ef115f1115f3115f5115f7115f9115fb115fd115ff11601116031160511607116091160b1160d)
  (.lf
  0x1bd3f1bd3e1bd291bd281bd131bd121bcfd1bcfc1bce71bce61bcd11bcd01bcbb1bcba1bca51bca41bc8d1bc8c1bc751bc741bc5d1bc5c1bc471bc461bc311bc300f2cf0f2ce0f2c50f2c40f2bb0f2ba0f2b10f2b00f2a70f2a60f29d0f29c0f2930f2920f2890f2880f27f0f27e0f2750f2740f26b0f26a0f2610f2600f2570f2560f24d0f24c0f2430f2420f2390f2380f22f0f22e0f2250f2240f21b0f21a))
  (.nd (.lf
  0x2024b2024a202412024020237202362022d2022c202232022220219202182020f2020e2020520204201fb201fa201f1201f0201e7201e6200f1200f0200e7200e6200dd200dc20031200301fee91fee81fedf1fede1fed51fed41fecb1feca1fec11fec01feb71feb61fead1feac1fea31fea21fe991fe981fe8f1fe8e237ab237aa237952379423747237462373d2373c237332373223729237282371f2371e)
  (.lf 0))) (.nd (.nd (.lf
  0x425e0422104220041d9041d80419b0419a04153041520411504114040cf040ce04087040860404904048040030400203fbb03fba03f7b03f7a03f3b03f3a03efb03efa03ebd03ebc03e7503e7403e3503e3403df703df603daf03dae03d7103d7003d2b03d2a03ce303ce203ca503ca40442b0442a043ed043ec043a7043a604361043600431904318042d9042d80429b0429a04253042520421504214041cd)
  (.lf
  0xc4300c4200c2d00c2c00c1700c1600c0100c0000beb00bea00bd500bd400bbf00bbe00ba900ba800b9300b9200b7d00b7c00b6700b6602bb602bb802bba02bbc02bbe02bc002bc202bc402bc602bc802bca02bcc02bce02bd002bd202bd402bd602bd802bda02bdc02bde02be002be202be402be602be802bea02bec02bee02bf002bf202bf402bb702bb902bbb02bbd02bbf02bc102bc302bc502bc702bc9))
  (.nd (.lf
  0x37660373503734036f9036f8036c5036c4036930369203659036580361d0361c035eb035ea035b1035b0035750357403543035420350703506034d5034d40349b0349a03461034600342503424033f3033f2033b9033b80337d0337c0334b0334a0331103310032d7032d60329b0329a03269032680322d0322c031f9031f8031c7031c60318b0318a0698d0698c06953069520690f0690e068cd068cc06889)
  (.lf 0)))

def shaAndReads13 : BTree :=
  .nd (.nd (.nd (.lf
  0x25c0225bef25bee25bdb25bda25bc725bc625aa125aa025a5525a5425a1525a14259dd259dc259a7259a62596f2596e258f7258f6258af258ae25879258782583f2583e257fd257fc260cf260ce260c5260c425f5f25f5e25f5525f5425f4b25f4a25f4125f4025ebb25eba25e2925e2825dcb25dca25dc325dc225d1d25d1c25d0325d0225c9325c9225c3f25c3e25bad25bac25b7d25b7c25b6125b6025b35)
  (.lf
  0x6cb206cb406cb606cb806cba06cbc06cbe06cc006cc206cc406cc606cc806cca06ccc06cce06cd006cd206cd406cd606cd806cda06cdc078ec078ee078f0078f2078f4078f6078f8078fa078fc078fe07900079020790407906079080790a0790c0790e07910079120791407916079180791a0791c0791e07920079220792407926079280792a08540085420854408546085480854a0854c0854e0855008552))
  (.nd (.lf
  0x147a3147871476b1474f147331473214711146f5146d9146d8146b71469b1469a146791465d1465c1431d1431c14313143121430914308142ff142fe142f5142f4142eb142ea142e1142e0142d7142d6142cd142cc142c3142c2142b9142b8142af142ae142a5142a41429b1429a142911429014287142861427d1427c142731427214269142681425f1425e14255142541424b1424a14241142401423714236)
  (.lf 0))) (.nd (.nd (.lf
  0x324b2324a5324a43249d3249c32493324923248b3248a324813248032477324763246d3246c324633246232459324583244f3244e3242732426323f7323f6323c9323c8323a1323a032397323963238d3238c32209322083209b3209a335f9335f8335ef335ee335e5335e4335db335da335cf335ce335c7335c6335bd335bc335b3335b2335a9335a83359f3359e33595335943358b3358a3357f3357e33573)
  (.lf 0)) (.nd (.lf
  0x339a3339a23399b3399a3398f3398e3396133960339553395432f2b32f2a32f2132f2032f1732f1632f0d32f0c32f0332f0232ef932ef832eeb32eea32ee132ee032ed932ed832ed132ed032ec732ec632e0932e0832e0132e0032df732df632ded32dec32de332de232dd932dd832dcf32dce32dc532dc432dbb32dba32db132db032da732da632d3f32d3e32d3532d3432d2b32d2a32d2132d2032d1732d16)
  (.lf 0)))

def shaAndReads14 : BTree :=
  .nd (.nd (.nd (.lf
  0x3b3e63b3b13b3b03b36d3b36c3b35b3b35a3b3533b3523b3413b3403b31d3b31c3b2393b2383b2033b2023b1db3b1da3b1c93b1c83bb033bb023baa13baa03b9953b9943b8dd3b8dc3b8333b8323b7ab3b7aa3b79d3b79c3b7073b7063b6b13b6b03b6633b6623b64b3b64a3b5d93b5d83b58f3b58e3b54f3b54e3b50f3b50e3b4f93b4f83b4a53b4a43b4573b4563b4173b4163b4033b4023b39f3b39e3b2e7)
  (.lf
  0xd19b0d19a0d1790d1780d1570d1560d1350d1340d1130d1120d0f10d0f00d0cf0d0ce0d0ad0d0ac0d08b0d08a0d0690d0680d0470d0460d0250d0240d0030d0020cfe10cfe00cfbf0cfbe0cf9d0cf9c0cf7b0cf7a121d1121d0121951219412151121501210d1210c120c5120c41207b1207a120331203211feb11fea11fa311fa211f5b11f5a11f1711f1611ed311ed211e8f11e8e11e4b11e4a11e0711e06))
  (.nd (.lf
  0x1a8af1a8ae1a8a51a8a41a89b1a89a1bb651bb641bb5b1bb5a1bb4f1bb4e1bb471bb461bb3d1bb3c1bb331bb321bb291bb281bb1f1bb1e1bb131bb121bb0b1bb0a1bb011bb001baf71baf61baed1baec1badf1bade1bad71bad61bacd1bacc1bac31bac21bab91bab81baaf1baae1baa51baa41ba9d1ba9c1ba911ba901ba891ba881ba7f1ba7e1ba751ba741ba6b1ba6a1ba611ba601ba571ba561ba4d1ba4c)
  (.lf 0))) (.nd (.nd (.lf
  0x3d3ef3d3ee3d3e33d3e23d3d73d3d63d3cb3d3ca3d3bf3d3be3d3b33d3b23d3a73d3a63d39b3d39a3d38f3d38e3d3833d3823d3773d3763d3693d3683d3533d3523d2d33d2d23d2a33d2a23d2973d2963d28f3d28e3d2873d2863d1b33d1b23d16b3d16a39877398763986d3986c398633986239859398583984f3984e39843398423983b3983a3982b3982a39823398223981b3981a39813398123980939808)
  (.lf
  0xb6080b5ec0b9be0b9870b5af0c41c0c4000c3e40c3c80c3ac0c3460c3280c2c40c1dc0c1c00c1a40c1660c0e40c5f00c0a5102f81029c101e010186100ca1006e0ff520fe340fd180fc5c0fc000fa820fa280f9cc0f96a0f9020f8dc0f8d910e4e10d8810cc210ca610c6810c4c10c3010b8c10b7010b5410b3810b1d1109e10ebf121a8121641212011f2a11ee611ea211e5e11e1a11d4211cfe11bdc11abc))
  (.nd (.lf
  0x3a6313a6303adbd3adbc3adb33adb23ada73ada63ad9b3ad9a3ad8f3ad8e3ad7f3ad7e3ad773ad763ad653ad643ad5b3ad5a3ad4f3ad4e3ad473ad463ad3b3ad3a3ad2f3ad2e3ad1d3ad1c3ad133ad123ad073ad063acff3acfe3acef3acee3ace73ace63acd73acd63accf3acce3acc33acc23acb73acb63acab3acaa3ac9f3ac9e3ac933ac923ac6f3ac6e3ac633ac623ac533ac523ac4b3ac4a3aedd3aedc)
  (.lf 0)))

def shaAndReads15 : BTree :=
  .nd (.nd (.nd (.lf
  0x14cca14cb714cb614ca314ca214c8f14c8e14c7b14c7a14c6714c6614a6d14a6c14a6314a6214a5914a5814a4f14a4e14a4514a4414a3b14a3a14a3114a3014a2714a2614a1d14a1c14a1314a1214a0914a08149ff149fe149f5149f414c5514c5414c4b14c4a14c4114c4014c3714c3614c2d14c2c14c2314c2214c1914c1814c0f14c0e14c0514c0414bfb14bfa14bf114bf014be714be614bdd14bdc14bd3)
  (.lf
  0x2138321385212fd2128f212312120b210f72107521077210792101320fc520f1720f1920ee320e7d20e7f20df520da520d6720d0f20d11221f82210a220962207421fe821f8821f6821f0c21ed621e8a21da221d4a21d2421cfa21c8021c3a21be621bc621b5e21b1221ad021a8621a8821a00219aa219662191a2191c216c221606216082160a221f92210b220972207521fe921f8921f6921f0d21ed721e8b))
  (.nd (.lf
  0xb8440b8230b8220b8050b8040b7e50b7e40b7c30b7c20b7a10b7a00b7830b7820b7670b7660b74b0b74a0b72f0b72e0b7110b7100b6f30b6f20b6d50b6d40b6b30b6b20b68f0b68e0b66f0b66e0b64f0b64e0b6310b6300b6110b6100b5f30b5f20b5d70b5d60b5b70b5b60b9450b9270b9090b9080b8e50b8e40b8c10b8a30b8a20b8810b8800b85f0b85e0b83d0b83c0b81b0b7ff0b7fe0b7dd0b7dc0b7bb)
  (.lf 0))) (.nd (.nd (.lf
  0x2b2152b2142b2092b2082b1ff2b1fe2b1ef2b1ee2b1e52b1e42b1db2b1da2b1d12b1d02b1c52b1c42b1bb2b1ba2b1b12b1b02b1a52b1a42b1872b1862afd52afd42af712af702b7df2b7de2b7d72b7cd2b7652b7232b7222b70d2b70c2b65d2b65c2b6552b56b2b56a2b5632b5622b5572b5512b5502b5492b5482b5252b4112b40b2b4012b4002b3f92b3ef2b3ee2b3e12b3db2b3892b3832b3822b2c12b2c0)
  (.lf 0)) (.nd (.lf
  0x2789d2789c278872788627871278702785b2785a27845278442782f2782e27819278182780327802277ed277ec27a6127a6027a4b27a4a27a3527a3427a1f27a1e27a0927a08279f3279f2279dd279dc279c7279c6279b1279b02799b2799a27985279842796f2796e279592795827943279422792d2792c27917279162790127900278eb278ea278d5278d4278bf278be278a9278a827893278922787d2787c)
  (.lf 0)))

def shaAndReads16 : BTree :=
  .nd (.nd (.nd (.lf
  0x3664b36609365dd365cb36577364293641b3640d363fb3638b3675d3605136031360333603f360133600135e6135e0f38c3b35c6b37c5937c0737c7337bdf37bc337c2337b8537b8d37b5537b6537b2f37b2537b0b37ad537abd37ab337ac737a7b37a7d37a7f37a57377c1377b1377cd3778b377973777737185371633714537119392a3370fb3bbcb3bb0f3ba533b9a93b8f53b86b3b7dd3b75b3b72f3b6a9)
  (.lf
  0x1e71b1e71a1e7051e7041e6ef1e6ee140091400813fc313fc213f7313f7213f2513f2413ed513ed413e8313e8213e3513e3413de513de413d9313d9213d4113d4013cef13cee13ca113ca013c5113c5013c0313c0213bb713bb613b6713b6613b1913b1813acd13acc13a7d13a7c13a2f13a2e139df139de1398d1398c1393f1393e138f3138f2138a7138a613857138561380513804137b7137b61376713766))
  (.nd (.lf
  0x2719f2719e27195271942718b2718a271812718027179271782716d2716c271632716227159271582714f2714e271432714227139271382712f2712e27125271242711b2711a27113271122710927108270ff270fe270f3270f2270eb270ea270e1270e0270d7270d6270a1270a02706327062270592705826fe126fe026f6d26f6c26f3726f3626efd26efc26ea926ea828537285362852d2852c2852328522)
  (.lf 0))) (.nd (.nd (.lf
  0xba4c0ba450ba440ba3b0ba3a0ba310ba300ba250ba240ba1d0ba1c0ba110ba100ba070ba060b9ff0b9fe0b9d50b9d40b9a50b9a40b9970b9960b98f0b98e0c71b0c71a0c7130c7120c7070c7060c6fd0c6fc0c6ef0c6ee0c6e70c6e60c6df0c6de0c6d50c6d40c6cd0c6cc0c6c10c6c00c6b70c6b60c6ab0c6aa0c6a30c6a20c6990c6980c68f0c68e0c6870c6860c67b0c67a0c6710c6700c6650c6640c65d)
  (.lf
  0x14ce914cd314cbf14cab14c9714c8314c6f14ad514ad714ad914adb14add14adf14ae114ae314ae514ae714ae914aeb14aed14aef14af115bc815bca15bcc15bce15bd015bd215bd415bd615bd815bda15bdc15bde15be015be215be415be615be815bea15bec15bee15ab415ab615ab815aba15ad015a4015a1815a1a15a1c15a1e159e0159e215bc915bcb15bcd15bcf15bd115bd315bd515bd715bd915bdb))
  (.nd (.lf
  0x93ab0936a09199091980918f0918e09185091840917b0917a091710917009167091660915d0915c091530915209149091480913f0913e09135091340912b0912a091210912009117091160910d0910c0910309102090f9090f8090ef090ee090e5090e4090db090da090d1090d0090c7090c6090bd090bc090b3090b2090a9090a80909f0909e09095090940908b0908a090810908009077090760a46d0a46c)
  (.lf 0)))

def shaAndReads17 : BTree :=
  .nd (.nd (.nd (.lf
  0x30a8230a3b30a3a309ef309ee309853098430975309743240532404323fd323fc323d1323d0323833238232345323443232b3232a3232132320320d5320d4320293202831fff31ffe31fed31fec31fc331fc231fb131fb031e3131e3031e0531e0431de531de431db931db831d9931d9831d8531d8431d7d31d7c31ce931ce831ca131ca031c8731c8631c7d31c7c31a1131a10318a7318a63187d3187c317f9)
  (.lf
  0x2fe662fe682fe6a2f9f22f9d82f9da2f9dc2f9682f96a2f93c2f93e2f9402f8e02f8d02f8342f8162f7e42f7c42f79a2f79c2f3ba2f3443131e3132031304311ec3117431146310d63106e3102230fb830fa630fc830edc30e9630e6830ea430df430dd830dc630d3e30d1e30cf030c8830b7a30b4630af630a8c30a30309d23097c3099c3075e3225a3225c3228c3215e32146321b832136321ae3210c3210e))
  (.nd (.lf
  0x192c2192831928219243192421920319202191c3191c2191831918219145191441910119100190bb190ba1907919078190391903818ff518ff418fb318fb218f7318f7218f2f18f2e18ee918ee818ea318ea218e5d18e5c18e1718e1618dd518dd418d9518d9418d5918d5818d1f18d1e19449194481941319412193d9193d81939d1939c19365193641932f1932e192f7192f6192bb192ba1927b1927a1923b)
  (.lf 0))) (.nd (.nd (.lf
  0x37f9c37f7b37f7a37f0937f0837ed137ed037ead37eac37e8f37e8e3b15f3b15e3b1553b1543b1493b1483b1413b1403b1353b1343b1293b1283b1213b1203b1173b1163b10b3b10a3b1033b1023b0f73b0f63b0ed3b0ec3b0e13b0e03b0d53b0d43b0c73b0c63b0bf3b0be3b0b53b0b43b0a93b0a83b09d3b09c3b0933b0923b0833b0823b07b3b07a3b06f3b06e3b0633b0623b0573b0563b0473b0463b03f)
  (.lf 0)) (.nd (.lf
  0x391a7391a63919b3919a39191391903918939188391813918039177391763916d3916c391633916239159391583914f3914e39145391443913b3913a391313913039127391263911d3911c3910f3910e3910539104390fb390fa390b5390b4390a7390a638fab38faa38fa338fa238f6738f6638f5538f5438f1338f1239b8b39b8a39b7f39b7e39b6f39b6e39b5f39b5e39b5739b5639b4f39b4e39b4339b42)
  (.lf 0)))

def shaAndReads18 : BTree :=
  .nd (.nd (.nd (.lf
  0x4114641445414444143d4143c41433414324142b4142a414214142041417414164140d4140c4140141400413f9413f8413ef413ee413e5413e4413d9413d8413cf413ce413c5413c4413bb413ba413b3413b2413a9413a840e7140e7040693406924068b4068a406834068240679406784066f4066e406654066440659406584065140650405b5405b440553405524051340512404fd404fc402a9402a840297)
  (.lf
  0x16f3d16f3c16f0516f0416ecb16eca16e9316e9216e5916e5816e1916e1816dd916dd8184d9184d8184a9184a81846f1846e1843718436183fd183fc183c5183c41838d1838c1834d1834c1830d1830c182cd182cc182891828818243182421820118200181c1181c018181181801813d1813c180f7180f6180b1180b01806f1806e1802f1802e17fef17fee17fab17faa17f6517f6417f2317f2217ee317ee2))
  (.nd (.lf
  0x211e6211dd211dc211cd211cc210ef210ee20feb20fea20faf20fae20f9b20f9a20f8720f8620f7d20f7c20ecf20ece20ec520ec420eb920eb820e4920e4820e3f20e3e20db520db420da120da020d6120d6020cf120cf021717216f5216f4216452153f2153e2142d2142c2142521424214072135721347213372130f2130e2130721306212df2123b2123a2121321212210d32105f21059210582103321003)
  (.lf 0))) (.nd (.nd (.lf
  0x4128f41289412884127b4127a40fd940fd840fc140fc040fb540fb440fa940f9940f9840f9140f9040f8540f8440f7d40f7c40f7540f7440f6d40f3340f2d40f2c40eff40efe40de740dbb40dba405b1405a9405a34059b4059a4058f4058e405834058240577405764056940568405314053040529404e5404e4404dc40d2340d2240d1940d1840d0f40d0e40d0540d0440cfb40cfa40cf140cf040ce740ce6)
  (.lf
  0x40db74064b406394061d4060b40603405df405cb405eb405474054d4050d404f3401bb401b9402c54027b402ad4022d402194023f401934015d4016f40175400c34002140009400453ffe73ffcf40059400333fcc93fc6f3fc333fe573fb8f3fb9f3fb453facf3fa713fa4b3f9fb3f9653f9453f82f3f82d3fb2f3f99f3f8ed3f8b33f86b3f8893f7f53f7db3f7bb3f7a73fbbf3f7853f4693f4633f4813f409))
  (.nd (.lf
  0x412f0412e040eb040ea040a5040a404063040620401f0401e03fd903fd803f9703f9603f5703f5603f1703f1603ed703ed603e9303e9203e5103e5003e1103e1003dcd03dcc03d8b03d8a03d4703d4603d0103d0003cbf03cbe044470440d0440c043c7043c604381043800433b042fb042bb042ba042750423504234041ef041af041ae041690412904128040e3040e20409d0405d0405c040170401603fd1)
  (.lf 0)))

def shaAndReads19 : BTree :=
  .nd (.nd (.nd (.lf
  0x1f3cc1f3c31f3c21f3b91f3b81f3af1f3ae1f3a51f3a41f39d1f39c1f38b1f38a1f1fd1f1fc1f1ad1f1ac20609206082060120600205f9205f82055d2055c20549205482052d2052c2045f2045e20455204542044920448204412044020439204382042f2042e20425204242041b2041a20411204102040720406203fb203fa203f3203f21ff771ff761ff3d1ff3c1fbab1fbaa1fb751fb741fb411fb401fb19)
  (.lf
  0x366d33674d3668d36615365a93659336567365293646b3643f36459363773609935ff135fd735f6335f1b35ed735e8f35e5335e0535c5d379e8379fc379ca379b037994379783795a37a223792c37910378fa37a3a378de378c437ae4378a83787e3788a378663784c3783a378263781637802377f0377e43789a373ee373da3713e3710437124379e9379fd379cb379b137995379793795b37a233792d37911))
  (.nd (.lf
  0x113c012c0f12c0e12bf512bf412bd512bd412bb712bb612b9b12b9a12b7b12b7a12b5d12b5c12b4112b4012b2512b2412b0912b0812aed12aec12ad112ad012ab112ab012a8f12a8e12a7112a7012a5512a5412a3512a3412a1712a16129f7129f6129d9129d8129bd129bc129a1129a012985129841296512964129431294212921129201290312902128e7128e6128c7128c6128af128ae0dbdd0dbdc0dbbb)
  (.lf 0))) (.nd (.nd (.lf
  0x301cd301cc301c1301c0301b7301b6301af301ae301a3301a23019930198301913019030185301843015b3015a300eb300ea300e1300e0300d9300d8300cf300ce30c7930c7830c6930c6830c5d30c5c30c5530c5430c3730c3630c2d30c2c30c2130c2030c1130c1030c0930c0830bfd30bfc30bf530bf430bed30bec30be130be030bcf30bce30bc530bc430bbd30bbc30bb130bb030ba730ba630b9b30b9a)
  (.lf 0)) (.nd (.lf
  0x2f67d2f67c2f6712f6702f6652f6642f6592f6582f64f2f64e2f6412f6402f6392f6382f62d2f62c2f6212f6202f6152f6142f60b2f60a2f6032f6022f5f32f5f22f5eb2f5ea2f5e32f5e22f5cf2f5ce2f5b72f5b62f59f2f59e2f5872f5862f5552f5542f54d2f54c2f5412f5402f5392f5382f3ff2f3fe2f3a32f3a22f3972f3962f38f2f38e2f3732f3722f34f2f34e2e8d52e8d42e8cb2e8ca2e8bf2e8be)
  (.lf 0)))

def shaAndReads20 : BTree :=
  .nd (.nd (.nd (.lf
  0x1677516777167791677b1677d166ad166af166b1166b3166b5166b7166551662d1666b1665f1662f166311663316635165d9165db19c83165dd1771b1771d1771f17721177231772517727177291772b177531769d1769f176a1176a3176a5176691763b1763d1763f176411764317645175f5175cf175c5175e3175d9175b31759b175bb1759d1ac651759f186031860518607186091860b1860d1860f18611)
  (.lf
  0xf3bf0f3be0f3b50f3b40f3ab0f3aa0f3a10f3a00f3970f3961cee11cee01cec91cec81ceb11ceb01ce991ce981ce811ce801ce691ce681ce511ce501ce391ce381ce211ce201ce091ce081cdf11cdf01cdd91cdd81cdc11cdc01cda91cda81cd911cd901cd791cd781cd611cd601cd491cd481cd311cd301cd191cd181cd011cd001cce91cce81ccd11ccd01ccb91ccb81cca11cca01cc851cc841cc651cc64))
  (.nd (.lf
  0x241632416224157241562414f2414e24145241442413b2413a241312413024125241242483f2483e248332483224827248262481b2481a24813248122480724806247fb247fa247eb247ea247e3247e2247d9247d8247cd247cc247c1247c0247b5247b4247a9247a82479f2479e2478f2478e24787247862477b2477a2476f2476e247632476224757247562474b2474a2473f2473e24733247322472724726)
  (.lf 0))) (.nd (.nd (.lf
  0x590e058c7058c6058870588605847058460580705806057c7057c6057890578805741057400570305702056bb056ba0567d0567c0563505634055f5055f4055bd055bc055810558005cf105cf005cb105cb005c7305c7205c2b05c2a05beb05bea05bad05bac05b6505b6405b2505b2405ae505ae405aa705aa605a6105a6005a1b05a1a059d5059d40598f0598e05949059480590305902058bb058ba0587b)
  (.lf
  0x51330513505137051390513b0513d0513f05141051430514505147051490514b0514d0514f05151051530515505157051590515b0515d05d7405d7605d7805d7a05d7c05d7e05d8005d8205d8405d8605d8805d8a05d8c05d8e05d9005d9205d9405d9605d9805d9a05d9c05d9e05da005da205da405da605da805daa05dac05dae05db005db205d7505d7705d7905d7b05d7d05d7f05d8105d8305d8505d87))
  (.nd (.lf
  0x713d0713c070fb070fa070b7070b60707507074070310703006fef06fee06fab06faa06f6906f6806f2906f2806ee506ee406ea906ea806e6f06e6e0443f0443e0440504404043bf043be04379043780433104330042f1042f0042b3042b20426b0426a0422d0422c041e5041e4041a7041a60415f0415e0412104120040db040da040930409204055040540400f0400e03fc703fc603f8703f8603f4703f46)
  (.lf 0)))

def shaAndReads21 : BTree :=
  .nd (.nd (.nd (.lf
  0x27e6e27e3327e3227c1f27c1e27c0d27c0c27bf327bf227be927be827b1727b162839f2839e2838d2838c28375283742836b2836a28361283602834f2834e2830128300282e9282e8282e1282e0282bf282be282b5282b4282ab282aa282a1282a02827f2827e28255282542824d2824c2824328242282392823828229282282821f2821e280b3280b227fd727fd627fb927fb827e5727e5627e1927e1827bcf)
  (.lf
  0xca260ca280ca2a0ca2c0ca2e0ca300ca320ca340ca360ca380ca3a0ca3c0ca3e0ca400ca420ca440ca460ca480ca4a0ca4c0ca4e0ca50105ee105e0105d0105c0105ae1059e1058e1057e1056e104da104dc104de104e0104e2104e4104e6104e8104ea104ec104ee104f0104f2104f4104f6104f8104fa104fc104fe10500105021050410506115ee115f0115f2115f4115f6115f8115fa115fc115fe11600))
  (.nd (.lf
  0x1599f1599e159611592b1592a158ef158ee158b3158b215877158411580b1580a157cf157971579615759157581571b156e3156ab156731563b1563a155fd155c5155c4155871554f1554e15513154dd154a7154a61546b1546a1542f1542e153f3153bd153bc1537e14f7714f7614f6d14f6c14f6314f6214f5914f5814f4f14f4e14f4514f4414f3b14f3a14f3114f3014f2714f2614f1d14f1c14f1314f12)
  (.lf 0))) (.nd (.nd (.lf
  0x33b4933b4833b1933a5933a583383f3383e33835338343382b3382a338213382033817338163380d3380c3380333802337f9337f8337ef337ee337e5337e4337db337da337d1337d0337c7337c6337bd337bc337b3337b2337a9337a83379f3379e33795337943378b3378a337813378033777337763376d3376c337633376233757337563372f3372e33725337243371b3371a33711337103370733706333a3)
  (.lf 0)) (.nd (.lf
  0x35d9935d9835d8b35d8a35d8335d8235d7735d7635d6d35d6c35d6135d6035d5335d5235d4935d4835d4135d4035d3735d3635d2d35d2c35d2135d2035d1535d1435d0735d0635cff35cfe35cf135cf035ce535ce435cd935cd835ccb35cca35cbf35cbe35cb335cb235ca935ca835c9f35c9e35c9535c9435c8935c8835c7f35c7e35c7335c723623d3623c3623136230362253622436219362183620d3620c)
  (.lf 0)))

def shaAndReads22 : BTree :=
  .nd (.nd (.nd (.lf
  0x3cb163cad53cad43caa33caa23d23d3d23c3d1eb3d1ea3d1c93d1c83d1c13d1c03d1713d1703d1473d1463d1073d1063d0ed3d0ec3d0c13d0c03d09f3d09e3d08d3d08c3d0853d0843d0593d0583d0513d0503d03d3d03c3d02b3d02a3cde93cde83cdd53cdd43cdc33cdc23c82f3c82e3c6d73c6d63c65b3c65a3c60d3c60c3c5dd3c5dc3c5ad3c5ac3c5873c5863c5653c5643c4fd3c4fc3c4a53c4a43c411)
  (.lf
  0xd46d0d46c0d4630d4620d4590d4580d44f0d44e0d4450d4440d43b0d43a0d4310d4300d4270d4260d41d0d41c0dbeb0dbea0dbcd0dbcc0dbab0dbaa0db890db880db670db660db450db440db230db220db010db000dadf0dade0dabd0dabc0da9b0da9a0da790da780da570da560da350da340da130da120d9f10d9f00d9cf0d9ce0d9ad0d9ac0d98b0d98a0d9690d9680d9470d9460d9250d9240d9030d902))
  (.nd (.lf
  0x1b8f31b8f21b8e71b8e61b8dd1b8dc1b8d31b8d21b8c91b8c81b8bf1b8be1b8b51b8b41b8ab1b8aa1b89d1b89c1b8951b8941b88d1b88c1b8831b8821b8791b8781b8711b8701b8671b8661b85d1b85c1b8531b8521cb211cb201cb171cb161cb0d1cb0c1cb031cb021caf71caf61caef1caee1cae51cae41cadb1cada1cad11cad01cac91cac81cabd1cabc1cab51cab41caab1caaa1caa11caa01ca971ca96)
  (.lf 0))) (.nd (.nd (.lf
  0x3e5c33e5c23e5af3e5ae3e5993e5983e4d33e4d23e4853e4843e47d3e47c3e46d3e46c3e4653e4643e4533e4523e4473e4463e4313e4303e3d93e3d83e3cd3e3cc3e3bd3e3bc3e3b53e3b43e3a93e3a83e3a13e3a03e3733e3723e33f3e33e3e1633e1623e1473e1463e13b3e13a3e12d3e12c3e1213e1203e1153e1143e10b3e10a3e1013e1003e0f13e0f03e0513e0503decd3decc3bb2d3bb2c3ba813ba80)
  (.lf
  0x1bffa1bfbe1bf351bef61bee11d7da1d5e61d5e01d5ce1d5621d4ae1d49e1d4761d4401d33a1d2c41d2701d2601d1ec1d06c1d0581d0501cefa1d0a61cf011f3521f3481f3301f3181f30e1f3041f2fa1f2e21f2ca1f2c01f2a81f29e1f2861f26a1f2641f24c1f2261f21e1f1e91f1b21f1a31fe4c1fe001fde21fd361fcd41fc4a1fc2e1fc0c1fbf01fbc01fb561faec1fab81fa8c1f9e61f94a1f91e1f91b))
  (.nd (.lf
  0xa2900a2800a0900a08009eb009ea009cf009ce009b3009b200993009920097500974009550095400937009360091b0091a008ff008fe008df008de008c1008c0008a1008a00087f0087e0085d0085c0083b0083a0081900818007fb007fa007df007de007bf007be007a7007a6007910079000af300af200ad100ab500a9900a7d00a6100a6000a3f00a2300a2200a01009e5009c9009ad009ac0098b0096f)
  (.lf 0)))

def shaAndReads23 : BTree :=
  .nd (.nd (.nd (.lf
  0x165861657f1657e16575165741656b1656a165611656016557165561654516544164e5164e4164db164da164a7164a616487164861675b1675a167531675216745167441673d1673c167331673216729167281671f1671e16717167161670f1670e1670316702166fb166fa166f1166f0166e7166e6166dd166dc166d3166d2166a5166a41669916698166911669016687166861667d1667c16673166721664d)
  (.lf
  0x24b0f24aef24ac724ac924a9d24a2d24a2f24a45249fb249fd249dd249c5249c7249ab24993248cf2487724709246b92467d24637245e92613a26100260d825ff225fb025f9625f7025ef225e3425d7e25da025d3a25d0c25ca825c5825c0a25bf825be425bd025b0e25a9625a4c25a0c259d42599e25966258e2258a62587025836257f42579e2613b26101260d925ff325fb125f9725f7125ef325e3525d7f))
  (.nd (.lf
  0x94a809461094600942109420093e1093e0093a1093a009363093620c4450c4440c4250c4240c4070c4060c3eb0c3ea0c3cf0c3ce0c3b30c3b20c3950c3940c3730c3720c34f0c34e0c32f0c32e0c3110c3100c2ef0c2ee0c2cd0c2cc0c2af0c2ae0c28f0c28e0c26d0c26c0c24b0c24a0c2290c2280c2070c2060c1e50c1e40c1c70c1c60c1ab0c1aa0c18f0c18e0c16f0c16e0c1510c1500c1310c1300c10f)
  (.lf 0))) (.nd (.nd (.lf
  0x2c4f42c4e92c4e82c4df2c4de2c4d52c4d42c4cb2c4ca2c4bf2c4be2c4b72c4b62c4812c4802c4772c4762c46b2c46a2c4572c4562c44d2c44c2c41d2c41c2c4132c4122c4072c4062c3e92c3e82c3d12c3d02c3bd2c3bc2c3a52c3a42c2912c2902c2632c2622c2512c2502c2312c2302c2032c2022c1ef2c1ee2c1a92c1a82c1972c1962c1652c1642c56d2c56c2c55f2c5552c5542c5472c5392c52f2c523)
  (.lf 0)) (.nd (.lf
  0x2898d2898c27dfb27dfa27df127df027de727de627ddd27ddc27dd327dd227dc927dc827dbf27dbe27db527db427dab27daa27da127da027d9727d9627d8d27d8c27d8327d8227d7927d7827d6f27d6e27d6527d6427d5b27d5a27d5127d5027d4727d4627d3d27d3c27d3327d3227d2927d2827d1f27d1e27d1527d1427d0b27d0a27d0127d0027cf727cf627ced27cec27ce327ce227cd927cd829da929da8)
  (.lf 0)))

def shaAndReads24 : BTree :=
  .nd (.nd (.nd (.lf
  0x25d2325d2525c9f25c4725bb325b8b25b5925b2f25b0525a8d25a4325a03259cb259952595d258ef258b32587f258452580329ddb257d32732d2732f27331273332733527337273392733b2733d2733f273412734327299272ab2727b2726b2725d2725f2722527227271f9271e1271cf271e9272372720126abd26a7b26a7126a5d269b32af63269b5283a528397283af283792837b2835728309282f1282f9)
  (.lf
  0x20bbf20bbe20ba920ba820b9320b9220b7d20b7c20b6520b6420b4d20b4c20b3520b3420b1d20b1c20b0520b0420aed20aec20ad720ad620ac120ac020aa920aa820a9320a9220a7d20a7c20a6720a6620a5120a5020a3b20a3a20a2520a2420ca720ca620c9120c9020c7b20c7a20c6520c6420c4f20c4e20c3920c3820c2320c2220c0d20c0c20bf720bf620be120be020bcb20bca20bb520bb420b9f20b9e))
  (.nd (.lf
  0x24d6d24d6c24d6324d6224d5924d582628d2628c262832628226277262762626f2626e26265262642625b2625a262512625026247262462623d2623c262332623226229262282621f2621e26213262122620926208261ff261fe261f5261f4261eb261ea261e1261e0261d7261d6261cd261cc261c1261c0261b7261b6261ad261ac261a5261a42619b2619a2619326192261892618826069260682605f2605e)
  (.lf 0))) (.nd (.nd (.lf
  0x8e2e08de708de608da708da608d6908d6808d2108d2008ce108ce008ca108ca008c6108c6008c2308c2208bdd08bdc08b9508b9408b5508b5408b1508b1408ad708ad608a9108a9008a4908a4808a0908a08089c9089c808989089880894b0894a0890308902088c5088c40887f0887e0883708836087f9087f8087b3087b20876d0876c0872708726086e9086e809ae909ae809aa309aa209a6509a6409a1d)
  (.lf
  0xb16f0b15d0b14b0b1390b0c10b0c30b0c50b0c70b0c90b0cb0b0cd0b0cf0b0d10b0d30b0d50b0d70b0d90b0db0b0dd0b0df0b0e10b0e30bc6a0bc6c0bc6e0bc700bc720bc740bc760bc780bc7a0bc7c0bc7e0bc800bc820bc840bc860bc880bc8a0bc8c0bc8e0bc900bc920bc940bc960bc980bc9a0bc9c0bc9e0bca00bca20bca40bca60bca80bc6b0bc6d0bc6f0bc710bc730bc750bc770bc790bc7b0bc7d))
  (.nd (.lf
  0x77ec077e3077e2077d9077d8077cf077ce077c5077c408e9708e9608e5f08e5e08e1b08e1a08dd908dd808d9908d9808d5508d5408d1308d1208cd308cd208c9308c9208c5308c5208c0f08c0e08bc908bc808b8708b8608b4708b4608b0708b0608ac308ac208a7d08a7c08a3b08a3a089fb089fa089bb089ba0897b0897a0893708936088f5088f4088b1088b00886b0886a0882908828087e5087e40879f)
  (.lf 0)))

def shaAndReads25 : BTree :=
  .nd (.nd (.nd (.lf
  0x2c7742c76d2c76c2c7632c7622c74b2c74a2c7192c7182c70f2c70e2c7052c7042c6fb2c6fa2c6e52c6e42c6db2c6da2c6bf2c6be2c69f2c69e2c6972c6962c68f2c68e2c67f2c67e2c66f2c66e2c65b2c65a2c6452c6442c63b2c63a2c6232c6222c61b2c61a2df892df882df6d2df6c2decd2decc2dea12dea02de952de942de5b2de5a2de532de522de4b2de4a2de072de062ddf52ddf42ddeb2ddea2dde3)
  (.lf
  0x1f7701f7721f7741f7761f7781f77a1f77c1f77e1f7801f7821f7841f7861f7881f78a1f78c1f78e1f7901f7921f7941f2161f1d21f1d420050200522005420056200582005a2005c2005e20060200622006420066200682006a2006c2006e20070200722007420076200781fe501fe521fe541fe561fe581fe5a1fe5c1f9f41f9f61f9681f96a218562186a218582168021536214f4214ea214e0214d6214cc))
  (.nd (.lf
  0x173e2173a7173a617369173681732f1732e172f7172f6172c1172c01728b1728a17253172521721717216171db171da1719f1719e17163171621712717126170ef170ee170b9170b81707f1707e17047170461700b1700a16fd116fd016f9b16f9a16f6516f6416f2b16f2a16ef316ef216eb916eb816e8116e8016e3f16e3e16dfd16dfc16dbd16dbc1744d17415173dd173dc1739f1739e1736117329172f1)
  (.lf 0))) (.nd (.nd (.lf
  0x35fc835fb135fb035f4935f4835f0535f0435ee135ee035ec135ec035e3935e3835e1d35e1c369d1369d0369ab369573693336932368d1368d0367bb367ba3679f3677936778366ed366ec366e5366a5366a436653366523661d3657f365713655736556363e7363dd363dc363d1363c3363c23637b3608d3608c35fbb35fa735f5535f5435f0f35ecb35e7b35e7a357ef357ee357e5357e4357db357da357d3)
  (.lf 0)) (.nd (.lf
  0x372f9372f8372ef372ee372e3372e2372db372da372d1372d0372c5372c4372bb372ba372b1372b0372a7372a63729f3729e37295372943870338702386f7386f6386e9386e8386df386de386d3386d2386c3386c2386bb386ba386ad386ac386a3386a238697386963868b3868a3867d3867c386733867238663386623865b3865a3864f3864e3863f3863e386313863038625386243861b3861a3861338612)
  (.lf 0)))

def shaAndReads26 : BTree :=
  .nd (.nd (.nd (.lf
  0x3ffee3ffdd3ffdc3ffc93ffc83ffbf3ffbe3fcb73fcb63fc793fc783fc253fc243fc1d3fc1c3fb993fb983fb7f3fb7e3fb4d3fb4c3fabd3fabc3fa693fa683fa613fa603fa453fa443f9d13f9d03f95b3f95a418514185041849418484181541814417e1417e0417d9417d8417d1417d04151741516414d9414d841185411844117d4117c411754117441077410764106b4106a40f4d40f4c40f0740f0640ea7)
  (.lf
  0x1582d1582c157f3157f2157bb157ba1577f1577e15741157401570715706156cf156ce15697156961565f1565e1562315622155e9155e8155ad155ac15573155721553715536154ff154fe154c9154c81548f1548e15453154521541715416153df153de153a5153a4153671536615333153320e5690e5680e55f0e55e0e5550e5540e54b0e54a0e5410e5400e5370e5360e52d0e52c0e5230e5220e5190e518))
  (.nd (.lf
  0x1f2c11f2b71f2b61f2a91f29f1f2951f2941f2871f27d1f27c1f26b1f2651f25b1f25a1f24d1f2431f2421f2351f2341f2271f21f1f1f11f1f01f1e81dacf1dace1dac51dac41dabb1daba1dab11dab01daa71daa61da9d1da9c1da931da921da891da881da7f1da7e1da751da741d8791d8781d86f1d86e1d8651d8641d85b1d85a1d8511d8501d8471d8461d83d1d83c1d8351d8341d82b1d82a1d8211d820)
  (.lf 0))) (.nd (.nd (.lf
  0x3ed1b3ed1a3ed113ed103ed073ed063ecfb3ecfa3ecef3ecee3ece73ece63ecdf3ecde3ecd53ecd43eccb3ecca3ecbf3ecbe3ecb53ecb43ecad3ecac3eca33eca23ec993ec983ec8f3ec8e3ec833ec823ec793ec783ec713ec703ec673ec663ec5f3ec5e3e7d13e7d03e7bf3e7be3e7b53e7b43e6993e6983e67b3e67a3fe053fe043fdf93fdf83fde93fde83fde13fde03fdd53fdd43fdc93fdc83fdbd3fdbc)
  (.lf
  0x3c5763ca3c3c3f53c3eb3d7303d7283d7203d71a3d7063d6fe3d6dc3d6d63d6423d63a3d6323d62c3d5ea3d5e23d5dc3d5ae3d5a83d5823d2b43d1493d1283e7263e7203e7183e5423e53c3e5163e50a3e5003e4d63e3883e3543e3023e2b43e2ae3e29a3e27c3e2763e1ac3e1a43dea23de9f3f2c23f2ba3f28a3f27c3f26a3f2643f24c3f20c3ea7a3e9c93e9c6401184010a400fc400e8400e0400d8400ac))
  (.nd (.lf
  0xe9000e8000df000de000d5000d4000cb000ca000c1000c0000b7000b6000ad000ac000a3000a200099000980008f0008e00085000840007b0007a000710007000067000660005d0005c0005300052000490004802b5502b5402b1b02b1a02ad702ad602a9102a9002a4f02a4e02a0b02a0a029c9029c802985029840293f0293e028f9028f8028b7028b602877028760283702836027f7027f6027b7027b6)
  (.lf 0)))

def shaAndReads27 : BTree :=
  .nd (.nd (.nd (.lf
  0x1a7f61a7c91a7c81a7bf1a7be1a7b71a7b61a7ad1a7ac1a7a31a7a21a7991a7981a78f1a78e1a7611a7601a7571a7561a74d1a74c1a7431a7421a7391a7381a72f1a72e1a71f1a71e1a6e51a6e41a6db1a6da1a6d31a6d21a6c91a6c81a6bf1a6be1a6b51a6b41a6ad1a6ac1a4251a42419d2119d2019cd919cd81b7df1b7de1b7d51b7d41b7cb1b7ca1b7c11b7c01b7551b7541b7211b7201b7191b7181b70f)
  (.lf
  0x2de032de0f2dddb2ddcb2ddb32dd9d2dd872dd892dd572dd432dd652dd292dd152d3d12d3d32d3d52d4372d3992d3032d1cb2d1cd2cfe52f0902effe2eeda2ef5a2ef322ede82ed8a2ed6e2ed302ee4e2ecca2ecaa2ec482ec3e2ebee2ebba2eb962eb702eb382eb002ead22eaa02ea962ea3e2ea002e9d82e9882e9b82e92c2e9582e8fc2e23a2f0912efff2eedb2ef5b2ef332ede92ed8b2ed6f2ed312ee4f))
  (.nd (.lf
  0x10b2d10b2c10b0d10b0c0d34d0d34c0d32b0d32a0d3090d3080d2e70d2e60d2c50d2c40d2a30d2a20d2810d2800d25f0d25e0d23d0d23c0d21b0d21a0d1f90d1f80d1d70d1d60d1b50d1b40d1930d1920d1710d1700d14f0d14e0d12d0d12c0d10b0d10a0d0e90d0e80d0c70d0c60d0a50d0a40d0830d0820d0610d0600d03f0d03e0d01d0d01c0cffb0cffa0cfd90cfd80cfb70cfb60cf950cf940cf730cf72)
  (.lf 0))) (.nd (.nd (.lf
  0x2e5892e5882e53b2e53a2e5012e5002e4d32e4d22e4712e4702e44f2e44e2e42d2e42c2e4092e4082e3f72e3f62e3c52e3c42e3a52e3a42e3852e3842e3672e3662e3412e3402e3192e3182e3012e3002e2f92e2f82e2932e2922e2832e2822e26f2e26e2e1712e1702e7ed2e7ec2e7832e7822e74f2e74e2e7052e7042e6cf2e6ce2e6772e6762e65b2e65a2e5fb2e5fa2e5c32e5c22e57d2e57c2e5452e544)
  (.lf 0)) (.nd (.lf
  0x2bf772bf762bf612bf602bf4b2bf4a2bf352bf342bf1f2bf1e2bf092bf082bef32bef22bedd2bedc2bec72bec62beb12beb02be9b2be9a2be852be842be6f2be6e2be592be582be432be422bd732bd722bd692bd682bd5f2bd5e2bd552bd542bd4b2bd4a2bd412bd402bd372bd362bd2d2bd2c2bd232bd222bd192bd182bd0f2bd0e2bd052bd042bcfb2bcfa2bcf12bcf02bce72bce62bcdd2bcdc2bcd32bcd2)
  (.lf 0)))

def shaAndReads28 : BTree :=
  .nd (.nd (.nd (.lf
  0x6cd306cd506cd706cd906cdb06cdd061b9078ed078ef078f1078f3078f5078f7078f9078fb078fd078ff07901079030790507907079090790b0790d0790f07911079130791507917079190791b0791d0791f07921079230792507927079290792b06e3108541085430854508547085490854b0854d0854f08551085530855508557085590855b0855d0855f08561085630856508567085690856b0856d0856f)
  (.lf
  0x1a1b91a1b81a17f1a17e1a1431a1421a1071a1061a0cf1a0ce1a0971a0961a05d1a05c1a0231a02219fe719fe619fa919fa819f6d19f6c19f2f19f2e19ef119ef019eb519eb419e7919e7819e3b19e3a19df919df819db519db419d7319d7219d2d19d2c19ce119ce01b3671b3661b3331b3321b2f91b2f81b2c31b2c21b28b1b28a1b2511b2501b2151b2141b1dd1b1dc1b1a31b1a21b1651b1641b1271b126))
  (.nd (.lf
  0x22a9a22a9122a9022a8722a8622a7b22a7a22a7322a7222a6722a6622a5f22a5e22a5322a5222a4722a4622a3f22a3e22a1922a1822a1122a102295b2295a22ebd22ebc22eb122eb022ea722ea622e9b22e9a22e8f22e8e22e8722e8622e7b22e7a22e6f22e6e22e6522e6422e5b22e5a22e4f22e4e22e4322e4222d9322d9222d8922d8822d7f22d7e22d7522d7422d6b22d6a22d6322d6222d3f22d3e22d19)
  (.lf 0))) (.nd (.nd (.lf
  0x172202b3d02b3c02b0102b0002abb02aba02a7302a7202a3502a34029ed029ec029af029ae02969029680292302922028db028da0289b0289a0285b0285a0281b0281a027db027da0279b0279a0275d0275c0271702716026d1026d00268b0268a0264502644025fd025fc025bf025be02579025780253302532024ed024ec024a5024a402465024640242702426023e1023e00239b0239a02b3302b3202af5)
  (.lf
  0x54d0054c005430054200539005380052f0052e00525005240051b0051a00511005100050700506004fd004fc004f3004f2004e9004e8004df004de004d5004d4004cb004ca004c1004c0004b7004b6004ad004ac004a3004a20049900498037e7037e6037b5037b40377b0377a03745037440370d0370c036d7036d6036a3036a20366b0366a0363103630035fb035fa035c3035c203589035880355303552))
  (.nd (.lf
  0x27a7027a602769027680272302722026dd026dc026970269602651026500260902608025cb025ca02585025840253f0253e024f9024f8024b1024b002471024700243302432023ed023ec023a7023a605d1305d1205cd905cd805c9905c9805c5505c5405c1305c1205bd305bd205b8f05b8e05b4d05b4c05b0d05b0c05acd05acc05a8905a8805a4305a42059fd059fc059b7059b605971059700592b0592a)
  (.lf 0)))

def shaAndReads29 : BTree :=
  .nd (.nd (.nd (.lf
  0x23cda23cd323cd223c2923c2823c1f23c1e23c1323c1223bc523bc423bab23baa23b8f23b8e23b7b23b7a23b4b23b4a23b4123b4023aff23afe23af723af623ac923ac823ab323ab223aa123aa023a7f23a7e23a7523a7423a3f23a3e23a3723a362352d2352c234ef234ee234e7234e624049240482403f2403e24035240342402b2402a23fd323fd223fc923fc823fc123fc023fb723fb623fad23fac23fa3)
  (.lf
  0x40a7f4087940a894080f408314083f407df407594075f407314071d40707406f5406e5406dd406bb4077b3fa3f3fa2b3f97d3f9513f82141894418784188c4180841828417ee418a6414f2411d8411ba411a44113641238410fa40f5c40f6640e9a40ef840ebe40c9e40c1040bfe40c1c40bc640bb440b6840b2e40b0c40aa640a1040a7440a2441895418794188d4180941829417ef418a7414f3411d9411bb))
  (.nd (.lf
  0x1332d1332c133231332213319133181330f1330e1330513304132fb132fa132f1132f0132e7132e6132dd132dc132d3132d2132c9132c8132bf132be132b5132b4132ab132aa132a1132a013297132961328d1328c132831328213279132781326f1326e13265132641325b1325a131a9131a813177131761316d1316c1316313162149a1149a014983149821496514964149491494814929149281490b1490a)
  (.lf 0))) (.nd (.nd (.lf
  0x3121331212311c1311c0311b3311b2310c7310c631063310623101931018325b3325b2325a9325a8325a1325a032597325963258d3258c325813258032575325743256d3256c32563325623255b3255a3255132550325433254232539325383253132530325293252832317323163230f3230e3230532304322fb322fa322ef322ee322e7322e6322dd322dc322d1322d0322c9322c8322bb322ba322af322ae)
  (.lf 0)) (.nd (.lf
  0x32b0732b0632adf32ade32ab732ab632a9332a9232a5332a5232a1132a10329d1329d032995329943295d3295c328fd328fc32787327863277d3277c327733277232d6932d6832d5d32d5c32d5332d5232d4732d4632cad32cac32ca532ca432c9d32c9c32c8932c8832c2f32c2e32c0732c0632bdf32bde32bbd32bbc32ba132ba032b8532b8432b6132b6032b3932b3832b1132b1032afb32afa32ac132ac0)
  (.lf 0)))

def shaAndReads30 : BTree :=
  .nd (.nd (.nd (.lf
  0x3667e365ff365fe365bf365be3659f3659e3658b3658a365353653436465364643644b3644a36437364363638136380360a3360a235fe935fe835fe135fe035fcf35fce35f2335f2235ee735ee635e8735e8635e4935e4835df335df236a0936a0836a0136a00369ef369ee3693b3693a368bd368bc3687f3687e3686f3686e367f9367f83670336702366bb366ba3669f3669e3664336642365f7365f6365db)
  (.lf
  0x1022b1022a101cd101cc10173101721011310112100b7100b61005b1005a0fffd0fffc0ff9b0ff9a0ff3f0ff3e0fedf0fede0fe7f0fe7e0fe210fe200fdc30fdc20fd610fd600fd050fd040fca50fca40fc490fc480fbed0fbec0fb8f0fb8e0fb2d0fb2c0facd0facc0fa6f0fa6e0fa150fa140f9b90f9b80f9570f956103ed103ec10399103981033710336102db102da1027f1027e1022110220101c3101c2))
  (.nd (.lf
  0x1ab481ab3f1ab3e1ab351ab341ab2b1ab2a1ab211ab201ab171ab161ab0d1ab0c1ab031ab021aaf91aaf81aaef1aaee1aae51aae41aadb1aada1aad11aad01aac71aac61aabd1aabc1aab31aab21aaa91aaa81aa9f1aa9e1aa951aa941aa8b1aa8a1b33f1b33e1b3051b3041b2cf1b2ce1b29b1b29a1b2611b2601b22d1b22c1b1ff1b1fe1b1c51b1c41b1811b1801b13f1b13e1b1091b1081b0d11b0d01b09f)
  (.lf 0))) (.nd (.nd (.lf
  0x3c5233c5223c51b3c51a3c5053c5043c4c73c4c63c3c53c3c4390f3390f2390e5390e4390db390da390d1390d0390c7390c6390bd390bc38f9b38f9a38f7d38f7c38f7338f7238f3338f3238f2938f2838f1f38f1e38ecd38ecc38ec338ec238eb938eb838e6f38e6e38e5f38e5e38de338de238da138da038d8338d8238d5f38d5e38d3538d3438d0b38d0a38d0138d0038ccf38cce38ca338ca238c8938c88)
  (.lf
  0x35e433d2b53e1a53ea7b4135d00ad000ab400a9800a7c00a3e00a00009e4009c80098a0094c0093000914008d600810007f4007d901e0001dc001d8001cfa01cba01bee01adc01a5601a16019d601950019100188a0184a017c401784017440170a0170502b4e02a8802a02028f0028b00287002830027f0027b002612024ba0247a023af023700236b0377003702036ce036260357e035100342e03386032a4))
  (.nd (.lf
  0x3a5873a5863a57d3a57c3a5733a5723a4333a4323a4293a4283a41f3a41e3a4113a4103a4073a4063a3bf3a3be3a2ef3a2ee3a2e73a2e63a2dd3a2dc3a2d33a2d23a2c93a2c83a2bf3a2be3a2b53a2b43a2ab3a2aa3a2a13a2a03a2973a2963a28d3a28c3a2833a2823a2773a2763a26f3a26e3a2653a2643a2593a2583a24f3a24e3a2453a2443a23d3a23c3a2353a2343a22b3a22a3a1ed3a1ec3a1c13a1c0)
  (.lf 0)))

def shaAndReads31 : BTree :=
  .nd (.nd (.nd (.lf
  0x131b613189131881318113180130db130da130cf130ce130c7130c6130bd130bc130b3130b2130a9130a813047130461303d1303c13035130341302b1302a130211302013017130161300f1300e12fd512fd412fc912fc812fc112fc012fb712fb612fad12fac12fa312fa212f9b12f9a12e9b12e9a12e9112e9012e8912e8812cf912cf812f8f12f8e12f6912f6812f6112f6012e6f12e6e12e5f12e5e12e57)
  (.lf
  0x1c5991c5471c5271c4ef1c4cd1c46f1c49d1c3bf1c29b1c23b1c2091c1b11c17f1c12b1c0f31c09b1c0651c00b1bfd91bf8f1bf491bee91d7ea1d7aa1d6601d6621d6641d6661d6681d66a1d6b41d51c1d5521d51e1d5461d5201d53a1d5221d3801d3681d3741d2d81d2961d28a1d2381d2121d1d61d11c1d10a1d0f81d0e61d0d41d0ba1d0ae1d7eb1d7ab1d6611d6631d6651d6671d6691d66b1d6b51d51d))
  (.nd (.lf
  0xab940ab750ab740ab530ab520ab310ab300ab0f0ab0e0aaed0aaec0aacb0aaca0aaa90aaa80ae390ae1d0ae010ade50adc90adad0ad910ad750ad740ad530ad520ad310ad150ad140acf30acf20acd10acd00acaf0acae0ac8d0ac6f0ac6e0ac4b0ac2d0ac2c0ac090ac080abe50abc70abab0ab8f0ab8e0ab6d0ab6c0ab4b0ab4a0ab290ab280ab070ab060aae50aae40aac20a9d10a9d00a9c70a9c60a9bd)
  (.lf 0))) (.nd (.nd (.lf
  0x29ed029e5f29e5e29e5729e5629e0729e062a4a52a4a42a4512a44b2a4432a43d2a40d2a40c2a3e12a3bf2a39d2a39c2a3772a3552a3332a3322a30d2a2ed2a2ec2a2cd2a2cc2a2af2a2ae2a28f2a2732a2572a23b2a23a2a21b2a1ff2a1fe2a1df2a1de2a1bf29fb529fb429f2e294c5294c4294bb294ba294b1294b0294a7294a62949d2949c294932949229489294882947f2947e29475294742946b2946a)
  (.lf 0)) (.nd (.lf
  0x24fd724fd624fcd24fcc24fc324fc224fb924fb824faf24fae24fa524fa424f9b24f9a24f9124f9024f8724f8624f7d24f7c24f7324f7224f6924f6824f5f24f5e24f5524f5424f4b24f4a24f4124f4024f3724f36268d7268d6268c3268c2268ad268ac268972689626881268802686b2686a26855268542683f2683e26829268282681326812267fd267fc267e7267e6267d1267d0267bb267ba267a5267a4)
  (.lf 0)))

def shaAndReads32 : BTree :=
  .nd (.nd (.nd (.lf
  0x3d0d93d0a73d0973d0c53d0713d05d3d0433d0313cdf13cddb3cdcb3c83b3c8a93c6cb3c6513c5fb3c5e53c5a53c5933c5713c4e53c4b73c3fd3c3e53c3df3df873df693df453df1f3df073deb53de813de613de713de293de453de413dfd33ddf13dddf3ddc53ddb13dd9d3dfe93d6bd3d6ad3d66d3d65f3d5d53d5c13d59b3d34b3d32b3d2c73d4273d1833d1373d12d3eb253eb393eaf33eb433ea613e9d9)
  (.lf
  0x239df239de239d5239d4239cb239ca239c1239c0239b7239b6239ad239ac239a3239a223999239982398f2398e23985239842397b2397a239712397023967239662395d2395c239532395223949239482393f2393e23935239342392b2392a239212392023917239162390d2390c2390323902238f9238f8238ef238ee238e5238e4238db238da238d1238d0238c7238c6245a3245a22458f2458e2457924578))
  (.nd (.lf
  0x28e1928e1828e0d28e0c28e0528e0428df728df628de928de828ddf28dde28dd328dd228dc728dc628dbb28dba28daf28dae28da328da228d9728d9628d8b28d8a28d7b28d7a28d6f28d6e28d6328d6228d5728d5628d4f28d4e28d4328d4228d2128d2028d1928d1828d0d28d0c28d0328d0228c6528c6428c5b28c5a2912529124290d5290d4290c9290c8290bf290be290b3290b2290a9290a8290a1290a0)
  (.lf 0))) (.nd (.nd (.lf
  0xc5140c50b0c50a0c4ff0c4fe0c4f50c4f40c4eb0c4ea0c4e10c4e00c4d90c4d80c4bb0c4ba0c49d0c49c10769107681075f1075e10755107541074d1074c107431074210737107361072910728107211072010719107181070f1070e1070710706106fd106fc106f3106f2106e5106e4106db106da106d3106d2106cb106ca106c1106c0106b7106b6106ab106aa106a1106a010697106961068d1068c10685)
  (.lf
  0x16889168411682b167ff168011680316805167cd165d11659b1659d1659f165a1165a3165a516551164fb164fd164ff16501169b116503178c2178c4178c6178c8178ca17882178621780c1780e1781017812178141798a177c01779a1779c1779e177a017938175921757c1755417556175581755a1755c1755e174b41749417496174981749a178c3178c5178c7178c9178cb17883178631780d1780f17811))
  (.nd (.lf
  0x750707506074bf074be0747f0747e0743f0743e073ff073fe073bf073be0737f0737e0733f0733e072ff072fe072c1072c00727b0727a0723507234071ef071ee071a7071a607169071680712107120070e3070e20709b0709a0705d0705c070150701406fd706fd606f8f06f8e06f4f06f4e06f1106f1006ed306ed206e9706e9606e5d06e5c0a4650a4640a4410a4400a4150a4140a3e70a3e60a3bd0a3bc)
  (.lf 0)))

def shaAndReads33 : BTree :=
  .nd (.nd (.nd (.lf
  0x3164e336cd336cc336a9336a8336a1336a03367f3367e3365d3365c33625336243361b3361a336133361233381333803335f3335e3328d3328c3327b3327a33273332723320533204331d7331d6331b3331b23318f3318e3316f3316e3316733166330e3330e232f8532f8432f7d32f7c32f6332f6232f5932f5832f4732f463292b3292a328eb328ea328d9328d8328c7328c6327d5327d4334813348033475)
  (.lf
  0x34484343fe343dc343b034364342ea342c63425434200341d83419a3413633d7233d1e33cd633ba433b6a33b3833b0033a7833a08339ee359da359c8359b835a0e3597635a40359683594a3594c35a263591235902358f2358dc358ca3589635888358a23586a358ac358b63584c3583c3582835818350ca350223500c34fea34f543580434aca36b1636a0e369f63696236944368c6368763685a367fc366fc))
  (.nd (.lf
  0x18fe518fa518f6518f6418f1f18f1e18ed918ed818e9318e9218e4d18e4c18e0718a4b18a4a18a4118a4018a3718a3618a2d18a2c18a2318a2218a1918a1818a0f18a0e18a0518a04189fb189fa189f1189f0189e7189e6189dd189dc189d3189d2189c9189c8189bf189be189b5189b4189ab189aa189a1189a018997189961898d1898c189831898218979189781896f1896e18965189641895b1895a18951)
  (.lf 0))) (.nd (.nd (.lf
  0x3afe33afe23afd93afd83afd13afd03afc73afc63afbd3afbc3afb33afb23afa53afa43af9b3af9a3af913af903af893af883af813af803af793af783af6f3af6e3af653af643af5b3af5a3af513af503af473af463af3d3af3c3af333af323af293af283af1f3af1e3af153af143af0b3af0a3af013af003aef73aef63bd553bd543bd4b3bd4a3bd3f3bd3e3bd333bd323bd273bd263bd1b3bd1a3bd0f3bd0e)
  (.lf 0)) (.nd (.lf
  0x39bb939bb839baf39bae39ba539ba439b9b39b9a39ae739ae639acd39acc39ac339ac239aa139aa039a7939a7839a6139a6039a4d39a4c39a4339a4239a2b39a2a39a2339a22399e7399e6399cb399ca399c1399c0399b9399b8399a3399a239999399983998f3998e397913979039785397843977d3977c397733977239769397683975f3975e39757397563974f3974e39745397443973b3973a3973139730)
  (.lf 0)))

def shaAndReads34 : BTree :=
  .nd (.nd (.nd (.lf
  0x3ff523ff493ff483ff3d3ff3c3ff353ff343ff2b3ff2a3ff213ff203ff173ff163ff0d3ff0c3ff033ff023fef73fef63feef3feee3fee53fee43fedb3feda3fed13fed03fec73fec63febd3febc3feb33feb23fea93fea83fe9f3fe9e3fe953fe943f4393f4383f42f3f42e3eeb13eeb03ee653ee643edbf3edbe3eabb3eaba3eab13eab00f8030f8020f7f90f7f80f7ef0f7ee0f7e50f7e40f7db0f7da0f7d1)
  (.lf
  0xea190ea180ea0f0ea0e0ea050ea04184d1184d01849f1849e18465184641842d1842c183f3183f2183bb183ba183831838218343183421830318302182c3182c21827f1827e1823918238181f7181f6181b7181b618177181761813318132180ed180ec180a7180a61806518064180251802417fe517fe417fa117fa017f5b17f5a17f1917f1817ed917ed817e9517e9417e4f17e4e17e0d17e0c17dc917dc8))
  (.nd (.lf
  0x205b020521205202051720516220e9220e8220d9220d821e3921e3821e2b21e2a21e2121e2021e1521e1421e0921e0821e0121e0021df521df421de921de821d7321d7221cb321cb221cab21caa21c9321c9221c5321c5221c0f21c0e21b8f21b8e21b8321b8221a5921a5821a5121a5021a3f21a3e21a1b21a1a21a1321a12219cd219cc2198321982218b9218b8218ad218ac216a1216a0215b7215b6215ad)
  (.lf 0))) (.nd (.nd (.lf
  0x41753417524174b4174a4173d4173c41733417324172741726415e3415e2415d7415d6415cf415ce415c5415c4415bd415bc415b1415b0415a5415a441577415764156d4156c4155f4155e414974149641323413224131b4131a4130b4130a4111141110410bd410bc3ec393ec383ec2f3ec2e3ec233ec223ec1b3ec1a3ec113ec103ec053ec043ebfd3ebfc3ebf33ebf23ebe93ebe83ebdf3ebde3ebd33ebd2)
  (.lf
  0x1eaa13045724f2d1e022315df263ad20cb83276b275e71e4c2338fd27ccf2294c34ad1299271f92435c3f2aaa5245b636ddb2bc47257a637e532cdc9268e63854d2d84727a7638bf32e52528c26392a72faa929dda3993f308152af6239e7b31bd12c0d23a3b132bcf2cfd83a8e733f092e1523ac4534e472f2f8362db3048e372553161038133327b6389693394438f0934ac23956d35c4839bcf36de83a15b))
  (.nd (.lf
  0x39f7039f6039ed039ec039e3039e2039d9039d8039cf039ce039c5039c4050c7050c60508b0508a0504905048050050500404fbf04fbe04f7d04f7c04f3d04f3c04ef904ef804eb304eb204e6d04e6c04e2704e2604de104de004d9f04d9e04d5f04d5e04d1f04d1e04cdb04cda04c9904c9804c5904c5804c1904c1804bd504bd404b9304b9204b5304b5204b1304b1204acf04ace04a8904a8804a4304a42)
  (.lf 0)))

def shaAndReads35 : BTree :=
  .nd (.nd (.nd (.lf
  0x1fab21fa871fa861f9d71f9d61f9ab1f9aa1f9391f9382171121710216ef216ee2164d2164c215012150021443214422141b2141a213d3213d2213712137021365213642135d2135c2131721316212f5212f421283212822122321222211ff211fe210db210da21063210622104f2104e21041210402100b2100a20fc120fc020f0920f0820ef520ef420edd20edc20e6d20e6c20e5920e5820dd720dd620d97)
  (.lf
  0x3b6753b63d3b5e73b59d3b5633b53f3b4f33b4b53b4853b43b3b3fd3b3a93b3653b3773b34b3b3273b3353b21f3b2573b1d33b1c337e7d3cc043cc583cbdc3cbd63cb4c3cb3e3cb0e3cb263ca863ca403ca283ca563ca023c9ee3c9d43c9da3c9b43c99c3c9883c9843c0cc3c0103bff43bfe63bfd63bd6a3bb6c3bae23b9e63b9663b8983b8023cc053cc593cbdd3cbd73cb4d3cb3f3cb0f3cb273ca873ca41))
  (.nd (.lf
  0x12bac12b9112b9012b7112b7012b5312b5212b3712b3612b1b12b1a12aff12afe12ae312ae212ac712ac612aa712aa612a8512a8412a6712a6612a4b12a4a12a2b12a2a12a0d12a0c129ed129ec129cf129ce129b3129b212997129961297b1297a1295b1295a12939129381291712916128f9128f8128dd128dc128bd128bc128a5128a412c0112be512be412bc312ba712b8b12b8a12b6912b4d12b3112b15)
  (.lf 0))) (.nd (.nd (.lf
  0x30ad130ad030abf30abe30aa530aa430a9b30a9a30a9330a9230a0330a0230993309923098b3098a3095130950312b53127b311d7311d63110d3110c31105310db3107731076310313103030f9f30f6d30f6c30f3b30eeb30e9f30e9e30e6d30e3f30da530da430d9330d9230d7130d5330d2b30cff30b7130b3530b3430b1530aeb30a8930a2d30a2c309cd3096e30397303963038d3038c303833038230379)
  (.lf 0)) (.nd (.lf
  0x306b7306b6306af306ae30697306963067b3067a306673066630641306403063930638306193061830589305883057d3057c3057130570305613056030559305583055130550305453054430539305383052d3052c30525305243050f3050e304f7304f6304dd304dc304813048030479304783046d3046c304613046030735307343071b3071a30711307103070330702306fb306fa306ef306ee306a5306a4)
  (.lf 0)))

def shaAndReads36 : BTree :=
  .nd (.nd (.nd (.lf
  0x1a8551a7d31a7d51a7d71a7d91a7db1a7dd1a7691a76b1a76d1a76f1a7711a7731a7291a6ef1a6f11a6f31a6f51a6f71a6f91a7151a6891a68b1a68d1a68f1eedd1a6911b5cd1b5b31b5b51b5831b5851b5871b5891b58b1b54b1b5231b5251b5271b5291b52b1b4ef1b4d91b4d11b4b71b4b91b4bb1b4bd1b47b1b44d1b44f1b4511b4531b4551b4571b4091b3ef1b3c51e0231b3c71c8271c8091c7d51c789)
  (.lf
  0x1db891db881eeb91eeb81ee991ee981ee771ee761ee531ee521ee311ee301ee0f1ee0e1eded1edec1edcb1edca1eda91eda81ed871ed861ed651ed641ed431ed421ed211ed201ecff1ecfe1ecdd1ecdc1ecbb1ecba1ec971ec961ec731ec721ec4f1ec4e1ec2b1ec2a1ec071ec061ebe31ebe21ebbf1ebbe1eb9b1eb9a1eb771eb761eb551eb541eb311eb301eb0d1eb0c1eaeb1eaea1eac91eac81eeb11eeb0))
  (.nd (.lf
  0x246bf246be2465724656245d7245d624be924be824bdb24bda24bcf24bce24bc724bbd24bbc24bb124bb024ba124b9b24b9124b9024b0524b0424af524a8924a8824a8124a7924a782496b249652495f249592494f24947249462493f24939249382492b2492324922248c32486124860246f1246f0246ad246ac2465f2462a23f2923f2823f2123f2023f1723f1623f0d23f0c23f0323f0223ef923ef823eef)
  (.lf 0))) (.nd (.nd (.lf
  0x64820643d0643c063f7063f6063af063ae06371063700632b0632a062e3062e2062a5062a40625d0625c0621f0621e061d7061d60696b0696a0692d0692c068e5068e4068a7068a60685f0685e0682106820067db067da067930679206753067520671306712066d5066d40668f0668e06649066480660106600065c1065c006581065800654306542064fb064fa064bd064bc06477064760643106430063eb)
  (.lf
  0x6a0306a0506a0706a0906a0b06a0d06a0f06a1106a1306a1506a1706a1906a1b06a1d06a1f06a2106a2306a2506a2706a2906a2b06a2d0763c0763e07640076420764407646076480764a0764c0764e07650076520765407656076580765a0765c0765e07660076620766407666076680766a0766c0766e07670076720767407676076780767a0763d0763f07641076430764507647076490764b0764d0764f))
  (.nd (.lf
  0x70270702606fe506fe406fa106fa006f5f06f5e06f1f06f1e06edb06eda06e9f06e9e06e6506e64075d5075d40759507555075540750f0750e074c9074890744907409073c9073890734907309072c9072c807283072820723d0723c071f7071f6071b107171071700712b070eb070ea070a507065070640701f06fdf06fde06f9906f5906f1806c9906c9806c8f06c8e06c8506c8406c7b06c7a06c7106c70)
  (.lf 0)))

def shaAndReads37 : BTree :=
  .nd (.nd (.nd (.lf
  0x28e6e28cef28cee28cb528cb42974b2974a2973929738296c5296c4296b3296b229699296982968f2968e296632966229659296582962729626295e9295e8295df295de295d5295d4295cd295cc295b7295b6295af295ae2958f2958e295852958429569295682955f2955e29557295562954d2954c29539295382950529504294fb294fa294f3294f2294e9294e8294df294de28e7728e7628ce328ce228c97)
  (.lf
  0x1336e13370133721337413376133781337a1337c1337e13380133821338413386133881338a1338c1338e1339013392133941339613398144f2144f4144f6144f8144fa144fc144fe14500145021450414506145081450a1450c1450e14510144501443e1442e1441e1440e143fe143ee143de143ce143be143ae1439e1438e1437c1436c1433814f7c14f7e14f8014f8214f8414f8614f8814f8a14f8c14f8e))
  (.nd (.lf
  0x162b3162b216297162961627716276162551625416237162361621b1621a161ff161fe161df161de161c1161c0161a5161a416189161881616916168161471614616129161281610916108160e7160e6160c9160c812f8712f8612f7312f7212f5912f5812f4f12f4e12f4512f4412f3b12f3a12f3112f3012f2712f2612f1d12f1c12f1312f1212f0912f0812eff12efe12ef512ef412eeb12eea12ee112ee0)
  (.lf 0))) (.nd (.nd (.lf
  0x351bc351ab351aa351a3351a23519b3519a35191351903518535184351793517835169351683515f3515e35157351563514d3514c35141351403512f3512e3511b3511a35111351103510935108350ff350fe350f5350f4350eb350ea350e1350e0350d5350d43508f3508e35087350863507f3507e350773507634f7334f7234f6134f6034b3f34b3e34b2134b20356513565035649356483563f3563e35347)
  (.lf 0)) (.nd (.lf
  0x351e1351e0351d7351d63506b3506a350613506035055350543504b3504a3504335042350393503834f2534f2434f1b34f1a34f1134f1034f0734f0634efd34efc34ef334ef234ee934ee834edf34ede34ed534ed434ecb34eca34ec134ec034eb734eb634ead34eac34e6334e6234e4f34e4e370013700036ff536ff436fed36fec36fe136fe036fd936fd836fcd36fcc36fc136fc036fb536fb436fa936fa8)
  (.lf 0)))

def shaAndReads38 : BTree :=
  .nd (.nd (.nd (.lf
  0x3df5e3df3b3df3a3df173df163deff3defe3dead3deac3de773de763de533de523de4b3de4a3de113de103de073de063ddff3ddfe3ddf73ddf63dde33dde23ddcf3ddce3ddbd3ddbc3dda93dda83dd953dd943dd8d3dd8c3d6b73d6b63d6993d6983d6673d6663d5fd3d5fc3d5b33d5b23d5a33d5a23d33d3d33c3d32f3d32e3d2b93d2b83d22f3d22e3d17b3d17a3e77f3e77e3e73d3e73c3e7353e7343e70d)
  (.lf
  0xd8930d8920d8710d8700d84f0d84e0d82d0d82c0d80b0d80a140171401613fd513fd413f8513f8413f3713f3613ee713ee613e9513e9413e4713e4613df713df613da513da413d5313d5213d0113d0013cb313cb213c6313c6213c1513c1413bc913bc813b7913b7813b2b13b2a13adf13ade13a8f13a8e13a4113a40139f1139f01399f1399e13951139501390513904138b9138b813869138681381713816))
  (.nd (.lf
  0x1cf691cf681cf5d1cf5c1cf511cf501cf451cf441cf391cf381cf2d1cf2c1cf211cf201cf151cf141cc7f1cc7e1cc5d1cc5c1cc391cc381cc171cc161cbef1cbee1d40f1d40e1d4051d4041d3f91d3f81d3f11d3f01d3e51d3e41d3dd1d3dc1d3d31d3d21d3c91d3c81d3bb1d3ba1d3b31d3b21d3a91d3a81d39f1d39e1d3951d3941d38b1d38a1d35f1d35e1d3551d3541d3331d3321d3071d3061d2d51d2d4)
  (.lf 0))) (.nd (.nd (.lf
  0x3e4bb3e4ba3e4b33e4b23e4a93e4a83e49f3e49e3e4953e4943e43b3e43a3e4273e4263e41d3e41c3e4133e4123e4073e4063e3fb3e3fa3e3ef3e3ee3e37b3e37a3e3493e3483e24d3e24c3e2453e2443e23d3e23c3e1913e1903e1853e1843e17b3e17a3e1713e1703e15b3e15a3e1513e1503e0e93e0e83e01f3e01e3def33def23e7273e7213e7193e55d3e55c3e5553e5543e5433e53d3e5373e5363e523)
  (.lf
  0x23606235c02358c23522233312332c24bc624ba024b9a24af424a802496a249642495e249582494e2493e2492a248c22465e2462b2460924602260bc260b425f3625f2e25f2425f1e25d5c25cf825cf025c9825ba225b2225af425a30259fc259842594c258902582b2579825791270aa2700626fb826f4626ece26e7a26da826d2e26cf026ce826ca426c6426b6e26b4a26ada26aa226a1826a10269a42691d))
  (.nd (.lf
  0x10fb010fa010f1010f0010e7010e6010dd010dc010d3010d2010c9010c8010bf010be010b5010b401edb01eda01e9f01e9e01e5901e5801e1301e1201dd101dd001d9101d9001d5101d5001d0d01d0c01ccb01cca01c8b01c8a01c4701c4601c0101c0001bbf01bbe01b7b01b7a01b3501b3401aef01aee01aad01aac01a6901a6801a2701a26019e7019e6019a7019a601963019620192101920018e1018e0)
  (.lf 0)))

def shaAndReads39 : BTree :=
  .nd (.nd (.nd (.lf
  0x1752217519175181751117510175071750616e5116e5016e1116e1016dd116dd017711177101770717706176ff176fe176f7176f6176ed176ec176e3176e2176d9176d8176cf176ce176c5176c4176bd176bc17695176941768b1768a17681176801767717676176651766417639176381762f1762e17623176221761b1761a17611176101760717606175fd175fc175ed175ec174fd174fc174f3174f2174eb)
  (.lf
  0x26df126ddf26dcd26d3d26d1526cf926cc126c9d26c7326c6126bc926b7f26b6b26b5326b0726ae326aab26a4926a4b26a4d269a1269152879a287c4287722874628714286b2286bc286982866c2864c286342861e28602285ec285ee285ca285aa285b628586285882856428554280cc27fa627e502854227c1627c0427bf627bd827b2827ae22879b287c5287732874728715286b3286bd286992866d2864d))
  (.nd (.lf
  0xbece0bec50bec40bebb0beba0beb10beb00bea70bea60be9d0be9c0be930be920be890be880be7f0be7e0be750be740be6b0be6a0be610be600be570be560be4d0be4c0be430be420be390be380be2f0be2e0be250be240be1b0be1a0be110be100be070be060bdfd0bdfc0bdf30bdf20ccbd0ccbc0ccb30ccb20cca90cca80cc9f0cc9e0cc950cc940cc8b0cc8a0cc810cc800cc770cc760cc6d0cc6c0cc63)
  (.lf 0))) (.nd (.nd (.lf
  0x2b9072b9062b8fd2b8fc2b8f32b8f22b8e92b8e82b8df2b8de2b8d52b8d42b86f2b86e2b8652b8642b85b2b85a2b7932b7922b7552b7542b7012b7002b6b92b6b82b6472b6462c9e12c9e02c9d72c9d62c9cd2c9cc2c9c32c9c22c9b92c9b82c9af2c9ae2c9a52c9a42c99b2c99a2c9912c9902c9872c9862c97d2c97c2c9732c9722c9692c9682c95f2c95e2c9552c9542c94b2c94a2c9412c9402c9372c936)
  (.lf 0)) (.nd (.lf
  0x29d5f29d5e29d4929d4829d3329d3229d1d29d1c29d0729d0629cf129cf029cdb29cda29cc529cc429caf29cae29c9929c9829c8329c8229c6d29c6c29c5729c5629c4129c4029c2b29c2a29c1529c1429bff29bfe29be929be829bd329bd229bbd29bbc29ba729ba629b9129b9029b7b29b7a29b6529b6429b4f29b4e29b3929b3829b2329b2229a5329a5229a4929a4829a3f29a3e29a3529a3429a2b29a2a)
  (.lf 0)))

def shaAndReads40 : BTree :=
  .nd (.nd (.nd (.lf
  0x2a3c92a3ab2a3852a3612a33d2a31b2a3092a2db2a2bb2a29d2a28b2a26f2a2532a22f2a2172a1f32a1d52a1af29fad29f1b29f0529e9b29e9d29e472e15329e1b2b89d2b89f2b8a12b8752b8772b72f2b7072b6bf2b65f2b6612b6632b6652b6672b6692b51f2b4692b46b2b46d2b46f2b4712b4732b3cd2b3ad2b3112b3132b3152b3172b3192b31b2b0e32b0e52f2f92b0e72c80b2c80d2c8192c7f72c7c5)
  (.lf
  0x1e3671e3661e3511e3501e33b1e33a1e3251e3241e30f1e30e1e2f91e2f81e2e31e2e21e2cd1e2cc1e2b71e2b61e2a11e2a01e28b1e28a1e2751e2741e25f1e25e1e2491e2481e2331e232121c3121c212183121821213f1213e120fb120fa120b3120b21206912068120211202011fd911fd811f9111f9011f4911f4811f0511f0411ec111ec011e7d11e7c11e3911e3811df511df411dad11dac11d6311d62))
  (.nd (.lf
  0x2706b2706a26ff926ff826fe926fe826ec726ec626ebf26ebe26eb326eb226e1b26e1a26d9f26d9e26d9526d9426d8526d8426d7126d7026ce126ce026cd726cd626ccb26cca26c4126c4026c3926c3826bf126bf026be726be626bdf26bde26b3126b3026b2526b2426b1b26b1a26b1126b1026aeb26aea26ab526ab4269ff269fe269f5269f4269eb269ea269e3269e2270ab2700726ff326ff226fb926f47)
  (.lf 0))) (.nd (.nd (.lf
  0x998a0994d0994c0990509904098c5098c4098850988409845098440980709806097c1097c009779097780973909738096f9096f8096bb096ba09675096740962f0962e095e9095e8095a3095a20955b0955a0951d0951c094d7094d6094910949009449094480940909408093c9093c809389093880934b0934a0a8db0a8da0a8ad0a8ac0a8810a8800a8550a8540a8290a8280a7fd0a7fc0a7d10a7d00a7a5)
  (.lf
  0xc7770c7790c77b0c77d0c77f0c7810c7830c7850c7870c7890c78b0c78d0c78f0c7910c7930c7950c7970c7990c79b0c79d0c79f0c7a1107a4107a6107a8107aa107ac107ae107b0107b2107b4107b6107b8107ba107bc107be107c0107c2107c4107c6107c8107ca107cc107ce107d0107d2107d4107d6106681065a106441063210620105f8107a5107a7107a9107ab107ad107af107b1107b3107b5107b7))
  (.nd (.lf
  0x558c08e8f08e8e08e5508e5408e1108e1008dcf08dce08d8f08d8e08d4b08d4a08d0908d0808cc908cc808c8908c8808c4908c4808c0508c0408bbf08bbe08b7d08b7c08b3d08b3c08afd08afc08ab908ab808a7308a7208a3108a30089f1089f0089b1089b008971089700892d0892c088eb088ea088a7088a608861088600881f0881e087db087da08795087940874f0874e087090870808e8908e4f08e4e)
  (.lf 0)))

def shaAndReads41 : BTree :=
  .nd (.nd (.nd (.lf
  0x2d6e82d5db2d5da2d5932d5922d58b2d58a2d56d2d56c2d51f2d51e2d5012d5002d4f92d4f82d4c32d4c22d41d2d41c2d4132d4122d4032d4022d3ed2d3ec2d3e32d3e22d3172d3162d1c12d1c02d1b92d1b82efd52efd42eef12eef02eec32eec22eea92eea82edad2edac2ed9f2ed9e2ed552ed542ed492ed482ed0b2ed0a2ecd92ecd82ec8d2ec8c2ec6b2ec6a2ec352ec342ec092ec082ebd52ebd42eb9f)
  (.lf
  0x22f5822ffc22e3a22e0a22e0c22e0e22e1022e1222d5a22d3622d1022ce422ce622ce822c6c22c2a22c2c22bce22aea22a0422a06229962404e24050240522405423fda23fdc2410823fde23fe023fe223fe423fe623fe823fea23fec23fee23ff023ff223f4423f46237e6237e8237ea237ec237ee235ae235902356623540234fe2350023342251e2251e4251e6251e8251ea251ec251ee251942519625166))
  (.nd (.lf
  0x16a4e16a4516a4416a3b16a3a16a3116a3016a1516a1416a0b16a0a16a0116a00169f7169f6169ed169ec169e3169e2169d9169d8169cf169ce169c5169c4169bb169ba17c8717c8617c7d17c7c17c7317c7217c6917c6817c5f17c5e17c5517c5417c4b17c4a17c4117c4017c3717c3617c2d17c2c17c2317c2217c1917c1817c0f17c0e17c0517c0417bfb17bfa17bf117bf017be717be617bdd17bdc17bd3)
  (.lf 0))) (.nd (.nd (.lf
  0x36c9436c8b36c8a36c8136c8036c7536c7436c6d36c6c36c6336c6236c5936c5836c4f36c4e36c4536c4436c3b36c3a36c3136c3036c2736c2636c1d36c1c36c1336c1236c0936c0836bff36bfe36bf136bf036be936be836be136be036b5136b5036a3f36a3e36a3536a34369e9369e8369df369de369d5369d437533375323752b3752a375233752237517375163750f3750e3750337502374f1374f0374e7)
  (.lf 0)) (.nd (.lf
  0x3873f3873e38735387343871f3871e38713387123859d3859c3858b3858a3855f3855e383ad383ac383a3383a238395383943838b3838a383813838038377383763836d3836c383613836038355383543834d3834c383433834238339383383832f3832e38327383263831b3831a383133831238309383083830138300382f5382f4382ed382ec382e3382e2382733827238245382443823d3823c3823338232)
  (.lf 0)))

def shaAndReads42 : BTree :=
  .nd (.nd (.nd (.lf
  0x40db04069f4069e40635406344062d4062c4061740616405ff405fe405f7405f6405d5405d4405c5405c4405bd405bc4053b4053a4051d4051c404f7404f641e9341e9241e8b41e8a41e7541e7441e3b41e3a41e1541e1441e0941e0841dfd41dfc41df541df441ded41dec41dd741dd641db741db641d5b41d5a41d5341d5241d3d41d3c41d3341d3241d2b41d2a41d2341d2241d1741d1641d0b41d0a41c07)
  (.lf
  0x1573715736156fd156fc156c5156c41568d1568c15655156541561915618155df155de155a3155a215569155681552d1552c154f5154f4154bf154be154851548415449154481540d1540c153d5153d41539b1539a1535d1535c1532915328103e7103e610391103901032f1032e102d3102d210277102761021910218101bb101ba10161101601010110100100a5100a410049100480ffeb0ffea0ff890ff88))
  (.nd (.lf
  0x1fa3b1fa3a1fa291fa281fa1f1fa1e1fa151fa141fa0b1fa0a1fa031fa021f97f1f97e1f9771f9761e1611e1601e1591e1581e14f1e14e1e1451e1441e13b1e13a1e1331e1321e12b1e12a1e11f1e11e1e1151e1141e10b1e10a1e1031e1021e0f91e0f81e0ef1e0ee1e0e51e0e41e0d91e0d81e0cf1e0ce1e0c51e0c41e0bb1e0ba1e0b11e0b01e0a71e0a61e09d1e09c1e0931e0921e0891e0881e07f1e07e)
  (.lf 0))) (.nd (.nd (.lf
  0x3dd2b3dd2a3dd213dd203dd173dd163dd0d3dd0c3dd033dd023dcf93dcf83dced3dcec3dce53dce43dcdb3dcda3dcd13dcd03dcc73dcc63dcbd3dcbc3dcb33dcb23dca93dca83c6313c6303c6273c6263c61d3c61c3c6133c6123c4f53c4f43c4bf3c4be3c4053c4043fe4d3fe4c3fe433fe423fe393fe383fe2f3fe2e3fe253fe243fe193fe183fe0f3fe0e3fda13fda03fd8b3fd8a3fd813fd803fd773fd76)
  (.lf
  0x15cfc168d81794e187ea197ea1a8901b84a1c5ce1d5b61f73420500213b621e9c2322a23cca24d5025d9026e6e2865e2926a2a8222b6122cb622de742ee5c2ff2830f883202633376344ea355463673a3793e3b6ea3ca443ceda3d9fc3e63a3f5b4408c8411c8010ab0150b0213102d35039bb0462b0529d05ef306b6d077bb0840f0906d09cdd0a7710b2e70bde90c8e1108ff113b71251b13159141f114d15))
  (.nd (.lf
  0x258d0258c02547025460250102500024bb0247b0243b0243a023f5023f4023ae0225d0225c022530225202249022480223f0223e02235022340222b0222a022210222002217022160220d0220c0220302202021f9021f8021ef021ee021e5021e4021db021da021d1021d0021c7021c6021bd021bc021b3021b2021a9021a80219f0219e02195021940218b0218a021810218002177021760216d0216c02163)
  (.lf 0)))

def shaAndReads43 : BTree :=
  .nd (.nd (.nd (.lf
  0x1b5181b5111b5101b5071b5061b4fd1b4fc1b4eb1b4ea1b4e31b4e21b4b31b4b21b4a91b4a81b4a11b4a01b4971b4961b48d1b48c1b4831b4821b4731b4721b4451b4441b43b1b43a1b4311b4301b4271b4261b41d1b41c1b4131b4121b4011b4001b3bb1b3ba1c7e71c7e61c7a51c7a41c7651c7641c7531c7521c70b1c70a1c6c51c6c41c6431c6421c5f91c5f81c5b31c5b21c57b1c57a1c55b1c55a1c515)
  (.lf
  0x2ff4f2ff3d2fe332fbef2fbdb2fbc92fbb52fba12fb8d2fb792fb652fb532fb412fb2f2fb1d2fb0b2fc052faf32fadf2facd2fabb2f307312c23128c31276311fa311303119c310b23104630ffe30f7830f5430f3630ed030e8630e5230e3a30db030d8830d6c30d4c30d1230ce630b6c30b2c30b1030adc30a7a30a20309dc309b6309a630756312c33128d31277311fb311313119d310b33104730fff30f79))
  (.nd (.lf
  0x10e4f10e3310e3210e1110e1010def10dee10dcd10dcc10dab10daa10d8910d6d10d6c10d4b10d4a10d2910d2810d0710d0610ce510ce410cc310ca710c8b10c8a10c6910c4d10c3110c1510c1410bf310bf210bd110bd010baf10bae10b8d10b7110b5510b3910b1c10a2b10a2a10a2110a2010a1710a1610a0d10a0c10a0310a02109f9109f8109ef109ee109e5109e4109db109da109d1109d0109c7109c6)
  (.lf 0))) (.nd (.nd (.lf
  0x2eb192eb182eae52eab52eab42ea5b2ea552ea542ea232ea222e9f12e97d2e96f2e9692e9132e9122e08f2e08e2e0872e0862e07d2e07c2e0732e0722e0692e0682e05f2e05e2e0552e0542e04b2e04a2e0412e0402e0372e0362e02d2e02c2e0232e0222e0192e0182e00f2e00e2e0052e0042dffb2dffa2dff12dff02dfe72dfe62dfdd2dfdc2dfd32dfd22dfc92dfc82dfbf2dfbe2df992df982df672df66)
  (.lf 0)) (.nd (.lf
  0x2d06d2d06c2d05f2d05e2d0572d0562d04d2d04c2d0412d0402d0352d0342d0292d0282d01f2d01e2d0112d0102d0092d0082cffd2cffc2d6cd2d6cc2d6c52d6c42d6b92d6b82d6b12d6b02d6a92d6a82d69b2d69a2d68f2d68e2d6852d6842d6792d6782d66d2d66c2d6612d6602d6512d6502d62d2d62c2d6132d6122d5bd2d5bc2d5b52d5b42d2c12d2c02d2b92d2b82d2a92d2a82d2a12d2a02d2952d294)
  (.lf 0)))

def shaAndReads44 : BTree :=
  .nd (.nd (.nd (.lf
  0x9e3b09e3d09e3f09e4109e4309e4509e4709e4909e4b09e4d093330a5d50a5d70a5d90a5db0a5dd0a5df0a5e10a5e30a5e50a5e70a5e90a5eb0a5ed0a5ef0a5f10a5f30a5f50a5f70a5f90a5fb0a5fd0a5ff0a6010a6030a6050a6070a6090a60b0a60d0a60f0a6110f8c90a6130b4190b41b0b41d0b41f0b4210b4230b4250b4270b4290b42b0b42d0b42f0b4310b4330b4350b4370b4390b43b0b43d0b43f)
  (.lf
  0xf0630f0620f0590f0580f04f0f04e0f0450f0440f03b0f03a0f0310f0300f0270f0260f01d0f01c0f0130f0120f0090f0080efff0effe0eff50eff40efeb0efea0efe10efe00efd70efd60efcd0efcc0efc30efc21b35f1b35e1b3291b3281b2d71b2d61b2a51b2a41b2791b2781b2351b2341b20b1b20a1b1cd1b1cc1b1891b1881b14d1b14c1b1111b1101b0e31b0e21b0ab1b0aa1b0731b0721b03b1b03a))
  (.nd (.lf
  0x222dd222dc222d3222d2222c9222c8222bf222be222b5222b4222ab222aa2229f2229e22297222962228d2228c222812228022279222782226b2226a222612226022257222562224b2224a222412224022237222362222f2222e22225222242221b2221a22211222102212722126220d1220d0220892208822025220242201b2201a220112201021f2521f2421ecf21ece2349b2349a2348f2348e2348523484)
  (.lf 0))) (.nd (.nd (.lf
  0x3728036ed036ec036b9036b803687036860364d0364c0361103610035df035de035a5035a403569035680353703536034fb034fa034c9034c80348f0348e03455034540341903418033e7033e6033ad033ac03371033700333f0333e0330503304032cb032ca0328f0328e0325d0325c0322103220031ed031ec031bb031ba0317f0317e037c5037c40378b0378a0374f0374e0371d0371c036e1036e0036ad)
  (.lf
  0x416f3416f2416eb416ea416df416de416d7416d641679416784166141660416574165641589415884153f4153e414b9414b8413a1413a041381413804136b4136a4134741346410eb410ea01347013460133d0133c013330133201329013280131f0131e01315013140130b0130a0130101300012f7012f6012ed012ec012e3012e2012d9012d8012cf012ce012c5012c4012bb012ba012b1012b0012a7012a6))
  (.nd (.lf
  0x5691056900564b053c9053c8053bf053be053b5053b4053ab053aa053a1053a005397053960538d0538c053830538205379053780536f0536e05365053640535b0535a053510535005347053460533d0533c053330533205329053280531f0531e05315053140530b0530a0530105300052f7052f6052ed052ec052e3052e2052d9052d8052cf052ce052c5052c4052bb052ba052b1052b0052a7052a606995)
  (.lf 0)))

def shaAndReads45 : BTree :=
  .nd (.nd (.nd (.lf
  0x24abc24ab324ab224aab24aaa24a3b24a3a24a2124a2024a1724a1624a0f24a0e249ef249ee249e7249e6249d3249d2249b9249b8249a5249a42499d2499c2498b2498a2486b2486a246f9246f8246a5246a424675246742463324632251dd251dc251d3251d2251c9251c8251bf251be251b5251b4251ab251aa251a1251a02518b2518a25163251622515b2515a25151251502514925148251332513225129)
  (.lf
  0x3b0003b0203b0403b0603b0803b0a03b0c03b0e03b1003b1203b1403b1603b1803b1a03b1c03b1e03b2003b2203b2403b2603b2803b2a0475c0475e04760047620476404766047680476a0476c0476e04770047720477404776047780477a0477c0477e04780047820478404786047880478a0478c0478e04790047920479404796047980479a053ce053d0053d2053d4053d6053d8053da053dc053de053e0))
  (.nd (.lf
  0x11599115981158f1158e11585115841157b1157a115711157011567115661155d1155c115531155211549115481153f1153e11535115341152b1152a115211152011517115161150d1150c1150311502114f9114f81105d1105c10f4d10f4c10f3710f3610f2110f2010ed710ed6149991499814979149781495b1495a1493f1493e1491f1491e1490114900148e1148e0148c3148c2148a7148a61488714886)
  (.lf 0))) (.nd (.nd (.lf
  0x327f9327f8327c5327c4330d7330d6330c9330c8330bf330be330b5330b4330ad330ac3309f3309e330913309033087330863307d3307c330713307033067330663305f3305e330533305233049330483303f3303e33035330343302b3302a3301f3301e3301333012330073300632a7932a7832a2932a2832a0132a00329ad329ac329773297632919329183285b3285a32823328223280b3280a327cf327ce)
  (.lf 0)) (.nd (.lf
  0x325d9325d8325cd325cc325c3325c2325bb325ba31bff31bfe31bf731bf631bed31bec31be531be431bdb31bda33ca533ca433c9733c9633c8733c8633c7b33c7a33c7333c7233c6933c6833c5f33c5e33c5733c5633c4733c4633c3f33c3e33c3133c3033c2533c2433c1933c1833c0f33c0e33c0333c0233bf533bf433beb33bea33be333be233bd333bd233bc733bc633bbf33bbe33bb333bb23398333982)
  (.lf 0)))

def shaAndReads46 : BTree :=
  .nd (.nd (.nd (.lf
  0x378a0378753787437861378603785937858378453784437831378303781f3781e3780d3780c377fb377fa377df377de377d7377d6373f7373f6373e5373e43719337192370f3370f237c5337c5237c0137c0037bf937bf837bbf37bbe37bb537bb437bad37bac37b7f37b7e37b7737b7637b4f37b4e37b4737b4637b2137b2037b0937b0837aff37afe37aaf37aae37aa737aa637a9f37a9e37a9737a9637a73)
  (.lf
  0xce3f0ce3e0ce350ce340ce2b0ce2a0ce210ce200ce170ce160ce0d0ce0c0ce030ce020cdf90cdf80cdef0cdee0cde50cde40cddb0cdda0cdd10cdd00cdc70cdc60cdbd0cdbc0cdb30cdb20cda90cda80cd9f0cd9e0cd950cd940cd8b0cd8a0cd810cd800cd770cd760d35b0d35a0d33d0d33c0d31b0d31a0d2f90d2f80d2d70d2d60d2b50d2b40d2930d2920d2710d2700d24f0d24e0d22d0d22c0d20b0d20a))
  (.nd (.lf
  0x1b0261afef1afee1afb71afb61af7f1af7e1af491af481af131af121aed91aed81aea11aea01ae671ae661ae291ae281aded1adec1adab1adaa1ad651ad641ad1f1ad1e1acdd1acdc1ac991ac981b3591b3581b31d1b2eb1b2b31b2731b2721b23f1b23e1b1f91b1bf1b1be1b1991b1981b15b1b15a1b11d1b0dd1b0911b0591b0211afe91afb11af791af431af0d1af0c1aed11ae9b1ae9a1ae5f1ae5e1ae21)
  (.lf 0))) (.nd (.nd (.lf
  0x3c48d3c48c3c9553c9543c93f3c93e3c9333c9323c9273c9263c91f3c8f93c8f33c8c13c8c03c8b53c8a33c8a23c8953c88f3c8873c8863c8793c8733c8723c8653c85f3c85e3c8513c8503c8473c8293c8213c6bd3c6bc3c6053c6043c5d73c5d13c5d03c57f3c57e3c5773c4f13c4f03c4ad3c4ac3c3f43cdad3cdac3cda13cda03cd953cd943cd8b3cd8a3cd7f3cd7e3cd773cd763cd6d3cd6c3cd613cd60)
  (.lf
  0x6622065e2065a20651c063c4062f806272061ec061b2061ad07594074c8074880744807408073c8073880734807308071b00712a070a40701e06f9806f5806f1906e2a06e250822a081f00816a0812a080a40801e07fde07f9e07f5e07f1e07e5207dcc07d0007c3407bf407bb407b7407b3407af407ab407a7a07a7508e8808e0808dc808d4208d0208cc208c8208bb608b7608b3608a6a08a2a089ea089aa))
  (.nd (.lf
  0x3a9493a9483a9413a9403a9213a9203a9113a9103a9033a9023ab793ab783ab573ab563ab4f3ab4e3ab473ab463ab3f3ab3e3ab373ab363ab2d3ab2c3ab0f3ab0e3ab053ab043aafb3aafa3aae93aae83aa833aa823aa6d3aa6c3aa5b3aa5a3aa453aa443aa333aa323aa1b3aa1a3a9ff3a9fe3a9f53a9f43a9df3a9de3a9d53a9d43a9cd3a9cc3a9c33a9c23a9bb3a9ba3a9b13a9b03a9a33a9a23a9393a938)
  (.lf 0)))

def shaAndReads47 : BTree :=
  .nd (.nd (.nd (.lf
  0x13dd613d8713d8613d3513d3413ce113ce013c9513c9413c4513c4413bf513bf413ba713ba613b5b13b5a13b0d13b0c13ac113ac013a6d13a6c13a1f13a1e139d3139d21397f1397e1393113930138e7138e61389b1389a1384713846137f5137f4137a7137a613757137561370713706144ed144ec144e1144e0144d7144d6144cd144cc144c3144c2144b9144b8144b1144b0144a7144a61449d1449c14493)
  (.lf
  0x1f5e11f5e31f5e51f5e71f5e91f5eb1f5ed1f5ef1f5f11f5f31f5f51f5f71f5f91f5fb1f5fd1f5ff1f6011f6031f6051f2111f1c71f1c92061e206202062220624205682056a2056c2047e20480204822048420486204882048a2048c2048e20490204922049420036200381fbc81fb901fb5e1fb281faf41fac01fa921f9ec1f9c21f95c1f95e2061f206212062320625205692056b2056d2047f2048120483))
  (.nd (.lf
  0xb8d20b8b30b8b20b8930b8920b8710b8700b84f0b84e0b82d0b82c0b80f0b80e0b7ef0b7ee0b7cd0b7cc0b7ab0b7aa0b78d0b78c0b7710b7700b7550b7540b7390b7380b71b0b71a0b6fd0b6fc0b6df0b6de0b6bd0b6bc0b6990b6980b6790b6780b6590b6580b63b0b63a0b61b0b61a0b5fd0b5fc0b5e10b5e00b5c10b5c008e8108e8008e4708e4608dff08dfe08dbf08dbe08d8108d8008d3908d3808cf9)
  (.lf 0))) (.nd (.nd (.lf
  0x2a5b32a5b22a5a72a5a62a59f2a59e2a5952a5942a58b2a58a2a57b2a57a2a56f2a56e2a5652a5642a55d2a55c2a5552a5542a54b2a54a2a5412a5402a5372a5362a52d2a52c2a5232a5222a5192a5182a50f2a50e2a4372a4362b15b2b15a2b1532b1522b14b2b14a2b13f2b13e2b1332b1322b1272b1262b11b2b11a2b10f2b10e2b1032b1022b0f72b0f62b0d72b0d62b0cb2b0ca2b0bf2b0be2b0b32b0b2)
  (.lf 0)) (.nd (.lf
  0x267592675826743267422672d2672c26717267162670126700266eb266ea266d5266d4266bf266be266a9266a826693266922667d2667c26667266662665126650264d9264d8264cf264ce264c5264c4264bb264ba264b1264b0264a7264a62649d2649c264932649226489264882647f2647e26475264742646b2646a264612646026457264562644d2644c264432644226439264382642f2642e2642526424)
  (.lf 0)))

def shaAndReads48 : BTree :=
  .nd (.nd (.nd (.lf
  0x31e3b31d6d31d3131d3331d0131ce131c6731c4331c4b31c3131c3331ccb317ef316973166b35c493163733487334893348b3348d33443333f1333e3333c9333cb333cd3331d3333d3334d33285331ff331ed3319d331493313f3310b330ed32fcd32fbf32fab32f9b32f3d32937328a93289132881327db36de9327b134883347ad346d7347133460b346f3345e7344af344bb3446534485343ff343dd343b1)
  (.lf
  0x2272b2272a2271522714226ff226fe226e9226e8226d3226d2226bd226bc226a7226a622929229282291322912228fd228fc228e7228e6228d1228d0228b9228b8228a1228a022889228882287122870228592285822841228402282b2282a2281522814227fd227fc227e7227e6227d1227d0227bb227ba227a5227a42278f2278e227792277822763227622274d2274c227372273622721227202270b2270a))
  (.nd (.lf
  0x27ea527ea427e9b27e9a27e9127e9027e7d27e7c27e7527e7427e3927e3827e0127e0027acf27ace27abf27abe27ab727ab627aab27aaa2820d2820c2818b2818a2817f2817e28175281742816b2816a281612816028155281542814b2814a2813f2813e281352813428125281242810d2810c280fb280fa280e3280e2280452804428039280382802f2802e280232802228017280162800f2800e27ffb27ffa)
  (.lf 0))) (.nd (.nd (.lf
  0xaf300af270af260af1d0af1c0af110af100af090af080aefd0aefc0aef30aef20aee70aee60aedf0aede0aed50aed40aecb0aeca0aec30aec20aead0aeac0ae990ae980ae830ae820ae790ae780ae710ae700bc230bc220bc1b0bc1a0bc110bc100bc070bc060bbf90bbf80bbf10bbf00bbe70bbe60bbdf0bbde0bbd50bbd40bbcb0bbca0bbbf0bbbe0bbb50bbb40bbab0bbaa0bba10bba00bb990bb980bb8f)
  (.lf
  0x130f5130f713093130591305b1305d1305f130611309f12fe912feb12fed12fef12ff112ff31307b12eb112eb312eb512eb712eb912ebb140721407414076140781407a1407c1407e14080140821408414086140881408a1408c1408e14090140921409414096140981409a1409c1409e140a0140a2140a4140a6140a8140aa140ac140ae140b0140731407514077140791407b1407d1407f140811408314085))
  (.nd (.lf
  0x651306512064d5064d40648f0648e06449064480640306402063bb063ba0637d0637c0633706336062ef062ee062b1062b006269062680622b0622a061e3061e209aff09afe09ac109ac009a7f09a7e09a3b09a3a099f9099f8099b5099b409973099720992f0992e098ed098ec098ad098ac0986d0986c0982d0982c097e9097e8097a3097a209761097600972109720096e1096e00969d0969c0965709656)
  (.lf 0)))

def shaAndReads49 : BTree :=
  .nd (.nd (.nd (.lf
  0x2f9202f8c72f8c62f8292f8282f80b2f80a2f7d92f7d82f7bd2f7bc2f7952f7942f78b2f78a2f3b12f3b031283312823124f3124e311e5311e431129311283111f3111e310a7310a63103b3103a30fef30fee30f9930f9830f4530f4430f1b30f1a30ee530ee430e7730e7630e4730e4630e2930e2830d9d30d9c30d7f30d7e30d5b30d5a30d3330d3230d0b30d0a30cdf30cde30b5d30b5c30b1f30b1e30b01)
  (.lf
  0x2b6622b6642b6662b6682b51e2b4682b46a2b46c2b46e2b4702b4722b3cc2b3ac2b3102b3122b3142b3162b3182b31a2b0e22b0e42b0e62c80a2c80c2c8182c7f62c7c42c7c62c7c82c7ca2c7cc2c7ce2c7d02c7d22c7522c7202c7222c7242c7262c6ee2c6f02c6c82c6a82c6aa2c6ac2c6862c6762c6622c64c2c64e2c62a2c6322c15c2c1202db9e2db962db582db342daf62daea2dbc22da602da2c2da0c))
  (.nd (.lf
  0x17a7817a6f17a6e17a6517a6417a5b17a5a17a5117a5017a4717a4617a3d17a3c17a3317a3217a2917a2817a1f17a1e17a1517a1417a0b17a0a17a0117a00179f7179f6179ed179ec179e3179e2179d9179d8179cf179ce179c5179c4179bb179ba179b1179b0179a7179a6179811798017977179761796d1796c1796317962179591795818c3b18c3a18c3118c3018c2718c2618c1d18c1c18c1318c1218c09)
  (.lf 0))) (.nd (.nd (.lf
  0x36b6636b5d36b5c36afb36afa36af336af236aeb36aea36a6d36a6c368f9368f83689d3689c3689536894367ed367ec37d9137d9037d8537d8437d7d37d7c37d7337d7237d6737d6637d5f37d5e37d5737d5637d4d37d4c37d4337d4237d3937d3837d2f37d2e37d2537d2437d1b37d1a37d1137d1037d0537d0437cfb37cfa37cf337cf237ce737ce637cdd37cdc37cd537cd437ccb37cca37cbf37cbe37cb7)
  (.lf 0)) (.nd (.lf
  0x3949139490394873948639475394743946d3946c394633946239457394563944b3944a39435394343942b3942a39423394223941b3941a3940d3940c3940339402393f7393f6393eb393ea393db393da393d1393d0393c7393c6393b7393b6393af393ae3936f3936e393633936239357393563934139340393353933439325393243930f3930e392d5392d4392af392ae396633966239647396463963739636)
  (.lf 0)))

def shaAndReads50 : BTree :=
  .nd (.nd (.nd (.lf
  0x407683fa373fa363fa2d3fa2c3f9913f9903f96b3f96a40d9740d9640d8f40d8e40d8540d8440d7b40d7a40d6f40d6e40d6540d6440d5d40d5c40d5340d5240d4940d4840d3f40d3e40d3540d343f4d73f4d63f4cf3f4ce3f4c53f4c43f4b73f4b63f4ad3f4ac3f4a33f4a23f4993f4983f4913f4903f4893f4883f4253f4243f4193f4183f4113f4103f3073f3063f2fd3f2fc3ee4d3ee4c3ee313ee303eda3)
  (.lf
  0x170291702816fef16fee16fb716fb616f8116f8016f4716f4616f0f16f0e16ed516ed416e9d16e9c16e6316e6216e2316e2216de316de20e93d0e93c0e9330e9320e9290e9280e91f0e91e0e9150e9140e90b0e90a0e9010e9000e8f70e8f60e8ed0e8ec0e8e30e8e20e8d90e8d80e8cf0e8ce0e8c50e8c40e8bb0e8ba0e8b10e8b00e8a70e8a60e89d0e89c0e8930e8920e8890e8880e87f0e87e0e8750e874))
  (.nd (.lf
  0x2038c203832038220379203782036f2036e20367203662035b2035a203512035020349203482033f2033e20335203342032d2032c203232032220319203182030f2030e2030520304202fb202fa202f1202f0201db201da201d1201d0201c9201c8201bf201be201b5201b4211bb211ba211b1211b0211a1211a021199211982118d2118c2118121180211732117221169211682115d2115c211492114821141)
  (.lf 0))) (.nd (.nd (.lf
  0x40327403264031f4031e402f9402f8402f1402f03e2693e2683e25f3e25e3e0df3e0de3e0d53e0d43e0cb3e0ca3e0c13e0c03e0b73e0b63e0ab3e0aa3e0a33e0a23e0993e0983e07f3e07e3e0773e0763e06d3e06c3e0633e0623e05b3e05a3e00f3e00e3e0033e0023dffb3dffa3d6cd3d6cc3d6a93d6a83d68f3d68e3d6853d6843d67b3d67a3d5c73d5c63d5913d5903d41f3d41e3d4173d4163d40f3d40e)
  (.lf
  0x362da37254381323896838f083956c39bce3a15a3a61e0f8c40cf5a1194c0d7ea136b80e07a152da0f8e816d9217d3a18cee19c7e1ac601bc181cbd61ea9c1dd5e20a0c1e21a2268e1e6d62430c254b826642277d42897e29b142ac922be342d14e2e15a2f2f030488315e8327923394834ac635c4436dec37e583855438c323929a3998639e843a3b43a8f23ac5c0f8c50cf5b1194d0d7eb136b90e07b152db))
  (.nd (.lf
  0x4245042440420104200041bf041be0417b0417a0413904138040f5040f4040af040ae0406d0406c040290402803fe303fe203fa103fa003f6103f6003f2103f2003ee103ee003e9d03e9c03e5b03e5a03e1b03e1a03dd703dd603d9503d9403d5103d5003d0b03d0a03cc903cc800ddb00dda00dc500dc400daf00dae00d9900d9800d8300d8200d6d00d6c00d5700d5600d4100d4000d2b00d2a00d1500d14)
  (.lf 0)))

def shaAndReads51 : BTree :=
  .nd (.nd (.nd (.lf
  0x1d2fc1d2cf1d2ce1d2831d2821d2791d2781d22d1d22c1d2091d2081d19f1d19e1d0a11d0a01d0971d0961d08d1d08c1d0831d0821d0471d0461cf0b1cf0a1f58d1f58c1f5811f5801f5791f5781f56f1f56e1f5651f5641f55b1f55a1f5511f5501f5451f5441f53d1f53c1f5331f5321f5291f5281f51d1f51c1f5131f5121f5091f5081f4ff1f4fe1f4f71f4f61f4ed1f4ec1f4e31f4e21f4d91f4d81f4cf)
  (.lf
  0x344713440b343d13439b34371343453432d342453420d341b53416d3414333d7f33d0733ce133b9733b5b33b2d33b0b33a6133a13339e5356e635700356b6356603560a355d4355aa355843555435534354cc354a83547c354643543c354223540a354e2353d4353c23539a353aa353563526835274350c434fe234ff634f9434f4a34b1234aba356e735701356b7356613560b355d5355ab355853555535535))
  (.nd (.lf
  0x11d0511d0411cc111cc011c7911c7811c2f11c2e11be511be411b9f11b9e11b5911b5811b1111b1011ac511ac411a7911a7811a2d11a2c119dd119dc1198311982121a91216512121120dd120dc12093120921204b1204a120031200211fbb11fba11f7311f7211f2b11ee711ea311e5f11e1b11dd711dd611d8d11d8c11d4311cff11cbb11cba11c7111c7011c2711c2611bdd11b9911b9811b5111b5011b09)
  (.lf 0))) (.nd (.nd (.lf
  0x30133301292fec12fec02fea32fe9d2fdf52fded2fde52fddd2fddc2fdd12fdd02fdc32fdbd2fdbc2f9c72f9c12f9c02f9a12f9932f9922f9812f9152f9142f9032f8f92f8ef2f8e92f8cf2f8bb2f8112f8102f7ea2f1912f1902f1872f1862f17f2f17e2f1752f1742f1652f1642f15b2f15a2f1512f1502f1472f1462f13f2f13e2f1332f1322f12b2f12a2f11f2f11e2f1172f1162f10f2f10e2f1072f106)
  (.lf 0)) (.nd (.lf
  0x2e2892e2882e2752e2742e2632e2622d9732d9722d9692d9682d95d2d95c2d9552d9542d9492d9482d93d2d93c2d9352d9342d9292d9282d91f2d91e2d9172d9162d90b2d90a2d9032d9022d8fb2d8fa2d8f12d8f02d8e72d8e62d8db2d8da2d8d32d8d22d8c92d8c82d8bf2d8be2d8b52d8b42d8ab2d8aa2d8a12d8a02d8972d8962d88d2d88c2d8832d8822d8792d8782d86f2d86e2d8652d8642d85b2d85a)
  (.lf 0)))

def shaAndReads52 : BTree :=
  .nd (.nd (.nd (.lf
  0x13377133791337b1337d1337f13381133831338513387133891338b1338d1338f133911339313395133971339912c59144f3144f5144f7144f9144fb144fd144ff14501145031450514507145091450b1450d1450f14511144511443f1442f1441f1440f143ff143ef143df143cf143bf143af1439f1438f1437d1436d16d971433914f7d14f7f14f8114f8314f8514f8714f8914f8b14f8d14f8f14f9114f93)
  (.lf
  0x1bcdd1bcdc1bcc71bcc61bcb11bcb01bc9b1bc9a1bc831bc821bc6b1bc6a1bc531bc521bc3d1bc3c1bc271bc261cee91cee81ced31ced21cebb1ceba1cea31cea21ce8b1ce8a1ce731ce721ce5b1ce5a1ce431ce421ce2b1ce2a1ce131ce121cdfb1cdfa1cde31cde21cdcb1cdca1cdb31cdb21cd9b1cd9a1cd831cd821cd6b1cd6a1cd531cd521cd3b1cd3a1cd231cd221cd0b1cd0a1ccf31ccf21ccdb1ccda))
  (.nd (.lf
  0x2369d2369c23685236732366123660236452364423631236302361723607235ef235ee235db235da235c1235a9235a82358d235512355023ca923ca823c9d23c9c23c9123c9023c8523c8423c7923c7823c6d23c6c23c6123c6023c5523c5423c0523c0423bf923bf823bed23bec23be123be023bd923bd823ba123ba023b9923b9823b3323b3223b2b23b2a23b2123b2023b1923b1823ae723ae623ad123ad0)
  (.lf 0))) (.nd (.nd (.lf
  0x4db804d7904d7804d3904d3804cfb04cfa04cb304cb204c7304c7204c3304c3204bf504bf404bad04bac04b6d04b6c04b2d04b2c04aef04aee04aa904aa804a6304a6204a1d04a1c049d7049d60498f0498e0494f0494e0490f0490e0509f0509e0505705056050190501804fd304fd204f8b04f8a04f4b04f4a04f0d04f0c04ec704ec604e8104e8004e3b04e3a04df504df404dad04dac04d6d04d6c04d2d)
  (.lf
  0x3851038530385503857038590385b0385d0385f03861038630386503867038690386b0386d0386f03871038730387503877038790387b044ac044ae044b0044b2044b4044b6044b8044ba044bc044be044c0044c2044c4044c6044c8044ca044cc044ce044d0044d2044d4044d6044d8044da044dc044de044e0044e2044e4044e6044e8044ea044ad044af044b1044b3044b5044b7044b9044bb044bd044bf))
  (.nd (.lf
  0x6735066f5066f4066af066ae066690666806623065e3065a306563065620651d064dd064dc064970649606451064500640b0640a063c506385063840633f0633e062f9062b9062b80627306233062320601f0601e06015060140600b0600a060010600005ff705ff605fed05fec05fe305fe205fd905fd805fcf05fce05fc505fc405fbb05fba05fb105fb005fa705fa605f9d05f9c05f9305f9205f8905f88)
  (.lf 0)))

def shaAndReads53 : BTree :=
  .nd (.nd (.nd (.lf
  0x26bd026b8726b8626b5d26b5c26b4126b4026afd26afc26ad326ad226a9726a9626a3b26a3a26a3126a3026a2726a26269892698827327273262731d2731c27313273122730927308272ff272fe272f5272f4272eb272ea272e1272e0272d7272d6272cd272cc272c3272c2272b9272b827293272922728b2728a272732727227257272562724d2724c27243272422721d2721c2721327212271ef271ee271d7)
  (.lf
  0x9e2209e2409e2609e2809e2a09e2c09e2e09e3009e3209e3409e3609e3809e3a09e3c09e3e09e4009e4209e4409e4609e4809e4a09e4c0a5d40a5d60a5d80a5da0a5dc0a5de0a5e00a5e20a5e40a5e60a5e80a5ea0a5ec0a5ee0a5f00a5f20a5f40a5f60a5f80a5fa0a5fc0a5fe0a6000a6020a6040a6060a6080a60a0a60c0a60e0a6100a6120b4180b41a0b41c0b41e0b4200b4220b4240b4260b4280b42a))
  (.nd (.lf
  0x151231512215119151181510f1510e1510515104159ab159aa15971159701593915938158ff158fe158c3158c215887158861584f1584e1581915818157df157de157a5157a415769157681572b1572a156f1156f0156b9156b8156811568015649156481560d1560c155d3155d215597155961555d1555c1552315522154eb154ea154b5154b41547b1547a1543f1543e1540315402153cb153ca1538f1538e)
  (.lf 0))) (.nd (.nd (.lf
  0x33f3e33f3333f3233f2b33f2a33f2333f2233f1933f1833d4d33d4c33d4533d4433ac133ac033ab533ab433aab33aaa33a9f33a9e33a9533a9433a8b33a8a33a4133a4033a3933a38347d5347d43476b3476a34679346783456f3456e3456134560345593455834551345503430534304342af342ae342a5342a434299342983428d3428c34283342823427934278342713427034267342663425f3425e3421f)
  (.lf 0)) (.nd (.lf
  0x34ae534ae434e7534e7434e5534e5434daf34dae34da534da434d9334d9234d8734d8634d7b34d7a34d6f34d6e34d6334d6234d5734d5634d4b34d4a34d4334d4234d3934d3834d2f34d2e34d2534d2434d1334d1234d0934d0834d0134d0034cf934cf834ce934ce834ce134ce034c3534c3434c2934c2834c2134c2034c1334c1234c0934c0834b7734b7634b6f34b6e34aef34aee34adb34ada3411134110)
  (.lf 0)))

def shaAndReads54 : BTree :=
  .nd (.nd (.nd (.lf
  0x3bf8c3bc253bc243bb473bb463bac73bac63b9fd3b9fc3b96b3b96a3b89f3b89e3c3613c3603c3473c3463c3333c3323c3193c3183c2f13c2f03c2c53c2c43c2a93c2a83c2933c2923c26b3c26a3c2053c2043c1ef3c1ee3c1a93c1a83c19b3c19a3c1813c1803c1713c1703c15f3c15e3c14d3c14c3c1453c1443c0953c0943c0573c0563bfcd3bfcc3bfb93bfb83bf993bf983bf913bf903bc193bc183bb87)
  (.lf
  0xd67f0d67e0d6750d6740d66b0d66a0d6610d6600d6570d6560d64d0d64c0d6430d6420d6390d6380d62f0d62e0d6250d6240d61b0d61a0d6110d6100d6070d606121c9121c81218b1218a12147121461210312102120bb120ba1207112070120291202811fe111fe011f9911f9811f5111f5011f0d11f0c11ec911ec811e8511e8411e4111e4011dfd11dfc11db511db411d6b11d6a11d2511d2411ce111ce0))
  (.nd (.lf
  0x1c42b1c42a1c4211c4201c4171c4161c40f1c40e1c4031c4021c3fb1c3fa1c3ef1c3ee1c3e71c3e61c39f1c39e1c3971c3961c3851c3841c37b1c37a1c2ed1c2ec1c2e51c2e41c2dd1c2dc1c2af1c2ae1c26d1c26c1c2551c2541c1d71c1d61c1931c1921c14f1c14e1c1071c1061c0c11c0c01c0791c0781c0331c0321bfef1bfee1bfad1bfac1bf9b1bf9a1bf1f1bf1e1c8171c8161c7d91c7991c7981c759)
  (.lf 0))) (.nd (.nd (.lf
  0x3d46d3d46c3d4613d4603d4593d4583d44d3d44c3d4413d4403d4313d4303d3733d3723d35d3d35c3d3113d3103d3073d3063d2fd3d2fc3d2f33d2f23d2eb3d2ea3d2df3d2de3d2353d2343d1913d1903d7313d7293d7213d71b3d7133d7123d7073d6ff3d6f73d6f63d6eb3d6ea3d6dd3d6d73d64d3d64c3d6433d63b3d6333d62d3d6253d6243d61b3d61a3d6113d6103d6013d6003d5eb3d5e33d5dd3d5af)
  (.lf
  0x157ce1571a156e2156aa15672155fc1558615512154dc153f21537f152f1152ea163e416384162be162a216242162261620a161cc161b01619416134160d416491164681744c174141736017328172f0172ba172841711e170e8170761700216fca16f9416f2216eb016e3616df6174bf16da2184bc1844a183d8183a01836018320182e018214181d41819418082180421800217f3617ef617e2a17d6218530))
  (.nd (.lf
  0xaa900aa800a8d00a8c00a7100a7000a5100a5000a3300a3200a1300a12009f5009f4009d9009d8009bd009bc0099d0099c0097f0097e0095f0095e009410094000925009240090900908008e9008e8008cb008ca008ab008aa00889008880086700866008450084400823008220080500804007e9007e8007c9007c8007b1007b00079b0079a0044b0044a004410044000437004360042d0042c0042300422)
  (.lf 0)))

def shaAndReads55 : BTree :=
  .nd (.nd (.nd (.lf
  0x15b0415afb15afa15af115af015ae715ae615add15adc15aa515aa415a9b15a9a15a9115a9015a8715a8615a4915a4815a3715a3615a0915a08159ff159fe159f5159f4153191531815fe115fe015fb315fb215fa715fa615f9f15f9e15f9515f9415f8b15f8a15f8115f8015f2115f2015f1915f1815f0f15f0e15f0515f0415efb15efa15ef115ef015ee715ee615edd15edc15ed315ed215ec915ec815ebf)
  (.lf
  0x2312523127231292312b2312d2312f23131231332313523137231392313b2325722cdb22c65239f522c2522bc322ae5229fb229c92298d23dd223dd423da823d4623d4823d4a23d4c23d0023ce023c3823c3a23c3c23c3e23bce23bb623b8423b5423b5623b6823b0c23af023ad423aaa23a8c23a8e23a9023a4823a2e23532234f8234de2333c23dd323dd523da923d4723d4923d4b23d4d23d0123ce123c39))
  (.nd (.lf
  0xb34a0b3410b3400b3370b3360b32d0b32c0b3230b3220b3190b3180b30f0b30e0b3050b3040b2fb0b2fa0b2f10b2f00c44f0c44e0c42f0c42e0c4110c4100c3f50c3f40c3d90c3d80c3bd0c3bc0c3a10c3a00c37f0c37e0c35b0c35a0c33b0c33a0c31d0c31c0c2fb0c2fa0c2d70c2d60c2b90c2b80c2990c2980c2770c2760c2550c2540c2330c2320c2110c2100c1ef0c1ee0c1d10c1d00c1b50c1b40c199)
  (.lf 0))) (.nd (.nd (.lf
  0x2a8362a8292a8282bb972bb962bb8b2bb8a2bb7f2bb7e2bb772bb762bb6f2bb6e2bb632bb622bb5b2bb5a2bb512bb502bb452bb442bb3b2bb3a2bb312bb302bb252bb242bb1d2bb1c2bb132bb122bb072bb062baff2bafe2baf52baf42baeb2baea2bae32bae22bad92bad82bacd2bacc2bac52bac42bab92bab82bab12bab02baa72baa62ba9b2ba9a2ba912ba902ba872ba862ba7d2ba7c2ba732ba722c575)
  (.lf 0)) (.nd (.lf
  0x27619276182760f2760e2760527604275fb275fa275f1275f028c1328c1228bff28bfe28be928be828bd328bd228bbd28bbc28ba728ba628b9128b9028b7b28b7a28b6528b6428b4f28b4e28b3928b3828b2328b2228b0d28b0c28af728af628ae128ae028acb28aca28ab528ab428a9f28a9e28a8928a8828a7328a7228a5d28a5c28a4728a4628a3128a3028a1b28a1a28a0528a04289ef289ee289d9289d8)
  (.lf 0)))

def shaAndReads56 : BTree :=
  .nd (.nd (.nd (.lf
  0x21c4b21bf921bd721b6f21b2321ae121aa921aab21a0b219bb21971219392193b216d32162f21631257a72163322fed22fef22fc922fa322fa522fa722fa922fab22fad22faf22f5922ffd22e3b22e0b22e0d22e0f22e1122e1322d5b22d3722d1122ce522ce722ce922c6d22c2b22c2d22bcf22aeb22a0522a07268e7229972404f24051240532405523fdb23fdd2410923fdf23fe123fe323fe523fe723fe9)
  (.lf
  0x1df5d1df5c1df471df461df311df301df1b1df1a1df051df041deef1deee1ded71ded61dec11dec01deab1deaa1de951de941de7f1de7e1de691de681de511de501de391de381de211de201de0b1de0a1ddf51ddf41dddf1ddde1ddc91ddc81ddb31ddb21dd9d1dd9c1dd871dd861dd6f1dd6e2094b2094a209412094020937209362092d2092c209232092220919209182090f2090e2090520904208fb208fa))
  (.nd (.lf
  0x25c8025c6525c6425bbd25bbc25b9525b9425b6b25b6a25b3f25b3e25acf25ace25aab25aaa25a6125a6025a2725a26259ef259ee259b3259b225979259782590125900258bf258be25887258862584d2584c2581125810260bd260b525f3725f2f25f2525f1f25eab25eaa25e1b25e1a25dbb25dba25d5d25cf925cf125c9925c3125c3025ba325b8325b8225b4925b4825b2325af525a8525a8425a31259fd)
  (.lf 0))) (.nd (.nd (.lf
  0x7b1e07adf07ade07a9f07a9e0820f0820e081cf081ce081910819008149081480810908108080cb080ca0808308082080450804407ffd07ffc07fbd07fbc07f7d07f7c07f3d07f3c07efd07efc07ebf07ebe07e7907e7807e3107e3007df307df207dab07daa07d6d07d6c07d2707d2607cdf07cde07ca107ca007c5b07c5a07c1307c1207bd307bd207b9307b9207b5307b5207b1307b1207ad307ad207a93)
  (.lf
  0x9b7309b7509b7709b7909b7b09b7d09b7f09b8109b8309b8509b8709b8909b8b09b8d09b8f09b9109b9309b9509b9709b9909b9b09b9d0a8e20a8b60a88a0a85e0a8320a8060a7da0a7ae0a7820a7600a7440a72e0a71a0a7040a6f00a6dc0a6c80a6b40a6a00a5cc0a5b80a5a60a5940a5820a5700a55e0a54c0a53a0a5280a5160a5040a4bc0a8e30a8b70a88b0a85f0a8330a8070a7db0a7af0a7830a761))
  (.nd (.lf
  0x7f6507f6407f2507f2407ee507ee407ea107ea007e5b07e5a07e1907e1807dd507dd407d9307d9207d4f07d4e07d0907d0807cc707cc607c8307c8207c3d07c3c07bfb07bfa07bbb07bba07b7b07b7a07b3b07b3a07afb07afa07abb07aba0822b081f1081b1081b00816b0812b080eb080ea080a508065080640801f07fdf07f9f07f5f07f1f07edf07ede07e9907e9807e5307e1307e1207dcd07d8d07d8c)
  (.lf 0)))

def shaAndReads57 : BTree :=
  .nd (.nd (.nd (.lf
  0x2b6d22b69d2b69c2b64f2b64e2b5a12b5a02b5972b5962b58d2b58c2b5832b5822b5332b5322b5032b5022b4552b4542b44b2b44a2b4412b4402b4372b4362b42d2b42c2b4232b4222b3d52b3d42b3932b3922b2cf2b2ce2b2b52b2b42b2ab2b2aa2b2612b2602b19b2b19a2b17f2b17e2afe72afe62afab2afaa2cc612cc602cc412cc402cc392cc382cbd52cbd42cbcd2cbcc2cbbb2cbba2cbb32cbb22cb73)
  (.lf
  0x1a7d81a7da1a7dc1a7681a76a1a76c1a76e1a7701a7721a7281a6ee1a6f01a6f21a6f41a6f61a6f81a7141a6881a68a1a68c1a68e1a6901b5cc1b5b21b5b41b5821b5841b5861b5881b58a1b54a1b5221b5241b5261b5281b52a1b4ee1b4d81b4d01b4b61b4b81b4ba1b4bc1b47a1b44c1b44e1b4501b4521b4541b4561b4081b3ee1b3c41b3c61c8261c8081c7d41c7881c7221c6fa1c68e1c6701c6001c5e2))
  (.nd (.lf
  0x15d1015d0715d0616cdf16cde16cd516cd416ccb16cca16cc116cc016cb716cb616cad16cac16ca316ca216c9916c9816c8f16c8e16c8516c8416c7b16c7a16c7116c7016c6716c6616c5d16c5c16c5316c5216c4916c4816c3f16c3e16c3516c3416c2b16c2a16c2116c2016c1716c1616c0d16c0c16c0316c0216bf916bf816bef16bee16be516be416bdb16bda16bd116bd016bc716bc616bbd16bbc17459)
  (.lf 0))) (.nd (.nd (.lf
  0x35ac835abf35abe35ab535ab435aab35aaa35aa135aa035a9935a9835a8d35a8c35a8135a8035a7935a7835a7135a7035a6735a6635a5d35a5c36b0736b06369913699036985369843692336922368af368ae368a7368a6367a5367a436789367883676b3676a361dd361dc361d1361d0361c3361c2361b9361b83616b3616a3614f3614e36137361363611b3611a3610936108360fb360fa360db360da360bf)
  (.lf 0)) (.nd (.lf
  0x38075380743806d3806c380573805637f5d37f5c37f5137f5037f4537f4437f3937f3837f3137f3037f1d37f1c37f1137f1037efd37efc37ef137ef037ee337ee237eb737eb637e9b37e9a382993829838285382843825f3825e381c5381c4381bd381bc381b5381b4381a9381a8381993819838191381903818138180380ed380ec380d7380d6380bf380be380a9380a83808f3808e3807d3807c3806138060)
  (.lf 0)))

def shaAndReads58 : BTree :=
  .nd (.nd (.nd (.lf
  0x3f79a3f7933f7923f7793f7783f4593f4583f4493f4483f4413f4403f3fb3f3fa3f3c73f3c63f3bf3f3be3f3b73f3b63f3a53f3a43f1c33f1c23f1693f1683f1493f1483f1373f1363f0e73f0e63eeab3eeaa3ee933ee923ed9d3ed9c3ea873ea863ea0d3ea0c409a5409a44098340982409694096840953409524093f4093e40933409324091b4091a408fd408fc408d7408d6408b1408b04088f4088e4086d)
  (.lf
  0xe2cf0e2ce0e2b90e2b80e2a30e2a20e28d0e28c0e2770e2760e2610e2600e24b0e24a0e2350e2340e21f0e21e0e2090e2080e1f30e1f20e1dd0e1dc0e1c70e1c60e1b10e1b00e19b0e19a0e1850e1840e16f0e16e0e1590e1580e1430e1420e12d0e12c0e1170e1160e1010e1000e0eb0e0ea0e0d50e0d40e0bf0e0be0e0a90e0a80e0930e0920e3070e3060e2f10e2f00e2db0e2da0e2c50e2c40e2af0e2ae))
  (.nd (.lf
  0x1f01c1f0111f0101f0051f0041eff91eff81efed1efec1efe11efe01efcf1efce1efc31efc21efbb1efba1efaf1efae1efa11efa01ef991ef981ef8d1ef8c1ef811ef801ef751ef741ef671ef661ef5b1ef5a1ef511ef501ef451ef441ef391ef381ef2d1ef2c1ef211ef201ef151ef141ef0b1ef0a1ef011ef001eeed1eeec1f1811f1801f1791f1781f16f1f16e1f1631f1621f1591f1581f1511f1501f145)
  (.lf 0))) (.nd (.nd (.lf
  0x3bb5d3bb5c3bae93bae83ba0b3ba0a3b97d3b97c3b8bf3b8be3f0b93f0b83f0ab3f0aa3f0a13f0a03f06b3f06a3f0573f0563f04d3f04c3f0433f0423f0393f0383f02d3f02c3f0233f0223f0173f0163f00b3f00a3efff3effe3ef813ef803ef753ef743ef6b3ef6a3ef5f3ef5e3ef533ef523ef4b3ef4a3eef73eef63eeeb3eeea3eec73eec63ee893ee883ee7d3ee7c3ee753ee743ee6d3ee6c3edf33edf2)
  (.lf
  0x332da332523323a332343322633220331e4331c0330f4329bc32926328683283d3279f3279a347ce3463a3458e3444634436343e8343b434380342ee3425833d8e33d2633ba833b1833a04339de339dd3569c355183550e354f4354ec354d03544c353f8353f2353ea3538635380353663524e350ac34f8a34f5034f2b34ab634ab5369aa369563679e366e43661c3657e36570363e6363d03637a35fba35fa6))
  (.nd (.lf
  0x15dd015dc015d3015d2015c9015c8015bf015be015b5015b4015ab015aa015a1015a001597015960158d0158c015830158201579015780156f0156e01565015640155b0155a015510155001547015460153d0153c015330153201529015280151f0151e015150151402b5d02b5c02b2502b2402ae102ae002a9b02a9a02a5902a5802a1502a14029d3029d20298f0298e02949029480290302902028c1028c0)
  (.lf 0)))

def shaAndReads59 : BTree :=
  .nd (.nd (.nd (.lf
  0x194ac194a3194a219499194981948f1948e19485194841947b1947a192cb192ca1928d1928c1924f1924e1920f1920e191cf191ce1918f1918e1914d1914c1910b1910a190c7190c619085190841904519044190011900018fbf18fbe18f7f18f7e18f3918f3818ef518ef418eaf18eae18e6518e6418e1f18e1e18ddd18ddc18d9d18d9c18d6518d6418d2b18d2a1a51d1a51c1a5131a5121a5071a5061a4fd)
  (.lf
  0x2b5df2b5c52b5b12b5412b50f2b4d12b4db2b4f12b4a92b4992b4612b3bb2b39f2b3712b3552b3572b3592b28d2b2792aff32afbf2af932cc682cc822cc462cbe22cbe42cbc42cc1e2cb982cb782cb3e2cb402cb1e2cb0e2caf62cae42cad02caac2cab62ca8a2ca8c2ca622ca502ca6e2ca3e2ca1a2ca242ca082c9ec2c1c62c1902c1542c0e42cc692cc832cc472cbe32cbe52cbc52cc1f2cb992cb792cb3f))
  (.nd (.lf
  0xfc5d0fc010fba70fba60fb450fb440fae50fae40fa830fa290f9cd0f96b0ca0d0ca0c0ca030ca020c9f90c9f80c9ef0c9ee0c9e50c9e40c9db0c9da0c9d10c9d00c9c70c9c60c9bd0c9bc0c9b30c9b20c9a90c9a80c99f0c99e0c9950c9940c98b0c98a0c9810c9800c9770c9760c96d0c96c0c9630c9620c9590c9580c94f0c94e0c9450c9440c93b0c93a0c9310c9300c9270c9260c91d0c91c0c9130c912)
  (.lf 0))) (.nd (.nd (.lf
  0x2cd8f2cd8e2cd872cd862cd7d2cd7c2cd732cd722cd692cd682cd5d2cd5c2cd552cd542cd472cd462cd3f2cd3e2cd372cd362cd2d2cd2c2cd232cd222cd172cd162cd0f2cd0e2cd052cd042ccfb2ccfa2ccf12ccf02cce72cce62ccdd2ccdc2ccd32ccd22ccc92ccc82ccbf2ccbe2ccb32ccb22cca92cca82cc9f2cc9e2dd012dd002dcf92dcf82dcef2dcee2dce52dce42dcdb2dcda2dcd12dcd02dcc92dcc8)
  (.lf 0)) (.nd (.lf
  0x2ab632ab622ab592ab582ab4f2ab4e2ab452ab442ab3b2ab3a2ab312ab302ab272ab262ab1d2ab1c2ab132ab122ab092ab082aaff2aafe2aaf52aaf42aaeb2aaea2aae12aae02aad72aad62aacd2aacc2aac32aac22aab92aab82aaaf2aaae2c0c92c0c82c0b52c0b42c09f2c09e2c0892c0882c0732c0722c05d2c05c2c0472c0462c0312c0302c01b2c01a2c0052c0042bfef2bfee2bfd92bfd82bfc32bfc2)
  (.lf 0)))

def shaAndReads60 : BTree :=
  .nd (.nd (.nd (.lf
  0x3b2903b2b031290475d0475f04761047630476504767047690476b0476d0476f04771047730477504777047790477b0477d0477f04781047830478504787047890478b0478d0478f04791047930479504797047990479b03c81053cf053d1053d3053d5053d7053d9053db053dd053df053e1053e3053e5053e7053e9053eb053ed053ef053f1053f3053f5053f7053f9053fb053fd053ff054010540305405)
  (.lf
  0x1a2b51a2b41a2771a2761a2391a2381a1ff1a1fe1a1c31a1c21a1891a1881a14d1a14c1a1111a1101a0d91a0d81a0a11a0a01a0671a0661a02d1a02c19ff119ff019fb319fb219f7719f7619f3919f3819efb19efa19ebf19ebe19e8319e8219e4519e4419e0319e0219dbf19dbe19d7d19d7c19d3719d3619ceb19cea0eefb0eefa0eef10eef00eee70eee60eedd0eedc0eed30eed20eec90eec80eebf0eebe))
  (.nd (.lf
  0x217d8217cf217ce217c5217c4217bb217ba217b1217b0217a7217a62179d2179c217912179021789217882177f2177e217752177421677216762152b2152a21487214862146f2146e213fb213fa213bd213bc223f1223f0223e7223e6223dd223dc223d1223d0223c9223c8223bf223be223b5223b4223ab223aa223a1223a022397223962238d2238c223832238222377223762236d2236c22363223622235b)
  (.lf 0))) (.nd (.nd (.lf
  0x418f8418f1418f0418cf418ce4152341522411cf411ce01ebd01ebc01e7901e7801e3301e3201deb01dea01dab01daa01d6b01d6a01d2d01d2c01ce501ce401ca501ca401c6701c6601c2101c2001bd901bd801b9b01b9a01b5501b5401b0f01b0e01ac701ac601a8901a8801a4101a4001a0101a00019c1019c001983019820193b0193a018fb018fa018bd018bc01875018740183501834017f7017f6017af)
  (.lf
  0x13f8013fa013fc013fe01400014020140401406014080140a013cd013cf013d1013d3013d5013d7013d9013db013dd013df013e1013e3013e5013e7013e9013eb013ed013ef013f1013f3013f5013f7013f9013fb013fd013ff01401014030140501407014090140b00fec00fee00ff000ff200ff400ff600ff800ffa00ffc00ffe01000010020100401006010080100a0100c0100e01010010120101401016))
  (.nd (.lf
  0x46f3046f2046e9046e8046df046de046d5046d4046cb046ca046c1046c0046b7046b6046ad046ac046a3046a204699046980468f0468e04685046840467b0467a046710467004667046660465d0465c046530465204649046480463f0463e046350463405d1b05d1a05ce305ce205ca305ca205c5f05c5e05c1d05c1c05bdd05bdc05b9905b9805b5705b5605b1705b1605ad705ad605a9305a9205a4d05a4c)
  (.lf 0)))

def shaAndReads61 : BTree :=
  .nd (.nd (.nd (.lf
  0x230c0230b7230b6230ad230ac230a3230a223099230982308f2308e23085230842307b2307a230712307023067230662305d2305c230532305223049230482303f2303e23035230342302b2302a230212302023017230162300d2300c230052300422c4922c4822c0d22c0c22c0322c0222baf22bae22adb22ada229f5229f4229bd229bc22fe722fe622fc522fc422fa122fa022f9522f9422f8b22f8a22f81)
  (.lf
  0x3e61f3e64f3e5f93e6513e5d93e7cb3e5773e42d3e3613e31b3e2fd3e31d3e2c93e32f3e33b3e3213e1ef3e1f93e1f53e08d3dfa93dfaf3f64a3f6223f6083f5a43f58c3f5de3f6ea3f5543f5683f5323f5ec3f6723f39a3f37a3f36a3f3f43f3483f3363f3183f2f03f2de3f1aa3f17c3f10e3f0f03f4e03ee463ee423edae3eaa03ea163eace3f64b3f6233f6093f5a53f58d3f5df3f6eb3f5553f5693f533))
  (.nd (.lf
  0x138db138da1388f1388e1383f1383e137ed137ec1379f1379e1374f1374e136fd136fc13fef13fee13fa313fa213f5313f5213f0513f0413eb513eb413e6313e6213e1513e1413dc513dc413d7313d7213d2113d2013ccf13cce13c8113c8013c3113c3013be313be213b9713b9613b4713b4613af913af813aad13aac13a5d13a5c13a0f13a0e139bf139be1396d1396c1391f1391e138d3138d21388713886)
  (.lf 0))) (.nd (.nd (.lf
  0x31f5e31f5531f5431ed931ed831ecf31ece31e5d31e5c31a5331a5231a4731a4631a3931a3831a3131a3031a2531a2431a1b31a1a319973199631943319423192531924318fb318fa318f1318f03189b3189a3186331862317b3317b23168331682316473164632243322373222d3222c3206d3206c3205f3205e3205332052320453203b3200d320073200631fe331fe231fd731e8931e8831dd731dd631dcf)
  (.lf 0)) (.nd (.lf
  0x31a6531a6431a5b31a5a319e9319e8319d1319d0319b1319b0319613196031959319583194f3194e3192d3192c31915319143190331902318d3318d2318c1318c03184f3184e31845318443160731606315ef315ee3093f3093e309373093630929309283091f3091e30917309163090b3090a3090130900308f9308f8308ef308ee308e7308e6308db308da308d3308d2308cb308ca308bf308be308b7308b6)
  (.lf 0)))

def shaAndReads62 : BTree :=
  .nd (.nd (.nd (.lf
  0x355763554d3554c354d9354d8354b3354b23549d3549c354593545835447354463542b3542a35417354163540335402353e1353e0353cd353cc353b9353b8353933539235361353603525f3525e3525735256350b5350b434fd534fd434fbf34fbe34f8134f8034f3534f3434b1b34b1a359d5359d4359c3359c2359b3359b2359ab359aa3597135970359613596035959359583594335942359393593835931)
  (.lf
  0x3e93a3e9163e8f83e8e63e9003e8be3e8aa3e95a3e9603e8883e8763e85a3e8463e8283e7f03e8023e2223e2043e1e23e03e3dee83dea63fb2e3f99e3f8ec3f8b23f86a3f8883f7f43f7da3f7ba3f7a63fbbe3f7843f4683f4623f4803f4083f3da3f3ca3f3ee3f3aa3f2a23f1f63f1623f1403f1323f1903eea43ee563edb63ea943ea063ea56402c44027a402ac4022c402184023e401924015c4016e40174))
  (.nd (.lf
  0x1a3491a3481a30b1a30a1a2cd1a2cc1a28f1a28e1a2511a2501a2131a1db1a1da1a19d1a1651a1641a1291a1281a0ed1a0b51a07f1a07e1a0411a0091a00819fcb19fca19f8f19f8e19f5119f5019f1319f1219ed719ed619e9b19e9a19e5d19e5c19e1b19e1a19dd319d9119d4b19d0319d0219cb019917199161990d1990c1990319902198f9198f8198ef198ee198e5198e4198db198da198d1198d0198c7)
  (.lf 0))) (.nd (.nd (.lf
  0x3c0853c07f3c0753c05d3bf733bf693bf683bf5d3bf533bf523bf4b3bf4a3bb773bb763babd3b9ef3b9ee3b94e3bf453bf443bf393bf383bf313bf303bf273bf263bf1d3bf1c3bf133bf123bf073bf063befd3befc3bef33bef23beeb3beea3bee13bee03bed73bed63becb3beca3bec33bec23bda73bda63bd9d3bd9c3bd933bd923bd893bd883bd7f3bd7e3bbfd3bbfc3bbf33bbf23bbeb3bbea3bbab3bbaa)
  (.lf
  0x18cf619c861ac681befc1cbe01f0541f91020cc8215c02299c23328245cc257922692027a8628c8829dfe2af502c1262cfd22e1562f32a307643163c327a2339f634aaa35c6236de23b01e3b7f43c3cc3d13a3ded63e9bc3f7f8401aa410b400783016ff023650311703c6f048df05551061a706e2107a6f086c30932109f910aa990b59b0c09d0f8cd10af31195512897136c114615152e3160af16d9b17d43))
  (.nd (.lf
  0x39d1139d1039d0939d0839cfd39cfc39cf339cf239ce939ce839ce139ce039cd739cd639ccb39cca39cc339cc239cb939cb839caf39cae39ca539ca439c9b39c9a3a5673a5663a55b3a55a3a54f3a54e3a5453a5443a5393a5383a5273a5263a51f3a51e3a5133a5123a5093a5083a4f53a4f43a4ed3a4ec3a4e33a4e23a4db3a4da3a4cf3a4ce3a4c33a4c23a4b73a4b63a4ab3a4aa3a49f3a49e3a4933a492)
  (.lf 0)))

def shaAndReads63 : BTree :=
  .nd (.nd (.nd (.lf
  0x10f141258f1258e12585125841257b1257a12571125701256712566124611246012457124561244f1244e12445124441243b1243a124311243012427124261241d1241c12411124101240912408123ff123fe123f5123f4123df123de123d7123d612399123981238d1238c12385123841237b1237a12371123701236712366123551235411a8911a8811a4111a40119f5119f41199f1199e1234d1234c12343)
  (.lf
  0x1a5691a56b1a56d1a56f1a5711a5731a5751a5771a5791a57b1a57d1a57f1a5811a5831a5851a4031a4051a4071a4091a87b1a40b1a85f1b7ec1b7ee1b7f01b7f21b75e1b7361b7381b73a1b73c1b73e1b6ec1b6d21b69e1b6a01b6a21b6a41b6a61b65e1b6241b6261b6281b62a1b62c1b62e1b5d61b3de1b3921b3941b3961b3981b39a1b39c1b7ed1b7ef1b7f11b7f31b75f1b7371b7391b73b1b73d1b73f))
  (.nd (.lf
  0xac1a0abf70abf60abd70abd60abbb0abba0ab9f0ab9e0ab7f0ab7e0ab5d0ab5c0ab3b0ab3a0ab190ab180aaf70aaf60aad50aad40aab30aab20822308222081e7081e6081a9081a808161081600812108120080e3080e20809b0809a0805d0805c080150801407fd507fd407f9507f9407f5507f5407f1507f1407ed707ed607e9107e9007e4907e4807e0b07e0a07dc307dc207d8507d8407d3f07d3e07cf7)
  (.lf 0))) (.nd (.nd (.lf
  0x2979a297912979029783297822977929778297332973229729297282971d2971c2970f2970e2a1872a1862a17b2a17a2a16f2a16e2a1592a1582a0ff2a0fe2a0f32a0f22a0e72a0e62a0db2a0da2a0cf2a0ce2a0c72a0c62a0bb2a0ba2a0912a0902a0852a0842a0752a0742a05f2a05e2a0372a0362a02f2a02e29feb29fea29fdf29fde29fd329fd229fc729fc629fbf29fbe29f5d29f5c29f5529f5429f49)
  (.lf 0)) (.nd (.lf
  0x256892568825673256722565d2565c256472564625631256302561b2561a2560525604255ef255ee255d9255d8255c3255c2255ad255ac255972559625581255802556b2556a25555255542553f2553e25529255282551325512254fd254fc254e7254e6254d1254d025745257442572f2572e25719257182570325702256ed256ec256d7256d6256c1256c0256ab256aa25695256942567f2567e2566925668)
  (.lf 0)))

def shaAndReads64 : BTree :=
  .nd (.nd (.nd (.lf
  0x3e9c33e9993e98f3e9433e93b3e9173e8f93e8e73e9013e8bf3e8ab3e95b3e9613e8893e8773e85b3e8473e8293e7f13e8033e2233e2053e1e33e03f3dee93dea73de9b3279e339dc34ab435c523710e37e743b7fc3c3ea3d1483de9e3e9c83f810401b2410dc411c00311c40a280236a3f81a017043eac200b0c006c1006c3006c5006c7006c9006cb006cd006cf006d1006d3006d5006d7006d9006db006dd)
  (.lf
  0x24563245622454d2454c245372453624521245202450b2450a244f5244f4244df244de244c9244c8244b3244b22449d2449c244872448624471244702445b2445a24445244442442f2442e24419244182440324402243ed243ec243d7243d6243c1243c0243ab243aa24395243942437f2437e243672436624351243502433b2433a24325243242459b2459a24585245842456f2456e24559245582454324542))
  (.nd (.lf
  0x29075290742906d2906c29055290542904d2904c29035290342901f2901e28ff128ff028fe528fe428fc728fc628fbf28fbe28f9f28f9e28f9728f9628f4128f4028f3528f3428f2528f2428f1d28f1c28f1328f1228efb28efa28ed128ed028e8728e8628d3128d3028ccd28ccc28cc328cc22911b2911529114290f9290f3290f2290eb290e5290992908f290812905b29043290422902d2902c2901129009)
  (.lf 0))) (.nd (.nd (.lf
  0x106841067b1067a106711067010655106541064d1064c1063b1063a1062910628105e9105e8105d9105d8105c9105c8105b9105b8105a9105a81059910598105891058810579105781056910568104d5104d4104cb104ca104c1104c0104b7104b6104ad104ac104a3104a210499104981048f1048e10485104841047b1047a104711047010467104661045d1045c104531045210449104481043f1043e10435)
  (.lf
  0x17813178151798b177c11779b1779d1779f177a117939175931757d1755517557175591755b1755d1755f174b51749517497174991749b188e8188ea188fc188b418934188801885418828187fc187da187be187a818794187801876c1875818744187301871a18706186f2186e0186ce185fc185ea185d8185c6185b4185a2185901857e18536188e9188eb188fd188b518935188811885518829187fd187db))
  (.nd (.lf
  0xa3950a3940a3690a3680a3430a3420a3170a3160a2f10a2f00a2c50a2c40a29b0a29a0a26d0a26c0a2430a2420a2150a2140a1ef0a1ee0a1c70a1c60a19f0a19e0a1750a1740a14d0a14c0a11f0a11e0a0f50a0f40a0cb0a0ca0a0a30a0a20a0790a0780a0510a0500a0230a02209ff909ff809fcf09fce09faf09fae0a45f0a45e0a4390a4380a40d0a40c0a3df0a3b70a38f0a38e0a3610a33d0a33c0a30f)
  (.lf 0)))

def shaAndReads65 : BTree :=
  .nd (.nd (.nd (.lf
  0x334743346d3346c3343f3343e3343733436333eb333ea333db333da333bf333be333b3333b23331933318333113331033303333023326d3326c3321733216331df331de331bb331ba33131331303311d3311c330ff330fe32ff732ff632fd932fd832fc532fc432fb532fb432fa132fa032f3932f383293132930328a3328a23289932898328893288832879328783477d3477c346cb346ca3464f3464e34603)
  (.lf
  0x366b0367143664a36608365dc365ca36576364283641a3640c363fa3638a3675c3605036030360323603e360123600035e6035e0e35c6a37c5837c0637c7237bde37bc237c2237b8437b8c37b5437b6437b2e37b2437b0a37ad437abc37ab237ac637a7a37a7c37a7e37a56377c0377b0377cc3778a377963777637184371623714437118370fa3bbca3bb0e3ba523b9a83b8f43b86a3b7dc3b75a3b72e3b6a8))
  (.nd (.lf
  0x189501889b1889a1886f1886e1884318842188171881619bcb19bca19bc119bc019bb719bb619bad19bac19ba319ba219b9919b9819b8f19b8e19b8519b8419b7b19b7a19b7119b7019b6719b6619b5d19b5c19b5319b5219b4919b4819b3f19b3e19b3519b3419b2b19b2a19b2119b2019b1719b1619b0d19b0c19b0319b0219af919af819aef19aee19ae519ae419adb19ada19ad119ad019ac719ac619abd)
  (.lf 0))) (.nd (.nd (.lf
  0x3bd053bd043bcf93bcf83bced3bcec3bce13bce03bcd53bcd43bccb3bcca3bcbf3bcbe3bcb33bcb23bca93bca83bc9d3bc9c3bc913bc903bc853bc843bc793bc783bc6d3bc6c3bc613bc603bc553bc543bc493bc483bc3d3bc3c3bb7f3bb7e3ba993ba983ba033ba023b92b3b92a3b87b3b87a38ab338ab238aa938aa838a9d38a9c38a9538a9438a8d38a8c38a8338a8238a7738a7638a6f38a6e38a6138a60)
  (.lf 0x77e016fa0236002fe403c6a048da0554c061a206e1c07a6a086be0931c09f8c0aa940b5960c0980cb9010aee1176c12892134d814610150fa160aa16bb217b5a)) (.nd (.lf
  0x39727397263971d3971c39713397123970b3970a396ff396fe396f5396f4396eb396ea396e3396e2396d9396d8396cf396ce396c5396c4396bb396ba396af396ae396a7396a63969b3969a3969139690395bb395ba3959d3959c39585395843a0973a0963a0713a07039fdf39fde39fd739fd639fc739fc639fbf39fbe39fb339fb239fa339fa239f9739f9639f8b39f8a39f8339f8239f7739f7639f6b39f6a)
  (.lf 0)))

def shaAndReads66 : BTree :=
  .nd (.nd (.nd (.lf
  0xf7d00f7c70f7c60f7bd0f7bc0f7b30f7b20f7a90f7a80f79f0f79e0f7950f7940f78b0f78a0f7810f7800f7770f7760f76d0f76c0f7630f7620f7590f7580f74f0f74e0f7450f7440f73b0f73a0f7310f7300f7270f7260f71d0f71c0f7130f7120f7090f7080f6ff0f6fe0f6f50f6f40f6eb0f6ea0f6e10f6e003c74048e405554061ac06e2407a74086c60932609f940ae640b9860c0a40f8d810ebe00e2d)
  (.lf
  0x17d8717d861945f1945e1942f1942e193f5193f4193b9193b819381193801934b1934a1931519314192dd192dc192a1192a019261192601922119220191e1191e0191a1191a019161191601911f1911e190d9190d819097190961905719056190131901218fd118fd018f9118f9018f4d18f4c18f0718f0618ec118ec018e7b18e7a18e3518e3418df318df218db318db218d7718d7618d3d18d3c0ed110ed10))
  (.nd (.lf
  0x215ac1e6231e6221e6191e6181e60f1e60e1e6051e6041e5fb1e5fa1e5f11e5f01e5e71e5e61e5dd1e5dc1e5d31e5d21e5c91e5c81e5bf1e5be1e5b51e5b41e5ab1e5aa1e5a11e5a01e5971e5961e58d1e58c1e5811e5801e5791e5781e56f1e56e1e5651e5641e55b1e55a1e54f1e54e1e5471e5461e53d1e53c1e5331e5321e5291e5281e51f1e51e1e5131e5121e50b1e50a1e4dd1e4dc220e1220e022053)
  (.lf 0))) (.nd (.nd (.lf
  0x3ebc93ebc83ebc13ebc03ebb73ebb63ebad3ebac3eba13eba03eb973eb963eb8b3eb8a3eb813eb803eb793eb783eb713eb703e84d3e84c3e82d3e82c3e8153e8143e80b3e80a3e22b3e22a3e20d3e20c3e1db3e1da3e0913e0903dfbd3dfbc41a2b41a2a41a1f41a1e41a1741a1641a0d41a0c41a0541a04419fb419fa419ed419ec419df419de419d5419d4419cd419cc419c5419c4419b9419b8419af419ae)
  (.lf
  0x37e5e3a61f3859438c3a392a2399aa3b8083c3e43d1363de9a01ef201ef401ef601ef801efa01efc01efe01f0001f0201f0401f0601f0801f0a01f0c01f0e01f1001f1201f1401f1601f1801f1a01f1c01f1e01f2001f2201f2401f2601f2801f2a01f2c01f2e01f3000e2c00e2e00e3000e3200e3400e3600e3800e3a00e3c00e3e00e4000e4200e4400e4600e4800e4a00e4c00e4e00e5000e5200e5400e56))
  (.nd (.lf
  0x49fd049fc049b7049b60497504974049350493401ec701ec601e8501e8401e3f01e3e01df701df601db701db601d7701d7601d3901d3801cf101cf001cb101cb001c7301c7201c2d01c2c01be501be401ba701ba601b6101b6001b1b01b1a01ad301ad201a9501a9401a4d01a4c01a0d01a0c019cd019cc0198f0198e01947019460190701906018c9018c8018810188001841018400180301802017bb017ba)
  (.lf 0)))

def shaAndReads67 : BTree :=
  .nd (.nd (.nd (.lf
  0x20d9620d5720d5620ce720ce62170d2170c216fb216fa21655216542150b2150a21437214362140f2140e21401214002135121350213412134021331213302131d2131c212e9212e821299212982121b2121a211f7211f6210e7210e6210ab210aa210a1210a02103b2103a210292102820fb920fb820f5720f5620f4720f4620f3720f3620ea720ea620e9720e9620e2d20e2c20e1d20e1c20d5f20d5e20d39)
  (.lf
  0x3ca293ca573ca033c9ef3c9d53c9db3c9b53c99d3c9893c9853c0cd3c0113bff53bfe73bfd73bd6b3bb6d3bae33b9e73b9673b8993b8033d0183cff23cf9c3cfac3cfb63cfde3cf343cf503cf243cec43cee43cea83ce943ce803ce683ce583ce443ce323ce203ce0c3cd523cd383cd423cc963cc4c3cc403cc1e3cb883cb203cace3ca8e3ca4e3d0193cff33cf9d3cfad3cfb73cfdf3cf353cf513cf253cec5))
  (.nd (.lf
  0x12af912add12ac112ac012a9f12a9e12a7d12a6112a4512a4412a2312a0712a06129e5129c9129ad129911297512974129531295212931129301290f128f3128d61270f1270e1270512704126fb126fa126f1126f0126e7126e6126dd126dc126d3126d2126c9126c8126bf126be126b5126b4126ab126aa126a1126a012697126961268d1268c126831268212679126781266f1266e12665126641265b1265a)
  (.lf 0))) (.nd (.nd (.lf
  0x303783036f3036e30365303643035b3035a303513035030347303463033d3033c303333033230329303283031f3031e303173031630309303083030130300302f7302f6302ef302ee302e3302e2302db302da302d1302d0302c7302c63029f3029e301233012230119301183010f3010e3010330102300fb300fa2ff7f2ff7e2ff2f2ff2e31467314663145d3145c314513145031445314443143d3143c31433)
  (.lf 0)) (.nd (.lf
  0x3068d3068c3066f3066e3065d3065c3064d3064c30621306203060f3060e3060530604305f9305f8305ef305ee305e1305e0305d5305d4305cb305ca305c1305c0305b1305b0305a9305a83051d3051c3050730506304ed304ec304d3304d2304b7304b6304af304ae304a3304a230497304962fd2f2fd2e2fd232fd222fd1b2fd1a2fd112fd102fd072fd062fcfd2fcfc2fcf32fcf22fce72fce62fcdd2fcdc)
  (.lf 0)))

def shaAndReads68 : BTree :=
  .nd (.nd (.nd (.lf
  0x1c7231c6fb1c68f1c6711c6011c5e31c5851c5671c5371c5011c4c11c48b1c48d1c3d11c28f1c24d1c1fd1c1c11c1731c13b1c0e71c0ad1c0591c01f1bfcd1bf851bf3d20cb91bef11195e12c3a1432214a72152f016490174be17d4c18cfe19c941ac7a1bee01cf001f1a21f91a20d201d7fb1d7c71d7051d7071d7091d70b1d70d1d70f1d7111d58d1d58f1d5911d5931d5951d5971d5991d4251d4271d429)
  (.lf
  0x1ee8f1ee8e1ee6d1ee6c1ee491ee481ee271ee261ee051ee041ede31ede21edc11edc01ed9f1ed9e1ed7d1ed7c1ed5b1ed5a1ed391ed381ed171ed161ecf51ecf41ecd31ecd21ecb11ecb01ec8d1ec8c1ec691ec681ec451ec441ec211ec201ebfd1ebfc1ebd91ebd81ebb51ebb41eb911eb901eb6d1eb6c1eb4b1eb4a1eb271eb261eb031eb021eae11eae01eabf1eabe1dfff1dffe1dfeb1dfea1dfd51dfd4))
  (.nd (.lf
  0x23eee23ee323ee223edb23eda23ed123ed023ec523ec423ebd23ebc23eb323eb223ea723ea623e9f23e9e23e9523e9423e8b23e8a23e8123e8023e7723e7623e6b23e6a23e6323e6223e5923e5823e4f23e4e23e4523e4423e3b23e3a23e2f23e2e23e2723e2623e1d23e1c23e1323e1223e0923e08253f7253f6253ed253ec253e3253e2253d9253d8253cf253ce253c1253c0253b9253b8253af253ae253a7)
  (.lf 0))) (.nd (.nd (.lf
  0x63ea063a3063a206365063640631f0631e062d7062d6062990629806251062500621306212061cb061ca075c5075c40757f0757e0754107540074fb074fa074b3074b207473074720743307432073f3073f2073b3073b207373073720733307332072f3072f2072b5072b40726f0726e0722907228071e3071e20719b0719a0715d0715c0711507114070d7070d60708f0708e0705107050070090700806fcb)
  (.lf
  0x7651076530765507657076590765b0765d0765f07661076630766507667076690766b0766d0766f07671076730767507677076790767b08290082920829408296082980829a0829c0829e082a0082a2082a4082a6082a8082aa082ac082ae082b0082b2082b4082b6082b8082ba082bc082be082c0082c2082c4082c6082c8082ca082cc082ce08291082930829508297082990829b0829d0829f082a1082a3))
  (.nd (.lf
  0x6c6706c6606c5d06c5c06c5306c5206c4906c4806c3f06c3e06c3506c3406c2b06c2a06c2106c2006c1706c1606c0d06c0c06c0306c0206bf906bf806bef06bee06be506be406bdb06bda06bd106bd006bc706bc606bbd06bbc06bb306bb206ba906ba806b9f06b9e06b9506b9406b8b06b8a06b8106b8006b7706b7608239082380820108200081c1081c00817d0817c0813b0813a080fb080fa080b7080b6)
  (.lf 0)))

def shaAndReads69 : BTree :=
  .nd (.nd (.nd (.lf
  0x28c962a89f2a89e2a88b2a88a2a8552a8542a84b2a84a2a7e92a7e82a7e12a7e02a7c12a7c02a7952a7942a78d2a78c2a7672a7662a75f2a75e2a7492a7482a7352a7342a7152a7142a6ff2a6fe2a6ed2a6ec2a6d12a6d02a6c72a6c62a6a92a6a82a69f2a69e2a68b2a68a2a66f2a66e2a65f2a65e2a6552a6542a6432a6422a63b2a63a29f0129f0029e8929e8829e8129e8029e2729e262a4b12a4b02a493)
  (.lf
  0x14f9014f9214f9414f9614f9814f9a14f9c14f9e14fa014fa214fa414fa614fa814faa14fac14fae14fb014fb214fb414fb614fb814fba15fe615fba15fbc15fbe15fc015fc215fc415f2c15f2e15f3015f3215f3415f3615f3815f3a15f3c15f3e15f4015f4215f4415f4615e7415e7615e7815e7a15e7c15e7e15e9a15a6615a6815a6a15a6c167621676416766167681676a1676c1676e167b81677016772))
  (.nd (.lf
  0x12dff12dfe12df512df412deb12dea12d9b12d9a12d8512d8412d7112d7012d6712d6612d5d12d5c12d5312d5212d1d12d1c12ce112ce012cb712cb612c9912c9812c8512c8412c6312c62164511645016431164301640f1640e163ed163ec163cf163ce163af163ae1638d1638c1636f1636e1634f1634e1632d1632c1630b1630a162e9162e8162c7162c6162a9162a81628d1628c1626d1626c1624b1624a)
  (.lf 0))) (.nd (.nd (.lf
  0x353463533d3533c353313533035325353243531d3531c35313353123530935308352ff352fe352f3352f2352e7352e6352db352da352d1352d0352c5352c4352bb352ba352b3352b2352a9352a83529b3529a352933529235287352863527d3527c3523535234350a5350a434fff34ffe34fad34fac34f9f34f9e34b3534b3434b2d34b2c3569d35697356963568f3568e3552735526355193550f3550535504)
  (.lf 0)) (.nd (.lf
  0x36f9d36f9c36f9136f9036f8536f8436f7736f7636f6b36f6a36f6136f6036f5736f5636f4936f4836f4136f4036f3536f3436f2936f2836f1d36f1c36f0936f0836eed36eec36ed336ed236eb936eb836e9f36e9e36e8536e8436e6b36e6a36e5136e5036e2536e24372733727237267372663725f3725e371ef371ee371e3371e2371db371da371d1371d0371c7371c6371bd371bc371b3371b2371a7371a6)
  (.lf 0)))

def shaAndReads70 : BTree :=
  .nd (.nd (.nd (.lf
  0x3e70c3e6d93e6d83e6c73e6c63e6af3e6ae3e6873e6863e65b3e65a3e62f3e62e3e60b3e60a3e6033e6023e5ef3e5ee3e5e33e5e23e5cf3e5ce3e57f3e57e3e39b3e39a3e36b3e36a3e30d3e30c3e2e13e2e03e2d93e2d83e2cf3e2ce3e2c13e2c03e2933e2923e28b3e28a3e2333e2323e1cf3e1ce3e1b93e1b83e0353e0343dedf3dede3eb1b3eb1a3eb053eb043eaed3eaec3eae53eae43ea273ea263e9d3)
  (.lf
  0x137c9137c8137791377813727137260dfb90dfb80dfaf0dfae0dfa50dfa40df9b0df9a0df910df900df870df860df7d0df7c0df730df720df690df680df5f0df5e0df550df540df4b0df4a0df410df400df370df360df2d0df2c0df230df220df190df180df0f0df0e0df050df040defb0defa0def10def00dee70dee60dedd0dedc0ded30ded20dec90dec80debf0debe0deb50deb40deab0deaa0dea10dea0))
  (.nd (.lf
  0x1d2ab1d2aa1d1c91d1c81d1bf1d1be1d1af1d1ae1d1a71d1a61d03d1d03c1d0351d0341d02b1d02a1d01f1d01e1d0151d0141d00b1d00a1d7db1d5e71d5e11d5cf1d5c91d5c81d5c11d5c01d5631d5591d5581d4b71d4b61d4af1d49f1d48b1d48a1d4771d4631d4621d4411d33b1d3211d3201d2f31d2f21d2c51d2711d2611d24d1d24c1d1f51d1f41d1ed1d07b1d07a1d06d1d0651d0641d0591d0511c945)
  (.lf 0))) (.nd (.nd (.lf
  0x3e5223e5173e50b3e5013e4f93e4f83e4f13e4f03e4e33e4e23e4d73e3893e3553e3033e2b53e2af3e2a93e2a83e29b3e27d3e2773e1ad3dca13dca03dc913dc903dc873dc863dc7d3dc7c3dc6d3dc6c3dc653dc643dc5d3dc5c3dc533dc523dc4b3dc4a3dc3f3dc3e3dc353dc343dc2b3dc2a3dc213dc203dc193dc183dc0d3dc0c3dc053dc043dbfd3dbfc3dbf33dbf23dbe93dbe83dbdf3dbde3dbd53dbd4)
  (.lf
  0x2690c28202281e6281dc281cc281ba281a22806627ff027fe427f9c27e1627b8027b7427b6e27b1227ae927ada2911a290f8290ea290e4290982908e290802905a2901028ffe28fdc28f8628f7a28f5828f3c28eb028e9028cd428cbd28c7c28c6f2a4502a44a2a4422a43c2a3e02a3be2a3762a3542a30c2a28e2a2722a2562a21a2a1be29f2f29e3929e202b7d62b7cc2b7642b6542b5562b5242b4102b40a))
  (.nd (.lf
  0x189d0189c0185b0185a0181b0181a017d7017d601795017940175501754002db002da002d1002d0002c7002c6002bd002bc002b3002b2002a9002a80029f0029e00295002940028b0028a002810028000277002760026d0026c002630026200259002580024f0024e00245002440023b0023a002310023000227002260021d0021c00213002120020900208001ff001fe001f5001f4001eb001ea001e1001e0)
  (.lf 0)))

def shaAndReads71 : BTree :=
  .nd (.nd (.nd (.lf
  0x174ea174e3174e2174db174da174d3174d2174cb174ca188dd188dc188d5188d4188cd188cc188ab188aa188a3188a218877188761884b1884a1881f1881e187f3187f2187d1187d0187b5187b41879f1879e1878b1878a187771877618763187621874f1874e1873b1873a18727187261871318712186ff186fe186eb186ea186d9186d8186c7186c6185f5185f4185e3185e2185d1185d0185bf185be185ad)
  (.lf
  0x286352861f28603285ed285ef285cb285ab285b728587285892856528555280cd27fa727e512854327c1727c0527bf727bd927b2927ae3293b4293a22937e29352292c6292de292f62928e2927429254292362921629224291f4291e4291d6291c22919c291a82918629162291522917828f6428f0c28eee28ebe28ea228e662913828cac28c76293b5293a32937f29353292c7292df292f72928f2927529255))
  (.nd (.lf
  0xcc620cc590cc580cc4f0cc4e0cc450cc440cc3b0cc3a0cc310cc300cc270cc260cc1d0cc1c0cc130cc120cc090cc080cbff0cbfe0cbf50cbf40cbeb0cbea0cbe10cbe00cbd70cbd60cbcd0cbcc0cbc30cbc20cbb90cbb80cbaf0cbae0cba50cba40cb9b0cb9a103c7103c610369103681030910308102ab102aa1025110250101f1101f010195101941013910138100db100da1007d1007c10023100220ffc3)
  (.lf 0))) (.nd (.nd (.lf
  0x2c92d2c92c2c9232c9222c9192c9182c90f2c90e2c9052c9042c8fb2c8fa2c8f12c8f02c8e52c8e42c8db2c8da2c8d12c8d02c8c72c8c62c8bd2c8bc2d7bb2d7ba2d7b12d7b02d7a72d7a62d79b2d79a2d78b2d78a2d77f2d77e2d7772d7762d7692d7682d75f2d75e2d7552d7542d74b2d74a2d6492d6482d6392d6382d5f72d5f62d5ef2d5ee2d4a52d4a42d4992d4982d4892d4882d4812d4802d4552d454)
  (.lf 0)) (.nd (.lf
  0x29a2129a2029a1729a1629a0d29a0c29a0329a02299f9299f8299ef299ee299e5299e4299db299da299d1299d0299c7299c6299bd299bc299b3299b2299a9299a82999f2999e29995299942998b2998a299812998029977299762996d2996c299632996229959299582994f2994e29945299442993b2993a29931299302af272af262af132af122aefd2aefc2aee72aee62aed12aed02aebb2aeba2aea52aea4)
  (.lf 0)))

def shaAndReads72 : BTree :=
  .nd (.nd (.nd (.lf
  0x2c7c72c7c92c7cb2c7cd2c7cf2c7d12c7d32c7532c7212c7232c7252c7272c6ef2c6f12c6c92c6a92c6ab2c6ad2c6872c6772c6632c64d2c64f2c62b2c6332c15d3048f2c1212db9f2db972db592db352daf72daeb2dbc32da612da2d2da0d2d9e52d9972d73b2d7192d7092d60d2d5a12d5a32d5652d54d2d5092d4ef2d4c92d4232d40b2d3fb2d3ef2d3a12d3092d1dd2d1df316112cff3215fc2299223330)
  (.lf
  0x11d1d11d1c11cd911cd811c9111c9011c4711c4611bfd11bfc11bb711bb611b6f11b6e11b2711b2611adf11ade11a9711a9611a4d11a4c11a0111a00119ad119ac1e4a71e4a61e4911e4901e47b1e47a1e4651e4641e44f1e44e1e4391e4381e4231e4221e40d1e40c1e3f71e3f61e3e11e3e01e3cb1e3ca1e3b51e3b41e39f1e39e1e3891e3881e3731e3721e35d1e35c1e3471e3461e3311e3301e31b1e31a))
  (.nd (.lf
  0x26f0f26f0e26ecf26e7b26e7526e7426e4526e4426db726db626da926d2f26d2726d2626cf126ce926ca526c8726c8626c6526bdb26bda26b8f26b8e26b6f26b4b26b3926b3826adb26aa326a1926a1126a0526a042657f2657e26575265742656b2656a265612656026557265562654b2654a265412654026539265382652f2652e26525265242651b2651a26513265122650926508264ff264fe264f5264f4)
  (.lf 0))) (.nd (.nd (.lf
  0xa7a40a7790a7780a7570a7560a73b0a73a0a7250a7240a7110a7100a6fd0a6fc0a6e90a6e80a6d50a6d40a6c10a6c00a6ad0a6ac0a6990a6980a5c50a5c40a5b10a5b00a59f0a59e0a58d0a58c0a57b0a57a0a5690a5680a5570a5560a5450a5440a5330a5320a5210a5200a50f0a50e0a4b10a4b00a4330a4320a4050a4040a3d50a3d40a3ad0a3ac0a3870a3860a35b0a35a0a3350a3340a3090a3080a2e3)
  (.lf
  0x107b9107bb107bd107bf107c1107c3107c5107c7107c9107cb107cd107cf107d1107d3107d5107d7106691065b106451063310621105f91126a1126c1126e11270112721127411276112781127a1127c1127e11280112821128411286112881128a1128c1128e112901129211294112f2111561114411132111201110e110fc110ea110d8110a61126b1126d1126f11271112731127511277112791127b1127d))
  (.nd (.lf
  0x8e0908dc908d8908d8808d4308d0308cc308c8308c4308c4208bfd08bfc08bb708b7708b3708af708af608ab108ab008a6b08a2b089eb089ab0896b0896a08925088e5088e40889f0889e088590881908818087d3087d20878d0878c087460853b0853a085310853008527085260851d0851c08513085120850908508084ff084fe084f5084f4084eb084ea084e1084e0084d7084d6084cd084cc084c3084c2)
  (.lf 0)))

def shaAndReads73 : BTree :=
  .nd (.nd (.nd (.lf
  0x2eb9e2eb792eb782eb672eb662eaf52eaf42eabd2eabc2eaa72eaa62ea692ea682ea2f2ea2e2ea132ea122e9df2e9de2e9c12e9c02e9772e9762e9632e9622e9232e9222e8e72e8e62efdb2efda2ef8f2ef8e2ef872ef862eea12eea02ee212ee202ee0f2ee0e2edff2edfe2ed1d2ed1c2ed152ed142ecf52ecf42ecb52ecb42ec732ec722ec552ec542ebf92ebf82ebc32ebc22eba72eba62eb5f2eb5e2eb4b)
  (.lf
  0x25168251742513a2513c250f0250f2250f4250f62517c250f8250fa250fc250fe251002508c25070250722470e246ce24686246402460c261182611a2611c25fca25fcc25fce25fd025ee825e6025dd225db225d2225d2425c9e25c4625bb225b8a25b5825b2e25b0425a8c25a4225a02259ca259942595c258ee258b22587e2584425802257d22732c2732e27330273322733427336273382733a2733c2733e))
  (.nd (.lf
  0x17bd217bc917bc817bbf17bbe17bb517bb417bab17baa17ba117ba017b9717b9617b8d17b8c17b8317b8217b7917b7817b6f17b6e17b6517b64184c9184c818495184941845b1845a1842318422183e9183e8183af183ae1836f1836e1832f1832e182ef182ee182af182ae1826b1826a1822518224181e3181e2181a3181a218163181621811f1811e180d9180d818093180921805118050180111801017fd1)
  (.lf 0))) (.nd (.nd (.lf
  0x374e6374dd374dc374d3374d2374c5374c4374bb374ba374af374ae374a1374a037497374963748b3748a3747f3747e374773747637467374663745b3745a3744f3744e374413744037411374103740537404370d3370d2370c7370c6370bb370ba37095370943708d3708c36e1b36e1a37629376283761d3761c37613376123760737606375fb375fa375ed375ec375df375de375d7375d6375cd375cc375c3)
  (.lf 0)) (.nd (.lf
  0x38229382283821f3821e38217382163820d3820c381393813839017390163900b3900a38ff338ff238feb38fea38fdf38fde38fcd38fcc38fbb38fba38e4738e4638e3b38e3a38e2738e2638e1f38e1e38e1338e1238e0738e0638dfb38dfa38def38dee38dd538dd438dc938dc838dbd38dbc38daf38dae38d8b38d8a38d4938d4838d3b38d3a38d1938d1838cd538cd438cc138cc038cb138cb038c2138c20)
  (.lf 0)))

def shaAndReads74 : BTree :=
  .nd (.nd (.nd (.lf
  0x41c0641be741be641bbf41bbe41bad41bac419794197841971419704196141960418e9418e8418e1418e04151b4151a412494124841ea141ea041e8141e8041e6d41e6c41e6141e6041e5941e5841e4d41e4c41e2f41e2e41e2741e2641de541de441dd141dd041dc741dc641dab41daa41da141da041d9341d9241d8b41d8a41d8141d8041d7941d7841d6f41d6e41d6541d6441c1141c1041bed41bec41bc9)
  (.lf
  0xff2d0ff2c0fecd0fecc0fe6d0fe6c0fe0f0fe0e0fdb10fdb00fd4f0fd4e0fcf30fcf20fc930fc920fc370fc360fbdb0fbda0fb7d0fb7c0fb1b0fb1a0fabb0faba0fa5d0fa5c0fa030fa020f9a70f9a60f9450f9440e7530e7520e7490e7480e73f0e73e0e7350e7340e72b0e72a0e7210e7200e7170e7160e70d0e70c0e7030e7020e6f90e6f80e6ef0e6ee0e6e50e6e40e6db0e6da0e6d10e6d00e6c70e6c6))
  (.nd (.lf
  0x1e0771e0761e06d1e06c1e0631e0621e0591e0581e04f1e04e1e0451e0441fe411fe401fe2b1fe2a1fe091fe081fde91fde81fdbb1fdba1fda91fda81fd751fd741fd4f1fd4e1fd3d1fd3c1fd0d1fd0c1fcfb1fcfa1fcc91fcc81fcb71fcb61fc951fc941fc711fc701fc411fc401fc231fc221fc051fc041fbe51fbe41fbdd1fbdc1fba31fba21fb9b1fb9a1fb651fb641fb331fb321fafd1fafc1fac91fac8)
  (.lf 0))) (.nd (.nd (.lf
  0x3fd493fd483fd313fd303fd193fd183fd0b3fd0a3fced3fcec3fcd53fcd43fca33fca23fc5b3fc5a3fbeb3fbea3fbe13fbe03fb233fb223fb193fb183faf13faf03fadd3fadc3fa893fa883f9113f9103f8d13f8d03f8953f8943f8553f8544011940113401124010b400fd400f5400f4400e9400e1400d9400d3400d2400ad400a7400a63ffa73ffa13ff8f3ff893ff833ff7d3ff7c3fcbf3fcbe3fc633fc05)
  (.lf
  0x15cfd168d91794f187eb197eb1a8911b84b1c5cf1d5b71f73520501213b721e9d2322b23ccb24d5125d9126e6f2865f2926b2a8232b6132cb632de752ee5d2ff2930f893202733377344eb355473673b3793f3b6eb3ca453cedb3d9fd3e63b3f5b5408c9411c9011dd0170b023710312303c7b048eb0555b061b306e2b07a7b086cd0932d0a4b70afb90b9bf0c5f10f8dd1109f1196512ced136cd149b1152eb))
  (.nd (.lf
  0x216202159021580214f0214e02145021440213b0213a03111031100310703106030fd030fc030f3030f2030e9030e8030df030de030d5030d4030cb030ca030c1030c0030b7030b6030ad030ac030a3030a203099030980308f0308e03085030840307b0307a030710307003067030660305d0305c030530305203049030480303f0303e03035030340302b0302a030210302003017030160300d0300c03003)
  (.lf 0)))

def shaAndReads75 : BTree :=
  .nd (.nd (.nd (.lf
  0x1c5141c4e31c4e21c4b11c4b01c4671c4661c45b1c45a1c3d91c3d81c2811c2801c2291c2281c1ed1c1ec1c19f1c19e1c1611c1601c11d1c11c1c0d51c0d41c0911c0901c0471c0461c0071c0061bfbb1bfba1bf951bf941bf511bf501c8111c8101c7ab1c7aa1c7911c7901c7291c7281c7031c7021c6971c6961c6791c6781c6091c6081c5d71c5d61c58d1c58c1c5531c5521c51b1c51a1c4fb1c4fa1c4bb)
  (.lf
  0x30f5530f3730ed130e8730e5330e3b30db130d8930d6d30d4d30d1330ce730b6d30b2d30b1130add30a7b30a21309dd309b7309a730757324323240a323da323ac3236a3233432336321ec3208032016320b8320a631fc831e7e31e0c31dec31df631da031d9031dae31d6031cac31c9431c9631c7431a08318b031874317c8316aa3165631624324333240b323db323ad3236b3233532337321ed3208132017))
  (.nd (.lf
  0x109bd109bc109b3109b2109a9109a81099f1099e10995109941098b1098a109811098010977109761096d1096c109631096210959109581094f1094e10945109441093b1093a109311093010927109261091d1091c1091310912109091090811899118981188f1188e11885118841187b1187a118711187011867118661185d1185c118531185211849118481183f1183e11835118341182b1182a1182111820)
  (.lf 0))) (.nd (.nd (.lf
  0x2df5d2df5c2df532df522df492df482df3f2df3e2df192df182de8d2de8c2f22d2f22c2f2232f2222f2172f2162f20f2f20e2f2052f2042f1fb2f1fa2f1f12f1f02f1e72f1e62f1df2f1de2f1d52f1d42f1cb2f1ca2f1c12f1c02f1b72f1b62f1ad2f1ac2f1a32f1a22f0cb2f0ca2f0c12f0c02f0b72f0b62f0812f0802f0772f0762f06d2f06c2f0632f0622f0592f0582f04f2f04e2f0452f0442eff32eff2)
  (.lf 0)) (.nd (.lf
  0x2d2892d2882d2712d2702d2692d2682d2512d2502d2392d2382d2212d2202d1f92d1f82d1f12d1f02d1552d1542cedb2ceda2cecf2cece2cec72cec62cebd2cebc2ceb32ceb22cea92cea82ce9f2ce9e2ce952ce942ce8d2ce8c2ce832ce822ce792ce782ce712ce702ce692ce682ce5f2ce5e2ce572ce562ce4d2ce4c2ce452ce442ce3b2ce3a2ce332ce322ce292ce282ce212ce202ce172ce162ce0f2ce0e)
  (.lf 0)))

def shaAndReads76 : BTree :=
  .nd (.nd (.nd (.lf
  0xb4410b4430b4450b4470b4490b44b0b44d0b44f0b4510b4530b4550cf5f0b4570bf1b0bf1d0bf1f0bf210bf230bf250bf270bf290bf2b0bf2d0bf2f0bf310bf330bf350bf370bf390bf3b0bf3d0bf3f0bf410bf430bf450bf470bf490bf4b0bf4d0bf4f0bf510bf530bf550bf57119510bf590ca130ca150ca170ca190ca1b0ca1d0ca1f0ca210ca230ca250ca270ca290ca2b0ca2d0ca2f0ca310ca330ca35)
  (.lf
  0x1b0031b0021afcb1afca1af931af921af5b1af5a1af251af241aeeb1aeea1aeb31aeb21ae791ae781ae3d1ae3c1adff1adfe1adc31adc21ad811ad801ad3b1ad3a1acf91acf81acb91acb81beb31beb21be9f1be9e1be891be881be731be721be5d1be5c1be471be461be311be301be1b1be1a1be051be041bdef1bdee1bdd91bdd81bdc31bdc21bdad1bdac1bd971bd961bd811bd801bd6b1bd6a1bd551bd54))
  (.nd (.lf
  0x23479234782346d2346c2345d2345c2345123450234452344423439234382343123430234252342423419234182340923408233fd233fc233f5233f4233e9233e8233dd233dc233d3233d2233c7233c6233b9233b8233ab233aa233a3233a22339b2339a2338d2338c233832338223375233742336d2336c23363233622335b2335a2334f2334e2027d2027c202732027220269202682025f2025e2025520254)
  (.lf 0))) (.nd (.nd (.lf
  0x36ac0367b0367a03641036400360503604035d3035d203599035980355d0355c0352b0352a034ef034ee034bd034bc034830348203449034480340d0340c033db033da033a1033a003365033640333303332032f9032f8032bf032be032830328203251032500321503214031e1031e0031af031ae03173031720443504434043f9043f8043b3043b20436d0436c0432504324042e5042e4042a7042a60425f)
  (.lf
  0x129d0129c012930129201289012880127f0127e01275012740126b0126a012610126001257012560124d0124c012430124201239012380122f0122e012250122400de300de200dcf00dce00db900db800da300da200d8d00d8c00d7700d7600d6100d6000d4b00d4a00d3500d3400d1f00d1e00d0900d0800cf300cf200cdd00cdc00cc700cc600cb100cb000c9b00c9a00c8500c8400c6f00c6e00c5900c58))
  (.nd (.lf
  0x69940695d0695c0691906918068d7068d6068930689206851068500680d0680c067c7067c6067850678406745067440670506704066c1066c00667b0667a0663506634065f3065f2065b3065b206573065720652f0652e064ed064ec064a9064a806463064620641d0641c063d7063d6063950639406351063500630b0630a062c9062c806285062840624306242061ff061fe037d9037d8037a3037a203767)
  (.lf 0)))

def shaAndReads77 : BTree :=
  .nd (.nd (.nd (.lf
  0x25128250e9250e8250dd250dc250d5250d4250cb250ca250c3250c2250b9250b8250af250ae250a5250a42509b2509a2508b2508a25081250802506b2506a2506125060246c7246c62466b2466a24623246222613326132260f9260f82600d2600c25feb25fea25f8f25f8e25f8725f8625f1325f1225e5725e5625d9725d9625d7525d7425d4725d4625d3125d3025cb125cb025c4f25c4e25c1725c1625c03)
  (.lf
  0x53e2053e4053e6053e8053ea053ec053ee053f0053f2053f4053f6053f8053fa053fc053fe05400054020540405406054080540a0540c0602406026060280602a0602c0602e06030060320603406036060380603a0603c0603e06040060420604406046060480604a0604c0604e06050060520605406056060580605a0605c0605e060600606206c9e06ca006ca206ca406ca606ca806caa06cac06cae06cb0))
  (.nd (.lf
  0x1486514864148431484214825148241480514804147e7147e6147cb147ca147ab147aa1478d1478c1477114770147551475414739147381471914718146fb146fa146df146de146bf146be146a1146a0146811468014663146621464314642146251462414993149921497114955149391493814917148fb148fa148d9148bd148a1148a01487f1487e1485d1485c1483b1481f1481e147fd147e1147c5147c4)
  (.lf 0))) (.nd (.nd (.lf
  0x332f5332ed332ec332e3332db332d5332d4332c7332c6332b9332b8332533324d3324c3323b332353322f3322e3322733221331e5331c1331513315033129331283311533114330f532a7132a7032a3932a38329f9329f8329bd329853298432927328693283c325213252032515325143250d3250c3250332502324f9324f8324ed324ec324e5324e4324d9324d8324d1324d0324c5324c4324bb324ba324b3)
  (.lf 0)) (.nd (.lf
  0x33977339763396b3396a33933339323392b3392a33921339203391333912339093390833e6933e6833e6133e6033e5533e5433e4933e4833e3f33e3e33e3533e3433e2b33e2a33e2133e2033e1733e1633e0f33e0e33e0333e0233df333df233deb33dea33ddf33dde33dd333dd233dcb33dca33dbf33dbe33db533db433dab33daa33d9f33d9e33d9733d9633d3b33d3a33d3333d32339bd339bc339ad339ac)
  (.lf 0)))

def shaAndReads78 : BTree :=
  .nd (.nd (.nd (.lf
  0x37a7237a6b37a6a37a6137a6037a4f37a4e377b9377b8377a9377a8377a1377a03778537784377733777237179371783716937168371333713237115371143bb233bb223ba4b3ba4a3b99d3b99c3b9333b9323b85f3b85e3b8233b8223b7553b7543b70f3b70e3b6c73b6c63b65b3b65a3b61f3b61e3b5df3b5de3b5a33b5a23b55d3b55c3b52f3b52e3b5013b5003b4953b4943b4733b4723b4453b4443b3e7)
  (.lf
  0xd1e90d1e80d1c70d1c60d1a50d1a40d1830d1820d1610d1600d13f0d13e0d11d0d11c0d0fb0d0fa0d0d90d0d80d0b70d0b60d0950d0940d0730d0720d0510d0500d02f0d02e0d00d0d00c0cfeb0cfea0cfc90cfc80cfa70cfa60cf850cf840d3530d3520d3330d3320d3110d3100d2ef0d2ee0d2cd0d2cc0d2ab0d2aa0d2890d2880d2670d2660d2450d2440d2230d2220d2010d2000d1df0d1de0d1bd0d1bc))
  (.nd (.lf
  0x1ae201ade51ade41ada31ada21ad5d1ad5c1ad171acd71ac921a9bd1a9bc1a9b31a9b21a9a91a9a81a99f1a99e1a9951a9941a98b1a98a1a9811a9801a9771a9761a96d1a96c1a9631a9621a9591a9581a94f1a94e1a9451a9441a93b1a93a1a9311a9301a9271a9261a91d1a91c1a9131a9121a9091a9081a8ff1a8fe1a8f51a8f41a8eb1a8ea1a8e11a8e01a8d71a8d61a8cd1a8cc1a8c31a8c21a8b91a8b8)
  (.lf 0))) (.nd (.nd (.lf
  0x3cd593cd583cd193cd183cd0d3cd0c3cd053cd043ccfb3ccfa3cced3ccec3cce13cce03ccd53ccd43ccc93ccc83ccbd3ccbc3ccb33ccb23cca73cca63cc9b3cc9a3cc7b3cc7a3cc713cc703cbcd3cbcc3cba53cba43cb7b3cb7a3cb6f3cb6e3cb093cb083cac53cac43ca7b3ca7a3d52d3d52c3d51d3d51c3d5113d5103d5053d5043d4f93d4f83d4ed3d4ec3d4e13d4e03d4d53d4d43d4c53d4c43d4ad3d4ac)
  (.lf
  0x89240885808747086cc086c709ab809a32099ac09926098e6098a6098660979a0975a0971a0957c0946a0942a093ea093aa0936b0932c093270a3de0a3b60a3600a30e0a20c0a1e80a1960a0ec0a09a09ff00a4b609f950ae380ae1c0ae000ade40adc80adac0ad900ad300ac8c0ac4a0abe40abc60abaa0aac30afb80ae650b9440b9260b8c00b81a0b7980b77c0b7600b7440b7280b70a0b6ec0b6860b646))
  (.nd (.lf
  0x3a9313a9303a9153a9143a8fb3a8fa3a8253a8243a81d3a81c3a8133a8123a8093a8083a7ff3a7fe3a7f53a7f43a7eb3a7ea3a7e13a7e03a7d73a7d63a7cd3a7cc3a7c33a7c23a7b93a7b83a7af3a7ae3a7a53a7a43a79b3a79a3a7913a7903a7853a7843a77b3a77a3a7733a7723a7693a7683a75f3a75e3a7573a7563a74d3a74c3a7413a7403a6bb3a6ba3a6b13a6b03a6a73a6a63a6633a6623a65b3a65a)
  (.lf 0)))

def shaAndReads79 : BTree :=
  .nd (.nd (.nd (.lf
  0x1449214489144881447d1447c144751447414469144681445f1445e144571445614447144461443714436144271442614417144161440714406143f7143f6143e7143e6143d7143d6143c7143c6143b7143b6143a7143a614397143961438714386143771437614e8114e8014e5314e5214e2714e2614dfb14dfa14dcf14dce14da314da214d7714d7614d4b14d4a14d1f14d1e14cfd14cfc14ce114ce014ccb)
  (.lf
  0x2048520487204892048b2048d2048f20491204932049520037200391fbc91fb911fb5f1fb291faf51fac11fa931f9ed1f9c31f95d1f95f2172a2172c2172e2165c215162144c2144e213e82137e213802138221384212fc2128e212302120a210f62107421076210782101220fc420f1620f1820ee220e7c20e7e20df420da420d6620d0e20d102172b2172d2172f2165d215172144d2144f213e92137f21381))
  (.nd (.lf
  0x8cf808cb908cb808c7908c7808c3b08c3a08bf508bf408bad08bac08b6d08b6c08b2d08b2c08aef08aee08aa908aa808a6108a6008a2108a20089e1089e0089a1089a008963089620891b0891a088dd088dc08897088960884f0884e0881108810087cb087ca08785087840873f0873e08701087000b94b0b94a0b92d0b92c0b90f0b90e0b8ed0b8ec0b8c90b8c80b8a90b8a80b8890b8880b8670b8660b845)
  (.lf 0))) (.nd (.nd (.lf
  0x2b0a72b0a62b09b2b09a2b08f2b08e2b0832b0822b0772b0762b06b2b06a2b05f2b05e2b0532b0522b0472b0462b03b2b03a2b02f2b02e2b0232b0222b0172b0162b00b2b00a2b0032b0022af792af782b7bd2b7bc2b7b52b7b42b7ab2b7aa2b7a32b7a22b75b2b75a2b3052b3042b2f92b2f82b2ed2b2ec2b2e32b2e22b2d72b2d62b2692b2682b24b2b24a2b23f2b23e2b2332b2322b2292b2282b21f2b21e)
  (.lf 0)) (.nd (.lf
  0x2641b2641a26411264102640726406263fd263fc263f3263f2263e9263e8263df263de263d5263d4263cb263ca263c1263c0263b7263b627a6927a6827a5527a5427a3f27a3e27a2927a2827a1327a12279fd279fc279e7279e6279d1279d0279bb279ba279a5279a42798f2798e279792797827963279622794d2794c279372793627921279202790b2790a278f5278f4278df278de278c9278c8278b3278b2)
  (.lf 0)))

def shaAndReads80 : BTree :=
  .nd (.nd (.nd (.lf
  0x34365342eb342c73425534201341d93419b3413733d7333d1f33cd733ba533b6b33b3933b0133a7933a0937e5f339ef359db359c9359b935a0f3597735a41359693594b3594d35a273591335903358f3358dd358cb3589735889358a33586b358ad358b73584d3583d3582935819350cb350233500d34feb34f55358053859534acb36b1736a0f369f73696336945368c7368773685b367fd366fd366b136715)
  (.lf
  0x226f5226f4226df226de226c9226c8226b3226b22269d2269c1e96b1e96a1e9571e9561e9411e9401e92b1e92a1e9151e9141e8ff1e8fe1e8e91e8e81e8d31e8d21e8bd1e8bc1e8a71e8a61e8911e8901e87b1e87a1e8651e8641e84f1e84e1e8391e8381e8231e8221e80d1e80c1e7f71e7f61e7e11e7e01e7cb1e7ca1e7b51e7b41e79f1e79e1e7891e7881e7731e7721e75d1e75c1e7471e7461e7311e730))
  (.nd (.lf
  0x27fcd27fcc27fc327fc227e6927e6827e2127e2027b5b27b5a27b4f27b4e27b4527b4427b3b27b3a27b3127b3028203281ef281ee281e7281dd281cd281c3281c2281bb281b1281b0281a32812d2812c28117281162810328102280ef280ee280a7280a62809b2809a2808d2808c28081280802806f2806e280672805d2805c27ff127fe527f9d27f9527f9427e1727b9927b9827b8127b7527b6f271a9271a8)
  (.lf 0))) (.nd (.nd (.lf
  0xbb8e0bb850bb840bb7b0bb7a0bb710bb700bb650bb640bb5b0bb5a0bb530bb520bb490bb480bb3f0bb3e0bb2f0bb2e0bb270bb260bb1f0bb1e0bb150bb140bb0d0bb0c0b9e90b9e80baf90baf80baef0baee0bae50bae40bad90bad80bad10bad00bac50bac40babb0baba0baaf0baae0baa70baa60ba9d0ba9c0ba930ba920ba8b0ba8a0ba7f0ba7e0ba750ba740ba670ba660ba5f0ba5e0ba570ba560ba4d)
  (.lf
  0x14087140891408b1408d1408f14091140931409514097140991409b1409d1409f140a1140a3140a5140a7140a9140ab140ad140af140b114e8814e5a14e2e14e0214dd614daa14d7e14d5214d2614d0414ce814cd214cbe14caa14c9614c8214c6e14ad414ad614ad814ada14adc14ade14ae014ae214ae414ae614ae814aea14aec14aee14af014e8914e5b14e2f14e0314dd714dab14d7f14d5314d2714d05))
  (.nd (.lf
  0x961109610095cb095ca09585095840954309542094ff094fe094b9094b809473094720943109430093f1093f0093b1093b0093710937009af909af809ab909a7909a7809a33099f3099f2099ad0996d0996c09927098e7098a7098670982709826097e1097e00979b0975b0971b096db096da09695096940964f0964e0960909608095c3095c20957d0953d0953c094f7094f6094b1094b00946b0942b093eb)
  (.lf 0)))

def shaAndReads81 : BTree :=
  .nd (.nd (.nd (.lf
  0x30b0030ae530ae430a6b30a6a30a1530a14309e7309e6309bd309bc309653096431317313163130f3130e312fd312fc3116d3116c3115131150310f3310f23104f3104e310293102830f9130f9030f6530f6430f2530f2430ec530ec430e8f30e8e30e5d30e5c30e2130e2030def30dee30de330de230dcf30dce30dbf30dbe30d2730d2630cf930cf830c9530c9430c8330c8230b4330b4230af530af430a83)
  (.lf
  0x2d9e42d9962d73a2d7182d7082d60c2d5a02d5a22d5642d54c2d5082d4ee2d4c82d4222d40a2d3fa2d3ee2d3a02d3082d1dc2d1de2cff22f0282efcc2ef962eeb62eeca2ee162ee082edd62ed262edc42ece22ec9a2ec642ec5a2ec022ebce2eb8c2eb522eb442eb082eac62ea802ea8a2ea462ea0a2e9ec2e9a22e9922e9442e9342e8ee2e2403016a301403005430056300583005a3005c300162fe622fe64))
  (.nd (.lf
  0x18c0818bff18bfe18bf518bf418beb18bea18be118be018bd718bd618bcd18bcc18bc318bc218bb918bb818baf18bae18ba518ba418b9b18b9a18b9118b9018b8718b8618b7d18b7c18b7318b7218b6918b6818b5f18b5e18b5518b5418b4b18b4a18b4118b4018b3718b3618b2d18b2c18b2318b2218b1918b181944f1944e1941b1941a193e1193e0193a5193a41936d1936c1933719336192ff192fe192c3)
  (.lf 0))) (.nd (.nd (.lf
  0x37cb637cad37cac37ca337ca237c9937c9837c8f37c8e37c4d37c4c37c4337c4237c3737c363848d3848c3848138480384713847038465384643845d3845c3845138450384453844438439384383842d3842c384213842038413384123840738406383fb383fa383f1383f0383dd383dc383d5383d4383cd383cc383c1383c0383b5383b43802f3802e380273802638017380163800f3800e380033800237f9d)
  (.lf 0)) (.nd (.lf
  0x396213962039619396183960539604395ef395ee395dd395dc395c7395c6395ad395ac395913959039575395743955d3955c395493954839539395383951339512394ff394fe394f7394f6394e5394e4394dd394dc394d1394d0394c5394c4394bd394bc394b5394b43939f3939e3934d3934c3931f3931e3930739306392df392de392b9392b8391d9391d8391cf391ce391c3391c2391b9391b8391b1391b0)
  (.lf 0)))

def shaAndReads82 : BTree :=
  .nd (.nd (.nd (.lf
  0x3eda23eadd3eadc3ead53ead441f3d41f3c41f3341f3241f2541f2441f1d41f1c41f1541f1441f0741f0641eff41efe41ef741ef641ee741ee641edf41ede41ed741ed641ecf41ece41ec541ec441eb741eb641eaf41eae417234172241719417184170d4170c416bd416bc4169b4169a4169141690416554165441585415844154b4154a414cb414ca41467414664145d4145c4145341452413574135641147)
  (.lf
  0xe86b0e86a0e8610e8600e8570e8560e84d0e84c0e8430e8420e8390e8380e82f0e82e0e8250e8240e81b0e81a17463174621742f1742e173f7173f6173bb173ba1737d1737c17343173421730b1730a172d3172d21729d1729c17267172661722b1722a171ed171ec171b1171b0171751717417139171381710117100170cb170ca170911709017059170581701f1701e16fe516fe416fad16fac16f7716f76))
  (.nd (.lf
  0x2114021137211362112d2112c211232112221117211162110f2110e20fe120fe020fd920fd820fa120fa020f9120f9020f6d20f6c20f6520f6420e3520e3420e0520e0420dfd20dfc20de920de820dbf20dbe20d8920d8820d8120d8020d4520d44212d9212d8212cb212ca212bf212be212b3212b2212a9212a8212a1212a021273212722126b2126a212612126021257212562124b2124a2124121240211e7)
  (.lf 0))) (.nd (.nd (.lf
  0x3d4033d4023d2173d216414734147241271412704126541264412594125840eef40eee40ee340ee240e6940e6840e5f40e5e40e4740e4640e3f40e3e40e3740e3640e2f40e2e40e2740e2640e1d40e1c40dd740dd640dcf40dce40dc740dc640da340da24042940428404214042040417404164040b4040a4040140400403f5403f4403ed403ec4035940358403314033040315403144030d4030c402e5402e4)
  (.lf
  0xf8e916d9317d3b18cef19c7f1ac611bc191cbd71ea9d1dd5f20a0d1e21b2268f1e6d72430d254b926643277d52897f29b152ac932be352d14f2e15b2f2f130489315e9327933394934ac735c4536ded37e593855538c333929b3998739e853a3b53a8f33ac5d411c140a293f81b3eac34113f41487412f7412cd412b741117410cb41095410cf4105d4103d410234115f410674105940f4740f6140e1740dff))
  (.nd (.lf
  0xcff00cfe00ce900ce800cd300cd200cbd00cbc00ca700ca600c9100c9000c7b00c7a00c6500c6400c4f00c4e00c3900c3800c2300c2200c0d00c0c00bf700bf600be100be000bcb00bca00bb500bb400b9f00b9e00b8900b8800b7300b7200b5d00b5c0444d0444c0441304412043cf043ce043890438804343043420430104300042c1042c00427d0427c0423b0423a041f7041f6041b5041b40417104170)
  (.lf 0)))

def shaAndReads83 : BTree :=
  .nd (.nd (.nd (.lf
  0x1f4ce1f4c51f4c41f4b91f4b81f4b11f4b01f3951f3941f3831f3821f3771f3761f36b1f36a1f3611f3601f2051f2041f1bd1f1bc1f49f1f49e1f4951f4941f48b1f48a1f4811f4801f4771f4761f46d1f46c1f4651f4641f45b1f45a1f4511f4501f4471f4461f43b1f43a1f4331f4321f4271f4261f41f1f41e1f4151f4141f4091f4081f3ff1f3fe1f3f51f3f41f3eb1f3ea1f3e31f3e21f3d91f3d81f3cd)
  (.lf
  0x354cd354a93547d354653543d354233540b354e3353d5353c33539b353ab353573526935275350c534fe334ff734f9534f4b34b1334abb36b2436ad036aa236a8036a5a368de3682c3680a367d83672c366d23674c3668c36614365a83659236566365283646a3643e36458363763609835ff035fd635f6235f1a35ed635e8e35e5235e0435c5c36b2536ad136aa336a8136a5b368df3682d3680b367d93672d))
  (.nd (.lf
  0x11b0811abd11a7311a27119d6114e3114e2114d9114d8114cf114ce114c5114c4114bb114ba114b1114b0114a7114a61149d1149c114931149211489114881147f1147e11475114741146b1146a114611146011457114561144d1144c114431144211439114381142f1142e11425114241141b1141a11411114101140711406113fd113fc113f3113f2113e9113e8113df113de113d5113d4113cb113ca113c1)
  (.lf 0))) (.nd (.nd (.lf
  0x2f0fd2f0fc2f0f32f0f22f0e72f0e62f0df2f0de2f0d72f0d62f0cd2f0cc2f0a52f0a42f01b2f01a2ef7f2ef7e2ef752ef742ef4b2ef4a2ee892ee882ee7b2ee7a2ee732ee722ee6b2ee6a30277302763026d3026c302633026230259302583024f3024e30245302443023b3023a302313023030227302263021d3021c30213302123020730206301fd301fc301f3301f2301e9301e8301df301de301d5301d4)
  (.lf 0)) (.nd (.lf
  0x2d8512d8502f5172f5162f4fb2f4fa2f4f12f4f02f4e72f4e62f4dd2f4dc2f4d32f4d22f4c92f4c82f4bf2f4be2f4b52f4b42f4a92f4a82f49f2f49e2f4952f4942f48b2f48a2f4832f4822f4772f4762f46f2f46e2f4652f4642f4592f4582f44f2f44e2f4452f4442f43b2f43a2f4312f4302f4252f4242f4192f4182f3e72f3e62f3df2f3de2f33b2f33a2f32f2f32e2f3212f3202f3152f3142f68b2f68a)
  (.lf 0)))

def shaAndReads84 : BTree :=
  .nd (.nd (.nd (.lf
  0x14f9514f9714f9914f9b14f9d14f9f14fa114fa314fa514fa714fa914fab14fad14faf14fb114fb314fb514fb714fb917d3f14fbb15fe715fbb15fbd15fbf15fc115fc315fc515f2d15f2f15f3115f3315f3515f3715f3915f3b15f3d15f3f15f4115f4315f4515f4715e7515e7715e7915e7b15e7d15e7f15e9b15a6715a6915a6b18cf315a6d167631676516767167691676b1676d1676f167b91677116773)
  (.lf
  0x1ccc31ccc21ccab1ccaa1cc8f1cc8e1cc6f1cc6e1cc4d1cc4c1cc2b1cc2a1cc091cc080f4b90f4b80f4af0f4ae0f4a50f4a40f49b0f49a0f4910f4900f4870f4860f47d0f47c0f4730f4720f4690f4680f45f0f45e0f4550f4540f44b0f44a0f4410f4400f4370f4360f42d0f42c0f4230f4220f4190f4180f40f0f40e0f4050f4040f3fb0f3fa0f3f10f3f00f3e70f3e60f3dd0f3dc0f3d30f3d20f3c90f3c8))
  (.nd (.lf
  0x23abb23aba23a6123a6023a5523a5423a2123a2023a1923a1823a0723a0623245232442323d2323c23233232322424b2424a242412424024237242362422d2422c242232422224219242182420f2420e241ff241fe241f7241f6241e9241e8241e1241e0241d7241d6241cf241ce241c5241c4241bb241ba241b1241b0241a7241a62419f2419e24195241942418b2418a241812418024177241762416b2416a)
  (.lf 0))) (.nd (.nd (.lf
  0x4d2c04cef04cee04ca704ca604c6704c6604c2704c2604be904be804ba104ba004b6104b6004b2104b2004ae304ae204a9d04a9c04a5704a5604a1104a10049cb049ca04983049820494304942049030490205cfb05cfa05cbd05cbc05c7f05c7e05c3705c3605bf705bf605bb905bb805b7105b7005b3105b3005af105af005ab305ab205a6d05a6c05a2705a26059e1059e00599b0599a05955059540590f)
  (.lf
  0x44c1044c3044c5044c7044c9044cb044cd044cf044d1044d3044d5044d7044d9044db044dd044df044e1044e3044e5044e7044e9044eb0511e05120051220512405126051280512a0512c0512e05130051320513405136051380513a0513c0513e05140051420514405146051480514a0514c0514e05150051520515405156051580515a0515c0511f05121051230512505127051290512b0512d0512f05131))
  (.nd (.lf
  0x5f7f05f7e05f7505f7405f6b05f6a05f6105f6005f5705f5605f4d05f4c05f4305f4205f3905f3805f2f05f2e05f2505f2405f1b05f1a05f1105f1005f0705f0605efd05efc075e3075e2075a7075a607565075640752107520074db074da074990749807459074580741907418073d9073d8073990739807359073580731907318072d9072d807295072940724f0724e0720907208071c3071c20718107180)
  (.lf 0)))

def shaAndReads85 : BTree :=
  .nd (.nd (.nd (.lf
  0x271d6271c7271c6271bf271be271b7271b626a9f26a9e26a8526a8426a6f26a6e26a6526a64269912699028793287922878b2878a2873f2873e28737287362870b2870a286ab286aa286a3286a2286892868828663286622862f2862e28619286182861128610285f9285f8285dd285dc285d5285d4285c1285c02859b2859a285932859228579285782856f2856e2855d2855c2854b2854a280c3280c227e6f)
  (.lf
  0xb42c0b42e0b4300b4320b4340b4360b4380b43a0b43c0b43e0b4400b4420b4440b4460b4480b44a0b44c0b44e0b4500b4520b4540b4560bf1a0bf1c0bf1e0bf200bf220bf240bf260bf280bf2a0bf2c0bf2e0bf300bf320bf340bf360bf380bf3a0bf3c0bf3e0bf400bf420bf440bf460bf480bf4a0bf4c0bf4e0bf500bf520bf540bf560bf580ca120ca140ca160ca180ca1a0ca1c0ca1e0ca200ca220ca24))
  (.nd (.lf
  0x15351153501530f1530e159a5159a415969159681593115930158f7158f6158bb158ba1587f1587e15847158461581115810157d7157d61579d1579c15761157601572315722156e9156e8156b1156b0156791567815641156401560515604155cb155ca1558f1558e15555155541551b1551a154e3154e2154ad154ac15473154721543715436153fb153fa153c3153c2153871538615349153481530715306)
  (.lf 0))) (.nd (.nd (.lf
  0x3421e34189341883417d3417c341293412833d5b33d5a33d2b33d2a33cf333cf233cb733cb633ae933ae833ad733ad633acd33acc33a4933a4833a2d33a2c347cf3469f3469e34671346703463b345df345de3458f344473443f3443e344373442d3442c3442534424343e9343b534381342ef342d3342d2342593421734216341c7341c6341a5341a4341533415233d8f33d2733cd533cd433ba933b7b33b7a)
  (.lf 0)) (.nd (.lf
  0x3410734106340fd340fc340f3340f2340e9340e8340df340de340d5340d4340c9340c8340c1340c0340b7340b6340a7340a63409d3409c34095340943408b3408a340813408034077340763406f3406e34067340663405d3405c340533405234049340483403d3403c34035340343402b3402a340213402034017340163400d3400c340013400033ff933ff833fef33fee35dcd35dcc35dc135dc035da335da2)
  (.lf 0)))

def shaAndReads86 : BTree :=
  .nd (.nd (.nd (.lf
  0x3bb863bad73bad63ba173ba163b9593b9583b8a93b8a83d0073d0063cfb93cfb83cf913cf903cf893cf883cf753cf743cf053cf043cefd3cefc3cef53cef43ceed3ceec3ceb93ceb83ceb13ceb03ce993ce983ce853ce843ce713ce703ce5f3ce5e3ce4d3ce4c3ce3b3ce3a3ce273ce263ce133ce123cdff3cdfe3cd473cd463cd2b3cd2a3cc8d3cc8c3cc453cc443cc373cc363cc273cc263cc173cc163cb17)
  (.lf
  0x11c9911c9811c4f11c4e11c0511c0411bbf11bbe11b7711b7611b2f11b2e11ae711ae611a9f11a9e11a5511a5411a0911a08119b5119b40d53f0d53e0d5350d5340d52b0d52a0d5210d5200d5170d5160d50d0d50c0d5030d5020d4f90d4f80d4ef0d4ee0d4e50d4e40d4db0d4da0d4d10d4d00d4c70d4c60d4bd0d4bc0d4b30d4b20d4a90d4a80d49f0d49e0d4950d4940d48b0d48a0d4810d4800d4770d476))
  (.nd (.lf
  0x1c7131c7121c6cb1c6811c6801c6371c6361c5e71c5ab1c5aa1c56b1c53b1c5091c5081c4d71c4d61c44f1c44e1c4411c4401c3db1c27b1c2351c2341c1e31c1ab1c15b1c1131c1121c0cd1c0851c0841c03f1bffb1bfbf1bf6f1bf6e1bf341b9751b9741b96b1b96a1b9611b9601b9571b9561b94b1b94a1b9431b9421b9391b9381b92f1b92e1b9251b9241b9191b9181b9111b9101b9071b9061b8fd1b8fc)
  (.lf 0))) (.nd (.nd (.lf
  0x3d5a93d5833d3273d3263dab53dab43daa53daa43da9d3da9c3da913da903da853da843da793da783da493da483da153da143d96b3d96a3d9613d9603d93f3d93e3d9373d9363d92f3d92e3d9273d9263d8f33d8f23d8eb3d8ea3d8633d8623d8573d8563d84b3d84a3d83f3d83e3d8333d8323d8273d8263d8113d8103d7f73d7f63d7c33d7c23d7af3d7ae3d7933d7923d7713d7703d7593d7583cf1f3cf1e)
  (.lf
  0x17d4d19442193941935e19328192f0192b41927419234191f4191b419174190aa1906a18fe418fa418e0618dc6194bc18cff1a3be1a2121a19c1a0ec1a0b41a04019dd219d9019d4a19cb119c9519c901b31c1b2ea1b2b21b1f81b11c1b0dc1b0901b0581b0201afe81afb01af781af421aed01ad161acd61ac931ac7b1ac721c7d81c7581c6ca1c5e61c56a1c53a1c3da1c27a1c1e21c1aa1c15a1c0cc1c03e))
  (.nd (.lf
  0x419004180040f0040e0040500404003fb003fa003f1003f0003e7003e6003dd003dc003d3003d2003c9003c8003bf003be003b5003b4003ab003aa003a1003a000397003960038d0038c003830038200379003780036f0036e00365003640035b0035a003510035000347003460033d0033c0033300332003290032800af900af800ad900ad800abb00aba00a9f00a9e00a8300a8200a6700a6600a4700a46)
  (.lf 0)))

def shaAndReads87 : BTree :=
  .nd (.nd (.nd (.lf
  0x15ebe15eb515eb415ea915ea815ea115ea015e6b15e6a15e5f15e5e15e5715e5615e4d15e4c15e4315e4215e3915e3815e3115e3015a5915a581531f1531e1692b1692a169211692016917169161690d1690c1690516904168e3168e2168711687016867168661685d1685c1685316852168491684816837168361682316822167ef167ee167e5167e4167db167da167c7167c6167bf167be165c5165c416587)
  (.lf
  0x23c3b23c3d23c3f23bcf23bb723b8523b5523b5723b6923b0d23af123ad523aab23a8d23a8f23a9123a4923a2f23533234f9234df2333d24d0424d0624cd424cbc24d3624c5c24c9024c5e24c2824c1024b0e24aee24ac624ac824a9c24a2c24a2e24a44249fa249fc249dc249c4249c6249aa24992248ce2487624708246b82467c24636245e824d0524d0724cd524cbd24d3724c5d24c9124c5f24c2924c11))
  (.nd (.lf
  0xc1980c1790c1780c15b0c15a0c13b0c13a0c1190c1180c0f70c0f60c0d90c0d80c0bf0c0be09af309af209aaf09aae09a7109a7009a2909a28099eb099ea099a3099a209965099640991d0991c098dd098dc0989d0989c0985d0985c0981f0981e097d9097d8097910979009751097500971109710096d3096d20968d0968c09647096460960109600095bb095ba09573095720953509534094ef094ee094a9)
  (.lf 0))) (.nd (.nd (.lf
  0x2c5742c3912c3902c3872c3862c3772c3762c36f2c36e2c3652c3642c3572c3562c3492c3482c3412c3402c3352c3342c32d2c32c2c31f2c31e2c3152c3142c3092c3082c2fd2c2fc2c2f12c2f02c2e52c2e42c2d92c2d82c2cd2c2cc2c2c12c2c02c2b52c2b42c2992c2982c2792c2782c2592c2582c2392c2382c2192c2182c1f92c1f82c1d52c1d42c1a12c1a02c16f2c16e2c50b2c50a2c4ff2c4fe2c4f5)
  (.lf 0)) (.nd (.lf
  0x289c3289c2289ad289ac289972899628c0b28c0a28bf528bf428bdf28bde28bc928bc828bb328bb228b9d28b9c28b8728b8628b7128b7028b5b28b5a28b4528b4428b2f28b2e28b1928b1828b0328b0228aed28aec28ad728ad628ac128ac028aab28aaa28a9528a9428a7f28a7e28a6928a6828a5328a5228a3d28a3c28a2728a2628a1128a10289fb289fa289e5289e4289cf289ce289b9289b8289a3289a2)
  (.lf 0)))

def shaAndReads88 : BTree :=
  .nd (.nd (.nd (.lf
  0x23feb23fed23fef23ff123ff323f4523f47237e7237e9237eb237ed237ef235af235912356723541234ff2350127a7723343251e3251e5251e7251e9251eb251ed251ef25195251972516725169251752513b2513d250f1250f3250f5250f72517d250f9250fb250fd250ff251012508d25071250732470f246cf246872464128c272460d261192611b2611d25fcb25fcd25fcf25fd125ee925e6125dd325db3)
  (.lf
  0x208f1208f0208e7208e6208dd208dc208d3208d2208c9208c8208bf208be208b5208b4208ab208aa208a1208a020897208962088d2088c208832088220879208782086f2086e20865208642085b2085a208512085020847208462083d2083c2083320832208292082820caf20cae20c9b20c9a20c8520c8420c6f20c6e20c5920c5820c4320c4220c2d20c2c20c1720c1620c0120c0020beb20bea20bd520bd4))
  (.nd (.lf
  0x259bb259ba259852594d258d1258d02589125857258562582a24e7b24e7a24e7124e7024e6724e6624e5d24e5c24e5324e5224e4924e4824e3f24e3e24e3524e3424e2b24e2a24e2124e2024e1724e1624e0d24e0c24e0324e0224df924df824def24dee24de524de424ddb24dda24dd124dd024dc724dc624dbd24dbc24db324db224da924da824d9d24d9c24d9324d9224d8924d8824d8124d8024d7724d76)
  (.lf 0))) (.nd (.nd (.lf
  0x7a9208e7708e7608e3b08e3a08df308df208db308db208d7508d7408d2d08d2c08ced08cec08cad08cac08c6d08c6c08c2f08c2e08be908be808ba108ba008b6108b6008b2108b2008ae308ae208a9d08a9c08a5508a5408a1508a14089d5089d4089950899408957089560890f0890e088d1088d00888b0888a08843088420880508804087bf087be08779087780873308732086f5086f408e6d08e6c08e2f)
  (.lf
  0xa7450a72f0a71b0a7050a6f10a6dd0a6c90a6b50a6a10a5cd0a5b90a5a70a5950a5830a5710a55f0a54d0a53b0a5290a5170a5050a4bd0b2220b2120b2000b1ee0b1dc0b1ca0b1b80b1a60b1920b1800b16e0b15c0b14a0b1380b0c00b0c20b0c40b0c60b0c80b0ca0b0cc0b0ce0b0d00b0d20b0d40b0d60b0d80b0da0b0dc0b0de0b0e00b0e20b2230b2130b2010b1ef0b1dd0b1cb0b1b90b1a70b1930b181))
  (.nd (.lf
  0x7d4707d4607d0107cc107cc007c7b07c7a07c3507bf507bb507b7507b3507af5078e7078e6078dd078dc078d3078d2078c9078c8078bf078be078b5078b4078ab078aa078a1078a007897078960788d0788c078830788207879078780786f0786e07865078640785b0785a078510785007847078460783d0783c078330783207829078280781f0781e07815078140780b0780a0780107800077f7077f6077ed)
  (.lf 0)))

def shaAndReads89 : BTree :=
  .nd (.nd (.nd (.lf
  0x2cb722cb6b2cb6a2cb312cb302cb292cb282cb172cb162cb032cb022caef2caee2cadb2cada2cac72cac62caa32caa22ca9b2ca9a2ca812ca802ca772ca762ca592ca582ca472ca462ca372ca362ca2d2ca2c2ca112ca102ca012ca002c9f72c9f62c1bd2c1bc2c1872c1862c1412c1402c8032c8022c7c32c7c22c7bb2c7ba2c7b32c7b22c7a92c7a82c79f2c79e2c7952c7942c78b2c78a2c7812c7802c775)
  (.lf
  0x1c5841c5661c5361c5001c4c01c48a1c48c1c3d01c28e1c24c1c1fc1c1c01c1721c13a1c0e61c0ac1c0581c01e1bfcc1bf841bf3c1bef01d7fa1d7c61d7041d7061d7081d70a1d70c1d70e1d7101d58c1d58e1d5901d5921d5941d5961d5981d4241d4261d4281d42a1d29e1d2a01d23e1d2401d1e61d1641d1661d1681d16a1d16c1d16e1d1701f75c1f75e1f7601f7621f7641f7661f7681f76a1f76c1f76e))
  (.nd (.lf
  0x174581742317422173eb173ea173af173ae17371173701733717336172ff172fe172c9172c817293172921725b1725a1721f1721e171e3171e2171a7171a61716b1716a1712f1712e170f7170f6170c1170c017087170861704f1704e170131701216fd916fd816fa316fa216f6d16f6c16f3316f3216efb16efa16ec116ec016e8916e8816e4716e4616e0516e0416dc516dc417453174521741b1741a173e3)
  (.lf 0))) (.nd (.nd (.lf
  0x360be360753607435f9d35f9c35f9135f9035f3d35f3c35ef735ef635eb135eb035e9735e9635e2f35e2e35dfb35dfa369c1369c0369b9369b8369a3369a23691d3691c3690136900367c7367c636795367943677b3677a36677366763666b3666a366633666236633366323662b3662a365eb365ea365493654836541365403647536474363b9363b8363af363ae363a5363a43639b3639a3607f3607e35fc9)
  (.lf 0)) (.nd (.lf
  0x37ffb37ffa37fe937fe837fe137fe037fd337fd237fc737fc637fb937fb837fad37fac37f8f37f8e37f8537f8437f7137f7037ecb37eca37ea537ea437e6b37e6a373cf373ce373c5373c4373bb373ba373b1373b0373a7373a63739d3739c373933739237389373883737f3737e37375373743736b3736a373613736037357373563734d3734c373433734237339373383732f3732e37325373243731737316)
  (.lf 0)))

def shaAndReads90 : BTree :=
  .nd (.nd (.nd (.lf
  0x4086c4081340812407ff407fe407f7407f6407ef407ee407d3407d24074940748407374073640721407204070f4070e406fb406fa406e1406e0406c9406c8406c1406c0406ab406aa3fa253fa243fa173fa163f98b3f98a3f9493f948402bd402bc40273402724026b4026a40225402244020540204401c3401c240165401644014d4014c40145401444013d4013c40017400164000f4000e3ffff3fffe3ffef)
  (.lf
  0xe2990e2980e2830e2820e26d0e26c0e2570e2560e2410e2400e22b0e22a0e2150e2140e1ff0e1fe0e1e90e1e80e1d30e1d20e1bd0e1bc0e1a70e1a60e1910e1900e17b0e17a0e1650e1640e14f0e14e0e1390e1380e1230e1220e10d0e10c0e0f70e0f60e0e10e0e00e0cb0e0ca0e0b50e0b40e09f0e09e0e0890e088159bb159ba15987159861594d1594c1591315912158d7158d61589b1589a1586315862))
  (.nd (.lf
  0x1f1441f13b1f13a1f1331f1321f1291f1281f11d1f11c1f1111f1101f1071f1061f0fb1f0fa1f0f11f0f01f0e91f0e81f0df1f0de1f0d51f0d41f0c91f0c81f0bf1f0be1f0b51f0b41f0a91f0a81f0a11f0a01f0951f0941f08b1f08a1f07f1f07e1f0771f0761f06d1f06c1f0651f0641f05b1f05a1f3531f3491f33f1f33e1f3311f3271f3261f3191f30f1f3051f2fb1f2f11f2f01f2e31f2d91f2d81f2cb)
  (.lf 0))) (.nd (.nd (.lf
  0x3ed873ed863eaa73eaa63e9f33e9f23f2c33f2bb3f2b13f2b03f28b3f27d3f26b3f2653f25f3f25e3f24d3f23f3f23e3f2353f2343f22d3f22c3f21d3f21c3f2153f2143f20d3f2053f2043f1e13f1e03f1d93f1d83f1cb3f1ca3f1b73f1b63f1af3f1ae3f1973f1963f1533f1523f0db3f0da3f0cf3f0ce3ee0d3ee0c3ee013ee003ed793ed783ed4b3ed4a3ed413ed403ed373ed363ed2f3ed2e3ed253ed24)
  (.lf
  0x35f0e35eca35e4235c5435c533774e3772c376f4376e0376b8376ac376843767a376663765037646376323717c371293710f370ec3ba423b8d03b8283b7a23b7483b6ee3b6503b5423b5063b44a3b2083b17a3b17137eda37e753c3243c2ca3c13e3c1283c11e3c1143c0843c07e3c0743c05c3bf723bf5c3babc3b94f3b7fe3b7fd3c91e3c8f83c8f23c8b43c8943c88e3c8783c8643c8463c8283c8203c5d6))
  (.nd (.lf
  0x28810288002841028400280102800027c1027c002781027800273d0273c026f7026f6026b1026b00266b0266a0262502624025e3025e20259f0259e02559025580251302512024cd024cc0248b0248a0244b0244a0240702406023c1023c00016b0016a001610016000157001560014d0014c001430014200139001380012f0012e00125001240011b0011a00111001100010700106000fd000fc000f3000f2)
  (.lf 0)))

def shaAndReads91 : BTree :=
  .nd (.nd (.nd (.lf
  0x1a4fc1a4f31a4f21a4eb1a4ea1a4e11a4e01a4d71a4d61a4cd1a4cc1a4c31a4c21a4b91a4b81a4ad1a4ac1a4a51a4a41a49b1a49a1a4911a4901a4871a4861a47d1a47c1a4731a4721a4671a4661a45f1a45e1a4551a4541a44b1a44a1a4411a4401a4371a4361a42d1a42c19df119df019dad19dac19d6719d6619d1919d1819ccd19ccc1a8271a8261a81d1a81c1a8151a8141a80b1a80a1a8011a8001a7f7)
  (.lf
  0x2cb412cb1f2cb0f2caf72cae52cad12caad2cab72ca8b2ca8d2ca632ca512ca6f2ca3f2ca1b2ca252ca092c9ed2c1c72c1912c1552c0e52dfa22df742ded82deba2dea42de642df222defc2de362de002de022de0e2ddda2ddca2ddb22dd9c2dd862dd882dd562dd422dd642dd282dd142d3d02d3d22d3d42d4362d3982d3022d1ca2d1cc2cfe42dfa32df752ded92debb2dea52de652df232defd2de372de01))
  (.nd (.lf
  0xc9090c9080c8ff0c8fe0c8f50c8f40c8eb0c8ea10ea110ea010e8310e8210e6110e6010e4310e4210e2310e2210e0110e0010ddf10dde10dbd10dbc10d9b10d9a10d7d10d7c10d5d10d5c10d3b10d3a10d1910d1810cf710cf610cd510cd410cb710cb610c9b10c9a10c7b10c7a10c5d10c5c10c4110c4010c2510c2410c0510c0410be310be210bc110bc010b9f10b9e10b8110b8010b6510b6410b4910b48)
  (.lf 0))) (.nd (.nd (.lf
  0x2dcbf2dcbe2dcb32dcb22dcab2dcaa2dca12dca02dc972dc962dc8b2dc8a2dc7f2dc7e2dc772dc762dc692dc682dc5f2dc5e2dc572dc562dc4b2dc4a2dc412dc402dc372dc362dc2f2dc2e2dc272dc262dc1b2dc1a2dc112dc102dc092dc082dbfd2dbfc2dbf32dbf22dbe92dbe82dbe12dbe02e7cb2e7ca2e7ad2e7ac2e7452e7442e7012e7002e6bb2e6ba2e67b2e67a2e63f2e63e2e6012e6002e5bb2e5ba)
  (.lf 0)) (.nd (.lf
  0x2bfad2bfac2bf972bf962bf812bf802bf6b2bf6a2bf552bf542bf3f2bf3e2bf292bf282bf132bf122befd2befc2bee72bee62bed12bed02bebb2beba2bea52bea42be8f2be8e2be792be782be632be622be4d2be4c2c0c12c0c02c0ab2c0aa2c0952c0942c07f2c07e2c0692c0682c0532c0522c03d2c03c2c0272c0262c0112c0102bffb2bffa2bfe52bfe42bfcf2bfce2bfb92bfb82bfa32bfa22bf8d2bf8c)
  (.lf 0)))

def shaAndReads92 : BTree :=
  .nd (.nd (.nd (.lf
  0x5407054090540b0540d048f10602506027060290602b0602d0602f06031060330603506037060390603b0603d0603f06041060430604506047060490604b0604d0604f06051060530605506057060590605b0605d0605f06061060630556106c9f06ca106ca306ca506ca706ca906cab06cad06caf06cb106cb306cb506cb706cb906cbb06cbd06cbf06cc106cc306cc506cc706cc906ccb06ccd06ccf06cd1)
  (.lf
  0xeeb50eeb40eeab0eeaa0eea10eea00ee970ee960ee8d0ee8c0ee830ee820ee790ee780ee6f0ee6e0ee650ee640ee5b0ee5a0ee510ee500ee470ee460ee3d0ee3c0ee330ee320ee290ee280ee1f0ee1e0ee150ee140ee0b0ee0a0ee010ee000edf70edf60eded0edec0ede30ede20edd90edd81a3d51a3d41a3a11a3a01a3651a3641a3271a3261a2e91a2e81a2ab1a2aa1a26d1a26c1a22f1a22e1a1f51a1f4))
  (.nd (.lf
  0x2235a223512235022347223462233d2233c223332233222329223282231f2231e22315223142230b2230a222fd222fc221d5221d4221cb221ca221c3221c2221bb221ba221b1221b022b8122b8022b7722b7622b6f22b6e22b6522b6422b5722b5622b4d22b4c22b4522b4422b3d22b3c22b3522b3422b2522b2422b1b22b1a22b0f22b0e22b0522b0422af922af822af122af022abb22aba22aab22aaa22a9b)
  (.lf 0))) (.nd (.nd (.lf
  0x17ae0176f0176e0172f0172e01eb301eb201e6d01e6c01e2701e2601ddf01dde01d9f01d9e01d5f01d5e01d2101d2001cd901cd801c9901c9801c5b01c5a01c1501c1401bcd01bcc01b8f01b8e01b4901b4801b0301b0201abb01aba01a7d01a7c01a3501a34019f5019f4019b5019b401977019760192f0192e018ef018ee018b1018b001869018680182901828017eb017ea017a3017a2017630176201723)
  (.lf
  0x10180101a0101c0101e01020010220102401026010280102a00fed00fef00ff100ff300ff500ff700ff900ffb00ffd00fff01001010030100501007010090100b0100d0100f01011010130101501017010190101b0101d0101f01021010230102501027010290102b005bb005ba005b1005b0005a7005a60059d0059c005930059200589005880057f0057e00575005740056b0056a00561005600055700556))
  (.nd (.lf
  0x5a0705a06059c1059c00597b0597a0593505934058ef058ee058ad058ac0586d0586c0582d0582c057ed057ec057ad057ac05769057680572705726056e3056e2056a1056a00565d0565c0561b0561a055db055da0559f0559e02b4702b4602b0d02b0c02ac702ac602a7f02a7e02a4102a40029f9029f8029bb029ba02975029740292f0292e028e7028e6028a7028a602867028660282702826027e7027e6)
  (.lf 0)))

def shaAndReads93 : BTree :=
  .nd (.nd (.nd (.lf
  0x22f8022f7722f7622f6d22f6c22f6322f6222f5722f5622f4b22f4a22e3522e3422e2b22e2a22de322de222dcd22dcc22dbb22dba22da922da822d5322d5222d3122d3022d0722d0622ccf22cce22cc522cc422cb722cb622c5722c5622c1922c1822bfd22bfc22bb922bb822ad322ad2229e7229e6229b1229b023dc923dc823dbf23dbe23d9d23d9c23d3723d3623d2d23d2c23d2323d2223d1923d1823cdb)
  (.lf
  0x3f5ed3f6733f39b3f37b3f36b3f3f53f3493f3373f3193f2f13f2df3f1ab3f17d3f10f3f0f13f4e13ee473ee433edaf3eaa13ea173eacf409b24098c409784095c409da40b124092640904408e4408c040a7e4087840a884080e408304083e407de407584075e407304071c40706406f4406e4406dc406ba4077a3fa3e3fa2a3f97c3f9503f820409b34098d409794095d409db40b134092740905408e5408c1))
  (.nd (.lf
  0x1383713836137e5137e413797137961374713746136f5136f413fe913f9d13f9c13f4b13eff13efe13ead13eac13e5b13e0f13e0e13dbd13dbc13d6b13d6a13d1913d1813cc713c7b13c7a13c2913bdd13b9113b9013b3f13af313aa713aa613a5513a0913a08139b7139b61396513919138cd13881138801382f1382e137dd13791137901373f1373e136ec13355133541334b1334a13341133401333713336)
  (.lf 0))) (.nd (.nd (.lf
  0x31dce31dc331d4b31d4a31d3f31d3e31d1d31d0f31d0e31cf131cf031b2731b1d31b1731b0f318933151b3151a31513315123150931508314ff314fe314f3314f2314e9314e8314df314de314d7314d6314c9314c8314c1314c0314b7314b6314af314ae314a3314a23149931498314913149031489314883147d3147c31475314743146d3146c312ef312ee312e5312e4312db312da312a3312a23126131260)
  (.lf 0)) (.nd (.lf
  0x308ad308ac308a3308a230897308963088d3088c30883308823087b3087a308713087030867308663085930858308513085030849308483083f3083e308313083030827308263081d3081c32cbd32cbc32cb332cb232c9332c9232c7d32c7c32c7532c7432c6932c6832c6132c6032c5732c5632c4d32c4c32c2532c2432bfd32bfc32bd532bd432bb332bb232b9732b9632b7b32b7a32b5732b5632b2f32b2e)
  (.lf 0)))

def shaAndReads94 : BTree :=
  .nd (.nd (.nd (.lf
  0x359303590b3590a358fb358fa358e5358e4358d5358d4358c3358c235891358903587d3587c358753587435865358643585d3585c3585535854358453584435833358323581f3581e3580f3580e3501d3501c3501535014350053500434f3f34f3e34b4934b4836ac936ac836ac136ac036a9536a9436a7536a7436a4f36a4e36841368403682336822367f3367f236743367423672336722366c3366c23667f)
  (.lf
  0x400c24002040008400443ffe63ffce40058400323fcc83fc6e3fc323fe563fb8e3fb9e3fb443face3fa703fa4a3f9fa3f9643f9443f82e41486412f6412cc412b641116410ca41094410ce4105c4103c410224115e410664105840f4640f6040e1640dfe40db64064a406384061c4060a40602405de405ca405ea405464054c4050c404f2401ba103f5103f4103a3103a21034110340102e5102e41028910288))
  (.nd (.lf
  0x198c6198bd198bc198b3198b2198a9198a81989f1989e19895198941988b1988a198811988019877198761986d1986c198631986219859198581984f1984e19845198441983b1983a198311983019827198261981d1981c19813198121980919808197ff197fe197f5197f41abad1abac1aba31aba21ab991ab981ab8f1ab8e1ab851ab841ab7b1ab7a1ab711ab701ab671ab661ab5d1ab5c1ab531ab521ab49)
  (.lf 0))) (.nd (.nd (.lf
  0x3bab53bab43ba293ba283b9433b9423b8513b8503b7d13b7d03b78b3b78a3b7253b7243c8193c8183c80d3c80c3c8013c8003c7f53c7f43c7e33c7e23c7d73c7d63c7cd3c7cc3c7b93c7b83c7b13c7b03c7953c7943c7833c7823c74b3c74a3c7413c7403c7333c7323c72b3c72a3c7093c7083c6e73c6e63c6dd3c6dc3c6893c6883c67d3c67c3c6733c6723c66b3c66a3c63d3c63c3c5b93c5b83c5313c530)
  (.lf
  0x18cf719c871ac691befd1cbe11f0551f91120cc9215c12299d23329245cd257932692127a8728c8929dff2af512c1272cfd32e1572f32b307653163d327a3339f734aab35c6336de33b01f3b7f53c3cd3d13b3ded73e9bd3f7f9401ab410b5011dc00b0d0174503195049250560b061ed07ab509ff10c0e50f9031463b160d516df717d6318dc71cefb1f94b23523269a527b132c14f2d2f32e90b3186933a05))
  (.nd (.lf
  0x3a4873a4863a47b3a47a3a46f3a46e3a4633a4623a4573a4563a4453a4443a3f53a3f43a3e93a3e83a3e13a3e03a3d53a3d43a3cd3a3cc3a6ff3a6fe3a6f53a6f43a6e13a6e03a6d93a6d83a6c73a6c63a68b3a68a3a6813a6803a6773a6763a66d3a66c3a6413a6403a6393a6383a6113a6103a6073a6063a5fd3a5fc3a5eb3a5ea3a5e13a5e03a5d33a5d23a5ad3a5ac3a5a33a5a23a59b3a59a3a5913a590)
  (.lf 0)))

def shaAndReads95 : BTree :=
  .nd (.nd (.nd (.lf
  0x12342123311233012325123241231d1231c12313123121230912308122fd122fc122f5122f4122eb122ea122df122de122d7122d6122cd122cc122c3122c2122b9122b8122ad122ac1229f1229e12297122961228d1228c12283122821227912278122711227012263122621225912258122511225012247122461223d1223c12233122321222b1222a1199711996131d3131d2131cb131ca131c1131c0131b7)
  (.lf
  0x1b6ed1b6d31b69f1b6a11b6a31b6a51b6a71b65f1b6251b6271b6291b62b1b62d1b62f1b5d71b3df1b3931b3951b3971b3991b39b1b39d1c8321c7ee1c7b81c7701c7341c6da1c6a21c64e1c6141c5be1c5981c5461c5261c4ee1c4cc1c46e1c49c1c3be1c29a1c23a1c2081c1b01c17e1c12a1c0f21c09a1c0641c00a1bfd81bf8e1bf481bee81c8331c7ef1c7b91c7711c7351c6db1c6a31c64f1c6151c5bf))
  (.nd (.lf
  0x7cf607cb907cb807c7307c7207c2b07c2a07beb07bea07bab07baa07b6b07b6a07b2b07b2a07aeb07aea07aab07aaa0ae3f0ae3e0ae230ae220ae070ae060adeb0adea0adcf0adce0adb30adb20ad970ad960ad7b0ad7a0ad5b0ad5a0ad390ad380ad1b0ad1a0acfb0acfa0acd90acd80acb70acb60ac950ac940ac750ac740ac530ac520ac330ac320ac110ac100abed0abec0abcd0abcc0abb10abb00ab95)
  (.lf 0))) (.nd (.nd (.lf
  0x29f4829f4129f4029edb29eda29ec529ec429ded29dec29de129de02a19f2a19e2a1932a1922a1672a1662a1512a1502a1472a1462a13d2a13c2a1312a1302a1272a1262a11d2a11c2a10d2a10c2a0b32a0b22a0a92a0a82a09d2a09c2a06b2a06a2a0532a0522a0452a0442a0252a0242a01b2a01a2a0112a0102a0072a00629ff929ff829f8d29f8c29f8529f8429f7b29f7a29f7129f7029eeb29eea29ed1)
  (.lf 0)) (.nd (.lf
  0x25653256522563d2563c25627256262561125610255fb255fa255e5255e4255cf255ce255b9255b8255a3255a22558d2558c255772557625561255602554b2554a25535255342551f2551e2550925508254f3254f2254dd254dc254c7254c625059250582504f2504e25045250442503b2503a250312503025027250262501d2501c2501325012250092500824fff24ffe24ff524ff424feb24fea24fe124fe0)
  (.lf 0)))

def shaAndReads96 : BTree :=
  .nd (.nd (.nd (.lf
  0x3b6853b6193b5f13b5af3b56d3b5153b4e33b49d3b4633b4213b3df3b3bb3b2dd3b2cd3b2bd3b2ab3b2f93b2433b1fd3b18d3b1a5399ab37e853c4713c38b3c41d3c36b3c3013c2dd3c3a33c29b3c2753c2533c1f53c2293c1ad3c1873c1793c16b3c1553c1b93c09d3c0673c0493bfc33bfa33bfad3bf813bc1d3bb553bacf3b9dd3b9753b8b33b80b3b8093d2453d1f33d1d73d2793d1ad3d1633d10d3d0f5)
  (.lf
  0x13715137141e9631e9621e94d1e94c1e9371e9361e9211e9201e90b1e90a1e8f51e8f41e8df1e8de1e8c91e8c81e8b31e8b21e89d1e89c1e8871e8861e8711e8701e85b1e85a1e8451e8441e82f1e82e1e8191e8181e8031e8021e7ed1e7ec1e7d71e7d61e7c11e7c01e7ab1e7aa1e7951e7941e77f1e77e1e7691e7681e7531e7521e73d1e73c1e7271e7261e7111e7101e6fb1e6fa1e6e51e6e4239e9239e8))
  (.nd (.lf
  0x28519285182850f2850e2850528504284fb284fa284f1284f0284e7284e6284dd284dc284d3284d2284c9284c8284bf284be284b5284b4284ab284aa284a1284a028497284962848d2848c284832848228479284782846f2846e28465284642845b2845a284512845028447284462843d2843c284332843228429284282841f2841e284152841428e5728e5628e4b28e4a28e3d28e3c28e3128e3028e2528e24)
  (.lf 0))) (.nd (.nd (.lf
  0xc65c0c6530c6520c6490c6480c6410c6400c6350c6340c62b0c62a0c61f0c61e0c6170c6160c60d0c60c0c6030c6020c5fb0c5fa0c5e50c5e40c5db0c5da0c5cf0c5ce0c5c70c5c60c5bd0c5bc0c5b30c5b20c5ab0c5aa0c5a10c5a00c5970c5960c5890c5880c5810c5800c5770c5760c56d0c56c0c5650c5640c55b0c55a0c5510c5500c5450c5440c53b0c53a0c5310c5300c5270c5260c51f0c51e0c515)
  (.lf
  0x15bdd15bdf15be115be315be515be715be915beb15bed15bef15ab515ab715ab915abb15ad115a4115a1915a1b15a1d15a1f159e1159e3169381693a1693c1693e16956168ee1688016882168841688616888168401682a167fe168001680216804167cc165d01659a1659c1659e165a0165a2165a416550164fa164fc164fe16500169b016502169391693b1693d1693f16957168ef16881168831688516887))
  (.nd (.lf
  0xa44b0a44a0a41f0a41e0a3f10a3f00a3c70a3c60a39f0a39e0a3730a3720a34d0a34c0a3210a3200a2fb0a2fa0a2cf0a2ce0a2a50a2a40a2770a2760a24d0a24c0a21f0a21e0a1f90a1f80a1d10a1d00a1a90a1a80a17f0a17e0a1570a1560a1290a1280a0ff0a0fe0a0d50a0d40a0ad0a0ac0a0830a0820a05b0a05a0a02d0a02c0a0030a00209fd909fd809fb909fb8075cf075ce0758b0758a0754d0754c)
  (.lf 0)))

def shaAndReads97 : BTree :=
  .nd (.nd (.nd (.lf
  0x317f83168f3168e3165f3165e32251322503223b3223a32159321583214f3214e3213d3213c3212d3212c32125321243210b3210a320fd320fc320f5320f43202f3202e31fbb31fba31e9931e9831e2b31e2a31e2331e2231e1931e1831d7531d7431d5531d5431d1731d1631d0931d0831cdb31cda31c6331c6231c5b31c5a31c2f31c2e31c2731c2631c1d31c1c31c1331c1231a1931a18316a1316a03164f)
  (.lf
  0x3211031ff63221431e8e31e4631e5231e3a31d6c31d3031d3231d0031ce031c6631c4231c4a31c3031c3231cca317ee316963166a3163633486334883348a3348c33442333f0333e2333c8333ca333cc3331c3333c3334c33284331fe331ec3319c331483313e3310a330ec32fcc32fbe32faa32f9a32f3c32936328a83289032880327da327b034882347ac346d6347123460a346f2345e6344ae344ba34464))
  (.nd (.lf
  0x1923a191fb191fa191bb191ba1917b1917a1913d1913c190f9190f8190b3190b21907119070190311903018fed18fec18fab18faa18f6b18f6a18f2718f2618ee118ee018e9b18e9a18e5518e5418e0f18e0e18dcd18dcc18d8d18d8c18d5118d5018d1718d16194431940d1940c193d1193d0193951935f19329192f1192b51927519235191f5191b5191751913719136190f1190f0190ab1906b1902b1902a)
  (.lf 0))) (.nd (.nd (.lf
  0x3b03e3b0373b0363b02d3b02c3b0253b0243bbb53bbb43bafb3bafa3ba433b98d3b98c3b8d13b8293b7a33b7493b6ef3b69f3b69e3b6513b60d3b60c3b5c73b5c63b5833b5823b5433b5073b4cb3b4ca3b48b3b48a3b44b3b40f3b40e3b3cf3b3ce3b2933b2923b2873b2863b27b3b27a3b26b3b26a3b2613b2603b2113b2103b2093b17b3b1703b0173b0163b00d3b00c3b0033b0023aff93aff83afef3afee)
  (.lf 0)) (.nd (.lf
  0x39b2d39b2c39b2539b2439b1d39b1c39b1339b1239b0739b0639afb39afa39aef39aee39ad939ad839aab39aaa39a9539a9439a8b39a8a39a7139a7039a5739a5639a1139a1039a0939a08399fd399fc399ed399ec399d9399d8399753997439969399683995d3995c3995539954399493994839c3139c3039c2739c2639c1d39c1c39c1339c1239c0939c0839bff39bfe39bf539bf439beb39bea39be139be0)
  (.lf 0)))

def shaAndReads98 : BTree :=
  .nd (.nd (.nd (.lf
  0x402964025b4025a4025140250401f9401f8401e5401e4401d9401d8401cf401ce401c5401c4400c7400c64008d4008c40085400844007b4007a400734007240069400684005b4005a4003f4003e3fcdd3fcdc3fc813fc803fc453fc443fc393fc383fbaf3fbae3fb953fb943fb553fb543fad33fad23fa7f3fa7e3fa553fa543fa013fa003f9e53f9e43f9db3f9da3ff6f3ff6e3ff653ff643ff5b3ff5a3ff53)
  (.lf
  0x17e9f17e9e17e5917e5817e1717e1617dd317dd217d9117d900eb270eb260eb1d0eb1c0eb130eb120eb090eb080eaff0eafe0eaf50eaf40eaeb0eaea0eae10eae00ead70ead60eacd0eacc0eac30eac20eab90eab80eaaf0eaae0eaa50eaa40ea9b0ea9a0ea910ea900ea870ea860ea7d0ea7c0ea730ea720ea690ea680ea5f0ea5e0ea550ea540ea4b0ea4a0ea410ea400ea370ea360ea2d0ea2c0ea230ea22))
  (.nd (.lf
  0x20fd120f2320f0120f0020eeb20e7520e6320e6220dde2076d2076c207632076220759207582074f2074e20745207442073b2073a207312073020727207262071d2071c20713207122070920708206ff206fe206f5206f4206eb206ea206e1206e0206d9206d8206cf206ce206c5206c4206bb206ba206af206ae206a7206a62069d2069c206932069220689206882067f2067e205c5205c4205bb205ba205b1)
  (.lf 0))) (.nd (.nd (.lf
  0x40cdf40cde40cd340cd240ccb40cca40cc140cc040cb740cb640cab40caa40c9b40c9a40c8f40c8e40c8740c8640c7d40c7c40c6d40c6c40c6540c6440c4940c4840ba340ba240b9b40b9a40b9340b9240b8740b8640b7b40b7a40b5740b5640b1940b1840a9540a94409d5409d4408f3408f2417c1417c0417b7417b6417ab417aa4179b4179a417914179041787417864177b4177a4176f4176e4176341762)
  (.lf
  0x3f3db3f3cb3f3ef3f3ab3f2a33f1f73f1633f1413f1333f1913eea53ee573edb73ea953ea073ea573ea4f0f8e50f8df0f8c820a0916d8f0cf5e17d3711969119502268b18ceb0d7ee19c7b136d1136bc243091ac5d10ec6254b51bc15152de2663f1cbd312c58277d11db7f16d962897b1dd5b17d3e29b112081f18cf22ac8f1e21719c822be31224a11ac642cfcd1e6d31bed62e15d238bd1cbda2f2ed1eedc))
  (.nd (.lf
  0x3f9103f5103f1103ed103ed003e8b03e4b03e0b03e0a03dc503d8503d8403d3f03d3e03cf903cb803ae703ae603add03adc03ad303ad203ac903ac803abf03abe03ab503ab403aab03aaa03aa103aa003a9703a9603a8d03a8c03a8303a8203a7903a7803a6f03a6e03a6503a6403a5b03a5a03a5103a5003a4703a4603a3d03a3c03a3303a3203a2903a2803a1f03a1e03a1503a1403a0b03a0a03a0103a00)
  (.lf 0)))

def shaAndReads99 : BTree :=
  .nd (.nd (.nd (.lf
  0x1fb181fadd1fadc1faa51faa41fa791fa781f9e11f9e01f9991f9981f93d1f93c200132001220009200081ffff1fffe1fff31fff21ffe51ffe41ffdd1ffdc1ffd11ffd01ffc91ffc81ffbf1ffbe1ffb51ffb41ffa91ffa81ff9d1ff9c1ff911ff901ff891ff881ff7f1ff7e1ff6d1ff6c1ff5d1ff5c1ff531ff521ff471ff461ff351ff341fbb51fbb41fb811fb801fb491fb481fb0b1fb0a1fad51fad41fab3)
  (.lf
  0x378fb37a3b378df378c537ae5378a93787f3788b378673784d3783b378273781737803377f1377e53789b373ef373db3713f37105371253bbc23bb923ba783ba343b8ea3b83c3b7c43b77e3b7003b6e23b6743b63c3b5e63b59c3b5623b53e3b4f23b4b43b4843b43a3b3fc3b3a83b3643b3763b34a3b3263b3343b21e3b2563b1d23b1c237e7c3bbc33bb933ba793ba353b8eb3b83d3b7c53b77f3b7013b6e3))
  (.nd (.lf
  0xdbba0db990db980db770db760db550db540db330db320db110db100daef0daee0dacd0dacc0daab0daaa0da890da880da670da660da450da440da230da220da010da000d9df0d9de0d9bd0d9bc0d99b0d99a0d9790d9780d9570d9560d9350d9340d9130d9120d8f10d8f00d8cf0d8ce0d8ad0d8ac0d88b0d88a0d8690d8680d8470d8460d8250d8240d8030d80212c0712c0612beb12bea12bcb12bca12bad)
  (.lf 0))) (.nd (.nd (.lf
  0x30b9330b9230b8930b8830b5130b5030ab530ab430aad30aac30a5330a5230a4930a4830a4130a40309fb309fa3062f3062e304bd304bc31245312443123d3123c311db311da311c9311c83109f3109e31097310963107d3107c30fdf30fde30fd730fd630f0d30f0c30f0130f0030ef730ef630eb730eb630e1130e1030e0730e0630dff30dfe30cc530cc430cbd30cbc30cb330cb230ca930ca830c9f30c9e)
  (.lf 0)) (.nd (.lf
  0x2e8b52e8b42e8ab2e8aa2e8a12e8a02e8972e8962e88d2e88c2e8852e8842e87b2e87a2e8712e8702e8672e8662e85d2e85c2e8532e8522e8492e8482e83f2e83e2e8352e8342e82b2e82a2e81d2e81c2e7df2e7de2e7a12e7a02e7692e7682e7212e7202e6e32e6e22e69f2e69e2e6512e6502e61b2e61a2e5db2e5da2e5a12e5a02e5632e56230741307403072b3072a306df306de306d3306d2306c7306c6)
  (.lf 0)))

def shaAndReads100 : BTree :=
  .nd (.nd (.nd (.lf
  0x186131861518617186191861b1861d1861f18621186231862518627186291862b1862d1862f18631186331863518637186391863b1863d1863f1bed7186411991d1991f19921199231992519927199291992b199d31992d1992f199311993319935199db19937199391993b1993d1993f19941199431994519947199491994b1994d1994f1995119953199551cbdb199571a82f1a8311a8331a8351a8371a839)
  (.lf
  0x1cc431cc421cc211cc201cbff1cbfe1dcab1dcaa1dca11dca01dc971dc961dc8d1dc8c1dc831dc821dc791dc781dc6f1dc6e1dc651dc641dc5b1dc5a1dc511dc501dc471dc461dc3d1dc3c1dc331dc321dc291dc281dc1f1dc1e1dc151dc141dc0b1dc0a1dc011dc001dbf71dbf61dbed1dbec1dbe31dbe21dbd91dbd81dbcf1dbce1dbc51dbc41dbbb1dbba1dbb11dbb01dba71dba61db9d1db9c1db931db92))
  (.nd (.lf
  0x2471f2471e246e3246e2246db246da2468f2468e2464b2464a24b8524b8424b7924b7824b6d24b6c24b6124b6024b5724b5624b4b24b4a24b3f24b3e24b3524b3424b2b24b2a24a7124a7024a6524a6424a5b24a5a249112491024909249082490124900248f7248f6248ed248ec248e3248e2248d9248d8248b7248b6248ab248aa248a3248a224897248962488d2488c248852488424855248542484d2484c)
  (.lf 0))) (.nd (.nd (.lf
  0x587a0583b0583a057fb057fa057bb057ba0577d0577c0573505734056f7056f6056af056ae05671056700562905628055e9055e8055b1055b0055750557406975069740693906938068f1068f0068b3068b20686b0686a0682d0682c067e7067e60679f0679e0675f0675e0671f0671e066e1066e00669b0669a06655066540660d0660c065cd065cc0658d0658c0654f0654e0650706506064c9064c806483)
  (.lf
  0x5d8905d8b05d8d05d8f05d9105d9305d9505d9705d9905d9b05d9d05d9f05da105da305da505da705da905dab05dad05daf05db105db3069ee069f0069f2069f4069f6069f8069fa069fc069fe06a0006a0206a0406a0606a0806a0a06a0c06a0e06a1006a1206a1406a1606a1806a1a06a1c06a1e06a2006a2206a2406a2606a2806a2a06a2c069ef069f1069f3069f5069f7069f9069fb069fd069ff06a01))
  (.nd (.lf
  0x3f0703f0603ec903ec803e8103e8003e4103e4003e0303e0203dbb03dba03d7d03d7c03d3703d3603cef03cee03cb103cb0075db075da0759d0759c0755b0755a0751707516074d1074d00748f0748e0744f0744e0740f0740e073cf073ce0738f0738e0734f0734e0730f0730e072cf072ce0728b0728a0724507244071ff071fe071b9071b807177071760713307132070f1070f0070ad070ac0706b0706a)
  (.lf 0)))

def shaAndReads101 : BTree :=
  .nd (.nd (.nd (.lf
  0x27bce27bbf27bbe27ba727ba627b9f27b9e27b2127b20293ad293ac293872938629375293742934929348292bf292be292b7292b629285292842927d2927c2925d2925c2924b2924a2922f2922e2920d2920c2920529204291ed291ec291d3291d2291bd291bc291b5291b4291952919429181291802916f2916e2915b2915a2914929148291412914028f4b28f4a28ee728ee628ec928ec828e9728e9628e6f)
  (.lf
  0x116021160411606116081160a1160c1160e11610116121161411616116181161a1161c1161e11620116221162411626116281162a1162c1271412716127181271a1271c1271e12720127221272412726127281272a1272c1272e12730127321273412736127381273a1273c1273e12740127421274412746127481274a1274c1274e12750127521335a1335c1335e13360133621336413366133681336a1336c))
  (.nd (.lf
  0x14f0914f0814eff14efe14ef514ef414eeb14eea14ee114ee014ed714ed614ecd14ecc14ec314ec214eb914eb814eaf14eae14ea514ea414e7714e7614e4914e4814e1d14e1c14df114df014dc514dc414d9914d9814d6d14d6c14d4114d4016459164581643b1643a1641916418163f7163f6163d9163d8163b9163b816397163961637916378163591635816337163361631516314162f3162f2162d1162d0)
  (.lf 0))) (.nd (.nd (.lf
  0x333a234987349863497f3497e349753497434967349663495f3495e34955349543494d3494c349433494234939349383492f3492e34923349223491b3491a34911349103490934908348fd348fc348f5348f4348eb348ea348e3348e2348d9348d8348cf348ce348c5348c4348bb348ba348b1348b0348a7348a63489d3489c347c7347c6347433474234739347383472f3472e3470734706351c7351c6351bd)
  (.lf 0)) (.nd (.lf
  0x361ff361fe361f1361f0361e9361e8361a9361a83619936198361913619036189361883617d3617c36161361603615936158361413614036129361283611136110360e5360e4360d5360d4360c7360c6360b1360b035f7f35f7e35f7735f7635f6f35f6e35f3135f3035eef35eee35ea735ea635e6b35e6a35ddb35dda3521f3521e35217352163520f3520e3520535204351fd351fc351f3351f2351eb351ea)
  (.lf 0)))

def shaAndReads102 : BTree :=
  .nd (.nd (.nd (.lf
  0x3c4103db753db743db573db563db3b3db3a3daf93daf83dacb3daca3dac33dac23da1f3da1e3d9cb3d9ca3d9b13d9b03d9a93d9a83d99b3d99a3d97f3d97e3d9513d9503d9133d9123d8f93d8f83d8bb3d8ba3d8ad3d8ac3d8a53d8a43d89d3d89c3d88d3d88c3d87d3d87c3d8753d8743d7ff3d7fe3d7ef3d7ee3d7dd3d7dc3d7a13d7a03d7893d7883d7693d7683d74d3d74c3d2113d2103df813df803df5f)
  (.lf
  0xd8e10d8e00d8bf0d8be0d89d0d89c0d87b0d87a0d8590d8580d8370d8360d8150d8140dbe30dbe20dbc30dbc20dba10dba00db7f0db7e0db5d0db5c0db3b0db3a0db190db180daf70daf60dad50dad40dab30dab20da910da900da6f0da6e0da4d0da4c0da2b0da2a0da090da080d9e70d9e60d9c50d9c40d9a30d9a20d9810d9800d95f0d95e0d93d0d93c0d91b0d91a0d8f90d8f80d8d70d8d60d8b50d8b4))
  (.nd (.lf
  0x1ca8d1ca8c1ca831ca821ca791ca781ca6f1ca6e1ca651ca641ca5b1ca5a1ca511ca501ca471ca461ca3d1ca3c1ca331ca321ca291ca281ca1f1ca1e1ca151ca141ca0b1ca0a1ca011ca001d15b1d15a1d1511d1501d1451d1441d13b1d13a1d12f1d12e1cffb1cffa1cfef1cfee1cfe31cfe21cfd71cfd61cfcb1cfca1cfbd1cfbc1cfb11cfb01cfa51cfa41cf991cf981cf8d1cf8c1cf811cf801cf751cf74)
  (.lf 0))) (.nd (.nd (.lf
  0x3b9bf3b9be3b9113b9103b8cb3b8ca3b7e73b7e63b7633b7623b7433b7423b6b53b6b43b6953b6943b62b3b62a3b6033b6023b5bf3b5be3b5773b5763b5273b5263b4df3b4de3b4c33b4c23b4693b4683b4293b4283b3eb3b3ea3b3c53b3c43b3933b3923b3893b3883b37f3b37e3b3153b3143b2ff3b2fe3b24b3b24a3b1f53b1f43b1b93b1b83b1af3b1ae3e5bd3e5bc3e5a33e5a23e5933e5923e4c73e4c6)
  (.lf
  0x217162164421406213562134621336212de210d22105e210322100220fd020f2220eea20e7420ddf20d2120cd62206a2204021f4e21ef221e5c21d6a21c7621c2e21c0621b0a21a60216db215fd215e422f1c22f0e22f0622ee222ed822df622dd822dd222db422da022d4822d2422c9822c4e22bf422bec22ac822a00229a7229932298623776237702375e2370c23706236ea236d8236ac236842367223616))
  (.nd (.lf
  0x96e0094d0093100915008f9008f8008d7008bb008ba008990089800877008760085500854008330083200811007f5007d8011d7011d6011cd011cc011c3011c2011b9011b8011af011ae011a5011a40119b0119a011910119001187011860117d0117c011730117201169011680115f0115e01155011540114b0114a011410114001137011360112d0112c011230112201119011180110f0110e0110501104)
  (.lf 0)))

def shaAndReads103 : BTree :=
  .nd (.nd (.nd (.lf
  0x1664c16625166241661b1661a16613166121660916608165ff165fe165f5165f4165ed165ec1652f1652e178b3178b2178a9178a81789f1789e17895178941788b1788a17879178781785b1785a177fb177fa177f1177f0177e7177e6177dd177dc177d3177d2177cb177ca1778f1778e17785177841777b1777a177711777017767177661775f1775e17589175881753f1753e17537175361752d1752c17523)
  (.lf
  0x25da125d3b25d0d25ca925c5925c0b25bf925be525bd125b0f25a9725a4d25a0d259d52599f25967258e3258a72587125837257f52579f270bc2708a2702a2701626fbe26f4e26f1426edc26e8626e5826df026dde26dcc26d3c26d1426cf826cc026c9c26c7226c6026bc826b7e26b6a26b5226b0626ae226aaa26a4826a4a26a4c269a026914270bd2708b2702b2701726fbf26f4f26f1526edd26e8726e59))
  (.nd (.lf
  0xc10e0c0ed0c0ec0c0cd0c0cc0c0b10c0b00c43f0c43e0c41d0c4010c3e50c3c90c3ad0c38f0c38e0c36b0c36a0c3470c3290c30b0c30a0c2e70c2e60c2c50c2a90c2a80c2870c2860c2650c2640c2430c2420c2210c2200c1ff0c1fe0c1dd0c1c10c1a50c1890c1880c1670c14b0c14a0c1290c1280c1070c1060bf150bf140bf0b0bf0a0bf010bf000bef70bef60beed0beec0bee30bee20bed90bed80becf)
  (.lf 0))) (.nd (.nd (.lf
  0x2c5222c5152c5142c4af2c4a12c4972c4962c4892c45f2c4492c4482c4392c42f2c42e2c3f72c3f62c3df2c3de2c3cb2c3b72c3b62c2ab2c2892c26f2c2472c2272c20d2c1e52c1e42c1b12c1b02c17d2b9a12b9a02b9992b9982b98f2b98e2b9852b9842b9792b9782b9712b9702b9672b9662b95d2b95c2b9532b9522b9492b9482b9412b9402b9372b9362b92d2b92c2b9212b9202b9192b9182b9112b910)
  (.lf 0)) (.nd (.lf
  0x29d9529d9429d7f29d7e29d6929d6829d5329d5229d3d29d3c29d2729d2629d1129d1029cfb29cfa29ce529ce429ccf29cce29cb929cb829ca329ca229c8d29c8c29c7729c7629c6129c6029c4b29c4a29c3529c3429c1f29c1e29c0929c0829bf329bf229bdd29bdc29bc729bc629bb129bb029b9b29b9a29b8529b8429b6f29b6e29b5929b5829b4329b4229b2d29b2c29da129da029d8b29d8a29d7529d74)
  (.lf 0)))

def shaAndReads104 : BTree :=
  .nd (.nd (.nd (.lf
  0x282c7282c9282cb282cd282872826f2827728257282592825b2822b280b92805727fdf27fb127e6127e2727bc727bb727bab27b9127b632c0d327aed2975129741296cf296bd296a1296a32966b2966d2962f295fd295ef295f129617295bf296492959d2959529571295732963d29575295432950d2950f295272951129513294d728e7d28ce928ca12cfd928c832a4b72a4992a4892a4792a46b2a4192a3f1)
  (.lf
  0x20b8920b8820b7320b7220b5b20b5a20b4320b4220b2b20b2a20b1320b1220afb20afa20ae320ae220acd20acc20ab720ab620a9f20a9e20a8920a8820a7320a7220a5d20a5c20a4720a4620a3120a3020a1b20a1a1e4af1e4ae1e49b1e49a1e4851e4841e46f1e46e1e4591e4581e4431e4421e42d1e42c1e4171e4161e4011e4001e3eb1e3ea1e3d51e3d41e3bf1e3be1e3a91e3a81e3931e3921e37d1e37c))
  (.nd (.lf
  0x260552605426fa526fa426f9926f9826f8f26f8e26f8326f8226f7526f7426e3526e3426e2b26e2a26e2326e2226e0f26e0e26d6726d6626d5d26d5c26d5526d5426c2f26c2e26c2326c2226c1926c1826c0f26c0e26c0526c0426bb326bb226ba926ba826ba126ba026b9926b98269d3269d2269c7269c6269bf269be26975269742696d2696c269612696026959269582694d2694c26941269402707527074)
  (.lf 0))) (.nd (.nd (.lf
  0x9a1c099df099de099970999609959099580991109910098d1098d0098910989009851098500981309812097cd097cc097850978409745097440970509704096c7096c609681096800963b0963a095f5095f4095af095ae09567095660952909528094e3094e20949d0949c09455094540941509414093d5093d40939509394093570935609adf09ade09a9709a9609a5909a5809a1109a10099d3099d20998b)
  (.lf
  0xbc7f0bc810bc830bc850bc870bc890bc8b0bc8d0bc8f0bc910bc930bc950bc970bc990bc9b0bc9d0bc9f0bca10bca30bca50bca70bca90c7620c7640c7660c7680c76a0c76c0c76e0c7700c7720c7740c7760c7780c77a0c77c0c77e0c7800c7820c7840c7860c7880c78a0c78c0c78e0c7900c7920c7940c7960c7980c79a0c79c0c79e0c7a00c7630c7650c7670c7690c76b0c76d0c76f0c7710c7730c775))
  (.nd (.lf
  0x879e0875908758087130871205d0505d0405cc905cc805c8b05c8a05c4305c4205c0305c0205bc505bc405b7d05b7c05b3d05b3c05afd05afc05abf05abe05a7905a7805a3305a32059ed059ec059a7059a605961059600591b0591a058d3058d2058930589205853058520581305812057d3057d205795057940574d0574c0570f0570e056c7056c6056890568805641056400560105600055c9055c80558d)
  (.lf 0)))

def shaAndReads105 : BTree :=
  .nd (.nd (.nd (.lf
  0x2dde22ddc52ddc42ddbd2ddbc2dda92dda82dd7f2dd7e2dd772dd762dd6d2dd6c2dd4b2dd4a2dd392dd382dd312dd302dd1f2dd1e2dd0d2dd0c2d3c32d3c22d3b92d3b82d3af2d3ae2d3a72d3a62d30f2d30e2d1db2d1da2d19f2d19e2db932db922db892db882db2d2db2c2dae12dae02dad92dad82da7d2da7c2da5b2da5a2da232da222d9f72d9f62d9db2d9da2d99d2d99c2d7352d7342d71f2d71e2d6e9)
  (.lf
  0x214c2214b8214ae214a42149a2149021102210b2210b4210902102020ff420f4e20f3e20f2e20e9e20e8e20e2420e1420d7020d3020d26221ec2212c220b4220b62200621fa621fa821f3221eee21ea821dba21d5c21d3421d0a21cba21c4a21bf821bd621b6e21b2221ae021aa821aaa21a0a219ba21970219382193a216d22162e216302163222fec22fee22fc822fa222fa422fa622fa822faa22fac22fae))
  (.nd (.lf
  0x172bb172851724d1724c1720f1720e171d3171d217197171961715b1715a1711f170e9170b3170b21707717041170401700316fcb16f9516f5f16f5e16f2316eed16eec16eb116e7b16e7a16e3716aef16aee16ae516ae416adb16ada16ad116ad016ac716ac616abd16abc16ab316ab216aa916aa816a9f16a9e16a9516a9416a8b16a8a16a8116a8016a7716a7616a6d16a6c16a6316a6216a5916a5816a4f)
  (.lf 0))) (.nd (.nd (.lf
  0x357d2357c9357c8357bf357be357b5357b4357ab357aa357a1357a035797357963578d3578c3577f3577e35775357743576b3576a357633576235759357583574f3574e35745357443573b3573a357313573035727357263571d3571c3571535714356cf356ce35679356783562335622355eb355ea355c3355c23559d3559c355693556836cc736cc636cbd36cbc36cb136cb036ca936ca836c9f36c9e36c95)
  (.lf 0)) (.nd (.lf
  0x3860338602385f7385f6385ef385ee385e1385e0385ad385ac385a5385a4385793857838571385703856538564389a9389a8388fd388fc388ef388ee388e7388e6388dd388dc388d1388d0388bb388ba388b1388b0388a7388a63889f3889e38895388943888b3888a38881388803886b3886a3879f3879e387953879438789387883877d3877c38775387743876b3876a387613876038755387543874b3874a)
  (.lf 0)))

def shaAndReads106 : BTree :=
  .nd (.nd (.nd (.lf
  0x40ea640e9340e9240e8340e8240c5740c5640c4140c4040c0740c0640bf140bf040bcf40bce40bbf40bbe40b7340b7240b3b40b3a40adb40ada40ab740ab640a0940a08409ff409fe4130741306412e9412e8412c5412c44116541164410e3410e241099410984108741086410554105441041410404102d4102c4101741016410074100640ff940ff840f3b40f3a40f2740f2640e1140e1040e0740e0640db1)
  (.lf
  0xe50f0e50e0e5050e5040e4fb0e4fa0e4f10e4f00e4e70e4e60e4dd0e4dc0e4d30e4d20e4c90e4c80e4bf0e4be0e4b50e4b40e4ab0e4aa0e4a10e4a00e4970e4960e48d0e48c0e4830e4820e4790e4780e46f0e46e0e4650e4640e45b0e45a0e4510e4500e4470e446159b3159b21597d1597c15943159421590915908158cd158cc158911589015859158581582315822157e9157e8157b1157b01577515774))
  (.nd (.lf
  0x1d8171d8161d80d1d80c1d7d11d7d01d7951d7941d78b1d78a1d7811d7801d7771d7761d76d1d76c1d7631d7621d7591d7581fe7b1fe7a1fe351fe341fe131fe121fdf31fdf21fdd51fdd41fdb31fdb21fd8f1fd8e1fd6b1fd6a1fd471fd461fd271fd261fd051fd041fce11fce01fcc11fcc01fc9f1fc9e1fc7b1fc7a1fc571fc561fc371fc361fc191fc181fbfb1fbfa1fa631fa621fa531fa521fa471fa46)
  (.lf 0))) (.nd (.nd (.lf
  0x3fdad3fdac3fd993fd983fd693fd683fd5f3fd5e3fd4d3fd4c3fd393fd383fd253fd243fd073fd063fcf73fcf63fce33fce23fc973fc963fc8f3fc8e3fc4f3fc4e3fbd53fbd43fb0f3fb0e3fb033fb023fafb3fafa3fae73fae63f9c33f9c23f8f93f8f83f8db3f8da3f87f3f87e3f8453f8443dd853dd843dd7b3dd7a3dd713dd703dd633dd623dd5b3dd5a3dd533dd523dd493dd483dd3f3dd3e3dd333dd32)
  (.lf
  0x3ffa63ffa03ff8e3ff883ff823fc623fb6a3fb643f9223f8a43f8513f8143f8114128e40fa840f6c40f3240de6405b0405a8405a240528409f8404dd401b341b5e41afa41af241ad241aca41a6641a6041a584170041668416444158a413624135c4123e410dd010aa0150a0213002d34039ba0462a0529c05ef206b6c077ba0840e0906c09cdc0a7700b2e60bde80c8e0108fe113b61251a13158141f014d14))
  (.nd (.lf
  0x2777027760273302732026ed026ec026a7026a602661026600261b0261a025d9025d802595025940254f0254e0250902508024c3024c202481024800244102440023fd023fc023b7023b602b4f02b1502b1402acf02ace02a8902a4902a4802a03029c3029c20297d0297c0293702936028f1028b10287102831027f1027b102771027700272b0272a026e5026e40269f0269e026590265802613025d3025d2)
  (.lf 0)))

def shaAndReads107 : BTree :=
  .nd (.nd (.nd (.lf
  0x1b70e1b7051b7041b6e71b6e61b6df1b6de1b6c91b6c81b68b1b68a1b6831b6821b6791b6781b66f1b66e1b65b1b65a1b6511b6501b6111b6101b6071b6061b5fd1b5fc1b5f31b5f21b5e91b5e81b5df1b5de1b3db1b3da1b3d11b3d01ad791ad781ad331ad321acf11acf01acaf1acae1b5c71b5c61b5ad1b5ac1b5a31b5a21b57b1b57a1b5711b5701b5671b5661b55d1b55c1b5531b5521b5431b5421b519)
  (.lf
  0x2eccb2ecab2ec492ec3f2ebef2ebbb2eb972eb712eb392eb012ead32eaa12ea972ea3f2ea012e9d92e9892e9b92e92d2e9592e8fd2e23b302a6302822fff82ff882ffa02ffda2ffba2ff662fefe2ff182ff4e2ff3c2fe322fbee2fbda2fbc82fbb42fba02fb8c2fb782fb642fb522fb402fb2e2fb1c2fb0a2fc042faf22fade2facc2faba2f306302a7302832fff92ff892ffa12ffdb2ffbb2ff672feff2ff19))
  (.nd (.lf
  0x10e9910e9810e7910e7810e5710e5610e3910e3810e1910e1810df710df610dd510dd410db310db210d9110d9010d7310d7210d5310d5210d3110d3010d0f10d0e10ced10cec10ccb10cca10cad10cac10c9110c9010c7110c7010c5310c5210c3710c3610c1b10c1a10bfb10bfa10bd910bd810bb710bb610b9510b9410b7710b7610b5b10b5a10b3f10b3e10b2310b2210b0310b0210e9310e9210e7110e70)
  (.lf 0))) (.nd (.nd (.lf
  0x2e5092e5082e4e32e4e22e47d2e47c2e45b2e45a2e43d2e43c2e4112e4102e3ed2e3ec2e3d32e3d22e3af2e3ae2e38b2e38a2e3712e3702e3472e3462e32b2e32a2e30b2e30a2e2ef2e2ee2e2e52e2e42e2db2e2da2e2c72e2c62e2512e2502efc32efc22efbb2efba2ee9d2ee9c2ee932ed812ed802ed792ed732ed052ecff2ecc12ecbb2ec232ec222ec1b2ec1a2ec112ec102ebdd2ebad2eb292eb212eb20)
  (.lf 0)) (.nd (.lf
  0x2bcc92bcc82bcbf2bcbe2bcb52bcb42bcab2bcaa2bca12bca02bc972bc962bc8d2bc8c2bc832bc822bc792bc782bc6f2bc6e2bc652bc642bc5b2bc5a2bc512bc502d1472d1462d13d2d13c2d12d2d12c2d1232d1222d1172d1162d10f2d10e2d1032d1022d0f72d0f62d0eb2d0ea2d0df2d0de2d0d32d0d22d0cb2d0ca2d0c12d0c02d0b52d0b42d0a92d0a82d09d2d09c2d0932d0922d0872d0862d0752d074)
  (.lf 0)))

def shaAndReads108 : BTree :=
  .nd (.nd (.nd (.lf
  0x8571085730857508577085790857b0857d0857f07a810919f091a1091a3091a5091a7091a9091ab091ad091af091b1091b3091b5091b7091b9091bb091bd091bf091c1091c3091c5091c7091c9091cb091cd091cf091d1091d3091d5091d7091d9091db091dd086d309e0f09e1109e1309e1509e1709e1909e1b09e1d09e1f09e2109e2309e2509e2709e2909e2b09e2d09e2f09e3109e3309e3509e3709e39)
  (.lf
  0x1b0ed1b0ec1b0b51b0b41b07d1b07c1b0451b0441b00d1b00c1afd51afd41af9d1af9c1af651af641af2f1af2e1aef51aef41aebd1aebc1ae831ae821ae471ae461ae091ae081adcd1adcc1ad8b1ad8a1ad451ad441ad031ad021acc31acc20f0e50f0e40f0db0f0da0f0d10f0d00f0c70f0c60f0bd0f0bc0f0b30f0b20f0a90f0a80f09f0f09e0f0950f0940f08b0f08a0f0810f0800f0770f0760f06d0f06c))
  (.nd (.lf
  0x22d1822ca722ca622c8b22c8a22c7922c7822c4122c4022c3922c3822be322be222a3322a3222a2322a22229d9229d8229cf229ce22f3722f3622f1d22f1722f1622f0f22f0722eff22efe22ef122ef022ee322ed922ecd22ecc22ec522ec422e0522e0422df722dd922dd322db522da122d4922d2522cfd22cfc22ce322ce222c9922c7f22c7e22c4f22bf522bed22bcb22bca22ac922a01229a6222e5222e4)
  (.lf 0))) (.nd (.nd (.lf
  0x2af402aaf02aae02a6702a6602a2902a28029e1029e0029a3029a20295d0295c0291702916028cf028ce0288f0288e0284f0284e0280f0280e027cf027ce0278f0278e02751027500270b0270a026c5026c40267f0267e0263902638025f1025f0025b3025b20256d0256c0252702526024e1024e0024990249802459024580241b0241a023d5023d40238f0238e037cf037ce03797037960375b0375a03729)
  (.lf
  0x351b0351a034e5034e4034ad034ac034730347203439034380340303402033cb033ca03391033900335b0335a0332303322032e9032e8032af032ae032790327803241032400320b0320a031d7031d60319f0319e41b7741b7641b6f41b6e41b5541b5441b4541b4441b3b41b3a41b2b41b2a41b1f41b1e41b1741b1641b0d41b0c41b0141b0041abd41abc41aab41aaa41a8f41a8e41a7f41a7e41a3f41a3e))
  (.nd (.lf
  0x58e5058e4058a3058a205863058620582305822057e3057e2057a3057a20575f0575e0571d0571c056d9056d8056970569605653056520561105610055d1055d0055950559405d0d05cd305c9305c9205c4d05c0d05bcd05bcc05b8705b4705b0705ac705ac605a8105a8005a3b05a3a059f5059f4059af059ae05969059680592305922058dd0589d0585d0581d057dd0579d0579c057570571705716056d1)
  (.lf 0)))

def shaAndReads109 : BTree :=
  .nd (.nd (.nd (.lf
  0x23fa223f9923f9823f8f23f8e23f8523f8423f7b23f7a23f7123f7023f6723f6623f5d23f5c23f5323f5223f3d23f3c23f3323f32237df237de237d5237d4237cb237ca237c1237c0237b7237b623583235822355d2355c2353b2353a234d3234d2234c9234c824cfb24cfa24cf124cf024cb724cb624caf24cae24ca724ca624c5124c5024c4724c4624c3f24c3e24c0924c0824b1524b1424ae124ae024abd)
  (.lf
  0x411a54113741239410fb40f5d40f6740e9b40ef940ebf40c9f40c1140bff40c1d40bc740bb540b6940b2f40b0d40aa740a1140a7540a2502e6602e6802e6a02e6c02e6e02e7002e7202e7402e7602e7802e7a02e7c02e7e02e8002e8202e8402e8602e8802e8a02e8c02e8e02e9002e9202e9402e9602e9802e9a02e9c02e9e02ea002ea202ea403aec03aee03af003af203af403af603af803afa03afc03afe))
  (.nd (.lf
  0x148eb148ea148cd148cc148b1148b014891148901486f1486e1484d1484c1482f1482e1480f1480e147f1147f0147d5147d4147b5147b414797147961477b1477a1475f1475e147431474214723147221470514704146e9146e8146c9146c8146ab146aa1468b1468a1466d1466c1464d1464c1462f1462e115e9115e8115df115de115d5115d4115cb115ca115c1115c0115b7115b6115ad115ac115a3115a2)
  (.lf 0))) (.nd (.nd (.lf
  0x322a5322a4321e1321e0321d7321d6321c9321c832ebb32eba32eb332eb232ea732ea632e9b32e9a32e8f32e8e32e7932e7832e7132e7032e6532e6432e5932e5832e5132e5032e4532e4432e3932e3832e2b32e2a32e2332e2232b6d32b6c32b4b32b4a32b2332b2232aed32aec32acd32acc32aa532aa432a8132a8032a1d32a1c329e1329e0329a1329a03296d3296c3290b3290a32853328523282932828)
  (.lf 0)) (.nd (.lf
  0x32a9d32a9c32a5b32a5a32a4532a44329d9329d8329c5329c432965329643294532944328713287032845328443281532814327ed327ec326a9326a83269f3269e32697326963268d3268c326833268232679326783266b3266a32663326623265b3265a326513265032647326463263d3263c326313263032629326283261f3261e326133261232609326083260132600325f7325f6325ed325ec325e3325e2)
  (.lf 0)))

def shaAndReads110 : BTree :=
  .nd (.nd (.nd (.lf
  0x365da365bd365bc365b5365b436431364303642136420364093640836401364003639536394360ab360aa36059360583604936048360293602836021360203601936018360093600835ff935ff835e1535e14379e1379e0379d9379d8379c1379c0379a9379a83798b3798a379713797037953379523794b3794a3792337922378f5378f4378ed378ec378d9378d8378d1378d0378bd378bc378b5378b4378a1)
  (.lf
  0x10169101681010910108100ad100ac10051100500fff30fff20ff910ff900ff350ff340fed50fed40fe750fe740fe170fe160fdb90fdb80fd570fd560fcfb0fcfa0fc9b0fc9a0fc3f0fc3e0fbe30fbe20fb850fb840fb230fb220fac30fac20fa650fa640fa0b0fa0a0f9af0f9ae0f94d0f94c0ce990ce980ce8f0ce8e0ce850ce840ce7b0ce7a0ce710ce700ce670ce660ce5d0ce5c0ce530ce520ce490ce48))
  (.nd (.lf
  0x1b09e1b0671b0661b02f1b02e1aff71aff61afbf1afbe1af871af861af511af501af1b1af1a1aee11aee01aea91aea81ae6f1ae6e1ae311ae301adf51adf41adb31adb21ad6d1ad6c1ad271ad261ace51ace41aca11aca01b3551b3541b3131b3121b2ef1b2ee1b2b91b2b81b2811b2801b2251b2241b1f11b1f01b1b31b1b21b1751b1741b1371b1361b1011b1001b0c91b0c81b0971b0961b05f1b05e1b027)
  (.lf 0))) (.nd (.nd (.lf
  0x38c8138c8038c7738c7638c6d38c6c3c95b3c95a3c9493c9483c9133c9123c9073c9063c8e53c8e43c8d73c8d63c8cf3c8ce3c7c33c7c23c7a53c7a43c78d3c78c3c77d3c77c3c7733c7723c7693c7683c75d3c75c3c7233c7223c7173c7163c6f13c6f03c6b73c6b63c6af3c6ae3c6a73c6a63c69d3c69c3c6633c6623c5c93c5c83c5553c5543c54d3c54c3c5413c5403c5113c5103c4cf3c4ce3c4953c494)
  (.lf
  0x32360320203194031220311d044460433a042fa04274041ee041680409c03fd003f9003f5003f1003e8a03e4a03dc403cf803cb903c7a03c750507804fac04f6c04dce04d8e04d4e04cc804c8804c4804bc204b8204b42049a40496404924048ea048e505d0c05cd205c4c05c0c05b8605b4605b06058dc0589c0585c0581c057dc05756056d00564a0560a0555a05555069860690606880067b40677406734))
  (.nd (.lf
  0x3a19b3a19a3a1913a1903a1893a1883a17f3a17e3a1753a1743a16d3a16c3a1633a1623ab6d3ab6c3ab653ab643ab1f3ab1e3aadd3aadc3aad53aad43aac73aac63aabf3aabe3aab53aab43aaa53aaa43aa9d3aa9c3aa913aa903aa7d3aa7c3aa753aa743aa633aa623aa4d3aa4c3aa313aa303aa213aa203aa0b3aa0a3a98d3a98c3a9853a9843a97d3a97c3a9733a9723a9693a9683a95d3a95c3a9553a954)
  (.lf 0)))

def shaAndReads111 : BTree :=
  .nd (.nd (.nd (.lf
  0x12e5612e4b12e4a12e3b12e3a12e2f12e2e12e2712e2612e1b12e1a12e1312e1212e0712e0612dd912dd812dcd12dcc12dc512dc412db512db412dad12dac12da512da412d8f12d8e12d7912d7812d3912d3812d3112d3012d2912d2812d1312d1212d0b12d0a12cd512cd412cab12caa12c8d12c8c12c4712c4613ffb13ffa13fb713fb613f6713f6613f1713f1613ec513ec413e7313e7213e2513e2413dd7)
  (.lf
  0x1d5531d51f1d5471d5211d53b1d5231d3811d3691d3751d2d91d2971d28b1d2391d2131d1d71d11d1d10b1d0f91d0e71d0d51d0bb1d0af1f5cc1f5ce1f5d01f5d21f5d41f5d61f5d81f5da1f5dc1f5de1f5e01f5e21f5e41f5e61f5e81f5ea1f5ec1f5ee1f5f01f5f21f5f41f5f61f5f81f5fa1f5fc1f5fe1f6001f6021f6041f2101f1c61f1c81f5cd1f5cf1f5d11f5d31f5d51f5d71f5d91f5db1f5dd1f5df))
  (.nd (.lf
  0xa9bc0a9b30a9b20a9a90a9a80a99f0a99e0a9950a9940a98b0a98a0a9810a9800a9770a9760a96d0a96c0a9630a9620a9590a9580a94f0a94e0a9450a9440a93b0a93a0a9310a9300a9270a9260a91d0a91c0a9130a9120a9090a9080a8ff0a8fe0a8d30a8d20a8a50a8a40a8790a8780a84d0a84c0a8210a8200a7f50a7f40a7c90a7c80a79d0a79c0b9530b9520b9370b9360b9190b9180b8f70b8f60b8d3)
  (.lf 0))) (.nd (.nd (.lf
  0x294612946029457294562944d2944c294432944229439294382942f2942e29425294242941b2941a2940f2940e2940729406293fd293fc293f3293f2293e9293e8293df293de2936d2936c2933f2933e29335293342932b2932a293212932029317293162a6292a6282a6212a6202a6172a6162a60d2a60c2a6032a6022a5f92a5f82a5ef2a5ee2a5e52a5e42a5db2a5da2a5d12a5d02a5c72a5c62a5bd2a5bc)
  (.lf 0)) (.nd (.lf
  0x2678f2678e267792677826763267622674d2674c267372673626721267202670b2670a266f5266f4266df266de266c9266c8266b3266b22669d2669c266872668626671266702665b2665a268cf268ce268b9268b8268a3268a22688d2688c268772687626861268602684b2684a26835268342681f2681e2680926808267f3267f2267dd267dc267c7267c6267b1267b02679b2679a26785267842676f2676e)
  (.lf 0)))

def shaAndReads112 : BTree :=
  .nd (.nd (.nd (.lf
  0x2f96b2f93d2f93f2f9412f8e12f8d12f8352f8172f7e52f7c52f79b2f79d2f3bb339452f3453131f3132131305311ed3117531147310d73106f3102330fb930fa730fc930edd30e9730e6930ea530df530dd930dc730d3f30d1f30cf130c8930b7b30b4730af730a8d30a31309d33097d3099d34ac33075f3225b3225d3228d3215f32147321b932137321af3210d3210f3211131ff73221531e8f31e4731e53)
  (.lf
  0x224fb224fa224f1224f0224e7224e6224dd224dc224d3224d2224c9224c8224bf224be224b5224b4224ab224aa22931229302291d2291c2290722906228f1228f0228db228da228c3228c2228ab228aa22893228922287b2287a22863228622284b2284a22835228342281f2281e2280722806227f1227f0227db227da227c5227c4227af227ae227992279822783227822276d2276c22757227562274122740))
  (.nd (.lf
  0x27489274882747f2747e27475274742746d2746c274612746027459274582744f2744e27445274442743b2743a274312743027427274262741d2741c274132741227f8b27f8a27f7d27f7c27f7327f7227f6327f6227f5527f5427f4b27f4a27f3f27f3e27f2d27f2c27f2127f2027f1127f1027f0927f0827eff27efe27ef727ef627eeb27eea27edb27eda27ed327ed227ec327ec227ebb27eba27eb327eb2)
  (.lf 0))) (.nd (.nd (.lf
  0xb1540b1430b1420b1310b1300b0970b0960b08d0b08c0b0830b0820b0790b0780b06f0b06e0b0650b0640b05b0b05a0b0510b0500b0470b0460b03d0b03c0b0330b0320b0290b0280b01f0b01e0b0150b0140b00b0b00a0b0010b0000afb30afb20afa90afa80af9f0af9e0af930af920af8b0af8a0af810af800af750af740af6b0af6a0af610af600af570af560af4f0af4e0af450af440af3b0af3a0af31)
  (.lf
  0x12487124891248b1248d1248f124911249312495123e5123ab123ad123af123b1123b3123b51235f122031220512207122091220b1220d131e4131e6131e8131ea131ec1318e130ec130ee130f0130f2130f4130f613092130581305a1305c1305e130601309e12fe812fea12fec12fee12ff012ff21307a12eb012eb212eb412eb612eb812eba131e5131e7131e9131eb131ed1318f130ed130ef130f1130f3))
  (.nd (.lf
  0x972b0972a096eb096ea096a7096a609661096600961b0961a095d5095d40958f0958e0954d0954c0950909508094c3094c20947d0947c0943b0943a093fb093fa093bb093ba0937b0937a0697f0697e0694506944068fd068fc068bf068be06877068760683906838067f3067f2067ab067aa0676b0676a0672b0672a066ed066ec066a7066a606661066600661906618065d9065d806599065980655b0655a)
  (.lf 0)))

def shaAndReads113 : BTree :=
  .nd (.nd (.nd (.lf
  0x2fb702fb5d2fb5c2fb4b2fb4a2fb392fb382fb272fb262fb152fb142fb032fb022fafb2fafa2fae92fae82fad72fad62fac52fac43013130130300c5300c43004d3004c300433004230039300383002d3002c30025300242fe232fe222fe1b2fe1a2fe132fe122fe092fe082fdff2fdfe2f9d12f9d02f9a92f9a82f99b2f99a2f98b2f98a2f9772f9762f9612f9602f9572f9562f9352f9342f92b2f92a2f921)
  (.lf
  0x295ee295f029616295be296482959c2959429570295722963c29574295422950c2950e295262951029512294d628e7c28ce828ca028c822a4b62a4982a4882a4782a46a2a4182a3f02a3c82a3aa2a3842a3602a33c2a31a2a3082a2da2a2ba2a29c2a28a2a26e2a2522a22e2a2162a1f22a1d42a1ae29fac29f1a29f0429e9a29e9c29e4629e1a2b89c2b89e2b8a02b8742b8762b72e2b7062b6be2b65e2b660))
  (.nd (.lf
  0x17f3e17efd17efc17ebd17ebc17e7917e7817e3317e3217df117df017db117db017d6b17d6a184bd18487184861844b1841518414183d9183a11836118321182e1182a1182a01825b1825a18215181d51819518155181541810f1810e180c9180c818083180431800317fc317fc217f7d17f7c17f3717ef717eb717eb617e7117e7017e2b17deb17dea17da917da817a9717a9617a8d17a8c17a8317a8217a79)
  (.lf 0))) (.nd (.nd (.lf
  0x376ad376a5376a43769937698376853767b3767537674376673765d3765c37651376473764137640376333717d371593715837151371503712836d1b36d1a36d0f36d0e36d0736d0636cff36cfe36cf536cf436ce936ce836cdf36cde36cd736cd636ccd36ccc36bd536bd436bcb36bca36bc136bc036bb736bb636bad36bac36ba136ba036b9936b9836b8f36b8e36b8136b8036b7936b7836b7136b7036b67)
  (.lf 0)) (.nd (.lf
  0x38c4338c4238b3338b3238b2938b2838b1f38b1e38b1538b1438b0b38b0a38aff38afe38af738af638aed38aec38ae338ae238ad938ad838acf38ace38ac538ac438abd38abc38a4338a4238a3b38a3a38a3138a3038a2738a2638a1d38a1c38a1338a1238a0938a08389ff389fe389f5389f4389e9389e8389e1389e0389d7389d638997389963898d3898c3898138980389793897838971389703949d3949c)
  (.lf 0)))

def shaAndReads114 : BTree :=
  .nd (.nd (.nd (.lf
  0x40bd840b6740b6640b3340b3240ae740ae640aab40aaa40a6d40a6c40a6340a6240b4f40b4e40b4740b4640b0340b0240af940af840ac940ac840a4340a4240a3940a3840a2f40a2e408cf408ce408a7408a64088940888408634086240859408584084f4084e4084540844407e5407e4407cd407cc407c5407c4407bb407ba407b1407b0407a7407a64079d4079c407934079240789407884077f4077e40769)
  (.lf
  0xfda90fda80fd470fd460fceb0fcea0fc8b0fc8a0fc2f0fc2e0fbd30fbd20fb750fb740fb130fb120fab30fab20fa550fa540f9fb0f9fa0f99f0f99e0f93d0f93c1746b1746a17439174381740117400173c5173c417387173861734d1734c1731517314172dd172dc172a7172a617271172701723517234171f7171f6171bb171ba1717f1717e17143171421710b1710a170d5170d41709b1709a1706317062))
  (.nd (.lf
  0x203e8202e5202e4202cd202cc202c5202c4202bd202bc202b1202b0202a5202a420299202982028d2028c20285202841ff251ff241ff191ff181ff111ff101ff051ff041f8491f8481f8411f8401f8351f8341f82b1f82a1f8231f8221f8191f8181f80f1f80e1f7551f7541f74b1f74a1f7411f740203d7203d6203cf203ce203c5203c4203bb203ba203b1203b0203a9203a82039f2039e20397203962038d)
  (.lf 0))) (.nd (.nd (.lf
  0x3f6af3f6ae3f6a53f6a43f69d3f69c3f68f3f68e3f5c73f5c63f5bd3f5bc404c7404c6404bf404be404b1404b0404a7404a64049b4049a4048d4048c404854048440479404784046d4046c4046140460404554045440445404444043d4043c403d7403d6403cd403cc403c1403c0403b9403b8403ad403ac403a3403a2403974039640387403864037b4037a4036f4036e403674036640345403444033d4033c)
  (.lf
  0x2663e277d02897a29b102ac8e2be302cfcc2e15c2f2ec30456315de3276a338fc34ad035c3e36dda37e523854c38bf2392a63993e39e7a3a3b03a8e63ac440f6d60cd6c119480d412136b40dca2152d60f8e416d8e17d3618cea19c7a1ac5c1bc141cbd21db7e1dd5a2081e1e216224a01e6d2238bc1eaa024f2c263ac275e627cce299262aaa42bc462cdc82d8462e5242faa83081431bd032bce33f0834e46))
  (.nd (.lf
  0x2e2502e2402e1b02e1a02e1102e1002e0702e0602dfd02dfc02df302df202de902de802ddf02dde02dd502dd402dcb02dca02dc102dc002db702db602dad02dac02da302da202d9902d9802d8f02d8e02d8502d8402d7b02d7a02d7102d7002d6702d6602d5d02d5c02d5302d5202d4902d4802d3f02d3e04455044540441d0441c043d9043d804393043920434d0434c0430b0430a042cb042ca0428704286)
  (.lf 0)))

def shaAndReads115 : BTree :=
  .nd (.nd (.nd (.lf
  0x1d33e1d3191d3181d2e91d2e81d2b91d2b81d26b1d26a1d2591d2581d21f1d21e1d1fd1d1fc1d1df1d1de1d1251d1241d1131d1121d1011d1001d0ef1d0ee1d0dd1d0dc1d0cb1d0ca1d7b71d7b61d6a91d6a81d69f1d69e1d6951d6941d68b1d68a1d6511d6501d6471d6461d63d1d63c1d50f1d50e1d5051d5041d4fb1d4fa1d4f11d4f01d4e71d4e61d4dd1d4dc1d4d31d4d21d34b1d34a1d3291d3281d2fd)
  (.lf
  0x33297332ad3332f336093320f331cd331a733183331753315f32ffd32f8d32f7532f6b32f5332fe332953328f3328cf328df328bb327a9347e234784346b43465a34616345ca345ae34528344fc344dc344703440a343d03439a34370343443432c342443420c341b43416c3414233d7e33d0633ce033b9633b5a33b2c33b0a33a6033a12339e4347e334785346b53465b34617345cb345af34529344fd344dd))
  (.nd (.lf
  0x11d9d11d9c11d5311d5211d0d11d0c11cc911cc811c8111c8011c3711c3611bed11bec11ba711ba611b6111b6011b1911b1811acd11acc11a8111a8011a3511a34119e5119e41198b1198a121af121ae1216b1216a1212712126120e3120e21209b1209a12053120521200b1200a11fc311fc211f7b11f7a11f3311f3211eed11eec11ea911ea811e6511e6411e2111e2011ddd11ddc11d9511d9411d4b11d4a)
  (.lf 0))) (.nd (.nd (.lf
  0x2f3692f3682f35d2f35c2fdb12fdb02fda72fda62fd992fd982fd912fd902fd872fd862fd7d2fd7c2fd732fd722fd692fd682fd592fd582fd4f2fd4e2fd452fd442fd3d2fd3c2f8af2f8ae2f8a72f8a62f89b2f89a2f8912f8902f8852f8842f87b2f87a2f86f2f86e2f8652f8642f85b2f85a2f84f2f84e2f8472f8462f83d2f83c2f81d2f81c2f7f52f7f42f7b12f7b02f7a92f7a82f7752f7742f76d2f76c)
  (.lf 0)) (.nd (.lf
  0x2e1a72e1a62e19d2e19c2e1912e1902e1852e1842e1792e1782e7c12e7c02e78b2e78a2e7372e7362e6f52e6f42e6c12e6c02e6832e6822e62f2e62e2e60d2e60c2e5bd2e5bc2e5912e5902e54d2e54c2e51b2e51a2e4cd2e4cc2e4892e4882e4672e4662e4452e4442e4232e4222e4012e4002e3df2e3de2e3bd2e3bc2e39b2e39a2e3792e3782e3572e3562e3332e3322e2b52e2b42e2ad2e2ac2e29d2e29c)
  (.lf 0)))

def shaAndReads116 : BTree :=
  .nd (.nd (.nd (.lf
  0x1160f11611116131161511617116191161b1161d1161f11621116231162511627116291162b1162d10ec71271512717127191271b1271d1271f12721127231272512727127291272b1272d1272f12731127331273512737127391273b1273d1273f12741127431274512747127491274b1274d1274f12751152df127531335b1335d1335f13361133631336513367133691336b1336d1336f133711337313375)
  (.lf
  0xf2110f2100f2070f2060f1fd0f1fc0f1f30f1f20f1e90f1e80f1df0f1de0f1d50f1d40f1cb0f1ca0f1c10f1c00f1b70f1b60f1ad0f1ac1beab1beaa1be951be941be7f1be7e1be691be681be531be521be3d1be3c1be271be261be111be101bdfb1bdfa1bde51bde41bdcf1bdce1bdb91bdb81bda31bda21bd8d1bd8c1bd771bd761bd611bd601bd4b1bd4a1bd351bd341bd1f1bd1e1bd091bd081bcf31bcf2))
  (.nd (.lf
  0x2371723716236ff236fe236f1236f0236df236de236cd236cc236b7236b6236a3236a22368d2368c236792367823667236662365123650236392363823621236202360d2360c235fb235fa235e5235e4235cd235cc235b9235b82359b2359a235712357023549235482350d2350c234b1234b0237a5237a4237812378023777237712376b2376a2375f23757237562370d23707236eb236d9236c7236c6236ad)
  (.lf 0))) (.nd (.nd (.lf
  0x41cc0418f0418e04147041460410904108040c3040c20407b0407a0403d0403c03ff703ff603faf03fae03f6f03f6e03f2f03f2e03eef03eee03eb103eb003e6903e6803e2903e2803deb03dea03da303da203d6503d6403d1f03d1e03cd703cd603c9903c98050a9050a80506305062050250502404fdf04fde04f9704f9604f5704f5604f1904f1804ed304ed204e8d04e8c04e4704e4604e0104e0004db9)
  (.lf
  0x2bcb02bcd02bcf02bd102bd302bd502bd702bd902bdb02bdd02bdf02be102be302be502be702be902beb02bed02bef02bf102bf302bf50383c0383e03840038420384403846038480384a0384c0384e03850038520385403856038580385a0385c0385e03860038620386403866038680386a0386c0386e03870038720387403876038780387a0383d0383f03841038430384503847038490384b0384d0384f))
  (.nd (.lf
  0x688806847068460680306802067bd067bc0677b0677a0673b0673a066fb066fa066b7066b606671066700662b0662a065e9065e8065a9065a806569065680652506524064e3064e20649f0649e06459064580641306412063cd063cc0638b0638a06347063460630106300062bf062be0627b0627a0623906238061f5061f4069870694d0694c06907068c7068c6068810684106840067fb067fa067b506775)
  (.lf 0)))

def shaAndReads117 : BTree :=
  .nd (.nd (.nd (.lf
  0x25b3425aff25afe25a7f25a7e25a3925a3825a1b25a1a259e3259e22598b2598a2595725956258e9258e82589b2589a25865258642582325822257e9257e82707f2707e27027270262701d2701c26fc726fc626f5526f5426f1d26f1c26ee326ee226e8f26e8e26e5f26e5e26df926df826de726de626dd526dd426d4326d4226d1d26d1c26d0126d0026caf26cae26c9126c9026c7b26c7a26c4f26c4e26bd1)
  (.lf
  0x855408556085580855a0855c0855e08560085620856408566085680856a0856c0856e08570085720857408576085780857a0857c0857e0919e091a0091a2091a4091a6091a8091aa091ac091ae091b0091b2091b4091b6091b8091ba091bc091be091c0091c2091c4091c6091c8091ca091cc091ce091d0091d2091d4091d6091d8091da091dc09e0e09e1009e1209e1409e1609e1809e1a09e1c09e1e09e20))
  (.nd (.lf
  0x1422d1422c142231422214219142181420f1420e1420514204141fb141fa15227152261521d1521c15213152121520915208151ff151fe151f5151f4151eb151ea151e1151e0151d7151d6151cd151cc151c3151c2151b9151b8151af151ae151a5151a41519b1519a151911519015187151861517d1517c151731517215169151681515f1515e15155151541514b1514a151411514015137151361512d1512c)
  (.lf 0))) (.nd (.nd (.lf
  0x3357233569335683355f3355e33557335563354f3354e33545335443353b3353a335313353033527335263351d3351c33513335123350933508334ff334fe334f5334f4334e9334e83345f3345e334293342833fcf33fce33fc333fc233fbb33fba33fb133fb033fa933fa833fa133fa033f9933f9833f9133f9033f8933f8833f7d33f7c33f7133f7033f6533f6433f5b33f5a33f4f33f4e33f4733f4633f3f)
  (.lf 0)) (.nd (.lf
  0x32c4132c4032c1932c1832bf532bf434e7734e7634ccb34cca34cc134cc034cb334cb234ca934ca834c9934c9834c9134c9034c8534c8434c7934c7834c6f34c6e34c6734c6634c5734c5634c4d34c4c34c4134c4034bf534bf434be934be834bdf34bde34bd734bd634bcb34bca34bbf34bbe34bb534bb434bad34bac34b9934b9834b8d34b8c34b8334b8234b7b34b7a34b6334b6234b5934b5834b5134b50)
  (.lf 0)))

def shaAndReads118 : BTree :=
  .nd (.nd (.nd (.lf
  0x3b2e63b2d73b2d63b2c73b2c63b2b53b2b43b2a53b2a43b22d3b22c3b2253b2243b1993b1983b1853b1843cbf33cbf23cbb53cbb43cbad3cbac3cb933cb923cb433cb423cb2d3cb2c3cadd3cadc3caad3caac3ca6b3ca6a3ca2d3ca2c3ca173ca163ca073ca063c9f53c9f43c9d13c9d03c9c13c9c03c9ad3c9ac3c9a53c9a43c98f3c98e3c9733c9723c96b3c96a3c0073c0063bfff3bffe3bfed3bfec3bf8d)
  (.lf
  0x11dbf11dbe11d7511d7411d2f11d2e11ceb11cea11ca311ca211c5911c5811c0f11c0e11bc911bc811b8111b8011b3911b3811af111af011aa911aa811a5f11a5e11a1311a12119bf119be0d7290d7280d71f0d71e0d7150d7140d70b0d70a0d7010d7000d6f70d6f60d6ed0d6ec0d6e30d6e20d6d90d6d80d6cf0d6ce0d6c50d6c40d6bb0d6ba0d6b10d6b00d6a70d6a60d69d0d69c0d6930d6920d6890d688))
  (.nd (.lf
  0x1ba411ba401c3711c3701c3651c3641c35b1c35a1c3511c3501c3451c3441c33b1c33a1c32f1c32e1c3271c3261c31d1c31c1c3131c3121c3091c3081c2fd1c2fc1c2f51c2f41c2d31c2d21c2c91c2c81c2bf1c2be1c2b71c2b61c2671c2661c25f1c25e1c2151c2141c1cd1c1cc1c1891c1881c1451c1441c0fd1c0fc1c0b71c0b61c06f1c06e1c0291c0281bfe71bfe61bfa51bfa41bf5f1bf5e1c4371c436)
  (.lf 0))) (.nd (.nd (.lf
  0x3980139800397f7397f6397e7397e6397df397de397d5397d4397cb397ca397c1397c0397b9397b8397af397ae397a5397a43979b3979a394ad394ac39395393943938d3938c39383393823930139300392f7392f6392c3392c23d57b3d57a3d5713d5703d5673d5663d55b3d55a3d5513d5503d5453d5443d53d3d53c3d4cf3d4ce3d4bb3d4ba3d49f3d49e3d4933d4923d48b3d48a3d4813d4803d4773d476)
  (.lf
  0x11a7211a26119d7119641195f12c0012bc212ba612b6812b4c12b3012b1412af812adc12a7c12a6012a22129e4129c8129ac129901290e128f2128d712cec12c3b13fe813f4a13e5a13cc613c2813bdc13b3e13af213a541396413918138cc137dc14323136ed136cc149701495414916148d8148bc1483a147fc147e0147a2147861476a1474e14710146f4146b6146781463a14a73149b0159601587615840))
  (.nd (.lf
  0x3aed33aed23aec93aec83aebd3aebc3aeb33aeb23aea93aea83ae9f3ae9e3ae953ae943ae8b3ae8a3ae813ae803ae773ae763ae6d3ae6c3ae613ae603ae573ae563ae4d3ae4c3ae453ae443ae3b3ae3a3ae333ae323ae293ae283ae1f3ae1e3ae153ae143ae0b3ae0a3ae013ae003adf73adf63aded3adec3ade33ade23add93add83adcd3adcc3ac8b3ac8a3ac7d3ac7c00b0100b0000ae300ae200ac500ac4)
  (.lf 0)))

def shaAndReads119 : BTree :=
  .nd (.nd (.nd (.lf
  0x14bd214bc914bc814bbf14bbe14bb514bb414bab14baa14ba114ba014b9714b9614b8d14b8c14b8314b8214b7914b7814b6f14b6e14b6514b6414b5b14b5a14b5114b5014b4714b4614b3d14b3c14b3314b3215b9b15b9a15b9115b9015b8715b8615b7d15b7c15b7315b7215b6915b6815b5f15b5e15b5515b5415b4b15b4a15b4115b4015b3715b3615b2d15b2c15b2315b2215b1915b1815b0f15b0e15b05)
  (.lf
  0x21da321d4b21d2521cfb21c8121c3b21be721bc721b5f21b1321ad121a8721a8921a01219ab219672191b2191d216c321607216092160b23110231122311423116231182311a2311c2311e23120231222312423126231282312a2312c2312e23130231322313423136231382313a2325622cda22c64239f422c2422bc222ae4229fa229c82298c23111231132311523117231192311b2311d2311f2312123123))
  (.nd (.lf
  0xb7ba0b7990b77d0b7610b7450b7290b70b0b6ed0b6cf0b6ce0b6ab0b6aa0b6870b6690b6680b6470b62b0b62a0b6090b5ed0b5d10b5d00b5ae0b4130b4120b4090b4080b3ff0b3fe0b3f50b3f40b3eb0b3ea0b3e10b3e00b3d70b3d60b3cd0b3cc0b3c30b3c20b3b90b3b80b3af0b3ae0b3a50b3a40b39b0b39a0b3910b3900b3870b3860b37d0b37c0b3730b3720b3690b3680b35f0b35e0b3550b3540b34b)
  (.lf 0))) (.nd (.nd (.lf
  0x2b29b2b2952b2942b18f2b1752afdd2af9c2a9ef2a9ee2a9e52a9e42a9dd2a9dc2a9d32a9d22a9c92a9c82a9c12a9c02a9b72a9b62a9ad2a9ac2a9a32a9a22a9992a9982a98f2a98e2a9852a9842a97b2a97a2a96f2a96e2a9652a9642a95d2a95c2a9532a9522a94b2a94a2a9412a9402a9372a9362a92d2a92c2a9212a9202a9192a9182a90f2a90e2a9052a9042a8fb2a8fa2a8f12a8f02a8412a8402a837)
  (.lf 0)) (.nd (.lf
  0x278672786627851278502783b2783a27825278242780f2780e277f9277f8277e3277e227713277122770927708276ff276fe276f5276f4276eb276ea276e1276e0276d7276d6276cd276cc276c3276c2276b9276b8276af276ae276a5276a42769b2769a276912769027687276862767d2767c276732767227669276682765f2765e27655276542764b2764a276412764027637276362762d2762c2762327622)
  (.lf 0)))

def shaAndReads120 : BTree :=
  .nd (.nd (.nd (.lf
  0x200732007520077200791fe511fe531fe551fe571fe591fe5b1fe5d1f9f51f9f71f9691f96b1f925218572186b218592168121537214f5214eb214e1214d7214cd214c3214b9214af214a52149b2149121103210b3210b5210912102120ff520f4f20f3f20f2f20e9f20e8f20e2520e1520d7120d31245b720d27221ed2212d220b5220b72200721fa721fa921f3321eef21ea921dbb21d5d21d3521d0b21cbb)
  (.lf
  0x1020110200101a3101a21014910148100e9100e81008d1008c10031100300ffd30ffd20ff710ff700ff150ff140feb50feb40fe550fe540fdf70fdf60fd990fd980fd370fd360fcdb0fcda0fc7b0fc7a0fc1f0fc1e0fbc30fbc20fb650fb640fb030fb020faa30faa20fa450fa440f9eb0f9ea0f98f0f98e0f92d0f92c1dff71dff61dfe11dfe01dfcb1dfca1dfb51dfb41df9f1df9e1df891df881df731df72))
  (.nd (.lf
  0x25cbe25c7f25c7e25c7325c7225c2925c2825c1f25c1e25add25adc25ad525ad425ac725ac625abd25abc25ab325ab225a6925a6825939259382592f2592e259252592425915259142590d2590c257c9257c8257c1257c0257b9257b8257ad257ac26097260962608326082260732607225edf25ede25ed725ed625ecd25ecc25ec525ec425e1125e1025dfb25dfa25d5525d5425d4d25d4c25ce325ce225c81)
  (.lf 0))) (.nd (.nd (.lf
  0x6f3606ef906ef806ebb06eba06e7f06e7e06e4506e440821908218081db081da0819d0819c08155081540811508114080d7080d60808f0808e0805108050080090800807fc907fc807f8907f8807f4907f4807f0907f0807ecb07eca07e8507e8407e3d07e3c07dff07dfe07db707db607d7907d7807d3307d3207ceb07cea07cad07cac07c6707c6607c1f07c1e07bdf07bde07b9f07b9e07b5f07b5e07b1f)
  (.lf
  0x8f0308f0508f0708f0908f0b08f0d08f0f08f1108f1308f1508f1708f1908f1b08f1d08f1f08f2108f2308f2508f2708f2908f2b08f2d09b5e09b6009b6209b6409b6609b6809b6a09b6c09b6e09b7009b7209b7409b7609b7809b7a09b7c09b7e09b8009b8209b8409b8609b8809b8a09b8c09b8e09b9009b9209b9409b9609b9809b9a09b9c09b5f09b6109b6309b6509b6709b6909b6b09b6d09b6f09b71))
  (.nd (.lf
  0x4e5304e5204e0d04e0c04dc504dc404d8504d8404d4504d4404d0704d0604cbf04cbe04c7f04c7e04c3f04c3e04c0104c0004bb904bb804b7904b7804b3904b3804afb04afa04ab504ab404a6f04a6e04a2904a28049e3049e20499b0499a0495b0495a0491b0491a0823108230081f7081f6081b7081b608173081720813108130080f1080f0080ad080ac0806b0806a080270802607fe507fe407fa507fa4)
  (.lf 0)))

def shaAndReads121 : BTree :=
  .nd (.nd (.nd (.lf
  0x2b79a2b7292b7282b6e72b6e62b68d2b68c2b6372b6362b5fb2b5fa2b5f12b5f02b5d52b5d42b5bb2b5ba2b5a92b5a82b5172b5162b4e32b4e22b4c72b4c62b4bf2b4be2b4b72b4b62b4a12b4a02b48f2b48e2b3c52b3c42b3a72b3a62b37b2b37a2b3692b3682b3472b3462b33d2b33c2b2932b2922b2812b2802affb2affa2afb52afb42b8952b8942b88b2b88a2b8832b8822b7692b7682b71d2b71c2b6d3)
  (.lf
  0x18616186181861a1861c1861e18620186221862418626186281862a1862c1862e18630186321863418636186381863a1863c1863e186401991c1991e19920199221992419926199281992a199d21992c1992e199301993219934199da19936199381993a1993c1993e19940199421994419946199481994a1994c1994e199501995219954199561a82e1a8301a8321a8341a8361a8381a8541a7d21a7d41a7d6))
  (.nd (.lf
  0x1615716156161351611916118160f7160f615e2915e2815e1f15e1e15e1515e1415e0b15e0a15e0115e0015df715df615ded15dec15de315de215dd915dd815dcf15dce15dc515dc415dbb15dba15db115db015da715da615d9d15d9c15d9315d9215d8915d8815d7f15d7e15d7515d7415d6b15d6a15d6115d6015d5715d5615d4d15d4c15d4315d4215d3915d3815d2f15d2e15d2515d2415d1b15d1a15d11)
  (.lf 0))) (.nd (.nd (.lf
  0x34830348213482034817348163480d3480c3480534804347fb347fa3479934798347633476234757347563474f3474e345fb345fa345f3345f23454b3454a345113451035b7d35b7c35b7335b7235b6935b6835b5f35b5e35b5535b5435b4b35b4a35b4135b4035b3735b3635b2d35b2c35b2335b2235b1935b1835b0f35b0e35b0535b0435afb35afa35aef35aee35ae735ae635add35adc35ad335ad235ac9)
  (.lf 0)) (.nd (.lf
  0x3649b3649a364913649036487364863647d3647c3635936358363513635036345363443633d3633c363333633236329363283631f3631e36315363143630d3630c3630336302362f9362f8362ed362ec362e5362e43829f3829e3828f3828e3827d3827c3824f3824e3817138170381653816438159381583814d3814c3810d3810c380fd380fc380f5380f4380e1380e0380c9380c8380b1380b03809938098)
  (.lf 0)))

def shaAndReads122 : BTree :=
  .nd (.nd (.nd (.lf
  0x3f5383f51d3f51c3f50b3f50a3f4f13f4f03f4e93f4e83f38b3f38a3f3713f3703f35d3f35c3f34f3f34e3f3393f3383f3253f3243f30f3f30e3f2e53f2e43f2d33f2d23f1733f1723f11f3f11e3f1013f1003f0e53f0e43ee3b3ee3a3ee1f3ee1e3ed953ed943ea813ea803ea1d3ea1c3fa913fa903f8f53f8f43f8e33f8e23f8ab3f8aa3f8613f8603f8013f8003f7e73f7e63f7cd3f7cc3f7b33f7b23f79b)
  (.lf
  0xddc50ddc40ddbb0ddba0ddb10ddb00dda70dda60dd9d0dd9c0dd930dd920dd890dd880dd7f0dd7e0dd750dd740dd6b0dd6a0dd610dd600dd570dd560dd4d0dd4c0dd430dd420dd390dd380dd2f0dd2e0dd250dd240dd1b0dd1a0dd110dd100dd070dd060dcfd0dcfc0dcf30dcf20dce90dce80dcdf0dcde0dcd50dcd40dccb0dcca0dcc10dcc00dcb70dcb60dcad0dcac0e30f0e30e0e2fb0e2fa0e2e50e2e4))
  (.nd (.lf
  0x1da561da4d1da4c1da431da421da391da381da2f1da2e1da231da221da191da181da0f1da0e1da071da061d9fd1d9fc1d9f31d9f21d9e71d9e61d9dd1d9dc1d9d31d9d21d9cb1d9ca1d9c11d9c01d9b71d9b61d9ad1d9ac1d9a31d9a21d9991d9981d98f1d98e1d9831d9821d97b1d97a1d9711d9701d9671d9661d95d1d95c1d9531d9521d9471d9461f04b1f04a1f03f1f03e1f0311f0301f0291f0281f01d)
  (.lf 0))) (.nd (.nd (.lf
  0x3eddd3eddc3edd53edd43edcb3edca3ed673ed663ed5f3ed5e3ed573ed563ea6b3ea6a3c45d3c45c3c4553c4543c44b3c44a3c4413c4403c4373c4363c3bb3c3ba3c2b73c2b63c28b3c28a3c25b3c25a3c2473c2463c23d3c23c3c2213c2203c2173c2163c20d3c20c3c1e13c1e03c1d73c1d63c1c13c1c03c0bf3c0be3c0b33c0b23c0ab3c0aa3c0313c0303c0293c0283c01f3c01e3c0173c0163bc273bc26)
  (.lf
  0x2e96e2e9682e90a2e2472e23030132301282fea22fe9c2fdf42fdec2fde42fdc22f9c62f9a02f9802f9022f8f82f8ee2f8e82f8ce2f8ba2f7eb2f30d2f302312b43127a31104310da30f9e30f3a30eea30e6c30e3e30d7030d5230d2a30cfe30b7030b1430aea30a88309cc3096f3083a3074f3224232236320443203a3200c31fd631dc231d1c31b2631b1c31b1631b0e31892318683161c31617332f4332e2))
  (.nd (.lf
  0x178b0178a0174b0174a01ecd01ecc01e8d01e8c01e4701e4601e0101dc101d8101d4101d4001cfb01cbb01c7b01c7a01c3501c3401bef01baf01bae01b6901b6801b2301b2201add01a9d01a9c01a5701a17019d701997019960195101911018d1018d00188b0184b0180b0180a017c50178501637016360162d0162c016230162201619016180160f0160e0160501604015fb015fa015f1015f0015e7015e6)
  (.lf 0)))

def shaAndReads123 : BTree :=
  .nd (.nd (.nd (.lf
  0x17d7e1971f1971e1970d1970c196fb196fa196e9196e8196d7196d6196c5196c4196b3196b2196a1196a01968f1968e1967d1967c1966b1966a19659196581964719646196351963419623196221961119610195ff195fe195ed195ec195731957219569195681955f1955e19555195541954b1954a195411954019537195361952d1952c195231952219519195181950f1950e1950519504194b7194b6194ad)
  (.lf
  0x2a76d2a7532a73d2a71d2a70d2a6f72a6e52a6d52a6bd2a6ad2a6932a6772a6812a6652a64d2a72b29f2729f3b29ead29e9529e3329e152b8b82b8102b7fe2b83e2b7742b73a2b6dc2b6922b6422b6022b5de2b5c42b5b02b5402b50e2b4d02b4da2b4f02b4a82b4982b4602b3ba2b39e2b3702b3542b3562b3582b28c2b2782aff22afbe2af922b8b92b8112b7ff2b83f2b7752b73b2b6dd2b6932b6432b603))
  (.nd (.lf
  0xfefc0fe9f0fe9e0fe3d0fe3c0fde10fde00fd810fd800fd210fd200fcc30fcc20fc650fc640fc070fc060fbad0fbac0fb4d0fb4c0faed0faec0fa8b0fa8a0fa2f0fa2e0f9d30f9d20f9710f9700f9090f908103bb103ba1035910358102f91029d1024310242101e1101871012b1012a100cb1006f10015100140ffb30ffb20ff530fef70fef60fe970fe960fe350fddb0fdda0fd790fd780fd190fcbd0fcbc)
  (.lf 0))) (.nd (.nd (.lf
  0x2d3532d3522d3452d3442d33b2d33a2d3312d3302d3292d3282d3212d3202d1972d1962d1872d1862db792db782db4f2db232db222dab52daad2daac2da732da722da672da192da182da112d9d32d9832d9822d6ff2d6fe2d6f52d6ef2d5e32d5e22d57f2d5792d5732d5592d4e92d4e12d4e02d4b72d4b62d37b2d3752d36d2d3652d3642d35d2cdc32cdc22cdb92cdb82cdaf2cdae2cda52cda42cd9b2cd9a)
  (.lf 0)) (.nd (.lf
  0x2ae592ae582ae432ae422ae2d2ae2c2ae172ae162ae012ae002adeb2adea2add52add42adbf2adbe2ada92ada82ad932ad922ad7d2ad7c2ad672ad662ad512ad502ad3b2ad3a2ad252ad242ad0f2ad0e2acf92acf82ace32ace22accd2accc2acb72acb62aca12aca02abd12abd02abc72abc62abbd2abbc2abb32abb22aba92aba82ab9f2ab9e2ab952ab942ab8b2ab8a2ab812ab802ab772ab762ab6d2ab6c)
  (.lf 0)))

def shaAndReads124 : BTree :=
  .nd (.nd (.nd (.lf
  0x171102e6702e6902e6b02e6d02e6f02e7102e7302e7502e7702e7902e7b02e7d02e7f02e8102e8302e8502e8702e8902e8b02e8d02e8f02e9102e9302e9502e9702e9902e9b02e9d02e9f02ea102ea302ea50237703aed03aef03af103af303af503af703af903afb03afd03aff03b0103b0303b0503b0703b0903b0b03b0d03b0f03b1103b1303b1503b1703b1903b1b03b1d03b1f03b2103b2303b2503b27)
  (.lf
  0x193af193ae193771937619341193401930b1930a192d3192d2192971929619257192561921719216191d7191d6191971919619157191561911519114190cf190ce1908d1908c1904d1904c190091900818fc718fc618f8718f8618f4318f4218efd18efc18eb718eb618e7118e7018e2b18e2a18de918de818da918da818d6d18d6c18d3318d321a3dd1a3dc1a3ab1a3aa1a36f1a36e1a3311a3301a2f31a2f2))
  (.nd (.lf
  0x21fb821f4f21f3b21f3a21ef321e5d21d8921d8821d6b21ce321ce221cdb21cda21c7721c2f21c0721b9b21b9a21b4521b4421b0b21ae921ae821ab721ab621a61219e5219e4219912199021977219762194721946218d5218d4216da2187721876218512185021847218462183d2183c218332183221829218282181f2181e21815218142180b2180a2180121800217f7217f6217ed217ec217e3217e2217d9)
  (.lf 0))) (.nd (.nd (.lf
  0x4167441669416454158b4153741536414b7414b6413914139041389413884136341cfd41cfc41cf341cf241ceb41cea41cdf41cde41cd341cd241cc341cc241cbb41cba41caf41cae41c9b41c9a41c9341c9241c8b41c8a41c8341c8241c7541c7441c6941c6841c5341c5241c4b41c4a41c4341c4241c3341c3241c2b41c2a41c0341c0241bf741bf641bd141bd041bb341bb241b9141b904190f4190e418f9)
  (.lf
  0x1fde01fe001fe201fe401fe601fe801fea01fec01fee01ff001fb301fb501fb701fb901fbb01fbd01fbf01fc101fc301fc501fc701fc901fcb01fcd01fcf01fd101fd301fd501fd701fd901fdb01fdd01fdf01fe101fe301fe501fe701fe901feb01fed01fef01ff1013cc013ce013d0013d2013d4013d6013d8013da013dc013de013e0013e2013e4013e6013e8013ea013ec013ee013f0013f2013f4013f6))
  (.nd (.lf
  0x50b9050b805079050390503804ff304ff204fad04f6d04f2d04f2c04ee704ee604ea104ea004e5b04e5a04e1504e1404dcf04d8f04d4f04d0f04d0e04cc904c8904c4904c0904c0804bc304b8304b4304b0304b0204abd04abc04a7704a7604a3104a30049eb049ea049a50496504757047560474d0474c047430474204739047380472f0472e04725047240471b0471a04711047100470704706046fd046fc)
  (.lf 0)))

def shaAndReads125 : BTree :=
  .nd (.nd (.nd (.lf
  0x2205e2203b2203a21fd921fd821f5921f5821f4921f4821efb21efa21ebd21ebc21e5121e5021d9321d9221d6521d6421d1521d1421ceb21cea21c7121c7021c2d21c2c21bff21bfe21bb721bb621b5521b5421b0521b0421ac721ac621aa121aa021a9721a96219ed219ec219b5219b4219532195221933219322192921928216cd216cc21629216282161f2161e230df230de230d5230d4230cb230ca230c1)
  (.lf
  0x3d9d73d9873d9953d9593d91f3d9053d8c93d8e73d8c33d8d93d8873dbcb3d8213d8093d7e53d7bd3d7ab3d7853d7773d7cf3d2653d1433e7983e76e3e7683ec563e7023e7063e6ca3e6ce3e6643e64c3e61e3e64e3e5f83e6503e5d83e7ca3e5763e42c3e3603e31a3e2fc3e31c3e2c83e32e3e33a3e3203e1ee3e1f83e1f43e08c3dfa83dfae3e7993e76f3e7693ec573e7033e7073e6cb3e6cf3e6653e64d))
  (.nd (.lf
  0x135331353213529135281351f1351e13515135141350b1350a1350113500134f7134f6134ed134ec134e3134e213ff513ff413fab13faa13f5b13f5a13f0d13f0c13ebd13ebc13e6b13e6a13e1d13e1c13dcd13dcc13d7b13d7a13d2913d2813cd713cd613c8913c8813c3913c3813beb13bea13b9f13b9e13b4f13b4e13b0113b0013ab513ab413a6513a6413a1713a16139c7139c613975139741392713926)
  (.lf 0))) (.nd (.nd (.lf
  0x31ef031ee531ee431ec131ec031eb731eb631ead31eac31ea131ea031e6531e64319f3319f2319d9319d8319cb319ca319bf319be3198d3198c31981319803196d3196c31933319323190b3190a318db318da318c9318c8318b9318b83188331882317cf317ce31677316763163131630320e9320e8320df320de31fad31fac31fa131fa031f9731f9631f8b31f8a31f7d31f7c31f7131f7031f6931f6831f5f)
  (.lf 0)) (.nd (.lf
  0x31775317743176d3176c3176331762317593175831749317483174131740317353173431729317283171d3171c31713317123170731706316f7316f6316ef316ee316e3316e2316d9316d8316cb316ca316c1316c0316b5316b4315f5315f431b0731b0631afb31afa31aef31aee31ae731ae631adb31ada31acf31ace31ac331ac231ab731ab631aab31aaa31a9b31a9a31a9131a9031a8731a8631a7331a72)
  (.lf 0)))

def shaAndReads126 : BTree :=
  .nd (.nd (.nd (.lf
  0x34580344a9344a83449f3449e3445f3445e3445534454343f9343f8343c3343c23438f3438e3435f3435e342db342da342bd342bc3423734236341f7341f6341e1341e0341cf341ce341913419033d6b33d6a33d1533d1433cc933cc833b8333b8233b7133b7033b3333b3233af533af433a7133a7033a2533a24356df356de356d7356d635685356843562d3562c3560135600355cd355cc3557f3557e35577)
  (.lf
  0x3d0963d0c43d0703d05c3d0423d0303cdf03cdda3cdca3c83a3c8a83c6ca3c6503c5fa3c5e43c5a43c5923c5703c4e43c4b63c3fc3c3de3df863df683df443df1e3df063deb43de803de603de703de283de443de403dfd23ddf03ddde3ddc43ddb03dd9c3dfe83d6bc3d6ac3d66c3d65e3d5d43d5c03d59a3d34a3d32a3d2c63d4263d1823d12c3eb243eb383eaf23eb423ea603e9d83e9c23e9983e98e3e942))
  (.nd (.lf
  0x19cc01a3c51a3c41a38d1a38c1a3511a3501a3131a3121a2d51a2d41a2971a2961a2591a2581a21b1a21a1a1e11a1e01a1a51a1a41a16b1a16a1a1311a1301a0f51a0f41a0bb1a0ba1a0851a0841a0491a0481a00f1a00e19fd319fd219f9719f9619f5919f5819f1b19f1a19edf19ede19ea319ea219e6519e6419e2319e2219ddb19dda19d9719d9619d5119d5019d0919d0819cb919cb81a3bf1a3871a386)
  (.lf 0))) (.nd (.nd (.lf
  0x3be433be423be373be363be2b3be2a3be1f3be1e3be133be123be053be043bdfd3bdfc3bdf33bdf23bde93bde83bddb3bdda3bdcf3bdce3bdc73bdc63bdbd3bdbc3bdb53bdb43bb4b3bb4a3ba953ba943b9f53b9f43b9213b9203b8873b8863c3573c3563c34d3c34c3c3393c3383c3253c2f73c2f63c2cb3c13f3c1373c1363c1293c11f3c1153c10b3c10a3c0fd3c0fc3c0ef3c0ee3c0e13c0e03c0933c092)
  (.lf
  0x18b0f19a9f1aa811ba391c9f71d9411f90b201ab215a3221a7233492411d252c92604d2740b28349296872a4052ba652c8b52dbdb2ee35300b5310e7321a73342334693359a13688b37ba53b7f73c3b53d1233de913e9cd3f803401a5410b100782016fe023640311603c6e048de05550061a606e2007a6e086c20932009f900aa980b59a0c09c0f8cc10af21195412896136c014614152e2160ae16d9a17d42))
  (.nd (.lf
  0x3a0ab3a0aa3a0633a0623a0553a0543a0473a0463a03d3a03c3a0353a0343a0233a0223a01b3a01a3a0113a0103a0073a00639ffd39ffc39edd39edc39ed539ed439ea339ea239e8b39e8a39dbd39dbc39db139db039da939da839d9f39d9e39d9539d9439d8b39d8a39d8139d8039d7739d7639d6b39d6a39d6139d6039d5539d5439d4d39d4c39d4339d4239d3939d3839d2d39d2c39d2539d2439d1939d18)
  (.lf 0)))

def shaAndReads127 : BTree :=
  .nd (.nd (.nd (.lf
  0x11104110f3110f2110e1110e01109b1109a1108f1108e110831108211077110761104f1104e110431104211037110361102b1102a1101f1101e1101311012110071100610ffb10ffa10fef10fee10fe310fe210fd710fd610fcb10fca10fbf10fbe10fb310fb210fa710fa610f9b10f9a10f8f10f8e10f8310f8210f7710f7610f6f10f6e10f6710f6610f5f10f5e10f5710f5610f4110f4010f2b10f2a10f15)
  (.lf
  0x1967519663196511963d1962b1961919607195f5195e319591195931959519597195991959b1959d1959f195a1195a3195a5195a7195a91a5541a5561a5581a55a1a55c1a55e1a5601a5621a5641a5661a5681a56a1a56c1a56e1a5701a5721a5741a5761a5781a57a1a57c1a57e1a5801a5821a5841a4021a4041a4061a4081a87a1a40a1a85e1a5551a5571a5591a55b1a55d1a55f1a5611a5631a5651a567))
  (.nd (.lf
  0x9d6809d5f09d5e09d5509d5409d4b09d4a09d4109d4009d3709d3609d2d09d2c09d2309d2209d1909d1809d0f09d0e09d0509d0409cfb09cfa09cf109cf009ce709ce60ae470ae460ae2d0ae2c0ae110ae100adf50adf40add90add80adbd0adbc0ada10ada00ad850ad840ad650ad640ad430ad420ad250ad240ad050ad040ace30ace20acc10acc00ac9f0ac9e0ac7f0ac7e0ac5d0ac5c0ac3d0ac3c0ac1b)
  (.lf 0))) (.nd (.nd (.lf
  0x287ee287e5287e4287dd287dc287bb287ba28761287602872b2872a2870128700286f9286f8286f1286f02868d2868c29877298762986d2986c298632986229859298582984f2984e29843298422983b2983a298312983029827298262981d2981c29811298102980529804297fb297fa297f1297f0297e7297e6297df297de297d7297d6297cd297cc297c1297c0297b9297b8297af297ae297a5297a42979b)
  (.lf 0)) (.nd (.lf
  0x1edb91edb81ed971ed961ed751ed741ed531ed521ed311ed301ed0f1ed0e1eced1ecec1eccb1ecca1eca91eca81ec851ec841ec611ec601ec3d1ec3c1ec191ec181ebf51ebf41ebd11ebd01ebad1ebac1eb891eb881eb651eb641eb431eb421eb1f1eb1e1eafb1eafa1ead91ead81eab71eab62574d2574c257392573825723257222570d2570c256f7256f6256e1256e0256cb256ca256b5256b42569f2569e)
  (.lf 0)))

/-- The inputs of the AND gates by wires: 20 bits each, 64 per leaf. -/
def shaAndReads : BTree :=
  .nd (.nd (.nd (.nd (.nd (.nd (.nd (shaAndReads0) (shaAndReads1)) (.nd (shaAndReads2) (shaAndReads3))) (.nd (.nd (shaAndReads4) (shaAndReads5)) (.nd
  (shaAndReads6) (shaAndReads7)))) (.nd (.nd (.nd (shaAndReads8) (shaAndReads9)) (.nd (shaAndReads10) (shaAndReads11))) (.nd (.nd (shaAndReads12) (shaAndReads13))
  (.nd (shaAndReads14) (shaAndReads15))))) (.nd (.nd (.nd (.nd (shaAndReads16) (shaAndReads17)) (.nd (shaAndReads18) (shaAndReads19))) (.nd (.nd (shaAndReads20)
  (shaAndReads21)) (.nd (shaAndReads22) (shaAndReads23)))) (.nd (.nd (.nd (shaAndReads24) (shaAndReads25)) (.nd (shaAndReads26) (shaAndReads27))) (.nd (.nd
  (shaAndReads28) (shaAndReads29)) (.nd (shaAndReads30) (shaAndReads31)))))) (.nd (.nd (.nd (.nd (.nd (shaAndReads32) (shaAndReads33)) (.nd (shaAndReads34)
  (shaAndReads35))) (.nd (.nd (shaAndReads36) (shaAndReads37)) (.nd (shaAndReads38) (shaAndReads39)))) (.nd (.nd (.nd (shaAndReads40) (shaAndReads41)) (.nd
  (shaAndReads42) (shaAndReads43))) (.nd (.nd (shaAndReads44) (shaAndReads45)) (.nd (shaAndReads46) (shaAndReads47))))) (.nd (.nd (.nd (.nd (shaAndReads48)
  (shaAndReads49)) (.nd (shaAndReads50) (shaAndReads51))) (.nd (.nd (shaAndReads52) (shaAndReads53)) (.nd (shaAndReads54) (shaAndReads55)))) (.nd (.nd (.nd
  (shaAndReads56) (shaAndReads57)) (.nd (shaAndReads58) (shaAndReads59))) (.nd (.nd (shaAndReads60) (shaAndReads61)) (.nd (shaAndReads62) (shaAndReads63)))))))
  (.nd (.nd (.nd (.nd (.nd (.nd (shaAndReads64) (shaAndReads65)) (.nd (shaAndReads66) (shaAndReads67))) (.nd (.nd (shaAndReads68) (shaAndReads69)) (.nd
  (shaAndReads70) (shaAndReads71)))) (.nd (.nd (.nd (shaAndReads72) (shaAndReads73)) (.nd (shaAndReads74) (shaAndReads75))) (.nd (.nd (shaAndReads76)
  (shaAndReads77)) (.nd (shaAndReads78) (shaAndReads79))))) (.nd (.nd (.nd (.nd (shaAndReads80) (shaAndReads81)) (.nd (shaAndReads82) (shaAndReads83))) (.nd (.nd
  (shaAndReads84) (shaAndReads85)) (.nd (shaAndReads86) (shaAndReads87)))) (.nd (.nd (.nd (shaAndReads88) (shaAndReads89)) (.nd (shaAndReads90) (shaAndReads91)))
  (.nd (.nd (shaAndReads92) (shaAndReads93)) (.nd (shaAndReads94) (shaAndReads95)))))) (.nd (.nd (.nd (.nd (.nd (shaAndReads96) (shaAndReads97)) (.nd
  (shaAndReads98) (shaAndReads99))) (.nd (.nd (shaAndReads100) (shaAndReads101)) (.nd (shaAndReads102) (shaAndReads103)))) (.nd (.nd (.nd (shaAndReads104)
  (shaAndReads105)) (.nd (shaAndReads106) (shaAndReads107))) (.nd (.nd (shaAndReads108) (shaAndReads109)) (.nd (shaAndReads110) (shaAndReads111))))) (.nd (.nd
  (.nd (.nd (shaAndReads112) (shaAndReads113)) (.nd (shaAndReads114) (shaAndReads115))) (.nd (.nd (shaAndReads116) (shaAndReads117)) (.nd (shaAndReads118)
  (shaAndReads119)))) (.nd (.nd (.nd (shaAndReads120) (shaAndReads121)) (.nd (shaAndReads122) (shaAndReads123))) (.nd (.nd (shaAndReads124) (shaAndReads125)) (.nd
  (shaAndReads126) (shaAndReads127)))))))

def shaAndFan0 : BTree :=
  .nd (.nd (.nd (.lf
  0x200000000000000000000000000000003000000000000000000000000000000030000000000000000000000000000000300000000000000000000000000000003000000000000000000000000000000030000000000000000000000000000000300000000000000000000000000000003)
  (.lf 0x0)) (.nd (.lf
  0x11111111111111111111111111111111000000000000000000000000000000001111111111111111111111111111111100000000000000000000000000000000111111111111111111111111111111110000000000000000000000000000000011111111111111111111111111111111000000000000000)
  (.lf 0))) (.nd (.nd (.lf
  0x1011011011011011011011011011011011011011011011011011011011011011011011011011011011011011011011011011011011011011011011011011011011011011000000000000000000000000010110101101101101010101011011010110110101011010101010110101011010110110110110110110110110110110)
  (.lf 0)) (.nd (.lf
  0x1000000000000000000000000000000010000000000000000000000000000000100000000000000000000000000000001000000000000000000000000000000010000000000000000000000000000000100000000000000000000000000000001000000000000000000000000000000010000000000000000000000)
  (.lf 0)))

def shaAndFan1 : BTree :=
  .nd (.nd (.nd (.lf
  0x1011011011011011011011011011011011011011011011011011011011011011011011011011011011011011011011011011011011011011011011011011011011011011011011011011011011011011011011011011011011011011011011011011011011011011011011011011011011011011011011011011011011011011)
  (.lf 0)) (.nd (.lf
  0x10000000000000000000000000000000100000000000000000000000000000001000000000000000000000000000000010000000000000000000000000000000100000000000000000000000000000001000000000000000000000000000000010000000000000000000000000000000100000000000000000)
  (.lf 0))) (.nd (.nd (.lf
  0x1011011011011011011011011011011011011011011011011011011011011011011011011011011011011011011011011011011011011011011011011011011011011011011011011011011011011011011011011011011011011011011011011011011011011011011011011011011011011011011011011011011011011011)
  (.lf 0)) (.nd (.lf 0x0) (.lf 0)))

def shaAndFan2 : BTree :=
  .nd (.nd (.nd (.lf
  0x1101101101101101101101101101101101101101101101101101101101101101101101101101101101101101101101101101101101101101101101101101101101101101101101101101101101101101101101101101101101101101101101101101101101101101101101101101101101101101101101101101101101101101)
  (.lf 0)) (.nd (.lf
  0x1111111111111111100000000000000000000000000000000111111111111111111111111111111111111111111111111111111111111111100000000000000000000000000000000111111111111111111111111111111111111111111111111111111111111111100000000000000000000000000000000111111111111111)
  (.lf 0))) (.nd (.nd (.lf
  0x110110110110110110110110110110110110110110110110110110110110110110110110110110110110110110110110110110110110110110110110110110110110110110110110110110110110000000000000000011010101010101101101010110110101101101101101101101010101101011011011001101101101101)
  (.lf 0)) (.nd (.lf 0x0) (.lf 0)))

def shaAndFan3 : BTree :=
  .nd (.nd (.nd (.lf
  0x1011011011011011011011011011011011011011011000000000000000010110110101101010110101101101010101011010110110110110101011010110110101100110110110110110110110110110110110110110110110110110110110110110110110110110110110110110110110110110110110110110110110110110)
  (.lf 0)) (.nd (.lf
  0x1110100100100020011100010010011101011100101110300101110011011010001011111100112001010010110011011111001110110020000101111110001110010100111101201101111100101010101111110010002011001100101101100111110111010120110000111001000100100111111000201011000101101111)
  (.lf 0))) (.nd (.nd (.lf
  0x110110110110110110110110110110110110110110110110110110110110110110110110110110110110110110110110110110110110110110110110110110110110110110110110110110110110110110110110110110110110110110110110110110110110110110110110110110110110110110110110110110110110110)
  (.lf 0)) (.nd (.lf 0x0) (.lf 0)))

def shaAndFan4 : BTree :=
  .nd (.nd (.nd (.lf
  0x100000000000000000000000000000001000000000000000000000000000000010000000000000000000000000000000100000000000000000000000000000001000000000000000000000000000000011111111111111111111111111111111211111111111111111111111111111112)
  (.lf 0x0)) (.nd (.lf
  0x1111111111111111111111111111111111111111111111111000000000000000000000000000000001111111111111111111111111111111111111111111111111111111111111111000000000000000000000000000000001111111111111111111111111111111111111111111111111111111111111111000000000000000)
  (.lf 0))) (.nd (.nd (.lf
  0x1101101101101101101101101101101101101101101101101101101101101101101101101101101101101101101101101101101101101101101101101101101101101101101101101101101101100000000000000101011011010101010101101101101101101010110101101010101101011010110100110110110110110110)
  (.lf 0)) (.nd (.lf 0x0) (.lf 0)))

def shaAndFan5 : BTree :=
  .nd (.nd (.nd (.lf
  0x1101101101101101101101101101101101101101100000000000000000000001010110101010101101011011011011011010110110110110110110110110110110110110110011011011011011011011011011011011011011011011011011011011011011011011011011011011011011011011011011011011011011011011)
  (.lf 0)) (.nd (.lf
  0x10000000000000000000000000000000100000000000000000000000000000001000000000000000000000000000000010000000000000000000000000000000100000000000000000000000000000001000000000000000000000000000000010000000000000000000000000000000100000000000000000)
  (.lf 0))) (.nd (.nd (.lf
  0x1101101101101101101101101101101101101101101101101101101101101101101101101101101101101101101101101101101101101101101101101101101101101101101101101101101101101101101101101101101101101101101101101101101101101101101101101101101101101101101101101101101101101101)
  (.lf 0)) (.nd (.lf 0x0) (.lf 0)))

def shaAndFan6 : BTree :=
  .nd (.nd (.nd (.lf
  0x110110110110110110110110110110110110110110110110110110110110110110110110110110110110110110110110110110110110110110110110110110110110110110110110110110110110110110110110110110110110110110110110110110110110110110110110110110110110110110110110110110110110110)
  (.lf 0)) (.nd (.lf
  0x10000000000000000000000000000000100000000000000000000000000000001000000000000000000000000000000010000000000000000000000000000000100000000000000000000000000000001000000000000000000000000000000010000000000000000000000000000000100000000000000000)
  (.lf 0))) (.nd (.nd (.lf
  0x1011011011011011011011011011011011011011011011011011011011011011011011011011011011011011011011011011011011011011011011011011011011011011011011011011011011011011011011011000000000000001010110101011010101011011011011011011011010101010101101011010110100110110)
  (.lf 0)) (.nd (.lf 0x0) (.lf 0)))

def shaAndFan7 : BTree :=
  .nd (.nd (.nd (.lf
  0x110110110110110110110110110110110110110110110110110110110110110110110110110110110110110110110110110110110110110110110000000000000000000000000011010101010110101011010101101011011011010101011010110110101101011011011011011011011011011011011011011011011011011)
  (.lf 0)) (.nd (.lf
  0x1000000000000000000000000000000010000000000000000000000000000000100000000000000000000000000000001000000000000000000000000000000010000000000000000000000000000000100000000000000000000000000000001000000000000000000000000000000010000000000000000000000)
  (.lf 0))) (.nd (.nd (.lf 0x0) (.lf 0)) (.nd (.lf 0x0) (.lf 0)))

def shaAndFan8 : BTree :=
  .nd (.nd (.nd (.lf
  0x1111111111111111111111111111111211111111111111111111111111111112111111111111111111111111111111121111111111111111111111111111111200000000000000000000000000000001000000000000000000000000000000010000000000000000000000000000000100000000000000000000000000000001)
  (.lf 0x0)) (.nd (.lf 0x0) (.lf 0))) (.nd (.nd (.lf
  0x1101101101010101101101101101101101101101101101101101101101101101101101101101101101101101101101101101101101101101101101101101101101101101101101101101101101101101101101101101101101101101101101101101101101101101101101101101101101101101101101101101101101101101)
  (.lf 0)) (.nd (.lf
  0x1000000000000000000000000000000010000000000000000000000000000000100000000000000000000000000000001000000000000000000000000000000010000000000000000000000000000000100000000000000000000000000000001000000000000000000000000000000010000000000000000000000)
  (.lf 0)))

def shaAndFan9 : BTree :=
  .nd (.nd (.nd (.lf
  0x110110110110110110110110110110110110110110110110110110110110110110110110110110110110110110110110110110110110110110110110110110110110110110110110110110110110110110110110110110110110110110110110110110110110110110110110110110110110110110110110110110110110110)
  (.lf 0)) (.nd (.lf
  0x10000000000000000000000000000000100000000000000000000000000000001000000000000000000000000000000010000000000000000000000000000000100000000000000000000000000000001000000000000000000000000000000010000000000000000000000000000000100000000000000000)
  (.lf 0))) (.nd (.nd (.lf
  0x110110110110110110110110110110110110110110110110110110110110110110110110110110110110110110110110110110110110110110110110110110110110110110110110110110110110110110110110110110110110110110110110110110110110110110110110110110110110110110110110110110110110110)
  (.lf 0)) (.nd (.lf 0x0) (.lf 0)))

def shaAndFan10 : BTree :=
  .nd (.nd (.nd (.lf
  0x1011011011011011011011011011011011011011011011011011011011011011011011011011011011011011011011011011011011011011011011011011011011011011011011011011011011011011011011011011011011011011011011011011011011011011011011011011011011011011011011011011011011011011)
  (.lf 0)) (.nd (.lf
  0x20000000000000000000000000000000200000000000000000000000000000002000000000000000000000000000000020000000000000000000000000000000200000000000000000000000000000002000000000000000000000000000000020000000000000000000000000000000100000000000000000)
  (.lf 0))) (.nd (.nd (.lf
  0x1011011011011011011011011011011011011011011011011011011011011011011011011011011011011011011011011011011011011011011011011011011011011011011011011011011011011011011011011011011011011011011011011011011011011011011011011011011011011011011011011011011011011011)
  (.lf 0)) (.nd (.lf 0x0) (.lf 0)))

def shaAndFan11 : BTree :=
  .nd (.nd (.nd (.lf
  0x1011011011011011011011011011011011011011011011011011011011011011011011011011011011011011011011011011011011011011011011011011011011011011011011011011011011011011011011011011011011011011011011011011011011011011011011011011011011011011011011011011011011011011)
  (.lf 0)) (.nd (.lf
  0x1000000000000000000000000000001000000000000000000000000000000010000000000000000000000000000000000000000000000000000000000000000000000000000000000000001000)
  (.lf 0))) (.nd (.nd (.lf
  0x1101101101101101101101101101101101101101101101101101101101101101101101101101101101101101101101101101101101101101101101101101101101101101101101101101101101101101101101101101101101101101101101101101101101101101101101101101101101101101101101101101101101101101)
  (.lf 0)) (.nd (.lf 0x0) (.lf 0)))

def shaAndFan12 : BTree :=
  .nd (.nd (.nd (.lf 0x0) (.lf 0)) (.nd (.lf
  0x11111111111111111111111111111111111111111111111111111111111111110000000000000000000000000000000011111111111111111111111111111111111111111111111111111111111111110000000000000000000000000000000011111111111111111111111111111111111111111111111)
  (.lf 0))) (.nd (.nd (.lf
  0x101010110110110101010110110110110110110110110110110110110110110110110110110110110110110110110110110110110110110110110110110110110110110110110110110110110110110110110110110110110110110110110110110110110110110110110110110110110110110110110110110110110110110)
  (.lf 0)) (.nd (.lf 0x0) (.lf 0)))

def shaAndFan13 : BTree :=
  .nd (.nd (.nd (.lf
  0x1101101101101101101101101101101101101101101101101101101101101101101101101101101101101101101101101101101101101101101101101101101101101101101101101101101101101101101101101101101101101101101101101101101101101101101101101101101101101101101101101101101101101101)
  (.lf 0)) (.nd (.lf
  0x10000000000000000000000000000000100000000000000000000000000000001000000000000000000000000000000010000000000000000000000000000000100000000000000000000000000000001000000000000000000000000000000010000000000000000000000000000000100000000000000000)
  (.lf 0))) (.nd (.nd (.lf
  0x1011011011011011011011011011011011011011011011011011011011011011011011011011011011011011011011011011011011011011011011011011011011011011011011011011011011011011011011011011011011011011011011011011011011011011011011011011011011011011011011011011011011011011)
  (.lf 0)) (.nd (.lf 0x0) (.lf 0)))

def shaAndFan14 : BTree :=
  .nd (.nd (.nd (.lf
  0x1101101101101101101101101101101101101101101101101101101101101101101101101101101101101101101101101101101101101101101101101101101101101101101101101101101101101101101101101101101101101101101101101101101101101101101101101101101101101101101101101101101101101101)
  (.lf 0)) (.nd (.lf
  0x10000000000000000000000000000000100000000000000000000000000000001000000000000000000000000000000010000000000000000000000000000000100000000000000000000000000000001000000000000000000000000000000010000000000000000000000000000000100000000000000000)
  (.lf 0))) (.nd (.nd (.lf
  0x1011011011011011011011011011011011011011011011011011011011011011011011011011011011011011011011011011011011011000000000000001101101101010101101010110110101101101101011010101011010101101010110101001101101101101101101101101101101101101101101101101101101101101)
  (.lf 0)) (.nd (.lf 0x0) (.lf 0)))

def shaAndFan15 : BTree :=
  .nd (.nd (.nd (.lf
  0x1101010110110110110110110110110110110110110110110110110110110110110110110110110110110110110110110110110110110110110110110110110110110110110110110110110110110110110110110110110110110110110110110110110110110110110110110110110110110110110110110110110110110110)
  (.lf 0)) (.nd (.lf
  0x1000000000000000000000000000000010000000000000000000000000000000100000000000000000000000000000001000000000000000000000000000000010000000000000000000000000000000100000000000000000000000000000001000000000000000000000000000000010000000000000000000000)
  (.lf 0))) (.nd (.nd (.lf
  0x11111111111111111111111111111111000000000000000000000000000000001111111111111111111111111111111100000000000000000000000000000000111111111111111111111111111111110000000000000000000000000000000011111111111111111111111111111111000000000000000)
  (.lf 0)) (.nd (.lf 0x0) (.lf 0)))

def shaAndFan16 : BTree :=
  .nd (.nd (.nd (.lf
  0x1111111111111111111111111111111211111111111111111111111111111112000000000000000000000000000000010000000000000000000000000000000100000000000000000000000000000001000000000000000000000000000000010000000000000000000000000000000100000000000000000000000000000001)
  (.lf 0x0)) (.nd (.lf
  0x1111111111111111111111111111111100000000000000000000000000000000111111111111111111111111111111110000000000000000000000000000000011111111111111111111111111111111000000000000000)
  (.lf 0))) (.nd (.nd (.lf
  0x110110110110110110110110110110110110110110110110110110110110110110110110110110110110110110110110110110110110110110110110110110110110110110110110110110110110110110110110110110110110110110110110110110110110110110110110110110110110110110110110110110110110110)
  (.lf 0)) (.nd (.lf
  0x1000000000000000000000000000000010000000000000000000000000000000100000000000000000000000000000001000000000000000000000000000000010000000000000000000000000000000100000000000000000000000000000001000000000000000000000000000000010000000000000000000000)
  (.lf 0)))

def shaAndFan17 : BTree :=
  .nd (.nd (.nd (.lf
  0x1101101101101101101101101101101101101101101101101101101101101101101101101101101101101101101101101101101101101101101101101101101101101101101101101101101101101101101101101101101101101101101101101101101101101101101101101101101101101101101101101101101101101101)
  (.lf 0)) (.nd (.lf
  0x10000000000000000000000000000000100000000000000000000000000000001000000000000000000000000000000010000000000000000000000000000000100000000000000000000000000000001000000000000000000000000000000010000000000000000000000000000000100000000000000000)
  (.lf 0))) (.nd (.nd (.lf
  0x1101101101101101101101101101101101101101101101101101101101101101101101101101101101101101101101101101101101101101101101101101101101101101101101101101101101101101101101101101101101101101101101101101101101101101101101101101101101101101101101101101101101101101)
  (.lf 0)) (.nd (.lf 0x0) (.lf 0)))

def shaAndFan18 : BTree :=
  .nd (.nd (.nd (.lf
  0x110110110110110110110110110110110110110110110110110110110110110110110110110110110110110110110110110110110110110110110110110110110110110110110110110110110110110110110110110110110110110110110110110110110110110110110110110110110110110110110110110110110110110)
  (.lf 0)) (.nd (.lf
  0x1011011011011011011011011011011011011011011011011011011011011011011011011011011011011011011011011011011011011011011011011011011011011011011011011011011011011011011011011011011011011011011011011011011011011011011011011011011011011011011011011011011011011011)
  (.lf 0))) (.nd (.nd (.lf
  0x110110110110110110110110110110110110110110110110110110110110110110110110110110110110110110110110110110110110110110110110110110110110110110110110110110110110110110110110110110110110110110110110110110110110110110110110110110110110110110110110110110110000000)
  (.lf 0)) (.nd (.lf 0x0) (.lf 0)))

def shaAndFan19 : BTree :=
  .nd (.nd (.nd (.lf
  0x110110110110110110110110110110110110110110110110110110110110110110110110110110110110110110110110110110110110110110110110110110110110110110110110110110110110110110110110110000000000000010101101101101101010101101101011011011010110110101101101010101010011011)
  (.lf 0)) (.nd (.lf
  0x1111010010000120010101011110011100000100011110300001101010000011010001010001002011111110010000101001110000000120110010000100011111110010101100300111110011001000000111010001002000110110110010010010110001111120001000001000001101110000111101201110000001111100)
  (.lf 0))) (.nd (.nd (.lf
  0x1011011011011011011011011011011011011011011011011011011011011011011011011011011011011011011011011011011011011011011011011011011011011011011011011011011011011011011011011011011011011011011011011011011011011011011011011011011011011011011011011011011011011011)
  (.lf 0)) (.nd (.lf 0x0) (.lf 0)))

def shaAndFan20 : BTree :=
  .nd (.nd (.nd (.lf 0x0) (.lf 0)) (.nd (.lf
  0x1111111111111111100000000000000000000000000000000111111111111111111111111111111111111111111111111111111111111111100000000000000000000000000000000111111111111111111111111111111111111111111111111111111111111111100000000000000000000000000000000111111111111111)
  (.lf 0))) (.nd (.nd (.lf
  0x1011011011011011011011011011011011011011011011011011011011011011011011011011011011011011011011011011011011011011011011011011011011011011011011011011011011011011011011011011011011011011011011011011011011011011011011011011011011011011011011011011011011011011)
  (.lf 0)) (.nd (.lf 0x0) (.lf 0)))

def shaAndFan21 : BTree :=
  .nd (.nd (.nd (.lf
  0x110110110110110110110110110110110110110110110110110110110110110110110110110110110110110110110110110110110110110110110110110110110110110110110110110110110110110110110110110110110110110110110110110110110000000000010101010110101011011010101101010101011011011)
  (.lf 0)) (.nd (.lf
  0x10000000000000000000000000000000100000000000000000000000000000001000000000000000000000000000000010000000000000000000000000000000100000000000000000000000000000001000000000000000000000000000000010000000000000000000000000000000100000000000000000)
  (.lf 0))) (.nd (.nd (.lf
  0x110110110110110110110110110110110110110110110110110110110110110110110110110110110110110110110110110110110110110110110110110110110110110110110110110110110110110110110110110110110110110110110110110110110110110110110110110110110110110110110110110110110110110)
  (.lf 0)) (.nd (.lf 0x0) (.lf 0)))

def shaAndFan22 : BTree :=
  .nd (.nd (.nd (.lf
  0x1011011011011011011011011011011011011011011011011011011011011011011011011011011011011011011011011011011011011011011011011011011011011011011011011011011011011011011011011011011011011011011011011011011011011011011011011011011011011011011011011011011011011011)
  (.lf 0)) (.nd (.lf
  0x10000000000000000000000000000000100000000000000000000000000000001000000000000000000000000000000010000000000000000000000000000000100000000000000000000000000000001000000000000000000000000000000010000000000000000000000000000000100000000000000000)
  (.lf 0))) (.nd (.nd (.lf
  0x1011011011011011011011011011011011011011011011011011011011011011011011011011011011011011011011011011011011011011011011011011011011011011011011011011011011011011011011011011011011011011011011011011011011011011011011011011011011011011011011011011011011011011)
  (.lf 0)) (.nd (.lf 0x0) (.lf 0)))

def shaAndFan23 : BTree :=
  .nd (.nd (.nd (.lf
  0x1011011011011011011011011011011011011011011011011011011011011011011011011011011011011011011011011011011011011011011011011011011011011011011011011011011011011011011011011011011011011011011011011011011011011011011011011011011011011011011000000000000000001011)
  (.lf 0)) (.nd (.lf
  0x1000000000000000000000000000000010000000000000000000000000000000100000000000000000000000000000001000000000000000000000000000000010000000000000000000000000000000100000000000000000000000000000001000000000000000000000000000000010000000000000000000000)
  (.lf 0))) (.nd (.nd (.lf 0x0) (.lf 0)) (.nd (.lf 0x0) (.lf 0)))

def shaAndFan24 : BTree :=
  .nd (.nd (.nd (.lf
  0x1111111111111111111111111111111211111111111111111111111111111112111111111111111111111111111111121111111111111111111111111111111200000000000000000000000000000001000000000000000000000000000000010000000000000000000000000000000100000000000000000000000000000001)
  (.lf 0x0)) (.nd (.lf
  0x11111111111111111111111111111111111111111111111111111111111111110000000000000000000000000000000000000000000000000000000000000000000000000000000000000000000000000000000000000000000000000000000000000000000000000000000000000000000000000000000)
  (.lf 0))) (.nd (.nd (.lf
  0x1011011011011011011000000000000101101101010101010101010101011011010101101010110110110110110100110110110110110110110110110110110110110110110110110110110110110110110110110110110110110110110110110110110110110110110110110110110110110110110110110110110110110110)
  (.lf 0)) (.nd (.lf
  0x1000000000000000000000000000000010000000000000000000000000000000100000000000000000000000000000001000000000000000000000000000000010000000000000000000000000000000100000000000000000000000000000001000000000000000000000000000000010000000000000000000000)
  (.lf 0)))

def shaAndFan25 : BTree :=
  .nd (.nd (.nd (.lf
  0x1101101101101010110110101101010101101101101101101101011010110110110110110110110110110110110110110110110110110110110110110110110110110110110110110110110110110110110110110110110110110110110110110110110110110110110110110110110110110110110110110110110110110110)
  (.lf 0)) (.nd (.lf
  0x10000000000000000000000000000000100000000000000000000000000000001000000000000000000000000000000010000000000000000000000000000000100000000000000000000000000000001000000000000000000000000000000010000000000000000000000000000000100000000000000000)
  (.lf 0))) (.nd (.nd (.lf
  0x1011011011011011011011011011011011011011011011011011011011011011011011011011011011011011011011011011011011011011011011011011011011011011011011011011011011011011011011011011011011011011011011011011011011011011011011011011011011011011011011011011011011011011)
  (.lf 0)) (.nd (.lf 0x0) (.lf 0)))

def shaAndFan26 : BTree :=
  .nd (.nd (.nd (.lf
  0x1101101101101101101101101101101101101101101101101101101101101101101101101101101101101101101101101101101101101101101101101101101101101101101101101101101101101101101101101101101101101101101101101101101101101101101101101101101101101101101101101101101101101101)
  (.lf 0)) (.nd (.lf
  0x30000000000000000000000000000000300000000000000000000000000000003000000000000000000000000000000030000000000000000000000000000000300000000000000000000000000000003000000000000000000000000000000030000000000000000000000000000000300000000000000000)
  (.lf 0))) (.nd (.nd (.lf
  0x1011011011011011011011011011011011011000000000000000000000000001101011011010101010101010101101101101101011010110101101011010101011011011011011011011011011011011011011011011011011011011011011011011011011011011011011011011011011011011011011011011011011011011)
  (.lf 0)) (.nd (.lf 0x0) (.lf 0)))

def shaAndFan27 : BTree :=
  .nd (.nd (.nd (.lf
  0x110000000000000011010110101010110110101011010101101011011011010110101010101010110110100110110110110110110110110110110110110110110110110110110110110110110110110110110110110110110110110110110110110110110110110110110110110110110110110110110110110110110110110)
  (.lf 0)) (.nd (.lf
  0x1000000000000000000000000000000000000000000000000000000000000000000000000000000000000000000001000000000000000000000000000000000000000000000000000000000000000000000000000000000000000000001000000000000000000000000000000010)
  (.lf 0))) (.nd (.nd (.lf
  0x110110110110110110110110110110110110110110110110110110110110110110110110110110110110110110110110110110110110110110110110110110110110110110110110110110110110110110110110110110110110110110110110110110110110110110110110110110110110110110110110110110110110110)
  (.lf 0)) (.nd (.lf 0x0) (.lf 0)))

def shaAndFan28 : BTree :=
  .nd (.nd (.nd (.lf
  0x1011011011011011011011011011011011011011011011011011011011011011011011011011011011011011011011011011011011011011011011011011011011011011011011011011011011011011011011011011011011011011011011011011011011011011011011011011011011011011011011011011011011011011)
  (.lf 0)) (.nd (.lf
  0x1111111111111111111111111111111111111111111111111000000000000000000000000000000001111111111111111111111111111111111111111111111111111111111111111000000000000000000000000000000001111111111111111111111111111111111111111111111111111111111111111000000000000000)
  (.lf 0))) (.nd (.nd (.lf
  0x1101101101101101101101101100000000000000000000000000000000000000110110101101101101101101011011011011011010101101010101101101101101010101010110110110110110110110110110110110110110110110110110110110110110110110110110110110110110110110110110110110110110110110)
  (.lf 0)) (.nd (.lf 0x0) (.lf 0)))

def shaAndFan29 : BTree :=
  .nd (.nd (.nd (.lf
  0x110101011001101101101101101101101101101101101101101101101101101101101101101101101101101101101101101101101101101101101101101101101101101101101101101101101101101101101101101101101101101101101101101101101101101101101101101101101101101101101101101101101101101)
  (.lf 0)) (.nd (.lf
  0x10000000000000000000000000000000100000000000000000000000000000001000000000000000000000000000000010000000000000000000000000000000100000000000000000000000000000001000000000000000000000000000000010000000000000000000000000000000100000000000000000)
  (.lf 0))) (.nd (.nd (.lf
  0x1101101101101101101101101101101101101101101101101101101101101101101101101101101101101101101101101101101101101101101101101101101101101101101101101101101101101101101101101101101101101101101101101101101101101101101101101101101101101101101101101101101101101101)
  (.lf 0)) (.nd (.lf 0x0) (.lf 0)))

def shaAndFan30 : BTree :=
  .nd (.nd (.nd (.lf
  0x110110110110110110110110110110110110110110110110110110110110110110110110110110110110110110110110110110110110110110110110110110110110110110110110110110110110110110110110110110110110110110110110110110110110110110110110110110110110110110110110110110110110110)
  (.lf 0)) (.nd (.lf
  0x10000000000000000000000000000000100000000000000000000000000000001000000000000000000000000000000010000000000000000000000000000000100000000000000000000000000000001000000000000000000000000000000010000000000000000000000000000000100000000000000000)
  (.lf 0))) (.nd (.nd (.lf
  0x110110110110110110110110110110110110110110110110110110110110110110110110110110110110110110110110110110110110110110110110110110110110110110110110110110110110110110110110110110110110110110110110110110110110110110110110110110110110110110110110110110110110110)
  (.lf 0)) (.nd (.lf 0x0) (.lf 0)))

def shaAndFan31 : BTree :=
  .nd (.nd (.nd (.lf
  0x110110110110110110110110110000000000000000000000000110101101010110110101011011011010101010101010110110101101010101101010101101101101101101101101101101101101101101101101101101101101101101101101101101101101101101101101101101101101101101101101101101101101101)
  (.lf 0)) (.nd (.lf
  0x1000000000000000000000000000000010000000000000000000000000000000100000000000000000000000000000001000000000000000000000000000000010000000000000000000000000000000100000000000000000000000000000001000000000000000000000000000000010000000000000000000000)
  (.lf 0))) (.nd (.nd (.lf
  0x11111111111111111111111111111111000000000000000000000000000000001111111111111111111111111111111100000000000000000000000000000000111111111111111111111111111111110000000000000000000000000000000011111111111111111111111111111111000000000000000)
  (.lf 0)) (.nd (.lf 0x0) (.lf 0)))

def shaAndFan32 : BTree :=
  .nd (.nd (.nd (.lf
  0x200000000000000000000000000000002000000000000000000000000000000020000000000000000000000000000000211111111111111111111111111111113000000000000000000000000000000020000000000000000000000000000000200000000000000000000000000000002)
  (.lf 0x0)) (.nd (.lf
  0x11111111111111111111111111111111000000000000000000000000000000001111111111111111111111111111111100000000000000000000000000000000111111111111111111111111111111110000000000000000000000000000000011111111111111111111111111111111000000000000000)
  (.lf 0))) (.nd (.nd (.lf
  0x110110110110110110110110110110110110110110110110110110110110110110110110110110110110110110110110110110110110110110110110110110110110110110110110110110110110110110110110110110110110110110110110110110110000000000000001011010101101101101101011011010110110110)
  (.lf 0)) (.nd (.lf
  0x1000000000000000000000000000000010000000000000000000000000000000100000000000000000000000000000001000000000000000000000000000000010000000000000000000000000000000100000000000000000000000000000001000000000000000000000000000000010000000000000000000000)
  (.lf 0)))

def shaAndFan33 : BTree :=
  .nd (.nd (.nd (.lf
  0x110110110110110110110110110110110110110110110110110110110110110110110110110110110110110110110110110110110110110110110110110110110110110110110110110110110110110110110110110110110110110110110110110110110110110110110110110110110110110110110110110110110110110)
  (.lf 0)) (.nd (.lf
  0x10000000000000000000000000000000100000000000000000000000000000001000000000000000000000000000000010000000000000000000000000000000100000000000000000000000000000001000000000000000000000000000000010000000000000000000000000000000100000000000000000)
  (.lf 0))) (.nd (.nd (.lf
  0x110110110110110110110110110110110110110110110110110110110110110110110110110110110110110110110110110110110110110110110110110110110110110110110110110110110110110110110110110110110110110110110110110110110110110110110110110110110110110110110110110110110110110)
  (.lf 0)) (.nd (.lf 0x0) (.lf 0)))

def shaAndFan34 : BTree :=
  .nd (.nd (.nd (.lf
  0x1011011011011011011011011011011011011011011011011011011011011011011011011011011011011011011011011011011011011011011011011011011011011011011011011011011011011011011011011011011011011011011011011011011011011011011011011011011011011011011011011011011011011011)
  (.lf 0)) (.nd (.lf
  0x1111111111111111111111111111111111111111111111111000000000000000000000000000000001111111111111111111111111111111111111111111111111111111111111111000000000000000000000000000000001111111111111111111111111111111111111111111111111111111111111111000000000000000)
  (.lf 0))) (.nd (.nd (.lf
  0x1101101101101101101101101101101101101101101101101101101101101101101101101101101101101101101101101101101101101101101101101101101101101101101101101101101101101101101101101101101101101101101101101101101101100000000000000000000000000000000101011011010110110110)
  (.lf 0)) (.nd (.lf 0x0) (.lf 0)))

def shaAndFan35 : BTree :=
  .nd (.nd (.nd (.lf
  0x1101101101101101101101101101101101101101101101101101101101101101101101101101101101101101101101101100000000000000000000000000000101101010110110110101101010110101010101101101101011011011010110101010110110110110110110110110110110110110110110110110110110110110)
  (.lf 0)) (.nd (.lf
  0x1011000001100020100000010100110100000000011100300111001000111111111010000001103001010100101100001101110101110030111100100110101100111001010111201101011110101101101011010011003010110000100100011110101011110120101000111100100110111101100100200110010110100111)
  (.lf 0))) (.nd (.nd (.lf
  0x1101101101101101101101101101101101101101101101101101101101101101101101101101101101101101101101101101101101101101101101101101101101101101101101101101101101101101101101101101101101101101101101101101101101101101101101101101101101101101101101101101101101101101)
  (.lf 0)) (.nd (.lf 0x0) (.lf 0)))

def shaAndFan36 : BTree :=
  .nd (.nd (.nd (.lf
  0x110110110110110110110110110110110110110110110110110110110110110110110110110110110110110110000000000000000000000000000000000000000000000000000) (.lf 0x0)) (.nd
  (.lf
  0x11111111111111111111111111111111111111111111111111111111111111110000000000000000000000000000000011111111111111111111111111111111111111111111111111111111111111110000000000000000000000000000000011111111111111111111111111111111111111111111111)
  (.lf 0))) (.nd (.nd (.lf
  0x110110110110110110110110110110110110110110110110110110110110110110110110110110110110110110110110110110110110110110110110110110110110110110110110110110110110110110110110110110110110110110110110110110110110110110110110000000000000000001101101101011011010110)
  (.lf 0)) (.nd (.lf 0x0) (.lf 0)))

def shaAndFan37 : BTree :=
  .nd (.nd (.nd (.lf
  0x110110110110110110110110110110110110110110110110110110110110110110110110110110110110110110110110110110110110110110110110110000000000101010110110101011011010101011011011010101010101011010101010011011011011011011011011011011011011011011011011011011011011011)
  (.lf 0)) (.nd (.lf
  0x10000000000000000000000000000000100000000000000000000000000000001000000000000000000000000000000010000000000000000000000000000000100000000000000000000000000000001000000000000000000000000000000010000000000000000000000000000000100000000000000000)
  (.lf 0))) (.nd (.nd (.lf
  0x1011011011011011011011011011011011011011011011011011011011011011011011011011011011011011011011011011011011011011011011011011011011011011011011011011011011011011011011011011011011011011011011011011011011011011011011011011011011011011011011011011011011011011)
  (.lf 0)) (.nd (.lf 0x0) (.lf 0)))

def shaAndFan38 : BTree :=
  .nd (.nd (.nd (.lf
  0x1101101101101101101101101101101101101101101101101101101101101101101101101101101101101101101101101101101101101101101101101101101101101101101101101101101101101101101101101101101101101101101101101101101101101101101101101101101101101101101101101101101101101101)
  (.lf 0)) (.nd (.lf
  0x10000000000000000000000000000000100000000000000000000000000000001000000000000000000000000000000010000000000000000000000000000000100000000000000000000000000000001000000000000000000000000000000010000000000000000000000000000000100000000000000000)
  (.lf 0))) (.nd (.nd (.lf
  0x1011011011011011011011011011011011011011011011011011011011011011011011011011011011011011011011011011011011011011011011011011011011011011011011011011011011011011011011011011011011011011011011011011011011011011011011011011011011011011000000000000000011010110)
  (.lf 0)) (.nd (.lf 0x0) (.lf 0)))

def shaAndFan39 : BTree :=
  .nd (.nd (.nd (.lf
  0x1101101101101101101101101101101101101101101101101101101101101101101101101101101101101101101101101101101101101101101101101101101101101101101101101101101101101101101101101101100000000000000000000000000101101011010101010101011011010110101011011010101101101010)
  (.lf 0)) (.nd (.lf
  0x1000000000000000000000000000000010000000000000000000000000000000100000000000000000000000000000001000000000000000000000000000000010000000000000000000000000000000100000000000000000000000000000001000000000000000000000000000000010000000000000000000000)
  (.lf 0))) (.nd (.nd (.lf 0x0) (.lf 0)) (.nd (.lf 0x0) (.lf 0)))

def shaAndFan40 : BTree :=
  .nd (.nd (.nd (.lf
  0x100000000000000000000000000000001000000000000000000000000000000010000000000000000000000000000000111111111111111111111111111111112111111111111111111111111111111121111111111111111111111111111111211111111111111111111111111111112)
  (.lf 0x0)) (.nd (.lf 0x0) (.lf 0))) (.nd (.nd (.lf
  0x1011010110101101101010110101101101101101101101101101101010101101011011011011011011011011011011011011011011011011011011011011011011011011011011011011011011011011011011011011011011011011011011011011011011011011011011011011011011011011011011011011011011011011)
  (.lf 0)) (.nd (.lf
  0x1000000000000000000000000000000010000000000000000000000000000000100000000000000000000000000000001000000000000000000000000000000010000000000000000000000000000000100000000000000000000000000000001000000000000000000000000000000010000000000000000000000)
  (.lf 0)))

def shaAndFan41 : BTree :=
  .nd (.nd (.nd (.lf
  0x1101101101101101101101101101101101101101101101101101101101101101101101101101101101101101101101101101101101101101101101101101101101101101101101101101101101101101101101101101101101101101101101101101101101101101101101101101101101101101101101101101101101101101)
  (.lf 0)) (.nd (.lf
  0x10000000000000000000000000000000100000000000000000000000000000001000000000000000000000000000000010000000000000000000000000000000100000000000000000000000000000001000000000000000000000000000000010000000000000000000000000000000100000000000000000)
  (.lf 0))) (.nd (.nd (.lf
  0x1101101101101101101101101101101101101101101101101101101101101101101101101101101101101101101101101101101101101101101101101101101101101101101101101101101101101101101101101101101101101101101101101101101101101101101101101101101101101101101101101101101101101101)
  (.lf 0)) (.nd (.lf 0x0) (.lf 0)))

def shaAndFan42 : BTree :=
  .nd (.nd (.nd (.lf
  0x110110110110110110110110110110110110110110110110110110110110110110110110110110110110110110110110110110110110110110110110110110110110110110110110110110110110110110110110110110110110110110110110110110110110110110110110110110110110110110110110110110110110110)
  (.lf 0)) (.nd (.lf
  0x30000000000000000000000000000000300000000000000000000000000000003000000000000000000000000000000030000000000000000000000000000000300000000000000000000000000000003000000000000000000000000000000030000000000000000000000000000000300000000000000000)
  (.lf 0))) (.nd (.nd (.lf
  0x1011010101010101101101011010110110101101101010101010100110110110110110110110110110110110110110110110110110110110110110110110110110110110110110110110110110110110110110110110110110110110110110110110110110110110110110110110110110110110110110110110110110110110)
  (.lf 0)) (.nd (.lf 0x0) (.lf 0)))

def shaAndFan43 : BTree :=
  .nd (.nd (.nd (.lf
  0x1010101011010011011011011011011011011011011011011011011011011011011011011011011011011011011011011011011011011011011011011011011011011011011011011011011011011011011011011011011011011011011011011011011011011011011011011011011011011011011011011011011011011011)
  (.lf 0)) (.nd (.lf
  0x1000000000000000000000000000010000000000000000000000000000000000000000000000000000000000000000000000000000000000000000000000000000000000000000000000000000000100000000000000000000000000000000000000000000000000000000000000010000000000000)
  (.lf 0))) (.nd (.nd (.lf
  0x1011011011011011011011011011011011011011011011011011011011011011011011011011011011011011011011011011011011011011011011011011011011011011011011011011011011011011011011011011011011011011011011011011011011011011011011011011011011011011011011011011011011011011)
  (.lf 0)) (.nd (.lf 0x0) (.lf 0)))

def shaAndFan44 : BTree :=
  .nd (.nd (.nd (.lf 0x0) (.lf 0)) (.nd (.lf
  0x1111111111111111100000000000000000000000000000000111111111111111111111111111111111111111111111111111111111111111100000000000000000000000000000000111111111111111111111111111111111111111111111111111111111111111100000000000000000000000000000000111111111111111)
  (.lf 0))) (.nd (.nd (.lf
  0x10101011011011011011011010101010101101101010110110110101101101101010101011011011011011011011011011011011011011011011011011011011011011011011011011011011011011011011011011011011011011011011011011011011011011011011011011011011011011011011011)
  (.lf 0)) (.nd (.lf 0x0) (.lf 0)))

def shaAndFan45 : BTree :=
  .nd (.nd (.nd (.lf
  0x1101101101101101101101101101101101101101101101101101101101101101101101101101101101101101101101101101101101101101101101101101101101101101101101101101101101101101101101101101101101101101101101101101101101101101101101101101101101101101101101101101101101101101)
  (.lf 0)) (.nd (.lf
  0x10000000000000000000000000000000100000000000000000000000000000001000000000000000000000000000000010000000000000000000000000000000100000000000000000000000000000001000000000000000000000000000000010000000000000000000000000000000100000000000000000)
  (.lf 0))) (.nd (.nd (.lf
  0x110110110110110110110110110110110110110110110110110110110110110110110110110110110110110110110110110110110110110110110110110110110110110110110110110110110110110110110110110110110110110110110110110110110110110110110110110110110110110110110110110110110110110)
  (.lf 0)) (.nd (.lf 0x0) (.lf 0)))

def shaAndFan46 : BTree :=
  .nd (.nd (.nd (.lf
  0x1011011011011011011011011011011011011011011011011011011011011011011011011011011011011011011011011011011011011011011011011011011011011011011011011011011011011011011011011011011011011011011011011011011011011011011011011011011011011011011011011011011011011011)
  (.lf 0)) (.nd (.lf
  0x10000000000000000000000000000000100000000000000000000000000000001000000000000000000000000000000010000000000000000000000000000000100000000000000000000000000000001000000000000000000000000000000010000000000000000000000000000000100000000000000000)
  (.lf 0))) (.nd (.nd (.lf
  0x1011011011011011011011011011011011011011011011011011011011011011011011011011011011011011011011011011011011011011011011011011011011011011011011011011011011011011011011011011011011011011011011011011011010101010110101101010101101011010101011010110110110110110)
  (.lf 0)) (.nd (.lf 0x0) (.lf 0)))

def shaAndFan47 : BTree :=
  .nd (.nd (.nd (.lf
  0x1010101010110101101010110110110101011011010110101100110110110110110110110110110110110110110110110110110110110110110110110110110110110110110110110110110110110110110110110110110110110110110110110110110110110110110110110110110110110110110110110110110110110110)
  (.lf 0)) (.nd (.lf
  0x1000000000000000000000000000000010000000000000000000000000000000100000000000000000000000000000001000000000000000000000000000000010000000000000000000000000000000100000000000000000000000000000001000000000000000000000000000000010000000000000000000000)
  (.lf 0))) (.nd (.nd (.lf
  0x11111111111111111111111111111111000000000000000000000000000000001111111111111111111111111111111100000000000000000000000000000000111111111111111111111111111111110000000000000000000000000000000011111111111111111111111111111111000000000000000)
  (.lf 0)) (.nd (.lf 0x0) (.lf 0)))

def shaAndFan48 : BTree :=
  .nd (.nd (.nd (.lf
  0x100000000000000000000000000000001000000000000000000000000000000010000000000000000000000000000000111111111111111111111111111111112111111111111111111111111111111121111111111111111111111111111111211111111111111111111111111111112)
  (.lf 0x0)) (.nd (.lf 0x0) (.lf 0))) (.nd (.nd (.lf
  0x110110110110110110110110110110110110110110110110110110110110110110110110110110110110110110110110110110110110110110110110110110110110110110110110110110110110110110110110110110110110110110110110110110110110110110110110110110110110110110110110110110110110110)
  (.lf 0)) (.nd (.lf
  0x1000000000000000000000000000000010000000000000000000000000000000100000000000000000000000000000001000000000000000000000000000000010000000000000000000000000000000100000000000000000000000000000001000000000000000000000000000000010000000000000000000000)
  (.lf 0)))

def shaAndFan49 : BTree :=
  .nd (.nd (.nd (.lf
  0x1011011011011011011011011011011011011011011011011011011011011011011011011011011011011011011011011011011011011011011011011011011011011011011011011011011011011011011011011011011011011011011011011011011011011011011011011011011011011011011011011011011011011011)
  (.lf 0)) (.nd (.lf
  0x10000000000000000000000000000000100000000000000000000000000000001000000000000000000000000000000010000000000000000000000000000000100000000000000000000000000000001000000000000000000000000000000010000000000000000000000000000000100000000000000000)
  (.lf 0))) (.nd (.nd (.lf
  0x1011011011011011011011011011011011011011011011011011011011011011011011011011011011011011011011011011011011011011011011011011011011011011011011011011011011011011011011011011011011011011011011011011011011011011011011011011011011011011011011011011011011011011)
  (.lf 0)) (.nd (.lf 0x0) (.lf 0)))

def shaAndFan50 : BTree :=
  .nd (.nd (.nd (.lf
  0x1101101101101101101101101101101101101101101101101101101101101101101101101101101101101101101101101101101101101101101101101101101101101101101101101101101101101101101101101101101101101101101101101101101101101101101101101101101101101101101101101101101101101101)
  (.lf 0)) (.nd (.lf
  0x1111111111111111111111111111111100000000000000000000000000000000111111111111111111111111111111110000000000000000000000000000000000000000000000000000000000000000111111111111111111111111111111111111111111111111111111111111111100000000000000000)
  (.lf 0))) (.nd (.nd (.lf
  0x1011011011011011011011011011011011011011011011011011011011011011011011011011011011011011011011011011011011011011011011011011011011011011011011011011011011011011011011011011011011011011011011011011011011011011011011011011011011011011011011011011011011011011)
  (.lf 0)) (.nd (.lf 0x0) (.lf 0)))

def shaAndFan51 : BTree :=
  .nd (.nd (.nd (.lf
  0x1101101101101101101101101101101101101101101101101101101101101101101101101101101101101101101101101101101101101101101101101101101101101101101101101101101101101101101101101101101101101101101101101101101101101101101101101101101101101101100000000000000000000000)
  (.lf 0)) (.nd (.lf
  0x100000000000000000000000000001000000000000000000000000000000100000000000000000000000000000000000000000000000000000000000000000000000000000000000000000000001001111010111010111010000011010000111011001000101110110110111201001010001111110)
  (.lf 0))) (.nd (.nd (.lf
  0x110110110110110110110110110110110110110110110110110110110110110110110110110110110110110110110110110110110110110110110110110110110110110110110110110110110110110110110110110110110110110110110110110110110110110110110110110110110110110110110110110110110110110)
  (.lf 0)) (.nd (.lf 0x0) (.lf 0)))

def shaAndFan52 : BTree :=
  .nd (.nd (.nd (.lf 0x0) (.lf 0)) (.nd (.lf
  0x1111111111111111111111111111111111111111111111111000000000000000000000000000000001111111111111111111111111111111111111111111111111111111111111111000000000000000000000000000000001111111111111111111111111111111111111111111111111111111111111111000000000000000)
  (.lf 0))) (.nd (.nd (.lf
  0x110110110110110110110110110110110110110110110110110110110110110110110110110110110110110110110110110110110110110110110110110110110110110110110110110110110110110110110110110110110110110110110110110110110110110110110110110110110110110110110110110110110110110)
  (.lf 0)) (.nd (.lf 0x0) (.lf 0)))

def shaAndFan53 : BTree :=
  .nd (.nd (.nd (.lf
  0x110110110110110110110110110110110110110110110110110110110110110110110110110110110110110110110110110110110110110110110110110110110110110110110110110110110110110110110110110110110110110110110110110110110110110110110110110110110110110110110110110000000000000)
  (.lf 0)) (.nd (.lf
  0x10000000000000000000000000000000100000000000000000000000000000001000000000000000000000000000000010000000000000000000000000000000100000000000000000000000000000001000000000000000000000000000000010000000000000000000000000000000100000000000000000)
  (.lf 0))) (.nd (.nd (.lf
  0x1101101101101101101101101101101101101101101101101101101101101101101101101101101101101101101101101101101101101101101101101101101101101101101101101101101101101101101101101101101101101101101101101101101101101101101101101101101101101101101101101101101101101101)
  (.lf 0)) (.nd (.lf 0x0) (.lf 0)))

def shaAndFan54 : BTree :=
  .nd (.nd (.nd (.lf
  0x110110110110110110110110110110110110110110110110110110110110110110110110110110110110110110110110110110110110110110110110110110110110110110110110110110110110110110110110110110110110110110110110110110110110110110110110110110110110110110110110110110110110110)
  (.lf 0)) (.nd (.lf
  0x10000000000000000000000000000000100000000000000000000000000000001000000000000000000000000000000010000000000000000000000000000000100000000000000000000000000000001000000000000000000000000000000010000000000000000000000000000000100000000000000000)
  (.lf 0))) (.nd (.nd (.lf
  0x110110110110110110110110110110110110110110000000000000000000000000000000000000010110110101101011011011010101010101011011011011011010110110110110101011011010110110110110110110110110110110110110110110110110110110110110110110110110110110110110110110110110110)
  (.lf 0)) (.nd (.lf 0x0) (.lf 0)))

def shaAndFan55 : BTree :=
  .nd (.nd (.nd (.lf
  0x1101101101101101101101101101101101101101101101101101101101101101101101101101101101101101101101101101101101101101101101101101101101101101101101101101101101101101101101101101101101101101101101101101101101101101101101101101101101101101101101101101101101101101)
  (.lf 0)) (.nd (.lf
  0x1000000000000000000000000000000010000000000000000000000000000000100000000000000000000000000000001000000000000000000000000000000010000000000000000000000000000000100000000000000000000000000000001000000000000000000000000000000010000000000000000000000)
  (.lf 0))) (.nd (.nd (.lf
  0x11111111111111111111111111111111000000000000000000000000000000001111111111111111111111111111111100000000000000000000000000000000111111111111111111111111111111110000000000000000000000000000000011111111111111111111111111111111000000000000000)
  (.lf 0)) (.nd (.lf 0x0) (.lf 0)))

def shaAndFan56 : BTree :=
  .nd (.nd (.nd (.lf
  0x1111111111111111111111111111111211111111111111111111111111111112111111111111111111111111111111121111111111111111111111111111111211111111111111111111111111111112111111111111111111111111111111121111111111111111111111111111111211111111111111111111111111111112)
  (.lf 0x0)) (.nd (.lf
  0x1111111111111111100000000000000000000000000000000111111111111111111111111111111111111111111111111111111111111111100000000000000000000000000000000111111111111111111111111111111111111111111111111111111111111111100000000000000000000000000000000111111111111111)
  (.lf 0))) (.nd (.nd (.lf
  0x1011011011011011011011011011011011011011011011011011011011011011011011011011011011011000000000000000101101011010101010101101101010101101101101010101101101010110110101101100110110110110110110110110110110110110110110110110110110110110110110110110110110110110)
  (.lf 0)) (.nd (.lf 0x0) (.lf 0)))

def shaAndFan57 : BTree :=
  .nd (.nd (.nd (.lf
  0x1011010101101010101101011010101010101101101011011010101101101101011010101101101101101101101101101101101101101101101101101101101101101101101101101101101101101101101101101101101101101101101101101101101101101101101101101101101101101101101101101)
  (.lf 0)) (.nd (.lf
  0x10000000000000000000000000000000100000000000000000000000000000001000000000000000000000000000000010000000000000000000000000000000100000000000000000000000000000001000000000000000000000000000000010000000000000000000000000000000100000000000000000)
  (.lf 0))) (.nd (.nd (.lf
  0x110110110110110110110110110110110110110110110110110110110110110110110110110110110110110110110110110110110110110110110110110110110110110110110110110110110110110110110110110110110110110110110110110110110110110110110110110110110110110110110110110110110110110)
  (.lf 0)) (.nd (.lf 0x0) (.lf 0)))

def shaAndFan58 : BTree :=
  .nd (.nd (.nd (.lf
  0x1011011011011011011011011011011011011011011011011011011011011011011011011011011011011011011011011011011011011011011011011011011011011011011011011011011011011011011011011011011011011011011011011011011011011011011011011011011011011011011011011011011011011011)
  (.lf 0)) (.nd (.lf
  0x10000000000000000000000000000000100000000000000000000000000000001000000000000000000000000000000010000000000000000000000000000000100000000000000000000000000000001000000000000000000000000000000010000000000000000000000000000000100000000000000000)
  (.lf 0))) (.nd (.nd (.lf
  0x1011011011011011011011011011011011011011011011011011011011011011011011011011011011011011011011011000000000000000000101101011010110110101010110110110101010110101101101101101011011010110101100110110110110110110110110110110110110110110110110110110110110110110)
  (.lf 0)) (.nd (.lf 0x0) (.lf 0)))

def shaAndFan59 : BTree :=
  .nd (.nd (.nd (.lf
  0x1101101101101101101101101101101101101101101101101101100000000000000000000000000000011010101011011011010110110101101101010101101011010101011011010110101010101101101101101101101101101101101101101101101101101101101101101101101101101101101101101101101101101101)
  (.lf 0)) (.nd (.lf
  0x1000000000000000000000000000000010000000000000000000000000000000100000000000000000000000000000001000000000000000000000000000000010000000000000000000000000000000100000000000000000000000000000001000000000000000000000000000000010000000000000000000000)
  (.lf 0))) (.nd (.nd (.lf 0x0) (.lf 0)) (.nd (.lf 0x0) (.lf 0)))

def shaAndFan60 : BTree :=
  .nd (.nd (.nd (.lf
  0x110110110110110110110110110110110110110110110110110110110110110110110110110110110110110110110110110110110110110110110110110110110110110110110110110110110110110110110110110110110110110110110110110110110110110110110110110110110110110110110110110110110110110)
  (.lf 0)) (.nd (.lf
  0x11111111111111111111111111111111111111111111111111111111111111110000000000000000000000000000000011111111111111111111111111111111111111111111111111111111111111110000000000000000000000000000000011111111111111111111111111111111111111111111111)
  (.lf 0))) (.nd (.nd (.lf
  0x110110110110110110110110110110110110110110110110110110110110110110110110110110110110110110000000000000000110110101011010101101010110110101101101011011010110101011011011010101010011011011011011011011011011011011011011011011011011011011011011011011011011011)
  (.lf 0)) (.nd (.lf 0x0) (.lf 0)))

def shaAndFan61 : BTree :=
  .nd (.nd (.nd (.lf
  0x101101101101010110101010110110110101010101010110110101011010110110101010110110110110110110110110110110110110110110110110110110110110110110110110110110110110110110110110110110110110110110110110110110110110110110110110110110110110110110110110110110110)
  (.lf 0)) (.nd (.lf
  0x111111010020111001100111000111111011111000201101111010000010000000000000102010110111010111110010011000101030100000100000110010111000000100300111001100011101000011100001102000000000000000000000000000000010000000000000000000000000000000100000000000000000)
  (.lf 0))) (.nd (.nd (.lf
  0x1011011011011011011011011011011011011011011011011011011011011011011011011011011011011011011011011011011011011011011011011011011011011011011011011011011011011011011011011011011011011011011011011011011011011011011011011011011011011011011011011011011011011011)
  (.lf 0)) (.nd (.lf 0x0) (.lf 0)))

def shaAndFan62 : BTree :=
  .nd (.nd (.nd (.lf
  0x1101101101101101101101101101101101101101101101101101101101101101101101101101101101101101101101101101101101101101101101101101101101101101101101101101101101101101101101101101101101101101101101101101101101101101101101101101101101101101101101101101101101101101)
  (.lf 0)) (.nd (.lf
  0x10000000000000000000000000000000100000000000000000000000000000001000000000000000000000000000000010000000000000000000000000000000100000000000000000000000000000001000000000000000000000000000000010000000000000000000000000000000100000000000000000)
  (.lf 0))) (.nd (.nd (.lf
  0x1101101101101101101101101101101101101101101101101101101101101101101101101101101101101101101101101101101101101101101101101101101101101101101101101101101101101101101101101101101101101101101101101101101101101101101101101101101101101101101101101101101101101101)
  (.lf 0)) (.nd (.lf 0x0) (.lf 0)))

def shaAndFan63 : BTree :=
  .nd (.nd (.nd (.lf
  0x1011011011011011011011011011011011011011011011011011011011011011011011011000000000000000000000000000000000001101010110110101101010110101101101010101101101011011010110110110110110101101101101101101101101101101101101101101101101101101101101101101101101101101)
  (.lf 0)) (.nd (.lf
  0x1000000000000000000000000000000010000000000000000000000000000000100000000000000000000000000000001000000000000000000000000000000010000000000000000000000000000000100000000000000000000000000000001000000000000000000000000000000010000000000000000000000)
  (.lf 0))) (.nd (.nd (.lf
  0x11111111111111111111111111111111000000000000000000000000000000001111111111111111111111111111111100000000000000000000000000000000111111111111111111111111111111110000000000000000000000000000000011111111111111111111111111111111000000000000000)
  (.lf 0)) (.nd (.lf 0x0) (.lf 0)))

def shaAndFan64 : BTree :=
  .nd (.nd (.nd (.lf
  0x200000000000000000000000000000002000000000000000000000000000000020000000000000000000000000000000200000000000000000000000000000002000000000000000000000000000000020000000000000000000000000000000200000000000000000000000000000002)
  (.lf 0x0)) (.nd (.lf
  0x11111111111111111111111111111111000000000000000000000000000000001111111111111111111111111111111100000000000000000000000000000000111111111111111111111111111111110000000000000000000000000000000011111111111111111111111111111111000000000000000)
  (.lf 0))) (.nd (.nd (.lf
  0x1010101011010110101101010101011001101101101101101101101101101101101101101101101101101101101101101101101101101101101101101101101101101101101101101101101101101101101101101101101101101101101101101101101101101101101101101101101101101101101101101101101101101101)
  (.lf 0)) (.nd (.lf
  0x1000000000000000000000000000000010000000000000000000000000000000100000000000000000000000000000001000000000000000000000000000000010000000000000000000000000000000100000000000000000000000000000001000000000000000000000000000000010000000000000000000000)
  (.lf 0)))

def shaAndFan65 : BTree :=
  .nd (.nd (.nd (.lf
  0x1101101101101101101101101101101101101101101101101101101101101101101101101101101101101101101101101101101101101101101101101101101101101101101101101101101101101101101101101101101101101101101101101101101101101101101101101101101101101101101101101101101101101101)
  (.lf 0)) (.nd (.lf
  0x10000000000000000000000000000000100000000000000000000000000000001000000000000000000000000000000010000000000000000000000000000000100000000000000000000000000000001000000000000000000000000000000010000000000000000000000000000000100000000000000000)
  (.lf 0))) (.nd (.nd (.lf
  0x1101101101101101101101101101101101101101101101101101101101101101101101101101101101101101101101101101101101101101101101101101101101101101101101101101101101101101101101101101101101101101101101101101101101101101101101101101101101101101101101101101101101101101)
  (.lf 0)) (.nd (.lf 0x0) (.lf 0)))

def shaAndFan66 : BTree :=
  .nd (.nd (.nd (.lf
  0x110110110110110110110110110110110110110110110110110110110110110110110110110110110110110110110110110110110110110110110110110110110110110110110110110110110110110110110110110110110110110110110110110110110110110110110110110110110110110110110110110110110110110)
  (.lf 0)) (.nd (.lf
  0x11111111111111111111111111111111111111111111111111111111111111110000000000000000000000000000000011111111111111111111111111111111111111111111111111111111111111110000000000000000000000000000000011111111111111111111111111111111111111111111111)
  (.lf 0))) (.nd (.nd (.lf
  0x1101011011011010101010101010110110101101011010101101011011011011011011011011011011011011011011011011011011011011011011011011011011011011011011011011011011011011011011011011011011011011011011011011011011011011011011011011011011011011011011011011011011011011)
  (.lf 0)) (.nd (.lf 0x0) (.lf 0)))

def shaAndFan67 : BTree :=
  .nd (.nd (.nd (.lf
  0x1101101101101101101101101101101101101101101101101101101101101101101101101101101101101101101101101101101101101101101101101101101101101101101101101101101101101101101101101101101101101101101101101101101101101101101101101101101101101101101101101101101101101101)
  (.lf 0)) (.nd (.lf
  0x10010000001020010110011000111111100101110110300011010111101011000110010101002000010011001010111110101010001030111111000111101001101101101001201101101100011011101001101111012010111010100000000010111010111120101011111100101100110011011010300111101101101000)
  (.lf 0))) (.nd (.nd (.lf
  0x1011011011011011011011011011011011011011011011011011011011011011011011011011011011011011011011011011011011011011011011011011011011011011011011011011011011011011011011011011011011011011011011011011011011011011011011011011011011011011011011011011011011011011)
  (.lf 0)) (.nd (.lf 0x0) (.lf 0)))

def shaAndFan68 : BTree :=
  .nd (.nd (.nd (.lf
  0x100000000000000000000000000000001000000000000000000000000000000010000000000000000000000000000000100000000000000000000000000000001000000000000000000000000000000010000000000000000000000000000000100000000000000000000000000000001)
  (.lf 0x0)) (.nd (.lf
  0x1111111111111111100000000000000000000000000000000111111111111111111111111111111111111111111111111111111111111111100000000000000000000000000000000111111111111111111111111111111111111111111111111111111111111111100000000000000000000000000000000111111111111111)
  (.lf 0))) (.nd (.nd (.lf
  0x1101101101101010110110101010110101010110110101101100110110110110110110110110110110110110110110110110110110110110110110110110110110110110110110110110110110110110110110110110110110110110110110110110110110110110110110110110110110110110110110110110110110110110)
  (.lf 0)) (.nd (.lf 0x0) (.lf 0)))

def shaAndFan69 : BTree :=
  .nd (.nd (.nd (.lf
  0x110110110110110110110110110110110110110110110110110110110110110110110110110110110110110110110110110110110110110110110110110110110110110110110110110110110110110110110110110110110110110110110110110110110110110110110110110110110110110110110110110110110110110)
  (.lf 0)) (.nd (.lf
  0x10000000000000000000000000000000100000000000000000000000000000001000000000000000000000000000000010000000000000000000000000000000100000000000000000000000000000001000000000000000000000000000000010000000000000000000000000000000100000000000000000)
  (.lf 0))) (.nd (.nd (.lf
  0x110110110110110110110110110110110110110110110110110110110110110110110110110110110110110110110110110110110110110110110110110110110110110110110110110110110110110110110110110110110110110110110110110110110110110110110110110110110110110110110110110110110110110)
  (.lf 0)) (.nd (.lf 0x0) (.lf 0)))

def shaAndFan70 : BTree :=
  .nd (.nd (.nd (.lf
  0x1011011011011011011011011011011011011011011011011011011011011011011011011011011011011011011011011011011011011011011011011011011011011011011011011011011011011011011011011011011011011011011011011011011011011011011011011011011011011011011011011011011011011011)
  (.lf 0)) (.nd (.lf
  0x10000000000000000000000000000000100000000000000000000000000000001000000000000000000000000000000010000000000000000000000000000000100000000000000000000000000000001000000000000000000000000000000010000000000000000000000000000000100000000000000000)
  (.lf 0))) (.nd (.nd (.lf
  0x1101010110110110110110101010110101010110101010110110110110110101001101101101101101101101101101101101101101101101101101101101101101101101101101101101101101101101101101101101101101101101101101101101101101101101101101101101101101101101101101101101101101101101)
  (.lf 0)) (.nd (.lf 0x0) (.lf 0)))

def shaAndFan71 : BTree :=
  .nd (.nd (.nd (.lf
  0x1101010110101011011011011011011011011011011011011011011011011011011011011011011011011011011011011011011011011011011011011011011011011011011011011011011011011011011011011011011011011011011011011011011011011011011011011011011011011011011011011011011011011011)
  (.lf 0)) (.nd (.lf
  0x1000000000000000000000000000000010000000000000000000000000000000100000000000000000000000000000001000000000000000000000000000000010000000000000000000000000000000100000000000000000000000000000001000000000000000000000000000000010000000000000000000000)
  (.lf 0))) (.nd (.nd (.lf 0x0) (.lf 0)) (.nd (.lf 0x0) (.lf 0)))

def shaAndFan72 : BTree :=
  .nd (.nd (.nd (.lf
  0x1111111111111111111111111111111211111111111111111111111111111112111111111111111111111111111111121111111111111111111111111111111211111111111111111111111111111112111111111111111111111111111111121111111111111111111111111111111211111111111111111111111111111112)
  (.lf 0x0)) (.nd (.lf 0x0) (.lf 0))) (.nd (.nd (.lf
  0x110110110110110110110110110110110110110110110110110110110110110110110110110110110110110110110110110110110110110110110110110110110110110110110110110110110110110110110110000000000000000000000000000001101010101101101011011011010101010101010101011010110110110)
  (.lf 0)) (.nd (.lf
  0x1000000000000000000000000000000010000000000000000000000000000000100000000000000000000000000000001000000000000000000000000000000010000000000000000000000000000000100000000000000000000000000000001000000000000000000000000000000010000000000000000000000)
  (.lf 0)))

def shaAndFan73 : BTree :=
  .nd (.nd (.nd (.lf
  0x1011011011011011011011011011011011011011011011011011011011011011011011011011011011011011011011011011011011011011011011011011011011011011011011011011011011011011011011011011011011011011011011011011011011011011011011011011011011011011011011011011011011011011)
  (.lf 0)) (.nd (.lf
  0x10000000000000000000000000000000100000000000000000000000000000001000000000000000000000000000000010000000000000000000000000000000100000000000000000000000000000001000000000000000000000000000000010000000000000000000000000000000100000000000000000)
  (.lf 0))) (.nd (.nd (.lf
  0x1011011011011011011011011011011011011011011011011011011011011011011011011011011011011011011011011011011011011011011011011011011011011011011011011011011011011011011011011011011011011011011011011011011011011011011011011011011011011011011011011011011011011011)
  (.lf 0)) (.nd (.lf 0x0) (.lf 0)))

def shaAndFan74 : BTree :=
  .nd (.nd (.nd (.lf
  0x1101101101101101101101101101101101101101101101101101101101101101101101101101101101101101101101101101101101101101101101101101101101101101101101101101101101101101101101101101101101101101101101101101101101101101101101101101101101101101101101101101101101101101)
  (.lf 0)) (.nd (.lf
  0x30000000000000000000000000000000300000000000000000000000000000003000000000000000000000000000000030000000000000000000000000000000300000000000000000000000000000003000000000000000000000000000000020000000000000000000000000000000200000000000000000)
  (.lf 0))) (.nd (.nd (.lf
  0x1101101101101101101101101101101101101101101101101101101101101101101101101101101101101101101101101101101101101101101101101101101101101101101101101101101101101100000000000000000000000000010110101011010101010110110101010110110101010101101011011010110110110101)
  (.lf 0)) (.nd (.lf 0x0) (.lf 0)))

def shaAndFan75 : BTree :=
  .nd (.nd (.nd (.lf
  0x110110110110110110110110110110110110110110110110110110110110110110110110110110110110110110110110110110110110110110110000000000000001101101101011010101010101011011011010101011011010110101101101010101011001101101101101101101101101101101101101101101101101101)
  (.lf 0)) (.nd (.lf
  0x10000000000000000000000000000000000000000000000000000000000000000000000000000000000000000000000100000000000000000000000000000001000000000000000000000) (.lf
  0))) (.nd (.nd (.lf
  0x110110110110110110110110110110110110110110110110110110110110110110110110110110110110110110110110110110110110110110110110110110110110110110110110110110110110110110110110110110110110110110110110110110110110110110110110110110110110110110110110110110110110110)
  (.lf 0)) (.nd (.lf 0x0) (.lf 0)))

def shaAndFan76 : BTree :=
  .nd (.nd (.nd (.lf 0x0) (.lf 0)) (.nd (.lf
  0x1111111111111111111111111111111111111111111111111000000000000000000000000000000001111111111111111111111111111111111111111111111111111111111111111000000000000000000000000000000001111111111111111111111111111111111111111111111111111111111111111000000000000000)
  (.lf 0))) (.nd (.nd (.lf
  0x110110110110110110110110110110110110110110110110110110110110110110110110110110110110110110110110110110110110110110110110110110110110110110110110110110110110110110110110110110110110110110110110000000000000000000001011010101101010101010101101101010110101101)
  (.lf 0)) (.nd (.lf 0x0) (.lf 0)))

def shaAndFan77 : BTree :=
  .nd (.nd (.nd (.lf
  0x1011011011011011011011011011011011011011011011011011011011011011011011011000000000000000000000000000000000000011011010110101010101011010110110110101011011010110110110110110110110110101010110110110110110110110110110110110110110110110110110110110110110110110)
  (.lf 0)) (.nd (.lf
  0x10000000000000000000000000000000100000000000000000000000000000001000000000000000000000000000000010000000000000000000000000000000100000000000000000000000000000001000000000000000000000000000000010000000000000000000000000000000100000000000000000)
  (.lf 0))) (.nd (.nd (.lf
  0x1101101101101101101101101101101101101101101101101101101101101101101101101101101101101101101101101101101101101101101101101101101101101101101101101101101101101101101101101101101101101101101101101101101101101101101101101101101101101101101101101101101101101101)
  (.lf 0)) (.nd (.lf 0x0) (.lf 0)))

def shaAndFan78 : BTree :=
  .nd (.nd (.nd (.lf
  0x110110110110110110110110110110110110110110110110110110110110110110110110110110110110110110110110110110110110110110110110110110110110110110110110110110110110110110110110110110110110110110110110110110110110110110110110110110110110110110110110110110110110110)
  (.lf 0)) (.nd (.lf
  0x10000000000000000000000000000000100000000000000000000000000000001000000000000000000000000000000010000000000000000000000000000000100000000000000000000000000000001000000000000000000000000000000010000000000000000000000000000000100000000000000000)
  (.lf 0))) (.nd (.nd (.lf
  0x1010101101101101101101101101101101101101101101101101101101101101101101101101101101101101101101101101101101101101101101101101101101101101101101101101101101101101101101101101101101101101101101101101101101101101101101101101101101101101101101101101101101101101)
  (.lf 0)) (.nd (.lf 0x0) (.lf 0)))

def shaAndFan79 : BTree :=
  .nd (.nd (.nd (.lf
  0x1101101101101101101101101101101101101101101101101101101101101101101101101101101101101101101101101101101101101101101101101101101101101101101101101101101101100000000000000000000000000000000011011011010110110101011011010110101101010101010110101101011010110110)
  (.lf 0)) (.nd (.lf
  0x1000000000000000000000000000000010000000000000000000000000000000100000000000000000000000000000001000000000000000000000000000000010000000000000000000000000000000100000000000000000000000000000001000000000000000000000000000000010000000000000000000000)
  (.lf 0))) (.nd (.nd (.lf
  0x11111111111111111111111111111111000000000000000000000000000000001111111111111111111111111111111100000000000000000000000000000000111111111111111111111111111111110000000000000000000000000000000011111111111111111111111111111111000000000000000)
  (.lf 0)) (.nd (.lf 0x0) (.lf 0)))

def shaAndFan80 : BTree :=
  .nd (.nd (.nd (.lf
  0x1111111111111111111111111111111211111111111111111111111111111112111111111111111111111111111111121111111111111111111111111111111211111111111111111111111111111112111111111111111111111111111111121111111111111111111111111111111211111111111111111111111111111112)
  (.lf 0x0)) (.nd (.lf 0x0) (.lf 0))) (.nd (.nd (.lf
  0x1101101101101101101101101101101101101101101101101101101101101101101101100000000000001010101011011010110110101011010110101011011010101011011010110101101010011011011011011011011011011011011011011011011011011011011011011011011011011011011011011011011011011011)
  (.lf 0)) (.nd (.lf
  0x1000000000000000000000000000000010000000000000000000000000000000100000000000000000000000000000001000000000000000000000000000000010000000000000000000000000000000100000000000000000000000000000001000000000000000000000000000000010000000000000000000000)
  (.lf 0)))

def shaAndFan81 : BTree :=
  .nd (.nd (.nd (.lf
  0x110110110110110110110110110110110110110110110110110110110110110110110110110110110110110110110110110110110110110110110110110110110110110110110110110110110110110110110110110110110110110110110110110110110110110110110110110110110110110110110110110110110110110)
  (.lf 0)) (.nd (.lf
  0x10000000000000000000000000000000100000000000000000000000000000001000000000000000000000000000000010000000000000000000000000000000100000000000000000000000000000001000000000000000000000000000000010000000000000000000000000000000100000000000000000)
  (.lf 0))) (.nd (.nd (.lf
  0x110110110110110110110110110110110110110110110110110110110110110110110110110110110110110110110110110110110110110110110110110110110110110110110110110110110110110110110110110110110110110110110110110110110110110110110110110110110110110110110110110110110110110)
  (.lf 0)) (.nd (.lf 0x0) (.lf 0)))

def shaAndFan82 : BTree :=
  .nd (.nd (.nd (.lf
  0x1011011011011011011011011011011011011011011011011011011011011011011011011011011011011011011011011011011011011011011011011011011011011011011011011011011011011011011011011011011011011011011011011011011011011011011011011011011011011011011011011011011011011011)
  (.lf 0)) (.nd (.lf
  0x1111111111111111111111111111111111111111111111111111111111111111000000000000000000000000000000001111111111111111111111111111111111111111111111111111111111111111000000000000000000000000000000001101101101101101101101101101101101101101101101101)
  (.lf 0))) (.nd (.nd (.lf
  0x110110110110110110110110110110110110110110110110110110000000000000000000110110110101011010110101101101101101101010110101101101101011010110110110011011011011011011011011011011011011011011011011011011011011011011011011011011011011011011011011011011011011011)
  (.lf 0)) (.nd (.lf 0x0) (.lf 0)))

def shaAndFan83 : BTree :=
  .nd (.nd (.nd (.lf
  0x1010110110101011011010110101011010101101101010101010110101010110101011011011011011011011011011011011011011011011011011011011011011011011011011011011011011011011011011011011011011011011011011011011011011011011011011011011011011011011011011011011011011011011)
  (.lf 0)) (.nd (.lf
  0x100001100030001011001001010001001000101101201000110101010010011110110100103001001100000111011101110000011120110110111000000011111010101100201010100111000111010000100101012001001111111100001010101011010020110110101111100101001001111111201011011110011100)
  (.lf 0))) (.nd (.nd (.lf
  0x1101101101101101101101101101101101101101101101101101101101101101101101101101101101101101101101101101101101101101101101101101101101101101101101101101101101101101101101101101101101101101101101101101101101101101101101101101101101101101101101101101101101101101)
  (.lf 0)) (.nd (.lf 0x0) (.lf 0)))

def shaAndFan84 : BTree :=
  .nd (.nd (.nd (.lf 0x0) (.lf 0)) (.nd (.lf
  0x11111111111111111111111111111111111111111111111111111111111111110000000000000000000000000000000011111111111111111111111111111111111111111111111111111111111111110000000000000000000000000000000011111111111111111111111111111111111111111111111)
  (.lf 0))) (.nd (.nd (.lf
  0x1101101101101101101101101101101101101101101101101101101101101101101101101101101101100000000000001101010110101101010110110110101101010110101010101101010110101101011001101101101101101101101101101101101101101101101101101101101101101101101101101101101101101101)
  (.lf 0)) (.nd (.lf 0x0) (.lf 0)))

def shaAndFan85 : BTree :=
  .nd (.nd (.nd (.lf
  0x110110110110101010110101101010110101101011011010101011011010110110101101101011011011011011011011011011011011011011011011011011011011011011011011011011011011011011011011011011011011011011011011011011011011011011011011011011011011011011)
  (.lf 0)) (.nd (.lf
  0x10000000000000000000000000000000100000000000000000000000000000001000000000000000000000000000000010000000000000000000000000000000100000000000000000000000000000001000000000000000000000000000000010000000000000000000000000000000100000000000000000)
  (.lf 0))) (.nd (.nd (.lf
  0x1011011011011011011011011011011011011011011011011011011011011011011011011011011011011011011011011011011011011011011011011011011011011011011011011011011011011011011011011011011011011011011011011011011011011011011011011011011011011011011011011011011011011011)
  (.lf 0)) (.nd (.lf 0x0) (.lf 0)))

def shaAndFan86 : BTree :=
  .nd (.nd (.nd (.lf
  0x1101101101101101101101101101101101101101101101101101101101101101101101101101101101101101101101101101101101101101101101101101101101101101101101101101101101101101101101101101101101101101101101101101101101101101101101101101101101101101101101101101101101101101)
  (.lf 0)) (.nd (.lf
  0x10000000000000000000000000000000100000000000000000000000000000001000000000000000000000000000000010000000000000000000000000000000100000000000000000000000000000001000000000000000000000000000000010000000000000000000000000000000100000000000000000)
  (.lf 0))) (.nd (.nd (.lf
  0x1101101101101101101101101101101101101101101101101101101101101101101101101101101100000000000000000000110110101101010110110101101101011010110110110101101101011011011010110101011001101101101101101101101101101101101101101101101101101101101101101101101101101101)
  (.lf 0)) (.nd (.lf 0x0) (.lf 0)))

def shaAndFan87 : BTree :=
  .nd (.nd (.nd (.lf
  0x1011011011011011011011011011011011011011011011011000000000000010101101010110101011011011010101101010101101011011010101101010101011001101101101101101101101101101101101101101101101101101101101101101101101101101101101101101101101101101101101101101101101101101)
  (.lf 0)) (.nd (.lf
  0x1000000000000000000000000000000010000000000000000000000000000000100000000000000000000000000000001000000000000000000000000000000010000000000000000000000000000000100000000000000000000000000000001000000000000000000000000000000010000000000000000000000)
  (.lf 0))) (.nd (.nd (.lf
  0x11111111111111111111111111111111000000000000000000000000000000001111111111111111111111111111111100000000000000000000000000000000000000000000000000000000000000000000000000000000000000000000000000000000000000000000000000000000000000000000000)
  (.lf 0)) (.nd (.lf 0x0) (.lf 0)))

def shaAndFan88 : BTree :=
  .nd (.nd (.nd (.lf
  0x1111111111111111111111111111111211111111111111111111111111111112111111111111111111111111111111121111111111111111111111111111111211111111111111111111111111111112111111111111111111111111111111121111111111111111111111111111111211111111111111111111111111111112)
  (.lf 0x0)) (.nd (.lf
  0x1111111111111111111111111111111111111111111111111000000000000000000000000000000001111111111111111111111111111111111111111111111111111111111111111000000000000000000000000000000001111111111111111111111111111111111111111111111111111111111111111000000000000000)
  (.lf 0))) (.nd (.nd (.lf
  0x1101101101101101101101101101101101101101101101101101101101101101101101101101101101101101101101101101101101101101101101101101101101101101101101101101101101101101101101101101101101101101101101101101101101101101101101101101101101101101101101101101101101101101)
  (.lf 0)) (.nd (.lf
  0x1000000000000000000000000000000010000000000000000000000000000000100000000000000000000000000000001000000000000000000000000000000010000000000000000000000000000000100000000000000000000000000000001000000000000000000000000000000010000000000000000000000)
  (.lf 0)))

def shaAndFan89 : BTree :=
  .nd (.nd (.nd (.lf
  0x1011011011011011011011011011011011011011011011011011011011011011011011011011011011011011011011011011011011011011011011011011011011011011011011011011011011011011011011011011011011011011011011000000000000000000000000000000000000000000001011011011011011010110)
  (.lf 0)) (.nd (.lf
  0x10000000000000000000000000000000100000000000000000000000000000001000000000000000000000000000000010000000000000000000000000000000100000000000000000000000000000001000000000000000000000000000000010000000000000000000000000000000100000000000000000)
  (.lf 0))) (.nd (.nd (.lf
  0x1101101101101101101101101101101101101101101101101101101101101101101101101101101101101101101101101101101101101101101101101101101101101101101101101101101101101101101101101101101101101101101101101101101101101101101101101101101101101101101101101101101101101101)
  (.lf 0)) (.nd (.lf 0x0) (.lf 0)))

def shaAndFan90 : BTree :=
  .nd (.nd (.nd (.lf
  0x110110110110110110110110110110110110110110110110110110110110110110110110110110110110110110110110110110110110110110110110110110110110110110110110110110110110110110110110110110110110110110110110110110110110110110110110110110110110110110110110110110110110110)
  (.lf 0)) (.nd (.lf
  0x10000000000000000000000000000000100000000000000000000000000000001111111111111111111111111111111121111111111111111111111111111111211111111111111111111111111111112000000000000000000000000000000030000000000000000000000000000000300000000000000000)
  (.lf 0))) (.nd (.nd (.lf
  0x1101101101101101101101101101101101101101101101101101101101101101101101101101101101101101101101101101101101101101101101101101101101101101101101101101101101101101101101101101101101101101101101101101101101101101101101101101101101101101101101101101101101101101)
  (.lf 0)) (.nd (.lf 0x0) (.lf 0)))

def shaAndFan91 : BTree :=
  .nd (.nd (.nd (.lf
  0x1011011011011011011011011011011011011011011011011011011011011011011011011011011011011011011011011011011011011011011011011011011011011011011011011011011011011011011011011011011011011011011011011011011011011011011011011011011011011011011011011011011011011011)
  (.lf 0)) (.nd (.lf
  0x2000000000000000000000000000000010000000000000000000000000000000000000000000000000000000000000001000000000000000000000000000000000000000000000000000000000000000100000000000000000000000000000100000000000000000000000000000001000000000000000000000000)
  (.lf 0))) (.nd (.nd (.lf
  0x11011011011011011011011011011011011011011011011011011011011011011011011011011011011011011011011011011011011011011011011011011011011011011011011) (.lf 0)) (.nd
  (.lf 0x0) (.lf 0)))

def shaAndFan92 : BTree :=
  .nd (.nd (.nd (.lf
  0x1101101101101101101101101101101101101101101101101101101101101101101101101101101101101101101101101101101101101101101101101101101101101101101101101101101101101101101101101101101101101101101101101101101101101101101101101101101101101101101101101101101101101101)
  (.lf 0)) (.nd (.lf
  0x1111111111111111100000000000000000000000000000000111111111111111111111111111111111111111111111111111111111111111100000000000000000000000000000000111111111111111111111111111111111111111111111111111111111111111100000000000000000000000000000000111111111111111)
  (.lf 0))) (.nd (.nd (.lf
  0x110110110110110110110110110110110110110110110110110110110110110110110110110110110110110110110110110110110110110110110110110110110110110110110110110110110110110110110110110110110110110110110110110110110110110110110110110110110110110110110110110110110110110)
  (.lf 0)) (.nd (.lf 0x0) (.lf 0)))

def shaAndFan93 : BTree :=
  .nd (.nd (.nd (.lf
  0x1101101101101101101101101101101101101101101101101101101101101101101101101101101101101101101101101101101101101101101101101101101101101101101101101101101101101101101101101101101101101100000000000000011010101101101101011011010110110101010110101101011010110101)
  (.lf 0)) (.nd (.lf
  0x10000000000000000000000000000000100000000000000000000000000000001000000000000000000000000000000010000000000000000000000000000000100000000000000000000000000000001000000000000000000000000000000010000000000000000000000000000000100000000000000000)
  (.lf 0))) (.nd (.nd (.lf
  0x110110110110110110110110110110110110110110110110110110110110110110110110110110110110110110110110110110110110110110110110110110110110110110110110110110110110110110110110110110110110110110110110110110110110110110110110110110110110110110110110110110110110110)
  (.lf 0)) (.nd (.lf 0x0) (.lf 0)))

def shaAndFan94 : BTree :=
  .nd (.nd (.nd (.lf
  0x1011011011011011011011011011011011011011011011011011011011011011011011011011011011011011011011011011011011011011011011011011011011011011011011011011011011011011011011011011011011011011011011011011011011011011011011011011011011011011011011011011011011011011)
  (.lf 0)) (.nd (.lf
  0x10000000000000000000000000000000100000000000000000000000000000001000000000000000000000000000000010000000000000000000000000000000100000000000000000000000000000001000000000000000000000000000000010000000000000000000000000000000100000000000000000)
  (.lf 0))) (.nd (.nd (.lf
  0x1011011011011011011011011011011011011011011011011011011011011011011011011011011011011011011011011011011011011011011011011011011011011011011011011011011011011011011011011011011011011011011011011011011011011011011011011011011011011011011011011011011011011011)
  (.lf 0)) (.nd (.lf 0x0) (.lf 0)))

def shaAndFan95 : BTree :=
  .nd (.nd (.nd (.lf
  0x1011011011011011011011011011011011011011011011011011011011011011011011011011011011011011011011011011011011011011011011011011011011011011011011011011011011011011011011011011011011011011011011011011011011011011011011011011011011011011011011011011011011011011)
  (.lf 0)) (.nd (.lf
  0x1000000000000000000000000000000010000000000000000000000000000000100000000000000000000000000000001000000000000000000000000000000010000000000000000000000000000000100000000000000000000000000000001000000000000000000000000000000010000000000000000000000)
  (.lf 0))) (.nd (.nd (.lf
  0x11111111111111111111111111111111000000000000000000000000000000001111111111111111111111111111111100000000000000000000000000000000111111111111111111111111111111110000000000000000000000000000000011111111111111111111111111111111000000000000000)
  (.lf 0)) (.nd (.lf 0x0) (.lf 0)))

def shaAndFan96 : BTree :=
  .nd (.nd (.nd (.lf
  0x100000000000000000000000000000001000000000000000000000000000000010000000000000000000000000000000100000000000000000000000000000001000000000000000000000000000000010000000000000000000000000000000100000000000000000000000000000001)
  (.lf 0x0)) (.nd (.lf
  0x11111111111111111111111111111111000000000000000000000000000000001111111111111111111111111111111100000000000000000000000000000000111111111111111111111111111111110000000000000000000000000000000011111111111111111111111111111111000000000000000)
  (.lf 0))) (.nd (.nd (.lf
  0x1100000000000000000000000001010110101101010101011010110101011010101101011010101101011011010101101011011011011011011011011011011011011011011011011011011011011011011011011011011011011011011011011011011011011011011011011011011011011011011011011011011011011011)
  (.lf 0)) (.nd (.lf
  0x1000000000000000000000000000000010000000000000000000000000000000100000000000000000000000000000001000000000000000000000000000000010000000000000000000000000000000100000000000000000000000000000001000000000000000000000000000000010000000000000000000000)
  (.lf 0)))

def shaAndFan97 : BTree :=
  .nd (.nd (.nd (.lf
  0x1011011011011011011011011011011011011011011011011011011011011011011011011011011011011011011011011011011011011011011011011011011011011011011011011011011011011011011011011011011011011011011011011011011011011011011011011011011011011011011011011011011011011011)
  (.lf 0)) (.nd (.lf
  0x10000000000000000000000000000000100000000000000000000000000000001000000000000000000000000000000010000000000000000000000000000000100000000000000000000000000000001000000000000000000000000000000010000000000000000000000000000000100000000000000000)
  (.lf 0))) (.nd (.nd (.lf
  0x1011011011011011011011011011011011011011011011011011011011011011011011011011011011011011011011011011011011011011011011011011011011011011011011011011011011011011011011011011011011011011011011011011011011011011011011011011011011011011011011011011011011011011)
  (.lf 0)) (.nd (.lf 0x0) (.lf 0)))

def shaAndFan98 : BTree :=
  .nd (.nd (.nd (.lf
  0x1101101101101101101101101101101101101101101101101101101101101101101101101101101101101101101101101101101101101101101101101101101101101101101101101101101101101101101101101101101101101101101101101101101101101101101101101101101101101101101101101101101101101101)
  (.lf 0)) (.nd (.lf
  0x110110110110110110110110110110110110110110110110110110110110110110110110110110110110110110110110110110110110110110110110110110110110110110110110111111111111111111111111111111111111111111111111111111111111111100000000000000000000000000000000111111111111111)
  (.lf 0))) (.nd (.nd (.lf
  0x1010101010101011011010110110110110101101011011010101011011011011011011010110110110110110110110110110110110110110110110110110110110110110110110110110110110110110110110110110110110110110110110110110110110110110110110110110110110110)
  (.lf 0)) (.nd (.lf 0x0) (.lf 0)))

def shaAndFan99 : BTree :=
  .nd (.nd (.nd (.lf
  0x110110110110110110110110110110110110110110110110110110110110110110110110110110110110110110110110110110110110110110110110110110110110110110110110110110110110110110110110110110110110110110110110110110110110110110110110110110110110110110110110110110110110110)
  (.lf 0)) (.nd (.lf
  0x1100010001110120101101111110011010111100011010201010010000101101101001110010003001101011000101101111011010101020010001101001111010101100010010200001001000001100111011100100102011001111100000110101110101011020101011111001110001110011001001201001111111111001)
  (.lf 0))) (.nd (.nd (.lf
  0x110110110110110110110110110110110110110110110110110110110110110110110110110110110110110110110110110110110110110110110110110110110110110110110110110110110110110110110110110110110110110110110110110110110110110110110110110110110110110110110110110110110110110)
  (.lf 0)) (.nd (.lf 0x0) (.lf 0)))

def shaAndFan100 : BTree :=
  .nd (.nd (.nd (.lf 0x0) (.lf 0)) (.nd (.lf
  0x1111111111111111111111111111111111111111111111111000000000000000000000000000000001111111111111111111111111111111111111111111111111111111111111111000000000000000000000000000000001111111111111111111111111111111111111111111111111111111111111111000000000000000)
  (.lf 0))) (.nd (.nd (.lf
  0x110110110110000000000000000000000000000000110101101101101010110101101101010101011010110101101010110110110101101011011011011011011011011011011011011011011011011011011011011011011011011011011011011011011011011011011011011011011011011011011011011011011011011)
  (.lf 0)) (.nd (.lf 0x0) (.lf 0)))

def shaAndFan101 : BTree :=
  .nd (.nd (.nd (.lf
  0x110101010101010110011011011011011011011011011011011011011011011011011011011011011011011011011011011011011011011011011011011011011011011011011011011011011011011011011011011011011011011011011011011011011011011011011011011011011011011011011011011011011011011)
  (.lf 0)) (.nd (.lf
  0x10000000000000000000000000000000100000000000000000000000000000001000000000000000000000000000000010000000000000000000000000000000100000000000000000000000000000001000000000000000000000000000000010000000000000000000000000000000100000000000000000)
  (.lf 0))) (.nd (.nd (.lf
  0x1101101101101101101101101101101101101101101101101101101101101101101101101101101101101101101101101101101101101101101101101101101101101101101101101101101101101101101101101101101101101101101101101101101101101101101101101101101101101101101101101101101101101101)
  (.lf 0)) (.nd (.lf 0x0) (.lf 0)))

def shaAndFan102 : BTree :=
  .nd (.nd (.nd (.lf
  0x110110110110110110110110110110110110110110110110110110110110110110110110110110110110110110110110110110110110110110110110110110110110110110110110110110110110110110110110110110110110110110110110110110110110110110110110110110110110110110110110110110110110110)
  (.lf 0)) (.nd (.lf
  0x10000000000000000000000000000000100000000000000000000000000000001000000000000000000000000000000010000000000000000000000000000000100000000000000000000000000000001000000000000000000000000000000010000000000000000000000000000000100000000000000000)
  (.lf 0))) (.nd (.nd (.lf
  0x110110110110110110110110000000000000000000000000000000101101101101010110101101011010110110101101101010101011010101101011011010101101101101101101101101101101101101101101101101101101101101101101101101101101101101101101101101101101101101101101101101101101101)
  (.lf 0)) (.nd (.lf 0x0) (.lf 0)))

def shaAndFan103 : BTree :=
  .nd (.nd (.nd (.lf
  0x101010110101101011011011011011011011011011010110101010110101101010100110110110110110110110110110110110110110110110110110110110110110110110110110110110110110110110110110110110110110110110110110110110110110110110110110110110110110110110110110110110110110110)
  (.lf 0)) (.nd (.lf
  0x1000000000000000000000000000000010000000000000000000000000000000100000000000000000000000000000001000000000000000000000000000000010000000000000000000000000000000100000000000000000000000000000001000000000000000000000000000000010000000000000000000000)
  (.lf 0))) (.nd (.nd (.lf 0x0) (.lf 0)) (.nd (.lf 0x0) (.lf 0)))

def shaAndFan104 : BTree :=
  .nd (.nd (.nd (.lf
  0x100000000000000000000000000000001000000000000000000000000000000010000000000000000000000000000000100000000000000000000000000000001000000000000000000000000000000010000000000000000000000000000000100000000000000000000000000000001)
  (.lf 0x0)) (.nd (.lf 0x0) (.lf 0))) (.nd (.nd (.lf
  0x1101101101101101101101101101101101101101101101101101101101101101101101101101101101101101101101101101101101101101101101101101101101101101101101101101101101101101101101101101101101101101101101101101100000000000000000000000000000000000000000000101101101101101)
  (.lf 0)) (.nd (.lf
  0x1000000000000000000000000000000010000000000000000000000000000000100000000000000000000000000000001000000000000000000000000000000010000000000000000000000000000000100000000000000000000000000000001000000000000000000000000000000010000000000000000000000)
  (.lf 0)))

def shaAndFan105 : BTree :=
  .nd (.nd (.nd (.lf
  0x1101101101101101101101101101101101101101101101101101101101101101101101101101101101101101101101101101101101101101101101101101101101101101101101101101101101101101100000000000000000110101010110110101011011011010101011010110110110110101010110110110110100110110)
  (.lf 0)) (.nd (.lf
  0x10000000000000000000000000000000100000000000000000000000000000001000000000000000000000000000000010000000000000000000000000000000100000000000000000000000000000001000000000000000000000000000000010000000000000000000000000000000100000000000000000)
  (.lf 0))) (.nd (.nd (.lf
  0x110110110110110110110110110110110110110110110110110110110110110110110110110110110110110110110110110110110110110110110110110110110110110110110110110110110110110110110110110110110110110110110110110110110110110110110110110110110110110110110110110110110110110)
  (.lf 0)) (.nd (.lf 0x0) (.lf 0)))

def shaAndFan106 : BTree :=
  .nd (.nd (.nd (.lf
  0x1011011011011011011011011011011011011011011011011011011011011011011011011011011011011011011011011011011011011011011011011011011011011011011011011011011011011011011011011011011011011011011011011011011011011011011011011011011011011011011011011011011011011011)
  (.lf 0)) (.nd (.lf
  0x30000000000000000000000000000000300000000000000000000000000000003000000000000000000000000000000030000000000000000000000000000000300000000000000000000000000000003000000000000000000000000000000030000000000000000000000000000000300000000000000000)
  (.lf 0))) (.nd (.nd (.lf
  0x110110110110110110110110110110110110110110110110110110110110110110110110110110110110110110110110110110110110110110110110110110110110110110110110110110110110110110110110110110110110110110110110110110110110110110110110110110110110110000000000010101101010110)
  (.lf 0)) (.nd (.lf 0x0) (.lf 0)))

def shaAndFan107 : BTree :=
  .nd (.nd (.nd (.lf
  0x1101101101101101101101101101101101101101101101101101101101101101101101101101101101101101101101101101101101101101101101101101101101101101101101101101101101101101101101101101101101101101101101100000000000001101011010110110101101010110110101011010101010101101)
  (.lf 0)) (.nd (.lf 0x1000000000000000000000000000000000000000000000000000000000000100000000000000000000000000000010000000000) (.lf 0))) (.nd (.nd (.lf
  0x1101101101101101101101101101101101101101101101101101101101101101101101101101101101101101101101101101101101101101101101101101101101101101101101101101101101101101101101101101101101101101101101101101101101101101101101101101101101101101101101101101101101101101)
  (.lf 0)) (.nd (.lf 0x0) (.lf 0)))

def shaAndFan108 : BTree :=
  .nd (.nd (.nd (.lf
  0x110110110110110110110000000000000000000000000000000000000000000000000000000000000000000000000000000000000000000000000000000000000000000000000000000000000000000000000000000000000000000000000000000000000000000000000000000000000000000000000000000000000000000)
  (.lf 0)) (.nd (.lf
  0x11111111111111111111111111111111111111111111111111111111111111110000000000000000000000000000000011111111111111111111111111111111111111111111111111111111111111110000000000000000000000000000000011111111111111111111111111111111111111111111111)
  (.lf 0))) (.nd (.nd (.lf
  0x1101101101101101101101101101101101101101101101101101101101101101101101101101101101101101101101101101101101101101101101101101101101101101101101101101101101101101101101101101101101101101101101101101101101101101101101101101101101101101101101101100000000000000)
  (.lf 0)) (.nd (.lf 0x0) (.lf 0)))

def shaAndFan109 : BTree :=
  .nd (.nd (.nd (.lf
  0x1011011011011011011011011011011011011011011011011011011011011011011011011011011011011011011011011011011011011011011000000000000000000000000000000000001101011011010110110110101011011011010101101101010110101101010110101011011010110110110110110110110110110110)
  (.lf 0)) (.nd (.lf
  0x10000000000000000000000000000000100000000000000000000000000000001000000000000000000000000000000010000000000000000000000000000000100000000000000000000000000000001000000000000000000000000000000010000000000000000000000000000000100000000000000000)
  (.lf 0))) (.nd (.nd (.lf
  0x1011011011011011011011011011011011011011011011011011011011011011011011011011011011011011011011011011011011011011011011011011011011011011011011011011011011011011011011011011011011011011011011011011011011011011011011011011011011011011011011011011011011011011)
  (.lf 0)) (.nd (.lf 0x0) (.lf 0)))

def shaAndFan110 : BTree :=
  .nd (.nd (.nd (.lf
  0x1101101101101101101101101101101101101101101101101101101101101101101101101101101101101101101101101101101101101101101101101101101101101101101101101101101101101101101101101101101101101101101101101101101101101101101101101101101101101101101101101101101101101101)
  (.lf 0)) (.nd (.lf
  0x10000000000000000000000000000000100000000000000000000000000000001000000000000000000000000000000010000000000000000000000000000000100000000000000000000000000000001000000000000000000000000000000010000000000000000000000000000000100000000000000000)
  (.lf 0))) (.nd (.nd (.lf
  0x1101101101101101101101101101101101101101101101101101101101101101101101101101101101101101101101101101101101101101101101101101101101101101101101101101101101101101101101101101101101101101101101101101101101101101101101101101101101101101101101101101101101101101)
  (.lf 0)) (.nd (.lf 0x0) (.lf 0)))

def shaAndFan111 : BTree :=
  .nd (.nd (.nd (.lf
  0x1011011011011011011011011011011011011011011011011011011011011011011011011011011011011011011011011011011011011011011011011011011011011011011011011011011011011011011011011011011011011011011011011011011011011011011011011011011011000000000000001101101010110101)
  (.lf 0)) (.nd (.lf
  0x1000000000000000000000000000000010000000000000000000000000000000100000000000000000000000000000001000000000000000000000000000000010000000000000000000000000000000100000000000000000000000000000001000000000000000000000000000000010000000000000000000000)
  (.lf 0))) (.nd (.nd (.lf
  0x11111111111111111111111111111111000000000000000000000000000000001111111111111111111111111111111100000000000000000000000000000000111111111111111111111111111111110000000000000000000000000000000011111111111111111111111111111111000000000000000)
  (.lf 0)) (.nd (.lf 0x0) (.lf 0)))

def shaAndFan112 : BTree :=
  .nd (.nd (.nd (.lf
  0x100000000000000000000000000000001000000000000000000000000000000010000000000000000000000000000000100000000000000000000000000000001000000000000000000000000000000010000000000000000000000000000000100000000000000000000000000000001)
  (.lf 0x0)) (.nd (.lf 0x0) (.lf 0))) (.nd (.nd (.lf
  0x1011011011011011011011011011011011011011011011011011011011011011011011011011011011011011011011011011011011011011011011000000000000000000000000000000001101011010110101101101011010101101101101101010110101010110101101010101101011011011011011011011011011011011)
  (.lf 0)) (.nd (.lf
  0x1000000000000000000000000000000010000000000000000000000000000000100000000000000000000000000000001000000000000000000000000000000010000000000000000000000000000000100000000000000000000000000000001000000000000000000000000000000010000000000000000000000)
  (.lf 0)))

def shaAndFan113 : BTree :=
  .nd (.nd (.nd (.lf
  0x1101101101101101101101101101101101101101101101101101101101101101101101101101101101101101101101101101101101101101101101101101101101101101101101101101101101101101101101101101101101101101101101101101101101101101101101101101101101101101101101101101101101101101)
  (.lf 0)) (.nd (.lf
  0x10000000000000000000000000000000100000000000000000000000000000001000000000000000000000000000000010000000000000000000000000000000100000000000000000000000000000001000000000000000000000000000000010000000000000000000000000000000100000000000000000)
  (.lf 0))) (.nd (.nd (.lf
  0x1101101101101101101101101101101101101101101101101101101101101101101101101101101101101101101101101101101101101101101101101101101101101101101101101101101101101101101101101101101101101101101101101101101101101101101101101101101101101101101101101101101101101101)
  (.lf 0)) (.nd (.lf 0x0) (.lf 0)))

def shaAndFan114 : BTree :=
  .nd (.nd (.nd (.lf
  0x110110110110110110110110110110110110110110110110110110110110110110110110110110110110110110110110110110110110110110110110110110110110110110110110110110110110110110110110110110110110110110110110110110110110110110110110110110110110110110110110110110110110110)
  (.lf 0)) (.nd (.lf
  0x10000000000000000000000000000000100000000000000000000000000000001000000000000000000000000000000010000000000000000000000000000000100000000000000000000000000000001000000000000000000000000000000001111111111111111111111111111111100000000000000000)
  (.lf 0))) (.nd (.nd (.lf
  0x110110110110110110110110110110110110110110110110110110110110110110110110110110110110110110110110110110000000000000000000000000000000110101101011010110101010101101101010101101101101101101011011011010101010101101101101101101101101101101101101101101101101101)
  (.lf 0)) (.nd (.lf 0x0) (.lf 0)))

def shaAndFan115 : BTree :=
  .nd (.nd (.nd (.lf
  0x110110110110110110110110110110110110110110110110110000000000000000000101011010101010101101101011010110101101011010101010101011010110110110110110110110110110110110110110110110110110110110110110110110110110110110110110110110110110110110110110110110110110110)
  (.lf 0)) (.nd (.lf
  0x100000000000000000000000000000000000000000000000000000000000000100000000000000000000000000000000000000000000000000000000000000000000000000000000000000000000000000000000000000000000000000000000000000)
  (.lf 0))) (.nd (.nd (.lf
  0x1011011011011011011011011011011011011011011011011011011011011011011011011011011011011011011011011011011011011011011011011011011011011011011011011011011011011011011011011011011011011011011011011011011011011011011011011011011011011011011011011011011011011011)
  (.lf 0)) (.nd (.lf 0x0) (.lf 0)))

def shaAndFan116 : BTree :=
  .nd (.nd (.nd (.lf 0x0) (.lf 0)) (.nd (.lf
  0x1111111111111111100000000000000000000000000000000111111111111111111111111111111111111111111111111111111111111111100000000000000000000000000000000111111111111111111111111111111111111111111111111111111111111111100000000000000000000000000000000111111111111111)
  (.lf 0))) (.nd (.nd (.lf
  0x1101101101101101101101101101101101101101101101101101101101101101101101101101101101101101101101101101101101101101101101101101100000000000000000000000000000000000101101011011010110110110110101101010110101011010110110101010110110101101101011011011011011011011)
  (.lf 0)) (.nd (.lf 0x0) (.lf 0)))

def shaAndFan117 : BTree :=
  .nd (.nd (.nd (.lf
  0x1011011011011011011011011011011011000000000000000000000000000000000110110110101101010110101010110110110110110101010101011010110110110101101011011011011011011011011011011011011011011011011011011011011011011011011011011011011011011011011011011011011011011011)
  (.lf 0)) (.nd (.lf
  0x10000000000000000000000000000000100000000000000000000000000000001000000000000000000000000000000010000000000000000000000000000000100000000000000000000000000000001000000000000000000000000000000010000000000000000000000000000000100000000000000000)
  (.lf 0))) (.nd (.nd (.lf
  0x110110110110110110110110110110110110110110110110110110110110110110110110110110110110110110110110110110110110110110110110110110110110110110110110110110110110110110110110110110110110110110110110110110110110110110110110110110110110110110110110110110110110110)
  (.lf 0)) (.nd (.lf 0x0) (.lf 0)))

def shaAndFan118 : BTree :=
  .nd (.nd (.nd (.lf
  0x1011011011011011011011011011011011011011011011011011011011011011011011011011011011011011011011011011011011011011011011011011011011011011011011011011011011011011011011011011011011011011011011011011011011011011011011011011011011011011011011011011011011011011)
  (.lf 0)) (.nd (.lf
  0x10000000000000000000000000000000100000000000000000000000000000001000000000000000000000000000000010000000000000000000000000000000100000000000000000000000000000001000000000000000000000000000000010000000000000000000000000000000100000000000000000)
  (.lf 0))) (.nd (.nd (.lf
  0x1011011011011011011011011011011011011011011011011011011011011011011011011011011011011011011011011011011011011011011011011011011011011011011011011011011011011011011011011011011011011011011011011011011011011011011011011011011011011011011011011011011011011011)
  (.lf 0)) (.nd (.lf 0x0) (.lf 0)))

def shaAndFan119 : BTree :=
  .nd (.nd (.nd (.lf
  0x1101101101101101101101101101101101101101101101101101101101101101101101101101101101101101101101101101101101101100000000000000000000000010101010101011011011010101010110101101101010110101011010101101011010110110110110110110110110110110110110110110110110110110)
  (.lf 0)) (.nd (.lf
  0x1000000000000000000000000000000010000000000000000000000000000000100000000000000000000000000000001000000000000000000000000000000010000000000000000000000000000000100000000000000000000000000000001000000000000000000000000000000010000000000000000000000)
  (.lf 0))) (.nd (.nd (.lf
  0x11111111111111111111111111111111000000000000000000000000000000001111111111111111111111111111111100000000000000000000000000000000111111111111111111111111111111110000000000000000000000000000000011111111111111111111111111111111000000000000000)
  (.lf 0)) (.nd (.lf 0x0) (.lf 0)))

def shaAndFan120 : BTree :=
  .nd (.nd (.nd (.lf
  0x1111111111111111111111111111111211111111111111111111111111111112111111111111111111111111111111121111111111111111111111111111111211111111111111111111111111111112111111111111111111111111111111121111111111111111111111111111111211111111111111111111111111111112)
  (.lf 0x0)) (.nd (.lf
  0x11111111111111111111111111111111111111111111111111111111111111110000000000000000000000000000000011111111111111111111111111111111111111111111111111111111111111110000000000000000000000000000000011111111111111111111111111111111111111111111111)
  (.lf 0))) (.nd (.nd (.lf
  0x1101101101101101101101101101101101101101101101101101101101101101101101101101101101101101101101101101101101101101101101101101101101101101101101101101101101101101101101101101101101101101101101101101101101101101101101101101101101101101101101101101101101101101)
  (.lf 0)) (.nd (.lf 0x0) (.lf 0)))

def shaAndFan121 : BTree :=
  .nd (.nd (.nd (.lf
  0x110110110110110110110110110110110110110110110110110110110110110110110110110110110110110110110110110110110110110110110110110110110110110110110110110110110110110110110110110110110110110110110110110110110110110110110110110110110110110110110110110000000000000)
  (.lf 0)) (.nd (.lf
  0x10000000000000000000000000000000100000000000000000000000000000001000000000000000000000000000000010000000000000000000000000000000100000000000000000000000000000001000000000000000000000000000000010000000000000000000000000000000100000000000000000)
  (.lf 0))) (.nd (.nd (.lf
  0x1011011011011011011011011011011011011011011011011011011011011011011011011011011011011011011011011011011011011011011011011011011011011011011011011011011011011011011011011011011011011011011011011011011011011011011011011011011011011011011011011011011011011011)
  (.lf 0)) (.nd (.lf 0x0) (.lf 0)))

def shaAndFan122 : BTree :=
  .nd (.nd (.nd (.lf
  0x1101101101101101101101101101101101101101101101101101101101101101101101101101101101101101101101101101101101101101101101101101101101101101101101101101101101101101101101101101101101101101101101101101101101101101101101101101101101101101101101101101101101101101)
  (.lf 0)) (.nd (.lf
  0x10000000000000000000000000000000100000000000000000000000000000001000000000000000000000000000000010000000000000000000000000000000100000000000000000000000000000001000000000000000000000000000000010000000000000000000000000000000100000000000000000)
  (.lf 0))) (.nd (.nd (.lf
  0x1101101101101101101101101101101101101101101101101101101101101101101101101101101101101101101101101101101101101101101101101101101101101101101101101101101101101101101101101101101101101101101101101101101101101101101101101101101101101101101101101101101101101101)
  (.lf 0)) (.nd (.lf 0x0) (.lf 0)))

def shaAndFan123 : BTree :=
  .nd (.nd (.nd (.lf
  0x110110110110110110110110110110110110110110110110110110110110110110110110110110110110110110110110110110110110110110110110110110110110110110110110110110110110110110110110110110110110110110110110110110110110110110110110110110110110110110110110110110110110110)
  (.lf 0)) (.nd (.lf
  0x1000000000000000000000000000000010000000000000000000000000000000100000000000000000000000000000001000000000000000000000000000000010000000000000000000000000000000100000000000000000000000000000001000000000000000000000000000000010000000000000000000000)
  (.lf 0))) (.nd (.nd (.lf 0x0) (.lf 0)) (.nd (.lf 0x0) (.lf 0)))

def shaAndFan124 : BTree :=
  .nd (.nd (.nd (.lf
  0x1011011011011011011011011011011011011011011011011011011011011011011011011011011011011011011011011011011011011011011011011011011011011011011011011011011011011011011011011011011011011011011011011011011011011011011011011011011011011011011011011011011011011011)
  (.lf 0)) (.nd (.lf
  0x1111111111111111111111111111111111111111111111111000000000000000000000000000000001111111111111111111111111111111111111111111111111111111111111111000000000000000000000000000000001111111111111111111111111111111111111111111111111111111111111111000000000000000)
  (.lf 0))) (.nd (.nd (.lf
  0x1011011011011011011011011011011011011011011011011011011011011011011011011011011011011011011011011011011011011011011011011011011011011011011011011011011011011011011011011011011011011011011011011011011011011011011011011011011011011011011011011011011011011011)
  (.lf 0)) (.nd (.lf 0x0) (.lf 0)))

def shaAndFan125 : BTree :=
  .nd (.nd (.nd (.lf
  0x1101101101101101101101101101101101101101101101101101101101101101101101101101101101101101101101101101101101101101101101101101101101101101101101101101101101101101101101101101101101101101101101101101101101101101101101101101101101101101101100000000000000000000)
  (.lf 0)) (.nd (.lf
  0x1000101101020100101101001111010000110100101201000110111000111111001101001103001100010010011101010101101101020010010001100011001101011011000300010111110100011001000000001103000010110111000001111101000100120000011101011010100111001001000301111011001101111)
  (.lf 0))) (.nd (.nd (.lf
  0x1101101101101101101101101101101101101101101101101101101101101101101101101101101101101101101101101101101101101101101101101101101101101101101101101101101101101101101101101101101101101101101101101101101101101101101101101101101101101101101101101101101101101101)
  (.lf 0)) (.nd (.lf 0x0) (.lf 0)))

def shaAndFan126 : BTree :=
  .nd (.nd (.nd (.lf
  0x110110110110110110110110110110110110110110110110110110110110110110110110110110110110110110110110110110110110110110110110110110110110110110110110110110110110110110110110110110110110110110110110110110110110110110110110110110110110110110110110110110110110110)
  (.lf 0)) (.nd (.lf
  0x10000000000000000000000000000000100000000000000000000000000000001000000000000000000000000000000010000000000000000000000000000000100000000000000000000000000000001000000000000000000000000000000010000000000000000000000000000000100000000000000000)
  (.lf 0))) (.nd (.nd (.lf
  0x110110110110110110110110110110110110110110110110110110110110110110110110110110110110110110110110110110110110110110110110110110110110110110110110110110110110110110110110110110110110110110110110110110110110110110110110110110110110110110110110110110110110110)
  (.lf 0)) (.nd (.lf 0x0) (.lf 0)))

def shaAndFan127 : BTree :=
  .nd (.nd (.nd (.lf
  0x1101101101101101101101101101101101101101101101101101101101101101101101101101101101101101101101101101101101101101101101101101101101101101101101101101101101101101101101101101101101101101101101101101101101101101101101101101101101101101101101101101101101101101)
  (.lf 0)) (.nd (.lf
  0x1000000000000000000000000000000010000000000000000000000000000000100000000000000000000000000000001000000000000000000000000000000010000000000000000000000000000000100000000000000000000000000000001000000000000000000000000000000010000000000000000000000)
  (.lf 0))) (.nd (.nd (.lf
  0x11111111111111111111111111111111000000000000000000000000000000001111111111111111111111111111111100000000000000000000000000000000111111111111111111111111111111110000000000000000000000000000000011111111111111111111111111111111000000000000000)
  (.lf 0)) (.nd (.lf 0x0) (.lf 0)))

/-- How often the AND gates read a wire: 4 bits each, 256 per leaf. -/
def shaAndFan : BTree :=
  .nd (.nd (.nd (.nd (.nd (.nd (.nd (shaAndFan0) (shaAndFan1)) (.nd (shaAndFan2) (shaAndFan3))) (.nd (.nd (shaAndFan4) (shaAndFan5)) (.nd (shaAndFan6)
  (shaAndFan7)))) (.nd (.nd (.nd (shaAndFan8) (shaAndFan9)) (.nd (shaAndFan10) (shaAndFan11))) (.nd (.nd (shaAndFan12) (shaAndFan13)) (.nd (shaAndFan14)
  (shaAndFan15))))) (.nd (.nd (.nd (.nd (shaAndFan16) (shaAndFan17)) (.nd (shaAndFan18) (shaAndFan19))) (.nd (.nd (shaAndFan20) (shaAndFan21)) (.nd (shaAndFan22)
  (shaAndFan23)))) (.nd (.nd (.nd (shaAndFan24) (shaAndFan25)) (.nd (shaAndFan26) (shaAndFan27))) (.nd (.nd (shaAndFan28) (shaAndFan29)) (.nd (shaAndFan30)
  (shaAndFan31)))))) (.nd (.nd (.nd (.nd (.nd (shaAndFan32) (shaAndFan33)) (.nd (shaAndFan34) (shaAndFan35))) (.nd (.nd (shaAndFan36) (shaAndFan37)) (.nd
  (shaAndFan38) (shaAndFan39)))) (.nd (.nd (.nd (shaAndFan40) (shaAndFan41)) (.nd (shaAndFan42) (shaAndFan43))) (.nd (.nd (shaAndFan44) (shaAndFan45)) (.nd
  (shaAndFan46) (shaAndFan47))))) (.nd (.nd (.nd (.nd (shaAndFan48) (shaAndFan49)) (.nd (shaAndFan50) (shaAndFan51))) (.nd (.nd (shaAndFan52) (shaAndFan53)) (.nd
  (shaAndFan54) (shaAndFan55)))) (.nd (.nd (.nd (shaAndFan56) (shaAndFan57)) (.nd (shaAndFan58) (shaAndFan59))) (.nd (.nd (shaAndFan60) (shaAndFan61)) (.nd
  (shaAndFan62) (shaAndFan63))))))) (.nd (.nd (.nd (.nd (.nd (.nd (shaAndFan64) (shaAndFan65)) (.nd (shaAndFan66) (shaAndFan67))) (.nd (.nd (shaAndFan68)
  (shaAndFan69)) (.nd (shaAndFan70) (shaAndFan71)))) (.nd (.nd (.nd (shaAndFan72) (shaAndFan73)) (.nd (shaAndFan74) (shaAndFan75))) (.nd (.nd (shaAndFan76)
  (shaAndFan77)) (.nd (shaAndFan78) (shaAndFan79))))) (.nd (.nd (.nd (.nd (shaAndFan80) (shaAndFan81)) (.nd (shaAndFan82) (shaAndFan83))) (.nd (.nd (shaAndFan84)
  (shaAndFan85)) (.nd (shaAndFan86) (shaAndFan87)))) (.nd (.nd (.nd (shaAndFan88) (shaAndFan89)) (.nd (shaAndFan90) (shaAndFan91))) (.nd (.nd (shaAndFan92)
  (shaAndFan93)) (.nd (shaAndFan94) (shaAndFan95)))))) (.nd (.nd (.nd (.nd (.nd (shaAndFan96) (shaAndFan97)) (.nd (shaAndFan98) (shaAndFan99))) (.nd (.nd
  (shaAndFan100) (shaAndFan101)) (.nd (shaAndFan102) (shaAndFan103)))) (.nd (.nd (.nd (shaAndFan104) (shaAndFan105)) (.nd (shaAndFan106) (shaAndFan107))) (.nd
  (.nd (shaAndFan108) (shaAndFan109)) (.nd (shaAndFan110) (shaAndFan111))))) (.nd (.nd (.nd (.nd (shaAndFan112) (shaAndFan113)) (.nd (shaAndFan114)
  (shaAndFan115))) (.nd (.nd (shaAndFan116) (shaAndFan117)) (.nd (shaAndFan118) (shaAndFan119)))) (.nd (.nd (.nd (shaAndFan120) (shaAndFan121)) (.nd
  (shaAndFan122) (shaAndFan123))) (.nd (.nd (shaAndFan124) (shaAndFan125)) (.nd (shaAndFan126) (shaAndFan127)))))))

def shaAndOrder0 : BTree :=
  .nd (.nd (.nd (.lf
  0x1fd2a1fd001fcf21fced1ffb71ffb21ffad1ffa91ffa41ff9e1ff9a1ff951ff901ff8b1ff861ff811ff7b1ff771ff721ff6d1ff681ff631ff5e1ff591ff541ff4f1ff4a1fa1c1fa171f7581f7321f6df1f55d1f55807c0107bfc07bf707bf207bed07be807be307bde07bd907bd407bcf07bca07bc507bc007bbb07bb607bb107bac07ba707ba207b9d07b9807b9307b8e07b8907b8407b7f07b7a07b7507b70)
  (.lf
  0x9dbc09d9509d6f09d4709d2009cf809ccf09ca809c8209c5c09c3409c0b09be409bbc09b9306fdc06fd706fd206fcd06fc806fc306fbe06fb906fb406faf06faa06fa506fa006f9b06f9606f9106f8c06f8706f8206f7d06f7806f7306f6e06f6906f6406f5f06f5a06f5506f5006f4b0a00709fe509fbd09f9609f6e09f4509f1e09ef609ecd09ea409e7b09e5409e2c09e0509ddf09db709d9009d6a09d42))
  (.nd (.lf
  0xfd0f0fd0a0fd050fd010fcbf0fcbb0f0b00f0ac0f0a70f0a20f09d0f0990f0950f08f0f08a0f0850f0810f07c0f0770f0720f06c0f0670f0620f05d0f0580f0530f04e0f0490f0440f03f0f03b0f0360f0310f02c0f0270f0220ff200ff150ff040fef40fedd0fed40feba0fea70fe9e0fe860fe7d0fe640fe5b0fe4a0fe380fe200fe110fe020fdf20fdee0fdd10fdcd0fdb20fd990fd7e0fd640fd360fcde)
  (.lf 0))) (.nd (.nd (.lf
  0x205ab2058c2054a204ea2047920be020bdb20bd520bcd20bc820bc320bbd20bb720bb120ba920ba520b9e20b9920b9320af120aeb20ae720ae220ade20ad820ad220abb20ab620aaf20a4b209912098d20985208882085e1f61c1f6171f6111f60d1f6081f6021f5fe1f5f91f5f41f5ef1f5e91f5e41f5e01f5db1f5d61f5d01f5cb1f5c51f5c01f5bc1f5b81f4261f4161f40a1f4051f1151f1061f0ed1f048)
  (.lf
  0x5b3015db015dc015dd015de015df015e0015e1015e2015e3015e4015e5015e6015e7015e8015e9015ea015eb015ec015ed015ee015ef015f0015f1015f2015f3015f4015f5015f6015f7015f8015f9015fa01c1e01c1f01c2001c2101c2201c2301c2401c2501c2601c2701c2801c2901c2a01c2b01c2c01c2d01c2e01c2f01c3001c3101c3201c3301c3401c3501c3601c3701c3801c3901c3a01c3b01c3c))
  (.nd (.lf
  0xcd300cb100c9000c7000c4e00c2d00c0d00beb00bca00baa0016d00168001630015e00159001540014f0014a00145001400013b00136001310012c00127001220011d00118001130010e0010900104000ff000fa000f5000f0000eb000e6000e1000dc00f6900f4a00f2700f0400ee300ec300ea300e8100e6000e4000e1e00dfb00dda00db800d9500d7200d5100d2f00d0e00cee00cce00cac00c8b00c6b)
  (.lf 0)))

def shaAndOrder1 : BTree :=
  .nd (.nd (.nd (.lf
  0xffa30ff9a0fdda0fdc00fda40fd850fd6a0fd590fd430fceb0fcd50fc9c10b8810b7710b2610a8010a2110a0d109e9109b8109b2109ae1098b1097a1094110911108ff1086d10831108271082010805107e0107841077a1076e107361072c106eb106cb106ab1067310b8610b7d10b2a10a8510a1b10a0710a00109a8109a0109981098e109741094c1090d108fb1087310855108501081d10814107dc107ab)
  (.lf
  0x29e9029ea029eb029ec029ed029ee029ef029f0029f1029f2029f3029f4029f5029f6029f7029f8029f9029fa029fb029fc029fd029fe029ff02a0002a0102a0202a0302a0402a0503012030130301403015030160301703018030190301a0301b0301c0301d0301e0301f030200302103022030230302403025030260302703028030290302a0302b0302c0302d0302e0302f030300364f036500365103652))
  (.nd (.lf
  0x64d4064cf064ca064c5064c0064bb064b6064b1064ac064a7064a20649d06498064930648e06489064840647f0647a06475087500874108730087210871108700086ef086de086cd086be086ae0869d0868c0867b0866a0865b0864d0863d0862e086200861208602085f1085e0085cf085c0085b2085a40859608586069a60699506984069730696206951069400692f0691e0690d068fc068eb068da068c9)
  (.lf 0))) (.nd (.nd (.lf
  0x17bfa17bd817bd417bba17bb617f6017eee17ee817ede17ce017cc917c8a17c08178c8178c3178bf178ba178b2178ad178a8178a31789f17899178951788f1788b17887178831787e17879178731786f1786b17866178521780d177bf177ba177a5177441773d17739177351813b18136181311812c18127181221811d18118181131810e1810918103180fe180f9180f4180ef180ea180e6180e0180db180d7)
  (.lf
  0x11d7011b8011b501e5c01e3d01e3a049b5049960499305cdf05cc305ad70a19109b7609b660ce580ce4a0ce480d6490d63d0d6390df9a0df7b0df700f8f40f8d90f8d1114d3114c9114c31231512304123011465e1463e14637157ce157cc157c51a7951a55b1a55a1b8941b8871b876))
  (.nd (.lf
  0x14dd314dc814dbd14db214da714d9c14d9114d2914d2414d1f14d1a14d1514d1014d0b14d0614d0114cfc14cf714cf214ced14ce814ce314cde14cd914cd414ccf14cca14cc514cc014cbb14cb614cb114cac14ca714ca214c9d14c9815793157891577e15773157681575d15752157471573c15731157261571b1571015705156fa156ef156e4156d9156ce156c3156b8156ad156a2156971568c1568115676)
  (.lf 0)))

def shaAndOrder2 : BTree :=
  .nd (.nd (.nd (.lf
  0x18e2d18e1718e1318e0e18e0918d0c18b5018b2719b6619b5419b5019b3f19b2e19b1219b0d19b09199c0199af199461993d1993919902198eb198d9198c7198b7198b319871197c2197be197b1197ac197a319495194751946c19463193ea19a4019a3a19a3619a1f19a1b199f5199ed199df199d91998c1998819981199361990b198ef198dd198981988e1987f197fb197ec197e2197da197d01979c19498)
  (.lf
  0x12fe512fe612fe712fe812f7412f3012ee912ed912e9112e9212e4f12e2312dd912dc512dac12d9712d8212d4612d2112d0112ce512cca12cae12c7712c5912c3f12c2212c01139961399713998139991399a1399b1399c1399d1399e1399f139a0139a11394c139551393d139351392e1392f1391213913138fc138f0138e7138f41391b139001355e1353d135381352e134d9141d2141cb141d7141bc141bd))
  (.nd (.lf
  0xb9970b97b0b9600b9450b9290b90b0b8ed0b8cf0b8b10b8930b8770b85c0b83f0b8230b8050b7e80b7cd0b7b20b7950b7790b75c0b7400b71f0b6fe0b6de0b9ee0b9cf0b9260b9070b8e90b8cb0b8ad0b8590b8200b7af0b7760b73d0b5770b5720b56d0b5680b5630b55e0b5590b5540b54f0b54a0b5450b5400b53b0b5360b5310b52c0b5270b5220b51d0b5180b50a0b5050b5000b4fb0b4f60b4f10b4ec)
  (.lf 0))) (.nd (.nd (.lf
  0x1c1da1c0171c0131c00b1c0071c0011bfce1bfbd1bf841bf681bf561bf471d8af1d8aa1d8a41d8a01d89a1d8941d8901d88b1d8851d8811d87b1d8761d8701d86a1d8631d85f1d85a1d8541d84e1d8491d8411d83d1d8371d8311d82b1d8231d81f1d81b1d8161d8121ddda1dd7d1dcc61db4f1db061dae31dac11da651da451da071d9e71d9491d9431d93d1d9351d9301d9081d80b1d8061d8011d7fc1d7f7)
  (.lf
  0xfef10fe9b0fe6a0fe250fe170fe060fdf80fde00fdab0fd760fd5c0fd460fcf310b8b10b2210a03109ab109a31099b1096f108691082f1081910801107e810791107751073a106ef110351102010fa710f7910f2e10eb510e3b10e1710e0310d8510d3010b6d1178e1178711783117711176c116fb116ec116e9116da116d0116a4116921164c11627115fa115f6115641150011bbb11bb811baf11b8611b83))
  (.nd (.lf
  0x1a7561a7311a7271b8001b7fa1b7f61b7f01b7ec1b7e61b7e01b7da1b7d41b7ce1b7c81b7c21b7bb1b7b51b7b01b7ab1b7a41b7a01b79a1b7941b78e1b7841b7761b7691b75c1b74f1b7421b7351b7281b7121b9391b9331b92f1b8f71b8f11b8ed1b8e81b8e31b8de1b8d91b8d31b8cf1b8c51b82f1b8291b8241b81c1b8171b8121b80c1b8061b77e1b76e1b7601b7541b74a1b73a1b72d1b7171b7031b28e)
  (.lf 0)))

def shaAndOrder3 : BTree :=
  .nd (.nd (.nd (.lf
  0x62ad062a8062a20629d06298062930628f0628a062850627f0627a06275062700626c0625d0624e083b4083af083aa083a6083a10839b08394083900838c08387083830837e08379083720836d0836908365083600835b08355083500834b08346083420833d083380832a083260831d08314082f4082ec082e4082dc082d4082cc082c4082bc082b40826a08265082600825b08256082510824c0824708242)
  (.lf
  0x10688110fc110851104b1103a10ff410fc410fb410f8610f6b10f4510ed110ea510e9210e7d10e4010e1d10df310de310daf10d8910d6810d4310d4410d0010cd510cb310c8d10c8e10b6110b0310b0410b0511888118891188a1188b1188c1188d1188e1188f118901189111892118931189411895118961189711898118991189a1189b1189c1189d1192b1166d1163211cfa11612115e111572114fd114e4))
  (.nd (.lf
  0x3d8203d62028590283702818027f5027d1027b1027920276f0274c0272902706026e2026c2026a2026830265f0263f0261f02600025dc025bc0259c0257d0255a0253702514024f1024cd024ad0248d04118040fb040db040b9040980407804056040350401303ff203fd203fb203f9203f7203f5003f2d03f0c03eea03ec903ea703e8403e6303e4103e1e03dfd03ddd03dbd03d9d03d7d03d5d040d804075)
  (.lf 0))) (.nd (.nd (.lf
  0x1317d13178131731316e13167131631315f1315a13155131501314b12f8612f2713a9913a9413a8f13a8913a8513a7f13a7b13a7613a7013a6c13a6813a6313a5e13a5713a5313a4f13a4813a4413a3f13a3a13a3613a3013a2c13a2713a2213a1d13a1813a1313a0e13a0913fc513fbe13fb913fb113faa13fa513f9f13f9613f9013f8813f8413f7f13f7b13f7513f6d13f6913f6113f5d13f5913f5213f4d)
  (.lf 0)) (.nd (.lf
  0xf6150f6030f5f10f5df0f5cd0f5bb0f5aa0f5980f5860f5750f5640f7580f7470f7360f7240f7130f7020f6f10f6e00f6cf0f6be0f6ad0f69c0f68b0f67a0f6690f6580f6460f6340f6220f6100f5fe0f5ec0f5da0f5c80f5b60f5a50f5930f5810f5700f55f0efff0eff50efea0efdf0efd40efc90efbe0efb30efa80ef9d0ef920ef870ef7c0ef700ef650ef5a0ef4f0ef440ef390ef2d0ef210ef150ef0a)
  (.lf 0)))

def shaAndOrder4 : BTree :=
  .nd (.nd (.nd (.lf
  0x1ebee1ebd01ebc41ebb41eba61e9081efc01efaf1ef9d1ef8b1ef7f1ef561ef3b1ef291ef251ef081ef031eeff1eefb1eef11eee71eede1eed41eeca1eec61eb5b1eb4c1eb331eafe1ead91ead11e99e1e9971e95c1e9171e8bd1f3bf1f39e1f39a1f3861f36c1f3631f3571f3431f32d1f3171f3051f3011f2f71f2f11f2e71f2bf1f1cd1f1b51f1861f1701f16c1f1671f1601f1491f1451f1191f0e71f0dc)
  (.lf
  0x1bd3f1bd2b1bbe01bbd81bbe61bbc51bbcb1bbbb1b8c21b8b11b8a21b88c1dde51dd871dd291dcd41dc7a1dc351dbee1dbad1db971db541db421db0c1daf81dad71dab61da8a1da711da4e1da311da101d9ef1d9dd1d96e1d9661d95e1d9551d97c1d9211d8fe1d8c61d8d21e2381e1c51e20e1e1b51e1801e16e1e1d11e14d1e13a1e1291e0fa1e1141e0d61e0c31e0bc1e0b51e0aa1e0dc1e04e1e0331e024))
  (.nd (.lf
  0xd84f0d8330d8170d7fb0d7df0d7c30d7a80d78d0d7700d7540d7370d7180d6fa0d6d90d6b60d6930d6720d6500d9aa0d9890d9770d95c0d9400d9120d8f80d8d90d8ba0d89b0d8800d8640d84b0d82f0d8130d7f70d7db0d7bf0d7a40d7890d76c0d7500d7330d7140d6f60d6d50d6b20d68f0d66e0d64c0d9ac0d9390d91f0d8df0d8cc0d8ad0d7860d74d0d72f0d7100d6f20d6d10d6ae0d4de0d4d90d4d4)
  (.lf 0))) (.nd (.nd (.lf
  0x1f0901f08a1f0851f0801f0781f0281ef661dd961dd401dcdf1dc881dc651dbf31dbb11dba11db5a1db4a1db151db011dadf1dabb1da931da6f1da611da341da141d9f51d9e21d9c91d9c41d9bf1d98a1d97f1d9251d8fa1d8dc1d8d71f2de1f2d11f2c91f2631f25d1f2591f2541f24f1f24a1f21d1f2131f20e1f2091f2031f1fd1f1f71f1bd1f1a41f1261f1221f11e1f0c81f0c21f0bd1f0b81f0ad1f0a8)
  (.lf
  0xeadb0fb9a10280109db10f4e1191511e65126a812ec8137371432f149351541115b09165b116f3a1772e17f94187c419013199bb1a2751aaa31b39d1bc9f1db751e5221e76d1ecfe1f31d1fada20464208e407c62067ad08ca606bf509b5c0703d0a96d07c740b6c90be9d0c6770ce3f0d6300de0c0e5eb0f54e0eeaf105060f10d113470f36b1218612a5c1332113bea144bf14d8a1564915f1a168a7170ad))
  (.nd (.lf
  0x1ccc71cbc81cbc21cbbe1cbb91cbb41cbaf1cbab1cba71cba21cb9d1cb981cb931cb8e1cb891cb851cb7f1cb7a1cb751cb711cb6c1cb671cb621cb5d1cb571cb531cb4d1cb481cadd1cace1cac21d04b1d0381cfef1cfeb1cfe31cfdf1cfd91cfd11cfcb1cfc51cfc11cfbb1cfb51cfaf1cfab1cfa51cf9f1cf991cf941cf8e1cf881cf821cf7d1cf771cf691cf651cf601cf5b1cf551cf4b1d1001d0fc1d0e7)
  (.lf 0)))

def shaAndOrder5 : BTree :=
  .nd (.nd (.nd (.lf
  0xbbb80bbb30bbaf0bac40ba9f0ba9b0ba960ba910ba8c0ba880ba830b7280b7080b6e80bb880bb830bb7f0bb7b0bb760bb710bb6c0bb670bb620bb5e0bb4a0bb450bb400bb3b0bb320bb1c0bb170bb110bb0d0bb080bb030bafe0baf60ba7e0ba790ba750ba710ba6d0ba690ba650c46e0c46a0c4660c4550c4510c43b0c4250c40f0c3f90c3e80c3da0c3cf0c3c50c3bb0c3b10c3a70c39d0c3930c3890c37f)
  (.lf
  0x18b1219b6a19b5a19b9e19b4319b3219b2319b1519b77199c6199b31994b199561999719b0419907198e6198d3198c1198ba198af197fe197c6197ba197b5197a9197f1194a919479194671946f1945d193d41a3f11a3c21a35a1a32d1a30b1a2e51a2d71a2941a27e1a26e1a2381a2051a1e81a1cd1a1b81a1a21a1961a1221a1061a0da1a0b61a0a119ebf19e8319e7019dcb19dad19d9619d8519d3019d09))
  (.nd (.lf
  0x56d0056c2056b2056a1056920568205671056600564f0563f0562e0561e0560d055fb055eb055dd055cf055bf055ae0559d0558c0557b0556a0555904111040f3040d4040b004090040710404d0402e0400a03fea03fca03faa03f8a03f6b03f4803f2403f0503ee103ec203e9f03e7b03e5c03e3903e1503df503dd503db503d9503d7503d550571f0571105703056f5056e7056d9056cb056bd056ad0569c)
  (.lf 0))) (.nd (.nd (.lf
  0x1594a154f7154f2154ee154e9154e4154e0154db154d6154d1154cc154c7154c2154bd154b7154b2154ae154a9154a5154a01549b15496154901548c15487154821547d15478154201541b1541415dcb15dc515dbf15dbb15db715db115dad15da815da215d9d15d9815d9215d8e15d8915d8315d7f15d7a15d7515d7115d6c15d6615d6215d5c15d5815d5315d4d15d4815d4315d3e15d39162ba161c8161c3)
  (.lf 0)) (.nd (.lf
  0x11c8b11c8611c8111c7c11c7711c7211c6d11c6811c63122d1122c7122bc122b1122a61229b12290122851227a1226f12264122591224e12243122381222d12222122171220c12201121f6121eb121e0121d5121ca121bf121b3121a81219d12192122cd122c2122b7122ac122a1122961228b12280122751226a1225f12254122491223e12233122281221d1221212207121fc121f1121e6121db121d0121c5)
  (.lf 0)))

def shaAndOrder6 : BTree :=
  .nd (.nd (.nd (.lf
  0x148ad148a4148a0147a514773147641474b14737146771465a14ba514b9c14b6214b5914b4c14b4714b3114b2c14b1314af414aef14aea14ae614adb14ad714ac714ac214ab414aaf14aab14aa614a9c14a8214a7d14a7914a7414a6f1473b146711464b1544f154451542a15425153f4153f0153e0153ca153c6153b3153af153a41539a1538a1537f153761536815363153541534f15345153371532f1532a)
  (.lf
  0xa7d00a7d10a7d20a7d30a7d40a7d50a7d60a7d70a7d80a7d90a7da0a7db0a7dc0aff30afdd0afde0afdf0afe00afe10afe20af960af970af980af990af9a0af9b0af9c0af9d0af9e0af9f0afa00afa10afa20afa30af3a0af3b0af3c0af3d0af3e0af3f0af4d0ad330ad340ad350b3b10b3b20b3b30b3b40b3b50b3b60b3b70b3dc0b3b80b3b90b3ba0b3bb0b3bc0b3bd0b3be0b3560b3570b3580b3590b35a))
  (.nd (.lf
  0x9f5609f0709ede09eb509e8c09e3d09dc809d5309d0409cdb09c4009c1709bc809b9f099aa099a5099a00999b09996099910998c09987099820997d09978099730996e09969099640995f0995a09955099500994b09946099410993c09937099320992d098d4098bb098b6098b10a4d00a4c10a4b20a4a40a4940a4850a4750a4660a4580a4480a4370a4260a4170a4070a3f80a3ea0a3da0a3cb0a3bd0a3af)
  (.lf 0))) (.nd (.nd (.lf
  0x1a13c1a1381a1331a12f1a10f1a0c41a0be1a09419ead19e9519e7919e5b19d7419d6b19d6619d2419d161a34f1a3381a2ef1a21f1a2161a2121a1691a10b1a0e31a0d21a0a919e6a19dbd19da419d2c19c1f19c1a19c1519c1019c0b19c0619c0119bfc19bf719bf219bed19be819be319bde19bd919bd419bcf19bca19bc519bc019bbb19bb619bb119bab19b9719b9219b8d19b8819b83199d11a4c31a4bf)
  (.lf
  0x193d119cfb1a5551ae311b6f11d80f1dbfa1e1e61e89d1ef6b1f4de1fbfc200d52085a00ba2018ca0249202b05030f603d5a04ff80607207c810a31d0b06a0b6fb0beb10c6e30e77d0fca511a91134d213d89160a7169791748518c3419d021af211e95a1f0d21f53d209ae005680055a0054c0053e0051f00500004f2004e4004c5004a6004980048a0046b00408003fa003ec00f0000ee000ec000e7d00e5d))
  (.nd (.lf
  0x1826e182401823c18236182301839a1838d18388183811837d183771835218346183371832e18326183101830718302182fc182f7182f0182ea182e5182e0182d8182d41828e1828318276182691825b18257182511824b17e9717e9117e8d17e8817e8317e7e17e7917e7317e6e17e6a17e6517e6017e5b17e5617e5117e4c17e4717e4217e3d17e3817e3317e2e17e2917e2417e1f17e1a17e1517e1017e0b)
  (.lf 0)))

def shaAndOrder7 : BTree :=
  .nd (.nd (.nd (.lf
  0x332a03306032e6032c6032a70328303264032410321e031fb031d7031b80319503171031520312e0310f030eb034b50349603472034530342f03410033ed033c9033a9033890336a033470332403300032e0032c0032a10327d0325e0323b03218031f5031d1031b20318f0316b0314c0312803109030e503ae203abf03aa003a7d03a5903a3903a19039f9039d9039b903999039790395a0393703914038f1)
  (.lf
  0x8853092cf092d0092d1092d2092d3092a20923f092400924109242092430924409245092460924709248092490924a091f2091d5091d6091d7091d8091d9091da091af091010910209103091040910509106098f2098f3098f4098f5098f6098c7098760987709878098790987a0987b098490982c0982d0982e0982f098300984f097f4097f5097f6097f7097f8097f90983d09758097590975a0975b0975c))
  (.nd (.lf
  0xcc700ca300c8300c6400c4000c2000c0100bdd00bbd00b9d0285f028400281f027fd027da027b9027990277702754027310270e026eb026ca026aa0268a02668026470262702607025e5025c4025a402584025620253f0251c024f9024d6024b5024950285c0281c027f90279602773027500272d0270a0268702604025810255e0253b02518024f5023ab023a6023a10239c02397023920238d0238802383)
  (.lf 0))) (.nd (.nd (.lf
  0x11a3611a2e11a2811a2211a1c11a1811a1211a0c11a04119fe119fa119f4119ee119e9119e3119dc119d5119d1119cd119c6119c1119ba119b6119b1119ad119a71013e10139101341012f1012a10125101201011b10116101111010c1010710102100fd100f8100f310078100731006e100180ff740ff6f0ff6a0ff650ff600ff5b0ff560ff510ff4c0ff4711bd511bca11ba311b9e11b9911b9411b8f11b8b)
  (.lf 0)) (.nd (.lf
  0xc0530c0320c0120bff20bfd00bfad0bf8c0bf6c0bf4a0bf270bf060bee40bec30ca2f0ca170c9fa0c9dc0c9c00c9a50c98a0c96e0c9500c9300c9100c8f00c8d00c8b00c88f0c86c0c84b0c82b0c8090c7e80c7c80c7a60c7830c7600c73d0c71a0c6f90c6d90c6bb0c69e07688076830767e07679076740766f0766a07665076600765b07656076510764c07647076420763d07638076330762e0762907624)
  (.lf 0)))

def shaAndOrder8 : BTree :=
  .nd (.nd (.nd (.lf
  0x2080b20803207fc2079d207932070820703206d82034f2031a203162030b202ff202fb202ea202e2202de2029d2028e2027b20f4920f4520f3a20f1d20f0a20f0420efe20efa20ef620eeb20edb20ead20ea920e9e20e9920e9520e9120e8b20e8520e0320df320ddf20dd620cbc20cb820cb020c7420c7020a8d2092420f5020f4020f3620f3020f2c20f2620f1720f1320ef220ee820ee320ed520ed020ec9)
  (.lf
  0x66bb069ad0699e0698d0697c0696b0695a0694906938069270691606905068f4068e3068d2068c1068b00689f0688e0687d0686c0685b0684a06839068280681706806067f5067e4067d3067c2069a906999069880697706966069550694406933069220691106900068ef068de068cd068bc068ab0689a068890687806867068560684506834068230681206801067f0067df067ce067bd090e8090ca090a8))
  (.nd (.lf
  0xe8a80e8a20e89d0e8970e7fd0e7f70e7f10e7eb0e7e50e7de0e7d80e7d20e7cc0e7c60e7c00e7ba0e7b40e7ae0e7a80e7a20e79c0e7960e7900e78a0e63f0e62e0e61c0e60b0e5f70ea070ea020e9fc0e9f80e9f20e9ee0e9e90e9e40e9dd0e9d90e9d40e9cf0e9ca0e9c50e9af0e9aa0e9990e9830e96a0e9550e8e40e8df0e8d70e8d30e81e0e81a0e8150e80f0e80a0e8050eae40eae00eaac0ea5b0ea45)
  (.lf 0))) (.nd (.nd (.lf
  0x1fea61fe9c1fe921fe831fe7b1fe711fe4b1fe471fe271fdea1fd871fd811fd7d1fd731fce11fc7c1fc6d1fc3f1fc221eec21eebd1eeb81eeb11eead1eea91eea41ee9f1ee991ee951ee901ee8b1ee861ee811ee7c1ee761ee721ee6d1ee681ee631ee5e1ee591ee541e3181e3131e30e1e3091e27a1e25f1e2021ff261ff211ff1c1ff171ff121ff0c1ff071fed01fec51fec01febb1fea41fe981fe8c1fe85)
  (.lf
  0x37400375003760037700378003790037a0037b0037c0037d0037e00fd900fda00fdb00fdc00fdd00fde00fdf00fe000fe100fe200fe300fe400fe500fe600fe700fe800fe900fea00feb00fec00fed00fee00fef00ff000ff100ff200ff300ff400ff500ff600ff700ff8009e6009e7009e8009e9009ea009eb009ec009ed009ee009ef009f0009f1009f2009f3009f4009f5009f6009f7009f8009f9009fa))
  (.nd (.lf
  0x1d5191d50d1d4ff1d4fa1d4ef1d4ea1d4e61d4e11d4dd1d4d81d4d11d49c1d4981d48a1d47d1d4121d40e1d4091d4041d3ff1d3fa1d3f51d3f01d3eb1d3e61d3e11d3dc1d3d71d3d21d3cd1d3c81d3c21d3bd1d3b91d3b41d3af1d3ab1d3a61d3a01d35d1d3581d3531d3311d32d1d3181d6de1d6d91d6d31d6cd1d6c71d6bf1d6bb1d6b21d6ad1d6a71d6a31d69d1d6971d68e1d6891d6831d67f1d6771d673)
  (.lf 0)))

def shaAndOrder9 : BTree :=
  .nd (.nd (.nd (.lf
  0xdad10dabd0dab80dab30daae0daa90daa10da8c0da880da830da7e0da750da710da590da540da500da4b0da460da410da390da220da1d0da180da130da0e0da090da000d9dd0e3f30e3d20e3b20e3a90e3850e3620e3210e2fc0e2d90e2bd0e2ad0e28a0e2710e2580e2330e22d0e1ec0e1400e1140e0f60e0cf0e0b00e08e0e06a0e0480e0230e0030dfdd0dfca0dfa80e4080e3d50e3c80e3940e3810e34b)
  (.lf
  0x1e5271edcd1edb41eda21ed861ed7a1ed6e1ed391ed1a1ece01ed021eceb1ecc31ecca1ecac1ec8f1ec821ec641ec731ec611ec6c1ec431ede51ec101ec041ebf21ebde1ebd51ebc21ebbb1ebe71e9321e8a11f3cc1f3b71f3b41f62b1f3811f3831f3651f3671f3321f3261f30f1f3271f2fc1f3281f2ec1f3e51f2bb1f2161f1b01f18d1f17e1f18e1f1641f1971f19d1f1901f0f71f0fc1f0fa1f0461efd4))
  (.nd (.lf
  0x5996059910598c05987059820597d05978062270621706208061fa061ec061de061d0061bf061ad0619d0618e0617d0616b0615c0614c0613b0612a0611906108060f7060e8060da060cc060bc060ad0609d0608c0607b0606c0605f04d7904d5704d3804d1404cf504cd104cb204c8e04c6e04c4e04c2e04c0f04bec04bc804ba804b8804b6904b4604b2304b0004add04ab904a9a04a7704a5404a3004a10)
  (.lf 0))) (.nd (.nd (.lf
  0x16d3916d0c16cc116b7f16af116a7016a5b169b2166e1166dc166d7166d2166cd166c7166c3166be166b9166b4166ae166aa166a31669f1669b16696166911668b16687166821667d16678166731666e16669166641665f16659166541664f16e8016e7c16e7716e7216e6d16e6816e6416e5f16e5916e5516e5016e4b16e4516e3f16e3b16e3416e2f16e2b16e2516e2016e1b16e1716e1316e0d16e0816e04)
  (.lf 0)) (.nd (.lf
  0x13249132441323f1323a13235132301322b13226132211321c13217132121320d1320813203131fe131f9131f4131ef131ea131e5131e0131db13d3413d2a13d1f13d1413d0913cfe13cf313ce813cdd13cd213cc713cbc13cb113ca613c9b13c9013c8513c7a13c6f13c6413c5913c4e13c4313c3813c2d13c2213c1713c0c13c0113bf613d3013d2513d1a13d0f13d0413cf913cee13ce313cd813ccd13cc2)
  (.lf 0)))

def shaAndOrder10 : BTree :=
  .nd (.nd (.nd (.lf
  0x16d2d16d1116cfb16ced16cce16b9a16b8f16b7416aed16ac916ac516ab616a8f16a8016a7c16a6116a0e16a0916a01169f6169f11698b168e0168dc177ea177781776117754176d6176cf176aa176a4176851766c17646176351761a17604175ea175cf175bc175b31757a1755e17553175341751717509174ef174e0174bb174b11749117473177ed177c7177c3177501771017707176ff1768e1768a1767a)
  (.lf
  0xe02c0e00f0dfe60dfc20df9e0ebfd0ebe30eb820eb830eb840eb850eb860eb870eb880eac60eac70eac80eac90eaca0eacb0eacc0ea120ea130ea140ea150e94f0e9500e91f0e9200e8f30e8b20e8b30e8b40e8b50e8b60e8b70fbae0fbaf0fbb00fbb10fbb20fbb30fbb40fbb50fbb60fbb70fbb80fbb90fbba0fbbb0fbbc0fbbd0fbbe0fbbf0fbc00fbc10fbc20fbc30fbc40fbc50fbc60fbc70fbc80fbc9))
  (.nd (.lf
  0xaa8d0aa710aa560aa390aa1b0a9fd0a9e10a9c30a9a40a9830accf0ac950ac770ac590ac050abcb0abac0ab1d0aae20aaa70aa530aa350aa170a9de0a7bb0a7b60a7b10a7ac0a7a70a7a20a79d0a7980a7930a78e0a7890a7840a77f0a77a0a7750a7700a76b0a7660a7610a75c0a7570a7520a73b0a7240a70e0a6f80a6e20a6cc0a6b60a6a00b22c0b21d0b20c0b1fb0b1ec0b1dc0b1cb0b1bc0b1ac0b19b)
  (.lf 0))) (.nd (.nd (.lf
  0x1b4d11b48e1b4801b3e31b3ca1b3bd1b33b1b3351b3311b3191b3151b2f51b2a41b2a01b23a1b1dc1b1d71b1d21b1cd1b03f1afe41afd81afa41af821af701af601af1c1af0e1b4e81b4991b4681b3dd1b3bc1b3761b3521b3291b2ab1b1ee1b1e11b0461afaa1af3d1abf71abf21abed1abe91abe41abdf1abda1abd51abd01abcb1abc61abbf1abba1abb51abb11abac1aba71aba21ab9d1ab981ab931ab8e)
  (.lf
  0x5b4305b2305b0405af60620e06200061f2061e4061d6061a30619406162060ee060e0060d2060b30817c0814e080f0080c3080650803707fa907f1a07e8c07e2e07e0007d4107d1407ce607cb508727086c40866108653086340862608618085c6085b8085aa0859c0858e090d4090b20909008f9508f7308f5108f2f08f0d08ea108e7f08dee08d5e08d3908d1308ceb09600095e1095d3095b4095a609598))
  (.nd (.lf
  0x19e1219e0c19e0719e0119dfa19df519df119de919de319ddf19dd919cc119cbb19cb519c9919c9519c9019c8919c8419f3419f3019f2a19f2419f1f19f1a19f1519f1019f0b19f0719f0119ef919ef519eef19ee919ee519edf19eda19ed519ecf19ecb19e9d19e9919cde19cd619cd119ccd19cc719cb019caa19795197901978b19786197811977c19775197701976c19768197631970419700196fb196f6)
  (.lf 0)))

def shaAndOrder11 : BTree :=
  .nd (.nd (.nd (.lf
  0x49ca049ab04d6f04d4b04d2c04d0804ce904cc504ca604c8204c6204c4204c2204c0304be004bbc04b9c04b7c04b5d04b3a04b1704af404ad104aad04a8e04a6b04a4804a2404a04049e4049c4049a50546d05456054400542a05414053fe053e8053d2053bc053ab0539d05392053880537e053740536a05360053560534c052e2052d8052cf052c6052bd052b4052ab052a20529905290052870525805219)
  (.lf
  0xc29b0cb930cb8b0cb820cb790cb700cb670cb5e0cb550cb4c0cb430cb3a0cb310cb280cb1e0cb150cb0c0cb030cafa0caf10cac80cac90caca0cacb0cacc0cacd0cace0cacf0cad00cad10cad20cad30cad40d2aa0d2ab0d2ac0d2ad0d2ae0d2af0d2b00d2b10d2b20d2b30d2b40d2b50d2b60d2b70d2b80d2b90d2ba0d2bb0d2bc0d2bd0d2be0d2bf0d2c00d2c10d2c20d2010d2020d2030d2040d43d0d205))
  (.nd (.lf
  0x1af501ad801aba01aa101a8301a6a01a4d01a3001a12019f9019dc019be019a5019880196b0194d0193401916018fc018e3018c5034c6034a90348703466034440342303401033de033bd0339d0337d0335b0333803315032f4032d4032b403292032710324f0322c03209031e6031c5031a3031800315f0313d0311c030fa034a60346303420033fd0337a0335703334032b10326e0324b0322803205031c2)
  (.lf 0))) (.nd (.nd (.lf
  0x11f2711f2211f1d11f1711f1311f0e11f0911f04129fb129f6129f1129ec129e7129e0129dc129d7129d3129cb129c7129c3129bf129ba129b5129af129ab129a5129a11299c12997129921298d12987129831297e12979129741296f1296813051130471303d12f4912f4512f4012f3b12f0612f0112e6312e5f12e3f12e3912e1412e0f12d6e12d6a12d6312d5e12d5912d3412c9c12c9712c9212c8a12c86)
  (.lf 0)) (.nd (.lf
  0xd9520d93c0d91a0d9050d8e60d8c40d8a60d8880d8710d8550d8390d81d0d8010d7e50d7c90d7ad0d7920d7750d7590d73c0d71e0d6ff0d6e10d6c00d69d0d67c0d65c0df590df4f0df440df390df2e0df230df180df0d0df020def70deec0dee10ded60decb0dec00deb50deaa0de9f0de940de890de7e0de730de680de5d0de520de460de3a0de2e0de230de1807967079620795d07958079530794e07949)
  (.lf 0)))

def shaAndOrder12 : BTree :=
  .nd (.nd (.nd (.lf
  0x1bc911bc7a1bc761bc6c1bc681bc5e1bc5a1bc501bc3a1bc301bc2c1bc221bc181bc0f1bc061bbfd1bbef1bbeb1b9fb1b9f21b8c91b8791be291be001bdfc1bddf1bdda1bdd61bdbf1bdbb1bda71bda31bd901bd841bd7f1bd571bd531bd4f1bd4b1bd391bd351bd301bd271bbdc1bbd41bbd01bbc21bbb91b8bc1b8b41b8991b88a1dd911dd251dcce1dc991dc2f1dc111dbaa1db871db631db2d1db0f1daef)
  (.lf
  0x1764d176321762d17601175e7175c6175a9175a2175841756317540175451752317505174f6174d1174c9174a21749a17477180b5180a01802a1802b1802c1802d1802e1800b17f3117f3217f3317f3417f3517cf917cec17ced17cee17cb417cb517c9e17c9f17ca017c7017c6817c1a17c0b17bf217be217bcd17bce179dd1898f1899018982188f6188ba188a31886b1883718811187dc187d3187e41876e))
  (.nd (.lf
  0xc6ea0c6ca0c6ac0c68f0ca240ca090c9ec0c9ce0c9b20c9970c97b0c95d0c93d0c91d0c8fd0c8dd0c8bd0c89e0c87c0c8590c8380c8180c7f60c7d50c7b50c7930c7700c74d0c72a0c7070c6e60c6c60c6a80c68b0ca060c9e80c89b0c8780c8150c7b20c78f0c76c0c7490c7260c5250c5200c51b0c5160c5110c50c0c5070c5020c4fd0c4f80c4f30c4ee0c4e90c4e40c4df0c4da0c4d50c4d00c4cb0c4c6)
  (.lf 0))) (.nd (.nd (.lf
  0x1c86d1c8681c8631c85e1c7cd1c7be1c7b91c7991c7941c78f1c7661c7611c75c1c7371c72f1c6f11c6d01c6c11c6af1c69a1c6851c6801c6671c6511c6441c6401c63b1c6361e4ad1e4a41e4891e4831e4721e46b1e4671e3e11e3d21e3c61e3be1e3b91e3b41e3ae1e3911e38b1e3781e35b1e3571e3531e34e1e3311e2e41e2aa1e2a61e2a01e2881e2671e24a1e2461e4aa1e49f1e4991e4931e4601e451)
  (.lf
  0x188821886d187cf1879d18775187361871f186b8186a9186951867f185b81858a1857518544184e6184b7191211911b190221901d1900618feb18ee118e8e18d9318d8e18d8b18d8718c491997a199711996d199291991d1991a1991319910198f2198e01987a194de19493194341941e1a3e71a31d1a2c71a2231a21b1a1f41a1da1a1c01a1771a12c19ec719e9319dd419d8c1ab4e1aa8c1aa871aa7a1aa76))
  (.nd (.lf
  0x1c1931c18d1c1891c1841c1801c17a1c1761c1711c1391c1221c11e1c1191c1141c10f1c10b1c1061c09c1c80b1c8051c7f91c7f51c7ef1c7e61c7dd1c7231c71d1c7131c70f1c7091c7031c6fd1c6f71c6ea1c6e41c6de1c6d71c6c51c6a41c69d1c68c1c66a1c6601c6581c6101c6091c6011c5fd1c82b1c8251c81f1c8191c7fe1c7e21c7d91c7c21c7a01c79c1c7741c7701c76a1c7461c7401c73a1c732)
  (.lf 0)))

def shaAndOrder13 : BTree :=
  .nd (.nd (.nd (.lf
  0x9ffd09fdb09fb309f8b09f6209f3909f1209eeb09ec309e9a09e7009e4a09e2209dfa09dd309dad09d8609d6009d3609d0f09ce909cbf09c9809c7309c4d09c2309bfa09bd309bab09b830a2760a2700a26b0a2660a2610a25c0a2580a2530a24e0a2490a2440a23e0a23a0a2340a22f0a22b0a2230a21b0a2130a20b0a2030a1fb0a1f30a1eb0a1e30a1db0a1d30a1cb0a1c30a1bb0a7400a7290a7130a6fd)
  (.lf
  0x1463b1545b15449154391542c153f91546a153e5153d415405153c2153b6153a91539e1538e153861537b153721536a1535e15356153491533b1534015332153261539514f9314f9d14f5614f4a14f1914f0a15c5c15c0815bff15c1f15bba15b9d15b6e15b4915b2115b0115aef15ae215ad815aa015a8715a6815a6d15a7815a5415a4c15a30159dd159cf159b8159aa159ab159ac159461593c157f9157df))
  (.nd (.lf
  0x4aa604a8404a6104a3e04a1d049fd049dd049bd034bf034a20347e0345f0343b0341c033f9033d5033b5033950337603353033300330c032ec032cc032ad032890326a032470322403201031dd031be0319b03177031580313403115030f104d7f04d6004d3f04d1d04cfc04cda04cb904c9704c7604c5604c3604c1604bf404bd104bb004b9004b7004b4e04b2b04b0804ae504ac204aa104a7f04a5c04a39)
  (.lf 0))) (.nd (.nd (.lf
  0x1443b14436144311442c14427144211441c14417144121440e1440914400143fb143f7143f2143ee143dd143b014395143801437c143781434614c3b14c3614c3114c2c14c2714c2114c1d14c1814c1314c0e14c0814c0214bfd14bf814bf314bef14beb14be614be014bdc14bd714bd214bcd14bc814bc114bbc14b9914b9414b8e14b87150c3150bd150b7150ac1507f15079150731506d15067150631505d)
  (.lf 0)) (.nd (.lf
  0x90340901008fec08fc808fa408f8208f6008f3e08f1c08efa08ed608eb108e8e08e6c08e4808e2308dfe08ddb08db708d9308d6f08d4b08d2608d0008cd60f2530f2480f23d0f2320f2270f21c0f2110f2060f1fb0f1f00f1e50f1da0f1cf0f1c40f1b90f1ae0f1a30f1980f18d0f1820f1770f16c0f1610f1560f14b0f1400f1350f12a0f11f0f114112e6112e1112dc112d7112d2112cd112c8112c3112be)
  (.lf 0)))

def shaAndOrder14 : BTree :=
  .nd (.nd (.nd (.lf
  0x1265312628126231261f126041258a125701255e12559125551251d125101250b12507124f7124f3124e9124dc124d2124ce124c5124351237c123521233a12319128ee128e9128e4128df128da128d5128d0128c5128b1128ad128a8128a41289912894128741286e1286a12865128611285c12857128521284d12845128401283512830123631233512311130991307c1300612ff512fc712fc312f8912f2b)
  (.lf
  0x5a1605a1705a1805a1905a1a05a1b05a1c05a1d05a1e05a1f05a2005a2105a2205a2305a2405a2505a2605a2705a2805a2905a2a05f8d05f8e05f8f05f9005f9105f9205f9305f9405f9505f9605f9705f9805f9905f9a05f9b05f9c05f9d05f9e05f9f05fa005fa105fa205fa305fa405fa505fa605fa705fa805fa905faa05fab065090650a0650b0650c0650d0650e0650f0651006511065120651306514))
  (.nd (.lf
  0x8e3808e1308dcc08da808d8408a7108a6c08a6708a6208a5d08a5808a5308a4e08a4908a4408a3f08a3a08a3508a3008a2b08a2608a2108a1c08a1708a1208a0d08a0808a03089fe089f9089f4089ef089ea089e5089e009607095fa095ea095db095cd095bd095ae095a0095920958409576095680955809547095380952a0951a0950b094fb094ec094de094d0094c2094b2094a109490094810947309463)
  (.lf 0))) (.nd (.nd (.lf
  0x18c7d18c7818c4d18c3118bd918b4118b2319116190361902f190291900318ff118f4418eeb18ee718ea518e9f18e8718e7818a8d18a8918a8418a7f18a7918a7418a6f18a6b18a6418a6018a5b18a5718a5118a4c18a4818a4418a3e18a3a18a3618977189721896d189511893018909188e0188d918863188311880c192d9192d4192d0192cb192c6192c0192ba192b6192b1192ad192a8192a11929c19298)
  (.lf
  0x14f1c14f101606f1606d167f5167ee171231711817986179811841d183a718b0e18b0b193cf193cd19cef19cee1ae2a1ae291dbff1dbfe1e8a41e8941ef511ef4f1f4e41f4e32091f2086e200dd200dc1fc171fc161f52b1f5271b16d182471b92a18b081c099193db1c4b419ca21c7841a5611cab61ae241cde71b6f41d0ad1bf2f1d30f1c2ca007350058800f9800b8801752011bb01d9501894023cd01e40))
  (.nd (.lf
  0x16b3616b3016b2816b1616b0916ade16ada169601695c16954169501694a169441693816934169281691c16910168fc168f8168aa1676d16767167631675e16759167541674f1674a16746167411673c16738167341672f1672b16726167221671d1671916714167101670b1670716702166fe166f9166f5166ef166eb166e7173fc173da173b81739617375173531733217313172f4172d5172b6172971727a)
  (.lf 0)))

def shaAndOrder15 : BTree :=
  .nd (.nd (.nd (.lf
  0x122c0120d011ea011c701be701bcb01bad01b9401b7601b5c01b4301b2601b0801aef01ad201ab401a9b01a7d01a6401a4701a2a01a0c019f3019d6019b80199f0198201965019470192e01910018f6018dd018bf01be201bc501ba701b8e01b7001b5601b3d01b2001b0201ae901acc01aae01a9501a7701a5e01a4101a2401a06019ed019d0019b2019990197c0195f01941019280190a018f0018d7018b9)
  (.lf
  0x41670477704778047790477a0477b0477c0477d0477e0477f047800478104782047830478404785047860478704788047890478a0478b0478c0478d0478e0478f0479004791047920479304794047950479604daf04db004db104db204db304db404db504db604db704db804db904dba04dbb04dbc04dbd04dbe04dbf04dc004dc104dc204dc304dc404dc504dc604dc704dc804dc904dca04dcb04dcc04dcd))
  (.nd (.lf
  0x186a01865018600185b01856018510184c01847018420183d01838018330182e01829018240181f0181a01815018100180b0180601801017fc017f701bef01bd501b9e01b4d01b3001af901adc01aa501a6e01a5101a34019fd019e0019a90198c0196f01938018e7017300172b01726017210171c01717017120170d0170801703016fe016f9016f4016ef016ea016e5016e0016db016d6016d1016cc016c7)
  (.lf 0))) (.nd (.nd (.lf
  0x10e0710dc710dc110d2c10d2810d1f10d0d10d0910ce610cc110c5c10c5610b5010adb10ad60f3110f30c0f3070f3020f2fd0f2f80f2f30f2ee0f2e90f2e40f2df0f2da0f2d50f2d00f2cb0f2c60f2c00f2bc0f2b70f2b20f2ad0f2a70f2a30f29e0f2990f2940f28f0f2890f2850f26e11070110291102510fe710f4210f3d10f3810f3210f2310ebe10e6810e6410e5010e2e10e0d10dd610dd110d9b10d7b)
  (.lf 0)) (.nd (.lf
  0x81c808197081690813b0810c080dd080b008080080520802407ff507fc407f9607f6607f3607f0707ed807ea707e7907e4907e1b07ded07dbe07d8d07d5d07d2e07d0107cd307ca2073a9073a40739f0739a07395073900738b07386073810737c07377073720736d07368073630735e07359073540734f0734a07345073400733b07336073310732c07327073220731d07318081f0081c4081930816508137)
  (.lf 0)))

def shaAndOrder16 : BTree :=
  .nd (.nd (.nd (.lf
  0x203dd203d8203d3203ce203c9203c4203bf203b41fd1b1fd161fcc81fcb5206cb206c7206c2206bd206b7206b2206ae206a9206a42069f2069a1fa6b1fa671fa621fa5b1fa561fa511fa4c1fa481fa441fa121fa0c1fa081f9831f97e1f7261f7181f6d11f56e1f56a20f9e20f9920f9220f8e20f8a20f8320f7f20f7b20f7320f6f20f6b20f6720f6220f5b20f5720b9120b8c20b8620b5e20b4d20b4820b2a)
  (.lf
  0x8ff008fcc08fa808f8608f6408f4208f2008efe08eda08eb508e9208e7008e4c08e2708e0208ddf08dbb08d9708d7308d4f08d2a08d0408cda06a9f06a9a06a9506a9006a8b06a8606a8106a7c06a7706a7206a6d06a6806a6306a5e06a5906a5406a4f06a4a06a4506a4006a3b06a3606a3106a2c06a2706a2206a1d06a1806a1306a0e06df506de606dd506dc406db306da206d9106d8006d6f06d5e06d4d))
  (.nd (.lf
  0xecae0eca90eca30f8250f81f0f8180f8140f80e0f8080f8020f7fc0f7f60f7f00f7e70f7e10f7dd0f7d70f7d00f7cc0f7c60f7c00f7ba0f7b30f7ad0f7a80f7a20f79c0f7960f7900f78a0f7850f7800f7760f8c00f8bc0f8b70f8b10f8ac0f8a80f8a20f89d0f8990f8940f88e0f8880f8830f87d0f8780f8740f86f0f86a0f8640f85f0f85a0f8540f8500f84a0f8450f83f0f83b0f8360f8320f82d0f99f)
  (.lf 0))) (.nd (.nd (.lf
  0x2023c20236202302022a202222021e201eb201e6201e0201dc201d6201d1201cb201c3201bd201b7201b3201a22019e201932018f2017c201781f1341f12f1f06f1f06a1f0651f0601f05b1f0551f0511f04c1f03f1f03b1f0361f0311f02d1f0071f0011effd1eb661eb541eb471eb421eb3d1eae31eac81ea0f1ea0b1ea071ea011e90b20a3920938209322092c2077720771207342072f207232071f2071b)
  (.lf
  0x2740026f0026a00265002600025b00256002510024c01bf301bda01bbd01ba201b8601b6b01b5101b3501b1801afd01ae101ac401aa901a8d01a7201a5601a3901a1c01a01019e5019c8019ad0199101974019570193c0192001905018eb018cf20dbb20db720daa20da220d9d20d9520d8f20d8b20d8620d8020d5e20d5520d4720d3f20d1f20b7920b7520b6f20b6b20b3c20b3020b2b20ac420a9f20a5c))
  (.nd (.lf
  0x4220041100402003f4003e4003d8003cd00225002200021b00216002110020c0020700202001fd001f8001f3001ee001e9001e4001df001da001d5001d0001cb001c6001c1001bc001b7001b2001ad001a8001a30019e00199001940057c0056c0055d0054f0054100533005230051400504004f5004e7004d9004c9004ba004aa0049b0048d0047f0046f00460004500043f0042e0041d0040c003fd003ef)
  (.lf 0)))

def shaAndOrder17 : BTree :=
  .nd (.nd (.nd (.lf
  0xea7d0ea780ea730ea6e0ea690e9a50e9940e97e0e9670e9410e93c0e9160e9040e8cf0e8500e84b0e8460e8410e8230e7850fac60fac00fabc0fab70fab20faad0faa80faa20fa9e0fa990fa940fa8e0fa890fa840fa7f0fa7b0fa760fa710fa6c0fa670fa620fa5c0fa580f9ca0f9c10f9bb0f9b50f9b00f9020f8de0fa4f0fa4a0fa450fa400fa3b0fa360fa320fa2d0fa280fa230fa1d0fa190fa130fa0f)
  (.lf
  0x1fc1020c4a20c3c20c4620c0420c1420bf720c5320a79208ec208dd208d22089b2091c2087d207ae207b32074d2077c2075f2064f20608205ff2060e205e3205da205b4205972058620553205082053a20512017330173401735017360173701738017390173a0173b0173c0173d0173e0173f017400174101742017430174401745017460174701748017490174a0174b0174c0174d0174e0174f0175001751))
  (.nd (.lf
  0x5f3a05f3505f3005f2b05f2605f2105f1c05f1705f1205f0d05f0805f0305efe05ef90665e06659066540664f0664a06645066400663b06636066310662c06627066220661d06618066130660e0660906604065ff065fa065f5065f0065eb065e6065e1065dc065d7065d2065cd081e3081b4081840815508128080f8080ca0809c0806d0803e0801107fe107fb107f8207f5307f2207ef407ec407e9407e65)
  (.lf 0))) (.nd (.nd (.lf
  0x177e1177dd1774e176c0176111760d17608175901758c1755a1752a175111748917047170431703e17039170341702f1702a17025170201701b17016170111700c170071700216ffd16ff816ff316fee16fe916fe416fdf16fcc16fb316fae16fa916fa416f9f16f8c16f4617916179111790b1790717902178fd178f8178f3178ef178ea178e5178e0178db178d6178d117865178601785b178401783b17836)
  (.lf 0)) (.nd (.lf
  0x145651455a1454f14544145391452e14523145181450d14502144f7144ec144e1144d6144cb14605145fa145ef145e4145d9145ce145c3145b8145ad145a2145971458c14581145761456b14560145551454a1453f14534145291451e1451314508144fd144f2144e7144dc144d1144c613efd13ef813ef313eee13ee913ee413edf13eda13ed513ed013ecb13ec613ec113ebc13eb713eb213ead13ea813ea3)
  (.lf 0)))

def shaAndOrder18 : BTree :=
  .nd (.nd (.nd (.lf
  0x17ccd17cc517cbb17cb017cab17c9a17c9517c9017c6317c1417c0517bec17bde17bca17bc5179d81894118927188f2188941888f188531881d187f7187cc187a21878d187721873b1872318714186ce186bf186ad18699186851866f185ae1858f1858018572185351850a184f3184de184b21898b189871897e188b6188a8188791882718814187c8187b21879218762187471872e18710186f7186f1186e7)
  (.lf
  0x10698110f6110961105a1105b1100310fd310fd410f9910f7710f5410edd10eae10e9a10e8510e5d10e2510dfc10deb10db710d9110d7010d5410d5510d0510cdd10cb810c9c10c9d10b6910b1710b18117f6117f7117e4117d1117d2117d3117d4117d5117d6117d7117ac117fe1171d1170511706117071170811709116ad1169b11688116721167311674116361161511616115e711575115021150312027))
  (.nd (.lf
  0xb1460b1360b1250b1160b1080b0fa0b0ea0b0db0b0cd0b0bf0b0af0b09e0b08f0b07f0b06e0b05f0b2250b2140b2030b1e40b1d30b1b40b1a30b1920b1810b1700b1430b1320b0f70b0bc0b0ab0b08c0b07b0af140af0f0af0a0af050af000aefb0aef60aef10aeec0aee70aee20aedd0aed80aed30aece0aec90aec40aebf0aeba0aeb50aeb00aeab0aea60aea10ae9c0ae970ae920ae8d0ae880ae830b66f)
  (.lf 0))) (.nd (.nd (.lf
  0x1b85d1b84a1b8461b70d1bb141bb0e1bb091bb031bafd1baf61baef1baeb1bae61bae11bada1bad61bad01bac91bac31babf1baba1bab21baae1baa91ba251ba1a1ba141ba0f1b8721b86c1b8581b84e1b7211b7001bbab1bba31bb9d1bb911bb8a1bb831bb6c1bb681bb601bb521bb4c1bb3a1bb2e1bb201b8ac1b8a81b68d1b6871b6831b67f1b67a1b6741b66f1b66b1b6661b5ea1b5e51b5e01b5db1b5d6)
  (.lf
  0xb0d80b0ca0b09a0ba260ba0a0b9b00b9940b9780b95d0b9420b88f0b8740b83b0b8010b7e50b7ca0b7910b7580b71b0c25e0c2250c1ec0c1d00c1b00c1900c1700c10a0c0ea0c0ca0c0410c0210c0010bf9b0bf7b0bf150ca210c9ca0c9af0c9940c9780c95a0c93a0c91a0c8fa0c8da0c8ba0c8550c8350c7f20c7d20c7030d1df0d1090d0ce0d0760d05a0d0200cee90cec80cea50d98e0d9750d9590d8fc))
  (.nd (.lf
  0x1a6741a6701a61a1a6141a6101a6091a6041a5bb1a5b71a5771a56d1a0881a0831a07e1a0791a0741a06f1a06a1a0641a0601a05b1a0531a04e1a04a1a0451a0401a03b1a0371a0331a02e1a0291a0241a01e1a01a1a0151a0101a00b1a0061a00019ffc19ff71aee61aee01aed11aecc1aec51aec11aebb1aeb61aeb01aea91aea41aea01ae9b1ae961ae901ae8a1ae831ae7f1ae781ae721ae6c1ae651ae5f)
  (.lf 0)))

def shaAndOrder19 : BTree :=
  .nd (.nd (.nd (.lf
  0x57ba057b5057b0057ab057a7057a20579d05798057930578e05788057840577e05779057730576f0576a0576505761057560574c057410573c0573805e1105e0d05e0805e0305dfc05df805df305def05dea05de505ddf05dda05dd505dd005dcc05dc705dc205dbd05db805db205dad05da905da405d9f05d9705d9305d8f05d8a05d8605cf405d7c05d7705d7205d6c05d6805d6205d5d05d5705d5305d4e)
  (.lf
  0xdf740ebf50ebd50eb300eb310eb320eb330eb340eb350eb5a0ea8e0eaa90ea8f0eaa30ea900ea9d0ea910e9c00e9b40e9ba0e96c0e94b0e9450e91c0e9090e8eb0e88e0e8850e87c0e8730e86a0e85d0e8570fae60fae70fae80fae90faea0faeb0faec0faed0faee0faef0faf00faf10faf20faf30faf40faf50faf60faf70faf80faf90fafa0fafb0fafc0fafd0fafe0faff0fb000fb010fb020f9080f8e3))
  (.nd (.lf
  0x2202021df021bc0219802178021590213502116020f2020d3020af020900206d020490202a0200701fe301fc301fa301f8301f6401f4001f2001f0101edd01ebe01e9b01e7701e5803aed03ace03aad03a8b03a6803a4703a2703a07039e7039c7039a703987039670394503922038ff038dc038bb0389903878038560383503813037f2037d0037af0378f0376d0374f0373203aea03aaa03a870396403941)
  (.lf 0))) (.nd (.nd (.lf
  0x126d9126d4126ce126c9126c4126c0126bb126b6126b1126ac13146131411313b13137131321312d13128131231311e13119131141310f1310913104130ff130fa130f5130f0130eb130e6130e0130db130d6130d2130cd130c9130c4130341302f1302a137d2137cc137c7137c1137ba1371a137151371113707136b3136ae136aa13617136111360c1360713602135d9135d4135d0135cc134e9134e3134df)
  (.lf 0)) (.nd (.lf
  0xe6f10e6e50e6d90e6cd0e6c10e6b50e6a90e69d0e6910e6850e6790e66d0e6610e6550e6470e6370e6260e6150e60407a5c07a5707a5207a4d07a4807a4307a3e07a3907a3407a2f07a2a07a2507a2007a1b07a1607a1107a0c07a0707a02079fd079f8079f3079ee079e9079e4079df079da079d5079d0079cb0e7700e7640e7580e74c0e7400e7340e7280e71c0e7100e7040e6f80e6ec0e6e00e6d40e6c8)
  (.lf 0)))

def shaAndOrder20 : BTree :=
  .nd (.nd (.nd (.lf
  0x1e4d21e4c71e4b91e4b51e0031dfff1dff61dfc61de121dda31dd631dcfe1dcb51dc4f1e1b01e1a31e1991e18c1e1781e1621e1541e1491e1351e1021e0f71e0d41e0cd1e0c01e0b81e0af1e0a61e0a21e04a1e02b1dfe61dfdc1dfcc1dfc81de0c1ddc31dd6b1dd0b1dcac1dc541e8031e7dc1e7c81e7c41e7ba1e7821e77e1e77a1e7761e75c1e7581e74c1e7421e7381e72f1e7261e71d1e7131e7091e6ff)
  (.lf
  0x198f6198ce198a41989f1988519876197e6197df197d5197cd1979e1949b194541944819440193ed1a4411a3d61a36b1a3891a3051a3791a2f31a2571a25d1a2321a2421a1ff1a1ee1a1d81a1b21a1751a1631a12a1a1001a0ec1a0cd1a09b19eb919e8f19e6b19dd219db519d9c19d8019d3c19d041aced1ace41acdc1ad071acbb1ad201acb41aca51aca61ad131ac891ac811ac791ac6e1ac651ac4b1ac44))
  (.nd (.lf
  0xcf150cef10cecf0ceac0ce880ce600d1e20d1c60d1a80d1890d16a0d14b0d12c0d10d0d0f00d0d20d0b50d0980d07a0d05d0d0420d0240d0070cfe90cfcb0cfac0cf8d0cf6f0cf510cf320cf110ceed0cecb0cea80ce840ce5c0d1c30d1a40d1850d1660d1470d1280d0ed0d0b20d0940d03f0d0040cfe50cfc70cfa80cf890cf6b0cf4d0cf2e0cf0d0ce810cc8b0cc860cc810cc7c0cc770cc720cc6d0cc68)
  (.lf 0))) (.nd (.nd (.lf
  0x1e9511e94b1e9471e9431e8d91e8b51cc3b1cc361cc311cc2c1cc271cc211cc1d1cc151cc111cc0d1cc091cc041cc001cbfb1cbf31cbef1cbea1cbe51cbe01cbdc1cbd71cbd21cbcd1ca561c9ca1c9c61c9c11c9801c97b1c9611eabd1eab81eab31eaad1eaa81eaa21ea9e1ea671ea5d1ea4f1ea491ea451ea401ea3b1ea361ea301ea2c1ea261ea201ea181e9b91e9ae1e9881e9831e97e1e9791e9751e96f)
  (.lf
  0x1dca71e48f1e47c1e4791e45a1e44a1e4471e43c1e4321e4231e4141e4101e2eb1e2bb1eb981eb941eb901eb8d1eb831eb7f1eb6e1eb6b1eb211eb1d1eb191eb161eaf51eaf11eaee1ead71ead41eac11f3931f3901f38c1f2a11f29e1f28b1f2851f2801f26b1f1c41f1aa1f1811f15a1f1571f14d1f13e1f13b1f0d61f9611f95d1f9451f93e1f9351f9321f9261f9062008c200852007e20074200702006c))
  (.nd (.lf
  0x1c9b71c9b11c9ab1c9a01c99a1c9921c9871c96a1c9571cb311cb231cb1b1cb101cb0c1cb021caf71caee1cae31cad61cac81caba1caae1caa41ca9c1ca891ca7f1ca7b1ca721ca6e1ca681ca621ca5e1ca5a1c9cf1c9a61c98f1c9831c96f1c95c1c8ec1c8e71c8e11c8dc1c8d81c8d31c8cd1c8c81c8c41c8c01c8bb1c8b61c8b11c8ac1c8a71c8a21c89d1c8981c8931c88e1c8871c8821c87d1c85a1c853)
  (.lf 0)))

def shaAndOrder21 : BTree :=
  .nd (.nd (.nd (.lf
  0xada50ada00ad9b0ad960ad910ad8c0ad870ad820ad7d0ad780ad730ad6e0ad520ad4d0ad480ad430ad240ad1b0ad040acff0acfa0a98c0aff00afd90afd30afcf0afca0afc50afc00af900af8c0af870af820af7d0af780af730af6e0af690af640af5f0af5a0af540af500af350af2f0af2b0af260af210af1c0af180ad2c0a98f0b4950b4900b48b0b4860b4820b4710b4380b4330b42e0b4290b4240b41b)
  (.lf
  0x167f217848177ff1776d177ad17799176f4176c5176b717698177271766517655176241761f175f7175dd175cb175b81759c1758017569175501754b1751f17500174ec174c4174dc17496174ac1747e1711d181531814117ffc17fc417fd017fed17fdd17fb317f7f17f8c17fa717f9e17f1917df717ded17de417dda17dd017dc617dbc17db217da917da017d9717d8e17d8517e0217d7917d6f17d6617d5d))
  (.nd (.lf
  0x50e8050d4050bf050ab050940507f0506a05056050410502d050160500104fec04fdc03ae703ac503aa603a8303a5f03a3f03a1f039ff039df039bf0399f0397f039600393d0391a038f7038d3038b403890038710384d0382e0380a037eb037c7037a703788037690374b0372e05232052200520a051f3051de051ca051b4051a10518b05178051620514d05136051210510a050f7050e3050cf050ba050a6)
  (.lf 0))) (.nd (.nd (.lf
  0x14a4e14a4914a4414a3f14a3a14a3514a3014a2b14a2614a2114a1c14a1714a1214a0d14a0714a03149fe149f9149f4149ef149b61499f1499a14995149901498b15314153101530b1530615301152fc152f7152f2152ed152e8152e3152de152d9152d3152cf152ca152c5152bd152b7152b2152ae152aa152a5152a01529b15296152911528c152871521b158ad158a9158a51589f15899158931588d15887)
  (.lf 0)) (.nd (.lf
  0x113fe113f3113e8113dd113d2113c7113bc113b1113a61139b11390113851137a1136f11364113591134e0f4b50f4ab0f4a00f4950f48a0f47f0f4740f4690f45e0f4530f4480f43d0f4320f4270f41c0f4110f4060f3fb0f3f00f3e50f3da0f3cf0f3c40f3b90f3ae0f3a30f3980f38d0f3820f3770a00409fe109fb909f9209f6a09f4109f1a09ef209ec909ea009e7709e5009e2809e0109ddb09db309d8c)
  (.lf 0)))

def shaAndOrder22 : BTree :=
  .nd (.nd (.nd (.lf
  0x136a11368e1368013657136481363d13627135e8135c3135ae135a01357e135691354b1351d1351813513134c4139931398e13989139841397f1397a13975139701396b13966139611395c1394913945139391392b13926139211390e13909138f7138eb138e3138df138db1354f135421353713532134c8143c9143c51439f1439b1438514355143511434414331143171430c14308142fc142ee142ea142e0)
  (.lf
  0x8b0508b0608b0708b0808b0908b0a08b0b08b0c08b0d08b0e08b0f08b1008b1108b1208b1308b1408b150938a0938b0938c0938d0938e0938f093900939109392093930939409395093960939709398093990939a0939b0939c0939d0939e0939f093a0093a1093a2093a3093a4093a5093a6093a7093a8099ad099ae099af099b0099b1099b2099b3099b4099b5099b6099b7099b8099b9099ba099bb099bc))
  (.nd (.lf
  0x954f0952209503094ba094a90949809387093820937d09378093730936e09369093640935f0935a09355093500934b09346093410933c09337093320932d09328093230931e09319093140930f0930a092af0929c092970929209b0209afd09af809af309aee09ae909ae409adf09ada09ad509ad009acb09ac609ac109abc09ab709ab209aad09aa809aa309a9e09a9909a9409a8f09a8a09a8509a8009a7b)
  (.lf 0))) (.nd (.nd (.lf
  0x19809198031953c1951419500194d6194bb1948c1942d1941119405193e7199761996a199631995c1992619917198a8198941988a195381951c194fc194c2192901928a19286192811927c19276192721926c19268192621925d19259192521924e1924919245192401923b19236192311922c1922719213191fb191e4191d0191cb191c6191041904d19afc19af719af219aed19ae719ae319ade19ad919ad4)
  (.lf
  0x1fc0d1f56100000000b80017007c60067ab06afe06bf306f460703b0721e0731307408003bf00b7d011b0017f201e350246d02aa6030d10370e03d350435f0498e04fc60554a05acb0604c065c80857708bb60944909a6c0a3080a87d0b0550b5d90bdad0c5870cd4f0d5400dd1c0e4fb0eca00fc85100d510ad1110d3119a41208e129641302613a05141a414b431520215d321645a16ded1771a1805a18873))
  (.nd (.lf
  0x16c6416c5f16c5a16c5516c5016c4b16c4616c4116c3c16c3716c3216c2d16c2817a8b17a7d17a7817a7317a6e17a6917a6417a5f17a5a17a5417a4f17a4a17a4517a4117a3b17a3717a3217a2c17a2717a2217a1d17a1817a1217a0c179f3179ef1799d17997179901798a17b4517b3e17b3817b3217b2c17b2717b2017b1c17b1617b1017b0a17b0517b0117af917af517af117ae717adb17acf17ac317aaa)
  (.lf 0)))

def shaAndOrder23 : BTree :=
  .nd (.nd (.nd (.lf
  0x27cb027ab0278c02769027460272302700026dc026bc0269c0267d026590263902619025fa025d6025b6025960257702554025310250e024eb024c7024a7024870284f0282b0280c027e9027c5027a50278602763027400271d026fa026d6026b60269602677026530263302613025f4025d0025b002590025710254e0252b02508024e5024c1024a10248102e7d02e5e02e3f02e1b02dfb02ddc02db802d98)
  (.lf
  0x587105e3505e3605e3705e3805e3905e3a05e3b05e3c05e3d05e3e05e3f05e4005e4105e4205e4305e4405e4505e4605e4705e4805e4905e4a05e4b05e4c05e4d05e4e05e4f05e5005e5105e5205e5305e54063b1063b2063b3063b4063b5063b6063b7063b8063b9063ba063bb063bc063bd063be063bf063c0063c1063c2063c3063c4063c5063c6063c7063c8063c9063ca063cb063cc063cd063ce063cf))
  (.nd (.lf
  0x5cf005c4005b9005ae0222602209021e7021c4021a102180021600213e0211d020fb020da020b8020970207502052020310200f01fec01fcb01fab01f8b01f6b01f4901f2801f0801ee601ec501ea301e8001e5f02206021e3021c00215d0211a020d702094020710202e0200b01f6801f0501ec201e9f01d7301d6e01d6901d6401d5f01d5a01d5501d5001d4b01d4601d4101d3c01d3701d3201d2d01d28)
  (.lf 0))) (.nd (.nd (.lf
  0x111d5111d0111cb111c6111c1111bb111b6111b1111ad111a8111a31119e11199111941118f1118a111851117e110ea110e5110e1110dd110d8115c0115bb115b7115b2115ab115a6115a21159e1159a115921158d11587115821157c115781155d115551154d11548115431153d11539115331152f11529115231151f1150c11508114ad1175e11758117531174d11747117431173d11737117321172d11727)
  (.lf 0)) (.nd (.lf
  0x74710746c07467074620745d07458074530744e07449074440743f0743a07435074300742b07426074210741c07417074120740d0ba310ba170b9fb0b9dd0b9be0b9a10b9850b9690b94e0b9330b9150b8f60b8d80b8ba0b89c0b8800b8650b8480b82c0b80f0b7f20b7d60b7bb0b79e0b7820b7650b7490b72c0b70c0b6ec0c26c0c2540c2370c21b0c1fe0c1e20c1c60c1a60c1860c1660c1440c1210c100)
  (.lf 0)))

def shaAndOrder24 : BTree :=
  .nd (.nd (.nd (.lf
  0x1fc711fc551fc301fc001fbf31fbe61fbd91fbcd1fbc91fbbc1fa2c1fa241fa201f9fd1f9e31f9df1f9db1f9d21f8e11f8b41f8a41f89b1f8731f7551f7491f6ce1f5431f506204d2204c1204b4204a92049f204992048d2047e2046b20458204472043620409203ff203fb203f7203e9203a42039b20390203872037d203702036420360203551fd121fd0b1fcc51fca42015e20139201352011220102200e1)
  (.lf
  0x1eaea1eae01eacd1e9a51e9951e9631ea131e8c11f5921f59c1f5791f5a11f5301f4ec1f4e11f4cc1f4c71f4a11f49d1f48b1f47c1f4731f4801f45f1f4551f4ad1f4b01f4441f43b1f42d1f4231f4141f3f81f4011f1111f1021f0f11f01f1ef74081fa081d1081a0081720814408115080e6080b9080890805b0802d07ffe07fcd07f9f07f6f07f3f07f1007ee107eb007e8207e5207e2407df607dc707d96))
  (.nd (.lf
  0xe1930e18e0e1890e1840e17e0e17a0e1690e1640e15f0e15b0e1330e12f0e10a0e0e60e0c40e0a20e07e0e05b0e0370e0140dff30dfd20dfaf0e21b0e2150e2100e20b0e2070e2010e1fd0e1f70e1f30e1cf0e1cb0e1c20e1bd0e1760e1720e16e0e1570e1360e12a0e0eb0e0c90e0a70e0830e0600e03c0e0190dff70dfd60dfcd0df8f0e40b0e3cc0e3890e3400e31b0e2d50e2840e26b0e2270e2200e11a)
  (.lf 0))) (.nd (.nd (.lf
  0x1f6ee1f6ea1f6e51f6b31f6af1f6ab1f5351e22e1e22a1e2251e2201e21b1e1dd1e15b1e1451e12d1e1231e11e1e1101e10b1e1061e0f01e0eb1e0e01e05f1e0591e0551e0181e0141e00f1e00b1de131ddae1dd741dd051dcbe1dc5f1f85c1f8551f8501f8351f82b1f8261f8211f81c1f8161f8111f80b1f8051f7ff1f7c01f7ba1f7b51f7af1f7a91f7a51f77b1f7751f7631f7441f73e1f73a1f7361f6f9)
  (.lf
  0x2002c200191fe641fe371fe191ff2b1fdc71fdcf1fda21fd671fd381fd251fcfd1fcb21fca21fd971fccf1fc761fc591fc351fc441fbfa1fbed1fbdd1fbd31fddf1fbc21fa341fa311fa401fa041f9ed1f9e51f9f71f9d51f9511f8fb1f8b11f8a01f8991f8c81f7521f72b1f6db1f54a1f50300f7900f7a00f7b00f7c00f7d00f7e00f7f00f8000f8100f8200f8300f8400f8500f8600f8700f8800f8900f8a))
  (.nd (.lf
  0x1d2891d2841d27a1d2761d2711d26d1d2671d2611d25b1d2551d24f1d2491d2431d23d1d2371d2311d22b1d2221d1fa1d1f41d1f01d1ea1d1e61d37f1d37a1d3701d36c1d3631d3451d3401d33b1d3361d3201d31c1d3081d3031d2fe1d2f51d2f01d2e91d2d61d2d11d2cd1d2c81d2c31d2be1d2b91d2191d2141d20f1d2081d2031d1df1d1771d1731d16e1d1691d1641d15f1d15a1d1551d1501d14b1d146)
  (.lf 0)))

def shaAndOrder25 : BTree :=
  .nd (.nd (.nd (.lf
  0xca9b0ca960ca910ca8c0ca870ca820ca5b0ca560ca510ca4c0ca470ca420ca3d0c9650c9460c9270c9070c8e70c8c70c8a60c8850c8630c8420c8220c8000c7df0c7bf0c79c0c77a0c7570c7320c70f0c6ee0c6ce0c6b20c6950d28e0d2890d2830d27e0d2790d2750d2700d26b0d2660d2610d25c0d2560d2520d24d0d2480d2430d23e0d2390d2330d22f0d22a0d2250d2200d21b0d2160cef80ced60ceb3)
  (.lf
  0x1ae2e1bcf41bcfe1bce51bcd81bcca1bcbc1bcad1bd111bc961bc881bc7d1bd1d1bc6f1bc621bd721bc541bc3f1bc451bc331bc261bc1d1bc131bc0b1bc011bbf81bbf21bc4d1b9f71b9ed1b89f1b8821b8921dde11ddc91dd3c1dd1a1dc751dc1e1dbe21dbbf1db801db711db3a1db1e1daf31dace1dab11da9f1da791da5a1da421da1d1d9fe1d9d41d9b21d9bb1d9a51d9931d99a1d90f1d92b1d8e91d8e1))
  (.nd (.lf
  0x53ce05ca905c9b05c8c05c7b05c6905c5905c4905c3805c2705c1605c0705bf705be605bd505bc605bb805baa05b9c05b8d05b7e05b6f05b5e05b4c05b3c05b2c05b1d05b0d05afe05af005ae00474004723046ff046df046c00469c0467c0465c0463c0461d045fa045d6045b60459604577045540453004510044f0044d0044b10448d0446e0444b0442704408043e5043c20439f0438005ca505c9605c87)
  (.lf 0))) (.nd (.nd (.lf
  0x161fb161ef161db160f2160d815cd015ccc15cc715cc215cbc15cb815cb315cae15ca915ca415ca015c9b15c9615c9015c8c15c8815c8315c7e15c7915c7415c6f15c6a15c3715c3215c2d15bc915baa15b8015b5c15b23164f0164eb164e6164e1164dc164d7164d2164cd164c8164c3164be164b9164b4164af164aa164a5164a01649b16496164911648c16487164821647d16478164721646d1646816463)
  (.lf 0)) (.nd (.lf
  0x12a6812ba212b9712b8c12b8112b7612b6b12b6012b5512b4a12b3f12b3412b2912b1e12b1312b0812afd12af212ae712adc12ad112ac612abb12ab012aa512a9a12a8f12a8412a7912a6e12a631282c12827128221281d12818128131280e1280912804127ff127fa127f5127f0127eb127e6127e1127dc127d7127d2127cd127c8127c3127be127b9127b4127af127aa127a5127a01279b1346b1346113456)
  (.lf 0)))

def shaAndOrder26 : BTree :=
  .nd (.nd (.nd (.lf
  0x157fd157da15c4a15c4515c4115bb415b8e15b6915b4e15b2715ad015acb15ac615ac115a9915a8115a2a15a2515a2015a1b15a1615a11159ea159c9159671595a1595515930158cd158bf157f3157d516630166201661c165ea165e6165dd165d9165b9165b516598165941658b16581165771656d16563165511654d165401653b1652c165231651b165161650816500164fb160de160c3160a016401163e1)
  (.lf
  0xc3170c3180c3190c31a0c31b0c31c0c31d0c31e0c31f0cc8e0cc8f0cc900cc910cc920cc930cc940cc950cce90cc960cc970cc980cc990cc9a0cced0cc9b0cc9c0cc9d0cc9e0cc9f0cca00cca10cca20cca30cca40cca50cca60cca70cca80cca90ccaa0d4170d4180d4190d41a0d41b0d41c0d42a0d3e90d3ea0d3eb0d3ec0d3ed0d3ee0d3b40d3b50d3b60d3b70d3b80d3b90d3940d3770d3780d3790d37a))
  (.nd (.lf
  0xa35f0a3500a3400a3310a3210a3120a4c90a49c0a47d0a4500a43f0a42e0a40f0a3e20a3990a36c0a34d0a32e0a18e0a1890a1840a17f0a17a0a1750a1700a16b0a1660a1610a15c0a1570a1520a14d0a1480a1430a13e0a1390a1340a12f0a12a0a1250a1200a11b0a1160a1110a10c0a1070a1020a0fd0a9130a90e0a9090a9040a8ff0a8fa0a8f50a8f00a8eb0a8e60a8e10a8dc0a8d70a8d20a8cd0a8c8)
  (.lf 0))) (.nd (.nd (.lf
  0x1a9921a98e1a9891a9841a97f1a9791a9731a96d1a9681a9621a95d1a9591a9541a94d1a9491a9431a93e1a91a1a8521a7ff1a7d61a7cf1a59a1a5961ab4b1ab471aa931aa821aa4b1aa441aa371a9bd1a9b71a91d1a7e71a7e31a4f01a4ec1a4e51a4e01a4db1a4d61a4d11a4cb1a4c71a43a1a4361a4311a42c1a4271a4221a41d1a4181a4101a40b1a4061a4021a3fd1a3cc1a3b11a3ab1a3a71a2fd1a2f9)
  (.lf
  0x2e6902e2602e0602dc302da302d8302c6e02c4e02c2e02c0e02bee02bab02b6802b25034c30348303440033da033ba0339a03311032f1032d10328e031e20317c0313903aca03a6403a4403a2403a04039e4039c4039a403984038d803895038520380f037cc037ac0378c04115040f8040b504095040520400f03fef03fcf03faf03f8f03f2903ee603e8003e1a03dfa03dda03dba03d9a03d7a0474404704))
  (.nd (.lf
  0x1848f1848b18485184801847c18477184731846d18469184651845f1845b18456184511844b18446184411843d18438184331842c18428184241841f18418184131840e1965e19659196491963e1963a19634196301962b1962619612195fe195ea195d9195cb195bd195ab19597195831956f1955b195491952919508194e8194ca194ae1947e193c3193be193b9196b4196ae196a9196a319656196521964e)
  (.lf 0)))

def shaAndOrder27 : BTree :=
  .nd (.nd (.nd (.lf
  0x3e7503e5603e3303e0f03def03dcf03daf03d8f03d6f03d4f04107040e7040c8040a40408404065040410402203ffe03fde03fbe03f9e03f7e03f5f03f3c03f1803ef903ed503eb603e9303e6f03e5003e2d03e0903de903dc903da903d8903d6903d490473b0471d046f9046d9046ba0469604676046560463604617045f4045d0045b004590045710454e0452a0450a044ea044ca044ab044870446804445)
  (.lf
  0xa5780ade40ade50ade60ade70ade80ade90adea0adeb0adec0aded0adee0adef0adf00adf10adf20adf30adf40adf50adf60adf70ad5a0ad5b0ad5c0ad5d0ad680ad200ad0c0ad0d0ad0e0ad0f0acf00acf10b49c0b49d0b49e0b49f0b4ab0b4770b4400b4410b4420b4430b4440b4200b4150b3ff0b4000b4010b4020b3e60b2e80b2cd0b2ce0b2cf0b2d00b2d10b2d20b2a80b27d0b27e0b27f0b2800b4d8))
  (.nd (.lf
  0x13f3013d3013b4013910136e0134b0132801304012e5012c20129f0127c012580123801219011f6011d302e8902e6c02e4c02e2a02e0902de902dc702da602d8602d6602d4402d2102cfe02cdb02cb802c9502c7202c5102c3102c1102bf102bd102baf02b8e02b6c02b4b02b2902b0802ae802aca02e4902de602d6302d4002d1d02cfa02cd702cb402c9102bce02b8b02b48029e4029df029da029d5029d0)
  (.lf 0))) (.nd (.nd (.lf
  0x1191912125121201211b12116121111210c12107120ff120fb120f4120f0120eb120e7120e2120dd120d8120d3120cf120ca120c5120c0120bb120b5120b1120ab120a7120a21209d12098120921241f12419124131240d1240912403123fd123f5123f1123ec123e6123e0123da123d4123cf123c7123c3123bd123b7123b1123ab123a51239f12399123931238f123711236d1234712325125c2125bc125b6)
  (.lf 0)) (.nd (.lf
  0xcf010cedf0cebe0ce9b0ce750777d07778077730776e07769077640775f0775a07755077500774b07746077410773c07737077320772d07728077230771e07719077140770f0770a0770507700076fb076f6076f1076ec0d1ea0d1d00d1b20d1930d1740d1550d1360d1170d0fa0d0dc0d0bf0d0a10d0830d0670d04b0d02e0d0110cff30cfd40cfb60cf970cf780cf5a0cf3c0cf1d0cefc0ceda0ceb90ce96)
  (.lf 0)))

def shaAndOrder28 : BTree :=
  .nd (.nd (.nd (.lf
  0x1ab6f1ab6b1ab421ab161ab001aae61aabf1aabb1aaa61aa6c1aa591aa4e1aa2c1aa231aa151aa0b1aa011a9f01a9e61a9dc1a9c91a9b01a92f1a92b1a85a1a7ea1a7df1a7c01a79a1a58d1acea1ace11acd91acd51acb81acb01acac1aca11ac9c1ac981ac851ac7d1ac721ac6a1ac611ac481ac3e1ac3a1ac321ac2e1ac2a1ac221ac191ac0f1ac071a80e1a80a1a8021a79f1a5a41b5641b5601b54a1b53a)
  (.lf
  0x151e4151d5151c2151b01519e1518d151841516d1515d1514e151451513715129151171510b150f9150ea150d714fd614f8d14f8214f4d14f4e14f2315c4e15c4f15c5015c3a15c3b15b9715b8315b5f15b2f15b3015b3115b3215b3315b3415a8f15a3415a3515a3615a3715a3815a39159e6159d615988159891598a1598b1598c1598d158711587216405164061640c163fb163e2163e3163e4163e5163e6))
  (.nd (.lf
  0xc2460c2290c20d0c1f00c1d30c1b30c1930c1730c1530c1310c10e0c0ed0c0cd0c0ad0c08b0c0680c0450c0240c0040bfe40bfc20bf9f0bf7e0bf5e0bf3c0bf190bef80bed80beb50c2430c20a0c1500c12d0c0aa0c0870c0640bfe10bfbe0bf5b0bf380bef50bed40bd4b0bd460bd410bd3c0bd370bd320bd2d0bd280bd230bd1e0bd190bd140bd0f0bd0a0bd050bd000bcfb0bcf60bcf10bcec0bce70bce2)
  (.lf 0))) (.nd (.nd (.lf
  0x1c52c1c5281c4641c43c1c42f1c42a1c4261c4201c41b1c4161c4111c40c1c4071c4021c3fe1c3f91c3f41c3ef1c2e81c2e41c2df1df5b1df551df501df4a1df451df3f1df3a1df361df2f1df2b1df261df211df1b1df151df0f1df091df021defe1def91def41deed1dee71dee31dede1deda1dda51dd4a1dcfa1dc901dc431e1ab1e1a61e19c1e17b1e09b1e0851e07e1e0771e0701e0491dfb41dfa91dfa5)
  (.lf
  0x140dd140d11403313ff813ff213fce13f0b13dc013dba13db71488d1487c14875148721484c14847148401482d14808147ff147ee147c3147bd147ac1479e14758147481466a1522815225152211521e151f0151df151bb151aa1518615147151391512b1510d150df14f9715beb15be615bb215b2a15aab15a9215a0815a05159fc159f0159ed159c41594d158c7158ba157ee162af162a31629c1629716257))
  (.nd (.lf
  0x1c0da1c0d41c0cc1c0c81c0c01c0761c06b1c05f1c0541c0471c03e1c0301bffd1bff41bff01bfe91bfe31bfdc1bfd61bfc71bfc21bfb81bf651bf521bf351b9e71b9e21b9dd1b9d81b9d31b9ce1b9c91b9c41b9bf1b9ba1b9b51b9b01b9ab1b9a61b9a11b99c1b9971b9921b98b1b97c1b9771b9711b96d1b9681b9621b95d1b9581b9531b94f1b94a1c3811c37b1c3741c36f1c3691c3611c35d1c3561c351)
  (.lf 0)))

def shaAndOrder29 : BTree :=
  .nd (.nd (.nd (.lf
  0x87bb087b7087b3087af087ab087a0087950878a092c7092c2092bd092b8092b3092300922b09227092220921d09218092130920e0920809204091ff091fa091ef091eb091cc091c6091c2091bd091b8091b3091aa08d4408d2008cfa08ccf091a6091a109198091920918e09189091840917e0917a091750916f0916b09166091610915c091560914f0914b09146091410913c09138091310912c0912809123)
  (.lf
  0x122f41309d130801306c12ff912fd812fcb12fb812f7912f1a12ebf12ed012e9d12e8612e5412e2c12e0512dfc12df212de812d8712d4b12d2612d0612cea12ccf12cb312c7112c5312c3812c1b12bfa12bcf1385e13845138151380b137df137a71378a1376e137431372c136f8136ef136e61369e1368a1367c136601364e1363913630135e4135bf135b5135a9135831357113555135241352513526134d0))
  (.nd (.lf
  0x43f2043cf043ac0438902e8202e6402e4502e2102e0102de202dbe02d9e02d7e02d5f02d3c02d1902cf602cd302cb002c8d02c6902c4902c2902c0902be902bca02ba602b8702b6302b4402b2002b0002ae402ac6047470472a04708046e7046c7046a50468404664046440462404602045df045be0459e0457e0455c0453904518044f8044d8044b8044960447504453044300440f043ed043ca043a704384)
  (.lf 0))) (.nd (.nd (.lf
  0x138a11389c13897138921388d13889138841387f1387913875138701386b13850138311382c137f0137b61379b1377e137541429b14296142911428c14287142821427d14278142731426e14269142641425f1425a14255142501424b14246142411423c14237142321422d14228142231421e14219142141420f1420a1472b147251471e14718147121470c1470614702146fb146f4146ef146e9146e3146dd)
  (.lf 0)) (.nd (.lf
  0xeece0eec30eeb7104a5104a01049b10496104911048c10487104821047d10478104731046e10469104641045f1045a10455104501044b10446104411043c10437104321042d10428104231041e1041910414106571064d10642106371062c10621106161060b10600105f5105ea105df105d4105c9105be105b2105a61059a1058e10582105761056b1056010554105491053e10533105281051d1051210653)
  (.lf 0)))

def shaAndOrder30 : BTree :=
  .nd (.nd (.nd (.lf
  0x10c9410b6610b1410b0f1186f1186a11865118601185b11856118511184c11847118421183d11838118331182e11829118241181f1181a11815118101180b1180611802116241160611601115d71156d114fa114de117f3117e2117d0117ca117c5117c0117bb117b6117b1117ab117a51171a11715116f1116e6116dd116d4116a9116981168311667116621165b1162b1160c115fe115dc11569114f3114d8)
  (.lf
  0x42a6042a7042a8042a9042aa042ab042ac042ad042ae042af042b0042b1042b2042b3042b4042b5042b6042b7042b8042b9042ba042bb042bc042bd042be048cf048d0048d1048d2048d3048d4048d5048d6048d7048d8048d9048da048db048dc048dd048de048df048e0048e1048e2048e3048e4048e5048e6048e7048e8048e9048ea048eb048ec048ed04f0704f0804f0904f0a04f0b04f0c04f0d04f0e))
  (.nd (.lf
  0x85100850b0850608501084fc084f7084f2084ed084e8084e3084de084d9084d4084cf084ca084c5084c0084bb084b6084b1084ac084a7084a20849d08498084930848e084890848408c4c08c4708c4208c3d08c3808c3308c2e08c2908c2408c1f08c1a08c1508c1008c0b08c0608c0108bfc08bf708bf208bed08be808be308bde08bd908bd408bcf08bca08bc508bc008bbb090da090b9090970907509051)
  (.lf 0))) (.nd (.nd (.lf
  0x1854918501184c9184c5184a8188eb188861883b18818187b61874f186d2186c91859a18516181cb181c6181c1181bc181b7181b2181ad181a8181a31819e18199181941818f1818b18184181801817b18177181711816d18168181631814f180911808c18087180811807d17fbf17f9718a3318a2e18a2818a2218a1e18a1918a1418a0f18a0a18a05189fd189f8189f4189f0189eb189e6189e2189de189d9)
  (.lf
  0x131d61065c193b513af30f26119c7e13e67114a61a56814c930fc921ae1f15552122db1b6ed15e2312bd31bf29166e4134731c2a616c2313d3b1c5f917292146131c95317d5414eed1cc9f1840a157b11cf3d18de8160691d1d8195e7167ec1d47319f84170a91d6221a7231797c2089f0037f0022807b6b074fd02478075f2066b602ab008ca4076e7030dc077dc06a090371809b5a078d103d40079c606e51))
  (.nd (.lf
  0x1605a1604f16044160391602e16023160181600d1600215ff715fec15fe115fd615fcb15fc015fb515faa15f9f15f9415f8915f7e15f7315f6815f5d15f5215f4715f3c15f3115f2616060160551604a1603f16034160291601e160131600815ffd15ff215fe715fdc15fd115fc615fbb15fb015fa515f9a15f8f15f8415f7915f6e15f6315f5815f4d15f4215f3715f2c15f2115eb915eb415eaf15eaa15ea5)
  (.lf 0)))

def shaAndOrder31 : BTree :=
  .nd (.nd (.nd (.lf
  0x20e1520e0120dfb20de820dd920dc820c8720c7c20c7820c6720a91208e700f5e00f3c00f1900ef500ed500eb500e9600e7200e5200e3300e1000dec00dcd00daa00d8700d6300d4400d2000d0000ce000cc100c9d00c7d00c5e00c3a00c1a00bfb00bd700bb700b9700f5900f3600f1300eef00ecf00eaf00e9000e6c00e4c00e2d00e0a00de600dc700da400d8100d5d00d3e00d1a00cfa00cda00cbb00c97)
  (.lf
  0x28ae02eba02ebb02ebc02ebd02ebe02ebf02ec002ec102ec202ec302ec402ec502ec602ec702ec802ec902eca02ecb02ecc02ecd02ece02ecf02ed002ed102ed202ed302ed402ed502ed602ed702ed802ed9034f7034f8034f9034fa034fb034fc034fd034fe034ff035000350103502035030350403505035060350703508035090350a0350b0350c0350d0350e0350f035100351103512035130351403515))
  (.nd (.lf
  0x13c00139e0137b013580133501312012f1012cf012ac0128901266012450122501203011e0000b5000b0000ab000a6000a10009c00097000920008d00088000830007e00079000740006f0006a00065000600005b00056000510004c00047000420003d00038000330002e0002900024015aa0158d0156b015480152701505014e4014c20149f0147c0145b0143b0141b013fb013db013bb013990137601353)
  (.lf 0))) (.nd (.nd (.lf
  0x10196101911018c10187101821017d10178100ed100e8100e4100df100da108dd108d8108d0108cc108c6108c0108b9108b4108ae108a4108a01089b10896108911088b10887107f0107ec107d0107c8107b6107b21071a10702106fe106f4106df106c4106c0106a21096c109651095f1095910954109501093910935109301092b1092510920108f3108ee108e610877107f5107d7107cd107c3107be10767)
  (.lf 0)) (.nd (.lf
  0x708b07080070750706a0705f070540704907183071780716d07162071570714c07141071360712b07120071150710a070ff070f4070e9070de070d3070c8070bd070b2070a70709c07091070860707b07070070650705a0704f070440acdd0acc30aca60ac890ac6b0ac4d0ac310ac160abf90abdd0abbf0aba00ab830ab670ab4b0ab2f0ab110aaf40aad60aab90aa9b0aa7f0aa640aa470aa290aa0b0a9ef)
  (.lf 0)))

def shaAndOrder32 : BTree :=
  .nd (.nd (.nd (.lf
  0x20ac220aa520a6520a3320a2e20a29209ab208a320a2220a1e20a1920a1520a1020a0b20a0620a00209fc209f7209f2209ec209e7209e2209dd209d9209d4207382034920345203412033c20337203322032c20328202da202a9202892027e201542014b2012d20128200fc200f2200ec200e7200e22006320046200422003d20039200342002d2001f1fe6e1fe401fe221fe1c1fdd71fdca1fdaa1fd691fd3f)
  (.lf
  0x6d3c06d2b06d1a06d0906cf806ce706cd606cc506cb406ca306c9206c8106c7006c5f06c4e06c3d06c2c06c1b06c0a06df106de106dd006dbf06dae06d9d06d8c06d7b06d6a06d5906d4806d3706d2606d1506d0406cf306ce206cd106cc006caf06c9e06c8d06c7c06c6b06c5a06c4906c3806c2706c1606c050a00b09fea09fc209f9b09f7309f4a09f2309efb09ed209ea909e8009e5909e3109e0a09de4))
  (.nd (.lf
  0xf9930f9780f96c0f95b0f94a0f93e0f92d0f9210f91a0f8f80ed670ed620ed5d0ed580ed530ed4e0ed490ed440ed3f0ed3a0ec3c0ec370ec320ec2d0ec280ec230ec1e0ec1a0ec150ec100ec0b0ec060ebe80ebca0ebc50ebc00ebbb0ebb60ebb10ebac0ff3d0ff1a0ff090fef90feea0fed90fec70feb50fea30fe930fe820fe700fe600fe4f0fe3d0fe2b0fe1b0fe0c0fdfd0fd310fd290fd230fd1d0fd14)
  (.lf 0))) (.nd (.nd (.lf
  0x20717207132070e206eb206e7206e3206d120214202102020b2020520200201fa201f6201ac201982018a2018620172209442093d207ec207e0207da207cc207c8207c2207be207ba207962077f206dd202cd202c7202c1202bb202b42029820272206912068c20687206822067d20678206732066f2066920665206602065b206552064d20647206432063e206362063220624205d1205cd205c9205c3205bd)
  (.lf
  0x209d0209c0209b5209a320875009a30099e00999009940098f0098a00985009800097b00976009710096c00967009620095d00958009530094e00949009440093f0093a00935009300092b00926009210091c0091700912006f1006e7006dc006d1006c6006bb006b0006a50069a0068f00684006790066e00663006580064d00642006370062c00621006160060b00600005f5005ea005df005d4005c9005be))
  (.nd (.lf
  0x3df003d3003c8005790053000511004d6004b70047c0045d0044c0043b0042a00419008eb008e6008e1008dc008d7008d2008cd008c8008c3008be008b9008b4008af008aa008a5008a00089b00896008910088c00887008820087d00878008730086e00869008640085f0085a00f6d00f4f00f2c00f0900ee800ec800ea800e8600e6500e4500e2300e0000ddf00dbd00d9a00d7700d5600d3400d1300cf3)
  (.lf 0)))

def shaAndOrder33 : BTree :=
  .nd (.nd (.nd (.lf
  0xfa0a0fa040f9ff0f9fa0f9f50f9f10f9ec0f9e60f9e10f9dc0f9d70f9d20f9ce0f9c50f8fe0f8d61030410300102fc102ae102a4102961022f1022a10224102201021c10217102121020d1020810203101fd101f90ffbb0ff9e0fdd50fdba0fda00fd8c0fd6e0fd520fd3c0fcf00fccc0fc9e10009100040ffff0fff90fff20ffee0ffe80ffe40ffdf0ffda0ffd40ffce0ffc80ffc40ffbf0ffb60ffae0ffa9)
  (.lf
  0x1d7601d7701d7801d7901d7a01d7b01d7c01d7d01d7e01d7f01d8001d8101d8201d8301d8401d8501d8601d8701d8801d8901d8a01d8b01d8c01d8d01d8e01d8f01d9001d9101d9201d9301d94023ae023af023b0023b1023b2023b3023b4023b5023b6023b7023b8023b9023ba023bb023bc023bd023be023bf023c0023c1023c2023c3023c4023c5023c6023c7023c8023c9023ca023cb023cc029e7029e8))
  (.nd (.lf
  0x7e3607e0707dda07daa07d7a07d4907d1b07ced07cbc07c88081e0081b0081800815108124080f4080c608098080690803a0800d07fdd07fad07f7e07f4f07f1e07ef007ec007e9007e6107e3207e0307dd607da607d7607d4507d1707ce907cb807c84081dd081ac08121080950800a07fd907f7b07f4b07eed07ebc07e5e07dd307da207d720650606501064fc064f7064f2064ed064e8064e3064de064d9)
  (.lf 0))) (.nd (.nd (.lf
  0x178311782c1782717822177f9177d9177931778e1771f17b9b17b9617b9117b8c17b8717b8317b7e17b7a17b7417b7017b6a17b6517b6117b5c17b5817b4c17ae017ad717acb17abe17aba17ab617ab217a07179f9179eb179e2179bd179b4179ae17ed817ed317ecc17ec817ec317ebe17eb917eb417eac17ea717ea217e9e17c5717c5317c4d17c4817c4217c3d17c3717c3217c2d17c2717c2317c1e17c0e)
  (.lf 0)) (.nd (.lf
  0x13e9e13e9913e9413e8f13e8a13e8513e8013e7b13e7613e7113e6c14ed414eca14ebf14eb414ea914e9e14e9314e8814e7d14e7214e6714e5c14e5114e4614e3b14e3014e2514e1a14e0f14e0414df914dee14de314dd814dcd14dc214db714dac14da114d9614ed014ec514eba14eaf14ea414e9914e8e14e8314e7814e6d14e6214e5714e4c14e4114e3614e2b14e2014e1514e0a14dff14df414de914dde)
  (.lf 0)))

def shaAndOrder34 : BTree :=
  .nd (.nd (.nd (.lf
  0x186df186931867c1864a18641185a11857a185411851d184f7184c2184ba19202191fe191e8191c1191a219195191901906a1901418fff18ff618fe118fd818f1818f0218ef218edc18ecc18ec218ebe18e7418e5018e4318e3e18d0818c5318c3e18bfc18b4718b2f191281911d190ac190a71909e1909619092190851907e1907a1901718fdd18f4c18f1518f1118f0c18eba18eaa18e8b18e8418e6d18e31)
  (.lf
  0x12028120291202a11fed11fee1208411fef11ff011ff111ff211ff311ff411ff511ff611ff711ff811ff911fa211fa311bf311bf411bf511bf611bf711ad711ac811ab311aa011a7f11a80128f1128f2128f3128f4128f5128f6128f7128ca128cb128b3128b4128ba1289d1289e12878128791287a1287b128be1287c1287d1287e1287f12880128461283812839123871236712343123201308c1308d1308e))
  (.nd (.lf
  0xb66a0b6650b6600b65b0b6560b6510b64c0b6470b6420b63d0b6380b6330b62e0b6290b6240b61f0b61a0b6150b6100b60b0b6060b6010b5fc0b5f70b5f20b5ed0b5e80b5e30b5de0ba2c0ba110b9f50b9d70b9b80b99b0b97f0b9640b9490b92d0b90f0b8f10b8d30b8b50b8970b87b0b8600b8430b8270b8090b7ec0b7d10b7b60b7990b77d0b7600b7440b7230b7020b6e20ba290ba0d0b9f10b9d30b9b4)
  (.lf 0))) (.nd (.nd (.lf
  0x1b5d01b5cc1b5c71b5c01b5bc1b5b81b5b31b5ae1b57d1b5791b5751b5361b47c1b44e1b44a1b3f61bec81bec21bebe1beb91beb31beaf1beab1bea61bea11be9c1be971be921be8d1be881be821be7d1be791be731be6e1be6a1be651be5f1be5b1be561be511be4c1be471be261be211be1b1c2461c2401c2381c2321c22e1c2281c2221c21c1c2161c2101c2091c2031c1fd1c1f81c1ee1c1ea1c1e61c1e0)
  (.lf
  0xd88e0d86e0d8480d82c0d8100d7f40d7d80d7bc0d7a10d7680d68b0d66b0e3ec0e3ac0e3650e2f30e2b50e29d0e1ed0e13d0e0f10e0d50e0ad0e0660e01f0dffd0dfdf0ebed0eaf30eaf00eae70eab10ea570ea4f0ea3b0ea200e99d0e9620e9380e9300e8f60e8360e82c0e8280f9a90f9a40f9980f98c0f9870f9820f97d0f9710f9650f9600f9540f94f0f9430f9350f9320f9260f9130f90f0ff260ff00))
  (.nd (.lf
  0x1ae591ae541ae4f1ae4a1ae441ae3f1ae391b11e1b1181b1121b10c1b1061b0ff1b0f81b0f41b0d41b0cc1b0c81b0c41b0be1b0b01b0ac1b0a01b0941b0881b0721b06a1b0631b0581afbf1afbb1afb71af981af771af531af351aeed1a90f1a90b1a9071a9021a8fe1a8f91a8f51a8f01a8eb1a8351a8301a82a1a8251a8211a81c1a7921a78d1a7881a7831a77e1a7791a7741a76f1a76a1a7651a7601a75b)
  (.lf 0)))

def shaAndOrder35 : BTree :=
  .nd (.nd (.nd (.lf
  0x5d4905d4505d3f05d3a05d3305d2f05d2b05d2605d2205d1d05d1805d1205d0e05d0805d0305cff05cea05cd205ccb05cc70638d06389063830637e06377063730636f0636a06366063600635b06355063510634c06347063430633d06338063320632e0632906324063200631a063150630f0630b0630606301062fd062f2062ed062e7062e3062de062d9062d5062d0062cb062c4062c0062bb062b6062b2)
  (.lf
  0xf8e41030f103101031110312102b4102b5102b61023f102401024110242102431024410245102461024710248102491024a1001b1001c0fde40fdc80fdaf0fd940fd7a0fd600fd490fcf60fce10fcae0fcaf10b9510b9610b9710b2e10a8b10a2610a27109f4109bf109c0109c1109c21097e1094710918109051087b1083a1083b1083c10809107e21078b1078c107711073e1073f106fa106d2106b310687))
  (.nd (.lf
  0x391e038fb038b80387503832037ef0364c03647036420363d03638036330362e03629036240361f0361a03615036100360b0360603601035fc035f7035f2035ed035e8035e3035de035d9035d4035cf035ca035c5035c0035bb0411c04100040e0040be0409d0407d0405b0403a0401803ff703fd703fb703f9703f7703f5503f3203f1103eef03ece03eac03e8903e6803e4603e2303e0203de203dc203da2)
  (.lf 0))) (.nd (.nd (.lf
  0x134ba134b6134b0134ac134a6134a01383a13835137fc137f4137631375f137591370d136cf136ca136c2136b8136701366b13665136201361c135f8135f3135ef13598135921358d13588135751355a134ff134fa134f5134f1137f9137871373a13722136db1369313643135ed135c71359c13502132bf132ba132b5132b0132ab132a5132a01329c13297132921328d13289132841327f1327a1327513270)
  (.lf 0)) (.nd (.lf
  0xe6bc0e6b00e6a40e6980e68c0e6800e6740e6680e65c0e6500e6420e6320e6210e6100e5ff0ee550ee500ee4b0ee460ee410ee3c0ee370ee320ee2d0ee280ee230ee1e0ee190ee140ee0f0ee0a0ee050ee000edfb0edf60edf10edec0ede70ede20eddd0edd80edd30edce0edc90edc40f75c0f74c0f73b0f7290f7180f7070f6f60f6e50f6d40f6c30f6b20f6a10f6900f67f0f66e0f65d0f64b0f6390f627)
  (.lf 0)))

def shaAndOrder36 : BTree :=
  .nd (.nd (.nd (.lf
  0x1e6a31e6951e6461e6221e61b1e6131e60b1e58b1e56a1e5511e91e1e8f51e8e41e8e01e8b81e8a31e8831e8761e8601e84f1e8461e8421e82c1e8281e81e1e8151e6f41e6ea1e6e11e4171e36b1e32d1e3061e2ee1e2d61e2c31e2b21e27e1e2521e2081edba1edab1ed9d1ed7c1ed651ed611ed0f1ece51ecd81ecd41eccd1ecbf1eca81ec891ec7c1ec5d1ec561ec521ec4e1ec461ec3e1ec3a1ebff1ebf7)
  (.lf
  0x1ac511ac351ac561ac5b1ac261ac1e1ac141ac0c1a8651a8111a8061a7f51a7aa1ac021b58b1b5071b4fb1b4b11b4a21b4631b43b1b42d1b3fe1b37e1b3581b38a1b3251b3041b2ee1b2e51b2bb1b2141b20d1b2061b1fd1b1c51b3ae1b0281b0181b0191b01f1b0091b0001af301af071be2c1be031be391bdef1bde11be111bdc21bdc61bdaa1bdb21bd971bd921bd851bd6a1bd5e1bd591bd631bd3d1bd3e))
  (.nd (.lf
  0xcc630cc5e0cc590cc540cc4f0cc4a0cc450cc400cc3b0cc360cc310cc2c0cc270cc220cc1d0cc180cc130cc0e0cc090cc040cbff0cbfa0d5d60d5d10d5cc0d5c70d5c20d5bd0d5b80d5b30d5ae0d5a90d5a40d59f0d59a0d5950d5900d58b0d5860d5810d57c0d5770d5720d56d0d5680d5630d55e0d5590d5540d54f0d54a0d5450d99f0d9820d9670d94d0d9300d9160d8ff0d8e20d8c00d89f0d8840d868)
  (.lf 0))) (.nd (.nd (.lf
  0x1e91a1e8c81eb891eb7b1eb751eb261eb121eb0d1eb081eb001e9931ed5a1ed521ed4e1ed481ed421ed3c1ed241ed0a1ecb51ecb01ec9f1ec9b1ec971ec931ec791ec751ec311ec2b1ec251ec1f1ec191ec131ec081ebfb1ebe11ebd71ebc91ebb81ebac1e78f1f2e11f2d71f2cc1f2691f2421f23e1f2361f2321f2291f2231f2181f1ec1f1e61f1de1f1da1f1d41f1d01f1b91f19f1f0b11f0a31f09d1f096)
  (.lf
  0x200561ffd31ffd01ffc71ffc41ffc11fe311fdb51fdb21fc911fc5220947207d4207b620799206f3202d8202d4202d12029420daf20d7d20d7920d6920d6520d3320d3020d2c20b8020b3420b2220ac5209b10085500a85010980169a01cdd023150294e02f79035b603bdd042070483604e6e053b80597305ef4064700847f089db0928d098ac0a0f80a68a0ae7e0b46c0bca70c3f50cbf50d4480dc250e2e7))
  (.nd (.lf
  0x1c7d51c7d11c7b31c7aa1c7891cdc51cdbf1cdb71cdaf1cdab1cda71cda11cd961cd921cd8e1cd891cd831cd7d1cd771cd6c1cd551cd4a1cd451cd381cd2b1cd081cd041ccfe1ccf61ccec1ccba1ccb41ccae1ccaa1cca41ce181ce131ce0e1ce091ce041cdff1cdfa1cdf51cdf01cddc1cdd71cdd21cdcd1cd731cd661cd611cd501cd3c1cd301cd261cd211cd151cd111ccf31cce51cce01ccdc1ccd11cccc)
  (.lf 0)))

def shaAndOrder37 : BTree :=
  .nd (.nd (.nd (.lf
  0xb4110b3f70b3f20b3ed0b3e30b3df0b2e20b2c30b2bf0b2ba0b2b50b2b00b2ab0b2a20b2720b26d0b2530b2430b3ad0b3a90b3a20b39e0b3990b3940b38f0b38b0b3870b3810b37d0b3780b3730b36e0b3690b3520b34c0b3480b3430b33e0b3390b3260b3120b30d0b3090b3040b2ff0b2fa0b2f60b2970bc590bc540bc4f0bc4a0bc450bc3c0bc2d0bbfd0bbf80bbf30bbee0bbe90bbe50bbc70bbc20bbbd)
  (.lf
  0x1798318961189461893b188fd18898188ce1885918823187ff187bc187aa1879b1876818743187291871d186d8186c4186b6186a61868918673185b618596185881856e1853d18510184ee184db184d3183ab1921919205191ed191d6191b51919a1919b190f6190401900b1905c1905318fe418f3f18f0618ef618efb18ed018ec818ed718eb018e5618e4a18e4b18e3a18d0418c5818c3a18be418b5518b2b))
  (.nd (.lf
  0x508f0507a05065050510503c050280501104ffc04fe704fd70522f0521c05206051c70519e051750515e05149051320511d050e0050b7050a20508b0506205039050240500d04f0404eff04efa04ef504ef004eeb04ee604ee104edc04ed704ed204ecd04ec804ec304ebe04eb904eb404eaf04eaa04ea504ea004e9b04e9604e9104e8c04e8704e8204e7d04e7804e73057230571605708056fa056ec056de)
  (.lf 0))) (.nd (.nd (.lf
  0x158811587b1586b158651585f15859158531584d15847158411583b158351582f15829158231581d15817158111580b1580515801157bc15bde15bda15bd515bd115bad159821597c15976159711596b15934159251591f15919159141590f1590a15904158ff158f7158f2158ed158e8158e2158dd158d8158d2158c3157ea157b815bef15b9115b8615b2e15ab515ab115aa815aa415a00159f7159c115960)
  (.lf 0)) (.nd (.lf
  0x9d6609d3e09d1709cef09cc609c9f09c7909c5309c2b09c0209bdb09bb309b8a0f4b10f4a60f49b0f4900f4850f47a0f46f0f4640f4590f44e0f4430f4380f42d0f4220f4170f40c0f4010f3f60f3eb0f3e00f3d50f3ca0f3bf0f3b40f3a90f39e0f3930f3880f37d0f37211cf411cef11cea11ce511ce011cdb11cd611cd111ccc11cc711cc211cbd11cb811cb311cae11ca911ca411c9f11c9a11c9511c90)
  (.lf 0)))

def shaAndOrder38 : BTree :=
  .nd (.nd (.nd (.lf
  0x142cd142c9142bc142b7142ae142a51406113f3713f1913e0f13e0613df913df413d8b141cf141c6141ba141b5141b0141a71418014174141701415f1415a14155141501413f1412a14126141211411c141141410f1405913feb13fdc13f2b13f0c13de713ddf13dd313dcf13d90149d6149c3149ba149a41495f1495b149421493e1492e14925149171490614902148f6148e9148de148da148ca148c0148b7)
  (.lf
  0x99bd099be099bf099c0099c1099c2099c3099c4099c5099c6099c7099c8099c9099ca099cb0a2790a27a0a27b0a27c0a27d0a27e0a27f0a2800a2810a2820a2830a2840a2850a2860a2870a2880a2280a21f0a2170a20f0a2070a1ff0a1f70a1ef0a1e70a1df0a1d70a1cf0a1c70a1be0a1b60a7be0a7bf0a7c00a7c10a7c20a7c30a7c40a7c50a7c60a7c70a7c80a7c90a7ca0a7cb0a7cc0a7cd0a7ce0a7cf))
  (.nd (.lf
  0x9a7609a7109ffa09fd509fad09f8609f5e09f3509f0e09ee609ebd09e9409e6b09e4409e1c09df509dcf09da709d8009d5a09d3209d0b09ce309cba09c9309c6d09c4709c1f09bf609bcf09ba709b7e09ff709fd109fa909f8209f5a09f3109f0a09ee209eb909e9009e6709e4009e1809df109dcb09da309d7c09d5609d2e09d0709cdf09cb609c8f09c6909c4309c1b09bf209bcb09ba309b7a09fce09f7f)
  (.lf 0))) (.nd (.nd (.lf
  0x19acf19aca19ac519abf19ab919ab419aaf19aab19aa719aa219a9d19a9819a9319a8e19a8919a8419a7f19a7a19a7419a2f19a1419fe719fe119fdd19fd819fd419fd019fcc19fc819fc419fbe19fb819fb219fad19fa719fa319f9f19f9919f9519f9119f8c19ea619ea219d6019d5a19d5519d4f19d4a19d4519d2019d1c1a3ea1a3b51a33c1a2b71a2b01a2ac1a2a81a1821a1571a1521a14c1a1461a141)
  (.lf
  0x190d319a111a3491acd01b4451bdd21dbfb1e1da1e8911ef481f4e61fc01200d220858003c100b7f011b20188b01e370246f02aa8030d30371003d37043610499004fc80554c05acd0604e07c660857908caa0944b09b600a30a0a9710b0570b6cd0bea10c67b0ce430d6340df7e0e5f00f82a0fc881066410ae0114ce11994122e612bc91349013d431464414eff157a816093167e9170ab17995183b218b1e))
  (.nd (.lf
  0x17aa617aa017a9c179ff179d1179cb179c7179b9179a71746a174651745f1745a17455174501744b17446174421743d17438174331742e17429174241741f1741a174151740e173ef173d0173b417390173711734f173281730d172ed172d0172b1183a0183951836f18369183631835b183571834b1833d18333183201831c1830c182c4182be182b8182b0182ac182a8182a21829c1829618292182871827b)
  (.lf 0)))

def shaAndOrder39 : BTree :=
  .nd (.nd (.nd (.lf
  0x2d7802d5902d3602d1302cf002ccd02caa02c8702c6302c4302c2302c0302be302bc402ba002b8102b5d02b3e02b1a02afa02ade02ac002e7802e5802e3902e1502df502dd602db202d9202d7202d5302d3002d0d02cea02cc702ca402c8102c5d02c3d02c1d02bfd02bdd02bbe02b9a02b7b02b5702b3802b1402af402ad802aba034ba0349c03478034590343503416033f3033cf033af0338f033700334d)
  (.lf
  0x63d0083d2083d3083d4083d5083d6083d7083d8083d9083da083db083dc083dd083de083df083e0083e1083e2083e3083e4083e5083e6083e7083e8083e9083ea083eb083340832d083220831908310082fc08935089360893708938089390893a0893b0893c0893d0893e0893f089400894108942089430894408945089460894708948089490894a08979088ab088a20889908890088870887e088750886c))
  (.nd (.lf
  0x1d2301d1e01d1901d1401d0f01d0a01d0501d0001cfb01cf601cf101cec01ce701ce202863028450282402802027df027be0279e0277c027590273602713026f0026cf026af0268f0266d0264c0262c0260c025ea025c9025a902589025670254402521024fe024db024ba0249a00f6300f4200f1f00efb00edb00ebb00e9c00e7800e5800e3900e1600df200dd300db000d8d00d6900d4a00d2600d0600ce6)
  (.lf 0))) (.nd (.nd (.lf
  0x11721116c9116c4116bf116ba116b5116b11169f1168c11653116451163c116201161c115f11151911511114ec114e71179b1178b1177f117781176611762117021167e116711163f115e5111721116e11169111641115f1115a111551114f1114b11146111401113c11135111301112b11125111201111b11117111121110d11108110931106811044110121100d1100810f9210f6711a4d11a4711a4211a3c)
  (.lf 0)) (.nd (.lf
  0xc0e00c0c00c09e0c07b0c0580c0370c0170bff70bfd50bfb20bf910bf710bf4f0bf2c0bf0b0bee90bec8075930758e07589075840757f0757a07575075700756b07566075610755c07557075520754d07548075430753e07539075340752f0752a07525075200751b07516075110750c07507075020c2680c24f0c2320c2160c1f90c1dd0c1c10c1a10c1810c1610c13f0c11c0c0fb0c0db0c0bb0c0990c076)
  (.lf 0)))

def shaAndOrder40 : BTree :=
  .nd (.nd (.nd (.lf
  0x200b2200a6200a22009e2000b200071ffff1fff71ffee1ffe41ffdf1fe5b1fe3c1fe121fe0e1fdcc1fdbf1fda61fd5e1fd341fd301fd221fce81fcad20c2820c2420c0a20bf020bec20be820a8b20a6c208c2208be208ba2083b20835207a6207832075320749207412062b2062020603205f8205e7205df205b92059d2056d2055b20504204ff209832097420962208b2208712084c208432082a2082020816)
  (.lf
  0x7d6607d3707d0a07cdc07cab081f6081cc0819b0816d0813f08110080e1080b408084080560802807ff907fc807f9a07f6a07f3a07f0b07edc07eab07e7d07e4d07e1f07df107dc207d9107d6107d3207d0507cd707ca60674c06747067420673d06738067330672e06729067240671f0671a06715067100670b0670606701066fc066f7066f2066ed066e8066e3066de066d9066d4066cf066ca066c5066c0))
  (.nd (.lf
  0xe0890e0420dfb70dcba0dcb50dcb00dcab0dca50dca10dc9c0dc970dc920dc8c0dc880dc830dc7e0dc790dc730dc6e0dc690dc640dc5f0dc5a0dc550dc4e0dc4a0dc460dc410dc3c0dc380dc330dc2e0dc290e5900e58b0e5860e5810e57b0e5770e5720e56d0e5680e5640e55e0e55a0e5550e5500e54b0e5460e5410e53c0e5370e5320e52d0e5280e5230e51e0e5190e5140e50f0e50a0e5050e5000e8ad)
  (.lf 0))) (.nd (.nd (.lf
  0x1f6c31f5531f4f91f9581f92f1f91f1f91a1f9161f90e1f90a1f9021f8f01f8ec1f8e51f8db1f8d71f8cb1f8a91f86d1f8671f7061f7001f6bc1f6a51f6a01f69b1f6971f6921f68d1f6881f6831f67d1f6771f6731f66f1f66a1f6651f65f1f65a1f6561f6511f64c1f6471f6411f63c1f6381f6331f62f1f3e81f3df1f3da1f34c1f33d1ff021fefc1fef41fef01feea1fee41fede1fed61fecc1feb41feaf)
  (.lf
  0xf8b00f8c00f8d00f8e00f8f00f9000f9100f9200f9300f9400f9500f9600f97007160071700718007190071a0071b0071c0071d0071e0071f007200072100722007230072400725007260072700728007290072a0072b0072c0072d0072e0072f0073000731007320073300734003600036100362003630036400365003660036700368003690036a0036b0036c0036d0036e0036f00370003710037200373))
  (.nd (.lf
  0x1d1411d13b1d1371d1321d12c1d1271d1221d11e1d11a1d1151d0f61d0e01d0cd1d0c81d0c41d0bf1d0ba1d0b61d0b11d5b61d5b21d58f1d56e1d56a1d5631d55f1d55a1d5521d54e1d5481d53e1d53a1d5311d5261d5181d5101d5051d4c61d4c21d4be1d4b91d4b41d4ae1d4aa1d4a41d4a01d4901d4881d4811d5bc1d5ab1d5a71d5a31d59f1d59b1d5961d5871d5821d57d1d5741d5411d5361d52d1d522)
  (.lf 0)))

def shaAndOrder41 : BTree :=
  .nd (.nd (.nd (.lf
  0xce8c0ce660d4130d40e0d40a0d4050d4000d3fb0d3e40d3df0d3db0d3d60d3d10d3cc0d3c70d3b00d3ab0d3a60d3a10d39c0d3970d38f0d3720d36d0d3690d3640d35f0d35a0d3560d2120ce900ce6c0dbef0dbea0dbe50dbe00dbaa0db900db8c0db870db820db730db6f0db640db450db410db3c0db370db2d0db280db080db030dafe0daf90daf40daef0d9ed0d9e80d6bc0d6990d6780d6570dae30dad6)
  (.lf
  0x1bf3e1e6021e62c1e5ee1e5eb1e5a61e59f1e5871e5931e5431e5201e5141e52b1e5011e4f71e4ea1e4ed1e4da1e4ce1e4c41e4c21e0661e0081dffa1dff31dfeb1deb51ddb61dd711dcf31dcb31dc4c1dc011e80c1e7f91e7ce1e7d61e7db1e7ef1e79a1e7a81e7921e7621e7721e7541e74a1e7401e7341e72c1e7221e7191e7101e7061e6a91e69c1e6a11e64b1e6261e6201e60f1e5c41e5901e5671e547))
  (.nd (.lf
  0x5c7605c6405c5405c4405c3305c2205c1105c0205bf205be105bd005bc105bb305ba505b9705b8805b7905b6a05b5905b4705b3705b2705b1805b0805af905aeb05adb05c8405c7205c5105c4005c2f05c1e05bff05bee05bdd05b6705b5505b3405b1505ae805a0905a04059ff059fa059f5059f0059eb059e6059e1059dc059d7059d2059cd059c8059c3059be059b9059b4059af059aa059a5059a00599b)
  (.lf 0))) (.nd (.nd (.lf
  0x1645e16bdd16bd816bd316bcd16bc516bbf16bbb16bb416baf16baa16ba516b2416b1c16afb16af716a5216a4c16a4416a4016a2a16a2516a201693e1692d16920169161690c16904168d6168ba16d6716d6216d5e16d5216d4a16d4516d2116ce416cde16cd916cd516cbd16b1116b0316af316aa116a9c16a9616a9216a8916a3916a34169a9169a21699d169981699416990168cb168c316dbc16d9116d56)
  (.lf 0)) (.nd (.lf
  0x1344b13440134351342a1341f1341413409133fe133f3133e8133dd133d2133c7133bc133b1133a61339b13390133851337a1336f13364133591334e13343133381332d134671345c13451134461343b13430134251341a1340f13404133f9133ee133e3133d8133cd133c2133b7133ac133a1133961338b13380133751336a1335f13354133491333e13333133281326c13267132621325d13258132531324e)
  (.lf 0)))

def shaAndOrder42 : BTree :=
  .nd (.nd (.nd (.lf
  0x163dd163d9163d4163cf163ca163c5163c0163ba163b6163b1163a51638c16387163821637d163721636d1635f1634f1634b163471633f163371632d163221631d163111630d16fc416fb616f6616f5016f4a16f2d16f2916f2516f0316efa16ef516ef116ee216ede16ed416ebf16ebb16eb616ea516e9c16e9816e8f16e86169e1169dc169d7169d316987168ed168cf16dc916dc416d9616d7016d6c16d3e)
  (.lf
  0xd37b0d37c0d38a0d3440d3450d3460d3470dae60dad90dada0dac10dac20dac30dac40dac50daa50da910da920da930da940da950da770da6c0da680da5b0da5c0da5d0da5e0da3d0da260da270da280da290da2a0da2b0da040d9f70d9e20e4130e4040e3ea0e3c40e3910e37d0e3470e3380e3000e2f10e2c20e2b30e29b0e2800e2600e2450e2460e1e80e1470e1260e0fe0e0e00e0b90e09d0e0730e056))
  (.nd (.lf
  0xa8c30a8be0a8b90a8b40a8af0a8aa0a8a50a8a00a89b0a8960a8910a88c0a8870a8820acd50acb80ac9c0ac7f0ac610ac430ac270ac0c0abef0abd20abb40ab950ab780ab5c0ab400ab240ab060aae90aacb0aaae0aa910aa750aa5a0aa3d0aa1f0aa010a9e50a9c70a9a80a9870acd20acb40ac980ac7b0ac5d0ac3f0ac230ac080abeb0abce0abb00ab910ab740ab580ab3c0ab200ab020aae50aac70aaaa)
  (.lf 0))) (.nd (.nd (.lf
  0x1a2a51a2881adbe1adb91adb41adaf1adaa1ada51ada01ad9b1ad961ad911ad8c1ad871ad821ad7d1ad771ad731ad6e1ad691ad641ad5f1ad5a1ad551ad501ad4c1ad461ad401ad3c1ad381ad331ad2e1b5831b4c81b4c21b4911b4571b4531b3d21b3c41b3b51b0ee1b0e81b0e11b0dc1b0b51b0a71b09b1b08d1b0841b07d1b06d1b05f1b03a1afce1afc81af9e1af7b1af581af4b1af171aefd1b4e01b4dc)
  (.lf
  0x46e4046a1046810466104641045db045bb0459b0453504515044f5044d5044920442c043a304d5c04d1904cd604c9304c7304c5304c3304bcd04bad04b8d04abe04a3504a15049f5049d5051ef051db051b00518705106050f4050cb050760504d0571c0570e05700056f2056e4056d6056c8056980564605625055f2055e3055d50556105ca205c9305c6005c0d05bcc05bbe05bb005ba205b9405b8505b76))
  (.nd (.lf
  0x196441961719603195ef195de195d0195c2195b01959c195881957d195601954e1952d19522194ec194e2194b2194a219438194221940a193f6193541934f1934b19346193411933c19335193311932d19328193231931e19318193141930f193091930419300192fb192f6192f1192ec192e6192e1192dd18dff18dfb18df618df218ded19e5219e4b19e4319e3d19e3919e3419e2f19e2b19e2319e1f19e18)
  (.lf 0)))

def shaAndOrder43 : BTree :=
  .nd (.nd (.nd (.lf
  0x442104402043df043bc043990437a0473604717046f3046d3046b40469004670046500463004611045ee045ca045aa0458a0456b045480452404504044e4044c4044a504481044620443f0441b043fc043d9043b6043930437404d7404d5104d3204d0e04cef04ccb04cac04c8804c6804c4804c2804c0904be604bc204ba204b8204b6304b4004b1d04afa04ad704ab304a9404a7104a4e04a2a04a0a049ea)
  (.lf
  0xb2810bc610bc620bc630bc640bc650bc410bc310bc060bc070bc080bc090bc0a0bcc50bbe00bbcd0bbce0bbcf0bbd00bc9c0bac90babe0baaa0baab0baac0baad0baae0baaf0ba5a0ba4a0ba4b0ba4c0ba4d0c4740c4750c47e0c45a0c49a0c4400c42a0c4140c3fe0c3ed0c3df0c3d40c3ca0c3c00c3b60c3ac0c3a20c3980c38d0c3830c3790c3700c3670c2fe0c2f50c2ec0c2e30c2da0c2d10c2c80c2bf))
  (.nd (.lf
  0x29cb029c6029c1029bc029b7029b2029ad029a8029a30299e02999029940298f0298a02985029800297b02976029710296c02967029620295d0295802953034ca034ae0348c0346b034490342803406033e3033c2033a203382033600333d0331a032f9032d9032b9032970327603254032310320e031eb031ca031a803185031640314203121030ff01bec01bd101bb301b9a01b7c01b6201b4901b2c01b0e)
  (.lf 0))) (.nd (.nd (.lf
  0x125b0125ab125a51259f1259a1259512538125321252d1248812484124801247b12476124711246c1245b12455124511244b12446124421242a124261235f1232b122eb125f4125ed125e7125de125d8125c812582125441253c124a31249c1249112430123781235611f9411f9011f8b11f8611f8111f7c11f7711f7111f6d11f6811f6211f5e11f5911f5311f4f11f4a11f4511f4011f3b11f3511f3111f2c)
  (.lf 0)) (.nd (.lf
  0xce700d9b30d9990d97c0d9610d9450d9280d90a0d8ee0d8d10d8b20d8930d8760d85a0d83e0d8220d8060d7ea0d7ce0d7b20d7970d77a0d75e0d7410d7230d7040d6e60d6c50d6a20d6810d661078720786d07868078630785e07859078540784f0784a07845078400783b07836078310782c07827078220781d07818078130780e0780907804077ff077fa077f5077f0077eb077e6077e10d9af0d9940d96b)
  (.lf 0)))

def shaAndOrder44 : BTree :=
  .nd (.nd (.nd (.lf
  0x1b5271b4201b4111b3f91b3a11b3911b3611b33f1b2ff1b2df1b2cf1b2c51b29a1b2321b2251b21b1b1c01b0511aff41aff01afe71af911af731af431af241aef91b5041b5001b4f71b49d1b45e1b43f1b4371b3fc1b3811b35d1b34f1b3211b2fb1b2ed1b2de1b2da1b2181b2101b2041b2001b1ca1b0551b02c1b0241b0141b0101b00c1b0041affc1af0a1bcf01bcec1bce01bcd41bcc51bcb81bca91bca5)
  (.lf
  0x163e7163e8163e9163a916390163911639216393163771637816364163541635516356163431633b1633116326163271631516319160ae16dcf16dcb16dac16d9a16d7b16d7516de116d3016d1616d0616cf216ccb16b9d16b8c16b8416b0616ad016ad116ab216aa616a8416a7716a6416a1116a05169fd169f7169d016984168ee168ef17814177e6177cb1775b177651770b17704176eb17693176e217671))
  (.nd (.lf
  0xbcdd0bcd80bcd30bcc00bcbb0bcb60bcb10bcac0c61d0c6180c6130c60e0c6090c6040c5ff0c5fa0c5f50c5f00c5eb0c5e60c5e10c5dc0c5d70c5d20c5cd0c5c80c5c30c5be0c5b90c5b40c5af0c5aa0c5a50c5a00c59b0c5960c5910c58c0ca270ca0d0c9f00c9d20c9b60c99b0c97f0c9610c9410c9210c9010c8e10c8c10c8a20c8800c85d0c83c0c81c0c7fa0c7d90c7b90c7970c7740c7510c72e0c70b)
  (.lf 0))) (.nd (.nd (.lf
  0x1ddbb1dcf71dfa21df9c1df981df931df8e1df891df831df7e1df791df751df701df6b1df651df611ded31dece1dec91dec41debf1ddfe1ddf91ddf51ddd51dd5a1dd141dca11dc281dbe81dbc51db921e40c1e4061e4001e3fa1e3f11e3eb1e3e61e3dc1e3d81e3ca1e3c11e3a51e3a01e3991e3951e3841e3731e36e1e3441e33e1e3391e3351e31e1e2dc1e2981e2911e28d1e2821e2631e1e21c8791c872)
  (.lf
  0x16250162441622f1621c161e5161551614416137161231611316106160be16da716d5a16d3316d0816ce916b7a16b7716abf16abc16ab916aac16a74169bd169ba169b6169ae17749176bc176b9176821767f176601765d175ee175d617594175721752d174f8174be174b7174b4180991809417f5117f4e17efa17ef617ef217ee117ce317cd017cc017c8117c7c17c7717c7417c6717c5d17bf51895a1893d))
  (.nd (.lf
  0x1c34b1c3451c33e1c3391c3311c32d1c3271c31f1c3181c3121c30d1c3091c3011c2fb1c2f71c2f01c2d61c2d21c2bc1c2b81c2b21c4d41c47e1c4771c4731c46e1c4681c45d1c4581c4531c44f1c44a1c4451c4401c4351c3cf1c3ca1c3c41c3be1c3ba1c3b51c3b01c3aa1c3a51c39f1c39a1c38f1c3891c2ce1c2c51c2af1c1d61c1d11c1ca1c1c51c1c01c1bb1c1b61c1b01c1aa1c1a61c1a11c19c1c197)
  (.lf 0)))

def shaAndOrder45 : BTree :=
  .nd (.nd (.nd (.lf
  0x911e091190911508ccb098e9098e5098e0098db098c4098c00986d09867098630985e0985909854098230981e0981a09815098100980b09807097ea097e4097e0097db097d6097d1097cd0974d09748097440967c097c7097b4097b0097370972f0972b097250971d09717097130970d0970909703096ec096e6096e2096da096d6096d2096c7096bc0969c096980969409689096850966a096550964609623)
  (.lf
  0x1348a143cd143e2143b9143a31438a143591435e1434c14336143261431a1430f14301142f6142f7142e5142d5142db142c3142c4142b2142aa1406613fd313f28142a113e0b13e0213dfb13dec13d9413d71149da149d1149bf149a9149631496f1497b149471493a1492a1491b1490b14912148fa148f2148eb148e1148ce148d4148c3148b1148a9148bc147b214786147771475f14751147331489c14656))
  (.nd (.lf
  0x4727046c404621045fe0457b04558044b5044720444f0440c043e9043c60429d04298042930428e04289042840427f0427a04275042700426b04266042610425c04257042520424d04248042430423e04239042340422f0422a04225042200421b04216042110420c04d8304d6504d4404d2204d0104cdf04cbe04c9c04c7b04c5b04c3b04c1b04bf904bd604bb504b9504b7504b5304b3004b0d04aea04ac7)
  (.lf 0))) (.nd (.nd (.lf
  0x146d7146d1146cb146c5146bd146b7146b1146ab146a7146a1146901468c1468614681146321462d148921486a148641485f1485914854148501483a148361482a148261481a1480f147f8147f2147e3147df147cf147cb147a01479a147921478e147891477d14768147431469814666146611488a14879148211481614804147e7147d4147ba147b51476d1469b1445e14459144541444f1444a1444514440)
  (.lf 0)) (.nd (.lf
  0x106481063d10632106271061c1061110606105fb105f0105e5105da105cf105c4105b9105ad105a110595105891057d10571105661055b1054f10544105391052e10523105181050d0f2570f24d0f2420f2370f22c0f2210f2160f20b0f2000f1f50f1ea0f1df0f1d40f1c90f1be0f1b30f1a80f19d0f1920f1870f17c0f1710f1660f15b0f1500f1450f13a0f12f0f1240f119090e1090c10909f0907d09059)
  (.lf 0)))

def shaAndOrder46 : BTree :=
  .nd (.nd (.nd (.lf
  0x11ee411edf11ece11e9b11e9611e9111e8c11e6d11e6911e1411e0f11e0911de211dd511dc711dbd11da511da011d7f11d7b11d6411d5911d5011d3f11d3a11d1f11d1b11a9611a7711a73120241201f1201a1201511fe911fe411fe011fdb11fd611fd111fcc11fc711fc211fbd11fb811fb311fae11fa911f9e11f9911bef11bea11be511be011bdb11ac111aae11a9d11a6911a641267d126781265b12657)
  (.lf
  0x4f0f04f1004f1104f1204f1304f1404f1504f1604f1704f1804f1904f1a04f1b04f1c04f1d04f1e04f1f04f2004f2104f2204f2304f2404f25052ea052eb052ec052ed052ee052ef052f0052f1052f2052f3052f4052f5052f6052f7052f8052f9052fa052fb052fc052fd052fe052ff05300053010530205303053040530505306053070530805a0c05a0d05a0e05a0f05a1005a1105a1205a1305a1405a15))
  (.nd (.lf
  0x902d0900908fe508fc108f9d08f7a08f5808f3608f1408ef208ece08ea908e8608e6408e4008e1b08df608dd308db008d8c08d6608d4008d1a08cf208cc5090d7090b509093090710904d090290900508fe108fbd08f9908f7608f5408f3208f1008eee08eca08ea508e8208e6008e3c08e1708df208dcf08dac08d8808d6208d3c08d1608cee08cc10906e09049090250900108fdd08fb908eeb08ec608e5d)
  (.lf 0))) (.nd (.nd (.lf
  0x189d3189ce189c9189c4189c0189ba189b5189b118917188c8188b018fa018f9a18f9418f8e18f8818f8218f7e18f7818f7218f6018f5b18f5618f5018f3218cf918cec18ce518cdf18cc618cc018cb618c9918c8518c6d18c6418c5c18c4118be718b3b18b18190741906f18fd618fd018fcb18fc518fbe18fb818fb418faf18faa18f6c18f6718f2e18d2918d2318d1c18d1818d1218d0d18ccb18ca118c92)
  (.lf
  0x43690f54c0a96b04999008ee0058600b8500b82018910188e024750247202aad02aaa030d9030d6037150371203d3d03d3a04366043630525b04fca057dc05732062f80605207c6e07c6c0884f0875f08cb208caf096760961d0a5390a4d80a9780a9750b2480b2340ba5f0b6d10c2980bea60ca5e0c67f0e8530e7800fc8f0fc8d106901066b10afe10af2119981199612bcc12bc81348e1348613d7413d6d))
  (.nd (.lf
  0x15ea015e9b15e9615e9115e8c15e8715e8215e7d15e7815e7315e6e15e6915e6415e5f15e5a15e5515e5015e4b15e4615e4115e3c15e3715e3215e2d15e28168a31689e16896168911688b16887168811687b168751686f1686916865168601685a168541684e16849168431683a168361682f1682b16826168201681a168141680f1680816804167fe16b6616b6216b5c16b5816b5416b4d16b4716b4216b3c)
  (.lf 0)))

def shaAndOrder47 : BTree :=
  .nd (.nd (.nd (.lf
  0xc7700c5800c3400c1400bf500bd100bb100b910159e015800155d015390151a014f6014d7014b4014910146d0144d0142d0140d013ed013cd013ae0138b013680134501322012fe012df012bc0129901276012520123201213011f0011cd015990157a015570153301514014f0014d1014ae0148b01467014470142701407013e7013c7013a801385013620133f0131c012f8012d9012b601293012700124c)
  (.lf
  0x351603b1e03b1f03b2003b2103b2203b2303b2403b2503b2603b2703b2803b2903b2a03b2b03b2c03b2d03b2e03b2f03b3003b3103b3203b3303b3403b3503b3603b3703b3803b3903b3a03b3b03b3c03b3d04148041490414a0414b0414c0414d0414e0414f041500415104152041530415404155041560415704158041590415a0415b0415c0415d0415e0415f04160041610416204163041640416504166))
  (.nd (.lf
  0x13300130d012ec012ca012a701284012610124001220011fe011db0158a0156701524014e1014be0149b013b801395013720134f0132c012e9012c6012a3012800121d011fa0112e01129011240111f0111a01115011100110b0110601101010fc010f7010f2010ed010e8010e3010de010d9010d4010cf010ca010c5010c0010bb010b6010b1010ac010a7010a20109d01888018830187e01879018740186f)
  (.lf 0))) (.nd (.nd (.lf
  0x107621075c107241071f106da106d0106b01067810b7a10a9f10a1610a1210987109831091d109091082c1078010731103b6103b1103ac103a7103a21039d10398103931038e10389103841037f1037a10375103701036c10367103621035d10357103531034e10349103441033f102e2102dd102d8102901028b110741106c10f1c10f1510f1010f0a10f0410f0010efa10ef410eb910e5910e5510e4910e29)
  (.lf 0)) (.nd (.lf
  0xa9d20a9b30a999072b4072af072aa072a5072a00729b07296072910728c07287072820727d07278072730726e07269072640725f0725a07255072500724b07246072410723c07237072320722d07228072230acd90acbe0aca10ac840ac660ac480ac2c0ac110abf40abd80abba0ab9b0ab7e0ab620ab460ab2a0ab0c0aaef0aad10aab40aa960aa7a0aa5f0aa420aa240aa060a9ea0a9cd0a9ae0a994081f3)
  (.lf 0)))

def shaAndOrder48 : BTree :=
  .nd (.nd (.nd (.lf
  0x20ec520ec020ebc20eb720eb220e0820df620de420dd220cc420cb520c9920c9420c9020a802092720ca720ca320c9f20c5e20c5920c4f20a76209122090d2090920904208ff208fa208f5208f020768207632075a206392061b2061720612205f0205ec205b32059920573205552053620531205a7205a3205812057c20564205212051c20517204672045320444204312042c2042720422203f2203e6203e2)
  (.lf
  0x9086090620903d0901908ff508fd108fad08f8b08f6908f4708f2508f0308edf08eba08e9708e7508e5108e2c08e0708de408dc008d9c08d7808d5408d2f08d0908cdf06b9406b8f06b8a06b8506b8006b7b06b7606b7106b6c06b6706b6206b5d06b5806b5306b4e06b4906b4406b3f06b3a06b3506b3006b2b06b2606b2106b1c06b1706b1206b0d06b0806b03090e4090c5090a3090810905d0903809014))
  (.nd (.lf
  0xea310e9900e9790e9260e8fa0e83d0e8320e4a20e49d0e4980e4930e48e0e4880e4840e47e0e47a0e4750e4700e46b0e4660e4600e45b0e4560e4500e44c0e4470e4420e43d0e4380e4330e42e0e42a0e3a60e3790e35c0e3320e3170ed350ed300ed2b0ed260ed210ed1c0ed170ed110ed0c0ed070ed030ecfe0ecf90ecf30ecee0ece90ece50ece00ecdb0ecd60ecd10eccc0ecc70ecc10ecbd0ecb80ecb3)
  (.lf 0))) (.nd (.nd (.lf
  0x1fe761fe6a1fe511fe2d1fdf51fdf01fd911fd8c1fd781fd6e1fd441fc881fc681fc4a1fc2a200892007a20069200531ffbe1fe5f1fe021fdfc1fd9f1fd621fcdd1fc8c1ff461ff411ff3c1ff361ff321ff2d1fbb71fbb21fbac1fba81fba21fb9d1fb981fb931fb8f1fb8a1fb841fb801fb7b1fb701fb6b1fb651fb611fb5b1fb571fb521fb4e1fb471fae31fade202632025f20258202532024d2024620242)
  (.lf
  0x9fb009fc009fd009fe009ff00a0000a0100a0200a0300a0400a05007f6007f7007f8007f9007fa007fb007fc007fd007fe007ff008000080100802008030080400805008060080700808008090080a0080b0080c0080d0080e0080f008100081100812008130081400815002dd002d8002d3002ce002c9002c4002bf002ba002b5002b0002ab002a6002a10029c00297002920028d00288002830027e00279))
  (.nd (.lf
  0x1d66b1d6671d6611d65b1d6551d64f1d6491d6371d6311d6291d6251d76e1d7691d7641d75e1d7591d7541d74f1d74a1d7451d7401d73b1d7361d7301d72b1d7261d7221d71d1d7191d7141d70f1d70a1d7051d7001d6fb1d6f61d6f11d6ec1d6e61d6451d63e005800057100562005540054600538005280051900509004fa004ec004de004ce004bf004af004a000492004840047400465004550044400433)
  (.lf 0)))

def shaAndOrder49 : BTree :=
  .nd (.nd (.nd (.lf
  0xe33c0e3040e2eb0e2c60e2a90e28d0e27d0e25d0e2420e23d0e1e50e1440e1230e0fb0e0dd0e0b60e09a0e0700e0530e0290e00c0dfe30dfbf0df970ebeb0eb190eb140eb0f0eb0a0eb050eb000eafb0ea600ea540ea490ea410ea350ea2b0ea270e99f0e98c0e9740e95c0e9350e92c0e90f0e8fe0e8ef0e8920e8890e8800e8770e86e0e8650ebdb0eb540eb4f0eb4a0eb450eb280eb230eb1e0ea870ea82)
  (.lf
  0x1efd71fb251fb111fb041fad21fac61faef1fb751faaa1fab41fa991faf61fb391f9cd1f9bd1f9b51f9fa1f9a41f99b1f98c1f9781f96f1f8d51f8be1f8871f8781fa701f7231f7211f6d71f5501f50b1f567204d9204c6204bc204ae204ed20589204932048220472204602053f2043c2054420407204182041f203ef203ac203af203982038e203832037a203722036e2035d203bd1fd1f1fd151fcbe1fca8))
  (.nd (.lf
  0x49f0049d0049b1062220621206203061f5061e7061d9061ca061b9061a706197061880617706166061570614706136061250611406103060f2060e3060d5060c7060b7060a806098060870607606066060580621f061c7061b506185061730615406143061320612106110060ff060c4060a5060940608305f8a05f8505f8005f7b05f7605f7105f6c05f6705f6205f5d05f5805f5305f4e05f4905f4405f3f)
  (.lf 0))) (.nd (.nd (.lf
  0x16dfe16df916df416df0173e5173d6173a2173801735d1733d1731f17300172dd172c41729d172801726917238172271721617204171fb171e2171d2171c2171b3171a01718c171801717c171491714117137170b8173f6173c1173a717382173671733b1732d172fd172e1172be172a217284172711723e1722d1721e17208171f6171e9171d7171c5171b8171a3171951718517177171721716d1716317128)
  (.lf 0)) (.nd (.lf
  0x13cb713cac13ca113c9613c8b13c8013c7513c6a13c5f13c5413c4913c3e13c3313c2813c1d13c1213c0713bfc13bf113b8913b8413b7f13b7a13b7513b7013b6b13b6613b6113b5c13b5713b5213b4d13b4813b4313b3e13b3913b3413b2f13b2a13b2513b2013b1b13b1613b1113b0c13b0713b0213afd13af814609145ff145f4145e9145de145d3145c8145bd145b2145a71459c14591145861457b14570)
  (.lf 0)))

def shaAndOrder50 : BTree :=
  .nd (.nd (.nd (.lf
  0x1765a176391762a175fc175e1175d3175af175a5175881756f1753d17536175191750d174e6174d5174cd174a61749e174821809c17f6517f5c17f5417f4b17f4517f4117f2e17f2a17f2617f2217f1e17dfd17df317de917de017dd617dcc17dc217db817dae17da517d9c17d9317d8a17d8117d7d17d7417d6b17d62180981806218026180211801c180161801217f1117f0d17f0917f0417eff17ce817cd4)
  (.lf
  0xfbca0f90b0f8e910028100291002a1002b1002c1002d1002e1002f100301003110032100331003410035100361003710038100391003a1003b1003c0ff280ff290ff2a0ff2b0ff2c0ff2d0ff2e0fcfa0fcfb0fcb410c2b10c3510c2c10b4010a9b10a7a10a7510a7010a6b10a6610a6110a5c10a5710a5210a4d10a4810881108591085a1084810810107fa107a71079f107971074f10747107121070a106b8))
  (.nd (.lf
  0xb18a0b1790b1680b1590b14b0b13b0b12a0b11b0b10d0b0ff0b0ef0b0e00b0d20b0c40b0b40b0a30b0940b0840b0730b064097c3097b9097ac097a7097a20979d09798097930978e09789097840977f0977a0977509770096ff096fa096f5096cd096c2096b8096b3096ae096a90968e096700965b0964c09642096310b2280b2180b2070b1f60b1e70b1d70b1c60b1b70b1a70b1960b1850b1740b1630b154)
  (.lf 0))) (.nd (.nd (.lf
  0x1ab8a1ab671ab3c1ab111aaf51aae11aace1aab41b6631b65e1b6581b6541b64f1b64a1b6451b6401b63a1b6361b6311b62c1b6271b6221b61d1b6181b6131b60e1b6091b6041b5ff1b5f81b5f41b5f01b5a81b51f1b51a1b4f41b4ef1b4ea1ba991ba951ba911ba8b1ba871ba811ba781ba731ba6e1ba691ba621ba5d1ba571ba501ba4b1ba451ba3f1ba3b1ba331ba2d1ba271ba201ba081ba021b8691b863)
  (.lf
  0x958a0957c0956e0953e0953009511094f2094e4094d6094c809487094790946b09ff409fa509f2d09e6309e1409dee09d9f09d7909d2a09cb209c8c09c6609bee0a4b80a4aa0a48b0a46c0a45e0a41d0a3fe0a3f00a3d10a3c30a3b50a3a70a3880a37a0a35b0a33c0acb00ac3b0ac200abe70ab8d0ab710ab550ab390aafe0aac30aa890aa6e0a9f90a9bf0b1f20b1c20b15f0b1510b1210b1130b1050b0e6))
  (.nd (.lf
  0x196f1196ec196e7196e2196dd196d8196d31969f1969a19695196901968b196201960c195fa1a73b1a6651a6601a6591a6541a64c1a6481a6421a63c1a6371a6331a62b1a6261a6201a5fa1a5f41a5ef1a5eb1a5e51a5df1a5da1a5d61a5cc1a5c61a5c11a5bd1a5b11a5ac1a5a81a5721a73a1a72a1a6d71a6d21a6c91a6c31a6bd1a6b71a6b11a6ab1a6a51a6a11a69c1a6971a6921a6891a6841a6801a67c)
  (.lf 0)))

def shaAndOrder51 : BTree :=
  .nd (.nd (.nd (.lf
  0x5202051ea051d6051c3051ad0519a05184051710515a051450512e0511905103050ef050dc050c6050b30509e05087050710505e0504805035050200500904ff304fe304fd30590d05904058fb058f2058e9058e0058d7058ce058c5058bc058b3058aa058a1058980584b05846058410583c05837058320582d05828058230581e05819058140580f0580a0580505800057d9057d4057cf057c9057c5057c0)
  (.lf
  0xd42f0dbf60dbf70dbf80dbf90dbaf0db9b0db9c0db9d0db9e0db9f0db760db690db4f0db500db510db520db530db2f0db120db130db140db150db160db170daeb0d9ef0d9c90d9ca0d9cb0d9cc0d9cd0d9ce0e4190e3f70e3dc0e3b80e39a0e36d0e3510e3270e30a0e2df0e2cc0e2a30e2930e2770e2660e2370e24e0e1df0e14d0e11d0e1040e0d80e0bf0e0950e0790e04d0e0320e0050dfec0dfc70dfa4))
  (.nd (.lf
  0x319f0315c031190300f0300a030050300002ffb02ff602ff102fec02fe702fe202fdd02fd802fd302fce02fc902fc402fbf02fba02fb502fb002fab02fa602fa102f9c02f9702f9202f8d02f8802f8302f7e03af103ad303ab203a9003a6d03a4c03a2c03a0c039ec039cc039ac0398c0396c0394a0392703904038e1038c00389e0387d0385b0383a03818037f7037d5037b4037940377203754037370221f)
  (.lf 0))) (.nd (.nd (.lf
  0x12be412be012bdc12bd61304b130411303912f6f12f6b12f6612f6212f0812efd12eaa12ea612e7112e4012e3212dde12dca12db512d9f12d6712d5512d3012d1312cf712cd912cbc12c8012c5f12c4312c2612c0812f5512f0d12edd12e1812dc112da412d4212cdd12c6812c2b1273d12738127331272e12729127241271f1271a12715127101270b1270612701126fc126f7126f2126ed126e8126e3126de)
  (.lf 0)) (.nd (.lf
  0x79440793f0793a07935079300792b07926079210791c07917079120790d0790807903078fe078f9078f4078ef078ea078e5078e0078db078d60df550df4a0df3f0df340df290df1e0df130df080defd0def20dee70dedc0ded10dec60debb0deb00dea50de9a0de8f0de840de790de6e0de630de580de4d0de410de350de290de1e0de130e7740e7690e75d0e7510e7450e7390e72d0e7210e7150e7090e6fd)
  (.lf 0)))

def shaAndOrder52 : BTree :=
  .nd (.nd (.nd (.lf
  0x1dad11daae1da971da801da4a1da391da221d9f31d9d81d9b61d9ad1d9a91d9a01d98e1d91c1d9011d8ed1d8e41dd811dd501dcca1dc6e1dc191dbd51dbce1db831db581db311db251daec1dac71daa71da871da7c1da521da2b1da0b1da011d9cf1d9731d96b1d9631d95a1d9521d9161d9121d8cc1d8c21e5f91e5da1e5d61e5c91e5a11e5961e56e1e5561e5351e5161e50b1e5031e4fa1e4e81e4e01e4d6)
  (.lf
  0x1874b1873418752186fa186ec186e31869f1868f1867818644185bd185a31857b1854618518184e9184be184ce1912d1912e19146190af190a3190dc1909b190d719086190871908818ffb1910a18f4718f2318f2918f1d18eb618e9818e9918e8018e7018e3318e2118e2518e1818e1918e6518bf718b4b18b3519a4319a4419a4519a4619a21199f8199f1199e4199e5199e61998e1999e199a619942198ff))
  (.nd (.lf
  0xc4c10c4bc0c4b70c4b20c4ad0c4a80c44d0c4370c4210c40b0cde50cde00cddb0cdd60cdd10cdcc0cdc70cdc20cdbd0cdb80cdb30cdae0cda90cda40cd9f0cd9a0cd950cd900cd8b0cd860cd810cd7c0cd770cd720cd6d0cd680cd630cd5e0cd590cd540d1e50d1ca0d1ac0d18d0d16e0d14f0d1300d1110d0f40d0d60d0b90d09c0d07e0d0610d0460d0280d00b0cfed0cfcf0cfb00cf910cf730cf550cf36)
  (.lf 0))) (.nd (.nd (.lf
  0x1e4431e4391e42f1e4281e35e1e3021e2e81e2bf1e2781e2561e6d61e6d01e6ca1e6c51e6bf1e6bb1e6b61e6b01e6ac1e68c1e6861e6821e67d1e6761e6701e66a1e6641e65e1e6591e6531e64d1e63d1e6381e5e61e5d21e5bd1e5b71e5841e5621e53d1ea961ea8e1ea881ea821ea7c1ea761ea701ea6a1ea621ea561e9f71e9f11e9eb1e9e51e9df1e9d91e9d31e9cd1e9c71e9c11e9bb1e9b41e9a91e969)
  (.lf
  0x1aa681aa261a9fc1a9f91a9f51a9c31a9c01a9b31a9271a8561a7c51a7a81b4d51b4ab1b3cf1b3721b30e1b2bf1b2b81b1f31b1e81b1bd1afdd1afd31af871af651bba71bb961bb7a1bb701bb5c1bb561bb421bb3d1bb331bb281bb231bb191b8be1dd211dc681dc141dbd11dba41db771db281daa11da831da251d9041d8bd1e1921e1651e09f1e0941e08f1e08a1e0421e03f1e03a1e02e1dfb91dfae1dd5e))
  (.nd (.lf
  0x1c7291c6cc1c6b61c6a31c6971c67c1c6731c66f1c6541c6491c62a1c6261c6211c5991c5941c58f1c58a1c5851c57f1c57b1c5761c5711c56c1c5671c5621c55e1c5211c51d1c5181c5131c50e1c5091c5041c4ff1c4fa1c4f41c4f01c4eb1c4cb1c4c61c4c01c4bc1c4b81ca4e1ca481ca431ca3a1ca361ca311ca2b1ca251ca1a1ca151ca111ca0d1ca061ca011c9fb1c9f51c9ed1c9e81c9e31c9db1c9d7)
  (.lf 0)))

def shaAndOrder53 : BTree :=
  .nd (.nd (.nd (.lf
  0xa6e70a6d10a6bb0a6a50a68f0a67e0a6700a6650a65b0a6510a6470a63d0a6330a5360a5310a52c0a5270a5220a51d0a5180a5130a50e0a5090a5040a4ff0a4fa0a62a0a6250a6200a61b0a6160a6110a60c0a6070a6020a5fd0a5f80a5f30a5ee0a5e90a5e40a5df0a5da0a5d50a5d00a5cb0a5c60a5c10a5bc0a5b70a5b20a5ad0a5a80a5a30a59e0a5990adcd0adc80adc30adbe0adb90adb40adaf0adaa)
  (.lf
  0x157c9166341664116623165f1165f2165e21660f165cc165bc1659f165a01658f165871657b1657216568165561655b16545165461653116528165371651f1650d1651216504164f6160e3160c8160aa1607216fd116fba16f6c16f5d16f5216f3216f9116f7e16f1b16f0016f0116f0716eed16ee516ed916ece16ec316ec416eab16ea116eb216e9416e8a169e8169e9169ea16a1b169cc16981168e5168e6))
  (.nd (.lf
  0x4a18049f8049d8049b804d7c04d3c04cf904cb604c1304bf004b6d04b4a04b2704b0404ae104a9e04a7b04a58048cc048c7048c2048bd048b8048b3048ae048a9048a40489f0489a04895048900488b04886048810487c04877048720486d04868048630485e04859048540484f0484a04845048400483b05236052250520f051f8051e3051cf051b9051a6051900517d05167051520513b051260510f050fc)
  (.lf 0))) (.nd (.nd (.lf
  0x15048150421503a1502f1501b1501714ff514fef14fe914fe314fdf14fae14faa14fa414fa014f6d14f6214ef614ef0150cf150c9150b3150a8150a31509e15098150931508e1508615059150541504e150351502915022150121500d150081500314ffc14fc614fc214fbd14fb814f7514f6814f2f14f2b14f031525215206151ce151991517615166151571511d150ff150ef14fda14a6214a5d14a5814a53)
  (.lf 0)) (.nd (.lf
  0x112b9112b4112af112aa112a5112a01129b11296112911128c11287112821127d11278112731126e11269112641125f1125a11255114981148e11483114781146d1146111455114491143d11431114251141a1140f11403113f8113ed113e2113d7113cc113c1113b6113ab113a0113951138a1137f11374113691135e1135311494114891147e11473114681145c1145011444114381142c11420114151140a)
  (.lf 0)))

def shaAndOrder54 : BTree :=
  .nd (.nd (.nd (.lf
  0x12ecb12eba12ea312e9812e5812e2712e0b12e0112df712ded12de312d5012d2a12d0a12cee12cd312cb712c7b12c5712c3c12c1f12bfe130671306212faf12faa12fa512fa012f5d12f1412ee512ee112e8e12e8112e4912e1f12dd612dbe12db012d9a12d7f12d3f12d1c12d0d12cf112cc512cab12c7412c4d12c3212c1112bf41383f138131380e137e3137aa1378e13771137471372f136fc136f3136ea)
  (.lf
  0x6515065160651706518065190651a0651b0651c0651d0651e0651f0652006521065220652306524065250652606527082f7082f0082e8082e0082d7082cf082c7082bf082b70826d0826e0826f082700827108272082730827408275082760827708278082790827a0827b0827c0827d0827e0827f08280082810828208af708af808af908afa08afb08afc08afd08afe08aff08b0008b0108b0208b0308b04))
  (.nd (.lf
  0x945706dee06ddd06dcc06dbb06daa06d9906d8806d7706d6606d5506d4406d3306d2206d1106d0006cef06cde06ccd06cbc06cab06c9a06c8906c7806c6706c5606c4506c3406c2306c1206c0109603095f5095e5095d6095c8095b8095a90959b0958d0957f0957109563095530954209533095250951509506094f6094e7094d9094cb094bd094ad0949c0948b0947c0946e0945e09452095f2095c509560)
  (.lf 0))) (.nd (.nd (.lf
  0x192941918b19187191821917d19177191731916e19168191641915d1915719152190f0190eb190e41975d19759197531974d197471973c19738197321972c19728197221971c1971519711195b6195a519591195761956619552195401950e194f0194d0194b6194851942919414193fc193e21986b198641985f1985a198561984f19848198431983e19838198331982f19829198241981f1981a198151980f)
  (.lf
  0x2a06030310366e03c95042bf048ee04f260530905a2b05fac065280828308b16093a9099cc0a19c0a7dd0ad360b2ee0bacf0c3200ccab0d3480d9e30df780e8b80f8ea0fcb51069310b19114cb119a11230612be9134da13d761464114f0d1587316090167f917120179a2183af18b1b193d819cf71a5651c61d1ae351c9511b87d1ccd51bf421dc051dc041e1f21e1ef1e89b1e8961ef531ef4d208e020514))
  (.nd (.lf
  0x17261171111710b17104170ff170fa170f4170f0170ea170e4170df170d8170d3170ce170c8170c2170bc173e0173c51739b1737a17360173411731717306172de172c8172a61728d172661724417233172221721117200171ef171de171cd171bc171ab171991715a171561714e171441713a1713116cb916cb416cae16caa16ca416c9e16c9a16c9416c8f16c8b16c8516c8116c7d16c7816c7316c6d16c69)
  (.lf 0)))

def shaAndOrder55 : BTree :=
  .nd (.nd (.nd (.lf
  0x221a021fc021d9021b60219202172021530212f02110020ec020cd020a90208a0206702043020240200101fdd01fbd01f9d01f7d01f5e01f3a01f1a01efb01ed701eb801e9501e7101e5202215021f6021d3021b00218c0216c0214d021290210a020e6020c7020a302084020610203d0201e01ffb01fd701fb701f9701f7701f5801f3401f1401ef501ed101eb201e8f01e6b01e4c028540283102812027ef)
  (.lf
  0x4dce054710545b054450542f0541905403053ed053d7053c1053b0053a2053970538d05382053780536e053640535a05350052e6052dc052d3052ca052c1052b8052af052a60529d052940528b052820525e059110590905900058f7058ee058e5058dc058d3058c9058c0058b7058ae058a50589c058600586105862058630586405865058660586705868058690586a0586b0586c0586d0586e0586f05870))
  (.nd (.lf
  0x16c2016bd016b8016b3016ae016a9016a40169f0222a0220e021ec021c9021a60218502165021430212202100020df020bd0209c0207a02057020360201401ff101fd001fb001f9001f7001f4e01f2d01f0d01eeb01eca01ea801e8501e64006ed006e2006d7006cc006c1006b6006ab006a0006950068a0067f00674006690065e00653006480063d00632006270061c0061100606005fb005f0005e5005da)
  (.lf 0))) (.nd (.nd (.lf
  0x10d7710d1c10d1410cea10ce110c7310c6f10c6610b5310aeb10ae61107910fe210fdc10f9d10ec410e7110e6d10dcd10da210d7410d5b10cf210cc810cbb10ca310c6a10c3b10c2810c2310c1e10c1910c1410c0f10c0a10c0510c0010bfb10bf610bf110bec10be710be210bdd10bd810bd310bce10bc810bc410bbf10bba10b3b10a9510a4310a37109fd109de111f8111f3111ee111e8111e4111df111da)
  (.lf 0)) (.nd (.lf
  0x8108080d9080ac0807c0804e0802007ff107fc007f9207f6207f3207f0307ed407ea307e7507e4507e1707de907dba07d8907d5907d2a07cfd07ccf07c9e0ba350ba1c0ba000b9e20b9c30b9a60b98a0b96e0b9530b9380b91a0b8fb0b8dd0b8bf0b8a10b8850b86a0b84d0b8310b8140b7f70b7db0b7c00b7a30b7870b76a0b74e0b7310b7110b6f10749e07499074940748f0748a07485074800747b07476)
  (.lf 0)))

def shaAndOrder56 : BTree :=
  .nd (.nd (.nd (.lf
  0x1f01a1ef6f1f58d1f5821f5761f5721f5131f4e91f4d61f4c01f4bc1f4931f48e1f47b1f4701f46c1f4651f4591f4521f44e1f44a1f43f1f4361f4291f4101f3fe1f3f21f3ee1f10a1f0fe1f0171efdb1fb1b1fb091fafc1faca1fabe1faba1faa51fa9c1fa8e1fa851fa781fa741f9c51f9b81f9ae1f9a71f99c1f9921f9871f9721f9691f8b91f88f1f8801f8721f71d1f70f1f6ca1f5401f50e1fd481fc7a)
  (.lf
  0x1dfe11dfd11dfd61dfc01de0e1ddaa1dd671dcee1dcba1dc591e9221e8f91e8eb1e93c1e8d61e8b11e8861e87a1e86c1e8531e84b1e8621e8381e82e1e8211e8181e6f81e6ed1e6e51e41d1e4541e3651e3281e2fd1e2f21e2d21e2c91e2b81e2721e25b1e1fe1efc31efb41efa21ef8f1ef831ef5a1ef401ef301ef381ef141ef221ef201efe91eef81eeef1eee21eed81eece1eff41eb5e1eb561eb361eb2f))
  (.nd (.lf
  0xd4cf0d4ca0d4c50d4c00d4bb0d4b60d4b10d4ac0d4a70d4a20d49d0d4980d4930d48e0d4890d4840d47f0d47a0d4750d4700d46b0d4660d4610d45c0d4570d4520d44d0ddb20ddad0dda70dda30dd9e0dd990dd940dd8f0dd890dd850dd800dd7b0dd760dd6f0dd6b0dd660dd610dd5c0dd570dd520dd4e0dd480dd440dd3f0dd3a0dd350dd300dd2b0dd260dd200e1b80e1b20e1ad0e1a80e1a20e19d0e197)
  (.lf 0))) (.nd (.nd (.lf
  0x1f0741f00f1ef791f2ae1f2aa1f29b1f2911f27c1f2781f2711f1541ee501ee481ee431ee3e1ee361ee321ee2e1ee291ee251ee1f1ee1a1ee151ee101ee0c1ee061ee021edfe1edf91edf41edef1edea1eddf1edda1edd41ed951ed781ed691ed361ed1e1ed061f8491f8431f83d1f8371f82e1f7f21f7ec1f7e81f7e11f7db1f7d41f7d01f7ca1f7c61f79e1f7981f7921f78c1f7871f77f1f76c1f7661f75b)
  (.lf
  0x179781824418af4193c919ca41a5631ae221b6f61bf2c1c2aa1c6191c94d1ccc31cf421d1da1d4791d62e20a432097b209662095b2088b208652084a208672082e2081e20811208af208332082c207a3207b02070b206ff206db203252031c2030e2030520301202ef202e5202f5202a3202a62028620279201622013d20156201162010c2011f200c9200ae200b7200ba200612001020004200221fff31ffe7))
  (.nd (.lf
  0x1d0d81d0d31d0891d0851d07f1d07b1d0761d0711d06c1d0681d0631d05c1d0551d0311d02a1d0231d01e1d01a1d0111d00d1d0081d0031cffe1cf6e1cf6a1cf511cf451cede1ced81ced41cecf1ceca1cec51cec01cebb1ceb51ceb01ceaa1cea61cea11ce9c1ce961ce921ce8c1ce881ce841ce7e1ce791ce741ce701ce6b1ce651ce611ce5c1ce571ce521ce4d1d2b31d2ad1d2a71d2a21d29c1d2931d28f)
  (.lf 0)))

def shaAndOrder57 : BTree :=
  .nd (.nd (.nd (.lf
  0xc3750c36c0c3630c2fa0c2f10c2e80c2df0c2d60c2cd0c2c40c2950c2900c28b0c2860c2810c27c0c1bd0c19d0c17d0c15d0c13b0c1180c0f70c0d70c0b70c0950c0720c04f0c02e0c00e0bfee0bfcc0bfa90bf880bf680bf460bf230bf020bee00bebf0cb8f0cb860cb7d0cb740cb6b0cb620cb590cb500cb470cb3e0cb350cb2c0cb230cb1a0cb110cb080caff0caf60cab90cab40caaf0caaa0caa50caa0)
  (.lf
  0x19cf21ab731ab801ab5b1ab301ab051aaea1aad51aac21aaaa1aa9a1aa661aa541aa3e1aa321aa1e1aa111aa051aa711a9ea1a9e11a9cd1a9d51a9ab1a9341a93a1a8621a7f11a7fb1a7ca1a7a51a5891a55d1b5921b5681b5511b5401b52d1b46f1b4161b4051b3ec1b3961b3691b3a61b3461b30a1b2d41b2c91b2b31b2941b2351b21f1b22c1b1bb1b04c1aff81afeb1afb11af8d1af6b1af471af291af02))
  (.nd (.lf
  0x568d0567d0566c0565b0564a0563a056290561905608055f6055e6055d8055ca055ba055a90559805587055760556505554056ba056a90568a056790566805657056370561605604055c7055b6055a5055940558305572054e8054e3054de054d9054d4054cf054ca054c5054c0054bb054b6054b1054ac054a7054a20549d05498054930548e05489054840547f05469054520543c0542605410053fa053e4)
  (.lf 0))) (.nd (.nd (.lf
  0x161bb161b7161b2161ab161a4161a01619a161961618f1618a161841617e16178161721616c16166161601615a1614c1613c1612c1611c1610c160fc160ea160d0160b7162851627f1627a162741626f1626a162651625f1625b162401623b162351622b162261620e1620916203161f4161e8161de161d21614816131161281611816101160f7160d4160cb160b2162b6162aa162911628a1624b1622416217)
  (.lf 0)) (.nd (.lf
  0x121ba121ae121a3121981218d0f7550f7430f7320f7200f70f0f6fe0f6ed0f6dc0f6cb0f6ba0f6a90f6980f6870f6760f6650f6540f6420f6300f61e0f60c0f5fa0f5e80f5d60f5c40f5b20f5a10f58f0f57d0f56c0f55b12ba612b9c12b9112b8612b7b12b7012b6512b5a12b4f12b4412b3912b2e12b2312b1812b0d12b0212af712aec12ae112ad612acb12ac012ab512aaa12a9f12a9412a8912a7e12a73)
  (.lf 0)))

def shaAndOrder58 : BTree :=
  .nd (.nd (.nd (.lf
  0x153211531d14f8014f4414f4014f131525815249152401523315210151f6151e8151d2151c6151b8151a2151911517b1517115161151521513d1512f151211511415103150f6150e6150dc14fd214f8a14f7a14f3914f3514f2015c5815c0415bfb15bcd15b9415b7315b4615b1b15afd15af815aea15add15ad415a8b15a7115a6315a5f15a5b15a5015a47159e2159d3159bd159b4159a31599e1594915940)
  (.lf
  0xb35b0b32a0b3160b3350b32f0b3170b3180b3190b31a0b2ec0b2ed0bb8d0bb8e0bb8f0bb900bb910bb920bb930bb940bb950bba90bb4e0bb4f0bb500bb510bb520bb340bb1d0bb1e0bb1f0bb200bb210bb220bafa0bae70bae20baf10baec0bad90bacd0badd0bace0c3010c3020c3030c3040c3050c3060c3070c3080c3090c30a0c30b0c30c0c30d0c30e0c30f0c3100c3110c3120c3130c3140c3150c316))
  (.nd (.lf
  0xa3a10a3910a3820a3740a3640a3550a3450a3360a3260a31708af408aef08aea08ae508ae008adb08ad608ad108acc08ac708ac208abd08ab808ab308aae08aa908aa408a9f08a9a08a9508a9008a8b08a8608a8108a7c0882e087a60879b087900876b0a4cc0a4bc0a4ad0a49f0a48f0a4800a4700a4610a4530a4430a4320a4210a4120a4020a3f30a3e50a3d50a3c60a3b80a3aa0a39c0a38c0a37d0a36f)
  (.lf 0))) (.nd (.nd (.lf
  0x1a4ba1a4b31a4af1a4aa1a4a61a4a11a49c1a4971a4911a48d1a4881a4841a47e1a47a1a4751a4711a46c1a4671a4621a45d1a4581a4531a44e1a3e31a3a11a39c1a3971a3831a8e31a8de1a8d51a8d11a8cd1a8c81a8c21a8bc1a8b41a8af1a8ab1a8a61a8a01a8971a88d1a8881a8841a87f1a87a1a8751a8701a86a1a8471a8431a83f1a83b1a7b91a7b01a59f1a5901ab281ab241ab1f1a9a31a99e1a998)
  (.lf
  0xdf700d6e00d2b00d0b00ceb00ca800c8800c4500c2500be200bc2015a7015440150101478014580143801418013f8013d8013090125d0123d01bb801b8101b6701b1301abf01a8801a17019c3019520191b01901022230219d0217d0213a020f7020b40204e01fe801fc801fa801f8801f4501f2501ee201e7c0283c027d6027b6026e7026c7026a7026640264402624025e1025c1025a1024d2024b202e86))
  (.nd (.lf
  0x17e0718c1f18c1918c1018c0c18c0818c0218bf118beb18bcc18bc718bc218bba18bb618bb118bac18ba418ba018b9a18b9418b8e18b8918b8318b7b18b7718b7118b6c18b6518b6018b5a18afa18d8318d7d18d7718d7318d6d18d6718d6118d5b18d5518d4d18d4818d4318d3918d3218d2d18cf418ce818cd818cb018cac18ca718c9618c8a18c8118c6918c6018c2718c2218b0318af71849f1849b18494)
  (.lf 0)))

def shaAndOrder59 : BTree :=
  .nd (.nd (.nd (.lf
  0x38cd038ae0388a0386b038470382803804037e5037c1037a10378203763037450372803add03ab903a9a03a7703a5303a3303a13039f3039d3039b3039930397303954039310390e038eb038c7038a803884038650384103822037fe037df037bb0379b0377c0375d0373f037220410c040ed040ce040aa0408a0406b04047040280400403fe403fc403fa403f8403f6503f4203f1e03eff03edb03ebc03e99)
  (.lf
  0x975d0a0390a03a0a03b0a03c0a03d0a03e0a03f0a0400a0410a0420a0430a0440a0450a0460a0470a0480a0490a04a0a04b0a04c0a04d0a04e0a04f0a0500a0510a0520a0530a0540a0550a0560a0570a0580a7440a72d0a7170a7010a6eb0a6d50a6bf0a6a90a6930a6820a6740a6690a65f0a6550a64b0a6410a6370a56a0a56b0a56c0a56d0a56e0a56f0a5700a5710a5720a5730a5740a5750a5760a577))
  (.nd (.lf
  0x237e02379023740236f0236a02365023600235b02356023510234c02347023420233d02338023330232e02329023240231f0231a02e8d02e7102e5102e2f02e0e02dee02dcc02dab02d8b02d6b02d4902d2602d0302ce002cbd02c9a02c7702c5602c3602c1602bf602bd602bb402b9302b7102b5002b2e02b0d02aed02acf015a301586015630153f01520014fc014dd014ba0149701473014530143301413)
  (.lf 0))) (.nd (.nd (.lf
  0x11b7f11b7811b6f11b6611b5b11b5111b4611b3c11b3311b2811b1c11b1011b0611afd11af211ae611adc11acd11ab811aa411a8611a5811bd211bc011bb511bab11b6311b4e11b3011b2211b1811af711aed11ad411aa811e5411e4e11e4811e4211e3c11e3611e3011e2a11e0211dfc11df611df011dec11dd011dcc11d9911d9511d9011d8c11d7311d6811d5d11d3011d2a11d1011d0c11d03119221191e)
  (.lf 0)) (.nd (.lf
  0x761f0761a07615076100760b0760607601075fc075f70ca2b0ca120c9f50c9d70c9bb0c9a00c9850c9690c94b0c92b0c90b0c8eb0c8cb0c8ab0c88a0c8670c8460c8260c8040c7e30c7c30c7a10c77e0c75b0c7380c7150c6f40c6d40c6b60c6990d1ee0d1d50d1b70d1980d1790d15a0d13b0d11c0d0ff0d0e10d0c40d0a60d0880d06c0d0500d0330d0160cff80cfd90cfbb0cf9c0cf7d0cf5f0cf410cf22)
  (.lf 0)))

def shaAndOrder60 : BTree :=
  .nd (.nd (.nd (.lf
  0x194511944c194441943c1a3be1a3651a3271a3011a2d11a2c41a29e1a28f1a2791a2281a20f1a1de1a1c41a1bc1a19f1a19b1a1911a10e1a0df1a0ba1a0a519ec419e8719e7319dc619db019da019d8919d3419d0d1a3bc1a3541a3231a31a1a2cd1a2c01a2541a24f1a22f1a22a1a1fc1a1e11a1c71a1af1a16d1a15e1a11b1a0fb1a0f01a0e71a0c819eb519e8a19e6419dc119db819d9919d7a19d3819d12)
  (.lf
  0x141ab14184141781417c1416314164141651416614143141371413b1412b1412c1412d141151405c1402b13fef13fd813f3013f1313de313ddb13dd513dc813db114ba814ba014b6714b5e14b5014b5114b3514b3614b1714afe14af714af814b0b14adf14b2414ace14aca14ab814ab914b1e14aba14aa114a8614a8714a9314a8814a8914a6b1473e14674146501525b1524c152441523c152351520c151f8))
  (.nd (.lf
  0xb4e70b4e20b4dd0be430be3e0be390be340be2f0be2a0be250be200be1b0be160be110be0c0be070be020bdfd0bdf80bdf30bdee0bde90bde40bddf0bdda0bdd50bdd00bdcb0bdc60bdc10bdbc0bdb70bdb20c2640c24a0c22d0c2110c1f40c1d70c1b70c1970c1770c1570c1350c1120c0f10c0d10c0b10c08f0c06c0c0490c0280c0080bfe80bfc60bfa30bf820bf620bf400bf1d0befc0bedc0beb90c261)
  (.lf 0))) (.nd (.nd (.lf
  0x1d7f11d7ec1d7e81d7e31d7de1d7d91d7d21d7cd1d7c81d7c41d7c01d7bc1d7b71d7b21d7ad1d7a81d7a31d79e1d7991d7941d78f1d78a1d7851d7801d77b1deaa1dea51de9f1de991de931de8d1de871de821de7c1de761de701de6a1de651de5f1de591de541de4e1de481de421de3c1de361de301de2a1de241de1e1ddbf1dd4c1dd011dc951dc3d1c5591c5541c54e1c54a1c5461c5411c53b1c5371c530)
  (.lf
  0x11b7511b6c11b5611b4211b3911b0b11b0311ae011ac6125e3125d0125cd1257a12540124b5124b2124af124ac124a71249f12495124611232f1305e1305a12f9b12f9712f9212f8f12eae12e7c12e7812e4c12dd112d9112d7a12d1812cfe12cc212ca612c4812c151385513803137dc137a3137671373d136d41369713678136741365213632135b7135a51356d135511350c1350814101140f3140ee140e6))
  (.nd (.lf
  0x1b2891b2841b27f1b27a1b2751b2701b26b1b2661b2611b25c1b2561b2521b24d1b2481b2431b23e1b1ac1b1a81b1a21b19e1b1991b1941b18f1b18a1b1861b1811b17c1b1761b1721c14f1c1471c13e1c1271c0b81c0b21c0ac1c0a61c0861c07e1c07a1c0701c0641c0581c04c1c03a1c0361c02b1bfae1bfa81bfa21bf9c1bf981bf8e1bf881bf7e1bf781bf711bf5b1bf4d1c14c1c1421c12f1c0e21c0de)
  (.lf 0)))

def shaAndOrder61 : BTree :=
  .nd (.nd (.nd (.lf
  0x823d08238082330822e08229082240821f0821a082150821007cc207c8e0891c08917089120890d0890808903088fe088f9088f4088ef088ea088e5088e0088db088d6088d1088cc088c7088c2088bd088b8088b3088af088a60889d088940888b0888208879088700884d08847088410883b08827088210881b088150880f0880908803087fd087f7087f1087eb087e5087df087d9087d3087cd087c7087c1)
  (.lf
  0x114c611ee911eea11ed411ea311ea411ea511ea611e8011e7011e1c11e1d11e1e11e1f11de711ddb11dc211daa11dab11db411d8611d7811d6a11d5511d4611d4711d4811d2411d1711a9911a7c11a6f1199e12682126831266a1265e1269b1262e126481262f1261412608125871257712563125641254e125161251712522124fd124fe124ee124e2124e3124d5124c9124671243b123841235c1233e1231b))
  (.nd (.lf
  0x403203f6f03f4c03f0903ec603ea303e6003e3d03c7303c6e03c6903c6403c5f03c5a03c5503c5003c4b03c4603c4103c3c03c3703c3203c2d03c2803c2303c1e03c1903c1403c0f03c0a03c0503c0003bfb03bf603bf103bec03be703be20474b0472f0470d046ec046cc046aa0468904669046490462904607045e4045c3045a304583045610453e0451d044fd044dd044bd0449b0447a044580443504414)
  (.lf 0))) (.nd (.nd (.lf
  0x13f4813f3e13f3a13f1c13f0013d6713d5f13d5b13d5514106140c5140bf140ba140b5140b0140aa140a51409f1409a14092140861407d14071140221401c14017140111400b1400713ffd13fe613fe113f3413f1013dad13da713da213d9d13d98140f7140e1140d8140961408b1408114077140531404d1404614040140371402e13fca13dcc138d4138cf138ca138c5138c0138bc138b6138b1138ac138a7)
  (.lf 0)) (.nd (.lf
  0xeeff0eef40eee90eede0eed30eec80eebc081e9081bc0818b0815d0812f08100080d1080a408074080460801807fe907fb807f8a07f5a07f2a07efb07ecc07e9b07e6d07e3d07e0f07de107db207d8107d5107d2207cf507cc707c960effb0eff00efe50efda0efcf0efc40efb90efae0efa30ef980ef8d0ef820ef770ef6b0ef600ef550ef4a0ef3f0ef340ef280ef1c0ef100ef050eefa0eeef0eee40eed9)
  (.lf 0)))

def shaAndOrder62 : BTree :=
  .nd (.nd (.nd (.lf
  0x107a31079b107531074b107161070e106af1069c1109a110581104710fff10fd010fc010f9610f5b10f5110eda10eab10e9710e8210e4510e2210df910de810db410d8e10d6d10d3e10d3810cf910ccf10cac10c8710c8110b5b10afb10af61107e1102f1101d10fec10fac10fa410f7d10f5e10f2810ec910eb210e8a10e7510e3810e1610dff10ddb10daa10d8210d6310d5010d4b10cf610cda10ca910c99)
  (.lf
  0x36530365403655036560365703658036590365a0365b0365c0365d0365e0365f036600366103662036630366403665036660366703668036690366a0366b0366c0366d03c7603c7703c7803c7903c7a03c7b03c7c03c7d03c7e03c7f03c8003c8103c8203c8303c8403c8503c8603c8703c8803c8903c8a03c8b03c8c03c8d03c8e03c8f03c9003c9103c9203c9303c94042a0042a1042a2042a3042a4042a5))
  (.nd (.lf
  0x68b8068a7068960688506874068630685206841068300681f0680e067fd067ec067db067ca067b90874c0873c0872b0871c0870c086fb086ea086d9086c8086b9086a908698086870867608665086560864808638086290861b0860d085fd085ec085db085ca085bb085ad0859f085910858108749087380871908708086f7086e6086d5086b6086a5086940868308672086450860a085f9085e8085d708515)
  (.lf 0))) (.nd (.nd (.lf
  0x180d1180cc180c8180c2180ad18075180701806c180671863c186341862e1862a1861b18616186101860818604185fe185fa185f6185f0185e7185e2185de185d8185d3185cd185c9185c4185a81855a18556185291852418520184fd183171825e189221891e188ed188e41884f1884b1883e187ef187eb18786187801877b1875b1870818703186ff186621865e18659186541864f185681855f185521854d)
  (.lf
  0x1d8b81bf6d1bf3a1e51e1e1fa1e1f51fc281fc0a1fc08204fc2026e200d907c7207c6f07c64105040b6c7067af0be9b08cb408ca8113450c67506bf70ce3d09b6809b5e121840d62e0876312a5a0de0a0a96f1331f0e5e90962c13be80edbf0b6cb144bd0eead0be9f14d881040f0c679156470f10b0ce4115f18112500d632167e60f3690df6b170ae11c5e0e5ed179760f76e0f5501822b127960f01118aef))
  (.nd (.lf
  0x1566b15660156551578f15784157791576e15763157581574d15742157371572c15721157161570b15700156f5156ea156df156d4156c9156be156b3156a81569d15692156871567c15671156661565b15650155e8155e3155de155d9155d4155cf155ca155c5155c0155bb155b6155b1155ac155a7155a21559d15598155931558e15589155841557f1557a15575155701556b15566155611555c1555716064)
  (.lf 0)))

def shaAndOrder63 : BTree :=
  .nd (.nd (.nd (.lf
  0x1efde20d1520d0f20d0b20d0620d0220cfd20cf620cef20cea20ce620ce220cdc20cd720cd320ccf20ccb20b1b20b1520b1020b0c20b0520b0120afd20aab20a682099d2098a20957208b62086220dc020d7520d6d20d4e20d4820d3920d2420b6620b5820b5320b3a20a9b20a5b209c8209c420e7e20e7920e7520e6f20e6920e6120e5d20e5720e4d20e4920e4520e4120e3a20e3420e2920e2520e2120e19)
  (.lf
  0x1c3d022560225702258022590225a0225b0225c0225d0225e0225f022600226102262022630226402265022660226702268022690226a0226b0226c0226d0226e0226f0227002271022720227302274022750288f028900289102892028930289402895028960289702898028990289a0289b0289c0289d0289e0289f028a0028a1028a2028a3028a4028a5028a6028a7028a8028a9028aa028ab028ac028ad))
  (.nd (.lf
  0xc4900c2800c0800be600bc500ba500f6600f4600f2300ea000e3d00e1a00dd700db400d9100d4e00ccb00c6800c0500b1b00b1600b1100b0c00b0700b0200afd00af800af300aee00ae900ae400adf00ada00ad500ad000acb00ac600ac100abc00ab700ab200aad00aa800aa300a9e00a9900a9400a8f00a8a015ae01592015700154d0152c0150a014e9014c7014a40148101460014400142001400013e0)
  (.lf 0))) (.nd (.nd (.lf
  0xfcda0fca90ff120fee60fed00fec10fead0fe8d0fe7a0fe560fe460fe340fdea0fdc50fd910fcc9102f4102f0102ea102e6102a81029d101f41017210166101621015e10158101521014c10146101420ff920ff8c0ff880ff820fc240fc200fc1a0fc150fc110fc0c0fc070fbaa0fba50fba0101eb101e7101e2101dd101d8101d4101cf101cb101c6101c1101bc101b7101b3101ad101a8101a41019f1019a)
  (.lf 0)) (.nd (.lf
  0x9d1b09cf309cca09ca309c7d09c5709c2f09c0609bdf09bb709b8e06ee706ee206edd06ed806ed306ece06ec906ec406ebf06eba06eb506eb006eab06ea606ea106e9c06e9706e9206e8d06e8806e8306e7e06e7906e7406e6f06e6a06e6506e6006e5b06e56071870717d07172071670715c07151071460713b07130071250711a0710f07104070f9070ee070e3070d8070cd070c2070b7070ac070a107096)
  (.lf 0)))

/-- The AND gates in the order in which they are packed: 20 bits each, 64 per leaf. -/
def shaAndOrder : BTree :=
  .nd (.nd (.nd (.nd (.nd (.nd (shaAndOrder0) (shaAndOrder1)) (.nd (shaAndOrder2) (shaAndOrder3))) (.nd (.nd (shaAndOrder4) (shaAndOrder5)) (.nd (shaAndOrder6)
  (shaAndOrder7)))) (.nd (.nd (.nd (shaAndOrder8) (shaAndOrder9)) (.nd (shaAndOrder10) (shaAndOrder11))) (.nd (.nd (shaAndOrder12) (shaAndOrder13)) (.nd
  (shaAndOrder14) (shaAndOrder15))))) (.nd (.nd (.nd (.nd (shaAndOrder16) (shaAndOrder17)) (.nd (shaAndOrder18) (shaAndOrder19))) (.nd (.nd (shaAndOrder20)
  (shaAndOrder21)) (.nd (shaAndOrder22) (shaAndOrder23)))) (.nd (.nd (.nd (shaAndOrder24) (shaAndOrder25)) (.nd (shaAndOrder26) (shaAndOrder27))) (.nd (.nd
  (shaAndOrder28) (shaAndOrder29)) (.nd (shaAndOrder30) (shaAndOrder31)))))) (.nd (.nd (.nd (.nd (.nd (shaAndOrder32) (shaAndOrder33)) (.nd (shaAndOrder34)
  (shaAndOrder35))) (.nd (.nd (shaAndOrder36) (shaAndOrder37)) (.nd (shaAndOrder38) (shaAndOrder39)))) (.nd (.nd (.nd (shaAndOrder40) (shaAndOrder41)) (.nd
  (shaAndOrder42) (shaAndOrder43))) (.nd (.nd (shaAndOrder44) (shaAndOrder45)) (.nd (shaAndOrder46) (shaAndOrder47))))) (.nd (.nd (.nd (.nd (shaAndOrder48)
  (shaAndOrder49)) (.nd (shaAndOrder50) (shaAndOrder51))) (.nd (.nd (shaAndOrder52) (shaAndOrder53)) (.nd (shaAndOrder54) (shaAndOrder55)))) (.nd (.nd (.nd
  (shaAndOrder56) (shaAndOrder57)) (.nd (shaAndOrder58) (shaAndOrder59))) (.nd (.nd (shaAndOrder60) (shaAndOrder61)) (.nd (shaAndOrder62) (shaAndOrder63))))))

def shaInvReads0 : BTree :=
  .nd (.nd (.nd (.lf
  0x3b20c3c3503c33c3c32a3c2d03c1343c1003c0fa3c0e43c0d63c0883bf603bf4e3bb7a3bac03b9883c9423c93c3c9303c9243c8b83c8a03c87e3c8703c85a3c84c3c6083c6023c5ce3c57c3c4b03c3f84010e400f0400d03ffb23fcc23fc663fbfc3fba43fac83f9be3f9263f8a84127e40fdc40fca40fb840fac40f9440f8840f8240f7840f7240f0c40efc405ba40598405884058040574405644052e404e0)
  (.lf
  0x164441642216400163c2163a016362163401631e162fc162da162801625e161e8161721615016112160f0160ba1747c173d6173981724617208171cc1719017154170ac1703a16f5816ee616e7416db8184ea184801840e1829a182541814e18108180c217fbc17f7617eb017e6a17de417da217d461947019406193ca19130190ea1902418f5e18f1818ed218e8c18e4618d881a3ee1a3801a3421a3041a2c6))
  (.nd (.lf
  0x3c90e3c8ec3c7ee3c7ae3c7643c71e3c6ee3c6fc3c6483c5c43c5463c53c3c4da3c49e3c3d03c3da3d5803d54c3d5283d4c03d49a3d4543d4483d4363d43a3d2e63d2263e5cc3e4c23e4ca3e4a63e4603e40c3e4003e3f43e18a3e1b03f0be3f0ae3f0323f01c3f0103f0043effa3ef7a3ef643ef5a3ef883ef0c3eef23eee43eec23ee823ee903f0c43edfa3ee143ed7c3e9fc3fe523fe543fe203fd923fd58)
  (.lf
  0x281ea281be281a62811a28106280f2280aa2809e28090280842807c2806c27ff427e2e27b842c5622c54a2c5182c4b22c48c2c43c2c3fa2c3e22c3ce2c2ae2c1b42c1802db762dab82da762da702da142d7022d6fc2d5822d4de2d3802d3622efbe2eeac2ee962ed7e2ec1e2ec142ebe42eb1e2eae82eab02ea522e9f42e90e3222a320663205a3204831fe831fda31dda31dd431dcc31d4231d2031cfe31b34)))
  (.nd (.nd (.lf
  0x13d1c13cca13c2c13b4213a58139ba1396813832137e013742136f015964158f2158b61587a157d21575c1571e156001558a155161546e15432153f6153821a34c1a30e1a2d01a2921a2541a2161a1a01a12c1a0f01a04419fce19f9219f5419f1619eda19e9e19e6019e1e19dd619cb41b3241b2441b2061b19c1b15e1b1201aed41ae621ae241ade81ada61ad601ad1a1c7dc1c75c1c6d61c63a1c5ea1c56e)
  (.lf
  0x5666055a80699e069220689c06816067d0066ca066840663e06538064b20646c06426063e00635a063140628e06208061aa075ec075b00752a074e40729e0725807212071cc07146070c00703a06fb406eee06eb208186080c00803a07eb407e6e07de807d6207d1c07c9607c5007a7208e2408d5e08c1808bd208acc08a8608940088ba08874087ee087a8087620871c086e009ad409a4e099c809942097fc))
  (.nd (.lf
  0x2690a28212281862815c28144281982811228192280e82804a2803e2804c280282801c2800027e4427b5427ad82912a290d0290ba2903e2902428fec28fb628fa228f3028f2828ede28e5c28c8c28c6c2a1a42a19a2a1362a1182a0a42a0702a05a2a04a2a02a29f9a29f9829f9629f0a29ef02b7c22b7c62b30e2b2fe2b2f22b2dc2b26e2b2462b2382b20e2b1f42b1ca2b2542b2562afa02af862c57e2c504)
  (.lf
  0xad400a4200a040098e00950008da0089c0087a00858008360081401e9001e4a01e0401cfe01c3801bf201b6c01b2601ae001a5a019540188e017c8037ae0377403706036640362a035bc0358203514034a60346c03432033c40338a0331c032e2032a80323a031980507c04ff604fb004eea04ea404e5e04e1804dd204ccc04bc604ac004a7a04a34049ee049a805c5005b8a05a8405a3e059f8059b20596c)))

def shaInvReads1 : BTree :=
  .nd (.nd (.nd (.lf
  0x24a842496e2494224936249142484a246b02466225e1e25dbe25db825ba625b4c25b2625a5a25988258ba2582e29106290f029036290142900628fac28f8a28f7228f5e28eb428cd82a4a22a3fa2a37a2a3102a2d02a2b22a2922a21e2a1e22a1c229f322b7da2b7102b6c62b6582b5682b5602b54c2b5282b3fe2b3ea2b2c42b2be2b1922febe2fdd42fdce2f9d62f9be2f9842f90a2f7ee311103110831034)
  (.lf
  0xb59e0c4580c4380c3880c3640c3040c2e00c2a20c2800c25e0c23c0c21a0c1f80c1820c1440c1220c1000c0c810406103b4103521023c101241000e0ffac0fef00fe900fdd40fd720fcb60fba00fb3e0fade0f8d010eaa10e8c10e6a10e2c10e0a10de810dc610da410d6610d4410d2210d0010cde10c8410c0e10bec10bca10ba810b1610afe120d61208c1204411ffc11fb411f6c11dd011d8611cb411c6a))
  (.nd (.lf
  0x31f9031f8631f7431ede31e7231a7c31a4c31a3c31a2a3199e31994317bc330cc330a433098330a8330783305a330263301a3300e32a6832a32329f0329803283232806346a234578345663430a342a034296342b6341f0341823415e3412e33cbe33adc33ae433a50339da3568c356423534c35328352fa352ec352e03529e3528e3523e34fb634fa834b0834ab0369c43692e368b6367ae367803667036696)
  (.lf
  0x1035c102fc101e4100ce0ffb60ff560fe9a0fe380fd7c0fd1c0fc600fb480fae80fa86149741491a148dc14882148601483e14800147a614714146ba1467c1463e1642c1640a163e8163aa163881634a1632816306162e4162c21626816246161d01615a16138160fa160d8173a21736417212171d61719a1715e171221707a1700616f2616eb416e3a1844e183dc1825e1821818112180cc1808617f8017f3a)))
  (.nd (.nd (.lf
  0x24be023f8023b2043ca043840433e04278041f20416c040e6040a00401a03fd403e8e03dc803d4203cfc0759807512074cc0728607240071fa071b40712e070a80702206f9c08e0c08d4608c0008bba08ab408a6e08928088a20885c087d6087900874a09abc09a36099b00992a097e40979e09698096520960c095c609580094fa094b40946e0ad560ad340acf60acd40acb20ac900ac4e0ac0c0abe80ab70)
  (.lf
  0x3ed843eaae41b6241ae441ad841a9441a8a41a6e41704416ca416aa4168241672414c0413944138e4136600aec00a5a00a1c009a600968008f2008b400892008700084e0082c007d2007ba01ea801e6201e1c01d1601c5001c0a01b8401b3e01af801a720196c018a6017e00170202b6602aea02aa402a1e02998029520290c0274602700026ba026740262e025a8025620251c024d602410023ca0238402368))
  (.nd (.lf
  0x1f1681f1e61f1221f1181f1e41f0ce1f1e21f09a1f0841f1de1f1e01f1901f1a01fe1c1fdc41fd981fd7a1fd561fd121fcec1fca81fc841fc601ff2e1fb6a1fb021f98e1f914212c6212ba212d62127c21250211f0211ec211d020fb220ebe20e5020dcc20d92220f621fc821eae21e6c21d8c21cd821cd621b9e21b4221a4c21a36219e021996218ee218f0218f8216ae215da22eb822ea422e8022e7622e56)
  (.lf 0)))

def shaInvReads2 : BTree :=
  .nd (.nd (.nd (.lf
  0x30fa230f4c30e7030d9630d7430b18309d0332ea332ca332c4332b6332443322c3314e33126330f832a3c329fc329c032934356943552a35524355023548c354723546c353763536c350b034fcc34fc4377523774437732377203770a376fa376d6376c6376bc376a23769037672376543763e371563712c3bb203ba663b90a3b6543b5ca3b5863b5463b48e3b44e3b3d23b2983b28a3b27e3b2783b2643b214)
  (.lf
  0x11c2011b9211b4a11b02119d01197e12bde12b8412aba12a9812a3e12a001296e1294c1292a128d0128b813f9613ef813ea613e0813db613d6413d1213c7413b8a13aa013a02139b01387a138281378a13738136e6136c41498c14932148f41489a148781485614818147be1472c146d21469414656146201599815924158e8158ac15804157901575215634155be15548154a01546415428153b61537815344))
  (.nd (.lf
  0x3663a3655a363c6363c43608e35f4c35e7e35dea376243760c37602375e4375f2375f6375bc375a8375983758c3756e3757237438370de370a036e4c36e10370ea3b1643b1523b13a3b0fe3b0e83b0de3b0ce3b0ae3b0a63b08c3b0863b0763b0683b05e3b04c3b29e3b0523b16c37e723beb23bebc3be9a3be843be683be3c3be323be263be1a3be0e3bdd83bde03bc0c3bb3c3b9ce3b9503b8903c94e3c91c)
  (.lf
  0x17e7417e2e17dac17d66193d419398190f4190ae18fe818f2218edc18e9618e5018e0a1d5c41d5be1d4cc1d4b21d47c1d4601d2f61d2c81d2261d1f21d0701d0601fe061fda41fd861fd621fd3a1fcf81fcd81fc901fc6c1fc4e1fbc41fb5a1faf01f94e237862377c2376423710236b02368823648236342361a235de235c4235962352626fe626ed226e4a26dba26dac26d0a26c6826b9226b7226b36269a8)))
  (.nd (.nd (.lf
  0xab4e0ab2c0ab0a0aae80aac60b8e80b8c40b8840b8620b8400b81e0b7e00b7be0b79c0b6ae0b68a0b64a0b60c0b5b210e7410e5210e1410df210dd010dae10d8c10d4e10d2c10d0a10ce810cc610c6c10bf610bd410bb210b90120961204e1200611fbe11f7611f2e11d9011d4611c7411c2a11be011b5411b0c11ac012bc612b6c12aa212a8012a26129e812956129341291213f4e13eb013e5e13dc013d6e)
  (.lf
  0x37ec037ba03780037120367003636035c80358e03520034b2034780343e033d00339603328032ee032b403246031a40311a043e20439c04356042900420a04184040fe040b80403203fec03ea603de003d5a03d1403c8e03c72050940500e04fc804f0204ebc04e7604e3004dea04ce404bde04ad804a9204a4c04a06049c0048e205d2405c6805ba205a9c05a5605a10059ca059840593e058f805772056ec))
  (.nd (.lf
  0x22e4822d9a22cae22c9022cb022a3a229a2229802379e2374e2378c23752236c023696236582364023628235f2235d2235a023554234b624b8024b7224b6624b5424b4424bfc24a6a24a5624a7c248be2489e249182485c246ec2469a24618245e0260ac25eae25e2025d6825c3425b7225b4e25a76259be258cc2585a25818257e0270b02700a26f0426da426d9226d8826cd026bf626bbe26b2c26af226a06)
  (.lf 0)))

def shaInvReads3 : BTree :=
  .nd (.nd (.nd (.lf
  0x1c4da1c4521c44c1c3de1c1e61c0d01c0421bf381f3341f3241f2ee1f2d61f2ac1f2921f2781f2581f2401f2321f1ee216e2214302142a214202130c212e221238210d62104620efe20de22206e21fbc21f5221f3821d6e21ce021c7a21b4821b2821ae621a68219942197a2194c218d8216de22f2022f1222efa22ee622ec822e0822dfa22cfa22ce022c6a22bc824bde24bd224bca24bba24ba824b0824b02)
  (.lf
  0x97b6096b00966a09624095de0959809512094cc0948609340093240a4540a4280a3fa0a37c0a32a0a2d80a2ae0a2800a2560a2280a1b20a1600a1320a1080a0b60a0640a0360a00c09fc20ae500ad6e0ad4c0ad0e0acec0acca0aca80ac660ac240ac000ab880ab660ab440ab220ab000aade0aabc0aaa40b95c0b9000b8dc0b89c0b87a0b8580b8360b7f80b7d60b7b40b6c60b6a20b6620b6240b5ca0b5a8))
  (.nd (.lf
  0x2c4ee2c4c62c5102c4702c4242c40c2c3ee2c3d62c3ae2c1de2c1b62c0d82db1a2db182db1e2da9a2da4c2d9c22d9862d6422d5d42d47c2d4b82d34e2d1a42e80a2e7f42e7942e7582e6ca2e5122e91c2e8da2e8e02e8dc2e8de2e34e2e3262e2cc2e22e2fd9e2fd5c2fd562fdf82f8a02f88a2f8742f7fe2f7d02f7b4311d2310fc30fe830fe230f0830e1630ccc30cd030ac430a0e3095c3095e31fa631fae)
  (.lf
  0x5926058e00575a056d40564e0690a06884067fe067b8066b20666c06626065200649a064540640e063c806342062fc06276061f00816e080a80802207e9c07e5607dd007d4a07d0407c7e07c380a43c0a4100a3e20a3640a3120a2c00a2960a2680a23e0a2100a19a0a1480a11a0a0f00a09e0a04c0a01e09ff40c4200c36e0c34a0c2ea0c2c80c28a0c2680c2460c2240c2020c1e00c16a0c12c0c10a0c0e8)))
  (.nd (.nd (.lf
  0x3ffb83fcac3fbf43fc083fb363fab23f9ac3f9ec3f9323f80e414784126a4127840ef440eea40e7440e5a40e5240e4a40e4e40ed840e7c40dde40daa4040c403fa4043640430403564035e4030a404e6401b041a3041a4e41a24419f441a52419e8419c041a36416304163e416b24161441538414ac4132e41334410e602ad202a8c02a06029800293a028f40272e026e8026a20265c02616025900254a02504)
  (.lf
  0x3467434640345963443a3442a343f23425c341ca341a83415633d9233bac33b4c33b1c33a22369b2368d4367be367a2366f0366e83665636620363ea363da3637e35fc035f1235e5a3d70a3d6f43d6e03d64a3d6223d6143d60e3d5fe3d3243e5583e5463e5263e5203e4f63e4e63e4da3e2a63f2ac3f2503f23a3f2303f2223f2183f2103f2023f1dc3f1d63f1c83f1b43f1a23f1563f1503f0d23ee123ee04))
  (.nd (.lf
  0x1a2881a24a1a1d41a15e1a1221a0781a00219fc419f8819f4a19f0c19ed019e9419e5619e1419cfc19caa19c8a1b3781b34a1b26a1b2461b1d21b18e1b1521af061ae941ae581ae1a1adde1ad9c1ad561ac8c1ac6c1c81e1c4301c4241c4081c3f41c5f01c5741c3941c4a81c3a81c4541c2201c1161c0861bf6a1bf241bedc1d41a1d4141d3c61d4161d4181d3641d30e1d2e21d1b81d1b61d0401d0241cefe)
  (.lf 0)))

/-- The inputs of the INV gates by wires: 20 bits each, 64 per leaf. -/
def shaInvReads : BTree :=
  .nd (.nd (shaInvReads0) (shaInvReads1)) (.nd (shaInvReads2) (shaInvReads3))

def shaInvFan0 : BTree :=
  .nd (.nd (.nd (.lf 0x0) (.lf 0x0)) (.nd (.lf 0x0) (.lf 0))) (.nd (.nd (.lf
  0x1111111111100000000000000000000000000000000000000000000000000000000000000000000000000000000000000000000000) (.lf 0)) (.nd (.lf 0x0) (.lf 0)))

def shaInvFan1 : BTree :=
  .nd (.nd (.nd (.lf 0x0) (.lf 0)) (.nd (.lf 0x0) (.lf 0))) (.nd (.nd (.lf 0x0) (.lf 0)) (.nd (.lf
  0x11111111111000000000000000000000000000000000000000000000000000000000000000000000000000000000000000000000000000000000000000000000000000000000000000000000000000000000000000000000000000)
  (.lf 0)))

def shaInvFan2 : BTree :=
  .nd (.nd (.nd (.lf 0x0) (.lf 0)) (.nd (.lf 0x0) (.lf 0))) (.nd (.nd (.lf 0x0) (.lf 0)) (.nd (.lf 0x0) (.lf 0)))

def shaInvFan3 : BTree :=
  .nd (.nd (.nd (.lf 0x0) (.lf 0)) (.nd (.lf 0x0) (.lf 0))) (.nd (.nd (.lf 0x0) (.lf 0)) (.nd (.lf 0x0) (.lf 0)))

def shaInvFan4 : BTree :=
  .nd (.nd (.nd (.lf 0x0) (.lf 0x0)) (.nd (.lf 0x0) (.lf 0))) (.nd (.nd (.lf 0x0) (.lf 0)) (.nd (.lf 0x0) (.lf 0)))

def shaInvFan5 : BTree :=
  .nd (.nd (.nd (.lf 0x0) (.lf 0)) (.nd (.lf 0x0) (.lf 0))) (.nd (.nd (.lf 0x0) (.lf 0)) (.nd (.lf 0x0) (.lf 0)))

def shaInvFan6 : BTree :=
  .nd (.nd (.nd (.lf 0x0) (.lf 0)) (.nd (.lf 0x0) (.lf 0))) (.nd (.nd (.lf 0x0) (.lf 0)) (.nd (.lf 0x0) (.lf 0)))

def shaInvFan7 : BTree :=
  .nd (.nd (.nd (.lf 0x1111111111100000000000000000000000000000000000000000000000000000000000000000000000000000000000000000000000000000000000000000) (.lf 0)) (.nd
  (.lf 0x0) (.lf 0))) (.nd (.nd (.lf 0x0) (.lf 0)) (.nd (.lf 0x0) (.lf 0)))

def shaInvFan8 : BTree :=
  .nd (.nd (.nd (.lf 0x0) (.lf 0x0)) (.nd (.lf 0x0) (.lf 0))) (.nd (.nd (.lf 0x0) (.lf 0)) (.nd (.lf 0x0) (.lf 0)))

def shaInvFan9 : BTree :=
  .nd (.nd (.nd (.lf 0x0) (.lf 0)) (.nd (.lf 0x0) (.lf 0))) (.nd (.nd (.lf 0x0) (.lf 0)) (.nd (.lf 0x0) (.lf 0)))

def shaInvFan10 : BTree :=
  .nd (.nd (.nd (.lf 0x0) (.lf 0)) (.nd (.lf 0x0) (.lf 0))) (.nd (.nd (.lf 0x0) (.lf 0)) (.nd (.lf 0x0) (.lf 0)))

def shaInvFan11 : BTree :=
  .nd (.nd (.nd (.lf 0x0) (.lf 0)) (.nd (.lf
  0x1100100101111000010010010111000101101111100011101101100010100011010001111010001100100101110100000011001110101101001100100000110001001111101000000111000110101100001010001000001101010101000000111000110011010010011000001000101100011110001101110110110000001001)
  (.lf 0))) (.nd (.nd (.lf 0x0) (.lf 0)) (.nd (.lf
  0x1111111111111110000000000000000000000000000000000000000000000000000000000000000000000000000000000000000000000000000000000) (.lf 0)))

def shaInvFan12 : BTree :=
  .nd (.nd (.nd (.lf 0x0) (.lf 0)) (.nd (.lf 0x0) (.lf 0))) (.nd (.nd (.lf 0x0) (.lf 0)) (.nd (.lf 0x0) (.lf 0)))

def shaInvFan13 : BTree :=
  .nd (.nd (.nd (.lf 0x0) (.lf 0)) (.nd (.lf 0x0) (.lf 0))) (.nd (.nd (.lf 0x0) (.lf 0)) (.nd (.lf
  0x1111111111110000000000000000000000000000000000000000000000000000000000000000000000000000000000000000000000000000000000000000000000000000000000) (.lf 0)))

def shaInvFan14 : BTree :=
  .nd (.nd (.nd (.lf 0x0) (.lf 0)) (.nd (.lf 0x0) (.lf 0))) (.nd (.nd (.lf 0x0) (.lf 0)) (.nd (.lf
  0x1111111111111100000000000000000000000000000000000000000000000000000000000000000000000000000000000000000000000000000000000000000000000000000000000000000000000000000000000000000000000000000000)
  (.lf 0)))

def shaInvFan15 : BTree :=
  .nd (.nd (.nd (.lf 0x0) (.lf 0)) (.nd (.lf 0x0) (.lf 0))) (.nd (.nd (.lf 0x0) (.lf 0)) (.nd (.lf 0x0) (.lf 0)))

def shaInvFan16 : BTree :=
  .nd (.nd (.nd (.lf 0x0) (.lf 0x0)) (.nd (.lf 0x0) (.lf 0))) (.nd (.nd (.lf 0x0) (.lf 0)) (.nd (.lf 0x0) (.lf 0)))

def shaInvFan17 : BTree :=
  .nd (.nd (.nd (.lf 0x0) (.lf 0)) (.nd (.lf 0x0) (.lf 0))) (.nd (.nd (.lf 0x0) (.lf 0)) (.nd (.lf 0x0) (.lf 0)))

def shaInvFan18 : BTree :=
  .nd (.nd (.nd (.lf 0x0) (.lf 0)) (.nd (.lf 0x0) (.lf 0))) (.nd (.nd (.lf 0x0) (.lf 0)) (.nd (.lf 0x0) (.lf 0)))

def shaInvFan19 : BTree :=
  .nd (.nd (.nd (.lf 0x0) (.lf 0)) (.nd (.lf 0x0) (.lf 0))) (.nd (.nd (.lf 0x0) (.lf 0)) (.nd (.lf
  0x11111111110000000000000000000000000000000000000000000000000000000000000000000000000000000000000000000000000) (.lf 0)))

def shaInvFan20 : BTree :=
  .nd (.nd (.nd (.lf 0x0) (.lf 0)) (.nd (.lf 0x0) (.lf 0))) (.nd (.nd (.lf 0x0) (.lf 0)) (.nd (.lf 0x0) (.lf 0)))

def shaInvFan21 : BTree :=
  .nd (.nd (.nd (.lf 0x0) (.lf 0)) (.nd (.lf 0x0) (.lf 0))) (.nd (.nd (.lf 0x0) (.lf 0)) (.nd (.lf
  0x1111111111111000000000000000000000000000000000000000000000000000000000000000000000000000000000000000000000000000000000000000000000) (.lf 0)))

def shaInvFan22 : BTree :=
  .nd (.nd (.nd (.lf 0x0) (.lf 0)) (.nd (.lf 0x0) (.lf 0))) (.nd (.nd (.lf 0x0) (.lf 0)) (.nd (.lf 0x0) (.lf 0)))

def shaInvFan23 : BTree :=
  .nd (.nd (.nd (.lf 0x0) (.lf 0)) (.nd (.lf 0x0) (.lf 0))) (.nd (.nd (.lf 0x0) (.lf 0)) (.nd (.lf 0x0) (.lf 0)))

def shaInvFan24 : BTree :=
  .nd (.nd (.nd (.lf 0x0) (.lf 0x0)) (.nd (.lf 0x0) (.lf 0))) (.nd (.nd (.lf 0x0) (.lf 0)) (.nd (.lf 0x0) (.lf 0)))

def shaInvFan25 : BTree :=
  .nd (.nd (.nd (.lf 0x0) (.lf 0)) (.nd (.lf 0x0) (.lf 0))) (.nd (.nd (.lf 0x0) (.lf 0)) (.nd (.lf 0x0) (.lf 0)))

def shaInvFan26 : BTree :=
  .nd (.nd (.nd (.lf 0x0) (.lf 0)) (.nd (.lf 0x0) (.lf 0))) (.nd (.nd (.lf
  0x111111111110000000000000000000000000000000000000000000000000000000000000000000000000000000000000000000000000000000000000000000000000000000000000000000000000000000000000000000000000000000000000000000000000)
  (.lf 0)) (.nd (.lf 0x0) (.lf 0)))

def shaInvFan27 : BTree :=
  .nd (.nd (.nd (.lf 0x0) (.lf 0)) (.nd (.lf
  0x1001100010010100000110101101100000001001001000011000110000101101111101010101000011000111110111000011011100101011111001011101011101100000001101111010110001111111110011011110111000000011010100111110000011001101111110001011101111001001001101101101001110000011)
  (.lf 0))) (.nd (.nd (.lf 0x0) (.lf 0)) (.nd (.lf
  0x1111111110000000000000000000000000000000000000000000000000000000000000000000000000000000000000000000000000000000000000000000000000000000000000000000000000000000000000000000000000000000000000000000000000000000000000000000000000000000000000000000000000000000)
  (.lf 0)))

def shaInvFan28 : BTree :=
  .nd (.nd (.nd (.lf 0x0) (.lf 0)) (.nd (.lf 0x0) (.lf 0))) (.nd (.nd (.lf
  0x11111111111111111000000000000000000000000000000000000000000000000000000000000000000000000000000000000000000000000000000000000000000000000000000000000000000000000000000000000000000000000000000000000000000000000)
  (.lf 0)) (.nd (.lf 0x0) (.lf 0)))

def shaInvFan29 : BTree :=
  .nd (.nd (.nd (.lf 0x0) (.lf 0)) (.nd (.lf 0x0) (.lf 0))) (.nd (.nd (.lf 0x0) (.lf 0)) (.nd (.lf 0x0) (.lf 0)))

def shaInvFan30 : BTree :=
  .nd (.nd (.nd (.lf 0x0) (.lf 0)) (.nd (.lf 0x0) (.lf 0))) (.nd (.nd (.lf 0x0) (.lf 0)) (.nd (.lf
  0x11111111111110000000000000000000000000000000000000000000000000000000000000000000000000000000000000000000000000000000000000000000000000000000000000000000000000000000000000000000000000000000)
  (.lf 0)))

def shaInvFan31 : BTree :=
  .nd (.nd (.nd (.lf
  0x11111111111000000000000000000000000000000000000000000000000000000000000000000000000000000000000000000000000000000000000000000000000000000000000000000000000000000000000000000000000000000000000000000000000000000000000)
  (.lf 0)) (.nd (.lf 0x0) (.lf 0))) (.nd (.nd (.lf 0x0) (.lf 0)) (.nd (.lf 0x0) (.lf 0)))

def shaInvFan32 : BTree :=
  .nd (.nd (.nd (.lf 0x0) (.lf 0x0)) (.nd (.lf 0x0) (.lf 0))) (.nd (.nd (.lf 0x0) (.lf 0)) (.nd (.lf 0x0) (.lf 0)))

def shaInvFan33 : BTree :=
  .nd (.nd (.nd (.lf 0x0) (.lf 0)) (.nd (.lf 0x0) (.lf 0))) (.nd (.nd (.lf 0x0) (.lf 0)) (.nd (.lf 0x0) (.lf 0)))

def shaInvFan34 : BTree :=
  .nd (.nd (.nd (.lf 0x0) (.lf 0)) (.nd (.lf 0x0) (.lf 0))) (.nd (.nd (.lf 0x11111111111111000000000000000000000) (.lf 0)) (.nd (.lf 0x0) (.lf 0)))

def shaInvFan35 : BTree :=
  .nd (.nd (.nd (.lf
  0x1111111111111000000000000000000000000000000000000000000000000000000000000000000000000000000000000000000000000000000000000000000000000000000000) (.lf 0)) (.nd
  (.lf 0x0) (.lf 0))) (.nd (.nd (.lf 0x0) (.lf 0)) (.nd (.lf 0x0) (.lf 0)))

def shaInvFan36 : BTree :=
  .nd (.nd (.nd (.lf 0x0) (.lf 0x0)) (.nd (.lf 0x0) (.lf 0))) (.nd (.nd (.lf 0x0) (.lf 0)) (.nd (.lf 0x0) (.lf 0)))

def shaInvFan37 : BTree :=
  .nd (.nd (.nd (.lf 0x0) (.lf 0)) (.nd (.lf 0x0) (.lf 0))) (.nd (.nd (.lf 0x0) (.lf 0)) (.nd (.lf 0x0) (.lf 0)))

def shaInvFan38 : BTree :=
  .nd (.nd (.nd (.lf 0x0) (.lf 0)) (.nd (.lf 0x0) (.lf 0))) (.nd (.nd (.lf 0x0) (.lf 0)) (.nd (.lf
  0x111111110000000000000000000000000000000000000000000000000000000000000000000000000000000000000000000000000000000000000000000000000000000000000000000000000000000000000000000000000000000000000000000000000000000000000)
  (.lf 0)))

def shaInvFan39 : BTree :=
  .nd (.nd (.nd (.lf 0x11111111111000000000000000000000000000000000000000000000000000000000) (.lf 0)) (.nd (.lf 0x0) (.lf 0))) (.nd (.nd (.lf 0x0) (.lf 0)) (.nd
  (.lf 0x0) (.lf 0)))

def shaInvFan40 : BTree :=
  .nd (.nd (.nd (.lf 0x0) (.lf 0x0)) (.nd (.lf 0x0) (.lf 0))) (.nd (.nd (.lf 0x0) (.lf 0)) (.nd (.lf 0x0) (.lf 0)))

def shaInvFan41 : BTree :=
  .nd (.nd (.nd (.lf 0x0) (.lf 0)) (.nd (.lf 0x0) (.lf 0))) (.nd (.nd (.lf 0x0) (.lf 0)) (.nd (.lf 0x0) (.lf 0)))

def shaInvFan42 : BTree :=
  .nd (.nd (.nd (.lf 0x0) (.lf 0)) (.nd (.lf 0x0) (.lf 0))) (.nd (.nd (.lf 0x0) (.lf 0)) (.nd (.lf 0x0) (.lf 0)))

def shaInvFan43 : BTree :=
  .nd (.nd (.nd (.lf 0x0) (.lf 0)) (.nd (.lf
  0x1100011100011001101101101100000000001100100111110011011111101011001011111111100011111000110111000000000101111110011110101011010011110010001010001110000011011001010011000110101000100010100001010010010100101100111001001111011011100001010100001010010111000011)
  (.lf 0))) (.nd (.nd (.lf 0x0) (.lf 0)) (.nd (.lf
  0x1111111111111111110000000000000000000000000000000000000000000000000000000000000000000000000000000000000000000000000000000000) (.lf 0)))

def shaInvFan44 : BTree :=
  .nd (.nd (.nd (.lf 0x0) (.lf 0)) (.nd (.lf 0x0) (.lf 0))) (.nd (.nd (.lf
  0x1111111111111100000000000000000000000000000000000000000000000000000000000000000000000000000000000000000000000000000000000000000000000000000000000000000000000000000000000000000000000000000000000000000000000000000000000000000000000000000000000000000000000)
  (.lf 0)) (.nd (.lf 0x0) (.lf 0)))

def shaInvFan45 : BTree :=
  .nd (.nd (.nd (.lf 0x0) (.lf 0)) (.nd (.lf 0x0) (.lf 0))) (.nd (.nd (.lf 0x0) (.lf 0)) (.nd (.lf 0x0) (.lf 0)))

def shaInvFan46 : BTree :=
  .nd (.nd (.nd (.lf 0x0) (.lf 0)) (.nd (.lf 0x0) (.lf 0))) (.nd (.nd (.lf 0x0) (.lf 0)) (.nd (.lf
  0x1111111111111110000000000000000000000000000000000000000000000000000000000000000000000000000000000000000000000000000000000000000000000000000000000000000000000000000000000000000000000000000000)
  (.lf 0)))

def shaInvFan47 : BTree :=
  .nd (.nd (.nd (.lf 0x0) (.lf 0)) (.nd (.lf 0x0) (.lf 0))) (.nd (.nd (.lf 0x0) (.lf 0)) (.nd (.lf 0x0) (.lf 0)))

def shaInvFan48 : BTree :=
  .nd (.nd (.nd (.lf 0x0) (.lf 0x0)) (.nd (.lf 0x0) (.lf 0))) (.nd (.nd (.lf 0x0) (.lf 0)) (.nd (.lf 0x0) (.lf 0)))

def shaInvFan49 : BTree :=
  .nd (.nd (.nd (.lf 0x0) (.lf 0)) (.nd (.lf 0x0) (.lf 0))) (.nd (.nd (.lf 0x0) (.lf 0)) (.nd (.lf
  0x1111111111100000000000000000000000000000000000000000000000000000000000000000000000000000000000000000000000000000000000000000000000000000000000000000000000000000000000000000000)
  (.lf 0)))

def shaInvFan50 : BTree :=
  .nd (.nd (.nd (.lf 0x0) (.lf 0)) (.nd (.lf 0x0) (.lf 0))) (.nd (.nd (.lf 0x0) (.lf 0)) (.nd (.lf 0x0) (.lf 0)))

def shaInvFan51 : BTree :=
  .nd (.nd (.nd (.lf 0x1111111111) (.lf 0)) (.nd (.lf
  0x110010000111100000010110001100110001110000001000001100100001011111011111111111110110100100010100000110110011101011101111101111100110100011111101111100011001110001011110001111001000000000000000000000000000000000000000000000000000000000000000000000000000000)
  (.lf 0))) (.nd (.nd (.lf 0x0) (.lf 0)) (.nd (.lf 0x111111111111111100000000000000000000000000000000000000000000000000000000000000000000000000000000000000000000)
  (.lf 0)))

def shaInvFan52 : BTree :=
  .nd (.nd (.nd (.lf 0x0) (.lf 0)) (.nd (.lf 0x0) (.lf 0))) (.nd (.nd (.lf 0x0) (.lf 0)) (.nd (.lf 0x0) (.lf 0)))

def shaInvFan53 : BTree :=
  .nd (.nd (.nd (.lf 0x0) (.lf 0)) (.nd (.lf 0x0) (.lf 0))) (.nd (.nd (.lf 0x0) (.lf 0)) (.nd (.lf
  0x1111111111111111100000000000000000000000000000000000000000000000000000000000000000000000000000000000000000000000000000000000000000000000000000000) (.lf 0)))

def shaInvFan54 : BTree :=
  .nd (.nd (.nd (.lf 0x0) (.lf 0)) (.nd (.lf 0x0) (.lf 0))) (.nd (.nd (.lf
  0x1111111111111111100000000000000000000000000000000000000000000000000000000000000000000000000000000000000000000000000000000000000000000000000000000000000000000000000000000000000000000000000000000)
  (.lf 0)) (.nd (.lf 0x0) (.lf 0)))

def shaInvFan55 : BTree :=
  .nd (.nd (.nd (.lf 0x0) (.lf 0)) (.nd (.lf 0x0) (.lf 0))) (.nd (.nd (.lf 0x0) (.lf 0)) (.nd (.lf 0x0) (.lf 0)))

def shaInvFan56 : BTree :=
  .nd (.nd (.nd (.lf 0x0) (.lf 0x0)) (.nd (.lf 0x0) (.lf 0))) (.nd (.nd (.lf 0x0) (.lf 0)) (.nd (.lf 0x0) (.lf 0)))

def shaInvFan57 : BTree :=
  .nd (.nd (.nd (.lf
  0x1111111111110000000000000000000000000000000000000000000000000000000000000000000000000000000000000000000000000000000000000000000000000000000000000000000000000000000000000000000000000000000000000000000000000000000000000000000000000000000000000000000000000)
  (.lf 0)) (.nd (.lf 0x0) (.lf 0))) (.nd (.nd (.lf 0x0) (.lf 0)) (.nd (.lf 0x0) (.lf 0)))

def shaInvFan58 : BTree :=
  .nd (.nd (.nd (.lf 0x0) (.lf 0)) (.nd (.lf 0x0) (.lf 0))) (.nd (.nd (.lf 0x0) (.lf 0)) (.nd (.lf
  0x11111111111111100000000000000000000000000000000000000000000000000000000000000000000000000000000000000000000000000000000000000000000000000000000000000000000000000000000000000000000000000000000000000000000000000000000)
  (.lf 0)))

def shaInvFan59 : BTree :=
  .nd (.nd (.nd (.lf
  0x111111111111100000000000000000000000000000000000000000000000000000000000000000000000000000000000000000000000000000000000000000000000000000000000000000000000000000000000000000000000000000)
  (.lf 0)) (.nd (.lf 0x100001010001010001011) (.lf 0))) (.nd (.nd (.lf 0x0) (.lf 0)) (.nd (.lf 0x0) (.lf 0)))

def shaInvFan60 : BTree :=
  .nd (.nd (.nd (.lf 0x0) (.lf 0)) (.nd (.lf 0x0) (.lf 0))) (.nd (.nd (.lf 0x0) (.lf 0)) (.nd (.lf 0x0) (.lf 0)))

def shaInvFan61 : BTree :=
  .nd (.nd (.nd (.lf
  0x1111111000000000000000000000000000000000000000000000000000000000000000000000000000000000000000000000000000000000000000000000000000000000000000000000000000000000000000000000000000000000000000000000000000000000000000000000000000000000000000000000000000000000)
  (.lf 0)) (.nd (.lf 0x0) (.lf 0))) (.nd (.nd (.lf 0x0) (.lf 0)) (.nd (.lf
  0x11111111111111100000000000000000000000000000000000000000000000000000000000000000000000000000000000000000000000000000000000000) (.lf 0)))

def shaInvFan62 : BTree :=
  .nd (.nd (.nd (.lf 0x0) (.lf 0)) (.nd (.lf 0x0) (.lf 0))) (.nd (.nd (.lf 0x0) (.lf 0)) (.nd (.lf 0x0) (.lf 0)))

def shaInvFan63 : BTree :=
  .nd (.nd (.nd (.lf
  0x11111111111111110000000000000000000000000000000000000000000000000000000000000000000000000000000000000000000000000000000000000000000000000000000000000000000000000000)
  (.lf 0)) (.nd (.lf 0x0) (.lf 0))) (.nd (.nd (.lf 0x0) (.lf 0)) (.nd (.lf 0x0) (.lf 0)))

def shaInvFan64 : BTree :=
  .nd (.nd (.nd (.lf 0x0) (.lf 0x0)) (.nd (.lf 0x0) (.lf 0))) (.nd (.nd (.lf 0x0) (.lf 0)) (.nd (.lf 0x0) (.lf 0)))

def shaInvFan65 : BTree :=
  .nd (.nd (.nd (.lf 0x0) (.lf 0)) (.nd (.lf 0x0) (.lf 0))) (.nd (.nd (.lf 0x0) (.lf 0)) (.nd (.lf
  0x1111111111110000000000000000000000000000000000000000000000000000000000000000000000000000000000000000000000000000000000000000000000000000000000000000000000000000000000000000000000000000000)
  (.lf 0)))

def shaInvFan66 : BTree :=
  .nd (.nd (.nd (.lf 0x0) (.lf 0)) (.nd (.lf 0x0) (.lf 0))) (.nd (.nd (.lf 0x0) (.lf 0)) (.nd (.lf 0x0) (.lf 0)))

def shaInvFan67 : BTree :=
  .nd (.nd (.nd (.lf 0x0) (.lf 0)) (.nd (.lf 0x0) (.lf 0))) (.nd (.nd (.lf 0x0) (.lf 0)) (.nd (.lf
  0x111111111111111111000000000000000000000000000000000000000000000000000000000000000000000000000000000000000000000000000000) (.lf 0)))

def shaInvFan68 : BTree :=
  .nd (.nd (.nd (.lf 0x0) (.lf 0x0)) (.nd (.lf 0x0) (.lf 0))) (.nd (.nd (.lf 0x0) (.lf 0)) (.nd (.lf 0x0) (.lf 0)))

def shaInvFan69 : BTree :=
  .nd (.nd (.nd (.lf 0x0) (.lf 0)) (.nd (.lf 0x0) (.lf 0))) (.nd (.nd (.lf 0x0) (.lf 0)) (.nd (.lf 0x0) (.lf 0)))

def shaInvFan70 : BTree :=
  .nd (.nd (.nd (.lf 0x0) (.lf 0)) (.nd (.lf 0x0) (.lf 0))) (.nd (.nd (.lf 0x0) (.lf 0)) (.nd (.lf
  0x11111111111111111111000000000000000000000000000000000000000000000000000000000000000000000000000000000000000000000000000000000000000000000000000000000000000000000000000000000000000000000000000000000000000000000000)
  (.lf 0)))

def shaInvFan71 : BTree :=
  .nd (.nd (.nd (.lf 0x0) (.lf 0)) (.nd (.lf 0x0) (.lf 0))) (.nd (.nd (.lf 0x0) (.lf 0)) (.nd (.lf 0x0) (.lf 0)))

def shaInvFan72 : BTree :=
  .nd (.nd (.nd (.lf 0x0) (.lf 0x0)) (.nd (.lf 0x0) (.lf 0))) (.nd (.nd (.lf 0x11111111111110000000000000000000000000000000000000000000000000000000000) (.lf 0))
  (.nd (.lf 0x0) (.lf 0)))

def shaInvFan73 : BTree :=
  .nd (.nd (.nd (.lf 0x0) (.lf 0)) (.nd (.lf 0x0) (.lf 0))) (.nd (.nd (.lf 0x0) (.lf 0)) (.nd (.lf
  0x111111111111100000000000000000000000000000000000000000000000000000000000000000000000000000000000000000000000000000000000000000000000000000000000000000000000000000000)
  (.lf 0)))

def shaInvFan74 : BTree :=
  .nd (.nd (.nd (.lf 0x0) (.lf 0)) (.nd (.lf 0x0) (.lf 0))) (.nd (.nd (.lf 0x11111111111100000000000000000000000000000000000000000000000000000000000000000000000)
  (.lf 0)) (.nd (.lf 0x0) (.lf 0)))

def shaInvFan75 : BTree :=
  .nd (.nd (.nd (.lf 0x0) (.lf 0)) (.nd (.lf
  0x110010000100111010011010010110001101101111111010100110011100000001101000100110110010100001010011100110101010111011001101010000010101011101110000001110000101100100100101111001001001110010001011001000010110100010101111111110100010100001101010000001101001100)
  (.lf 0))) (.nd (.nd (.lf 0x0) (.lf 0)) (.nd (.lf 0x0) (.lf 0)))

def shaInvFan76 : BTree :=
  .nd (.nd (.nd (.lf 0x0) (.lf 0)) (.nd (.lf 0x0) (.lf 0))) (.nd (.nd (.lf 0x1111111110000000000000000000000000000000000000000000) (.lf 0)) (.nd (.lf 0x0) (.lf
  0)))

def shaInvFan77 : BTree :=
  .nd (.nd (.nd (.lf
  0x1111111111111111100000000000000000000000000000000000000000000000000000000000000000000000000000000000000000000000000000000000000000000000000000000000000000000000000)
  (.lf 0)) (.nd (.lf 0x0) (.lf 0))) (.nd (.nd (.lf 0x0) (.lf 0)) (.nd (.lf 0x0) (.lf 0)))

def shaInvFan78 : BTree :=
  .nd (.nd (.nd (.lf 0x0) (.lf 0)) (.nd (.lf 0x0) (.lf 0))) (.nd (.nd (.lf 0x0) (.lf 0)) (.nd (.lf 0x0) (.lf 0)))

def shaInvFan79 : BTree :=
  .nd (.nd (.nd (.lf 0x11111111111111100000000000000000000000000000000000000000000000000000000000000000000) (.lf 0)) (.nd (.lf 0x0) (.lf 0))) (.nd (.nd (.lf 0x0)
  (.lf 0)) (.nd (.lf 0x0) (.lf 0)))

def shaInvFan80 : BTree :=
  .nd (.nd (.nd (.lf 0x0) (.lf 0x0)) (.nd (.lf 0x0) (.lf 0))) (.nd (.nd (.lf 0x0) (.lf 0)) (.nd (.lf 0x0) (.lf 0)))

def shaInvFan81 : BTree :=
  .nd (.nd (.nd (.lf 0x0) (.lf 0)) (.nd (.lf 0x0) (.lf 0))) (.nd (.nd (.lf 0x0) (.lf 0)) (.nd (.lf
  0x111111111111111000000000000000000000000000000000000000000000000000000000000000000000000000000000000000000000000000000000000000000000000000000000000000000000000000000000000)
  (.lf 0)))

def shaInvFan82 : BTree :=
  .nd (.nd (.nd (.lf 0x0) (.lf 0)) (.nd (.lf 0x0) (.lf 0))) (.nd (.nd (.lf 0x0) (.lf 0)) (.nd (.lf 0x0) (.lf 0)))

def shaInvFan83 : BTree :=
  .nd (.nd (.nd (.lf 0x0) (.lf 0)) (.nd (.lf 0x0) (.lf 0))) (.nd (.nd (.lf 0x0) (.lf 0)) (.nd (.lf 0x0) (.lf 0)))

def shaInvFan84 : BTree :=
  .nd (.nd (.nd (.lf 0x0) (.lf 0)) (.nd (.lf 0x0) (.lf 0))) (.nd (.nd (.lf 0x0) (.lf 0)) (.nd (.lf 0x0) (.lf 0)))

def shaInvFan85 : BTree :=
  .nd (.nd (.nd (.lf
  0x1111111111111111000000000000000000000000000000000000000000000000000000000000000000000000000000000000000000000000000000000000000000000000000000000000000000000000000000000000000000000000000000000000000000000000000000000000000000000000000000000000000000)
  (.lf 0)) (.nd (.lf 0x0) (.lf 0))) (.nd (.nd (.lf 0x0) (.lf 0)) (.nd (.lf
  0x111111111111000000000000000000000000000000000000000000000000000000000000000000000000000000000000000000000000000000000000000000000000000) (.lf 0)))

def shaInvFan86 : BTree :=
  .nd (.nd (.nd (.lf 0x0) (.lf 0)) (.nd (.lf 0x0) (.lf 0))) (.nd (.nd (.lf 0x0) (.lf 0)) (.nd (.lf 0x0) (.lf 0)))

def shaInvFan87 : BTree :=
  .nd (.nd (.nd (.lf 0x0) (.lf 0)) (.nd (.lf 0x0) (.lf 0))) (.nd (.nd (.lf 0x0) (.lf 0)) (.nd (.lf 0x0) (.lf 0)))

def shaInvFan88 : BTree :=
  .nd (.nd (.nd (.lf 0x0) (.lf 0x0)) (.nd (.lf 0x0) (.lf 0))) (.nd (.nd (.lf 0x0) (.lf 0)) (.nd (.lf 0x0) (.lf 0)))

def shaInvFan89 : BTree :=
  .nd (.nd (.nd (.lf 0x111111111111111111110000000000000000000000) (.lf 0)) (.nd (.lf 0x0) (.lf 0))) (.nd (.nd (.lf 0x0) (.lf 0)) (.nd (.lf
  0x1111111111111100000000000000000000000000000000000000000000000000000000000000000000000000000000000000000000000000000000000000000000000000000000000000) (.lf
  0)))

def shaInvFan90 : BTree :=
  .nd (.nd (.nd (.lf 0x0) (.lf 0)) (.nd (.lf 0x0) (.lf 0))) (.nd (.nd (.lf 0x0) (.lf 0)) (.nd (.lf 0x0) (.lf 0)))

def shaInvFan91 : BTree :=
  .nd (.nd (.nd (.lf 0x0) (.lf 0)) (.nd (.lf
  0x1110011000011100010011011101000100100100011011010111000000111110111100111111101001101101011101101110100101001110010101011011000010010110110101100111110001000100011111000110010010001111111000001010100110101011000111000101111011010101110110000000011110101010)
  (.lf 0))) (.nd (.nd (.lf 0x0) (.lf 0)) (.nd (.lf 0x11) (.lf 0)))

def shaInvFan92 : BTree :=
  .nd (.nd (.nd (.lf 0x0) (.lf 0)) (.nd (.lf 0x0) (.lf 0))) (.nd (.nd (.lf 0x0) (.lf 0)) (.nd (.lf 0x0) (.lf 0)))

def shaInvFan93 : BTree :=
  .nd (.nd (.nd (.lf 0x0) (.lf 0)) (.nd (.lf 0x0) (.lf 0))) (.nd (.nd (.lf 0x0) (.lf 0)) (.nd (.lf
  0x111111111111110000000000000000000000000000000000000000000000000000000000000000000000000000000000000000000000000000000) (.lf 0)))

def shaInvFan94 : BTree :=
  .nd (.nd (.nd (.lf 0x0) (.lf 0)) (.nd (.lf 0x0) (.lf 0))) (.nd (.nd (.lf 0x0) (.lf 0)) (.nd (.lf 0x0) (.lf 0)))

def shaInvFan95 : BTree :=
  .nd (.nd (.nd (.lf 0x0) (.lf 0)) (.nd (.lf 0x0) (.lf 0))) (.nd (.nd (.lf 0x0) (.lf 0)) (.nd (.lf 0x0) (.lf 0)))

def shaInvFan96 : BTree :=
  .nd (.nd (.nd (.lf 0x0) (.lf 0x0)) (.nd (.lf 0x0) (.lf 0))) (.nd (.nd (.lf
  0x111111111110000000000000000000000000000000000000000000000000000000000000000000000000000000000000000000000000000000000000000000000000000000000000000000000000000000000000000000000000000000000000000000000000000000000000000000000000000000000000)
  (.lf 0)) (.nd (.lf 0x0) (.lf 0)))

def shaInvFan97 : BTree :=
  .nd (.nd (.nd (.lf 0x0) (.lf 0)) (.nd (.lf 0x0) (.lf 0))) (.nd (.nd (.lf 0x0) (.lf 0)) (.nd (.lf 0x0) (.lf 0)))

def shaInvFan98 : BTree :=
  .nd (.nd (.nd (.lf 0x0) (.lf 0)) (.nd (.lf 0x0) (.lf 0))) (.nd (.nd (.lf
  0x1111111111111110000000000000000000000000000000000000000000000000000000000000000000000000000000000000000000000000000000000000000000000000000000000000000000000000000000000000000000000000000000000000000000000000000000000000000000000000000000000000)
  (.lf 0)) (.nd (.lf 0x0) (.lf 0)))

def shaInvFan99 : BTree :=
  .nd (.nd (.nd (.lf 0x0) (.lf 0)) (.nd (.lf 0x0) (.lf 0))) (.nd (.nd (.lf 0x0) (.lf 0)) (.nd (.lf 0x0) (.lf 0)))

def shaInvFan100 : BTree :=
  .nd (.nd (.nd (.lf 0x0) (.lf 0)) (.nd (.lf 0x0) (.lf 0))) (.nd (.nd (.lf
  0x11111111111111000000000000000000000000000000000000000000000000000000000000000000000000000000000000000000000000000000000000000000000000000000000000000000000000000000000000000000000000000000000000000000000000000000000000000000000)
  (.lf 0)) (.nd (.lf 0x0) (.lf 0)))

def shaInvFan101 : BTree :=
  .nd (.nd (.nd (.lf 0x0) (.lf 0)) (.nd (.lf 0x0) (.lf 0))) (.nd (.nd (.lf 0x0) (.lf 0)) (.nd (.lf
  0x1111111111000000000000000000000000000000000000000000000000000000000000000000000000000000000000000000000000000000000000000000) (.lf 0)))

def shaInvFan102 : BTree :=
  .nd (.nd (.nd (.lf 0x0) (.lf 0)) (.nd (.lf 0x0) (.lf 0))) (.nd (.nd (.lf
  0x11111111111111000000000000000000000000000000000000000000000000000000000000000000000000000000000000000000000000000000000000000000000000000000000000000000000000000000000000000000000000000000000000000000000000000000000)
  (.lf 0)) (.nd (.lf
  0x11111111100000000000000000000000000000000000000000000000000000000000000000000000000000000000000000000000000000000000000000000000000000000000000000000000000000000000000000000000000000000000000000000000000000000000000)
  (.lf 0)))

def shaInvFan103 : BTree :=
  .nd (.nd (.nd (.lf 0x0) (.lf 0)) (.nd (.lf 0x0) (.lf 0))) (.nd (.nd (.lf 0x0) (.lf 0)) (.nd (.lf 0x0) (.lf 0)))

def shaInvFan104 : BTree :=
  .nd (.nd (.nd (.lf 0x0) (.lf 0x0)) (.nd (.lf 0x0) (.lf 0))) (.nd (.nd (.lf 0x11111111111111111111000000000000000) (.lf 0)) (.nd (.lf 0x0) (.lf 0)))

def shaInvFan105 : BTree :=
  .nd (.nd (.nd (.lf 0x0) (.lf 0)) (.nd (.lf 0x0) (.lf 0))) (.nd (.nd (.lf 0x0) (.lf 0)) (.nd (.lf 0x0) (.lf 0)))

def shaInvFan106 : BTree :=
  .nd (.nd (.nd (.lf 0x0) (.lf 0)) (.nd (.lf 0x0) (.lf 0))) (.nd (.nd (.lf 0x0) (.lf 0)) (.nd (.lf 0x0) (.lf 0)))

def shaInvFan107 : BTree :=
  .nd (.nd (.nd (.lf 0x0) (.lf 0)) (.nd (.lf
  0x1101111101111100100011110000110000111111000001100111011100011001001000000110010100001110011001011011110100100101100011011110100101001110100100001001010101010111001011000010101001110111011101101111100110001000110110110011000001111100101000101010011010100000)
  (.lf 0))) (.nd (.nd (.lf 0x0) (.lf 0)) (.nd (.lf
  0x11111111111110000000000000000000000000000000000000000000000000000000000000000000000000000000000000000000000000000000000000000000000000000000000000000000000000000000000000000000000000000000000000000000000000000000000000000000000000000000000000000000000000)
  (.lf 0)))

def shaInvFan108 : BTree :=
  .nd (.nd (.nd (.lf 0x0) (.lf 0)) (.nd (.lf 0x0) (.lf 0))) (.nd (.nd (.lf 0x0) (.lf 0)) (.nd (.lf 0x0) (.lf 0)))

def shaInvFan109 : BTree :=
  .nd (.nd (.nd (.lf 0x11111111111111110000000000000000000000000000000000000000000000000000000000000000000000000000000000000000000000000000000000) (.lf 0)) (.nd
  (.lf 0x0) (.lf 0))) (.nd (.nd (.lf 0x0) (.lf 0)) (.nd (.lf 0x0) (.lf 0)))

def shaInvFan110 : BTree :=
  .nd (.nd (.nd (.lf 0x0) (.lf 0)) (.nd (.lf 0x0) (.lf 0))) (.nd (.nd (.lf 0x0) (.lf 0)) (.nd (.lf 0x0) (.lf 0)))

def shaInvFan111 : BTree :=
  .nd (.nd (.nd (.lf 0x0) (.lf 0)) (.nd (.lf 0x0) (.lf 0))) (.nd (.nd (.lf 0x0) (.lf 0)) (.nd (.lf 0x0) (.lf 0)))

def shaInvFan112 : BTree :=
  .nd (.nd (.nd (.lf 0x0) (.lf 0x0)) (.nd (.lf 0x0) (.lf 0))) (.nd (.nd (.lf
  0x111111111111110000000000000000000000000000000000000000000000000000000000000000000000000000000000000000000000000000000000) (.lf 0)) (.nd (.lf 0x0) (.lf 0)))

def shaInvFan113 : BTree :=
  .nd (.nd (.nd (.lf 0x0) (.lf 0)) (.nd (.lf 0x0) (.lf 0))) (.nd (.nd (.lf 0x0) (.lf 0)) (.nd (.lf 0x0) (.lf 0)))

def shaInvFan114 : BTree :=
  .nd (.nd (.nd (.lf 0x0) (.lf 0)) (.nd (.lf 0x0) (.lf 0))) (.nd (.nd (.lf
  0x11111111111111000000000000000000000000000000000000000000000000000000000000000000000000000000000000000000000000000000000000000000000000000) (.lf 0)) (.nd (.lf
  0x0) (.lf 0)))

def shaInvFan115 : BTree :=
  .nd (.nd (.nd (.lf
  0x11111111000000000000000000000000000000000000000000000000000000000000000000000000000000000000000000000000000000000000000000000000000000000000000000000000000000000000000000000000000000000000000000)
  (.lf 0)) (.nd (.lf
  0x11101001000011101110100110011010010110000101111001011010100111001000111000000110010110011010011101101100010101010010010101011011100111001100101001001111011010000010111001101111111100110111010010001111100000101110111011110001010010101100011011011111000010)
  (.lf 0))) (.nd (.nd (.lf 0x0) (.lf 0)) (.nd (.lf
  0x11111111111100000000000000000000000000000000000000000000000000000000000000000000000000000000000000000000000000000) (.lf 0)))

def shaInvFan116 : BTree :=
  .nd (.nd (.nd (.lf 0x0) (.lf 0)) (.nd (.lf 0x0) (.lf 0))) (.nd (.nd (.lf
  0x1111111111111111000000000000000000000000000000000000000000000000000000000000000000000000000000000000000000000000) (.lf 0)) (.nd (.lf 0x0) (.lf 0)))

def shaInvFan117 : BTree :=
  .nd (.nd (.nd (.lf
  0x111111111111111000000000000000000000000000000000000000000000000000000000000000000000000000000000000000000000000000000000000000000000000000000000000000000000000000000000000000000000000000000000000000000000)
  (.lf 0)) (.nd (.lf 0x0) (.lf 0))) (.nd (.nd (.lf 0x0) (.lf 0)) (.nd (.lf 0x0) (.lf 0)))

def shaInvFan118 : BTree :=
  .nd (.nd (.nd (.lf 0x0) (.lf 0)) (.nd (.lf 0x0) (.lf 0))) (.nd (.nd (.lf 0x0) (.lf 0)) (.nd (.lf 0x0) (.lf 0)))

def shaInvFan119 : BTree :=
  .nd (.nd (.nd (.lf 0x111111111100000000000000000000000000000000000000000000000000000000000000000000000000000000000000000000000000000000000000000000000000) (.lf
  0)) (.nd (.lf 0x0) (.lf 0))) (.nd (.nd (.lf 0x0) (.lf 0)) (.nd (.lf 0x0) (.lf 0)))

def shaInvFan120 : BTree :=
  .nd (.nd (.nd (.lf 0x0) (.lf 0x0)) (.nd (.lf 0x0) (.lf 0))) (.nd (.nd (.lf 0x0) (.lf 0)) (.nd (.lf 0x0) (.lf 0)))

def shaInvFan121 : BTree :=
  .nd (.nd (.nd (.lf 0x0) (.lf 0)) (.nd (.lf 0x0) (.lf 0))) (.nd (.nd (.lf 0x0) (.lf 0)) (.nd (.lf
  0x1111111111110000000000000000000000000000000000000000000000000000000000000000000000000000000000000000000000000000000000000000000000000000000000000) (.lf 0)))

def shaInvFan122 : BTree :=
  .nd (.nd (.nd (.lf 0x0) (.lf 0)) (.nd (.lf 0x0) (.lf 0))) (.nd (.nd (.lf 0x0) (.lf 0)) (.nd (.lf 0x0) (.lf 0)))

def shaInvFan123 : BTree :=
  .nd (.nd (.nd (.lf 0x0) (.lf 0)) (.nd (.lf 0x0) (.lf 0))) (.nd (.nd (.lf 0x0) (.lf 0)) (.nd (.lf 0x0) (.lf 0)))

def shaInvFan124 : BTree :=
  .nd (.nd (.nd (.lf 0x0) (.lf 0)) (.nd (.lf 0x0) (.lf 0))) (.nd (.nd (.lf 0x0) (.lf 0)) (.nd (.lf 0x0) (.lf 0)))

def shaInvFan125 : BTree :=
  .nd (.nd (.nd (.lf 0x11111) (.lf 0)) (.nd (.lf 0x0) (.lf 0))) (.nd (.nd (.lf 0x0) (.lf 0)) (.nd (.lf 0x0) (.lf 0)))

def shaInvFan126 : BTree :=
  .nd (.nd (.nd (.lf 0x0) (.lf 0)) (.nd (.lf 0x0) (.lf 0))) (.nd (.nd (.lf 0x0) (.lf 0)) (.nd (.lf
  0x1111111111111000000000000000000000000000000000000000000000000000000000000000000000000000000000000000000000000000000000000000000000000000000000000000000000000000000000000000000000)
  (.lf 0)))

def shaInvFan127 : BTree :=
  .nd (.nd (.nd (.lf 0x0) (.lf 0)) (.nd (.lf 0x0) (.lf 0))) (.nd (.nd (.lf 0x0) (.lf 0)) (.nd (.lf 0x0) (.lf 0)))

/-- How often the INV gates read a wire: 4 bits each, 256 per leaf. -/
def shaInvFan : BTree :=
  .nd (.nd (.nd (.nd (.nd (.nd (.nd (shaInvFan0) (shaInvFan1)) (.nd (shaInvFan2) (shaInvFan3))) (.nd (.nd (shaInvFan4) (shaInvFan5)) (.nd (shaInvFan6)
  (shaInvFan7)))) (.nd (.nd (.nd (shaInvFan8) (shaInvFan9)) (.nd (shaInvFan10) (shaInvFan11))) (.nd (.nd (shaInvFan12) (shaInvFan13)) (.nd (shaInvFan14)
  (shaInvFan15))))) (.nd (.nd (.nd (.nd (shaInvFan16) (shaInvFan17)) (.nd (shaInvFan18) (shaInvFan19))) (.nd (.nd (shaInvFan20) (shaInvFan21)) (.nd (shaInvFan22)
  (shaInvFan23)))) (.nd (.nd (.nd (shaInvFan24) (shaInvFan25)) (.nd (shaInvFan26) (shaInvFan27))) (.nd (.nd (shaInvFan28) (shaInvFan29)) (.nd (shaInvFan30)
  (shaInvFan31)))))) (.nd (.nd (.nd (.nd (.nd (shaInvFan32) (shaInvFan33)) (.nd (shaInvFan34) (shaInvFan35))) (.nd (.nd (shaInvFan36) (shaInvFan37)) (.nd
  (shaInvFan38) (shaInvFan39)))) (.nd (.nd (.nd (shaInvFan40) (shaInvFan41)) (.nd (shaInvFan42) (shaInvFan43))) (.nd (.nd (shaInvFan44) (shaInvFan45)) (.nd
  (shaInvFan46) (shaInvFan47))))) (.nd (.nd (.nd (.nd (shaInvFan48) (shaInvFan49)) (.nd (shaInvFan50) (shaInvFan51))) (.nd (.nd (shaInvFan52) (shaInvFan53)) (.nd
  (shaInvFan54) (shaInvFan55)))) (.nd (.nd (.nd (shaInvFan56) (shaInvFan57)) (.nd (shaInvFan58) (shaInvFan59))) (.nd (.nd (shaInvFan60) (shaInvFan61)) (.nd
  (shaInvFan62) (shaInvFan63))))))) (.nd (.nd (.nd (.nd (.nd (.nd (shaInvFan64) (shaInvFan65)) (.nd (shaInvFan66) (shaInvFan67))) (.nd (.nd (shaInvFan68)
  (shaInvFan69)) (.nd (shaInvFan70) (shaInvFan71)))) (.nd (.nd (.nd (shaInvFan72) (shaInvFan73)) (.nd (shaInvFan74) (shaInvFan75))) (.nd (.nd (shaInvFan76)
  (shaInvFan77)) (.nd (shaInvFan78) (shaInvFan79))))) (.nd (.nd (.nd (.nd (shaInvFan80) (shaInvFan81)) (.nd (shaInvFan82) (shaInvFan83))) (.nd (.nd (shaInvFan84)
  (shaInvFan85)) (.nd (shaInvFan86) (shaInvFan87)))) (.nd (.nd (.nd (shaInvFan88) (shaInvFan89)) (.nd (shaInvFan90) (shaInvFan91))) (.nd (.nd (shaInvFan92)
  (shaInvFan93)) (.nd (shaInvFan94) (shaInvFan95)))))) (.nd (.nd (.nd (.nd (.nd (shaInvFan96) (shaInvFan97)) (.nd (shaInvFan98) (shaInvFan99))) (.nd (.nd
  (shaInvFan100) (shaInvFan101)) (.nd (shaInvFan102) (shaInvFan103)))) (.nd (.nd (.nd (shaInvFan104) (shaInvFan105)) (.nd (shaInvFan106) (shaInvFan107))) (.nd
  (.nd (shaInvFan108) (shaInvFan109)) (.nd (shaInvFan110) (shaInvFan111))))) (.nd (.nd (.nd (.nd (shaInvFan112) (shaInvFan113)) (.nd (shaInvFan114)
  (shaInvFan115))) (.nd (.nd (shaInvFan116) (shaInvFan117)) (.nd (shaInvFan118) (shaInvFan119)))) (.nd (.nd (.nd (shaInvFan120) (shaInvFan121)) (.nd
  (shaInvFan122) (shaInvFan123))) (.nd (.nd (shaInvFan124) (shaInvFan125)) (.nd (shaInvFan126) (shaInvFan127)))))))

def shaInvOrder0 : BTree :=
  .nd (.nd (.nd (.lf
  0x1d9061e1a81e19e1e1951e1681e09a1e0801e07d1e0721e06b1e0441dfb01dfa71ddbd1dd601dcc41e4a11e49e1e4981e4921e45c1e4501e43f1e4381e42d1e4261e3041e3011e2e71e2be1e2581e1fc2008720078200681ffd91fe611fe331fdfe1fdd21fd641fcdf1fc931fc542093f207ee207e5207dc207d6207ca207c4207c1207bc207b9207862077e202dd202cc202c4202c0202ba202b22029720270)
  (.lf
  0xb2220b2110b2000b1e10b1d00b1b10b1a00b18f0b17e0b16d0b1400b12f0b0f40b0b90b0a80b0890b0780b05d0ba3e0b9eb0b9cc0b9230b9040b8e60b8c80b8aa0b8560b81d0b7ac0b7730b73a0b6dc0c2750c2400c2070c14d0c12a0c0a70c0840c0610bfde0bfbb0bf580bf350bef20bed10bea30ca380ca030c9e50c8980c8750c8120c7af0c78c0c7690c7460c7230c6c40d1f70d1c00d1a10d1820d163))
  (.nd (.lf
  0x1e4871e4761e3f71e3d71e3b21e38f1e3771e37e1e3241e2e21e2a31e29e1e26d1e24f1e1e81e1ed1eac01eaa61ea941ea601ea4d1ea2a1ea241ea1b1ea1d1e9731e9131f2e61f2611f2651f2531f2301f2061f2001f1fa1f0c51f0d81f85f1f8571f8191f80e1f8081f8021f7fd1f7bd1f7b21f7ad1f7c41f7861f7791f7721f7611f7411f7481f8621f6fd1f70a1f6be1f4fe1ff291ff2a1ff101fec91feac)
  (.lf
  0x140f5140df140d31408d1408314079140551404f14048140421403e1403613ffa13f1713dc2162b1162a51628c16259162461621e161fd161f1161e716157160da160c016dbb16d5c16d3b16d3816d0a16b8116b7e16ac116a6f169c0169b1177df177561774b176bf1760f1760a175f21758f175741755817529174fa1748719115190331902d1902418ff418fed18eed18eea18ee618ea118e9018e7f18d9a)))
  (.nd (.nd (.lf
  0x9e8e09e6509e1609da109d2c09cdd09cb409c1909bf009ba109b780acb20ac790ac5b0ac3d0abe90abae0ab8f0ab000aac50aa8b0aa370aa190a9fb0a9c10d1a60d1870d1680d1490d12a0d10b0d0d00d0960d0780d0220cfe70cfc90cfaa0cf8b0cf6d0cf4f0cf300cf0f0ceeb0ce5a0d9920d9220d9030d8ce0d8af0d8900d76a0d7310d7120d6f40d6d30d6b00d68d0e3ee0e3ae0e36b0e31d0e2f50e2b7)
  (.lf
  0x2b3302ad4034cf034910344e0340b033e803365033420331f0329c032590323603213031f0031ad0318a0314703104030d503af603ad803a9503a720394f0392c03909038e6038a3038600381d037da0377703759040c3040600401d03f5a03f3703ef403eb103e8e03e4b03e2803d3904712046af0460c045e90456604543044a00445d0443a043f7043d4043b10438e0437004d6a04d2704ce404ca104bfe))
  (.nd (.lf
  0x1348514109140c3140ae140a2140cc14089140c914074140251401f14026140141400e1400013f2213daa13d6c14895148681485d1481f14812147f6147db147d114798147941476f1472e1464614636150d2150cd1509b1508c15052150381502d150251501514fcd14fcc14fcb14f8514f7815be115be3159871597f159791596e15937159231591c15907158fa158e51592a1592b157d0157c3162bf16282)
  (.lf
  0x56a0052100502004c7004a80046d0044e0043d0042c0041b0040a00f4800f2500f0200e7f00e1c00df900db600d9300d7000d2d00caa00c4700be401bd701bba01b8301b3201b1501ade01ac101a8a01a5301a3601a19019e2019c50198e01971019540191d018cc0283e027fb027d802775027520272f0270c026e902666025e3025600253d0251a024f7024d402e2802dc502d4202d1f02cfc02cd902cb6)))

def shaInvOrder1 : BTree :=
  .nd (.nd (.nd (.lf
  0x12542124b7124a11249b1248a12425123581233112f0f12edf12edc12dd312da612d9312d2d12cc412c5d12c1714883148781481b1480a14803147d6147c5147b9147af1475a1466c15251151fd151bd151881516815159151491510f150f1150e114f9915bed15b8815b6315b2c15ab415ab015aa615a94159ff159f5159621595f158c917f5f17eea17ee717ceb17cdf17cc217c8517bf718888188841881a)
  (.lf
  0x5acf0622c0621c061c4061b2061820617006151061400612f0611e0610d060fc060c1060a206091060800606408203081da081a90811e080920800707fd607f7807f4807eea07eb907e5b07dd007d9f07d6f07c680875508746087350871608705086f4086e3086d2086b3086a208691086800866f0864208607085f6085e5085d40858b0857f0906b090460902208ffe08fda08fb608ee808ec308e5a08e35))
  (.nd (.lf
  0x18fc818fc318fba18f6f18f3918d3e18d2618d1e18d1518ccf18cca18bde19866198521984c198541983c1982d198131980d198071953419519194f8194c019419194031a3511a2bc1a2b31a1851a1501a14b1a15b1a0f81a0c11a0af1a09719e5f19d6e19d7219d2819ced1ab461ab211a9a61a9941a97d1a9761a9701a94f1a9471a91f1a7db1a7d41a5841a5581b4e21b4971b45b1b3d71b3c01b3381b34b)
  (.lf
  0x81ae0817e080f20806707fdb07fab07f4d07f1c07ebe07e8e07e3007da407d7407d430a4ba0a48d0a46e0a4410a4300a41f0a4000a3d30a38a0a35d0a33e0a31f0b2160b2050b1f40b1d50b1c40b1a50b1940b1830b1720b1610b1340b1230b0e80b0ad0b09c0b07d0b06c0b9d10b9b20b9090b8eb0b8cd0b8af0b8910b83d0b8030b7930b75a0b71d0c2270c1ee0c12f0c10c0c0890c0660c0430bfc00bf9d)))
  (.nd (.nd (.lf
  0x125f011fc011d9021e5021c20219f0213c020f9020b602073020500200d01fea01f4701ee401ea101e7e03acc03a8903a660394303920038fd038da038970385403811037ce04706046a304600045dd0455a0453704494044510442e043eb043c8043a504d5e04d1b04cd804c9504bf204bcf04b4c04b2904b0604ae304ac004a7d04a5a04a37056ab0569a0567b0566a05659056480562705606055f4055b8)
  (.lf
  0x1f6c21f55720db120d7220d6c20d4a20d4520d3720b8220b6520b5520b4120b3920a60209ca209c7209b3005760052d0050e004d3004b4004790045a00449004380042700416003e9003dd00f5400f3100f0e00e8b00e2800e0500dc200d9f00d7c00d3900cb600c5300bf000b81015b301575015520150f014cc014a901486013a3013800135d0133a01317012d4012b10128e0126b01208011e5011c2011b4))
  (.nd (.lf
  0xf8b40f8f30f8910f88c0f8f20f8670f8f10f84d0f8420f8ef0f8f00f8c80f8d00ff0e0fee20fecc0febd0feab0fe890fe760fe540fe420fe300ff970fdb50fd810fcc70fc8a109631095d1096b1093e10928108f8108f6108e8107d91075f10728106e6106c91107b10fe410f5710f3610ec610e6c10e6b10dcf10da110d2610d1b10cf010ccb10c7710c7810c7c10b5710aed1175c11752117401173b1172b)
  (.lf 0)))

def shaInvOrder2 : BTree :=
  .nd (.nd (.nd (.lf
  0x187d1187a618738186cb186ba1858c184e81997519965199621995b1992219916198a7198931987c1951e194fe194e01949a1ab4a1aa951aa921aa811aa461aa391aa361a9bb1a9b61a8581a7e61a7e21bba91bba21bb991bb901bb851bb7d1bb6b1bb631bb5e1bb511bb481bb391bb2a1bb1f1b8ab1b8961dd901dd331dc851db2a1dae51dac31daa31da471da271d9e91d94c1d9451d93f1d93c1d9321d90a)
  (.lf
  0x8e1008dc908da508d8108ce808cbf095ef095c20955d0954c0951f09500094b7094a609495094680945c09fcb09f7c09f5309f0409edb09eb209e8909e3a09dc509d5009d0109cd809c3d09c1409bc509b9c09b7309b620a4c60a4990a47a0a44d0a43c0a42b0a40c0a3df0a3960a3690a34a0a32b0a3100accc0ac920ac740ac560ac020abc80aba90ab1a0aadf0aaa40aa500aa320aa140a9db0a9bc0a9a2))
  (.nd (.lf
  0x1b31d1b2ad1b1e31b1e21b0471afa61af3f1aef51bb121bb061bb011baf21baf91bafb1bade1bad41bacc1bac61bab71bab91ba1c1b86f1b8501b7261b7081b8751d8b21d8a91d89d1d87f1d8741d86f1d8671d8571d8531d8461d8431d83b1d8341d82f1d8261d94f1d8291d8b61bf391df591df5e1df4d1df421df341df1e1df191df131df0d1df071deec1def01de061dd9e1dce71dca81dc481e4a71e48e)
  (.lf
  0xbf3a0bf170bed60beb30c9ea0c9cc0c87a0c8570c7f40c7910c76e0c74b0c7280c7050eae20eadf0ea660ea590ea3e0ea300e97b0e9640e9130e8f90e8380e8300ff030fed20fec30feb10fe9d0fe7c0fe6c0fe480fe360fe270fde20fdad0fd780fca711bc311bbe11bb211b8811b5811b4411b2411b1a11b0d11aef11ae211acb11a93137f31376913725136dd136d61368513634135c9135b91359b134d4)))
  (.nd (.nd (.lf
  0x55a70559605585055740556305c7405c6205c4205c3105c2005c0f05bf005bdf05bce05b5705b4505b2505b0605ad90873a087290870a086f9086e8086d7086c6086a70869608685086740866308636085fb085ea085d9085c80904b090270900308fdf08fbb08f9708ec808ea308e3a08e1508df008daa08d8608d60095e3095b6095510954009513094f4094ab0949a0948909fa709f5809f2f09ee009eb7)
  (.lf
  0x1bf601bdd01bc001b8901b3801b1b01ae401ac701a9001a5901a3c01a1f019e8019cb01994019770195a01923018d20188d021f1021ce021ab0214802105020c20207f0205c0201901ff601f5301ef001ead01e8a01e4701e390284a02807027e4027810275e0273b02718026f502672025ef0256c025490252602503024e00247102e9202e3402dd102d4e02d2b02d0802ce502cc202c9f02c7c02bb902b76))
  (.nd (.lf
  0x11724116cd1165711648116581151d114d1114c011bcf11ba711bc611ba911b6011b4b11b2c11b2011b1411af911ae911ad011aaa11a5b125c0125b9125b3125aa125a2125fe125351252b1253e1245f1244f1248c1242e123761234d1230c122f01305612f5712f1012eb412e1a12db912da712d3b12cdf12c6612c2d12c0c12bf0138581380513782136d2136c9136c413668135fb135df135961357913503)
  (.lf 0)))

def shaInvOrder3 : BTree :=
  .nd (.nd (.nd (.lf
  0xe26d0e2290e2260e1ef0e0f30e0680e0210df9c0f99a0f9920f9770f96b0f9560f9490f93c0f92c0f9200f9190f8f710b7110a1810a1510a1010986109711091c1086b108231077f106f11103710fde10fa910f9c10eb710e7010e3d10da410d9410d7310d3410cca10cbd10ca610c6c10b6f11790117891177d117731176411704116fd1167d1167011635115e4125ef125e9125e5125dd125d41258412581)
  (.lf
  0x4bdb04b5804b3504b1204aef04acc04a8904a6604a43049a0049920522a05214051fd051be051950516c05157051400512b05114050d9050b005099050840505b050320501b0500604fe105728056b7056a605687056760566505654056330561205600055c4055b3055a205591055800556f0555e0555205cae05c8005c6e05c4e05c3d05c2c05c1b05bfc05beb05bda05b6305b5105b3105b1205ae505ad4))
  (.nd (.lf
  0x162771626316288162381621216206161f7161eb161d7160ef160db1606c16d8d16d8c16d8f16d4d16d2616ce116cc316b2116aea16a3e16a5c169a7168d217405173fa173ca173ac17365172891748e1746d174701746e1746f171a717193171661711717ecf17eae17eab17efc17c5017c4517c3a17bff17be817bda188e91887e187f4187f1187841870b18666186681856218507184ae184af18fd318fd7)
  (.lf
  0x2c9302c7002bad02b6a02b270348503442033ff033dc033590333603313032900324d0322a03207031e4031a10317e0313b030f8040b7040540401103f4e03f2b03ee803ea503e8203e3f03e1c0521e05208051f1051b205189051600514b051340511f05108050cd050a40508d050780504f050260500f04ffa06210061b7061a506175061640614506134061230611206101060f0060b5060960608506074)))
  (.nd (.nd (.lf
  0x1ffdc1fe561fdfa1fe041fd9b1fd591fcd61fcf61fc991fc0720a3c209352093c2077a207752073a2072d2072920725207272076c2073e206ef206d520206201fd2021b20218201ab201af2018520273200d820d1820d2720d1220cfa20d2920cf420ce020d1b20b1820b1f20b5920b0a20a9c20a56209972099a20873015690154601503014c00149d0147a0139701374013510132e0130b012c8012a501282)
  (.lf
  0x1a33a1a3201a2cb1a21d1a2151a1f91a12e1a0e51a0d41a0ab19ec919dd619da619d8e19d111b4d91b46a1b3df1b3d11b3781b3741b32b1b3101b1f51b1ed1b1bf1afe01af891af2d1eb851eb7a1eb701eb251eb111eb0a1eb071eaff1e9921f2ac1f2a31f2931f2901f27b1f2731f26d1f1531f9561f9281f91d1f9181f9111f90c1f9081f9011f8ee1f8eb1f8e41f8da1f8d11f8ab1f8a81f8691f7091f702))
  (.nd (.lf
  0xd1440d1250d0ea0d0af0d0910d03c0d0010cfe20cfc40cfa50cf860cf680cf4a0cf2b0cf0a0ce7e0ce550ce450d9bc0d9a50d9350d9230d8e90d8c70d8a90d7830d74a0d72c0d70d0d6ef0d6ce0d6ab0d6460d6360e40f0e2180e2120e2040e1fa0e2f80e2ba0e1ca0e2540e1d40e22a0e1100e08b0e0430dfb50df920df6e0ea0d0ea0a0e9e30ea0b0ea0c0e9b20e9870e9710e8dc0e8db0e8200e8120e77f)
  (.lf 0)))

/-- The INV gates in the order in which they are packed: 20 bits each, 64 per leaf. -/
def shaInvOrder : BTree :=
  .nd (.nd (shaInvOrder0) (shaInvOrder1)) (.nd (shaInvOrder2) (shaInvOrder3))

def shaPos0 : BTree :=
  .nd (.nd (.nd (.lf 0x0) (.lf
  0x3dfbc3dfb03dfa43df983df8c3df803df743df683df5c3df503df443df383df2c3df2015f850010403a4c03a4803a4403a4003a3c03a3803a3403a3003a2c03a2803a2403a2003a1c03a1803a1403a1003a0c03a0803a0403a00039fc039f8039f4039f0039ec039e8039e4039e0039dc039d83df143df043def43dee43ded43dec43deb43dea43de943de843de743de643de543de443de343de243de143de04))
  (.nd (.lf
  0x11a01119fd119f9119f5119f1119ed119e9119e5119e1119dd119d9119d5119d1119cd119c9119c515bc547d8c4fe984fe804fe684fe504fe384fe204fe0c4fdf84fde44fdd04fdbc4fda84fd944fd804fd6c4fd584fd444fd304fd1c4fd084fcf44fce04fccc4fcb84fca44fc904fc7c4fc684fc584fc4847d80119c1119bd119b9119b5119b1119ad119a9119a5119a11199d1199911995119911198d11989)
  (.lf 0))) (.nd (.nd (.lf
  0x150b10039a0ac5c07dc5003960ac4c07dc101f0c150ad0ac48150a9003920ac4407dbd01efc150a501ef4150a101eec1509d0ac3c150990038e0ac3407db901edc150950ac30150910038a0ac2c07db50b8081508d28ca028c9c07db128c8c28c9007dad28c7828c8007da928c6828c7007da528c5c28c6007da128c4828c5007d9d28c4028c3c07d9928c2828c3007d9528c2028c1c07d9128c0828c1007d8d)
  (.lf 0)) (.nd (.lf
  0x4c1844c1704c15c4c1484c1344c1204c10c4c0fc4c0ec47b2c47b204c0dc4c0c44c0ac4c0944c07c4c0644c0504c03c4c0284c0144c0004bfec4bfd84bfc44bfb04bf9c4bf884bf744bf604bf4c4bf384bf244bf104befc4bee84bed44bec04beac4be9c4be8c47b1047b004be784be5c4be404be244be084bdec4bdd44bdbc4bda44bd8c4bd744bd5c4bd444bd2c4bd144bcfc4bce44bccc4bcb44bc9c4bc84)
  (.lf 0)))

def shaPos1 : BTree :=
  .nd (.nd (.nd (.lf
  0x5f228030e91937c5f20c030e5193705f1f0030e1193645f1d8030dd193545f1c0030d9193485f1a8030d51933c5f190030d1193305f178030cd193285f160030c91931c5f148030c5193105f12c030c1192fc19300030bd192f4192f0030b9192e0192dc030b5192cc192d4030b1192c4192c0030ad192b0192b4030a91929c192a0030a5192901928c030a11927c192840309d1926c19270030991926019264)
  (.lf 0)) (.nd (.lf
  0x64b0c64ae064ab464a8864a5c64a3064a08649e0649b864990649686494064918648f0648c8646706464864620645f8645d0645a86458064558645306283052f70648846485464824647f8647cc647a064774647486471c646f0646c46469c646746464c64624645fc645d4645ac645846455c645346beac6be846be5c6be346be0c6bde46bdbc6bd946bd6c6452054ddc6c0c06c0906c0606c0346c0086bfdc)
  (.lf 0))) (.nd (.nd (.lf
  0x37e380c9f945c7c37e280c9f545c7037e200c9f145c6037e140c9ed662b837e080c9e96628837dfc0c9e56625837dec0c9e16622c37de00c9dd6620037dd40c9d9661d437dcc0c9d5661a837dc00c9d16617c37db00c9cd6615037da40c9c96612437d980c9c5660f837d900c9c1660cc37d800c9bd660a437d780c9b96607c37d6c0c9b56605437d600c9b16602c37d540c9ad6600437d480c9a965fdc37d3c)
  (.lf 0)) (.nd (.lf
  0x23b2423b1423b0023af423ae423ad423ac023ab023aa423a9423a8023a7423a6423a5423a4023a3015a0d54b7865818657e8657bc6579065764657386570c656e4656b465688656606563865610655e8655c065598655706554465520654f4654cc62ac862aa862a8c62a6862a4862a2c62a0c61c8061c6023a2023a1c23a1023a0c23a04239fc239f4239ec239e4239dc239d0239cc239c0239b8239b0239a8)
  (.lf 0)))

def shaPos2 : BTree :=
  .nd (.nd (.nd (.lf
  0xfe180fe1c0063d0fe040fe0c006390fdf40fdf8006350fde80fde4006310fdd80fddc0062d0fdc80fdc4006290fdb80fdbc006250fda40fdac006210fd980fd9c0061d0fd840fd88006190fd7c55c08006150fd6c55be8006110fd6055bc80060d0fd5855ba8006090fd4c55b88006050fd4055b68006010fd3455b48005fd0fd2455b28005f90fd1855b08005f50fd1055ae4005f10fd0055ac8005ed0fcf4)
  (.lf 0)) (.nd (.lf
  0x5fc945fc785fc5c5fc405fc245fc085fbec5fbd05fbb85fba05fb885fb705fb585fb405fb285fb105495013cf913cf513cf113ced13ce913ce513ce113cdd13cd913cd513cd113ccd13cc913cc513cc113cbd13cb913cb513cb113cad13ca913ca513ca113c9d13c9913c9513c9113c8d13c8913c8513c8113c7d549405fafc5fadc5fabc5fa9c5fa7c5fa5c5fa3c5fa1c5f9fc5f9dc5f9bc5f99c5f9805f964)
  (.lf 0))) (.nd (.nd (.lf
  0x2744154d90c634154d501b2e0c6300a36d01b2a0c6240a3690c61c154d101b260c6180a36501b220c60c0a36101b1e0c6000a35d01b1a0c5f40a35901b160c5e80a35501b120c5dc0a3510272c154cd02724154c90c5d4154c501b0e0c5d00a34d0c5c8154c101b0a0c5c40a34901b060c5b80a34501b020c5ac0a341158a9302c0302bc0a33d302b0302ac0a339302a03029c0a335302903028c0a33130280)
  (.lf 0)) (.nd (.lf
  0x546a05c2b85c2945c2745c2545c2345c2145c1f45c1d85c1b45c1945c1745c1545c1385c11c5c1045c0e85c0cc5c0b05c0945c0745c05c5c0405c0285c0105bff45bfdc5bfc45bfb05bf985bf7c163341632c163201631416308162fc162f0162e4162d8162cc162c0162b4162a81629c1629016284162781626c1626016254162481623c1623016224162181620c16200161f4161e4161dc15d39063a40dd28)
  (.lf 0)))

def shaPos3 : BTree :=
  .nd (.nd (.nd (.lf
  0x583121538215400582d215302152805829215182152005825215082150c0582121500214f80581d214f0214e805819214e0214d805815214cc214d005811214b8214bc0580d214a8214ac058092149c2149805805214882149005801214802147c057fd2146c21468057f9214602145c057f52144c21448057f12143c21440057ed2142c21428057e9214202141c057e52140821410057e1213fc213f8057dd)
  (.lf 0)) (.nd (.lf
  0xa754017a0017980179001788017800a7480177801770017680a73c017600b79800b0a0048000b1c01758017500bd380bd2c0bd200bd140174801740017380bd080bcfc017300bcf00bcec0bcd8017280bccc0bcc4017200bcb40bca801718017100170801700016f8064d000ad2223c4223a800478003cc016f00a734016e8016e00a7240a71c0a70c016d80a704016d0016c80a6fc016c0016b8016b0016a8)
  (.lf 0))) (.nd (.nd (.lf
  0xf4a540c4840c500f4a140c3840c400f49d40c2840c300f49940c1840c200f4956abd040c100f4916aba040c040f48d6ab7040bf80f4896ab4440bec0f4856ab1840be00f4816aaec40bd40f47d6aac040bc80f4796aa9440bbc0f4756aa6840bb00f4716aa3c40ba40f46d6aa1040b980f4696a9e840b8c0f4656a9c040b800f4616a99840b740f45d6a97040b680f4596a94840b5c0f4556a92040b500f451)
  (.lf 0)) (.nd (.lf
  0x30ef430ee430ed430ec430eb430ea430e9430e8430e7430e6430e5430e4430e3430e2430e14149450079409afc09af809af409af009aec09ae809ae409ae009adc09ad809ad409ad009acc09ac809ac409ac009abc09ab809ab409ab009aac09aa809aa409aa009a9c09a9809a9409a9009a8c09a8830e0430df430de430dd430dc430db430da430d9430d8430d7430d6430d5430d4430d3430d2430d1430d04)
  (.lf 0)))

def shaPos4 : BTree :=
  .nd (.nd (.nd (.lf
  0x10cc449e8449d8449c8449b8449a844998449884497844968449584494844938449284491844908448f8448e8448d8448c8448b8448a84489844888448784486844858448484483844828448180658800a181c2581c24c1c2401c23c1c2301c2241c2101c20c1c2001c1ec1c1e01c1dc1c1c81c1bc1c1b01c1ac1c1981c1941c1881c17c1c1681c1641c1581c1441c1401c1341c1201c11c1c1101c104450a0)
  (.lf
  0x447544474444734447244471444704446f4446e4446d4446c4446b4446a444694446844467444664446544464415ae9001b40449c0449804494044900448c0448804484044800447c0447804474044700446c0446804464044600445c0445804454044500444c0444804444044400443c0443804434044300442c0442844634446244461444604445f4445e4445d4445c4445b4445a444594445844457444564))
  (.nd (.lf
  0x56e2856e0c56df056dd456db856d9c56d8056d6456d4c56d3456d1c56d0456cec56cd456cbc56ca45429c542ac56fd856fb856f9856f7856f5856f3856f1856ef856ed856eb856e9856e7856e5c56e4056e2456e0856dec56dd056db456d9856d7c56d6056d4856d3056d1856d0056ce856cd056cb856ca0542981277912775127711276d1276912765127611275d1275912755127511274d127491274512741)
  (.lf 0))) (.nd (.nd (.lf
  0x1a460c3780908d01a420c36c0908901a3e0c3600908501a3a0c354090810235c152d50c34c152d101a360c3480907d0c340152cd01a320c33c0907902344152c90233c152c50c334152c101a2e0c330090750c328152bd01a2a0c324090710c31c152b901a260c3180906d0652c152b5158992c7b02c7ac090692c7a02c79c090652c7902c78c090612c7802c77c0905d2c7702c76c090592c7602c75c09055)
  (.lf 0)) (.nd (.lf
  0x650b8650886505c6502864ffc64fcc64f9c64f6c64f3864f0c64ee064eb464e8864e5c64e3064e0864ddc64db064d8464d5c64d3064d0c64ce064cb864c9464c6c64c440f6ec0f6e40f6d80f6cc0f6c00f6b00f6a40f69c0f6900f6800f6780f66c0f6600f6500f6480f6380f6300f6240f6180f6080f6000f5f00f5e80f5dc0f5cc0f5c40f5b40f5ac0f5a00f59015b0545a104944c494344941c49404493ec)
  (.lf 0)))

def shaPos5 : BTree :=
  .nd (.nd (.nd (.lf
  0x1d9c80455d1d9c01d9bc045591d9ac1d9b0045551d9981d99c045511d9881d98c0454d1d97c1d980045491d96c1d968045451d9581d960045411d9501d9480453d1d93c1d940045391d9281d92c045351d9181d91c045311d9081d90c0452d1d9001d8f8045291d8f01d8e8045251d8d81d8dc045211d8d01d8cc0451d1d8bc1d8c0045191d8a81d8b0045151d8a01d89c045111d88c1d8900450d1d8781d880)
  (.lf 0)) (.nd (.lf
  0x581d4581b85819c581805816458148581305811858100580e8580d0580b8580a058088543905437c5807058050580305801057ff057fd057fb057f9057f7057f5057f3057f1057ef457ed857ebc57ea057e8457e6857e4c57e3057e1457df857de057dc857db057d9857d8057d6857d5057d38543685435457d2057d0057ce057cc057ca057c8057c6057c4057c2057c0057be057bc057ba457b8857b6c57b50)
  (.lf 0))) (.nd (.nd (.lf
  0x675a43c53c0df4d6757c3c5300df49675543c5240df456752c3c5180df41675043c50c0df3d674dc3c5000df39674b43c4f40df356748c3c4e80df31674643c4dc0df2d6743c3c4d00df29632b83c4c40df25632983c4b80df21632783c4ac0df1d632583c4a00df19632383c4940df15632183c4880df11631f83c47c0df0d61e843c4700df0961e683c4640df05696fc3c4580df01696cc3c44c0defd6969c)
  (.lf 0)) (.nd (.lf
  0x93500934c0934809344093400933c0933809334093300932c0932809324093200931c0931809314093100930c093082a5042a4f42a4e42a4d42a4c02a4b42a4a42a4942a4802a4742a4602a4542a4442a4342a4242a4142a4042a3f42a3e42a3d42a3c42a3b42a3a42a3942a3842a3742a3642a3542a3442a33415a4d54cb868fd868fa868f7c68f5068f2468ef868ecc68ea068e7468e4868e1c68df468dcc)
  (.lf 0)))

def shaPos6 : BTree :=
  .nd (.nd (.nd (.lf
  0x1b95148b85a79401b91148ac5a77401b8d1489c5a75401b89148905a73801b85148885a71401b811487c5a6f801b7d148705a6d401b79148645a6b801b75148545a69c01b71148485a68001b6d148405a66401b69148345a64801b65148285a62c01b611481c5a61001b5d1480c5a5f401b59148005a5d801b55147f45a5bc01b51147ec5a5a401b4d147dc5a58c01b49147d45a57401b45147c85a55c01b41)
  (.lf 0)) (.nd (.lf
  0x3b0d83b0d03b0bc3b0b03b0a43b0a03b08c3b0803b0743b0683b0603b0543b0483b03c48db800f3c3ace83acd83acd43acc83acb43aca83ac9c3ac903ac843ac783ac703ac683ac543ac483ac3c3ac343ac243ac1c3ac0c3ac043abf43abec3abe43abd43abc43abb83abac3aba43ab983ab8848dac00f303a8383a8283a81c3a8183a8043a7fc3a7ec3a7e03a7d83a7c83a7c03a7b03a7a83a7983a7903a780)
  (.lf 0))) (.nd (.nd (.lf
  0xc8ec156f501c160c8e80b63d02b5c156f102b54156ed0c8e0156e901c120c8dc0b63901c0e0c8d00b63501c0a0c8c40b63101c060c8b80b62d01c020c8ac0b62901bfe0c8a00b62501bfa0c8940b62102b44156e502b3c156e102b34156dd02b2c156d90c88c156d501bf60c8880b61d0c880156d101bf20c87c0b6190c874156cd01bee0c8700b6150656c156c9158b933dd033dcc0b61133dc033dbc0b60d)
  (.lf 0)) (.nd (.lf
  0x49860498404982849814497fc497e4497d0497b449798497844976c4975849740497284970c496f4496dc496cc496b41d0701d0641d0581d04c1d0401d0341d0281d01c1d0101d0041cff81cfec1cfe01cfd01cfc81cfbc1cfac1cfa01cf981cf881cf801cf741cf681cf581cf4c1cf441cf341cf2c1cf1c1cf1415b15004140667c0667806674066700666c0666806664066600665c0665806654066500664c)
  (.lf 0)))

def shaPos7 : BTree :=
  .nd (.nd (.nd (.lf
  0x14e5d0026a0a8cc06b19002660a8c006b150a8b814e59002620a8b406b110b7c014e55251902518c06b0d251802517c06b09251702516c06b05251602515c06b01251502514c06afd251402513c06af9251302512c06af5251202511c06af1251102510c06aed25100250fc06ae9250f0250ec06ae5250e0250dc06ae1250d0250cc06add250c0250bc06ad9250b0250ac06ad5250a02509c06ad1250902508c)
  (.lf 0)) (.nd (.lf
  0x2397823970239682396423958239502394c239442393848d0800b4423390233882338023378233742336823364233582335023348233402333c233302332c233202331c233142330823300232fc232f4232ec232e0232dc232d4232c8232c4232bc232b0232ac48cfc00b3422d0022cf822cf422ce822ce022cd822cd022ccc22cc022cbc22cb422ca822ca022c9822c9022c8822c8022c7822c7022c6822c64)
  (.lf 0))) (.nd (.nd (.lf
  0x4c7a84c78c4c7784c7644c7504c7404c7284c7144c7004c6ec4c6d84c6c44c6b04c69c4c6884c6744c6604c3ec4c3d84c3c44c3b04c39c4c3884c3784c58c4c5744c55c4c5444c5344c5904c5784c5604c5484c52c4c5184c5044c4f04c4dc4c4c84c4b44c4a04c48c4c4784c4644c4504c43c4c4284c4144c4004c18c4c1784c1644c1504c13c4c1284c1144c32c4c3144c2fc4c2e44c2cc4c3304c3184c300)
  (.lf 0)) (.nd (.lf
  0x3786c378603785437848378383783037824378183780c3780015e7d0005402ffc02ff802ff402ff002fec02fe802fe402fe002fdc02fd802fd402fd002fcc02fc802fc402fc002fbc02fb802fb402fb002fac02fa802fa402fa002f9c02f9802f9402f9002f8c02f88377f0377e4377d4377c4377b4377a037794377843777437764377543774037734377243771437704376f4376e0376d4376c0376b4376a0)
  (.lf 0)))

def shaPos8 : BTree :=
  .nd (.nd (.nd (.lf
  0x92415e8415e7815e6815e5015e4015e3815e1c15e0c15e0415df815ddc15dcc15dbc15dac15d9c15d8c15d8415d7015d5c15d5015d4815d3015d2815d1015d0815cf015ce015cd015cc815cb8063980091c15b4015b2815b1815b1015afc15ae815ae015ac415abc15aa415aa015a8815a8015a7015a6015a5015a4015a3015a1815a08159f8159f0159e0159c8159bc159ac1599815990159781596806390)
  (.lf
  0x41364413584134c4134041334413284131c4131041304412f8412ec412e0412d4412c8412bc412b015e250015c03f7403f7003f6c03f6803f6403f6003f5c03f5803f5403f5003f4c03f4803f4403f4003f3c03f3803f3403f3003f2c03f2803f2403f2003f1c03f1803f1403f1003f0c03f0803f0403f00412a441294412844127441264412544124441234412244121441204411f4411e4411d4411c4411b4))
  (.nd (.lf
  0x5a8005a7e05a7c05a7a05a7805a7605a7445a7205a7005a6dc5a6c05a6a45a6885a66c5a6505a6345a6185a2ac5a2905a2745a4d45a4ac5a48c5a4745a44c5a42c5a40c5a3ec5a3cc5a3ac5a38c5a4cc5a4b05a4905a46c5a4505a4305a4105a3f05a3d05a3b05a3945a3705a3545a33c5a31c5a3005a2e45a2c859f5c59f4059f285a17c5a15c5a13c5a11c5a0fc5a0dc5a0bc5a09c5a07c5a05c5a0445a180)
  (.lf 0))) (.nd (.nd (.lf
  0x2a9c02a9b80871d4ee0069358087194ede869328087154edd0692fc087114edb8692d00870d4eda0692a4087094ed8869278087054ed746924c087014ed6069220086fd4ed4c691f4086f94ed38691c8086f54ed246919c086f14ed1069174086ed4ecfc6914c086e94ece869124086e54ecd4690fc086e14ecc0690d4086dd4ecac690ac086d94ec9869084086d54ec846905c086d14ec7069034086cd4ec5c)
  (.lf 0)) (.nd (.lf
  0x4bbc04bbac47ae847af84be6c4be544be384be1c4bdfc4bde44baf44badc4bac44baac4ba944ba7c4ba644ba4c4ba344ba1c4ba044b9ec4b9d44b9bc4b9a44b98c4b9744b95c4b9444b92c4b9104b8fc4b8e84b8d447ac847ad84bb984bb7c4bb604bb444bb244bb0c4b81c4b8044b7ec4b7d44b7bc4b7a44b78c4b7744b75c4b7444b72c4b7144b6fc4b6e44b6cc4b6b44b69c4b6844b66c4b6544b6384b624)
  (.lf 0)))

def shaPos9 : BTree :=
  .nd (.nd (.nd (.lf
  0x3b951b8ac1b8b403b911b89c1b8a403b8d1b88c1b89403b891b8806194c03b851b8786192803b811b86c6190403b7d1b860618e003b791b850618bc03b751b8446189803b711b83c6187403b6d1b82c6185003b691b8246182c03b651b8146180803b611b80c617e403b5d1b7fc617c003b591b7f4617a003b551b7e86178003b511b7d86176003b4d1b7d06174003b491b7c46172003b451b7b46170003b41)
  (.lf 0)) (.nd (.lf
  0x229342291822914228fc228e8228dc228d0228bc228ac22898228942287c2286c228600023000b18223a4223882237c2236822358223482234422328223202231422304222e8222dc222d4222c4222ac222a422294222782226c2225822254222442222c222242220822204221f4221dc221cc0022800b0821d0c21d0021cec21cd821cc821cc021ca821ca421c8821c7821c7421c5821c5021c3c21c3421c18)
  (.lf 0))) (.nd (.nd (.lf
  0xd4a53a1dc3a1e00d4a13a1d03a1cc0d49d3a1bc3a1b80d4993a1b03a1ac0d4953a1983a19c0d4913a1903a18c0d48d3a17c3a1780d4893a16c3a1680d4853a1603a15c0d4813a1503a14c0d47d3a1383a13c0d4793a1303a12c0d4753a1203a11c0d4713a1103a1080d46d3a1003a0fc0d4693a0e83a0ec0d4653a0e03a0dc0d4613a0cc3a0c80d45d3a0b83a0c00d4593a0b03a0ac0d4553a0983a0a00d451)
  (.lf 0)) (.nd (.lf
  0x27054270442703427024270102700426ff426fe026fd026fc426fb426fa426f9426f8426f7426f6426f5426f4426f3426f2426f1426f0426ef426ee426ed426ec426eb415a2d54c18673f8673c86739c673706734467318672ec672c067294672686723c67214671ec671c46719c671746714c67124670fc670d4670ac631c8631a8631886316863148631286310c61e3c61e2426ea426e9c26e9426e8c26e84)
  (.lf 0)))

def shaPos10 : BTree :=
  .nd (.nd (.nd (.lf
  0x580bc010e91238c580a4010e51237c5808c010e1123701236c010dd1235c12360010d91235412350010d51234012344010d1123341232c010cd123241231c010c9123101230c010c5122fc12304010c1122f4122f0010bd122dc122e4010b9122cc122d0010b5122bc122c0010b1122ac122b0010ad1229c122a0010a91228c12294010a51227c12284010a112274122700109d1225c12260010991224c12250)
  (.lf 0)) (.nd (.lf
  0x389a8389a4389883897c389703895c3894c3893c3892c389183890c388fc388ec388e40007000ed8385fc385ec385e0385d0385c0385b4385a0385903858438568385643854c3853c385283851c38508384fc384ec384e4384c8384c4384ac384983849038480384703845c38454384403842c0006800ecc3814c3813c3812c3812438108380f8380e8380d8380c8380b8380a83809c3808c380803807038058)
  (.lf 0))) (.nd (.nd (.lf
  0x539900accd518505396c0acc95183c539480acc551828539240acc151814539000acbd51800538dc0acb9517ec538b80acb5517d8538980acb1517c4538780acad517b0538580aca95179c538380aca551788538180aca151774537f80ac9d51760537d80ac995174c537b80ac9551738537980ac9151724537780ac8d517105375c0ac89516fc537400ac85516e8537240ac81516d4537080ac7d516c0536ec)
  (.lf 0)) (.nd (.lf
  0x199a415d990642c0e5200e51c0e5180e5140e5100e50c0e5080e5040e5000e4fc0e4f80e4f40e4f00e4ec0e4e80e4e40e4e00e4dc0e4d80e4d40e4d00e4cc0e4c80e4c40e4c00e4bc0e4b80e4b40e4b00e4ac19998199881997819968199541994819934199281991819908198f8198e8198d8198c4198b8198a819898198881987819864198581984819838198281981819804197f4197e8197d8197c81608d)
  (.lf 0)))

def shaPos11 : BTree :=
  .nd (.nd (.nd (.lf
  0x629e8061854c174629cc061814c160629a80617d4c14c62988061794c1386296c061754c12462948061714c110629280616d4c10061c48061694c0f061c28061652329c2329806161232902328c0615d2327c2327806159232702326c06155232602325c06151232502324c0614d232402323c061492323023228061452321c232180614123210232080613d231fc231f806139231ec231e806135231dc231d8)
  (.lf 0)) (.nd (.lf
  0x2310000b3022c1022bfc22bf022bd822bd422bc422ba822ba022b9022b7c22b6c22b6022b4822b3c22b3422b1c22b1422af822aec22ad822ad422ac422ab022aa022a9422a8022a7422a6422a4822a4400b20225782256c225582254c225382252c2252022510224fc224e8224d8224d0224c0224ac22498224882248022468224602244c224402242c224202240c22404223f0223dc223d400b0c21ee821edc)
  (.lf 0))) (.nd (.nd (.lf
  0x46ac4430040ff4d46aac42ff80ff4946a9442fec0ff4546a7c42fe00ff4146a6442fd40ff3d46a4c42fc80ff3946a3442fbc0ff3546a1c42fb00ff3146a0442fa40ff2d469f042f980ff29469dc42f8c0ff25469c842f800ff21469b442f740ff1d469a042f680ff194698c42f5c0ff154697842f500ff114696442f440ff0d4695042f380ff094693c42f2c0ff054692c42f200ff014691c42f140fefd4690c)
  (.lf 0)) (.nd (.lf
  0x343b4343a434394343843437434364343543434434334343243431434304342f4342e4342d4342c4342b4342a43429414965007d409ebc09eb809eb409eb009eac09ea809ea409ea009e9c09e9809e9409e9009e8c09e8809e8409e8009e7c09e7809e7409e7009e6c09e6809e6409e6009e5c09e5809e5409e5009e4c09e48342843427434264342543424434234342243421434204341f4341e4341d4341c4)
  (.lf 0)))

def shaPos12 : BTree :=
  .nd (.nd (.nd (.lf
  0x4557c4557445564455584554c4554045534455280cd540cd500cd4c0cd480cd440cd400cd3c0cd5c454ac454a0454b0454a44549045484454784546c4546045454454484543c45430454240cd2c0cd280cd240cd200cd1c0cd180cd140cd34453a845398453ac4539c4538c4538045374453684535c4535045344453384532c453200cd040cd000ccfc0ccf80ccf40ccf00ccec0cd0c452a44529c452a845294)
  (.lf 0)) (.nd (.lf
  0x1323d1323913235132311322d1322913225132211321d1321913215132111320d132091320513201131fd545f85b56c5b54c5b52c5b50c5b4ec5b4cc5b4ac5b48c5b46c5b44c5b42c5b40c5b3f05b3d45b3b85b39c5b3805b3645b3485b32c5b3105b2f45b2dc5b2c45b2ac5b2945b27c5b2645b24c5b234545e4545f45b5685b5485b5285b5085b4e85b4c85b4a85b4885b4685b4485b4285b4085b3ec5b3d0)
  (.lf 0))) (.nd (.nd (.lf
  0x9a052e4f02e4ec09a012e4e02e4dc099fd2e4d02e4cc099f9503606b2b4099f5503486b284099f1503306b258099ed503186b22c099e9503006b200099e5502e86b1d4099e1502d46b1a8099dd502c06b17c099d9502ac6b150099d5502986b124099d1502846b0f8099cd502706b0d0099c95025c6b0a8099c5502486b080099c1502346b058099bd502206b030099b95020c6b008099b5501f86afe0099b1)
  (.lf 0)) (.nd (.lf
  0xd5a40d5a00d59c0d5980d5940d5900d58c0d5880d5840d5800d57c0d5780d5740d5700d56c0d5680d5640d5600d55c0d5580d5540d5500d54c0d5480d5440d5400d53c0d5380d53412d4c12d3c12d2c12d1c12d0c12cfc12cec12cdc12ccc12cbc12cac12ca012c9012c8012c7012c6012c5012c4012c3012c2012c1012c0012bf012be012bd012bbc12bb012ba012b9012b8015cd9543f858a6858a4458a24)
  (.lf 0)))

def shaPos13 : BTree :=
  .nd (.nd (.nd (.lf
  0x4a7fc45a3804eb54a7e845a2804eb14a7d045a1404ead1f7901f78804ea91f7801f77c04ea51f7701f76c04ea11f7601f75c04e9d1f7501f74c04e991f7401f73c04e951f72c1f72804e911f7201f71804e8d1f7081f70c04e891f7001f6f804e851f6e81f6f004e811f6dc1f6e004e7d1f6c81f6d004e791f6b81f6c004e751f6a81f6b004e711f6981f6a004e6d1f6881f68c04e691f67c1f68004e651f670)
  (.lf 0)) (.nd (.lf
  0x57a2457a0c579f4579dc543345434857d1457cf457cd457cb457c9457c7457c5457c3457c14578a45788057864578485782c57810577f4577d8577bc577a057784577645774c577345771c57704576ec576d4576bc576a45768c5430c54320579c45799c5798457964579445792457904578e4578c4575545753057514574f8574dc574c0574a4574885746c574505743457414573fc573e4573cc573b45739c)
  (.lf 0))) (.nd (.nd (.lf
  0x3e8fc0e9f96af983e8f00e9f56af703e8e40e9f1641943e8d80e9ed641743e8cc0e9e9641543e8c00e9e5641343e8b40e9e1641143e8a80e9dd640f43e89c0e9d9640d43e8900e9d5622383e8840e9d16221c3e8780e9cd3e8683e8700e9c93e8583e8600e9c53e8483e8500e9c13e8383e8400e9bd3e8283e8300e9b93e8183e8200e9b53e8083e8100e9b13e7f83e8000e9ad3e7e83e7f00e9a93e7d83e7e0)
  (.lf 0)) (.nd (.lf
  0x97300972c0972809724097200971c0971809714097100970c097080970409700096fc096f8096f4096f0096ec096e8096e4096e0096dc096d8096d4096d0096cc096c82d9842d9742d9642d9542d9442d9342d9242d9142d9042d8f42d8e42d8d42d8c42d8b42d8a42d8942d8842d8742d8642d8542d8442d8342d8242d8142d8042d7f42d7e42d7d42d7c42d7b415a6d54d586abb86ab886ab5c6ab306ab04)
  (.lf 0)))

def shaPos14 : BTree :=
  .nd (.nd (.nd (.lf
  0x16e2c16e240263d16e1c16e180263916e0816e0c0263516dfc16df80263116de816dec0262d16dd816ddc0262916dc416dc80262516db816dbc0262116da816dac0261d16d9c16d980261916d8c16d880261516d7c16d780261116d6416d680260d16d5416d5c0260916d4416d4c0260516d3416d3c0260116d2416d28025fd16d1416d18025f916d085cca8025f516cfc5cc88025f116cf45cc68025ed16ce8)
  (.lf 0)) (.nd (.lf
  0x3fd3c3fd303fd243fd183fd0c3fd003fcf43fce83fcdc3fcd03fcc43fcb83fcac3fca048e08010003f94c3f9403f9343f9283f91c3f9103f9043f8f83f8ec3f8e03f8d43f8c83f8bc3f8b03f8a43f8983f88c3f8803f8743f8683f85c3f8503f8443f8383f82c3f8203f8143f8083f7fc3f7f048dfc00ff43f49c3f4903f4843f4783f46c3f4603f4543f4483f43c3f4303f4243f4183f40c3f4003f3f43f3e8)
  (.lf 0))) (.nd (.nd (.lf
  0x6584157d5158c535bd035bcc0bfb135bc035bbc0bfad35bb035bac0bfa935ba035b9c0bfa535b9035b8c0bfa135b8035b7c0bf9d35b7035b6c0bf9935b6035b5c0bf9535b5035b4c0bf9135b4035b3c0bf8d35b3035b2c0bf8935b2035b1c0bf8535b1035b0c0bf8135b0035afc0bf7d35af035aec0bf7935ae035adc0bf7535ad035acc0bf7135ac035abc0bf6d35ab035aac0bf6935aa035a9c0bf6535a90)
  (.lf 0)) (.nd (.lf
  0x206542064420630206202061420604205f4205e0205d4205c4205b4159ed47a644b0444b0284b00c4aff04afd44afb84afa04af884af704af584af404af284af104aef84aee04aec84aeb04ae984ae804ae684ae504ae384ae204ae084adf04add84adc04ada84ad984ad84205a4205982059420588205842057c205742056c205642055c205542054c205442053c205342052c205202051c205142050820504)
  (.lf 0)))

def shaPos15 : BTree :=
  .nd (.nd (.nd (.lf
  0x74614d870673a00745d4d85867374074594d84067348074554d8286731c074514d814672f00744d4d800672c4074494d7ec67298074454d7d86726c074414d7c4672400743d4d7b067218074394d79c671f0074354d788671c8074314d774671a00742d4d76067178074294d74c67150074254d73867128074214d724671000741d4d710670d8074194d6fc670b0074154d6e8631cc074114d6d4631ac0740d)
  (.lf 0)) (.nd (.lf
  0x23ab423a9823a8c23a8423a6c23a5823a4823a4423a340069000b482356823558235502354023528235182350823504234e8234d8234c8234b8234a8234982348823478234682345c2344c23438234282341c2340c233fc233ec233dc233cc233b8233ac233980068800b3822ed822ec822eb822eac22e9822e8c22e7c22e6822e5c22e4822e4022e3022e1822e0822df822de822de422dc822db822db422d98)
  (.lf 0))) (.nd (.nd (.lf
  0x10a8110a7d10a7910a7510a7110a6d10a6910a6510a6110a5d10a5910a5510a5110a4d10a4910a4515b4547a5c4b03c4b0204b0044afe84afcc4afb04af984af804af684af504af384af204af084aef04aed84aec04aea84ae904ae784ae604ae484ae304ae184ae004ade84add04adb84ada04ad8c4ad7847a4c10a4110a3d10a3910a3510a3110a2d10a2910a2510a2110a1d10a1910a1510a1110a0d10a09)
  (.lf 0)) (.nd (.lf
  0x3ac143ac083abfc3abf03abe03abd83abcc3abc03abb43aba83ab9c3ab9015f01000ac03524035200351c0351803514035100350c035080350403500034fc034f8034f4034f0034ec034e8034e4034e0034dc034d8034d4034d0034cc034c8034c4034c0034bc034b8034b4034b03ab843ab743ab603ab543ab443ab343ab243ab143ab043aaf43aae43aad43aac03aab43aaa43aa943aa843aa743aa643aa54)
  (.lf 0)))

def shaPos16 : BTree :=
  .nd (.nd (.nd (.lf
  0x89412374123681234c1233c12330123201231812300122ec122e0122d8122c8122b8122a412290122801226c12264122541224012238122201220c12204121f8121e8121d8121bc121b8121a4063080088c1202c12018120101200011ff011fe011fc411fb811fac11f9c11f8811f8011f7011f5c11f4c11f3811f2811f1811f0811efc11ee811ed811ec811ebc11eb011e9c11e8811e7811e6811e5806300)
  (.lf
  0x69b7c69b5469b2c69b0469adc69ab469a8c63c5463c3463c1463bf463bd463bb463b94620e8620cc3f9543f9483f93c3f9303f9243f9183f90c3f9003f8f43f8e83f8dc3f8d03f8c43f8b83f8ac3f8a03f8943f8883f87c3f8703f8643f8583f84c3f8403f8343f8283f81c3f8103f8043f7f815f5154dcc6bd4c6bd1c6bcec6bcc06bc946bc686bc3c6bc106bbe46bbb86bb8c6bb606bb386bb106bae86bac0))
  (.nd (.lf
  0x121c1121bd121b9121b5121b1121ad121a9121a5121a11219d1219912195121911218d121891218515c0d47f545262c52610525f4525d8525bc525a0525885257052558525405252852510524f8524e0524c8524b052498524805246852450524385242052408523f0523d8523c0523a8523905237c5236847f44121811217d1217912175121711216d1216912165121611215d1215912155121511214d12149)
  (.lf 0))) (.nd (.nd (.lf
  0x825d29b1c29b180825929b1029b0c0825529b0029afc0825129af029aec0824d29ad829adc0824929ad029acc0824529abc29ab80824129ab029aa80823d29a9c29aa00823929a8c29a900823529a8029a7c0823129a6829a6c0822d29a6029a5c0822929a4829a4c0822529a4029a3c0822129a2829a300821d29a2029a1c0821929a0829a0c0821529a00299fc08211299ec299e80820d299d8299e008209)
  (.lf 0)) (.nd (.lf
  0x50d8850d7450d6050d4c50d3850d2450d1050d0050cf047e3047e2050cdc50cc450cac50c9450c7c50c6450c5050c3c50c2850c1450c0050bec50bd850bc450bb050b9c50b8850b7450b6050b4c50b3850b2450b1050afc50ae850ad450ac050aac50a9c50a8c47e1447e0850a7c50a6450a4c50a3450a1c50a04509f0509dc509c8509b4509a05098c5097850964509505093c509285091450900508ec508d8)
  (.lf 0)))

def shaPos17 : BTree :=
  .nd (.nd (.nd (.lf
  0x1a62c1a6340363d1a61c1a624036391a60c1a614036351a5fc1a604036311a5ec1a5f40362d1a5dc1a5e4036291a5cc1a5d4036251a5bc1a5c4036211a5ac1a5b40361d1a59c1a5a4036191a58c1a594036151a57c1a584036111a56c1a5740360d1a55c1a564036091a54c1a554036051a53c1a544036011a52c1a534035fd1a51c1a524035f91a50c1a514035f51a4fc1a504035f11a4ec1a4f4035ed1a4dc)
  (.lf 0)) (.nd (.lf
  0x6bb046badc6bab46ba8c6ba646ba3c6ba146b9ec6443464414643f4643d4643b464394643746b7946b76c6b74454db86b9d46b9a46b9746b9486b91c6b8f06b8c46b8986b86c6b8406b8146b7e86b7c06b7986b7706b7486b7206b6f86b6d06b6a86b68064364643446432464304642e4642c4642a46b4086b3e06b3b854d9c6b6486b6186b5e86b5bc6b5906b5646b5386b50c6b4e06b4b46b4886b45c6b434)
  (.lf 0))) (.nd (.nd (.lf
  0x66e1c390100cf4d66df4390080cf4966dcc38ff80cf4566da438fec0cf4166d7c38fe00cf3d66d5438fd80cf396310438fc80cf35630e438fc00cf31630c438fb40cf2d630a438fa80cf296308438f9c0cf256306438f900cf216304438f840cf1d61e1c38f780cf1961e0038f6c0cf1538f5c38f580cf1138f4c38f480cf0d38f4038f380cf0938f2c38f280cf0538f1838f1c0cf0138f0c38f100cefd38f00)
  (.lf 0)) (.nd (.lf
  0x255d4255c4255b4255a425590255842557425560255502554425534255242551425504254f4254e4254d4254c4254b0254a425494254842547015a1d54bc866608665d8665ac665806655466528664fc664d0664a4664786644c66424663fc663d4663ac663846635c663346630c662e4662bc62e4862e2862e0862de862dc862da862d8861d6061d40254642545c254542544c254442543c254342542c25420)
  (.lf 0)))

def shaPos18 : BTree :=
  .nd (.nd (.nd (.lf
  0xb95110bc56ec400b91110b456ea400b8d110a456e8400b891109856e6800b851108c56e4c00b811108056e3000b7d1107856e1400b791106c56df800b751105c56ddc00b711105056dc000b6d1104856da400b691103856d8800b651103056d7000b611102456d5800b5d1101856d4000b591100c56d2800b5510ffc56d0c00b5110ff056cf400b4d10fe456cdc00b4910fdc56cc800b4510fcc56cac00b41)
  (.lf 0)) (.nd (.lf
  0x553d41421144c38553b81420d44c30553a41420944c20553901420544c145537c1420144c0855368141fd44c0055354141f944bf055340141f544be45532c141f144bd855318141ed44bd044bcc141e944bc044bbc141e544bb044bac141e144ba044b9c141dd44b9044b8c141d944b8044b7c141d544b7044b6c141d144b6044b5c141cd44b5044b4c141c944b4044b3c141c544b3044b2c141c144b2044b1c)
  (.lf 0))) (.nd (.nd (.lf
  0xa7fd31108311100a7f9310f8311000a7f5310e8310f00a7f1310d8310e00a7ed310c8310d00a7e9310b8310c00a7e5310a8310b00a7e131098310a00a7dd31088310900a7d931078310800a7d531068310700a7d131058310600a7cd31048310500a7c931038310400a7c531028310300a7c131018310200a7bd31008310100a7b930ff8310000a7b530fe830ff00a7b101386013820137e0137a0137601372)
  (.lf 0)) (.nd (.lf
  0xe0ec17f5817f4817f3817f2817f1817f0817ef817ee817ed817ec817eb817ea817e9817e8817e7817e6817e5817e4817e3817e2817e1817e0817df817de417dd817dc817db817da817d9817d8815d61547e05dd345dd145dcf45dcd45dcb45dc945dc745dc545dc345dc145dbf45dbd45dbb85db9c5db805db645db485db2c5db105daf45dad85dabc5daa45da8c5da745da5c5da445da2c5da145da0017d78)
  (.lf 0)))

def shaPos19 : BTree :=
  .nd (.nd (.nd (.lf
  0x182e0bd3005cdd0182a0bd2405cd9018260bd1805cd50174414cb10173c14cad0bd1014ca9018220bd0c05cd10181e0bd0005ccd0bcf814ca50181a0bcf405cc9018160bce405cc5018120bcdc05cc10bcd414ca10180e0bcd005cbd0180a0bcc005cb90bcbc14c9d018060bcb805cb5018020bcac05cb10171414c990170c14c950170414c91016fc14c8d064d414c891586d2239c2239805cad223902238c)
  (.lf 0)) (.nd (.lf
  0xc53c0c530026d00c524026c8026c00c5180c50c0c500026b8026b0026a8026a0065400127a000240b2a00b294026980b2880b27c0b2700b2640b258026900b24c0b2400b2340b2280b21c02688026800b2100267802670026680b2040b1f80b1ec0b1e0026600265802650026480b8700122a00578003f80264002638026300b1d40b1c80b1bc0b1b00b1a40b19802628026200261802610026080b18c0b180)
  (.lf 0))) (.nd (.nd (.lf
  0x41e280f9f96b74041e1c0f9f56b71841e100f9f16b6f041e040f9ed6b6c841df80f9e96b6a041dec0f9e56b67841de00f9e16436041dd40f9dd6434041dc80f9d96432041dbc0f9d56430041db00f9d1642e041da40f9cd642c041d980f9c9642a041d8c0f9c5622b441d800f9c16229841d740f9bd5415841d680f9b95413441d5c0f9b55411041d500f9b1540ec41d440f9ad540c841d380f9a9540a441d2c)
  (.lf 0)) (.nd (.lf
  0x32a04329f4329e4329d4329c4329b4329a432994329843297432964329543294432934329243291432904328f4328e4328d4328c4328b4328a4328943288432874328643285414955007b409cdc09cd809cd409cd009ccc09cc809cc409cc009cbc09cb809cb409cb009cac09ca809ca409ca009c9c09c9809c9409c9009c8c09c8809c8409c8009c7c09c7809c7409c7009c6c09c6832844328343282432814)
  (.lf 0)))

def shaPos20 : BTree :=
  .nd (.nd (.nd (.lf
  0x67f5467f2c67f0467edc67eb468204681d4681a4681786814c68120680f4680c86809c680706804468208681d8681a86817c6815068124680f8680cc680a068074680486801c67ff467bd867bb067b8867b6067b3867e8867e5867e2867dfc67dd067da467d7867d4c67d2067cf467cc867e8c67e5c67e2c67e0067dd467da867d7c67d5067d2467cf867ccc67ca067c786785c678346780c677e4677bc67b0c)
  (.lf 0)) (.nd (.lf
  0x59294592785925c592405922459208591ec591d0591b8591a05918859170591585914059128591105445012cf912cf512cf112ced12ce912ce512ce112cdd12cd912cd512cd112ccd12cc912cc512cc112cbd12cb912cb512cb112cad12ca912ca512ca112c9d12c9912c9512c9112c8d12c8912c8512c8112c7d54440590fc590dc590bc5909c5907c5905c5903c5901c58ffc58fdc58fbc58f9c58f8058f64)
  (.lf 0))) (.nd (.nd (.lf
  0x2d6680953d2d6602d658095392d6502d648095352d6402d638095312d6302d6280952d2d6202d618095292d6102d608095252d6002d5f8095212d5f02d5e80951d2d5e02d5d8095192d5d02d5c8095152d5c02d5b8095112d5b02d5a80950d2d5a02d598095092d5902d588095052d5802d578095012d5702d568094fd2d5602d558094f92d5502d548094f52d5402d538094f12d5302d528094ed2d5202d518)
  (.lf 0)) (.nd (.lf
  0x112e0112d0112c0112ac112a01128c1127c112701126011250112401122c1122011210111fc111f0111dc111d0111c0111ac111a0111901117c1117011160111501114015ff9542b856fe856fc856fa856f8856f6856f4856f2856f0856ee856ec856ea856e8856e6c56e5056e3456e1856dfc56de056dc456da856d8c56d6c56d5456d3c56d2456d1056cf856ce056cc456cb01112c111241111411108110fc)
  (.lf 0)))

def shaPos21 : BTree :=
  .nd (.nd (.nd (.lf
  0x4a051e8701e87404a011e8601e864049fd1e8501e858049f9008be008ba008b6008b2008ae008aa008a6008a20089e0089a0137c14ac50137414ac10136c14abd0bb4814ab90178a0bb44049f50135c14ab50bb3c14ab1017860bb38049f1017820bb2c049ed0134c14aad0bb2414aa90177e0bb20049e90133c14aa50133414aa10132c14a9d0bb1814a990177a0bb14049e5017760bb08049e1017720bafc)
  (.lf 0)) (.nd (.lf
  0x5ebd45ebb85eb9c5eb805eb645eb485eb305eb185eb005eae85ead05eab85eaa05ea88548905487c5ea705ea505ea305ea105e9f05e9d05e9b05e9905e9705e9505e9305e9105e8f45e8d85e8bc5e8a05e8845e8685e84c5e8305e8145e7f85e7e05e7c85e7b05e7985e7805e7685e7505e73854868548545e7205e7005e6e05e6c05e6a05e6805e6605e6405e6205e6005e5e05e5c05e5a45e5885e56c5e550)
  (.lf 0))) (.nd (.nd (.lf
  0xe4a56a4ec3d7180e4a16a4bc3d70c0e49d6a48c3d7000e4996a4603d6f40e4956a4343d6e80e4916a4083d6dc0e48d6a3dc3d6d00e4896a3b03d6c40e4856a3843d6b80e4816a3583d6ac0e47d6a32c3d6a00e4796a3003d6940e4756a2d83d6880e4716a2b03d67c0e46d6a2883d6700e4696a2603d6640e4656a2383d6580e4616a2103d64c0e45d6a1e83d6400e4596a1c03d6340e4556a1983d6280e451)
  (.lf 0)) (.nd (.lf
  0x2bfc42bfb42bfa42bf942bf842bf742bf642bf5414915007340955c0955809554095500954c0954809544095400953c0953809534095300952c0952809524095200951c0951809514095100950c095080950409500094fc094f8094f4094f0094ec094e82bf442bf342bf242bf142bf042bef42bee42bed42bec42beb42bea42be942be842be742be642be542be442be342be242be142be042bdf42bde42bdd4)
  (.lf 0)))

def shaPos22 : BTree :=
  .nd (.nd (.nd (.lf
  0x5b96c020e915b805b954020e515b785b93c020e115b6c5b924020dd15b5c5b90c020d915b545b8f4020d515b485b8dc020d115b3415b38020cd15b2415b2c020c915b1415b1c020c515b0415b08020c115af415af8020bd15ae415aec020b915ad415ad8020b515ac815acc020b115ab415ab8020ad15aac15aa8020a915a9415a98020a515a8415a8c020a115a7415a780209d15a6415a680209915a5415a58)
  (.lf 0)) (.nd (.lf
  0x44708446f8446e8446d8446c8446b8446a844698446884467844668446584464844638010e0010bc442e4442d8442cc442c0442b4442a84429c4429044284442784426c4426044254442484423c4423044224442184420c44200441f4441e8441dc441d0441c4441b8441ac441a044194441880cbc4010b043e3443e2843e1c43e1043e0443df843dec43de043dd443dc843dbc43db043da443d9843d8c43d80)
  (.lf 0))) (.nd (.nd (.lf
  0x34cd00baed34cb834cc00bae934ca834cb00bae534c9834ca00bae134c8834c900badd34c7834c800bad934c6834c700bad534c5834c600bad134c4834c500bacd34c3834c400bac934c2834c300bac534c1834c200bac134c0834c100babd34bf834c000bab934be834bf00bab534bd834be00bab134bc834bd00baad34bb834bc00baa934ba834bb00baa534b9834ba00baa134b8834b900ba9d34b7834b80)
  (.lf 0)) (.nd (.lf
  0x4a3004a2e84a2d04a2bc4a2a44a2884a2704a25c4a2404a2304a21c1eb401eb381eb301eb281eb201eb141eb101eb041eafc1eaf41eaf01eae41eae01ead81eacc1eac81eac01eab81eaac1eaa81eaa01ea981ea881ea801ea701ea681ea581ea501ea441ea3815b35004340685c0685806854068500684c0684806844068400683c0683806834068300682c0682806824068200681c0681806814068100680c)
  (.lf 0)))

def shaPos23 : BTree :=
  .nd (.nd (.nd (.lf
  0x25f9c06f9d25f9025f8c06f9925f8025f7c06f9525f6825f6c06f9125f6025f5c06f8d25f5025f4c06f8925f3c25f4006f8525f2825f3006f8125f2025f1806f7d25f1025f0806f7925f0025efc06f7525ef025eec06f7125ee025edc06f6d25ed025ecc06f6925ec025eb806f6500cfa00cf600cf200cee00cea00ce600ce200cde00cda00cd600cd200cce00cca00cc600cc200cbe0bfa014f0d018fe0bf9c)
  (.lf 0)) (.nd (.lf
  0x30b7c30b7030b6830b6430b5830b5030b4830b4030b3847e4000d80305903058c305803057c305703056c305603055c305543054c3054430538305303052c305243051c305103050830500304f8304f0304ec304e0304d8304d0304cc304c4304bc304b4304a847e2400d6c2ff002fef82fef02fee82fee02fed82fed02fec82fec02feb82feb02fea82fea02fe982fe902fe882fe802fe782fe702fe682fe60)
  (.lf 0))) (.nd (.nd (.lf
  0x513b45139c51384513705135c5134851334513205130c512f8512e4512d0512bc512a851294512805126c50ff050fdc50fc850fb450fa050f8c50f785119051178511605114851130511945117c511645114c511345111c51108510f4510e0510cc510b8510a4510905107c5106851054510405102c510185100450d9050d7c50d6850d5450d4050d2c50d1850f3050f1850f0050ee850ed050f3450f1c50f04)
  (.lf 0)) (.nd (.lf
  0x619a4619846196454b5854b4054b2854b1454af854ae054ac852c0052bec39234392283921c3921039204391f8391ec391e0391d4391c8391bc391ac391a4391983918c3918039174391643915c3915039144391383912c391203911039108390fc390f0390e0390d815c6d54c14670a467074670446701866fec66fc066f9466f6866f3c66f1066ee466eb866e9066e6866e4066e1866df066dc866da066d78)
  (.lf 0)))

def shaPos24 : BTree :=
  .nd (.nd (.nd (.lf
  0x9a419304192ec192e8192d0192bc192ac192a81929819280192781925c1924c1923c19234192281921819204191ec191dc191cc191c0191ac191a81918c191841917019164191501914019130064180099c18fb418fa418f9418f8418f7418f6418f5418f4418f3418f2418f1418f0418ef418ee418ed418ec418eb418ea418e9418e8418e7418e7018e5818e4818e3818e2818e1818e0818df818de806410)
  (.lf
  0x64680646586463064608645e0645b86459064568645406283862818627f8627d8627b8627986277854e4454e2842ce442cd842ccc42cc042cb442ca842c9c42c9042c8442c7842c6c42c6042c5442c4842c3c42c3042c2442c1842c0c42c0042bf442be842bdc42bd042bc442bb842bac42ba042b9442b8815df54504c468c8468b046898468804686846850468384682046808467f0467d8467c0467ac46798))
  (.nd (.lf
  0x61200611e0611c0611a06118061160611406112061100610e0610c0610a4610886106c61050610346101860cac60c9060c7460ecc60eac60e8c60e6c60e4c60e2c60e0c60dec60dcc60dac60d8c60ed060eb060e9060e7060e5060e3060e1060df060dd060db060d9060d7060d5460d3860d1c60d0060ce460cc86095c609406092460b7c60b5c60b3c60b1c60afc60adc60abc60a9c60a7c60a5c60a3c60b80)
  (.lf 0))) (.nd (.nd (.lf
  0x8bcd2b8802b87c08bc92b8702b86c08bc52b8602b85c08bc12b8502b84c08bbd2b8402b83c08bb92b8302b82c08bb52b8202b81c08bb12b8102b80c08bad2b8002b7fc08ba92b7f02b7ec08ba52b7e02b7dc08ba12b7d02b7cc08b9d2b7c02b7bc08b992b7b02b7ac08b952b7a02b79c08b912b7902b78c08b8d2b7802b77c08b892b7702b76c08b852b7602b75c08b812b7502b74c08b7d2b7402b73c08b79)
  (.lf 0)) (.nd (.lf
  0x508345082447df447e0050a7450a5c50a4450a2c50a14509fc5078850774507605074c507385072450710506fc506e8506d4506c0506ac5069850684506705065c5064850634506205060c505f8505e4505d4505c447ddc47de850814507fc507e4507cc507b45079c505285051450500504ec504d8504c4504b05049c5048850474504605044c504385042450410503fc503e8503d4503c0503ac5039850384)
  (.lf 0)))

def shaPos25 : BTree :=
  .nd (.nd (.nd (.lf
  0x40b11ca4c1ca50040ad1ca441ca3c040a91ca2c1ca30040a51ca201ca1c040a11ca101ca140409d1ca041c9fc040991c9ec1c9f4040951c9e41c9dc040911c9cc1c9d40408d1c9bc1c9c0040891c9ac1c9b0040851c9a01c9a4040811c98c1c9900407d1c97c1c980040791c9741c96c04075496ac1c96404071496941c9580406d4967c1c94804069496641c940040654964c1c93404061496341c9240405d)
  (.lf 0)) (.nd (.lf
  0x2fb282fb182fb082faf82fae82fad82fac82fab82faa82fa982fa882fa782fa682fa580033000d502f5982f5882f5782f5682f5582f5482f5382f5282f5182f5082f4f82f4e82f4d82f4c82f4b82f4a82f4982f4882f4782f4682f4582f4482f4382f4282f4182f4082f3f82f3e82f3d82f3c80032800d402ef082eef82eee82eed82eec82eeb82eea82ee982ee882ee782ee682ee582ee482ee382ee282ee18)
  (.lf 0))) (.nd (.nd (.lf
  0x3b3780d9f93b3703b3680d9f53b35c3b3580d9f13b34c3b3500d9ed3b33c3b3380d9e93b3303b32c0d9e53b31c3b3200d9e13b30c3b3080d9dd6699c3b3000d9d96696c3b2f40d9d56693c3b2e80d9d1669103b2dc0d9cd668e43b2d00d9c9668b83b2c40d9c56688c3b2b80d9c1668603b2a80d9bd668343b2a00d9b9668083b2940d9b5667dc3b2880d9b1667b43b27c0d9ad6678c3b26c0d9a9667643b264)
  (.lf 0)) (.nd (.lf
  0x91600915c0915809154091500914c0914809144091400913c0913809134091300912c0912828ac428ab428aa028a9428a8428a7028a6028a5428a4428a3428a2428a1028a04289f4289e4289d4289c4289b4289a428994289842897028964289542894428934289202891428904288f415a3d54c68681e8681b86818c681606813468108680dc680b068084680586802c6800467fdc67fb467f8c67f6467f3c)
  (.lf 0)))

def shaPos26 : BTree :=
  .nd (.nd (.nd (.lf
  0x1361c136200163d136101361401639136001360401635135ec135f401631135e4135e00162d135cc135d001629135c4135bc01625135b4135ac01621135a01359c0161d1359413590016191358413580016151356c13570016111355c135600160d1354c13550016091354059458016051353459438016011352859418015fd13520593f8015f913514593d8015f513508593b8015f1134fc59398015ed134ec)
  (.lf 0)) (.nd (.lf
  0x41fac41f9c41f8c41f7c41f6c41f5c41f4c41f3c41f2c41f1c41f0c41efc41eec41edc001700105841bfc41bec41bdc41bcc41bbc41bac41b9c41b8c41b7c41b6c41b5c41b4c41b3c41b2c41b1c41b0c41afc41aec41adc41acc41abc41aac41a9c41a8c41a7c41a6c41a5c41a4c41a3c41a2c001680104c4174c4173c4172c4171c4170c416fc416ec416dc416cc416bc416ac4169c4168c4167c4166c4165c)
  (.lf 0))) (.nd (.nd (.lf
  0x32f5c0b19132f5032f4c0b18d32f4032f3c0b18932f3032f2c0b18532f2032f1c0b18132f1032f0c0b17d32f0032efc0b17932ef032eec0b17532ee032edc0b17132ed032ecc0b16d32ec032ebc0b16932eb032eac0b16532ea032e9c0b16132e9032e8c0b15d32e8032e7c0b15932e7032e6c0b15532e6032e5c0b15132e5032e4c0b14d32e4032e3c0b14932e3032e2c0b14532e2032e1c0b14132e1032e0c)
  (.lf 0)) (.nd (.lf
  0x6128061268612501b5401b5301b5281b51c1b50c1b5001b4f81b4ec1b4e01b4d41b4c81b4b81b4ac1b4a01b4981b4881b47c1b4701b4681b4581b44c1b4401b4381b42c1b4201b4141b4081b3f81b3ec1b3e015dd10646c0e8e00e8dc0e8d80e8d40e8d00e8cc0e8c80e8c40e8c00e8bc0e8b80e8b40e8b00e8ac0e8a80e8a40e8a00e89c0e8980e8940e8900e88c0e8880e8840e8800e87c0e8780e8740e870)
  (.lf 0)))

def shaPos27 : BTree :=
  .nd (.nd (.nd (.lf
  0x6661242402423c0665d242302422c06659242202421c06655242102420c0665124200241fc0664d241f0241ec06649241e0241dc06645241d0241cc06641241c0241bc0663d241b0241ac06639241a02419c06635241902418c06631241802417c0662d241702416c06629241602415c06625241502414c06621241402413c0661d241302412c066192411c2412006615241082411006611240fc241000660d)
  (.lf 0)) (.nd (.lf
  0x59000d7c3049c3048c3047c3046c3045c3044c3043c3042c3041c3040c303fc303ec303dc303cc303bc303ac3039c3038c3037c3036c3035c3034c3033c3032c3031c3030c302fc302ec302dc00d682fe0c2fdfc2fdec2fddc2fdcc2fdbc2fdac2fd9c2fd8c2fd7c2fd6c2fd5c2fd4c2fd3c2fd2c2fd1c2fd0c2fcfc2fcec2fcdc2fccc2fcbc2fcac2fc9c2fc8c2fc7c2fc6c2fc5c2fc4c2fc3c0058000d54)
  (.lf 0))) (.nd (.nd (.lf
  0x104a547240441e0104a14722c441d41049d47218441c81049947204441bc10495471f0441b010491471dc441a41048d458804419810489458744418c1048544180441781048144170441681047d44160441581047944150441481047544140441381047144130441281046d44120441181046944110441081046544100440f810461440f0440e81045d440e0440d810459440d0440c810455440c0440b810451)
  (.lf 0)) (.nd (.lf
  0x35dc435dbc15af1005fc08314083100830c083080830408300082fc082f8082f4082f0082ec082e8082e4082e0082dc082d8082d4082d0082cc082c8082c4082c0082bc082b8082b4082b0082ac082a8082a4082a035db435da435d9435d8435d7435d6435d5435d4435d3435d2435d1435d0435cf435ce435cd435cc435cb435ca435c9435c8435c7435c6435c5435c4435c3435c2435c1435c0435bf435be4)
  (.lf 0)))

def shaPos28 : BTree :=
  .nd (.nd (.nd (.lf
  0xeee8000e952f200eed8000e552f000eed0000e152ee00eec4000dd52ec00eeb4000d952ea40eeac000d552e880ee9c000d152e6c0ee94000cd52e500ee88000c952e340ee7c000c552e180ee70000c152dfc0ee60000bd52de00ee54000b952dc40ee48000b552da80ee40000b152d8c0ee34000ad52d740ee28000a952d580ee1c000a552d3c0ee0c000a152d200ee000009d52d040edf80009952ce80ede8)
  (.lf 0)) (.nd (.lf
  0x5d8285d80c5d7f05d7d45d7b85d79c5d7805d7645d74c5d7345d71c5d7045d6ec5d6d45d6bc5d6a45479c547ac5d9d85d9b85d9985d9785d9585d9385d9185d8f85d8d85d8b85d8985d8785d85c5d8405d8245d8085d7ec5d7d05d7b45d7985d77c5d7605d7485d7305d7185d7005d6e85d6d05d6b85d6a0547981377913775137711376d1376913765137611375d1375913755137511374d137491374513741)
  (.lf 0))) (.nd (.nd (.lf
  0x9ebd2f4802f47c09eb92f4702f46c09eb52f4602f45c09eb12f4502f44c09ead2f4402f43c09ea92f4302f42c09ea52f4202f41c09ea12f4102f40c09e9d2f4002f3fc09e992f3f02f3ec09e952f3e02f3dc09e912f3d02f3cc09e8d2f3c02f3bc09e892f3b02f3ac09e852f3a02f39c09e812f3902f38c09e7d2f3802f37c09e792f3702f36c09e752f3602f35c09e712f3502f34c09e6d2f3402f33c09e69)
  (.lf 0)) (.nd (.lf
  0x148ec148e0148d4148c8148bc148b0148a0148941488c1488014874148681485c1485014844148381482c148201481414808147fc147f0147e4147d8147cc147c0147b4147a81479c15d11063640d9680d9640d9600d95c0d9580d9540d9500d94c0d9480d9440d9400d93c0d9380d9340d9300d92c0d9280d9240d9200d91c0d9180d9140d9100d90c0d9080d9040d9000d8fc0d8f80d8f41478c1478014770)
  (.lf 0)))

def shaPos29 : BTree :=
  .nd (.nd (.nd (.lf
  0x4b04848494053654b02c4847c053614b010484640535d4aff448450053594afd84843c053554afbc48428053514afa4484140534d4af8c48400053494af74483ec053454af5c483d8053414af44483c40533d4af2c483b0053394af144839c053354aefc48388053314aee4483740532d4aecc48360053294aeb44834c053254ae9c48338053214ae84483240531d4ae6c48310053194ae54482fc053154ae3c)
  (.lf 0)) (.nd (.lf
  0x5e4245e40c5e3f45e3dc54834548485e7145e6f45e6d45e6b45e6945e6745e6545e6345e6145e2a45e2845e2645e2485e22c5e2105e1f45e1d85e1bc5e1a05e1845e1685e14c5e1345e11c5e1045e0ec5e0d45e0bc5e0a45e08c5480c548205e3c45e3a45e3845e3645e3445e3245e3045e2e45e2c45df545df345df145def85dedc5dec05dea45de885de6c5de505de345de185ddfc5dde45ddcc5ddb45dd9c)
  (.lf 0))) (.nd (.nd (.lf
  0x3fab83fac00ef4d3faa83fab00ef493fa983faa00ef453fa883fa900ef413fa783fa800ef3d3fa683fa700ef393fa583fa600ef353fa483fa500ef313fa383fa400ef2d3fa283fa300ef293fa183fa200ef253fa083fa100ef213f9f83fa000ef1d3f9e83f9f00ef193f9d83f9e00ef153f9c83f9d00ef113f9b83f9c00ef0d3f9a83f9b00ef093f9983f9a00ef053f9883f9900ef013f9783f9800eefd3f968)
  (.lf 0)) (.nd (.lf
  0x2f4a42f4942f4842f4742f4642f4542f4442f4342f4242f4142f4042f3f42f3e42f3d414935007740991c0991809914099100990c099080990409900098fc098f8098f4098f0098ec098e8098e4098e0098dc098d8098d4098d0098cc098c8098c4098c0098bc098b8098b4098b0098ac098a82f3c42f3b42f3a42f3942f3842f3742f3642f3542f3442f3342f3242f3142f3042f2f42f2e42f2d42f2c42f2b4)
  (.lf 0)))

def shaPos30 : BTree :=
  .nd (.nd (.nd (.lf
  0x2b95180b05e06802b91180a45e04802b8d180985e02802b891808c5e00802b85180805dfe802b81180745dfc802b7d180685dfa802b791805c5df8802b75180505df6802b71180445df4802b6d180385df2802b69180285df0c02b65180205def002b61180105ded402b5d180085deb802b5917ff85de9c02b5517ff05de8002b5117fe05de6402b4d17fd85de4802b4917fc85de2c02b4517fc05de1002b41)
  (.lf 0)) (.nd (.lf
  0x65718656ec656c065694656686564065618655f0655c8655a065578655506552865500654d865298652706524865220651f8651d0651a86518065158629f054b68654ac6547c6544c65420653f4653c86539c653706534465318652ec652c06529c652746524c65224651fc651d4651ac651846515c61a5861a3861a14619f8619d8619b861998619786195854b5052c0c61c0c61be461bbc61b9461b7461b50)
  (.lf 0))) (.nd (.nd (.lf
  0xc4a54809c36c4c0c4a14808836c440c49d4807436c340c4994806036c2c0c4954804c36c200c4914803836c140c48d4802436c080c4894801036bf80c48547ffc36bec0c48147fe836be00c47d47fd436bd40c47947fc036bc80c47547fac36bbc0c47145aa036bb00c46d45a9036ba40c46945a7c36b9c0c46545a7036b900c46145a6036b800c45d45a4c36b780c45945a3c36b680c45545a2c36b600c451)
  (.lf 0)) (.nd (.lf
  0x220a42209422084220742206022054220442203422020220142200421ff0159fd47ae44bba44bb884bb6c4bb504bb344bb184bb004bae84bad04bab84baa04ba884ba704ba584ba444ba2c4ba144b9fc4b9e44b9cc4b9b44b99c4b9844b96c4b9544b93c4b9244b90c4b8f84b8e421fe021fdc21fd421fcc21fc421fbc21fb421fa821fa021f9c21f9421f8c21f8021f7c21f7421f6c21f6421f5821f5421f48)
  (.lf 0)))

def shaPos31 : BTree :=
  .nd (.nd (.nd (.lf
  0x27e0c27e100792927df827dfc0792527dec27df00792127de027ddc0791d27dc827dd00791927db827dc00791527da827db00791127da027d980790d27d8827d900790927d7827d800790527d6827d6c0790127d5c27d60078fd27d4827d50078f927d4027d3c078f527d3027d28078f127d1827d1c078ed27d1027d08078e927cf827d00078e527ce827cf0078e127ce027cd8078dd27ccc27cc8078d927cc0)
  (.lf 0)) (.nd (.lf
  0x30ca830c9830c8830c7830c6830c5830c4830c3830c280079000d8430768307583074830738307283071830708306f8306e8306d8306c8306b8306a830698306883067830668306583064830638306283061830608305f8305e8305d8305c8305b8305a8305980078800d70300d8300c8300b8300a8300983008830078300683005830048300383002830018300082fff82ffe82ffd82ffc82ffb82ffa82ff98)
  (.lf 0))) (.nd (.nd (.lf
  0x112411123d1123911235112311122d1122911225112211121d1121911215112111120d112091120515b8547c0c4d8984d8804d8684d8504d8384d8204d80c4d7f84d7e44d7d04d7bc4d7a84d7944d7804d76c4d7584d7444d7304d71c4d7084d6f44d6e04d6cc4d6b84d6a44d6904d67c4d6684d6584d64847c0011201111fd111f9111f5111f1111ed111e9111e5111e1111dd111d9111d5111d1111cd111c9)
  (.lf 0)) (.nd (.lf
  0x674d8674b0674886746067438632b46329463274632546323463214631f461e8061e643c5c43c5b83c5ac3c5a03c5943c5883c57c3c5703c5643c5583c54c3c5403c5343c5283c51c3c5103c5043c4f83c4ec3c4e03c4d43c4c83c4bc3c4b03c4a43c4983c48c3c4803c4743c46815ecd54cf0696f8696c8696986966c6964069614695e8695bc6959069564695386950c694e4694bc694946946c694446941c)
  (.lf 0)))

def shaPos32 : BTree :=
  .nd (.nd (.nd (.lf 0x0) (.lf
  0x3ed243ed143ed043ecf43ece43ecd43ecc43ecb43eca43ec943ec843ec743ec643ec543ec443ec343ec243ec143ec043ebf43ebe43ebd43ebc43ebb43eba43eb943eb843eb743eb643eb541482d54cd4693686933869308692dc692b069284692586922c69200691d4691a869180691586913069108690e0690b869090690686904069018639b46399463974639546393463914638f462040620243eb443eb38))
  (.nd (.lf
  0x11de111ddd11dd911dd511dd111dcd11dc911dc511dc111dbd11db911db511db111dad11da911da515be547e545119c511845116c511545113c5112451110510fc510e8510d4510c0510ac5109851084510705105c5104851034510205100c50ff850fe450fd050fbc50fa850f9450f8050f6c50f5c50f4c47e4811da111d9d11d9911d9511d9111d8d11d8911d8511d8111d7d11d7911d7511d7111d6d11d69)
  (.lf 0))) (.nd (.nd (.lf
  0x80052935c2935808001293482935007ffd293382934007ff900eca00ec600ec200ebe00eba00eb600eb200eae00eaa00ea600ea200e9e00e9a00e960c16c15105019960c16807ff501fb4151010c160150fd019920c15c07ff10198e0c15007fed0198a0c14407fe9019860c13407fe50c130150f9019820c12c07fe10197e0c12007fdd0c118150f50197a0c11007fd9019760c10807fd5019720c0fc07fd1)
  (.lf 0)) (.nd (.lf
  0x4e7844e7704e75c4e7484e7344e7204e70c4e6fc4e6ec47cac47ca04e6dc4e6c44e6ac4e6944e67c4e6644e6504e63c4e6284e6144e6004e5ec4e5d84e5c44e5b04e59c4e5884e5744e5604e54c4e5384e5244e5104e4fc4e4e84e4d44e4c04e4ac4e49c4e48c47c9447c884e47c4e4644e44c4e4344e41c4e4044e3f04e3dc4e3c84e3b44e3a04e38c4e3784e3644e3504e33c4e3284e3144e3004e2ec4e2d8)
  (.lf 0)))

def shaPos33 : BTree :=
  .nd (.nd (.nd (.lf
  0x339519ce85fb1c0339119cd419cdc0338d19ccc19cc40338919cb419cbc0338519cac19ca40338119c9419c9c0337d19c8c19c840337919c7419c7c0337519c6c19c680337119c5c19c580336d19c4c19c480336919c3c19c380336519c2c19c280336119c1c19c180335d19c0c19c080335919bfc19bf80335519bec19be80335119bdc19bd80334d19bcc19bc80334919bbc19bb80334519bac19ba803341)
  (.lf 0)) (.nd (.lf
  0x6834c68324682fc682d4682ac682846825c682346363c6361c635fc635dc635bc6359c6357c67fcc67fa467f7c54c746820c681dc681ac681806815468128680fc680d0680a4680786804c6802067ff867fd067fa867f8067f5867f3067f0867ee067eb86355c6353c6351c634fc634dc634bc6349c67c5067c2867c0054c6067e9067e6067e3067e0467dd867dac67d8067d5467d2867cfc67cd067ca467c7c)
  (.lf 0))) (.nd (.nd (.lf
  0xcca5668a0387200cca166874387140cc9d66848387080cc996681c386f80cc95667f0386f00cc91667c4386e00cc8d6679c386d80cc8966774386cc0cc856674c386c00cc8166724386b00cc7d666fc386a40cc79666d4386980cc75666ac3868c0cc7166684386800cc6d6665c386740cc6962f443866c0cc6562f24386600cc6162f04386540cc5d62ee4386440cc5962ec4386380cc5562ea43862c0cc51)
  (.lf 0)) (.nd (.lf
  0x247b4247a4247942478424774247642475415a1554ba065f1065ee065eb465e8865e5c65e3065e0465dd865dac65d8065d5465d2c65d0465cdc65cb465c8c65c6465c3c65c1465bec65bc462c8862c6862c4862c2862c0862be862bc861cec61cd0247442473c2473424728247242471c247142470824704246f8246f4246ec246e4246dc246d4246cc246c4246bc246b4246ac246a42469c246942468c24684)
  (.lf 0)))

def shaPos34 : BTree :=
  .nd (.nd (.nd (.lf
  0x10760008e910750565f8008e510744565d8008e11073c565b8008dd1072c56598008d91072456578008d51071856558008d11070856538008cd106fc56518008c9106f0564f8008c5106e8564d8008c1106d8564b8008bd106cc56498008b9106c05647c008b5106b456460008b1106a856444008ad106a056428008a9106905640c008a510684563ec008a11067c563d40089d1066c563b800899106645639c)
  (.lf 0)) (.nd (.lf
  0x60d2860d0c60cf060cd460cb860c9c60c8060c6460c4c60c3460c1c60c0460bec60bd460bbc60ba454a1c54a2c60ed860eb860e9860e7860e5860e3860e1860df860dd860db860d9860d7860d5c60d4060d2460d0860cec60cd060cb460c9860c7c60c6060c4860c3060c1860c0060be860bd060bb860ba054a1813f7913f7513f7113f6d13f6913f6513f6113f5d13f5913f5513f5113f4d13f4913f4513f41)
  (.lf 0))) (.nd (.nd (.lf
  0x30988309900a5a130978309800a59d30968309700a59930958309600a5950133e0133a01336013320132e0132a01326013220131e0131a01316013120130e0130a0130601302027ec0b344027dc0b32c0b3200b314027d40b2fc0b2f0027cc0b2d8027940278c027840b884027e4155290b35015525005ea0b34c0a591005e60b3400a58d0b33815521005e20b3340a589005de0b3280a585005da0b31c0a581)
  (.lf 0)) (.nd (.lf
  0x1714817138171281711817108170f8170e8170d8170c8170b8170a81709817088170781706815d45547405cff45cfd45cfb45cf945cf745cf545cf345cf185cef85ced85ceb85ce985ce7c5ce605ce445ce285ce0c5cdf05cdd45cdb85cd9c5cd805cd685cd505cd385cd205cd085ccf05ccd85ccc0170581704c1704017034170281701c170101700016ff416fec16fe016fd416fc816fb816fac16fa416f98)
  (.lf 0)))

def shaPos35 : BTree :=
  .nd (.nd (.nd (.lf
  0xb79414c510b78c14c4d21d0821d1005a9921cf821cfc05a9521ce821cf005a9121ce021cdc05a8d21ccc21cd005a8921cb821cbc05a8521cac21cb005a8121c9821c9c05a7d21c9021c8c05a7921c7c21c8005a7521c6821c6c05a7121c5c21c6005a6d21c4821c4c05a6921c4021c3805a6521c2821c2c05a6121c2021c1c05a5d21c0c21c0805a5921bf821c0005a5521bf021be805a5121bd821be005a4d)
  (.lf 0)) (.nd (.lf
  0x1f9001f8801f800c0f401f780c0e001f700c0d401f6801f6001f5801f500c0cc0650800e92003e401f480aca001f400ac940ac900ac7c01f3801f3001f2801f200ac780ac6401f180ac580ac5001f1001f080ac4001f0001ef801ef001ee80ac3801ee001ed80ac280b80400e5e28cc028ca8004f8003e00ac2401ed001ec80ac180ac0401ec00abf801eb801eb00abf401ea80abe80abdc01ea001e9801e90)
  (.lf 0))) (.nd (.nd (.lf
  0x6b1ec415340f74d6b1c0415280f7496b1944151c0f7456b168415100f7416b13c415040f73d6b110414f80f7396b0e8414ec0f7356b0c0414e00f7316b098414d40f72d6b070414c80f7296b048414bc0f7256b020414b00f7216aff8414a40f71d6afd0414980f7196afa84148c0f7156af80414800f711641a0414740f70d64180414680f709641604145c0f70564140414500f70164120414440f6fd64100)
  (.lf 0)) (.nd (.lf
  0x31be431bd431bc431bb431ba431b9431b8431b7431b6431b5431b4431b341494d007a409bec09be809be409be009bdc09bd809bd409bd009bcc09bc809bc409bc009bbc09bb809bb409bb009bac09ba809ba409ba009b9c09b9809b9409b9009b8c09b8809b8409b8009b7c09b7831b2431b1431b0431af431ae431ad431ac431ab431aa431a9431a8431a7431a6431a5431a4431a3431a2431a1431a04319f4)
  (.lf 0)))

def shaPos36 : BTree :=
  .nd (.nd (.nd (.lf
  0x1153e080ec540000d53dec0ec4800009491500ec3c000054913c0ec300000162904628e4628c4628a4628846286454e8854e6c64c1464be464c1864be864bb864b8c64b6064b3464b0864adc64ab064a8464a5864a2c472cc472b44729c472844726c47474474584743c4742047404473e8473cc473b047394473784735c474784745c474404742447408473ec473d0473b4473984737c47360473444732c)
  (.lf
  0xf3a40f3940f3880f37c0f3740f3680f35c0f34c0f3400f3340f32c0f3240f3100f3040f2fc0f2ec0f2e80f2d80f2d00f2bc0f2b40f2ac0f2980f28c0f2840f27c0f2700f2640f2580f24454de8008180f23c0f22c0f2240f21c0f20c0f2040f1f80f1e40f1e00f1d40f1c80f1b40f1ac0f1a40f1980f1840f1780f1740f1640f1580f1500f1400f1340f12c0f11c0f10c0f1000f0fc0f0e80f0dc4916800814))
  (.nd (.lf
  0x12a3d12a3912a3512a3112a2d12a2912a2512a2112a1d12a1912a1512a1112a0d12a0912a0512a01129fd543785806c5804c5802c5800c57fec57fcc57fac57f8c57f6c57f4c57f2c57f0c57ef057ed457eb857e9c57e8057e6457e4857e2c57e1057df457ddc57dc457dac57d9457d7c57d6457d4c57d3454364543745806858048580285800857fe857fc857fa857f8857f6857f4857f2857f0857eec57ed0)
  (.lf 0))) (.nd (.nd (.lf
  0x92e12ceb82cec0092dd2cea82ceb0092d92ce982cea0092d52ce882ce90092d12ce782ce80092cd2ce682ce70092c92ce582ce60092c52ce482ce50092c1010fe010fa010f6010f2010ee010ea010e6010e2010de010da010d6010d2010ce010ca010c6010c2010be01a960c468092bd01a920c45c092b901a8e0c450092b50c4481531d01a8a0c444092b101a860c438092ad0c4301531901a820c42c092a9)
  (.lf 0)) (.nd (.lf
  0x104bc104ac104a01048c1047c1047010460104501043c1042c1042015c9d54218562a45628456264562445622456204561e4561c4561a4561845616456144561285610c560f0560d4560b85609c5608056064560485602c5601455ffc55fe455fcc55fb455fa055f8855f701041010404103f4103ec103e0103d4103c8103b8103b0103a4103981038c1038010374103681035c1034c10340103381032c10320)
  (.lf 0)))

def shaPos37 : BTree :=
  .nd (.nd (.nd (.lf
  0x14a391585d1e18c1e190047d11e1801e184047cd1e1701e174047c91e1641e15c047c51e14c1e150047c11e1401e13c047bd1e1341e130047b91e1201e11c047b51e10c1e114047b11e1041e100047ad1e0f41e0ec047a91e0e41e0e0047a51e0d01e0cc047a11e0c41e0bc0479d1e0b01e0ac047991e09c1e0a0047951e0941e090047911e0841e0800478d1e0701e074047891e05c1e064047851e0541e04c)
  (.lf 0)) (.nd (.lf
  0x5b6d45b6b85b69c5b6805b6645b6485b6305b6185b6005b5e85b5d05b5b85b5a05b58854610545fc5b5705b5505b5305b5105b4f05b4d05b4b05b4905b4705b4505b4305b4105b3f45b3d85b3bc5b3a05b3845b3685b34c5b3305b3145b2f85b2e05b2c85b2b05b2985b2805b2685b2505b238545e8545d45b2205b2005b1e05b1c05b1a05b1805b1605b1405b1205b1005b0e05b0c05b0a45b0885b06c5b050)
  (.lf 0))) (.nd (.nd (.lf
  0x3ce300e1f9634783ce240e1f5634583ce180e1f1634383ce0c0e1ed634183ce000e1e9633f83cdf40e1e5633d83cde80e1e1633b83cddc0e1dd61ef43cdd00e1d961ed83cdc40e1d569df43cdb80e1d169dc43cdac0e1cd69d943cda00e1c969d683cd940e1c569d3c3cd880e1c169d103cd7c0e1bd69ce43cd700e1b969cb83cd640e1b569c8c3cd580e1b169c603cd4c0e1ad69c343cd400e1a969c083cd34)
  (.lf 0)) (.nd (.lf
  0x2b2542b2442b2341490d007240946c0946809464094600945c0945809454094500944c0944809444094400943c0943809434094300942c0942809424094200941c0941809414094100940c094080940409400093fc093f82b2242b2142b2042b1f42b1e42b1d42b1c42b1b42b1a42b1942b1842b1742b1642b1542b1442b1342b1242b1142b1042b0f42b0e42b0d42b0c42b0b42b0a42b0942b0842b0742b064)
  (.lf 0)))

def shaPos38 : BTree :=
  .nd (.nd (.nd (.lf
  0x152245b07001e3d152145b05401e39152085b03801e35152005b01c01e31151f45b00001e2d151e45afe401e29151dc5afcc01e25151d05afb001e21151c05af9401e1d151b85af7c01e19151ac5af6801e151519c5af4c01e11151905af3401e0d151885af1c01e091517c5af0401e05151705aeec01e01151601516401dfd1514c1515401df9151441513c01df5151301513401df1151201512401ded1510c)
  (.lf 0)) (.nd (.lf
  0x3fbd83fbcc3fbc03fbb43fba83fb9c3fb903fb843fb783fb6c3fb603fb543fb483fb3c48e7400ffc3f7e43f7d83f7cc3f7c03f7b43f7a83f79c3f7903f7843f7783f76c3f7603f7543f7483f73c3f7303f7243f7183f70c3f7003f6f43f6e83f6dc3f6d03f6c43f6b83f6ac3f6a03f6943f68848e6c00ff03f3383f32c3f3203f3143f3083f2fc3f2f03f2e43f2d83f2cc3f2c03f2b43f2a83f29c3f2903f284)
  (.lf 0))) (.nd (.nd (.lf
  0x345400b89534528345300b89134518345200b88d34508345100b889344f8345000b885344e8344f00b881344d8344e00b87d344c8344d00b879344b8344c00b875344a8344b00b87134498344a00b86d34488344900b86934478344800b86534468344700b8610156e0156a01566015620155e0155a01556015520154e0154a01546015420153e0153a0153601c560c9a80b85d0c9a01573901c520c99c0b859)
  (.lf 0)) (.nd (.lf
  0x49d9849d7849d6449d4849d3449d1c49d0449cf049cd849cbc49ca049c8c49c7c49c641ddd41ddd01ddc81ddc01ddb81ddb01dda81dda01dd941dd901dd881dd801dd781dd701dd681dd601dd541dd501dd481dd401dd341dd301dd201dd141dd081dcfc1dcf01dce81dcd81dcd015b21004240676c0676806764067600675c0675806754067500674c0674806744067400673c0673806734067300672c06728)
  (.lf 0)))

def shaPos39 : BTree :=
  .nd (.nd (.nd (.lf
  0x1b340a96c01b240a95001b1401b0401af40a9b414ed5002b60a9b006d450a9a414ed1002b20a9a006d4101b6414ecd01b5c14ec901b5414ec501b4c14ec101b4414ebd0a99c14eb9002ae0a99406d3d002aa0a98c06d390a98414eb5002a60a98006d3501b2c14eb10a97814ead002a20a97406d310029e0a96406d2d01b1c14ea90a96014ea50029a0a95c06d29002960a94c06d2501b0c14ea10a94414e9d)
  (.lf 0)) (.nd (.lf
  0x2a2782a2702a2682a2602a2582a2502a2482a2402a23c48dc800c6029c9029c8829c8029c7829c7029c6829c6029c5829c5029c4829c4029c3c29c3029c2829c2029c1829c1029c0829c0029bf829bf029be829be029bd829bd029bc829bc029bb829bb029ba848dc000c5029604295f8295f0295ec295e4295dc295d0295c8295c0295bc295b0295a8295a02959829590295882958029578295702956829560)
  (.lf 0))) (.nd (.nd (.lf
  0x4eda84ed904ed784ed644ed504ed3c4ed284ed144ed004ecec4ecd84ecc44ecb04ec9c4ec884ec744ec604e9ec4e9d84e9c44e9b04e99c4e9884e9744eb8c4eb744eb5c4eb444eb2c4eb904eb784eb604eb484eb304eb184eb044eaf04eadc4eac84eab44eaa04ea8c4ea784ea644ea504ea3c4ea284ea144ea004e78c4e7784e7644e7504e73c4e7284e7144e92c4e9144e8fc4e8e44e8cc4e9304e9184e900)
  (.lf 0)) (.nd (.lf
  0x385c4385b0385a438594385803857438560385543854438534385243851438504384f4384e0384d4384c0384b4384a438494384843847438464384503844438434147d5455ec4899c489844896c4895848944489304891c48908488f4488e0488cc488b8488a4488904887c4886848854488404882c488184880445d6c45d5c45d4c45d3c45d2c45d1c45d0c45cfc45cec38424384183840c38400383f4383e8)
  (.lf 0)))

def shaPos40 : BTree :=
  .nd (.nd (.nd (.lf
  0x92015ca015c9415c8815c7c15c7815c6815c5c15c4c15c4015c3415c2815c1c15c1415c0815bf815bec15be015bd415bd015bc415bb415ba415ba015b9415b8815b7415b6815b6015b5015b445463c009181596015954159481593c1593015924159181590c15900158f4158e8158dc158d0158c4158b8158ac158981589415884158741586c1585c15854158441583c1582c15824158141580c157fc54614)
  (.lf
  0x406c04068420b4420a44209442084420744206442054420444203442024420144200441ff441fe441fd441fc441fb441fa441f9441f8441f7441f6441f5441f4441f3441f2441f1441f0441ef441ee41485954db46b9c46b9946b9646b9386b90c6b8e06b8b46b8886b85c6b8306b8046b7dc6b7b46b78c6b7646b73c6b7146b6ec6b6c46b69c6b6746435c6433c6431c642fc642dc642bc6429c622b062294))
  (.nd (.lf
  0x5dd005dce05dcc05dca05dc805dc605dc405dc205dc005dbdc5dbc05dba45db885db6c5db505db345db185d7ac5d7905d7785d9cc5d9ac5d98c5d96c5d94c5d92c5d90c5d8ec5d8cc5d8ac5d8945d9d05d9b05d9905d9705d9505d9305d9105d8f05d8d05d8b05d88c5d8705d8545d8385d81c5d8005d7e45d7c85d45c5d4405d4245d67c5d65c5d63c5d61c5d5fc5d5dc5d5bc5d59c5d57c5d55c5d53c5d680)
  (.lf 0))) (.nd (.nd (.lf
  0x2b15c089752b1502b14c089712b1402b13c0896d2b1302b12c089692b1202b11c089652b1102b10c089612b1002b0fc0895d2b0f02b0ec089592b0e02b0dc089552b0d02b0cc089512b0c02b0bc0894d2b0b02b0ac089492b0a02b09c089452b0902b08c089412b0802b07c0893d2b0702b06c089392b0602b05c089352b0502b04c089314f060696d00892d4f048696a0089294f03069674089254f0186964c)
  (.lf 0)) (.nd (.lf
  0x4e2344e22447c7447c804e4744e45c4e4444e42c4e4144e3fc4e1884e1744e1604e14c4e1384e1244e1104e0fc4e0e84e0d44e0c04e0ac4e0984e0844e0704e05c4e0484e0344e0204e00c4dff84dfe44dfd44dfc447c5c47c684e2144e1fc4e1e44e1cc4e1b44e19c4df284df144df004deec4ded84dec44deb04de9c4de884de744de604de4c4de384de244de104ddfc4dde84ddd44ddc04ddac4dd984dd84)
  (.lf 0)))

def shaPos41 : BTree :=
  .nd (.nd (.nd (.lf
  0x1c214478c403e3d1c204478b403e391c1f8478a403e351c1f04789403e311c1e44788403e2d1c1d44787403e291c1cc4786403e251c1c04785403e211c1b44784403e1d1c1a44783403e191c19c4782403e151c18c4781403e111c1804780403e0d1c174477f403e091c16c477e403e051c15c477d403e011c150477c403dfd1c148477b403df91c138477a403df51c12c4779403df11c1244778403ded1c114)
  (.lf 0)) (.nd (.lf
  0x292282922429208291fc291f0291dc291c8291c4291a8291982918c2917c291682915c002b000c3428c9828c8828c7c28c6c28c5828c4c28c3828c2c28c1828c0c28bf828bec28bd828bd028bc428ba828b9828b8828b7828b7428b5c28b4c28b3c28b2c28b1c28b0c28afc28af028adc28ac8002a800c2428608285f8285e8285d8285c8285b8285a8285982858828578285682855828548285382852828518)
  (.lf 0))) (.nd (.nd (.lf
  0x3aab03aaac0d74d3aaa03aa980d7493aa903aa8c0d7453aa7c3aa780d7413aa6c3aa700d73d3aa5c3aa580d7393aa4c3aa500d7353aa383aa3c0d7313aa283aa2c0d72d3aa203aa1c0d7293aa103aa0c0d7253aa003a9fc0d7213a9e83a9f00d71d3a9e03a9dc0d7193a9cc3a9c80d7153a9b83a9bc0d7113a9ac3a9a80d70d662a43a99c0d709662743a9900d705662443a9880d701662183a9780d6fd661ec)
  (.lf 0)) (.nd (.lf
  0x27d9427d8427d7427d6427d5427d4427d3427d2027d1427d0427cf427ce427cd027cc427cb427ca427c9427c8427c7427c6427c5027c4427c3427c2427c1027c0427bf027be427bd015a3554c4467afc67acc67a9c67a7067a4467a18679ec679c067994679686793c67914678ec678c46789c678746784c67824677fc677d8677ac6338c6336c6334c6332c6330c632ec632cc61eb061e9427bc427bbc27bb4)
  (.lf 0)))

def shaPos42 : BTree :=
  .nd (.nd (.nd (.lf
  0x139512cd812cd40139112cc812cc40138d12cb812cb40138912ca812ca40138512c9412c9c0138112c8c12c880137d12c7c12c780137912c6c12c680137512c5c12c580137112c4c12c480136d12c3c12c380136912c2c12c280136512c1c12c180136112c0c12c080135d12bfc12bf80135912bec12be80135512bdc12bd80135112bcc12bc80134d12bb812bb40134912bac12ba40134512b9c12b9801341)
  (.lf 0)) (.nd (.lf
  0x3d4ac3d49c3d48c3d47c3d46c3d45c3d44c3d43c3d42c3d41c3d40c3d3fc3d3ec3d3dc000f000f983d0fc3d0ec3d0dc3d0cc3d0bc3d0ac3d09c3d08c3d07c3d06c3d05c3d04c3d03c3d02c3d01c3d00c3cffc3cfec3cfdc3cfcc3cfbc3cfac3cf9c3cf8c3cf7c3cf6c3cf5c3cf4c3cf3c3cf2c000e800f8c3cc4c3cc3c3cc2c3cc1c3cc0c3cbfc3cbec3cbdc3cbcc3cbbc3cbac3cb9c3cb8c3cb7c3cb6c3cb5c)
  (.lf 0))) (.nd (.nd (.lf
  0xaf29327403273c0af25327303272c0af21327203271c0af1d327103270c0af1932700326fc0af15326f0326ec0af11326e0326dc0af0d326d0326cc0af09326c0326bc0af05326b0326ac0af01326a03269c0aefd326903268c0aef9326803267c0aef5326703266c0aef151b2c53db00aeed51b1453d8c0aee951afc53d680aee551ae453d440aee151acc53d200aedd51ab853cfc0aed951aa453cd80aed5)
  (.lf 0)) (.nd (.lf
  0x1a7841a7781a7681a7601a7501a7481a73c1a72c1a7241a7181a7081a6fc1a6f01a6e41a6d81a6cc1a6c015db10644c0e7000e6fc0e6f80e6f40e6f00e6ec0e6e80e6e40e6e00e6dc0e6d80e6d40e6d00e6cc0e6c80e6c40e6c00e6bc0e6b80e6b40e6b00e6ac0e6a80e6a40e6a00e69c0e6980e6940e6900e68c1a6b81a6a81a6981a6881a6781a6681a6581a6481a6381a6281a6181a6081a5f81a5e81a5d8)
  (.lf 0)))

def shaPos43 : BTree :=
  .nd (.nd (.nd (.lf
  0x23a28063f14c5a06581c063ed4c588657f4063e94c570657c0063e54c55865794063e14c54065768063dd4c5286573c063d94c51465710063d54c500656e0063d14c4ec656b8063cd4c4d86568c063c94c4c46565c063c54c4b065634063c14c49c6560c063bd4c488655e4063b94c474655bc063b54c46065594063b14c44c6556c063ad4c43865548063a94c4246551c063a54c410654f8063a14c3fc654d0)
  (.lf 0)) (.nd (.lf
  0x29ae029ac829ac429aac29a9829a8829a7829a7029a5829a5429a3829a2c29a1829a14299f8299f4299dc299d40050800c4c29514294fc294f0294dc294d4294bc294b4294a4294902948029470294642944c2943c2942c294242941429400293f4293d8293d0293b8293b0293982938c2937829370293642934c2933c0050000c3828e7c28e6c28e5828e4828e4428e2828e2428e0c28dfc28de828dd828dcc)
  (.lf 0))) (.nd (.nd (.lf
  0x438f8101f946e5c438ec101f546e48438e0101f146e34438d4101ed46e20438c8101e946e0c438bc101e546df8438b0101e146de4438a4101dd46dd043898101d946dbc4388c101d546dac43880101d146d9c43874101cd46d8c43868101c946d7c4385c101c546d6c43850101c146d5c43844101bd4585043838101b9458444382c101b54382043818101b14381043808101ad43800437f8101a9437f0437e8)
  (.lf 0)) (.nd (.lf
  0x350d4350c4350b4350a43509435084350743506435054350443503435024350143500434ff434fe434fd434fc434fb41496d007e409fac09fa809fa409fa009f9c09f9809f9409f9009f8c09f8809f8409f8009f7c09f7809f7409f7009f6c09f6809f6409f6009f5c09f5809f5409f5009f4c09f4809f4409f4009f3c09f3834fa434f9434f8434f7434f6434f5434f4434f3434f2434f1434f0434ef434ee4)
  (.lf 0)))

def shaPos44 : BTree :=
  .nd (.nd (.nd (.lf
  0x681f0681c0681f4681c468194681686813c68110680e4680b86808c68060680346800c634506343063410633f0633d0633b061eec61ed067e7467e4467e7867e4867e1867dec67dc067d9467d6867d3c67d1067ce467cb867c9063368633486332863308632e8632c861eac61e9067af067ac067af467ac467a9467a6867a3c67a10679e4679b86798c67960679346790c6329063270632506323063210631f0)
  (.lf 0)) (.nd (.lf
  0x5c7945c7785c75c5c7405c7245c7085c6ec5c6d05c6b85c6a05c6885c6705c6585c6405c6285c610546d0134f9134f5134f1134ed134e9134e5134e1134dd134d9134d5134d1134cd134c9134c5134c1134bd134b9134b5134b1134ad134a9134a5134a11349d1349913495134911348d1348913485134811347d546c05c5fc5c5dc5c5bc5c59c5c57c5c55c5c53c5c51c5c4fc5c4dc5c4bc5c49c5c4805c464)
  (.lf 0))) (.nd (.nd (.lf
  0x2ecec09c612ece02ecdc09c5d2ecd02eccc09c592ecc02ecbc09c552ecb02ecac09c512eca02ec9c09c4d2ec902ec8c09c492ec802ec7c09c452ec702ec6c09c412ec602ec5c09c3d2ec502ec4c09c392ec402ec3c09c352ec302ec2c09c312ec202ec1c09c2d2ec102ec0c09c292ec002ebfc09c252ebf02ebec09c212ebe02ebdc09c1d2ebd02ebcc09c192ebc02ebbc09c152ebb02ebac09c112eba02eb9c)
  (.lf 0)) (.nd (.lf
  0x13b0813afc13af413ae413adc13ad013ac413ab813aac13a9c13a9013a8413a7c15cfd063440d7880d7840d7800d77c0d7780d7740d7700d76c0d7680d7640d7600d75c0d7580d7540d7500d74c0d7480d7440d7400d73c0d7380d7340d7300d72c0d7280d7240d7200d71c0d7180d71413a7013a6013a4c13a4013a2c13a2013a1013a00139f0139e0139d0139c0139b0139a0139901397c1396c1396013950)
  (.lf 0)))

def shaPos45 : BTree :=
  .nd (.nd (.nd (.lf
  0x4ac0c481c80510d4abf4481b4051094abdc481a0051054abc44818c051014abac48178050fd4ab944815c050f94ab7c48148050f54ab6445b24050f14ab4c45b14050ed4ab3045b04050e94ab1845af4050e54ab0045ae4050e14aae845ad4050dd4aad045ac4050d94aabc45ab4050d54aaa845aa4050d11fe201fe1c050cd1fe081fe0c050c91fdf81fdfc050c51fdf01fdec050c11fde01fdd8050bd1fdcc)
  (.lf 0)) (.nd (.lf
  0x5af245af0c5aef45aedc545b4545c85b2145b1f45b1d45b1b45b1945b1745b1545b1345b1145ada45ad805ad645ad485ad2c5ad105acf45acd85acbc5aca05ac845ac645ac4c5ac345ac1c5ac045abec5abd45abbc5aba45ab8c5458c545a05aec45aea45ae845ae645ae445ae245ae045ade45adc45aa545aa305aa145a9f85a9dc5a9c05a9a45a9885a96c5a9505a9345a9145a8fc5a8e45a8cc5a8b45a89c)
  (.lf 0))) (.nd (.nd (.lf
  0xeca5622a83f1e40eca16228c3f1d80ec9d3f1c83f1d00ec993f1b83f1c00ec953f1a83f1b00ec913f1983f1a00ec8d3f1883f1900ec893f1783f1800ec853f1683f1700ec813f1583f1600ec7d3f1483f1500ec793f1383f1400ec753f1283f1300ec713f1183f1200ec6d3f1083f1100ec693f0f83f1000ec653f0e83f0f00ec613f0d83f0e00ec5d3f0c83f0d00ec593f0b83f0c00ec553f0a83f0b00ec51)
  (.lf 0)) (.nd (.lf
  0x982c0982809824098200981c0981809814098100980c098080980409800097fc097f8097f4097f0097ec097e8097e4097e0097dc097d8097d4097d0097cc097c8097c4097c0097bc097b82e6a42e6942e6842e6742e6642e6542e6442e6342e6242e6142e6042e5f42e5e42e5d42e5c42e5b42e5a42e5942e5842e5742e5642e5542e5442e5342e5242e5142e5042e4f42e4e42e4d415a7554d806b2b06b280)
  (.lf 0)))

def shaPos46 : BTree :=
  .nd (.nd (.nd (.lf
  0x17774028e91776017764028e51775017754028e1177401773c028dd1773017734028d91771c17724028d51770c17710028d1176fc17704028cd176ec176f4028c9176e45d698028c5176d45d678028c1176c85d658028bd176c05d638028b9176b05d618028b5176a85d5f8028b11769c5d5d8028ad176905d5b8028a9176805d598028a5176785d578028a11766c5d5580289d176605d53802899176545d51c)
  (.lf 0)) (.nd (.lf
  0xecc80ecbc0ecb00eca40ec980ec8c0ec800ec740ec680ec5c0ec500ec440ec380ec2c45034010c04444c4444044434444284441c4441044404443f8443ec443e0443d4443c8443bc443b0443a4443984438c4438044374443684435c4435044344443384432c443204431444308442fc442f045028010b443f9c43f9043f8443f7843f6c43f6043f5443f4843f3c43f3043f2443f1843f0c43f0043ef443ee8)
  (.lf 0))) (.nd (.nd (.lf
  0x362800c1f936268362700c1f501cfe0cba00c1f102e141585102e0c1584d02e04158490cb981584501cfa0cb940c1ed0cb8c1584101cf60cb880c1e902dec1583d02de4158390cb801583501cf20cb7c0c1e50cb741583101cee0cb700c1e102dcc1582d02dc4158290cb681582501cea0cb640c1dd0cb5c1582101ce60cb580c1d901ce20cb4c0c1d501cde0cb400c1d101cda0cb340c1cd01cd60cb280c1c9)
  (.lf 0)) (.nd (.lf
  0x213842137421364213542134421334213242131021304212f4212e4212d0159f547aa44b5f44b5d84b5c04b5a04b5844b5684b5504b5384b5204b5084b4f04b4d84b4c04b4a84b4904b4784b4604b4484b4304b4184b4004b3e84b3d04b3bc4b3a04b3884b3704b35c4b3444b334212c4212bc212b0212a8212a42129c212942128c2128421278212742126c212642125c2125421248212442123c212342122c)
  (.lf 0)))

def shaPos47 : BTree :=
  .nd (.nd (.nd (.lf
  0x76b9275fc27600076b5275e8275f0076b1275d8275e0076ad275d0275cc076a9275bc275b8076a5275ac275a8076a127598275a00769d2758c2758807699275802757807695275702756c07691275602755c0768d275502754c076892754027538076854db0067778076814dae8677480767d4dad06771c076794dab8676f0076754daa0676c4076714da88676980766d4da746766c076694da606764007665)
  (.lf 0)) (.nd (.lf
  0x2a3a82a39c2a3882a3782a3682a3582a34c2a33c2a32c0071000c6429e6c29e5c29e4829e3c29e2829e1c29e0829df829de829de429dc829dbc29dac29d9829d8829d8429d6829d5829d4c29d3829d2829d2029d0829d0429ce829cdc29cc829cb829ca829ca40070800c54297e0297c8297b8297a829798297882977829768297582974829738297282971829708296f8296e8296d8296c8296b8296a829698)
  (.lf 0))) (.nd (.nd (.lf
  0x10e6110e5d10e5910e5510e5110e4d10e4910e4510e4110e3d10e3910e3510e3110e2d10e2910e2515b6547b4c4c5984c5804c5684c5504c5384c5204c50c4c4f84c4e44c4d04c4bc4c4a84c4944c4804c46c4c4584c4444c4304c41c4c4084c3f44c3e04c3cc4c3b84c3a44c3904c37c4c3684c3584c34847b4010e2110e1d10e1910e1510e1110e0d10e0910e0510e0110dfd10df910df510df110ded10de9)
  (.lf 0)) (.nd (.lf
  0x3b9703b9643b9543b9443b9303b9243b9143b9043b8f43b8e43b8d43b8c43b8b43b8a43b8943b8843b8743b8643b8543b8443b8343b8243b8143b8043b7f43b7e43b7d43b7c41480154bf866d1466ce466cb466c8866c5c66c3066c0466bd866bac66b8066b5466b2c66b0466adc66ab466a8c66a6466a3c66a14669ec669c46301462ff462fd462fb462f9462f7462f5461dd861dbc3b7b43b7a83b7983b790)
  (.lf 0)))

def shaPos48 : BTree :=
  .nd (.nd (.nd (.lf
  0x8a012828128181280812804127f0127e4127dc127cc127c8127bc127b0127a4127981278c127801276c1276412754127481273c1273012724127181271012704126f4126e8126dc126d4126cc543bc00898124e0124d4124c0124b8124b0124a412498124841248012474124641245c1244812444124381242c1241c1240c12408123f4123ec123e0123d4123cc123b8123ac123a812394123881238054394)
  (.lf
  0x15f7552f8c64c0c64bdc64bb064b8464b5864b2c64b0064ad464aa864a7c64a5064a24649fc649d4649ac649846495c649346490c648e4648bc6291c628fc628dc628bc6289c6287c6285c54e8054e64405fc405f0405e4405d8405cc405c0405b4405a84059c4059040584405784056c4056040554405484053c4053040524405184050c40500404f4404e8404dc404d0404c4404b8404ac404a015e0500144))
  (.nd (.lf
  0x57300572e0572c0572a05728057260572405722057200571dc571c0571a4571885716c57150571345711856dac56d9056d7856fcc56fac56f8c56f6c56f4c56f2c56f0c56eec56ecc56eac56e9456fd056fb056f9056f7056f5056f3056f1056ef056ed056eb056e8c56e7056e5456e3856e1c56e0056de456dc856a5c56a4056a2856c7c56c5c56c3c56c1c56bfc56bdc56bbc56b9c56b7c56b5c56b4456c80)
  (.lf 0))) (.nd (.nd (.lf
  0x84c94ea6068d58084c54ea4c68d30084c14ea3868d08084bd4ea2468ce0084b94ea1068cb8084b54e9fc68c90084b14e9e8638cc084ad4e9d4638ac084a94e9c06388c084a54e9ac6386c084a14e9986384c0849d4e9846382c084994e9706380c084954e96062000084914e95061fe00848d2a2282a230084892a2202a21c084852a20c2a208084812a2002a1f80847d2a1ec2a1e8084792a1e02a1d808475)
  (.lf 0)) (.nd (.lf
  0x45eac45ea0456044560c4606c460604604c460344602c46014457184571045700456f4456ec456e0456d4456c8456bc456b0456a84569c4569045684456784566c4566045654456484563c4562c456244561c456140cdac0cdb04577445764457584574045730457280ccc0459ec459e0459d4459c8459bc459b0459a4459984598c4598045974459684595c4595045944459384592c459204591445908458fc)
  (.lf 0)))

def shaPos49 : BTree :=
  .nd (.nd (.nd (.lf
  0x1af7c038e91af641af6c038e51af541af5c038e11af441af4c038dd1af341af3c038d91af241af2c038d51af141af1c038d11af041af0c038cd1aef41aefc038c91aee41aeec038c51aed41aedc038c11aec41aecc038bd1aeb41aebc038b91aea860ee4038b51aea060ec4038b11ae9060ea4038ad1ae8860e84038a91ae7860e64038a51ae7060e44038a11ae6460e240389d1ae5460e04038991ae4860de4)
  (.lf 0)) (.nd (.lf
  0x4731847300472e8472d0472b8472a047288472704725847244472304721c47208471f4471e0470904707c4706845068471c4471ac471944717c471644714c471344711c47104470ec470d4470bc470a847094470804706c4705847044470304701c4700846ff446fe446fd446fc446fb446fa446f9446e5046e3c46e284506046f8446f6c46f5446f3c46f2446f0c46ef446edc46ec446eac46e9446e7c46e68)
  (.lf 0))) (.nd (.nd (.lf
  0x399080d1f963244398fc0d1f563224398ec0d1f163204398e40d1ed61e8c398d80d1e961e70398c80d1e5398c0398bc0d1e1398ac398b00d1dd398983989c0d1d939890398880d1d53987c398800d1d1398703986c0d1cd3985c398580d1c939850398480d1c5398403983c0d1c1398283982c0d1bd3981c398180d1b939810398080d1b5397f8398000d1b1397ec397e80d1ad397dc397e00d1a9397c8397d0)
  (.lf 0)) (.nd (.lf
  0x262f4262e0262d0262c4262b4262a426290262802627426264262542624426230262242621026204261f4261e4261d4261c4261b4261a42619415a2554bf066d0066cd066ca466c7866c4c66c2066bf466bc866b9c66b7066b4466b1c66af466acc66aa466a7c66a5466a2c66a04669dc669b46300862fe862fc862fa862f8c62f6862f4861dcc61db4261842617c261742616c261642615c261542614c26144)
  (.lf 0)))

def shaPos50 : BTree :=
  .nd (.nd (.nd (.lf
  0x11a28577b400e3d11a1c5779800e3911a145777c00e3511a085776000e31119fc5774800e2d119ec5773000e29119e45771800e25119d45770000e21119cc576e800e1d119c0576cc00e19119b0576b400e15119a45769c00e11119981199400e0d119881198c00e09119781197400e05119681196400e011195c1195400dfd119441194c00df9119341193c00df5119241192800df11191c1191400ded1190c)
  (.lf 0)) (.nd (.lf
  0x64e4c64e2064df464dc864d9c64d7064d4864d2064cf864cd064ca864c8064c5864c30552dc552f86513465104650d4650a465074650446501464fe464fb464f8464f5464f2464ef864ecc64ea064e7464e4864e1c64df064dc464d9864d6c64d4464d1c64cf464ccc64ca464c7c64c5464c2c552d8144d1144cd144c9144c5144c1144bd144b9144b5144b1144ad144a9144a5144a11449d144991449514491)
  (.lf 0))) (.nd (.nd (.lf
  0x533e80aa75514a8533cc0aa7151494533b00aa6d51480533940aa695146c533780aa65514585335c0aa6151444533400aa5d51434533240aa5951424490c80aa5551410490b40aa5131848318500aa4d31838318400aa4931828318300aa4531818318200aa4131808318100aa3d317f8318000aa39317e8317f00aa35317d8317e00aa31317c8317d00aa2d317b8317c00aa29317a8317b00aa2531798317a0)
  (.lf 0)) (.nd (.lf
  0xe30c0e3080e3040e3000e2fc0e2f80e2f40e2f00e2ec0e2e80e2e40e2e00e2dc0e2d80e2d40e2d00e2cc18c7818c6818c5818c4818c3818c2818c1418c0818bf818be818bd818bc818bb818ba818b9818b8818b7818b6818b5818b4818b3818b2818b1818b0818af818ae818ad418ac818ab818aa415d7d548805ea745ea545ea345ea145e9f45e9d45e9b45e9945e9745e9545e9345e9145e8f85e8dc5e8c0)
  (.lf 0)))

def shaPos51 : BTree :=
  .nd (.nd (.nd (.lf
  0x22b0822b0c05f2122b0022afc05f1d22af022ae805f1922ae022adc05f1522acc22ac805f1122abc22ab805f0d22aac22aa805f0922a9822a9c05f0522a8822a8c05f0122a7c22a7805efd22a6c22a6805ef922a5c22a5805ef522a4c22a5005ef122a3c22a3805eed00b3600b3200b2e00b2a00b2600b2200b1e00b1a00b1600b1200b0e017ec0a7a0017dc0a78c017cc017c4017b40a75c017a40177c01764)
  (.lf 0)) (.nd (.lf
  0xcb6c02dd002dc802dc00cb6002db80cb540cb480cb3c0cb300cb2402db002da80b8d00168a00e6c0cb180cb0c0cb0002da002d9802d900caf402d8802d800cae80cadc02d780cad00cac40cab802d700caac02d6802d6002d580caa002d5002d480ca9402d4002d380ca8802d3002d2806580016520003402d200b72c0b72002d180b71402d100b7080b6fc0b6f002d0802d0002cf802cf002ce802ce00b6e4)
  (.lf 0))) (.nd (.nd (.lf
  0xfca5644bc4270c0fca16449c427000fc9d6447c426f40fc996445c426e80fc9562320426dc0fc9162304426d00fc8d4668c426c80fc8946674426bc0fc854665c426b00fc8146644426a40fc7d4662c426980fc79466144268c0fc75465fc426800fc71465e4426740fc6d465cc426680fc69465b44265c0fc654659c426500fc6146584426440fc5d46570426380fc594655c4262c0fc5546548426200fc51)
  (.lf 0)) (.nd (.lf
  0x5ee805ee405ee03374433734337243371433704336f4336e4336d4336c4336b4336a433694336843367433664336543364433634336243361433604335f4335e4335d4335c4335b4335a43359433584335741495d007c409dcc09dc809dc409dc009dbc09db809db409db009dac09da809da409da009d9c09d9809d9409d9009d8c09d8809d8409d8009d7c09d7809d7409d7009d6c09d6809d6409d6009d5c)
  (.lf 0)))

def shaPos52 : BTree :=
  .nd (.nd (.nd (.lf
  0x6bfe06bfb46bf886bf5c6bf306bf046c0c86c0986c0686c03c6c0106bfe46bfb86bf8c6bf606bf346bf086bedc6beb46ba886ba606ba386ba106b9e86bd386bd086bcd86bcac6bc806bc546bc286bbfc6bbd06bba46bb786bd3c6bd0c6bcdc6bcb06bc846bc586bc2c6bc006bbd46bba86bb7c6bb506bb286b71c6b6f46b6cc6b6a46b67c6b9cc6b99c6b96c6b9406b9146b8e86b8bc6b8906b8646b8386b80c)
  (.lf 0)) (.nd (.lf
  0x5a3285a30c5a2f05a2d45a2b85a29c5a2805a2645a24c5a2345a21c5a2045a1ec5a1d45a1bc5a1a45451c5452c5a4d85a4b85a4985a4785a4585a4385a4185a3f85a3d85a3b85a3985a3785a35c5a3405a3245a3085a2ec5a2d05a2b45a2985a27c5a2605a2485a2305a2185a2005a1e85a1d05a1b85a1a05451812f7912f7512f7112f6d12f6912f6512f6112f5d12f5912f5512f5112f4d12f4912f4512f41)
  (.lf 0))) (.nd (.nd (.lf
  0x97ad500006ad64097a94ffec6ad3c097a54ffd86ad14097a14ffc46acec0979d4ffb06acc4097994ff9c6ac9c097954ff886ac74097914ff746ac4c0978d4ff606ac24097894ff4c6abfc097854ff38640b4097814ff24640940977d4ff1064074097794fefc64050097754fee864030097714fed4640100976d4fec463ff0097694feb4621f8097654fea4621dc097612dd382dd400975d2dd282dd3009759)
  (.lf 0)) (.nd (.lf
  0xd3840d3800d37c0d3780d3740d3700d36c0d3680d3640d3600d35c0d3580d35412030120201200c11ffc11fec11fdc11fd011fc011fb011fa011f9011f7c11f6c11f6011f5011f4011f3011f2011f1011f0011ef011ee011ed011ec011eac11ea011e9011e8011e7011e6015cbd5435857d2857d0857ce857cc857ca857c8857c6457c4857c2457c0857be857bc857bac57b9057b7457b5857b3c57b2057b00)
  (.lf 0)))

def shaPos53 : BTree :=
  .nd (.nd (.nd (.lf
  0x4c5d1f0041f00804c591effc1eff404c551efe41efec04c511efd41efd804c4d1efc41efc804c491efb81efb404c451efa41efac04c411ef941ef9c04c3d1ef841ef8c04c391ef741ef7c04c351ef681ef6404c311ef5c1ef5804c2d1ef441ef4c04c291ef341ef3c04c251ef241ef2804c211ef141ef1804c1d1ef081ef0c04c190090600902008fe008fa008f6008f2008ee008ea008e6008e2008de008da)
  (.lf 0)) (.nd (.lf
  0x478204781047800477f0477e0477d0477c0477b0477a047790477804777047760477504509c45a08494404942849410493f8493e0493c8493b049398493804936849350493384932049308492f0492d8492c0492a849290492784926049248492304921849200491e8491d0491b8491a049188459f8553006513c6510c650dc650ac6507c6504c6501c64fec64fbc64f8c64f5c64f2c64f0064ed464ea864e7c)
  (.lf 0))) (.nd (.nd (.lf
  0x6aa503e00c0e74d6aa243e0000e7496a9f83dff40e7456a9d03dfe80e7416a9a83dfdc0e73d6a9803dfd00e7396a9583dfc40e7356a9303dfb80e7316a9083dfac0e72d6a8e03dfa00e7296a8b83df940e7256a8903df880e72163fe43df7c0e71d63fc43df700e71963fa43df640e71563f843df580e71163f643df4c0e70d63f443df400e70963f243df340e705621d43df280e701621b83df1c0e6fd3df10)
  (.lf 0)) (.nd (.lf
  0x964809644096400963c0963809634096300962c0962809624096200961c0961809614096100960c096080960409600095fc095f8095f4095f0095ec095e8095e4095e0095dc095d82cc642cc542cc442cc342cc242cc142cc042cbf42cbe42cbd42cbc42cbb42cba42cb942cb842cb742cb642cb542cb442cb342cb242cb142cb042caf42cae42cad42cac42cab42caa42ca9415a6554d306a4c06a4906a464)
  (.lf 0)))

def shaPos54 : BTree :=
  .nd (.nd (.nd (.lf
  0x2395164e4164e002391164d4164d00238d164c4164c002389164b4164b0023851649c164a0023811648c164940237d1647c16480023791646c16470023751645c16460023711644c164500236d164401643c023691642c16434023651641c16420023611640c164140235d163fc1640002359163ec163f002355163dc163e002351163cc163d40234d163bc163c002349163ac163b0023451639c163a402341)
  (.lf 0)) (.nd (.lf
  0x3b23c3b2303b22c3b2203b2143b2003b1f43b1e83b1dc3b1d83b1c83b1b83b1ac3b1a048d4800f403ae4c3ae483ae343ae283ae1c3ae103ae043adf83adf43ade43add43adc83adbc3adb03ada43ad983ad8c3ad803ad743ad683ad5c3ad503ad443ad383ad2c3ad203ad183ad083ad043acf448d3c00f343a9a43a9943a9843a9803a96c3a9603a95c3a9483a9443a9303a92c3a9203a90c3a9083a8f83a8e8)
  (.lf 0))) (.nd (.nd (.lf
  0xbd61354803547c0bd5d354703546c0bd59354603545c0bd55354503544c0bd51354403543c0bd4d354303542c0bd49354203541c0bd45354103540c0bd4135400353fc0bd3d353f0353ec0bd39353e0353dc0bd35353d0353cc0bd31353c0353bc0bd2d353b0353ac0bd29353a03539c0bd25353903538c0bd21353803537c0bd1d353703536c0bd19353603535c0bd15353503534c0bd11353403533c0bd0d)
  (.lf 0)) (.nd (.lf
  0x4aa404aa244aa084a9f04a9d84a9c04a9a84a9944a97c4a9644a9484a9344a9184a9004a8e84a8d04a8b84a8a04a8884a8704a8584a8404a8284a8144a7f84a7e44a7d41f8841f87c1f8701f8681f8641f85c1f8541f84c1f8401f8381f8341f8281f8241f81c1f8101f80c1f8041f7fc1f7f41f7ec1f7e41f7dc1f7d01f7cc1f7c41f7bc1f7b41f7a81f7a41f79c15c29004440694c0694806944069400693c)
  (.lf 0)))

def shaPos55 : BTree :=
  .nd (.nd (.nd (.lf
  0x4d474630cc072054d460630ac072014d44c63088071fd4d4386306c071f94d42463048071f54d4106302c071f14d40061e08071ed4d3f061dec071e92671c26718071e52670826710071e126700266f8071dd266ec266e8071d9266dc266d8071d5266cc266c8071d1266bc266b8071cd266ac266a8071c9266a026698071c52668c26688071c12668026678071bd2667026668071b9266602665c071b526650)
  (.lf 0)) (.nd (.lf
  0x1d0f81d0f01d0d81d0d01d0c01d0ac1d0941d0901d0780061000a301cb401cb301cb1c1cb101cb001caec1cadc1cacc1cabc1cab41ca9c1ca901ca7c1ca6c1ca601ca581ca401ca381ca241ca0c1ca001c9f01c9e01c9d01c9c81c9b41c99c1c9941c9881c9700060800e883661836608365f8365e8365d8365c8365b8365a836598365883657836568365583654836538365283651836508364f8364e8364d8)
  (.lf 0))) (.nd (.nd (.lf
  0x106a11069d1069910695106911068d1068910685106811067d1067910675106711066d106691066515b0d4796049984499684994c4993049914498f8498e0498c8498b049898498804986849850498384982049808497f0497d8497c0497a849790497784976049748497304971849700496e8496d4496bc4794c146c1146bd146b9146b5146b1146ad146a9146a5146a11469d1469914695146911468d14689)
  (.lf 0)) (.nd (.lf
  0x67ab867a8c67a6067a3467a08679dc679b067984679586792c67904678dc678b46788c678646783c67814677ec677c4633a06338063360633406332063300632e061ec061ea439edc39ed039ec439eb839eac39e9c39e9439e8839e7c39e6c39e6439e5839e4c39e3c39e3439e2839e1839e1039e0439df839de839de039dd439dc839db839db039da439d9439d8c39d8015edd00094033bc033b8033b4033b0)
  (.lf 0)))

def shaPos56 : BTree :=
  .nd (.nd (.nd (.lf
  0x9a019124191141910c190fc190f0190e4190d8190cc190c0190b4190a81909c1909019084190781906c1906019054190481903c1903019024190181900c1900018ff418fe818fdc18fd018fc4548bc0099818dd818dcc18dc018db418da818d9c18d9018d8418d7818d6c18d6018d5418d4818d3c18d3018d2418d1818d0c18d0018cf418ce818cdc18cd818ccc18cc018cb418ca018c9418c8818c7c54894)
  (.lf
  0x439a44399815e194506446f8846f7046f5846f4046f2846f1046ef846ee046ec846eb046e9846e8046e6c46e5846e4446e3046e1c46e0846df446de046dcc46db846da846d9846d8846d7846d6846d584584c458404398c4398043974439684395c4395043944439384392c439204391443908438fc438f0438e4438d8438cc438c0438b4438a84389c4389043884438784386c4386043854438484383c43830))
  (.nd (.lf
  0x55d9455d7855d5c55d4055d2455d0855cec55cd055cb855c9c55c8855c7055c5455c3c55c2455c0c541cc124f9124f5124f1124ed124e9124e5124e1124dd124d9124d5124d1124cd124c9124c5124c1124bd124b9124b5124b1124ad124a9124a5124a11249d1249912495124911248d1248912485124811247d541c055bfc55bdc55bbc55b9c55b7c55b5c55b3c55b1c55afc55adc55abc55a9c55a8055a64)
  (.lf 0))) (.nd (.nd (.lf
  0x8e3d2c0b02c0ac08e392c0a02c09c08e352c0902c08c08e312c0802c07c08e2d2c0702c06c08e292c0602c05c08e252c0502c04c08e212c0402c03c08e1d2c0302c02c08e192c0202c01c08e152c0102c00c08e112c0002bffc08e0d2bff02bfec08e092bfe02bfdc08e052bfd02bfcc08e012bfc02bfbc08dfd2bfb02bfac08df92bf982bfa008df52bf902bf8c08df12bf802bf7c08ded2bf702bf6c08de9)
  (.lf 0)) (.nd (.lf
  0x53ed053eb053e9053e7453e5853e3c53e2053e0453de84914c491380ed900ed840ed780ed6c0ed600ed540ed480ed3c0ed300ed240ed180ed0c0ed000ecf40ece80ecdc0ecd00ecc40ecb80ecac0eca00ec940ec880ec7c0ec700ec640ec580ec4c0ec400ec3415e41551c8551a4551805515c5513855114550f0550cc550a855084550605503c5501854ff454fd054fac54f8854f6454f4054f1c54ef854ed4)
  (.lf 0)))

def shaPos57 : BTree :=
  .nd (.nd (.nd (.lf
  0x1d1f41d1f8043051d1ec1d1e8043011d1dc1d1d8042fd1d1c41d1c8042f91d1b41d1bc042f51d1a81d1a4042f11d1941d198042ed1d1881d18c042e91d1741d17c042e51d1641d168042e11d1581d154042dd1d14c1d144042d91d1341d13c042d51d1281d12c042d11d1141d11c042cd1d10c1d108042c91d0f41d0fc042c51d0e81d0e4042c11d0dc1d0d4042bd1d0c41d0c8042b91d0b81d0b4042b51d0a8)
  (.lf 0)) (.nd (.lf
  0x361583614836138361283611836108360f8360e8360d8360c8360b8360a83609836088003b000e6835bc835bb835ba835b9835b8835b7835b6835b5835b4835b3835b2835b1835b0835af835ae835ad835ac835ab835aa835a9835a8835a7835a6835a5835a4835a3835a2835a1835a08359f8003a800e5835538355283551835508354f8354e8354d8354c8354b8354a8354983548835478354683545835448)
  (.lf 0))) (.nd (.nd (.lf
  0xdca5670343bc480dca1670083bc3c0dc9d66fdc3bc2c0dc9966fb03bc240dc9566f843bc180dc9166f543bc080dc8d66f2c3bbfc0dc8966efc3bbf00dc8566ed43bbe40dc8166ea83bbd80dc7d66e843bbd00dc7966e583bbc00dc7566e343bbb80dc7166e083bba80dc6d66de43bba00dc6966db83bb900dc6566d943bb880dc6166d683bb780dc5d66d443bb700dc59630f43bb600dc55630d83bb580dc51)
  (.lf 0)) (.nd (.lf
  0x9254092500924c0924809244092400923c0923809234092300922c0922809224092200921c09218297e4297d4297c4297b4297a429794297842977429764297542974429734297242971429704296f4296e4296d4296c4296b4296a429694296842967429664296542964029634296202961415a4554c90688e0688b068884688586882c68800687d4687a86877c6875068724686fc686d4686ac686846865c)
  (.lf 0)))

def shaPos58 : BTree :=
  .nd (.nd (.nd (.lf
  0x13f68018e913f5413f58018e513f4413f4c018e113f3413f38018dd13f2413f2c018d913f1c59e48018d513f0c59e28018d113f0059e08018cd13ef859de8018c913eec59dc8018c513edc59da8018c113ed459d88018bd13ec859d68018b913ebc59d48018b513eb059d28018b113ea459d08018ad13e9459ce8018a913e8859ccc018a513e7c59cb0018a113e7059c940189d13e6859c780189913e5c59c5c)
  (.lf 0)) (.nd (.lf
  0xf7c40f7b80f7ac0f7a00f78c0f7800f76c0f7600f7480f7340f72c0f7200f7080f6f8062a0008340fc180fbfc0fbf00fbe80fbd80fbc80fbb00fb9c0fb980fb880fb700fb640fb500fb480fb380fb1c0fb0c0fb080faf00fadc0facc0fac40faac0faa00fa900fa840fa780fa600fa4c0fa48062a80083c0ff540ff480ff340ff280ff200ff040fef40fee80fed40fec40feb40fea80fe940fe900fe800fe64)
  (.lf 0))) (.nd (.nd (.lf
  0xb3f1337303372c0b3ed337203371c0b3e9337103370c0b3e533700336fc0b3e1336f0336ec0b3dd336e0336dc0b3d9336d0336cc0b3d5336c0336bc0b3d1336b0336ac0b3cd336a03369c0b3c9336903368c0b3c5336803367c0b3c1336703366c0b3bd336603365c0b3b9336503364c0b3b5336403363c0b3b1336303362c0b3ad336203361c0b3a9336103360c0b3a533600335fc0b3a1335f0335ec0b39d)
  (.lf 0)) (.nd (.lf
  0x4787847868478584784847838478284781847808477f8477e8477d8477c8477b8477a847798477884777847768477581c2601c2541c2481c2381c22c1c2201c2181c2081c1fc1c1f41c1e81c1d81c1d01c1c41c1b81c1a81c1a01c1901c1841c1781c1701c1601c1541c14c1c13c1c1301c1281c1181c10c1c10015de10648c0eac00eabc0eab80eab40eab00eaac0eaa80eaa40eaa00ea9c0ea980ea940ea90)
  (.lf 0)))

def shaPos59 : BTree :=
  .nd (.nd (.nd (.lf
  0x24a4024a38068c924a2c24a30068c524a1824a1c068c124a1024a08068bd249f8249fc068b9249ec249f0068b5249e0249d8068b1249cc249d0068ad249bc249c0068a9249a8249ac068a5249a02499c068a124988249900689d2497824980068992496c249680689524958249600689124950249480688d249402493c06889249282492c06885249202491c0688124908249100687d248f8248fc06879248e8)
  (.lf 0)) (.nd (.lf
  0x1cf701cf601cf5c1cf501cf401cf381cf241cf201cf104794800a2c1c9601c9541c94c1c93c1c9301c92c1c9181c90c1c9001c8f81c8ec1c8e41c8d01c8c41c8bc1c8b01c8a01c8981c8901c8841c8741c86c1c8601c8501c8441c83c1c8301c8241c8141c80c4793000e843643c3642c3641c3640c363fc363ec363dc363cc363bc363ac3639c3638c3637c3636c3635c3634c3633c3632c3631c3630c362fc)
  (.lf 0))) (.nd (.nd (.lf
  0x49bfc49bdc49bc449bac49b9449b7c49b6449b4c49b3049b1c49b0049ae849ad049abc49aa049a8c49a744978049768497504973c4972449708496fc4997049954499384991c4990c49974499584993c4992049900498e8498d8498b8498a0498884987049858498484982c49810497f8497e0497c8497b0497a049500494e8494d4494c4494ac49498494904969c496844966c4965849648496a04968849670)
  (.lf 0)) (.nd (.lf
  0x6540c653e0653b4653886535c6533065304652d8652b065288652606523865210651e8651c0651986517062a00629e0629c0629a062980629606294061c5861c3c36b4c36b4036b3436b2836b1c36b1036b0436af836aec36adc36ad436ac836abc36ab036aa036a9436a8c36a7c36a7436a6836a5c36a5036a4436a3836a2c36a2036a1436a04369f8369ec15e590003c02e9402e9002e8c02e8802e8402e80)
  (.lf 0)))

def shaPos60 : BTree :=
  .nd (.nd (.nd (.lf
  0x3954614849348003914613c493300038d46130493180038946124493000038546118492e8003814610c492d00037d460fc492b400379460f44929c00375460e84928800371460d8492700036d460d04925400369460c84924000365460c04922400361460b84920c0035d460b0491f400359460a8491dc00355460a0491c40035146098491b00034d460904919400349490884792c00345490744791c00341)
  (.lf 0)) (.nd (.lf
  0x13a3d13a3913a3513a3113a2d13a2913a2513a2113a1d13a1913a1513a1113a0d13a0913a0513a01139fd548785ea6c5ea4c5ea2c5ea0c5e9ec5e9cc5e9ac5e98c5e96c5e94c5e92c5e90c5e8f05e8d45e8b85e89c5e8805e8645e8485e82c5e8105e7f45e7dc5e7c45e7ac5e7945e77c5e7645e74c5e73454864548745ea685ea485ea285ea085e9e85e9c85e9a85e9885e9685e9485e9285e9085e8ec5e8d0)
  (.lf 0))) (.nd (.nd (.lf
  0x2fbec0a1152fbe02fbdc0a1112fbd02fbcc0a10d2fbc02fbbc0a1092fbb02fbac0a1052fba02fb9c0a1012fb902fb8c0a0fd2fb802fb7c0a0f92fb702fb6c0a0f52fb602fb5c0a0f12fb502fb4c0a0ed2fb402fb3c0a0e92fb302fb2c0a0e52fb202fb1c0a0e12fb102fb0c0a0dd2fb002fafc0a0d92faf02faec0a0d52fae02fadc0a0d12fad02facc0a0cd2fac02fabc0a0c92fab02faac0a0c52faa02fa9c)
  (.lf 0)) (.nd (.lf
  0x5b3a85b38c5b3705b3545b3385b3185b3005b2e85b2d05b2b85b29c5b2885b2705b2545b23c1561415608155fc155f0155e4155dc155cc155c0155b4155a8155a015590155841557c1557015564155581554c1554015534155281551c1551015504154f8154ec154e0154d4154c8154bc15d25063840db480db440db400db3c0db380db340db300db2c0db280db240db200db1c0db180db140db100db0c0db08)
  (.lf 0)))

def shaPos61 : BTree :=
  .nd (.nd (.nd (.lf
  0x55d920d9020d8c055d520d8020d7c055d120d7020d6c055cd20d6020d5c055c920d5020d4c055c520d4020d3c055c120d2820d2c055bd20d1c20d20055b920d0c20d08055b520d0020cfc055b120cf020ce8055ad20ce020cdc055a920ccc20cd0055a520cc020cbc055a120ca820cac0559d20c9c20ca00559920c9020c880559520c7820c7c0559120c6c20c680558d20c5c20c580558920c5020c4c05585)
  (.lf 0)) (.nd (.lf
  0x64c9864c7064c4864c20552cc552ec65128650f8650c86509865068650386500864fd864fa8617f8617d4617b06179061770617506173061710616f0616d0616b0616906167061654616386161c61600615e4615c8615ac6159054a9054aa86193c61918618f4618d0618ac6188861864618406181c614546143461414613f8613dc613c0613a4613886136c613506133461318612fc612e4612cc612b46129c)
  (.lf 0))) (.nd (.nd (.lf
  0x403900f1f940378403800f1f540368403700f1f140358403600f1ed40348403500f1e940338403400f1e540328403300f1e140318403200f1dd40308403100f1d9402f8403000f1d5402e8402f00f1d1402d8402e00f1cd402c8402d00f1c9402b8402c00f1c56a4d8402b00f1c16a4a8402a40f1bd6a478402980f1b96a44c4028c0f1b56a420402800f1b16a3f4402740f1ad6a3c8402680f1a96a39c4025c)
  (.lf 0)) (.nd (.lf
  0x301d4301c4301b4301a430194301843017430164301543014430134301243011430104300f41493d0078409a0c09a0809a0409a00099fc099f8099f4099f0099ec099e8099e4099e0099dc099d8099d4099d0099cc099c8099c4099c0099bc099b8099b4099b0099ac099a8099a4099a00999c09998300e4300d4300c4300b4300a4300943008430074300643005430044300343002430014300042fff42ffe4)
  (.lf 0)))

def shaPos62 : BTree :=
  .nd (.nd (.nd (.lf
  0x18a185e93802e3d18a105e91802e3918a045e8fc02e35189f85e8e002e31189e85e8c402e2d189e05e8a802e29189d05e88c02e25189c45e87002e21189bc5e85402e1d189b05e83802e19189a05e81c02e15189985e80002e111898c5e7e802e0d1897c5e7cc02e09189745e7b802e05189685e7a002e011895c5e78802dfd1894c5e77002df9189445e75802df5189385e73c02df1189281892402ded1891c)
  (.lf 0)) (.nd (.lf
  0x68ed868eac68e8068e5468e2868e0068dd868db068d8868d6068d3868d1068ce868cc068c9868a6068a3868a10689e8689c068998689706894868920637f854cac68c7468c4468c1468be868bbc68b9068b6468b3868b0c68ae068ab468a8c68a6468a3c68a14689ec689c46899c689746894c68924686dc686b46868c686646863c68614685ec685c46859c6371054c94688f0688c06889068864688386880c)
  (.lf 0))) (.nd (.nd (.lf
  0x48340375400c74d4832c375380c74948318375280c745483043751c0c74145bc0375100c73d45bb0375040c73945ba0374f80c73545b90374ec0c73145b80374e40c72d45b70374d80c72945b60374cc0c72545b50374c00c72145b40374b00c71d65bc0374a40c71965b903749c0c71565b60374900c71165b34374840c70d65b08374780c70965adc374680c70565ab0374600c70165a84374500c6fd65a58)
  (.lf 0)) (.nd (.lf
  0x22de022dd422dc422db022da422d9422d8022d7422d6022d5422d4422d3022d2422d1415a0552c1061c0061bd861bb461b9861b6c61b4861b2461b0061adc61ab861a9461a7461a5461a3461a1c619f4619d4619b461994619746195454b4c54b3454b1c54b0454aec54ad454abc52bf452be822d0422cfc22cf022cec22ce422cdc22cd422cc822cc422cb822cb022cac22ca422c9c22c9422c8c22c8422c7c)
  (.lf 0)))

def shaPos63 : BTree :=
  .nd (.nd (.nd (.lf
  0x285d0285cc07b81285c0285bc07b7d285b0285ac07b79285a02859c07b75285902858c07b71285802857c07b6d285702856c07b69285602855c07b65285502854c07b61285402853c07b5d285302852c07b59285202851c07b55285102850c07b5128500284fc07b4d284f0284ec07b49284e0284dc07b45284cc284c807b41284bc284c007b3d284ac284a807b3928498284a007b35284882849007b3128478)
  (.lf 0)) (.nd (.lf
  0x494f8494e4494d0494bc494a8494944948049470494604793848ea052f6852f4852f2852f0852ee852ec852eac52e9052e7452e5852e3c52e2052e0452de852dcc52db052d9452d7852d5c52d4052d2452d0852cec52cd052cb452c9852c7c52c6052c4852c3048e8c00e8c367f8367e8367d8367c8367b8367a836798367883677836768367583674836738367283671836708366f8366e8366d8366c8366b8)
  (.lf 0))) (.nd (.nd (.lf
  0x116211161d1161911615116111160d116091160511601115fd115f9115f5115f1115ed115e9115e515ba547ccc4eb984eb804eb684eb504eb384eb204eb0c4eaf84eae44ead04eabc4eaa84ea944ea804ea6c4ea584ea444ea304ea1c4ea084e9f44e9e04e9cc4e9b84e9a44e9904e97c4e9684e9584e94847cc0115e1115dd115d9115d5115d1115cd115c9115c5115c1115bd115b9115b5115b1115ad115a9)
  (.lf 0)) (.nd (.lf
  0x6a16c6a13c6a10c6a0e06a0b46a0886a05c6a0306a00469fd869fac69f8069f5869f3069f0869ee069eb869e9069e6869e4069e1863d4063d2063d0063ce063cc063ca063c80621286210c3d26c3d2603d2543d2483d23c3d2303d2243d2183d20c3d2003d1f43d1e83d1dc3d1d03d1c43d1b83d1ac3d1a03d1943d1883d17c3d1703d1643d1583d14c3d1403d1343d1283d11c3d11015f61000ec038e4038e0)
  (.lf 0)))

def shaPos64 : BTree :=
  .nd (.nd (.nd (.lf 0x0) (.lf
  0x3e6343e6283e61c3e6103e6043e5f83e5ec3e5e03e5d43e5c83e5bc3e5b03e5a43e5983e58c3e5803e5743e5683e55c3e5503e5443e53815f2154d7c6af5c6af2c6aefc6aed06aea46ae786ae4c6ae206adf46adc86ad9c6ad706ad486ad206acf86acd06aca86ac806ac586ac306ac08640c0640a0640806406064040640206400062208621ec3e52c3e5203e5143e5083e4fc3e4f03e4e43e4d83e4cc3e4c0))
  (.nd (.lf
  0x11bf111bed11be911be511be111bdd11bd911bd511bd111bcd11bc911bc511bc111bbd11bb911bb515bd547dec5081850800507e8507d0507b8507a05078c5077850764507505073c507285071450700506ec506d8506c4506b05069c5068850674506605064c506385062450610505fc505e8505d8505c847de011bb111bad11ba911ba511ba111b9d11b9911b9511b9111b8d11b8911b8511b8111b7d11b79)
  (.lf 0))) (.nd (.nd (.lf
  0x28fe028fd807ee928fc828fd007ee528fbc28fc007ee128fa828fac07edd28f9c28fa007ed928f8c28f9007ed528f7c28f8007ed14e4806856807ecd4e4686853807ec94e4506850c07ec54e438684e007ec14e420684b407ebd4e4086848807eb94e3f46845c07eb54e3e06843007eb14e3cc6840407ead4e3b8683d807ea94e3a4683ac07ea54e3906838407ea14e37c6835c07e9d4e3686833407e994e354)
  (.lf 0)) (.nd (.lf
  0x4d4844d4704d45c4d4484d4344d4204d40c4d3fc4d3ec47bec47be04d3dc4d3c44d3ac4d3944d37c4d3644d3504d33c4d3284d3144d3004d2ec4d2d84d2c44d2b04d29c4d2884d2744d2604d24c4d2384d2244d2104d1fc4d1e84d1d44d1c04d1ac4d19c4d18c47bd447bc84d17c4d1644d14c4d1344d11c4d1044d0f04d0dc4d0c84d0b44d0a04d08c4d0784d0644d0504d03c4d0284d0144d0004cfec4cfd8)
  (.lf 0)))

def shaPos65 : BTree :=
  .nd (.nd (.nd (.lf
  0x198101980c0323d19800197fc03239197f0197ec03235197dc197e003231197d0197d40322d197c0197c403229197b45f7b803225197a85f798032211979c5f7780321d1978c5f75803219197845f73803215197785f718032111976c5f6f80320d1975c5f6d803209197545f6b803205197485f69803201197385f678031fd197305f658031f9197245f63c031f5197185f620031f1197085f604031ed196fc)
  (.lf 0)) (.nd (.lf
  0x6676c667446671c666f4666cc666a46667c6665462f3c62f1c62efc62edc62ebc62e9c62e7c663ec663c46639c54bd46662c665fc665cc665a066574665486651c664f0664c4664986646c6644066418663f0663c8663a066378663506632866300662d862e5c62e3c62e1c62dfc62ddc62dbc62d9c66070660486602054bc0662b0662806625066224661f8661cc661a066174661486611c660f0660c46609c)
  (.lf 0))) (.nd (.nd (.lf
  0x66604382ac0cb4d665d4382a00cb49665a8382900cb456657c382880cb4166550382780cb3d66524382700cb39664f8382600cb35664cc382540cb31664a0382480cb2d664743823c0cb2966448382340cb2566420382280cb21663f83821c0cb1d663d0382100cb19663a8382040cb1566380381f80cb1166358381ec0cb0d66330381dc0cb0966308381d00cb05662e0381c80cb0162e64381bc0cafd62e44)
  (.lf 0)) (.nd (.lf
  0x2417424164241542414424134241242411424104240f4240e4240d4240c415a1154b8c65b9465b6465b3865b0c65ae065ab465a9465a5c65a3065a04659d8659b065988659606593865910658e8658c065898658706584862bac62b8862b6c62b4c62b2c62b0862ae861cb461c9c240b4240ac240a42409c2409424088240802407c240742406c240642405c2405424048240442403c240342402c240242401c)
  (.lf 0)))

def shaPos66 : BTree :=
  .nd (.nd (.nd (.lf
  0x795102e055fd000791102d055fb80078d102c855f9c00789102b855f8400785102b055f6c00781102a41029c0077d102901029400779102801028400775102701027400771102601025c0076d102501024c0076910244102400076510234102300076110220102240075d1020c102140075910200101fc00755101f4101f000751101e4101dc0074d101d4101d000749101c4101c000745101b4101b000741)
  (.lf 0)) (.nd (.lf
  0x13e3d13e3913e3513e3113e2d13e2913e2513e2113e1d13e1913e1513e1113e0d13e0913e0513e0113dfd549b8604ec604cc604ac6048c6046c6044c6042c6040c603ec603cc603ac6038c6037060354603386031c60300602e4602c8602ac60290602746025c602446022c60214601fc601e4601cc601b4549a4549b4604e8604c8604a86048860468604486042860408603e8603c8603a8603886036c60350)
  (.lf 0))) (.nd (.nd (.lf
  0x3066c0a4a1306603065c0a49d306503064c0a499306403063c0a495306303062c0a491306203061c0a48d306103060c0a48930600305fc0a485305f0305ec0a481305e0305dc0a47d305d0305cc0a479305c0305bc0a475305b0305ac0a471305a03059c0a46d50f2c648740a46950f14648440a46550efc648180a46150ee4647ec0a45d50ecc647c00a45950eb8647940a45550ea4647680a45150e906473c)
  (.lf 0)) (.nd (.lf
  0x16a3816a2816a1816a08169f8169e8169d816061546f05c9545c9345c9145c8f45c8d45c8b45c8945c8745c8545c8345c8145c7f45c7d85c7bc5c7a05c7845c7685c74c5c7305c7145c6f85c6dc5c6c45c6ac5c6945c67c5c6645c64c5c6385c61c169c8169bc169b0169a4169981698c169801697416968169581695016944169381692c169201691016908168fc168f0168e4168d8168cc168c0168b4168a8)
  (.lf 0)))

def shaPos67 : BTree :=
  .nd (.nd (.nd (.lf
  0x4b67c45d38059494b66445d28059454b64c45d18059414b63445d080593d4b62045cf8059394b60c45ce40593521860218580593121848218500592d218382183c059292182c21828059252181c2181805921218082180c0591d21800217f805919217ec217e805915217dc217d805911217c8217d00590d217bc217b805909217b0217a8059052179c217a005901217882178c058fd2177821780058f921768)
  (.lf 0)) (.nd (.lf
  0xbf240bf1c01bb80bf0c01bb001ba801ba00bf0001b980bef401b9001b8801b80064f000cba0001001b780a9ac01b700a9a801b6801b6001b5801b5001b4801b400a9980a98801b380a97c01b3001b280a9700a96801b2001b180a9580a95401b1001b080a94801b0001af80a93c01af00b7c800c820000c0a92801ae801ae001ad801ad00a91c01ac801ac00a91001ab801ab00a90401aa80a8f80a8ec0a8e0)
  (.lf 0))) (.nd (.nd (.lf
  0x410c00f5f96af28410b40f5f56aef8410a80f5f16aecc4109c0f5ed6aea0410900f5e96ae74410840f5e56ae48410780f5e16ae1c4106c0f5dd6adf0410600f5d96adc4410540f5d56ad98410480f5d16ad6c4103c0f5cd6ad44410300f5c96ad1c410240f5c56acf4410180f5c16accc4100c0f5bd6aca4410000f5b96ac7c40ff40f5b56ac5440fe80f5b16ac2c40fdc0f5ad6ac0440fd00f5a9640bc40fc4)
  (.lf 0)) (.nd (.lf
  0x31604315f4315e4315d4315c4315b4315a431594315843157431564315543154431534315243151431504314f4314e4314d4314c4314b4314a4149490079c09b7409b7009b6c09b6809b6409b6009b5c09b5809b5409b5009b4c09b4809b4409b4009b3c09b3809b3409b3009b2c09b2809b2409b2009b1c09b1809b1409b1009b0c09b0809b0409b00314943148431474314643145431444314343142431414)
  (.lf 0)))

def shaPos68 : BTree :=
  .nd (.nd (.nd (.lf
  0x9f41b3d01b3c01b3b01b3a01b3901b3801b3701b3601b3501b3401b3301b3201b3101b3001b2f01b2e01b2d01b2c01b2b01b2a01b2901b2801b2701b2601b2501b2401b2301b2201b2101b20006468009ec1b0881b0781b0681b0581b0481b0381b0281b0181b0081aff81afe81afd81afc81afb81afa81af981af881af781af681af581af481af381af281af181af081aef81aee81aed81aec81aeb806460)
  (.lf
  0x44edc44ecc44ebc44eac44e9c44e8c44e7c44e6c44e5c44e4c44e3c44e2c44e1c44e0c44dfc44dec44ddc44dcc44dbc44dac44d9c44d8c44d7c44d6c44d5c44d4c159b954180555dc555c4555a4555885556c555505553455518554fc554e0554c4554ac554905547c5546455448554345541c55404553ec553d0553bc553a855394553805536c5535855344553305531c44d3c44d3044d2444d1444d0c44d00))
  (.nd (.lf
  0x57814577f8577dc577c0577a4577885776c57750577385772057708576f0576d8576c0576a85769054310128f9128f5128f1128ed128e9128e5128e1128dd128d9128d5128d1128cd128c9128c5128c1128bd128b9128b5128b1128ad128a9128a5128a11289d1289912895128911288d1288912885128811287d543005767c5765c5763c5761c575fc575dc575bc5759c5757c5755c5753c5751c57500574e4)
  (.lf 0))) (.nd (.nd (.lf
  0x91c12cb502cb4c091bd2cb402cb3c091b92cb302cb2c091b52cb202cb1c091b12cb102cb0c091ad2cb002cafc091a92caf02caec091a52cae02cadc091a12cad02cacc0919d2cac02cabc091992cab02caac091952caa02ca9c091912ca902ca8c0918d4f9e06a4c4091894f9c86a494091854f9b06a468091814f9986a43c0917d4f9806a410091794f9686a3e4091754f9546a3b8091714f9406a38c0916d)
  (.lf 0)) (.nd (.lf
  0xfdb00fda00fd9015fe1541c855c0455be455bc455ba455b8455b6455b4455b2455b0455ae855ac455aa455a8855a6c55a5055a3855a1c55a00559e4559c8559ac5598c5597855960559485592c5591455900558e4558d00fd800fd700fd680fd5c0fd500fd440fd380fd280fd1c0fd140fd040fcfc0fcf00fce40fcd80fcc80fcbc0fcb00fca80fc980fc900fc840fc780fc6c0fc5c0fc500fc480fc3c0fc30)
  (.lf 0)))

def shaPos69 : BTree :=
  .nd (.nd (.nd (.lf
  0x468149cb81dcf80467d49ca41dcec0467949c901dce00467549c781dcd40467149c681dcc80466d1dcbc1dcb8046691dcb01dca8046651dc981dc9c046611dc881dc8c0465d1dc781dc7c046591dc701dc68046551dc601dc5c046511dc501dc4c0464d1dc401dc3c046491dc301dc2c046451dc201dc1c046411dc101dc0c0463d1dbf81dc00046391dbec1dbf0046351dbe01dbdc046311dbcc1dbd00462d)
  (.lf 0)) (.nd (.lf
  0x59c5459c3859c1c59c0059be459bc859bb059b9859b8059b6859b5059b3859b2059b08544d0544bc59af059ad059ab059a9059a7059a5059a3059a10599f0599d0599b05999059974599585993c5992059904598e8598cc598b059894598785986059848598305981859800597e8597d0597b8544a854494597a05978059760597405972059700596e0596c0596a05968059660596405962459608595ec595d0)
  (.lf 0))) (.nd (.nd (.lf
  0xe0a5678583c9b00e0a1678303c9a40e09d678083c9980e099677e03c98c0e095677b83c9800e091633983c9740e08d633783c9680e089633583c95c0e085633383c9500e081633183c9440e07d632f83c9380e079632d83c92c0e07561ebc3c9200e07161ea03c9140e06d69a783c9080e06969a483c8fc0e06569a183c8f00e061699ec3c8e40e05d699c03c8d80e059699943c8cc0e055699683c8c00e051)
  (.lf 0)) (.nd (.lf
  0x93e8093e4093e0093dc093d8093d4093d0093cc093c8093c4093c0093bc093b8093b4093b0093ac093a8093a4093a00939c0939809394093900938c0938809384093802ab942ab842ab702ab642ab542ab442ab342ab242ab102ab042aaf42aae42aad42aac42aab42aaa42aa942aa842aa742aa602aa542aa442aa342aa242aa142aa042a9f42a9e42a9d42a9c415a5154ccc6935469324692f8692cc692a0)
  (.lf 0)))

def shaPos70 : BTree :=
  .nd (.nd (.nd (.lf
  0x14d8801ce914d7414d7801ce514d6c14d6801ce114d5814d5401cdd14d4414d4c01cd914d3414d3c01cd514d2814d2c01cd114d1814d1401ccd14d0814d0c01cc914cf414cf801cc514cec14ce401cc114cdc14cd401cbd14cc414ccc01cb914cb814cb401cb514cac14ca801cb114c9414c9c01cad14c8414c8801ca914c7414c7801ca514c6414c6801ca114c5414c5c01c9d14c4414c4c01c9914c3c5ab88)
  (.lf 0)) (.nd (.lf
  0x3d6543d6483d63c3d6303d6243d6183d60c3d6003d5f43d5e83d5dc3d5d03d5c43d5b848e1800f9c3d2643d2583d24c3d2403d2343d2283d21c3d2103d2043d1f83d1ec3d1e03d1d43d1c83d1bc3d1b03d1a43d1983d18c3d1803d1743d1683d15c3d1503d1443d1383d12c3d1203d1143d10848e0c00f903cdb43cda83cd9c3cd903cd843cd783cd6c3cd603cd543cd483cd3c3cd303cd243cd183cd0c3cd00)
  (.lf 0))) (.nd (.nd (.lf
  0x341c0341bc0b779341b0341ac0b775341a03419c0b771341903418c0b76d341803417c0b769341703416c0b765341603415c0b761341503414c0b75d341403413c0b759341303412c0b755341203411c0b751341103410c0b74d34100340fc0b749340f0340ec0b745340e0340dc0b741340d0340cc0b73d340c0340bc0b739340b0340ac0b73552618468b80b73152600468a00b72d525e4468880b729525c4)
  (.lf 0)) (.nd (.lf
  0x49bf449bd849bc049ba849b9049b7849b6049b4849b3849b1849b0449aec49ad449ab849aa449a8849a7049a5849a4049a2849a10499fc499e0499c8499b4499a0499901d7241d71c1d7141d70c1d7001d6fc1d6f41d6ec1d6e01d6dc1d6d41d6cc1d6c41d6bc1d6b41d6a81d6a41d69c1d6941d68c1d6841d67c1d6701d6641d6581d64c1d6401d6341d6241d61815b1d0041c066f4066f0066ec066e8066e4)
  (.lf 0)))

def shaPos71 : BTree :=
  .nd (.nd (.nd (.lf
  0x2546c06c2d4cf206660c06c294cf08665dc06c254cef0665b006c214ced86658406c1d4cec06655806c194cea86652c06c154ce946650006c114ce80664d406c0d4ce6c664a806c094ce586647c06c054ce446645006c014ce306642806bfd4ce1c6640006bf94ce08663d806bf54cdf4663b006bf14cde06638806bed4cdcc6636006be94cdb86633806be54cda46631006be14cd90662e806bdd4cd7c662c0)
  (.lf 0)) (.nd (.lf
  0x26df826df026de826de026dd826dd426dcc26dc026dbc48d6800bd8268102680826800267f8267f0267e8267e4267d8267d0267c8267c4267b8267b0267a8267a0267982679026788267802677c267702676c267602675826754267482674426738267302672848d5c00bc42618026178261702616826160261582615026148261402613c261302612c2612026118261102610826104260fc260f0260e8260e0)
  (.lf 0))) (.nd (.nd (.lf
  0x4daa84da8c4da784da644da504da3c4da284da144da004d9ec4d9d84d9c44d9b04d99c4d9884d9744d9604d6ec4d6d84d6c44d6b04d69c4d6884d6784d88c4d8744d85c4d8444d8344d8904d8784d8604d8484d82c4d8184d8044d7f04d7dc4d7c84d7b44d7a04d78c4d7784d7644d7504d73c4d7284d7144d7004d48c4d4784d4644d4504d43c4d4284d4144d62c4d6144d5fc4d5e44d5cc4d6304d6184d600)
  (.lf 0)) (.nd (.lf
  0x37ee437ed837ecc37ec037eb437ea837e9c37e9037e8437e7837e6c37e6037e5037e4837e3c37e2c37e2437e1815c4d54bc4662b4662846625466228661fc661d0661a4661786614c66120660f4660c8660a06607866050660286600065fd865fb065f8865f6062d8062d6062d4062d2062d0062ce062cc061d3861d1c37e0c37e0037df037de837dd837dd037dc437db837da837da037d9437d8837d7c37d70)
  (.lf 0)))

def shaPos72 : BTree :=
  .nd (.nd (.nd (.lf
  0x8e0142641425c14248142401423414228142181421414200141f4141ec141e0141d4141c4141c0141ac141a014198141881417c141701416c141581415414144141341412814120141101410c544fc008d813f1813f1013f0413ef413ee813ee013ed013ec413eb813eac13ea013e9c13e8c13e8413e7413e6413e5813e4c13e4813e3813e2c13e2013e1413e0c13df813dec13de013dd813dc813dc4544d4)
  (.lf
  0x419dc419d0419c4419b8419ac419a041994419884197c4197041964419584194c4194041934419284191c4191041904418f8418ec418e0418d4418c815fa5457b453dcc53da853d8453d6053d3c53d1853cf453cd053cac53c8853c6453c4053c2053c0053be053bc053ba053b8053b6053b4053b2053b0053ae453ac853aac53a9053a7453a584912449110418bc418b0418a4418984188c418804187441868))
  (.nd (.lf
  0x5c2805c2605c2405c2205c2005c1e05c1c05c1a05c1805c1605c1405c1245c1085c0ec5c0d05c0b45c0985bd2c5bd105bcf45bf4c5bf2c5bf0c5beec5becc5beac5be8c5be745be4c5be345be0c5bf505bf305bf105bef05bed05beb05be905be6c5be505be2c5be105bdf05bdd45bdb85bd9c5bd805bd645bd4c5b9dc5b9c05b9a85bbfc5bbdc5bbbc5bb9c5bb7c5bb5c5bb3c5bb1c5bafc5badc5bac45bc00)
  (.lf 0))) (.nd (.nd (.lf
  0xae100ae040adf80adec0ade0021640044a0ae680883d021cc1520d021c4152090ae6415205004460ae6008839004420ae50088350ae48152010043e0ae44088310043a0ae3c0882d004360ae2c08829021ac151fd021a4151f90219c151f502194151f10218c151ed02184151e90217c151e502174151e10ae28151dd004320ae24088250ae1c151d90042e0ae18088210042a0ae0c0881d004260ae0008819)
  (.lf 0)) (.nd (.lf
  0x4cf344cf2447bb447bc04d1744d15c4d1444d12c4d1144d0fc4ce884ce744ce604ce4c4ce384ce244ce104cdfc4cde84cdd44cdc04cdac4cd984cd844cd704cd5c4cd484cd344cd204cd0c4ccf44cce44ccd44ccc447b9c47ba84cf144cefc4cee44cecc4ceb04ce9c4cc284cc144cc004cbec4cbd84cbc44cbb04cb9c4cb884cb744cb604cb4c4cb384cb244cb104cafc4cae84cad44cac04caac4ca984ca84)
  (.lf 0)))

def shaPos73 : BTree :=
  .nd (.nd (.nd (.lf
  0x1bd9c03ce91bd841bd8c03ce51bd741bd7c03ce11bd641bd6c03cdd1bd541bd5c03cd91bd441bd4c03cd51bd341bd3c03cd11bd241bd2c03ccd1bd141bd1c03cc91bd041bd0c03cc51bcf41bcfc03cc11bce41bcec03cbd1bcd41bcdc03cb91bcc41bccc03cb51bcb41bcbc03cb11bca41bcac03cad1bc941bc9c03ca91bc841bc8c03ca51bc741bc7c03ca11bc641bc6c03c9d1bc541bc5c03c991bc441bc4c)
  (.lf 0)) (.nd (.lf
  0x25da825d9825d9425d7825d6c25d6025d4c25d3c25d2c25d2025d1425cfc25cec25ce00027000ba8258182580825800257e8257d8257d0257bc257a82579c25788257782576c257582574c2573c25734257182570c25704256f0256dc256d4256bc256ac2569c256902568425674256642564c0026800b98251882517825168251582514825138251282511825108250f8250e8250d8250c8250b8250a825098)
  (.lf 0))) (.nd (.nd (.lf
  0x3a6480d5f93a63c3a6380d5f53a62c3a6280d5f13a61c3a6180d5ed3a60c3a6080d5e93a5fc3a5f80d5e53a5ec3a5e80d5e13a5dc3a5d80d5dd3a5cc3a5c80d5d93a5c03a5b80d5d53a5ac3a5a80d5d13a59c3a5980d5cd3a58c3a5880d5c93a5803a5780d5c53a56c3a5680d5c13a5603a5580d5bd3a54c3a5480d5b93a5403a5380d5b53a52c3a5300d5b13a5203a5180d5ad3a5083a5100d5a93a5003a4fc)
  (.lf 0)) (.nd (.lf
  0x8fd008fcc08fc808fc408fc02771427704276f4276e4276d4276c4276b4276a027694276842767427660276542764427634276242761027604275f4275e4275d4275c4275b4275a427590275842757427564275542754415a3154c2c677746774467718676ec676c067694676686763c67610675e4675b867590675686754067518674f0674c8674a0674786745067428632a863288632686324c6322863208)
  (.lf 0)))

def shaPos74 : BTree :=
  .nd (.nd (.nd (.lf
  0x1280c586d40123d127fc586b801239127f45869401235127e85867401231127d8586540122d127d05863401229127c05861401225127b4585f401221127a8585d40121d1279c585b401219127905859801215127845857c0121112778585600120d127705854801209127605852c012051275858510012011274c584f4011fd12740584d4011f912734584b8011f512728584a0011f11271c58488011ed1270c)
  (.lf 0)) (.nd (.lf
  0x3af283af183af083aef83aef03aedc3aecc3aebc3aea83ae9c3ae903ae7c3ae683ae58000b000f383ab783ab683ab643ab483ab383ab303ab183ab083aaf83aae83aad83aacc3aac43aaa83aa9c3aa883aa803aa683aa603aa483aa443aa303aa183aa083a9f83a9ec3a9d83a9d03a9c43a9b0000a800f2c3a6cc3a6bc3a6a83a69c3a6943a6843a6743a6643a6543a6443a6343a6243a6143a6043a5f43a5e4)
  (.lf 0))) (.nd (.nd (.lf
  0xb530155fd0068a0b52c0adf902974155f90296c155f502964155f10b524155ed006860b5200adf5006820b5140adf102954155e90294c155e50b50c155e10067e0b5080aded0067a0b4fc0ade90293c155dd02934155d90292c155d50b4f4155d1006760b4f00ade50b4e8155cd006720b4e40ade10066e0b4d80addd0b4d0155c90066a0b4cc0add9006660b4c00add5006620b4b40add10b8a4155c532390)
  (.lf 0)) (.nd (.lf
  0x1a0901a0881a07c1a0701a0601a0541a0481a03c1a034160910643c0e6100e60c0e6080e6040e6000e5fc0e5f80e5f40e5f00e5ec0e5e80e5e40e5e00e5dc0e5d80e5d40e5d00e5cc0e5c80e5c40e5c00e5bc0e5b80e5b40e5b00e5ac0e5a80e5a40e5a00e59c1a0281a0181a00819ff819fe819fd819fc819fb819fa819f9819f8819f7819f6819f5819f4819f3819f2819f1819f0819ef819ee819ed819ec8)
  (.lf 0)))

def shaPos75 : BTree :=
  .nd (.nd (.nd (.lf
  0x188c14d5d0188414d590187c14d550bd4814d51018360bd44062cd15871237482374c062c92373c23740062c52373023728062c12371c23720062bd2371023708062b9236fc23700062b5236f0236e8062b1236dc236e0062ad236d0236c8062a9236b8236c0062a5236b0236a8062a123698236a00629d236902368806299236782368006295236702366c06291236602365c0628d236502364c0628923640)
  (.lf 0)) (.nd (.lf
  0x265dc265cc265bc265a82659c2658826578265682656426550004c800bc0260882607c2606c2605c2604c2603c26028260182600825ff825fe825fd825fc825fb825fa825f9825f8825f7825f7425f5825f4825f3825f2c25f1c25f0c25ef825ee825ed825ec825ebc004c000bac259f8259ec259dc259cc259b8259b4259982599425984259702595825948259382592c2592425910258f8258f0258dc258cc)
  (.lf 0))) (.nd (.nd (.lf
  0x100a546c8c43478100a146c744346c1009d46c5c434601009946c44434541009546c30434481009146c1c4343c1008d46c08434301008946bf4434241008546be0434181008146bcc4340c1007d46bb8434001007946ba4433f41007546b90433e81007146b7c433dc1006d46b6c433d01006946b5c433c41006546b4c433b81006146b3c433ac1005d46b2c433a01005946b1c4339410055458384338810051)
  (.lf 0)) (.nd (.lf
  0x349c4349b4349a4349943498434974349643495434944349343492414969007dc09f3409f3009f2c09f2809f2409f2009f1c09f1809f1409f1009f0c09f0809f0409f0009efc09ef809ef409ef009eec09ee809ee409ee009edc09ed809ed409ed009ecc09ec809ec409ec03491434904348f4348e4348d4348c4348b4348a434894348843487434864348543484434834348243481434804347f4347e4347d4)
  (.lf 0)))

def shaPos76 : BTree :=
  .nd (.nd (.nd (.lf
  0x62ab062a9062a7062a5062a3062a1061c8461c6865820657f865824657ec657c4657986576c6574065714656e8656bc65690656646563c629d0629b06299062970629506293061c4c61c30654a465474654a865478654486541c653f0653c4653986536c6534065314652e8652bc54b3854b2054b0854af054ad854ac452bfc52c0861c0461bdc61c0861be061bb861b9061b7061b4c61b2861b0461ae061abc)
  (.lf 0)) (.nd (.lf
  0x5bda85bd8c5bd705bd545bd385bd1c5bd005bce45bccc5bcb45bc9c5bc845bc6c5bc545bc3c5bc245465c5466c5bf585bf385bf185bef85bed85beb85be985be785be585be385be185bdf85bddc5bdc05bda45bd885bd6c5bd505bd345bd185bcfc5bce05bcc85bcb05bc985bc805bc685bc505bc385bc20546581337913375133711336d1336913365133611335d1335913355133511334d133491334513341)
  (.lf 0))) (.nd (.nd (.lf
  0x9b0d011e6011e2011de011da011d6011d2011ce011ca011c6011c2025d4025cc025bc0b1100258c0257c025740b0e00b0d4025540b13415415005360b13009b09025c4154110b1281540d005320b12409b05025b415409025ac15405025a4154010259c153fd02594153f90b11c153f50052e0b11809b010052a0b10c09afd02584153f10b104153ed005260b10009af90b0f8153e9005220b0f409af50256c)
  (.lf 0)) (.nd (.lf
  0x1341c1341013404133f4133ec15cf5063340d6980d6940d6900d68c0d6880d6840d6800d67c0d6780d6740d6700d66c0d6680d6640d6600d65c0d6580d6540d6500d64c0d6480d6440d6400d63c0d6380d6340d6300d62c0d6280d624133e0133d0133c0133b0133a01338c1337c1337013360133501333c13330133201331013300132f0132e0132d0132c0132ac132a0132901328013270132601324c13240)
  (.lf 0)))

def shaPos77 : BTree :=
  .nd (.nd (.nd (.lf
  0x500d1fc201fc1c050091fc081fc0c050051fbf81fc00050011fbec1fbf004ffd1fbd81fbdc04ff91fbcc1fbc804ff51fbc01fbb804ff11fba81fbb004fed1fb9c1fba004fe91fb8c1fb9004fe51fb7c1fb8004fe11fb681fb6c04fdd1fb581fb5c04fd91fb481fb4c04fd51fb3c1fb4004fd11fb301fb2804fcd1fb1c1fb2004fc91fb101fb0804fc51fafc1fb0004fc11faf01fae804fbd1fad81fae004fb9)
  (.lf 0)) (.nd (.lf
  0x594a45948c594745945c54474544885979459774597545973459714596f4596d4596b4596945932459300592e4592c8592ac5929059274592585923c5922059204591e4591cc591b45919c591845916c591545913c591245910c5444c54460594445942459404593e4593c4593a459384593645934458fd458fb058f9458f7858f5c58f4058f2458f0858eec58ed058eb458e9458e7c58e6458e4c58e3458e1c)
  (.lf 0))) (.nd (.nd (.lf
  0x642443ed740eb4d642243ed680eb49642043ed5c0eb45641e43ed500eb41641c43ed440eb3d6227c3ed380eb39622603ed2c0eb353ed203ed180eb313ed103ed080eb2d3ed003ecf80eb293ecf03ece80eb253ece03ecd80eb213ecd03ecc80eb1d3ecc03ecb80eb193ecb03eca80eb153eca03ec980eb113ec903ec880eb0d3ec803ec780eb093ec703ec680eb053ec603ec580eb013ec503ec480eafd3ec40)
  (.lf 0)) (.nd (.lf
  0x9794097900978c0978809784097800977c0977809774097700976c0976809764097600975c0975809754097500974c0974809744097402e0142e0042dff42dfe42dfd42dfc42dfb42dfa42df942df842df742df642df542df442df342df242df142df042def42dee42ded42dec42deb42dea42de942de842de742de642de542de4415a7154d746af4c6af1c6aeec6aec06ae946ae686ae3c6ae106ade46adb8)
  (.lf 0)))

def shaPos78 : BTree :=
  .nd (.nd (.nd (.lf
  0x2795172d05d13c02791172c45d1200278d172b85d10402789172ac5d0e802785172a05d0cc02781172945d0b40277d172885d09c027791727c5d08402775172705d06c02771172645d0540276d172585d03c02769172485d02402765172405d00c027611722c172340275d172241721c027591720c172140275517204171fc02751171ec171f40274d171e4171dc02749171cc171d402745171c4171bc02741)
  (.lf 0)) (.nd (.lf
  0x422bc422b0422a4422984228c4228042274422684225c4225042244422384222c4222048e680106041ecc41ec041eb441ea841e9c41e9041e8441e7841e6c41e6041e5441e4841e3c41e3041e2441e1841e0c41e0041df441de841ddc41dd041dc441db841dac41da041d9441d8841d7c41d7048e600105441a1c41a1041a04419f8419ec419e0419d4419c8419bc419b0419a4419984198c419804197441968)
  (.lf 0))) (.nd (.nd (.lf
  0x459d0474300c0cd459c4474140c0c9459b8473f80c0c5459ac473dc0c0c1459a0473c00c0bd45994473a40c0b945988473880c0b54597c4736c0c0b145970473500c0ad45964473380c0a945958473200c0a54594c473080c0a145940472f00c09d45934472d80c09945928472c00c0954591c472a80c09145910472900c08d45904472780c089458f8472600c085458ec4724c0c081458e0472380c07d458d4)
  (.lf 0)) (.nd (.lf
  0x20c7020c6420c5420c44159f147a844b31c4b3004b2e44b2c84b2ac4b2904b2784b2604b2484b2304b2184b2004b1e84b1d44b1bc4b1a44b18c4b1704b1584b1444b12c4b1144b0f84b0e44b0cc4b0b44b09c4b0844b0704b05c20c3420c2c20c2420c1c20c1420c0c20c0420bfc20bf420bec20be420bdc20bd020bc820bc420bbc20bb020bac20ba420b9c20b9420b8c20b8420b7c20b7420b6820b6020b5c)
  (.lf 0)))

def shaPos79 : BTree :=
  .nd (.nd (.nd (.lf
  0xaad00758d003120aac0075890aabc14fd90030e0aab4075850030a0aaac0758101d6c14fd50aaa014fd1003060aa9c0757d003020aa90075790aa8c14fcd002fe0aa84075750aa7c14fc9002fa0aa780757101d4c14fc501d4414fc101d3c14fbd01d3414fb90aa7414fb5002f60aa6c0756d0aa6814fb1002f20aa60075690aa5c14fad002ee0aa58075650aa4c14fa9002ea0aa4807561002e60aa3c0755d)
  (.lf 0)) (.nd (.lf
  0x26f2c26f1c26f1026ef826ee826ed826ed026ebc26eb0006d000bdc269e8269d8269d4269b8269ac269982698c26978269682695826948269382692c269182690c268fc268e8268d8268c8268b8268a8268982689426884268702685826850268382682826824006c800bc826358263482633c263342631c26310262fc262ec262e4262d4262b8262ac2629c26294262842626c2626026248262402623426218)
  (.lf 0))) (.nd (.nd (.lf
  0x10c7110c6d10c6910c6510c6110c5d10c5910c5510c5110c4d10c4910c4510c4110c3d10c3910c3515b5547adc4bb9c4bb804bb644bb484bb2c4bb104baf84bae04bac84bab04ba984ba804ba684ba504ba384ba204ba084b9f04b9d84b9c04b9a84b9904b9784b9604b9484b9304b9184b9004b8ec4b8d847acc10c3110c2d10c2910c2510c2110c1d10c1910c1510c1110c0d10c0910c0510c0110bfd10bf9)
  (.lf 0)) (.nd (.lf
  0x3b28c3b2803b2743b2683b25c3b2503b2443b2383b2283b21c3b2103b2083b1fc3b1f03b1e43b1d43b1cc3b1c03b1b43b1a815e9d54ca068908688d8688a86887c6885068824687f8687cc687a068774687486871c686f4686cc686a46867c686546862c68604685dc685b46372063700636e0636c0636a0636806366061fa061f843b19c3b1903b1843b1783b16c3b15c3b1543b1483b13c3b1303b1243b118)
  (.lf 0)))

def shaPos80 : BTree :=
  .nd (.nd (.nd (.lf
  0x86010de810ddc10dd010dbc10db010dac10d9c10d9010d8410d7410d7010d6010d5010d4410d3c10d3010d2810d1810d0810cfc10cf410ce810ce010ccc10cc410cb810ca810c9c10c9810c8c5427c0085810a9c10a8c10a8810a7810a6810a5c10a5010a4410a3810a3010a2810a1410a0c109fc109f0109e8109d8109d0109c0109bc109ac1099c109901098c1097c109741096410954109501094054254)
  (.lf
  0x3d7c03d7803d7403d7003d6c03d6803d6403d6003d5c03d5803d5403d5003d4c03d4803d4403d4003d3c03d3803d3403d3003d2c03d2803d2403d203ffe43ffd43ffc43ffb43ffa43ff943ff843ff743ff643ff543ff443ff343ff243ff143ff043fef43fee43fed43fec43feb43fea43fe943fe843fe743fe643fe543fe443fe343fe243fe141483d54d246a1586a1286a0f86a0cc6a0a06a0746a0486a01c))
  (.nd (.lf
  0x5588455868558545583455818557f8557e4557c8557ac5578c5577055758557405572855710556f8556e0553f0553d8553c4555d0555b4555905557455560555405552855508554f0554cc554b8555c8555ac555945557c5555c5553c5552055504554e8554d0554b05549855480554685545055438554205540862498624786245c6274862728626f4626d0626a862688626606262862610625d8625b462740)
  (.lf 0))) (.nd (.nd (.lf
  0x29f90083b129f7829f80083ad29f6829f70083a929f6029f5c083a529f4c29f48083a129f4029f3c0839d29f2c29f280839929f2029f180839529f0829f100839129f0029efc0838d29ee829ef00838929ed829edc0838529ed029ec80838129eb829ec00837d29ea829eb00837929e9829e9c0837529e8829e8c0837129e7829e7c0836d29e7029e680836929e6029e580836529e5029e4c0836129e4029e38)
  (.lf 0)) (.nd (.lf
  0x5214c521345211c52104520ec520d4520bc520a85209447f2847f185208052064520485202c5201051ff451fdc51fc451fac51f9451f7c51f6451f4c51f3451f1c51f0451eec51ed451ebc51ea451e8c51e7451e5c51e4451e2c51e1451dfc51de451dd051dbc47f0847ef851da851d9051d7851d6051d4851d3051d1c51d0851cf451ce051ccc51cb851ca451c9051c7c51c6851c5451c4051c2c51c1851c04)
  (.lf 0)))

def shaPos81 : BTree :=
  .nd (.nd (.nd (.lf
  0x37951aac8609fc037911aabc609e00378d1aab0609c4037891aaa0609a8037851aa986098c037811aa88609700377d1aa8060954037791aa7060938037751aa686091c037711aa58609040376d1aa50608ec037691aa40608d4037651aa34608bc037611aa2c608a40375d1aa206088c037591aa1460874037551aa086085c037511a9f41a9fc0374d1a9e41a9ec037491a9d41a9dc037451a9c41a9cc03741)
  (.lf 0)) (.nd (.lf
  0x53f8453f6453f4453f2453f0453ee453ec453ea453e8453e6853e4c53e3053e1453df853ddc53bf853bd853bb8457b053dc853da453d8053d5c53d3853d1453cf053ccc53ca853c8453c6053c3c53c1c53bfc53bdc53bbc53b9c53b7c53b5c53b3c53b1c53afc53ae053ac453aa853a8c53a7053a54538605384053820457a053a3053a0c539e8539c4539a05397c539585393453910538ec538c8538a453884)
  (.lf 0))) (.nd (.nd (.lf
  0xd0a5670d0394840d0a1631e43947c0d09d631c43946c0d099631a4394640d09563184394540d091631643944c0d08d631443943c0d08963124394340d08561e54394240d08161e383941c0d07d3940c394100d079393f8393fc0d075393f0393ec0d071393d8393dc0d06d393c8393cc0d069393bc393c00d065393ac393b00d0613939c393a00d05d39390393880d05939378393800d055393683936c0d051)
  (.lf 0)) (.nd (.lf
  0x8de025cd425cc425cb425ca425c9425c8425c7425c6425c5425c4425c3425c2425c1425c0425bf425be425bd425bc425bb425ba425b9425b8425b7425b6425b5425b4425b3425b2425b1425b0415a2154bdc669846695466928668fc668d0668a4668786684c66820667f4667c8667a066778667506672866700666d8666b066688666606663862f2862f0862ee862ec862ea862e8862e6861d9461d7c25af4)
  (.lf 0)))

def shaPos82 : BTree :=
  .nd (.nd (.nd (.lf
  0x1158000ce9115701157400ce51155c1156400ce11154c1155000cdd115401153c00cd9115341153000cd5115241151c00cd1115101151400ccd11504114fc00cc9114f4114f000cc5114e0114e400cc1114d0114cc00cbd114bc114c000cb9114ac114b400cb5114a0114a400cb11148c1149400cad1147c1148000ca9114745733800ca5114645731800ca11145c572f800c9d11450572d800c9911440572b8)
  (.lf 0)) (.nd (.lf
  0x1438d1438914385143811437d1437914375143711436d1436914365143611435d1435914355552a846f78143515528046f601434d5525846f48143495523046f30143455520846f1814341551e446f001433d551c046ee8143395519c46ed0143355517846eb8143315515446ea01432d5513046e88143295510c46e7414325550e846e6014321550c446e4c1431d550a046e38143195507c46e241431555058)
  (.lf 0))) (.nd (.nd (.lf
  0x3157c0a951315703156c0a94d315603155c0a949315503154c0a945315403153c0a941315303152c0a93d315203151c0a939315103150c0a93531500314fc0a931314f0314ec0a92d314e0314dc0a929314d0314cc0a925314c0314bc0a921314b0314ac0a91d314a03149c0a919314903148c0a915314803147c0a911314703146c0a90d314603145c0a909314503144c0a905314403143c0a901314303142c)
  (.lf 0)) (.nd (.lf
  0xe1fc0e1f80e1f40e1f00e1ec0e1e80e1e40e1e00e1dc185e4185d8185c8185b4185a418594185841857818568185581854418538185281851818504184f8184e8184d8184c4184b4184a818498184881847818468184541844418434184281841816079548305e3d45e3b45e3945e3745e3545e3345e3145e2f45e2d45e2b45e2945e2745e2585e23c5e2205e2045e1e85e1cc5e1b05e1945e1785e15c5e144)
  (.lf 0)))

def shaPos83 : BTree :=
  .nd (.nd (.nd (.lf
  0x2279805e1d227882278c05e19227802277c05e15227702276c05e11227582275c05e0d2274c2274805e09227402273c05e05227302272c05e01227202271c05dfd227102270c05df922700226fc05df5226e8226ec05df1226d8226dc05ded226d0226c805de9226b8226bc05de5226a8226b005de122698226a005ddd226882268c05dd9226782268005dd54be8048cf005dd14be6448cd805dcd4be4848cc0)
  (.lf 0)) (.nd (.lf
  0x2a580b56402a500b55802a480b54c02a400b54002a3802a300b8ac0147a330cc330bc005c000de002a2802a200c7a002a1802a100c79402a080c78802a00029f8029f0029e8029e00c77c0c770029d80c764029d00c7580c74c029c80c7400c734029c0029b8029b0029a8029a002998065580144e00400029900b53402988029800b528029780297002968029600b51c0b5100295802950029480b5040b4f8)
  (.lf 0))) (.nd (.nd (.lf
  0x6ba1c4229c0fb4d6b9f4422900fb496443c422840fb456441c422780fb41643fc4226c0fb3d643dc422600fb39643bc422540fb356439c422480fb316437c4223c0fb2d622e4422300fb29622c8422240fb254644c422180fb21464344220c0fb1d4641c422000fb1946404421f40fb15463ec421e80fb11463d4421dc0fb0d463bc421d00fb09463a4421c40fb054638c421b80fb0146374421ac0fafd4635c)
  (.lf 0)) (.nd (.lf
  0x3306433054330443303433024330143300432ff432fe432fd432fc432fb432fa432f9432f8432f7432f6432f5432f4432f3432f2432f1432f0432ef432ee414959007bc09d5409d5009d4c09d4809d4409d4009d3c09d3809d3409d3009d2c09d2809d2409d2009d1c09d1809d1409d1009d0c09d0809d0409d0009cfc09cf809cf409cf009cec09ce809ce409ce032ed432ec432eb432ea432e9432e8432e74)
  (.lf 0)))

def shaPos84 : BTree :=
  .nd (.nd (.nd (.lf
  0x6a1606a1306a1006a0d46a0a86a07c6a0506a02469ff869fcc69fa06a1646a1346a1046a0d86a0ac6a0806a0546a02869ffc69fd069fa469f7869f5069b3469b0c69ae469abc69a9469de469db469d8469d5869d2c69d0069cd469ca869c7c69c5069c2469de869db869d8869d5c69d3069d0469cd869cac69c8069c5469c2869bfc69bd4697b86979069768697406971869a6869a3869a08699dc699b069984)
  (.lf 0)) (.nd (.lf
  0x12e3d12e3912e3512e3112e2d12e2912e2512e2112e1d12e1912e1512e1112e0d12e0912e0512e0112dfd544b859aec59acc59aac59a8c59a6c59a4c59a2c59a0c599ec599cc599ac5998c5997059954599385991c59900598e4598c8598ac59890598745985c598445982c59814597fc597e4597cc597b4544a4544b459ae859ac859aa859a8859a6859a4859a2859a08599e8599c8599a8599885996c59950)
  (.lf 0))) (.nd (.nd (.lf
  0x2dad02dacc096912dac02dabc0968d2dab02daac096892daa02da9c096852da902da8c096812da802da7c0967d2da702da6c096792da602da5c096752da502da4c096712da402da3c0966d2da302da2c096692da202da1c096652da102da0c096612da002d9fc0965d2d9f02d9ec096592d9e02d9dc096552d9d02d9cc096512d9c02d9bc0964d2d9b02d9ac096492d9a02d99c096452d9902d98c096412d980)
  (.lf 0)) (.nd (.lf
  0xd2740d2700d26c0d2680d2641199c119901198011970119601195011940119301192011910118fc118ec118dc118d0118c0118b0118a011890118801186c11860118501183c11830118201181011800117ec117dc117cc15cb5543085768457664576485762857608575e4575c4575a8575885756457548575285750c574ec574d4574b8574985747c57460574485742c57410573f4573dc573c4573ac57394)
  (.lf 0)))

def shaPos85 : BTree :=
  .nd (.nd (.nd (.lf
  0x1ed0404b591ecfc1ecf404b551ece81ecec04b511ecdc1ecd404b4d1ecc81eccc04b491ecbc1ecb404b451eca81ecac04b411ec981ec9c04b3d1ec8c1ec8804b391ec7c1ec7404b351ec641ec6c04b311ec5c1ec5404b2d1ec4c1ec4804b291ec3c1ec3804b251ec2c1ec2804b211ec1c1ec1804b1d1ec0c1ec0804b191ebfc1ebf804b151ebec1ebe404b111ebd81ebdc04b0d1ebc41ebcc04b091ebbc1ebb4)
  (.lf 0)) (.nd (.lf
  0x60654606386061c60600605e4605c8605b060598605806056860550605386052060508549d0549bc604f0604d0604b06049060470604506043060410603f0603d0603b06039060374603586033c6032060304602e8602cc602b060294602786026060248602306021860200601e8601d0601b8549a854994601a06018060160601406012060100600e0600c0600a060080600606004060024600085ffec5ffd0)
  (.lf 0))) (.nd (.nd (.lf
  0x3db980e5f96a7843db8c0e5f56a7583db800e5f16a72c3db740e5ed6a7003db680e5e96a6d43db5c0e5e56a6a83db500e5e16a67c3db440e5dd6a6543db380e5d96a62c3db2c0e5d56a6043db200e5d16a5dc3db140e5cd6a5b43db080e5c96a58c3dafc0e5c56a5643daf00e5c16a53c3dae40e5bd6a5143dad80e5b963f043dacc0e5b563ee43dac00e5b163ec43dab40e5ad63ea43daa80e5a963e843da9c)
  (.lf 0)) (.nd (.lf
  0x2c5f42c5e4149190073c095d4095d0095cc095c8095c4095c0095bc095b8095b4095b0095ac095a8095a4095a00959c0959809594095900958c0958809584095800957c0957809574095700956c0956809564095602c5d42c5c42c5b42c5a42c5942c5842c5742c5642c5542c5442c5342c5242c5142c5042c4f42c4e42c4d42c4c42c4b42c4a42c4942c4842c4742c4642c4542c4442c4342c4242c4142c404)
  (.lf 0)))

def shaPos86 : BTree :=
  .nd (.nd (.nd (.lf
  0x16004160080223d15ff815ffc0223915fec5bf680223515fe05bf480223115fd45bf280222d15fc85bf080222915fbc5bee80222515fac5bec80222115fa45bea80221d15f985be880221915f8c5be680221515f805be480221115f705be280220d15f645be080220915f585bdec0220515f505bdd00220115f445bdb4021fd15f385bd98021f915f2c5bd7c021f515f205bd60021f115f105bd44021ed15f04)
  (.lf 0)) (.nd (.lf
  0x38cbc38cb038cac38c9c38c8c38c8438c7438c6c38c6438c5038c4438c4038c3038c200cda800ee0388cc388c4388b4388a83889c3889038884388803887038864388543884838844388303882c3881c3881438800387fc387e8387e4387d4387cc387b8387ac387a43879c3878c3877c387780cda400ed4384203841438404383f8383ec383e4383d4383c8383bc383b0383a8383a038390383883837438368)
  (.lf 0))) (.nd (.nd (.lf
  0x351303512c0bc41351203511c0bc3d351103510c0bc3935100350fc0bc35350f0350ec0bc31350e0350dc0bc2d350d0350cc0bc29350c0350bc0bc25350b0350ac0bc21350a03509c0bc1d350903508c0bc19350803507c0bc15350703506c0bc11350603505c0bc0d350503504c0bc09350403503c0bc05350303502c0bc01350203501c0bbfd350103500c0bbf93500034ffc0bbf534ff034fec0bbf134fe0)
  (.lf 0)) (.nd (.lf
  0x4a6a04a6844a66c4a6544a6404a6284a6104a5f84a5dc4a5c84a5b04a5944a5804a5684a5504a5344a51c4a5084a4f41f1f41f1ec1f1e41f1dc1f1d41f1cc1f1c41f1bc1f1b41f1ac1f1a41f19c1f1941f18c1f1841f17c1f1701f1681f1601f15c1f1541f14c1f1401f1341f1241f11c1f10c1f1041f0f81f0ec15b3d0043c068d4068d0068cc068c8068c4068c0068bc068b8068b4068b0068ac068a8068a4)
  (.lf 0)))

def shaPos87 : BTree :=
  .nd (.nd (.nd (.lf
  0x263fc26400070f1263ec263e8070ed263d8263dc070e9263cc263d0070e5263c0263bc070e1263ac263b0070dd26398263a0070d92638826390070d52637826380070d1263682636c070cd2635c26360070c9263502634c070c52633826340070c1263282632c070bd2632026318070b92630c26308070b526300262f8070b1262f0262e8070ad262dc262d8070a9262c8262cc070a5262c0262bc070a1262a8)
  (.lf 0)) (.nd (.lf
  0x33ff833ff033fe833fe033fdc33fd433fc833fc033fb847f3c00e0c33a1033a0833a04339f8339f4339ec339e0339d8339d4339c8339c0339bc339b0339ac339a033998339903398c3398033978339743396833960339583395433948339443393c339303392c47f1c00df833384333783337033368333643335c333503334c333403333c333303332c3332033318333143330833300332fc332f4332ec332e4)
  (.lf 0))) (.nd (.nd (.lf
  0x528a85288c5287052858528405282852810527f8527e0527c8527b0527985278052768527505273852720524305241852400523e8523d0523b8523a05262052604525e8525cc525b05262452608525ec525d0525b452598525805256852550525385252052508524f0524d8524c0524a85249052478524605244852158521405212852110520f8520e0520c8523485232c52310522f4522d85234c5233052314)
  (.lf 0)) (.nd (.lf
  0x331c0331803314033100330c033080330403300032fc032f8032f4032f0032ec032e8032e4032e0032dc032d8032d4032d0398c4398b4398a439894398843987439864398543984439830398203981439804397f0397e4397d4397c4397b4397a039794397843977439764397503974439734397243971439704396f4147e554b6c654b0654806545065424653f8653cc653a065374653486531c652f0652c8)
  (.lf 0)))

def shaPos88 : BTree :=
  .nd (.nd (.nd (.lf
  0x960176e0176dc176d0176bc176b4176a4176981768c1768817674176681765c17650176441763c1762c176241761817608175fc175f0175e8175d8175d4175c8175bc175b0175a417598175845477c00958173981738c1738017374173681735c1735017344173381732c173201731417308172fc172f0172e4172d8172cc172c0172b4172a81729c1729017284172781726c1726017254172501723c54754)
  (.lf
  0x42ac042a8042a4042a00429c0429804294042900428c0428804284042800427c0427804274042700426c0426804264042600425c0425804254042500424c042484337443364433544334443334433244331443304432f4432e4432d4432c4432b4432a443294432844327443264432544324443234432244321443204431f4431e4431d4431c4431b4431a41486952f8464bf864bc864b9c64b7064b4464b18))
  (.nd (.lf
  0x55458554405542855410553f8553e0553c8553b05539c5538855374553605534c5533855324553105416854e046275462718626f8626cc626b462678626506262c62604625e8625c46259062574625506252c62508624e0624bc6249462474624486242c6240c623f0623d0623a86239062370623506232c54de41237912375123711236d1236912365123611235d1235912355123511234d123491234512341)
  (.lf 0))) (.nd (.nd (.lf
  0x2bc502bc4808ce52bc402bc3808ce12bc302bc2808cdd2bc202bc1808cd92bc102bc0808cd52bc002bbf808cd12bbf02bbe808ccd2bbe02bbd808cc92bbd02bbc808cc52bbc02bbb808cc12bbb02bba808cbd2bba02bb9808cb92bb902bb8808cb52bb802bb7808cb12bb702bb6808cad2bb602bb5808ca92bb502bb4808ca52bb402bb3808ca12bb302bb2808c9d2bb202bb1808c992bb102bb0808c952bb00)
  (.lf 0)) (.nd (.lf
  0x51b6051b4c47ee047ef051da051d8851d7051d5851d4051d2851aac51a9851a8451a7051a5c51a4851a3451a2051a0c519f8519e4519d0519bc519a851994519805196c5195851944519305191c51908518f8518e447ec047ed051b3851b2051b0851af051ad851ac051844518305181c51808517f4517e0517cc517b8517a4517905177c5176851754517405172c5171851704516f0516dc516c8516b4516a0)
  (.lf 0)))

def shaPos89 : BTree :=
  .nd (.nd (.nd (.lf
  0x7d2007ce007ca007c6007c2007be007ba007b6007b2007ae007aa007a6007a20079e0079a00796007920078e0078a00786007820119c0a26c0a2640a2580a24c011940a2340a2240a2180a20c0118c0a1f80117c011740a1d40a1c80a1bc0a1b00a1a40115c0b73c0a27c149d10004e0a278041b10004a0a268041ad000460a260041a9000420a254041a50003e0a248041a10a23c149cd0003a0a2380419d)
  (.lf 0)) (.nd (.lf
  0x32fa832f9832f8832f7832f6832f5832f4832f3832f2832f1832f0832ef832ee832ed80037000ddc32a1832a08329f8329e8329d8329c8329b8329a832998329883297832968329583294832938329283291832908328f8328e8328d8328c8328b8328a83289832888328783286832858328480036800dcc323883237832368323583234832338323283231832308322f8322e8322d8322c8322b8322a832298)
  (.lf 0))) (.nd (.nd (.lf
  0x3b7dc3b7d80db4d3b7cc3b7c80db493b7b83b7c00db4566d183b7b00db4166ce83b7a40db3d66cb83b7940db3966c8c3b78c0db3566c603b7800db3166c343b7700db2d66c083b7640db2966bdc3b75c0db2566bb03b74c0db2166b843b7400db1d66b583b7340db1966b303b7280db1566b083b7200db1166ae03b7140db0d66ab83b7040db0966a903b6f80db0566a683b6f00db0166a403b6e40dafd66a18)
  (.lf 0)) (.nd (.lf
  0x91f8091f4091f0091ec091e8091e4091e0091dc091d8091d4091d0091cc091c8091c4091c0091bc091b8091b4091b0091ac091a8091a4091a0291502914429134291242911029104290f0290e4290d4290c4290b4290a02909429080290742906429054290402903429024290142900428ff428fe428fd428fc428fb028fa428f9428f8415a4154c7c685646853468508684dc684b068484684586842c68400)
  (.lf 0)))

def shaPos90 : BTree :=
  .nd (.nd (.nd (.lf
  0x179513ad85987c0179113acc598640178d13ac05984c0178913ab4598340178513aa85981c0178113a98598040177d13a8c597ec0177913a80597d40177513a78597c00177113a6c13a680176d13a5c13a580176913a4413a480176513a3413a3c0176113a2413a280175d13a1413a1c0175913a0413a0c01755139f4139f801751139e4139ec0174d139d4139dc01749139cc139c401745139bc139b801741)
  (.lf 0)) (.nd (.lf
  0x4452c4451c4450c444fc444ec444dc444cc444bc444ac4449c4448c4447c4446c4445c001b0010b84417c4416c4415c4414c4413c4412c4411c4410c440fc440ec440dc440cc440bc440ac4409c4408c4407c4406c4405c4404c4403c4402c4401c4400c43ffc43fec43fdc43fcc43fbc43fac001a8010ac43ccc43cbc43cac43c9c43c8c43c7c43c6c43c5c43c4c43c3c43c2c43c1c43c0c43bfc43bec43bdc)
  (.lf 0))) (.nd (.nd (.lf
  0x51dec462200b29951dd8462100b29551dc0457d00b29151db0457c40b28d33288332900b28933278332800b28533268332700b28133258332600b27d33248332500b27933238332400b27533228332300b27133218332200b26d33208332100b269331f8332000b265331e8331f00b261331d8331e00b25d331c8331d00b259331b8331c00b255331a8331b00b25133198331a00b24d33188331900b24933178)
  (.lf 0)) (.nd (.lf
  0x64dd464da864d7c64d5464d2c64d0464cdc64cb464c8c64c6464c3c1bbd01bbc41bbb41bbac1bb9c1bb901bb881bb7c1bb6c1bb641bb581bb481bb401bb301bb281bb1c1bb101bb001baf81baec1badc1bad41bac81babc1baac1baa41ba941ba881ba801ba7015dd90647c0e9d00e9cc0e9c80e9c40e9c00e9bc0e9b80e9b40e9b00e9ac0e9a80e9a40e9a00e99c0e9980e9940e9900e98c0e9880e9840e980)
  (.lf 0)))

def shaPos91 : BTree :=
  .nd (.nd (.nd (.lf
  0x245dc06775245c8245d006771245bc245c00676d245ac245b006769245a0245980676524590245880676124578245800675d245682457006759245602455c06755245502454c06751245402453c0674d245282452c067492451c24518067452450c2450806741244fc244f80673d244ec244e806739244e0244d806735244d0244c806731244bc244b80672d244b0244a8067292449c24498067252448c24488)
  (.lf 0)) (.nd (.lf
  0x33e5c33e4c33e3c33e2c33e1c33e0c33dfc33dec00e083391c3390c338fc338ec338dc338cc338bc338ac3389c3388c3387c3386c3385c3384c3383c3382c3381c3380c337fc337ec337dc337cc337bc337ac3379c3378c3377c3376c3375c3374c005c800df43328c3327c3326c3325c3324c3323c3322c3321c3320c331fc331ec331dc331cc331bc331ac3319c3318c3317c3316c3315c3314c3313c3312c)
  (.lf 0))) (.nd (.nd (.lf
  0x4466c105f9446604465c105f5446504464c105f1446404463c105ed4463044628105e94462044618105e54461044608105e144600445f8105dd445f0445e8105d9445e0445d8105d5445d0445c8105d1445c0445b8105cd445b0445a8105c9445a044598105c54459044588105c14458044578105bd4457044568105b94456044558105b54455044548105b14454044538105ad4453044528105a94452044518)
  (.lf 0)) (.nd (.lf
  0x835c0835808354083500834c0834808344083400833c0833808334083300832c0832808324083200831c083183644436434364243641436404363f4363e4363d4363c4363b4363a436394363843637436364363543634436334363243631436304362f4362e4362d4362c4362b4362a4362943628436274159c5016ba016b6016b2016ae016aa016a6016a20169e0169a01696016920168e0cba402e1c02dfc)
  (.lf 0)))

def shaPos92 : BTree :=
  .nd (.nd (.nd (.lf
  0xf1f0551dc0023d0f1e8551b8002390f1d855194002350f1cc55170002310f1c05514c0022d0f1b855128002290f1a855104002250f19c550e0002210f190550bc0021d0f18855098002190f17c55074002150f16c5504c002110f160550280020d0f15455008002090f14854fe4002050f13c54fbc002010f13054f98001fd0f12454f74001f90f11854f50001f50f11054f30001f10f10454f0c001ed0f0f4)
  (.lf 0)) (.nd (.lf
  0x5e2145e1f85e1dc5e1c05e1a45e1885e16c5e1505e1385e1205e1085e0f05e0d85e0c05e0a85e09054810138f9138f5138f1138ed138e9138e5138e1138dd138d9138d5138d1138cd138c9138c5138c1138bd138b9138b5138b1138ad138a9138a5138a11389d1389913895138911388d1388913885138811387d548005e07c5e05c5e03c5e01c5dffc5dfdc5dfbc5df9c5df7c5df5c5df3c5df1c5df005dee4)
  (.lf 0))) (.nd (.nd (.lf
  0x9fc12f7782f78009fbd2f7682f77009fb92f7582f76009fb52f7482f75009fb12f7382f74009fad2f7282f73009fa92f7182f72009fa52f7082f71009fa12f6f82f70009f9d2f6e82f6f009f992f6d82f6e009f952f6c82f6d009f912f6b82f6c009f8d2f6a82f6b009f892f6982f6a009f852f6882f69009f812f6782f68009f7d2f6682f67009f792f6582f66009f752f6482f65009f712f6382f64009f6d)
  (.lf 0)) (.nd (.lf
  0x5ac2c5ac185ac005abe85abd05abb45aba014f8814f7c14f7014f6414f5814f4814f4014f3414f2814f1c14f1014f0414ef814eec14ee014ed414ec814ebc14eb014ea414e9814e8c14e8014e7414e6814e5814e4c14e4414e3814e2c15d1d063740da580da540da500da4c0da480da440da400da3c0da380da340da300da2c0da280da240da200da1c0da180da140da100da0c0da080da040da000d9fc0d9f8)
  (.lf 0)))

def shaPos93 : BTree :=
  .nd (.nd (.nd (.lf
  0x9f6009f2009ee009ea009e6017c20bbec0548d0158414bcd0bbe014bc9017be0bbdc05489017ba0bbd405485017b60bbc8054810bbbc14bc5017b20bbb80547d017ae0bbac054790bba814bc1017aa0bba405475017a60bb98054710156414bbd0155c14bb90bb8c14bb5017a20bb880546d0bb8414bb10179e0bb80054690bb7414bad0179a0bb70054650bb6c14ba9017960bb64054610153414ba50bb60)
  (.lf 0)) (.nd (.lf
  0x5fea45fe8c5fe745fe5c54974549886019460174601546013460114600f4600d4600b4600945fd245fd045fce45fcc85fcac5fc905fc745fc585fc3c5fc205fc045fbe85fbcc5fbb45fb9c5fb845fb6c5fb545fb3c5fb245fb0c5494c549605fe445fe245fe045fde45fdc45fda45fd845fd645fd445f9d45f9b45f9945f9785f95c5f9405f9245f9085f8ec5f8d05f8b45f8985f87c5f8645f84c5f8345f81c)
  (.lf 0))) (.nd (.nd (.lf
  0xf0a53ff203ff180f0a13ff103ff080f09d3ff003fef80f0993fef03fee80f0953fee03fed80f0913fed03fec80f08d3fec03feb80f0893feb03fea80f0853fea03fe980f0813fe903fe880f07d3fe803fe780f0793fe703fe680f0753fe603fe580f0713fe503fe480f06d3fe403fe380f0693fe303fe280f0653fe203fe180f0613fe103fe080f05d6a15c3fe000f0596a12c3fdf40f0556a0fc3fde80f051)
  (.lf 0)) (.nd (.lf
  0x2fbb42fba42fb942fb842fb742fb642fb542fb442fb342fb242fb142fb042faf42fae42fad42fac42fab42faa42fa942fa842fa742fa64149390077c09994099900998c0998809984099800997c0997809974099700996c0996809964099600995c0995809954099500994c0994809944099400993c0993809934099300992c0992809924099202fa542fa442fa342fa242fa142fa042f9f42f9e42f9d42f9c4)
  (.lf 0)))

def shaPos94 : BTree :=
  .nd (.nd (.nd (.lf
  0x1859002ce91857c1858002ce51856c1857002ce11855c1856002cdd1854c1855402cd91853c1854002cd51852c1853402cd11851c1852402ccd1850c1851002cc9184fc1850002cc5184ec184f402cc1184dc184e402cbd184cc184d402cb9184bc184c002cb5184ac184b002cb11849c184a402cad1848c1849002ca91847c1848002ca51846c1847402ca11845c1846402c9d1844c1845002c991843c18440)
  (.lf 0)) (.nd (.lf
  0x672f8672cc672a0672746724867220671f8671d0671a867180671586713067108670e0670b866e7866e5066e2866e0066dd866db066d8866d6066d38630f054c086708c6705c6702c6700066fd466fa866f7c66f5066f2466ef866ecc66ea466e7c66e5466e2c66e0466ddc66db466d8c66d6466d3c66af866ad066aa866a8066a5866a3066a08669e0669b86300c54bf466d0c66cdc66cac66c8066c5466c28)
  (.lf 0))) (.nd (.nd (.lf
  0x370cc0c5f9481e4370c40c5f5481d0370b80c5f1481bc370ac0c5ed481a83709c0c5e948194370900c5e548180370840c5e14816c3707c0c5dd48158370700c5d945b2c370600c5d545b1c370540c5d145b10370480c5cd45b003703c0c5c945af0370300c5c545ae0370280c5c145ad0370180c5bd45ac0370100c5b945ab0370040c5b56584436ff40c5b16581436fec0c5ad657e436fe00c5a9657b836fd0)
  (.lf 0)) (.nd (.lf
  0x226d4226c0226b4226a4226942268415a0147b044be7c4be604be444be284be0c4bdf04bdd84bdc04bda84bd904bd784bd604bd484bd344bd1c4bd044bce84bcd44bcb84bca04bc8c4bc744bc5c4bc444bc2c4bc104bbfc4bbe44bbd04bbb8226742266c226642265c2265422648226442263c2263422628226242261c226142260c22600225fc225f4225ec225e4225dc225d0225c8225c0225b8225b0225ac)
  (.lf 0)))

def shaPos95 : BTree :=
  .nd (.nd (.nd (.lf
  0x61ecc07a2d281602815c07a29281502814807a25281382813c07a21281282813007a1d281182811c07a19281102810c07a15280f82810007a11280f0280ec07a0d280e0280d807a09280c8280d007a05280c0280bc07a01280b0280a8079fd2809c280a0079f92809028088079f5280802807c079f1280702806c079ed2805c28058079e92805028048079e5280402803c079e12803028028079dd2801c28020)
  (.lf 0)) (.nd (.lf
  0x341283411834108340f8340e8340d8340c8340b8340a8007d000e1033be833bd833bc833bb833ba833b9833b8833b7833b6833b5833b4833b3833b2833b1833b0833af833ae833ad833ac833ab833aa833a9833a8833a7833a6833a5833a4833a3833a2833a18007c800dfc335583354833538335283351833508334f8334e8334d8334c8334b8334a8334983348833478334683345833448334383342833418)
  (.lf 0))) (.nd (.nd (.lf
  0x114311142d1142911425114211141d1141911415114111140d114091140511401113fd113f9113f515b9547c6c4e21c4e2044e1ec4e1d44e1bc4e1a44e1904e17c4e1684e1544e1404e12c4e1184e1044e0f04e0dc4e0c84e0b44e0a04e08c4e0784e0644e0504e03c4e0284e0144e0004dfec4dfdc4dfcc47c60113f1113ed113e9113e5113e1113dd113d9113d5113d1113cd113c9113c5113c1113bd113b9)
  (.lf 0)) (.nd (.lf
  0x384c0384803844038400383c0383803834038300382c0382803824038200381c0381803814038100380c038080380403800037fc037f83cc543cc443cc343cc243cc143cc043cbf43cbe43cbd43cbc43cbb43cba43cb943cb843cb743cb643cb543cb443cb343cb243cb143cb043caf43cae43cad43cac43cab43caa43ca943ca841481154c4867b0467ad467aa467a7867a4c67a20679f4679c86799c67970)
  (.lf 0)))

def shaPos96 : BTree :=
  .nd (.nd (.nd (.lf
  0x854109341091c1090c108fc108f4108e0108d8108c0108b8108a81088c108881087010868108581083c10838108281081810800107f8107e0107d8107bc107b0107a810794107801077410768062c80084c105ec105dc105d0105b8105b010594105881057810564105581055010538105241051810510104f8104e8104d8104d0104c0104b010494104901048010468104541044810440104301041c062c0)
  (.lf
  0x6433064310642f0642d0642b064290622a4622883f33c3f3303f3243f3183f30c3f3003f2f43f2e83f2dc3f2d03f2c43f2b83f2ac3f2a03f2943f2883f27c3f2703f2643f2583f24c3f2403f2343f2283f21c3f2103f2043f1f83f1ec3f1e015fb10012403c2c03c2803c2403c2003c1c03c1803c1403c1003c0c03c0803c0403c0003bfc03bf803bf403bf003bec03be803be403be003bdc03bd803bd403bd0))
  (.nd (.lf
  0x11fd111fcd11fc911fc511fc111fbd11fb911fb511fb111fad11fa911fa511fa111f9d11f9911f9515bf547ed451b3c51b2451b0c51af451adc51ac451ab051a9c51a8851a7451a6051a4c51a3851a2451a10519fc519e8519d4519c0519ac5199851984519705195c5194851934519205190c518fc518e847ec411f9111f8d11f8911f8511f8111f7d11f7911f7511f7111f6d11f6911f6511f6111f5d11f59)
  (.lf 0))) (.nd (.nd (.lf
  0x297cc08159297c0297bc08155297b0297ac08151297a02979c0814d297902978c08149297802977c08145297702976c08141297602975c0813d297502974c08139297402973c08135297302972c08131297202971c0812d297102970c0812929700296fc08125296f0296ec08121296e0296dc0811d296d0296cc08119296c0296bc08115296ac296b0081112969c296a00810d2968c29690081092967c29680)
  (.lf 0)) (.nd (.lf
  0x4fa884fa744fa604fa4c4fa384fa244fa104fa004f9f047d6c47d604f9dc4f9c44f9ac4f9944f97c4f9644f9504f93c4f9284f9144f9004f8ec4f8d84f8c44f8b04f89c4f8884f8744f8604f84c4f8384f8244f8104f7fc4f7e84f7d44f7c04f7ac4f79c4f78c47d5447d484f77c4f7644f74c4f7344f71c4f7044f6f04f6dc4f6c84f6b44f6a04f68c4f6784f6644f6504f63c4f6284f6144f6004f5ec4f5d8)
  (.lf 0)))

def shaPos97 : BTree :=
  .nd (.nd (.nd (.lf
  0x60144034e91a15c60124034e51a14c60104034e11a144600e4034dd1a134600c4034d91a128600a4034d51a11c60084034d11a11060064034cd1a10860044034c91a0fc60028034c51a0ec6000c034c11a0e05fff0034bd1a0d45ffd4034b91a0cc5ffb8034b51a0c05ff9c034b11a0b45ff80034ad1a0a85ff64034a91a09c5ff48034a51a08c5ff2c034a11a0845ff140349d1a0785fefc034991a06c5fee4)
  (.lf 0)) (.nd (.lf
  0x69f2c69f0469edc69eb469e8c69e6469e3c69e1463d3c63d1c63cfc63cdc63cbc63c9c63c7c69bac69b8469b5c54d1469dec69dbc69d8c69d6069d3469d0869cdc69cb069c8469c5869c2c69c0069bd869bb069b8869b6069b3869b1069ae869ac069a9863c5c63c3c63c1c63bfc63bdc63bbc63b9c6983069808697e054d0069a7069a4069a10699e4699b86998c699606993469908698dc698b0698846985c)
  (.lf 0))) (.nd (.nd (.lf
  0x38b9c0cdf966b4038b940cdf566b1838b880cdf166af038b780cded66ac838b700cde966aa038b640cde566a7838b540cde166a5038b480cddd66a2838b400cdd966a0038b300cdd5669d838b240cdd16302438b1c0cdcd6300438b0c0cdc962fe438b040cdc562fc438af80cdc162fa438ae80cdbd62f8438adc0cdb962f6438ad00cdb561de438ac80cdb161dc838abc0cdad38aac38ab00cda938aa038a9c)
  (.lf 0)) (.nd (.lf
  0x24ec424eb424ea424e9424e8024e7024e6424e5424e4424e3424e2424e1424e0424df024de415a1954bb46628c6625c6623066204661d8661ac661806615466128660fc660d0660a86608066058660306600865fe065fb865f9065f6865f4062d6862d4862d2862d0862ce862cc862cac61d2461d0824dd424dc824dc424dbc24db424dac24da424d9c24d9424d8c24d8424d7c24d7424d6c24d6424d5c24d54)
  (.lf 0)))

def shaPos98 : BTree :=
  .nd (.nd (.nd (.lf
  0x10c3c10c3400a3d10c2810c2400a3910c1410c1800a3510c0810c0400a3110bfc10bf800a2d10be810be400a2910bd410bdc00a2510bc810bc400a2110bb410bb800a1d10bac10ba800a1910b9410b9c00a1510b8c10b8800a1110b7410b7c00a0d10b6c10b6800a0910b5410b5c00a0510b4410b4c00a0110b3410b3c009fd10b2410b28009f910b1810b14009f510b0810b0c009f110afc10af8009ed10ae8)
  (.lf 0)) (.nd (.lf
  0x617546173461714616f4616d4616b46169461674616586163c6162061604615e8615cc615b06159454a94140f9140f5140f1140ed140e9140e5140e1140dd140d9140d5140d1140cd140c9140c5140c1140bd140b9140b5140b1140ad140a9140a5140a11409d1409914095140911408d1408914085140811407d54a806157c6155c6153c6151c614fc614dc614bc6149c6147c6145c6143c6141c61400613e4)
  (.lf 0))) (.nd (.nd (.lf
  0xa6f930df030dec0a6f530de030ddc0a6f130dd030dcc0a6ed30dc030dbc0a6e930db030dac0a6e530da030d9c0a6e130d9030d8c0a6dd30d8030d7c0a6d930d7030d6c0a6d530d6030d5c0a6d130d5030d4c0a6cd30d4030d3c0a6c930d3030d2c0a6c530d2030d1c0a6c130d1030d0c0a6bd30d0030cfc0a6b930cf030cec0a6b530ce030cdc0a6b130cd030ccc0a6ad30cc030cbc0a6a930cb030cac0a6a5)
  (.lf 0)) (.nd (.lf
  0x178581784817838178281781417808177f8177e8177d8177c8177b4177a817798177841777817768177581774417738177281771417708176f815d51547905d6945d6745d6545d6345d6145d5f45d5d45d5b45d5945d5745d5545d5345d5185d4fc5d4e05d4c45d4a85d48c5d4705d4545d4385d41c5d4085d3f05d3d85d3c05d3a85d38c5d3745d35c176e8176d8176cc176c4176b8176ac176a01769417684)
  (.lf 0)))

def shaPos99 : BTree :=
  .nd (.nd (.nd (.lf
  0x5ba94bb0448ac405ba54baec48ab005ba14bad448a9c05b9d4babc48a8805b994baa448a7405b954ba8c48a6005b914ba7448a4c05b8d4ba5c48a3805b894ba4048a1c05b854ba2848a0805b814ba10489f405b7d4b9f8489e005b794b9e0489cc05b754b9c8489b805b714b9b0489a405b6d4b99845df405b694b98045de405b654b96845dd405b614b95045dc405b5d4b93845db405b594b92045da405b55)
  (.lf 0)) (.nd (.lf
  0xc344023500c3380234802340023380c32c023300c320023280c3140232006528010820054000cc4023180c308023100c2fc0230802300022f8022f0022e80c2f00c2e4022e0022d8022d00c2d80c2cc0c2c0022c8022c0022b80c2b40c2a8022b0022a80c29c0c290022a00c2840c278065200104600cb0022980c26c0c260022900228802280022780227002268022600225802250022480c2540c24802240)
  (.lf 0))) (.nd (.nd (.lf
  0xf8a56b490419a80f8a16b4644199c0f89d6b43c419900f8996b414419840f8956b3ec419780f8916b3c44196c0f88d6b39c419600f8896b374419540f8856b34c419480f8816b3244193c0f87d6b2fc419300f8796427c419240f8756425c419180f8716423c4190c0f86d6421c419000f869641fc418f40f865641dc418e80f861641bc418dc0f85d62274418d00f85962258418c40f85553dd0418b80f851)
  (.lf 0)) (.nd (.lf
  0x322f4322e4322d4322c4322b4322a432294322843227432264322543224432234322243221432204321f4321e4321d4321c414951007ac09c6409c6009c5c09c5809c5409c5009c4c09c4809c4409c4009c3c09c3809c3409c3009c2c09c2809c2409c2009c1c09c1809c1409c1009c0c09c0809c0409c0009bfc09bf809bf409bf0321b4321a432194321843217432164321543214432134321243211432104)
  (.lf 0)))

def shaPos100 : BTree :=
  .nd (.nd (.nd (.lf
  0x664c066494664686643c6641465ff865fd065fa865f8065f58662a866278662486621c661f0661c4661986616c6614066114660e8662ac6627c6624c66220661f4661c86619c661706614466118660ec660c06609865c7c65c5465c2c65c0465bdc65f2c65efc65ecc65ea065e7465e4865e1c65df065dc465d9865d6c65f3065f0065ed065ea465e7865e4c65e2065df465dc865d9c65d7065d4465d1c65900)
  (.lf 0)) (.nd (.lf
  0x588a85888c5887058854588385881c58800587e4587cc587b45879c587845876c587545873c58724543dc543ec58a5858a3858a18589f8589d8589b85899858978589585893858918588f8588dc588c0588a4588885886c588505883458818587fc587e0587c8587b0587985878058768587505873858720543d812b7912b7512b7112b6d12b6912b6512b6112b5d12b5912b5512b5112b4d12b4912b4512b41)
  (.lf 0))) (.nd (.nd (.lf
  0x2d330094352d3182d320094312d3082d3100942d2d2f82d300094292d2f02d2ec094252d2e02d2dc094212d2d02d2cc0941d2d2c02d2bc094192d2b02d2ac094152d2a02d29c094112d2902d28c0940d2d2802d27c094092d2702d26c094052d2602d25c094012d2502d24c093fd2d2402d23c093f92d2302d22c093f52d2202d21c093f12d2102d20c093ed2d2002d1fc093e92d1f02d1ec093e52d1e02d1dc)
  (.lf 0)) (.nd (.lf
  0x10bd010bc010bb010ba010b9010b8010b7010b6010b5010b4010b2c10b2010b1010b0010af010ae010ad010ac010ab015ff154268569445692456904568e4568c4568a45688456864568445682456804567e4567c8567ac5679056774567585673c5672456708566e8566d0566b8566a056688566705665856640566285660c10aa010a9410a8410a7c10a7010a6410a5810a4c10a4010a3410a2410a1c10a10)
  (.lf 0)))

def shaPos101 : BTree :=
  .nd (.nd (.nd (.lf
  0x1e4b8048ed1e4a01e4a8048e91e4901e498048e54a208453b4048e14a1ec453a4048dd4a1d045394048d94a1b445388048d54a1944537c048d14a17445370048cd4a15845364048c94a14c45358048c54a1284534c048c14a11c45340048bd4a10045334048b94a0ec45328048b54a0d04531c048b14a0b445310048ad4a0a045304048a94a080452f8048a54a070452ec048a14a050452e00489d4a03c452d4)
  (.lf 0)) (.nd (.lf
  0x5d1545d1385d11c5d1005d0e45d0c85d0b05d0985d0805d0685d0505d0385d0205d008547505473c5cff05cfd05cfb05cf905cf705cf505cf305cf105cef05ced05ceb05ce905ce745ce585ce3c5ce205ce045cde85cdcc5cdb05cd945cd785cd605cd485cd305cd185cd005cce85ccd05ccb854728547145cca05cc805cc605cc405cc205cc005cbe05cbc05cba05cb805cb605cb405cb245cb085caec5cad0)
  (.lf 0))) (.nd (.nd (.lf
  0x634d83d2a40e34d634b83d2980e349634983d28c0e34561f2c3d2800e34161f103d2740e33d6a1703d2680e3396a1403d25c0e3356a1103d2500e3316a0e43d2440e32d6a0b83d2380e3296a08c3d22c0e3256a0603d2200e3216a0343d2140e31d6a0083d2080e31969fdc3d1fc0e31569fb03d1f00e31169f843d1e40e30d69f5c3d1d80e30969f343d1cc0e30569f0c3d1c00e30169ee43d1b40e2fd69ebc)
  (.lf 0)) (.nd (.lf
  0x2b9642b9542b9442b9342b9242b9142b9042b8f42b8e42b8d42b8c4149110072c094e4094e0094dc094d8094d4094d0094cc094c8094c4094c0094bc094b8094b4094b0094ac094a8094a4094a00949c0949809494094900948c0948809484094800947c0947809474094702b8b42b8a42b8942b8842b8742b8642b8542b8442b8342b8242b8142b8042b7f42b7e42b7d42b7c42b7b42b7a42b7942b7842b774)
  (.lf 0)))

def shaPos102 : BTree :=
  .nd (.nd (.nd (.lf
  0x1f95156bc156c401f91156b4156ac01f8d1569c156a001f891568c1569001f851567c1568001f811566c1567001f7d156641565c01f791564c1565001f751563c1564001f71156341562c01f6d156241561c01f69156105b57401f65156045b55401f61155f85b53401f5d155ec5b51401f59155e05b4f401f55155d85b4d401f51155c85b4b401f4d155bc5b49401f49155b05b47401f45155a45b45401f41)
  (.lf 0)) (.nd (.lf
  0x42154421484213c4213042124421184210c42100420f4420e8420dc420d0420c4420b80cba80105c41d6441d5841d4c41d4041d3441d2841d1c41d1041d0441cf841cec41ce041cd441cc841cbc41cb041ca441c9841c8c41c8041c7441c6841c5c41c5041c4441c3841c2c41c2041c1441c084503001050418b4418a84189c4189041884418784186c4186041854418484183c4183041824418184180c41800)
  (.lf 0))) (.nd (.nd (.lf
  0x349a03499c0b9e9349903498c0b9e5349803497c0b9e1349703496c0b9dd349603495c0b9d9349503494c0b9d5349403493c0b9d1349303492c0b9cd349203491c0b9c9349103490c0b9c534900348fc0b9c1348f0348ec0b9bd348e0348dc0b9b9348d0348cc0b9b5348c0348bc0b9b1348b0348ac0b9ad348a03489c0b9a9348903488c0b9a5348803487c0b9a1348703486c0b99d348603485c0b99934850)
  (.lf 0)) (.nd (.lf
  0x4a0584a0384a0244a01049ff049fdc49fc049fb049f9449f7c49f6449f5049f3c1e48c1e4841e47c1e4741e46c1e4641e4581e4541e4481e4401e4381e4301e42c1e4201e41c1e4101e40c1e4001e3fc1e3f41e3e81e3e41e3d81e3cc1e3bc1e3b41e3a41e39c1e3901e38415b2d0042c067e4067e0067dc067d8067d4067d0067cc067c8067c4067c0067bc067b8067b4067b0067ac067a8067a4067a00679c)
  (.lf 0)))

def shaPos103 : BTree :=
  .nd (.nd (.nd (.lf
  0x6e8525c2025c1c06e8125c1025c0c06e7d25c0025bfc06e7925bf025bec06e7525be025bdc06e7125bd025bcc06e6d25bc025bbc06e6925bb025bac06e6525ba025b9c06e6125b9025b8c06e5d25b8025b7c06e5925b7025b6c06e5525b6025b5c06e5125b5025b4c06e4d25b4025b3c06e4925b3025b2c06e4525b2025b1c06e4125b1025b0c06e3d25af825b0006e394d1806698806e354d1686695806e31)
  (.lf 0)) (.nd (.lf
  0x2d6f82d6f02d6e82d6e02d6d82d6d02d6c82d6c02d6b848e2800cf42d1102d1082d1002d0f82d0f02d0e82d0e02d0d82d0d02d0c82d0c02d0b82d0b02d0a82d0a02d0982d0902d0882d0802d0782d0702d0682d0602d0582d0502d0482d0402d0382d0302d02848e1c00ce02ca802ca782ca702ca682ca602ca582ca502ca482ca402ca382ca302ca282ca202ca182ca102ca082ca002c9f82c9f02c9e82c9e0)
  (.lf 0))) (.nd (.nd (.lf
  0x500ac500945007c5006850054500405002c50018500044fff04ffdc4ffc84ffb44ffa04ff8c4ff784ff644fcec4fcd84fcc44fcb04fc9c4fc884fc744fe8c4fe744fe5c4fe444fe2c4fe904fe784fe604fe484fe304fe184fe044fdf04fddc4fdc84fdb44fda04fd8c4fd784fd644fd504fd3c4fd284fd144fd004fa904fa7c4fa684fa544fa404fa2c4fa184fc304fc184fc004fbe84fbd04fc344fc1c4fc04)
  (.lf 0)) (.nd (.lf
  0x62f8062f6061de061dc438c1c38c1038c0438bf838bec38bdc38bd438bc838bbc38bb038ba438b9838b8c38b7c38b7438b6838b5c38b5038b4438b3438b2c38b2038b1038b0838afc38af038ae038ad438acc38ac015ead00074031dc031d8031d4031d0031cc031c8031c4031c0031bc031b8031b4031b0031ac031a8031a4031a00319c0319803194031900318c0318803184031800317c031780317403170)
  (.lf 0)))

def shaPos104 : BTree :=
  .nd (.nd (.nd (.lf
  0x964178c0178ac1789c1788c178801786c1785c178501783c1782c1781c1781817800177ec177e0177cc177bc177b8177a017790177881776c1775c1774c177481772c177201771817700176f0063d80095c1757c17570175541755017538175281751817508174f8174e8174d8174c8174b8174a817498174881747817464174541744417434174241741417404173f4173e4173d4173c4173b4173a4063d0)
  (.lf
  0x464cc464b8464a84649846488464784646846458457ec457e0426cc426c0426b4426a84269c4269042684426784266c4266042654426484263c4263042624426184260c42600425f4425e8425dc425d0425c4425b8425ac425a042594425884257c4257015acd0017c04154041500414c0414804144041400413c0413804134041300412c0412804124041200411c0411804114041100410c041080410404100))
  (.nd (.lf
  0x5f7805f7605f7405f7205f7005f6e05f6c05f6a05f6805f6605f6405f6245f6085f5ec5f5d05f5b45f5985f22c5f2105f1f45f44c5f42c5f40c5f3ec5f3cc5f3ac5f38c5f36c5f34c5f32c5f30c5f4505f4305f4105f3f05f3d05f3b05f3905f3705f3505f3305f3105f2f05f2d45f2b85f29c5f2805f2645f2485eedc5eec05eea85f0fc5f0dc5f0bc5f09c5f07c5f05c5f03c5f01c5effc5efdc5efc45f100)
  (.lf 0))) (.nd (.nd (.lf
  0x2b4202b41808a752b4102b40808a71010120100e0100a010060100200ffe00ffa00ff600ff200fee00fea00fe600fe200fde00fda00fd600fd200fce00fca00fc600fc200fbe0221c0af540af480af3c0af300af24022140220c0af0002204021f40aedc0aed00aec40aeb80aeac0aea00ae940ae88021ec0b83c0af60152310049a0af5c08a6d004960af5008a69004920af4408a650048e0af3808a610048a)
  (.lf 0)) (.nd (.lf
  0x4f5344f52447d3447d404f7744f75c4f7444f72c4f7144f6fc4f4884f4744f4604f44c4f4384f4244f4104f3fc4f3e84f3d44f3c04f3ac4f3984f3844f3704f35c4f3484f3344f3204f30c4f2f84f2e44f2d44f2c447d1c47d284f5144f4fc4f4e44f4cc4f4b44f49c4f2284f2144f2004f1ec4f1d84f1c44f1b04f19c4f1884f1744f1604f14c4f1384f1244f1104f0fc4f0e84f0d44f0c04f0ac4f0984f084)
  (.lf 0)))

def shaPos105 : BTree :=
  .nd (.nd (.nd (.lf
  0x3f7901134149a10b9681499d016ea0b96003f75016e60b95403f71016e20b94c03f6d01124149990111c149950b94414991016de0b93c03f690b9341498d016da0b93003f65016d60b92803f61016d20b91803f5d016ce0b91003f590110414989010fc149850b90814981016ca0b90003f55016c60b8f803f51016c20b8e803f4d016be0b8e003f49064a41497d158551c6141c61c03f451c6041c60803f41)
  (.lf 0)) (.nd (.lf
  0x2c6a82c6982c6882c67c2c6682c6582c6482c6382c6282c6182c6082c5f82c5e82c5dc002f000cc02c1182c1082c0f82c0e82c0d82c0c82c0b82c0a82c0982c0882c0782c0682c0582c0482c0382c0282c0182c0082bff82bfe82bfd82bfc82bfb82bfa82bf9c2bf882bf782bf682bf582bf48002e800cac2ba882ba782ba682ba582ba482ba382ba282ba182ba082b9f82b9e82b9d82b9c82b9b82b9a82b998)
  (.lf 0))) (.nd (.nd (.lf
  0xd8a53af103af0c0d8a13af003aefc0d89d3aeec3aee80d8993aee03aed80d8953aed03aec80d8913aec03aeb80d88d3aeb03aeac0d8893aea03ae980d8853ae883ae8c0d8813ae803ae780d87d3ae703ae6c0d8793ae603ae5c0d875666203ae500d871665f03ae400d86d665c03ae380d869665943ae2c0d865665683ae200d8616653c3ae140d85d665103ae080d859664e43adfc0d855664b83adec0d851)
  (.lf 0)) (.nd (.lf
  0x90c8090c4090c0090bc090b8090b4090b028434284242841428404283f4283e4283d4283c4283b4283a428394283842837428364283502834428334283242831428304282f4282e4282d4282c4282b0282a02829028280282742826415a3954c5467e6c67e3c67e1067de467db867d8c67d6067d3467d0867cdc67cb067c8867c6067c3c67c1067be867bc067b9867b7067b4867b20634686344c6342863408)
  (.lf 0)))

def shaPos106 : BTree :=
  .nd (.nd (.nd (.lf
  0x58fa4014e91316c58f8c014e51315c58f6c014e11315058f50014dd1314458f34014d91313858f18014d51313058efc014d11312058ee0014cd1311458ec8014c91310c58ea8014c5130fc58e8c014c1130f058e78014bd130e458e60014b9130dc58e48014b5130d058e30014b1130c058e14014ad130b858dfc014a9130a858de8014a51309c58dcc014a11308c130900149d1307c1308401499130701306c)
  (.lf 0)) (.nd (.lf
  0x3fa2c3fa1c3fa0c3f9fc3f9ec3f9dc3f9cc3f9bc3f9ac3f99c3f98c3f97c3f96c3f95c0013000ff83f67c3f66c3f65c3f64c3f63c3f62c3f61c3f60c3f5fc3f5ec3f5dc3f5cc3f5bc3f5ac3f59c3f58c3f57c3f56c3f55c3f54c3f53c3f52c3f51c3f50c3f4fc3f4ec3f4dc3f4cc3f4bc3f4ac0012800fec3f1cc3f1bc3f1ac3f19c3f18c3f17c3f16c3f15c3f14c3f13c3f12c3f11c3f10c3f0fc3f0ec3f0dc)
  (.lf 0))) (.nd (.nd (.lf
  0xb03d32ae832af00b03932ad832ae00b03532ac832ad00b03132ab832ac00b02d32aa832ab00b02932a9832aa00b02532a8832a900b02132a7832a800b01d32a6832a700b01932a5832a600b01532a4832a500b01132a3832a400b00d32a2832a300b00901476014720146e0146a01466014620145e0145a014560145202a24156510c7a81564d01baa0c7a40b00502a14156490c79c1564501ba60c7980b001)
  (.lf 0)) (.nd (.lf
  0x1ae741ae681ae581ae4c1ae401ae381ae2c1ae201ae101ae041adf81adf01ade01add81adcc1adc01adb41ada41ad9c1ad901ad801ad781ad681ad601ad5015dc10645c0e7f00e7ec0e7e80e7e40e7e00e7dc0e7d80e7d40e7d00e7cc0e7c80e7c40e7c00e7bc0e7b80e7b40e7b00e7ac0e7a80e7a40e7a00e79c0e7980e7940e7900e78c0e7880e7840e7800e77c1ad481ad381ad281ad181ad081acf81ace8)
  (.lf 0)))

def shaPos107 : BTree :=
  .nd (.nd (.nd (.lf
  0xbce00bca00bc600bc200bbe00bba00bb600bb200bae00baa00ba600ba2018920be5c065090be5414dcd0188e0be4c065050be4814dc90188a0be4406501018860be38064fd0be2c14dc5018820be28064f90195414dc10be2014dbd0187e0be1c064f50187a0be10064f10194414db90be0c14db5018760be08064ed0193414db10192c14dad0192414da90191c14da50be0014da1018720bdf8064e90186e)
  (.lf 0)) (.nd (.lf
  0x2cfac2cf9c2cf8c2cf7c2cf6c2cf5c2cf4c2cf3c2cf2c2cf1c2cf0c2cefc2ceec2cedc2cecc2cebc2ceac2ce9c2ce8c2ce7c2ce6c2ce5c2ce4c00cdc2c98c2c97c2c96c2c95c2c94c2c93c2c92c2c91c2c90c2c8fc2c8ec2c8dc2c8cc2c8bc2c8ac2c89c2c88c2c87c2c86c2c85c2c84c2c83c2c82c2c81c2c80c2c7fc2c7ec2c7dc2c7cc2c7bc00cc82c2fc2c2ec2c2dc2c2cc2c2bc2c2ac2c29c2c28c2c27c)
  (.lf 0))) (.nd (.nd (.lf
  0x4704c43d6c1034d4703843d60103494702443d54103454701043d481034146ffc43d3c1033d46fec43d301033946fdc43d241033546fcc43d181033146fbc43d0c1032d46fac43d001032946f9c43cf4103254586843ce8103214585c43cdc1031d43cc843cd01031943cb843cc01031543ca843cb01031143c9843ca01030d43c8843c901030943c7843c801030543c6843c701030143c5843c60102fd43c48)
  (.lf 0)) (.nd (.lf
  0x357643575c357543574c357443573c357343572c15af5005f40829c0829808294082900828c0828808284082800827c0827808274082700826c0826808264082600825c0825808254082500824c0824808244082400823c0823808234082300822c08228357243571435704356f4356e4356d4356c4356b4356a435694356843567435664356543564435634356243561435604355f4355e4355d4355c4355b4)
  (.lf 0)))

def shaPos108 : BTree :=
  .nd (.nd (.nd (.lf
  0x6aab46aa886aa5c6aa306aa046a9dc63ed063eb063e9063e7063e5063e306218c621706a8446a8146a8486a8186a7e86a7bc6a7906a7646a7386a70c6a6e06a6b46a6886a66063df063dd063db063d9063d7063d5062154621386a4c86a4986a4cc6a49c6a46c6a4406a4146a3e86a3bc6a3906a3646a3386a30c6a2e463d1063cf063cd063cb063c9063c706211c621006a14c6a11c6a1506a1206a0f06a0c4)
  (.lf 0)) (.nd (.lf
  0x1363d1363913635136311362d1362913625136211361d1361913615136111360d136091360513601135fd547385cfec5cfcc5cfac5cf8c5cf6c5cf4c5cf2c5cf0c5ceec5cecc5ceac5ce8c5ce705ce545ce385ce1c5ce005cde45cdc85cdac5cd905cd745cd5c5cd445cd2c5cd145ccfc5cce45cccc5ccb454724547345cfe85cfc85cfa85cf885cf685cf485cf285cf085cee85cec85cea85ce885ce6c5ce50)
  (.lf 0))) (.nd (.nd (.lf
  0x2f0202f01809d652f0102f00809d612f0002eff809d5d2eff02efe809d592efe02efd809d552efd02efc809d512efc02efb809d4d2efb02efa809d492efa02ef9809d452ef902ef8809d412ef802ef7809d3d2ef702ef6809d392ef602ef5809d352ef502ef4809d312ef402ef3809d2d2ef302ef2809d292ef202ef1809d2501226012220121e0121a01216012120120e0120a0120601202011fe011fa011f6)
  (.lf 0)) (.nd (.lf
  0x141fc141f0141e4141d8141cc141bc141b4141a81419c141901418414178141681416014150141481413c1413014124141181410815d05063540d8780d8740d8700d86c0d8680d8640d8600d85c0d8580d8540d8500d84c0d8480d8440d8400d83c0d8380d8340d8300d82c0d8280d8240d8200d81c0d8180d8140d8100d80c0d8080d80414100140f0140e0140d0140bc140ac1409c14090140801407014060)
  (.lf 0)))

def shaPos109 : BTree :=
  .nd (.nd (.nd (.lf
  0x1560a5900524d014e414b7d0a58814b79001520a580052490a57c14b750014e0a57405245014cc14b710a57014b6d0014a0a56805241014bc14b690a56414b65001460a55c0523d001420a554052390b77816009202cc202c805235202bc202b805231202ac202a80522d2029c20298052292028c20290052252027c20280052212026c202680521d2025820260052192024c20248052152023c2024005211)
  (.lf 0)) (.nd (.lf
  0x5c9a45c98c5c9745c95c546f4547085cc945cc745cc545cc345cc145cbf45cbd45cbb45cb905c8245c8005c7e45c7c85c7ac5c7905c7745c7585c73c5c7205c7045c6e45c6cc5c6b45c69c5c6845c66c5c6545c63c5c6245c60c546cc546e05c9405c9245c9045c8e45c8c45c8a45c8805c8645c8445c4d45c4b05c4945c4785c45c5c4405c4245c4085c3ec5c3d05c3b45c3945c37c5c3645c34c5c3345c31c)
  (.lf 0))) (.nd (.nd (.lf
  0x3f6580edf93f6503f6480edf53f6403f6380edf13f6303f6280eded3f6203f6180ede93f6103f6080ede53f6003f5f80ede13f5f03f5e80eddd3f5e03f5d80edd93f5d03f5c80edd53f5c03f5b80edd13f5b03f5a80edcd3f5a03f5980edc93f5903f5880edc53f5803f5780edc13f5703f5680edbd3f5603f5580edb93f5503f5480edb53f5403f5380edb13f5303f5280edad3f5203f5180eda93f5103f508)
  (.lf 0)) (.nd (.lf
  0x2ed942ed842ed742ed642ed542ed44149310076c098a4098a00989c0989809894098900988c0988809884098800987c0987809874098700986c0986809864098600985c0985809854098500984c0984809844098400983c0983809834098302ed342ed242ed142ed042ecf42ece42ecd42ecc42ecb42eca42ec942ec842ec742ec642ec542ec442ec342ec242ec142ec042ebf42ebe42ebd42ebc42ebb42eba4)
  (.lf 0)))

def shaPos110 : BTree :=
  .nd (.nd (.nd (.lf
  0x17c385da4802a3d17c2c5da3002a3917c245da1802a3517c145d9fc02a3117c0817c0c02a2d17bf817bfc02a2917bec17be802a2517bd817bd402a2117bc417bc802a1d17bb817bbc02a1917ba817ba402a1517b9c17b9802a1117b8c17b8802a0d17b7817b7c02a0917b6c17b6802a0517b5c17b5802a0117b4c17b48029fd17b3c17b34029f917b2c17b28029f517b1817b1c029f117b0817b04029ed17af4)
  (.lf 0)) (.nd (.lf
  0x48410483fc483e8483d4483c0483ac4839848384483704835c4834848334483204830c482f8481e8481d4481c0481ac481984818448170481604814c45b28455c8482e4482cc482b4482a04828c4827848264482504823c482284821448200481ec481d8481c4481b04819c481884817448164481504804048028480144800047fec47fd847fc447fb047f9c45a94455c0481384811c48108480f4480e0480cc)
  (.lf 0))) (.nd (.nd (.lf
  0x367d0367cc0c34d367c0367bc0c349367b0367ac0c345367a03679c0c341367903678c0c33d367803677c0c339367703676c0c335367603675c0c331367503674c0c32d367403673c0c329367303672c0c325367203671c0c321367103670c0c31d36700366fc0c319366f0366ec0c315366e0366dc0c311366d0366cc0c30d366c0366bc0c309366b0366ac0c305366a03669c0c301366903668c0c2fd36680)
  (.lf 0)) (.nd (.lf
  0x21994219802197421960159f947ac44b8cc4b8b04b8944b87c4b8604b8444b82c4b8144b7f84b7e04b7c84b7b04b7984b7844b76c4b7504b73c4b7244b7084b6f44b6dc4b6c44b6a84b6904b6784b6604b6484b6304b61c4b6082195421948219442193821930219282192021918219142190c21904218fc218f4218e8218e0218dc218d0218c8218c4218bc218b0218a8218a42189c218942188c218842187c)
  (.lf 0)))

def shaPos111 : BTree :=
  .nd (.nd (.nd (.lf
  0x279a8077d52799c279a0077d12799027988077cd2797827980077c9279702796c077c5279602795c077c1279502794c077bd2793827940077b9279302792c077b52791827920077b1279102790c077ad278f8278fc077a900dde00dda00dd600dd200dce00dca00dc600dc200dbe00dba00db600db200dae0195e0c0bc077a50195a0c0b4077a101de4150110c0a81500d019560c0a40779d0c09c1500901952)
  (.lf 0)) (.nd (.lf
  0x2d8282d8182d8082d7f82d7e82d7d82d7c82d7b82d7a80075000cf82d2e82d2d82d2c82d2b82d2a82d2982d2882d2782d2682d2582d2482d2382d2282d2182d2082d1f82d1e82d1d82d1c82d1b82d1a82d1982d1882d1782d1682d1582d1482d1382d1282d1180074800ce42cc582cc482cc382cc282cc182cc082cbf82cbe82cbd82cbc82cbb82cba82cb982cb882cb782cb682cb582cb482cb382cb282cb18)
  (.lf 0))) (.nd (.nd (.lf
  0x110511104d1104911045110411103d1103911035110311102d1102911025110211101d110191101515b7547bac4cf184cf004cee84ced04ceb84cea04ce8c4ce784ce644ce504ce3c4ce284ce144ce004cdec4cdd84cdc44cdb04cd9c4cd884cd744cd604cd4c4cd384cd244cd104ccfc4cce84ccd84ccc847ba0110111100d11009110051100110ffd10ff910ff510ff110fed10fe910fe510fe110fdd10fd9)
  (.lf 0)) (.nd (.lf
  0x63960639406392063900620486202c3bfac3bfa03bf943bf843bf7c3bf703bf643bf583bf4c3bf403bf343bf283bf1c3bf103bf043bef83beec3bee03bed43bec83beb83beb03bea43be983be8c3be803be743be683be5c3be5015f31000cc0370403700036fc036f8036f4036f0036ec036e8036e4036e0036dc036d8036d4036d0036cc036c8036c4036c0036bc036b8036b4036b0036ac036a8036a4036a0)
  (.lf 0)))

def shaPos112 : BTree :=
  .nd (.nd (.nd (.lf
  0x8e41444814430144281440c143fc143f8143dc143cc143bc143b4143a41438c1438414378143601434c14348143341431c1430c142fc142f0142e0142d0142c8142ac142a01428c1427c1427806358008dc140f4140e4140d8140c4140c0140b0140a014088140741406414054140501403414024140181400c13ff413ff013fdc13fc413fb813fb013f9813f8813f8013f6c13f6013f4813f4013f2806350)
  (.lf
  0x40c9440c8440c7440c6440c5440c4440c3440c241484954d606abcc6ab9c6ab6c6ab406ab146aae86aabc6aa906aa646aa386aa0c6a9e46a9bc6a9946a96c6a9446a91c6a8f46a8cc6a8a46a87c63fd463fb463f9463f7463f5463f3463f14621c8621ac40c1440c0840bfc40bf040be440bd840bcc40bc040bb440ba840b9c40b9040b8440b7840b6c40b6040b5440b4840b3c40b3040b2440b1840b0c40b00))
  (.nd (.lf
  0x58d8058d6058d4058d2058d0058ce058cc058ca058c8058c5c58c4058c2458c0858bec58bd058bb458b985882c58810587f858a4c58a2c58a0c589ec589cc589ac5898c5896c5894c5892c5891458a5058a3058a10589f0589d0589b0589905897058950589305890c588f0588d4588b85889c588805886458848584dc584c0584a8586fc586dc586bc5869c5867c5865c5863c5861c585fc585dc585c458700)
  (.lf 0))) (.nd (.nd (.lf
  0x211c151b50ad5c151b1003ee0ad58086010210c151ad02104151a90ad4c151a5003ea0ad48085fd0ad40151a1003e60ad3c085f9020ec1519d020e4151990ad3815195003e20ad30085f50b8201605d2a6e02a6d8085f12a6d02a6c8085ed2a6b82a6c0085e92a6b02a6ac085e52a69c2a698085e12a68c2a690085dd2a6802a678085d92a6702a668085d52a6602a65c085d12a6482a64c085cd2a6402a63c)
  (.lf 0)) (.nd (.lf
  0x4a5004a4ec479e8479f84a7b04a7944a7784a75c4a73c4a7244a4344a41c4a4044a3ec4a3d44a3bc4a3a44a38c4a3744a35c4a3444a32c4a3144a2fc4a2e44a2cc4a2b44a29c4a2844a26c4a2504a23c4a2284a214479c8479d84a4d84a4bc4a4a04a4844a4644a44c4a1644a1444a1304a1184a0fc4a0e84a0d44a0bc4a0a44a08c4a0744a05c4a0444a02c4a01449ffc49fe449fcc49fb449f9c49f8049f6c)
  (.lf 0)))

def shaPos113 : BTree :=
  .nd (.nd (.nd (.lf
  0x1b434612f403a3d1b428612dc03a391b41c612c403a351b410612ac03a311b4046129403a2d1b3f46127c03a291b3e86126403a251b3dc6124c03a211b3cc1b3d403a1d1b3bc1b3c403a191b3ac1b3b403a151b39c1b3a403a111b38c1b39403a0d1b37c1b38403a091b36c1b37403a051b35c1b36403a011b34c1b354039fd1b33c1b344039f91b32c1b334039f51b31c1b324039f11b30c1b314039ed1b2fc)
  (.lf 0)) (.nd (.lf
  0x1f4a81f4981f4941f4781f4741f45c1f4501f43c1f4301f41c1f4101f3fc1f3f01f3dc001f000a901eef41eee41eed41eec41eec01eea41ee941ee901ee741ee641ee601ee441ee381ee281ee181ee0c1edf41ede81edd41edc81edb41eda81ed9c1ed881ed781ed641ed581ed481ed381ed2c001e800a7c1e8401e8381e8241e8101e8041e7f41e7e41e7d01e7c81e7bc1e7ac1e79c1e78c1e7741e7681e754)
  (.lf 0))) (.nd (.nd (.lf
  0x61ea839d7c0d34d39d6c39d680d34939d6039d5c0d34539d5039d4c0d34139d4039d380d33d39d2839d300d33939d2039d1c0d33539d1039d0c0d33139cfc39cf80d32d39cec39cf00d32939ce039cdc0d32539ccc39cc80d32139cb839cbc0d31d39cb039cac0d31939ca039c9c0d31539c8c39c900d31139c8039c7c0d30d39c6c39c680d30939c5839c5c0d30539c5039c4c0d30139c3c39c380d2fd39c30)
  (.lf 0)) (.nd (.lf
  0x2694426934269242691426904268f4268e4268d4268c4268b4268a4268902688026874268642685426844268342682015a2954c046707c6704c6702066ff466fc866f9c66f7066f4466f1866eec66ec066e9866e7066e4866e2066df866dd066da866d8066d5866d30630ec630c8630a86308c630686304c6302861e0461de8268142680c26804267fc267f4267ec267e0267dc267d4267cc267c0267bc267b4)
  (.lf 0)))

def shaPos114 : BTree :=
  .nd (.nd (.nd (.lf
  0xf9511eb411eb800f9111ea411ea800f8d11e9411e9800f8911e8411e8c00f8511e7411e7c00f8111e6411e6c00f7d11e5411e5c00f7911e4857d2400f7511e3c57d0400f7111e3057ce400f6d11e2857cc400f6911e1857ca400f6511e0c57c8400f6111e0457c6800f5d11df457c4400f5911dec57c2800f5511ddc57c0400f5111dd457be400f4d11dc457bc400f4911db857ba800f4511db057b8c00f41)
  (.lf 0)) (.nd (.lf
  0x551e8551c4551a05517c551585513455110550ec550c8550a4550805505c550385501454ff049178552bc552945526c552445521c551f4551d0551ac5518855164551405511c550f8550d4550b05508c55068550445502054ffc54fd854fb454f9054f6c54f4854f2454f0054edc54ebc54e9c4916014645146411463d1463914635146311462d1462914625146211461d1461914615146111460d1460914605)
  (.lf 0))) (.nd (.nd (.lf
  0xb4180abbd0062a0b40c0abb9028b415595028ac15591028a41558d0b89c155890b8981609931d0031cfc0abb531cf031cec0abb131ce031cdc0abad31cd031ccc0aba931cc031cbc0aba531cb031cac0aba131ca031c9c0ab9d31c9031c8c0ab9931c8031c7c0ab9531c7031c6c0ab9131c6031c5c0ab8d31c5031c4c0ab8931c4031c3c0ab8531c3031c2c0ab8131c2031c1c0ab7d31c1031c0c0ab7931c00)
  (.lf 0)) (.nd (.lf
  0xe41c0e4180e4140e4100e40c0e4080e4040e4000e3fc0e3f80e3f40e3f00e3ec0e3e80e3e40e3e00e3dc0e3d80e3d40e3d00e3cc0e3c80e3c40e3c00e3bc19308192f8192e4192d8192c8192b8192a419294192881927419268192581924819238192241921419208191f8191e8191d8191c8191b8191a41919819188191781916819158191481913815d8d548d05f1145f0f45f0d45f0b45f0945f0745f054)
  (.lf 0)))

def shaPos115 : BTree :=
  .nd (.nd (.nd (.lf
  0x607922f6822f6c0607522f5822f5c0607122f5022f4c0606d22f3822f400606922f2822f2c0606522f1c22f200606122f0822f0c0605d22efc22ef80605922ef022eec0605522ee022edc0605122ed022ecc0604d22ec022ebc0604922eb022ea80604522ea022e9c0604122e9022e880603d22e8022e780603922e7022e6c0603522e5822e600603122e5022e4c0602d22e3822e3c0602922e2c22e2806025)
  (.lf 0)) (.nd (.lf
  0x1f7381f7341f71c1f7141f6fc1f6ec1f6d81f6cc1f6bc1f6ac1f69c1f6941f6781f66c1f6641f6501f6441f62c1f6241f60c1f5fc1f5ec1f5dc1f5d41f5c400a941f0d41f0cc1f0b81f0a41f0941f0901f0801f0701f05c1f0501f0381f0281f0181f0101eff81efe81efdc1efd01efc01efa81ef981ef881ef781ef701ef541ef481ef381ef301ef201ef040043800a841ea241ea141ea001e9f01e9e41e9dc)
  (.lf 0))) (.nd (.nd (.lf
  0x42b900fdf954e2c42b840fdf5468cc42b780fdf1468b442b6c0fded4689c42b600fde94688442b540fde54686c42b480fde14685442b3c0fddd4683c42b300fdd94682442b240fdd54680c42b180fdd1467f442b0c0fdcd467dc42b000fdc9467c442af40fdc5467b042ae80fdc14679c42adc0fdbd4678842ad00fdb94677442ac40fdb54676042ab80fdb14674c42aac0fdad4673842aa00fda94672442a94)
  (.lf 0)) (.nd (.lf
  0x33d7433d6433d5433d4433d3433d2433d1433d0433cf433ce433cd433cc433cb433ca433c9433c8433c7433c6433c5433c4433c3433c2433c1433c0414961007cc09e4409e4009e3c09e3809e3409e3009e2c09e2809e2409e2009e1c09e1809e1409e1009e0c09e0809e0409e0009dfc09df809df409df009dec09de809de409de009ddc09dd809dd409dd033bf433be433bd433bc433bb433ba433b9433b84)
  (.lf 0)))

def shaPos116 : BTree :=
  .nd (.nd (.nd (.lf
  0x4658c466804666846650466384662046608465f0465d8465c0465a8465904657846564462d4462c0462ac46298462844643c464244640c463f4463dc463c4463ac463944637c463644634c464404642846410463f8463e0463c8463b046398463804636846350463384632453f2053f0053ee053ec053ea0541485412454100540dc540b854094540705404c540285400453fe05414c5412854104540e0540bc)
  (.lf 0)) (.nd (.lf
  0x5ad145acf85acdc5acc05aca45ac885ac6c5ac505ac385ac205ac085abf05abd85abc05aba85ab9054590130f9130f5130f1130ed130e9130e5130e1130dd130d9130d5130d1130cd130c9130c5130c1130bd130b9130b5130b1130ad130a9130a5130a11309d1309913095130911308d1308913085130811307d545805ab7c5ab5c5ab3c5ab1c5aafc5aadc5aabc5aa9c5aa7c5aa5c5aa3c5aa1c5aa005a9e4)
  (.lf 0))) (.nd (.nd (.lf
  0x251c153b90b068153b5004f20b064098e50250c153b10b05c153ad004ee0b058098e10b050153a9004ea0b04c098dd004e60b040098d9024f4153a5024ec153a10b0381539d004e20b034098d5004de0b028098d10b02015399004da0b01c098cd004d60b010098c90b8501607d2e1f02e1ec098c52e1e02e1dc098c12e1d02e1cc098bd2e1c02e1bc098b92e1b02e1ac098b52e1a02e19c098b12e1902e18c)
  (.lf 0)) (.nd (.lf
  0xd4940d4900d48c0d4880d4840d4800d47c0d4780d4740d4700d46c0d4680d4640d4600d45c0d4580d4540d4500d44c0d4480d444126c0126b0126a01269012680126701266012650126401262c1261c1261012600125f0125e0125cc125c0125b01259c1259012580125701256012550125401252c1252012510124fc124f015ccd543a8583c8583a85838458364583445832458304582e4582c4582a458288)
  (.lf 0)))

def shaPos117 : BTree :=
  .nd (.nd (.nd (.lf
  0x1f4a004db11f4881f48c04dad1f47c1f48004da91f46c1f46804da51f4581f46004da11f4481f44c04d9d1f4381f44004d991f4281f42c04d951f4181f42004d911f4081f40c04d8d1f3f81f40004d891f3e81f3ec04d851f3d81f3e004d811f3d01f3cc04d7d1f3c01f3b804d791f3b01f3ac04d751f3981f3a004d711f38c1f39004d6d1f3801f37c04d691f36c1f36804d651f35c1f35804d611f34c1f350)
  (.lf 0)) (.nd (.lf
  0x55fa455f8c55f7455f5c541f45420856294562745624c5623456210561f4561d0561b45619455e2455dfc55de455dc855dac55d9055d7455d5855d3c55d2055d0455ce455ccc55cb455ca055c8455c6c55c5855c4055c2855c10541d0541e055f4055f1c55efc55edc55ec455ea055e8055e5c55e4055acc55ab055a9455a7855a5c55a4055a2055a08559ec559d0559b4559945597c559645594c559345591c)
  (.lf 0))) (.nd (.nd (.lf
  0xe8a56acfc3e4800e8a16acd43e4740e89d6acac3e4680e8996ac843e45c0e8956ac5c3e4500e8916ac343e4440e88d6ac0c3e4380e889640c43e42c0e885640a43e4200e881640843e4140e87d640643e4080e879640443e3fc0e875640243e3f00e871640043e3e40e86d6220c3e3d80e869621f03e3cc0e8653e3c03e3b80e8613e3b03e3a80e85d3e3a03e3980e8593e3903e3880e8553e3803e3780e851)
  (.lf 0)) (.nd (.lf
  0x969809694096900968c0968809684096800967c0967809674096700966c0966809664096600965c0965809654096502d2f42d2e42d2d42d2c42d2b42d2a42d2942d2842d2742d2642d2542d2442d2342d2242d2142d2042d1f42d1e42d1d42d1c42d1b42d1a42d1942d1842d1742d1642d1542d1442d1342d12415a6954d446a8406a8106a7e06a7b46a7886a75c6a7306a7046a6d86a6ac6a6806a6586a630)
  (.lf 0)))

def shaPos118 : BTree :=
  .nd (.nd (.nd (.lf
  0x5c878024e9169605c858024e5169545c838024e11694c5c818024dd169405c7f8024d9169345c7dc024d5169245c7c0024d11691c5c7a4024cd1690c5c788024c9169005c76c024c5168f85c750024c1168ec5c734024bd168e05c718024b9168d05c6fc024b5168c85c6e0024b1168b85c6c8024ad168ac5c6b0024a9168a45c698024a5168985c680024a11688c5c6680249d1687c5c65002499168745c634)
  (.lf 0)) (.nd (.lf
  0x3d7bc3d7b03d7a43d7983d78c3d7803d7743d7683d75c3d7503d7443d7383d72c3d72048da800fa03d3cc3d3c03d3b43d3a83d39c3d3903d3843d3783d36c3d3603d3543d3483d33c3d3303d3243d3183d30c3d3003d2f43d2e83d2dc3d2d03d2c43d2b83d2ac3d2a03d2943d2883d27c3d27048d9c00f943cf1c3cf103cf043cef83ceec3cee03ced43cec83cebc3ceb03cea43ce983ce8c3ce803ce743ce68)
  (.lf 0))) (.nd (.nd (.lf
  0x46fc00be61474e446fb00be5d474cc46fa00be59474b446f900be554749c458600be5147484458540be4d35718357200be4935708357100be45356f8357000be41356e8356f00be3d356d8356e00be39356c8356d00be35356b8356c00be31356a8356b00be2d35698356a00be2935688356900be2535678356800be2135668356700be1d35658356600be1935648356500be1535638356400be113562835630)
  (.lf 0)) (.nd (.lf
  0x1ff441ff341ff24159e947a444ad6c4ad504ad344ad184acfc4ace04acc84acb04ac984ac804ac684ac504ac384ac204ac084abf04abd84abc04aba84ab904ab784ab604ab484ab344ab1c4ab044aaec4aad44aac04aaac1ff141ff0c1ff041fef81fef41feec1fee41fedc1fed41fecc1fec41febc1feb41feac1fea41fe981fe941fe8c1fe841fe781fe741fe681fe641fe5c1fe541fe481fe401fe3c1fe30)
  (.lf 0)))

def shaPos119 : BTree :=
  .nd (.nd (.nd (.lf
  0x2be0a9c4073550a9bc14f5d002ba0a9b8073510b7d814f5926bd026bc80734d26bbc26bc00734926bb026ba80734526b9c26ba00734126b9026b880733d26b7826b800733926b7026b680733526b5826b600733126b5026b4c0732d26b4026b3c0732926b3026b2c0732526b2026b1c0732126b1026b0c0731d26b0026afc0731926ae826af00731526ad826ae00731126ad026ac80730d26ab826ac007309)
  (.lf 0)) (.nd (.lf
  0x206342062420608205fc205f0205e4205cc205bc205ac0065000abc200e8200e4200c8200bc200b4200a42008c2007c200682005c2004c200382002c2001c2000c200041ffec1ffe01ffd41ffb81ffac1ffa01ff8c1ff781ff701ff581ff4c1ff401ff2c1ff1c0064800aac1fa581fa481fa381fa281fa181fa081f9f81f9e81f9d81f9c81f9b81f9a81f9981f9881f9781f9681f9581f9481f9381f9281f918)
  (.lf 0))) (.nd (.nd (.lf
  0x108911088d1088910885108811087d1087910875108711086d1086910865108611085d108591085515b29479e04a4e44a4c84a4ac4a4904a4744a4584a4404a4284a4104a3f84a3e04a3c84a3b04a3984a3804a3684a3504a3384a3204a3084a2f04a2d84a2c04a2a84a2904a2784a2604a2484a2344a220479cc108511084d1084910845108411083d1083910835108311082d1082910825108211081d10819)
  (.lf 0)) (.nd (.lf
  0x3a5343a5243a5143a504147f154ba865f2465ef465ec465e9865e6c65e4065e1465de865dbc65d9065d6465d3c65d1465cec65cc465c9c65c7465c4c65c2465bfc65bd462c9462c7462c5462c3462c1462bf462bd461cf861cdc3a4f43a4e43a4dc3a4d03a4c43a4b83a4ac3a49c3a4943a4883a47c3a4703a4603a4583a44c3a4403a4303a4283a41c3a4103a4043a3f83a3ec3a3dc3a3d43a3c43a3bc3a3ac)
  (.lf 0)))

def shaPos120 : BTree :=
  .nd (.nd (.nd (.lf
  0x9e01ab601ab5c1ab481ab3c1ab381ab2c1ab201ab141ab081aafc1aaf01aae41aad01aac41aab81aaac1aaa81aa941aa901aa7c1aa781aa641aa601aa4c1aa481aa3c1aa281aa1c1aa101aa04549fc009d81a8201a8141a8001a7fc1a7f01a7dc1a7d81a7c41a7c01a7b41a7a81a79c1a7901a77c1a7701a76c1a7581a7541a7401a7341a7301a71c1a7101a70c1a7001a6f41a6e81a6dc1a6d01a6c4549d4)
  (.lf
  0x440444403444024440144400443ff443fe443fd443fc443fb414875457a853a3c53a18539f4539d0539ac5398853964539405391c538f8538d4538b05389053870538505383053810537f0537d0537b0537905377053754537385371c53700536e4536c8490fc490e843fa443f9843f8c43f8043f7443f6843f5c43f5043f4443f3843f2c43f2043f1443f0843efc43ef043ee443ed843ecc43ec043eb443ea8))
  (.nd (.lf
  0x1263d1263912635126311262d1262912625126211261d1261912615126111260d126091260512601125fd54238565ec565cc565ac5658c5656c5654c5652c5650c564ec564cc564ac5648c5647056454564385641c56400563e4563c8563ac56390563745635c563445632c56314562fc562e4562cc562b45422454234565e8565c8565a85658856568565485652856508564e8564c8564a8564885646c56450)
  (.lf 0))) (.nd (.nd (.lf
  0x4f6a469f8c08f514f69069f6408f4d4f67c69f3c08f494f66869f1408f454f65469eec08f414f64069ec408f3d4f62c69e9c08f394f61869e7408f354f60469e4c08f314f5f069e2408f2d4f5dc69dfc08f294f5c863d2c08f254f5b463d0c08f214f5a063cec08f1d4f58c63ccc08f194f57863cac08f154f56463c8c08f114f55063c6c08f0d4f5406211808f094f530620fc08f052c3002c2f808f012c2f0)
  (.lf 0)) (.nd (.lf
  0x5512455100550dc550b85509455070550505502c5500454fe054fc054f9c54f7854f5454f2c54f0854ee854ec854ea40f2400f2340f2280f2180f2100f2000f1f40f1ec0f1dc0f1d00f1c40f1bc0f1b00f1a00f1940f18c0f1800f1700f1680f15c0f14c0f1440f1380f1280f1200f1140f1080f0f80f0f00f0e415e4d4509847748477304771847700476e8476d0476b8476a04768847670476584764047628)
  (.lf 0)))

def shaPos121 : BTree :=
  .nd (.nd (.nd (.lf
  0x44091d5341d538044051d52c1d528044011d5141d518043fd1d5081d504043f91d4f41d4f8043f51d4e41d4e8043f11d4dc1d4d8043ed1d4c41d4c8043e91d4b81d4b4043e51d4a41d4a8043e11d4941d498043dd1d4841d488043d91d47c1d474043d51d4641d468043d11d4541d458043cd1d4441d448043c91d4341d438043c5008120080e0080a0080600802007fe007fa007f6007f2007ee007ea007e6)
  (.lf 0)) (.nd (.lf
  0x56754567385671c56700566e4566c8566b056698566805666856650566385662056608542505423c565f0565d0565b05659056570565505653056510564f0564d0564b05649056474564585643c5642056404563e8563cc563b056394563785636056348563305631856300562e8562d0562b85422854214562a05628056260562405622056200561e0561c0561a05618056160561405612456108560ec560d0)
  (.lf 0))) (.nd (.nd (.lf
  0x3c0c80ddf9672d43c0bc0ddf5672a83c0b00ddf16727c3c0a40dded672503c0980dde9672283c08c0dde5672003c0800dde1671d83c0740dddd671b03c0680ddd9671883c05c0ddd5671603c0500ddd1671383c0440ddcd671103c0380ddc9670e83c02c0ddc5670c03c0200ddc1631d83c0140ddbd631b83c0080ddb9631983bffc0ddb5631783bff00ddb1631583bfe40ddad631383bfd80dda9631183bfcc)
  (.lf 0)) (.nd (.lf
  0x92ec092e8092e4092e0092dc092d8092d4092d0092cc092c8092c4092c0092bc092b8092b4092b0092ac092a8092a4092a00929c09298092940929029e7429e6429e5429e4429e3429e2429e1429e0429df429de029dd429dc429db429da429d9429d8029d7429d6429d5429d4429d3429d2429d1429d0029cf429ce429cd429cc429cb429ca015a4954ca868c5c68c3468c0068bdc68bb068b8468b5868b2c)
  (.lf 0)))

def shaPos122 : BTree :=
  .nd (.nd (.nd (.lf
  0x1443c1444001a3d144341442c01a39144201441c01a35144141441001a31144041440001a2d143ec143f001a29143e0143e401a25143d0143d401a21143c0143c401a1d143b0143ac01a19143a01439c01a15143901439401a111437c1438001a0d143701436c01a091435c1436401a05143501435401a011433c14340019fd143301432c019f91432014324019f51431414310019f11430414300019ed142f4)
  (.lf 0)) (.nd (.lf
  0x38b5838b4c38b3c38b3838b2838b1838b1438b0038af438aec38ae438ad838ac438ab848d5800edc3876438758387543874438734387283871c3871038704386fc386ec386e4386d4386c8386bc386b4386a83869c386903868438678386683865c38650386483863c38630386203861c3860c48d4c00ed0382b8382a83829c38298382843827c3826c382643825838250382443823038224382183820c38200)
  (.lf 0))) (.nd (.nd (.lf
  0x522a4465e80b5095228c465d00b50552270465b80b5015225c465a00b4fd52244465880b4f952228465740b4f552214465600b4f1521f84654c0b4ed521e4465380b4e9521cc465240b4e5521b4465100b4e152198464fc0b4dd52184464e80b4d95216c464d40b4d552150464c00b4d15213c464b00b4cd52124464a00b4c95210c464900b4c5520f0464800b4c1520dc464700b4bd520c0464600b4b9520ac)
  (.lf 0)) (.nd (.lf
  0x4951449504494ec494dc494c0494b0494a0494884947849468494581c9681c95c1c9501c9441c9381c9281c9201c9141c9081c8fc1c8f01c8e01c8d81c8cc1c8c01c8b41c8a81c89c1c88c1c8801c8781c8681c85c1c8541c8481c8381c82c1c8201c8181c80815b090040c0660406600065fc065f8065f4065f0065ec065e8065e4065e0065dc065d8065d4065d0065cc065c8065c4065c0065bc065b8065b4)
  (.lf 0)))

def shaPos123 : BTree :=
  .nd (.nd (.nd (.lf
  0x69cd4cb0862d6c069c94caf462d4c069c54cae062d2c069c14cacc62d0c069bd4cab862cec069b94caa462ccc069b54ca9062ca8069b14ca8061d28069ad4ca7061d0c069a924cdc24cd8069a524ccc24cd0069a124cbc24cb80699d24cac24cb00699924c9c24c980699524c8c24c900699124c8024c7c0698d24c7024c680698924c6024c5c0698524c4c24c500698124c4024c3c0697d24c3024c2806979)
  (.lf 0)) (.nd (.lf
  0x204f8204f0204ec204e0204d8204d0204c8204c0204b847a5400ab81ff101ff081ff001fefc1fef01fee81fee01fed81fed01fec81fec01feb81feb01fea81fea01fe9c1fe901fe881fe801fe7c1fe701fe6c1fe601fe581fe501fe4c1fe441fe381fe341fe2c47a3400aa81f8801f8781f8741f86c1f8601f8581f8501f8481f8441f83c1f8301f82c1f8201f8181f8141f8081f8001f7f81f7f01f7e81f7e0)
  (.lf 0))) (.nd (.nd (.lf
  0x4b2b84b2984b2804b26c4b2504b2384b2204b2084b1f04b1d84b1c04b1a84b1904b1784b1604b1484b1304ae404ae284ae104adf84ade04adc84adb44b0304b0144aff84afdc4afc84b0344b0184affc4afe04afc04afa84af904af784af604af484af304af184af004aee84aed04aeb84aea04ae884ae704ae584ab684ab504ab384ab204ab084aaf04aadc4ad584ad3c4ad204ad044acf04ad5c4ad404ad24)
  (.lf 0)) (.nd (.lf
  0x3718037170147c5455cc482ec482d4482bc482a848294482804826c4825848244482304821c48208481f4481e0481cc481b8481a4481904817c481684815445b3045b2045b0c45afc45aec45adc45acc45abc45aac37160371583714c3714037134371283711c3711037104370f8370ec370e0370d4370c8370bc370b0370a037098370883708037074370643705c3705037040370383702c3701c3701437008)
  (.lf 0)))

def shaPos124 : BTree :=
  .nd (.nd (.nd (.lf
  0x55724004e90f9705570c004e50f964556f0004e10f95c556d8004dd0f94c556c4004d90f944556ac004d50f93855694004d10f92855680004cd0f9205566c004c90f91455658004c50f90455644004c10f8f855630004bd0f8ec55618004b90f8e455604004b50f8d8555f0004b10f8c80f8c4004ad0f8b80f8bc004a90f8a80f8ac004a50f8980f89c004a10f88c0f8880049d0f8780f874004990f8640f868)
  (.lf 0)) (.nd (.lf
  0x5f2a85f28c5f2705f2545f2385f21c5f2005f1e45f1cc5f1b45f19c5f1845f16c5f1545f13c5f124548dc548ec5f4585f4385f4185f3f85f3d85f3b85f3985f3785f3585f3385f3185f2f85f2dc5f2c05f2a45f2885f26c5f2505f2345f2185f1fc5f1e05f1c85f1b05f1985f1805f1685f1505f1385f120548d813b7913b7513b7113b6d13b6913b6513b6113b5d13b5913b5513b5113b4d13b4913b4513b41)
  (.lf 0))) (.nd (.nd (.lf
  0x6bf400a22d50c186bf140a22950c046bee80a22550bf06bec00a22150bdc6be980a21d50bc86be700a21950bb46be480a21550ba06be200a21150b8c6bdf80a20d50b786bdd00a20950b646bda80a20550b506bd800a20150b3c6bd580a1fd50b286450c0a1f950b14644ec0a1f550b00644cc0a1f150aec644ac0a1ed50ad86448c0a1e950ac46446c0a1e550ab06444c0a1e150aa0623100a1dd50a90622f4)
  (.lf 0)) (.nd (.lf
  0x5bb345bb145baf45bad45bab45ba985ba7c5ba605ba445ba285ba0c5b9f05b9d85b9bc5b9a05b9885b9705b9585b9405b9285b9105b8f85b8e015ca815c9c15c9015c8415c7415c6c15c6015c5415c4815c3c15c3015c2415c1815c0c15c0015bf415be815bdc15bcc15bc015bb815bac15b9c15b9015b8415b7c15b7015b6415b5815b4c15d31063940dc380dc340dc300dc2c0dc280dc240dc200dc1c0dc18)
  (.lf 0)))

def shaPos125 : BTree :=
  .nd (.nd (.nd (.lf
  0x210d8210e0056d9210cc210c8056d5210bc210c0056d1210ac210b0056cd2109c21098056c92108821090056c52108021078056c1210702106c056bd2105c21058056b92105021048056b52103c21038056b1210302102c056ad2102021018056a9210082100c056a52100020ff8056a100a5200a4e00a4a00a4600a4200a3e00a3a00a3600a3200a2e00a2a00a2600a22016140a6900a6840160c015fc0a660)
  (.lf 0)) (.nd (.lf
  0x1420014180141001408014000a400013f80a3fc0a3ec0a3dc013f00a3d00b7600090a00440003b80a3cc0a3b80a3ac0a3a8013e8013e0013d80a394013d00a38c013c8013c00a37c013b80a374013b00a3640a358013a8013a0013980a34c0a344013900a3380a330013880a3200a3140b750008c200a80013800137801370013680bb4001360013580bb340bb2801350013480bb1c01340013380133001328)
  (.lf 0))) (.nd (.nd (.lf
  0x407e8407f00f34d407d8407e00f349407c8407d00f345407b8407c00f341407a8407b00f33d40798407a00f33940788407900f33540778407800f33140768407700f32d6a854407600f3296a824407540f3256a7f4407480f3216a7c84073c0f31d6a79c407300f3196a770407240f3156a744407180f3116a7184070c0f30d6a6ec407000f3096a6c0406f40f3056a694406e80f3016a66c406dc0f2fd6a644)
  (.lf 0)) (.nd (.lf
  0x307e4307d4307c4307b4307a43079430784149410078c09a8409a8009a7c09a7809a7409a7009a6c09a6809a6409a6009a5c09a5809a5409a5009a4c09a4809a4409a4009a3c09a3809a3409a3009a2c09a2809a2409a2009a1c09a1809a1409a103077430764307543074430734307243071430704306f4306e4306d4306c4306b4306a430694306843067430664306543064430634306243061430604305f4)
  (.lf 0)))

def shaPos126 : BTree :=
  .nd (.nd (.nd (.lf
  0x2f9518ecc18ec802f9118ebc18eb802f8d18eac18ea802f8918e9c18e9802f8518e8c18e8802f8118e7c18e7802f7d18e6818e6402f7918e5418e5c02f7518e4c18e4402f7118e3418e3c02f6d18e2c18e2402f6918e1418e1c02f6518e0c18e0402f6118df418dfc02f5d18dec18de402f5918ddc5edc802f5518dd05eda802f5118dc45ed8802f4d18db85ed6802f4918dac5ed4802f4518da05ed2802f41)
  (.lf 0)) (.nd (.lf
  0x6aab86aa8c6aa606aa346aa086a9e06a9b86a9906a9686a9406a9186a8f06a8c86a8a06a8786a6386a6106a5e86a5c06a5986a5706a5486a5206a4f863ef054d486a84c6a81c6a7ec6a7c06a7946a7686a73c6a7106a6e46a6b86a68c6a6646a63c6a6146a5ec6a5c46a59c6a5746a54c6a5246a4fc6a2bc6a2946a26c6a2446a21c6a1f46a1cc6a1a46a17c63e1054d346a4d06a4a06a4706a4446a4186a3ec)
  (.lf 0))) (.nd (.nd (.lf
  0xc8a545c40379b80c8a145c30379a80c89d45c20379a00c89945c10379940c89545c00379840c89145bec379780c88d45bdc3796c0c88945bcc379600c88565f3c379540c88165f0c3794c0c87d65edc3793c0c87965eb0379300c87565e84379240c87165e583791c0c86d65e2c379100c86965e00379000c86565dd4378f80c86165da8378e80c85d65d7c378dc0c85965d50378d40c85565d28378c80c851)
  (.lf 0)) (.nd (.lf
  0x234f4234e4234d4234c4234b4234a423494234842347423464234542344423434234242341423404233f4233e4233d4233c4233b4233a415a0954b646549c6546c6544065414653e8653bc6539065364653386530c652e0652c4652906526c652406521c651f4651c8651a46517c65154629ec629c8629ac6298c629686294c6292c61c4461c2c233942338c233842337c233702336c233602335c233542334c)
  (.lf 0)))

def shaPos127 : BTree :=
  .nd (.nd (.nd (.lf
  0x4e0ec67f9007c894e0d867f6807c854e0c467f4007c814e0b067f1807c7d4e09c67ef007c794e08867ec807c754e07467ea007c714e0606354c07c6d4e04c6352c07c694e0386350c07c654e024634ec07c614e010634cc07c5d4dffc634ac07c594dfe86348c07c554dfd861f2007c514dfc861f0007c4d287e8287ec07c49287dc287d807c45287c8287d007c41287c0287bc07c3d287b0287ac07c39287a0)
  (.lf 0)) (.nd (.lf
  0x4ab5c4ab444ab2c4ab144aafc4aae44aacc4aab84aaa447a3047a204aa904aa744aa584aa3c4aa204aa044a9ec4a9d44a9bc4a9a44a98c4a9744a95c4a9444a92c4a9144a8fc4a8e44a8cc4a8b44a89c4a8844a86c4a8544a83c4a8244a80c4a7f44a7e04a7cc47a1047a044a7c04a7a44a7884a76c4a7504a7344a71c4a7044a6ec4a6d44a6bc4a6a44a68c4a6744a65c4a6444a62c4a6144a5fc4a5e44a5cc)
  (.lf 0))) (.nd (.nd (.lf
  0x118111180d118091180511801117fd117f9117f5117f1117ed117e9117e5117e1117dd117d9117d515bb547d2c4f5184f5004f4e84f4d04f4b84f4a04f48c4f4784f4644f4504f43c4f4284f4144f4004f3ec4f3d84f3c44f3b04f39c4f3884f3744f3604f34c4f3384f3244f3104f2fc4f2e84f2d84f2c847d20117d1117cd117c9117c5117c1117bd117b9117b5117b1117ad117a9117a5117a11179d11799)
  (.lf 0)) (.nd (.lf
  0x3d8e43d8d43d8c43d8b43d8a43d8941481d54c84685786854868518684ec684c068494684686843c68410683e4683b868390683686834068318682f0682c8682a06827868250682286363463614635f4635d4635b4635946357461f6061f443d8843d8783d86c3d8603d8543d8483d83c3d8303d8243d8183d80c3d8003d7f43d7e83d7dc3d7d03d7c43d7b83d7ac3d7a03d7943d7883d77c3d7703d7643d758)
  (.lf 0)))

def shaPos128 : BTree :=
  .nd (.nd (.nd (.lf 0x0) (.lf
  0x3e3043e2f43e2e43e2d43e2c43e2b43e2a43e2943e2843e2743e2643e2543e2443e2343e2243e2143e2043e1f41482554ca468c6068c2c68c0468bd468ba868b7c68b5068b2468af868acc68aa068a7868a5068a2868a00689dc689b46898c689646893c68914637ec637cc637ac637886376c6374c6372861fc461fac3e1e43e1d83e1cc3e1c03e1b43e1a83e19c3e1903e1843e1783e16c3e1603e1543e148))
  (.nd (.lf
  0x11af911af511af111aed11ae911ae511ae111add11ad911ad511ad111acd11ac911ac511ac111abd15bcd47dbc50358503405032850310502f8502e0502cc502b8502a4502905027c5026850254502405022c5021850204501f0501dc501c8501b4501a05018c5017850164501505013c50128501185010847db011ab911ab511ab111aad11aa911aa511aa111a9d11a9911a9511a9111a8d11a8911a8511a81)
  (.lf 0))) (.nd (.nd (.lf
  0x7e4128e1828e1c07e3d28e0828e1007e3928e0028df807e3528df028dec07e3128ddc28de007e2d28dd028dc807e2928dc028db807e2528db028dac07e2128d9c28d9807e1d28d9028d8807e1928d8028d7807e1528d6c28d6807e1128d5c28d5807e0d28d5028d4c07e0928d4028d3807e0528d2c28d2807e0128d2028d1c07dfd28d1028d0807df928d0028cf807df528cec28ce807df128cdc28cd807ded)
  (.lf 0)) (.nd (.lf
  0x4cb044caf04cadc4cac84cab44caa04ca8c4ca7c4ca6c47b8c47b804ca5c4ca444ca2c4ca144c9fc4c9e44c9d04c9bc4c9a84c9944c9804c96c4c9584c9444c9304c91c4c9084c8f44c8e04c8cc4c8b84c8a44c8904c87c4c8684c8544c8404c82c4c81c4c80c47b7447b684c7fc4c7e44c7cc4c7b44c79c4c7844c7704c75c4c7484c7344c7204c70c4c6f84c6e44c6d04c6bc4c6a84c6944c6804c66c4c658)
  (.lf 0)))

def shaPos129 : BTree :=
  .nd (.nd (.nd (.lf
  0x3195195d8195d403191195c8195cc0318d195b8195bc03189195a8195ac03185195981959403181195841958c0317d195781957c03179195681956403175195581955c03171195481954c0316d195381953c03169195281952403165195181951c031611950c195040315d194f8194f403159194e8194ec03155194d8194dc03151194c8194cc0314d194b8194b403149194a8194ac03145194981949c03141)
  (.lf 0)) (.nd (.lf
  0x6597c659546592c65904658dc658b46588c6586462bbc62b9c62b7c62b5c62b3c62b1c62afc655fc655d4655ac54b846583c6580c657dc657b065784657586572c65700656d4656a86567c656506562865600655d8655b065588655606553865510654e862adc62abc62a9c62a7c62a5c62a3c62a1c65280652586523054b70654c065490654606543465408653dc653b065384653586532c65300652d4652ac)
  (.lf 0))) (.nd (.nd (.lf
  0xcaa53806c380680caa1380603805c0ca9d3804c380480ca99380383803c0ca953802c380280ca9138018380200ca8d38008380100ca8937ffc37ff80ca8537fec37fe80ca8137fe037fd80ca7d37fd037fcc0ca7937fc037fb80ca7537fb037fa80ca7137f9837fa00ca6d37f8c37f880ca6937f8037f780ca65487f437f6c0ca61487dc37f640ca5d487c437f580ca59487b037f480ca554879c37f3c0ca51)
  (.lf 0)) (.nd (.lf
  0x23e6423e5423e4423e3023e2023e1423e0423df4159110be60019740196c0be3c019640195c0be140194c0193c0bdf401914018fc0024c04d8404d8004d7c04d7804d7404d7004d6c04d6804d6404d6004d5c04d5804d5404d5004d4c04d4804d4404d4004d3c04d3804d3404d3004d2c04d2804d2404d2004d1c04d1804d1404d1023de423dd423dc423db423da423d9423d8423d7423d6423d5423d4423d34)
  (.lf 0)))

def shaPos130 : BTree :=
  .nd (.nd (.nd (.lf
  0x55e78006e91006455e58006e51005455e34006e11004c55e18006dd1003c55df8006d91003455ddc006d51002455dc0006d11001855da4006cd1001055d88006c91000055d6c006c50fff455d50006c10ffec55d34006bd0ffe055d14006b90ffd055cf8006b50ffc855cdc006b10ffbc55cc8006ad0ffac55cb0006a90ffa055c94006a50ff9855c80006a10ff8855c640069d0ff7c55c4c006990ff7055c34)
  (.lf 0)) (.nd (.lf
  0x5ffe85ffcc5ffb05ff945ff785ff5c5ff405ff245ff0c5fef45fedc5fec45feac5fe945fe7c5fe645497c5498c6019860178601586013860118600f8600d8600b8600986007860058600386001c600005ffe45ffc85ffac5ff905ff745ff585ff3c5ff205ff085fef05fed85fec05fea85fe905fe785fe605497813d7913d7513d7113d6d13d6913d6513d6113d5d13d5913d5513d5113d4d13d4913d4513d41)
  (.lf 0))) (.nd (.nd (.lf
  0x50ce454e1c0a3f530498304a00a3f130488304900a3ed30478304800a3e930468304700a3e530458304600a3e130448304500a3dd30438304400a3d930428304300a3d530418304200a3d130408304100a3cd303f8304000a3c9303e8303f00a3c5303d8303e00a3c1303c8303d00a3bd303b8303c00a3b9303a8303b00a3b530398303a00a3b130388303900a3ad30378303800a3a930368303700a3a530358)
  (.lf 0)) (.nd (.lf
  0x166b0166a01669016059546c85c6085c5e85c5c85c5a85c5885c5685c5485c5285c5085c4e85c4c85c4a85c48c5c4705c4505c4385c41c5c4005c3e45c3c85c3ac5c3905c3785c3605c3485c3305c3185c3005c2e85c2d01668016670166681665c1665016644166381662c1661c1661416604165f8165f0165e4165d8165cc165c0165b4165a81659c1659016584165781656c1656016554165481653c16530)
  (.lf 0)))

def shaPos131 : BTree :=
  .nd (.nd (.nd (.lf
  0x17fa0bc90058b50bc8c14c45017f60bc88058b10166c14c410bc7c14c3d017f20bc78058ad0bc7014c39017ee0bc6c058a9017ea0bc60058a50165414c350164c14c310164414c2d0bc5c14c29017e60bc58058a10bc5014c25017e20bc4c0589d017de0bc4005899017da0bc3405895017d60bc28058910162c14c210bc2014c1d017d20bc1c0588d0bc1414c19017ce0bc1005889017ca0bc04058850bbfc)
  (.lf 0)) (.nd (.lf
  0xbe940be88019b00be7c019a8019a0019980199001988019800be700be6c01978064e800bd200b640be58019700be50019680be400be34019600be3001958019500be240be1801948019400be0401938019300192801920019180bdfc0bdf00191001908019000bde8018f8064e000b9e23df00049800b500bdd80bdc80bdbc018f00bdb4018e8018e0018d8018d0018c8018c00bda80bd980bd8c018b8018b0)
  (.lf 0))) (.nd (.nd (.lf
  0x534e440ebc0f54d534c440eb00f549534a440ea40f5455348440e980f5415346440e8c0f53d5344440e800f5395342440e740f5355340440e680f531533e440e5c0f52d533c840e500f529533ac40e440f5255339040e380f5215337440e2c0f51d5335840e200f5195333c40e140f515490d840e080f511490c440dfc0f50d40de840df00f50940dd840de00f50540dc840dd00f50140db840dc00f4fd40da8)
  (.lf 0)) (.nd (.lf
  0x31258312503124c31244312383123431228312243121c312103120c31204311f8311f0311e8311e0311d8311d0311c815e090059c07d7407d7007d6c07d6807d6407d6007d5c07d5807d5407d5007d4c07d4807d4407d4007d3c07d3807d3407d3007d2c07d2807d2407d2007d1c07d1807d1407d1007d0c07d0807d0407d00311c4311b4311a431194311843117431164311543114431134311243111431104)
  (.lf 0)))

def shaPos132 : BTree :=
  .nd (.nd (.nd (.lf
  0x9d41a6b01a6a01a6901a6801a6701a6601a6501a6401a6301a6201a6101a6001a5f01a5e01a5d01a5c01a5b01a5a01a5901a5801a5701a5601a5501a5401a5301a5201a5101a5001a4f01a4e006448009cc1a3681a3581a3481a3381a3281a3181a3081a2f81a2e81a2d81a2c81a2b81a2a81a2981a2881a2781a2681a2581a2481a2381a2281a2181a2081a1f81a1e81a1d81a1c81a1b81a1a81a19806440)
  (.lf
  0x44b5444b4444b3444b2444b1444b0444af444ae444ad444ac444ab444aa444a9444a8444a7444a6444a5444a4444a3444a2444a1444a0415ded064980ec140ec0c0ec040ebfc0ebf40ebec0ebe40ebdc0ebd40ebcc0ebc40ebbc0ebb40ebac0eba40eb9c0eb940eb8c0eb840eb7c0eb740eb6c0eb640eb5c0eb540eb4c0eb440eb3c0ec240ec1c449f4449e4449d4449c4449b4449a444994449844497444964))
  (.nd (.lf
  0x1283d1283912835128311282d1282912825128211281d1281912815128111280d128091280512801127fd542d85732c5730c572ec572cc572ac5728c5726c5724c5722c5720c571ec571cc571b057194571785715c571405712457108570ec570d0570b45709c570845706c570545703c570245700c56ff4542c4542d45732857308572e8572c8572a85728857268572485722857208571e8571c8571ac57190)
  (.lf 0))) (.nd (.nd (.lf
  0x62134091152c9902c988091112c9802c9780910d2c9702c968091092c9602c958091052c9502c948091012c9402c938090fd2c9302c928090f92c9202c918090f52c9102c908090f12c9002c8f8090ed2c8f02c8e8090e92c8e02c8d8090e52c8d02c8c8090e12c8c02c8b8090dd2c8b02c8a8090d92c8a02c898090d52c8902c888090d12c8802c878090cd2c8702c868090c92c8602c858090c52c8502c848)
  (.lf 0)) (.nd (.lf
  0x541a0558b455898558805586055844558285580c557f0557d4557b85579c557805576c557545573c5572055708556f4556dc556c0556a8556905567c5566855654556405562c5561c55608555f40fa380fa2c0fa200fa140fa080f9fc0f9f00f9e40f9d80f9cc0f9c00f9b40f9a80f9980f9900f9840f9780f96c0f9600f9540f9480f93c0f9300f9240f9180f9080f9000f8f00f8e80f8dc15fd1062a40ce28)
  (.lf 0)))

def shaPos133 : BTree :=
  .nd (.nd (.nd (.lf
  0x14a350ba7814a31017460ba74045f10124c14a2d0124414a290123c14a250ba7014a21017420ba6c045ed0ba6414a1d0173e0ba60045e90173a0ba50045e5017360ba48045e1017320ba38045dd0172e0ba2c045d90ba2814a190172a0ba20045d5017260ba14045d1017220ba08045cd0171e0ba00045c90171a0b9f0045c5017160b9e8045c1017120b9dc045bd0170e0b9d0045b90170a0b9c4045b501706)
  (.lf 0)) (.nd (.lf
  0x58f1458ef858edc58ec058ea458e8858e7058e5858e4058e2858e1058df858de058dc8544305441c58db058d9058d7058d5058d3058d1058cf058cd058cb058c9058c7058c5058c3458c1858bfc58be058bc458ba858b8c58b7058b5458b3858b2058b0858af058ad858ac058aa858a9058a7854408543f458a6058a4058a2058a00589e0589c0589a05898058960589405892058900588e4588c8588ac58890)
  (.lf 0))) (.nd (.nd (.lf
  0x3c7b80dff9620a03c7ac0dff53c7a03c7980dff13c7903c7880dfed3c7803c7780dfe93c7703c7680dfe53c7603c7580dfe13c7503c7480dfdd3c7403c7380dfd93c7303c7280dfd53c7203c7180dfd13c7103c7080dfcd3c7003c6f80dfc93c6f03c6e80dfc53c6e03c6d80dfc13c6d03c6c80dfbd3c6c03c6b80dfb93c6b03c6a80dfb53c6a03c6980dfb13c6903c6880dfad3c6803c6780dfa93c6703c668)
  (.lf 0)) (.nd (.lf
  0x75d8075d4075d0075cc075c8075c4075c0075bc075b8075b4075b0075ac075a8075a4075a00759c0759807594075900758c0758807584075802a8c42a8b02a8a42a8902a8842a8702a8642a8502a8442a8302a8242a8102a8002a7f02a7e02a7d02a7c02a7b02a7a42a7902a7802a7702a7602a7502a7402a7302a7202a7102a7042a6f415951002cc0550405500054fc054f8054f4054f0054ec054e8054e4)
  (.lf 0)))

def shaPos134 : BTree :=
  .nd (.nd (.nd (.lf
  0x14b345a8f801c3d14b285a8e001c3914b1c5a8c801c3514b105a8b001c3114b045a89401c2d14af85a87c01c2914ae85a86401c2514ae05a84c01c2114ad414ad001c1d14abc14ac001c1914ab014ab401c1514aa414a9c01c1114a8c14a9001c0d14a7c14a8001c0914a6c14a7001c0514a5c14a6401c0114a5414a4c01bfd14a3c14a4001bf914a3414a2c01bf514a1c14a2401bf114a0c14a1001bed149fc)
  (.lf 0)) (.nd (.lf
  0x3c3943c3883c37c3c3703c3643c3583c34c3c3403c3343c3283c31c3c3103c3043c2f848de800f6c3bfa83bf983bf8c3bf883bf783bf683bf5c3bf543bf443bf383bf303bf243bf143bf083bf003bef43bee43bed83bed03bec03bebc3beac3be9c3be903be843be783be703be643be543be4848ddc00f603baf83bae83bae03bad03bac83bab83baac3baa03ba943ba883ba7c3ba703ba643ba583ba4c3ba40)
  (.lf 0))) (.nd (.nd (.lf
  0xb6d1523b0466b00b6cd52398466a00b6c952388466900b6c552374458000b6c152360457f40b6bd33fa833fb00b6b933f9833fa00b6b533f8833f900b6b133f7833f800b6ad33f6833f700b6a933f5833f600b6a533f4833f500b6a133f3833f400b69d33f2833f300b69933f1833f200b69533f0833f100b69133ef833f000b68d33ee833ef00b68933ed833ee00b68533ec833ed00b68133eb833ec00b67d)
  (.lf 0)) (.nd (.lf
  0x45e8045e4045e0045dc045d8045d4045d0045cc045c8045c4045c0045bc045b8045b4045b0045ac045a8045a4045a00459c0459804594045901d4301d4201d4101d3fc1d3f01d3e01d3d01d3c01d3b01d3a01d3901d3801d3701d35c1d3501d3401d3301d3201d3101d3001d2f01d2e01d2d01d2bc1d2b01d29c1d2901d2801d2701d26014885006140847c0847808474084700846c0846808464084600845c)
  (.lf 0)))

def shaPos135 : BTree :=
  .nd (.nd (.nd (.lf
  0x252ac252b006b81252a02529806b7d2528c2528806b792527c2527806b75252702526806b712525c2526006b6d2524c2525006b69252402523806b652522c2522806b612521c2521806b5d2520c2520806b59251f82520006b55251ec251e806b51251e0251d806b4d251cc251c806b49251b8251bc06b45251b0251a806b412519c251a006b3d00c7e00c7a00c7600c7200c6e00c6a00c6600c6200c5e00c5a)
  (.lf 0)) (.nd (.lf
  0x253b8253b4253a8253a4253982539025388253842537848d3800b9024dd024dcc24dc024db824db024da824da024d9824d9024d8824d8024d7824d7024d6824d6024d5824d5024d4824d4024d3824d3024d2824d2024d1824d1024d0824d0024cfc24cf024ce848d2c00b802474024738247302472c2472024718247102470c24700246fc246f0246e8246e0246d8246d0246c8246c0246b8246b0246a8246a0)
  (.lf 0))) (.nd (.nd (.lf
  0x4d1284d1104d0f84d0e44d0d04d0bc4d0a84d0944d0804d06c4d0584d0444d0304d01c4d0084cff44cfe04cd6c4cd584cd444cd304cd1c4cd084ccf84cf0c4cef44cedc4cec44ceb44cf104cef84cee04cec84ceac4ce984ce844ce704ce5c4ce484ce344ce204ce0c4cdf84cde44cdd04cdbc4cda84cd944cd804cb0c4caf84cae44cad04cabc4caa84ca944ccac4cc944cc7c4cc644cc4c4ccb04cc984cc80)
  (.lf 0)) (.nd (.lf
  0x37ba037b9037b8037b7437b6437b5037b4437b3437b2437b1037b0437af437ae437ad4147cd455dc486444862c4861448600485ec485d8485c8485b04859c4858848574485604854c485384852448510484fc484e8484d4484c0484ac45c4c45c3c45c2c45c1c45c0c45bfc45bf045be045bd037ac437ab437aa837aa037a9437a8437a7837a7037a6437a5837a4c37a4037a3437a2437a1c37a1037a04379f4)
  (.lf 0)))

def shaPos136 : BTree :=
  .nd (.nd (.nd (.lf
  0x8c0135441353c135301351c1351013504134f8134f0134e4134d8134c8134bc134b0134a41349c1348c13480134741346c1345c134581344c134381342c134201341813408133fc133f8133e45445c008b8131f8131f0131e8131dc131d0131c4131b4131ac131a01319413180131781316813160131581314c131401312c131281311c1310813100130f4130e8130d8130cc130c4130b4130b0130a054434)
  (.lf
  0x416b4416a441694416844167441664416544164441634416244161441604415f4415e4415d4415c4415b4415a441594415841485154d8c6b2cc6b29c6b26c6b2406b2146b1e86b1bc6b1906b1646b1386b10c6b0e46b0bc6b0946b06c6b0446b01c6aff46afcc6afa46af7c6419c6417c6415c6413c6411c640fc640dc622406222441574415684155c4155041544415384152c415204151441508414fc414f0))
  (.nd (.lf
  0x5b5405b5205b5005b4e05b4c05b4a05b4805b4605b4405b41c5b4005b3e45b3c85b3ac5b3905b3745b3585afec5afd05afb45b20c5b1ec5b1cc5b1ac5b18c5b16c5b14c5b12c5b10c5b0ec5b0cc5b2105b1f05b1d05b1b05b1905b1705b1505b1305b1105b0f05b0d05b0b05b0945b0785b05c5b0405b0245b0085ac9c5ac805ac685aebc5ae9c5ae7c5ae5c5ae3c5ae1c5adfc5addc5adbc5ad9c5ad845aec0)
  (.lf 0))) (.nd (.nd (.lf
  0x2ac6c087c92ac602ac5c087c52ac502ac4c087c12ac402ac3c087bd2ac302ac2c087b92ac202ac1c087b52ac102ac0c087b12ac002abfc087ad2abf02abec087a92abe02abdc087a52abd02abcc087a12abc02abbc0879d2abb02abac087992aba02ab9c087952ab882ab90087912ab802ab7c0878d2ab6c2ab68087892ab602ab5c087852ab482ab50087812ab402ab3c0877d2ab2c2ab28087792ab202ab18)
  (.lf 0)) (.nd (.lf
  0x4c5b44c5a447b5447b604c7f44c7dc4c7c44c7ac4c7904c77c4c5084c4f44c4e04c4cc4c4b84c4a44c4904c47c4c4684c4544c4404c42c4c4184c4044c3f04c3dc4c3c84c3b44c3a04c38c4c3744c3644c3544c34447b3c47b484c5944c57c4c5644c54c4c5304c51c4c2a84c2944c2804c26c4c2584c2444c2304c21c4c2084c1f44c1e04c1cc4c1b84c1a44c1904c17c4c1684c1544c1404c12c4c1184c104)
  (.lf 0)))

def shaPos137 : BTree :=
  .nd (.nd (.nd (.lf
  0x1bb2464eac03c3d1bb1864e8003c391bb0c64e5403c351bafc64e2803c311baf464dfc03c2d1bae864dd003c291bad864da403c251bad064d7803c211bac464d5003c1d1bab864d2803c191baa864d0003c151baa064cd803c111ba9064cb003c0d1ba8464c8803c091ba7c64c6003c051ba6c64c3803c011ba5c1ba6403bfd1ba4c1ba5403bf91ba3c1ba4403bf51ba2c1ba3403bf11ba1c1ba2403bed1ba0c)
  (.lf 0)) (.nd (.lf
  0x2436c243582434c243382432c2431c2430c242f8242f0242dc242d0242bc242ac2429c0025000b6023dd823dd023dbc23da823d9823d9023d8023d6823d5823d5023d4023d2823d2423d1423d0023ce823cd823cd023cbc23ca823c9c23c9023c7c23c6823c5823c4c23c4023c2823c1823c100024800b4c23754237382372c237182370c236f8236ec236d8236cc236bc236ac2369c2368c2367c2366823658)
  (.lf 0))) (.nd (.nd (.lf
  0x62c983a3f40d54d62c783a3e80d54962c583a3d80d54562c383a3d00d54162c183a3c00d53d62bf83a3b80d53962bd83a3a80d53561cfc3a3a00d53161ce03a3940d52d67e983a3840d52967e683a37c0d52567e383a3700d52167e0c3a3600d51d67de03a3580d51967db43a34c0d51567d883a33c0d51167d5c3a3300d50d67d303a3240d50967d043a31c0d50567cd83a3100d50167cac3a3000d4fd67c84)
  (.lf 0)) (.nd (.lf
  0x71c02744427434274242741427404273f4273e4273d4273c0273b4273a427394273842737027364273542734427334273242731027300272f4272e4272d0272c0272b0272a4272942728427270159310028c05144051400513c0513805134051300512c0512805124051200511c0511805114051100510c051080510405100050fc050f8050f4050f0050ec050e8050e4050e0050dc050d8050d4050d027264)
  (.lf 0)))

def shaPos138 : BTree :=
  .nd (.nd (.nd (.lf
  0x1195125c4125c801191125b8125bc0118d125a8125a401189125941259801185125841258c011811257c125780117d1256412568011791255c1255401175125441254c01171125341253c0116d125241252801169125141251c01165125041250c01161124f4124f80115d124e4124ec01159124d8583c401155124cc583a401151124c4583880114d124b45836801149124a858348011451249c5832801141)
  (.lf 0)) (.nd (.lf
  0x39c7439c6439c4839c4039c2c39c1839c1439c0439be839be439bd039bc439bb439ba40009000f08398b8398a8398a03988c3987839868398603984c3983839834398243980c397fc397f4397d8397cc397b8397a8397a4397883977839770397603975439738397283971c39708396fc396f00008800efc3940839404393e8393e4393d4393b8393a8393983938c3937c393743935c3934839338393283931c)
  (.lf 0))) (.nd (.nd (.lf
  0xad79322303222c0ad75322203221c0ad71322103220c0ad6d32200321fc0ad69321f0321ec0ad65321e0321dc0ad61321d0321cc0ad5d321c0321bc0ad59321b0321ac0ad55321a03219c0ad51321903218c0ad4d321803217c0ad49321703216c0ad45321603215c0ad41321503214c0ad3d321403213c0ad39321303212c0ad35321203211c0ad31321103210c0ad2d32100320fc0ad29320f0320ec0ad25)
  (.lf 0)) (.nd (.lf
  0x19d1c19d0c19d0019cf419cec15da1064340e5980e5940e5900e58c0e5880e5840e5800e57c0e5780e5740e5700e56c0e5680e5640e5600e55c0e5580e5540e5500e54c0e5480e5440e5400e53c0e5380e5340e5300e52c0e5280e52419ce019cd019cc019cb019ca019c9019c8019c7019c6019c5019c4019c3019c2019c1019c0019bf019be019bd019bc019bb019ba019b9019b8019b7019b6019b5019b40)
  (.lf 0)))

def shaPos139 : BTree :=
  .nd (.nd (.nd (.lf
  0x6231234dc234e00622d234cc234d006229234bc234c006225234ac234b006221234a02349c0621d2348c23490062192347c23480062152346c234700621123460234580620d2344823450062092343c23440062052342c23430062012341823420061fd2340823410061f9233f823400061f5233e8233f0061f1233d8233e0061ed233c8233d0061e9233bc233c0061e5233a8233b0061e12339c233a0061dd)
  (.lf 0)) (.nd (.lf
  0x24b5824b4824b3824b2c24b1c24b0c004a800b7c246482463824628246182460c245fc245ec245e4245cc245b8245a82459c2458c2457c2456c24558245482453824530245202451024500244f4244dc244cc244c4244ac244a0244902447c004a000b6823fb823fb423fa423f8823f7c23f7023f6423f4823f3823f3423f1823f0c23f0423ef423ee023ec823eb823eb023e9823e8823e7823e7423e5c23e48)
  (.lf 0))) (.nd (.nd (.lf
  0x432300fff943218432200fff543208432100fff1431f8432000ffed431e8431f00ffe9431d8431e00ffe5431c8431d00ffe1431b8431c00ffdd431a8431b00ffd943198431a00ffd564bfc431900ffd164bcc431840ffcd64ba0431780ffc964b744316c0ffc564b48431600ffc164b1c431540ffbd64af0431480ffb964ac44313c0ffb564a98431300ffb164a6c431240ffad64a40431180ffa964a184310c)
  (.lf 0)) (.nd (.lf
  0x3467c34670346683466434658346503464815c19005dc08134081300812c0812808124081200811c0811808114081100810c081080810408100080fc080f8080f4080f0080ec080e8080e4080e0080dc080d8080d4080d0080cc080c8080c4080c03464434634346243461434604345f4345e4345d4345c4345b4345a434594345843457434564345543454434534345243451434504344f4344e4344d4344c4)
  (.lf 0)))

def shaPos140 : BTree :=
  .nd (.nd (.nd (.lf
  0x488e8488d4488c0488ac45cc445cb445ca445c9845c8445c7845c6845c58487e0487d0487e4487c8487b4487a04878c4877848764487504873c48728487144870045c3445c2845c1845c0845bf845be845bd845bc8486344861c486384862048608485f4485e0485cc485b8485a448594485804856c4855845ba445b9445b8445b7445b6445b5445b4845b3848488484784848c484704845c484484843448420)
  (.lf 0)) (.nd (.lf
  0x5ba545ba385ba1c5ba005b9e45b9c85b9ac5b9905b9785b9605b9485b9305b9185b9005b8e85b8d054630132f9132f5132f1132ed132e9132e5132e1132dd132d9132d5132d1132cd132c9132c5132c1132bd132b9132b5132b1132ad132a9132a5132a11329d1329913295132911328d1328913285132811327d546205b8bc5b89c5b87c5b85c5b83c5b81c5b7fc5b7dc5b7bc5b79c5b77c5b75c5b7405b724)
  (.lf 0))) (.nd (.nd (.lf
  0x2e7a02e79c09aad2e7902e78c09aa92e7802e77c09aa52e7702e76c09aa12e7602e75c09a9d2e7502e74c09a992e7402e73c09a952e7302e72c09a912e7202e71c09a8d2e7102e70c09a892e7002e6fc09a852e6e82e6f009a812e6d82e6e009a7d2e6d02e6cc09a792e6c02e6bc09a752e6b02e6ac09a712e6a02e69c09a6d2e6902e68c09a692e6802e67c09a652e6702e66c09a612e6602e65c09a5d2e650)
  (.lf 0)) (.nd (.lf
  0x130a415ced0632c0d6200d61c0d6180d6140d6100d60c0d6080d6040d6000d5fc0d5f80d5f40d5f00d5ec0d5e80d5e40d5e00d5dc0d5d80d5d40d5d00d5cc0d5c80d5c40d5c00d5bc0d5b80d5b40d5b00d5ac1309413088130741306413054130481303413028130141300812ff412fe812fd812fc812fb812fa812f9812f8812f7412f6412f5812f4412f3812f2812f1812f0812ef412ee812ed412ec415ce1)
  (.lf 0)))

def shaPos141 : BTree :=
  .nd (.nd (.nd (.lf
  0x1f97c04f611f9701f96c04f5d1f9601f95c04f591f9501f94c04f551f9401f93c04f511f9301f92c04f4d1f9201f91c04f491f9101f90c04f451f9001f8fc04f411f8f01f8ec04f3d1f8d81f8e004f391f8c81f8d004f351f8b81f8c004f311f8a81f8b004f2d1f8981f8a004f291f8881f88c04f254aa984813c04f214aa7c4812404f1d4aa604810c04f194aa44480f804f154aa28480e404f114aa0c480d0)
  (.lf 0)) (.nd (.lf
  0x587645874c587345871c543d4543e858a5458a3458a14589f4589d4589b4589945897458954585e4585c0585a4585885856c585505853458518584fc584e0584c4584a45848c584745845c584445842c58414583fc583e4583cc543ac543c058704586e4586c4586a45868458664586445862458604582945827058254582385821c58200581e4581c8581ac5819058174581545813c581245810c580f4580dc)
  (.lf 0))) (.nd (.nd (.lf
  0xeaa56925c3eaf80eaa1692303eaec0ea9d692043eae00ea99691d83ead40ea95691ac3eac80ea91691843eabc0ea8d6915c3eab00ea89691343eaa40ea856910c3ea980ea81690e43ea8c0ea7d690bc3ea800ea79690943ea740ea756906c3ea680ea71690443ea5c0ea6d6901c3ea500ea69639b83ea440ea65639983ea380ea61639783ea2c0ea5d639583ea200ea59639383ea140ea55639183ea080ea51)
  (.lf 0)) (.nd (.lf
  0x7984079800797c0797807974079700796c0796807964079600795c0795807954079500794c0794807944079402dd442dd342dd242dd142dd042dcf42dce42dcd42dcc42dcb42dca42dc942dc842dc742dc642dc542dc442dc342dc242dc142dc042dbf42dbe42dbd42dbc42dbb42dba42db942db842db74159710c4fc024dc024cc024c40c4cc0c4c0024b4024ac0249c0247c0246c024640653c0030c058c4)
  (.lf 0)))

def shaPos142 : BTree :=
  .nd (.nd (.nd (.lf
  0x17060026e9170545cff8026e5170485cfd8026e11703c5cfb8026dd170305cf98026d9170245cf78026d5170185cf58026d11700c5cf38026cd16ffc5cf14026c916ff05cef4026c516fe85ced4026c116fdc5ceb4026bd16fd05ce94026b916fc05ce78026b516fb45ce5c026b116fa85ce40026ad16fa05ce24026a916f945ce08026a516f885cdec026a116f7c5cdd00269d16f705cdb40269916f645cd98)
  (.lf 0)) (.nd (.lf
  0x40ffc40ff040fe440fd840fcc40fc040fb440fa840f9c40f9040f8440f7840f6c40f6048e380103040c0c40c0040bf440be840bdc40bd040bc440bb840bac40ba040b9440b8840b7c40b7040b6440b5840b4c40b4040b3440b2840b1c40b1040b0440af840aec40ae040ad440ac840abc40ab048e2c010244075c4075040744407384072c407204071440708406fc406f0406e4406d8406cc406c0406b4406a8)
  (.lf 0))) (.nd (.nd (.lf
  0xc02535cb835cc00c02135ca835cb00c01d35c9835ca00c01935c8835c900c01535c7835c800c01135c6835c700c00d35c5835c600c00935c4835c500c00535c3835c400c00135c2835c300bffd35c1835c200bff935c0835c100bff535bf835c000bff135be835bf00bfed35bd835be00bfe901686016820167e0167a01676016720166e0166a01666016620165e0165a0165601cd20cb1c0bfe501cce0cb10)
  (.lf 0)) (.nd (.lf
  0x158f10bbf00158c0bbd80bbcc0157c0bbb0015740bb9c0156c015540154c015440153c0152c064c40020c049c4049c0049bc049b8049b4049b0049ac049a8049a4049a00499c0499804994049900498c0498804984049800497c0497804974049700496c0496804964049600495c04958049540495020964209542094020934209242091420904208f4208e4208d4208c4208b4208a420890208842087420864)
  (.lf 0)))

def shaPos143 : BTree :=
  .nd (.nd (.nd (.lf
  0x271282712c075092711c27120075052710c271100750127100270fc074fd270ec270f0074f9270d8270e0074f5270c8270cc074f1270bc270c0074ed270ac270b0074e9270a027098074e52708827090074e12707827080074dd270702706c074d92706027058074d52704c27050074d12703c27040074cd270282702c074c92702027018074c52700c27008074c126ff827000074bd26fec26fe8074b926fd8)
  (.lf 0)) (.nd (.lf
  0x254f0254dc254c8254c0254b4254982548c2547825474006b000b9424fb424f9c24f9024f7c24f6c24f5824f5024f3824f2c24f1c24f0c24efc24ee824ee424ec824ec024eb024e9824e8c24e8424e7424e5824e4c24e3824e2c24e1824e0c24dfc24df424ddc006a800b84249182490c24904248f4248d8248d0248bc248a824898248882487824874248582484824844248282481824814247f8247e8247e4)
  (.lf 0))) (.nd (.nd (.lf
  0x10b7910b7510b7110b6d10b6910b6510b6110b5d10b5910b5510b5110b4d10b4910b4510b4110b3d15b4d47a9c4b5ec4b5d04b5b44b5984b57c4b5604b5484b5304b5184b5004b4e84b4d04b4b84b4a04b4884b4704b4584b4404b4284b4104b3f84b3e04b3c84b3b04b3984b3804b3684b3504b33c4b32847a8c10b3910b3510b3110b2d10b2910b2510b2110b1d10b1910b1510b1110b0d10b0910b0510b01)
  (.lf 0)) (.nd (.lf
  0x3af543af443af343af243af143af043aef43aee43aed43aec43aeb43aea43ae943ae843ae743ae64147f954bd06661c665ec665bc6659066564665386650c664e0664b4664886645c664346640c663e4663bc663946636c663446631c662f4662cc62e5462e3462e1462df462dd462db462d9461d6861d4c3ae543ae443ae3c3ae303ae243ae183ae0c3ae003adf03ade83addc3add03adc43adb83adac3ada0)
  (.lf 0)))

def shaPos144 : BTree :=
  .nd (.nd (.nd (.lf
  0x8b41309813080130781306813058130441303813020130181300412ff812fe012fd012fc412fb012fa412f8c12f8012f7812f6812f5412f4812f3412f2012f1412efc12ef812edc12ed812ec806328008ac12d5012d4012d3012d2012d1012d0012cf012ce012cd012cc012cb012c9812c8412c7412c6412c5412c4412c3412c2412c1412c0412bf412be412bd412bc412bc012ba812b9412b8412b7406320)
  (.lf
  0x6beec6bec46be9c6be746be4c6be246bdfc6bdd46bdac6bd846bd5c64510644f0644d0644b064490644706445062314622f83fc9c3fc903fc843fc783fc6c3fc603fc543fc483fc3c3fc303fc243fc183fc0c3fc003fbf43fbe83fbdc3fbd03fbc43fbb83fbac3fba03fb943fb883fb7c3fb703fb643fb583fb4c3fb4015fc90013403d1c03d1803d1403d1003d0c03d0803d0403d0003cfc03cf803cf403cf0))
  (.nd (.lf
  0x461e0461d0461c8461b0461ac461944618846174461604615046144461384612c4612046114461084610047f9452bdc52bc052ba452b8852b6c52b5052b3852b2052b0852af052ad852ac052aa852a9052a7852a6052a4852a3052a1852a00529e8529d0529b8529a0529885297052958529405292c5291847f841227912275122711226d1226912265122611225d1225912255122511224d122491224512241)
  (.lf 0))) (.nd (.nd (.lf
  0x29ce029cd80830529cd029ccc0830129cc029cbc082fd29cac29cb0082f929c9829c9c082f54e94068c68082f14e92868c38082ed4e91068c0c082e94e8f868be0082e54e8e068bb4082e14e8c868b88082dd4e8b468b5c082d94e8a068b30082d54e88c68b04082d14e87868ad8082cd4e86468aac082c94e85068a84082c54e83c68a5c082c14e82868a34082bd4e81468a0c082b94e800689e4082b54e7ec)
  (.lf 0)) (.nd (.lf
  0x517205170c516f8516e4516d0516bc516a8516985168447ea847e985167051658516405162851610515f8515e4515d0515bc515a851594515805156c5155851544515305151c51508514f4514e0514cc514b8514a4514905147c514685145451440514305141c47e8847e7851408513f0513d8513c0513a8513905137c5136851354513405132c5131851304512f0512dc512c8512b4512a05128c5127851264)
  (.lf 0)))

def shaPos145 : BTree :=
  .nd (.nd (.nd (.lf
  0x1a86c036e91a8541a85c036e51a8441a84c036e11a8341a83c036dd1a8241a82c036d91a81860844036d51a80c60824036d11a80460804036cd1a7f4607e4036c91a7e8607c4036c51a7e0607a4036c11a7d060784036bd1a7c860764036b91a7b860744036b51a7ac60724036b11a7a060704036ad1a794606e4036a91a788606c8036a51a780606ac036a11a774606900369d1a76460674036991a75c60658)
  (.lf 0)) (.nd (.lf
  0x531445312453104530e4530c4530a4530845306453044530285300c52ff052fd452fb852f9c649cc649a46497c52f8864c0864bd864bac64b8064b5464b2864afc64ad064aa464a7864a4c64a20649f8649d0649a864980649586493064908648e0648b862918628f8628d8628b862898628786285864650646286460052f7464890648606483064804647d8647ac647806475464728646fc646d0646a46467c)
  (.lf 0))) (.nd (.nd (.lf
  0x392180cff961ba43920c0cff561b80392000cff161b5c391f40cfed61b38391e80cfe961b14391d80cfe561af0391d00cfe161acc391c00cfdd61aa8391b80cfd961a88391a80cfd561a68391a00cfd161a48391940cfcd61a28391880cfc961a08391780cfc5619e8391700cfc1619c8391600cfbd619a8391580cfb961988391480cfb561968391400cfb154b5c391340cfad54b44391280cfa954b2c3911c)
  (.lf 0)) (.nd (.lf
  0x259d4259c4259b0259a425990259802597425964259542594425934259202591425904258f4258e4258d4258c4258b4258a425894258842587425864258542584425834159210026c04f6404f6004f5c04f5804f5404f5004f4c04f4804f4404f4004f3c04f3804f3404f3004f2c04f2804f2404f2004f1c04f1804f1404f1004f0c04f0804f0404f0004efc04ef804ef404ef0258242581425804257f4257e4)
  (.lf 0)))

def shaPos146 : BTree :=
  .nd (.nd (.nd (.lf
  0x113385704400c3d113305702c00c39113205701400c35113145700000c31113041130800c2d112f4112f800c29112e4112e800c25112d4112dc00c21112c4112cc00c1d112b4112bc00c19112a4112a800c15112941129c00c11112841128800c0d112741127800c09112641126800c05112541125c00c01112441124c00bfd112341123c00bf9112241122800bf5112141121c00bf1112041120800bed111f4)
  (.lf 0)) (.nd (.lf
  0x142bd44e9844e94142b944e8844e84142b544e7844e74142b144e6844e64142ad44e5844e54142a944e4844e44142a544e3844e34142a144e2844e241429d44e1844e141429944e0844e041429544df844df41429144de844de41428d44dd844dd41428944dc844dc41428544db844db41428144da844da41427d44d9844d941427944d8844d841427544d7844d741427144d6844d641426d44d5844d5414269)
  (.lf 0))) (.nd (.nd (.lf
  0x312d0312cc0a8a5312c0312bc0a8a1513f4533000a89d513dc532dc0a899513c4532b80a895513ac532940a89151394532700a88d513805324c0a8895136c532280a88551358532040a88151344531e00a87d51330531bc0a8795131c531980a87551308531780a871512f4531580a86d512e0531380a869512cc531180a865512b8530f80a861512a4530d80a85d51290530b80a8595127c530980a85551268)
  (.lf 0)) (.nd (.lf
  0xe1740e1700e16c0e1680e164182a018290182801827018260182501824018230182201821018200181f0181e0181d0181c0181b0181a018190181801817018160181501814018130181201811018100180f0180e0180d015d69548085e0845e0645e0445e0245e0045dfe45dfc45dfa45df845df645df445df245df085deec5ded05deb45de985de7c5de605de445de285de0c5ddf45dddc5ddc45ddac5dd94)
  (.lf 0)))

def shaPos147 : BTree :=
  .nd (.nd (.nd (.lf
  0x4bc2845e5405d714bc1445e4405d6d4bbf845e3405d694bbe045e2405d654bbcc45e1405d614bbbc45e0405d5d2257c2258005d59225702256805d55225602255c05d51225482255005d4d225402253c05d49225282253005d452251c2251805d412250c2250805d3d22500224f805d39224f0224ec05d35224e0224dc05d31224cc224c805d2d224bc224b805d29224b0224a805d252249c224a005d212248c)
  (.lf 0)) (.nd (.lf
  0xc6b0028680c6a40c6980c68c028600c680028580c6740c6680c65c065500138a3167c005a00002c028500284802840028380283002828028200b3fc0b3f0028180b3e40b3d80b3cc0b3c0028100b3b4028080b3a80b39c02800027f8027f00b3900b3840b3780b36c0b3600b3540b888013420059800028027e8027e00b3480b33c027d80b3300b3240b3180b30c027d00b3000b2f40b2e8027c8027c0027b8)
  (.lf 0))) (.nd (.nd (.lf
  0xfaa542088420900faa142078420800fa9d42068420700fa9942058420600fa9542048420500fa9142038420400fa8d42028420300fa8942018420200fa8542008420100fa8141ff8420000fa7d41fe841ff00fa7941fd841fe00fa7541fc841fd00fa7141fb841fc00fa6d41fa841fb00fa6941f9841fa00fa6541f8841f900fa6141f7841f800fa5d41f6841f700fa5941f5841f600fa5541f4841f500fa51)
  (.lf 0)) (.nd (.lf
  0x32cac32ca432c9832c9032c8832c8432c7832c7032c6832c6432c5832c5032c4832c4432c3c32c3432c2c32c2432c1832c1032c0815e39005bc07f5407f5007f4c07f4807f4407f4007f3c07f3807f3407f3007f2c07f2807f2407f2007f1c07f1807f1407f1007f0c07f0807f0407f0007efc07ef807ef407ef007eec07ee807ee407ee032c0432bf432be432bd432bc432bb432ba432b9432b8432b7432b64)
  (.lf 0)))

def shaPos148 : BTree :=
  .nd (.nd (.nd (.lf
  0x6934469314692e8692bc6929069264692386920c691e0691b4691886916068d4468d1c68cf468ccc68ca468ff468fc468f9468f6868f3c68f1068ee468eb868e8c68e6068e3468ff868fc868f9868f6c68f4068f1468ee868ebc68e9068e6468e3868e0c68de4689c8689a068978689506892868c7868c4868c1868bec68bc068b9468b6868b3c68b1068ae468ab868c7c68c4c68c1c68bf068bc468b9868b6c)
  (.lf 0)) (.nd (.lf
  0x595e8595cc595b059594595785955c59540595245950c594f4594dc594c4594ac594945947c594645447c5448c5979859778597585973859718596f8596d8596b8596985967859658596385961c59600595e4595c8595ac5959059574595585953c5952059508594f0594d8594c0594a85949059478594605447812d7912d7512d7112d6d12d6912d6512d6112d5d12d5912d5512d5112d4d12d4912d4512d41)
  (.lf 0))) (.nd (.nd (.lf
  0x95e92d8202d81c095e52d8102d80c095e12d8002d7fc095dd2d7f02d7ec095d92d7e02d7dc095d52d7d02d7cc095d12d7c02d7bc095cd2d7b02d7ac095c94fea06abbc095c54fe886ab8c095c14fe706ab60095bd4fe586ab34095b94fe406ab08095b54fe286aadc095b14fe146aab0095ad4fe006aa84095a94fdec6aa58095a54fdd86aa2c095a14fdc46aa000959d4fdb06a9d8095994fd9c6a9b009595)
  (.lf 0)) (.nd (.lf
  0xd1ec116541164811638116281161811608115f4115e8115d8115c8115b4115a811598115841157811568115541154811538115281151811508114f8114e8114d8114c4114b8114a8114981148416001542e05733457314572f4572d4572b45729457274572545723457214571f4571d4571b85719c5718057164571485712c57110570f4570d8570bc570a45708c570745706057048570305701856ffc11478)
  (.lf 0)))

def shaPos149 : BTree :=
  .nd (.nd (.nd (.lf
  0x4a37c4540804aad4a364453fc04aa94a34c453f004aa54a334453e404aa14a31c453d804a9d4a304453cc04a994a2ec453c004a954a2d41ea9404a914a2b81ea8404a8d4a2a01ea7c04a894a28c1ea6c04a854a2741ea6404a814a2581ea5404a7d4a2441ea4c04a794a22c1ea4004a754a2181ea3404a711ea281ea2004a6d1ea101ea1804a691ea041ea0804a651e9f81e9f404a611e9e01e9e804a5d1e9d0)
  (.lf 0)) (.nd (.lf
  0x5f9145f8f85f8dc5f8c05f8a45f8885f8705f8585f8405f8285f8105f7f85f7e05f7c8549305491c5f7b05f7905f7705f7505f7305f7105f6f05f6d05f6b05f6905f6705f6505f6345f6185f5fc5f5e05f5c45f5a85f58c5f5705f5545f5385f5205f5085f4f05f4d85f4c05f4a85f4905f47854908548f45f4605f4405f4205f4005f3e05f3c05f3a05f3805f3605f3405f3205f3005f2e45f2c85f2ac5f290)
  (.lf 0))) (.nd (.nd (.lf
  0x3d9503d9480e54d3d9403d9380e5493d9303d9280e5453d9203d9180e5413d9103d9080e53d3d9003d8f80e5393d8f03d8e80e5353d8e03d8d80e5313d8d03d8c80e52d3d8c03d8b80e5293d8b03d8a80e5253d8a03d8980e5213d8903d8880e51d6857c3d8800e5196854c3d8740e5156851c3d8680e511684f03d85c0e50d684c43d8500e509684983d8440e5056846c3d8380e501684403d82c0e4fd68414)
  (.lf 0)) (.nd (.lf
  0x77d4077d0077cc077c8077c4077c0077bc077b8077b4077b0077ac077a8077a4077a00779c0779807794077900778c0778807784077800777c0777807774077700776c0776807764077602c3042c2f42c2e42c2d42c2c42c2b42c2a42c2942c2842c2742c2642c2542c2442c2342c2242c2142c2042c1f42c1e42c1d42c1c42c1b42c1a42c1942c1842c1742c1642c1542c1442c134159610231c023140230c)
  (.lf 0)))

def shaPos150 : BTree :=
  .nd (.nd (.nd (.lf
  0x219515dd015dd40219115dc015dc40218d15db415db00218915da015da40218515d9015d940218115d7c15d800217d15d7415d6c0217915d6015d640217515d4c15d540217115d3c15d400216d15d2c15d340216915d1c15d200216515d0c15d140216115cfc15d000215d15cec15cf40215915cdc15ce40215515ccc15cd40215115cbc15cc00214d15cac15cb00214915ca45bc180214515c985bbf802141)
  (.lf 0)) (.nd (.lf
  0x379fc379f8379e4379d8379d0379c4379b4379ac3799c37990379883798037974379680cd9800eb03761037604375f8375e8375dc375d0375c8375b8375ac375a037598375883757c375703756c375583755437548375343752c375203751837508374fc374f4374e0374d4374c8374bc374b40cd9400ea43716437150371483713837130371203711437108370fc370f0370e8370d8370d0370c0370b4370a8)
  (.lf 0))) (.nd (.nd (.lf
  0xbb9934e8034e7c0bb9534e7034e6c0bb9134e6034e5c0bb8d34e5034e4c0bb8934e4034e3c0bb8534e3034e2c0bb8134e2034e1c0bb7d34e1034e0c0bb7934e0034dfc0bb7534df034dec0bb7134de034ddc0bb6d34dd034dcc0bb6952bcc46d380bb6552bb046d200bb6152b9446d080bb5d52b7846cf00bb5952b5c46cd80bb5552b4446cc00bb5152b2c46ca80bb4d52b1446c900bb4952afc46c780bb45)
  (.lf 0)) (.nd (.lf
  0x47a8047a4047a00479c0479804794047900478c0478804784047800477c0477804774047701ef001eef01eee01eed01eebc1eeb01eea01ee8c1ee801ee701ee5c1ee501ee401ee301ee201ee101ee001edf01ede01edd01edc01edb01eda01ed901ed801ed701ed601ed501ed401ed3014895006340865c0865808654086500864c0864808644086400863c0863808634086300862c0862808624086200861c)
  (.lf 0)))

def shaPos151 : BTree :=
  .nd (.nd (.nd (.lf
  0x70494d39866c84070454d38066c58070414d36866c2c0703d4d35466c00070394d34066bd4070354d32c66ba8070314d31866b7c0702d4d30466b50070294d2f066b28070254d2dc66b00070214d2c866ad80701d4d2b466ab0070194d2a066a88070154d28c66a60070114d27866a380700d4d26466a10070094d250669e8070054d23c669c0070014d2286301006ffd4d21462ff006ff94d20062fd006ff5)
  (.lf 0)) (.nd (.lf
  0x325b8325b4325a8325a432598325943258c325803257847ebc00dc431fd431fc831fc431fb831fb431fa831fa031f9c31f9431f8c31f8031f7831f7031f6c31f6431f5c31f5031f4c31f4031f3831f3031f2831f2431f1831f1031f0c31f0031efc31ef031eec47e9c00db4319403193c3193031928319243191c319143190c31904318fc318f4318ec318e0318d8318d0318c8318c4318b8318b4318a8318a4)
  (.lf 0))) (.nd (.nd (.lf
  0x51d5451d3c51d2451d1051cfc51ce851cd451cc051cac51c9851c8451c7051c5c51c4851c3451c2051c0c519905197c5196851954519405192c5191851b3051b1851b0051ae851ad051b3451b1c51b0451aec51ad451abc51aa851a9451a8051a6c51a5851a4451a3051a1c51a08519f4519e0519cc519b8519a4517285171451700516ec516d8516c4516b0518c8518b0518985188051868518cc518b45189c)
  (.lf 0)) (.nd (.lf
  0x671bc671946716c671446711c670f4670cc631e0631c0631a06318063160631406312061e5061e343957c3956c39564395543954c3954039534395283951c3951039504394f4394ec394e0394d4394c8394bc394b0394a4394983948c3948039474394683945c3945039444394383942c3942015ec500084032cc032c8032c4032c0032bc032b8032b4032b0032ac032a8032a4032a00329c032980329403290)
  (.lf 0)))

def shaPos152 : BTree :=
  .nd (.nd (.nd (.lf
  0x940169c0169b8169ac1699c1699016984169781696c169641695c169481693c1693016928169181691416904168f4168e8168dc168d4168c4168bc168b0168a01689416888168801687016864546dc0093816678166741666016658166481663c1663016624166201660c16608165fc165e8165dc165d0165c4165b8165ac165a016594165881657c1657016564165581654c1654016534165281651c546b4)
  (.lf
  0x46a4846a3046a1846a00469ec469d8469c4469b04699c4698846974469604694c46938469284691846908468f8468e8468d84581c458104302c43020430144300842ffc42ff042fe442fd842fcc42fc042fb442fa842f9c42f9042f8442f7842f6c42f6042f5442f4842f3c42f3042f2442f1842f0c42f0042ef442ee842edc42ed015ad50018c04244042400423c0423804234042300422c042280422404220))
  (.nd (.lf
  0x6253862514624f0624cc624a862484624606243c6241c623fc623dc623b86239c6237c6235c6233c54df4122f9122f5122f1122ed122e9122e5122e1122dd122d9122d5122d1122cd122c9122c5122c1122bd122b9122b5122b1122ad122a9122a5122a11229d1229912295122911228d1228912285122811227d616cc616ac6168c6193461910618ec618c8618a4618806185c6183861814617f0617cc61938)
  (.lf 0))) (.nd (.nd (.lf
  0x8c690223c152450c24415241019de0c24008c650222c1523d0c23815239019da0c23408c61019d60c22808c5d019d20c21c08c59019ce0c21008c55019ca0c20408c510651c15235158912ba902ba8c08c4d2ba802ba7c08c492ba702ba6c08c452ba602ba5c08c412ba502ba4c08c3d2ba402ba3c08c392ba302ba2c08c352ba202ba1c08c312ba102ba0c08c2d2ba002b9fc08c292b9f02b9ec08c252b9e0)
  (.lf 0)) (.nd (.lf
  0x511c0511ac47e6047e7051400513e8513d0513b8513a0513885110c510f8510e4510d0510bc510a851094510805106c5105851044510305101c5100850ff450fe050fcc50fb850fa450f9050f7c50f6850f5850f4847e4447e5051198511805116851150511385112050eac50e9850e8450e7050e5c50e4850e3450e2050e0c50df850de450dd050dbc50da850d9450d8050d6c50d5850d4450d3050d1c50d08)
  (.lf 0)))

def shaPos153 : BTree :=
  .nd (.nd (.nd (.lf
  0x1cd041cd00041591ccf41ccf0041551cce41cce0041511ccd01ccd40414d1ccbc1ccc0041491ccb41ccb0041451cc9c1cca0041411cc8c1cc940413d1cc7c1cc84041391cc741cc6c041351cc641cc5c041311cc4c1cc540412d1cc3c1cc40041291cc301cc34041251cc201cc1c041211cc0c1cc100411d1cc001cc04041191cbf01cbf4041151cbe01cbdc041111cbd01cbcc0410d1cbc41cbbc041091cbac)
  (.lf 0)) (.nd (.lf
  0x31568315583154831538315283151831508314f8314e8314d8314c8314b8314a8314980035000d9830fd830fc830fb830fa830f9830f8830f7830f6830f5830f4830f3830f2830f1830f0830ef830ee830ed830ec830eb830ea830e9830e8c30e7c30e6c30e5c30e4c30e3c30e2c30e1c30e0c0034800d883094830938309283091830908308f8308e8308d8308c8308b8308a83089830888308783086830858)
  (.lf 0))) (.nd (.nd (.lf
  0xdaa568ac83b5cc0daa168a9c3b5c00da9d68a743b5b40da9968a4c3b5a80da9568a243b59c0da91689fc3b5940da8d689d43b5840da89689ac3b57c0da85689843b56c0da816895c3b5640da7d689343b5540da79638043b54c0da75637e43b5400da71637c43b5340da6d637a43b5240da69637843b51c0da65637643b5100da61637443b5040da5d61fdc3b4f80da5961fc03b4e80da553b4dc3b4e00da51)
  (.lf 0)) (.nd (.lf
  0x73e8073e4073e0073dc073d8073d4073d0073cc073c8073c4073c0073bc073b8073b4073b0073ac073a8073a4073a028e8428e7428e6428e5428e4028e3428e2028e1428e0428df428de428dd428dc428db428da428d9428d8428d7428d6028d5428d4428d3428d2428d1428d0428cf028ce028cd428cc428cb415941002ac05324053200531c0531805314053100530c053080530405300052fc052f8052f4)
  (.lf 0)))

def shaPos154 : BTree :=
  .nd (.nd (.nd (.lf
  0x59744016e91385c59724016e51385059704016e113844596e4016dd13838596c4016d91382c596a8016d51382059688016d11381459668016cd1380859644016c9137fc59628016c5137f05960c016c1137e4595f4016bd137d8595d8016b9137cc595bc016b5137c0595a0016b1137b459584016ad137a859564016a91379c59548016a5137905952c016a113784595140169d1377859500016991376c594e4)
  (.lf 0)) (.nd (.lf
  0x4326c4325c4324c4323c4322c4321c4320c431fc431ec431dc431cc431bc431ac4319c001900108842ebc42eac42e9c42e8c42e7c42e6c42e5c42e4c42e3c42e2c42e1c42e0c42dfc42dec42ddc42dcc42dbc42dac42d9c42d8c42d7c42d6c42d5c42d4c42d3c42d2c42d1c42d0c42cfc42cec001880107c42a0c429fc429ec429dc429cc429bc429ac4299c4298c4297c4296c4295c4294c4293c4292c4291c)
  (.lf 0))) (.nd (.nd (.lf
  0xb5bc0b2110b5b415691006b60b5b00b20d006b20b5a40b20902a941568d02a8c1568902a841568502a7c1568102a741567d02a6c1567902a64156750b59c15671006ae0b5980b205006aa0b58c0b201006a60b5800b1fd006a20b5740b1f90b56c1566d0069e0b5680b1f50b560156690069a0b55c0b1f10b55415665006960b5500b1ed0b54815661006920b5440b1e902a341565d0b8b4156590b8b015655)
  (.lf 0)) (.nd (.lf
  0x6164c6163061614615f8615dc615c0615a41b8841b87c1b8701b8641b8541b8481b8401b8301b8281b8181b8101b8001b7f81b7ec1b7dc1b7d41b7c81b7b81b7ac1b7a01b7941b78c1b77c1b7701b7681b7581b7501b7441b7341b72c1609d064740e9580e9540e9500e94c0e9480e9440e9400e93c0e9380e9340e9300e92c0e9280e9240e9200e91c0e9180e9140e9100e90c0e9080e9040e9000e8fc0e8f8)
  (.lf 0)))

def shaPos155 : BTree :=
  .nd (.nd (.nd (.lf
  0x189e0be80066f5019a414de90199c14de50199414de10198c14ddd0198414dd90be7814dd50189a0be74066f1018960be64066ed064ec14dd115879244682446c066e92446024458066e52444824450066e1244402443c066dd2442c24428066d92441c24420066d5244102440c066d124400243fc066cd243ec243e8066c9243d8243dc066c5243d0243c8066c1243b8243c0066bd243b0243ac066b92439c)
  (.lf 0)) (.nd (.lf
  0x323cc323bc323ac3239c00dc031edc31ecc31ebc31eac31e9c31e8c31e7c31e6c31e5c31e4c31e3c31e2c31e1c31e0c31dfc31dec31ddc31dcc31dbc31dac31d9c31d8c31d7c31d6c31d5c31d4c31d3c31d2c31d1c31d0c005a800db03184c3183c3182c3181c3180c317fc317ec317dc317cc317bc317ac3179c3178c3177c3176c3175c3174c3173c3172c3171c3170c316fc316ec316dc316cc316bc316ac)
  (.lf 0))) (.nd (.nd (.lf
  0x53c78443e41054d53c54443d81054953c34443cc1054553c14443c01054153bf4443b41053d53bd4443a81053953bb44439c1053553b94443901053153b74443841052d53b54443781052953b344436c1052553b14443601052153af8443541051d53adc443481051953ac04433c1051553aa4443301051153a88443241050d53a6c443181050953a504430c105054912044300105014910c442f4104fd47470)
  (.lf 0)) (.nd (.lf
  0x360e4360d4360c4360b4360a43609414979007fc0a1140a1100a10c0a1080a1040a1000a0fc0a0f80a0f40a0f00a0ec0a0e80a0e40a0e00a0dc0a0d80a0d40a0d00a0cc0a0c80a0c40a0c00a0bc0a0b80a0b40a0b00a0ac0a0a80a0a40a0a036084360743606436054360443603436024360143600435ff435fe435fd435fc435fb435fa435f9435f8435f7435f6435f5435f4435f3435f2435f1435f0435ef4)
  (.lf 0)))

def shaPos156 : BTree :=
  .nd (.nd (.nd (.lf
  0x195456804758400191456744756c0018d4566847554001894565c4753c00185456504752400181456444750c0017d45638474f00017945628474dc0017545620474c00017145618474a80016d4561047490001694607c459f0001654605c459e40016146054459d80015d46040459cc0015946024459c00015546018459b40015146008459a80014d45ff84599c0014945fdc459900014545fd04598400141)
  (.lf 0)) (.nd (.lf
  0x1383d1383913835138311382d1382913825138211381d1381913815138111380d138091380513801137fd547d85dd2c5dd0c5dcec5dccc5dcac5dc8c5dc6c5dc4c5dc2c5dc0c5dbec5dbcc5dbb05db945db785db5c5db405db245db085daec5dad05dab45da9c5da845da6c5da545da3c5da245da0c5d9f4547c4547d45dd285dd085dce85dcc85dca85dc885dc685dc485dc285dc085dbe85dbc85dbac5db90)
  (.lf 0))) (.nd (.nd (.lf
  0x5b20b2a409f45005ae0b29809f410b29015481005aa0b28c09f3d005a60b28009f39005a20b27409f350059e0b26809f310059a0b25c09f2d0b2541547d005960b25009f29005920b24409f250058e0b23809f210058a0b22c09f1d005860b22009f1902684154790b21815475005820b21409f1502674154710266c1546d0b20c154690057e0b20809f110057a0b1fc09f0d005760b1f009f09005720b1e4)
  (.lf 0)) (.nd (.lf
  0x5a8805a8685a85014c4014c3414c2814c1c14c1014c0414bf814bec14be014bd414bc414bbc14bb014ba414b9814b8c14b8014b7014b6814b5c14b5014b4414b3814b2c14b2014b1414b0814afc14af014ae4160350636c0d9e00d9dc0d9d80d9d40d9d00d9cc0d9c80d9c40d9c00d9bc0d9b80d9b40d9b00d9ac0d9a80d9a40d9a00d99c0d9980d9940d9900d98c0d9880d9840d9800d97c0d9780d9740d970)
  (.lf 0)))

def shaPos157 : BTree :=
  .nd (.nd (.nd (.lf
  0x208480541120840208380540d2083020828054092082020818054052080c2080805401207f8207fc053fd207e8207ec053f9207d8207dc053f5207c8207cc053f1207b8207bc053ed207a8207ac053e9207982079c053e5207882078c053e1207802077c053dd2077020768053d9207582075c053d5207482074c053d12073c20740053cd207302072c053c9207182071c053c52070c20710053c1206fc206f8)
  (.lf 0)) (.nd (.lf
  0x5f1645f14c5f1345f11c548d4548e85f4545f4345f4145f3f45f3d45f3b45f3945f3745f3545efe45efc05efa45ef885ef6c5ef505ef345ef185eefc5eee05eec45eea45ee8c5ee745ee5c5ee445ee2c5ee145edfc5ede45edcc548ac548c05f1045f0e45f0c45f0a45f0845f0645f0445f0245f0045ec945ec745ec545ec385ec1c5ec005ebe45ebc85ebac5eb905eb745eb585eb3c5eb245eb0c5eaf45eadc)
  (.lf 0))) (.nd (.nd (.lf
  0x3fce00eff963cb83fcd40eff563c983fcc80eff163c783fcbc0efed621243fcb00efe9621083fca40efe56c0ac3fc940efe16c07c3fc880efdd6c0503fc7c0efd96c0243fc700efd56bff83fc640efd16bfcc3fc580efcd6bfa03fc4c0efc96bf743fc400efc56bf483fc340efc16bf1c3fc280efbd6bef03fc1c0efb96bec83fc100efb56bea03fc040efb16be783fbf80efad6be503fbec0efa96be283fbe0)
  (.lf 0)) (.nd (.lf
  0x2f8142f80c2f8042f7fc2f7f42f7ec2f7e42f7dc2f7d42f7cc2f7c42f7bc2f7b42f7ac2f7a42f79c2f7942f78c15fb90057c07b9407b9007b8c07b8807b8407b8007b7c07b7807b7407b7007b6c07b6807b6407b6007b5c07b5807b5407b5007b4c07b4807b4407b4007b3c07b3807b3407b3007b2c07b2807b2407b202f7842f7742f7642f7542f7442f7342f7242f7142f7042f6f42f6e42f6d42f6c42f6b4)
  (.lf 0)))

def shaPos158 : BTree :=
  .nd (.nd (.nd (.lf
  0x183285e1b402c3d183205e19802c39183105e17c02c35183085e16002c31182f85e14802c2d182f05e13002c29182e05e11802c25182d85e10002c21182c85e0e802c1d182c05e0d002c19182b45e0b802c15182a85e0a002c111829c1829802c0d1828c1828802c091827c1827802c051826c1826802c011825c1825802bfd1824c1824802bf91823c1823802bf51822c1822802bf11821c1821802bed1820c)
  (.lf 0)) (.nd (.lf
  0x66508664dc664b066484664586643066408663e0663b866390663686634066318662f0662c86608866060660386601065fe865fc065f9865f7065f4862d7054bb86629c6626c6623c66210661e4661b86618c661606613466108660dc660b46608c660646603c6601465fec65fc465f9c65f7465f4c65d0c65ce465cbc65c9465c6c65c4465c1c65bf465bcc62c9054ba465f2065ef065ec065e9465e6865e3c)
  (.lf 0))) (.nd (.nd (.lf
  0x62a6436ec80c54d62a4436ec00c54962a2436eb00c54561c9436ea80c54161c7836e980c53d36e8c36e880c53936e7836e7c0c53536e6c36e680c53136e5836e5c0c52d36e4836e4c0c52936e3c36e380c52536e3036e2c0c52136e1836e200c51d36e0c36e100c51936df836e000c51536df036de80c51136ddc36dd80c50d36dcc36dc80c50936dc036db80c50536db036da80c50136d9c36d980c4fd36d90)
  (.lf 0)) (.nd (.lf
  0x223c0223b4159010175c0bd340bd280bd1c0174c0bd04017340bce80bce00172c0bcc8017240bcb00171c0022c04ba404ba004b9c04b9804b9404b9004b8c04b8804b8404b8004b7c04b7804b7404b7004b6c04b6804b6404b6004b5c04b5804b5404b5004b4c04b4804b4404b4004b3c04b3804b3404b30223a022394223842237422364223542234022334223242231022300222f4222e4222d0222c0222b4)
  (.lf 0)))

def shaPos159 : BTree :=
  .nd (.nd (.nd (.lf
  0x33e0ab48079a90033a0ab3c079a501e5c1504d0ab3015049003360ab2c079a1003320ab200799d0032e0ab140799901e4c1504501e441504101e3c1503d01e341503901e2c1503501e24150310ab101502d0032a0ab0807995003260aafc079910aaf415029003220aaf00798d01e0c1502501e04150210aaec1501d0031e0aae40798901df4150190b7f4150150b7ec1604527f7827f7c0798527f7027f68)
  (.lf 0)) (.nd (.lf
  0x326e8326d8326c8326b8326a832698326883267832668007b000dc8321a832198321883217832168321583214832138321283211832108320f8320e8320d8320c8320b8320a83209832088320783206832058320483203832028320183200831ff831fe831fd8007a800db831b1831b0831af831ae831ad831ac831ab831aa831a9831a8831a7831a6831a5831a4831a3831a2831a1831a08319f8319e8319d8)
  (.lf 0))) (.nd (.nd (.lf
  0x1133911335113311132d1132911325113211131d1131911315113111130d113091130511301112fd15b8d47c3c4dd5c4dd444dd2c4dd144dcfc4dce44dcd04dcbc4dca84dc944dc804dc6c4dc584dc444dc304dc1c4dc084dbf44dbe04dbcc4dbb84dba44db904db7c4db684db544db404db2c4db1c4db0c47c30112f9112f5112f1112ed112e9112e5112e1112dd112d9112d5112d1112cd112c9112c5112c1)
  (.lf 0)) (.nd (.lf
  0x698606983869810697e8697c06979869770697486972063b8063b6063b4063b2063b0063ae063ac0620b86209c3c90c3c9003c8f43c8e83c8dc3c8d03c8c43c8b83c8ac3c8a03c8943c8883c87c3c8703c8643c8583c84c3c8403c8343c8283c81c3c8103c8043c7f83c7ec3c7e03c7d43c7c83c7bc3c7b015f49000dc037f4037f0037ec037e8037e4037e0037dc037d8037d4037d0037cc037c8037c4037c0)
  (.lf 0)))

def shaPos160 : BTree :=
  .nd (.nd (.nd (.lf 0x0) (.lf
  0x639f4639d4620786205c3eff43efe83efdc3efd03efc43efb83efac3efa03ef943ef883ef7c3ef703ef643ef583ef4c3ef403ef343ef283ef1c3ef103ef043eef83eeec3eee03eed43eec83eebc3eeb03eea43ee9815f3954da46b6546b6246b5f46b5c86b59c6b5706b5446b5186b4ec6b4c06b4946b4686b4406b4186b3f06b3c86b3a06b3786b3506b3286b3006428064260642406422064200641e0641c0))
  (.nd (.lf
  0x11ed911ed511ed111ecd11ec911ec511ec111ebd11eb911eb511eb111ead11ea911ea511ea111e9d15bed47e945166c516545163c516245160c515f4515e0515cc515b8515a4515905157c5156851554515405152c5151851504514f0514dc514c8514b4514a05148c5147851464514505143c5142c5141847e8411e9911e9511e9111e8d11e8911e8511e8111e7d11e7911e7511e7111e6d11e6911e6511e61)
  (.lf 0))) (.nd (.nd (.lf
  0x4e5b468688080ad4e5a068660080a94e58c68638080a54e57868610080a14e564685e80809d4e550685c0080994e53c68598080954e5286370c080914e514636ec0808d4e500636cc080894e4ec636ac080854e4d86368c080814e4c46366c0807d4e4b06364c080794e4a061f90080754e49061f7408071295082950c0806d294f82950008069294e8294ec08065294d8294e008061294c8294cc0805d294b8)
  (.lf 0)) (.nd (.lf
  0x4f1044f0f04f0dc4f0c84f0b44f0a04f08c4f07c4f06c47d0c47d004f05c4f0444f02c4f0144effc4efe44efd04efbc4efa84ef944ef804ef6c4ef584ef444ef304ef1c4ef084eef44eee04eecc4eeb84eea44ee904ee7c4ee684ee544ee404ee2c4ee1c4ee0c47cf447ce84edfc4ede44edcc4edb44ed9c4ed844ed704ed5c4ed484ed344ed204ed0c4ecf84ece44ecd04ecbc4eca84ec944ec804ec6c4ec58)
  (.lf 0)))

def shaPos161 : BTree :=
  .nd (.nd (.nd (.lf
  0x19f2419f200343d19f1419f100343919f0419f000343519ef419ef00343119ee419ee00342d19ed419ed00342919ec419ec00342519eb419eb00342119ea419ea00341d19e9419e900341919e8419e800341519e7419e700341119e6419e600340d19e5419e500340919e445fe580340519e385fe340340119e2c5fe14033fd19e1c5fdf4033f919e105fdd4033f519e085fdb4033f119df85fd94033ed19df0)
  (.lf 0)) (.nd (.lf
  0x6913c69114690ec690c46909c690746904c69024639bc6399c6397c6395c6393c6391c638fc68dbc68d9468d6c54cc468ffc68fcc68f9c68f7068f4468f1868eec68ec068e9468e6868e3c68e1068de868dc068d9868d7068d4868d2068cf868cd068ca8638dc638bc6389c6387c6385c6383c6381c68a4068a18689f054cb068c8068c5068c2068bf468bc868b9c68b7068b4468b1868aec68ac068a9468a6c)
  (.lf 0))) (.nd (.nd (.lf
  0x38938389400cd4d38928389300cd493891c389200cd4538910389080cd4138900388f80cd3d388e8388f00cd39388d8388dc0cd3548b4c388d00cd3148b34388c00cd2d48b1c388b80cd2948b08388ac0cd2548af4388a00cd2148ae0388940cd1d48acc388880cd1948ab8388780cd1548aa43886c0cd1148a90388600cd0d48a7c388580cd0948a683884c0cd0548a543883c0cd0148a40388340ccfd48a2c)
  (.lf 0)) (.nd (.lf
  0x24bb424ba424b9424b8424b7424b6424b5424b4424b3424b2424b14159190025c04e7404e7004e6c04e6804e6404e6004e5c04e5804e5404e5004e4c04e4804e4404e4004e3c04e3804e3404e3004e2c04e2804e2404e2004e1c04e1804e1404e1004e0c04e0804e0404e0024b0424af024ae024ad424ac024ab424aa424a9424a8424a7424a6424a5424a4424a3424a2024a1424a00249f4249e4249d4249c4)
  (.lf 0)))

def shaPos162 : BTree :=
  .nd (.nd (.nd (.lf
  0x995109cc5674000991109c4567200098d109b45670400989109a8566ec00985109a0566cc0098110994566b40097d109845669c009791097856684009751096c5666c0097110960566540096d109585663c009691094856624009651093c56610009611092c109300095d109201092400959109101091400955109001090400951108f0108ec0094d108dc108e400949108d0108cc00945108c4108bc00941)
  (.lf 0)) (.nd (.lf
  0x1403d1403914035140311402d1402914025140211401d1401914015140111400d14009140051400113ffd54a586122c6120c611ec611cc611ac6118c6116c6114c6112c6110c610ec610cc610b061094610786105c61040610246100860fec60fd060fb460f9c60f8460f6c60f5460f3c60f2460f0c60ef454a4454a546122861208611e8611c8611a86118861168611486112861108610e8610c8610ac61090)
  (.lf 0))) (.nd (.nd (.lf
  0x649bc0a64d51064649940a649510506496c0a6455103c649440a641510286491c0a63d51014648f40a63951000648cc0a63550fec648a40a63150fd8629080a62d50fc4628e80a62950fb0628c80a62550f9c628a80a62150f88628880a61d50f74628680a61950f64628480a61550f5454e700a61150f4454e540a60d30b2830b300a60930b1830b200a60530b0830b100a60130af830b000a5fd30ae830af0)
  (.lf 0)) (.nd (.lf
  0x174d0174c0174b0174a017490174801747017460174501744017430174201741017400173f0173e0173d0173c0173b015d4d547685d3445d3245d3045d2e45d2c45d2a85d2885d2685d2485d2285d2085d1e85d1cc5d1b05d1945d1785d15c5d1405d1245d1085d0ec5d0d05d0b85d0a05d0885d0705d0585d0405d0285d010173a017394173881737c1737017364173581734c1734017334173281731c17310)
  (.lf 0)))

def shaPos163 : BTree :=
  .nd (.nd (.nd (.lf
  0x21dc805afd21dc021db805af921db021da805af521d9c21d9805af121d9021d8805aed21d7c21d7805ae921d6c21d6805ae521d5c21d5805ae121d4c21d4805add21d3c21d3805ad921d3021d2805ad521d1c21d1805ad100ace00aca00ac600ac200abe00aba00ab600ab200aae00aaa00aa600aa200a9e00a9a016f4016ec0a7200a714016dc016d4016c40a6e40a6d8016a40a6c00a6b40169c016940a738)
  (.lf 0)) (.nd (.lf
  0x218002178021700ae20021680ae140ae080adfc0adf00ade40add802160021580b82800f7a000180adcc021500adc0021480adb4021400ada80ad9c021380ad9002130021280ad840ad780ad6c0ad6802120021180ad540211002108021000ad50020f80ad44020f0020e8020e00ad340b81c00f3600c6c020d8020d0020c8020c00c1fc0c1ec020b80c1e40c1d4020b0020a80c1c8020a00c1b80209802090)
  (.lf 0))) (.nd (.nd (.lf
  0x417b00f7f953acc417a40f7f553ab0417980f7f153a944178c0f7ed53a78417800f7e953a5c417740f7e549128417680f7e1491144175c0f7dd41748417500f7d941738417400f7d541728417300f7d141718417200f7cd41708417100f7c9416f8417000f7c5416e8416f00f7c1416d8416e00f7bd416c8416d00f7b9416b8416c00f7b5416a8416b00f7b141698416a00f7ad41688416900f7a94167841680)
  (.lf 0)) (.nd (.lf
  0x31f6031f5831f5431f4831f4431f3c31f3431f2c31f2031f1c31f1431f0831f0431ef831ef431ee815e21005ac07e6407e6007e5c07e5807e5407e5007e4c07e4807e4407e4007e3c07e3807e3407e3007e2c07e2807e2407e2007e1c07e1807e1407e1007e0c07e0807e0407e0007dfc07df807df407df031ee431ed431ec431eb431ea431e9431e8431e7431e6431e5431e4431e3431e2431e1431e0431df4)
  (.lf 0)))

def shaPos164 : BTree :=
  .nd (.nd (.nd (.lf
  0x654586542c65400653d4653a86537c6535065324652f8654bc6548c6545c6543065404653d8653ac653806535465328652fc652d0652a8619ec619cc619ac6198c6196c61c1c61bf461bcc61ba861b8461b6061b3c61b1861af461ad061aac61c2061bf861bd061bac61b8861b6461b4061b1c61af861ad461ab061a8c61a6c541600ed8c000755413c0ed8000071541180ed740006d540f40ed6800069540d0)
  (.lf
  0x8280f6f00f6dc0f6d00f6c80f6b80f6b40f6a80f6940f6880f6840f6700f6640f6580f6540f6440f63c0f6280f61c0f6140f60c0f5f80f5f40f5e00f5d40f5d00f5c00f5b80f5a40f59c0f594552e800824))
  (.nd (.lf
  0x58554585385851c58500584e4584c8584ac58490584785846058448584305841858400583e8583d0543b012af912af512af112aed12ae912ae512ae112add12ad912ad512ad112acd12ac912ac512ac112abd12ab912ab512ab112aad12aa912aa512aa112a9d12a9912a9512a9112a8d12a8912a8512a8112a7d543a0583bc5839c5837c5835c5833c5831c582fc582dc582bc5829c5827c5825c5824058224)
  (.lf 0))) (.nd (.nd (.lf
  0x4fb686a6b0093894fb546a684093854fb406a65c093814fb2c6a6340937d4fb186a60c093794fb046a5e0093754faf06a5bc093714fadc6a5940936d4fac86a568093694fab46a540093654faa06a518093614fa8c6a4f40935d4fa7863eec093594fa6463ecc093554fa5063ea8093514fa3c63e880934d4fa2863e68093494fa1463e48093454fa0463e28093414f9f4621840933d4f9e46216c093392d018)
  (.lf 0)) (.nd (.lf
  0x1084810834108241081410808107f4107e8107d4107c8107b8107a41079810788107781076415ca154240565f4565d4565b45659456574565545653456514564f4564d4564b456494564785645c564405642456408563f0563d0563b4563985637c5636856350563385632056308562f0562d8562c0107581074c1074010734107281071c1071010700106f8106ec106dc106d0106c8106bc106b0106a410698)
  (.lf 0)))

def shaPos165 : BTree :=
  .nd (.nd (.nd (.lf
  0x1e2d41e2d0048411e2c41e2c00483d1e2b41e2b0048391e2a41e2a0048351e2941e290048311e27c1e2840482d1e26c1e270048291e25c1e260048251e24c1e250048211e2401e23c0481d1e22c1e230048191e2201e224048151e2101e214048111e2041e1fc0480d1e1f01e1ec048091e1e01e1e4048051e1cc1e1d0048011e1bc1e1c0047fd1e1ac1e1b0047f91e1a41e19c047f5008920088e0088a00886)
  (.lf 0)) (.nd (.lf
  0x5c4145c3f85c3dc5c3c05c3a45c3885c3705c3585c3405c3285c3105c2f85c2e05c2c8546b05469c5c2b05c2905c2705c2505c2305c2105c1f05c1d05c1b05c1905c1705c1505c1345c1185c0fc5c0e05c0c45c0a85c08c5c0705c0545c0385c0205c0085bff05bfd85bfc05bfa85bf905bf7854688546745bf605bf405bf205bf005bee05bec05bea05be805be605be405be205be005bde45bdc85bdac5bd90)
  (.lf 0))) (.nd (.nd (.lf
  0xe2a53d0803d0780e2a13d0703d0680e29d3d0603d0580e2993d0503d0480e2953d0403d0380e2913d0303d0280e28d3d0203d0180e2893d0103d0080e2853d0003cff80e2813cff03cfe80e27d3cfe03cfd80e2793cfd03cfc80e2753cfc03cfb80e2713cfb03cfa80e26d3cfa03cf980e2693cf903cf880e2653cf803cf780e2613cf703cf680e25d3cf603cf580e2593cf503cf480e2553cf403cf380e251)
  (.lf 0)) (.nd (.lf
  0x2b61c2b6142b60c2b6042b5fc2b5f42b5ec15f410052c076e4076e0076dc076d8076d4076d0076cc076c8076c4076c0076bc076b8076b4076b0076ac076a8076a4076a00769c0769807694076900768c0768807684076800767c0767807674076702b5e42b5d42b5c42b5b42b5a42b5942b5842b5742b5642b5542b5442b5342b5242b5142b5042b4f42b4e42b4d42b4c42b4b42b4a42b4942b4842b4742b464)
  (.lf 0)))

def shaPos166 : BTree :=
  .nd (.nd (.nd (.lf
  0x1549801ee91548c1548801ee51547c1547801ee11546c1546801edd1545c1545801ed91544c1544801ed51543c1543801ed11542c1542801ecd1541c1541801ec91540c1540801ec5153fc153f801ec1153ec153e801ebd153dc153d801eb9153cc153c801eb5153bc153b801eb1153ac153a801ead1539c1539801ea91538c1538801ea51537c1537801ea11536c1536801e9d153581535401e99153441534c)
  (.lf 0)) (.nd (.lf
  0x40e9440e8840e7c40e7040e6440e5840e4c40e4040e3440e2840e1c40e1040e0440df84501c0102c40aa440a9840a8c40a8040a7440a6840a5c40a5040a4440a3840a2c40a2040a1440a08409fc409f0409e4409d8409cc409c0409b4409a84099c4099040984409784096c4096040954409484501001020405f4405e8405dc405d0405c4405b8405ac405a040594405884057c4057040564405584054c40540)
  (.lf 0))) (.nd (.nd (.lf
  0xb9415288046a980b93d5286846a800b9395285446a680b9355283846a500b9315282046a380b92d5280c46a200b929527f446a080b925527d8469f40b921527c4469e00b91d527ac469cc0b91952794469b80b91552778469a40b91152764469900b90d527484697c0b90952730469680b90552718469540b90152704469400b8fd526e8469300b8f9526d0469200b8f5526bc469100b8f1526a0469000b8ed)
  (.lf 0)) (.nd (.lf
  0x46c4046c0046bc046b8046b4046b0046ac046a8046a4046a00469c0469804694046900468c0468804684046801e1941e1881e1781e1681e1581e1441e1381e1241e1181e1081e0f81e0e81e0d41e0c81e0b41e0a41e0981e0881e0781e0681e0581e0481e0381e0241e0181e0081dff41dfe81dfd41dfc81488d006240856c0856808564085600855c0855808554085500854c0854808544085400853c08538)
  (.lf 0)))

def shaPos167 : BTree :=
  .nd (.nd (.nd (.lf
  0x62eec06dd94cf8c62ecc06dd54cf7862eac06dd14cf6462e8c06dcd4cf5062e6c06dc94cf4061d9806dc54cf3061d7806dc125a00259fc06dbd259e8259f006db9259d8259e006db5259d0259c806db1259bc259c006dad259a8259ac06da92599c259a006da52598c2598806da1259782597c06d9d259682596c06d992595c2596006d952594c2595006d912593c2594006d8d259302592806d892591c25918)
  (.lf 0)) (.nd (.lf
  0x2bcb82bcb02bca82bca02bc982bc902bc882bc802bc7848df800ca42b6d02b6c82b6c02b6b82b6b02b6a82b6a02b6982b6902b6882b6802b6782b6702b6682b6602b6582b6502b6482b6402b6382b6302b6282b6202b6182b6102b6082b6002b5f82b5f02b5e848dec00c942b0442b03c2b0342b0282b0202b0182b0102b0082b0002aff82aff02afe82afe02afd82afd02afc82afc02afb82afb02afa82afa0)
  (.lf 0))) (.nd (.nd (.lf
  0x4f7284f7104f6f84f6e44f6d04f6bc4f6a84f6944f6804f66c4f6584f6444f6304f61c4f6084f5f44f5e04f36c4f3584f3444f3304f31c4f3084f2f44f50c4f4f44f4dc4f4c44f4ac4f5104f4f84f4e04f4c84f4b04f4984f4844f4704f45c4f4484f4344f4204f40c4f3f84f3e44f3d04f3bc4f3a84f3944f3804f10c4f0f84f0e44f0d04f0bc4f0a84f0944f2ac4f2944f27c4f2644f24c4f2b04f2984f280)
  (.lf 0)) (.nd (.lf
  0x388d4388c8388bc388b0388a4388983888c3887c38874388683885c38850388403883838828388203881038808387f8387f0387e0387d8387c8387c0387b4387a83879838790387843877415c5d54bec669ac6697c6694c66920668f4668c86689c668706684466818667ec667c066798667706674866720666f8666d0666a8666806665862f4062f2062f0062ee062ec062ea062e8061da861d8c3876c38760)
  (.lf 0)))

def shaPos168 : BTree :=
  .nd (.nd (.nd (.lf
  0x94416b9c16b8c16b7c16b7016b6416b5816b3c16b2c16b1c16b1416b0016af016ae416acc16abc16aac16aa016a8c16a8416a7416a5c16a5016a3c16a3016a1c16a1416a00169f0169e0169d0063b80093c1685c168501684016828168181680816800167f0167e0167d0167b8167b0167a016790167741677016758167501674016730167201671016700166f0166dc166d0166b8166ac1669c16688063b0)
  (.lf
  0x643d8643b86439864378622e0622c442384423784236c4236042354423484233c4233042324423184230c42300422f4422e8422dc422d0422c4422b8422ac422a042294422884227c4227042264422584224c42240422344222815fbd4503c46448464304641846400463e8463d0463b8463a0463884637046358463404632c4631846304462f0462dc462c8462b4462a04628c4627846268462584624846238))
  (.nd (.lf
  0x5ea405ea205ea005e9e05e9c05e9a05e9805e9605e9405e9205e9005e8e45e8c85e8ac5e8905e8745e8585e4ec5e4d05e4b45e70c5e6ec5e6cc5e6ac5e68c5e66c5e64c5e62c5e60c5e5ec5e5cc5e7105e6f05e6d05e6b05e6905e6705e6505e6305e6105e5f05e5d05e5b05e5945e5785e55c5e5405e5245e5085e19c5e1805e1645e3bc5e39c5e37c5e35c5e33c5e31c5e2fc5e2dc5e2bc5e29c5e27c5e3c0)
  (.lf 0))) (.nd (.nd (.lf
  0x160752b4002b3fc08a1d2b3f02b3ec08a192b3e02b3dc08a152b3d02b3cc08a112b3c02b3bc08a0d2b3b02b3ac08a092b3a02b39c08a052b3902b38c08a012b3802b37c089fd2b3702b36c089f92b3602b35c089f52b3502b34c089f12b3402b33c089ed2b3302b32c089e92b3202b31c089e52b3102b30c089e12b3002b2fc089dd2b2f02b2ec089d92b2e02b2dc089d52b2d02b2cc089d12b2c02b2bc089cd)
  (.lf 0)) (.nd (.lf
  0x4ebb44eba447cd447ce04edf44eddc4edc44edac4ed944ed7c4eb084eaf44eae04eacc4eab84eaa44ea904ea7c4ea684ea544ea404ea2c4ea184ea044e9f04e9dc4e9c84e9b44e9a04e98c4e9784e9644e9544e94447cbc47cc84eb944eb7c4eb644eb4c4eb344eb1c4e8a84e8944e8804e86c4e8584e8444e8304e81c4e8084e7f44e7e04e7cc4e7b84e7a44e7904e77c4e7684e7544e7404e72c4e7184e704)
  (.lf 0)))

def shaPos169 : BTree :=
  .nd (.nd (.nd (.lf
  0x1c4a803ee91c49c1c49403ee51c4841c48803ee11c4741c47c03edd1c4641c46803ed91c4541c45c03ed51c4481c44403ed11c4341c43c03ecd1c4241c42c03ec91c4141c41c03ec51c4041c40c03ec11c3f41c3fc03ebd1c3e41c3ec03eb91c3d41c3dc03eb51c3c41c3cc03eb11c3b41c3bc03ead1c3a41c3ac03ea91c3941c39c03ea51c3841c38c03ea11c3741c37c03e9d1c3641c36c03e991c3541c35c)
  (.lf 0)) (.nd (.lf
  0x2ac682ac582ac482ac382ac282ac182ac082abf82abe82abd82abc82abb82aba82ab98002d000c7c2a6dc2a6cc2a6bc2a6a82a6a02a6882a67c2a66c2a6582a6542a6382a62c2a61c2a60c2a5fc2a5f42a5dc2a5c82a5b82a5a82a5982a5902a5842a5682a5582a5542a5382a5282a5182a508002c800c682a0482a0382a02c2a0182a0102a00429fec29fe029fcc29fb829fac29f9c29f8829f7c29f6c29f58)
  (.lf 0))) (.nd (.nd (.lf
  0x3ace40d7f9685603acdc0d7f5685303accc0d7f1685043acc00d7ed684d83acb80d7e9684ac3acac0d7e5684803aca00d7e1684543ac940d7dd684283ac880d7d9683fc3ac7c0d7d5683d03ac6c0d7d1683a43ac600d7cd6837c3ac580d7c9683543ac4c0d7c56832c3ac400d7c1683043ac300d7bd682dc3ac280d7b9682b43ac180d7b56828c3ac100d7b1682643ac000d7ad6823c3abf80d7a9636443abe8)
  (.lf 0)) (.nd (.lf
  0x72b8072b4072b028164281542814428134281202811428104280f4280e4280d4280c4280b4280a42809428084280742806028054280442803428024280142800427ff427fe427fd427fc027fb427fa427f94159390029c05234052300522c0522805224052200521c0521805214052100520c052080520405200051fc051f8051f4051f0051ec051e8051e4051e0051dc051d8051d4051d0051cc051c8051c4)
  (.lf 0)))

def shaPos170 : BTree :=
  .nd (.nd (.nd (.lf
  0x12f0c12f100143d12f0012f040143912eec12ef00143512ee412ee00143112ecc12ed00142d12ebc12ec00142912eb458db40142512ea458d980142112e9c58d740141d12e8c58d540141912e8458d380141512e7458d180141112e6858cf40140d12e5c58cd40140912e5058cb40140512e4858c940140112e3c58c74013fd12e2c58c58013f912e2058c38013f512e1458c1c013f112e0858c00013ed12e00)
  (.lf 0)) (.nd (.lf
  0x3e76c3e75c3e74c3e73c3e72c3e71c3e70c3e6fc3e6ec3e6dc3e6cc3e6bc3e6ac3e69c0011000fc83e3bc3e3ac3e39c3e38c3e37c3e36c3e35c3e34c3e33c3e32c3e31c3e30c3e2fc3e2ec3e2dc3e2cc3e2bc3e2ac3e29c3e28c3e27c3e26c3e25c3e24c3e23c3e22c3e21c3e20c3e1fc3e1ec0010800fbc3df0c3defc3deec3dedc3decc3debc3deac3de9c3de8c3de7c3de6c3de5c3de4c3de3c3de2c3de1c)
  (.lf 0))) (.nd (.nd (.lf
  0x329f0329ec0afd1329e0329dc0afcd329d0329cc0afc9329c0329bc0afc5329b0329ac0afc1329a03299c0afbd329903298c0afb9329803297c0afb5329703296c0afb1329603295c0afad329503294c0afa9329403293c0afa5329303292c0afa1329203291c0af9d329103290c0af9932900328fc0af95328f0328ec0af91328e0328dc0af8d328d0328cc0af89328c0328bc0af85328b0328ac0af81328a0)
  (.lf 0)) (.nd (.lf
  0x1aaf81aaec1aae01aad81aacc1aac01aab41aaa41aa9c1aa8c1aa841aa741aa6c1aa5c1aa541aa441aa381aa301aa241aa181aa0c15db9064540e7780e7740e7700e76c0e7680e7640e7600e75c0e7580e7540e7500e74c0e7480e7440e7400e73c0e7380e7340e7300e72c0e7280e7240e7200e71c0e7180e7140e7100e70c0e7080e7041aa001a9f01a9e01a9d01a9c01a9b01a9a01a9901a9801a9701a960)
  (.lf 0)))

def shaPos171 : BTree :=
  .nd (.nd (.nd (.lf
  0x649d23ccc23cc80649923cb823cc00649523cb023cac0649123ca023c980648d23c8823c8c0648923c7823c800648523c7023c6c0648123c6023c5c0647d23c4823c500647923c3823c3c0647523c3023c2c0647123c1c23c200646d23c0823c0c0646923bf823bfc0646523bec23be80646123be023bdc0645d23bd023bcc0645923bbc23bb80645523bac23ba80645123b9c23ba00644d23b9023b8806449)
  (.lf 0)) (.nd (.lf
  0x2b51c2b50c2b4fc2b4ec2b4dc2b4cc2b4bc2b4ac2b49c2b48c2b47c2b46c2b45c2b44c2b43c2b42c2b41c2b40c0052800c902af4c2af442af302af1c2af0c2af042aeec2aee42aed42aec42aeac2ae9c2ae8c2ae7c2ae6c2ae5c2ae4c2ae3c2ae2c2ae1c2ae0c2adfc2adec2addc2adcc2adbc2adac2ad9c2ad8c2ad7c0052000c802a8b82a8b42a8982a8942a8782a8742a8582a8542a8382a8342a8182a814)
  (.lf 0))) (.nd (.nd (.lf
  0x102a55369c43af0102a15367843ae41029d5365443ad8102995363043acc102955360c43ac010291535e843ab41028d535c443aa810289535a043a9c102855357c43a90102815355843a841027d5353443a78102795351443a6c10275534f443a6010271534d443a541026d534b443a48102695349443a3c102655347443a30102615345443a241025d5343443a18102595341443a0c10255533f443a0010251)
  (.lf 0)) (.nd (.lf
  0x353a435394353843537414971007ec0a0240a0200a01c0a0180a0140a0100a00c0a0080a0040a00009ffc09ff809ff409ff009fec09fe809fe409fe009fdc09fd809fd409fd009fcc09fc809fc409fc009fbc09fb809fb409fb035364353543534435334353243531435304352f4352e4352d4352c4352b4352a435294352843527435264352543524435234352243521435204351f4351e4351d4351c4351b4)
  (.lf 0)))

def shaPos172 : BTree :=
  .nd (.nd (.nd (.lf
  0x6967c6965069624695f8695cc695a069574695486951c694f46399063970639506393063910638f06203c620206935c6932c693606933069300692d4692a86927c6925069224691f8691cc691a069178638b063890638706385063830638106200461fe868fe068fb068fe468fb468f8468f5868f2c68f0068ed468ea868e7c68e5068e2468dfc637d8637b86379863778637586373861fd461fb868c6c68c3c)
  (.lf 0)) (.nd (.lf
  0x5cae85cacc5cab05ca945ca785ca5c5ca405ca245ca0c5c9f45c9dc5c9c45c9ac5c9945c97c5c964546fc5470c5cc985cc785cc585cc385cc185cbf85cbd85cbb85cb985cb785cb585cb385cb1c5cb005cae45cac85caac5ca905ca745ca585ca3c5ca205ca085c9f05c9d85c9c05c9a85c9905c9785c960546f81357913575135711356d1356913565135611355d1355913555135511354d135491354513541)
  (.lf 0))) (.nd (.nd (.lf
  0x54a0b16c09cfd005460b16009cf90b15815429005420b15409cf50053e0b14809cf10053a0b13c09ced025e415425025dc154210b86c1541d0b868154192ef102ef0c09ce92ef002eefc09ce52eef02eeec09ce12eee02eedc09cdd2eed02eecc09cd92eec02eebc09cd52eeb02eeac09cd12eea02ee9c09ccd2ee902ee8c09cc92ee802ee7c09cc52ee702ee6c09cc12ee602ee5c09cbd2ee502ee4c09cb9)
  (.lf 0)) (.nd (.lf
  0x13e8013e7813e6c13e6013e5413e4413e3c13e3013e2413e1813e0813e0013df413de813ddc13dd013dc0160250634c0d8000d7fc0d7f80d7f40d7f00d7ec0d7e80d7e40d7e00d7dc0d7d80d7d40d7d00d7cc0d7c80d7c40d7c00d7bc0d7b80d7b40d7b00d7ac0d7a80d7a40d7a00d79c0d7980d7940d7900d78c13db813da813d9813d8813d7413d6813d5813d4413d3813d2813d1813d0813cf813ce813cd8)
  (.lf 0)))

def shaPos173 : BTree :=
  .nd (.nd (.nd (.lf
  0x200d8051b9200d0200cc051b5200b8200c0051b1200a8200ac051ad200982009c051a92009020088051a52008020078051a1200702006c0519d200582006005199200502004805195200402003c0519120028200300518d2001820020051892001020008051851fffc1fff8051811ffe81fff00517d1ffdc1ffd8051791ffc81ffcc051751ffbc1ffc0051711ffa81ffb00516d1ff981ff9c051691ff881ff90)
  (.lf 0)) (.nd (.lf
  0x5bc645bc4c5bc345bc1c54654546685bf545bf345bf145bef45bed45beb45be945be705be545bae45bac05baa45ba885ba6c5ba505ba345ba185b9fc5b9e05b9c45b9a45b98c5b9745b95c5b9445b92c5b9145b8fc5b8e45b8cc5462c546405bc045bbe45bbc45bba45bb845bb645bb445bb245bb045b7945b7705b7545b7385b71c5b7005b6e45b6c85b6ac5b6905b6745b6545b63c5b6245b60c5b5f45b5dc)
  (.lf 0))) (.nd (.nd (.lf
  0x697dc3f3ec0ed4d697b43f3e00ed496978c3f3d40ed45697643f3c80ed416973c3f3bc0ed3d697143f3b00ed3963b783f3a40ed3563b583f3980ed3163b383f38c0ed2d63b183f3800ed2963af83f3740ed2563ad83f3680ed2163ab83f35c0ed1d620b43f3500ed19620983f3440ed156b9b43f3340ed116b9843f3280ed0d6b9583f31c0ed096b92c3f3100ed056b9003f3040ed016b8d43f2f80ecfd6b8a8)
  (.lf 0)) (.nd (.lf
  0x2ea742ea6c15fa10056c07aa407aa007a9c07a9807a9407a9007a8c07a8807a8407a8007a7c07a7807a7407a7007a6c07a6807a6407a6007a5c07a5807a5407a5007a4c07a4807a4407a4007a3c07a3807a3407a302ea642ea542ea442ea342ea242ea142ea042e9f42e9e42e9d42e9c42e9b42e9a42e9942e9842e9742e9642e9542e9442e9342e9242e9142e9042e8f42e8e42e8d42e8c42e8b42e8a42e894)
  (.lf 0)))

def shaPos174 : BTree :=
  .nd (.nd (.nd (.lf
  0x2995179bc5d8c802991179b45d8a80298d179a85d888029891799c5d86c02985179905d85002981179845d8340297d179785d81802979179685d7fc02975179605d7e002971179545d7c40296d179485d7a802969179385d78c029651792c5d77002961179205d7540295d179145d73c029591790c5d72802955179005d71002951178f45d6f80294d178e45d6e002949178d85d6c802945178d05d6b002941)
  (.lf 0)) (.nd (.lf
  0x45464454584544c4544045434454284541c4541045404453f8453ec453e0453d4453c8453bc4531445308452fc452f0452e4452d8452cc452c0452b40cd300cd38453b0453a04539045384453784536c4536045354453484533c4533045324453184530c45300452f4452e8452dc452d0452c4452b84521045204451f8451ec451e0451d4451c8451bc451b00cd080cd10452ac452984528c452804527445268)
  (.lf 0))) (.nd (.nd (.lf
  0xc2a5365203651c0c2a1365103650c0c29d36500364fc0c299364f0364ec0c295364e0364dc0c291364d0364cc0c28d364c0364bc0c289364b0364ac0c285364a03649c0c281364903648c0c27d364803647c0c279364703646c0c275364603645c0c271364503644c0c26d36438364400c26936428364300c26536418364200c26136408364100c25d363f8364000c259363e8363f00c255363d8363e00c251)
  (.lf 0)) (.nd (.lf
  0x158f9016840bc980167c01674016640bc680165c0163c0bc440bc380bc2c01634016240bc080161c064cc0021c04ab404ab004aac04aa804aa404aa004a9c04a9804a9404a9004a8c04a8804a8404a8004a7c04a7804a7404a7004a6c04a6804a6404a6004a5c04a5804a5404a5004a4c04a4804a4404a40216842167421664216542164421634216242161421604215f4215e4215d4215c4215b4215a421594)
  (.lf 0)))

def shaPos175 : BTree :=
  .nd (.nd (.nd (.lf
  0x278a8278b007761278a02789c0775d278902788c07759278802787c07755278702786c0775127858278600774d278502784c077492783c27838077452782827830077412781c278180773d278102780c07739277f8277fc07735277f0277ec07731277dc277d80772d277cc277d007729277b8277c007725277b0277a807721277a02779c0771d2779027788077192777c27780077152776c277680771127760)
  (.lf 0)) (.nd (.lf
  0x2bde82bdd82bdc82bdb82bda82bd982bd882bd782bd680073000ca82b8a82b8982b8882b8782b8682b8582b8482b8382b8282b8182b8082b7f82b7e82b7d82b7c82b7b82b7a82b7982b7882b7782b7682b7582b7482b7382b7282b7182b7082b6f82b6e82b6d80072800c982b2182b2082b1f82b1e82b1d82b1c82b1b82b1a82b1982b1882b1782b1682b1582b1482b1382b1282b1182b1082b0f82b0e82b0d8)
  (.lf 0))) (.nd (.nd (.lf
  0x10f5910f5510f5110f4d10f4910f4510f4110f3d10f3910f3510f3110f2d10f2910f2510f2110f1d15b6d47b7c4ca584ca404ca284ca104c9f84c9e04c9cc4c9b84c9a44c9904c97c4c9684c9544c9404c92c4c9184c9044c8f04c8dc4c8c84c8b44c8a04c88c4c8784c8644c8504c83c4c8284c8184c80847b7010f1910f1510f1110f0d10f0910f0510f0110efd10ef910ef510ef110eed10ee910ee510ee1)
  (.lf 0)) (.nd (.lf
  0x61e1061df83bc643bc543bc4c3bc403bc343bc283bc1c3bc0c3bc043bbf43bbec3bbdc3bbd43bbc43bbbc3bbac3bba43bb943bb8c3bb7c3bb743bb643bb5c3bb4c3bb443bb343bb2c3bb1c3bb103bb0415eb554cc86900068fd068fa068f7468f4868f1c68ef068ec468e9868e6c68e4068e1468dec68dc468d9c68d7468d4c68d2468cfc68cd468cac638e0638c0638a0638806386063840638206201061ff4)
  (.lf 0)))

def shaPos176 : BTree :=
  .nd (.nd (.nd (.lf
  0x8c41372813714136fc136f8136dc136d8136bc136b41369c136981367c136701365c1364c136401362c136281360c135fc135f0135dc135d8135c0135b0135a81358c1357c13574135681355806338008bc133d4133c8133b8133a413398133901338013364133541334413340133241331c13308132f4132ec132d4132cc132b8132b0132981328413278132641325413250132381322c132141321006330)
  (.lf
  0x40974409684095c4095015e0d0014c03e8403e8003e7c03e7803e7403e7003e6c03e6803e6403e6003e5c03e5803e5403e5003e4c03e4803e4403e4003e3c03e3803e3403e3003e2c03e2803e2403e2003e1c03e1803e1403e104094440934409244091440904408f4408e4408d4408c4408b4408a440894408844087440864408544084440834408244081440804407f4407e4407d4407c4407b4407a440794))
  (.nd (.lf
  0x58040580205800057fe057fc057fa057f8057f6057f4057f1c57f0057ee457ec857eac57e9057e7457e5857aec57ad057ab857d0c57cec57ccc57cac57c8c57c6c57c4c57c2c57c0c57bec57bd457d1057cf057cd057cb057c9057c7057c5057c3057c1057bf057bcc57bb057b9457b7857b5c57b4057b2457b085779c5778057768579bc579a05797c5795c5793c5791c578fc578dc578bc5789c57884579c0)
  (.lf 0))) (.nd (.nd (.lf
  0x2a4e02a4dc085712a4d02a4cc0856d2a4b82a4bc085692a4a82a4b0085652a4a02a49c085612a4902a48c0855d2a4782a47c085592a4702a46c085552a45c2a458085512a4502a4480854d2a4402a43c085492a4302a42c085452a4202a41c085412a4102a40c0853d2a4002a3fc085392a3f02a3ec085352a3dc2a3e0085312a3cc2a3c80852d2a3bc2a3b8085292a3b02a3ac085252a3982a3a0085212a390)
  (.lf 0)) (.nd (.lf
  0x499a8499944796c4797c49c5449c3849c1c49c0049be049bc8498d0498bc498a44988c498744985c49844498304981849800497e8497cc497bc497a44978c497744975c497444972c49714496f8496e4496d0496c04795047958499784995c499404992849904498ec4961849604495f0495dc495c8495b0495a4495904957c4956849554495404952c4951849508494f4494e0494cc494b8494a44948c4947c)
  (.lf 0)))

def shaPos177 : BTree :=
  .nd (.nd (.nd (.lf
  0x39951b1b861194039911b1a8611740398d1b19c61154039891b19061134039851b18861114039811b17c610f40397d1b170610d4039791b164610b8039751b1586109c039711b14c610800396d1b14061064039691b13061048039651b1246102c039611b118610100395d1b10c60ff4039591b10060fd8039551b0f860fbc039511b0e860fa40394d1b0e060f8c039491b0d060f74039451b0c860f5c03941)
  (.lf 0)) (.nd (.lf
  0x1d9d81d9cc1d9b81d9a81d9a01d9901d9781d9741d95c1d94c1d9381d9341d9201d910001d000a441d4241d4141d4081d4001d3e41d3dc1d3c81d3b41d3ac1d3941d3841d3741d3641d3601d3481d3341d32c1d31c1d30c1d2f41d2e81d2dc1d2c41d2c01d2a41d2a01d2881d2781d26c1d254001c800a341cd201cd0c1ccfc1ccec1ccdc1cccc1ccc81ccac1cca81cc901cc801cc701cc601cc501cc481cc2c)
  (.lf 0))) (.nd (.nd (.lf
  0xd2a56562039b000d2a1655f839af40d29d655d039ae80d299655a839ad80d2956558039acc0d2916555839ac40d28d6553039ab40d2896550839aac0d285654e039aa00d28162ad839a900d27d62ab839a880d27962a9839a780d27562a7839a700d27162a5839a640d26d62a3839a580d26962a1839a480d26561c8c39a3c0d26161c6c39a340d25d677a039a240d2596777039a1c0d2556774039a0c0d251)
  (.lf 0)) (.nd (.lf
  0x26634266202661426600265f4265e4265d4265c4265b4265a426594265842657426560265541592901c7c01c6c01c5c0c0040bff801c4c01c3c01c240bfc801c1c01c0c064fc0027c05054050500504c0504805044050400503c0503805034050300502c0502805024050200501c0501805014050100500c05008050040500004ffc04ff804ff404ff004fec04fe804fe404fe02654426534265242651426504)
  (.lf 0)))

def shaPos178 : BTree :=
  .nd (.nd (.nd (.lf
  0x11c9000ee911c8011c7c00ee511c7011c7400ee111c5c11c6400edd11c5411c5000ed911c4011c3c00ed511c2c11c3400ed111c1c11c2000ecd11c0c11c1400ec911bfc11c0000ec511bf011bf400ec111bdc11be000ebd11bd011bd400eb911bc411bbc00eb511bb011bb400eb111b9c11ba000ead11b8c11b9400ea911b7c11b8000ea511b6c11b7000ea111b5c11b6000e9d11b4c11b5000e9911b3c11b40)
  (.lf 0)) (.nd (.lf
  0x14585145811457d1457914575145711456d1456914565145611455d14559145551455115c2545090477404772847710476f8476e0476c8476b047698476804766847650476384762047608475f0475d8475c0475a847590475784756047548475304751847500474e8474d0474b8474a047488450801454d1454914545145411453d1453914535145311452d1452914525145211451d1451914515145111450d)
  (.lf 0))) (.nd (.nd (.lf
  0xab2131aa031a9c0ab1d31a9031a8c0ab1931a8031a7c0ab1531a7031a6c0ab1131a6031a5c0ab0d31a5031a4c0ab0931a4031a3c0ab0531a3031a2c0ab0131a2031a1c0aafd31a1031a0c0aaf931a00319fc0aaf5319f0319ec0aaf1319e0319dc0aaed319d0319cc0aae9319c0319bc0aae5319b0319ac0aae1319a03199c0aadd319903198c0aad9319803197c0aad5319703196c0aad1319603195c0aacd)
  (.lf 0)) (.nd (.lf
  0xe3940e3900e38c0e3880e3840e3800e37c0e3780e3740e3700e36c0e3680e3640e3600e35c0e3580e3540e3500e34c0e3480e34418fc018fb018fa018f9018f8018f7018f6018f5018f4018f3018f2018f1018f0018ef018ee018ed018ec018eb018ea018e9018e8018e6c18e6018e5018e4018e3018e2018e1018e0018df015d85548a85edc45eda45ed845ed645ed445ed245ed045ece45ecc45eca45ec84)
  (.lf 0)))

def shaPos179 : BTree :=
  .nd (.nd (.nd (.lf
  0x61b9c05fcd4c08061b7805fc94c06861b5405fc54c05461b3005fc14c04061b0c05fbd4c02c61ae805fb94c01861ac405fb54c00461aa005fb14bff061a8005fad4bfdc61a6005fa94bfc861a4005fa54bfb461a2005fa14bfa061a0005f9d4bf8c619e005f994bf78619c005f954bf64619a005f914bf506198005f8d4bf3c6196005f894bf2854b5405f854bf1454b3c05f814bf0054b2405f7d4beec54b0c)
  (.lf 0)) (.nd (.lf
  0x1dc081dbfc1dbe81dbd81dbc81dbbc1dbb41db9c1db881db7c1db6c1db581db541db441db2c1db241db101dafc1daf000a481d6081d5f81d5e81d5d81d5c81d5b81d5a81d5a01d58c1d5741d5641d5581d5501d5401d5241d5201d5101d5001d4f01d4d41d4d01d4c01d4b01d4a01d48c1d4781d46c1d4601d4501d43c0041800a381cefc1ceec1cee01cecc1cec01ceb01ce9c1ce901ce841ce781ce681ce58)
  (.lf 0))) (.nd (.nd (.lf
  0x42958429600fd4d42948429500fd4942938429400fd4542928429300fd4142918429200fd3d42908429100fd39428f8429000fd35428e8428f00fd31428d8428e00fd2d428c8428d00fd29428b8428c00fd25428a8428b00fd2142898428a00fd1d42888428900fd1942878428800fd1542868428700fd1142858428600fd0d42848428500fd0942838428400fd056c0b44282c0fd016c084428200fcfd6c058)
  (.lf 0)) (.nd (.lf
  0x339c4339b8339b4339a8339a43399c3399433988339843397c339703396c339643395c339503394c3394033938339343392815c09005cc08044080400803c0803808034080300802c0802808024080200801c0801808014080100800c08008080040800007ffc07ff807ff407ff007fec07fe807fe407fe007fdc07fd807fd407fd0339243391433904338f4338e4338d4338c4338b4338a4338943388433874)
  (.lf 0)))

def shaPos180 : BTree :=
  .nd (.nd (.nd (.lf
  0x538a05388053478534585343853418533f8536a05367c536585363453610535ec535c8535a4535805355c53538536a4536805365c5363853614535f0535cc535a853584535605353c53518534f8530e0530c0530a0530805306053308532e4532c05329c5327853254532305320c531e8531c4531a05330c532e8532c4532a05327c532585323453210531ec531c8531a45318053160649546492c64904648dc)
  (.lf 0)) (.nd (.lf
  0x1303d1303913035130311302d1302913025130211301d1301913015130111300d13009130051300112ffd545585a82c5a80c5a7ec5a7cc5a7ac5a78c5a76c5a74c5a72c5a70c5a6ec5a6cc5a6b05a6945a6785a65c5a6405a6245a6085a5ec5a5d05a5b45a59c5a5845a56c5a5545a53c5a5245a50c5a4f454544545545a8285a8085a7e85a7c85a7a85a7885a7685a7485a7285a7085a6e85a6c85a6ac5a690)
  (.lf 0))) (.nd (.nd (.lf
  0x2e0302e02c098552e0202e01c098512e0102e00c0984d2e0002dffc098492dff02dfec098452dfe02dfdc098412dfd02dfcc0983d2dfc02dfbc098392dfb02dfac098352dfa02df9c098312df902df8c0982d2df802df7c098292df702df6c098252df602df5c098212df502df4c0981d2df402df3c098192df302df2c098152df202df1c098112df102df0c0980d2df002defc098092def02deec098052dee0)
  (.lf 0)) (.nd (.lf
  0xd40c0d4080d4040d4000d3fc0d3f80d3f40d3f00d3ec0d3e80d3e40d3e00d3dc0d3d80d3d40d3d00d3cc1237812364123581234812338123281231412308122f8122e8122d4122c4122b4122a812298122881227812268122581224812234122281221812208121f4121e4121d4121c8121b4121a815cc1543805807458054580345801457ff457fd457fb457f9457f7457f5457f3857f1457efc57ee057ec4)
  (.lf 0)))

def shaPos181 : BTree :=
  .nd (.nd (.nd (.lf
  0x4a7bc455bc04d054a7a0455ac04d014a7844559c04cfd4a7684559004cf94a74c4558404cf54a72c4557004cf14a7144556804ced4a7004555c04ce94a6e44555004ce54a6d04554404ce14a6b84553804cdd4a69c4552c04cd94a6884552004cd54a6704551404cd14a6584550804ccd4a63c454f804cc94a624454ec04cc54a60c454e004cc14a5f4454d404cbd4a5e0454cc04cb94a5c4454bc04cb54a5ac)
  (.lf 0)) (.nd (.lf
  0x5534855334553205530c5416454174555cc555b055598555785555855544555245550c554ec625e4625c0625a06257c625586253462510624ec624c8624a462480624586243862418623f8623d8623b46239862378623586233854df054e086274c6272c62704626c8626b06268062664626346260048fcc48fb448fac48f9c48f8c48f7848f6c48f5c48f4c48f3c48f2c48f1c48f0c48f0048ef448ee848edc)
  (.lf 0))) (.nd (.nd (.lf
  0x3e2180e7f93e2103e2080e7f53e2003e1f80e7f13e1f03e1e80e7ed68c643e1dc0e7e968c303e1d00e7e568c083e1c40e7e168bd83e1b80e7dd68bac3e1ac0e7d968b803e1a00e7d568b543e1940e7d168b283e1880e7cd68afc3e17c0e7c968ad03e1700e7c568aa43e1640e7c168a7c3e1580e7bd68a543e14c0e7b968a2c3e1400e7b568a043e1340e7b1689e03e1280e7ad689b83e11c0e7a9689903e110)
  (.lf 0)) (.nd (.lf
  0x788807884078800787c0787807874078700786c0786807864078600785c0785807854078502d0242d0142d0042cff42cfe42cfd42cfc42cfb42cfa42cf942cf842cf742cf642cf542cf442cf342cf242cf142cf042cef42cee42ced42cec42ceb42cea42ce942ce842ce742ce642ce54159690c46c0c4600c454023f40c43c023ec0c4240c4180c40c0c400023e40c3e8023d4023bc0c3c4023a40c3ac06534)
  (.lf 0)))

def shaPos182 : BTree :=
  .nd (.nd (.nd (.lf
  0x16714167180243d167041670802439166f4166f802435166e4166e802431166d4166d80242d166c4166c802429166b4166bc02425166a4166a80242116694166980241d166841668c024191667c5c604024151666c5c5e402411166645c5c40240d166545c5a4024091664c5c58402405166405c56402401166345c544023fd166285c524023f9166185c504023f5166105c4e4023f1166005c4c4023ed165f4)
  (.lf 0)) (.nd (.lf
  0x3c4fc3c4f03c4e43c4d83c4cc3c4c03c4b43c4a83c49c3c4903c4843c4783c46c3c46048d7800f703c10c3c1003c0f43c0e83c0dc3c0d03c0c43c0b83c0ac3c0a03c0943c0883c07c3c0703c0643c0583c04c3c0403c0343c0283c01c3c0103c0043bff83bfec3bfe03bfd43bfc83bfbc3bfb048d6c00f643bc5c3bc583bc443bc383bc303bc203bc143bc103bc003bbf83bbe83bbe03bbcc3bbc83bbb43bbb0)
  (.lf 0))) (.nd (.nd (.lf
  0x2d1c02d140b7040b6f802d0c0b6e00b6d40b6c80b6bc02cdc0b6a40b6980b68c02cd40b6740b8cc0b734157d1007360b7300bdd1007320b7240bdcd0b71c157cd0072e0b7180bdc90b710157c90072a0b70c0bdc5007260b7000bdc1007220b6f40bdbd02d04157c502cfc157c102cf4157bd02cec157b902ce4157b50b6ec157b10071e0b6e80bdb90071a0b6dc0bdb5007160b6d00bdb1007120b6c40bdad)
  (.lf 0)) (.nd (.lf
  0x1fc048d4048d0048cc048c8048c4048c0048bc048b8048b4048b0048ac048a8048a4048a00489c0489804894048900488c0488804884048800487c0487804874048700486c0486804864048601fc441fc341fc241fc141fc041fbf41fbe01fbd41fbc41fbb41fba41fb941fb841fb701fb601fb501fb441fb341fb241fb141fb041faf41fae41fad41fac41fab41faa41fa941fa841fa741489d006440874c)
  (.lf 0)))

def shaPos183 : BTree :=
  .nd (.nd (.nd (.lf
  0x26960072b12694c26950072ad269402693c072a92693026928072a52691c26920072a126910269080729d26900268f807299268f0268ec07295268e0268dc07291268d0268cc0728d268c0268bc07289268b0268ac07285268a02689c072812688c268880727d268782687c072792686c2686807275268602685c07271268482684c0726d268402683c07269268302682c072652681c26818072614d64067080)
  (.lf 0)) (.nd (.lf
  0x1ebc81ebb81eba41eb941eb901eb801eb6c1eb601eb4c0063000a781e6641e6501e6441e6341e6281e6141e60c1e5f41e5e01e5d01e5c81e5b41e5a01e5981e5801e57c1e5601e5501e5401e5301e5241e5101e5041e4f01e4e41e4d41e4c41e4b41e4a41e4940062800a641dfb01dfa01df8c1df801df741df681df581df401df301df1c1df141df001def81dee01decc1debc1deac1de9c1de941de7c1de70)
  (.lf 0))) (.nd (.nd (.lf
  0x1079910795107911078d1078910785107811077d1077910775107711076d1076910765107611075d15b19479a049f3449f1849efc49ee049ec449ea849e9049e7849e6049e4849e3049e1849e0049de849dd049db849da049d8849d7049d5849d4049d2849d1049cf849ce049cc849cb049c9849c8449c70479901075910755107511074d1074910745107411073d1073910735107311072d107291072510721)
  (.lf 0)) (.nd (.lf
  0x15ee90009c03434034300342c0342803424034200341c0341803414034100340c034080340403400033fc033f8033f4033f0033ec033e8033e4033e0033dc033d8033d4033d0033cc033c8033c4033c03a2203a2143a2043a1f43a1e43a1d43a1c43a1b43a1a03a1943a1843a1703a1643a1543a1403a1343a1243a1143a1043a0f03a0e43a0d03a0c43a0b43a0a43a0903a0843a0743a0643a054147ed54b94)
  (.lf 0)))

def shaPos184 : BTree :=
  .nd (.nd (.nd (.lf
  0x9c019e4019e3419e2819e2419e1819e0419e0019dec19de819dd419dd019dbc19db819da419da019d9419d8819d7c19d7019d5c19d5819d4c19d4019d3419d2819d1419d1019d0419cf819ce45495c009b819af819aec19ae019adc19acc19abc19ab019aa819a9819a9419a8419a7419a6819a5c19a5419a4419a3c19a2c19a2019a1419a0c199fc199f0199ec199d8199cc199c0199b8199ac199a054934)
  (.lf
  0x43d1c43d1043d0443cf843cec43ce015ae1001a4043ac043a8043a4043a00439c0439804394043900438c0438804384043800437c0437804374043700436c0436804364043600435c0435804354043500434c0434804344043400433c0433843cd443cc443cb443ca443c9443c8443c7443c6443c5443c4443c3443c2443c1443c0443bf443be443bd443bc443bb443ba443b9443b8443b7443b6443b5443b44))
  (.nd (.lf
  0x560e8560cc560b056094560785605c56040560245600c55ff455fdc55fc455fac55f9455f7c55f64541fc5420c5629856278562585623856218561f8561d8561b8561985617856158561385611c56100560e4560c8560ac5609056074560585603c560205600855ff055fd855fc055fa855f9055f7855f60541f81257912575125711256d1256912565125611255d1255912555125511254d125491254512541)
  (.lf 0))) (.nd (.nd (.lf
  0x8ea92c1902c18808ea52c1802c17808ea12c1702c16808e9d2c1602c15808e992c1502c14808e952c1402c13808e912c1302c12808e8d0107e0107a01076010720106e0106a01066010620105e0105a01056010520104e0104a0c310152b101a220c30c08e890c304152ad01a1e0c30008e8502304152a9022fc152a5022f4152a1022ec1529d0c2f81529901a1a0c2f408e8101a160c2e808e7d022dc15295)
  (.lf 0)) (.nd (.lf
  0x45f7445f6045f5045f4445f2c45f1c45f1045efc45ef445ee445ecc45ec045eb045ea445e9c0efe80efdc0efd80efd00efc40efc00efb80efb00efa80efa00ef940ef900ef840ef800ef780ef6c0ef680ef600ef540ef500ef480ef400ef380ef2c0ef240ef200ef140ef100ef080ef0015c7948e9452f5852f3c52f0c52efc52ed052eb052ea052e8452e6852e4452e3052e0852df452dd452db452d9852d84)
  (.lf 0)))

def shaPos185 : BTree :=
  .nd (.nd (.nd (.lf
  0x43a5011b4149e10a2ac149dd0005e0a2a8043a10005a0a2980439d000560a290043990a284149d9000520a280043950b748149d50b74415fe51d42c1d428043911d41c1d4180438d1d40c1d404043891d3f81d3f4043851d3ec1d3e8043811d3d81d3d40437d1d3cc1d3c4043791d3b81d3bc043751d3a41d3a8043711d3981d39c0436d1d38c1d388043691d3781d37c043651d36c1d368043611d3541d358)
  (.lf 0)) (.nd (.lf
  0x55a14559f8559dc559c0559a4559885597055958559405592855910558f8558e0558c8541b05419c558b055894558785585c558405582455808557ec557d0557b4557985577c557645574c557345571c55704556ec556d4556bc556a45568c5567855664556505563c556285561455600555ec5418c5417c555d8555bc555a055584555685554c5553055514554f8554dc554c0554a45548c554745545c55444)
  (.lf 0))) (.nd (.nd (.lf
  0x690543bec40dd4d6902c3beb40dd49639c43bea80dd45639a43bea00dd41639843be940dd3d639643be880dd39639443be7c0dd35639243be6c0dd31639043be600dd2d6204c3be580dd29620303be4c0dd253be383be3c0dd213be283be2c0dd1d3be1c3be180dd193be0c3be080dd153be003bdfc0dd113bde83bdf00dd0d3bdd83bde00dd093bdcc3bdd00dd053bdbc3bdc00dd013bdac3bdb00dcfd3bda0)
  (.lf 0)) (.nd (.lf
  0x74dc074d8074d4074d0074cc074c8074c4074c0074bc074b8074b4074b0074ac074a8074a4074a00749c07498074940749029ba029b9429b8429b7429b6029b5429b4429b3029b2429b1429b0429af429ae429ad429ac029ab429aa429a9429a8429a7429a6429a5029a4429a3429a2429a1029a04299f0299e4299d015949002bc05414054100540c054080540405400053fc053f8053f4053f0053ec053e8)
  (.lf 0)))

def shaPos186 : BTree :=
  .nd (.nd (.nd (.lf
  0x1995141c85a00001991141b859fe40198d141b059fc801989141a459fac019851419459f90019811418c59f740197d1418059f58019791417459f38019751416459f1c019711415c59f040196d1414c59eec019691414059ed4019651413859ec0019611412c59ea80195d1411c59e90019591411459e74019551410459e5c01951140fc140f80194d140ec140e801949140d4140dc01945140cc140c801941)
  (.lf 0)) (.nd (.lf
  0x378943788c3787c37874378643785837850378403783c378283781c3781437804377f848d2800eac374a8374983748c3748037474374703745c3745437444374403742c37428374183740c373fc373f0373e4373dc373cc373c4373b4373ac3739c37394373843737837374373603735c3734848d1c00ea036ffc36fe836fdc36fd436fc436fc036fac36fa436f9836f8c36f7c36f7436f6436f5c36f4c36f40)
  (.lf 0))) (.nd (.nd (.lf
  0xb461337e8337f00b45d337d8337e00b459337c8337d00b455337b8337c00b451337a8337b00b44d33798337a00b44933788337900b44533778337800b44133768337700b43d33758337600b43933748337500b435014f6014f2014ee014ea014e6014e2014de014da014d6014d2014ce014ca014c6014c2014be014ba014b60c868156c501bea0c8640b4310c85c156c101be60c8580b42d0c850156bd01be2)
  (.lf 0)) (.nd (.lf
  0x44f8044f4044f0044ec044e8044e4044e0044dc044d8044d4044d0044cc044c8044c4044c0044bc044b8044b4044b0044ac044a8044a4044a01c6201c60c1c6001c5f01c5e01c5cc1c5c01c5b01c59c1c58c1c57c1c5701c5601c5501c5401c52c1c5201c50c1c5001c4f01c4e01c4d01c4c01c4b01c4a01c48c1c4801c46c1c4601c44c1487d064940eb380eb340eb300eb2c0eb280eb240eb200eb1c0eb18)
  (.lf 0)))

def shaPos187 : BTree :=
  .nd (.nd (.nd (.lf
  0xc1e00c1a00c1600c1200c0e0a8ac01a7c0a8940a88801a640a87001a5c0a85801a5401a3c01a340a82801a1c01a140025e0a8a40692d01a7414e5101a6c14e4d0a8a014e490025a0a89806929002560a88c06925002520a880069210a87814e450024e0a8740691d0024a0a868069190a86014e41002460a85c06915002420a8540691101a4c14e3d01a4414e390a84814e350023e0a8440690d0a84014e31)
  (.lf 0)) (.nd (.lf
  0x1ea901ea8c1ea781ea741ea601ea5c1ea481ea3c1ea30479d000a741e4881e4801e4781e4701e4681e4601e45c1e4501e44c1e4441e43c1e4341e4281e4241e4181e4141e4081e4041e3f81e3f01e3ec1e3e01e3d41e3c41e3c01e3b01e3a81e3981e3881e380479a800a601ddd81ddcc1ddc41ddbc1ddb41ddac1dda41dd9c1dd981dd8c1dd841dd7c1dd741dd6c1dd641dd5c1dd581dd4c1dd441dd3c1dd38)
  (.lf 0))) (.nd (.nd (.lf
  0x4a7584a7384a7204a7084a6f04a6d84a6c04a6a84a6904a6784a6604a6484a6304a6184a6004a5e84a5d04a2e04a2c84a2b04a2984a2804a2684a2544a4d04a4b44a4984a47c4a4684a4d44a4b84a49c4a4804a4604a4484a4304a4184a4004a3e84a3d04a3b84a3a04a3884a3704a3584a3404a3284a3104a2f84a00849ff449fd849fc449fac49f9849f884a1f84a1dc4a1c44a1a84a1984a1fc4a1e04a1c8)
  (.lf 0)) (.nd (.lf
  0x2f0c02f0802f0402f0002efc02ef802ef402ef002eec02ee802ee402ee002edc02ed802ed402ed002ecc02ec802ec402ec002ebc02eb802eb402eb002eac02ea802ea402ea002e9c02e9836e9036e8036e7036e6036e5036e4436e3436e2436e1436e0436df436de036dd036dc436db436da436d9436d8436d7436d6436d5036d4436d3036d2436d1436d0436cf036ce036cd436cc4147c1455c44814048128)
  (.lf 0)))

def shaPos188 : BTree :=
  .nd (.nd (.nd (.lf
  0xf70c0f7040043d0f6f40f6fc004390f6e865148004350f6e065118004310f6d4650ec0042d0f6c4650bc004290f6bc6508c004250f6ac65058004210f6a06502c0041d0f69864ff8004190f68c64fc8004150f67c64f98004110f67464f680040d0f66864f3c004090f65c64f10004050f64c64ee4004010f64064eb8003fd0f63464e8c003f90f62c64e60003f50f62064e34003f10f61064e04003ed0f604)
  (.lf 0)) (.nd (.lf
  0x5ef545ef385ef1c5ef005eee45eec85eeac5ee905ee785ee605ee485ee305ee185ee005ede85edd0548b013af913af513af113aed13ae913ae513ae113add13ad913ad513ad113acd13ac913ac513ac113abd13ab913ab513ab113aad13aa913aa513aa113a9d13a9913a9513a9113a8d13a8913a8513a8113a7d548a05edbc5ed9c5ed7c5ed5c5ed3c5ed1c5ecfc5ecdc5ecbc5ec9c5ec7c5ec5c5ec405ec24)
  (.lf 0))) (.nd (.nd (.lf
  0x2fcc02fcb80a1812fcb02fca80a17d2fca02fc980a1792fc902fc880a1752fc802fc780a1712fc702fc680a16d2fc602fc580a1692fc502fc480a1652fc402fc380a161012b6012b2012ae012aa012a6012a20129e0129a01296012920128e0128a01286012820127e01afe0c5a00a15d01afa0c5940a1590270c154bd0c58c154b901af60c5880a155026fc154b50c580154b101af20c57c0a151026ec154ad)
  (.lf 0)) (.nd (.lf
  0x5b7685b74c5b7305b7145b6f85b6d85b6bc5b6a45b6885b66c5b64c5b6345b6205b6045b5f05b5d45b5c05b5a85b5901595c1595015944159381592c159201591415908158fc158f0158e4158d8158cc158c0158b4158a8158a015890158881587c1587015864158581584c1584015834158281581c158101580415d2d0638c0dbc00dbbc0dbb80dbb40dbb00dbac0dba80dba40dba00db9c0db980db940db90)
  (.lf 0)))

def shaPos189 : BTree :=
  .nd (.nd (.nd (.lf
  0x56790a62414bd9001860a61c05675001820a610056710159414bd50b78814bd10b7841601520fec20fe80566d20fdc20fd80566920fc820fcc0566520fc020fb80566120fa820fb00565d20fa020f980565920f9020f8c0565520f7c20f780565120f6c20f700564d20f5820f5c0564920f5020f480564520f3c20f400564120f2820f300563d20f2020f1c0563920f0820f100563520efc20f000563120ef0)
  (.lf 0)) (.nd (.lf
  0xba1c0ba0c0b9fc0b9f80b9e40b9d80b9cc0b9c00b9b40b9a80b9a40b998064a8008160042000004012200a30c01218012100a2f80120801200011f80a2ec011f00a2e4011e8011e0011d8011d0011c80a2dc0a2c8011c00a2bc0a2b8011b8011b00a2a40a29c0a28c011a80a288011a00b74c007da00000011980a2740a2700a25c0a2500a244011900a2400a22c0a2280a21c0a21001188011800a1fc0a1f4)
  (.lf 0))) (.nd (.nd (.lf
  0xf2a564b5c405c80f2a164b30405bc0f29d64b04405b00f29964ad8405a40f29564aac405980f29164a804058c0f28d64a54405800f28964a28405740f28564a00405680f281649d84055c0f27d649b0405500f27964988405440f27564960405380f271649384052c0f26d64910405200f269648e8405140f265648c0405080f26162920404fc0f25d62900404f00f259628e0404e40f255628c0404d80f251)
  (.lf 0)) (.nd (.lf
  0x304b8304b0304ac15df10058c07c8407c8007c7c07c7807c7407c7007c6c07c6807c6407c6007c5c07c5807c5407c5007c4c07c4807c4407c4007c3c07c3807c3407c3007c2c07c2807c2407c2007c1c07c1807c1407c10304a430494304843047430464304543044430434304243041430404303f4303e4303d4303c4303b4303a430394303843037430364303543034430334303243031430304302f4302e4)
  (.lf 0)))

def shaPos190 : BTree :=
  .nd (.nd (.nd (.lf
  0x5eac002ee918c8c5eaa802ee518c805ea9002ee118c7018c6c02edd18c6418c6002ed918c5418c5002ed518c4018c4402ed118c3418c2c02ecd18c1c18c2402ec918c0c18c1002ec518bfc18c0402ec118bf418bf002ebd18be018be402eb918bd018bd402eb518bbc18bc402eb118bac18bb402ead18ba018b9c02ea918b9418b8c02ea518b8418b8002ea118b7018b7402e9d18b6018b5c02e9918b5418b50)
  (.lf 0)) (.nd (.lf
  0x69cc869c9c69c7069c4469c1869bf069bc869ba069b7869b5069b2869b0069ad869ab069a886984869820697f8697d0697a86978069758697306970863b7054cf869a5c69a2c699fc699d0699a4699786994c69920698f4698c86989c698746984c69824697fc697d4697ac697846975c697346970c694cc694a46947c694546942c69404693dc693b46938c63a9054ce4696e0696b0696806965469628695fc)
  (.lf 0))) (.nd (.nd (.lf
  0x377a80c7f93779c377980c7f5377883778c0c7f13777c377780c7ed377703776c0c7e93775c377600c7e53774c377500c7e1377383773c0c7dd37730377280c7d9377203771c0c7d53770c377080c7d137700376fc0c7cd376f0376e80c7c9376d8376dc0c7c5376c8376cc0c7c1376bc376b80c7bd376b0376ac0c7b93769c376980c7b537690376880c7b13767c376800c7ad376703766c0c7a93765c37658)
  (.lf 0)) (.nd (.lf
  0x231e0231d4231c4231b4231a423194231842317423164231502314423134231242311423104230f4230e0230d4159090023c04c9404c9004c8c04c8804c8404c8004c7c04c7804c7404c7004c6c04c6804c6404c6004c5c04c5804c5404c5004c4c04c4804c4404c4004c3c04c3804c3404c3004c2c04c2804c2404c20230c4230b0230a42309423084230742306423050230442303023024230142300022ff0)
  (.lf 0)))

def shaPos191 : BTree :=
  .nd (.nd (.nd (.lf
  0x7be1286382863c07bdd286282863007bd92861c2862007bd500e5a00e5600e5200e4e00e4a00e4600e4200e3e00e3a00e3600e3200e2e00e2a00e2600e2200e1e00e1a0ac2001ed40ac0c01ec401ebc01eac0abd801ea40abc001e8c0abac01e840ab900ab880ab7c0ab6c0b800003860ac1c07bd101ecc150890ac1415085003820ac1007bcd0037e0ac0807bc90ac00150810037a0abfc07bc501eb41507d)
  (.lf 0)) (.nd (.lf
  0x4a00449fec49fd449fbc49fa449f8c49f7449f6049f4c479b4479a449f3849f1c49f0049ee449ec849eac49e9449e7c49e6449e4c49e3449e1c49e0449dec49dd449dbc49da449d8c49d7449d5c49d4449d2c49d1449cfc49ce449ccc49cb449c9c49c8849c74479944798449c6049c4449c2849c0c49bf049bd449bbc49ba449b8c49b7449b5c49b4449b2c49b1449afc49ae449acc49ab449a9c49a8449a6c)
  (.lf 0))) (.nd (.nd (.lf
  0x1171911715117111170d117091170511701116fd116f9116f5116f1116ed116e9116e5116e1116dd15bad47cfc4f0584f0404f0284f0104eff84efe04efcc4efb84efa44ef904ef7c4ef684ef544ef404ef2c4ef184ef044eef04eedc4eec84eeb44eea04ee8c4ee784ee644ee504ee3c4ee284ee184ee0847cf0116d9116d5116d1116cd116c9116c5116c1116bd116b9116b5116b1116ad116a9116a5116a1)
  (.lf 0)) (.nd (.lf
  0x3d5cc3d5c015f6d000f40395c0395803954039500394c0394803944039400393c0393803934039300392c0392803924039200391c0391803914039100390c039080390403900038fc038f8038f4038f0038ec038e83d5b43d5a43d5943d5843d5743d5643d5543d5443d5343d5243d5143d5043d4f43d4e43d4d43d4c43d4b43d4a43d4943d4843d4743d4643d4543d4443d4343d4243d4143d4043d3f43d3e4)
  (.lf 0)))

def shaPos192 : BTree :=
  .nd (.nd (.nd (.lf 0x0) (.lf
  0x3e9ac3e9a03e9943e9883e97c3e9703e9643e9583e94c3e9403e9343e9283e91c3e9103e9043e8f83e8ec3e8e03e8d43e8c83e8bc3e8b03e8a43e8983e88c3e88015f990011403b3c03b3803b3403b3003b2c03b2803b2403b2003b1c03b1803b1403b1003b0c03b0803b0403b0003afc03af803af403af003aec03ae803ae403ae003adc03ad803ad403ad003acc03ac83e8743e8643e8543e8443e8343e824))
  (.nd (.lf
  0x11ce911ce511ce111cdd11cd911cd511cd111ccd11cc911cc511cc111cbd11cb911cb511cb111cad15bdd47e1c50cd850cc050ca850c9050c7850c6050c4c50c3850c2450c1050bfc50be850bd450bc050bac50b9850b8450b7050b5c50b4850b3450b2050b0c50af850ae450ad050abc50aa850a9850a8847e1011ca911ca511ca111c9d11c9911c9511c9111c8d11c8911c8511c8111c7d11c7911c7511c71)
  (.lf 0))) (.nd (.nd (.lf
  0x2929007f95292782927c07f91292682926c07f8d2925c2926007f892924c2924807f852923c2924007f812922c2923007f7d292182921c07f792920c2921007f7529200291f807f71291ec291e807f6d291e0291d807f69291cc291d007f65291b8291bc07f61291ac291b007f5d291a02919c07f59291882919007f55291782918007f51291702916c07f4d291582916007f492914c2914807f452913829140)
  (.lf 0)) (.nd (.lf
  0x4de044ddf04dddc4ddc84ddb44dda04dd8c4dd7c4dd6c47c4c47c404dd604dd484dd304dd184dd004dce84dcd44dcc04dcac4dc984dc844dc704dc5c4dc484dc344dc204dc0c4dbf84dbe44dbd04dbbc4dba84db944db804db6c4db584db444db304db204db1047c3447c284dafc4dae44dacc4dab44da9c4da844da704da5c4da484da344da204da0c4d9f84d9e44d9d04d9bc4d9a84d9944d9804d96c4d958)
  (.lf 0)))

def shaPos193 : BTree :=
  .nd (.nd (.nd (.lf
  0x5f9a8032e919a6c5f98c032e519a605f970032e119a505f954032dd19a485f938032d919a385f91c032d519a305f900032d119a245f8e4032cd19a185f8c8032c919a085f8ac032c519a005f890032c1199f45f878032bd199e45f860032b9199dc5f848032b5199d05f830032b1199c45f818032ad199b45f800032a9199a85f7e8032a51999c5f7d0032a11998c199900329d1998019984032991997019974)
  (.lf 0)) (.nd (.lf
  0x6755c675346750c674e4674bc674946746c67444632bc6329c6327c6325c6323c6321c631fc671dc671b46718c54c246741c673ec673bc6739067364673386730c672e0672b4672886725c6723067208671e0671b867190671686714067118670f0670c8631dc631bc6319c6317c6315c6313c6311c66e6066e3866e1054c10670a067070670406701466fe866fbc66f9066f6466f3866f0c66ee066eb466e8c)
  (.lf 0))) (.nd (.nd (.lf
  0x384d80cbf9384d0384cc0cbf5384bc384b80cbf1384b0384a80cbed384a03849c0cbe93848c384880cbe53847c384780cbe13846c384680cbdd38460384580cbd9384483844c0cbd53843c384380cbd138428384300cbcd489a03841c0cbc948988384100cbc548970384080cbc14895c383fc0cbbd48948383f00cbb948934383e00cbb548920383d80cbb14890c383cc0cbad488f8383c00cba9488e4383b4)
  (.lf 0)) (.nd (.lf
  0x244a42449424484159150bef0019fc019f40bec8019dc019cc019bc0be9c0be90019b4019ac0be680197c0025404dfc04df804df404df004dec04de804de404de004ddc04dd804dd404dd004dcc04dc804dc404dc004dbc04db804db404db004dac04da804da404da004d9c04d9804d9404d9004d8c04d882447424464244542444424430244242441424404243f0243e4243d4243c4243b4243a02439024384)
  (.lf 0)))

def shaPos194 : BTree :=
  .nd (.nd (.nd (.lf
  0x105281052c0083d1051c1051400839105041050800835104f4104fc00831104e4104ec0082d104d4104dc00829104c4104c800825104b4104b800821104a4104a80081d104981049c00819104841048800815104741047800811104641046c0080d104581045c00809104441044c008051043410438008011042410428007fd1041410418007f91040c562a8007f51040056288007f1103f056268007ed103e8)
  (.lf 0)) (.nd (.lf
  0x609d4609b86099c6098060964609486092c60910608f8608e0608c8608b060898608806086860850549f013ef913ef513ef113eed13ee913ee513ee113edd13ed913ed513ed113ecd13ec913ec513ec113ebd13eb913eb513eb113ead13ea913ea513ea113e9d13e9913e9513e9113e8d13e8913e8513e8113e7d549e06083c6081c607fc607dc607bc6079c6077c6075c6073c6071c606fc606dc606c0606a4)
  (.lf 0))) (.nd (.nd (.lf
  0xa54d309103090c0a54930900308fc0a545308f0308ec0a541308e0308dc0a53d308d0308cc0a539308c0308bc0a535308b0308ac0a531308a03089c0a52d308903088c0a529308803087c0a525308703086c0a521308603085c0a51d308503084c0a519308403083c0a515308303082c0a511308203081c0a50d308103080c0a50930800307fc0a505307f0307ec0a501307e0307dc0a4fd307d0307cc0a4f9)
  (.lf 0)) (.nd (.lf
  0x16dc016db016da016d9016d8016d7016d6016d5016d4016d2c16d201606d547185cca45cc845cc645cc445cc245cc045cbe45cbc45cba45cb845cb645cb445cb285cb0c5caf05cad45cab85ca9c5ca805ca645ca485ca2c5ca145c9fc5c9e45c9cc5c9b45c9a05c9885c97016d0c16d0416cf816cec16ce016cd016cc816cb816cb016ca416c9816c8c16c8016c7416c6816c5c16c5016c4416c3816c2c16c20)
  (.lf 0)))

def shaPos195 : BTree :=
  .nd (.nd (.nd (.lf
  0x21a80059f521a7021a6c059f121a6021a5c059ed21a5021a4c059e921a3c21a38059e521a2821a2c059e121a1c21a20059dd21a0c21a10059d9219fc21a00059d5219ec219e8059d1219dc219e0059cd219cc219c8059c9219bc219c0059c5219ac219a8059c12199c219a0059bd2198c21988059b9219782197c059b52196821970059b12195c21958059ad4b8d048998059a94b8b448980059a54b89848968)
  (.lf 0)) (.nd (.lf
  0xc0780c0700c05c01d9801d900c0580c04401d880c03801d800c0340650000daa27904004e0003d80aad80aacc0aac801d780aab80aaa801d7001d680aaa40aa9401d600aa8801d580aa8001d5001d4801d4001d3801d300aa7001d280aa6401d200aa5401d180aa500aa400aa3001d100b7e400d660001401d0801d0001cf801cf001ce801ce00aa2c0aa200aa1001cd801cd001cc801cc00aa0801cb80a9f4)
  (.lf 0))) (.nd (.nd (.lf
  0xf6a5537cc413300f6a1537ac413240f69d5378c413180f6995376c4130c0f69553750413000f69153734412f40f68d53718412e80f689536fc412dc0f685536e0412d00f681536c4412c40f67d490f8412b80f679490e4412ac0f67541298412a00f67141288412900f66d41278412800f66941268412700f66541258412600f66141248412500f65d41238412400f65941228412300f65541218412200f651)
  (.lf 0)) (.nd (.lf
  0x318903188c3188031878318743186c318643185c15e15005a407dec07de807de407de007ddc07dd807dd407dd007dcc07dc807dc407dc007dbc07db807db407db007dac07da807da407da007d9c07d9807d9407d9007d8c07d8807d8407d8007d7c07d78318543184431834318243181431804317f4317e4317d4317c4317b4317a431794317843177431764317543174431734317243171431704316f4316e4)
  (.lf 0)))

def shaPos196 : BTree :=
  .nd (.nd (.nd (.lf
  0xa141c0f01c0e01c0d01c0c01c0b01c0a01c0901c0801c0701c0601c0501c0401c0301c0201c0101c0001bff01bfe01bfd01bfc01bfb01bfa01bf901bf801bf701bf601bf501bf401bf301bf200648800a0c1bda81bd981bd881bd781bd681bd581bd481bd381bd281bd181bd081bcf81bce81bcd81bcc81bcb81bca81bc981bc881bc781bc681bc581bc481bc381bc281bc181bc081bbf81bbe81bbd806480)
  (.lf
  0xeef40eee40eee00eecc0eec00eebc0eea80eea00ee900ee840ee780ee6c0ee640ee580ee4c0ee3c0ee300ee240ee180ee100ee040edf40edec0ede00edd40edc80edbc0edb40eda00ed9848e804916c552a45527c552545522c55204551e0551bc5519855174551505512c55108550e4550c05509c5507855054550305500c54fe854fc454fa054f7c54f5854f3454f1054eec54ecc54eac54e8c4500c45004))
  (.nd (.lf
  0x57b6857b4c57b3057b1457af857adc57ac057aa457a8c57a7457a5c57a4457a2c57a14579fc579e45433c5434c57d1857cf857cd857cb857c9857c7857c5857c3857c1857bf857bd857bb857b9c57b8057b6457b4857b2c57b1057af457ad857abc57aa057a8857a7057a5857a4057a2857a10579f8579e0543381297912975129711296d1296912965129611295d1295912955129511294d129491294512941)
  (.lf 0))) (.nd (.nd (.lf
  0x2ce002cdfc092692cdf02cdec092652cde02cddc092612cdd02cdcc0925d2cdc02cdbc092592cdb02cdac092552cda02cd9c092512cd902cd8c0924d2cd802cd7c092492cd702cd6c092452cd602cd5c092412cd502cd4c0923d2cd402cd3c092392cd302cd2c092352cd202cd1c092312cd102cd0c0922d2cd002ccfc092292ccf02ccec092252cce02ccdc092212ccd02cccc0921d2ccc02ccbc092192ccb0)
  (.lf 0)) (.nd (.lf
  0x10138101241011810104100f8100e4100d815c91541f055f5455f3455f1455ef455ed455eb455e9455e7455e5455e3855e1455df455dd855dbc55da055d8455d6855d4c55d3055d1855cfc55ce055cc455cac55c9855c7c55c6855c5055c3855c20100c8100bc100b0100a4100981008c10080100741006810058100501004410038100281002010014100080fff80fff00ffe40ffd40ffcc0ffc00ffb40ffa4)
  (.lf 0)))

def shaPos197 : BTree :=
  .nd (.nd (.nd (.lf
  0x1deec1def0047291dee41dedc047251ded01ded4047211dec41dec00471d1deb41deb0047191dea01dea4047151de8c1de90047111de801de840470d1de6c1de74047091de5c1de64047051de4c1de54047011de3c1de40046fd1de341de2c046f91de201de24046f51de0c1de10046f11ddfc1de00046ed1ddf41ddec046e91dde41dddc046e549f30452b0046e149f14452a0046dd49ef845290046d949edc)
  (.lf 0)) (.nd (.lf
  0x5a9945a9785a95c5a9405a9245a9085a8f05a8d85a8c05a8a85a8905a8785a8605a848545705455c5a8305a8105a7f05a7d05a7b05a7905a7705a7505a7305a7105a6f05a6d05a6b45a6985a67c5a6605a6445a6285a60c5a5f05a5d45a5b85a5a05a5885a5705a5585a5405a5285a5105a4f854548545345a4e05a4c05a4a05a4805a4605a4405a4205a4005a3e05a3c05a3a05a3805a3645a3485a32c5a310)
  (.lf 0))) (.nd (.nd (.lf
  0x3cc203cc180e14d3cc103cc080e1493cc003cbf80e1453cbf03cbe80e1413cbe03cbd80e13d3cbd03cbc80e1393cbc03cbb80e1353cbb03cba80e1313cba03cb980e12d3cb903cb880e1293cb803cb780e1253cb703cb680e1213cb603cb580e11d3cb503cb480e1193cb403cb380e1153cb303cb280e1113cb203cb180e10d3cb103cb080e1093cb003caf80e1053caf03cae80e1013cae03cad80e0fd3cad0)
  (.lf 0)) (.nd (.lf
  0x5240766c0766807664076600765c0765807654076500764c0764807644076400763c0763807634076300762c0762807624076200761c0761807614076100760c076080760407600075fc075f82af542af402af342af242af142af002aef42aee02aed02aec02aeb42aea42ae942ae842ae742ae642ae542ae442ae342ae242ae142ae042adf42ade42add42adc42adb42ada42ad942ad8415955002d40557c)
  (.lf 0)))

def shaPos198 : BTree :=
  .nd (.nd (.nd (.lf
  0x1d9514fac14fb001d9114fa014f9c01d8d14f8c14f9401d8914f805aed801d8514f785aeb801d8114f6c5ae9801d7d14f605ae7801d7914f505ae5801d7514f445ae3801d7114f3c5ae1801d6d14f2c5adf801d6914f245add801d6514f185adb801d6114f0c5ad9801d5d14f005ad7801d5914ef45ad5c01d5514ee85ad4001d5114ed85ad2401d4d14ed05ad0801d4914ec45acec01d4514eb45acd001d41)
  (.lf 0)) (.nd (.lf
  0x3e9183e90c3e9003e8f43e8e83e8dc3e8d03e8c43e8b83e8ac3e8a03e8943e8883e87c48e4400fcc3e5243e5183e50c3e5003e4f43e4e83e4dc3e4d03e4c43e4b83e4ac3e4a03e4943e4883e47c3e4703e4643e4583e44c3e4403e4343e4283e41c3e4103e4043e3f83e3ec3e3e03e3d43e3c848e3c00fc03e0743e0683e05c3e0503e0443e0383e02c3e0203e0143e0083dffc3dff03dfe43dfd83dfcc3dfc0)
  (.lf 0))) (.nd (.nd (.lf
  0x15705158bd344603445c0b821344503444c0b81d344403443c0b819344303442c0b815344203441c0b811344103440c0b80d34400343fc0b809343f0343ec0b805343e0343dc0b801343d0343cc0b7fd343c0343bc0b7f9343b0343ac0b7f5343a03439c0b7f1343903438c0b7ed343803437c0b7e9343703436c0b7e5343603435c0b7e1343503434c0b7dd343403433c0b7d9343303432c0b7d5343203431c)
  (.lf 0)) (.nd (.lf
  0x1d40467c0467804674046700466c0466804664046600465c0465804654046500464c0464804644046400463c0463804634046300462c0462804624046200461c0461804614046100460c046081dae41dad01dac41dab41daa41da941da841da741da601da541da401da341da241da141da041d9f01d9e41d9d41d9c41d9b41d9a41d9941d9841d9701d9641d9541d9441d9301d9241d914148890061c084f4)
  (.lf 0)))

def shaPos199 : BTree :=
  .nd (.nd (.nd (.lf
  0x6cd9257102570806cd5256f8256fc06cd1256ec256e806ccd256e0256d806cc9256cc256c806cc5256b8256c006cc1256a8256b006cbd25698256a006cb9256882568c06cb52567c2567806cb12566c2566806cad256582565c06ca9256502564806ca5256402563c06ca1256282563006c9d256202561c06c992560c2561006c95255f82560006c91255e8255ec06c8d255e0255dc06c89255c8255d006c85)
  (.lf 0)) (.nd (.lf
  0x2883828830288282882028818288102880c28800287fc48d9800c1c282502824c2824028238282302822c282242821c282102820828200281f8281f0281ec281e0281d8281d0281c8281c0281b8281b4281a8281a428198281902818c2818028178281702816848d8c00c0c27bc027bb827bb027ba827ba027b9827b9027b8827b8027b7827b7027b6827b6027b5827b5027b4827b4027b3827b3027b2c27b20)
  (.lf 0))) (.nd (.nd (.lf
  0x4e4284e4104e3f84e3e44e3d04e3bc4e3a84e3944e3804e36c4e3584e3444e3304e31c4e3084e2f44e2e04e06c4e0584e0444e0304e01c4e0084dff44e20c4e1f44e1dc4e1c44e1ac4e2104e1f84e1e04e1c84e1b04e1984e1844e1704e15c4e1484e1344e1204e10c4e0f84e0e44e0d04e0bc4e0a84e0944e0804de0c4ddf84dde44ddd04ddbc4dda84dd944dfac4df944df7c4df644df4c4dfb04df984df80)
  (.lf 0)) (.nd (.lf
  0x3825c3824c38240382383822c382203821438208381fc381f0381e4381d8381cc381c0381b4381a83819c3819038184381783816c3816015e9500064030ec030e8030e4030e0030dc030d8030d4030d0030cc030c8030c4030c0030bc030b8030b4030b0030ac030a8030a4030a00309c0309803094030900308c0308803084030800307c03078381543814438134381203811438104380f4380e4380d4380c4)
  (.lf 0)))

def shaPos200 : BTree :=
  .nd (.nd (.nd (.lf
  0x90014f8414f7414f6814f5c14f5414f4c14f3814f3014f2014f1414f0814efc14ef014ee414edc14ecc14ec014eb814ea814ea014e9014e8814e7814e6c14e6014e5c14e5014e3c14e3414e245459c008f814c3814c2c14c2414c1414c0814c0014bf414be414bdc14bd014bc814bb414bac14b9c14b9014b8814b7814b7414b6014b5814b4c14b3c14b3014b2414b1814b0c14b0014af414aec14adc54574)
  (.lf
  0x41d5441d4841d3c41d3041d2441d1841d0c41d0041cf441ce841cdc41cd041cc441cb841cac41ca041c9441c8841c7c41c7041c6441c5841c4c41c4041c3441c2841c1c41c1015e3d0016c04064040600405c0405804054040500404c0404804044040400403c0403804034040300402c0402804024040200401c0401804014040100400c04008040040400003ffc03ff803ff403ff041c0441bf441be441bd4))
  (.nd (.lf
  0x5cfc05cfa05cf805cf605cf405cf205cf005cee05cec05cea05ce805ce645ce485ce2c5ce105cdf45cdd85ca705ca505ca345cc8c5cc6c5cc4c5cc2c5cc0c5cbec5cbcc5cbac5cb945cb6c5cb545cc905cc705cc505cc305cc105cbf05cbd05cbb05cb8c5cb705cb4c5cb305cb145caf85cadc5cac05caa45ca885c71c5c7005c6e85c93c5c91c5c8fc5c8dc5c8bc5c89c5c87c5c85c5c83c5c81c5c8045c944)
  (.lf 0))) (.nd (.nd (.lf
  0x4ee5863a0c088c94ee44639ec088c54ee30639cc088c14ee2062070088bd4ee1062054088b92af502af48088b52af3c2af38088b12af2c2af28088ad2af202af18088a92af102af08088a52aefc2aef8088a12aef02aee80889d2aedc2aed8088992aecc2aec8088952aebc2aeb8088912aeb02aea80888d2aea02ae98088892ae902ae88088852ae802ae78088812ae702ae680887d2ae602ae58088792ae50)
  (.lf 0)) (.nd (.lf
  0x4d8b44d8a447c1447c204daf44dadc4dac44daac4da904da7c4d8084d7f44d7e04d7cc4d7b84d7a44d7904d77c4d7684d7544d7404d72c4d7184d7044d6f04d6dc4d6c84d6b44d6a04d68c4d6744d6644d6544d64447bfc47c084d8944d87c4d8644d84c4d8304d81c4d5a84d5944d5804d56c4d5584d5444d5304d51c4d5084d4f44d4e04d4cc4d4b84d4a44d4904d47c4d4684d4544d4404d42c4d4184d404)
  (.lf 0)))

def shaPos201 : BTree :=
  .nd (.nd (.nd (.lf
  0x3d951bfbc1bfc403d911bfac1bfb403d8d1bf9c1bfa403d891bf8c1bf9403d851bf7c1bf8403d811bf6c1bf7403d7d1bf5c1bf6403d791bf4c1bf5403d751bf3c1bf4403d711bf2c1bf3403d6d1bf1c1bf2403d691bf104944403d651bf084942c03d611befc4941403d5d1beec493fc03d591bee4493e403d551bed4493cc03d511becc493b403d4d1bec04939c03d491beb44938403d451bea44936c03d41)
  (.lf 0)) (.nd (.lf
  0x277e8277e4277c8277bc277ac277982778c277782777427758277542774427728277180029000bf0272602725027238272282721827208271fc271f0271d8271c8271c0271ac2719827190271782716827158271482713c271302711827108270f8270e8270dc270d0270b8270a82709c2708c0028800be026bcc26bb826bac26b9826b8c26b7c26b6c26b5c26b4826b3826b2826b1826b0826af826aec26adc)
  (.lf 0))) (.nd (.nd (.lf
  0xd6a562cd83a8640d6a162cb83a85c0d69d61d343a84c0d69961d183a8440d695682143a8340d691681e43a82c0d68d681b43a8200d689681883a8100d6856815c3a8080d681681303a7f80d67d681043a7f00d679680d83a7e40d675680ac3a7d40d671680803a7cc0d66d680543a7bc0d669680283a7b40d665680003a7a40d66167fd83a79c0d65d67fb03a78c0d65967f883a7840d65567f603a7740d651)
  (.lf 0)) (.nd (.lf
  0x27a8427a7027a6427a5427a4427a3427a2427a1427a04279f4279e4279d4279c4279b4279a427994279842797427964279542794427934279242791427900159350c0c40c0b801dec01ddc01dd401db401dac0c06c0c06401d9c0c04c01d8c01d840650400294051bc051b8051b4051b0051ac051a8051a4051a00519c0519805194051900518c0518805184051800517c0517805174051700516c0516805164)
  (.lf 0)))

def shaPos202 : BTree :=
  .nd (.nd (.nd (.lf
  0x58828012e912a7c5880c012e512a70587ec012e112a64587d4012dd12a54587bc012d912a4c587a4012d512a3c5878c012d112a3458774012cd12a2858760012c912a1c58744012c512a0c5872c012c1129fc12a00012bd129ec129f0012b9129dc129e0012b5129d4129d0012b1129bc129c0012ad129ac129b0012a91299c129a0012a51298c12990012a11297c129840129d1296c12970012991295c12960)
  (.lf 0)) (.nd (.lf
  0x3c1ec3c1dc3c1cc3c1bc3c1ac3c19c3c18c3c17c3c16c3c15c3c14c3c13c3c12c3c11c000d000f683be403be303be243be143bdf83bdec3bddc3bdc83bdb83bda83bd9c3bd8c3bd783bd6c3bd643bd4c3bd403bd283bd243bd083bcf83bcf43bce03bccc3bcb83bcb03bc9c3bc943bc783bc74000c800f5c3b9943b97c3b9743b9603b9503b93c3b9343b91c3b9103b8fc3b8ec3b8dc3b8d03b8bc3b8ac3b89c)
  (.lf 0))) (.nd (.nd (.lf
  0x491180ae7d518e0491040ae7932568325700ae7532558325600ae7132548325500ae6d32538325400ae6932528325300ae6532518325200ae6132508325100ae5d324f8325000ae59324e8324f00ae55324d8324e00ae51324c8324d00ae4d324b8324c00ae49324a8324b00ae4532498324a00ae4132488324900ae3d32478324800ae3932468324700ae3532458324600ae3132448324500ae2d3243832440)
  (.lf 0)) (.nd (.lf
  0x1a4081a3fc1a3f01a3e81a3d81a3d01a3c41a3b41a3ac1a3a01a3941a3881a37c15da9064440e6880e6840e6800e67c0e6780e6740e6700e66c0e6680e6640e6600e65c0e6580e6540e6500e64c0e6480e6440e6400e63c0e6380e6340e6300e62c0e6280e6240e6200e61c0e6180e6141a3701a3601a3501a3401a3301a3201a3101a3001a2f01a2e01a2d01a2c01a2b01a2a01a2901a2801a2701a2601a250)
  (.lf 0)))

def shaPos203 : BTree :=
  .nd (.nd (.nd (.lf
  0x2386c23868063452385c23858063412384c238480633d2383c23838063392382c23828063352381c23818063312380c238080632d237fc237f806329237ec237e806325237e0237d806321237cc237c80631d237c0237b806319237ac237a806315237a0237980631123788237900630d2378023778063092376c2376806305237602375c0630100b9a00b9600b9200b8e00b8a00b8600b8200b7e00b7a00b76)
  (.lf 0)) (.nd (.lf
  0x2804c280382802c28018280082800027ff027fd827fcc27fc427fac27f9c27f8c004e800c0827acc27abc27aac27a9827a8827a7c27a7427a5827a4c27a3c27a2c27a1827a0c279fc279ec279dc279cc279bc279ac279982798c2797c2796827958279482793c279282791c2790800bf42743c27428274182740827400273e8273d8273c8273c4273a82739c2738c273802737427358273502733c2732827318)
  (.lf 0))) (.nd (.nd (.lf
  0x43690436881014d43680436781014943670436681014543660436581014143650436481013d533204364010139532fc4363410135532d84362810131532b44361c1012d5329043610101295326c436041012553248435f81012153224435ec1011d53200435e010119531dc435d410115531b8435c81011153194435bc1010d53174435b01010953154435a410105531344359810101531144358c100fd530f4)
  (.lf 0)) (.nd (.lf
  0x34d4c34d4434d3c34d3434d2c34d2434d1c34d1434d0c34d0434cfc34cf434cec34ce434cdc15c21005e4081ac081a8081a4081a00819c0819808194081900818c0818808184081800817c0817808174081700816c0816808164081600815c0815808154081500814c0814808144081400813c0813834cd434cc434cb434ca434c9434c8434c7434c6434c5434c4434c3434c2434c1434c0434bf434be434bd4)
  (.lf 0)))

def shaPos204 : BTree :=
  .nd (.nd (.nd (.lf
  0x62f7062f5061dd461db866d0466cd466d0866cd866ca866c7c66c5066c2466bf866bcc66ba066b7466b4866b2062f1062ef062ed062eb062e9062e7061d9c61d806698c6695c66990669606693066904668d8668ac668806685466828667fc667d0667a862e3062e1062df062dd062db062d9061d6461d4866610665e066614665e4665b4665886655c6653066504664d8664ac66480664546642c62d5062d30)
  (.lf 0)) (.nd (.lf
  0x1343d1343913435134311342d1342913425134211341d1341913415134111340d134091340513401133fd546985c2ac5c28c5c26c5c24c5c22c5c20c5c1ec5c1cc5c1ac5c18c5c16c5c14c5c1305c1145c0f85c0dc5c0c05c0a45c0885c06c5c0505c0345c01c5c0045bfec5bfd45bfbc5bfa45bf8c5bf7454684546945c2a85c2885c2685c2485c2285c2085c1e85c1c85c1a85c1885c1685c1485c12c5c110)
  (.lf 0))) (.nd (.nd (.lf
  0x504506b35c09bb55043c6b33409bb1504286b30c09bad504146b2e409ba9504006426c09ba5503ec6424c09ba1503d86422c09b9d503c46420c09b99503b0641ec09b955039c641cc09b9150388641ac09b8d503786226809b89503686224c09b852ea582ea6009b812ea482ea5009b7d2ea382ea4009b792ea282ea3009b752ea182ea2009b712ea082ea1009b6d2e9f82ea0009b692e9e82e9f009b652e9d8)
  (.lf 0)) (.nd (.lf
  0x13794137881377c1377013764137581374c13740137341601d0633c0d7100d70c0d7080d7040d7000d6fc0d6f80d6f40d6f00d6ec0d6e80d6e40d6e00d6dc0d6d80d6d40d6d00d6cc0d6c80d6c40d6c00d6bc0d6b80d6b40d6b00d6ac0d6a80d6a40d6a00d69c137241371813708136f4136e8136d4136c8136b8136a813694136881367813668136581364813638136241361813608135f8135e8135d4135c8)
  (.lf 0)))

def shaPos205 : BTree :=
  .nd (.nd (.nd (.lf
  0x50651fc6c1fc68050611fc5c1fc580505d1fc4c1fc480505900996009920098e0098a00986009820097e0097a00976009720096e0096a00966009620095e0095a00956009520a54c0a540014b4014ac014840a5100a5040147c0a4ec0146c0a4d40a4c80a4bc0a4b00a4a40a4940a488014640013e0a548050550013a0a53c050510a53414b61001360a5300504d014a414b5d0149c14b590149414b550148c)
  (.lf 0)) (.nd (.lf
  0x5a1e45a1cc5a1b45a19c54514545285a4d05a4b45a4945a4705a4545a4345a4145a3f45a3d45a0645a0405a0245a00859fec59fd059fb459f9859f7c59f6059f4459f2459f0c59ef459edc59ec459eac59e9459e7c59e6459e4c544ec545005a1845a1645a1445a1245a1045a0e45a0c45a0a45a08459d1459cec59cd459cb859c9c59c8059c6459c4859c2c59c1059bf459bd459bbc59ba459b8c59b7459b5c)
  (.lf 0))) (.nd (.nd (.lf
  0x3ef780ebf9695003ef6c0ebf5694d83ef600ebf1694b03ef540ebed694883ef480ebe9694603ef3c0ebe5694383ef300ebe1694103ef240ebdd693e83ef180ebd9693c03ef0c0ebd5693983ef000ebd163a983eef40ebcd63a783eee80ebc963a583eedc0ebc563a383eed00ebc163a183eec40ebbd639f83eeb80ebb9639d83eeac0ebb56207c3eea00ebb1620603ee940ebad6b6583ee880eba96b6283ee7c)
  (.lf 0)) (.nd (.lf
  0x7a1c07a1807a1407a1007a0c07a0807a0407a00079fc079f8079f4079f0079ec079e8079e4079e0079dc079d8079d4079d0079cc079c8079c4079c0079bc079b82e3d42e3c42e3b42e3a42e3942e3842e3742e3642e3542e3442e3342e3242e3142e3042e2f42e2e42e2d42e2c42e2b42e2a42e2942e2842e2742e2642e2542e2442e2342e2242e2142e20415975003140593c0593805934059300592c05928)
  (.lf 0)))

def shaPos206 : BTree :=
  .nd (.nd (.nd (.lf
  0x175341753c0283d1752c1752402839175141751c028351750c1750402831174f4174fc0282d174ec174e402829174d4174dc02825174cc174c402821174b4174bc0281d174ac174a402819174941749c028151748c1748402811174741747c0280d1746c17468028091745c17458028051744c17448028011743c17438027fd1742c17428027f91741c17418027f51740c17408027f1173fc173f8027ed173ec)
  (.lf 0)) (.nd (.lf
  0x4357c4357043564435584354c4354043534435284351c4351043504434f8434ec434e045014010904318c4318043174431684315c4315043144431384312c431204311443108430fc430f0430e4430d8430cc430c0430b4430a84309c4309043084430784306c4306043054430484303c43030462080108442cdc42cd042cc442cb842cac42ca042c9442c8842c7c42c7042c6442c5842c4c42c4042c3442c28)
  (.lf 0))) (.nd (.nd (.lf
  0x3612c0c179361203611c0c175361103610c0c17136100360fc0c16d360f0360ec0c169360e0360dc0c165360d0360cc0c161360c0360bc0c15d360b0360ac0c159360a03609c0c155360903608c0c151360803607c0c14d360703606c0c149360603605c0c145360503604c0c141360403603c0c13d360303602c0c139360203601c0c135360103600c0c1313600035ffc0c12d35ff035fec0c12935fe035fdc)
  (.lf 0)) (.nd (.lf
  0x2107421064210542104421034210242101021004158f50021404a3c04a3804a3404a3004a2c04a2804a2404a2004a1c04a1804a1404a1004a0c04a0804a0404a00049fc049f8049f4049f0049ec049e8049e4049e0049dc049d8049d4049d0049cc049c820ff020fe420fd420fc420fb420fa420f9420f8020f7420f6020f5420f4420f3420f2420f1420f0420ef420ee420ed020ec420eb420ea020e9020e84)
  (.lf 0)))

def shaPos207 : BTree :=
  .nd (.nd (.nd (.lf
  0x61e5c0760d274382744007609274302742c07605274202741c07601274102740c075fd273fc273f8075f9273f0273ec075f5273e0273dc075f1273d0273cc075ed273bc273b8075e9273ac273b0075e527398273a0075e12739027388075dd273782737c075d9273682736c075d5273602735c075d12734c27348075cd2733827340075c9273302732c075c5273202731c075c12730c27308075bd272fc272f8)
  (.lf 0)) (.nd (.lf
  0x2897428958289482893c2892c2892428910288fc288ec006f000c2028428284182840828400283ec283dc283cc283bc283ac2839828388283782836c28358283542833c283282831c28308282fc282ec282d8282c8282bc282b4282a428294282842826828258006e800c1027d9c27d8c27d7c27d7027d5827d4c27d3827d2c27d2427d0c27cfc27cec27cdc27cd427cb827cac27c9c27c8827c7c27c6827c60)
  (.lf 0))) (.nd (.nd (.lf
  0x10d6910d6510d6110d5d10d5910d5510d5110d4d10d4910d4510d4110d3d10d3910d3510d3110d2d15b5d47b1c4c0d84c0c04c0a84c0904c0784c0604c04c4c0384c0244c0104bffc4bfe84bfd44bfc04bfac4bf984bf844bf704bf5c4bf484bf344bf204bf0c4bef84bee44bed04bebc4bea84be984be8847b0c10d2910d2510d2110d1d10d1910d1510d1110d0d10d0910d0510d0110cfd10cf910cf510cf1)
  (.lf 0)) (.nd (.lf
  0x3b6043b5f83b5ec3b5e03b5d03b5c43b5b83b5b03b5a03b5983b58c3b5803b5743b5683b55c3b5503b5443b5383b52c3b5203b5143b5083b4fc3b4ec15f19000bc03614036100360c036080360403600035fc035f8035f4035f0035ec035e8035e4035e0035dc035d8035d4035d0035cc035c8035c4035c0035bc035b8035b4035b0035ac035a8035a4035a03b4e43b4d43b4c43b4b43b4a43b4943b4843b474)
  (.lf 0)))

def shaPos208 : BTree :=
  .nd (.nd (.nd (.lf
  0x88011b0011af411af011adc11ad811acc11ab811aac11aa811a9811a8c11a7c11a7411a6411a5811a4c11a4811a3411a3011a2411a1011a04119f8119f0119e0119dc119c8119bc119b4119ac5431c00878117c0117ac117a41179c117901177c11770117681175c1174c117481173c11730117201171411704116fc116ec116e4116d8116c8116c4116b0116a4116a01169411684116741166811660542f4)
  (.lf
  0x6a4746a4486a41c6a3f06a3c46a3986a36c6a3406a3146a2ec6a2c46a29c6a2746a24c6a2246a1fc6a1d46a1ac6a18463e1463df463dd463db463d9463d7463d54621586213c402b4402a84029c4029040284402784026c4026040254402484023c4023040224402184020c40200401f4401e8401dc401d0401c4401b8401ac401a040194401884017c40170401644015815f6952f7c6489c6486c6483c64810))
  (.nd (.lf
  0x565c0565a45658056560565405652056500564e0564c0564a05648056464564485642c56410563f4563d85606c5605056038562905626c562545623056214561f0561d4561b05618c56174561545628c56270562505622c5620c561ec561cc561ac561905616c5614c5613056114560f8560dc560c0560a45608855d1c55d0055ce855f4455f2455f0055ee055ebc55ea455e7c55e6455e3c55e2055e0455f3c)
  (.lf 0))) (.nd (.nd (.lf
  0x2a0780841d2a0702a06c084192a0602a0580841500f3200f2e00f2a00f2600f2200f1e00f1a00f1600f1200f0e00f0a00f06020d415191020cc1518d020c4151890c1f815185019c60c1f408411019c20c1e80840d0c1e015181019be0c1dc08409019ba0c1d008405020ac1517d0c1cc15179019b60c1c4084010c1c015175019b20c1bc083fd02094151710c1b41516d019ae0c1ac083f9019aa0c1a4083f5)
  (.lf 0)) (.nd (.lf
  0x54fb854f9454f7054f4c54f2854f0454ee054ec054ea04916447f9852be052bc452ba852b8c52b7052b5452b3c52b2452b0c52af452adc52ac452aac52a9452a7c52a6452a4c52a3452a1c52a04529ec529d4529bc529a45298c529745295c52944529305291c47f8847f7852908528ec528d0528b4528985287c528645284c528345281c52804527ec527d4527bc527a45278c527745275c527445272c52714)
  (.lf 0)))

def shaPos209 : BTree :=
  .nd (.nd (.nd (.lf
  0x1ad3c1ad440383d1ad2c1ad34038391ad1c1ad24038351ad0c1ad14038311acfc1ad040382d1acec1acf4038291acdc1ace4038251accc1acd4038211acbc1acc40381d1acac1acb4038191ac9c1aca4038151ac8c1ac94038111ac7c1ac840380d1ac6c1ac74038091ac5c1ac64038051ac4c1ac54038011ac3c1ac44037fd1ac2c1ac34037f91ac1c1ac24037f51ac0c1ac14037f11abfc1ac04037ed1abec)
  (.lf 0)) (.nd (.lf
  0x469d4469c0469ac4699846984469704695c4694846934469244691446904468f4468e4468d4467904677c4676845048468c4468ac468944687c468644684c468344681c46804467ec467d4467bc467a846794467804676c4675846744467304671c46708466f4466e4466d4466c4466b4466a446694465504653c4652845040466844666c466544663c466244660c465f4465dc465c4465ac465944657c46568)
  (.lf 0))) (.nd (.nd (.lf
  0x653783968c0d14d6534c3967c0d14965320396740d145652f4396680d141652cc396580d13d652a43964c0d1396527c396440d13565250396340d1316522c3962c0d12d65204396200d129651dc396140d125651b4396080d1216518c395fc0d11d65164395f00d119629f8395e40d115629d8395d80d111629b8395c80d10d62998395c00d10962978395b40d10562958395a80d10162938395980d0fd61c54)
  (.lf 0)) (.nd (.lf
  0x25fe425fd425fc425fb425fa425f9425f8425f7025f6425f5425f4425f3425f2425f1425f0425ef425ee425ed425ec41592501bec01be401bcc01bc40bf700bf640bf5c0bf500bf440bf380bf2c0bf2001bbc01bb401b9c01b940027404fdc04fd804fd404fd004fcc04fc804fc404fc004fbc04fb804fb404fb004fac04fa804fa404fa004f9c04f9804f9404f9004f8c04f8804f8404f8004f7c04f7804f74)
  (.lf 0)))

def shaPos210 : BTree :=
  .nd (.nd (.nd (.lf
  0xd95117b05766800d91117a05764400d8d117945762400d89117885760400d8511780575e800d8111774575c800d7d11764575a400d79117585758400d75117505756800d71117405754400d6d117345752400d69117285750800d651171c574f000d6111710574d000d5d11708574b400d59116f85749c00d55116f05748000d51116e05746400d4d116d45744400d49116cc5742800d45116bc5740c00d41)
  (.lf 0)) (.nd (.lf
  0x64e4064e1464de864dbc64d9064d6464d3c64d1464cec64cc464c9c64c7464c4c64c24552d0144511444d1444914445144411443d1443914435144311442d1442914425144211441d1441914415144111440d144091440514401143fd143f9143f5143f1143ed143e9143e5143e1143dd143d9143d5552f46513065100650d0650a065070650406501064fe064fb064f8064f5064f2064ef464ec864e9c64e70)
  (.lf 0))) (.nd (.nd (.lf
  0x13ae013aa013a6013a20139e0139a01396013920138e01b820c72c0a9d501b7e0c7200a9d101b7a0c7140a9cd02894155850c70c1558101b760c7080a9c90c7001557d01b720c6fc0a9c50c6f41557901b6e0c6f00a9c101b6a0c6e40a9bd01b660c6d80a9b901b620c6cc0a9b501b5e0c6c00a9b102874155750c6b81557101b5a0c6b40a9ad0c6ac1556d01b560c6a80a9a901b520c69c0a9a501b4e0c690)
  (.lf 0)) (.nd (.lf
  0xe2840e2800e27c0e2780e2740e2700e26c0e2680e2640e2600e25c0e2580e25418930189201891018900188f0188e0188d0188c0188b0188a01889018880188701885c1885018840188301881c1881018800187f0187e0187d0187c0187ac187a01878c18780187701876015d75548585e7245e7045e6e45e6c45e6a45e6845e6645e6445e6245e6045e5e45e5c45e5a85e58c5e5705e5545e5385e51c5e500)
  (.lf 0)))

def shaPos211 : BTree :=
  .nd (.nd (.nd (.lf
  0xb7a014cc10b79c14cbd22a3022a2c05ec122a2022a1c05ebd22a1022a0c05eb922a00229fc05eb5229f0229ec05eb1229e0229dc05ead229d0229cc05ea9229c0229bc05ea5229b0229ac05ea1229a02299c05e9d229902298805e99229802297c05e952296c2296805e91229602295c05e8d229482294c05e89229382293c05e85229282292c05e81229202291c05e7d2290c2290805e79228f82290005e75)
  (.lf 0)) (.nd (.lf
  0xb5f402c3002c2802c2002c180b5e802c1002c080b5dc02c000b5d00b5c402bf80b8b80157200e2c0c9a402bf00c9980c98c02be802be00c9800c9740c9680c95c0c95002bd802bd002bc80c94402bc002bb802bb00c93802ba802ba002b980c92c0c9200c9140c9080c8fc02b9002b88065700153200e1802b8002b780c8f002b7002b680c8e402b6002b5802b500c8d80c8cc0c8c00c8b40c8a80c89c0c890)
  (.lf 0))) (.nd (.nd (.lf
  0x425000fbf9424e8424f00fbf5424d8424e00fbf1424c8424d00fbed424b8424c00fbe9424a8424b00fbe542498424a00fbe142488424900fbdd42478424800fbd942468424700fbd542458424600fbd142448424500fbcd42438424400fbc942428424300fbc542418424200fbc142408424100fbbd423f8424000fbb9423e8423f00fbb5423d8423e00fbb1423c8423d00fbad423b8423c00fba9423a8423b0)
  (.lf 0)) (.nd (.lf
  0x3337c333743336c3336033358333543334833344333383333433328333243331c333103330c33304332f8332f0332e8332e0332dc332d0332c8332c4332b8332b4332ac332a03329c15c01005c407fcc07fc807fc407fc007fbc07fb807fb407fb007fac07fa807fa407fa007f9c07f9807f9407f9007f8c07f8807f8407f8007f7c07f7807f7407f7007f6c07f6807f6407f6007f5c07f58332943328433274)
  (.lf 0)))

def shaPos212 : BTree :=
  .nd (.nd (.nd (.lf
  0x6b1c86b19c6b1706b1446b1186b0ec6b0c46ac906ac686ac406ac186abf06af406af106aee06aeb46ae886ae5c6ae306ae046add86adac6ad806af446af146aee46aeb86ae8c6ae606ae346ae086addc6adb06ad846ad586ad306a9246a8fc6a8d46a8ac6a8846abd46aba46ab746ab486ab1c6aaf06aac46aa986aa6c6aa406aa146abd86aba86ab786ab4c6ab206aaf46aac86aa9c6aa706aa446aa186a9ec)
  (.lf 0)) (.nd (.lf
  0x59fd459fb859f9c59f8059f6459f4859f2c59f1059ef859ee059ec859eb059e9859e8059e6859e50544f012ef912ef512ef112eed12ee912ee512ee112edd12ed912ed512ed112ecd12ec912ec512ec112ebd12eb912eb512eb112ead12ea912ea512ea112e9d12e9912e9512e9112e8d12e8912e8512e8112e7d544e059e3c59e1c59dfc59ddc59dbc59d9c59d7c59d5c59d3c59d1c59cfc59cdc59cc059ca4)
  (.lf 0))) (.nd (.nd (.lf
  0x2dbd0097012dbb82dbc0096fd2dba82dbb0096f92db982dba0096f52db882db90096f12db782db80096ed2db682db70096e9011720116e0116a01166011620115e0115a01156011520114e0114a0114601ac60c4f8096e5024d4153950c4f01539101ac20c4ec096e10c4e41538d01abe0c4e0096dd024bc153890c4d81538501aba0c4d4096d901ab60c4c8096d501ab20c4bc096d10c4b41538101aae0c4b0)
  (.lf 0)) (.nd (.lf
  0xd2fc0d2f80d2f40d2f00d2ec0d2e80d2e40d2e00d2dc11ce411cd811cc811cb811ca811c9811c8811c7811c6811c5811c4811c3811c2411c1811c0811bf811be411bd811bc811bb811ba411b9811b8411b7411b6411b5411b4411b3411b2411b181601154330579d4579b45799457974579545793457914578f4578d4578b45789457874578585783c5782057804577e8577cc577b057794577785775c57744)
  (.lf 0)))

def shaPos213 : BTree :=
  .nd (.nd (.nd (.lf
  0x4bf50009a0a35c04bf1013a414ad90139c14ad50a35414ad1000960a35004bed000920a34004be90a33c14acd0008e0a33404be50008a0a32804be10a32414ac9000860a31c04bdd000820a31004bd90b75415fed1eefc1eef804bd51eeec1eee804bd11eedc1eed804bcd1eecc1eec804bc91eeb81eeb404bc51eeac1eea804bc11ee9c1ee9804bbd1ee881ee8404bb91ee781ee7c04bb51ee6c1ee6804bb1)
  (.lf 0)) (.nd (.lf
  0x61394613786135c613406132461308612f0612d8612c0612a86129061278612606124854a7054a5c6123061210611f0611d0611b06119061170611506113061110610f0610d0610b4610986107c6106061044610286100c60ff060fd460fb860fa060f8860f7060f5860f4060f2860f1060ef854a4854a3460ee060ec060ea060e8060e6060e4060e2060e0060de060dc060da060d8060d6460d4860d2c60d10)
  (.lf 0))) (.nd (.nd (.lf
  0xe6a53ddb03dda80e6a13dda03dd980e69d3dd903dd880e6993dd803dd780e6953dd703dd680e6913dd603dd580e68d3dd503dd480e6893dd403dd380e685688f83dd300e681688c83dd240e67d688983dd180e6796886c3dd0c0e675688403dd000e671688143dcf40e66d687e83dce80e669687bc3dcdc0e665687903dcd00e661687643dcc40e65d687383dcb80e659687103dcac0e655686e83dca00e651)
  (.lf 0)) (.nd (.lf
  0x783807834078300782c0782807824078200781c0781807814078100780c078080780407800077fc077f8077f4077f0077ec077e8077e4077e0077dc077d82c9942c9842c9742c9642c9542c9442c9342c9242c9142c9042c8f42c8e42c8d42c8c42c8b42c8a42c8942c8842c8742c8642c8542c8442c8342c8242c8142c8042c7f42c7e42c7d42c7c4159650239c0c3940238c0c37c0c3700c3640c35802364)
  (.lf 0)))

def shaPos214 : BTree :=
  .nd (.nd (.nd (.lf
  0x5c0e4022e9162745c0c8022e5162685c0ac022e11625c5c090022dd162505c078022d9162445c058022d5162385c03c022d11622c5c024022cd162205c00c022c9162145bff8022c5162085bfe0022c1161fc5bfc8022bd161f05bfac022b9161e05bf94022b5161d85bf80022b1161cc161c8022ad161b4161b8022a9161a8161ac022a5161981619c022a11618c161880229d1617c1617802299161681616c)
  (.lf 0)) (.nd (.lf
  0x39f7c39f7439f6439f5c39f4c39f4839f3439f2839f2039f1039f0439f0039ef439ee048d1800f1039b9039b8039b7839b6c39b6039b5039b4439b3c39b3039b2039b1439b1039afc39af039ae439ae039ad439ac039ab839aa839a9c39a9439a8439a7c39a6c39a6039a5439a4c39a4039a3048d0c00f04396e4396d8396c4396c0396b0396a839698396883968039670396643965c39654396403963c39628)
  (.lf 0))) (.nd (.nd (.lf
  0x351dc0bcb5351d0351cc0bcb1351c0351bc0bcad351b0351ac0bca9351a03519c0bca5351903518c0bca1015fe015fa015f6015f2015ee015ea015e6015e2015de015da015d6015d2015ce015ca015c6015c2015be015ba015b601c9e0ca800bc9d01c9a0ca740bc990ca6c157a101c960ca680bc9502cb41579d0ca601579901c920ca5c0bc9101c8e0ca500bc8d0ca481579501c8a0ca440bc8901c860ca38)
  (.lf 0)) (.nd (.lf
  0x48400483c0483804834048300482c0482804824048200481c0481804814048100480c048080480404800047fc047f8047f4047f0047ec047e81f5b41f5a41f5941f5841f5741f5641f5541f5441f5301f5241f5141f5041f4f41f4e41f4d41f4c41f4b41f4a41f4901f4841f4701f4641f4541f4441f4341f4241f4141f4041f3f41f3e4148990063c086d4086d0086cc086c8086c4086c0086bc086b8086b4)
  (.lf 0)))

def shaPos215 : BTree :=
  .nd (.nd (.nd (.lf
  0xc02414f510192a0c0200716d01c6414f4d0c01c14f49019260c0180716901c5414f450c01014f41019220c008071650191e0c000071610191a0bff00715d01c4414f3d0bfec14f39019160bfe80715901c3414f3501c2c14f310bfe014f2d019120bfdc071550bfd414f290190e0bfd0071510190a0bfc40714d01c1414f250bfbc14f21019060bfb40714901c0414f1d01bfc14f1901bf414f150bfac14f11)
  (.lf 0)) (.nd (.lf
  0x3576835760357583575035748357403573835730357284507c010dc450084500044ff844ff044fe844fe044fd844fd044fc844fc044fb844fb044fa844fa044f9844f9044f8844f8044f7844f7044f6844f6044f5844f5044f4844f4044f3844f3044f2844f204915400e4434dc034db834db034da834da034d9834d9034d8834d8034d7834d7034d6834d6034d5834d5034d4834d4034d3834d3034d2834d20)
  (.lf 0))) (.nd (.nd (.lf
  0x14701146fd146f9146f5146f1146ed146e9146e5146e1146dd146d9146d5146d1146cd146c9146c515c7d48e9c52f6452f4452f2452f0452ee452ec452ea852e8c52e7052e5452e3852e1c52e0052de452dc852dac52d9052d7052d5452d3852d1c52d0052ce052ccc52cb052c9452c7452c5852c4452c2c48e88147b9147b5147b1147ad147a9147a5147a11479d1479914795147911478d147891478514781)
  (.lf 0)) (.nd (.lf
  0x6571c656f0656c4656986566c656446561c655f4655cc655a46557c655546552c65504654dc62ad462ab462a9462a7462a5462a3462a1461c8861c7039b9439b8839b7c39b7039b6439b5839b4c39b4039b3439b2839b1c39b0c39b0439af839aec39adc39ad039ac839abc39ab039aa439a9839a8c39a8039a7439a6839a5c39a5039a4439a3815e6154c3c6779c6776c6773c67710676e4676b86768c67660)
  (.lf 0)))

def shaPos216 : BTree :=
  .nd (.nd (.nd (.lf
  0x98018400183f4183e8183dc183d0183cc183bc183ac183a0183981838c18380183701836c1835c1835018344183341832c1831c1831418304182fc182ec182e4182d4182cc182bc182b0182a45481c00978180b8180ac180a018094180881807c1807018064180581804c18040180341802c1801c180141800417ffc17fec17fe417fd417fcc17fbc17fb417fa417f9817f8c17f8017f7417f6817f5c547f4)
  (.lf
  0x5331c532f8532d4532b05328c532685324453220531fc531d8531b45319053170531505313053110530f0530d0530b0530905307053050530345301852ffc52fe052fc452fa8490ac4909843644436384362c436204361443608435fc435f0435e4435d8435cc435c0435b4435a84359c4359043584435784356c4356043554435484353c4353043524435184350c43500434f4434e815e114505c46d4846d30))
  (.nd (.lf
  0x1243d1243912435124311242d1242912425124211241d1241912415124111240d124091240512401123fd54e0c6274462720626f0626d4626a06268c6265c626386260c625e0625b062598625686254862520624fc624e4624b4624906246c6244c6242862408623ec623d4623ac6239462368623486233054dec54198558ac5589055874558585583c5582055804557e8557cc557b055794557785576055748)
  (.lf 0))) (.nd (.nd (.lf
  0x2be0c08d912be002bdfc08d8d2bdf02bdec08d892bde02bddc08d852bdd02bdcc08d812bdc02bdbc08d7d2bdb02bdac08d792bda02bd9c08d752bd902bd8c08d712bd802bd7c08d6d2bd702bd6c08d694f52069dcc08d654f50869d9c08d614f4f069d7008d5d4f4d869d4408d594f4c069d1808d554f4a869cec08d514f49469cc008d4d4f48069c9408d494f46c69c6808d454f45869c3c08d414f44469c10)
  (.lf 0)) (.nd (.lf
  0x526505263c47f6047f7052900528e4528c8528ac5289052874525845256c525545253c525245250c524f4524dc524c4524ac524945247c524645244c524345241c52404523ec523d4523bc523a45238c523785236447f4047f50526285260c525f0525d4525b85259c522ac522945227c522645224c522345221c52204521ec521d4521bc521a45218c521745215c521445212c52114520fc520e4520cc520b4)
  (.lf 0)))

def shaPos217 : BTree :=
  .nd (.nd (.nd (.lf
  0x425d497b81cf90042594979c1cf8404255497881cf7c04251497701cf6c0424d497541cf6404249497381cf5404245497201cf4804241497101cf3c0423d496f01cf3004239496e01cf2804235496c81cf1804231496b81cf0c0422d1cf041cf00042291cef41cef0042251cedc1cee4042211ced41ced00421d1cec41cebc042191ceac1ceb4042151cea01cea4042111ce941ce8c0420d1ce7c1ce8004209)
  (.lf 0)) (.nd (.lf
  0x349e8349d8349c8349b8349a83499834988349783496834958349483493834928349180039000e28344583444834438344283441834408343f8343e8343d8343c8343b8343a834398343883437834368343583434834338343283431834308342f8342e8342d8342c8342b8342a834298342880038800e1433dc833db833da833d9833d8833d7833d6833d5833d4833d3833d2833d1833d0833cf833ce833cd8)
  (.lf 0))) (.nd (.nd (.lf
  0x3ba500dbf968d783ba440dbf568d503ba380dbf168d283ba2c0dbed68d003ba200dbe968cd83ba100dbe568cb03ba040dbe1638e43b9fc0dbdd638c43b9f00dbd9638a43b9e40dbd5638843b9d80dbd1638643b9c80dbcd638443b9c00dbc9638243b9b00dbc5620143b9a80dbc161ff83b9980dbbd3b98c3b9880dbb93b9803b9780dbb53b96c3b9680dbb13b95c3b9580dbad3b94c3b9480dba93b9403b938)
  (.lf 0)) (.nd (.lf
  0x7444074400743c0743807434074300742c0742807424074200741c074182951029504294f4294e4294d0294c4294b0294a029494294842947429460294542944429434294202941029404293f0293e4293d4293c4293b4293a42939429384293742936029354293441594501fc401fbc0c1540c1480c13c01fac0c12401fa40c10c0c10001f9c01f7c01f7401f6c0650c002b40539c0539805394053900538c)
  (.lf 0)))

def shaPos218 : BTree :=
  .nd (.nd (.nd (.lf
  0x13d3413d2c0183d13d2013d1c0183913d1413d0c0183513d0013d040183113cf413cf00182d13cdc13ce40182913ccc13cd40182513cc413cbc0182113cb413cb00181d13ca413ca00181913c9413c8c0181513c8013c840181113c7013c740180d13c5c13c600180913c5413c500180513c4013c440180113c3013c2c017fd13c2013c24017f913c0c13c10017f513bfc13c00017f113bec13bf0017ed13bdc)
  (.lf 0)) (.nd (.lf
  0x44c7c44c7044c5c44c5844c4444c3c44c2c44c2844c1c44c0c44bfc44bf444bec44be054170008300fa300fa240fa1c0fa0c0fa000f9f40f9ec0f9dc0f9d40f9c40f9b80f9ac0f9a00f99c0f9880f9800f9740f9680f9580f9500f9400f9340f92c0f91c0f9100f90c0f8fc0f8f40f8e00f8d454190008380fd780fd740fd640fd540fd480fd3c0fd300fd2c0fd200fd0c0fd080fcf80fce80fcdc0fcd00fccc)
  (.lf 0))) (.nd (.nd (.lf
  0x3348c0b345334803347c0b341334703346c0b33d334603345c0b339334503344c0b335334403343c0b331334303342c0b32d334203341c0b329334103340c0b32533400333fc0b321333f0333ec0b31d333e0333dc0b319333d0333cc0b315333c0333bc0b311333b0333ac0b30d333a03339c0b309333903338c0b30552068464380b30152050464200b2fd52034464080b2f952018463f00b2f551ff8463d8)
  (.lf 0)) (.nd (.lf
  0x492e0492c8492b049298492804926849250492384922049208491f0491d8491c0491a8491901bf141bf0c1bf001bef01bee81bed81bed01bec41beb81bea81be9c1be901be841be781be6c1be641be581be4c1be401be341be241be1c1be101be041bdf81bde81bddc1bdd41bdc81bdbc160a9064840ea480ea440ea400ea3c0ea380ea340ea300ea2c0ea280ea240ea200ea1c0ea180ea140ea100ea0c0ea08)
  (.lf 0)))

def shaPos219 : BTree :=
  .nd (.nd (.nd (.lf
  0x6821247902478c0681d247802477c06819247682476c068152475c2476006811247502474c0680d4ca6065f14068094ca4865ee4068054ca3065eb8068014ca1865e8c067fd4ca0065e60067f94c9e865e34067f54c9d465e08067f14c9c065ddc067ed4c9ac65db0067e94c99865d84067e54c98465d58067e14c97065d30067dd4c95c65d08067d94c94865ce0067d54c93465cb8067d14c92065c90067cd)
  (.lf 0)) (.nd (.lf
  0x355cc355bc355ac3559c3558c3557c3556c3555c3554c005f0010d844f1044f0044ef044ee044ed044ec044eb044ea044e9044e8044e7044e6044e5044e4044e3044e2044e1044e0044df044de044dd044dc044db044da044d9044d8044d7044d6044d5044d40005e800e4034ccc34cbc34cac34c9c34c8c34c7c34c6c34c5c34c4c34c3c34c2c34c1c34c0c34bfc34bec34bdc34bcc34bbc34bac34b9c34b8c)
  (.lf 0))) (.nd (.nd (.lf
  0x4603046020460104600445fec45fe845fd845fc845fb445fa045f9045f8045f6c45f5c45f4c45f3c45f344567045664456584564c456404563445630457704576845754457484573c4577845760457504574445734457244571c4570c45704456f8456e8456dc456d8456c4456b8456ac456a045694456884567c448104480c1066144800447fc1065d447f0447ec10659447e0447dc10655447d0447cc10651)
  (.lf 0)) (.nd (.lf
  0xa16c0a1680a1640a1600a15c0a1580a1540a1500a14c0a1480a1440a1400a13c0a1380a1340a1300a12c0a1280a1240a1200a11c0a11836804367f4367e4367d4367c4367b4367a436794367843677436764367543674436734367243671436704366f4366e4366d4366c4366b4366a43669436684366743666436654366443663415ac5010ec0ccb40ccb00ccac0cca80cca40cca00cc9c0cc980cc940cc90)
  (.lf 0)))

def shaPos220 : BTree :=
  .nd (.nd (.nd (.lf
  0x477bc002e948ee4477ac002e548ed44779c002e148ecc4778c002dd48ebc4777c002d948eb04776c002d548ea84775c002d16275c0f3a0002cd627340f398002c96270c0f38c002c5626e40f380002c1626bc0f370002bd626940f364002b96266c0f358002b5626440f350002b16261c0f344002ad625f40f338002a9625cc0f328002a56259c0f31c002a1625780f3140029d625540f30800299625300f2f8)
  (.lf 0)) (.nd (.lf
  0x5e5685e54c5e5305e5145e4f85e4dc5e4c05e4a45e48c5e4745e45c5e4445e42c5e4145e3fc5e3e45483c5484c5e7185e6f85e6d85e6b85e6985e6785e6585e6385e6185e5f85e5d85e5b85e59c5e5805e5645e5485e52c5e5105e4f45e4d85e4bc5e4a05e4885e4705e4585e4405e4285e4105e3f85e3e0548381397913975139711396d1396913965139611395d1395913955139511394d139491394513941)
  (.lf 0))) (.nd (.nd (.lf
  0x2f9402f93c0a0692f9302f92c0a0652f9202f91c0a0612f9102f90c0a05d2f9002f8fc0a0592f8f02f8ec0a0552f8e02f8dc0a0512f8d02f8cc0a04d2f8c02f8bc0a0492f8b02f8ac0a0452f8a02f89c0a0412f8902f88c0a03d2f8802f87c0a03950a806bd280a03550a686bcf80a03150a506bccc0a02d50a386bca00a02950a206bc740a02550a086bc480a021509f46bc1c0a01d509e06bbf00a019509cc)
  (.lf 0)) (.nd (.lf
  0x5afe85afc85afac5af985af805af645af505af385af205af085aef0152d0152c4152b8152ac152a015294152881527c1526c15264152541524c152401523415228152181521015204151f8151ec151e0151d4151c4151bc151b0151a0151941518c1518015174160410637c0dad00dacc0dac80dac40dac00dabc0dab80dab40dab00daac0daa80daa40daa00da9c0da980da940da900da8c0da880da840da80)
  (.lf 0)))

def shaPos221 : BTree :=
  .nd (.nd (.nd (.lf
  0x484a00552d4b11045c44055294b0fc45c38055254b0e045c24055214b0c845c140551d4b0b045c04055194b09845bf4055154b08045be4055114b06c45bd40550d4b05845bc40550920b3c20b380550520b3020b2c0550120b1c20b18054fd20b0c20b08054f920b0020af8054f520af020aec054f120adc20ad8054ed20acc20ac8054e920ac020abc054e520aac20aa8054e120a9c20a98054dd20a8c20a88)
  (.lf 0)) (.nd (.lf
  0x60be460bcc60bb460b9c54a1454a2860ed460eb460e9460e7460e5460e3460e1460df460dd460a6460a4460a2460a08609ec609d0609b4609986097c6096060944609286090c608f4608dc608c4608ac608946087c608646084c549ec54a0060b8460b6460b4460b2460b0460ae460ac460aa460a8460714606f4606d4606b86069c6068060664606486062c60610605f4605d8605bc605a46058c605746055c)
  (.lf 0))) (.nd (.nd (.lf
  0x62140401540f14d648a0401480f149648704013c0f14564840401300f14164814401240f13d647e8401180f139647bc4010c0f13564790401000f13164764400f40f12d64738400e80f1296470c400dc0f125646e0400d00f121646b4400c40f11d6468c400b80f11964664400ac0f1156463c400a00f11164614400940f10d645ec400880f109645c44007c0f1056459c400700f10164574400640f0fd6454c)
  (.lf 0)) (.nd (.lf
  0x2fe6c2fe642fe5c2fe542fe4c2fe442fe3c2fe342fe2c2fe242fe1c15fc50058407c0c07c0807c0407c0007bfc07bf807bf407bf007bec07be807be407be007bdc07bd807bd407bd007bcc07bc807bc407bc007bbc07bb807bb407bb007bac07ba807ba407ba007b9c07b982fe142fe042fdf42fde42fdd42fdc42fdb42fda42fd942fd842fd742fd642fd542fd442fd342fd242fd142fd042fcf42fce42fcd4)
  (.lf 0)))

def shaPos222 : BTree :=
  .nd (.nd (.nd (.lf
  0x2d95187b8187bc02d91187a4187a802d8d1879c1879402d89187841878802d85187741877802d811876c1876402d7d1875c1875802d791874c5e72802d751873c5e70802d71187305e6e802d6d187245e6c802d69187185e6a802d65187105e68802d61187045e66802d5d186f85e64802d59186e85e62802d55186e05e60802d51186d05e5e802d4d186c45e5c802d49186bc5e5ac02d45186b05e59002d41)
  (.lf 0)) (.nd (.lf
  0x680e8680bc6809068064680386801067fe867fc067f9867f7067f4867f2067ef867ed067ea867c6867c4067c1867bf067bc867ba067b7867b5067b286347054c5867e7c67e4c67e1c67df067dc467d9867d6c67d4067d1467ce867cbc67c9467c6c67c4467c1c67bf467bcc67ba467b7c67b5467b2c678e4678bc678946786c678446781c677f4677cc677a46338854c4067af867ac867a9867a6c67a4067a14)
  (.lf 0))) (.nd (.nd (.lf
  0xc6a5373403733c0c6a13732c373300c69d3731c373180c6993730c373100c695372fc372f80c691372f0372ec0c68d372dc372e00c689372d0372c80c685372bc372c00c681372ac372a80c67d372a0372980c67937288372900c6753727c372800c671372703726c0c66d372603725c0c669372503724c0c66537238372400c6613722c372280c65d3721c372180c65937208372100c655371fc371f80c651)
  (.lf 0)) (.nd (.lf
  0x22ad022ac022ab422aa422a9022a8422a7022a6022a5422a40159050023404c1c04c1804c1404c1004c0c04c0804c0404c0004bfc04bf804bf404bf004bec04be804be404be004bdc04bd804bd404bd004bcc04bc804bc404bc004bbc04bb804bb404bb004bac04ba822a3422a2422a1422a04229f4229e4229d4229c4229b4229a422994229842297022964229502294422930229242291022904228f4228e4)
  (.lf 0)))

def shaPos223 : BTree :=
  .nd (.nd (.nd (.lf
  0x7ad9283182832007ad5283102830c07ad1282f82830007acd282f0282e807ac9282dc282e007ac5282d0282cc07ac1282c0282b807abd282a8282ac07ab9282982829c07ab5282882828c07ab1282782827c07aad2826c2827007aa92825c2826007aa54dfc067e7007aa14dfa867e4007a9d4df9067e1407a994df7867de807a954df6067dbc07a914df4867d9007a8d4df3467d6407a894df2067d3807a85)
  (.lf 0)) (.nd (.lf
  0x358983588835878358683585835848358383582835818007f000e54353583534835338353283531835308352f8352e8352d8352c8352b8352a835298352883527835268352583524835238352283521835208351f8351e8351d8351c8351b8351a83519835188007e800e4834f9834f8834f7834f6834f5834f4834f3834f2834f1834f0834ef834ee834ed834ec834eb834ea834e9834e8834e7834e6834e58)
  (.lf 0))) (.nd (.nd (.lf
  0x1152911525115211151d1151911515115111150d115091150511501114fd114f9114f5114f1114ed15b9d47c9c4e6d84e6c04e6a84e6904e6784e6604e64c4e6384e6244e6104e5fc4e5e84e5d44e5c04e5ac4e5984e5844e5704e55c4e5484e5344e5204e50c4e4f84e4e44e4d04e4bc4e4a84e4984e48847c90114e9114e5114e1114dd114d9114d5114d1114cd114c9114c5114c1114bd114b9114b5114b1)
  (.lf 0)) (.nd (.lf
  0x67dc867d9c67d7067d4467d1867cec67cc067c9867c7067c4867c2067bf867bd067ba867b8067b5867b3063474634546343463414633f4633d4633b461ef061ed43cf243cf183cf0c3cf003cef43cee83cedc3ced03cec43ceb83ceac3cea03ce943ce883ce7c3ce703ce643ce583ce4c3ce403ce343ce283ce1c3ce103ce043cdf83cdec3cde03cdd43cdc815ee554d1869df069dc069d9069d6469d3869d0c)
  (.lf 0)))

def shaPos224 : BTree :=
  .nd (.nd (.nd (.lf
  0x87411658116401162c116201160c115fc115f8115e0115cc115c4115b8115a41158c115881156c1156011558115441152c115201150c11500114ec114dc114d4114c8114b01149c1149011488062e80086c1131011300112f0112d8112c8112b8112b01129811290112801126c11258112481123811230112181120c11200111e8111e0111c8111b4111b0111981118411180111641115c111441113c062e0)
  (.lf
  0x3c5c03c5803c5403c5003c4c03c4803c4403c4003c3c03c3803c3403c303f6843f6743f6643f6543f6443f6343f6243f6143f6043f5f43f5e43f5d43f5c43f5b43f5a43f5943f5843f5743f5643f5543f5443f5343f5243f5143f5043f4f43f4e43f4d43f4c43f4b41483554cfc69a6069a3069a00699d4699a86997c6995069924698f8698cc698a069878698506982869800697d8697b0697886976069738))
  (.nd (.lf
  0x120c9120c5120c1120bd120b9120b5120b1120ad120a9120a5120a11209d1209912095120911208d15bfd47f145207c5206052044520285200c51ff051fd851fc051fa851f9051f7851f6051f4851f3051f1851f0051ee851ed051eb851ea051e8851e7051e5851e4051e2851e1051df851de051dcc51db847f041208912085120811207d1207912075120711206d1206912065120611205d120591205512051)
  (.lf 0))) (.nd (.nd (.lf
  0xacf015121003ca0acec081ed0ace41511d003c60ace0081e901fe4151190acd815115003c20acd0081e50accc15111003be0acc8081e1003ba0acbc081dd01fcc1510d0acb015109003b60acac081d90b81016051299b8299c0081d5299b0299ac081d1299a02999c081cd299902998c081c9299802997c081c5299702996c081c12995829960081bd2995029948081b92993829940081b52993029928081b1)
  (.lf 0)) (.nd (.lf
  0x50408503f4503e0503cc503b8503a450390503805037047dcc47dc05035c503445032c50314502fc502e4502d0502bc502a850294502805026c5025850244502305021c50208501f4501e0501cc501b8501a4501905017c5016850154501405012c5011c5010c47db447da850100500e8500d0500b8500a05008850074500605004c5003850024500104fffc4ffe84ffd44ffc04ffac4ff984ff844ff704ff5c)
  (.lf 0)))

def shaPos225 : BTree :=
  .nd (.nd (.nd (.lf
  0x35951a3d46027c035911a3cc602640358d1a3c06024c035891a3b060234035851a3a86021c035811a39c602040357d1a390601ec035791a384601d4035751a378601bc035711a3641a36c0356d1a3541a35c035691a3441a34c035651a3341a33c035611a3241a32c0355d1a3141a31c035591a3041a30c035551a2f41a2fc035511a2e41a2ec0354d1a2d41a2dc035491a2c41a2cc035451a2b41a2bc03541)
  (.lf 0)) (.nd (.lf
  0x6ad0c6ace46acbc6ac946ac6c6ac446ac1c6abf4640ac6408c6406c6404c6402c6400c63fec6a99c6a9746a94c54d646abdc6abac6ab7c6ab506ab246aaf86aacc6aaa06aa746aa486aa1c6a9f06a9c86a9a06a9786a9506a9286a9006a8d86a8b06a88863fdc63fbc63f9c63f7c63f5c63f3c63f1c6a6206a5f86a5d054d506a8606a8306a8006a7d46a7a86a77c6a7506a7246a6f86a6cc6a6a06a6746a64c)
  (.lf 0))) (.nd (.nd (.lf
  0xcea538d9c38d980cea138d8c38d880ce9d48cf838d800ce9948ce038d740ce9548cc838d680ce9148cb438d5c0ce8d48ca038d500ce8948c8c38d440ce8548c7838d380ce8148c6438d2c0ce7d48c5038d200ce7948c3c38d140ce7548c2838d080ce7148c1438cfc0ce6d48c0038cf00ce6948bec38ce40ce6548bd838cd40ce6148bc438cc80ce5d48bb038cc00ce5948b9c38cb40ce5548b8438ca40ce51)
  (.lf 0)) (.nd (.lf
  0x252c4252b4252a425294252842527425264252542524425230252242521425204251f4251e4251d4251c0251b4251a41591d0026404eec04ee804ee404ee004edc04ed804ed404ed004ecc04ec804ec404ec004ebc04eb804eb404eb004eac04ea804ea404ea004e9c04e9804e9404e9004e8c04e8804e8404e8004e7c04e7825194251842517425164251542514425134251242511425104250f4250e4250d4)
  (.lf 0)))

def shaPos226 : BTree :=
  .nd (.nd (.nd (.lf
  0x10e7000ae910e5c10e6400ae510e4c10e5000ae110e3c10e4000add10e2c10e3000ad910e1c10e2000ad510e0c10e1400ad110dfc10e0000acd10dec10df400ac910de056c9400ac510dd456c7400ac110dc856c5400abd10dc056c3400ab910db456c1400ab510da456bf400ab110d9856bd800aad10d8c56bb800aa910d8056b9800aa510d7856b7800aa110d6856b5800a9d10d5c56b3800a9910d5456b1c)
  (.lf 0)) (.nd (.lf
  0x449c0449bc14165449b0449ac14161449a04499c1415d449904498c14159449804497c14155449704496c14151449604495c1414d449504494c14149449404493c14145449304492c14141449204491c1413d449104490c1413944900448fc14135448f0448ec14131448e0448dc1412d448d0448cc14129448c0448bc14125448b0448ac14121448a04489c1411d448904488c14119448804487c1411544870)
  (.lf 0))) (.nd (.nd (.lf
  0xb3b80a7950b3b01553d0060a0b3ac0a791006060b3a00a78d027fc15539027f4155350b39815531006020b3940a789005fe0b3880a785005fa0b37c0a781005f60b3700a77d005f20b3640a779005ee0b3580a7750b88c1552d30fe030fdc0a77130fd030fcc0a76d30fc030fbc0a76930fb030fac0a76530fa030f9c0a76130f9030f8c0a75d30f8030f7c0a75930f7030f6c0a75530f6030f5c0a75130f50)
  (.lf 0)) (.nd (.lf
  0x17bdc17bd017bc017bb017ba017b9017b8017b7017b6017b5017b4017b3017b2017b1017b0017af017ae017ad017ac017ab017aa017a9017a8017a7017a6017a5017a3c15d59547b85d9e45d9c45d9a45d9845d9645d9445d9245d9045d8e45d8c45d8a45d8845d8685d84c5d8305d8145d7f85d7dc5d7c05d7a45d7885d76c5d7585d7405d7245d70c5d6f45d6dc5d6c45d6ac17a2c17a2417a1417a0c17a00)
  (.lf 0)))

def shaPos227 : BTree :=
  .nd (.nd (.nd (.lf
  0x222282223005c51222182221c05c4d222102220c05c49221f8221fc05c45221e8221ec05c41221d8221e005c3d221c8221d005c39221c0221bc05c35221a8221ac05c31221a02219805c2d221902218c05c292217c2218005c25221682216c05c21221582215c05c1d221502214c05c192213c2213805c15221302212805c112211c2212005c0d2210c2211005c09220f8220fc05c05220ec220e805c01220e0)
  (.lf 0)) (.nd (.lf
  0x25080b054025000b0480b03c024f8024f0024e80b0300b024024e00b0180b00c0b84c0117600d100c4f4024d8024d00c4e8024c80c4dc024c0024b80c4d00c4c40c4b8024b00c4ac024a8024a00c4a0024980249002488024800c49402478024700c488024680c47c024600c470065380114200558003ec0b000024580aff40afe80afdc02450024480afd0024400afc40afb8024380243002428024200afac)
  (.lf 0))) (.nd (.nd (.lf
  0x53de441c240f94d4914841c180f9494913441c0c0f94541bf841c000f94141be841bf00f93d41bd841be00f93941bc841bd00f93541bb841bc00f93141ba841bb00f92d41b9841ba00f92941b8841b900f92541b7841b800f92141b6841b700f91d41b5841b600f91941b4841b500f91541b3841b400f91141b2841b300f90d41b1841b200f90941b0841b100f90541af841b000f90141ae841af00f8fd41ad8)
  (.lf 0)) (.nd (.lf
  0x3263032628326203261c326143260c32604325fc325f4325ec325e0325d8325d0325c8325c0325bc325b0325ac325a03259c3259032588325843257c15e2d005b407edc07ed807ed407ed007ecc07ec807ec407ec007ebc07eb807eb407eb007eac07ea807ea407ea007e9c07e9807e9407e9007e8c07e8807e8407e8007e7c07e7807e7407e7007e6c07e683257432564325543254432534325243251432504)
  (.lf 0)))

def shaPos228 : BTree :=
  .nd (.nd (.nd (.lf
  0x672d8672ac672806725467418673e8673b86738c673606733467308672dc672b067284672586722c6720466de866dc066d9866d7066d486709867068670386700c66fe066fb466f8866f5c66f3066f0466ed86709c6706c6703c6701066fe466fb866f8c66f6066f3466f0866edc66eb066e8866a6c66a4466a1c669f4669cc66d1c66cec66cbc66c9066c6466c3866c0c66be066bb466b8866b5c66d2066cf0)
  (.lf 0)) (.nd (.lf
  0x12c3d12c3912c3512c3112c2d12c2912c2512c2112c1d12c1912c1512c1112c0d12c0912c0512c0112bfd5441858dac58d8c58d6c58d4c58d2c58d0c58cec58ccc58cac58c8c58c6c58c4c58c3058c1458bf858bdc58bc058ba458b8858b6c58b5058b3458b1c58b0458aec58ad458abc58aa458a8c58a74544045441458da858d8858d6858d4858d2858d0858ce858cc858ca858c8858c6858c4858c2c58c10)
  (.lf 0))) (.nd (.nd (.lf
  0xafcc15349004be0afc8094c1004ba0afbc094bd02434153450242c15341024241533d0afb415339004b60afb0094b90afa815335004b20afa4094b50af9c15331004ae0af98094b1024041532d0af9015329004aa0af8c094ad004a60af80094a9004a20af74094a50af6c153250049e0af68094a10b844153212d4d02d4cc0949d2d4c02d4bc094992d4b02d4ac094952d4a02d49c094912d4902d48c0948d)
  (.lf 0)) (.nd (.lf
  0x10f5810f4810f3810f2810f1810f0810ef810ee810ed810ec810eb810ea410e9810e8410e7810e6810e5810e4410e3410e2410e1810e0810df815cad5429056c9856c7856c5856c3856c1856bf856bd456bb456b9456b7456b5456b3456b1856afc56ae056ac456aa856a8c56a7456a5856a3856a1c56a04569f0569d8569c0569a856990569785696010de410dd810dcc10dc410db810da810da010d9410d88)
  (.lf 0)))

def shaPos229 : BTree :=
  .nd (.nd (.nd (.lf
  0x49991e7501e758049951e7441e748049911e7301e7380498d1e7281e724049891e7181e714049851e7001e708049811e6f41e6f80497d1e6e41e6e8049791e6d81e6d4049751e6c81e6c4049711e6b41e6b00496d1e6a81e6a4049691e6981e690049651e6801e688049611e6701e6740495d1e6601e668049591e6581e654049551e6481e640049511e6301e6380494d1e6241e620049491e6101e61804945)
  (.lf 0)) (.nd (.lf
  0x5de945de785de5c5de405de245de085ddf05ddd85ddc05dda85dd905dd785dd605dd48547f0547dc5dd305dd105dcf05dcd05dcb05dc905dc705dc505dc305dc105dbf05dbd05dbb45db985db7c5db605db445db285db0c5daf05dad45dab85daa05da885da705da585da405da285da105d9f8547c8547b45d9e05d9c05d9a05d9805d9605d9405d9205d9005d8e05d8c05d8a05d8805d8645d8485d82c5d810)
  (.lf 0))) (.nd (.nd (.lf
  0x3d4e80e3f93d4e03d4d80e3f53d4d03d4c80e3f13d4c03d4b80e3ed3d4b03d4a80e3e93d4a03d4980e3e53d4903d4880e3e13d4803d4780e3dd3d4703d4680e3d93d4603d4580e3d53d4503d4480e3d13d4403d4380e3cd3d4303d4280e3c93d4203d4180e3c53d4103d4080e3c13d4003d3f80e3bd3d3f03d3e80e3b93d3e03d3d80e3b5682003d3d00e3b1681d03d3c40e3ad681a03d3b80e3a9681743d3ac)
  (.lf 0)) (.nd (.lf
  0x2bc942bc8c2bc842bc7c15f4d005340775c0775807754077500774c0774807744077400773c0773807734077300772c0772807724077200771c0771807714077100770c077080770407700076fc076f8076f4076f0076ec076e82bc742bc642bc542bc442bc342bc242bc142bc042bbf42bbe42bbd42bbc42bbb42bba42bb942bb842bb742bb642bb542bb442bb342bb242bb142bb042baf42bae42bad42bac4)
  (.lf 0)))

def shaPos230 : BTree :=
  .nd (.nd (.nd (.lf
  0x159105b8040203d159045b7e402039158f85b7c402035158ec5b7a402031158e05b7840202d158d45b76402029158c85b74802025158bc5b72c02021158b05b7100201d158a45b6f4020191589c5b6dc020151588c5b6c002011158805b6a00200d158785b68402009158685b66802005158605b65002001158505b63801ffd158485b61c01ff9158385b60801ff5158305b5ec01ff1158205b5d801fed15818)
  (.lf 0)) (.nd (.lf
  0x4341443408433fc433f0433e4433d8433cc433c0433b4433a84339c4339043384433780cbb80108c43024430184300c4300042ff442fe842fdc42fd042fc442fb842fac42fa042f9442f8842f7c42f7042f6442f5842f4c42f4042f3442f2842f1c42f1042f0442ef842eec42ee042ed442ec80cbb40108042b7442b6842b5c42b5042b4442b3842b2c42b2042b1442b0842afc42af042ae442ad842acc42ac0)
  (.lf 0))) (.nd (.nd (.lf
  0xb64c0ba6d02c5c157710b6441576d006e60b6400ba690b63815769006e20b6340ba650b62c15765006de0b6280ba610b62015761006da0b61c0ba5d006d60b6100ba590b6081575d006d20b6040ba55006ce0b5f80ba5102c2c1575902c241575502c1c157510b5f01574d006ca0b5ec0ba4d02c0c157490b5e415745006c60b5e00ba490b5d815741006c20b5d40ba45006be0b5c80ba410b8c01573d0b8bc)
  (.lf 0)) (.nd (.lf
  0x473804734047300472c0472804724047200471c0471804714047100470c047080470404700046fc046f81e84c1e83c1e82c1e81c1e80c1e7fc1e7ec1e7dc1e7cc1e7b81e7a81e7981e7881e77c1e76c1e75c1e74c1e73c1e72c1e71c1e70c1e6fc1e6ec1e6dc1e6cc1e6bc1e6ac1e69c1e68c1e678148910062c085e4085e0085dc085d8085d4085d0085cc085c8085c4085c0085bc085b8085b4085b0085ac)
  (.lf 0)))

def shaPos231 : BTree :=
  .nd (.nd (.nd (.lf
  0x14ee101b8414edd064f414ed91587d25eac25eb006f2525e9825e9c06f2125e9025e8806f1d25e7c25e8006f1925e6c25e6806f1525e5c25e6006f1125e4c25e5006f0d25e3c25e4006f0925e2c25e3006f0525e1c25e2006f0125e0c25e1006efd25dfc25e0006ef925df025de806ef525ddc25de006ef125dc825dcc06eed25dbc25dc006ee925dac25db006ee525d9c25da006ee125d8825d8c06edd25d7c)
  (.lf 0)) (.nd (.lf
  0x2f1382f1302f1282f1202f1182f1102f1082f1002f0f848e5800d382eb502eb482eb402eb382eb302eb282eb202eb182eb102eb082eb002eaf82eaf02eae82eae02ead82ead02eac82eac02eab82eab02eaa82eaa02ea982ea902ea882ea802ea782ea702ea6848e4c00d282e4c02e4b82e4b02e4a82e4a02e4982e4902e4882e4802e4782e4702e4682e4602e4582e4502e4482e4402e4382e4302e4282e420)
  (.lf 0))) (.nd (.nd (.lf
  0x50a2850a10509f8509e4509d0509bc509a850994509805096c5095850944509305091c50908508f4508e05066c5065850644506305061c50608505f45080c507f4507dc507c4507ac50810507f8507e0507c8507b05079850784507705075c5074850734507205070c506f8506e4506d0506bc506a850694506805040c503f8503e4503d0503bc503a850394505ac505945057c505645054c505b05059850580)
  (.lf 0)) (.nd (.lf
  0x31fc031f8031f4031f0031ec031e8031e4031e038f6038f5038f4438f3038f2038f1438f0438ef438ee438ed438ec438eb438ea438e9438e8438e7038e6438e5438e4438e3438e2438e1438e0438df438de438dd438dc438db438da438d90147dd455fc48cf448cdc48cc448cb048c9c48c8848c7448c6048c4c48c3848c2448c1048bfc48be848bd448bc048bac48b9848b8848b7048b5c45e8c45e7c45e6c)
  (.lf 0)))

def shaPos232 : BTree :=
  .nd (.nd (.nd (.lf
  0x984185e8185d4185c0185b8185a818598185881857418564185501854818530185201851418508184f0184e0184d0184c8184b8184a0184941848418470184601845818448184381842418414063f80097c18294182841827418264182541824418234182241821418204181f4181e4181d4181c4181b4181a418194181841817418164181541814418134181241811418104180f4180e4180d4180c4063f0)
  (.lf
  0x418c0418804184041800417c0417804174041700416c0416804164041600415c0415842a1442a04429f4429e4429d4429c4429b4429a442994429844297442964429544294442934429244291442904428f4428e4428d4428c4428b4428a44289442884428744286442854428441486154dd86c0b06c0806c0546c0286bffc6bfd06bfa46bf786bf4c6bf206bef46becc6bea46be7c6be546be2c6be046bddc))
  (.nd (.lf
  0x604c0604a06048060460604406042060400603e0603c0603a06038060364603486032c60310602f4602d85ff6c5ff505ff346018c6016c6014c6012c6010c600ec600cc600ac6008c6006c6004c6019060170601506013060110600f0600d0600b060090600706005060030600145fff85ffdc5ffc05ffa45ff885fc1c5fc005fbe45fe3c5fe1c5fdfc5fddc5fdbc5fd9c5fd7c5fd5c5fd3c5fd1c5fcfc5fe40)
  (.lf 0))) (.nd (.nd (.lf
  0x697cc08b214f16c697a408b1d4f1586977c08b194f1446975408b154f1306972c08b114f11c6970408b0d4f10863b6c08b094f0f463b4c08b054f0e063b2c08b014f0cc63b0c08afd4f0b863aec08af94f0a463acc08af54f09063aac08af14f080620a808aed4f0706208c08ae92b5e02b5d808ae52b5d02b5c808ae12b5c02b5b808add2b5b02b5a808ad92b5a02b59808ad52b5902b58808ad12b5802b578)
  (.lf 0)) (.nd (.lf
  0x4feb84fea847d9447da0500f8500e0500c8500b050098500804fe084fdf44fde04fdcc4fdb84fda44fd904fd7c4fd684fd544fd404fd2c4fd184fd044fcf04fcdc4fcc84fcb44fca04fc8c4fc784fc644fc544fc4447d7c47d884fe944fe7c4fe644fe4c4fe344fe1c4fbac4fb984fb844fb704fb5c4fb484fb344fb204fb0c4faf84fae44fad04fabc4faa84fa944fa804fa6c4fa584fa444fa304fa1c4fa08)
  (.lf 0)))

def shaPos233 : BTree :=
  .nd (.nd (.nd (.lf
  0x1c81c04005494641c81004001494541c80403ffd1c7f41c7f803ff91c7e41c7e803ff51c7d81c7dc03ff11c7c41c7c803fed1c7b41c7b803fe91c7a41c7ac03fe51c7981c79403fe11c7881c78c03fdd1c7781c77403fd91c7681c76403fd51c75c1c75403fd11c7441c74c03fcd1c7341c73803fc91c7281c72403fc51c7181c71403fc11c7081c70c03fbd1c6f81c6fc03fb91c6e41c6ec03fb51c6d41c6d8)
  (.lf 0)) (.nd (.lf
  0x2e0e82e0d82e0c82e0b82e0a82e0982e0882e0782e0682e05c2e04c2e0382e0282e0180031000d0c2db582db482db382db282db182db082daf82dae82dad82dac82dab82daa82da982da882da782da682da582da482da382da282da182da082d9f82d9e82d9d82d9c82d9b82d9a82d9982d9880030800cfc2d4c82d4b82d4a82d4982d4882d4782d4682d4582d4482d4382d4282d4182d4082d3f82d3e82d3d8)
  (.lf 0))) (.nd (.nd (.lf
  0x688283b1580d94d687fc3b14c0d949687d03b1440d945687a43b1380d941687783b12c0d93d6874c3b11c0d939687203b1140d935686f83b1080d931686d03b0f80d92d686a83b0ec0d929686803b0e40d925686583b0d40d921686303b0c80d91d686083b0c00d919685e03b0b40d915685b83b0a80d911637243b0980d90d637043b0900d909636e43b0840d905636c43b0780d901636a43b06c0d8fd63684)
  (.lf 0)) (.nd (.lf
  0x73500734c0734807344073400733c0733807334073300732c07328287f0287e0287d4287c4287b4287a428794287842877428760287502874428734287242871028704286f4286e0286d4286c4286b4286a028690286842867028664286542864028634286241593d002a4052ac052a8052a4052a00529c0529805294052900528c0528805284052800527c0527805274052700526c0526805264052600525c)
  (.lf 0)))

def shaPos234 : BTree :=
  .nd (.nd (.nd (.lf
  0x1595133e85911c01591133dc133d80158d133cc133c401589133bc133b401585133ac133a8015811339c133940157d1338413388015791337813374015751336c1336801571133581335c0156d1334c1334801569133341333801565133281332c0156113318133140155d133041330c01559132f8132fc01555132e8132e401551132d8132dc0154d132c4132c801549132b4132bc01545132a8132a401541)
  (.lf 0)) (.nd (.lf
  0x40cec40cdc40ccc40cbc40cac40c9c40c8c40c7c40c6c40c5c40c4c40c3c40c2c40c1c00150010284093c4092c4091c4090c408fc408ec408dc408cc408bc408ac4089c4088c4087c4086c4085c4084c4083c4082c4081c4080c407fc407ec407dc407cc407bc407ac4079c4078c4077c4076c001480101c4048c4047c4046c4045c4044c4043c4042c4041c4040c403fc403ec403dc403cc403bc403ac4039c)
  (.lf 0))) (.nd (.nd (.lf
  0x51d34540b00b0e551d205408c0b0e151d0c540680b0dd51cf8540440b0d951ce4540200b0d551cd053ffc0b0d151cbc53fd80b0cd51ca853fb80b0c951c9453f980b0c551c8053f780b0c151c6c53f580b0bd51c5853f380b0b951c4453f180b0b551c3053ef80b0b151c1c53ed80b0ad51c0853eb80b0a951bf453e980b0a551be053e7c0b0a151bcc53e600b09d51bb853e440b09951ba453e280b09551b90)
  (.lf 0)) (.nd (.lf
  0x1b1e81b1e01b1d01b1c41b1bc1b1ac1b1a01b1941b18c1b1801b1741b1681b15c1b1501b1441b1341b1281b11c1b1101b1041b0fc1b0ec1b0e41b0d41b0cc1b0bc1b0b01b0a81b09c15dc9064640e8680e8640e8600e85c0e8580e8540e8500e84c0e8480e8440e8400e83c0e8380e8340e8300e82c0e8280e8240e8200e81c0e8180e8140e8100e80c0e8080e8040e8000e7fc0e7f80e7f41b0901b0801b070)
  (.lf 0)))

def shaPos235 : BTree :=
  .nd (.nd (.nd (.lf
  0x658c8065b54c684658a0065b14c67065874065ad4c65c65850065a94c64862ba8065a54c63462b8c065a14c62062b680659d4c60c62b48065994c5f862b28065954c5e462b0c065914c5d062aec0658d4c5c061cb8065894c5b061c980658523fc023fbc0658123fa823fac0657d23f9823f9c0657923f9023f8c0657523f7823f800657123f6823f6c0656d23f5c23f580656923f5023f4c0656523f4023f3c)
  (.lf 0)) (.nd (.lf
  0x2ea3c2ea2c2ea1c2ea0c2e9fc2e9ec2e9dc2e9cc2e9bc2e9ac2e99c2e98c2e97c2e96c2e95c2e94c2e93c2e92c2e91c2e90c2e8fc2e8ec2e8dc2e8cc2e8bc2e8ac2e89c00d242e3cc2e3bc2e3ac2e39c2e38c2e37c2e36c2e35c2e34c2e33c2e32c2e31c2e30c2e2fc2e2ec2e2dc2e2cc2e2bc2e2ac2e29c2e28c2e27c2e26c2e25c2e24c2e23c2e22c2e21c2e20c2e1fc0056000d142dd3c2dd2c2dd1c2dd0c)
  (.lf 0))) (.nd (.nd (.lf
  0x43f70103f95398c43f64103f55396843f58103f15394443f4c103ed5392043f40103e9538fc43f34103e5538d843f28103e1538b443f1c103dd5389443f10103d95387443f04103d55385443ef8103d15383443eec103cd5381443ee0103c9537f443ed4103c5537d443ec8103c1537b443ebc103bd5379443eb0103b95377443ea4103b55375843e98103b15373c43e8c103ad5372043e80103a95370443e74)
  (.lf 0)) (.nd (.lf
  0x35ab435aa435a9435a8435a7435a6435a5435a4435a3435a2435a1435a0414975007f40a09c0a0980a0940a0900a08c0a0880a0840a0800a07c0a0780a0740a0700a06c0a0680a0640a0600a05c0a0580a0540a0500a04c0a0480a0440a0400a03c0a0380a0340a0300a02c0a028359f4359e4359d4359c4359b4359a435994359843597435964359543594435934359243591435904358f4358e4358d4358c4)
  (.lf 0)))

def shaPos236 : BTree :=
  .nd (.nd (.nd (.lf
  0x6befc6bed464410643f0643d0643b06439064370622dc622c06bd2c6bcfc6bd306bd006bcd06bca46bc786bc4c6bc206bbf46bbc86bb9c6bb706bb486433864318642f8642d8642b864298622ac622906b9b86b9886b9bc6b98c6b95c6b9306b9046b8d86b8ac6b8806b8546b8286b7fc6b7d4642506423064210641f0641d0641b06226c622506b6346b6046b6386b6086b5d86b5ac6b5806b5546b5286b4fc)
  (.lf 0)) (.nd (.lf
  0x5d4d45d4b85d49c5d4805d4645d4485d42c5d4105d3f85d3e05d3c85d3b05d3985d3805d3685d35054770136f9136f5136f1136ed136e9136e5136e1136dd136d9136d5136d1136cd136c9136c5136c1136bd136b9136b5136b1136ad136a9136a5136a11369d1369913695136911368d1368913685136811367d547605d33c5d31c5d2fc5d2dc5d2bc5d29c5d27c5d25c5d23c5d21c5d1fc5d1dc5d1c05d1a4)
  (.lf 0))) (.nd (.nd (.lf
  0x6b9ac09e11508086b97c09e0d507f06b95009e09507d86b92409e05507c06b8f809e01507a86b8cc09dfd507946b8a009df9507806b87409df55076c6b84809df1507586b81c09ded507446b7f009de9507306b7c809de55071c6b7a009de1507086b77809ddd506f46b75009dd9506e06b72809dd5506cc6b70009dd1506b86b6d809dcd506a46b6b009dc9506906b68809dc55067c6b66009dc1506686434c)
  (.lf 0)) (.nd (.lf
  0x14574145681455c1455014544145381452c1451c1451414508144fc144f0144e4144d8144cc144c0144b4144a4144981448c14480144781446c144601445015d0d0635c0d8f00d8ec0d8e80d8e40d8e00d8dc0d8d80d8d40d8d00d8cc0d8c80d8c40d8c00d8bc0d8b80d8b40d8b00d8ac0d8a80d8a40d8a00d89c0d8980d8940d8900d88c0d8880d8840d8800d87c1444414438144241441814408143f4143e8)
  (.lf 0)))

def shaPos237 : BTree :=
  .nd (.nd (.nd (.lf
  0x52bd203dc203e0052b9203c8203cc052b5203bc203c0052b1203ac203b0052ad203982039c052a92038820390052a52038020378052a12036c203680529d203582035c05299203482034c052952033c20338052912032c203300528d2032020318052892030c2030805285202fc202f805281202ec202e80527d202dc202d805279009de009da009d6009d2009ce009ca009c6009c2009be009ba009b6009b2)
  (.lf 0)) (.nd (.lf
  0x5d6e45d6cc5d6b45d69c54794547a85d9d45d9b45d9945d9745d9545d9345d9145d8f45d8d45d5645d5445d5245d5085d4ec5d4d05d4b45d4985d47c5d4605d4445d4285d40c5d3f45d3dc5d3c45d3ac5d3945d37c5d3645d34c5476c547805d6845d6645d6445d6245d6045d5e45d5c45d5a45d5845d2145d1f05d1d45d1b85d19c5d1805d1645d1485d12c5d1105d0f45d0d45d0bc5d0a45d08c5d0745d05c)
  (.lf 0))) (.nd (.nd (.lf
  0xeea569a903f8600eea163c583f8540ee9d63c383f8480ee9963c183f83c0ee9563bf83f8300ee9163bd83f8240ee8d63bb83f8180ee8963b983f80c0ee85620ec3f8000ee81620d03f7f40ee7d6bd503f7e80ee796bd203f7dc0ee756bcf03f7d00ee716bcc43f7c40ee6d6bc983f7b80ee696bc6c3f7ac0ee656bc403f7a00ee616bc143f7940ee5d6bbe83f7880ee596bbbc3f77c0ee556bb903f7700ee51)
  (.lf 0)) (.nd (.lf
  0x2f1442f13c2f1342f12c2f1242f11c2f1142f10c2f1042f0fc15fad0057407b1c07b1807b1407b1007b0c07b0807b0407b0007afc07af807af407af007aec07ae807ae407ae007adc07ad807ad407ad007acc07ac807ac407ac007abc07ab807ab407ab007aac07aa82f0f42f0e42f0d42f0c42f0b42f0a42f0942f0842f0742f0642f0542f0442f0342f0242f0142f0042eff42efe42efd42efc42efb42efa4)
  (.lf 0)))

def shaPos238 : BTree :=
  .nd (.nd (.nd (.lf
  0x17e8002ae917e7417e7002ae517e6417e6002ae117e5417e5002add17e4417e4002ad917e3417e3002ad517e2417e2002ad117e0c17e1402acd17e0417e0002ac917df017df402ac517de017ddc02ac117dd017dd402abd17dc417dc002ab917db417dac02ab517da417da002ab117d9017d9402aad17d7c17d8002aa917d745dd3802aa517d685dd1802aa117d585dcf802a9d17d505dcd802a9917d445dcb8)
  (.lf 0)) (.nd (.lf
  0x48ac048aac48a9848a8448a7048a5c48a4848a3448a2448a10489fc489e8489d4489c0489ac4889848884488704885c488484883c4882048810487fc45d68455e8489944897c48964489504893c489284891448900488ec488d8488c4488b04889c4888848874488604884c48834488244881448800486ec486d8486c4486b04869c4868848674486604864c45cd4455e0487e8487cc487b8487a4487904877c)
  (.lf 0))) (.nd (.nd (.lf
  0x36a540c3f962a0436a4c0c3f5629e436a400c3f1629c436a300c3ed629a436a240c3e96298436a1c0c3e56296436a0c0c3e16294436a000c3dd61c5c369f40c3d961c40369e80c3d5369e0369dc0c3d1369d0369c80c3cd369c0369bc0c3c9369ac369b00c3c5369a03699c0c3c1369903698c0c3bd369803697c0c3b9369703696c0c3b5369603695c0c3b1369503694c0c3ad369403693c0c3a9369303692c)
  (.lf 0)) (.nd (.lf
  0x21d9421d8021d7021d6021d5021d4021d3421d24158fd0022404b2c04b2804b2404b2004b1c04b1804b1404b1004b0c04b0804b0404b0004afc04af804af404af004aec04ae804ae404ae004adc04ad804ad404ad004acc04ac804ac404ac004abc04ab821d1421d0421cf421ce421cd421cc421cb421ca021c9421c8421c7021c6421c5421c4421c3021c2421c1421c0421bf421be421bd421bc421bb421ba4)
  (.lf 0)))

def shaPos239 : BTree :=
  .nd (.nd (.nd (.lf
  0x78814dccc679f00787d4dcb8679c4078794dca467998078754dc906796c078714dc7c679400786d4dc6867918078694dc54678f0078654dc40678c8078614dc2c678a00785d4dc1067878078594dbfc67850078554dbe867828078514dbd4678000784d4dbc0677d4078494dbac677b0078454db9863390078414db84633700783d4db7063350078394db5c63330078354db4863310078314db34632f00782d)
  (.lf 0)) (.nd (.lf
  0x2f2682f2582f2482f2382f2282f2182f2082f1f82f1e80077000d3c2ed282ed182ed082ecf82ece82ecd82ecc82ecb82eca82ec982ec882ec782ec682ec582ec482ec382ec282ec182ec082ebf82ebe82ebd82ebc82ebb82eba82eb982eb882eb782eb682eb580076800d2c2e6982e6882e6782e6682e6582e6482e6382e6282e6182e6082e5f82e5e82e5d82e5c82e5b82e5a82e5982e5882e5782e5682e558)
  (.lf 0))) (.nd (.nd (.lf
  0x1114911145111411113d1113911135111311112d1112911125111211111d1111911115111111110d15b7d47bdc4d3d84d3c04d3a84d3904d3784d3604d34c4d3384d3244d3104d2fc4d2e84d2d44d2c04d2ac4d2984d2844d2704d25c4d2484d2344d2204d20c4d1f84d1e44d1d04d1bc4d1a84d1984d18847bd0111091110511101110fd110f9110f5110f1110ed110e9110e5110e1110dd110d9110d5110d1)
  (.lf 0)) (.nd (.lf
  0x372c0372803724037200371c0371803714037100370c037083c2f43c2e43c2d43c2c43c2b43c2a43c2943c2843c2743c2643c2543c2443c2343c2243c2143c2043c1f43c1e43c1d43c1c43c1b43c1a43c1943c1843c1743c1643c1543c1443c1343c1241480954c206740c673dc673ac673806735467328672fc672d0672a4672786724c67224671fc671d4671ac671846715c671346710c670e4670bc631d4)
  (.lf 0)))

def shaPos240 : BTree :=
  .nd (.nd (.nd (.lf
  0x9041515c15150151401512c1511c1511415100150f4150dc150d4150bc150b8150a8150981507c1506c15060150581504815034150201501014ffc14ff014fe014fd814fc014fb414fa814f9006378008fc14e1c14e0414dfc14df014dd414dd014dc014dac14d9814d8c14d8014d6414d6014d4814d3814d2414d2014d0414d0014ce814cd814cc814cbc14ca414c9814c9014c8014c7014c5814c4806370)
  (.lf
  0x40fec40fe040fd440fc840fbc40fb040fa440f9840f8c40f8040f7440f6815f8d4579c536ac5368853664536405361c535f8535d4535b05358c53568535445352053500534e0534c0534a05348053460534405342053400533e0533c4533a85338c533705335453338490d4490c040f5c40f5040f4440f3840f2c40f2040f1440f0840efc40ef040ee440ed840ecc40ec040eb440ea840e9c40e9040e8440e78))
  (.nd (.lf
  0x59ac059aa059a8059a6059a4059a2059a00599e0599c05999c5998059964599485992c59910598f4598d85956c59550595385978c5976c5974c5972c5970c596ec596cc596ac5968c5966c596545979059770597505973059710596f0596d0596b059690596705964c5963059614595f8595dc595c0595a4595885921c59200591e85943c5941c593fc593dc593bc5939c5937c5935c5933c5931c5930459440)
  (.lf 0))) (.nd (.nd (.lf
  0x86752a7f82a7fc086712a7e82a7ec0866d2a7dc2a7d8086692a7cc2a7c8086652a7bc2a7b8086612a7ac2a7a80865d2a7a02a798086592a78c2a788086552a77c2a778086512a76c2a7680864d2a75c2a758086492a74c2a748086452a73c2a738086412a72c2a7280863d2a71c2a718086392a70c2a708086352a6fc2a6f8086312a6ec2a6e80862d00f7600f7200f6e00f6a00f6600f6200f5e00f5a00f56)
  (.lf 0)) (.nd (.lf
  0x4b0604b04c47a6847a784b3104b2f44b2d84b2bc4b29c4b2844af944af7c4af644af4c4af344af1c4af044aeec4aed44aebc4aea44ae8c4ae744ae5c4ae444ae2c4ae144adfc4ade44adcc4adb04ad9c4ad884ad7447a4847a584b0384b01c4b0004afe44afc44afac4acbc4aca44ac8c4ac744ac5c4ac444ac2c4ac144abfc4abe44abcc4abb44ab9c4ab844ab6c4ab544ab3c4ab244ab0c4aaf44aad84aac4)
  (.lf 0)))

def shaPos241 : BTree :=
  .nd (.nd (.nd (.lf
  0x1b68c03ae91b6741b67c03ae51b6641b66c03ae11b6541b65c03add1b6441b64c03ad91b6341b63c03ad51b6241b62c03ad11b6141b61c03acd1b6041b60c03ac91b5f41b5fc03ac51b5e41b5ec03ac11b5d41b5dc03abd1b5c41b5cc03ab91b5b41b5bc03ab51b5a41b5ac03ab11b5941b59c03aad1b5841b58c03aa91b5741b57c03aa51b5641b56c03aa11b5541b55c03a9d1b5441b54c03a991b53c61584)
  (.lf 0)) (.nd (.lf
  0x20eec20edc20ed420ec020ea820ea420e9420e7820e7420e5820e5420e3c20e2c20e240021000ad0209582094820944209282091820908208f8208e8208d8208c8208b8208ac2089c208942087c2086c2085c2084c2083c2082c2081c2081420804207f0207e0207d0207c0207b0207a0207940020800ac0202d0202c4202b4202a02028820278202742025c2025020238202282021820208201fc201f4201d8)
  (.lf 0))) (.nd (.nd (.lf
  0x39f800d3f9658d439f700d3f5658ac39f680d3f16588439f580d3ed6585c39f500d3e962bb439f400d3e562b9839f380d3e162b7839f2c0d3dd62b5839f1c0d3d962b3839f140d3d562b1439f080d3d162af439ef80d3cd61cc039eec0d3c961ca439ee40d3c567b1c39ed40d3c167aec39ecc0d3bd67abc39ebc0d3b967a9039eb00d3b567a6439ea80d3b167a3839e980d3ad67a0c39e8c0d3a9679e039e84)
  (.lf 0)) (.nd (.lf
  0x26d4026d3426d2426d1426d0026cf426ce426cd426cc426cb426ca426c9426c8426c7426c6426c5426c4426c3426c2426c1426c0426bf426be41592d00284050cc050c8050c4050c0050bc050b8050b4050b0050ac050a8050a4050a00509c0509805094050900508c0508805084050800507c0507805074050700506c0506805064050600505c0505826bd426bc426bb426ba426b9426b8426b7426b6426b54)
  (.lf 0)))

def shaPos242 : BTree :=
  .nd (.nd (.nd (.lf
  0x1211857f340103d1210c57f18010391210057ef801035120f857edc01031120e857ec00102d120e057ea401029120d057e8801025120c457e6c01021120b857e500101d120ac57e3401019120a457e1c010151209857e00010111208c57de80100d1207c57dd0010091207057db4010051206857d9c010011205c57d8800ffd1205057d7000ff91204457d5800ff51203857d3c00ff1120241202800fed12014)
  (.lf 0)) (.nd (.lf
  0x376ec376e4376d0376c4376a8376a43768c376783766837664376503764437634376240005000ea83733837328373243730837304372e8372d8372cc372b8372b43729c3728c372783726837258372483723c37230372203720c37200371ec371e0371d0371b8371a8371983718837184371740004800e9c36e9436e8436e7436e6436e5436e4036e2836e1c36e0836dfc36dec36de436dd436dbc36dac36da0)
  (.lf 0))) (.nd (.nd (.lf
  0x31dc831dd00ac2131db831dc00ac1d31da831db00ac1931d9831da00ac1531d8831d900ac1131d7831d800ac0d31d6831d700ac0931d5831d600ac0531d4831d500ac0131d3831d400abfd31d2831d300abf931d1831d200abf531d0831d100abf1014120140e0140a0140601402013fe013fa013f6013f2013ee013ea013e6013e2013de013da0b4ac029140290c02904028fc0b470028dc0b4580b44c0b440)
  (.lf 0)) (.nd (.lf
  0xe4a40e4a00e49c0e4980e4940e4900e48c0e4880e4840e4800e47c0e4780e4740e4700e46c0e4680e4640e4600e45c0e4580e4540e4500e44c0e4480e4440e4400e43c0e4380e4341965019640196301962019610195fc195f0195dc195d0195c0195b01959c19590195801956c1956019550195401952c1952019510194fc194f0194e0194d0194c0194b0194a01948c1948015d95548f85f4645f4445f424)
  (.lf 0)))

def shaPos243 : BTree :=
  .nd (.nd (.nd (.lf
  0x183c018340182c018240181c0b7ac0186c14d4d0a81014d490022a0a808060e90185c14d450185414d410184c14d3d0184414d390a80414d35002260a800060e5002220a7f0060e10a7e814d310021e0a7e4060dd0a7e014d2d0021a0a7dc060d90a7d414d29002160a7d0060d50a7c814d25002120a7c0060d10181414d210180c14d1d0180414d19017fc14d15017f414d110a7bc14d0d0020e0a7b4060cd)
  (.lf 0)) (.nd (.lf
  0x2118821184211702115c2114c211382112c211182110821100210e8210dc210d4210b8210a8210a02108c2107c21068210602104c21040210282101c2101420ffc0046000ad820b4020b2820b2020b1020afc20ae820ae420ad020ab820ab420aa420a9420a7820a6820a6020a5420a3c20a2c20a1820a0c20a00209f4209dc209cc209c0209b42099c2098c209842097000ac4204ac204a0204882047c2046c)
  (.lf 0))) (.nd (.nd (.lf
  0xfea542dc042db80fea142db042da80fe9d42da042d980fe9942d9042d880fe9542d8042d780fe9142d7042d680fe8d42d6042d580fe8942d5042d480fe8542d4042d380fe8142d3042d280fe7d42d2042d180fe7942d1042d080fe7542d0042cf80fe7142cf042ce80fe6d6489842ce00fe696486842cd40fe656483842cc80fe616480c42cbc0fe5d647e042cb00fe59647b442ca40fe556478842c980fe51)
  (.lf 0)) (.nd (.lf
  0x3402c340243401c340143400c3400033ffc33ff433fec33fe433fd833fd033fcc33fc433fbc15c11005d4080bc080b8080b4080b0080ac080a8080a4080a00809c0809808094080900808c0808808084080800807c0807808074080700806c0806808064080600805c0805808054080500804c0804833fb433fa433f9433f8433f7433f6433f5433f4433f3433f2433f1433f0433ef433ee433ed433ec433eb4)
  (.lf 0)))

def shaPos244 : BTree :=
  .nd (.nd (.nd (.lf
  0x46dd846dc446f7c46f6446f4c46f3446f1c46f0446eec46ed446ebc46ea446e8c46f8046f6846f5046f3846f2046f0846ef046ed846ec046ea846e9046e7846e6446bd446bc046bac46b9846b8446d3c46d2446d0c46cf446cdc46cc446cac46c9446c7c46c6446c4c46d4046d2846d1046cf846ce046cc846cb046c9846c8046c6846c5046c3846c2446994469804696c469584694446afc46ae446acc46ab4)
  (.lf 0)) (.nd (.lf
  0x5b0685b04c5b0305b0145aff85afdc5afc05afa45af8c5af745af5c5af445af2c5af145aefc5aee4545bc545cc5b2185b1f85b1d85b1b85b1985b1785b1585b1385b1185b0f85b0d85b0b85b09c5b0805b0645b0485b02c5b0105aff45afd85afbc5afa05af885af705af585af405af285af105aef85aee0545b81317913175131711316d1316913165131611315d1315913155131511314d131491314513141)
  (.lf 0))) (.nd (.nd (.lf
  0x2e338099592e3302e328099552e3202e318099512e3102e3080994d2e3002e2f8099492e2f02e2e8099452e2e02e2d8099412e2d02e2c80993d2e2c02e2b8099392e2b02e2a8099352e2a02e298099312e2902e2880992d2e2802e278099292e2702e268099252e2602e258099212e2502e2480991d2e2402e238099192e2302e228099152e2202e218099112e2102e2080990d2e2002e1f809909011ba011b6)
  (.lf 0)) (.nd (.lf
  0xd51c0d5180d5140d5100d50c0d5080d5040d5000d4fc0d4f80d4f40d4f00d4ec0d4e80d4e40d4e00d4dc0d4d80d4d40d4d00d4cc0d4c80d4c40d4c00d4bc12a04129f4129e4129d8129c4129b4129a412994129881297412964129581294412934129241291412908128f4128e4128d8128c8128b4128a41289412888128741286412858128481283815cd5543d058714586f4586d8586b4586985867858658)
  (.lf 0)))

def shaPos245 : BTree :=
  .nd (.nd (.nd (.lf
  0xa3e4013f40b764000fa0a47c04e31000f60a46c04e2d000f20a46004e290a45c14b31000ee0a45404e250144414b2d0a45014b29000ea0a44804e210143414b250142c14b210a44414b1d000e60a43c04e1d000e20a43004e19000de0a42404e15000da0a41804e11000d60a40c04e0d0141c14b190141414b150140c14b110140414b0d0a40814b09000d20a40404e090a3f814b05000ce0a3f404e05000ca)
  (.lf 0)) (.nd (.lf
  0x56ce456ccc56cb456c9c54294542a856fd456fb456f9456f7456f5456f3456f1456ef456ed456b6456b4056b2456b0856aec56ad056ab456a9856a7c56a6056a4456a2456a0c569f4569dc569c4569ac569945697c569645694c5426c5428056c8456c6456c4456c2456c0456be456bc456ba456b8456814567f0567d4567b85679c5678056764567485672c56710566f4566d4566bc566a45668c566745665c)
  (.lf 0))) (.nd (.nd (.lf
  0x68fc03e6840e94d68f903e6780e94968f643e66c0e94568f383e6600e94168f0c3e6540e93d68ee03e6480e93968eb43e63c0e93568e883e6300e93168e5c3e6240e92d68e303e6180e92968e083e60c0e92568de03e6000e92168db83e5f40e91d68d903e5e80e91968d683e5dc0e91568d403e5d00e91168d183e5c40e90d68cf03e5b80e90968cc83e5ac0e90568ca03e5a00e901638d83e5940e8fd638b8)
  (.lf 0)) (.nd (.lf
  0x79200791c0791807914079100790c079080790407900078fc078f8078f4078f0078ec078e8078e4078e0078dc078d8078d4078d0078cc078c82d6b42d6a42d6942d6842d6742d6642d6542d6442d6342d6242d6142d6042d5f42d5e42d5d42d5c42d5b42d5a42d5942d5842d5742d5642d5542d5442d5342d5242d5142d5042d4f42d4e41596d003040584c0584805844058400583c0583805834058300582c)
  (.lf 0)))

def shaPos246 : BTree :=
  .nd (.nd (.nd (.lf
  0x259516bdc5c9d00259116bd45c9b80258d16bc45c99c0258916bb85c9840258516bb05c96c0258116ba016ba40257d16b9016b940257916b8416b800257516b7416b6c0257116b6016b5c0256d16b5016b4c0256916b4016b440256516b3016b340256116b2016b240255d16b1016b0c0255916afc16b040255516aec16af40255116adc16ae00254d16ad016ad40254916ac016ac40254516ab416ab002541)
  (.lf 0)) (.nd (.lf
  0x3ea7c3ea703ea643ea583ea4c3ea403ea343ea283ea1c3ea103ea043e9f83e9ec3e9e048dd800fd03e68c3e6803e6743e6683e65c3e6503e6443e6383e62c3e6203e6143e6083e5fc3e5f03e5e43e5d83e5cc3e5c03e5b43e5a83e59c3e5903e5843e5783e56c3e5603e5543e5483e53c3e53048dcc00fc43e1e03e1d43e1c83e1bc3e1b03e1a43e1983e18c3e1803e1743e1683e15c3e1503e1443e1383e12c)
  (.lf 0))) (.nd (.nd (.lf
  0xbf0d359303592c0bf09359203591c0bf05359103590c0bf0135900358fc0befd358f0358ec0bef9358e0358dc0bef5358d0358cc0bef1358c0358bc0beed358b0358ac0bee9358a03589c0bee5358903588c0bee1358803587c0bedd358703586c0bed9358603585c0bed5358503584c0bed1358403583c0becd358303582c0bec9358203581c0bec54773c471b80bec147724471a00bebd4770c471880beb9)
  (.lf 0)) (.nd (.lf
  0x2034020334203242031020304202f0202e0158ed002040494c0494804944049400493c0493804934049300492c0492804924049200491c0491804914049100490c049080490404900048fc048f8048f4048f0048ec048e8048e4048e0048dc048d8202d4202c0202b0202a420294202842027020264202542024420234202242021420204201f0201e4201d4201c0201b0201a42019420184201742016020154)
  (.lf 0)))

def shaPos247 : BTree :=
  .nd (.nd (.nd (.lf
  0x26cd0073b526cc026cb8073b126ca826cb0073ad26ca026c98073a926c8c26c88073a526c8026c78073a126c6826c700739d26c6026c5c0739926c5026c4c0739526c4026c3c0739126c3026c280738d26c2026c180738926c0826c100738526c0026bf80738126be826bf00737d26be026bd80737900d6200d5e00d5a00d5600d5200d4e00d4a00d4600d4200d3e00d3a00d3601d0c0aa1c0aa1401cdc01cbc)
  (.lf 0)) (.nd (.lf
  0x2206c220642204c2203822028220242200821ffc21ff40067000b0421b2c21b1821b0c21afc21af421adc21ac821ab821aa821a9c21a9021a7c21a6821a5821a4821a4421a3421a1821a08219f8219f0219d8219d0219b8219b02199821990219842196c219640066800af0214a42148c214782147421458214542143821430214182140c21404213e8213e4213c8213c0213a8213a4213882137c2136821358)
  (.lf 0))) (.nd (.nd (.lf
  0x1098910985109811097d1097910975109711096d1096910965109611095d1095910955109511094d15b3947a1c4aa8c4aa704aa544aa384aa1c4aa004a9e84a9d04a9b84a9a04a9884a9704a9584a9404a9284a9104a8f84a8e04a8c84a8b04a8984a8804a8684a8504a8384a8204a8084a7f04a7dc4a7c847a0c1094910945109411093d1093910935109311092d1092910925109211091d109191091510911)
  (.lf 0)) (.nd (.lf
  0x3a89c3a8903a8803a8783a86c3a8603a8543a84815e8554c7868210681e0681b068184681586812c68100680d4680a86807c680506802467ffc67fd467fac67f8467f5c67f3467f0c67ee467ebc63560635406352063500634e0634c0634a061f3061f143a83c3a8303a8243a8143a80c3a8003a7f43a7e83a7dc3a7d03a7c43a7b83a7ac3a7a03a7943a7883a77c3a7703a7643a7583a74c3a7403a7343a728)
  (.lf 0)))

def shaPos248 : BTree :=
  .nd (.nd (.nd (.lf
  0xa001b8881b8741b8681b85c1b8581b84c1b8381b8341b8201b81c1b8081b8041b7f01b7e41b7e01b7cc1b7c01b7bc1b7b01b7a41b7981b7841b7801b7741b7601b75c1b7481b73c1b7381b72454aa0009f81b5381b5341b5201b5141b5101b5041b4f01b4e41b4d81b4cc1b4c01b4bc1b4b01b4a41b4901b48c1b4801b4741b4601b45c1b4501b4441b4301b4241b4181b40c1b4001b3fc1b3f01b3e454a74)
  (.lf
  0x44394443884437c4437044364443584434c4434044334443284431c4431044304442f815e31450744746c474504743447418473fc473e0473c4473a84738c47370473544733c473244730c472f4472dc472c4472ac472944727c47264472504723c472284721447200471ec471d84587c45870442ec442e0442d4442c8442bc442b0442a4442984428c4428044274442684425c4425044244442384422c44220))
  (.nd (.lf
  0x56ad456ab856a9c56a8056a6456a4856a2c56a10569f8569e0569c8569b05699856980569685695054270126f9126f5126f1126ed126e9126e5126e1126dd126d9126d5126d1126cd126c9126c5126c1126bd126b9126b5126b1126ad126a9126a5126a11269d1269912695126911268d1268912685126811267d542605693c5691c568fc568dc568bc5689c5687c5685c5683c5681c567fc567dc567c0567a4)
  (.lf 0))) (.nd (.nd (.lf
  0x2c5fc08ffd2c5f02c5ec08ff92c5e02c5d808ff52c5d02c5cc08ff12c5c02c5bc08fed2c5b02c5ac08fe92c5a02c59c08fe52c5902c58c08fe12c5802c57c08fdd2c5702c56c08fd92c5602c55c08fd52c5502c54c08fd12c5402c53c08fcd2c5302c52c08fc92c5202c51c08fc52c5102c50c08fc12c5002c4fc08fbd2c4f02c4ec08fb92c4e02c4dc08fb52c4d02c4cc08fb12c4c02c4bc08fad2c4b02c4ac)
  (.lf 0)) (.nd (.lf
  0x48ff448fdc48fc448fb848fa448f9848f8448f7448f6048f5448f4448f3448f2048f1048f0448ef848eec48ee048ed848ec848ec048eb448ea40f4980f4900f4880f4800f4780f4700f4680f4600f4580f4500f4480f4400f4340f4300f4240f4200f4140f4100f4080f4000f3f80f3f00f3e80f3e00f3d80f3cc0f3c80f3c00f3b80f3b015afd54e006275062724626fc626d8626ac62684626586263c62614)
  (.lf 0)))

def shaPos249 : BTree :=
  .nd (.nd (.nd (.lf
  0x49c58451ac044b149c3c4519c044ad49c204518c044a949c0445180044a549be845174044a149bcc451680449d49bb44515c0449949b9c451500449549b84451440449149b6c451380448d49b544512c0448949b3c451200448549b24451140448149b0c451080447d49af4450fc0447949adc450f00447549ac4450e40447149aac450d80446d49a98450cc0446949a80450c00446549a68450b40446149a50)
  (.lf 0)) (.nd (.lf
  0x57494574785745c574405742457408573f0573d8573c0573a857390573785736057348542f0542dc5733057310572f0572d0572b05729057270572505723057210571f0571d0571b4571985717c5716057144571285710c570f0570d4570b8570a057088570705705857040570285701056ff8542c8542b456fe056fc056fa056f8056f6056f4056f2056f0056ee056ec056ea056e8056e6456e4856e2c56e10)
  (.lf 0))) (.nd (.nd (.lf
  0xdea563a443c3380dea163a243c32c0de9d63a043c3200de99639e43c3140de95620843c3080de91620683c2fc0de8d3c2f03c2e80de893c2e03c2d80de853c2d03c2c80de813c2c03c2b80de7d3c2b03c2a80de793c2a03c2980de753c2903c2880de713c2803c2780de6d3c2703c2680de693c2603c2580de653c2503c2480de613c2403c2380de5d3c2303c2280de593c2203c2180de553c2103c2080de51)
  (.lf 0)) (.nd (.lf
  0x75400753c0753807534075300752c0752807524075200751c0751807514075100750c075082a2342a2242a2142a2042a1f42a1e42a1d42a1c42a1b42a1a42a1942a1842a1742a1642a1542a1442a1342a1242a1142a1042a0f42a0e42a0d42a0c42a0b42a0a42a0942a0842a0742a0641594d020dc0c1f0020bc0c1d8020b4020a40209c0c1a80208c0c190020740206c02064002c40548c054880548405480)
  (.lf 0)))

def shaPos250 : BTree :=
  .nd (.nd (.nd (.lf
  0x1467c01ae9146641466801ae5146541465c01ae1146441464c01add146341463801ad9146241462801ad5146141461c01ad1146041460c01acd145f4145fc01ac9145ec145e801ac5145dc145d801ac1145c4145cc01abd145b4145b801ab9145ac5a4e801ab5145a05a4c801ab1145945a4a801aad145885a48801aa91457c5a46801aa5145705a44801aa1145645a42801a9d145585a40801a991454c5a3e8)
  (.lf 0)) (.nd (.lf
  0x39e1c39e0c39dfc39df439dec39dd839dd039dc039dbc39da839d9c39d9839d8839d7848d8800f0c39a2839a1839a1439a04399fc399e8399dc399d0399c4399b8399b4399a039994399883998039974399683995c3994c3994039934399283991c3991039904398f8398f0398e0398d4398d048d7c00f0039574395703955c3955839544395383953039520395143950c39500394f8394e4394d8394cc394c4)
  (.lf 0))) (.nd (.nd (.lf
  0x33c5c0b5b533c5033c4c0b5b133c4033c3c0b5ad33c3033c2c0b5a933c2033c1c0b5a533c1033c0c0b5a133c0033bfc0b59d33bf033bec0b59933be033bdc0b59533bd033bcc0b59133bc033bbc0b58d33bb033bac0b58933ba033b9c0b58533b9033b8c0b58133b8033b7c0b57d33b7033b6c0b57933b6033b5c0b57533b5033b4c0b57133b4033b3c0b56d33b3033b2c0b56933b2033b1c0b56533b1033b0c)
  (.lf 0)) (.nd (.lf
  0x45500454c0454804544045400453c0453804534045300452c0452804524045200451c045181cd281cd181cd081ccf81cce81ccd81ccc41ccb81cca41cc981cc881cc781cc681cc581cc441cc381cc241cc141cc081cbf81cbe41cbd41cbc81cbb41cba81cb981cb881cb741cb681cb58148810060c0840408400083fc083f8083f4083f0083ec083e8083e4083e0083dc083d8083d4083d0083cc083c8083c4)
  (.lf 0)))

def shaPos251 : BTree :=
  .nd (.nd (.nd (.lf
  0x24f2824f3006a7524f2024f1806a7124f1024f0806a6d24f0024ef806a6924ef024eec06a6524edc24ed806a6124ed024ecc06a5d24ebc24eb806a5924eac24ea806a5524ea024e9c06a5124e9024e8806a4d24e7c24e7806a4924e6824e6c06a4524e5c24e6006a4124e5024e4806a3d24e4024e3c06a3924e2824e3006a3524e1c24e2006a3124e0824e1006a2d24df824e0006a2924de824dec06a2524dd8)
  (.lf 0)) (.nd (.lf
  0x21f3c21f3421f2c21f2421f1c21f1021f0821f0421ef847ad400b00219502194c219402193c219342192c219242191c219102190821900218f8218f0218ec218e4218d8218d4218cc218c0218b8218b4218ac218a02189821890218882188021878218702186847ab400aec212c0212b8212b4212ac212a0212982129021288212802127c21270212682126021258212502124c2124021238212302122821220)
  (.lf 0))) (.nd (.nd (.lf
  0x4be184bdf84bde04bdc84bdb04bd9c4bd804bd684bd504bd384bd204bd084bcf04bcd84bcc04bca84bc904b9a04b9884b9704b9584b9404b9284b9144bb904bb744bb584bb3c4bb284bb944bb784bb5c4bb404bb204bb084baf04bad84bac04baa84ba904ba784ba604ba484ba304ba184ba004b9e84b9d04b9b84b6c84b6b04b6984b6804b6684b6504b63c4b8b84b89c4b8804b8644b8504b8bc4b8a04b884)
  (.lf 0)) (.nd (.lf
  0x374f0374e8374dc374d0374c4374b815c3d54b9c65bbc65b8c65b5c65b3065b0465ad865aac65a8065a5465a28659fc659d0659a865980659586593065908658e0658b8658906586862bc062ba062b8062b6062b4062b2062b0061cc861cac374ac374a037494374883747c3746c37464374583744c3743c37434374243741c3741037404373f8373ec373e0373d4373c8373bc373b0373a4373983738c37380)
  (.lf 0)))

def shaPos252 : BTree :=
  .nd (.nd (.nd (.lf
  0x5950fbe00fbdc005910fbcc0fbd00058d0fbbc0fbc0005890fbb40fbac005850fba40fba0005810fb8c0fb900057d0fb7c0fb80005790fb740fb6c005750fb5c0fb60005710fb4c0fb540056d0fb3c0fb40005690fb2c0fb30005650fb200fb24005610fb100fb140055d0fafc0fb00005590faf40faec005550fae40fae0005510fad00fad40054d0fac00fabc005490fab00fab4005450faa40fa9c00541)
  (.lf 0)) (.nd (.lf
  0x13c3d13c3913c3513c3113c2d13c2913c2513c2113c1d13c1913c1513c1113c0d13c0913c0513c0113bfd549185f7ac5f78c5f76c5f74c5f72c5f70c5f6ec5f6cc5f6ac5f68c5f66c5f64c5f6305f6145f5f85f5dc5f5c05f5a45f5885f56c5f5505f5345f51c5f5045f4ec5f4d45f4bc5f4a45f48c5f47454904549145f7a85f7885f7685f7485f7285f7085f6e85f6c85f6a85f6885f6685f6485f62c5f610)
  (.lf 0))) (.nd (.nd (.lf
  0xa2d9301203011c0a2d5301103010c0a2d130100300fc0a2cd300f0300ec0a2c9300e0300dc0a2c5300d0300cc0a2c1300c0300bc0a2bd300b0300ac0a2b9300a03009c0a2b5300903008c0a2b1300803007c0a2ad300703006c0a2a9300603005c0a2a5300503004c0a2a1300403003c0a29d300303002c0a299300203001c0a295300103000c0a291300002fffc0a28d2fff02ffec0a2892ffe02ffdc0a285)
  (.lf 0)) (.nd (.lf
  0x5bf045bee45bec45bea45be845be645be445be245be045bde85bdcc5bdb05bd945bd785bd5c5bd405bd245bd085bcec5bcd45bcbc5bca45bc8c5bc745bc605bc485bc2c15ff015fe415fd815fcc15fc015fb015fa815f9c15f9015f8415f7415f6c15f6015f5415f4815f3c15f3015f2415f1415f0c15f0015ef415ee815edc15ed015ec015eb815eac15ea015e94160490639c0dcb00dcac0dca80dca40dca0)
  (.lf 0)))

def shaPos253 : BTree :=
  .nd (.nd (.nd (.lf
  0x487bc057854b5a4487a8057814b588487940577d4b56c48780057794b5544876c057754b53c48758057714b524487440576d4b50c48730057694b4f44871c057654b4dc48708057614b4c4486f40575d4b4ac486e0057594b494486cc057554b47c486b8057514b464486a40574d4b44c48690057494b4344867c057454b41c48668057414b404486540573d4b3ec45cd8057394b3d445cc8057354b3b845cb8)
  (.lf 0)) (.nd (.lf
  0x15c8015c0015b80a6400a63c015b0015a80a630015a00a6200a61401598015900b78000a1e00ad40bbe801588015800bbe40bbd00bbc4015780bbc00bbb4015700bba00bb940156801560015580bb90015500bb7c015480bb78015400bb6801538015300bb5c01528015200bb54064c0009e200458003c40a60c015180a5f80a5f0015100a5e40a5d40a5cc01508015000a5c40a5b00a5ac014f8014f00a598)
  (.lf 0))) (.nd (.nd (.lf
  0x40a480f3f9531d440a3c0f3f5531b040a300f3f15318c40a240f3ed5316c40a180f3e95314c40a0c0f3e55312c40a000f3e15310c409f40f3dd530ec409e80f3d9530cc409dc0f3d5530ac409d00f3d15308c409c40f3cd5306c409b80f3c95304c409ac0f3c553030409a00f3c153014409940f3bd52ff8409880f3b952fdc4097c0f3b552fc0409700f3b152fa4409640f3ad490a8409580f3a9490944094c)
  (.lf 0)) (.nd (.lf
  0x30b8830b8430b7830b7430b6c30b6030b5c30b5430b4c30b4430b3c15dfd0059407cfc07cf807cf407cf007cec07ce807ce407ce007cdc07cd807cd407cd007ccc07cc807cc407cc007cbc07cb807cb407cb007cac07ca807ca407ca007c9c07c9807c9407c9007c8c07c8830b3430b2430b1430b0430af430ae430ad430ac430ab430aa430a9430a8430a7430a6430a5430a4430a3430a2430a1430a04309f4)
  (.lf 0)))

def shaPos254 : BTree :=
  .nd (.nd (.nd (.lf
  0x191085f0d80303d191005f0b803039190f45f09803035190e85f07803031190dc5f0580302d190d05f03803029190c45f01803025190b85eff803021190ac5efd80301d190a05efb803019190945ef9c03015190885ef80030111907c5ef640300d190705ef4803009190645ef2c03005190585ef10030011904c5eef402ffd190405eed802ff9190345eebc02ff5190285eea002ff11901c5ee8802fed19010)
  (.lf 0)) (.nd (.lf
  0x6b8b06b8846b8586b82c6b8006b7d86b7b06b7886b7606b7386b7106b6e86b6c06b6986b6706b4286b4006b3d86b3b06b3886b3606b3386b3106b2e86427054d986b63c6b60c6b5dc6b5b06b5846b5586b52c6b5006b4d46b4a86b47c6b4546b42c6b4046b3dc6b3b46b38c6b3646b33c6b3146b2ec6b0b46b08c6b0646b03c6b0146afec6afc46af9c6af746419854d886b2c86b2986b2686b23c6b2106b1e4)
  (.lf 0))) (.nd (.nd (.lf
  0x37c1037c0c0c94d37bfc37bf80c94937bf037bec0c94537be037bd80c94137bcc37bc80c93d37bc037bb80c93937bb037ba80c93537b9c37b980c93137b8c37b880c92d37b7c37b780c92937b6c37b700c92537b6037b580c92137b4837b4c0c91d37b3c37b400c91937b3037b280c91537b2037b180c91137b0c37b080c90d37afc37b000c90937ae837af00c90537ae037adc0c90137ad037acc0c8fd48648)
  (.lf 0)) (.nd (.lf
  0x2381423800237f4237e4237d4237c4237b4237a4237942378423774237641590d0bddc0bdd00bdc4018f4018ec0bda00bd94018bc0bd7c018a40189c0bd5801894064dc0024404d0c04d0804d0404d0004cfc04cf804cf404cf004cec04ce804ce404ce004cdc04cd804cd404cd004ccc04cc804cc404cc004cbc04cb804cb404cb004cac04ca804ca404ca004c9c04c98237502374423734237242371423704)
  (.lf 0)))

def shaPos255 : BTree :=
  .nd (.nd (.nd (.lf
  0x28ab007d3528a9c28a9807d3128a9028a8c07d2d28a7c28a8007d2928a6828a6c07d2528a5c28a5807d2128a5028a4c07d1d28a4028a3c07d1928a2828a3007d1528a2028a1807d1128a0828a0c07d0d28a00289fc07d09289f0289e807d05289dc289e007d01289d0289cc07cfd289bc289c007cf9289b0289a807cf5289982899c07cf1289902898807ced289802897807ce92896c2896807ce52895c28960)
  (.lf 0)) (.nd (.lf
  0x4b6bc4b6a44b68c4b6744b65c4b6444b62c4b6184b60447ab047aa04b5f04b5d44b5b84b59c4b5804b5644b54c4b5344b51c4b5044b4ec4b4d44b4bc4b4a44b48c4b4744b45c4b4444b42c4b4144b3fc4b3e44b3cc4b3b44b39c4b3844b36c4b3544b3404b32c47a9047a804b3184b2fc4b2e04b2c44b2a84b28c4b2744b25c4b2444b22c4b2144b1fc4b1e44b1cc4b1b44b19c4b1844b16c4b1544b13c4b124)
  (.lf 0))) (.nd (.nd (.lf
  0x119091190511901118fd118f9118f5118f1118ed118e9118e5118e1118dd118d9118d5118d1118cd15bbd47d5c4f9d84f9c04f9a84f9904f9784f9604f94c4f9384f9244f9104f8fc4f8e84f8d44f8c04f8ac4f8984f8844f8704f85c4f8484f8344f8204f80c4f7f84f7e44f7d04f7bc4f7a84f7984f78847d50118c9118c5118c1118bd118b9118b5118b1118ad118a9118a5118a11189d118991189511891)
  (.lf 0)) (.nd (.lf
  0x3dc443dc383dc2c3dc203dc143dc083dbfc3dbf03dbe43dbd815f0954d546a8646a8346a8046a7d86a7ac6a7806a7546a7286a6fc6a6d06a6a46a6786a6506a6286a6006a5d86a5b06a5886a5606a5386a51063f0063ee063ec063ea063e8063e6063e40621986217c3dbcc3dbc03dbb43dba83db9c3db903db843db783db6c3db603db543db483db3c3db303db243db183db0c3db003daf43dae83dadc3dad0)
  (.lf 0)))

def shaPos256 : BTree :=
  .nd (.nd (.nd (.lf 0x0) (.lf
  0x3e13c3e1303e1243e1183e10c3e1003e0f43e0e83e0dc3e0d03e0c43e0b83e0ac3e0a03e0943e08815f1154d686abe06abb06ab806ab546ab286aafc6aad06aaa46aa786aa4c6aa206a9f46a9cc6a9a46a97c6a9546a92c6a9046a8dc6a8b46a88c63fe063fc063fa063f8063f6063f4063f20621d0621b43e07c3e0703e0643e0583e04c3e0403e0343e0283e01c3e0103e0043dff83dfec3dfe03dfd43dfc8))
  (.nd (.lf
  0x11a7d11a7911a7511a7111a6d11a6911a6511a6111a5d11a5911a5511a5111a4d11a4911a4511a4115bc947da4500fc500e4500cc500b45009c50084500705005c5004850034500205000c4fff84ffe44ffd04ffbc4ffa84ff944ff804ff6c4ff584ff444ff304ff1c4ff084fef44fee04fecc4febc4feac47d9811a3d11a3911a3511a3111a2d11a2911a2511a2111a1d11a1911a1511a1111a0d11a0911a05)
  (.lf 0))) (.nd (.nd (.lf
  0x28ccc28cc807de928cbc28cb807de528cb028cac07de100e8e00e8a00e8600e8200e7e00e7a00e7600e7200e6e00e6a00e6600e6201f4c01f440ac8c0ac8401f3c0ac6c01f1c0ac5401f1401f0401ee40b80c0aca8150c9003b20aca407ddd0ac9c150c5003ae0ac9807dd9003aa0ac8807dd5003a60ac8007dd101f34150c101f2c150bd01f24150b90ac74150b5003a20ac7007dcd0039e0ac6807dc90ac60)
  (.lf 0)) (.nd (.lf
  0x4c6444c6304c61c4c6084c5f44c5e04c5cc4c5bc4c5ac47b5c47b504c59c4c5844c56c4c5544c53c4c5244c5104c4fc4c4e84c4d44c4c04c4ac4c4984c4844c4704c45c4c4484c4344c4204c40c4c3f84c3e44c3d04c3bc4c3a84c3944c3804c36c4c35c4c34c47b4447b384c33c4c3244c30c4c2f44c2dc4c2c44c2b04c29c4c2884c2744c2604c24c4c2384c2244c2104c1fc4c1e84c1d44c1c04c1ac4c198)
  (.lf 0)))

def shaPos257 : BTree :=
  .nd (.nd (.nd (.lf
  0x19488194840313d194781947c031391946c5f46803135194605f44803131194505f4280312d194485f408031291943c5f3e8031251942c5f3c803121194245f3a80311d194185f388031191940c5f36803115193fc5f34803111193f45f3280310d193e45f30803109193d85f2ec03105193d05f2d003101193c45f2b4030fd193b85f298030f9193a85f27c030f51939c5f260030f1193905f244030ed19384)
  (.lf 0)) (.nd (.lf
  0x652846525c652346520c651e4651bc651946516c629fc629dc629bc6299c6297c6295c6293c61a4c61a2c61a0c52c1861c2461bfc61bd461bb061b8c61b6861b4461b2061afc61ad861ab461a9061a7061a5061a3061a10619f0619d0619b0619906197054b6054b4854b3054b1854b0054ae854ad064a04649dc649b46498c649646493c64914648ec648c46292452f9064c1c64bec64bbc64b9064b6464b38)
  (.lf 0))) (.nd (.nd (.lf
  0x4878837f340ca4d4877437f280ca494876037f180ca454874c37f0c0ca414873837f000ca3d4872437ef80ca394871037eec0ca35486fc37ee00ca31486e837ed00ca2d486d437ec80ca29486c037ebc0ca25486ac37eac0ca214869837ea40ca1d4868437e940ca194867037e8c0ca154865c37e800ca1145ce037e740ca0d45ccc37e680ca0945cc037e580ca0545cac37e4c0ca0145ca037e400c9fd45c90)
  (.lf 0)) (.nd (.lf
  0x23d2023d1023d0423cf423ce423cd423cc423cb423ca423c9423c8423c7423c6423c5423c4423c3423c2423c14148c50069408bfc08bf808bf408bf008bec08be808be408be008bdc08bd808bd408bd008bcc08bc808bc408bc008bbc08bb808bb408bb008bac08ba808ba408ba008b9c08b9808b9408b9008b8c08b8823c0423bf423be423bd423bc023bb423ba423b9423b8423b7423b6423b5423b4423b34)
  (.lf 0)))

def shaPos258 : BTree :=
  .nd (.nd (.nd (.lf
  0x6950ff6455c1c006910ff5c0ff580068d0ff4c0ff44006890ff380ff3c006850ff2c0ff24006810ff180ff140067d0ff0c0ff08006790fef80fefc006750fee40feec006710fedc0fed80066d0fec80fecc006690feb80febc006650feac0fea4006610fe980fe9c0065d0fe840fe88006590fe780fe74006550fe680fe6c006510fe5c0fe540064d0fe4c0fe44006490fe3c0fe38006450fe280fe2400641)
  (.lf 0)) (.nd (.lf
  0x13d3d13d3913d3513d3113d2d13d2913d2513d2113d1d13d1913d1513d1113d0d13d0913d0513d0113cfd549685fe4c5fe2c5fe0c5fdec5fdcc5fdac5fd8c5fd6c5fd4c5fd2c5fd0c5fcec5fcd05fcb45fc985fc7c5fc605fc445fc285fc0c5fbf05fbd45fbbc5fba45fb8c5fb745fb5c5fb445fb2c5fb1454954549645fe485fe285fe085fde85fdc85fda85fd885fd685fd485fd285fd085fce85fccc5fcb0)
  (.lf 0))) (.nd (.nd (.lf
  0x303600a3a130348303500a39d30338303400a39930328303300a39530318303200a39130308303100a38d302f8303000a389302e8302f00a385302d8302e00a381302c8302d00a37d012fa012f6012f2012ee012ea012e6012e2012de012da012d6012d2012ce012ca012c6012c2012be01b3a0c6540a3790276c154ed02764154e90275c154e502754154e10c64c154dd01b360c6480a37501b320c63c0a371)
  (.lf 0)) (.nd (.lf
  0x1652416055063ac0dda00dd9c0dd980dd940dd900dd8c0dd880dd840dd800dd7c0dd780dd740dd700dd6c0dd680dd640dd600dd5c0dd580dd540dd500dd4c0dd480dd440dd400dd3c0dd380dd340dd300dd2c1651816508164f8164e8164d8164c8164b8164a416498164841647416464164541644416438164241641816404163f4163e4163d8163c4163b4163a816398163881637816368163581634815d3d)
  (.lf 0)))

def shaPos259 : BTree :=
  .nd (.nd (.nd (.lf
  0x14c15017c60bbf80588115869216802167c0587d216682167005879216602165c05875216502164c05871216402163c0586d216302162c05869216202161c05865216102160c0586121600215fc0585d215f0215ec05859215e0215dc05855215d0215cc05851215c0215bc0584d215b0215ac05849215a02159c05845215902158c05841215802157c0583d215702156c05839215602155c058352155021548)
  (.lf 0)) (.nd (.lf
  0x18a80bd840bd78018a00bd68018980bd5c0bd50018900188801880018780bd4c064d800b62003d401870018680a80c01860018580185001848018400a7fc0a7f4018380a7ec018300a7d8018280a7cc018200a7c401818018100180801800017f8017f00a7b80b7a800b3a230e8230e4230c800488003d0017e8017e00a7b00a7a4017d8017d00a7900a784017c80a778017c0017b80a76c017b0017a80a760)
  (.lf 0))) (.nd (.nd (.lf
  0x40db00f4f940d9840da00f4f540d8840d900f4f140d7840d800f4ed40d6840d700f4e940d5840d600f4e540d4840d500f4e140d3840d400f4dd40d2840d300f4d940d1840d200f4d540d0840d100f4d140cf840d000f4cd40ce840cf00f4c940cd840ce00f4c540cc840cd00f4c140cb840cc00f4bd40ca840cb00f4b940c9840ca00f4b540c8840c900f4b140c7840c800f4ad40c6840c700f4a940c5840c60)
  (.lf 0)) (.nd (.lf
  0x310f4310e4310d4310c4310b4310a43109431084310743106431054310443103431024310143100430ff4159910034c05c8405c8005c7c05c7805c7405c7005c6c05c6805c6405c6005c5c05c5805c5405c5005c4c05c4805c4405c4005c3c05c3805c3405c3005c2c05c2805c2405c2005c1c05c1805c1405c1030fe430fd430fc430fb430fa430f9430f8430f7430f6430f5430f4430f3430f2430f1430f04)
  (.lf 0)))

def shaPos260 : BTree :=
  .nd (.nd (.nd (.lf
  0x9c41a0201a0101a00019ff019fe019fd019fc019fb019fa019f9019f8019f7019f5c19f4c19f3c19f2c19f1c19f0c19efc19eec19edc19ecc19ebc19eac19e9c19e8c19e7c19e6c19e5c19e4c06438009bc19cd819cc819cb819ca819c9819c8819c7819c6419c5419c4419c3419c2419c1419c0419bf419be419bd419bc419bb419ba419b9419b8419b7419b6419b5419b4419b3419b2419b1419b0406430)
  (.lf
  0x449544494444934449244491444904448f4448e4448d4448c4448b4448a4448944488444874448644485444844448344482415de9010e40cc3c0cc380cc340cc300cc2c0cc280cc240cc200cc1c0cc180cc140cc100cc0c0cc080cc040cc000cbfc0cbf80cbf40cbf00cbec0cbe80cbe40cbe00cbdc0cbd80cbd40cbd00cbcc0cbc84481444804447f4447e4447d4447c4447b4447a444794447844477444764))
  (.nd (.lf
  0x57174571585713c5712057104570e8570cc570b05709857080570685705057038570205700856ff0542c0127f9127f5127f1127ed127e9127e5127e1127dd127d9127d5127d1127cd127c9127c5127c1127bd127b9127b5127b1127ad127a9127a5127a11279d1279912795127911278d1278912785127811277d542b056fdc56fbc56f9c56f7c56f5c56f3c56f1c56efc56edc56ebc56e9c56e7c56e6056e44)
  (.lf 0))) (.nd (.nd (.lf
  0x90c12c8402c838090bd2c8302c828090b92c8202c818090b52c8102c808090b12c8002c7f8090ad2c7f02c7e8090a92c7e02c7d8090a52c7d02c7c8090a12c7c02c7b80909d010b6010b2010ae010aa010a6010a20109e0109a01096010920108e0108a0108602394152f10c3a0152ed01a520c39c0909901a4e0c3900909502384152e90237c152e502374152e10236c152dd0c388152d901a4a0c38409091)
  (.lf 0)) (.nd (.lf
  0xce240ce200ce1c0ce180ce140ce100ce0c0ce080ce040ce000cdfc0cdf80cdf40cdf00cdec0cde80cde40cde00cddc0cdd80cdd40cdd00cdcc0cdc80cdc40cdc00cdbc0cdb80cdb40f8cc0f8c00f8b00f8a00f8900f87c0f86c0f85c0f8500f8400f82c0f81c0f8100f8000f7ec0f7dc0f7d00f7c00f7b00f79c0f7900f77c0f7700f75c0f7500f7400f7300f71c0f7100f70015c8d553086514c6511c650e8)
  (.lf 0)))

def shaPos261 : BTree :=
  .nd (.nd (.nd (.lf
  0xb9b8045b1017020b9ac045ad016fe0b99c045a9016fa0b990045a5158591dad81dae0045a11dac81dacc0459d1dab81dabc045991daac1daa8045951da9c1daa0045911da881da900458d1da781da80045891da701da6c045851da5c1da58045811da481da4c0457d1da3c1da38045791da2c1da30045751da1c1da18045711da0c1da100456d1da001d9fc045691d9e81d9ec045651d9dc1d9e0045611d9d0)
  (.lf 0)) (.nd (.lf
  0x58874588585883c5882058804587e8587d0587b8587a05878858770587585874058728543e0543cc58710586f0586d0586b05869058670586505863058610585f0585d0585b058594585785855c585405852458508584ec584d0584b458498584805846858450584385842058408583f0583d8543b8543a4583c0583a05838058360583405832058300582e0582c0582a0582805826058244582285820c581f0)
  (.lf 0))) (.nd (.nd (.lf
  0xdfa53c6603c6580dfa13c6503c6480df9d3c6403c6380df993c6303c6280df953c6203c6180df913c6103c6080df8d3c6003c5f80df893c5f03c5e80df853c5e03c5d80df813c5d03c5c80df7d6778c3c5c00df796775c3c5b40df756772c3c5a80df71677003c59c0df6d676d43c5900df69676a83c5840df656767c3c5780df61676503c56c0df5d676243c5600df59675f83c5540df55675cc3c5480df51)
  (.lf 0)) (.nd (.lf
  0x54e0054dc054d8054d4054d0054cc054c8054c4054c0054bc054b8054b4054b0054ac054a8054a4054a00549c0549805494054902a6e42a6d42a6c42a6b42a6a42a6942a6842a6742a6642a6502a6442a6342a6242a6142a6042a5f02a5e42a5d42a5c42a5b42a5a42a5942a5802a5742a5642a5502a5442a5342a5242a51414905007140937c0937809374093700936c0936809364093600935c0935809354)
  (.lf 0)))

def shaPos262 : BTree :=
  .nd (.nd (.nd (.lf
  0x14a0001be9149f0149f401be5149e0149e401be1149d4149cc01bdd149bc149c401bd9149ac149b401bd51499c149a401bd11498c1499401bcd1497c1498401bc91496c1497401bc51495c1496401bc11494c1495401bbd1493c1494401bb91492c1493401bb51491c1492401bb11490c1491401bad148fc1490401ba9148f45a83801ba5148e85a81401ba1148dc5a7f801b9d148d05a7d801b99148c45a7b8)
  (.lf 0)) (.nd (.lf
  0x3ba343ba283ba1c3ba183ba083b9f83b9ec3b9e03b9d43b9cc3b9bc3b9b43b9a43b99c48dd000f543b6443b6383b6303b6203b6143b6083b5fc3b5f03b5e43b5dc3b5d43b5c83b5bc3b5ac3b5a43b5903b5883b5783b5703b5603b5583b5483b53c3b5303b5283b5183b50c3b5003b4f43b4f048dc400f483b1943b18c3b17c3b1703b1643b1603b1503b1403b1343b1283b1203b1103b1043b0fc3b0f03b0e0)
  (.lf 0))) (.nd (.nd (.lf
  0x33ea833eb00b67933e9833ea00b67533e8833e900b67133e7833e800b66d33e6833e700b66933e5833e600b66533e4833e500b66133e3833e400b65d33e2833e300b65933e1833e200b65533e0833e100b65133df833e000b64d33de833df00b64933dd833de00b6450152e0152a01526015220151e0151a01516015120150e0150a0150601502014fe02b7c157010c8f8156fd01c1a0c8f40b64102b6c156f9)
  (.lf 0)) (.nd (.lf
  0x845808454084500844c0844808444084400843c0843808434084300842c0842808424084200841c0841808414084100840c084081d24c1d2401d2301d2201d2101d1fc1d1f01d1e01d1d01d1c01d1b01d19c1d1901d1801d16c1d15c1d1501d1401d1301d1201d1101d1001d0ec1d0e01d0cc1d0bc1d0b01d0a01d08c1d080159cd4795c4997c49960499444992449908498f0498d4498c0498a84989049878)
  (.lf 0)))

def shaPos263 : BTree :=
  .nd (.nd (.nd (.lf
  0xc5600c5200c4e0a93001aec01acc01abc01aac0a8f40a8e801aa401a8c0a8c401a840b7c40028a0a92c06b3901ae414e8d01adc14e8901ad414e850a92414e81002860a92006b3501ac414e7d0a91814e79002820a91406b3101ab414e750a90c14e710027e0a90806b2d0a90014e6d0027a0a8fc06b29002760a8f006b25002720a8e406b2101a9c14e6901a9414e650a8dc14e610026e0a8d806b1d0a8d0)
  (.lf 0)) (.nd (.lf
  0x24698246902468824680246782467024668246602465848d2000b6c240b0240a8240a024098240902408c240842407824070240682406024058240502404c240402403824030240282402024018240102400c2400023ffc23ff423fec23fe023fd823fd023fcc48d1400b5823a2423a1823a1423a0823a00239f8239f0239e8239e0239d8239d4239c8239c4239bc239b4239ac239a023998239942398c23980)
  (.lf 0))) (.nd (.nd (.lf
  0x4cc684cc504cc384cc244cc104cbfc4cbe84cbd44cbc04cbac4cb984cb844cb704cb5c4cb484cb344cb204c8ac4c8984c8844c8704c85c4c8484c8384ca4c4ca344ca1c4ca044c9ec4ca504ca384ca204ca084c9f04c9d84c9c44c9b04c99c4c9884c9744c9604c94c4c9384c9244c9104c8fc4c8e84c8d44c8c04c64c4c6384c6244c6104c5fc4c5e84c5d84c7ec4c7d44c7bc4c7a44c7944c7f04c7d84c7c0)
  (.lf 0)) (.nd (.lf
  0x379ec379e0379d4379c8379bc379b0379a4379983798c3797c379703796415c4554bb065f3865f0865ed865eac65e8065e5465e2865dfc65dd065da465d7865d4c65d2465cfc65cd465cac65c8465c5c65c3465c0c65be462ca062c8062c6062c4062c2062c0062be061d0061ce43795c3795037940379383792c379203791437908378fc378ec378e0378d8378cc378bc378b4378a83789c378903788437878)
  (.lf 0)))

def shaPos264 : BTree :=
  .nd (.nd (.nd (.lf
  0x93416510164fc164ec164dc164cc164bc164ac164a816490164881647816468164581644816430164281641016408163f8163e8163d0163c8163b8163a0163901638016370163601635016340063a80092c161c4161bc161a4161941618416174161641615c1614c16134161281611416104160f8160f0160d8160c4160b4160a4160941608c1607c1606816054160441603416024160201601015ff4063a0)
  (.lf
  0x414e4414d8414cc414c0414b4414a84149c4149041484414784146c4146041454414484143c41430414244141815f9d457a453a3453a10539ec539c8539a4539805395c5393853914538f0538cc538a85388853868538485382853808537e8537c8537a853788537685374c5373053714536f8536dc536c0490f4490e04140c41400413f4413e8413dc413d0413c4413b8413ac413a041394413884137c41370))
  (.nd (.lf
  0x5aea05ae805ae605ae405ae205ae005ade05adc05ada05ad7c5ad605ad445ad285ad0c5acf05acd45acb85a94c5a9305a9185ab6c5ab4c5ab2c5ab0c5aaec5aacc5aab45aa8c5aa6c5aa4c5aa345ab705ab505ab305ab105aaf05aad05aaac5aa905aa705aa505aa2c5aa105a9f45a9d85a9bc5a9a05a9845a9685a5fc5a5e05a5c85a81c5a7fc5a7dc5a7bc5a79c5a77c5a75c5a7405a71c5a6fc5a6e45a820)
  (.lf 0))) (.nd (.nd (.lf
  0x87752ab0c2ab08087712aafc2ab000876d2aaec2aae8087692aae02aadc087652aacc2aac8087612aab82aabc0875d2aab02aaac087592aa982aaa0087552aa8c2aa88087512aa802aa7c0874d2aa702aa6c087492aa5c2aa58087452aa502aa48087412aa382aa3c0873d2aa282aa30087392aa202aa18087352aa102aa0c087312aa002a9fc0872d2a9f02a9e8087292a9e02a9dc087252a9c82a9cc08721)
  (.lf 0)) (.nd (.lf
  0x4c0f44c0e447b2447b304c3344c31c4c3044c2ec4c2d44c2bc4c0484c0344c0204c00c4bff84bfe44bfd04bfbc4bfa84bf944bf804bf6c4bf584bf444bf304bf1c4bf084bef44bee04becc4beb84bea44be944be8447b0847b184c0d44c0bc4c0a44c08c4c0744c05c4bdcc4bdb44bd984bd844bd6c4bd544bd3c4bd244bd0c4bcf44bcdc4bcc44bcac4bc944bc7c4bc644bc4c4bc344bc1c4bc044bbe84bbd4)
  (.lf 0)))

def shaPos265 : BTree :=
  .nd (.nd (.nd (.lf
  0x1ba1403be91b9fc1ba0403be51b9ec1b9f403be11b9dc1b9e403bdd1b9cc1b9d403bd91b9bc1b9c403bd51b9ac1b9b403bd11b99c1b9a403bcd1b98c1b99403bc91b97c1b98403bc51b96c1b97403bc11b95c1b96403bbd1b94c1b95403bb91b93c1b94403bb51b92c1b93403bb11b91c1b92403bad1b90c1b91403ba91b8fc1b90403ba51b8ec1b8f403ba11b8dc1b8e403b9d1b8cc1b8d403b991b8bc1b8c4)
  (.lf 0)) (.nd (.lf
  0x2364823638236282361823608235fc235ec235d8235c8235b8235a82359c2358c235780024000b3c230c0230b423098230882307c2306c2305823054230382303423020230102300422ff422fd822fcc22fbc22fb422fa422f8c22f7c22f7422f6022f4822f3c22f3422f1822f1422f0422ee80023800b2c22a2822a1822a08229f8229e8229d8229c8229b8229a8229982298c2297822974229582295422940)
  (.lf 0))) (.nd (.nd (.lf
  0x3a2f80d4f967c5c3a2e80d4f567c343a2dc0d4f167c0c3a2d40d4ed67be43a2c40d4e967bbc3a2bc0d4e567b943a2b00d4e167b6c3a2a00d4dd67b443a2980d4d9634843a28c0d4d5634643a2800d4d1634443a2740d4cd634243a2680d4c9634043a2580d4c5633e43a2500d4c1633c43a2440d4bd61efc3a2380d4b961ee03a22c0d4b53a21c3a2180d4b13a2103a20c0d4ad3a2003a1fc0d4a93a1ec3a1f0)
  (.lf 0)) (.nd (.lf
  0x272542724427234272242721427204271f4271e4271d4271c4271b4271a427194271842717427164271542714427134271242711427104270f4270e4270d4270c4270b4270a427094148e5006d408fbc08fb808fb408fb008fac08fa808fa408fa008f9c08f9808f9408f9008f8c08f8808f8408f8008f7c08f7808f7408f7008f6c08f6808f6408f6008f5c08f5808f5408f5008f4c08f48270842707427064)
  (.lf 0)))

def shaPos266 : BTree :=
  .nd (.nd (.nd (.lf
  0x12490583080113d12488582e80113912478582c8011351246c582a80113112460582840112d1245458264011291244c58248011251243c5822c0112112430582100111d12424581f40111912418581d80111512410581c00111112400581a00110d123f85818401109123e85816c01105123dc5815001101123d058138010fd123c458120010f9123bc58108010f5123b0580f0010f1123a0580d8010ed12398)
  (.lf 0)) (.nd (.lf
  0x39314392f8392ec392d8392cc392bc392b4392a4392943927c392743926439254392400008000ef038f6438f5438f3c38f3438f2438f0838ef838ef038ed838ed038ebc38eac38e9c38e8c38e8038e7438e6038e4c38e4038e3038e1838e1038df838de838de038dc838dc038dac38da038d940007800ee438aa838a9838a9438a8038a6838a5838a4c38a3838a3438a1c38a14389fc389e8389d8389c8389b8)
  (.lf 0))) (.nd (.nd (.lf
  0x320e0320dc0ad21320d0320cc0ad1d320c0320bc0ad19320b0320ac0ad15320a03209c0ad11320903208c0ad0d320803207c0ad09320703206c0ad05320603205c0ad01320503204c0acfd320403203c0acf9320303202c0acf5320203201c0acf1320103200c0aced3200031ffc0ace931ff031fec0ace531fe031fdc0ace1518c453a200acdd518ac539fc0acd951894539d80acd55187c539b40acd151864)
  (.lf 0)) (.nd (.lf
  0x19b3019b2019b1015d9d549485fb045fae45fac45faa45fa845fa645fa445fa245fa045f9e45f9c45f9a45f9885f96c5f9505f9345f9185f8fc5f8e05f8c45f8a85f88c5f8745f85c5f8445f82c5f8145f7fc5f7e45f7cc19b0019af419ae819ad819ad019ac419ab819aac19aa019a9019a8819a7c19a7019a6419a5819a4c19a4019a3419a2819a1c19a1019a04199f8199e8199e0199d4199c8199bc199b0)
  (.lf 0)))

def shaPos267 : BTree :=
  .nd (.nd (.nd (.lf
  0x4c340654a0061d94c32865470061d54c31065444061d14c2f865418061cd4c2e0653ec061c94c2c8653c0061c54c2b465394061c14c2a065368061bd4c28c6533c061b94c27865310061b54c264652e4061b14c250652b8061ad4c23c65294061a94c22865268061a54c21465244061a14c200652180619d4c1ec651f0061994c1d8651cc061954c1c4651a0061914c1b0651780618d4c19c65150061894c188)
  (.lf 0)) (.nd (.lf
  0x23e3823e3423e2423e0c23df800b5423934239242391423904238ec238e0238cc238c4238b4238a423894238842387423864238542384023834238242381023804237f0237dc237d0237bc237b02379c2378c2377c23770237580049000b40232a02328823284232682325823248232382322c232202320c23204231f4231e4231c8231b8231a8231982318823180231682315c231542313c231282311c2310c)
  (.lf 0))) (.nd (.nd (.lf
  0xffa5649f0431000ffa1649c8430f40ff9d649a0430e80ff9964978430dc0ff9564950430d00ff9164928430c40ff8d64900430b80ff89648d8430ac0ff85648b0430a00ff8162914430940ff7d628f4430880ff79628d44307c0ff75628b4430700ff7162894430640ff6d62874430580ff69628544304c0ff6554e7c430400ff6154e60430340ff5d46b0c430280ff5946af44301c0ff5546adc430100ff51)
  (.lf 0)) (.nd (.lf
  0x344b4344a4344943448434474159b10c9ac02bf40c99402bec0c97c0c9700c9640c95802bdc02bc402bac0c9280c91c0c9100c90402b940038c06044060400603c0603806034060300602c0602806024060200601c0601806014060100600c06008060040600005ffc05ff805ff405ff005fec05fe805fe405fe005fdc05fd805fd405fd034464344543444434434344243441434404343f4343e4343d4343c4)
  (.lf 0)))

def shaPos268 : BTree :=
  .nd (.nd (.nd (.lf
  0x4840c483f8483e4483d0483bc483a845b1845b0845af845ae845ad845ac845ab845aa8482dc482c4482e0482c8482b04829c4828848274482604824c482384822448210481fc45a8445a7445a6445a5445a4445a3445a2445a184813048120481344811848104480f0480dc480c8480b4480a04808c4807848064480540cd7c0cd780cd740cd700cd6c0cd680cd640cd84455b0455a0455b4455a4455944558c)
  (.lf 0)) (.nd (.lf
  0x5b7085b6ec5b6d05b6b45b6985b67c5b6605b6445b62c5b6145b5fc5b5e45b5cc5b5b45b59c5b5845460c5461c5b8b85b8985b8785b8585b8385b8185b7f85b7d85b7b85b7985b7785b7585b73c5b7205b7045b6e85b6cc5b6b05b6945b6785b65c5b6405b6285b6105b5f85b5e05b5c85b5b05b5985b580546081327913275132711326d1326913265132611325d1325913255132511324d132491324513241)
  (.lf 0))) (.nd (.nd (.lf
  0x2e64c09a592e6402e63c09a552e6302e62c09a512e6202e61c09a4d2e6102e60c09a492e6002e5fc09a452e5f02e5ec09a412e5e02e5dc09a3d2e5d02e5cc09a392e5c02e5bc09a352e5b02e5ac09a312e5a02e59c09a2d2e5902e58c09a292e5802e57c09a252e5702e56c09a212e5602e55c09a1d2e5502e54c09a192e5402e53c09a152e5302e52c09a112e5202e51c09a0d2e5102e50c09a092e5002e4fc)
  (.lf 0)) (.nd (.lf
  0x5442058db858d9458d7858d5858d3458d1458cf858cd858cb858c9858c7858c5458c3c58c2058c0458be858bc858bb058b9458b7858b5858b4058b2858b1058af858adc58ac858aac58a9858a8012eb812ea812ea012e9012e8812e7c12e7012e6012e5412e4c12e4012e3412e2812e1812e1012e0412df812dec12de012dd412dc812db812dac12da412d9412d8c12d8012d7412d6812d5c15ce5063240d5a8)
  (.lf 0)))

def shaPos269 : BTree :=
  .nd (.nd (.nd (.lf
  0x4f0d4a9f4480bc04f094a9dc480a804f054a9c44809404f014a9ac4808004efd4a9904806c04ef94a9784805004ef54a9604803c04ef14a94c4802c04eed4a9304801804ee94a91c4800404ee54a90447ff004ee14a8ec47fdc04edd4a8d447fc804ed94a8bc47fb404ed54a8a447fa004ed14a88c45a9804ecd4a87445a8804ec94a85c45a7804ec54a84445a6804ec14a82c45a5804ebd4a81045a4804eb9)
  (.lf 0)) (.nd (.lf
  0x580c4580ac580945807c5438454398583b45839458374583545833458314582f4582d4582b457f4457f2057f0457ee857ecc57eb057e9457e7857e5c57e4057e2457e0457dec57dd457dbc57da457d8c57d7457d5c57d4457d2c5435c543705806458044580245800457fe457fc457fa457f8457f6457bf457bd057bb457b9857b7c57b6057b4457b2857b0c57af057ad457ab457a9c57a8457a6c57a5457a3c)
  (.lf 0))) (.nd (.nd (.lf
  0x638f83e9fc0ea4d620443e9f00ea49620283e9e40ea456b2bc3e9d40ea416b28c3e9c80ea3d6b2603e9bc0ea396b2343e9b00ea356b2083e9a40ea316b1dc3e9980ea2d6b1b03e98c0ea296b1843e9800ea256b1583e9740ea216b12c3e9680ea1d6b1003e95c0ea196b0d83e9500ea156b0b03e9440ea116b0883e9380ea0d6b0603e92c0ea096b0383e9200ea056b0103e9140ea016afe83e9080e9fd6afc0)
  (.lf 0)) (.nd (.lf
  0x58c0058bc058b8058b4058b0058ac058a8058a4058a00589c0589805894058900588c0588805884058800587c0587805874058700586c0586805864058600585c0585805854058502db642db542db442db342db242db142db042daf42dae42dad42dac42dab42daa42da942da842da742da642da542da442da342da242da142da042d9f42d9e42d9d42d9c42d9b42d9a42d99414925007540973c0973809734)
  (.lf 0)))

def shaPos270 : BTree :=
  .nd (.nd (.nd (.lf
  0x269516f545cd7c0269116f4c5cd640268d16f405cd4c0268916f305cd340268516f245cd1c0268116f185cd040267d16f0c5ccec0267916f005ccd40267516ef85ccbc0267116ee816eec0266d16edc16ed80266916ecc16ec80266516ebc16eb80266116ea816ea40265d16e9816e940265916e8c16e880265516e7c16e780265116e6816e6c0264d16e5416e5c0264916e4c16e480264516e3816e3402641)
  (.lf 0)) (.nd (.lf
  0x4069c4069040684406784066c4066040654406484063c4063040624406184060c4060048e2001018402ac402a040294402884027c4027040264402584024c4024040234402284021c4021040204401f8401ec401e0401d4401c8401bc401b0401a4401984018c4018040174401684015c4015048e140100c3fdfc3fdf03fde43fdd83fdcc3fdc03fdb43fda83fd9c3fd903fd843fd783fd6c3fd603fd543fd48)
  (.lf 0))) (.nd (.nd (.lf
  0xbfe101cca0cb040bfdd02d9c1581102d941580d0cafc1580901cc60caf80bfd902d84158050caf01580101cc20caec0bfd501cbe0cae00bfd10cad8157fd01cba0cad40bfcd01cb60cac80bfc901cb20cabc0bfc50cab4157f901cae0cab00bfc102d64157f502d5c157f10caa8157ed01caa0caa40bfbd02d4c157e90ca9c157e501ca60ca980bfb902d3c157e10ca90157dd01ca20ca8c0bfb502d2c157d9)
  (.lf 0)) (.nd (.lf
  0x208542084420834208242081020800207f4207e4207d4207c4207b4207a420790148a5006540883c0883808834088300882c0882808824088200881c0881808814088100880c088080880408800087fc087f8087f4087f0087ec087e8087e4087e0087dc087d8087d4087d0087cc087c8207842077420764207542074420734207242071420700206f4206e4206d4206c4206b4206a420694206842067420664)
  (.lf 0)))

def shaPos271 : BTree :=
  .nd (.nd (.nd (.lf
  0x26fdc074b526fc826fcc074b126fbc26fc0074ad26fac26fb0074a926fa026f98074a526f8c26f88074a126f7826f800749d26f6826f6c0749926f5c26f600749526f4c26f500749126f4026f3c0748d26f2826f300748926f1826f200748526f0826f0c0748126efc26f000747d26eec26ef00747926ee026edc0747526ec826ecc0747126ec026eb80746d26eac26ea8074694d8a0673fc074654d888673cc)
  (.lf 0)) (.nd (.lf
  0x247cc247c4247a82479c2478824778247702475824748006a000b70242882427824268242582424824238242282421824208241f8241e8241d8241c8241b8241a82419824188241782416824158241482413824128241182410c240f8240e8240e0240c8240b80069800b5c23c0023bf023bd823bc823bc423bb023b9823b8c23b8023b7023b5823b4823b4023b3023b1823b0c23b0423aec23ad823ac823ac4)
  (.lf 0))) (.nd (.nd (.lf
  0x10afd10af910af510af110aed10ae910ae510ae110add10ad910ad510ad110acd10ac910ac510ac115b4947a7c4b3144b2f84b2dc4b2c04b2a44b2884b2704b2584b2404b2284b2104b1f84b1e04b1c84b1b04b1984b1804b1684b1504b1384b1204b1084b0f04b0d84b0c04b0a84b0904b0784b0644b05047a6c10abd10ab910ab510ab110aad10aa910aa510aa110a9d10a9910a9510a9110a8d10a8910a85)
  (.lf 0)) (.nd (.lf
  0x3ad943ad883ad7c3ad703ad643ad583ad4c3ad403ad343ad283ad1c3ad103ad003acf815e9154c8c6858c6855c6852c68500684d4684a86847c6845068424683f8683cc683a068378683506832868300682d8682b0682886826068238636406362063600635e0635c0635a06358061f6861f4c3acec3ace03acd03acc43acbc3acb03aca43ac983ac8c3ac803ac743ac643ac5c3ac503ac443ac383ac2c3ac20)
  (.lf 0)))

def shaPos272 : BTree :=
  .nd (.nd (.nd (.lf
  0x8a412a08129f8129e8129cc129c8129b8129a812998129801297812968129501294812938129281291812900128f8128e8128d0128c0128b8128a812898128801287812868128501284412834063180089c126bc126a81269412684126741266812654126481263c12630126201260c125f8125e4125d4125d0125b4125ac125a012588125741256c12558125481253812530125181250812500124e806310)
  (.lf
  0x3cec03ce803ce403ce003cdc03cd803cd403cd003ccc03cc803cc403cc003cbc03cb803cb403cb003cac03ca83fb343fb243fb143fb043faf43fae43fad43fac43fab43faa43fa943fa843fa743fa643fa543fa443fa343fa243fa143fa043f9f43f9e43f9d43f9c43f9b43f9a43f9943f9843f9743f9641483954d1069ddc69dac69d7c69d5069d2469cf869ccc69ca069c7469c4869c1c69bf469bcc69ba4))
  (.nd (.lf
  0x1223d1223912235122311222d1222912225122211221d1221912215122111220d12209122051220115c1547f7452904528e8528cc528b052894528785286052848528305281852800527e8527d0527b8527a0527885277052758527405272852710526f8526e0526c8526b0526985268052668526545264047f64121fd121f9121f5121f1121ed121e9121e5121e1121dd121d9121d5121d1121cd121c9121c5)
  (.lf 0))) (.nd (.nd (.lf
  0x689bc082b14e7d868994082ad4e7c46896c082a94e7b068944082a54e79c6891c082a14e788637f40829d4e774637d4082994e760637b4082954e74c63794082914e738637740828d4e72463754082894e71063734082854e70061fcc082814e6f061fb40827d29b9c29b980827929b9029b880827529b7c29b800827129b6c29b700826d29b5c29b580826929b5029b480826529b3c29b400826129b2829b2c)
  (.lf 0)) (.nd (.lf
  0x512505123c512285121451200511ec511d8511c8511b447e6847e58511a051188511705115851140511285111451100510ec510d8510c4510b05109c5108851074510605104c51038510245101050ffc50fe850fd450fc050fac50f9850f8450f7050f6050f5047e4c47e3c50f4050f2850f1050ef850ee050ec850eb450ea050e8c50e7850e6450e5050e3c50e2850e1450e0050dec50dd850dc450db050d9c)
  (.lf 0)))

def shaPos273 : BTree :=
  .nd (.nd (.nd (.lf
  0x36951a74c6063c036911a744606200368d1a73860604036891a728605e8036851a720605cc036811a714605b40367d1a7046059c036791a6f860584036751a6ec6056c036711a6e0605540366d1a6d46053c036691a6c860524036651a6bc6050c036611a6ac1a6b40365d1a69c1a6a4036591a68c1a694036551a67c1a684036511a66c1a6740364d1a65c1a664036491a64c1a654036451a63c1a64403641)
  (.lf 0)) (.nd (.lf
  0x646546462c64604645dc645b46458c645646453c6283462814627f4627d4627b462794627746be8c6be646be3c54de06c0cc6c09c6c06c6c0406c0146bfe86bfbc6bf906bf646bf386bf0c6bee06beb86be906be686be406be186bdf06bdc86bda06bd786452464504644e4644c4644a464484644646bb006bad86bab054dc46bd406bd106bce06bcb46bc886bc5c6bc306bc046bbd86bbac6bb806bb546bb2c)
  (.lf 0))) (.nd (.nd (.lf
  0xcfa554b103910c0cfa154afc391040cf9d54ae4390f80cf9954acc390e80cf9552c04390dc0cf9152bf0390d40cf8d670a8390c80cf8967078390bc0cf8567048390b00cf816701c390a40cf7d66ff0390940cf7966fc43908c0cf7566f98390800cf7166f6c390740cf6d66f40390680cf6966f14390580cf6566ee8390500cf6166ebc390440cf5d66e94390380cf5966e6c390280cf5566e44390200cf51)
  (.lf 0)) (.nd (.lf
  0x257d4257c4257b4257a425794257842577425764257542574425730257242571425700256f4256e4256d0256c4256b4256a42569425680256702566025654148d5006b408ddc08dd808dd408dd008dcc08dc808dc408dc008dbc08db808db408db008dac08da808da408da008d9c08d9808d9408d9008d8c08d8808d8408d8008d7c08d7808d7408d7008d6c08d682564425634256242561425604255f0255e4)
  (.lf 0)))

def shaPos274 : BTree :=
  .nd (.nd (.nd (.lf
  0x111f800be9111e4111ec00be5111d4111d800be1111c4111cc00bdd111b8111bc00bd9111a8111a400bd5111941119c00bd1111881118c00bcd111741117800bc91116c1116800bc5111541115800bc11114c1114800bbd111341113800bb91112856fe400bb51112056fc400bb11111056fa400bad1110456f8400ba9110f856f6400ba5110ec56f4400ba1110e456f2400b9d110d456f0400b99110cc56ee4)
  (.lf 0)) (.nd (.lf
  0x44d4844d441426544d34555e01426144d2c555c01425d44d20555a81425944d105558c1425544d04555701425144cfc555541424d44cec555381424944ce05551c1424544cd4555001424144ccc554e41423d44cc0554c81423944cb0554a81423544ca8554941423144c98554781422d44c8c554601422944c805544c1422544c74554301422144c68554181421d44c60554001421944c50553e81421544c48)
  (.lf 0))) (.nd (.nd (.lf
  0x530780a85151254530580a84d512405303c0a8495122c530200a84551218530040a8415120452fe80a83d511f052fcc0a839511dc52fb00a835511cc52f940a831511b8490a00a82d511a44908c0a829311b8311c00a825311a8311b00a82131198311a00a81d31188311900a81931178311800a81531168311700a81131158311600a80d31148311500a80931138311400a80531128311300a8013111831120)
  (.lf 0)) (.nd (.lf
  0x5dd7c5dd645dd4c180c0180b4180a81809c1809018084180781806c1806018054180481803c1803018024180181800c1800017ff417fe817fdc17fd017fc417fb817fac17fa017f9417f8817f7c17f7017f6415d6d063ec0e1600e15c0e1580e1540e1500e14c0e1480e1440e1400e13c0e1380e1340e1300e12c0e1280e1240e1200e11c0e1180e1140e1100e10c0e1080e1040e1000e0fc0e0f80e0f40e0f0)
  (.lf 0)))

def shaPos275 : BTree :=
  .nd (.nd (.nd (.lf
  0x2249005d1d2247c2247805d192246c2247005d15224582245c05d11224482245005d0d2243c2243805d09224302242805d052241c2241805d01224082241005cfd223fc223f805cf9223ec223e805cf5223e0223d805cf1223cc223c805ced223bc223b805ce9223b0223ac05ce500b0600b0200afe00afa00af600af200aee00aea00ae600ae200ade00ada00ad60175414cb90bd4014cb5018320bd3c05ce1)
  (.lf 0)) (.nd (.lf
  0x27b0027a8027a0027980b2dc0b2d0027900b2c4027880b2b802780027780b2ac0b87c012fe00d780c65002770027680276002758027500c6440c63802748027400c62c0c620027380c6140c6080c5fc0c5f00c5e40c5d80273002728027200c5cc027180c5c00c5b40c5a806548012ba302cc0058800d640c59c0c59002710027080c58402700026f80c578026f0026e80c56c0c560026e00c5540c548026d8)
  (.lf 0))) (.nd (.nd (.lf
  0x41f3841f400fa4d41f2841f300fa4941f1841f200fa4541f0841f100fa4141ef841f000fa3d41ee841ef00fa3941ed841ee00fa356b9c841ed00fa316b99841ec40fa2d6b96841eb80fa296b93c41eac0fa256b91041ea00fa216b8e441e940fa1d6b8b841e880fa196b88c41e7c0fa156b86041e700fa116b83441e640fa0d6b80841e580fa096b7e041e4c0fa056b7b841e400fa016b79041e340f9fd6b768)
  (.lf 0)) (.nd (.lf
  0x32b5432b4432b3432b2432b1432b0432af432ae432ad432ac432ab432aa432a9432a8432a7432a6432a5432a4432a34159a102a2c02a1c02a0c02a040c778029dc029d40c754029cc0c73c029c40036c05e6405e6005e5c05e5805e5405e5005e4c05e4805e4405e4005e3c05e3805e3405e3005e2c05e2805e2405e2005e1c05e1805e1405e1005e0c05e0805e0405e0005dfc05df805df405df032a2432a14)
  (.lf 0)))

def shaPos276 : BTree :=
  .nd (.nd (.nd (.lf
  0x68b4068b1468ae868abc68a9068a686864c68624685fc685d4685ac688fc688cc6889c688706884468818687ec687c068794687686873c68900688d0688a068874688486881c687f0687c4687986876c6874068714686ec682d0682a8682806825868230685806855068520684f4684c86849c684706844468418683ec683c0685846855468524684f8684cc684a068474684486841c683f0683c46839868370)
  (.lf 0)) (.nd (.lf
  0x12d3d12d3912d3512d3112d2d12d2912d2512d2112d1d12d1912d1512d1112d0d12d0912d0512d0112cfd544685944c5942c5940c593ec593cc593ac5938c5936c5934c5932c5930c592ec592d0592b4592985927c5926059244592285920c591f0591d4591bc591a45918c591745915c591445912c591145445454464594485942859408593e8593c8593a85938859368593485932859308592e8592cc592b0)
  (.lf 0))) (.nd (.nd (.lf
  0x4fd886a988095914fd746a9600958d4fd606a938095894fd4c6a910095854fd386a8e8095814fd246a8c00957d4fd106a898095794fcfc6a870095754fce863fcc095714fcd463fac0956d4fcc063f8c095694fcac63f6c095654fc9863f4c095614fc8463f2c0955d4fc7063f0c095594fc60621c0095554fc50621a4095512d6b02d6a80954d2d6a02d698095492d6902d688095452d6802d678095412d670)
  (.lf 0)) (.nd (.lf
  0x114681146011454114441143c1142c11424114141140c11400113f4113e8113dc113cc113c0113b8113a8113a011394113881137c1136c11364113541134c1133c11334113281131c16005062e40d1e80d1e40d1e00d1dc0d1d80d1d40d1d00d1cc0d1c80d1c40d1c00d1bc0d1b80d1b40d1b00d1ac0d1a80d1a40d1a00d19c0d1980d1940d1900d18c0d1880d1840d1800d17c0d1780d1741130c112fc112ec)
  (.lf 0)))

def shaPos277 : BTree :=
  .nd (.nd (.nd (.lf
  0x1e9d404a591e9c41e9c804a551e9b01e9b404a511e9a01e9a804a4d1e9901e99804a491e9841e98004a451e9741e97004a411e9641e96804a3d1e9541e95004a391e9441e94004a351e9301e93404a311e9241e92804a2d1e9181e91004a291e9081e90404a251e8f41e8f004a211e8e01e8e404a1d1e8d01e8d404a191e8c81e8c404a151e8b81e8b404a111e8a81e8a404a0d1e8941e89004a091e8881e880)
  (.lf 0)) (.nd (.lf
  0x5f2745f2585f23c5f2205f2045f1e85f1d05f1b85f1a05f1885f1705f1585f1405f128548e0548cc5f1105f0f05f0d05f0b05f0905f0705f0505f0305f0105eff05efd05efb05ef945ef785ef5c5ef405ef245ef085eeec5eed05eeb45ee985ee805ee685ee505ee385ee205ee085edf05edd8548b8548a45edc05eda05ed805ed605ed405ed205ed005ece05ecc05eca05ec805ec605ec445ec285ec0c5ebf0)
  (.lf 0))) (.nd (.nd (.lf
  0x3d8200e4f9683e83d8140e4f5683bc3d8080e4f1683943d7fc0e4ed6836c3d7f00e4e9683443d7e40e4e56831c3d7d80e4e1682f43d7cc0e4dd682cc3d7c00e4d9682a43d7b40e4d56827c3d7a80e4d1682543d79c0e4cd6822c3d7900e4c9636383d7840e4c5636183d7780e4c1635f83d76c0e4bd635d83d7600e4b9635b83d7540e4b5635983d7480e4b1635783d73c0e4ad61f643d7300e4a961f483d724)
  (.lf 0)) (.nd (.lf
  0xc2ec022e40c2d40c2c8022cc0c2b0022b40c298022a40c28006524002ec056e4056e0056dc056d8056d4056d0056cc056c8056c4056c0056bc056b8056b4056b0056ac056a8056a4056a00569c0569805694056900568c0568805684056800567c0567805674056702c1242c1142c1042c0f42c0e42c0d42c0c42c0b42c0a42c0942c0842c0742c0642c0542c0442c0342c0242c0142c0042bff42bfe42bfd4)
  (.lf 0)))

def shaPos278 : BTree :=
  .nd (.nd (.nd (.lf
  0x15c8c5bbd80213d15c805bbb80213915c705bb980213515c645bb780213115c585bb580212d15c505bb380212915c445bb180212515c385baf80212115c2c5bad80211d15c205bab80211915c105ba9c0211515c045ba800211115bfc5ba640210d15bf05ba480210915be45ba2c0210515bd85ba100210115bc85b9f4020fd15bbc5b9d4020f915bb05b9b8020f515ba85b99c020f115b985b984020ed15b8c)
  (.lf 0)) (.nd (.lf
  0x370a4370943708c370783706c37068370583704c370443703437024370203700c370000cd9000e9836cb036ca436c9836c8836c8036c7436c6436c5836c5036c4036c3836c2836c1c36c1036c0436bfc36bf036be836bdc36bcc36bc436bb436ba836b9836b8c36b8436b7436b7036b5c36b500cd8c010c844808447f8447e8447d8447c8447b8447a8447984478844778447684475844748447384472844718)
  (.lf 0))) (.nd (.nd (.lf
  0x52ae446c600bb4152acc46c480bb3d52ab446c340bb3952a9c46c200bb3552a8446c0c0bb3152a6c46bf80bb2d52a5446be40bb2952a3c46bd00bb2552a2446bbc0bb2152a0c46ba80bb1d529f446b940bb19529dc46b800bb15529c446b700bb11529ac46b600bb0d5299446b500bb095297c46b400bb055296446b300bb015294c46b200bafd5293846b100baf952924458300baf552910458240baf134cc8)
  (.lf 0)) (.nd (.lf
  0x861808614086100860c086080860408600085fc085f8085f4085f0085ec085e81ed201ed101ed001ecf01ece01ecd01ecc01ecb01eca01ec901ec801ec701ec601ec501ec401ec301ec201ec101ec001ebf01ebe01ebd01ebc01ebb01eba01eb8c1eb7c1eb701eb5c1eb50159dd479dc4a4dc4a4c04a4a44a4884a46c4a4504a4384a4204a4084a3f04a3d84a3c44a3a84a3904a3784a3604a3484a3304a318)
  (.lf 0)))

def shaPos279 : BTree :=
  .nd (.nd (.nd (.lf
  0x4d1ec62fb006ff14d1d862f8806fed4d1c462f6c06fe94d1b062f4c06fe54d1a061dd006fe14d19061db006fdd260902608c06fd9260802607806fd5260682607006fd1260602605806fcd260482605006fc9260402603806fc5260302602c06fc1260202601c06fbd260102600c06fb92600025ffc06fb525ff025fec06fb125fe025fdc06fad25fd025fcc06fa925fc025fbc06fa525fb025fac06fa125fa0)
  (.lf 0)) (.nd (.lf
  0x318983189431888318843187c3187031868318603185847e7c00da0312b4312ac312a03129c31294312883128431278312743126c312643125c3125431248312403123c312303122c3122031218312143120831200311fc311f4311ec311e4311dc311d4311cc47e5c00d9030c2430c1830c1430c0c30c0030bfc30bf430bec30be430bd830bd030bcc30bc430bbc30bb030ba830ba430b9c30b9430b8c30b80)
  (.lf 0))) (.nd (.nd (.lf
  0x518845186c51854518405182c5181851804517f0517dc517c8517b4517a05178c5177851764517505173c514c0514ac5149851484514705145c514485166051648516305161851600516645164c516345161c51604515ec515d8515c4515b05159c5158851574515605154c515385152451510514fc514e8514d45125851244512305121c51208511f4511e0513f8513e0513c8513b051398513fc513e4513cc)
  (.lf 0)) (.nd (.lf
  0x328c0328803284032800327c0327803274032700326c0326803264032600325c032583941439400393f4393e0393d0393c4393b4393a439394393843937039364393543934439334393243931039304392f4392e4392d4392c4392b0392a0392903928439270392603925039244147e152c1461c1461bec61bc461ba061b7c61b5861b3461b1061aec61ac861aa461a8461a6461a4461a2461a04619e4619c4)
  (.lf 0)))

def shaPos280 : BTree :=
  .nd (.nd (.nd (.lf
  0x9b4199941997c1996c1995c199581993c19938199241990c198fc198ec198e0198d0198c8198b01989c1988c1987c198701986819854198401982c1981c1981419808197f8197e4197cc197bc06428009ac1964c1963819624196141960c19600195e4195e0195c4195b4195a4195a019588195741957019554195441953419530195141950819500194e4194d4194c4194bc194a419494194901947406420)
  (.lf
  0x421c0421804214042100420c042080420404200041fc041f8041f4041f0041ec041e8041e4041e0041dc041d8041d4041d042ec442eb442ea442e9442e8442e7442e6442e5442e4442e3442e2442e1442e0442df442de442dd442dc442db442da442d9442d8442d7442d6442d5442d4442d3442d2442d1442d0442cf41486552f7864894648646483464808647dc647b064784647586472c64700646d4646a8))
  (.nd (.lf
  0x61914618f0618cc618a861884618606183c61818617f4617d0617ac6178c6176c6174c6172c6170c616ec6134c61330613146156c6154c6152c6150c614ec614cc614ac6148c6146c6144c6142c61570615506153061510614f0614d0614b06149061470614506143061410613f4613d8613bc613a0613846136860ffc60fe060fc46121c611fc611dc611bc6119c6117c6115c6113c6111c610fc610dc61220)
  (.lf 0))) (.nd (.nd (.lf
  0x2b9dc08c212b9d02b9cc08c1d2b9c02b9bc08c192b9b02b9ac08c152b9a02b99c08c112b9902b98c08c0d2b9802b97c08c092b9702b96c08c052b9602b95c08c012b9502b94c08bfd2b9402b93c08bf92b9302b92c08bf52b9202b91c08bf12b9102b90c08bed2b8f82b90008be92b8e82b8f008be52b8d82b8e008be12b8c82b8d008bdd2b8b82b8c008bd92b8b02b8ac08bd52b8a02b89c08bd12b8902b88c)
  (.lf 0)) (.nd (.lf
  0x50cf850ce847e2847e3450f3850f2050f0850ef050ed850ec050c4850c3450c2050c0c50bf850be450bd050bbc50ba850b9450b8050b6c50b5850b4450b3050b1c50b0850af450ae050acc50ab850aa450a9450a8447e0c47e1850cd450cbc50ca450c8c50c7450c5c509e8509d4509c0509ac5099850984509705095c5094850934509205090c508f8508e4508d0508bc508a850894508805086c5085850844)
  (.lf 0)))

def shaPos281 : BTree :=
  .nd (.nd (.nd (.lf
  0x1cbb0041051cba41cb9c041011cb8c1cb90040fd1cb7c1cb80040f91cb6c1cb70040f51cb5c1cb64040f11cb4c1cb54040ed1cb441cb3c040e91cb341cb2c040e51cb241cb20040e11cb141cb0c040dd1cb041cafc040d91caf41caf0040d51cae41cae0040d11cad01cad4040cd1cac41cac0040c91caac1cab0040c51caa01caa4040c11ca8c1ca94040bd1ca841ca80040b91ca701ca74040b51ca5c1ca64)
  (.lf 0)) (.nd (.lf
  0x3084830838308283081830808307f8307e8307d8307c8307b8307a83079830788307780034000d74302b8302a830298302883027830268302583024830238302283021830208301f8301e8301d8301c8301b8301a830198301883017830168301583014830138301283011830108300f8300e80033800d602fc282fc182fc082fbf82fbe82fbd82fbc82fbb82fba82fb982fb882fb782fb682fb582fb482fb38)
  (.lf 0))) (.nd (.nd (.lf
  0x3b4c83b4d00da4d3b4c03b4b80da493b4b03b4ac0da453b4a03b49c0da413b4883b4900da3d3b47c3b4780da393b4703b4680da353b4603b45c0da313b4503b44c0da2d3b43c3b4400da293b4283b42c0da253b4183b4200da213b4083b40c0da1d3b3fc3b3f80da193b3ec3b3e80da153b3d83b3e00da113b3d03b3c80da0d3b3c03b3b80da093b3b03b3ac0da053b39c3b3980da013b3903b38c0d9fd3b37c)
  (.lf 0)) (.nd (.lf
  0x52f0052ec052e8052e4052e0052dc052d8052d4052d0052cc052c8052c4052c0052bc052b8052b4052b028ca428c9428c8428c7428c6428c5428c4428c3428c2428c1428c0428bf428be428bd428bc028bb428ba428b9428b8428b7028b6428b5428b4428b3428b2428b1428b0428af428ae428ad4148f5006f40919c0919809194091900918c0918809184091800917c0917809174091700916c0916809164)
  (.lf 0)))

def shaPos282 : BTree :=
  .nd (.nd (.nd (.lf
  0x169513760594cc0169113754594b40168d137485949c016891373c5948401685137305946c016811371c137200167d137101370c01679137041370001675136f0136ec01671136e4136e00166d136cc136d001669136c0136c401665136b0136ac01661136a0136a40165d136901368c016591368013684016551366c136740165113664136600164d1365413650016491363c1364401645136341363001641)
  (.lf 0)) (.nd (.lf
  0x4290c428fc428ec428dc428cc428bc428ac4289c4288c4287c4286c4285c4284c4283c00180010704255c4254c4253c4252c4251c4250c424fc424ec424dc424cc424bc424ac4249c4248c4247c4246c4245c4244c4243c4242c4241c4240c423fc423ec423dc423cc423bc423ac4239c4238c0017801064420ac4209c4208c4207c4206c4205c4204c4203c4202c4201c4200c41ffc41fec41fdc41fcc41fbc)
  (.lf 0))) (.nd (.nd (.lf
  0x330b0330ac0b1e5330a03309c0b1e1330903308c0b1dd330803307c0b1d9330703306c0b1d5330603305c0b1d1330503304c0b1cd330403303c0b1c9330303302c0b1c5330203301c0b1c1330103300c0b1bd3300032ffc0b1b932ff032fec0b1b532fe032fdc0b1b132fd032fcc0b1ad32fc032fbc0b1a932fb032fac0b1a532fa032f9c0b1a132f9032f8c0b19d32f8032f7c0b19932f7032f6c0b19532f60)
  (.lf 0)) (.nd (.lf
  0xe8f40e8f00e8ec0e8e80e8e41b7201b7101b7001b6f01b6e01b6d01b6c01b6b01b6a01b6901b6801b6701b6601b6501b6401b6301b6201b6101b6001b5f01b5e01b5d01b5c01b5b01b5a01b5901b5801b5701b5601b55015dd554a886158861568615486152861508614e8614c8614a8614886146861448614286140c613f0613d4613b86139c6138061364613486132c61310612f8612e0612c8612b061298)
  (.lf 0)))

def shaPos283 : BTree :=
  .nd (.nd (.nd (.lf
  0x24398066b5243882438c066b12437824380066ad2437024368066a92435c24360066a52435024348066a12433c243400669d243302432806699243182432006695243102430806691242fc243000668d242e8242ec06689242d8242e006685242c8242cc06681242b8242c00667d242a8242b00667924298242a006675242902428c06671242802427c0666d242702426c06669242602425c06665242502424c)
  (.lf 0)) (.nd (.lf
  0x3169c3168c00d9c311bc311ac3119c3118c3117c3116c3115c3114c3113c3112c3111c3110c310fc310ec310dc310cc310bc310ac3109c3108c3107c3106c3105c3104c3103c3102c3101c3100c30ffc30fec00d8c30b2c30b1c30b0c30afc30aec30adc30acc30abc30aac30a9c30a8c30a7c30a6c30a5c30a4c30a3c30a2c30a1c30a0c309fc309ec309dc309cc309bc309ac3099c3098c3097c3096c3095c)
  (.lf 0))) (.nd (.nd (.lf
  0x442e8104f947454442dc104f547438442d0104f14741c442c4104ed47400442b8104e9473e4442ac104e5473c8442a0104e1473ac44294104dd4739044288104d9473744427c104d54735844270104d14734044264104cd4732844258104c9473104424c104c5472f844240104c1472e044234104bd472c844228104b9472b04421c104b54729844210104b14728044204104ad47268441f8104a947254441ec)
  (.lf 0)) (.nd (.lf
  0x35ee435ed435ec435eb415ac14507047464474484742c47410473f4473d8473bc473a047384473684734c473344731c47304472ec472d4472bc472a44728c472744725c4724847234472204720c471f8471e4471d0458944588435ea435e9c35e9435e8c35e8435e7c35e7435e6c35e6435e5c35e5435e4c35e4435e3c35e3435e2c35e2435e1c35e1435e0c35e0435dfc35df435dec35de435ddc35dd435dcc)
  (.lf 0)))

def shaPos284 : BTree :=
  .nd (.nd (.nd (.lf
  0x45fc4459780013d45fb84596c0013945fa4459600013545f94459540013145f84459480012d45f704593c0012945f64459300012545f54459240012145f40459180011d45f304590c0011945f24459000011545f14458f40011145f04458e80010d45ef0458dc0010945ee0458d00010545ed4458c40010145ebc458b8000fd45eb4458ac000f945ea8458a0000f545e9845890000f152f600eef0000ed52f40)
  (.lf 0)) (.nd (.lf
  0x5db745db585db3c5db205db045dae85dacc5dab05da985da805da685da505da385da205da085d9f0547c0137f9137f5137f1137ed137e9137e5137e1137dd137d9137d5137d1137cd137c9137c5137c1137bd137b9137b5137b1137ad137a9137a5137a11379d1379913795137911378d1378913785137811377d547b05d9dc5d9bc5d99c5d97c5d95c5d93c5d91c5d8fc5d8dc5d8bc5d89c5d87c5d8605d844)
  (.lf 0))) (.nd (.nd (.lf
  0x9f050265c1546502654154610264c1545d0b878154590b874154552f5a02f59c09f012f5902f58c09efd2f5802f57c09ef92f5702f56c09ef52f5602f55c09ef12f5502f54c09eed2f5402f53c09ee92f5302f52c09ee52f5202f51c09ee12f5102f50c09edd2f5002f4fc09ed92f4f02f4ec09ed52f4e02f4dc09ed12f4d02f4cc09ecd2f4c02f4bc09ec92f4b02f4ac09ec52f4a02f49c09ec12f4902f48c)
  (.lf 0)) (.nd (.lf
  0xd96c14ad814ac814ab814aa814a9414a8814a7814a6814a5814a4414a3814a2814a1814a04149f8149e8149d8149c8149b8149a81499814988149781496814958149481493814928149181490815d15545605a8345a8185a7f45a7d45a7b45a7985a7785a7585a7345a7185a6f45a6d85a6bc5a6a05a6845a6685a64c5a6305a6145a5f85a5dc5a5c05a5a85a5905a5785a5605a5485a5305a5185a500148f8)
  (.lf 0)))

def shaPos285 : BTree :=
  .nd (.nd (.nd (.lf
  0x53bd206f0206ec053b9206dc206d8053b5206d0206cc053b1206bc206c0053ad206b0206a8053a92069c206a0053a52068c20690053a1206782067c0539d2066c20670053992065c2066005395206502064c0539120640206380538d206282062c05389206182061c05385206102060c05381205f8206000537d205e8205ec05379205d8205dc05375205c8205d005371205c0205b80536d205a8205b005369)
  (.lf 0)) (.nd (.lf
  0x5eac45eaac5ea945ea7c54884548985edb45ed945ed745ed545ed345ed145ecf45ecd45ecb45e9445e9245e9045e8e85e8cc5e8b05e8945e8785e85c5e8405e8245e8085e7ec5e7d45e7bc5e7a45e78c5e7745e75c5e7445e72c5485c548705ea645ea445ea245ea045e9e45e9c45e9a45e9845e9645e5f45e5d45e5b45e5985e57c5e5605e5445e5285e50c5e4f05e4d45e4b85e49c5e4845e46c5e4545e43c)
  (.lf 0))) (.nd (.nd (.lf
  0xefa56be003fbd40efa16bdd83fbc80ef9d6bdb03fbbc0ef996bd883fbb00ef956bd603fba40ef91645143fb980ef8d644f43fb8c0ef89644d43fb800ef85644b43fb740ef81644943fb680ef7d644743fb5c0ef79644543fb500ef75623183fb440ef71622fc3fb380ef6d3fb283fb300ef693fb183fb200ef653fb083fb100ef613faf83fb000ef5d3fae83faf00ef593fad83fae00ef553fac83fad00ef51)
  (.lf 0)) (.nd (.lf
  0x2f6a42f6942f6842f6742f6642f6542f6442f6342f6242f6142f6042f5f42f5e42f5d42f5c42f5b4159810032c05aa405aa005a9c05a9805a9405a9005a8c05a8805a8405a8005a7c05a7805a7405a7005a6c05a6805a6405a6005a5c05a5805a5405a5005a4c05a4805a4405a4005a3c05a3805a3405a302f5a42f5942f5842f5742f5642f5542f5442f5342f5242f5142f5042f4f42f4e42f4d42f4c42f4b4)
  (.lf 0)))

def shaPos286 : BTree :=
  .nd (.nd (.nd (.lf
  0x1820802be9181fc181f802be5181ec181e802be1181dc181d802bdd181cc181c802bd9181bc181b802bd5181ac181a802bd11819c1819802bcd181881818c02bc9181781817c02bc5181681816c02bc1181581815c02bbd181481814c02bb9181381813c02bb5181281812c02bb1181181811c02bad181081810c02ba9180f8180fc02ba5180e8180ec02ba1180d8180dc02b9d180c8180cc02b99180bc5e088)
  (.lf 0)) (.nd (.lf
  0x65e1065de465db865d8c65d6065d3865d1065ce865cc065c9865c7065c4865c2065bf865bd065990659686594065914658ec658c46589c658786584c62bb054b9065ba465b7465b4465b1865aec65ac065a9065a6865a3c65a10659e4659bc659946596c659446591c658f4658cc658a46587c6585465614655ec655c46559c655746554c65524654fc654d462ad054b7c65828657f0657c86579c6577065744)
  (.lf 0))) (.nd (.nd (.lf
  0x36d880c4f936d7836d800c4f536d7036d680c4f136d6036d5c0c4ed36d4c36d480c4e936d4036d3c0c4e536d2c36d280c4e136d2036d1c0c4dd36d0836d100c4d936cfc36cf80c4d536cec36ce80c4d136cdc36cd80c4cd36ccc36cc80c4c936cc036cbc0c4c54814436cac0c4c14812c36ca00c4bd4811436c940c4b94810036c8c0c4b5480ec36c7c0c4b1480d836c700c4ad480c436c680c4a9480b036c5c)
  (.lf 0)) (.nd (.lf
  0x222a022290222842227422264222502224022234222202221422200221f0221e4221d4148b50067408a1c08a1808a1408a1008a0c08a0808a0408a00089fc089f8089f4089f0089ec089e8089e4089e0089dc089d8089d4089d0089cc089c8089c4089c0089bc089b8089b4089b0089ac089a8221c4221b0221a422194221842217422164221542214022134221242211422100220f0220e4220d0220c4220b4)
  (.lf 0)))

def shaPos287 : BTree :=
  .nd (.nd (.nd (.lf
  0x798127f6027f5c0797d27f5027f4c0797927f4027f380797527f3027f280797127f2027f1c0796d27f0827f0c0796927efc27f000796527eec27ef00796127ed827edc0795d27ecc27ed00795927eb827ec00795527eb027eac0795127ea027e980794d27e8c27e900794927e7c27e800794527e6827e6c0794127e6027e580793d27e5027e4c0793927e3827e400793527e2827e2c0793127e1827e200792d)
  (.lf 0)) (.nd (.lf
  0x319c8319b8319a8319983198831978319683195831948007a000da4314883147831468314583144831438314283141831408313f8313e8313d8313c8313b8313a831398313883137831368313583134831338313283131831308312f8312e8312d8312c8312b80079800d9430df830de830dd830dc830db830da830d9830d8830d7830d6830d5830d4830d3830d2830d1830d0830cf830ce830cd830cc830cb8)
  (.lf 0))) (.nd (.nd (.lf
  0x112bd112b9112b5112b1112ad112a9112a5112a11129d1129911295112911128d11289112851128115b8947c244daf84dae04dac84dab04da984da804da6c4da584da444da304da1c4da084d9f44d9e04d9cc4d9b84d9a44d9904d97c4d9684d9544d9404d92c4d9184d9044d8f04d8dc4d8c84d8b84d8a847c181127d1127911275112711126d1126911265112611125d1125911255112511124d1124911245)
  (.lf 0)) (.nd (.lf
  0x37bc037b8037b4037b0037ac037a8037a4037a00379c0379803794037900378c0378803784037803c7a43c7943c7843c7743c7643c7543c7443c7343c7243c7143c7043c6f43c6e43c6d43c6c43c6b43c6a43c6943c6843c6743c6643c6543c6443c6343c6243c6143c6043c5f43c5e43c5d41480d54c34677886775867728676fc676d0676a4676786764c67620675f4675c8675a067578675506752867500)
  (.lf 0)))

def shaPos288 : BTree :=
  .nd (.nd (.nd (.lf 0x0) (.lf
  0x622786225c3ee8c3ee803ee743ee683ee5c3ee503ee443ee383ee2c3ee203ee143ee083edfc3edf03ede43edd83edcc3edc03edb43eda83ed9c3ed903ed843ed783ed6c3ed603ed543ed483ed3c3ed3015fa90011c03bb403bb003bac03ba803ba403ba003b9c03b9803b9403b9003b8c03b8803b8403b8003b7c03b7803b7403b7003b6c03b6803b6403b6003b5c03b5803b5403b5003b4c03b4803b4403b40))
  (.nd (.lf
  0x11e5d11e5911e5511e5111e4d11e4911e4511e4111e3d11e3911e3511e3111e2d11e2911e2511e2115be947e7451404513ec513d4513bc513a45138c5137851364513505133c513285131451300512ec512d8512c4512b05129c5128851274512605124c512385122451210511fc511e8511d4511c4511b047e6411e1d11e1911e1511e1111e0d11e0911e0511e0111dfd11df911df511df111ded11de911de5)
  (.lf 0))) (.nd (.nd (.lf
  0x294c008059294a8294ac08055294982949c08051294882948c0804d294782947c08049294682946c08045294582945c0804129448294500803d294382944008039294282943008035294182941c08031294082940c0802d293f8293fc08029293ec293e808025293dc293e008021293cc293c80801d293bc293c008019293ac293a808015293a02939c0801129388293900800d293802937c08009293682936c)
  (.lf 0)) (.nd (.lf
  0x4ec444ec304ec1c4ec084ebf44ebe04ebcc4ebbc4ebac47cdc47cd04eb9c4eb844eb6c4eb544eb3c4eb244eb104eafc4eae84ead44eac04eaac4ea984ea844ea704ea5c4ea484ea344ea204ea0c4e9f84e9e44e9d04e9bc4e9a84e9944e9804e96c4e95c4e94c47cc447cb84e93c4e9244e90c4e8f44e8dc4e8c44e8b04e89c4e8884e8744e8604e84c4e8384e8244e8104e7fc4e7e84e7d44e7c04e7ac4e798)
  (.lf 0)))

def shaPos289 : BTree :=
  .nd (.nd (.nd (.lf
  0x5fd74033e919de05fd54033e519dd85fd34033e119dc85fd14033dd19dc05fcf4033d919db05fcd8033d519da85fcbc033d119d985fca0033cd19d8c5fc84033c919d805fc68033c519d745fc4c033c119d685fc30033bd19d605fc14033b919d505fbf8033b519d445fbdc033b119d385fbc4033ad19d2c5fbac033a919d205fb94033a519d185fb7c033a119d085fb640339d19cfc5fb4c0339919cf05fb34)
  (.lf 0)) (.nd (.lf
  0x68a4468a1c689f4689cc689a46897c689546892c637fc637dc637bc6379c6377c6375c6373c686c46869c6867454c9c68904688d4688a4688786884c68820687f4687c86879c687706874468718686f0686c8686a068678686506862868600685d8685b06371c636fc636dc636bc6369c6367c6365c6834868320682f854c88685886855868528684fc684d0684a4684786844c68420683f4683c86839c68374)
  (.lf 0))) (.nd (.nd (.lf
  0x388240ccf948a18388180ccf548a043880c0ccf1489f0388040cced489dc387f40cce9489c8387ec0cce5489b0387dc0cce145dfc387d00ccdd45df0387c40ccd945de0387bc0ccd545dd0387b00ccd145dc0387a00cccd45db0387940ccc945da0387880ccc545d8c387800ccc145d80387700ccbd669b0387680ccb9669803875c0ccb5669503874c0ccb166924387400ccad668f8387380cca9668cc3872c)
  (.lf 0)) (.nd (.lf
  0x249b0249a424994249842497424964249542494424930148cd006a408cec08ce808ce408ce008cdc08cd808cd408cd008ccc08cc808cc408cc008cbc08cb808cb408cb008cac08ca808ca408ca008c9c08c9808c9408c9008c8c08c8808c8408c8008c7c08c78249242491424900248f0248e4248d4248c4248b4248a424894248842487024864248542484024834248242481024804247f4247e0247d4247c0)
  (.lf 0)))

def shaPos290 : BTree :=
  .nd (.nd (.nd (.lf
  0x108ac108b00093d108a01089c00939108901089400935108801087c00931108741086c0092d108601085c00929108501084c009251084010844009211082c108300091d1081c10820009191080c108100091510804107fc00911107ec107f00090d107dc107e400909107d0107cc00905107c4107c000901107b4107ac008fd107a01079c008f9107901078c008f5107841077c008f1107701076c008ed1075c)
  (.lf 0)) (.nd (.lf
  0x61074610586103c610206100460fe860fcc60fb060f9860f8060f6860f5060f3860f2060f0860ef054a4013ff913ff513ff113fed13fe913fe513fe113fdd13fd913fd513fd113fcd13fc913fc513fc113fbd13fb913fb513fb113fad13fa913fa513fa113f9d13f9913f9513f9113f8d13f8913f8513f8113f7d54a3060edc60ebc60e9c60e7c60e5c60e3c60e1c60dfc60ddc60dbc60d9c60d7c60d6060d44)
  (.lf 0))) (.nd (.nd (.lf
  0xa5f930ad830ae00a5f530ac830ad00a5f130ab830ac00a5ed30aa830ab00a5e930a9830aa00a5e530a8830a900a5e130a7830a800a5dd30a6830a700a5d930a5830a600a5d530a4830a500a5d130a3830a400a5cd30a2830a300a5c930a1830a200a5c530a0830a100a5c1309f830a000a5bd309e8309f00a5b9309d8309e00a5b5309c8309d00a5b1309b8309c00a5ad309a8309b00a5a930998309a00a5a5)
  (.lf 0)) (.nd (.lf
  0x17304172f8172ec172e0172d4172c8172bc172b0172a4172981728c1728017274172681725c1724c1724415d49063cc0df800df7c0df780df740df700df6c0df680df640df600df5c0df580df540df500df4c0df480df440df400df3c0df380df340df300df2c0df280df240df200df1c0df180df140df100df0c17238172281721817208171f8171e8171d8171c8171b8171a81719817188171781716817158)
  (.lf 0)))

def shaPos291 : BTree :=
  .nd (.nd (.nd (.lf
  0x14c85001e20a73005acd016e414c810a72c14c7d001de0a72805ac9001da0a71805ac5001d60a71005ac10a70814c79001d20a70005abd016cc14c750a6f814c71001ce0a6f405ab9016bc14c6d016b414c69016ac14c650a6f014c61001ca0a6ec05ab5001c60a6e005ab1001c20a6d405aad0a6cc14c5d001be0a6c805aa9001ba0a6bc05aa5001b60a6ac05aa10a6a414c59001b20a6a005a9d0168c14c55)
  (.lf 0)) (.nd (.lf
  0xc1b00c1a00208802080020780c1940c18c020700c17c020680c17002060020580651000f02003e802050020480ad24020400ad18020380203002028020200ad0c020180ad0002010020080acf40200001ff80ace801ff00acdc01fe801fe00acd401fd80acc40acb801fd001fc80acb40b81400ece00c4801fc00c16401fb801fb00c1580c14c0c1400c13801fa80c1280c11c01fa00c1140c1040c0f801f98)
  (.lf 0))) (.nd (.nd (.lf
  0xf7a541668416700f7a141658416600f79d41648416500f79941638416400f79541628416300f79141618416200f78d41608416100f789415f8416000f785415e8415f00f781415d8415e00f77d415c8415d00f779415b8415c00f775415a8415b00f77141598415a00f76d41588415900f76941578415800f7656b2d0415700f7616b2a0415640f75d6b270415580f7596b2444154c0f7556b218415400f751)
  (.lf 0)) (.nd (.lf
  0x31de431dd431dc431db431da431d9431d8431d7431d6431d5431d4431d3431d2431d14159990035c05d7405d7005d6c05d6805d6405d6005d5c05d5805d5405d5005d4c05d4805d4405d4005d3c05d3805d3405d3005d2c05d2805d2405d2005d1c05d1805d1405d1005d0c05d0805d0405d0031d0431cf431ce431cd431cc431cb431ca431c9431c8431c7431c6431c5431c4431c3431c2431c1431c0431bf4)
  (.lf 0)))

def shaPos292 : BTree :=
  .nd (.nd (.nd (.lf
  0xed5c00065540ac0ed5000061540880ed440005d540640ed3800059540400ed2c000555401c0ed200005153ff80ed140004d53fd40ed080004953fb40ecfc0004553f940ecf00004153f740ece40003d53f540ecd80003953f340eccc0003553f140ecc00003153ef40ecb40002d53ed40eca80002953eb40ec9c0002553e940ec900002153e780ec840001d53e5c0ec780001953e400ec6c0001553e240ec60)
  (.lf
  0xf5880f5800f5740f56c0f5640f5600f5580f54c0f5480f53c0f5340f52c0f5240f51c0f5140f50c0f5040f4fc0f4f40f4f00f4e40f4dc0f4d40f4cc0f4c80f4bc0f4b80f4ac0f4a40f49c45a00008200f4940f48c0f4840f47c0f4740f46c0f4640f45c0f4540f44c0f4440f43c0f4380f42c0f4280f41c0f4180f40c0f4040f3fc0f3f40f3ec0f3e40f3dc0f3d40f3d00f3c40f3bc0f3b40f3ac460800081c))
  (.nd (.lf
  0x58208581ec581d0581b4581985817c58160581445812c58114580fc580e4580cc580b45809c580845438c5439c583b85839858378583585833858318582f8582d8582b85829858278582585823c5822058204581e8581cc581b058194581785815c581405812858110580f8580e0580c8580b058098580805438812a7912a7512a7112a6d12a6912a6512a6112a5d12a5912a5512a5112a4d12a4912a4512a41)
  (.lf 0))) (.nd (.nd (.lf
  0x2d020093352d0082d010093312cff82d0000932d2cfe82cff0093292cfd82cfe0093252cfc82cfd0093212cfb82cfc00931d2cfa82cfb0093192cf982cfa0093152cf882cf90093112cf782cf800930d2cf682cf70093092cf582cf60093052cf482cf50093012cf382cf40092fd2cf282cf30092f92cf182cf20092f52cf082cf10092f12cef82cf00092ed2cee82cef0092e92ced82cee0092e52cec82ced0)
  (.lf 0)) (.nd (.lf
  0x106881068010674106681065c10650106401063810628106201061010604105f815ca5062c40d0080d0040d0000cffc0cff80cff40cff00cfec0cfe80cfe40cfe00cfdc0cfd80cfd40cfd00cfcc0cfc80cfc40cfc00cfbc0cfb80cfb40cfb00cfac0cfa80cfa40cfa00cf9c0cf980cf94105f0105e0105cc105c0105ac105a0105901058010570105601054c1054010530105201050c10500104f0104e0104cc)
  (.lf 0)))

def shaPos293 : BTree :=
  .nd (.nd (.nd (.lf
  0x8820087e0087a0087600872012ec14a7d012e414a790bad814a75017660bad4047f1017620bac8047ed012d414a710bac414a6d0175e0babc047e90175a0bab4047e5012c414a69012bc14a650baa814a61017560baa4047e1017520ba9c047dd0174e0ba90047d9012ac14a5d012a414a590129c14a550129414a510128c14a4d0ba8814a490174a0ba80047d50127c14a450127414a410126c14a3d064b4)
  (.lf 0)) (.nd (.lf
  0x5bd745bd585bd3c5bd205bd045bce85bcd05bcb85bca05bc885bc705bc585bc405bc28546605464c5bc105bbf05bbd05bbb05bb905bb705bb505bb305bb105baf05bad05bab05ba945ba785ba5c5ba405ba245ba085b9ec5b9d05b9b45b9985b9805b9685b9505b9385b9205b9085b8f05b8d854638546245b8c05b8a05b8805b8605b8405b8205b8005b7e05b7c05b7a05b7805b7605b7445b7285b70c5b6f0)
  (.lf 0))) (.nd (.nd (.lf
  0x3cf303cf280e24d67e843cf200e24967e543cf140e24567e243cf080e24167df83cefc0e23d67dcc3cef00e23967da03cee40e23567d743ced80e23167d483cecc0e22d67d1c3cec00e22967cf03ceb40e22567cc43cea80e22167c9c3ce9c0e21d67c743ce900e21967c4c3ce840e21567c243ce780e21167bfc3ce6c0e20d67bd43ce600e20967bac3ce540e20567b843ce480e20167b5c3ce3c0e1fd67b34)
  (.lf 0)) (.nd (.lf
  0x2b4542b4442b4342b4242b41415959002dc055f4055f0055ec055e8055e4055e0055dc055d8055d4055d0055cc055c8055c4055c0055bc055b8055b4055b0055ac055a8055a4055a00559c0559805594055900558c0558805584055802b4042b3f42b3e42b3d42b3c42b3b42b3a42b3942b3842b3742b3642b3542b3442b3342b3242b3142b3042b2f42b2e42b2d42b2c42b2b42b2a42b2942b2842b2742b264)
  (.lf 0)))

def shaPos294 : BTree :=
  .nd (.nd (.nd (.lf
  0x1e95153341533801e91153241532801e8d153141531801e89153041530801e85152f4152f801e81152e4152e801e7d152d4152d801e79152cc5b22801e75152bc5b20801e71152b45b1e801e6d152a85b1c801e691529c5b1a801e65152905b18801e61152845b16801e5d152785b14801e59152685b12801e55152605b10801e51152505b0e401e4d152485b0c801e491523c5b0a801e45152305b08c01e41)
  (.lf 0)) (.nd (.lf
  0x40534405284051c4051040504404f8404ec404e0404d4404c8404bc404b0404a4404984620c0101440144401384012c401204011440108400fc400f0400e4400d8400cc400c0400b4400a84009c4009040084400784006c4006040054400484003c4003040024400184000c400003fff43ffe846204010083fc983fc8c3fc803fc743fc683fc5c3fc503fc443fc383fc2c3fc203fc143fc083fbfc3fbf03fbe4)
  (.lf 0))) (.nd (.nd (.lf
  0x52688468f00b8e952674468e00b8e55265c468d00b8e152648458180b8dd526344580c0b8d934638346400b8d534628346300b8d134618346200b8cd34608346100b8c9345f8346000b8c5345e8345f00b8c1345d8345e00b8bd345c8345d00b8b9345b8345c00b8b5345a8345b00b8b134598345a00b8ad34588345900b8a934578345800b8a534568345700b8a134558345600b89d34548345500b89934538)
  (.lf 0)) (.nd (.lf
  0x8534085300852c0852808524085200851c0851808514085100850c085080850408500084fc084f81dfb81dfa81df981df881df781df641df541df481df381df281df181df081def41dee81ded81dec81deb81dea81de981de881de781de681de581de441de381de281de141de041ddf81dde8159d54799c49f2049f0449ee849ed849eb049e9849e8849e6849e5449e4049e2849e0c49df449dd849dc449dac)
  (.lf 0)))

def shaPos295 : BTree :=
  .nd (.nd (.nd (.lf
  0x6d85259082590c06d81258fc2590006d7d258e8258ec06d79258d8258e006d75258c8258d006d71258bc258c006d6d258a8258ac06d692589c258a006d652588c2589006d61258802587806d5d258702586c06d59258582585c06d552584c2584806d51258402583c06d4d2582c2583006d4900cb600cb200cae00caa00ca600ca200c9e00c9a00c9600c9200c8e00c8a00c8601b7c01b7401b6c0a99001b3c)
  (.lf 0)) (.nd (.lf
  0x2af982af902af882af802af782af702af682af602af5848de000c842a9b02a9a82a9a02a9982a9902a9882a9802a9782a9702a9682a9602a9582a9502a9482a9402a93c2a9302a9282a9202a9182a9102a9082a9002a8f82a8f02a8e82a8e02a8d82a8d02a8c848dd400c742a3202a3182a3102a3082a3002a2f82a2f02a2e82a2e02a2d82a2d02a2c82a2c02a2b82a2b02a2a82a2a02a2982a2902a2882a280)
  (.lf 0))) (.nd (.nd (.lf
  0x4f2684f2504f2384f2244f2104f1fc4f1e84f1d44f1c04f1ac4f1984f1844f1704f15c4f1484f1344f1204eeac4ee984ee844ee704ee5c4ee484ee344f04c4f0344f01c4f0044efec4f0504f0384f0204f0084eff04efd84efc44efb04ef9c4ef884ef744ef604ef4c4ef384ef244ef104eefc4eee84eed44eec04ec4c4ec384ec244ec104ebfc4ebe84ebd44edec4edd44edbc4eda44ed8c4edf04edd84edc0)
  (.lf 0)) (.nd (.lf
  0x38750387483873c3873038724387183870c38700386f4386e8386dc386d0386c4386b8386ac386a038694386883867c3867038664386583864c386403863438628386183861015ea10006c03164031600315c0315803154031500314c0314803144031400313c0313803134031300312c0312803124031200311c0311803114031100310c031080310403100030fc030f8030f4030f038604385f4385e4385d4)
  (.lf 0)))

def shaPos296 : BTree :=
  .nd (.nd (.nd (.lf
  0x9301633816324163181630c16300162f4162e8162dc162d0162c4162b8162ac162a016294162881627c1627016264162581624c1624016234162281621c1621016204161f8161ec161e8161d45468c0092815fe815fdc15fd015fc415fb815fb415fa015f9415f8815f7c15f7815f6815f5c15f4c15f4015f3415f2815f1c15f1815f0815ef815eec15ee015ed415ecc15ec415eb015ea415e9815e8c54664)
  (.lf
  0x4622846218457d4457c84221c4221042204421f8421ec421e0421d4421c8421bc421b0421a4421984218c4218042174421684215c4215042144421384212c421204211442108420fc420f0420e4420d8420cc420c015ac900174040dc040d8040d4040d0040cc040c8040c4040c0040bc040b8040b4040b0040ac040a8040a4040a00409c0409804094040900408c0408804084040800407c040780407404070))
  (.nd (.lf
  0x5e3a05e3805e3605e3405e3205e3005e2e05e2c05e2a05e2805e2605e2445e2285e20c5e1f05e1d45e1b85de4c5de305de145e06c5e04c5e02c5e00c5dfec5dfcc5dfac5df8c5df6c5df4c5df2c5e0705e0505e0305e0105dff05dfd05dfb05df905df705df505df305df105def45ded85debc5dea05de845de685dafc5dae05dac85dd1c5dcfc5dcdc5dcbc5dc9c5dc7c5dc5c5dc3c5dc1c5dbfc5dbe45dd20)
  (.lf 0))) (.nd (.nd (.lf
  0x2b2b02b2ac089c92b2a02b29c089c52b2902b28c089c12b2802b27c089bd2b2702b26c089b92b2602b25c089b52b2502b24c089b12b2402b23c089ad2b2302b22c089a92b2202b21c089a52b2102b20c089a12b2002b1fc0899d2b1f02b1ec089992b1e02b1dc089952b1d02b1cc089912b1c02b1bc0898d2b1b02b1ac089892b1a02b19c089852b1902b18c089812b1802b17c0897d2b1702b16c089792b160)
  (.lf 0)) (.nd (.lf
  0x4e6f44e6e447ca447cb04e9344e91c4e9044e8ec4e8d44e8bc4e6484e6344e6204e60c4e5f84e5e44e5d04e5bc4e5a84e5944e5804e56c4e5584e5444e5304e51c4e5084e4f44e4e04e4cc4e4b84e4a44e4944e48447c8c47c984e6d44e6bc4e6a44e68c4e6744e65c4e3e84e3d44e3c04e3ac4e3984e3844e3704e35c4e3484e3344e3204e30c4e2f84e2e44e2d04e2bc4e2a84e2944e2804e26c4e2584e244)
  (.lf 0)))

def shaPos297 : BTree :=
  .nd (.nd (.nd (.lf
  0x3e951c3441c34c03e911c3341c33c03e8d1c3241c32c03e891c3141c31c03e851c3041c30c03e811c2f41c2fc03e7d1c2e41c2ec03e791c2d41c2dc03e751c2c41c2cc03e711c2b41c2bc03e6d1c2a41c2ac03e691c2941c29c03e651c2841c28c03e611c2741c27c03e5d1c2641c26c03e591c25c4792403e551c2504791403e511c2444790403e4d1c234478f403e491c228478e403e451c21c478d403e41)
  (.lf 0)) (.nd (.lf
  0x29f5429f3829f3429f1c29f0c29ef829eec29ee429ecc29ebc29eac29ea429e9429e80002c000c58299bc299a8299982998829978299682995c2994c2993c2992c2991c2990c29900298e8298dc298cc298c4298ac2989c298882987c2986c29860298482983c2982c2981c2980c297fc297ec002b800c44293342931829314292f8292ec292d8292cc292b8292b4292a4292882928429270292582925429238)
  (.lf 0))) (.nd (.nd (.lf
  0xd7a5636243abdc0d7a1636043abd00d79d635e43abc80d799635c43abbc0d795635a43abb00d791635843aba00d78d61f6c3ab940d78961f503ab8c0d7853ab803ab7c0d7813ab703ab6c0d77d3ab5c3ab580d7793ab503ab4c0d7753ab3c3ab400d7713ab2c3ab280d76d3ab203ab1c0d7693ab103ab0c0d7653ab003aafc0d7613aaf03aaec0d75d3aae03aadc0d7593aac83aad00d7553aab83aabc0d751)
  (.lf 0)) (.nd (.lf
  0x51c027f8427f7427f6427f5427f4427f3427f2427f1027f0427ef427ee027ed427ec427eb427ea427e9427e8427e7027e6427e5427e4427e3027e2427e1427e0427df427de427dd427dc427db4148ed006e4090ac090a8090a4090a00909c0909809094090900908c0908809084090800907c0907809074090700906c0906809064090600905c0905809054090500904c0904809044090400903c0903827da4)
  (.lf 0)))

def shaPos298 : BTree :=
  .nd (.nd (.nd (.lf
  0x58be4013e912df458bcc013e512de458bac013e112ddc58b90013dd12dd058b74013d912dc458b5c013d512db458b3c013d112da858b24013cd12da058b0c013c912d9058af4013c512d8458ae0013c112d7c58ac4013bd12d6c58ab0013b912d6458a94013b512d5858a7c013b112d4412d48013ad12d3412d38013a912d2412d28013a512d1412d18013a112d0412d080139d12cf812cf40139912ce812ce4)
  (.lf 0)) (.nd (.lf
  0x3de0c3ddfc3ddec3dddc3ddcc3ddbc3ddac3dd9c3dd8c3dd7c3dd6c3dd5c3dd4c3dd3c0010000fb03da5c3da4c3da3c3da2c3da1c3da0c3d9fc3d9ec3d9dc3d9cc3d9bc3d9ac3d99c3d98c3d97c3d96c3d95c3d94c3d93c3d92c3d91c3d90c3d8fc3d8ec3d8dc3d8cc3d8bc3d8ac3d89c3d88c000f800fa43d5ac3d59c3d58c3d57c3d56c3d55c3d54c3d53c3d52c3d51c3d50c3d4fc3d4ec3d4dc3d4cc3d4bc)
  (.lf 0))) (.nd (.nd (.lf
  0x3289c0af7d328903288c0af79328803287c0af75328703286c0af71328603285c0af6d328503284c0af69328403283c0af65328303282c0af61328203281c0af5d328103280c0af5932800327fc0af55327f0327ec0af51327e0327dc0af4d327d0327cc0af49327c0327bc0af45327b0327ac0af41327a03279c0af3d327903278c0af39327803277c0af35327703276c0af31327603275c0af2d327503274c)
  (.lf 0)) (.nd (.lf
  0x1a9501a9401a9301a9201a9101a9001a8f01a8e01a8d01a8c01a8b01a8a01a8901a8801a8701a8601a8501a8401a83015db5549e8608486082860808607e8607c8607a86078860768607486072860708606e8606cc606b060694606786065c606406062460608605ec605d0605b8605a06058860570605586054060528605101a81c1a8101a8081a7f81a7ec1a7e41a7d41a7cc1a7bc1a7b01a7a41a7981a78c)
  (.lf 0)))

def shaPos299 : BTree :=
  .nd (.nd (.nd (.lf
  0x23b7c23b780644523b6c23b680644123b6023b5c0643d23b5023b4c0643923b3c23b380643523b2c23b280643123b1c23b200642d23b0823b100642923afc23af80642523af023ae80642123adc23ae00641d23acc23ad00641923abc23ab80641523aac23aa80641123a9c23aa00640d23a8823a900640923a7c23a780640523a7023a680640123a5c23a60063fd23a4c23a50063f923a3c23a38063f523a2c)
  (.lf 0)) (.nd (.lf
  0x2a8042a7f42a7e42a7d42a7c42a7b42a79c2a7942a7842a7742a7642a7542a7442a7342a7242a7142a7002a6f00051800c702a22c2a2182a2102a1fc2a1f02a1dc2a1cc2a1c02a1b02a1982a18c2a17c2a1682a1582a1482a1382a1282a1182a1102a0f82a0ec2a0d82a0d02a0b82a0b02a09c2a0882a0802a0682a05c0051000c5c29ba429b8c29b7829b6829b6429b4c29b3829b3429b2029b0829af829ae8)
  (.lf 0))) (.nd (.nd (.lf
  0x533d8439f41024d533bc439e810249533a0439dc1024553384439d01024153368439c41023d5334c439b81023953330439ac10235490d0439a010231490bc439941022d46f8c439881022946f744397c1022546f5c439701022146f44439641021d46f2c439581021946f144394c1021546efc439401021146ee4439341020d46ecc439281020946eb44391c1020546e9c439101020146e8443904101fd46e70)
  (.lf 0)) (.nd (.lf
  0x351a43519415ab90ca840ca7802cc402cbc0ca5402cac0ca3c02ca402c9c0ca180ca0c02c940c9f402c8c0c9dc0c9d002c8402c7c0657c0039c06134061300612c0612806124061200611c0611806114061100610c061080610406100060fc060f8060f4060f0060ec060e8060e4060e0060dc060d8060d4060d0060cc060c8060c4060c0351843517435164351543514435134351243511435104350f4350e4)
  (.lf 0)))

def shaPos300 : BTree :=
  .nd (.nd (.nd (.lf
  0x68c7068c4068c1068be468bb868b8c68b6068b3468b0868adc68ab068a88636f0636d0636b063690636706365061f9461f78688e8688b8688ec688bc6888c688606883468808687dc687b068784687586872c6870463610635f0635d0635b0635906357061f5c61f406856c6853c685706854068510684e4684b86848c684606843468408683dc683b0683886353063510634f0634d0634b06349061f2461f08)
  (.lf 0)) (.nd (.lf
  0x1353d1353913535135311352d1352913525135211351d1351913515135111350d135091350513501134fd546e85c94c5c92c5c90c5c8ec5c8cc5c8ac5c88c5c86c5c84c5c82c5c80c5c7ec5c7d05c7b45c7985c77c5c7605c7445c7285c70c5c6f05c6d45c6bc5c6a45c68c5c6745c65c5c6445c62c5c614546d4546e45c9485c9285c9085c8e85c8c85c8a85c8885c8685c8485c8285c8085c7e85c7cc5c7b0)
  (.lf 0))) (.nd (.nd (.lf
  0x2ee402ee3c09cb52ee302ee2c09cb12ee202ee1c09cad2ee102ee0c09ca92ee002edfc09ca52edf02edec09ca12ede02eddc09c9d2edd02edcc09c992edc02edbc09c952edb02edac09c912eda02ed9c09c8d2ed902ed8c09c892ed802ed7c09c852ed702ed6c09c812ed602ed5c09c7d2ed502ed4c09c792ed402ed3c09c752ed302ed2c09c712ed202ed1c09c6d2ed102ed0c09c692ed002ecfc09c652ecf0)
  (.lf 0)) (.nd (.lf
  0x13cc813cb813ca813c9813c8813c7813c6413c5813c4813c3413c2813c1413c0413bf413be415cf9544c059af459ad459ab459a9859a7859a5859a3859a18599f8599d8599b8599985997c5996059944599285990c598f0598d4598b85989c598805986859850598385982059808597f0597d8597bc13bd813bcc13bc013bb413ba813b9c13b9013b8413b7813b6c13b6013b5413b4413b3c13b3013b2413b14)
  (.lf 0)))

def shaPos301 : BTree :=
  .nd (.nd (.nd (.lf
  0x51651ff801ff7c051611ff681ff6c0515d1ff601ff5c051591ff481ff50051551ff3c1ff38051511ff301ff280514d1ff181ff20051494ad70482e8051454ad54482d0051414ad38482b80513d4ad1c482a4051394ad0048290051354ace44827c051314accc482680512d4acb448254051294ac9c48240051254ac844822c051214ac6c482180511d4ac5448204051194ac3c481f0051154ac24481dc05111)
  (.lf 0)) (.nd (.lf
  0x5b5c45b5ac5b5945b57c54604546185b8b45b8945b8745b8545b8345b8145b7f45b7d45b7b45b4445b4205b4045b3e85b3cc5b3b05b3945b3785b35c5b3405b3245b3045b2ec5b2d45b2bc5b2a45b28c5b2745b25c5b2445b22c545dc545f05b55c5b5445b5245b5045b4e45b4c45b4a45b4845b4645b0f45b0d45b0b45b0985b07c5b0605b0445b0285b00c5aff05afd45afb85af9c5af845af6c5af545af3c)
  (.lf 0))) (.nd (.nd (.lf
  0x3f2ec0ecf96b87c3f2e00ecf56b8503f2d40ecf16b8243f2c80eced6b7f83f2bc0ece96b7d03f2b00ece56b7a83f2a40ece16b7803f2980ecdd6b7583f28c0ecd96b7303f2800ecd56b7083f2740ecd16b6e03f2680eccd6b6b83f25c0ecc96b6903f2500ecc56b6683f2440ecc1643543f2380ecbd643343f22c0ecb9643143f2200ecb5642f43f2140ecb1642d43f2080ecad642b43f1fc0eca9642943f1f0)
  (.lf 0)) (.nd (.lf
  0x159790031c059b4059b0059ac059a8059a4059a00599c0599805994059900598c0598805984059800597c0597805974059700596c0596805964059600595c0595805954059500594c0594805944059402e8842e8742e8642e8542e8442e8342e8242e8142e8042e7f42e7e42e7d42e7c42e7b42e7a42e7942e7842e7742e7642e7542e7442e7342e7242e7142e7042e6f42e6e42e6d42e6c42e6b41492d00764)
  (.lf 0)))

def shaPos302 : BTree :=
  .nd (.nd (.nd (.lf
  0x178bc178c40293d178b4178b002939178a0178a4029351789017894029311787c178840292d1787417870029291786417860029251784c178540292117844178400291d1783017834029191782017824029151780c1781002911177fc178040290d177f4177f002909177e4177dc02905177d4177d002901177c0177c4028fd177b0177ac028f91779c177a4028f5177941778c028f1177801777c028ed17770)
  (.lf 0)) (.nd (.lf
  0x4525c4525045244452384522c452204521445208451fc451f0451e4451d8451cc451c0451b44510c45100450f4450e8450dc450d0450c4450b8450ac0cce00cce8451a445194451844517c4517045164451584514c4514045134451284511c4511045104450f8450ec450e0450d4450c8450bc450b0008080ed880ed7c0ed700ed640ed580ed4c0ed400ed340ed280ed1c0ed100ed040ecf80ecec0ece00ecd4)
  (.lf 0))) (.nd (.nd (.lf
  0x363c8363d00c24d363b8363c00c249363a8363b00c24536398363a00c24136388363900c23d36378363800c23936368363700c23536358363600c23136348363500c22d36338363400c22936328363300c22536318363200c22136308363100c21d362f8363000c219362e8362f00c215362d8362e00c211362c8362d00c20d362b8362c00c209362a8362b00c20536298362a00c20136288362900c1fd36278)
  (.lf 0)) (.nd (.lf
  0x215842157421564215542154421534215242151021504214f4214e4214d4214c0214b0148ad006640892c0892808924089200891c0891808914089100890c089080890408900088fc088f8088f4088f0088ec088e8088e4088e0088dc088d8088d4088d0088cc088c8088c4088c0088bc088b8214a021494214842147021464214502144421434214242141421400213f4213e0213d4213c4213b4213a021394)
  (.lf 0)))

def shaPos303 : BTree :=
  .nd (.nd (.nd (.lf
  0x2775c0770d277482774c077092773c2773807705277302772c07701277202771c076fd277102770c076f927700276fc076f5276f0276ec076f1276e0276dc076ed276d0276cc076e9276b8276c0076e5276b0276ac076e1276982769c076dd2769027688076d92767c27678076d52767027668076d12765c27658076cd276502764c076c9276402763c076c5276302762c076c1276202761c076bd2760c27608)
  (.lf 0)) (.nd (.lf
  0x2b0c82b0b82b0a82b0982b0882b0782b0682b0582b0480072000c882ab8c2ab782ab742ab582ab4c2ab382ab302ab1c2ab142aaf82aaf02aad82aad02aac02aaa82aa9c2aa902aa782aa682aa642aa4c2aa402aa2c2aa1c2aa082a9f82a9ec2a9d82a9d02a9bc0071800c782a4f82a4e82a4d82a4c82a4c42a4ac2a4982a4882a4842a4682a4642a44c2a4382a4282a4182a4082a3f82a3e82a3d82a3d02a3c0)
  (.lf 0))) (.nd (.nd (.lf
  0x10edd10ed910ed510ed110ecd10ec910ec510ec110ebd10eb910eb510eb110ead10ea910ea510ea115b6947b644c7f84c7e04c7c84c7b04c7984c7804c76c4c7584c7444c7304c71c4c7084c6f44c6e04c6cc4c6b84c6a44c6904c67c4c6684c6544c6404c62c4c6184c6044c5f04c5dc4c5c84c5b84c5a847b5810e9d10e9910e9510e9110e8d10e8910e8510e8110e7d10e7910e7510e7110e6d10e6910e65)
  (.lf 0)) (.nd (.lf
  0x3bafc3baf03bae43bad83bacc3bac03bab43baa83ba9c3ba903ba843ba783ba6c3ba603ba543ba483ba3c3ba303ba243ba143ba0c3ba003b9f43b9e83b9dc3b9d03b9c43b9b83b9ac3b9a015f25000c40368c0368803684036800367c0367803674036700366c0366803664036600365c0365803654036500364c0364803644036400363c0363803634036300362c0362803624036200361c036183b9903b984)
  (.lf 0)))

def shaPos304 : BTree :=
  .nd (.nd (.nd (.lf
  0x8b012eb012eac12e9812e9412e8012e7812e6c12e6412e5812e4412e3812e3012e2412e1c12e0c12dfc12df012de812dd812dcc12dc012dbc12db012d9c12d9812d8812d7812d7012d6012d545440c008a812b7012b5c12b5412b4412b3812b3412b2412b1812b1012afc12af412aec12ae012ad412ac812abc12aa812a9c12a9012a8812a7812a6c12a6012a5812a4812a4012a3012a2412a1812a10543e4)
  (.lf
  0x40784407741484554d4c6a8506a8206a7f06a7c46a7986a76c6a7406a7146a6e86a6bc6a6906a6686a6406a6186a5f06a5c86a5a06a5786a5506a5286a50063ef463ed463eb463e9463e7463e5463e34621906217440764407584074c4074040734407284071c4071040704406f8406ec406e0406d4406c8406bc406b0406a4406984068c4068040674406684065c4065040644406384062c406204061440608))
  (.nd (.lf
  0x579a45798057960579405792057900578e0578c0578a05787c5786057844578285780c577f0577d4577b85744c57430574185766c5764c5762c5760c575ec575cc575ac5758c5756c5754c5753457670576505763057610575f0575d0575b05759057570575505752c57510574f4574d8574bc574a05748457468570fc570e0570c85731c572fc572dc572bc5729c5727c5725c5723c5721c571fc571e457320)
  (.lf 0))) (.nd (.nd (.lf
  0x2a38c0851d2a3802a37c085192a3702a36c085152a3602a35c085112a3502a3480850d2a3382a340085092a3302a328085054eba068fdc085014eb8868fac084fd4eb7068f80084f94eb5868f54084f54eb4068f28084f14eb2868efc084ed4eb1468ed0084e94eb0068ea4084e54eaec68e78084e14ead868e4c084dd4eac468e20084d94eab068df8084d54ea9c68dd0084d14ea8868da8084cd4ea7468d80)
  (.lf 0)) (.nd (.lf
  0x4946c4945c479344793c496a44968c4967449660496404962c52e9852e8052e6452e4052e2852e0c52df852ddc52dc052da452d8852d6c52d5052d3452d1852cfc52ce452cc852cac52c9052c7052c5c52c4052c2848e8448e9052f4c52f2c52f1052ef852ecc52eb445ffc45ff045fe045fd445fbc45fac45fa845f9845f8845f7845f6845f5845f4845f3845f2845f1845f0845ef845ee845ed845ec445eb8)
  (.lf 0)))

def shaPos305 : BTree :=
  .nd (.nd (.nd (.lf
  0x1b0b860f440393d1b0ac60f2c039391b0a460f14039351b09860efc039311b0841b08c0392d1b0741b07c039291b0641b06c039251b0541b05c039211b0441b04c0391d1b0341b03c039191b0241b02c039151b0141b01c039111b0041b00c0390d1aff41affc039091afe41afec039051afd41afdc039011afc41afcc038fd1afb41afbc038f91afa41afac038f51af941af9c038f11af841af8c038ed1af74)
  (.lf 0)) (.nd (.lf
  0x1cc281cc181cbfc1cbec1cbe81cbd81cbc01cbb81cba01cb941cb841cb781cb601cb50001c000a201c6181c6101c5f81c5e81c5d41c5d01c5b81c5a41c5a01c5901c5801c5681c5581c5441c53c1c5301c5141c5101c4f81c4ec1c4dc1c4c81c4b81c4a41c4981c4901c4781c4701c4581c450001b847314472fc472e4450784747c4746047444474284740c473f0473d4473b84739c47380473644734847330)
  (.lf 0))) (.nd (.nd (.lf
  0x6771439a000d24d676e8399f40d249676bc399ec0d24567690399e00d24167664399d40d23d67638399c80d2396760c399bc0d235675e0399ac0d231675b4399a40d22d6758c399980d229675643998c0d2256753c3997c0d22167514399700d21d674ec399640d219674c4399580d2156749c399500d21167474399440d20d6744c399380d209632c43992c0d205632a4399200d20163284399140d1fd63264)
  (.lf 0)) (.nd (.lf
  0x264f4264e4264d4264c4264b4264a026494264842647426464264542644426434264242641426404263f0263e0263d4263c4263b4263a4263942638426374148dd006c408ecc08ec808ec408ec008ebc08eb808eb408eb008eac08ea808ea408ea008e9c08e9808e9408e9008e8c08e8808e8408e8008e7c08e7808e7408e7008e6c08e6808e6408e6008e5c08e5826364263542634426330263242631426304)
  (.lf 0)))

def shaPos306 : BTree :=
  .nd (.nd (.nd (.lf
  0xe9511b2c11b3000e9111b1c11b2000e8d11b0c11b1400e8911b04579d800e8511af8579b800e8111ae85799800e7d11ae05797800e7911ad05795800e7511ac45793800e7111abc5791800e6d11ab0578f800e6911aa0578d800e6511a94578b800e6111a885789800e5d11a805787800e5911a705785c00e5511a685784000e5111a5c5782400e4d11a505780800e4911a40577ec00e4511a38577d000e41)
  (.lf 0)) (.nd (.lf
  0x145091450514501144fd144f9144f5144f1144ed144e9144e5144e1144dd144d9144d515e4964de064db464d8865120650f0650c06509065060650306500064fd064fa064f7064f4065124650f4650c46509465064650346500464fd464fa464f7464f4464f1464ee864ebc64e9064e6464e3864e0c552fc6513865108650d8650a865078650486501864fe864fb864f8864f5864f2864efc64ed064ea464e78)
  (.lf 0))) (.nd (.nd (.lf
  0x319503194c0aac95165c536900aac5516445366c0aac15162c536480aabd51614536240aab9515fc536000aab5515e8535dc0aab1515d4535b80aaad515c0535940aaa9515ac535700aaa5515985354c0aaa151584535280aa9d51570535080aa995155c534e80aa9551548534c80aa9151534534a80aa8d51520534880aa895150c534680aa85514f8534480aa81514e4534280aa7d514d0534080aa79514bc)
  (.lf 0)) (.nd (.lf
  0x5ec645ec485ec2c5ec105ebf45ebd85ebbc5eba05eb845eb685eb4c5eb385eb205eb085eaf05ead45eabc5eaa45ea8c18de018dd418dc818dbc18db018da418d9818d8c18d8018d7418d6818d5c18d5018d4418d3818d2c18d2018d1418d0818cfc18cf018ce418cd418cc818cbc18cb018ca818c9c18c9018c8415d810640c0e3400e33c0e3380e3340e3300e32c0e3280e3240e3200e31c0e3180e3140e310)
  (.lf 0)))

def shaPos307 : BTree :=
  .nd (.nd (.nd (.lf
  0x5f794bed854af405f754bec454adc05f714beb054ac005f6d4bea052bf805f694be9052be405f6522c0822c0c05f6122c0022bf805f5d22bec22be805f5922bdc22be005f5522bcc22bc805f5122bb822bbc05f4d22bb022bac05f4922b9c22b9805f4522b8c22b8805f4122b7822b8005f3d22b7022b6805f3922b5c22b5805f3522b5022b4c05f3122b4022b3805f2d22b2822b2c05f2922b1822b2005f25)
  (.lf 0)) (.nd (.lf
  0x1ce3c1ce301ce281ce181ce001cdf41cde41cdcc1cdbc1cdac1cd9c1cd981cd801cd741cd601cd581cd441cd380041000a281c8001c7f01c7d41c7d01c7bc1c7a81c7a01c7841c7801c7701c7581c7481c7401c7301c7201c7041c6f41c6e81c6e01c6c41c6bc1c6b01c6981c6881c67c1c6641c6601c6501c6381c63000e800cb9c02e1802e1002e0802e000cb9002df80cb8402df002de802de00cb7802dd8)
  (.lf 0))) (.nd (.nd (.lf
  0x428140fcf96c02c428080fcf56c000427fc0fcf16bfd4427f00fced6bfa8427e40fce96bf7c427d80fce56bf50427cc0fce16bf24427c00fcdd6bef8427b40fcd96bed0427a80fcd56bea84279c0fcd16be80427900fccd6be58427840fcc96be30427780fcc56be084276c0fcc16bde0427600fcbd6bdb8427540fcb96bd90427480fcb56bd684273c0fcb16451c427300fcad644fc427240fca9644dc42718)
  (.lf 0)) (.nd (.lf
  0x33864338543384433834338243381433804337f4337e4337d4337c4337b4337a43379433784337743376433754159a902b0c02b0402afc0c84402af40c82c0c82002adc02ac40c7fc0c7f00c7e402abc0c7cc02ab402aac065640037c05f5405f5005f4c05f4805f4405f4005f3c05f3805f3405f3005f2c05f2805f2405f2005f1c05f1805f1405f1005f0c05f0805f0405f0005efc05ef805ef405ef005eec)
  (.lf 0)))

def shaPos308 : BTree :=
  .nd (.nd (.nd (.lf
  0x648b464c0064bd064ba464b7864b4c64b2064af464ac864a9c64a7064a4464c0464bd464ba864b7c64b5064b2464af864acc64aa064a7464a4864a1c649f4645d8645b0645886456064538648886485864828647fc647d0647a4647786474c64720646f4646c86488c6485c6482c64800647d4647a86477c6475064724646f8646cc646a0646786be146bdec6bdc46bd9c6bd746c0c46c0946c0646c0386c00c)
  (.lf 0)) (.nd (.lf
  0x5a6745a6585a63c5a6205a6045a5e85a5cc5a5b05a5985a5805a5685a5505a5385a5205a5085a4f05454012ff912ff512ff112fed12fe912fe512fe112fdd12fd912fd512fd112fcd12fc912fc512fc112fbd12fb912fb512fb112fad12fa912fa512fa112f9d12f9912f9512f9112f8d12f8912f8512f8112f7d545305a4dc5a4bc5a49c5a47c5a45c5a43c5a41c5a3fc5a3dc5a3bc5a39c5a37c5a3605a344)
  (.lf 0))) (.nd (.nd (.lf
  0x2dedc098012ded02decc097fd2dec02debc097f92deb02deac097f52dea02de9c097f12de902de8c097ed2de802de7c097e92de702de6c097e52de602de5c097e12de502de4c097dd2de402de3c097d9500ec6af50097d5500d46af20097d1500bc6aef0097cd500a46aec4097c95008c6ae98097c5500786ae6c097c1500646ae40097bd500506ae14097b95003c6ade8097b5500286adbc097b1500146ad90)
  (.lf 0)) (.nd (.lf
  0x57ea857e8c57e7057e5457e3857e1857dfc57de457dcc57db857da057d8457d6c57d5457d4012198121881218012174121681215c1215012144121381212c1211c1211012104120fc120ec120e4120d4120c8120bc120b0120a81209c1209012084120781206c1206012054120481203c15cc5063040d3c80d3c40d3c00d3bc0d3b80d3b40d3b00d3ac0d3a80d3a40d3a00d39c0d3980d3940d3900d38c0d388)
  (.lf 0)))

def shaPos309 : BTree :=
  .nd (.nd (.nd (.lf
  0x1f14804cb14a5981f13c04cad4a57c1f13004ca94a5641f12004ca54a54c1f11404ca14a5381f10804c9d4a5201f0fc04c994a50c1f0f404c954a4f81f0e804c911f0dc1f0d804c8d1f0c41f0c804c891f0b41f0bc04c851f0a81f0ac04c811f0981f09c04c7d1f0841f08804c791f0741f07804c751f0641f06804c711f0541f05804c6d1f0441f04804c691f03c1f03404c651f0241f02c04c611f01c1f014)
  (.lf 0)) (.nd (.lf
  0x48ed048ec448eb848eac4608446088490844906c490544904849034490244900848ff048fe046168461544614c4614046134461284611c4611046104460f8460ec460dc460d4460cc460c4460bc460b4460ac460a44609c460944578045784461f8461e8461d8461c0461b4461a8461904618046178450a4479204791047900478f0478e0478d0478c0478b0478a047890478804787047860478504784047830)
  (.lf 0))) (.nd (.nd (.lf
  0xe7a5689683e1040e7a1689403e0f80e79d689183e0ec0e799637f03e0e00e795637d03e0d40e791637b03e0c80e78d6378c3e0bc0e789637703e0b00e785637503e0a40e7816372c3e0980e77d61fc83e08c0e77961fb03e0800e7756abe43e0780e7716abb43e06c0e76d6ab843e0600e7696ab583e0540e7656ab2c3e0480e7616ab003e03c0e75d6aad43e0300e7596aaa83e0240e7556aa7c3e0180e751)
  (.lf 0)) (.nd (.lf
  0x2fc057d4057d0057cc057c8057c4057c0057bc057b8057b4057b0057ac057a8057a4057a00579c0579805794057900578c0578805784057800577c0577805774057700576c0576805764057602ce442ce342ce242ce142ce042cdf42cde42cdd42cdc42cdb42cda42cd942cd842cd742cd642cd542cd442cd342cd242cd142cd042ccf42cce42ccd42ccc42ccb42cca42cc942cc842cc741491d007440964c)
  (.lf 0)))

def shaPos310 : BTree :=
  .nd (.nd (.nd (.lf
  0x5c4a4023e9165ec5c488023e5165e05c46c023e1165d45c454023dd165c85c434023d9165bc5c418023d5165b05c3fc023d1165a45c3e0023cd165985c3c4023c91658c5c3a8023c5165805c38c023c1165745c374023bd165685c35c023b91655c5c344023b5165505c32c023b1165445c314023ad165385c2fc023a91652c5c2e4023a5165205c2cc023a11650c165140239d165041650002399164f4164f0)
  (.lf 0)) (.nd (.lf
  0x3bb9c3bb983bb843bb803bb6c3bb683bb543bb503bb3c3bb383bb283bb203bb143bb0848d6000f583b7ac3b7a03b79c3b7883b77c3b7743b7683b7583b7543b7443b73c3b7303b71c3b7103b7083b7003b6ec3b6e03b6d83b6c83b6c03b6b03b6a83b6983b6903b6803b6783b6683b65c3b65048d5400f4c3b2fc3b2f03b2e43b2d83b2cc3b2c03b2b43b2b03b29c3b2903b2843b2783b2703b2603b2583b248)
  (.lf 0))) (.nd (.nd (.lf
  0x70e0b6b80bda90b6b0157ad0070a0b6ac0bda5007060b6a00bda1007020b6940bd9d006fe0b6880bd9902ccc157a90b680157a5006fa0b67c0bd95006f60b6700bd910b8c8160b1355403553c0bd8d355303552c0bd89355203551c0bd85355103550c0bd8135500354fc0bd7d354f0354ec0bd79354e0354dc0bd75354d0354cc0bd71354c0354bc0bd6d354b0354ac0bd69354a03549c0bd65354903548c)
  (.lf 0)) (.nd (.lf
  0x874808744087400873c0873808734087300872c0872808724087200871c0871808714087100870c087080870408700086fc086f8086f4086f0086ec086e8086e4086e0086dc086d81fa641fa541fa441fa341fa241fa141fa041f9f41f9e41f9d41f9c41f9b41f9a41f9941f9841f9741f9641f9541f9441f9341f9241f9141f9041f8f41f8e41f8d41f8c41f8b41f8a41f890159e547a244aa944aa784aa5c)
  (.lf 0)))

def shaPos311 : BTree :=
  .nd (.nd (.nd (.lf
  0x725d4d62867050072594d61067024072554d5f866ff8072514d5e066fcc0724d4d5c866fa0072494d5b466f74072454d5a066f48072414d58c66f1c0723d4d57866ef0072394d56466ec4072354d55066e9c072314d53c66e740722d4d52866e4c072294d51466e24072254d50066dfc072214d4ec66dd40721d4d4d866dac072194d4c466d84072154d4b066d5c072114d49c66d340720d4d488630e807209)
  (.lf 0)) (.nd (.lf
  0x1de601de501de481de301de1c1de181de081ddf01dde00062000a501d8fc1d8ec1d8e41d8c81d8b81d8ac1d8981d8881d87c1d8681d8581d84c1d8381d82c1d8181d80c1d7fc1d7f41d7dc1d7c81d7c41d7a81d7a41d7881d7801d7701d7601d74c1d7441d7300061800a401d2501d23c1d22c1d2181d2041d2001d1e41d1d41d1cc1d1b81d1ac1d1a01d1841d1781d1701d1601d1481d1381d1241d1181d104)
  (.lf 0))) (.nd (.nd (.lf
  0x1071d1071910715107111070d107091070510701106fd106f9106f5106f1106ed106e9106e5106e115b114798049c5c49c4049c2449c0849bec49bd049bb849ba049b8849b7049b5849b4049b2849b1049af849ae049ac849ab049a9449a7c49a6449a4c49a3849a2049a08499f0499d8499c0499ac4999847970106dd106d9106d5106d1106cd106c9106c5106c1106bd106b9106b5106b1106ad106a9106a5)
  (.lf 0)) (.nd (.lf
  0x65ba865b7865b4865b1c65af065ac465a9865a6c65a4065a14659e8659c065998659706594865920658f8658d0658a8658806585862bb862b9462b7462b5462b3462b1862af861cc461ca83a0443a0383a02c3a0203a0143a00839ffc39fec39fe039fd839fcc39fc039fb439fa839f9c39f9039f8439f7839f6c39f6039f5439f4439f3c39f3039f2439f1839f0c39efc39ef039ee815e6d54c5067b1867ae8)
  (.lf 0)))

def shaPos312 : BTree :=
  .nd (.nd (.nd (.lf
  0x9b0197b0197a41979819790197801977419768197601975019744197401972c19720197141970c19704196f4196ec196d8196cc196c0196bc196ac196a41969419684196781966c19668196545490c009a8194681945c1945819444194381943419420194141940819400193f0193ec193dc193cc193c0193b4193ac193a01939819388193781936c19360193581934c193441933419324193181930c548e4)
  (.lf
  0x43b3443b2443b1443b0414871457945369853674536505362c53608535e4535c05359c53578535545353053510534f0534d0534b05349053470534505343053410533f0533d4533b85339c5338053364533485332c490cc490b843af443ae843adc43ad043ac443ab843aac43aa043a9443a8843a7c43a7043a6443a5843a4c43a4043a3443a2843a1c43a1043a04439f8439ec439e0439d4439c8439bc439b0))
  (.nd (.lf
  0x1253d1253912535125311252d1252912525125211251d1251912515125111250d125091250512501124fd541e855f4c55f2c55f0c55eec55ecc55eac55e8c55e6c55e4c55e2c55e0c55dec55dd055db455d9855d7c55d6055d4455d2855d0c55cf055cd455cbc55ca455c8c55c7455c5c55c4455c2c55c14541d4541e455f4855f2855f0855ee855ec855ea855e8855e6855e4855e2855e0855de855dcc55db0)
  (.lf 0))) (.nd (.nd (.lf
  0x22d4152910c2e01528d01a120c2dc08e7901a0e0c2d008e7501a0a0c2c408e71022c415289022bc152850c2bc1528101a060c2b808e6d01a020c2ac08e69022ac1527d0c2a415279019fe0c2a008e65019fa0c29408e610c28c15275019f60c28808e5d019f20c27c08e59158952c1202c11c08e552c1102c10c08e512c1002c0fc08e4d2c0f02c0ec08e492c0e02c0dc08e452c0d02c0cc08e412c0c02c0bc)
  (.lf 0)) (.nd (.lf
  0x52d6452d4c52d2c52d1052cf852cd852cc052ca052c8c52c6852c4c52c3852c200eef80eeec0eedc0eed40eec80eeb80eeb00eea40ee980ee8c0ee800ee740ee680ee5c0ee500ee440ee380ee2c0ee200ee140ee080edfc0edf00ede40edd80edcc0edc00edb00eda80ed9c15c71457c05415c5413854114540f0540cc540a854084540605403c5401853ff453fd053fb053f9053f7053f5053f3053f1053ef0)
  (.lf 0)))

def shaPos313 : BTree :=
  .nd (.nd (.nd (.lf
  0x435d1d3441d34c043591d3381d33c043551d3281d324043511d3141d3180434d1d3081d304043491d2fc1d2f8043451d2ec1d2e4043411d2d81d2d40433d1d2cc1d2c8043391d2b81d2b4043351d2ac1d2a8043311d2941d2980432d1d28c1d284043291d2741d27c043251d2681d264043211d25c1d2580431d1d2441d248043191d2341d238043151d2241d228043111d21c1d2140430d1d20c1d20804309)
  (.lf 0)) (.nd (.lf
  0x5542c55414553fc553e4553cc553b4553a05538c5537855364553505533c55328553145416c54e18627646273c62714626ec626c46269c626746264c62624625fc625d4625ac6258862564625406251c624f8624d4624b06248c62468624446242462404623e4623c0623a462384623646234454dfc00e7c362583624836238362283621836208361f8361e8361d8361c8361b8361a836198361883617836168)
  (.lf 0))) (.nd (.nd (.lf
  0x3bd980dcf93bd883bd900dcf53bd803bd7c0dcf13bd683bd700dced3bd5c3bd580dce93bd483bd500dce53bd3c3bd380dce13bd2c3bd300dcdd3bd183bd1c0dcd93bd103bd0c0dcd53bd003bcfc0dcd13bce83bcec0dccd3bcd83bcdc0dcc93bcc83bcd00dcc53bcc03bcbc0dcc13bcac3bca80dcbd3bca03bc980dcb93bc8c3bc880dcb53bc7c3bc800dcb13bc683bc6c0dcad670943bc600dca9670643bc50)
  (.lf 0)) (.nd (.lf
  0x53e4053e0053dc053d8053d4053d0053cc053c8053c4053c0053bc053b8053b4053b0053ac053a8053a4053a0299c4299b4299a429994299842997429964299542994429934299242991429904298f4298e4298d4298c0298b4298a429894298842987429864298542984429834298242981429804297f4148fd007040928c0928809284092800927c0927809274092700926c0926809264092600925c09258)
  (.lf 0)))

def shaPos314 : BTree :=
  .nd (.nd (.nd (.lf
  0x140b4140b80193d140a8140a401939140981409401935140841408c01931140781407c0192d1406c14068019291405c14058019251404414048019211403c140380191d140281402c01919140141401c0191514004140080191113ff813ffc0190d13fe813fe40190913fd813fd40190513fc813fcc0190113fbc13fb4018fd13fa813fa4018f913f9413f9c018f513f8413f8c018f113f7413f78018ed13f64)
  (.lf 0)) (.nd (.lf
  0x36f3436f2836f2436f1836f0836ef836ef036ee436ed436ed036ebc36eb436ea436e9c48d1000e9436b4436b3c36b2c36b2036b1436b0c36afc36af036ae836ae036ad036ac036ab436aa836aa436a9836a8436a8036a6c36a6436a5836a4836a3c36a3436a2836a1836a1036a08369fc369f048d040082c0f8d00f8b40f8a40f8940f8840f8800f8700f8600f8480f83c0f8300f8200f8040f7f40f7f00f7e0)
  (.lf 0))) (.nd (.nd (.lf
  0xc84c0b42901bde0c8400b42502aec156b902ae4156b50c838156b101bda0c8340b42101bd60c8280b41d01bd20c81c0b41902ad4156ad02acc156a90c814156a501bce0c8100b4150c808156a101bca0c8040b41101bc60c7f80b40d01bc20c7ec0b40901bbe0c7e00b4050c7d81569d01bba0c7d40b40101bb60c7c80b3fd0c7c01569901bb20c7bc0b3f90c7b41569501bae0c7b00b3f5158b5337403373c)
  (.lf 0)) (.nd (.lf
  0xeb140eb100eb0c0eb080eb040eb000eafc0eaf80eaf40eaf00eaec0eae80eae40eae00eadc0ead80ead40ead00eacc0eac80eac41c4401c4301c4201c4101c4001c3f01c3e01c3d01c3c01c3b01c3a01c3901c3801c3701c3601c3501c3401c3301c3201c3101c3001c2f01c2e01c2d01c2c01c2b01c2a01c2901c2801c27015de5450a8479284791847908478f8478e8478d8478c8478b8478a84789847888)
  (.lf 0)))

def shaPos315 : BTree :=
  .nd (.nd (.nd (.lf
  0x23a0a83c0690901a2c14e2d01a2414e290a83414e25002360a83006905002320a820069010a81c14e210022e0a814068fd01a0c14e1d01a0414e190b7b414e150b7b01602124afc24b00068f924ae824aec068f524adc24ad8068f124ad024ac8068ed24abc24ab8068e924aac24ab0068e524aa024a98068e124a9024a88068dd24a8024a7c068d924a6824a70068d524a5c24a60068d124a4c24a50068cd)
  (.lf 0)) (.nd (.lf
  0x1dd281dd241dd181dd0c1dd001dcf41dce41dcdc1dccc4798800a4c1d7201d7181d7101d7081d7041d6f81d6f01d6e81d6e41d6d81d6d01d6c81d6c01d6b81d6b01d6ac1d6a01d6981d6901d6881d6801d6741d6681d65c1d6501d6441d63c1d6301d6281d61c4796800a3c1d0681d05c1d0501d0441d0381d0301d0241d0181d0081cffc1cff41cfe41cfd81cfd41cfc01cfb41cfb01cfa41cf941cf8c1cf78)
  (.lf 0))) (.nd (.nd (.lf
  0x4a1ac4a1884a1784a1604a1404a12c4a1144a0f84a0e44a0cc4a0b04a09c4a0884a0684a0544a0404a02849d3049d1849d0049cec49cd449cc049cac49f2449f0849eec49ecc49ec049f2c49f0c49ef049ed049eb449e9c49e8049e7049e5849e3849e2049e1049df049ddc49dc049da849d9449d7c49d6049d4c49a5c49a4449a2c49a14499f8499e4499d449c4c49c3049c1449bf849be449c5049c3449c18)
  (.lf 0)) (.nd (.lf
  0x48110480fc480e8480d4480c0480ac4809848084480704805c4804848034480204800c47ff847fe447fd047fbc47fa845a9c45a8c45a8045a6c45a5c45a5045a4045a3045a2036cb436ca836c9c36c9036c8436c7836c6c36c6036c5436c4836c3c36c3036c2436c1836c0c36c0036bf436be436bd836bd036bc036bb836bac36ba036b9436b8836b7c36b6c36b6436b5815c2d54b74654c4654946546465438)
  (.lf 0)))

def shaPos316 : BTree :=
  .nd (.nd (.nd (.lf
  0x64dd8003e90f5fc64dac003e50f5ec64d80003e10f5e464d58003dd0f5d864d34003d90f5c864d08003d50f5bc64ce4003d10f5b064cbc003cd0f5a864c90003c90f59864c68003c50f58c64c40003c1461fc49450003bd461ec49438003b9461dc49420003b5461cc49408003b1461bc493f0003ad461a0493d4003a946198493bc003a54618c493a8003a14617c493900039d4616c49378003994615849360)
  (.lf 0)) (.nd (.lf
  0x5ec085ebec5ebd05ebb45eb985eb7c5eb605eb445eb2c5eb145eafc5eae45eacc5eab45ea9c5ea845488c5489c5edb85ed985ed785ed585ed385ed185ecf85ecd85ecb85ec985ec785ec585ec3c5ec205ec045ebe85ebcc5ebb05eb945eb785eb5c5eb405eb285eb105eaf85eae05eac85eab05ea985ea805488813a7913a7513a7113a6d13a6913a6513a6113a5d13a5913a5513a5113a4d13a4913a4513a41)
  (.lf 0))) (.nd (.nd (.lf
  0xc574154a901aee0c5700a14d01aea0c5640a1490c55c154a501ae60c5580a14501ae20c54c0a1410c544154a101ade0c5400a13d01ada0c5340a1390c52c1549d01ad60c5280a135026c4154990c5201549501ad20c51c0a13101ace0c5100a12d01aca0c5040a129026b415491026ac1548d026a4154890654415485158a52fc302fc2c0a1252fc202fc1c0a1212fc102fc0c0a11d2fc002fbfc0a1192fbf0)
  (.lf 0)) (.nd (.lf
  0xdb8c0db880db840db800db7c0db780db740db700db6c0db680db640db600db5c0db580db540db500db4c157f8157e8157d8157c8157b8157a815798157841577815768157581574815738157281571815708156f8156e8156d8156c8156b8156a8156981568815678156681565815648156381562815d21546005b5785b5585b5385b5185b4f85b4d85b4b85b4985b4785b4585b4385b4185b3fc5b3e05b3c4)
  (.lf 0)))

def shaPos317 : BTree :=
  .nd (.nd (.nd (.lf
  0x20ee80562d20ed820ee00562920ec820ecc0562520ebc20eb80562120eac20eb00561d20e9820e9c0561920e8820e8c0561520e8020e7c0561120e6c20e680560d20e6020e5c0560920e4820e4c0560520e3820e400560120e2820e30055fd20e1820e1c055f920e0820e10055f520e0020df8055f120dec20df0055ed20de020dd8055e920dcc20dd0055e520dc020db8055e120da820db0055dd20d9c20da0)
  (.lf 0)) (.nd (.lf
  0x11780a1e80117001168011600a1dc0a1cc0a1c00a1b40a1ac0a1a0011580a1940b7400077e00a240b9840115001148011400b9780b97001138011300b9640b9580b9480112801120011180b940011100b9380b9240b9200b90c0110801100010f80b9040b8f40b8f00b8dc010f0064a00073a0040864f7864f4864f1864eec64ec064e9464e6864e3c64e1064de464db864d8c64d6064d3864d1064ce864cc0)
  (.lf 0))) (.nd (.nd (.lf
  0x628a0404cc0f24d62880404c00f24962860404b40f24554e84404a80f24154e684049c0f23d40488404900f23940478404800f23540468404700f23140458404600f22d40448404500f22940438404400f22540428404300f22140418404200f21d40408404100f219403f8404000f215403e8403f00f211403d8403e00f20d403c8403d00f209403b8403c00f205403a8403b00f20140398403a00f1fd40388)
  (.lf 0)) (.nd (.lf
  0x302d4159890c658027740c6400274c0c6280273c0c6100c6040c5f80c5ec0c5e0027340271c0c5bc0c5b00654c0033c05b9405b9005b8c05b8805b8405b8005b7c05b7805b7405b7005b6c05b6805b6405b6005b5c05b5805b5405b5005b4c05b4805b4405b4005b3c05b3805b3405b3005b2c05b2805b2405b20302c4302b4302a430294302843027430264302543024430234302243021430204301f4301e4)
  (.lf 0)))

def shaPos318 : BTree :=
  .nd (.nd (.nd (.lf
  0x2e9518b4018b4402e9118b2c18b3002e8d18b2018b2402e8918b1018b1402e8518b0418b0002e8118aec18af402e7d18ae418adc02e7918acc18ad002e7518abc18ac002e7118aac18ab402e6d18a9c18aa002e6918a945ea7802e6518a885ea5802e6118a7c5ea3802e5d18a6c5ea1802e5918a645e9f802e5518a585e9d802e5118a4c5e9b802e4d18a3c5e99802e4918a345e97802e4518a285e95802e41)
  (.lf 0)) (.nd (.lf
  0x695d0695a4695786954c69520694f8694d0694a869480694586943069408693e0693b869390691506912869100690d8690b069088690606903869010639b054cd0693646933469304692d8692ac692806925469228691fc691d0691a46917c691546912c69104690dc690b46908c690646903c6901468dd468dac68d8468d5c68d3468d0c68ce468cbc68c94638d054cbc68fe868fb868f8868f5c68f3068f04)
  (.lf 0))) (.nd (.nd (.lf
  0xc7a53764c376480c7a13763c376380c79d3762c376280c799376183761c0c7954849c3760c0c79148484376000c78d4846c375f40c78948458375ec0c78548444375e00c78148430375d40c77d4841c375c40c77948408375bc0c775483f4375b00c771483e0375a40c76d483cc375940c769483b83758c0c765483a4375800c76148390375740c75d4837c375640c759483683755c0c755483543754c0c751)
  (.lf 0)) (.nd (.lf
  0x22fe422fd422fc422fb022fa022f9422f8422f7022f6422f5422f4422f3022f2422f1022f0022ef4148bd0068408b0c08b0808b0408b0008afc08af808af408af008aec08ae808ae408ae008adc08ad808ad408ad008acc08ac808ac408ac008abc08ab808ab408ab008aac08aa808aa408aa008a9c08a9822ee422ed422ec422eb422ea422e9422e8422e7422e6422e5422e4422e3422e2422e1422e0422df4)
  (.lf 0)))

def shaPos319 : BTree :=
  .nd (.nd (.nd (.lf
  0xabf015079003760abec07bc10abe415075003720abe007bbd0036e0abd407bb901e9c1507101e941506d0abcc150690036a0abc807bb5003660abbc07bb10abb815065003620abb407bad0035e0aba807ba90ab9c150610035a0ab9807ba5003560ab8c07ba1003520ab8007b9d0034e0ab7807b990034a0ab6807b950b7fc1505d2860c2861007b9128600285fc07b8d285f0285ec07b89285e0285dc07b85)
  (.lf 0)) (.nd (.lf
  0x49a5449a3c49a2449a0c499f4499dc499c4499b04999c4797447964499884996c499504993449918498fc498e4498cc498b44989c498844986c498544983c498244980c497f4497dc497c4497ac497944977c497644974c497344971c49704496ec496d8496c44795447944496b049698496804966849650496384962449610495fc495e8495d4495c0495ac4959849584495704955c4954849534495204950c)
  (.lf 0))) (.nd (.nd (.lf
  0x1169d1169911695116911168d1168911685116811167d1167911675116711166d11669116651166115ba947ce44edf84ede04edc84edb04ed984ed804ed6c4ed584ed444ed304ed1c4ed084ecf44ece04eccc4ecb84eca44ec904ec7c4ec684ec544ec404ec2c4ec184ec044ebf04ebdc4ebc84ebb84eba847cd81165d1165911655116511164d1164911645116411163d1163911635116311162d1162911625)
  (.lf 0)) (.nd (.lf
  0x1481954c70681fc681cc6819c681706814468118680ec680c068094680686803c6801467fec67fc467f9c67f7467f4c67f2467efc67ed467eac635546353463514634f4634d4634b46349461f2861f0c3d3d43d3c83d3bc3d3b03d3a43d3983d38c3d3803d3743d3683d35c3d3503d3443d3383d32c3d3203d3143d3083d2fc3d2f03d2e43d2d83d2cc3d2c03d2b43d2a83d29c3d2903d2843d27815ef154d2c)
  (.lf 0)))

def shaPos320 : BTree :=
  .nd (.nd (.nd (.lf 0x0) (.lf
  0x3e8143e8043e7f43e7e43e7d43e7c43e7b43e7a43e7943e7843e7743e7643e7543e7443e7343e7243e7143e7043e6f43e6e43e6d43e6c43e6b43e6a41482954cc068fec68fbc68f8c68f6068f3468f0868edc68eb068e8468e5868e2c68e0468ddc68db468d8c68d6468d3c68d1468cec68cc468c9c638d4638b463894638746385463834638146200861fec3e6943e6883e67c3e6703e6643e6583e64c3e640))
  (.nd (.lf
  0x11c6d11c6911c6511c6111c5d11c5911c5511c5111c4d11c4911c4511c4111c3d11c3911c3511c3115bd947e0450a7850a6050a4850a3050a1850a00509ec509d8509c4509b05099c5098850974509605094c509385092450910508fc508e8508d4508c0508ac5089850884508705085c50848508385082847df811c2d11c2911c2511c2111c1d11c1911c1511c1111c0d11c0911c0511c0111bfd11bf911bf5)
  (.lf 0))) (.nd (.nd (.lf
  0x7f412912c2913007f3d2911c2912007f39291082910c07f3529100290fc07f31290e8290ec07f2d290d8290e007f29290d0290c807f25290c0290bc07f21290a8290b007f1d2909c2909807f192908c2909007f152907c2907807f11290682906c07f0d2905c2906007f092904c2905007f052903c2903807f012902c2903007efd290202901c07ef92900c2901007ef528ff82900007ef128ff028fec07eed)
  (.lf 0)) (.nd (.lf
  0x4d9444d9304d91c4d9084d8f44d8e04d8cc4d8bc4d8ac47c1c47c104d89c4d8844d86c4d8544d83c4d8244d8104d7fc4d7e84d7d44d7c04d7ac4d7984d7844d7704d75c4d7484d7344d7204d70c4d6f84d6e44d6d04d6bc4d6a84d6944d6804d66c4d65c4d64c47c0447bf84d63c4d6244d60c4d5f44d5dc4d5c44d5b04d59c4d5884d5744d5604d54c4d5384d5244d5104d4fc4d4e84d4d44d4c04d4ac4d498)
  (.lf 0)))

def shaPos321 : BTree :=
  .nd (.nd (.nd (.lf
  0x3295199641996003291199501994c0328d1994019944032891992c1993003285199201991c0328119914199100327d199041990003279198f0198f403275198e4198dc03271198d4198cc0326d198c0198bc03269198ac198b403265198a4198a00326119890198940325d198801988403259198741986c03255198601985c032511984c198500324d198441983c03249198341983003245198201982403241)
  (.lf 0)) (.nd (.lf
  0x66e6466e3c66e1466dec66dc466d9c66d7466d4c630fc630dc630bc6309c6307c6305c6303c66ae466abc66a9454bfc66d2466cf466cc466c9866c6c66c4066c1466be866bbc66b9066b6466b3866b1066ae866ac066a9866a7066a4866a20669f8669d06301c62ffc62fdc62fbc62f9c62f7c62f5c66768667406671854be8669a866978669486691c668f0668c4668986686c6684066814667e8667bc66794)
  (.lf 0))) (.nd (.nd (.lf
  0xcba5488d0383a40cba1488bc383980cb9d488a83838c0cb9948894383800cb9548880383780cb914886c3836c0cb8d488583835c0cb8948844383500cb8548830383480cb814881c3833c0cb7d48808383300cb7945d70383240cb7545d60383140cb7145d50383080cb6d45d40383000cb6945d30382f00cb6545d20382e80cb6145d10382d80cb5d45d00382cc0cb5945cf0382c40cb5566634382b40cb51)
  (.lf 0)) (.nd (.lf
  0x2437424364243542434424334243242431424304242f4242e4242d4242c4242b4242a4148c90069c08c7408c7008c6c08c6808c6408c6008c5c08c5808c5408c5008c4c08c4808c4408c4008c3c08c3808c3408c3008c2c08c2808c2408c2008c1c08c1808c1408c1008c0c08c0808c0408c0024294242842427424264242542424424234242242421424204241f4241e4241d4241c4241b4241a42419424184)
  (.lf 0)))

def shaPos322 : BTree :=
  .nd (.nd (.nd (.lf
  0x56248007e9103dc56228007e5103cc56208007e1103c4561e8007dd103b4561c8007d9103ac561a8007d5103a056188007d11039456168007cd1038856148007c9103785612c007c51036c56110007c110364560f4007bd10358560d8007b910348560bc007b51033c560a0007b11033456084007ad1032856068007a91031c5604c007a51030c56030007a110300560180079d102f45600000799102e855fe8)
  (.lf 0)) (.nd (.lf
  0x606886066c606506063460618605fc605e0605c4605ac605946057c605646054c605346051c60504549cc549dc6083860818607f8607d8607b86079860778607586073860718606f8606d8606bc606a060684606686064c6063060614605f8605dc605c0605a860590605786056060548605306051860500549c813e7913e7513e7113e6d13e6913e6513e6113e5d13e5913e5513e5113e4d13e4913e4513e41)
  (.lf 0))) (.nd (.nd (.lf
  0x307c0307bc0a4f5307b0307ac0a4f1307a03079c0a4ed307903078c0a4e9307803077c0a4e5307703076c0a4e1307603075c0a4dd307503074c0a4d9307403073c0a4d5307303072c0a4d1307203071c0a4cd307103070c0a4c930700306fc0a4c5306f0306ec0a4c1306e0306dc0a4bd306d0306cc0a4b9306c0306bc0a4b5306b0306ac0a4b1306a03069c0a4ad306903068c0a4a9306803067c0a4a530670)
  (.lf 0)) (.nd (.lf
  0x16c1416c0816bfc16bf016be016bd816bcc16bc016bb416071063bc0de900de8c0de880de840de800de7c0de780de740de700de6c0de680de640de600de5c0de580de540de500de4c0de480de440de400de3c0de380de340de300de2c0de280de240de200de1c16ba816b9816b8816b7816b6816b5416b4816b3816b2816b1816b0816af816ae816ad816ac816ab816aa816a9816a8816a7816a6816a5816a48)
  (.lf 0)))

def shaPos323 : BTree :=
  .nd (.nd (.nd (.lf
  0x59a14b878489540599d4b85c48940059994b8404892c059954b82848918059914b810489040598d4b7fc488f0059894b7e4488dc059854b7cc488c8059814b7b4488b40597d4b79c488a0059794b7804888c059754b76848878059714b754488640596d4b73848850059694b72048838059654b70c48828059614b6f04880c0595d4b6d8487f8059594b6c045d64059554b6ac45d58059514b69445d480594d)
  (.lf 0)) (.nd (.lf
  0xa9f001cb001ca80a9e001ca001c980a9d801c9001c880a9c801c800a9c00b7d400d32004d000bd001c7801c700c02801c6801c600c01401c5801c500c00c0bffc0bff401c4801c400bfe401c3801c3001c280bfd801c200bfcc0bfc001c1801c100bfb801c0801c0001bf801bf00bfb0064f800cfe00bbc01be80bfa401be001bd801bd00bf9801bc80bf8401bc00bf800bf740bf680bf540bf480bf3c0bf30)
  (.lf 0))) (.nd (.nd (.lf
  0x41208412100f64d411f8412000f649411e8411f00f645411d8411e00f641411c8411d00f63d411b8411c00f639411a8411b00f63541198411a00f63141188411900f62d41178411800f62941168411700f62541158411600f62141148411500f61d41138411400f61941128411300f61541118411200f61141108411100f60d410f8411000f609410e8410f00f605410d8410e00f601410c8410d00f5fd6af58)
  (.lf 0)) (.nd (.lf
  0x316d4316c4316b4316a43169431684159950c7300c7240c7180289c0288c028840c6e80c6dc0c6d00c6c40287c0286c0c6a00c694028640285c0c6700c664065540035405cfc05cf805cf405cf005cec05ce805ce405ce005cdc05cd805cd405cd005ccc05cc805cc405cc005cbc05cb805cb405cb005cac05ca805ca405ca005c9c05c9805c9405c9005c8c05c8831674316643165431644316343162431614)
  (.lf 0)))

def shaPos324 : BTree :=
  .nd (.nd (.nd (.lf
  0xa041ba601ba501ba401ba301ba201ba101ba001b9f01b9e01b9d01b9c01b9b01b9a01b9901b9801b9701b9601b9501b9401b9301b9201b9101b9001b8f01b8e01b8d01b8c01b8b01b8a01b89006478009fc1b7181b7081b6f81b6e81b6d81b6c81b6b81b6a81b6981b6881b6781b6681b6581b6481b6381b6281b6181b6081b5f81b5e81b5d81b5c81b5b81b5a81b5981b5881b5781b5681b5581b54806470)
  (.lf
  0x44ffc44ff444fec44fe444fdc44fd444fcc44fc444fbc44fb444fac44fa444f9c44f9444f8c44f8444f7c44f7444f6c44f6444f5c44f5444f4c44f4444f3c44f3444f2c44f2415e45005ec08224082200821c0821808214082100820c082080820408200081fc081f8081f4081f0081ec081e8081e4081e0081dc081d8081d4081d0081cc081c8081c4081c0081bc081b8081b4081b044f1c44f0c44efc44eec))
  (.nd (.lf
  0x1293d1293912935129311292d1292912925129211291d1291912915129111290d129091290512901128fd54328579cc579ac5798c5796c5794c5792c5790c578ec578cc578ac5788c5786c578505783457818577fc577e0577c4577a85778c57770577545773c577245770c576f4576dc576c4576ac576945431454324579c8579a85798857968579485792857908578e8578c8578a857888578685784c57830)
  (.lf 0))) (.nd (.nd (.lf
  0x2ccac092152cca02cc9c092112cc902cc8c0920d2cc802cc7c092092cc702cc6c092052cc602cc5c092012cc502cc4c091fd2cc402cc3c091f92cc302cc2c091f52cc202cc1c091f12cc102cc0c091ed2cc002cbfc091e92cbf02cbec091e52cbe02cbdc091e12cbd02cbcc091dd2cbc02cbbc091d92cbb02cbac091d52cba02cb9c091d12cb902cb8c091cd2cb802cb7c091c92cb702cb6c091c52cb602cb5c)
  (.lf 0)) (.nd (.lf
  0xff9c0ff900ff800ff740ff6c15c95062b40cf180cf140cf100cf0c0cf080cf040cf000cefc0cef80cef40cef00ceec0cee80cee40cee00cedc0ced80ced40ced00cecc0cec80cec40cec00cebc0ceb80ceb40ceb00ceac0cea80cea40ff600ff500ff400ff300ff1c0ff100ff000fef00fee00fed00fec00feb00fea00fe8c0fe7c0fe700fe600fe500fe400fe300fe200fe100fe000fdec0fde00fdcc0fdc0)
  (.lf 0)))

def shaPos325 : BTree :=
  .nd (.nd (.nd (.lf
  0x45284046d549ebc45278046d149ea44526c046cd49e8c45260046c949e6c45254046c549e5045248046c149e444523c046bd49e2c45230046b949e1445224046b549df845218046b149de04520c046ad49dc845200046a949db0451f4046a549d90451e8046a149d80451dc0469d49d68451d00469949d50451c40469549d38451b80469149d201dd2c0468d49d081dd1c0468949ce81dd100468549cd01dd04)
  (.lf 0)) (.nd (.lf
  0x5a2f45a2d85a2bc5a2a05a2845a2685a2505a2385a2205a2085a1f05a1d85a1c05a1a8545205450c5a1905a1705a1505a1305a1105a0f05a0d05a0b05a0905a0705a0505a0305a01459ff859fdc59fc059fa459f8859f6c59f5059f3459f1859f0059ee859ed059eb859ea059e8859e7059e58544f8544e459e4059e2059e0059de059dc059da059d8059d6059d4059d2059d0059ce059cc459ca859c8c59c70)
  (.lf 0))) (.nd (.nd (.lf
  0x3cac80e0f93cac03cab80e0f53cab03caa80e0f13caa03ca980e0ed3ca903ca880e0e93ca803ca780e0e567b083ca700e0e167ad83ca640e0dd67aa83ca580e0d967a7c3ca4c0e0d567a503ca400e0d167a243ca340e0cd679f83ca280e0c9679cc3ca1c0e0c5679a03ca100e0c1679743ca040e0bd679483c9f80e0b9679203c9ec0e0b5678f83c9e00e0b1678d03c9d40e0ad678a83c9c80e0a9678803c9bc)
  (.lf 0)) (.nd (.lf
  0x557805574055700556c0556805564055600555c0555805554055500554c0554805544055400553c0553805534055300552c0552805524055200551c0551805514055100550c055082ad742ad642ad542ad442ad342ad242ad142ad042acf42ace42acd42acc42acb42aca42ac942ac842ac742ac642ac542ac442ac342ac242ac142ac042abf42abe42abd42abc42abb42aba4149090071c093f4093f0093ec)
  (.lf 0)))

def shaPos326 : BTree :=
  .nd (.nd (.nd (.lf
  0x14eac5acb401d3d14e9c5ac9801d3914e945ac7c01d3514e845ac6001d3114e7c5ac4801d2d14e705ac3001d2914e645ac1401d2514e545abfc01d2114e485abe401d1d14e405abcc01d1914e305abb801d1514e285ab9c01d1114e1414e1801d0d14e0c14e0801d0914df414df801d0514de814de401d0114dd814ddc01cfd14dc414dc801cf914db414db801cf514da814da401cf114d9414d9c01ced14d84)
  (.lf 0)) (.nd (.lf
  0x3dfb43dfa83df9c3df903df843df783df6c3df603df543df483df3c3df303df243df1848e3000fb43dbc43dbb83dbac3dba03db943db883db7c3db703db643db583db4c3db403db343db283db1c3db103db043daf83daec3dae03dad43dac83dabc3dab03daa43da983da8c3da803da743da6848e2400fa83d7143d7083d6fc3d6f03d6e43d6d83d6cc3d6c03d6b43d6a83d69c3d6903d6843d6783d66c3d660)
  (.lf 0))) (.nd (.nd (.lf
  0xb7d1343103430c0b7cd34300342fc0b7c9342f0342ec0b7c5342e0342dc0b7c1342d0342cc0b7bd342c0342bc0b7b9342b0342ac0b7b5342a03429c0b7b1342903428c0b7ad342803427c0b7a9342703426c0b7a5342603425c0b7a1342503424c0b79d342403423c0b799342303422c0b795342203421c0b791342103420c0b78d34200341fc0b789341f0341ec0b785341e0341dc0b781341d0341cc0b77d)
  (.lf 0)) (.nd (.lf
  0x84f0084ec084e8084e4084e0084dc084d8084d4084d0084cc084c8084c4084c0084bc084b8084b4084b0084ac084a8084a4084a00849c0849808494084900848c0848808484084801d9041d8f41d8e01d8d41d8c41d8b41d8a41d8941d8841d8741d8641d8541d8441d8341d8241d8141d8041d7f01d7e41d7d41d7c01d7b41d7a01d7941d7841d7741d7641d7541d7401d734159d14797849c4849c2c49c10)
  (.lf 0)))

def shaPos327 : BTree :=
  .nd (.nd (.nd (.lf
  0x255c0255bc06c81255a8255b006c7d25598255a006c79255882558c06c75255802557806c71255702556806c6d2555c2555806c692554c2554806c652553c2554006c61255302552c06c5d255182551c06c592550c2551006c55254fc2550006c51254e8254ec06c4d254e0254d806c49254cc254d006c45254bc254b806c41254a8254ac06c3d2549c254a006c39254882549006c35254802547c06c3125468)
  (.lf 0)) (.nd (.lf
  0x27b1827b1027b0827b0027af827af027ae827ae027ad848d8000bf82753027528275202751c275102750827500274fc274f0274e8274e0274d8274d0274c8274c0274bc274b0274a8274a0274982749027488274802747827474274682746027458274502744848d7400be826ea026e9826e9026e8826e8026e7826e7026e6826e6026e5c26e5026e4826e4026e3826e3026e2826e2026e1826e1026e0826e00)
  (.lf 0))) (.nd (.nd (.lf
  0x4df684df504df384df244df104defc4dee84ded44dec04deac4de984de844de704de5c4de484de344de204dbb04db9c4db884db744db604db4c4db384dd4c4dd344dd1c4dd044dcec4dd504dd384dd204dd084dcf04dcd84dcc44dcb04dc9c4dc884dc744dc604dc4c4dc384dc244dc144dc004dbec4dbd84dbc44d94c4d9384d9244d9104d8fc4d8e84d8d84daec4dad44dabc4daa44da944daf04dad84dac0)
  (.lf 0)) (.nd (.lf
  0x380b4380a43809438084380743806438054380403803438024380143800037ff037fe437fd437fc437fb437fa437f9037f84147d1455e4487f0487d8487c0487ac4879848784487704875c4874848734487204870c486f8486e4486d0486bc486a848694486804866c4865845cdc45cd045cbc45cb045c9c45c8c45c8045c6c45c5c37f7437f6837f5c37f4c37f4437f3837f2c37f1c37f1037f0837efc37ef0)
  (.lf 0)))

def shaPos328 : BTree :=
  .nd (.nd (.nd (.lf
  0x8f0148f0148e4148d8148cc148c0148b4148a8148a41489814884148781486c14860148581484c1483c1483014824148181481014804147f8147e8147e0147d0147c4147b8147ac147a4147945454c008e8145a81459c1459014584145781456c1456014554145481453c1453014524145201451014500144f4144e8144dc144d0144c4144b8144ac144a81449c14490144841447014464144581445454524)
  (.lf
  0x41bc441bb441ba441b9441b8441b7441b6441b5441b4441b3441b2441b1441b0441af441ae441ad441ac441ab441aa441a9441a8441a7441a6441a5441a4441a341485554da06b64c6b61c6b5ec6b5c06b5946b5686b53c6b5106b4e46b4b86b48c6b4606b4386b4106b3e86b3c06b3986b3706b3486b3206b2f864278642586423864218641f8641d8641b8622706225441a2441a1841a0c41a00419f4419e8))
  (.nd (.lf
  0x5c9205c9005c8e05c8c05c8a05c8845c8605c8405c8205c7fc5c7e05c7c45c7a85c78c5c7705c7545c7385c3cc5c3b05c3985c5ec5c5cc5c5ac5c58c5c56c5c54c5c52c5c50c5c4ec5c4cc5c4b45c5f05c5d05c5b05c5905c5705c5505c5305c5105c4f05c4d05c4ac5c4905c4745c4585c43c5c4205c4045c3e85c07c5c0605c0445c29c5c27c5c25c5c23c5c21c5c1fc5c1dc5c1bc5c19c5c17c5c15c5c2a0)
  (.lf 0))) (.nd (.nd (.lf
  0x2ae48088752ae402ae38088712ae302ae280886d2ae202ae18088692ae102ae08088652ae002adf8088612adf02ade80885d2ade02add8088592add02adc8088552adc02adb8088512adb02ada80884d2ada02ad98088492ad902ad88088452ad802ad780884100fb600fb200fae00faa00fa600fa200f9e00f9a00f9600f9200f8e00f8a00f8600f8200f7e0ae70021d40ae54021bc0ae400ae34021b40216c)
  (.lf 0)) (.nd (.lf
  0x4d3f44d3e447be447bf04d6344d61c4d6044d5ec4d5d44d5bc4d3484d3344d3204d30c4d2f84d2e44d2d04d2bc4d2a84d2944d2804d26c4d2584d2444d2304d21c4d2084d1f44d1e04d1cc4d1b84d1a44d1944d18447bcc47bd84d3d04d3bc4d3a44d38c4d3744d35c4d0e84d0d44d0c04d0ac4d0984d0844d0704d05c4d0484d0344d0204d00c4cff84cfe44cfd04cfbc4cfa84cf944cf804cf6c4cf584cf44)
  (.lf 0)))

def shaPos329 : BTree :=
  .nd (.nd (.nd (.lf
  0x1be984935403d3d1be8c4933c03d391be804932403d351be744930c03d311be68492f403d2d1be60492dc03d291be54492c403d251be48492ac03d211be3c4929403d1d1be304927c03d191be204926403d151be184924c03d111be0c4923403d0d1be004921c03d091bdf44920403d051bde4491ec03d011bdd8491d403cfd1bdd0491bc03cf91bdc4491a403cf51bdb84918c03cf11bda41bdac03ced1bd94)
  (.lf 0)) (.nd (.lf
  0x26acc26abc26aac26a9c26a8c26a7c26a6c26a6426a5026a3c26a2826a1826a0c269f80028000bcc2653c265282651826508264f8264f0264e0264c8264bc264b0264a42648c2647c2646c26458264502643c264282641c2640c263f8263f4263e4263c8263b8263a82639c2638c2637c263700027800bb825ea825ea025e8c25e7825e7425e5825e4825e3825e2825e1825e0825df825dec25dd825dd425db8)
  (.lf 0))) (.nd (.nd (.lf
  0x67f383a76c0d64d67f103a75c0d64967ee83a7540d64567ec03a7480d641635643a73c0d63d635443a7300d639635243a7240d635635043a7180d631634e43a7080d62d634c43a7000d629634a43a6f40d62561f343a6e80d62161f183a6dc0d61d3a6c83a6d00d6193a6b83a6c00d6153a6ac3a6b00d6113a6a03a6980d60d3a6883a68c0d6093a6783a67c0d6053a66c3a6680d6013a65c3a6580d5fd3a64c)
  (.lf 0)) (.nd (.lf
  0x51600515c0515805154051500514c05148278f4278e4278d4278c4278b4278a427894278842787427864278542784027834278202781427800277f4277e0277d4277c4277b4277a42779427784277702776427750277402773427724148e9006dc09034090300902c0902809024090200901c0901809014090100900c09008090040900008ffc08ff808ff408ff008fec08fe808fe408fe008fdc08fd808fd4)
  (.lf 0)))

def shaPos330 : BTree :=
  .nd (.nd (.nd (.lf
  0x12951294c12954012911293c129400128d1292c12930012891291c12920012851290c1291001281128fc129040127d128ec128f001279128dc128e001275128cc128d401271128bc128c40126d128ac128b0012691289c128a0012651288c12890012611287c128840125d1286c12870012591285c12860012551284c12854012511283c128400124d1282c128300124912820587180124512814586f801241)
  (.lf 0)) (.nd (.lf
  0x3b8883b8783b8683b8583b84c3b83c3b82c3b81c3b8103b7fc3b7e83b7e03b7d03b7bc000c000f503b4d83b4cc3b4bc3b4a83b4983b48c3b4803b46c3b4583b4483b4383b4343b41c3b4103b4043b3f43b3dc3b3cc3b3bc3b3a83b3a43b3883b3803b36c3b3603b3483b3443b3283b3183b314000b800f443b0343b0243b0083b0003afe83afdc3afcc3afb83afb03af9c3af903af843af6c3af583af483af3c)
  (.lf 0))) (.nd (.nd (.lf
  0xae2932428324300ae2532418324200ae2132408324100ae1d323f8324000ae19323e8323f00ae15323d8323e00ae11323c8323d00ae0d323b8323c00ae09323a8323b00ae0532398323a00ae010144a01446014420143e0143a01436014320142e0142a01426014220141e0141a029940298c0297c0b5180295c0b50002944029240b4dc0291c0b4c40b4b80b8a80b53c156050068e0b5380adfd0298415601)
  (.lf 0)) (.nd (.lf
  0x1a2401a2301a2201a2101a2001a1f01a1e01a1d01a1c01a1b01a1a01609554998601a86018860168601486012860108600e8600c8600a86008860068600486002c600105fff45ffd85ffbc5ffa05ff845ff685ff4c5ff305ff185ff005fee85fed05feb85fea05fe885fe701a1901a1801a1781a1681a1601a1501a1481a1381a12c1a1201a1141a10c1a1001a0f01a0e41a0d81a0d01a0c41a0b81a0ac1a0a0)
  (.lf 0)))

def shaPos331 : BTree :=
  .nd (.nd (.nd (.lf
  0xb7200b6e00b6a00b66018660bdd4062fd018620bdcc062f90185e0bdc0062f50bdb814d8d0185a0bdb0062f1018e414d89018dc14d85018d414d81018cc14d7d018c414d790bdac14d75018560bda4062ed018520bd9c062e90184e0bd90062e5018b414d71018ac14d6d0bd8814d690184a0bd80062e1018460bd74062dd0bd7014d65018420bd6c062d90bd6414d610183e0bd60062d50183a0bd54062d1)
  (.lf 0)) (.nd (.lf
  0x2731427304272ec272dc272d4272c4272b4272a0272902727c27274004d800be426db426da426d8c26d8026d6826d6426d4c26d4426d2c26d2026d0826d0426cf026cdc26ccc26cbc26cac26c9c26c9026c7c26c6c26c5826c4826c3826c2c26c1c26c0c26bfc26bec26bdc00bd4267202670c266fc266f0266e4266d4266c0266b42669c266902667c2666c26658266482664426630266242661026604265f0)
  (.lf 0))) (.nd (.nd (.lf
  0x43580100f9530d443574100f5530b443568100f1530944355c100ed5307443550100e95305443544100e55303843538100e15301c4352c100dd5300043520100d952fe443514100d552fc843508100d152fac434fc100cd490b0434f0100c94909c434e4100c546d4c434d8100c146d34434cc100bd46d1c434c0100b946d04434b4100b546cec434a8100b146cd44349c100ad46cbc43490100a946ca443484)
  (.lf 0)) (.nd (.lf
  0x34bc434bb434ba434b9434b8434b7434b6434b5434b4434b3434b2434b1434b04159b500394060bc060b8060b4060b0060ac060a8060a4060a00609c0609806094060900608c0608806084060800607c0607806074060700606c0606806064060600605c0605806054060500604c0604834af434ae434ad434ac434ab434aa434a9434a8434a7434a6434a5434a4434a3434a2434a1434a04349f4349e4349d4)
  (.lf 0)))

def shaPos332 : BTree :=
  .nd (.nd (.nd (.lf
  0x62d1062cf062cd062cb061d2c61d1066294662646629866268662386620c661e0661b4661886615c6613066104660d8660b062c7062c5062c3062c1062bf062bd061cf461cd865f1865ee865f1c65eec65ebc65e9065e6465e3865e0c65de065db465d8865d5c65d3462b9062b7062b5062b3062b1062af061cbc61ca065b9c65b6c65ba065b7065b4065b1465ae865abc65a8c65a6465a3865a0c659e0659b8)
  (.lf 0)) (.nd (.lf
  0x5c0f45c0d85c0bc5c0a05c0845c0685c04c5c0305c0185c0005bfe85bfd05bfb85bfa05bf885bf7054680133f9133f5133f1133ed133e9133e5133e1133dd133d9133d5133d1133cd133c9133c5133c1133bd133b9133b5133b1133ad133a9133a5133a11339d1339913395133911338d1338913385133811337d546705bf5c5bf3c5bf1c5befc5bedc5bebc5be9c5be7c5be5c5be3c5be1c5bdfc5bde05bdc4)
  (.lf 0))) (.nd (.nd (.lf
  0x2e9e009b612e9c82e9d009b5d2e9b82e9c009b592e9a82e9b009b552e9982e9a009b512e9882e99009b4d2e9782e98009b492e9682e97009b452e9582e96009b412e9482e95009b3d2e9382e94009b392e9282e93009b352e9182e92009b312e9082e91009b2d2e8f82e90009b292e8e82e8f009b252e8d82e8e009b212e8c82e8d009b1d2e8b82e8c009b192e8a82e8b009b152e8982e8a009b112e8882e890)
  (.lf 0)) (.nd (.lf
  0x135b8135a4135981358813578135641355415cf154470594545943459414593f4593d4593b45939459374593545933459314592f4592d8592bc592a059284592685924c5923059214591f8591dc591c4591ac591945917c591645914c591345912013548135381352c13524135181350c13500134f4134e8134dc134d0134c4134b8134ac134a013494134881347c13470134641345413448134401343413428)
  (.lf 0)))

def shaPos333 : BTree :=
  .nd (.nd (.nd (.lf
  0x14b510a52814b4d001320a524050490a51c14b490012e0a518050450012a0a50c05041001260a5000503d0147414b450a4f814b41001220a4f4050390011e0a4e8050350a4e014b3d0011a0a4dc05031001160a4cc0502d001120a4c4050290010e0a4b8050250010a0a4ac05021001060a4a00501d001020a49005019000fe0a484050150145c14b390b76c14b350b76815ffd1fc3c1fc38050111fc301fc28)
  (.lf 0)) (.nd (.lf
  0x59b4459b2c59b1459afc544c4544d859e3459e1459df459dd459db459d9459d7459d5459d34599c4599a059984599685994c5993059914598f8598dc598c0598a4598845986c598545983c598245980c597f4597dc597c4597ac5449c544b059ae459ac459aa459a8459a6459a4459a2459a04599e459674596505963459618595fc595e0595c4595a85958c5957059554595345951c59504594ec594d4594bc)
  (.lf 0))) (.nd (.nd (.lf
  0xeba56b5f83ee700eba16b5cc3ee640eb9d6b5a03ee580eb996b5743ee4c0eb956b5483ee400eb916b51c3ee340eb8d6b4f03ee280eb896b4c43ee1c0eb856b4983ee100eb816b46c3ee040eb7d6b4443edf80eb796b41c3edec0eb756b3f43ede00eb716b3cc3edd40eb6d6b3a43edc80eb696b37c3edbc0eb656b3543edb00eb616b32c3eda40eb5d6b3043ed980eb59642843ed8c0eb55642643ed800eb51)
  (.lf 0)) (.nd (.lf
  0x5924059200591c0591805914059100590c059080590405900058fc058f8058f4058f0058ec058e8058e4058e0058dc058d8058d4058d0058cc058c82e1f42e1e42e1d42e1c42e1b42e1a42e1942e1842e1742e1642e1542e1442e1342e1242e1142e1042e0f42e0e42e0d42e0c42e0b42e0a42e0942e0842e0742e0642e0542e0442e0342e024149290075c097b4097b0097ac097a8097a4097a00979c09798)
  (.lf 0)))

def shaPos334 : BTree :=
  .nd (.nd (.nd (.lf
  0x173e8027e9173dc173d8027e5173cc173c8027e1173bc173b8027dd173ac173a8027d91739c5d348027d5173905d328027d1173845d308027cd173785d2e8027c91736c5d2c8027c5173605d2a4027c1173545d284027bd173485d264027b91733c5d244027b5173305d224027b1173245d204027ad173185d1e4027a91730c5d1c8027a5173005d1ac027a1172f45d1900279d172e85d17402799172dc5d158)
  (.lf 0)) (.nd (.lf
  0x42c1c42c1042c0442bf842bec42be042bd442bc842bbc42bb042ba442b9842b8c42b8046200010784283042824428184280c42800427f4427e8427dc427d0427c4427b8427ac427a042794427884277c4277042764427584274c4274042734427284271c4271042704426f8426ec426e0426d448e780106c4237c4237042364423584234c4234042334423284231c4231042304422f8422ec422e0422d4422c8)
  (.lf 0))) (.nd (.nd (.lf
  0xc12535fd035fcc0c12135fc035fbc0c11d35fb035fac0c11935fa035f9c0c11535f9035f8c0c11135f8035f7c0c10d35f7035f6c0c10935f6035f5c0c10535f5035f4c0c10135f4035f3c0c0fd35f3035f2c0c0f935f2035f1c0c0f535f1035f0c0c0f135f0035efc0c0ed35ef035eec0c0e935ee035edc0c0e535ed035ecc0c0e135ec035ebc0c0dd35eb035eac0c0d9459e8474680c0d5459dc4744c0c0d1)
  (.lf 0)) (.nd (.lf
  0x20e7020e6420e5020e4420e3420e20148a90065c088b4088b0088ac088a8088a4088a00889c0889808894088900888c0888808884088800887c0887808874088700886c0886808864088600885c0885808854088500884c08848088440884020e1420e0420df420de420dd420dc420db420da420d9420d8420d7420d6420d5420d4420d3020d2420d1420d0420cf420ce420cd420cc420cb020ca420c9420c84)
  (.lf 0)))

def shaPos335 : BTree :=
  .nd (.nd (.nd (.lf
  0x75b9272e8272f0075b5272e0272d8075b1272cc272c8075ad272bc272b8075a9272a8272ac075a52729c27298075a12728c272880759d2728027278075992726c272680759500da600da200d9e00d9a00d9600d9200d8e00d8a00d8600d8200d7e00d7a00d7600d7200d6e00d6a0aae00aad40aac401d7c0aab001d740aa9801d6401d5c01d5401d2c01d2401d1c0aa440aa3801d140031a0aadc0759100316)
  (.lf 0)) (.nd (.lf
  0x27c5427c3c27c2c27c1827c1427bf827bf427be027bd4006e000bfc27708276f8276e8276d8276c8276bc276a8276a42768c276802766c276642764827638276282761827614275f8275ec275dc275c8275c0275b02759c275942757c2756827558275482753c006d800bec2707c270682705c2704827038270302701c2701426ffc26ff026fe426fd426fb826fa826f9c26f9026f7c26f7026f5826f4826f38)
  (.lf 0))) (.nd (.nd (.lf
  0x10ced10ce910ce510ce110cdd10cd910cd510cd110ccd10cc910cc510cc110cbd10cb910cb510cb115b5947afc4be744be584be3c4be204be044bde84bdd04bdb84bda04bd884bd704bd584bd404bd284bd104bcf84bce04bcc84bcb04bc984bc804bc684bc504bc384bc204bc084bbf04bbd84bbc44bbb047aec10cad10ca910ca510ca110c9d10c9910c9510c9110c8d10c8910c8510c8110c7d10c7910c75)
  (.lf 0)) (.nd (.lf
  0x3b4643b4543b4443b4303b4243b4143b4003b3f03b3e43b3d43b3c43b3b43b3a03b3943b3843b3743b3643b3543b3403b3343b3243b310147fd54be46699866968669386690c668e0668b4668886685c6683066804667d8667b066788667606673866710666e8666c06669c666746664c62f3862f1862ef862ed862eb862e9862e7861da461d883b3043b2f83b2ec3b2e03b2d43b2c83b2bc3b2ac3b2a43b298)
  (.lf 0)))

def shaPos336 : BTree :=
  .nd (.nd (.nd (.lf
  0x870114701146c114581144c1144811434114301141c1141811408113f8113ec113e4113d8113d0113c4113b0113ac113981138c1138411374113701135c1135811348113401132c1132411318542cc00868111301111c111181110c11100110f4110e0110dc110c8110c4110b0110ac110a011094110841107411068110641105411044110401102c1102011014110081100410ff810fe810fd810fd4542a4)
  (.lf
  0x647e4647b86478c647606473464708646dc646b064688646606463864610645e8645c0645986457064548628406282062800627e0627c0627a06278054e4c54e304014c4014040134401284011c4011040104400f8400ec400e0400d4400c8400bc400b0400a4400984008c4008040074400684005c4005040044400384002c4002040014400083fffc3fff015df90013c03d9403d9003d8c03d8803d8403d80))
  (.nd (.lf
  0x55f2055f0455ee455ec055e9c55e8455e6055e4455e1c55e0055de055dc455da855d8c55d7055d5455d38559cc559b05599855bf055bcc55bb055b8c55b6c55b4c55b2c55b1055af055ad455ab455bf455bd455bb455b9455b7055b5055b3055b1455aec55ad055aac55a9055a7455a5855a3c55a2455a04559e8556c8556b45569c558a0558885586c558505583855814557fc557e0557c0557a855788558a4)
  (.lf 0))) (.nd (.nd (.lf
  0x2084151690207c151650c19c15161019a60c198083f1019a20c188083ed0c1841515d0199e0c180083e90c178151590199a0c174083e50205c1515506514151511588d2a0502a04c083e12a03c2a040083dd2a0282a030083d92a0202a01c083d52a00c2a008083d129ff829ffc083cd29fe829ff0083c929fdc29fd8083c529fc829fd0083c129fc029fbc083bd29fb029fa8083b929f9829fa0083b529f8c)
  (.lf 0)) (.nd (.lf
  0x526fc526e4526cc526b45269c526845266c526585264447f6847f585263052614525f8525dc525c0525a45258c525745255c525445252c52514524fc524e4524cc524b45249c524845246c524545243c524245240c523f4523dc523c4523ac52394523805236c47f4847f38523585233c5232052304522e8522cc522b45229c522845226c522545223c522245220c521f4521dc521c4521ac521945217c52164)
  (.lf 0)))

def shaPos337 : BTree :=
  .nd (.nd (.nd (.lf
  0x1abf4037e91abdc1abe4037e51abcc1abd4037e11abbc1abc4037dd1abac1abb4037d91ab9c1aba4037d51ab8c1ab94037d11ab7c1ab84037cd1ab6c1ab74037c91ab6460b94037c51ab5460b74037c11ab4c60b54037bd1ab4060b34037b91ab3060b14037b51ab2460af4037b11ab1860ad4037ad1ab0c60ab4037a91ab0060a94037a51aaf460a74037a11aae860a540379d1aadc60a34037991aad460a18)
  (.lf 0)) (.nd (.lf
  0x46554465404652c4651846504464f0464dc464c8464b4464a4464944648446474464644645446310462fc462e845038464444642c46414463fc463e4463cc463b44639c463844636c463544633c463284631446300462ec462d8462c4462b04629c462884627446264462544624446234462244621453f8053f6053f40457b8541505412c54108540e4540c05409c5407854054540305400c53fe853fc453fa4)
  (.lf 0))) (.nd (.nd (.lf
  0x395900d0f961c38395800d0f567424395780d0f1673f4395680d0ed673c4395600d0e967398395500d0e56736c395480d0e1673403953c0d0dd673143952c0d0d9672e8395240d0d5672bc395180d0d167290395080d0cd67264394fc0d0c967238394f00d0c567210394e80d0c1671e8394dc0d0bd671c0394d00d0b967198394c00d0b567170394b40d0b167148394ac0d0ad671203949c0d0a9670f839494)
  (.lf 0)) (.nd (.lf
  0x4f7004f6c04f6825eb425ea425e9425e8425e7025e6425e5425e4425e3425e2425e1425e0425df425de425dd025dc425db425da425d9025d8425d7425d6425d5425d4425d3425d2425d1025d0425cf425ce4148d9006bc08e5408e5008e4c08e4808e4408e4008e3c08e3808e3408e3008e2c08e2808e2408e2008e1c08e1808e1408e1008e0c08e0808e0408e0008dfc08df808df408df008dec08de808de4)
  (.lf 0)))

def shaPos338 : BTree :=
  .nd (.nd (.nd (.lf
  0x116b4573f800d3d116a8573e000d3911698573c800d351168c573b000d31116805739800d2d116785738000d291166c5736400d251165c5734c00d211164c1165000d1d116441163c00d19116301163400d151161c1162400d11116101161400d0d116041160000d09115f0115ec00d05115dc115e400d01115d0115d400cfd115c0115bc00cf9115ac115b000cf51159c115a000cf1115941159000ced1157c)
  (.lf 0)) (.nd (.lf
  0x64e4464e1864dec64dc064d9464d6864d4064d1864cf064cc864ca064c7864c5064c28552d445a044943c494244940c493f4493dc493c4493ac493944937c493644934c493344931c49304492ec492d4492bc492a44928c492744925c492444922c49214491fc491e4491cc491b44919c49184459f4143d1143cd143c9143c5143c1143bd143b9143b5143b1143ad143a9143a5143a11439d143991439514391)
  (.lf 0))) (.nd (.nd (.lf
  0xa9a10c6881556901b4a0c6840a99d0c67c1556501b460c6780a99901b420c66c0a99501b3e0c6600a991158ad316703166c0a98d316603165c0a989316503164c0a985316403163c0a981316303162c0a97d316203161c0a979316103160c0a97531600315fc0a971315f0315ec0a96d315e0315dc0a969315d0315cc0a965315c0315bc0a961315b0315ac0a95d315a03159c0a959315903158c0a95531580)
  (.lf 0)) (.nd (.lf
  0x5e4e45e4c85e4ac5e4945e47c5e4645e44c5e4345e41c5e4085e3ec1875018744187381872c187201871418708186fc186ec186e4186d4186cc186c0186b4186a41869c1868c18680186781866c186601865418644186381863018624186181860c18600185f415d71063fc0e2500e24c0e2480e2440e2400e23c0e2380e2340e2300e22c0e2280e2240e2200e21c0e2180e2140e2100e20c0e2080e2040e200)
  (.lf 0)))

def shaPos339 : BTree :=
  .nd (.nd (.nd (.lf
  0x228f0228ec05e71228e0228d805e6d228c8228cc05e69228b8228c005e65228b0228a805e61228a02289c05e5d228882288c05e59228802287805e55228682287005e512285c2285805e4d228502284805e492283c2283805e452282c2283005e41228182281c05e3d228102280805e3922800227fc05e35227f0227ec05e31227e0227dc05e2d227d0227cc05e29227c0227bc05e25227b0227ac05e212279c)
  (.lf 0)) (.nd (.lf
  0x2b4802b4002b3802b3002b280c88402b200c87802b180c86c02b1006568014fa33ddc005d000e0402b080c86002b000c85402af80c8480c83c02af002ae802ae00c8300c8240c81802ad802ad002ac80c80c02ac00c8000c7f40c7e80c7dc02ab80c7d00c7c402ab00c7b802aa80c7ac06560014b2000300b5b802aa00b5ac0b5a002a9802a9002a8802a8002a7802a7002a6802a600b5940b5880b57c0b570)
  (.lf 0))) (.nd (.nd (.lf
  0xfba542398423a00fba142388423900fb9d6bd48423800fb996bd18423740fb956bce8423680fb916bcbc4235c0fb8d6bc90423500fb896bc64423440fb856bc38423380fb816bc0c4232c0fb7d6bbe0423200fb796bbb4423140fb756bb88423080fb716bb5c422fc0fb6d6bb34422f00fb696bb0c422e40fb656bae4422d80fb616babc422cc0fb5d6ba94422c00fb596ba6c422b40fb556ba44422a80fb51)
  (.lf 0)) (.nd (.lf
  0x33264332543324433234332243321433204331f4331e4331d4331c4331b4331a433194331843317433164331543314433134331243311433104330f4330e4330d4330c4159a50037405edc05ed805ed405ed005ecc05ec805ec405ec005ebc05eb805eb405eb005eac05ea805ea405ea005e9c05e9805e9405e9005e8c05e8805e8405e8005e7c05e7805e7405e7005e6c05e68330b4330a4330943308433074)
  (.lf 0)))

def shaPos340 : BTree :=
  .nd (.nd (.nd (.lf
  0x6a9c46a5a86a5806a5586a5306a5086a8586a8286a7f86a7cc6a7a06a7746a7486a71c6a6f06a6c46a6986a85c6a82c6a7fc6a7d06a7a46a7786a74c6a7206a6f46a6c86a69c6a6706a6486a22c6a2046a1dc6a1b46a18c6a4dc6a4ac6a47c6a4506a4246a3f86a3cc6a3a06a3746a3486a31c6a4e06a4b06a4806a4546a4286a3fc6a3d06a3a46a3786a34c6a3206a2f46a2cc69eb069e8869e6069e3869e10)
  (.lf 0)) (.nd (.lf
  0x59c8859c6c59c5059c3459c1859bfc59be059bc459bac59b9459b7c59b6459b4c59b3459b1c59b04544cc544dc59e3859e1859df859dd859db859d9859d7859d5859d3859d1859cf859cd859cbc59ca059c8459c6859c4c59c3059c1459bf859bdc59bc059ba859b9059b7859b6059b4859b3059b1859b00544c812e7912e7512e7112e6d12e6912e6512e6112e5d12e5912e5512e5112e4d12e4912e4512e41)
  (.lf 0))) (.nd (.nd (.lf
  0x96cd024a41537d0c4a81537901aaa0c4a4096c902494153750248c15371024841536d0c49c1536901aa60c498096c502474153650c4901536101aa20c48c096c10c4841535d01a9e0c480096bd0c4781535901a9a0c474096b9158a12db602db5c096b52db502db4c096b12db402db3c096ad2db302db2c096a92db202db1c096a52db102db0c096a12db002dafc0969d2daf02daec096992dae02dadc09695)
  (.lf 0)) (.nd (.lf
  0x5772c57714576fc576e4576d0576b8576a011b0811afc11aec11ae411ad411ac811ac011ab411aa411a9c11a9011a8411a7811a6c11a6011a5411a4411a3c11a2c11a2011a1811a0c11a00119f4119e8119d8119d0119c4119b8119a81600d062f40d2d80d2d40d2d00d2cc0d2c80d2c40d2c00d2bc0d2b80d2b40d2b00d2ac0d2a80d2a40d2a00d29c0d2980d2940d2900d28c0d2880d2840d2800d27c0d278)
  (.lf 0)))

def shaPos341 : BTree :=
  .nd (.nd (.nd (.lf
  0x1ee581ee5404bad1ee481ee4c04ba91ee3c1ee3404ba51ee241ee2c04ba11ee1c1ee1404b9d1ee041ee0804b991edfc1edf804b951ede41edec04b911eddc1edd804b8d1edc41edcc04b891edb81edbc04b851eda41edac04b811ed941ed9804b7d1ed841ed8c04b791ed741ed7c04b751ed681ed6c04b711ed541ed5c04b6d1ed441ed4c04b691ed341ed3c04b651ed241ed2804b611ed1c1ed1404b5d1ed0c)
  (.lf 0)) (.nd (.lf
  0x60cf460cd860cbc60ca060c8460c6860c5060c3860c2060c0860bf060bd860bc060ba854a2054a0c60b9060b7060b5060b3060b1060af060ad060ab060a9060a7060a5060a3060a14609f8609dc609c0609a4609886096c60950609346091860900608e8608d0608b8608a0608886087060858549f8549e4608406082060800607e0607c0607a06078060760607406072060700606e0606c4606a86068c60670)
  (.lf 0))) (.nd (.nd (.lf
  0x686c03dc940e64d686983dc880e649686703dc7c0e645686483dc700e641686203dc640e63d685f83dc580e639685d03dc4c0e635685a83dc400e631637183dc340e62d636f83dc280e629636d83dc1c0e625636b83dc100e621636983dc040e61d636783dbf80e619636583dbec0e61561f9c3dbe00e61161f803dbd40e60d6a8683dbc80e6096a8383dbbc0e6056a8083dbb00e6016a7dc3dba40e5fd6a7b0)
  (.lf 0)) (.nd (.lf
  0x23540234c023340232c02324002f40575c0575805754057500574c0574805744057400573c0573805734057300572c0572805724057200571c0571805714057100570c057080570405700056fc056f8056f4056f0056ec056e82c7b42c7a42c7942c7842c7742c7642c7542c7442c7342c7242c7142c7042c6f42c6e42c6d42c6c42c6b42c6a42c6942c6842c6742c6642c6542c6442c6342c6242c6142c604)
  (.lf 0)))

def shaPos342 : BTree :=
  .nd (.nd (.nd (.lf
  0x229516158161540229116148161440228d1613c16138022891612c16124022851611c16118022811610c161080227d160fc160f402279160e4160e802275160d4160dc02271160cc160c80226d160b8160bc02269160a8160ac02265160981609c0226116084160880225d1607416078022591606c16064022551605c1605802251160481604c0224d160381603c02249160281602c02245160141601802241)
  (.lf 0)) (.nd (.lf
  0x3961c3961039604395f8395ec395e0395d4395cc395bc395b0395a43959c3958c3958448d0000ef83922c392203921439208391fc391f0391e4391dc391cc391c4391b4391b03919c39190391843917c3916c39168391543914c3913c3913039124391183911439100390f4390ec390e4390d045e9400eec38d7c38d7038d6438d5838d4c38d4038d3438d2838d1c38d1038d0438cf838cec38ce038cd838ccc)
  (.lf 0))) (.nd (.nd (.lf
  0xbc850ca301579101c820ca2c0bc810ca241578d01c7e0ca200bc7d01c7a0ca140bc7901c760ca080bc750ca001578901c720c9fc0bc7101c6e0c9f00bc6d0c9e81578501c6a0c9e40bc6901c660c9d80bc6501c620c9cc0bc610c9c41578101c5e0c9c00bc5d02c741577d0c9b81577901c5a0c9b40bc59158c1351803517c0bc55351703516c0bc51351603515c0bc4d351503514c0bc49351403513c0bc45)
  (.lf 0)) (.nd (.lf
  0x86b0086ac086a8086a4086a00869c0869808694086900868c0868808684086800867c0867808674086700866c0866808664086601f3d41f3c41f3b41f3a41f3941f3841f3701f3601f3541f3441f3341f3241f3141f3041f2f41f2e41f2d41f2c41f2b41f2a41f2901f2841f2741f2641f2541f2441f2341f2241f2141f204159e147a004a7b84a79c4a7804a7644a7484a7304a7184a6fc4a6e84a6cc4a6b4)
  (.lf 0)))

def shaPos343 : BTree :=
  .nd (.nd (.nd (.lf
  0x19020bfa80714515881265382654007141265302652c0713d2651c2652007139265102650c07135264fc2650007131264ec264e80712d264dc264d807129264cc264d007125264b8264c007121264ac264a80711d264982649c0711926488264900711526478264800711126470264680710d264602645c071092644c2644807105264402643807101264302642c070fd2642026418070f92640826410070f5)
  (.lf 0)) (.nd (.lf
  0x34d1834d1034d0834d0034cf834cf034ce834ce034cd847f7c00e343473034728347203471c347143470c34700346fc346f4346e8346e0346dc346d0346c8346c0346bc346b0346ac346a43469c346903468c3468434678346743466c346603465c346543464c47f5c00e20340a434098340903408c340803407c3407034068340603405c340543404c340443403c34034340283402034018340103400834004)
  (.lf 0))) (.nd (.nd (.lf
  0x1477d1477914775147711476d1476914765147611475d1475914755147511474d14749147451474115c85529e0529c8529b05299852980529685295052bd052bb452b9852b7c52b6052bd452bb852b9c52b8052b6452b4852b3052b1852b0052ae852ad052ab852aa052a8852a7052a5852a4052a2852a10529f852708526f0526d8526c0526a85269052678528f8528dc528c0528a452888528fc528e0528c4)
  (.lf 0)) (.nd (.lf
  0x6763467608675dc675b067588675606753867510674e8674c0674986747067448632c0632a0632806326063240632206320061e8861e6c39a2c39a2039a1039a08399f8399f0399e4399d8399cc399c0399b0399a83999c3999039984399783996c3996039954399483993c3993039924399183990c39900398f4398e8398dc398cc15ed10008c03344033400333c0333803334033300332c033280332403320)
  (.lf 0)))

def shaPos344 : BTree :=
  .nd (.nd (.nd (.lf
  0x97017d7017d6417d5c17d4c17d4017d3417d2817d2017d1017d0817cf817cec17ce017cd817ccc17cbc17cb017ca417c9817c9017c8417c7417c7017c5c17c5017c4417c4017c3017c2017c18547cc0096817a3017a1c17a1817a04179f8179ec179e8179dc179c8179c4179b0179a4179981798c17980179741796c1795c17950179441793c17930179281791c17908178fc178f0178ec178dc178cc547a4)
  (.lf
  0x46d1846d0046ce846cd046cb846ca046c8846c7046c5846c4046c2c46c1846c0446bf046bdc46bc846bb446ba046b8c46b7846b6846b5846b4846b3846b2846b184583445828434dc434d0434c4434b8434ac434a043494434884347c4347043464434584344c4344043434434284341c4341043404433f8433ec433e0433d4433c8433bc433b0433a4433984338c4338015ad900194042bc042b8042b4042b0))
  (.nd (.lf
  0x557305571855700556e8556d0556b8556a05568855674556605564c556385562455610555fc555e854188123f9123f5123f1123ed123e9123e5123e1123dd123d9123d5123d1123cd123c9123c5123c1123bd123b9123b5123b1123ad123a9123a5123a11239d1239912395123911238d1238912385123811237d54178555d4555b85559c5558055564555485552c55510554f4554d8554bc554a05548855470)
  (.lf 0))) (.nd (.nd (.lf
  0x8d3d4f43069be808d394f41c69bc008d354f40869b9808d314f3f469b7008d2d4f3e069b4808d294f3cc69b2008d254f3b869af808d214f3a469ad008d1d4f39069aa808d194f37c69a8008d154f36863c4c08d114f35463c2c08d0d4f34063c0c08d094f32c63bec08d054f31863bcc08d014f30463bac08cfd4f2f063b8c08cf94f2e0620e008cf54f2d0620c408cf12bc702bc6808ced2bc602bc5808ce9)
  (.lf 0)) (.nd (.lf
  0x520a05208c47f2047f30523505233452318522fc522e0522c451fd451fbc51fa451f8c51f7451f5c51f4451f2c51f1451efc51ee451ecc51eb451e9c51e8451e6c51e5451e3c51e2451e0c51df451ddc51dc851db447f0047f10520785205c52040520245200851fec51d1451d0051cec51cd851cc451cb051c9c51c8851c7451c6051c4c51c3851c2451c1051bfc51be851bd451bc051bac51b9851b8451b70)
  (.lf 0)))

def shaPos345 : BTree :=
  .nd (.nd (.nd (.lf
  0x1ce701ce6c042051ce5c1ce60042011ce4c1ce50041fd1ce441ce40041f91ce341ce2c041f51ce201ce1c041f11ce0c1ce10041ed1ce041cdfc041e91cdf01cdec041e51cddc1cde0041e11cdd01cdd4041dd1cdc41cdc0041d91cdb01cdb4041d51cda01cda4041d11cd901cd8c041cd1cd7c1cd84041c91cd6c1cd70041c51cd5c1cd64041c11cd501cd4c041bd1cd3c1cd40041b91cd2c1cd30041b5007d6)
  (.lf 0)) (.nd (.lf
  0x33cc833cb833ca833c9833c8833c7833c6833c5833c4833c3833c2833c1833c0833bf80038000e0033738337283371833708336f8336e8336d8336c8336b8336a833698336883367833668336583364833638336283361833608335f8335e8335d8335c8335b8335a8335983358833578335680037800df0330a83309833088330783306833058330483303833028330183300832ff832fe832fd832fc832fb8)
  (.lf 0))) (.nd (.nd (.lf
  0xdba53b92c3b9280dba13b9203b9180db9d3b90c3b9080db993b9003b8f80db953b8f03b8e80db913b8e03b8d80db8d3b8cc3b8c80db893b8c03b8b80db853b8a83b8b00db813b8a03b8980db7d3b8903b88c0db793b8803b87c0db753b8703b86c0db713b8603b85c0db6d3b8483b8500db693b8403b8380db653b8283b8300db613b8203b8180db5d3b8083b80c0db593b8003b7f80db553b7f03b7ec0db51)
  (.lf 0)) (.nd (.lf
  0x538805384053800537c0537805374053700536c0536805364053600535c0535805354053500534c0534805344053400533c0533805334053300532c0532829330293242931029304292f4292e4292d4292c4292b0292a029294292802927429264292502924429234292202921429204291f4291e4291d4291c0291b4291a429194291842917429164148f9006fc09214092100920c092080920409200091fc)
  (.lf 0)))

def shaPos346 : BTree :=
  .nd (.nd (.nd (.lf
  0x13be0017e913bd459af8017e513bc859ad8017e113bbc59ab8017dd13bac59a94017d913ba459a74017d513b9459a54017d113b8c59a34017cd13b7c59a14017c913b74599f4017c513b68599d4017c113b5c599b4017bd13b5059994017b913b4059978017b513b385995c017b113b2c59940017ad13b2059924017a913b1059908017a513b04598ec017a113af8598d00179d13af0598b40179913ae059898)
  (.lf 0)) (.nd (.lf
  0xfcc00fcb40fca00fc9c0fc880fc800fc740fc640fc600fc540fc400fc340fc2c0fc20541b400840100c4100b8100ac100a010090100841007c1006c100601005c1004810040100301002c1001c1000c100040fffc0ffe80ffdc0ffd80ffc40ffb80ffb00ffa80ff940ff8c0ff840ff780ff68541dc010c44462c4461c4460c445fc445ec445dc445cc445bc445ac4459c4458c4457c4456c4455c4454c4453c)
  (.lf 0))) (.nd (.nd (.lf
  0xb2f151fe0463c00b2ed51fcc463a80b2e951fb0463900b2e551f9c463780b2e151f80463600b2dd51f6c463480b2d951f50463340b2d551f3c463200b2d151f244630c0b2cd51f08462f80b2c951ef4462e40b2c551edc462d00b2c151ec0462bc0b2bd51ea8462a80b2b951e90462940b2b551e78462800b2b151e64462700b2ad51e48462600b2a951e30462500b2a551e1c462400b2a151e00462300b29d)
  (.lf 0)) (.nd (.lf
  0xea040ea000e9fc0e9f80e9f40e9f00e9ec0e9e80e9e40e9e00e9dc0e9d80e9d41bdb01bda01bd901bd801bd701bd601bd501bd401bd301bd201bd101bd001bcf01bce01bcd01bcc01bcb01bca01bc901bc801bc701bc601bc501bc401bc301bc201bc101bc001bbf01bbe015ddd553046514465114650e4650b465084650546502464ff464fc464f9464f6464f3464f0864edc64eb064e8464e5864e2c64e00)
  (.lf 0)))

def shaPos347 : BTree :=
  .nd (.nd (.nd (.lf
  0x4c90c65c68067c94c8f865c40067c54c8e465c18067c14c8d065bf0067bd4c8bc65bc8067b94c8a862c8c067b54c89462c6c067b14c88062c4c067ad4c86c62c2c067a94c85862c0c067a54c84462bec067a14c83062bcc0679d4c82061cf0067994c81061cd406795246502464c06791246402463c0678d246302462c06789246202461c06785246082461006781245f8246000677d245f0245e806779245d8)
  (.lf 0)) (.nd (.lf
  0x34b7c34b6c34b5c34b4c34b3c34b2c34b1c34b0c34afc005e000e303463c3462c3461c3460c345fc345ec345dc345cc345bc345ac3459c3458c3457c3456c3455c3454c3453c3452c3451c3450c344fc344ec344dc344cc344bc344ac3449c3448c3447c3446c005d800e1c33fac33f9c33f8c33f7c33f6c33f5c33f4c33f3c33f2c33f1c33f0c33efc33eec33edc33ecc33ebc33eac33e9c33e8c33e7c33e6c)
  (.lf 0))) (.nd (.nd (.lf
  0x447c0447bc1064d447b0447ac10649447a04479c10645447904478c10641447804477c1063d447704476c10639447604475c10635447504474c10631447404473c1062d447304472c10629447204471c10625447104470c1062144700446fc1061d446f0446ec10619446e0446dc10615446d0446cc10611446c0446bc1060d446b0446ac10609446a04469c10605446904468c10601446804467c105fd44670)
  (.lf 0)) (.nd (.lf
  0xcc8c0cc880cc840cc800cc7c0cc780cc740cc700cc6c0cc680cc640cc600cc5c0cc580cc540cc500cc4c0cc480cc440cc40366243661436604365f4365e4365d4365c4365b4365a436594365843657436564365543654436534365243651436504364f4364e4364d4364c4364b4364a4364943648436474364643645415aed006040838c0838808384083800837c0837808374083700836c083680836408360)
  (.lf 0)))

def shaPos348 : BTree :=
  .nd (.nd (.nd (.lf
  0x2956250c0f2f000291624e80f2e00028d624c40f2d400289624a00f2c8002856247c0f2c000281624540f2b00027d624340f2a400279624140f29c00275623f40f29000271623c80f2800026d623b00f274002696238c0f268002656236c0f25c00261623540f2500025d623340f248002590f238552c8002550f230552a0002510f220552780024d0f21455250002490f20855228002450f1fc5520000241)
  (.lf 0)) (.nd (.lf
  0x1393d1393913935139311392d1392913925139211391d1391913915139111390d139091390513901138fd548285e3cc5e3ac5e38c5e36c5e34c5e32c5e30c5e2ec5e2cc5e2ac5e28c5e26c5e2505e2345e2185e1fc5e1e05e1c45e1a85e18c5e1705e1545e13c5e1245e10c5e0f45e0dc5e0c45e0ac5e09454814548245e3c85e3a85e3885e3685e3485e3285e3085e2e85e2c85e2a85e2885e2685e24c5e230)
  (.lf 0))) (.nd (.nd (.lf
  0x6bbc40a015509b86bb980a011509a46bb6c0a00d509906bb440a0095097c6bb1c0a005509686baf40a001509546bacc09ffd509406baa409ff95092c6ba7c09ff5509186ba5409ff1509046ba2c09fed508f06ba0409fe9508dc6b9dc09fe5508c86442c09fe1508b46440c09fdd508a0643ec09fd95088c643cc09fd550878643ac09fd1508646438c09fcd508506436c09fc950840622d809fc550830622bc)
  (.lf 0)) (.nd (.lf
  0xda7c0da780da740da700da6c0da680da640da600da5c15168151581514815138151281511815108150f8150e8150d8150c8150b4150a41509415088150781506815054150441503815028150181500814ff814fe814fd414fc814fb814fa414f9815d19545b05aed45aeb45ae945ae745ae545ae345ae145adf45add45adb45ad945ad745ad585ad3c5ad205ad045ace85accc5acb05ac945ac785ac5c5ac44)
  (.lf 0)))

def shaPos349 : BTree :=
  .nd (.nd (.nd (.lf
  0x54d920a8020a7c054d520a6c20a70054d120a5820a5c054cd20a4c20a48054c920a4020a38054c520a3020a28054c120a1c20a20054bd20a0820a10054b9209fc209f8054b5209ec209e8054b1209d8209e0054ad209d0209c8054a9209bc209b8054a5209ac209a8054a120998209a00549d2099020988054992097c20978054952096c209680549100a1a00a1600a1200a0e00a0a00a0600a02009fe009fa)
  (.lf 0)) (.nd (.lf
  0x605446052c60514604fc549c4549d86083460814607f4607d4607b460794607746075460734603c4603a460384603686034c6033060314602f8602dc602c0602a4602886026c602546023c602246020c601f4601dc601c4601ac5499c549b0604e4604c4604a46048460464604446042460404603e4600746005460034600185fffc5ffe05ffc45ffa85ff8c5ff705ff545ff385ff1c5ff045feec5fed45febc)
  (.lf 0))) (.nd (.nd (.lf
  0x400580f0f9628444004c0f0f562824400400f0f162804400340f0ed627e4400280f0e9627c44001c0f0e5627a4400100f0e162784400040f0dd54e503fff80f0d954e343ffec0f0d53ffe03ffd80f0d13ffd03ffc80f0cd3ffc03ffb80f0c93ffb03ffa80f0c53ffa03ff980f0c13ff903ff880f0bd3ff803ff780f0b93ff703ff680f0b53ff603ff580f0b13ff503ff480f0ad3ff403ff380f0a93ff303ff28)
  (.lf 0)) (.nd (.lf
  0x2fcc42fcb42fca42fc942fc842fc742fc642fc542fc44159850c5a40c5980271402704026f40c568026e40c550026dc0c538026d4026cc0c5140c508026bc0033405b1c05b1805b1405b1005b0c05b0805b0405b0005afc05af805af405af005aec05ae805ae405ae005adc05ad805ad405ad005acc05ac805ac405ac005abc05ab805ab405ab005aac05aa82fc342fc242fc142fc042fbf42fbe42fbd42fbc4)
  (.lf 0)))

def shaPos350 : BTree :=
  .nd (.nd (.nd (.lf
  0x186a05e57402d3d186985e55802d39186885e53c02d351867c5e52002d31186745e50402d2d186685e4e802d291865c5e4cc02d251864c5e4b002d21186405e49802d1d186345e48002d19186285e46802d15186205e45002d11186145e43802d0d186085e42002d09185f85e40402d05185ec5e3f002d01185dc185e002cfd185cc185d002cf9185bc185c402cf5185ac185b002cf11859c185a002ced1858c)
  (.lf 0)) (.nd (.lf
  0x679e8679bc67990679646793867910678e8678c067898678706784867820677f8677d0677a8675706754867520674f8674d0674a8674806745867430632b054c30677846775467724676f8676cc676a067674676486761c675f0675c46759c675746754c67524674fc674d4674ac674846745c67434671f4671cc671a46717c671546712c67104670dc670b4631d054c1c67408673d8673a86737c6735067324)
  (.lf 0))) (.nd (.nd (.lf
  0x371e8371f00c64d371d8371dc0c649371cc371c80c645371c0371bc0c641371b0371ac0c63d371a03719c0c6393718c371900c6353717c371780c6313716c371680c62d482f03715c0c629482d8371540c625482c0371440c621482ac3713c0c61d482983712c0c61948284371240c61548270371180c6114825c3710c0c60d48248371000c60948234370f40c60548220370e40c6014820c370dc0c5fd481f8)
  (.lf 0)) (.nd (.lf
  0x228d4228c4228b4228a422890228842287422864148b90067c08a9408a9008a8c08a8808a8408a8008a7c08a7808a7408a7008a6c08a6808a6408a6008a5c08a5808a5408a5008a4c08a4808a4408a4008a3c08a3808a3408a3008a2c08a2808a2408a20228542284422834228202281422804227f4227e4227d4227c4227b4227a022790227842277422760227502274422734227242271422704226f0226e4)
  (.lf 0)))

def shaPos351 : BTree :=
  .nd (.nd (.nd (.lf
  0x4df0c67d0c07a814def867ce007a7d4dee467cb407a794ded067c8c07a754debc67c6407a714dea867c3807a6d4de9467c1407a694de8067bec07a654de6c67bc407a614de5867b9c07a5d4de4467b7407a594de3067b4c07a554de1c67b2407a514de086346c07a4d4ddf46344807a494dde06342c07a454ddcc6340c07a414ddb8633ec07a3d4dda4633cc07a394dd90633ac07a354dd8061ee807a314dd70)
  (.lf 0)) (.nd (.lf
  0x34e4834e3834e2834e1834e0834df834de834dd834dc8007e000e3834908348f8348e8348d8348c8348b8348a834898348883487834868348583484834838348283481834808347f8347e8347d8347c8347b8347a834798347883477834768347583474834738007d800e243427834268342583424834238342283421834208341f8341e8341d8341c8341b8341a834198341883417834168341583414834138)
  (.lf 0))) (.nd (.nd (.lf
  0x114ad114a9114a5114a11149d1149911495114911148d1148911485114811147d11479114751147115b9947c844e4784e4604e4484e4304e4184e4004e3ec4e3d84e3c44e3b04e39c4e3884e3744e3604e34c4e3384e3244e3104e2fc4e2e84e2d44e2c04e2ac4e2984e2844e2704e25c4e2484e2384e22847c781146d1146911465114611145d1145911455114511144d1144911445114411143d1143911435)
  (.lf 0)) (.nd (.lf
  0x69ce069cb469c8869c5c69c3069c0469bdc69bb469b8c69b6469b3c69b1469aec69ac469a9c63c6063c4063c2063c0063be063bc063ba0620f0620d43cdbc3cdb03cda43cd983cd8c3cd803cd743cd683cd5c3cd503cd443cd383cd2c3cd203cd143cd083ccfc3ccf03cce43ccd83cccc3ccc03ccb43cca83cc9c3cc903cc843cc783cc6c3cc6015f55000e40386c0386803864038600385c038580385403850)
  (.lf 0)))

def shaPos352 : BTree :=
  .nd (.nd (.nd (.lf
  0x86410fc810fb810fa010f8c10f8010f7410f5c10f5010f4010f3410f1c10f0c10efc10eec10ee410ed410ec410eb010ea810e9010e8810e6c10e6010e5410e4810e3810e2810e1010e0410df0062d80085c10c7810c6410c6010c4810c3810c3010c2010c1010bf410bf010bd810bcc10bbc10ba410b9810b8410b7810b6410b5810b4810b3810b3010b1c10b0410af410ae410ad810ac810abc10aac062d0)
  (.lf
  0x6971063b7463b5463b3463b1463af463ad463ab4620b0620943f4a43f4983f48c3f4803f4743f4683f45c3f4503f4443f4383f42c3f4203f4143f4083f3fc3f3f03f3e43f3d83f3cc3f3c03f3b43f3a83f39c3f3903f3843f3783f36c3f3603f3543f34815f4554dac6b9b06b9806b9546b9286b8fc6b8d06b8a46b8786b84c6b8206b7f46b7cc6b7a46b77c6b7546b72c6b7046b6dc6b6b46b68c6b66464350))
  (.nd (.lf
  0x1204d1204912045120411203d1203912035120311202d1202912025120211201d12019120151201115bf947ef451da451d8c51d7451d5c51d4451d2c51d1851d0451cf051cdc51cc851cb451ca051c8c51c7851c6451c5051c3c51c2851c1451c0051bec51bd851bc451bb051b9c51b8851b7451b6451b5047ee41200d12009120051200111ffd11ff911ff511ff111fed11fe911fe511fe111fdd11fd911fd5)
  (.lf 0))) (.nd (.nd (.lf
  0x2991829920081ad2990829910081a9298f8298fc081a5298f0298ec081a1298d8298e00819d298c8298d008199298b8298bc08195298a8298b008191298a0298980818d2988c2989008189298802987808185298682987008181298582985c0817d2984c298500817929840298380817529828298300817129820298180816d29808298100816929800297f808165297e8297f008161297dc297d80815d297d0)
  (.lf 0)) (.nd (.lf
  0x4ff484ff344ff204ff0c4fef84fee44fed04fec04feb047d9c47d904fe9c4fe844fe6c4fe544fe3c4fe244fe104fdfc4fde84fdd44fdc04fdac4fd984fd844fd704fd5c4fd484fd344fd204fd0c4fcf84fce44fcd04fcbc4fca84fc944fc804fc6c4fc5c4fc4c47d8447d784fc404fc284fc104fbf84fbe04fbc84fbb44fba04fb8c4fb784fb644fb504fb3c4fb284fb144fb004faec4fad84fac44fab04fa9c)
  (.lf 0)))

def shaPos353 : BTree :=
  .nd (.nd (.nd (.lf
  0x1a2a41a2ac0353d1a2941a29c035391a2841a28c035351a2741a27c035311a2641a26c0352d1a2541a25c035291a2441a24c035251a2341a23c035211a2241a22c0351d1a2141a21c035191a2041a20c035151a1f41a1fc035111a1e41a1ec0350d1a1d41a1dc035091a1c41a1cc035051a1b41a1bc035011a1a41a1ac034fd1a1941a19c034f91a18c601a4034f51a17c60184034f11a17460164034ed1a164)
  (.lf 0)) (.nd (.lf
  0x6a6246a5fc6a5d46a5ac6a5846a55c6a5346a50c63efc63edc63ebc63e9c63e7c63e5c63e3c6a2a46a27c6a25454d3c6a4e46a4b46a4846a4586a42c6a4006a3d46a3a86a37c6a3506a3246a2f86a2d06a2a86a2806a2586a2306a2086a1e06a1b86a19063e1c63dfc63ddc63dbc63d9c63d7c63d5c69f2869f0069ed854d286a1686a1386a1086a0dc6a0b06a0846a0586a02c6a00069fd469fa869f7c69f54)
  (.lf 0))) (.nd (.nd (.lf
  0x48b7438c980ce4d48b6038c900ce4945e9038c800ce4545e8038c780ce4145e7038c680ce3d45e6038c5c0ce3945e5038c540ce3545e4038c480ce3145e3038c380ce2d45e2038c2c0ce2945e1038c240ce2566d2c38c140ce2166cfc38c0c0ce1d66ccc38c000ce1966ca038bf00ce1566c7438be80ce1166c4838bd80ce0d66c1c38bd00ce0966bf038bc40ce0566bc438bb40ce0166b9838bac0cdfd66b6c)
  (.lf 0)) (.nd (.lf
  0x250c4250b4250a42509425084250742506425054250442503425024250142500424ff424fe424fd424fc4148d1006ac08d6408d6008d5c08d5808d5408d5008d4c08d4808d4408d4008d3c08d3808d3408d3008d2c08d2808d2408d2008d1c08d1808d1408d1008d0c08d0808d0408d0008cfc08cf808cf408cf024fb024fa424f9424f8424f7424f6424f5424f4424f3424f2424f1424f0424ef424ee024ed4)
  (.lf 0)))

def shaPos354 : BTree :=
  .nd (.nd (.nd (.lf
  0xa9510d4856b0000a9110d3856ae400a8d10d2c56ac800a8910d2056aac00a8510d1456a9000a8110d0c56a7000a7d10d0056a5400a7910cf056a3c00a7510ce456a2000a7110cd856a0800a6d10cd0569ec00a6910cc0569d400a6510cb4569bc00a6110cac569a400a5d10ca05698c00a5910c905697400a5510c845695c00a5110c7410c7c00a4d10c6810c6c00a4910c5810c5400a4510c4410c4c00a41)
  (.lf 0)) (.nd (.lf
  0x4486c14111448604485c1410d448504484c14109448404483c14105448304482c14101448204481c140fd54ab06194461920618fc618d8618b4618906186c618486182461800617dc617b86179861778617586173861718616f8616d8616b861698616786165c616406162461608615ec615d0615b46159854a9854aac619406191c618f8618d4618b06188c618686184461820617fc617d8617b46179461774)
  (.lf 0))) (.nd (.nd (.lf
  0x30f4c0a74d30f4030f3c0a74930f3030f2c0a74530f2030f1c0a74130f1030f0c0a73d30f0030efc0a73930ef030eec0a73530ee030edc0a73130ed030ecc0a72d30ec030ebc0a72930eb030eac0a72530ea030e9c0a72130e8830e900a71d30e7830e800a71930e6830e700a71530e5830e600a71130e4830e500a70d30e3830e400a70930e2830e300a70530e1830e200a70130e0830e100a6fd30e0030dfc)
  (.lf 0)) (.nd (.lf
  0x179f4179e4179d8179d0179c0179b8179ac179a017994179881797c1797017964179581794c179401793417924179181791017904178f8178e8178e0178d415d5d063dc0e0700e06c0e0680e0640e0600e05c0e0580e0540e0500e04c0e0480e0440e0400e03c0e0380e0340e0300e02c0e0280e0240e0200e01c0e0180e0140e0100e00c0e0080e0040e0000dffc178c8178b8178a817898178881787817868)
  (.lf 0)))

def shaPos355 : BTree :=
  .nd (.nd (.nd (.lf
  0x220dc05bfd220cc220c805bf9220c0220b805bf5220b0220ac05bf12209c220a005bed220882208c05be9220802207805be5220682207005be12205c2205805bdd220502204805bd92203c2204005bd52202c2203005bd1220182201c05bcd220102200c05bc921ff82200005bc521fe821fec05bc14bba848b4405bbd4bb8c48b2c05bb94bb7048b1405bb54bb5448b0005bb14bb3848aec05bad4bb1c48ad8)
  (.lf 0)) (.nd (.lf
  0x24180afa0024100af9402408024000af880af7c0af70023f80af640b840011022d4dc0055000cec0c4640c4580c44c023f00c4400c434023e80c4280c41c0c4100c4040c3f8023e0023d80c3ec0c3e0023d0023c8023c00c3d4023b8023b0023a80c3c80c3bc023a00c3b00c3a406530010ba0054800cd802398023900c3980c38c02388023800237802370023680c3800c3740c3680c35c0c3500236002358)
  (.lf 0))) (.nd (.nd (.lf
  0x41ae00f8f941ac841ad00f8f541ab841ac00f8f141aa841ab00f8ed41a9841aa00f8e941a8841a900f8e541a7841a800f8e141a6841a700f8dd41a5841a600f8d941a4841a500f8d541a3841a400f8d141a2841a300f8cd6b65041a200f8c96b62041a140f8c56b5f041a080f8c16b5c4419fc0f8bd6b598419f00f8b96b56c419e40f8b56b540419d80f8b16b514419cc0f8ad6b4e8419c00f8a96b4bc419b4)
  (.lf 0)) (.nd (.lf
  0x324f4324e4324d4324c4324b4324a432494324843247432464324543244432434324243241432404323f4323e4323d4323c4323b4323a41599d0036405dec05de805de405de005ddc05dd805dd405dd005dcc05dc805dc405dc005dbc05db805db405db005dac05da805da405da005d9c05d9805d9405d9005d8c05d8805d8405d8005d7c05d7832394323843237432364323543234432334323243231432304)
  (.lf 0)))

def shaPos356 : BTree :=
  .nd (.nd (.nd (.lf
  0x66cc066c9466c6866c3c66c1066be466bb866b8c66b6066b3466b0c666f0666c8666a06667866650669a0669706694066914668e8668bc6689066864668386680c667e0669a4669746694466918668ec668c066894668686683c66810667e4667b866790663746634c66324662fc662d466624665f4665c4665986656c6654066514664e8664bc664906646466628665f8665c86659c665706654466518664ec)
  (.lf 0)) (.nd (.lf
  0x58bf458bd858bbc58ba058b8458b6858b4c58b3058b1858b0058ae858ad058ab858aa058a8858a705440012bf912bf512bf112bed12be912be512be112bdd12bd912bd512bd112bcd12bc912bc512bc112bbd12bb912bb512bb112bad12ba912ba512ba112b9d12b9912b9512b9112b8d12b8912b8512b8112b7d543f058a5c58a3c58a1c589fc589dc589bc5899c5897c5895c5893c5891c588fc588e0588c4)
  (.lf 0))) (.nd (.nd (.lf
  0x2d4802d47c094892d4702d46c094852d4602d45c094812d4502d44c0947d2d4402d43c094792d4302d42c094752d4202d41c094712d4102d40c0946d2d4002d3fc094692d3f02d3ec094652d3e02d3dc094612d3d02d3cc0945d2d3c02d3bc094592d3b02d3ac094552d3a02d39c094512d3902d38c0944d2d3782d380094492d3682d370094452d3582d360094412d3482d3500943d2d3382d340094392d328)
  (.lf 0)) (.nd (.lf
  0x10d7c10d6c10d6410d5810d4c10d4010d3410d2410d1c10d1010d0410cf810cec10cdc10cd410cc810cbc10cb010ca410c9410c8815ca9062d40d0f80d0f40d0f00d0ec0d0e80d0e40d0e00d0dc0d0d80d0d40d0d00d0cc0d0c80d0c40d0c00d0bc0d0b80d0b40d0b00d0ac0d0a80d0a40d0a00d09c0d0980d0940d0900d08c0d0880d08410c8010c7010c5c10c5010c4010c2c10c1c10c0c10c0010bec10be0)
  (.lf 0)))

def shaPos357 : BTree :=
  .nd (.nd (.nd (.lf
  0x1e6041e600049411e5f81e5f00493d1e5e41e5e8049391e5d41e5d8049351e5c01e5c4049311e5b01e5b80492d1e5a81e5a4049291e5941e590049251e5881e584049211e5741e5700491d1e5681e564049191e5581e554049151e5441e548049111e5381e5340490d1e5281e520049091e5141e518049051e5081e500049011e4f41e4f8048fd1e4e81e4e0048f91e4d01e4d8048f51e4c81e4c0048f11e4b0)
  (.lf 0)) (.nd (.lf
  0x5d7f45d7d85d7bc5d7a05d7845d7685d7505d7385d7205d7085d6f05d6d85d6c05d6a8547a05478c5d6905d6705d6505d6305d6105d5f05d5d05d5b05d5905d5705d5505d5305d5145d4f85d4dc5d4c05d4a45d4885d46c5d4505d4345d4185d4005d3e85d3d05d3b85d3a05d3885d3705d35854778547645d3405d3205d3005d2e05d2c05d2a05d2805d2605d2405d2205d2005d1e05d1c45d1a85d18c5d170)
  (.lf 0))) (.nd (.nd (.lf
  0xe3a5681483d3a00e3a16811c3d3940e39d680f03d3880e399680c43d37c0e395680983d3700e3916806c3d3640e38d680403d3580e389680183d34c0e38567ff03d3400e38167fc83d3340e37d67fa03d3280e37967f783d31c0e37567f503d3100e37167f283d3040e36d67f003d2f80e36967ed83d2ec0e36567eb03d2e00e361635583d2d40e35d635383d2c80e359635183d2bc0e355634f83d2b00e351)
  (.lf 0)) (.nd (.lf
  0x2bab42baa41595d0229c0c268022940c25002244022340c22c0c2200c2140c20802224002e40566c0566805664056600565c0565805654056500564c0564805644056400563c0563805634056300562c0562805624056200561c0561805614056100560c056080560405600055fc055f82ba942ba842ba742ba642ba542ba442ba342ba242ba142ba042b9f42b9e42b9d42b9c42b9b42b9a42b9942b9842b974)
  (.lf 0)))

def shaPos358 : BTree :=
  .nd (.nd (.nd (.lf
  0x5b5bc01fe9158085b5a401fe5158005b58c01fe1157ec157f401fdd157e4157e001fd9157cc157d401fd5157bc157c401fd1157b4157b001fcd1579c157a401fc91578c1579401fc51577c1578001fc11576c1577401fbd1575c1576401fb91574c1575401fb51573c1574401fb11572c1573401fad1571c1572401fa91570c1571401fa5156fc1570401fa1156ec156f401f9d156dc156e401f99156cc156d4)
  (.lf 0)) (.nd (.lf
  0x42ab442aa842a9c42a9042a8442a7842a6c42a6042a5442a4842a3c42a3042a2442a180cbb001074426c4426b8426ac426a042694426884267c4267042664426584264c4264042634426284261c4261042604425f8425ec425e0425d4425c8425bc425b0425a4425984258c4258042574425680cbac010684221442208421fc421f0421e4421d8421cc421c0421b4421a84219c4219042184421784216c42160)
  (.lf 0))) (.nd (.nd (.lf
  0x160a534af034aec0ba3d34ae034adc0ba3934ad034acc0ba3534ac034abc0ba3134ab034aac0ba2d34aa034a9c0ba2934a9034a8c0ba2534a8034a7c0ba2134a7034a6c0ba1d34a6034a5c0ba1934a5034a4c0ba1534a4034a3c0ba1134a3034a2c0ba0d34a2034a1c0ba0934a1034a0c0ba0534a00349fc0ba01349f0349ec0b9fd349e0349dc0b9f9349d0349cc0b9f5349c0349bc0b9f1349b0349ac0b9ed)
  (.lf 0)) (.nd (.lf
  0x85a8085a4085a00859c0859808594085900858c0858808584085800857c0857808574085701e66c1e65c1e64c1e63c1e62c1e61c1e6081e5fc1e5ec1e5dc1e5cc1e5bc1e5ac1e59c1e58c1e5781e56c1e55c1e54c1e53c1e52c1e51c1e50c1e4fc1e4ec1e4dc1e4cc1e4bc1e4ac1e49c159d9479b84a2044a1e84a1c04a1a44a1904a1704a15c4a1484a1344a1104a1044a0e04a0c84a0b84a0984a0844a06c)
  (.lf 0)))

def shaPos359 : BTree :=
  .nd (.nd (.nd (.lf
  0x25d8006ed925d6825d7006ed525d5825d5c06ed125d4825d5006ecd25d4025d3806ec925d2825d3006ec525d1825d1c06ec125d0825d0c06ebd25cf825d0006eb925ce825cf006eb525cd825cdc06eb125cd025ccc06ead25cc025cbc06ea925cb025cac06ea525ca025c9c06ea125c9025c8c06e9d25c8025c7c06e9925c7025c6c06e9525c6025c5c06e9125c5025c4c06e8d25c4025c3c06e8925c3025c2c)
  (.lf 0)) (.nd (.lf
  0x2e4182e4102e4082e4002e3f82e3f02e3e82e3e02e3d848e4000d182de302de282de202de182de102de082de002ddf82ddf02dde82dde02ddd82ddd02ddc82ddc02ddb82ddb02dda82dda02dd982dd902dd882dd802dd782dd702dd682dd602dd582dd502dd4848e3400d042d7a02d7982d7902d7882d7802d7782d7702d7682d7602d7582d7502d7482d7402d7382d7302d7282d7202d7182d7102d7082d700)
  (.lf 0))) (.nd (.nd (.lf
  0x5056850550505385052450510504fc504e8504d4504c0504ac5049850484504705045c504485043450420501ac5019850184501705015c50148501345034c503345031c50304502ec50350503385032050308502f0502d8502c4502b05029c5028850274502605024c502385022450210501fc501e8501d4501c04ff504ff3c4ff284ff144ff004feec4fed8500f0500d8500c0500a850090500f4500dc500c4)
  (.lf 0)) (.nd (.lf
  0x45e5c45e4c45e3c45e2c45e1c45e0c38d8438d7838d6c38d6038d5438d4838d3c38d3038d2438d1838d0c38d0038cf438ce838cdc38cd038cc438cb838ca838ca038c9438c8838c7c38c7038c6038c5838c4c38c3c38c3438c2815c6554c0066d2866cf866cc866c9c66c7066c4466c1866bec66bc066b9466b6866b3c66b1466aec66ac466a9c66a7466a4c66a24669fc669d4630206300062fe062fc062fa0)
  (.lf 0)))

def shaPos360 : BTree :=
  .nd (.nd (.nd (.lf
  0x97417f4c17f3c17f2c17f1c17f0c17efc17eec17edc17ecc17ebc17eac17e9c17e8c17e7c17e6c17e5c17e4c17e3c17e2c17e1c17e1017dfc17dec17de817dcc17dbc17db017d9c17d8c17d84063e80096c17c0417bf417be417be017bcc17bb417bac17b9417b8417b7417b6417b5417b4417b3817b2417b1417b0c17afc17ae417adc17ac417ab417aa417a9417a8c17a7417a6817a5417a4417a40063e0)
  (.lf
  0x6bdb46bd8c6bd6464518644f8644d8644b86449864478644586231c6230042834428284281c4281042804427f8427ec427e0427d4427c8427bc427b0427a4427984278c4278042774427684275c4275042744427384272c427204271442708426fc426f0426e4426d815fcd45044466884667046658466404662846610465f8465e0465c8465b046598465804656c4655846544465304651c46508464f4464e0))
  (.nd (.lf
  0x5fe205fe005fde05fdc05fda05fd805fd605fd405fd205fd005fce05fcc45fca85fc8c5fc705fc545fc385f8cc5f8b05f8945faec5facc5faac5fa8c5fa6c5fa4c5fa2c5fa0c5f9ec5f9cc5f9ac5faf05fad05fab05fa905fa705fa505fa305fa105f9f05f9d05f9b05f9905f9745f9585f93c5f9205f9045f8e85f57c5f5605f5445f79c5f77c5f75c5f73c5f71c5f6fc5f6dc5f6bc5f69c5f67c5f65c5f7a0)
  (.lf 0))) (.nd (.nd (.lf
  0x8acd2b5702b56808ac92b5602b55808ac52b5502b54808ac12b5402b53808abd2b5302b52808ab92b5202b51808ab52b5102b50808ab12b5002b4f808aad2b4f02b4e808aa92b4e02b4d808aa52b4d02b4c808aa12b4c02b4b808a9d2b4b02b4a808a992b4a02b49808a952b4902b48808a912b4802b47808a8d2b4702b46808a892b4602b45808a852b4502b44808a812b4402b43808a7d2b4302b42808a79)
  (.lf 0)) (.nd (.lf
  0x4f9f84f9e847d6447d704fc384fc204fc084fbf04fbd84fbc04f9484f9344f9204f90c4f8f84f8e44f8d04f8bc4f8a84f8944f8804f86c4f8584f8444f8304f81c4f8084f7f44f7e04f7cc4f7b84f7a44f7944f78447d4c47d584f9d44f9bc4f9a44f98c4f9744f95c4f6e84f6d44f6c04f6ac4f6984f6844f6704f65c4f6484f6344f6204f60c4f5f84f5e44f5d04f5bc4f5a84f5944f5804f56c4f5584f544)
  (.lf 0)))

def shaPos361 : BTree :=
  .nd (.nd (.nd (.lf
  0x3fb11c6c81c6cc03fad1c6b81c6b403fa91c6a41c6a803fa51c6941c69c03fa11c6841c68c03f9d1c6741c67803f991c66c1c66803f951c6541c65803f911c6441c64803f8d1c63c1c63403f891c6281c62403f850077a00776007720076e0076a00766007620075e0075a00756007520074e0074a00746007420073e016f60b98803f810114c149ad01144149a90b980149a5016f20b97c03f7d016ee0b96c)
  (.lf 0)) (.nd (.lf
  0x2d3c82d3b82d3a82d3982d3882d37c2d36c2d35c2d34c2d33c2d32c2d31c2d30c2d2fc0030000ce82ce382ce282ce182ce082cdf82cde82cdd82cdc82cdb82cda82cd982cd882cd782cd682cd582cd482cd382cd282cd182cd082ccf82cce82ccd82ccc82ccb82cca82cc982cc882cc782cc68002f800cd42c7a82c7982c7882c7782c7682c7582c7482c7382c7282c7182c7082c6f82c6e82c6d82c6c82c6b8)
  (.lf 0))) (.nd (.nd (.lf
  0x3b05c0d8f9636643b0500d8f561fa43b0440d8f161f883b0380d8ed3b02c3b0280d8e93b0183b01c0d8e53b0103b00c0d8e13aff83affc0d8dd3aff03afec0d8d93afe03afd80d8d53afd03afc80d8d13afbc3afc00d8cd3afac3afa80d8c93afa03af980d8c53af8c3af880d8c13af7c3af780d8bd3af703af680d8b93af603af5c0d8b53af503af4c0d8b13af403af380d8ad3af303af2c0d8a93af203af1c)
  (.lf 0)) (.nd (.lf
  0x525805254052500524c0524805244052400523c052382861428604285f4285e4285d4285c4285b4285a428594285842857428564285542854428534285242851428504284f4284e4284d4284c4284b4284a4284942848028474284602845428444148f1006ec09124091200911c0911809114091100910c091080910409100090fc090f8090f4090f0090ec090e8090e4090e0090dc090d8090d4090d0090cc)
  (.lf 0)))

def shaPos362 : BTree :=
  .nd (.nd (.nd (.lf
  0x1329c132940153d132881328c015391327c13274015351326c13268015311325c132580152d132441324801529132341323c01525132241322801521132181321c0151d132041320801519131fc5910801515131ec590e801511131e0590c40150d131d4590a401509131c85908401505131bc5906401501131b059044014fd131a459024014f91319859004014f51318c58fe4014f11318458fc4014ed13174)
  (.lf 0)) (.nd (.lf
  0x4038c4037c4036c4035c4034c4033c4032c4031c4030c402fc402ec402dc402cc402bc00140010103ffdc3ffcc3ffbc3ffac3ff9c3ff8c3ff7c3ff6c3ff5c3ff4c3ff3c3ff2c3ff1c3ff0c3fefc3feec3fedc3fecc3febc3feac3fe9c3fe8c3fe7c3fe6c3fe5c3fe4c3fe3c3fe2c3fe1c3fe0c00138010043fb2c3fb1c3fb0c3fafc3faec3fadc3facc3fabc3faac3fa9c3fa8c3fa7c3fa6c3fa5c3fa4c3fa3c)
  (.lf 0))) (.nd (.nd (.lf
  0x53e0c0b09151b7c53df00b08d51b6c53dd40b08951b58491400b08551b444912c0b08132bf832c000b07d32be832bf00b07932bd832be00b07532bc832bd00b07132bb832bc00b06d32ba832bb00b06932b9832ba00b06532b8832b900b06132b7832b800b05d32b6832b700b05932b5832b600b05532b4832b500b05132b3832b400b04d32b2832b300b04932b1832b200b04532b0832b100b04132af832b00)
  (.lf 0)) (.nd (.lf
  0x1b0601b0501b0401b0301b0201b0101b0001aff01afe01afd01afc01afb01afa01af901af801af701af601af501af401af301af201af101af001aef01aee01aed01aec015dc554a3860ee860ec860ea860e8860e6860e4860e2860e0860de860dc860da860d8860d6c60d5060d3460d1860cfc60ce060cc460ca860c8c60c7060c5860c4060c2860c1060bf860be060bc860bb01aeac1aea41ae941ae8c1ae7c)
  (.lf 0)))

def shaPos363 : BTree :=
  .nd (.nd (.nd (.lf
  0x656123f2c23f280655d23f1c23f200655923f1023f080655523efc23ef80655123eec23ee80654d23edc23ed80654923ed023ecc0654523ec023ebc0654123eac23ea80653d23ea023e9c0653923e9023e8c0653523e7c23e800653123e6c23e680652d23e6023e580652923e4c23e500652523e3c23e400652123e2c23e280651d23e1823e1c0651923e1023e080651523e0023dfc0651123dec23de80650d)
  (.lf 0)) (.nd (.lf
  0x2dcfc2dcec2dcdc2dccc2dcbc2dcac2dc9c2dc8c2dc7c2dc6c2dc5c2dc4c2dc3c2dc2c2dc1c2dc0c2dbfc2dbec2dbdc2dbcc2dbbc2dbac2db9c2db8c2db7c2db6c00d002d6ac2d69c2d68c2d67c2d66c2d65c2d64c2d63c2d62c2d61c2d60c2d5fc2d5ec2d5dc2d5cc2d5bc2d5ac2d59c2d58c2d57c2d56c2d55c2d54c2d53c2d52c2d51c2d50c2d4fc2d4ec00cf02d01c2d00c2cffc2cfec2cfdc2cfcc2cfbc)
  (.lf 0))) (.nd (.nd (.lf
  0x103a5536e843e68103a1536cc43e5c1039d4910043e5010399490ec43e4410395471cc43e3810391471b443e2c1038d4719c43e20103894718443e14103854716c43e08103814715443dfc1037d4713c43df0103794712443de4103754710c43dd810371470f443dcc1036d470dc43dc010369470c443db410365470b043da8103614709c43d9c1035d4708843d90103594707443d84103554706043d7810351)
  (.lf 0)) (.nd (.lf
  0x358b4358a4358943588435874358643585435844358343582415abd4508c477384772047708476f0476d8476c0476a847690476784766047648476304761847600475e8475d0475b8475a0475884757047558475404752847510474f8474e0474c8474b04749847480358143580c35804357fc357f4357ec357e4357dc357d4357cc357c4357bc357b4357ac357a43579c357943578c357843577c357743576c)
  (.lf 0)))

def shaPos364 : BTree :=
  .nd (.nd (.nd (.lf
  0x6b4d06b4a46b4786b45064178641586413864118640f8640d86223c622206b2c06b2906b2c46b2946b2646b2386b20c6b1e06b1b46b1886b15c6b1306b1046b0dc640886406864048640286400863fe8621f4621d86af346af046af386af086aed86aeac6ae806ae546ae286adfc6add06ada46ad786ad5063fb063f9063f7063f5063f3063f10621c4621a86abc06ab906abc46ab946ab646ab386ab0c6aae0)
  (.lf 0)) (.nd (.lf
  0x5d1885d16c5d1505d1345d1185d0fc5d0e05d0c45d0ac5d0945d07c5d0645d04c5d0345d01c5d0045474c5475c5d3385d3185d2f85d2d85d2b85d2985d2785d2585d2385d2185d1f85d1d85d1bc5d1a05d1845d1685d14c5d1305d1145d0f85d0dc5d0c05d0a85d0905d0785d0605d0485d0305d0185d000547481367913675136711366d1366913665136611365d1365913655136511364d136491364513641)
  (.lf 0))) (.nd (.nd (.lf
  0x9dbd506546432c09db9506406430c09db55062c642ec09db150618642cc09dad50604642ac09da9505f06428c09da5505e0622a009da1505d06228409d9d2f0f02f0e809d992f0e02f0d809d952f0d02f0c809d912f0c02f0b809d8d2f0b02f0a809d892f0a02f09809d852f0902f08809d812f0802f07809d7d2f0702f06809d792f0602f05809d752f0502f04809d712f0402f03809d6d2f0302f02809d69)
  (.lf 0)) (.nd (.lf
  0x143d8143c8143b8143a814398143881437414368143581434414338143281431814308142f8142e8142d8142c4142b8142a814298142881427415d01545105a1945a1745a1545a1345a1145a0f45a0d45a0b45a0945a0745a0545a0345a01859ffc59fe059fc459fa859f8c59f7059f5459f3c59f2059f0859ef059ed859ebc59ea459e8c59e7859e6014268142581425014244142381422c142201421014208)
  (.lf 0)))

def shaPos365 : BTree :=
  .nd (.nd (.nd (.lf
  0x9ae009aa009a6009a20099e0a6080151c0a5f4015140a5dc0a5d00150c0a5b80a5a8014fc0a594014ec014dc014d4014c40a5580b77c0017e0a604052750a60014b950017a0a5fc05271001760a5ec0526d0a5e814b91001720a5e0052690016e0a5d8052650016a0a5c8052610150414b8d0a5c014b89001660a5bc0525d001620a5b4052590015e0a5a405255014f414b850a5a014b810015a0a59c05251)
  (.lf 0)) (.nd (.lf
  0x5d0445d02c5d0145cffc54744547585d3345d3145d2f45d2d45d2b45d2945d2745d2545d2345cec45cea45ce845ce685ce4c5ce305ce145cdf85cddc5cdc05cda45cd885cd6c5cd545cd3c5cd245cd0c5ccf45ccdc5ccc45ccac5471c547305cfe45cfc45cfa45cf845cf645cf445cf245cf045cee45cb745cb505cb345cb185cafc5cae05cac45caa85ca8c5ca6c5ca545ca385ca1c5ca045c9ec5c9d45c9bc)
  (.lf 0))) (.nd (.nd (.lf
  0x6bb643f7640ee4d6bb3c3f7580ee496bb143f74c0ee456baec3f7400ee416bac43f7340ee3d6ba9c3f7280ee396ba743f71c0ee356ba4c3f7100ee316ba243f7040ee2d6b9fc3f6f80ee29644443f6ec0ee25644243f6e00ee21644043f6d40ee1d643e43f6c80ee19643c43f6bc0ee15643a43f6b00ee11643843f6a40ee0d622ec3f6980ee09622d03f68c0ee053f6803f6780ee013f6703f6680edfd3f660)
  (.lf 0)) (.nd (.lf
  0x2ef942ef842ef742ef642ef542ef442ef342ef241597d0032405a2c05a2805a2405a2005a1c05a1805a1405a1005a0c05a0805a0405a00059fc059f8059f4059f0059ec059e8059e4059e0059dc059d8059d4059d0059cc059c8059c4059c0059bc059b82ef142ef042eef42eee42eed42eec42eeb42eea42ee942ee842ee742ee642ee542ee442ee342ee242ee142ee042edf42ede42edd42edc42edb42eda4)
  (.lf 0)))

def shaPos366 : BTree :=
  .nd (.nd (.nd (.lf
  0x2a9517d385dc9802a9117d2c5dc7802a8d17d1c5dc5802a8917d145dc3802a8517d045dc1802a8117cfc5dbf802a7d17cf05dbd802a7917ce45dbbc02a7517cd45dba002a7117cc85db8402a6d17cc05db6802a6917cb45db4c02a6517ca85db3002a6117c9c5db1402a5d17c8c5daf802a5917c805dadc02a5517c785dac002a5117c685daa802a4d17c605da9002a4917c545da7802a4517c485da6002a41)
  (.lf 0)) (.nd (.lf
  0x4876848754487404872c4871848704486f0486dc486c8486b4486a04868c48678486644865048544485304851c48508484f4484e0484cc484b8484a445c48455d84863c486244860c485f8485e4485d0485bc485a84859848584485704855c4854848534485204850c484f8484e4484d0484bc484a848394483804836c4835848344483304831c48308482f445bb4455d04849048474484604844c4843848424)
  (.lf 0))) (.nd (.nd (.lf
  0xc3a5369203691c0c3a1369103690c0c39d368fc368f80c399368ec368f00c395368d8368dc0c391368d0368c80c38d368bc368c00c389368ac368b00c3853689c368a00c381368903688c0c37d3687c368800c3793686c368700c3753685c368580c37136850368480c36d368383683c0c3693682c368280c36536820368180c3613680c368080c35d36800367fc0c359367f0367ec0c355367e0367dc0c351)
  (.lf 0)) (.nd (.lf
  0x21b9421b8421b7421b6421b5421b44148b10066c089a4089a00899c0899808994089900898c0898808984089800897c0897808974089700896c0896808964089600895c0895808954089500894c0894808944089400893c08938089340893021b3421b2421b1421b0421af021ae421ad421ac421ab421aa421a9421a8421a7421a6421a5421a4021a3021a2421a1421a04219f4219e4219d4219c4219b4219a4)
  (.lf 0)))

def shaPos367 : BTree :=
  .nd (.nd (.nd (.lf
  0x4db24632d0078294db1461eb4078254db0461e980782127ad027ac80781d27ac027ab80781927ab027aa80781527a9c27aa00781127a8c27a900780d27a8027a780780927a6c27a680780527a6027a5c0780127a4827a50077fd27a3827a40077f927a3027a28077f527a1c27a20077f127a1027a08077ed279f827a00077e9279f0279e8077e5279d8279e0077e1279d0279c8077dd279b8279c0077d9279b0)
  (.lf 0)) (.nd (.lf
  0x2e5482e5382e5282e5182e5082e4f82e4e82e4d82e4c80076000d1c2e0082dff82dfe82dfd82dfc82dfb82dfa82df982df882df782df682df582df482df382df282df182df082def82dee82ded82dec82deb82dea82de982de882de782de682de582de482de380075800d082d9782d9682d9582d9482d9382d9282d9182d9082d8f82d8e82d8d82d8c82d8b82d8a82d8982d8882d8782d8682d8582d8482d838)
  (.lf 0))) (.nd (.nd (.lf
  0x110cd110c9110c5110c1110bd110b9110b5110b1110ad110a9110a5110a11109d11099110951109115b7947bc44d1784d1604d1484d1304d1184d1004d0ec4d0d84d0c44d0b04d09c4d0884d0744d0604d04c4d0384d0244d0104cffc4cfe84cfd44cfc04cfac4cf984cf844cf704cf5c4cf484cf384cf2847bb81108d1108911085110811107d1107911075110711106d1106911065110611105d1105911055)
  (.lf 0)) (.nd (.lf
  0x631b4631946317463154631346311461e4861e2c3c1143c1083c0fc3c0f03c0e43c0d83c0cc3c0c03c0b43c0a83c09c3c0903c0843c0783c06c3c0603c0543c0483c03c3c0303c0243c0183c00c3c0003bff43bfe83bfdc3bfd03bfc43bfb815ec154cdc6937c6934c6931c692f0692c4692986926c6924069214691e8691bc69190691686914069118690f0690c8690a0690786905069028639c0639a063980)
  (.lf 0)))

def shaPos368 : BTree :=
  .nd (.nd (.nd (.lf
  0x8f414acc14ac414aac14aa014a9814a8414a7414a6014a5014a4814a3014a2014a1414a08149ec149dc149d0149c0149b0149a01499014980149701496014950149401493014920149101490006368008ec14790147781476c147581474c147381472c147181470c146f4146e8146d8146cc146b8146a8146a0146901467814670146581464814640146301461814608145f8145e4145d4145c8145c006360)
  (.lf
  0x40e6c40e6040e5440e4840e3c40e3040e2440e1840e0c40e0015e1d0015403efc03ef803ef403ef003eec03ee803ee403ee003edc03ed803ed403ed003ecc03ec803ec403ec003ebc03eb803eb403eb003eac03ea803ea403ea003e9c03e9803e9403e9003e8c03e8840df440de440dd440dc440db440da440d9440d8440d7440d6440d5440d4440d3440d2440d1440d0440cf440ce440cd440cc440cb440ca4))
  (.nd (.lf
  0x5942059400593e0593c0593a059380593605934059320592fc592e0592c4592a85928c59270592545923858ecc58eb058e98590ec590cc590ac5908c5906c5904c5902c5900c58fec58fcc58fb4590f0590d0590b0590905907059050590305901058ff058fd058fac58f9058f7458f5858f3c58f2058f0458ee858b7c58b6058b4858d9c58d7c58d5c58d3c58d1c58cfc58cdc58cbc58c9c58c7c58c6458da0)
  (.lf 0))) (.nd (.nd (.lf
  0xf5200f4e00f4a00f4600f4200f3e00f3a0add4021540214c021440ada40213c021340ad800ad740ad640212402114020fc020f40b824004160add0086290adc8151cd004120adc4086250adbc151c90040e0adb8086210adb0151c50040a0adac0861d004060ada0086190ad98151c1004020ad94086150212c151bd0ad8c151b9003fe0ad8808611003fa0ad7c0860d003f60ad7008609003f20ad6008605)
  (.lf 0)) (.nd (.lf
  0x4aab04aa9c47a2847a384ad604ad444ad284ad0c4acec4acd44a9e44a9cc4a9b44a99c4a9844a96c4a9544a93c4a9244a90c4a8f44a8dc4a8c44a8ac4a8944a87c4a8644a84c4a8344a81c4a8044a7ec4a7d84a7c447a0847a184aa884aa6c4aa504aa304aa184a9fc4a70c4a6f44a6dc4a6c44a6ac4a6944a67c4a6644a64c4a6344a61c4a6044a5ec4a5d44a5bc4a5a44a58c4a5744a55c4a5444a5284a514)
  (.lf 0)))

def shaPos369 : BTree :=
  .nd (.nd (.nd (.lf
  0x3a951b52c6156403a911b5246154403a8d1b5186152403a891b5086150403a851b4fc614e403a811b4f4614c403a7d1b4e8614a403a791b4dc6148403a751b4d06146403a711b4c46144403a6d1b4b46142403a691b4a86140803a651b49c613ec03a611b494613d003a5d1b484613b403a591b4786139803a551b46c6137c03a511b4646136003a4d1b4546134403a491b4486132803a451b43c6130c03a41)
  (.lf 0)) (.nd (.lf
  0x201cc201c4201b42019c2018c2017c20170201642014820140201302012020108201040020000ab01fc401fc2c1fc181fc101fbfc1fbe81fbe41fbd01fbbc1fbac1fb981fb881fb781fb741fb641fb541fb381fb2c1fb181fb0c1faf81faec1fadc1facc1fabc1faa81fa981fa881fa781fa6c001f800aa01f5ac1f5a01f5881f57c1f56c1f55c1f54c1f5381f5341f5181f5101f4f81f4f01f4d81f4c81f4b8)
  (.lf 0))) (.nd (.nd (.lf
  0xd3a5679b439e780d3a16798839e680d39d6795c39e600d3996793039e540d3956790839e480d391678e039e380d38d678b839e300d3896789039e240d3856786839e140d3816784039e080d37d6781839e000d379677f039df00d375677c839de40d371633a439ddc0d36d6338439dcc0d3696336439dc40d3656334439db40d3616332439dac0d35d6330439da00d359632e439d900d35561ec439d840d351)
  (.lf 0)) (.nd (.lf
  0x26b4426b3426b2426b1426b0426af426ae426ad426ac426ab426aa426a9426a8426a7426a6026a5426a4426a3426a2426a1426a04148e1006cc08f4408f4008f3c08f3808f3408f3008f2c08f2808f2408f2008f1c08f1808f1408f1008f0c08f0808f0408f0008efc08ef808ef408ef008eec08ee808ee408ee008edc08ed808ed408ed0269f4269e4269d0269c4269b4269a42699426984269742696426954)
  (.lf 0)))

def shaPos370 : BTree :=
  .nd (.nd (.nd (.lf
  0x1201c00fe9120041200800fe511ff411ff800fe111fe411fe800fdd11fd411fd800fd911fcc11fc800fd511fb411fbc00fd111fa811fa400fcd11f9411f9800fc911f8411f8c00fc511f7411f7800fc111f6411f6800fbd11f5411f5800fb911f4811f4400fb511f3c11f3400fb111f2c11f2400fad11f1411f1c00fa911f0411f0c00fa511ef411ef800fa111ee411eec00f9d11ed411edc00f9911ec411ecc)
  (.lf 0)) (.nd (.lf
  0x36d8c36d7c36d6c36d5836d5436d3836d3436d1836d0c36d0036cf436ce436cd036cb80004000e90369d8369cc369b8369a83699836988369783696836958369483693836928369183690836904368e8368e4368cc368b8368a836898368883687836868368603684c36840368343681c368100003854fcc54fa854f8454f6054f3c54f1854ef4552ac552845525c552345520c552b055288552605523855210)
  (.lf 0))) (.nd (.nd (.lf
  0xb434028c40b41c0b410028bc0065e0b4a80abed0b4a0155c10065a0b49c0abe90b494155bd006560b4900abe50b488155b9006520b4840abe1028f4155b5028ec155b1028e4155ad0b47c155a90064e0b4780abdd0064a0b46c0abd9028d4155a5028cc155a10b4641559d006460b4600abd5006420b4540abd10063e0b4480abcd0063a0b43c0abc9006360b4300abc50b42815599006320b4240abc10062e)
  (.lf 0)) (.nd (.lf
  0x5f4045f3e45f3c45f3a45f3845f3645f3445f3245f3045f2e85f2cc5f2b05f2945f2785f25c5f2405f2245f2085f1ec5f1d45f1bc5f1a45f18c5f1745f15c5f1445f1301947019464194541944c1944019430194281941c1941019404193f8193e8193e0193d4193c8193bc193b0193a4193941938c1938019374193681935c1935019340193381932c193201931415d910641c0e4300e42c0e4280e4240e420)
  (.lf 0)))

def shaPos371 : BTree :=
  .nd (.nd (.nd (.lf
  0xb7a414d09230b8230bc060c9230a8230ac060c52309c230a0060c12308c23090060bd2308023078060b92307023068060b5230602305c060b12304c23048060ad230402303c060a92302c23028060a5230182301c060a1230082300c0609d22ffc22ff80609922fec22fe80609522fe022fdc0609122fc822fd00608d22fb822fc00608922fa822fac0608522f9c22f980608122f8822f900607d22f7822f80)
  (.lf 0)) (.nd (.lf
  0x204582045420438204282041820414203fc203e8203d8203d4203b8203a8203a42038c2037c20374203602035020344203282031c2031420300202f4202e40045000ab41fe181fe101fe041fde81fddc1fdd01fdb81fdac1fda41fd881fd801fd6c1fd581fd4c1fd441fd2c1fd181fd101fd001fce81fce01fccc1fcb81fcac1fc981fc941fc841fc741fc641fc540044800aa41f78c1f7781f7681f7581f748)
  (.lf 0))) (.nd (.nd (.lf
  0x6475c42c8c0fe4d6473042c800fe496470442c740fe45646d842c680fe41646ac42c5c0fe3d6468442c500fe396465c42c440fe356463442c380fe316460c42c2c0fe2d645e442c200fe29645bc42c140fe256459442c080fe216456c42bfc0fe1d6454442bf00fe196283c42be40fe156281c42bd80fe11627fc42bcc0fe0d627dc42bc00fe09627bc42bb40fe056279c42ba80fe016277c42b9c0fdfd54e48)
  (.lf 0)) (.nd (.lf
  0x33ea433e9433e8433e7433e6433e5433e4433e3433e2433e1433e0433df433de4159ad02b8402b7402b640c8d40c8c80c8bc0c8b00c8a40c89802b4c02b2402b1c02b140038405fcc05fc805fc405fc005fbc05fb805fb405fb005fac05fa805fa405fa005f9c05f9805f9405f9005f8c05f8805f8405f8005f7c05f7805f7405f7005f6c05f6805f6405f6005f5c05f5833dd433dc433db433da433d9433d84)
  (.lf 0)))

def shaPos372 : BTree :=
  .nd (.nd (.nd (.lf
  0x46a9c46a8446a6c46a5446a3c46a2446a0c46b0046ae846ad046ab846aa046a8846a7046a5846a4046a2846a10469f8469e446754467404672c4671846704468bc468a44688c468744685c468444682c46814467fc467e4467cc468c0468a846890468784686046848468304681846800467e8467d0467b8467a44651446500464ec464d8464c44667c466644664c466344661c46604465ec465d4465bc465a4)
  (.lf 0)) (.nd (.lf
  0x1313d1313913135131311312d1312913125131211311d1311913115131111310d131091310513101130fd545a85aecc5aeac5ae8c5ae6c5ae4c5ae2c5ae0c5adec5adcc5adac5ad8c5ad6c5ad505ad345ad185acfc5ace05acc45aca85ac8c5ac705ac545ac3c5ac245ac0c5abf45abdc5abc45abac5ab9454594545a45aec85aea85ae885ae685ae485ae285ae085ade85adc85ada85ad885ad685ad4c5ad30)
  (.lf 0))) (.nd (.nd (.lf
  0x11b2011ae011aa011a6011a20119e0119a01196011920118e0118a01186011820117e0117a025440253c0b0b0025340b0980b08c0b0800252c0252402514025040b044024fc0b02c024e40b0140b8540b0c8153c9005120b0c4099050b0bc153c50050e0b0b8099010050a0b0ac098fd0b0a4153c1005060b0a0098f9005020b094098f5004fe0b088098f1004fa0b07c098ed0b074153bd004f60b070098e9)
  (.lf 0)) (.nd (.lf
  0x5863858618585f8585d8585b85859c585805856458544585285850c584f0584d8584bc5849c584845846c5845858440584285840c583f4583e0128241281c1281012800127f8127ec127e0127d4127c4127b8127ac127a012794127881277c12774127681275c1275012744127381272c127201271412708126fc126f0126e4126d8126c815cd1063140d4b80d4b40d4b00d4ac0d4a80d4a40d4a00d49c0d498)
  (.lf 0)))

def shaPos373 : BTree :=
  .nd (.nd (.nd (.lf
  0xa3e804e01000c60a3e004dfd0a3d814b01000c20a3d404df90b75c14afd1f5a81f5b004df51f5981f59c04df11f5901f58c04ded1f5781f58004de91f5681f57004de51f5601f55804de11f5501f54804ddd1f53c1f54004dd91f5281f52c04dd51f5201f51c04dd11f50c1f50804dcd1f5001f4fc04dc91f4ec1f4e804dc51f4e01f4dc04dc11f4d01f4cc04dbd1f4c01f4bc04db91f4ac1f4b004db51f49c)
  (.lf 0)) (.nd (.lf
  0x566445662c56614565fc54244542585693456914568f4568d4568b456894568745685456834564c4564a456484564685644c5643056414563f8563dc563c0563a4563845636c563545633c563245630c562f4562dc562c4562ac5421c54230565e4565c4565a05658456564565445652456504564e456170561505613456118560fc560e0560c4560a85608c5607056054560345601c5600455fec55fd455fbc)
  (.lf 0))) (.nd (.nd (.lf
  0x3e5880e8f9638983e57c0e8f5638783e5700e8f1638583e5640e8ed638383e5580e8e9638183e54c0e8e56200c3e5400e8e161ff03e5340e8dd6af603e5280e8d96af303e51c0e8d56af003e5100e8d16aed43e5040e8cd6aea83e4f80e8c96ae7c3e4ec0e8c56ae503e4e00e8c16ae243e4d40e8bd6adf83e4c80e8b96adcc3e4bc0e8b56ada03e4b00e8b16ad743e4a40e8ad6ad4c3e4980e8a96ad243e48c)
  (.lf 0)) (.nd (.lf
  0x582805824058200581c0581805814058100580c058080580405800057fc057f8057f4057f0057ec057e8057e4057e0057dc057d82d4d42d4c42d4b42d4a42d4942d4842d4742d4642d4542d4442d4342d4242d4142d4042d3f42d3e42d3d42d3c42d3b42d3a42d3942d3842d3742d3642d3542d3442d3342d3242d3142d304149210074c096c4096c0096bc096b8096b4096b0096ac096a8096a4096a00969c)
  (.lf 0)))

def shaPos374 : BTree :=
  .nd (.nd (.nd (.lf
  0x16aa416a9c0253d16a9416a900253916a8016a7c0253516a7016a6c0253116a6416a600252d16a5416a4c0252916a4416a400252516a2c16a340252116a2416a200251d16a0c16a1002519169fc16a0402515169ec169f402511169dc169e40250d169cc169d402509169c45c95802505169b45c93802501169a85c918024fd169a05c8f8024f9169945c8d8024f5169885c8b8024f11697c5c898024ed16970)
  (.lf 0)) (.nd (.lf
  0x3e1203e1143e1083e0fc3e0f03e0e43e0d83e0cc3e0c03e0b43e0a83e09c3e0903e08448dbc00fb83dd2c3dd203dd143dd083dcfc3dcf03dce43dcd83dccc3dcc03dcb43dca83dc9c3dc903dc843dc783dc6c3dc603dc543dc483dc3c3dc303dc243dc183dc0c3dc003dbf43dbe83dbdc3dbd048db400fac3d87c3d8703d8643d8583d84c3d8403d8343d8283d81c3d8103d8043d7f83d7ec3d7e03d7d43d7c8)
  (.lf 0))) (.nd (.nd (.lf
  0x476f4471700beb5476dc471580beb1476c4471400bead476ac471280bea947694471100bea54767c470f80bea147664470e00be9d4764c470c80be9947634470b40be954761c470a00be91476044708c0be8d475ec470780be89475d4470640be85475bc470500be81475a44703c0be7d4758c470280be7947574470140be754755c470000be714754446ff00be6d4752c46fe00be694751446fd00be65474fc)
  (.lf 0)) (.nd (.lf
  0x2014420134201242011420100148a10064c087c4087c0087bc087b8087b4087b0087ac087a8087a4087a00879c0879808794087900878c0878808784087800877c0877808774087700876c0876808764087600875c087580875408750200f4200e0200d4200c4200b0200a0200942008420074200642005420044200342002420014200001fff41ffe41ffd01ffc41ffb41ffa41ff941ff841ff741ff641ff54)
  (.lf 0)))

def shaPos375 : BTree :=
  .nd (.nd (.nd (.lf
  0xa9ec01cb401ca401c9401c840b7dc01d0414fa101cfc14f9d01cf414f9901cec14f9501ce414f910aa2814f8d002de0aa2407375002da0aa1807371002d60aa0c0736d01cd414f8901ccc14f8501cc414f810aa0414f7d002d20aa00073690a9fc14f79002ce0a9f807365002ca0a9e80736101cac14f750a9e414f71002c60a9dc0735d01c9c14f6d0a9d414f69002c20a9d00735901c8c14f650a9cc14f61)
  (.lf 0)) (.nd (.lf
  0x21348213382132c2131c21314212fc212e8212d8212d40066000ae020e0c20dfc20de820ddc20dc820dbc20dac20d9820d8820d7820d6820d5820d4820d3820d3420d1820d1020cf820cec20cd820cc820cb820cb420c9820c8c20c8020c7420c6020c4820c400065800acc207782076c20760207502073820728207202070820704206e8206e0206c8206b8206ac2069820688206802066820658206482063c)
  (.lf 0))) (.nd (.nd (.lf
  0x1090d109091090510901108fd108f9108f5108f1108ed108e9108e5108e1108dd108d9108d5108d115b31479fc4a7b44a7984a77c4a7604a7444a7284a7104a6f84a6e04a6c84a6b04a6984a6804a6684a6504a6384a6204a6084a5f04a5d84a5c04a5a84a5904a5784a5604a5484a5304a5184a5044a4f0479ec108cd108c9108c5108c1108bd108b9108b5108b1108ad108a9108a5108a11089d1089910895)
  (.lf 0)) (.nd (.lf
  0x3a71c3a7103a7043a6f83a6ec3a6e015ef5000a4034ac034a8034a4034a00349c0349803494034900348c0348803484034800347c0347803474034700346c0346803464034600345c0345803454034500344c0344803444034400343c034383a6d43a6c43a6b43a6a43a6903a6803a6703a6603a6503a6403a6303a6203a6103a6003a5f03a5e03a5d03a5c43a5b03a5a43a5943a5843a5743a5643a5543a544)
  (.lf 0)))

def shaPos376 : BTree :=
  .nd (.nd (.nd (.lf
  0x9f01b1f81b1ec1b1d81b1d41b1c81b1b41b1b01b1a41b1981b1841b1781b16c1b1601b1541b1481b13c1b1381b12c1b1201b1141b1081b0f41b0f01b0dc1b0d81b0c41b0c01b0b41b0a01b09454a4c009e81aeb01ae9c1ae981ae841ae801ae6c1ae601ae5c1ae501ae441ae301ae241ae181ae141ae081adfc1ade81ade41add01adc41adb81adac1ada81ad941ad881ad841ad701ad6c1ad581ad5454a24)
  (.lf
  0x4421444208441fc441f0441e4441d8441cc441c0441b4441a84419c4419015ae5001ac04424044200441c0441804414044100440c044080440404400043fc043f8043f4043f0043ec043e8043e4043e0043dc043d8043d4043d0043cc043c8043c4043c0043bc043b8043b4043b0441844417444164441544414444134441244411444104440f4440e4440d4440c4440b4440a44409444084440744406444054))
  (.nd (.lf
  0x567885676c567505673456718566fc566e0566c4566ac566945667c566645664c566345661c566045424c5425c5693856918568f8568d8568b85689856878568585683856818567f8567d8567bc567a056784567685674c5673056714566f8566dc566c0566a856690566785666056648566305661856600542481267912675126711266d1266912665126611265d1265912655126511264d126491264512641)
  (.lf 0))) (.nd (.nd (.lf
  0x8fa92c4a02c49c08fa52c4902c48c08fa12c4802c47c08f9d2c4702c46c08f992c4602c45c08f952c4502c44c08f912c4402c43c08f8d2c4302c42c08f892c4202c41c08f852c4102c40c08f812c4002c3fc08f7d4f7806a14808f794f7686a11808f754f7506a0ec08f714f7386a0c008f6d4f7206a09408f694f7086a06808f654f6f46a03c08f614f6e06a01008f5d4f6cc69fe408f594f6b869fb808f55)
  (.lf 0)) (.nd (.lf
  0x625dc625bc625946256c6254c6252862504624d8624b86249c62470624506243062410623e8623cc623c462388623746234c623280f3a80f39c0f3900f3840f3780f36c0f3600f3540f3480f33c0f3300f3200f3180f30c0f3000f2f40f2e40f2dc0f2cc0f2c40f2b80f2a80f2a00f2940f2880f2780f26c0f2600f2540f24c15af949180552c45529c552745524c55224551fc551d8551b4551905516c55148)
  (.lf 0)))

def shaPos377 : BTree :=
  .nd (.nd (.nd (.lf
  0x1d6780445d49a301d66c0445949a181d6600445549a001d65404451499e81d6480444d499cc1d63804449499b81d62c04445499a41d620044414998c1d6140443d1d60c1d604044391d5f41d5fc044351d5ec1d5e4044311d5d41d5dc0442d1d5c41d5cc044291d5b41d5bc044251d5ac1d5a4044211d5941d5980441d1d5841d588044191d57c1d578044151d56c1d568044111d5541d55c0440d1d5441d548)
  (.lf 0)) (.nd (.lf
  0x56df456dd856dbc56da056d8456d6856d5056d3856d2056d0856cf056cd856cc056ca8542a05428c56c9056c7056c5056c3056c1056bf056bd056bb056b9056b7056b5056b3056b1456af856adc56ac056aa456a8856a6c56a5056a3456a1856a00569e8569d0569b8569a05698856970569585427854264569405692056900568e0568c0568a05688056860568405682056800567e0567c4567a85678c56770)
  (.lf 0))) (.nd (.nd (.lf
  0x3c2003c1f80de4d3c1f03c1e80de493c1e03c1d80de453c1d03c1c80de413c1c03c1b80de3d3c1b03c1a80de393c1a03c1980de353c1903c1880de313c1803c1780de2d3c1703c1680de293c1603c1580de253c1503c1480de213c1403c1380de1d3c1303c1280de193c1203c1180de15674103c1100de11673e03c1040de0d673b03c0f80de09673843c0ec0de05673583c0e00de016732c3c0d40ddfd67300)
  (.lf 0)) (.nd (.lf
  0x547c0547805474054700546c0546805464054600545c0545805454054500544c0544805444054400543c0543805434054300542c0542805424054200541c054182a0542a0442a0342a0242a0142a00029ff429fe429fd429fc429fb429fa429f9429f8429f7429f6429f5029f4429f3029f2429f1429f0429ef429ee029ed429ec429eb429ea029e9029e84149010070c0930409300092fc092f8092f4092f0)
  (.lf 0)))

def shaPos378 : BTree :=
  .nd (.nd (.nd (.lf
  0x1a95145405a3c801a91145345a3a801a8d145285a38801a89145185a36c01a851450c5a35001a81145045a33401a7d144f85a31801a79144ec5a2fc01a75144e05a2e001a71144d45a2c401a6d144c85a2a801a69144bc5a28c01a65144b05a27001a61144a05a25801a5d144945a24001a59144885a22801a551447c5a20c01a51144745a1f801a4d144685a1e001a491445c5a1c401a451444c5a1ac01a41)
  (.lf 0)) (.nd (.lf
  0x394b8394a8394a0394903948839478394703946039458394483944039430394283941848d7000ef4390c4390b8390ac390a039098390883907c39070390643905c3904c39040390343902c3901c390183900438ffc38ff038fe438fd438fd038fbc38fb038fa438f9838f8c38f8038f7438f6848d6400ee838c1838c0838bfc38bf438be438be038bcc38bc038bb838ba838ba038b9038b8438b8038b6c38b60)
  (.lf 0))) (.nd (.nd (.lf
  0xb56133b0033afc0b55d33af033aec0b55933ae033adc0b55533ad033acc0b55133ac033abc0b54d33ab033aac0b54933aa033a9c0b54533a9033a8c0b54133a8033a7c0b53d33a7033a6c0b53933a6033a5c0b53533a5033a4c0b53133a4033a3c0b52d33a3033a2c0b52933a2033a1c0b52552344466780b52152328466600b51d52308466480b519522f0466300b515522d0466180b511522b8466000b50d)
  (.lf 0)) (.nd (.lf
  0x83c0083bc083b8083b4083b0083ac083a8083a4083a00839c0839808394083901cb481cb381cb281cb181cb081caf81cae81cad81cac81cab81caa81ca981ca881ca781ca681ca541ca481ca341ca281ca181ca081c9f81c9e81c9d81c9c41c9b81c9a81c9981c9841c978159c947940496a849690496784965449644496304961c49608495f4495e0495cc495b44959c4958c4957849564495504953c49528)
  (.lf 0)))

def shaPos379 : BTree :=
  .nd (.nd (.nd (.lf
  0x24de006a214ccc06629006a1d4cca86626006a194cc906623406a154cc786620806a114cc60661dc06a0d4cc48661b006a094cc346618406a054cc206615806a014cc0c6612c069fd4cbf866100069f94cbe4660d4069f54cbd0660ac069f14cbbc66084069ed4cba86605c069e94cb9466034069e54cb806600c069e14cb6c65fe4069dd4cb5865fbc069d94cb4465f94069d54cb3065f6c069d14cb1c65f44)
  (.lf 0)) (.nd (.lf
  0x21218212142120c21204211f8211f0211ec211e0211d847a9400adc20c3020c2820c2020c1820c1020c0820c0020bf820bf020be820be020bd820bd420bcc20bc020bb820bb420ba820ba020b9820b9020b8820b8020b7820b7020b6c20b6420b5820b5020b4847a7400ac8205a02059c205902058c2058020578205702056820560205582055020548205402053820530205282052420518205102050c20500)
  (.lf 0))) (.nd (.nd (.lf
  0x4b8684b8484b8304b8184b8004b7e84b7d04b7b84b7a04b7884b7704b7584b7404b7284b7104b6f84b6e04b3f04b3d84b3c04b3a84b3904b3784b3644b5e04b5c44b5a84b58c4b5784b5e44b5c84b5ac4b5904b5704b5584b5404b5284b5104b4f84b4e04b4c84b4b04b4984b4804b4684b4504b4384b4204b4084b1184b1004b0e84b0d04b0b84b0a04b08c4b3084b2ec4b2d04b2b44b2a04b30c4b2f04b2d4)
  (.lf 0)) (.nd (.lf
  0x3737037368373583735015e710004c02f8402f8002f7c02f7802f7402f7002f6c02f6802f6402f6002f5c02f5802f5402f5002f4c02f4802f4402f4002f3c02f3802f3402f3002f2c02f2802f2402f2002f1c02f1802f1402f103734437334373203731437300372f4372e4372d4372c4372b0372a437294372843727437264372543724437234372243721437204371f4371e4371d4371c4371b4371a437194)
  (.lf 0)))

def shaPos380 : BTree :=
  .nd (.nd (.nd (.lf
  0xfa940fa8c0053d0fa800fa7c005390fa700fa6c005350fa640fa5c005310fa540fa500052d0fa400fa3c005290fa34558b8005250fa285589c005210fa185587c0051d0fa1055864005190fa0455848005150f9f85582c005110f9e8558100050d0f9e0557f4005090f9d0557d8005050f9c8557bc005010f9bc557a0004fd0f9b055784004f90f9a455768004f50f99455750004f10f98c55738004ed0f97c)
  (.lf 0)) (.nd (.lf
  0x5f5f45f5d85f5bc5f5a05f5845f5685f54c5f5305f5185f5005f4e85f4d05f4b85f4a05f4885f4705490013bf913bf513bf113bed13be913be513be113bdd13bd913bd513bd113bcd13bc913bc513bc113bbd13bb913bb513bb113bad13ba913ba513ba113b9d13b9913b9513b9113b8d13b8913b8513b8113b7d548f05f45c5f43c5f41c5f3fc5f3dc5f3bc5f39c5f37c5f35c5f33c5f31c5f2fc5f2e05f2c4)
  (.lf 0))) (.nd (.nd (.lf
  0x2ffd02ffcc0a2812ffc02ffbc0a27d2ffb02ffac0a2792ffa02ff9c0a2752ff902ff8c0a2712ff802ff7c0a26d2ff702ff6c0a2692ff602ff5c0a2652ff502ff4c0a2612ff402ff3c0a25d2ff302ff2c0a2592ff202ff1c0a2552ff102ff0c0a25150ce06c0a40a24d50cc86c0740a24950cb06c0480a24550c986c01c0a24150c806bff00a23d50c686bfc40a23950c546bf980a23550c406bf6c0a23150c2c)
  (.lf 0)) (.nd (.lf
  0xdc9c0dc980dc940dc900dc8c0dc880dc840dc800dc7c0dc780dc740dc700dc6c0dc680dc640dc600dc5c0dc580dc540dc500dc4c0dc480dc440dc400dc3c15e8815e7415e6415e5815e4815e3415e2815e1815e0815df415de815dd815dc815db815da815d9815d8815d7815d6815d5815d4415d3815d2415d1815d0415cf815ce815cd815cc415cb415d35546505bc145bbf45bbd45bbb45bb945bb745bb54)
  (.lf 0)))

def shaPos381 : BTree :=
  .nd (.nd (.nd (.lf
  0x57314b3a445ca80572d4b38c45c94057294b37445c88057254b35845c74057214b34845c640571d4b33045c5405719211c8211cc05715211b8211bc05711211ac211a80570d211a021198057092118c21190057052117c21178057012116c21168056fd2116021158056f92114821150056f5211402113c056f12112821130056ed211202111c056e92110c21110056e5210f8210fc056e1210f0210ec056dd)
  (.lf 0)) (.nd (.lf
  0xa58c014e8014e00a584014d80a578014d0014c80a56c014c0014b80a5600a5500b7740099a003c00a5440a538014b00a52c014a8014a00149801490014880a520014800a5140a5080a4fc01478014700a4f00a4e4014680a4d80a4d00a4c00a4b40a4a80a49c0a4980a48c01460014580b7700094e003bc0a4780a4700a464014500a45801448014400a44c0143801430014280a4400a4340a4280a41c0a410)
  (.lf 0))) (.nd (.nd (.lf
  0xf3a540938409400f3a140928409300f39d40918409200f39940908409100f395408f8409000f391408e8408f00f38d408d8408e00f389408c8408d00f385408b8408c00f381408a8408b00f37d40898408a00f37940888408900f37540878408800f37140868408700f36d40858408600f36940848408500f36540838408400f36140828408300f35d40818408200f35940808408100f355407f8408000f351)
  (.lf 0)) (.nd (.lf
  0x309e4309d4309c4309b4309a4309943098430974309641598d0034405c0c05c0805c0405c0005bfc05bf805bf405bf005bec05be805be405be005bdc05bd805bd405bd005bcc05bc805bc405bc005bbc05bb805bb405bb005bac05ba805ba405ba005b9c05b98309543094430934309243091430904308f4308e4308d4308c4308b4308a430894308843087430864308543084430834308243081430804307f4)
  (.lf 0)))

def shaPos382 : BTree :=
  .nd (.nd (.nd (.lf
  0x5ee7002fe9190045ee5802fe518ff85ee4002fe118fec5ee2802fdd18fe05ee1002fd918fd45edf402fd518fc85eddc02fd118fbc18fb802fcd18fac18fa802fc918f9c18f9802fc518f8c18f8802fc118f7c18f7802fbd18f6c18f6802fb918f5c18f5802fb518f4c18f4802fb118f3c18f3802fad18f2c18f2802fa918f1c18f1802fa518f0c18f0802fa118efc18ef802f9d18eec18ee802f9918edc18ed8)
  (.lf 0)) (.nd (.lf
  0x6b1b86b18c6b1606b1346b1086b0e06b0b86b0906b0686b0406b0186aff06afc86afa06af786ad286ad006acd86acb06ac886ac606ac386ac106abe8640a854d6c6af3c6af0c6aedc6aeb06ae846ae586ae2c6ae006add46ada86ad7c6ad546ad2c6ad046acdc6acb46ac8c6ac646ac3c6ac146abec6a9b46a98c6a9646a93c6a9146a8ec6a8c46a89c6a87463fd054d5c6abc86ab986ab686ab3c6ab106aae4)
  (.lf 0))) (.nd (.nd (.lf
  0x37abc0c8f94863037ab00c8f54861837aa40c8f14860437a9c0c8ed485f037a8c0c8e9485dc37a800c8e5485c437a740c8e1485b437a6c0c8dd485a037a600c8d94858c37a540c8d54857837a480c8d14856437a3c0c8cd4855037a300c8c94853c37a200c8c54852837a180c8c14851437a0c0c8bd4850037a000c8b9484ec379f00c8b5484d8379e80c8b1484c4379dc0c8ad484b0379cc0c8a945c50379c0)
  (.lf 0)) (.nd (.lf
  0x236f4236e4236d4236c4236b4236a423694236842367423664236542364423634236242361423604235f4235e4235d4235c4235b4235a42359423584148c10068c08b8408b8008b7c08b7808b7408b7008b6c08b6808b6408b6008b5c08b5808b5408b5008b4c08b4808b4408b4008b3c08b3808b3408b3008b2c08b2808b2408b2008b1c08b1808b1408b102357423564235542354423534235242351423500)
  (.lf 0)))

def shaPos383 : BTree :=
  .nd (.nd (.nd (.lf
  0x7ce12894c2895007cdd289382894007cd9289302892807cd5289182891c07cd1289082890c07ccd28900288f807cc9288f0288e807cc54e218681ec07cc14e200681bc07cbd4e1e86819007cb94e1d06816407cb54e1b86813807cb14e1a06810c07cad4e18c680e007ca94e178680b407ca54e1646808807ca14e1506805c07c9d4e13c6803007c994e1286800807c954e11467fe007c914e10067fb807c8d)
  (.lf 0)) (.nd (.lf
  0x4b10c4b0f44b0dc4b0c44b0ac4b0944b07c4b0684b05447a7047a604b0404b0244b0084afec4afd04afb44af9c4af844af6c4af544af3c4af244af0c4aef44aedc4aec44aeac4ae944ae7c4ae644ae4c4ae344ae1c4ae044adec4add44adbc4ada44ad904ad7c47a5047a404ad684ad4c4ad304ad144acf84acdc4acc44acac4ac944ac7c4ac644ac4c4ac344ac1c4ac044abec4abd44abbc4aba44ab8c4ab74)
  (.lf 0))) (.nd (.nd (.lf
  0x1188d1188911885118811187d1187911875118711186d1186911865118611185d11859118551185115bb947d444f7784f7604f7484f7304f7184f7004f6ec4f6d84f6c44f6b04f69c4f6884f6744f6604f64c4f6384f6244f6104f5fc4f5e84f5d44f5c04f5ac4f5984f5844f5704f55c4f5484f5384f52847d381184d1184911845118411183d1183911835118311182d1182911825118211181d1181911815)
  (.lf 0)) (.nd (.lf
  0x3dac43dab83daac3daa03da943da883da7c3da7015f79000fc039d4039d0039cc039c8039c4039c0039bc039b8039b4039b0039ac039a8039a4039a00399c0399803994039900398c0398803984039800397c0397803974039700396c0396803964039603da643da543da443da343da243da143da043d9f43d9e43d9d43d9c43d9b43d9a43d9943d9843d9743d9643d9543d9443d9343d9243d9143d9043d8f4)
  (.lf 0)))

def shaPos384 : BTree :=
  .nd (.nd (.nd (.lf 0x0) (.lf
  0x3e4b43e4a83e49c3e4903e4843e4783e46c3e4603e4543e4483e43c3e4303e4243e4183e40c3e4003e3f43e3e83e3dc3e3d015f910010c03ac403ac003abc03ab803ab403ab003aac03aa803aa403aa003a9c03a9803a9403a9003a8c03a8803a8403a8003a7c03a7803a7403a7003a6c03a6803a6403a6003a5c03a5803a5403a503e3c43e3b43e3a43e3943e3843e3743e3643e3543e3443e3343e3243e314))
  (.nd (.lf
  0x11b7511b7111b6d11b6911b6511b6111b5d11b5911b5511b5111b4d11b4911b4511b4111b3d11b3915bd147dd4505bc505a45058c505745055c50544505305051c50508504f4504e0504cc504b8504a4504905047c5046850454504405042c5041850404503f0503dc503c8503b4503a05038c5037c5036c47dc811b3511b3111b2d11b2911b2511b2111b1d11b1911b1511b1111b0d11b0911b0511b0111afd)
  (.lf 0))) (.nd (.nd (.lf
  0x6830c07e954e340682e407e914e32c682bc07e8d4e3186829407e894e3046826c07e854e2f06824407e814e2dc6821c07e7d4e2c86362c07e794e2b46360c07e754e2a0635ec07e714e28c635cc07e6d4e278635ac07e694e2646358c07e654e2506356c07e614e24061f5807e5d4e23061f3c07e5928e8028e7807e5528e6828e7007e5128e6028e5c07e4d28e5028e4c07e4928e3828e3c07e4528e3028e2c)
  (.lf 0)) (.nd (.lf
  0x4cfc44cfb04cf9c4cf884cf744cf604cf4c4cf3c4cf2c47bbc47bb04cf1c4cf044ceec4ced44cebc4cea44ce904ce7c4ce684ce544ce404ce2c4ce184ce044cdf04cddc4cdc84cdb44cda04cd8c4cd784cd644cd504cd3c4cd284cd144cd004ccec4ccdc4cccc47ba447b984ccbc4cca44cc8c4cc744cc5c4cc444cc304cc1c4cc084cbf44cbe04cbcc4cbb84cba44cb904cb7c4cb684cb544cb404cb2c4cb18)
  (.lf 0)))

def shaPos385 : BTree :=
  .nd (.nd (.nd (.lf
  0x5f5e8031e9196f05f5cc031e5196e45f5b0031e1196dc5f594031dd196d05f578031d9196c45f55c031d5196b45f540031d1196a85f528031cd1969c5f510031c9196905f4f8031c5196885f4e0031c11967c5f4c8031bd196705f4b0031b9196605f498031b5196585f480031b11964819644031ad1963c19634031a91962c19628031a5196181961c031a119608196040319d195f8195f403199195e8195ec)
  (.lf 0)) (.nd (.lf
  0x660746604c6602465ffc65fd465fac65f8465f5c62d7c62d5c62d3c62d1c62cfc62cdc62cbc65cf465ccc65ca454bac65f3465f0465ed465ea865e7c65e5065e2465df865dcc65da065d7465d4865d2065cf865cd065ca865c8065c5865c3065c0865be062c9c62c7c62c5c62c3c62c1c62bfc62bdc65978659506592854b9865bb865b8865b5865b2c65b0065ad465aa865a7c65a5065a24659f8659cc659a4)
  (.lf 0))) (.nd (.nd (.lf
  0x381b00caf962e24381a40caf562e04381940caf162de4381880caed62dc4381800cae962da4381740cae561d74381640cae161d58381580cadd38150381480cad938138381400cad538130381280cad1381183811c0cacd381103810c0cac938100380fc0cac5380f0380ec0cac1380e0380dc0cabd380d0380cc0cab9380c0380bc0cab5380ac380b00cab1380a0380980caad38090380880caa93807c38078)
  (.lf 0)) (.nd (.lf
  0x24014240082400423ff823ff023fe823fe423fdc23fd423fc815e690049c06e7406e7006e6c06e6806e6406e6006e5c06e5806e5406e5006e4c06e4806e4406e4006e3c06e3806e3406e3006e2c06e2806e2406e2006e1c06e1806e1406e1006e0c06e0806e0406e0023fc423fb023fa023f9423f8423f7423f6023f5423f4423f3023f2423f1423f0023ef023ee423ed423ec423eb423ea423e9423e8423e70)
  (.lf 0)))

def shaPos386 : BTree :=
  .nd (.nd (.nd (.lf
  0x1019c101a00073d1018c1019400739101801018400735101741016c007311015c101600072d1014c10150007291013c10144007251013010134007211011c101200071d101101011400719100fc1010000715100ec100f400711100dc100e00070d100cc100d400709100c055f5800705100b455f3800701100a855f18006fd1009c55ef8006f91009455ed8006f51008855eb8006f11007855e98006ed10070)
  (.lf 0)) (.nd (.lf
  0x6033460318602fc602e0602c4602a86028c6027060258602406022860210601f8601e0601c8601b0549a013df913df513df113ded13de913de513de113ddd13dd913dd513dd113dcd13dc913dc513dc113dbd13db913db513db113dad13da913da513da113d9d13d9913d9513d9113d8d13d8913d8513d8113d7d549906019c6017c6015c6013c6011c600fc600dc600bc6009c6007c6005c6003c6002060004)
  (.lf 0))) (.nd (.nd (.lf
  0xa44d50e7c647100a44950e68646e40a44550e54646b80a44150e40646900a43d50e2c646680a43950e18646400a43550e04646180a43150df0645f00a42d50ddc645c80a42950dc8645a00a42550db4645780a42150da0645500a41d50d8c645280a41950d78628280a41550d64628080a41150d50627e80a40d50d3c627c80a40950d28627a80a40550d14627880a40150d04627680a3fd50cf454e380a3f9)
  (.lf 0)) (.nd (.lf
  0x1689c1689016884168781686c16065063b40de180de140de100de0c0de080de040de000ddfc0ddf80ddf40ddf00ddec0dde80dde40dde00dddc0ddd80ddd40ddd00ddcc0ddc80ddc40ddc00ddbc0ddb80ddb40ddb00ddac0dda80dda4168601684c1683c168301682016810167fc167ec167dc167cc167c0167ac1679c1678c167801676c167601674c1673c1672c1671c1670c166fc166ec166e0166cc166c0)
  (.lf 0)))

def shaPos387 : BTree :=
  .nd (.nd (.nd (.lf
  0x2176c058f52175c21758058f12174c21748058ed217402173c058e92173021728058e52171c21718058e12170c21708058dd216f821700058d9216e8216f0058d5216e0216d8058d1216cc216d0058cd216b8216bc058c9216b0216a8058c52169c21698058c12168821690058bd00a9200a8e00a8a00a8600a8200a7e00a7a00a7600a7200a6e00a6a00a6600a6200a5e00a5a0bca014c49017fe0bc9c058b9)
  (.lf 0)) (.nd (.lf
  0x1aa001a9801a900a8d401a880a8c80a8bc01a800a8b00b7bc00c4a251c4251ac25198004b0000080a8a801a7801a7001a680a89c0a8900a88401a600a87c0a86c01a580a8640a85001a5001a4801a400a84c01a380a83801a3001a2801a200a82c0a82401a180a81801a1001a0801a000b7b800c0a00b780bee8019f80bee0019f0019e8019e00bed40becc019d8019d00beb8019c8019c00beac019b80bea0)
  (.lf 0))) (.nd (.nd (.lf
  0xf5a56409c40fb80f5a16407c40fac0f59d6405c40fa00f5996403c40f940f5956401c40f880f59163ffc40f7c0f58d6220440f700f589621e840f640f585536b040f580f5815368c40f4c0f57d5366840f400f5795364440f340f5755362040f280f571535fc40f1c0f56d535d840f100f569535b440f040f5655359040ef80f5615356c40eec0f55d5354840ee00f5595352440ed40f5555350440ec80f551)
  (.lf 0)) (.nd (.lf
  0x31404313f4313e4313d4313c4313b4313a431394313843137431364313543134431334313243131431304312f4312e4312d4312c415a9147e6c53304532e0532bc5329853274532505322c53208531e4531c05319c5317c5315c5313c5311c530fc530dc530bc5309c5307c5305c53040530245300852fec52fd052fb452f98511bc511a8312b0312a8312a431298312903128c312803127c312703126831260)
  (.lf 0)))

def shaPos388 : BTree :=
  .nd (.nd (.nd (.lf
  0x9e41ad401ad301ad201ad101ad001acf01ace01acd01acc01acb01aca01ac901ac801ac701ac601ac501ac401ac301ac201ac101ac001abf01abe01abd01abc01abb01aba01ab901ab801ab7006458009dc1a9f81a9e81a9d81a9c81a9b81a9a81a9981a9881a9781a9681a9581a9481a9381a9281a9181a9081a8f81a8e81a8d81a8c81a8b81a8a81a8981a8881a8781a8681a8581a8481a8381a82806450)
  (.lf
  0x44cf044ce844cdc44cd044cc444cb444cac44c9c44c9044c8844c7844c6c44c6444c5444c4c44c4044c3444c2444c1844c1044c0444bf844be844bdc15c890649c0ec180ec100ec080ec000ebf80ebf00ebe80ebe00ebd80ebd00ebc80ebc00ebb80ebb00eba80eba00eb980eb900eb880eb800eb780eb700eb680eb600eb580eb500eb480eb400ec280ec2044bd444bc444bb444ba444b9444b8444b7444b64))
  (.nd (.lf
  0x574c8574ac5749057474574585743c5742057404573ec573d4573bc573a45738c573745735c57344542ec542fc57678576585763857618575f8575d8575b85759857578575585753857518574fc574e0574c4574a85748c5747057454574385741c57400573e8573d0573b8573a057388573705735857340542e81287912875128711286d1286912865128611285d1285912855128511284d128491284512841)
  (.lf 0))) (.nd (.nd (.lf
  0x4f92c6a360091694f9186a334091654f9046a308091614f8f06a2e00915d4f8dc6a2b8091594f8c86a290091554f8b46a268091514f8a06a2400914d4f88c6a218091494f8786a1f0091454f8646a1c8091414f8506a1a00913d4f83c6a178091394f82863e0c091354f81463dec091314f80063dcc0912d4f7ec63dac091294f7d863d8c091254f7c463d6c091214f7b063d4c0911d4f7a062150091194f790)
  (.lf 0)) (.nd (.lf
  0xfc2415fdd062ac0cea00ce9c0ce980ce940ce900ce8c0ce880ce840ce800ce7c0ce780ce740ce700ce6c0ce680ce640ce600ce5c0ce580ce540ce500ce4c0ce480ce440ce400ce3c0ce380ce340ce300ce2c0fc140fc080fbf80fbe40fbd40fbc40fbb80fba80fb940fb840fb780fb680fb580fb440fb340fb280fb180fb040faf80fae80fad80fac80fab80faa80fa980fa880fa740fa680fa580fa4415fd9)
  (.lf 0)))

def shaPos389 : BTree :=
  .nd (.nd (.nd (.lf
  0x1dbb81dbc0046291dba81dbac046251db981dba0046211db901db8c0461d1db801db78046191db681db70046151db5c1db60046111db481db4c0460d1db381db3c046091db301db28046051db181db1c046011db081db0c045fd1daf81db00045f91dae81daec045f50086a00866008620085e0085a00856008520084e0084a00846008420083e0083a00836008320082e0082a00826008220081e0081a0125c)
  (.lf 0)) (.nd (.lf
  0x595b4595985957c59560595445952859510594f8594e0594c8594b0594985948059468544805446c594505943059410593f0593d0593b05939059370593505933059310592f0592d4592b85929c5928059264592485922c59210591f4591d8591c0591a8591905917859160591485913059118544585444459100590e0590c0590a0590805906059040590205900058fe058fc058fa058f8458f6858f4c58f30)
  (.lf 0))) (.nd (.nd (.lf
  0x6993c3c8b40e04d699103c8a80e049698e43c89c0e045698b83c8900e0416988c3c8840e03d698643c8780e0396983c3c86c0e035698143c8600e031697ec3c8540e02d697c43c8480e0296979c3c83c0e025697743c8300e0216974c3c8240e01d697243c8180e01963b843c80c0e01563b643c8000e01163b443c7f40e00d63b243c7e80e00963b043c7dc0e00563ae43c7d00e00163ac43c7c40dffd620bc)
  (.lf 0)) (.nd (.lf
  0x69274692486921c691f0691c469198691706914869120690f8690d0690a869080690586903069008639a86398863968639486392863908638e862034620182a9b42a9ac2a9a42a99c2a9942a98c2a9842a97c2a9742a96c2a9642a95c2a9542a94c2a9442a9382a9342a92c2a9242a91c2a9142a90c2a9042a8fc2a8f42a8ec2a8e42a8dc2a8d42a8cc15f290051c075f4075f0075ec075e8075e4075e0075dc)
  (.lf 0)))

def shaPos390 : BTree :=
  .nd (.nd (.nd (.lf
  0x1c9514c305ab6801c9114c205ab4801c8d14c185ab2801c8914c0c5ab0801c8514bfc5aae801c8114bf05aac801c7d14be85aaa801c7914bd85aa8801c7514bcc5aa6801c7114bc05aa4801c6d14bb85aa2801c6914ba85aa0c01c6514ba05a9f001c6114b945a9d401c5d14b845a9b801c5914b7c5a99c01c5514b6c5a98001c5114b645a96401c4d14b545a94801c4914b485a92c01c4514b405a91001c41)
  (.lf 0)) (.nd (.lf
  0x3ccf43cce83ccdc3ccd03ccc43ccb83ccac3cca03cc943cc883cc7c3cc703cc643cc5848e0000f843c9043c8f83c8ec3c8e03c8d43c8c83c8bc3c8b03c8a43c8983c88c3c8803c8743c8683c85c3c8503c8443c8383c82c3c8203c8143c8083c7fc3c7f03c7e43c7d83c7cc3c7c03c7b43c7a848df400f783c4543c4483c43c3c4303c4243c4183c40c3c4003c3f43c3e83c3dc3c3d03c3c43c3b83c3ac3c3a0)
  (.lf 0))) (.nd (.nd (.lf
  0x468700b725525ac468580b72152590468400b71d5257c468280b71952564468100b7155254c467f80b71152530467e00b70d52518467c80b70952500467b40b705524e8467a00b701524d04678c0b6fd524b8467780b6f9524a4467640b6f55248c467500b6f1524744673c0b6ed5245c467280b6e952444467140b6e552428467000b6e152414466f00b6dd523fc466e00b6d9523e4466d00b6d5523cc466c0)
  (.lf 0)) (.nd (.lf
  0x66e0066dc066d8066d4066d0066cc066c8066c4066c0066bc066b8066b4066b0066ac066a8066a4066a00669c0669806694066900668c0668806684066801d6101d6001d5f01d5e01d5d01d5c01d5b01d59c1d5901d5801d5701d5601d54c1d53c1d5301d51c1d50c1d4fc1d4ec1d4e01d4cc1d4bc1d4ac1d49c1d4901d4801d4701d45c1d44c1d440158d1001cc0460404600045fc045f8045f4045f0045ec)
  (.lf 0)))

def shaPos391 : BTree :=
  .nd (.nd (.nd (.lf
  0x6bd94cd6862e4c06bd54cd5462e2c06bd14cd4062e0c06bcd4cd2c62dec06bc94cd1862dcc06bc54cd0462dac06bc14ccf062d8c06bbd4cce061d5c06bb94ccd061d4406bb5253682537006bb1253602535806bad2534c2534806ba9253402533806ba5253282533006ba1253202531c06b9d253102530c06b9925300252fc06b95252f0252e806b91252e0252d806b8d252c8252d006b89252c0252b806b85)
  (.lf 0)) (.nd (.lf
  0x260d8260d4260c8260c0260b8260b0260ac260a02609c48d5000bb025af025ae825ae025ad825ad025ac825ac425ab825ab025aa825aa025a9825a9025a8825a8025a7825a7025a6825a6025a5825a5025a4c25a4025a3825a3025a2825a2025a1c25a1025a0848d4400ba025460254582545025448254402543825430254282542425418254102540825400253f8253f0253ec253e0253d8253d0253c8253c4)
  (.lf 0))) (.nd (.nd (.lf
  0x4d5e84d5d04d5b84d5a44d5904d57c4d5684d5544d5404d52c4d5184d5044d4f04d4dc4d4c84d4b44d4a04d22c4d2184d2044d1f04d1dc4d1c84d1b44d3cc4d3b44d39c4d3844d36c4d3d44d3b84d3a04d3884d3704d3584d3444d3304d31c4d3084d2f44d2e04d2cc4d2b84d2a44d2904d27c4d2684d2544d2404cfcc4cfb84cfa44cf904cf7c4cf684cf544d16c4d1544d13c4d1244d10c4d1704d1584d140)
  (.lf 0)) (.nd (.lf
  0x37d6437d5837d4c37d4037d3437d2837d1837d1037d0437cf837cec37ce037cd437cc437cbc37cb015e890005c03074030700306c0306803064030600305c0305803054030500304c0304803044030400303c0303803034030300302c0302803024030200301c0301803014030100300c03008030040300037ca437c9437c8437c7437c6437c5437c4437c3437c2437c1437c0437bf437be437bd437bc437bb4)
  (.lf 0)))

def shaPos392 : BTree :=
  .nd (.nd (.nd (.lf
  0x8d013bd013bc413bb813bb013ba013b9813b8813b8013b7013b6413b5813b4c13b4813b3413b2813b1c13b1813b0c13b0013aec13ae813ad413ac813abc13ab013aa413aa013a9413a8813a74544ac008c813888138841387013868138581384c1384013834138281381c1381013804137f8137ec137e0137d4137c8137bc137b0137a4137981378c1378013774137681375c1375013744137381372c54484)
  (.lf
  0x4185c4185041844418384182c418204181441808417fc417f0417e4417d8417cc417c0417b4417a84179c4179041784417784176c4176015e350016403fec03fe803fe403fe003fdc03fd803fd403fd003fcc03fc803fc403fc003fbc03fb803fb403fb003fac03fa803fa403fa003f9c03f9803f9403f9003f8c03f8803f8403f8003f7c03f78417544174441734417244171441704416f4416e4416d4416c4))
  (.nd (.lf
  0x5bbe05bbc05bba05bb805bb605bb405bb205bb005bae05babc5baa05ba845ba685ba4c5ba305ba145b9f85b68c5b6705b6585b8ac5b88c5b86c5b84c5b82c5b80c5b7ec5b7cc5b7ac5b78c5b7745b8b05b8905b8705b8505b8305b8105b7f05b7d05b7b05b7905b76c5b7505b7345b7185b6fc5b6e05b6c45b6a85b33c5b3205b3085b5605b53c5b51c5b4fc5b4dc5b4bc5b49c5b47c5b45c5b43c5b4245b564)
  (.lf 0))) (.nd (.nd (.lf
  0x4220adf4088150041e0ade8088110041a0addc0880d0215c151d50b830151d10b82c160692ad702ad6c088092ad602ad5c088052ad502ad4c088012ad402ad3c087fd2ad302ad2c087f92ad202ad1c087f52ad102ad0c087f12ad002acfc087ed2acf02acec087e92ace02acdc087e52acd02accc087e12acc02acbc087dd2acb02acac087d92aca02ac9c087d52ac902ac8c087d12ac802ac7c087cd2ac70)
  (.lf 0)) (.nd (.lf
  0x4ca744ca6447b8447b904ccb44cc9c4cc844cc6c4cc544cc3c4c9c84c9b44c9a04c98c4c9784c9644c9504c93c4c9284c9144c9004c8ec4c8d84c8c44c8b04c89c4c8884c8744c8604c84c4c8344c8244c8144c80447b6c47b784ca544ca3c4ca244ca0c4c9f44c9dc4c7684c7544c73c4c72c4c7184c7044c6f04c6dc4c6c84c6b44c6a04c68c4c6784c6644c6504c63c4c6284c6144c6004c5ec4c5d44c5c4)
  (.lf 0)))

def shaPos393 : BTree :=
  .nd (.nd (.nd (.lf
  0x3c951bc341bc3c03c911bc241bc2c03c8d1bc141bc1c03c891bc041bc0c03c851bbf41bbfc03c811bbe41bbec03c7d1bbd41bbdc03c791bbcc6514003c751bbc06511003c711bbb0650e003c6d1bba8650b003c691bb986508003c651bb8c6505003c611bb846502003c5d1bb7864ff003c591bb6864fc003c551bb6064f9003c511bb5464f6003c4d1bb4464f3003c491bb3c64f0403c451bb2c64ed803c41)
  (.lf 0)) (.nd (.lf
  0x25088250782507025060250482504025028250202500c24ff824fe824fd824fc824fb80026000b8824af824af424ae424acc24ac424aa824a9c24a8c24a7824a6c24a5824a4824a3c24a2824a2424a0c24a04249e8249dc249c8249b8249b4249982498c2497c249702495c2494c24938249340025800b74244702445c2444c24438244342441824408243f8243f4243e0243cc243bc243a8243a4243942437c)
  (.lf 0))) (.nd (.nd (.lf
  0xd5a565f283a4f00d5a165ef83a4e00d59d65ec83a4d40d59965e9c3a4c80d59565e703a4c00d59165e443a4b40d58d65e183a4a40d58965dec3a4980d58565dc03a4900d58165d943a4840d57d65d683a4740d57965d403a4680d57565d183a45c0d57165cf03a4540d56d65cc83a4480d56965ca03a4380d56565c783a42c0d56165c503a4240d55d65c283a4140d55965c003a40c0d55565bd83a4000d551)
  (.lf 0)) (.nd (.lf
  0x631e861e7461e58275342752c2752427518275142750c27504274f8274f4274ec274e4274dc274d4274cc274c4274b8274b4274ac274a42749c274942748c274842747c274702746c274642745c274542744c15ec9004dc07234072300722c0722807224072200721c0721807214072100720c072080720407200071fc071f8071f4071f0071ec071e8071e4071e0071dc071d8071d4071d0071cc071c8071c4)
  (.lf 0)))

def shaPos394 : BTree :=
  .nd (.nd (.nd (.lf
  0x58470011e91270058454011e5126f85843c011e1126ec58424011dd126e058410011d9126d0583f8011d5126c4583dc011d1126b8126b4011cd126ac126a4011c9126981269c011c51268c12688011c1126781267c011bd1266c12664011b9126581265c011b51264c12644011b11263412638011ad1262812624011a91261412618011a51260412608011a1125f4125fc0119d125e8125ec01199125dc125d8)
  (.lf 0)) (.nd (.lf
  0x3a5d43a5bc3a5b43a5a03a5903a57c3a5703a55c3a5503a53c3a5283a51c3a50c3a4f8000a000f203a2243a2083a1f83a1e83a1d83a1c83a1c03a1a83a1a43a1883a1803a1743a1583a1483a1443a1283a1183a10c3a0f83a0f43a0d83a0d43a0bc3a0a83a09c3a0943a07c3a0683a05c3a0480009800f1439d7439d5839d4839d3c39d2c39d1839d0839d0039ce839cd839cd439cc439ca839c9839c8839c78)
  (.lf 0))) (.nd (.nd (.lf
  0x3238c0adcd323803237c0adc9323703236c0adc5323603235c0adc1323503234c0adbd323403233c0adb9323303232c0adb5323203231c0adb1323103230c0adad32300322fc0ada9322f0322ec0ada5322e0322dc0ada1322d0322cc0ad9d322c0322bc0ad99322b0322ac0ad95322a03229c0ad91322903228c0ad8d322803227c0ad89322703226c0ad85322603225c0ad81322503224c0ad7d322403223c)
  (.lf 0)) (.nd (.lf
  0x19eb819ea819e9819e8819e7819e6819e5815da5549705fe545fe385fe185fdf85fdd85fdb85fd985fd785fd585fd385fd185fcf85fcdc5fcc05fca45fc885fc6c5fc505fc345fc185fbfc5fbe05fbc85fbb05fb985fb805fb685fb505fb385fb2019e4819e3c19e3019e2019e1419e0c19dfc19df419de419ddc19dcc19dc419db419dac19d9c19d9019d8419d7819d6c19d6419d5419d4819d3c19d3019d24)
  (.lf 0)))

def shaPos395 : BTree :=
  .nd (.nd (.nd (.lf
  0x2363c06285236302362c06281236202361c0627d236102360c06279235f82360006275235e8235f006271235e0235dc0626d235d0235cc06269235c0235bc06265235b0235ac0626123598235a00625d235882359006259235802357c06255235702356c06251235602355c0624d2354c2354806249235382353c062452352c23530062412351c235200623d2350c2351006239234fc234f806235234ec234f0)
  (.lf 0)) (.nd (.lf
  0x258b8258b025898258882587c2586825860258502583825828004b800b9c2536c2535c253502533c2532c2531825308252f8252ec252dc252cc252bc252a82529c25290252802526c25258252482523c252342522025210251fc251f0251dc251d000b8c24ce424cc824cc424ca824ca024c8824c7824c6c24c5824c4824c3824c2c24c1824c0824bf824be824bd824bc824bb824ba824b9824b8824b7824b68)
  (.lf 0))) (.nd (.nd (.lf
  0x4582c4337c1004d43368433701004943358433601004543348433501004143338433401003d433284333010039433184332010035433084331010031432f8433001002d432e8432f010029432d8432e010025432c8432d010021432b8432c01001d432a8432b01001943298432a01001543288432901001143278432801000d43268432701000943258432601000543248432501000143238432400fffd43228)
  (.lf 0)) (.nd (.lf
  0x347c4347b4347a434794347843477434764347543474415ab147f6c528f0528d4528b8528a0528845286c528505283c5282452808527f0527dc527c0527a8527905277c527605274c527345271c52700526ec526d4526b8526a45268c52670526605264c52638347343472c3472434718347103470834704346f8346f0346ec346e4346d8346d4346cc346c4346b8346b4346a8346a034698346943468834680)
  (.lf 0)))

def shaPos396 : BTree :=
  .nd (.nd (.nd (.lf
  0x61a9861a7845e7845e6845e5845e4845e3845e2845e1845e0848ce448ccc48cec48cd048cb848ca448c9048c7c48c6848c5448c4048c2c48c1848c0445de845dd845dc845db845da845d9845d8845d7848b3848b2048b3c48b2448b0c48af848ae448ad048abc48aa848a9448a8048a6c48a5845d5445d4445d3445d2445d1445d0445cf445ce84898c489744899048978489604894c489384892448910488fc)
  (.lf 0)) (.nd (.lf
  0x1333d1333913335133311332d1332913325133211331d1331913315133111330d133091330513301132fd546485bc0c5bbec5bbcc5bbac5bb8c5bb6c5bb4c5bb2c5bb0c5baec5bacc5baac5ba905ba745ba585ba3c5ba205ba045b9e85b9cc5b9b05b9945b97c5b9645b94c5b9345b91c5b9045b8ec5b8d454634546445bc085bbe85bbc85bba85bb885bb685bb485bb285bb085bae85bac85baa85ba8c5ba70)
  (.lf 0))) (.nd (.nd (.lf
  0x153e502564153e10255c153dd0b0ec153d90051e0b0e809af10051a0b0dc09aed005160b0d009ae90254c153d50b860153d10b85c153cd2e8802e87c09ae52e8702e86c09ae12e8602e85c09add2e8502e84c09ad92e8402e83c09ad52e8302e82c09ad12e8202e81c09acd2e8102e80c09ac92e8002e7fc09ac52e7f02e7ec09ac12e7e02e7dc09abd2e7d02e7cc09ab92e7c02e7bc09ab52e7b02e7ac09ab1)
  (.lf 0)) (.nd (.lf
  0x13230132201320c15ce95444859104590e4590c8590a8590885906859048590285900858fe858fc858fa858f8858f7058f5458f3858f1c58f0058ee458ec458eac58e9058e7458e5c58e4458e2c58e1858e0058de458dd013200131f4131e4131d8131cc131c0131b8131a81319c13190131881317c131701316413154131481313c1313413124131181311013104130f8130ec130e0130d4130c8130bc130ac)
  (.lf 0)))

def shaPos397 : BTree :=
  .nd (.nd (.nd (.lf
  0x1fad01fac804fb51fab81fac004fb11fab01faac04fad1faa01fa9c04fa91fa901fa8c04fa51fa801fa7c04fa11fa701fa6804f9d1fa601fa5c04f991fa501fa4c04f951fa401fa3c04f911fa301fa2c04f8d1fa201fa1c04f891fa101fa0c04f851fa001f9fc04f811f9f01f9ec04f7d1f9e01f9dc04f791f9d01f9cc04f751f9c01f9bc04f711f9b01f9ac04f6d1f9a01f99c04f691f9901f98c04f651f980)
  (.lf 0)) (.nd (.lf
  0x58e0458dec58dd458dbc5442454438590f4590d4590b4590945907459054590345901458ff458c8458c6058c4458c2858c0c58bf058bd458bb858b9c58b8058b6458b4458b2c58b1458afc58ae458acc58ab458a9c58a8458a6c543fc5441058da458d8458d6458d4458d2458d0458ce458cc458ca45893458910588f4588d8588bc588a058884588685884c5883058814587f4587dc587c4587ac587945877c)
  (.lf 0))) (.nd (.nd (.lf
  0x3ec380eaf93ec303ec280eaf53ec203ec180eaf13ec103ec080eaed3ec003ebf80eae93ebf03ebe80eae53ebe03ebd80eae13ebd03ebc80eadd3ebc03ebb80ead93ebb03eba80ead53eba03eb980ead13eb903eb880eacd3eb803eb780eac93eb703eb680eac53eb603eb580eac13eb503eb480eabd6936c3eb400eab96933c3eb340eab56930c3eb280eab1692e03eb1c0eaad692b43eb100eaa9692883eb04)
  (.lf 0)) (.nd (.lf
  0x6ad8c6ad606ad386ad106ace86acc06ac986ac706ac486ac206abf8640b0640906407064054640346401463ff4621fc621e02de342de2c2de242de1c2de142de0c2de042ddfc2ddf42ddec2dde42dddc2ddd42ddcc2ddc42ddbc2ddb42ddac2dda42dd9c2dd942dd8c2dd842dd7c2dd742dd6c2dd642dd5c2dd542dd4c15f890055c079b4079b0079ac079a8079a4079a00799c0799807994079900798c07988)
  (.lf 0)))

def shaPos398 : BTree :=
  .nd (.nd (.nd (.lf
  0x171ac171b40273d171a41719c027391718c1719402735171841717c0273117174171700272d17164171600272917154171500272517144171400272117134171300271d171241712002719171141711002715171041710002711170f4170f00270d170e4170e002709170d4170d002705170c4170c002701170b4170b0026fd170a4170a0026f91709417090026f51708417080026f11707417070026ed17064)
  (.lf 0)) (.nd (.lf
  0x4195c4195041944419384192c419204191441908418fc418f0418e4418d8418cc418c048e50010484156c4156041554415484153c4153041524415184150c41500414f4414e8414dc414d0414c4414b8414ac414a041494414884147c4147041464414584144c4144041434414284141c4141048e480103c410bc410b0410a4410984108c4108041074410684105c4105041044410384102c410204101441008)
  (.lf 0))) (.nd (.nd (.lf
  0x472240c079458c8472100c075458bc471fc0c071458b0471e80c06d458a4471d40c06945898458780c065458884586c0c06135da835db00c05d35d9835da00c05935d8835d900c05535d7835d800c05135d6835d700c04d35d5835d600c04935d4835d500c04535d3835d400c04135d2835d300c03d35d1835d200c03935d0835d100c03535cf835d000c03135ce835cf00c02d35cd835ce00c02935cc835cd0)
  (.lf 0)) (.nd (.lf
  0x20b5420b4c15c410045c06ab406ab006aac06aa806aa406aa006a9c06a9806a9406a9006a8c06a8806a8406a8006a7c06a7806a7406a7006a6c06a6806a6406a6006a5c06a5806a5406a5006a4c06a4806a4406a4020b4420b3420b2420b1420b0420af420ae020ad420ac420ab020aa020a9020a8420a7420a6420a5020a4420a3420a2420a1420a04209f0209e4209d4209c4209b0209a4209942098020974)
  (.lf 0)))

def shaPos399 : BTree :=
  .nd (.nd (.nd (.lf
  0x2e20aa34075590b7e814fa50b7e0160392725c27258075552724c2724807551272402723c0754d2722c2723007549272202721c075452720c2721007541271f8272000753d271e8271ec07539271dc271e007535271cc271d007531271b8271bc0752d271a8271b0075292719c271a007525271882718c075212717c271800751d2716c2717007519271602715c075152714c271500751127138271400750d)
  (.lf 0)) (.nd (.lf
  0x26214261fc261e8261dc261d0261b8261ac2619826188006c000bb425cc825cb825ca825c9825c8825c7825c6825c5825c4825c3825c2825c1825c0825bf825be825bd825bc825bb825ba825b9825b8825b7825b6825b5825b4825b3825b2825b1825b0825afc006b800ba4256382562c2561825608255fc255f4255d8255cc255b8255ac2559c255942557c2556c255642555425538255282552025508254f8)
  (.lf 0))) (.nd (.nd (.lf
  0x10bf510bf110bed10be910be510be110bdd10bd910bd510bd110bcd10bc910bc510bc110bbd10bb915b5147abc4b8c44b8a84b88c4b8704b8544b8384b8204b8084b7f04b7d84b7c04b7a84b7904b7784b7604b7484b7304b7184b7004b6e84b6d04b6b84b6a04b6884b6704b6584b6404b6284b6144b60047aac10bb510bb110bad10ba910ba510ba110b9d10b9910b9510b9110b8d10b8910b8510b8110b7d)
  (.lf 0)) (.nd (.lf
  0x3b10c3b1003b0f43b0e83b0dc3b0cc3b0c43b0b83b0ac3b09c3b0943b0883b07c3b0703b0643b0583b04c3b04015f0d000b40359c0359803594035900358c0358803584035800357c0357803574035700356c0356803564035600355c0355803554035500354c0354803544035400353c0353803534035300352c035283b0303b0203b0143b0043aff43afe43afd43afc43afb43afa43af943af803af743af64)
  (.lf 0)))

def shaPos400 : BTree :=
  .nd (.nd (.nd (.lf
  0x8501075410748107381073010720107141070c10704106f4106e4106e0106d4106c4106b8106ac1069c106941068c106781067010660106581064810644106301062c1061c1061410608105fc5422c0084810408103fc103f8103e4103d8103d0103c0103bc103a81039c10390103841037c10370103601035410350103441033010324103181031010304102f8102f0102dc102d4102c4102c0102ac54204)
  (.lf
  0x69ff069fc469f9869f7069f4869f2069ef869ed069ea869e8069e5869e3069e0863d3463d1463cf463cd463cb463c9463c7462120621043fe043fdf83fdec3fde03fdd43fdc83fdbc3fdb03fda43fd983fd8c3fd803fd743fd683fd5c3fd503fd443fd383fd2c3fd203fd143fd083fcfc3fcf03fce43fcd83fccc3fcc03fcb43fca815f5d54dd46c0a86c0786c04c6c0206bff46bfc86bf9c6bf706bf446bf18))
  (.nd (.lf
  0x6271c62700626dc626a46267c626546263062608625ec625b86258c62570625446252462500624dc624c048f3048f2448f184908049064490504903c4902c490144900448fec48fe848fd448fc049078490704905c4904449028490184900048ff848fe448fd048fb048fa048f9048f8048f7c48f6848f5048f40460f0460e4460e0461f0461e4461d4461c4461b8461a44619c4618446170461644615c461f4)
  (.lf 0))) (.nd (.nd (.lf
  0x835d29e3029e2c0835929e2029e180835529e0c29e100835129dfc29e000834d29dec29df00834929ddc29dd80834529dcc29dd00834129db829dc00833d29da829db00833929d9c29da00833529d8c29d900833129d7c29d780832d29d7029d6c0832929d6029d5c0832529d4829d500832129d3c29d400831d29d2c29d300831929d1c29d180831529d0c29d100831129cf829cfc0830d29cec29cf008309)
  (.lf 0)) (.nd (.lf
  0x51bf051bdc51bc851bb451ba051b8c51b7851b6851b5447ee847ed851b4051b2851b1051af851ae051ac851ab451aa051a8c51a7851a6451a5051a3c51a2851a1451a00519ec519d8519c4519b05199c5198851974519605194c51938519245191051900518ec47ec847eb8518d8518c0518a85189051878518605184c518385182451810517fc517e8517d4517c0517ac5179851784517705175c5174851734)
  (.lf 0)))

def shaPos401 : BTree :=
  .nd (.nd (.nd (.lf
  0x1a9b41a9bc0373d1a9a41a9ac037391a9941a99c037351a9841a98c037311a9741a97c0372d1a9641a96c037291a9541a95c037251a9441a94c037211a9341a93c0371d1a9241a92c037191a9141a91c037151a9041a90c037111a8f41a8fc0370d1a8e41a8ec037091a8d41a8dc037051a8c41a8cc037011a8b41a8bc036fd1a8a41a8ac036f91a8941a89c036f51a8841a88c036f11a8741a87c036ed1a864)
  (.lf 0)) (.nd (.lf
  0x53864538445382453804537e4537c4537a45378453764537485372c53710536f4536d8536bc534d8534b85349845798536a853684536605363c53618535f4535d0535ac5358853564535405351c534fc534dc534bc5349c5347c5345c5343c5341c533fc533dc533c0533a4533885336c53350533345314053120531004578853310532ec532c8532a4532805325c5323853214531f0531cc531a85318453164)
  (.lf 0))) (.nd (.nd (.lf
  0x39360393580d04d3934c393500d049393403933c0d0453932c393300d04139318393200d03d393083930c0d039392fc393000d035392e8392f00d031392e0392dc0d02d392d0392c80d029392c0392b80d025392ac392a80d0213929c392980d01d3928c392880d01939280392780d0153926c392680d0113925c392580d00d3924c392480d0093923c392380d00561c18392300d00161bf0392240cffd61bc8)
  (.lf 0)) (.nd (.lf
  0x25aec25ae425adc25ad425acc25ac025abc25ab425aac25aa425a9c25a9425a8c25a8425a7c25a7425a6c25a6425a5c25a5425a4825a4425a3c25a3425a2c25a2425a1825a1425a0c15e99004bc07054070500704c0704807044070400703c0703807034070300702c0702807024070200701c0701807014070100700c07008070040700006ffc06ff806ff406ff006fec06fe806fe406fe025a04259f4259e4)
  (.lf 0)))

def shaPos402 : BTree :=
  .nd (.nd (.nd (.lf
  0xc95114385729800c91114285727800c8d114205725800c89114105723800c85114045721800c81113fc571f800c7d113f0571d800c79113e0571bc00c75113d4571a000c71113c85718400c6d113bc5716800c69113b45714c00c65113a45713000c611139c5711400c5d11390570f800c5911380570dc00c5511378570c000c5111368570a800c4d113605709000c49113505707800c45113445705c00c41)
  (.lf 0)) (.nd (.lf
  0x46e10143115503446dfc1430d5501046de81430954fec46dd41430554fc846dc01430154fa446db0142fd54f8046da0142f954f5c46d90142f554f3846d80142f154f1446d70142ed54ef046d60142e954ed046d50142e554eb045848142e154e904583c142dd44f1844f14142d944f0844f04142d544ef844ef4142d144ee844ee4142cd44ed844ed4142c944ec844ec4142c544eb844eb4142c144ea844ea4)
  (.lf 0))) (.nd (.nd (.lf
  0xa8fd314203141c0a8f9314103140c0a8f531400313fc0a8f1313f0313ec0a8ed313e0313dc0a8e9313d0313cc0a8e5313c0313bc0a8e1313b0313ac0a8dd313a03139c0a8d9313903138c0a8d5313803137c0a8d1313703136c0a8cd313603135c0a8c9313503134c0a8c5313403133c0a8c1313303132c0a8bd313203131c0a8b9313103130c0a8b531300312fc0a8b1312f0312ec0a8ad312e0312dc0a8a9)
  (.lf 0)) (.nd (.lf
  0x5e12c5e1145e0fc5e0e45e0cc5e0b45e09c18408183fc183f0183e4183d8183c8183c0183b4183a81839c183901838418378183681836018354183481833c1833018324183181830c18300182f4182e8182dc182d0182c4182b8182ac16081063f40e1d80e1d40e1d00e1cc0e1c80e1c40e1c00e1bc0e1b80e1b40e1b00e1ac0e1a80e1a40e1a00e19c0e1980e1940e1900e18c0e1880e1840e1800e17c0e178)
  (.lf 0)))

def shaPos403 : BTree :=
  .nd (.nd (.nd (.lf
  0x5dc94be2c48cac05dc54be1048c9805dc14bdf448c8405dbd4bddc48c7005db94bdc448c5c05db54bdac48c4805db14bd9448c3405dad4bd7c48c2005da94bd6448c0c05da54bd4c48bf805da14bd3048be405d9d4bd1848bc805d994bd0048bb405d954bcec48ba005d914bcd048b8c05d8d4bcbc48b7805d894bca448b6405d854bc8848b5005d814bc7045e8405d7d4bc5845e7405d794bc4045e6405d75)
  (.lf 0)) (.nd (.lf
  0x29400293802930029280b4ec029200b4e00b4d4029180b4c80b4bc0b4b00b8a001416005b0003fc0b4a4029100b498029080b48c029000b480028f8028f0028e8028e00b4740b468028d8028d0028c80b45c0b4500b4440b4380b42c028c00b4200b4140b408028b8028b0028a8028a00b894013d600dac0c7280c71c0c71002898028900c704028880c6f8028800c6ec0c6e00c6d40c6c80c6bc0287802870)
  (.lf 0))) (.nd (.nd (.lf
  0x421a00faf946344421940faf546330421880faf14631c4217c0faed46308421700fae9462f4421640fae5462e0421580fae1462cc4214c0fadd462b8421400fad9462a4421340fad546290421280fad14627c4211c0facd4626c421100fac94625c421040fac54624c420f80fac14623c420ec0fabd4622c420e00fab94621c420d40fab5457d8420c80fab1457cc420bc0faad420a8420b00faa942098420a0)
  (.lf 0)) (.nd (.lf
  0x32e6432e5432e4432e3432e2432e1432e0432df432de432dd432dc432db432da432d9432d8432d7432d6432d5432d4432d3432d2432d1432d0415aa147eec5414454120540fc540d8540b4540905406c54048540245400053fdc53fbc53f9c53f7c53f5c53f3c53f1c53efc53edc53ebc53e9c53e8053e6453e4853e2c53e1053df453dd851b5c51b4832cf432ce832ce432cdc32cd032cc832cc432cbc32cb4)
  (.lf 0)))

def shaPos404 : BTree :=
  .nd (.nd (.nd (.lf
  0x699586992c69900698d4698a869a6c69a3c69a0c699e0699b4699886995c6993069904698d8698ac69880698586943c69414693ec693c46939c696ec696bc6968c696606963469608695dc695b069584695586952c696f0696c06969069664696386960c695e0695b4695886955c6953069504694dc690c069098690706904869020693706934069310692e4692b86928c692606923469208691dc691b069374)
  (.lf 0)) (.nd (.lf
  0x5993459918598fc598e0598c4598a85988c5987059858598405982859810597f8597e0597c8597b0544a012df912df512df112ded12de912de512de112ddd12dd912dd512dd112dcd12dc912dc512dc112dbd12db912db512db112dad12da912da512da112d9d12d9912d9512d9112d8d12d8912d8512d8112d7d544905979c5977c5975c5973c5971c596fc596dc596bc5969c5967c5965c5963c5962059604)
  (.lf 0))) (.nd (.nd (.lf
  0x2d97c0963d2d9702d96c096392d9602d95c096352d9502d94c096312d9402d93c0962d2d9302d92c096292d9202d91c096252d9102d90c096212d9002d8fc0961d2d8f02d8ec096192d8e02d8dc096152d8d02d8cc096112d8c02d8bc0960d2d8b02d8ac096092d8a02d89c096052d8902d88c096012d8802d87c095fd2d8702d86c095f92d8602d85c095f52d8502d84c095f12d8402d83c095ed2d8302d82c)
  (.lf 0)) (.nd (.lf
  0x5737c5736857350117bc117b4117a8117981178c11784117781176c117601175411744117381172c11724117181170c11700116f4116e8116dc116d0116c0116b8116ac1169c11690116881167c116701166415cb1062ec0d2600d25c0d2580d2540d2500d24c0d2480d2440d2400d23c0d2380d2340d2300d22c0d2280d2240d2200d21c0d2180d2140d2100d20c0d2080d2040d2000d1fc0d1f80d1f40d1f0)
  (.lf 0)))

def shaPos405 : BTree :=
  .nd (.nd (.nd (.lf
  0x4b051eba81ebac04b011eb9c1eb9804afd1eb841eb8804af91eb781eb7404af51eb641eb6804af11eb541eb5804aed1eb441eb4804ae94a4e0454b804ae54a4c4454a804ae14a4a84549804add4a48c4548c04ad94a4704548004ad54a4544547404ad14a43c4546804acd4a4244545c04ac94a40c4545004ac54a3f44544404ac14a3dc4543804abd4a3c04542c04ab94a3ac4542004ab54a3944541404ab1)
  (.lf 0)) (.nd (.lf
  0x5ffb45ff985ff7c5ff605ff445ff285ff105fef85fee05fec85feb05fe985fe805fe68549805496c5fe505fe305fe105fdf05fdd05fdb05fd905fd705fd505fd305fd105fcf05fcd45fcb85fc9c5fc805fc645fc485fc2c5fc105fbf45fbd85fbc05fba85fb905fb785fb605fb485fb305fb1854958549445fb005fae05fac05faa05fa805fa605fa405fa205fa005f9e05f9c05f9a05f9845f9685f94c5f930)
  (.lf 0))) (.nd (.nd (.lf
  0xe5a563e643da900e5a163e443da840e59d6219c3da780e599621803da6c0e5953da603da580e5913da503da480e58d3da403da380e5893da303da280e5853da203da180e5813da103da080e57d3da003d9f80e5793d9f03d9e80e5753d9e03d9d80e5713d9d03d9c80e56d3d9c03d9b80e5693d9b03d9a80e5653d9a03d9980e5613d9903d9880e55d3d9803d9780e5593d9703d9680e5553d9603d9580e551)
  (.lf 0)) (.nd (.lf
  0x15a6154d1c6a1446a1146a0e86a0bc6a0906a0646a0386a00c69fe069fb469f8869f6069f3869f1069ee869ec069e9869e7069e4869e2069df863d2863d0863ce863cc863ca863c8863c6862114620f82c3f42c3ec2c3e42c3dc2c3d42c3cc2c3c42c3bc2c3b42c3ac2c3a42c39c2c3942c38c2c3842c37c2c3742c36c2c3642c35c2c3542c34c2c3442c33c2c3342c32c2c3242c31c2c3142c30c15f590053c)
  (.lf 0)))

def shaPos406 : BTree :=
  .nd (.nd (.nd (.lf
  0x5bd28021e915efc5bd0c021e515ef05bcf0021e115ee45bcd8021dd15ed85bcc0021d915ec85bca8021d515ebc5bc90021d115eb45bc78021cd15ea85bc5c021c915e9c5bc44021c515e905bc30021c115e8015e7c021bd15e7015e6c021b915e6015e5c021b515e5415e4c021b115e4415e3c021ad15e3015e2c021a915e2415e20021a515e1415e10021a115dfc15e000219d15df015dec0219915de015de4)
  (.lf 0)) (.nd (.lf
  0x383603835438344383383832c383203831c3830c382fc382f4382e4382e0382d4382c00cda000ec837f7037f6037f5437f5037f4037f3037f2437f2037f1437f0437ef437ee837edc37ed437ec437eb837eb037ea037e9837e8837e7c37e7037e6437e5c37e5437e4437e3437e3037e1c37e100cd9c00ebc37ac037ab837aac37a9837a9037a8837a7c37a6837a5c37a5037a4437a3837a2c37a2837a1437a08)
  (.lf 0))) (.nd (.nd (.lf
  0x34fdc0bbed34fd034fcc0bbe934fc034fbc0bbe534fb034fac0bbe134fa034f9c0bbdd34f9034f8c0bbd934f8034f7c0bbd534f7034f6c0bbd134f6034f5c0bbcd34f5034f4c0bbc934f4034f3c0bbc534f3034f2c0bbc134f2034f1c0bbbd34f1034f0c0bbb934f0034efc0bbb534ef034eec0bbb134ee034edc0bbad34ed034ecc0bba934ec034ebc0bba534eb034eac0bba134ea034e9c0bb9d34e9034e8c)
  (.lf 0)) (.nd (.lf
  0x68a00689c0689806894068900688c0688806884068800687c0687806874068700686c0686806864068601f0e01f0d01f0c01f0b01f0a01f08c1f07c1f06c1f0601f04c1f0401f0301f0201f00c1f0001eff01efe01efcc1efbc1efb01efa01ef901ef801ef6c1ef601ef501ef401ef2c1ef1c1ef10158e1001ec047e4047e0047dc047d8047d4047d0047cc047c8047c4047c0047bc047b8047b4047b0047ac)
  (.lf 0)))

def shaPos407 : BTree :=
  .nd (.nd (.nd (.lf
  0x262b00709d26298262a007099262882628c07095262782627c0709126268262700708d262582625c070892624c26250070852623c2623807081262282622c0707d2621c2622007079262082620c07075261f82620007071261ec261f00706d261e0261d807069261c8261cc07065261c0261bc07061261b0261a80705d261a02619c07059261902618c070554d3e066d10070514d3c866ce00704d4d3b066cb0)
  (.lf 0)) (.nd (.lf
  0x332d8332d4332cc332c0332bc332b0332a8332a43329847efc00de832cf032cec32ce032cd832cd432ccc32cc032cb832cb032ca832ca032c9c32c9432c8c32c8032c7c32c7432c6c32c6032c5c32c5432c4c32c4032c3832c3032c2832c2032c1c32c1432c0c47edc00dd4326643265c326503264c3264432638326343262c3262432618326103260832600325f8325f0325e8325e4325dc325d4325cc325c4)
  (.lf 0))) (.nd (.nd (.lf
  0x522f8522dc522c0522a852290522785226052248522305221852200521e8521d0521b8521a0521885217051e8051e6851e5051e3851e2051e0851df05207052054520385201c5200052074520585203c520205200451fe851fd051fb851fa051f8851f7051f5851f4051f2851f1051ef851ee051ec851eb051e9851bf851be451bd051bbc51ba851b9451b8051d9851d8051d6851d5051d3851d9c51d8451d6c)
  (.lf 0)) (.nd (.lf
  0x652a065278652546522865200651d8651b06518865160629f4629d4629b46299462974629546293461c5061c34396e0396d4396cc396bc396b4396a43969c3969039684396783966c396603965039648396383963039624396183960c39600395f4395e8395dc395d0395c4395b8395ac395a0395943958815e5554c2867420673f0673c067394673686733c67310672e4672b86728c67260672346720c671e4)
  (.lf 0)))

def shaPos408 : BTree :=
  .nd (.nd (.nd (.lf
  0x9501705017044170381702c1702017014170081700416ff816fe416fd816fcc16fc416fbc16fb016f9c16f9016f8416f7816f6c16f6016f5816f4816f3c16f3816f2c16f2016f1416f0416ef45472c0094816d1016d0016cf016ce416cd816cd416cc016cbc16cac16c9c16c9016c8416c7816c6c16c6016c5416c4816c3c16c3016c2416c1c16c1016c0016bf416be816be416bd016bc816bbc16bac54704)
  (.lf
  0x64aec64ac064a9464a6864a3c64a14649ec649c46499c649746494c64924648fc648d4648ac62910628f0628d0628b062890628706285054e7854e5c43194431884317c4317043164431584314c4314043134431284311c4311043104430f8430ec430e0430d4430c8430bc430b0430a4430984308c4308043074430684305c43050430444303815e014505446b0846af046ad846ac046aa846a9046a7846a60))
  (.nd (.lf
  0x1233d1233912335123311232d1232912325123211231d1231912315123111230d123091230512301122fd54e14627606273862710626e8626c062698626706264862620625f8625d0625a862584625606253c62518624f4624d0624ac6248862464624406242062400623e0623bc623a062380623606234054df854e10627586273062708626e0626b862690626686264062618625f0625c8625a4625806255c)
  (.lf 0))) (.nd (.nd (.lf
  0x2baf808c912baf02bae808c8d2bae02bad808c892bad02bac808c852bac02bab808c812bab02baa808c7d2baa02ba9808c79010420103e0103a01036010320102e0102a01026010220101e0101a0c27415271019ee0c27008c75019ea0c26408c710228c1526d02284152690227c1526502274152610226c1525d02264152590225c1525502254152510224c1524d0c25c15249019e60c25808c6d019e20c24c)
  (.lf 0)) (.nd (.lf
  0x516905167c47ea047eb0518d0518b8518a0518885187051858515dc515c8515b4515a05158c5157851564515505153c515285151451500514ec514d8514c4514b05149c5148851474514605144c51438514285141447e8047e905166851650516385162051608515f051374513605134c513385132451310512fc512e8512d4512c0512ac5129851284512705125c5124851234512205120c511f8511e4511d0)
  (.lf 0)))

def shaPos409 : BTree :=
  .nd (.nd (.nd (.lf
  0x360a23004199000320a220041950002e0a214041910002a0a2080418d01184149c90a204149c5000260a20004189000220a1f0041850a1ec149c10001e0a1e4041810116c149bd01164149b90a1e0149b50001a0a1d80417d000160a1d004179000120a1c4041750000e0a1b8041710000a0a1a80416d000060a19c041690a198149b1000020a190041650b73815fd51cd1c1cd24041611cd141cd100415d)
  (.lf 0)) (.nd (.lf
  0x322883227832268322583224832238322283221832208321f8321e8321d8321c8321b80036000dbc31cf831ce831cd831cc831cb831ca831c9831c8831c7831c6831c5831c4831c3831c2831c1831c0831bf831be831bd831bc831bb831ba831b9831b8831b7831b6831b5831b4831b3831b280035800da831668316583164831638316283161831608315f8315e8315d8315c8315b8315a8315983158831578)
  (.lf 0))) (.nd (.nd (.lf
  0x3b6d40daf9669f03b6cc0daf5669c83b6bc0daf1630183b6b40daed62ff83b6a40dae962fd83b69c0dae562fb83b68c0dae162f983b6840dadd62f783b6740dad962f583b66c0dad561ddc3b6600dad161dc03b6540dacd68c883b6480dac968c583b63c0dac568c283b62c0dac168bfc3b6240dabd68bd03b6180dab968ba43b60c0dab568b783b6000dab168b4c3b5f40daad68b203b5e80daa968af43b5d8)
  (.lf 0)) (.nd (.lf
  0x683d4683a868380683586833068308682e0682b8682906826868240682186362863608635e8635c8635a8635886356861f5461f3828f7428f6c28f6028f5c28f5428f4c28f4428f3c28f3428f2828f2428f1c28f1428f0c28f0028efc28ef428eec28ee428edc28ed028ecc28ec428eb828eb428eac28ea428e9c28e9428e8c15ef9004fc07414074100740c074080740407400073fc073f8073f4073f0073ec)
  (.lf 0)))

def shaPos410 : BTree :=
  .nd (.nd (.nd (.lf
  0x139a4139ac0173d139941399c017391398c139880173513978139740173113968139640172d1395c13958017291394c1394801725139341393c01721139241392c0171d139141391c017191390c1390801715138fc138f801711138ec138e80170d138d4138dc01709138cc138c801705138b4138bc01701138a4138ac016fd1389413898016f91388c597a8016f51387c59788016f11387459768016ed13864)
  (.lf 0)) (.nd (.lf
  0x43bcc43bbc43bac43b9c43b8c43b7c43b6c43b5c43b4c43b3c43b2c43b1c43b0c43afc001a0010a04381c4380c437fc437ec437dc437cc437bc437ac4379c4378c4377c4376c4375c4374c4373c4372c4371c4370c436fc436ec436dc436cc436bc436ac4369c4368c4367c4366c4365c4364c00198010944336c4335c4334c4333c4332c4331c4330c432fc432ec432dc432cc432bc432ac4329c4328c4327c)
  (.lf 0))) (.nd (.nd (.lf
  0x331800b24533168331700b24133158331600b23d33148331500b23933138331400b23533128331300b23133118331200b22d33108331100b229330f8331000b225330e8330f00b221330d8330e00b21d330c8330d00b219330b8330c00b215014ae014aa014a6014a20149e0149a01496014920148e0148a01486014820147e0b5c002aa40b5a802a9c0b5900b5840b57802a5c02a5402a4c02a4402a3c006ba)
  (.lf 0)) (.nd (.lf
  0xe97c0e9780e9740e9700e96c0e9680e9640e9600e95c1ba681ba581ba481ba381ba281ba181ba081b9f81b9e81b9d81b9c81b9b81b9a81b9981b9881b9781b9681b9581b9481b9381b9281b9181b9081b8f81b8e81b8d81b8c81b8b81b8a81b898160a154ab8619506192c61908618e4618c06189c6187861854618306180c617e8617c4617a46178461764617446172461704616e4616c4616a46168461668)
  (.lf 0)))

def shaPos411 : BTree :=
  .nd (.nd (.nd (.lf
  0x672124480244780671d00c0600c0200bfe00bfa00bf600bf200bee00bea00be600be200bde00bda00bd6018c20beec067190bee414e11018be0bedc06715019ec14e0d019e414e090bed814e05018ba0bed006711018b60bec40670d019d414e010bec014dfd018b20bebc06709019c414df90beb414df5018ae0beb0067050bea814df1018aa0bea406701018a60be98066fd018a20be8c066f90be8414ded)
  (.lf 0)) (.nd (.lf
  0x3311c3310c330fc330ec330dc00de432bfc32bec32bdc32bcc32bbc32bac32b9c32b8c32b7c32b6c32b5c32b4c32b3c32b2c32b1c32b0c32afc32aec32adc32acc32abc32aac32a9c32a8c32a7c32a6c32a5c32a4c32a3c32a2c005b800dd03256c3255c3254c3253c3252c3251c3250c324fc324ec324dc324cc324bc324ac3249c3248c3247c3246c3245c3244c3243c3242c3241c3240c323fc323ec323dc)
  (.lf 0))) (.nd (.nd (.lf
  0x105a54451044508105a144500444f81059d444f0444e810599444e0444d810595444d0444c810591444c0444b81058d444b0444a810589444a0444981058544490444881058144480444781057d44470444681057944460444581057553dbc444501057153d98444441056d53d74444381056953d504442c1056553d2c444201056153d08444141055d53ce4444081055953cc0443fc1055553c9c443f010551)
  (.lf 0)) (.nd (.lf
  0x2df402ddc02dd402dbc0cb500cb440cb380cb2c02db4003b40629c0629806294062900628c0628806284062800627c0627806274062700626c0626806264062600625c0625806254062500624c0624806244062400623c0623806234062300622c0622836264362543624436234362243621436204361f4361e4361d4361c4361b4361a436194361843617436164361543614436134361243611436104360f4)
  (.lf 0)))

def shaPos412 : BTree :=
  .nd (.nd (.nd (.lf
  0x54ee4001e90f0ec54ec4001e50f0e054ea8001e14577c4774c001dd4576c47734001d94575c4771c001d54574c47704001d145738476ec001cd4572c476d4001c945720476bc001c545714476a4001c1457084768c001bd456fc47674001b9456f04765c001b5456e447644001b1456d04762c001ad456cc47614001a9456c0475fc001a5456b4475e4001a1456a4475cc0019d45698475b0001994568c4759c)
  (.lf 0)) (.nd (.lf
  0x5dec85deac5de905de745de585de3c5de205de045ddec5ddd45ddbc5dda45dd8c5dd745dd5c5dd44547ec547fc5e0785e0585e0385e0185dff85dfd85dfb85df985df785df585df385df185defc5dee05dec45dea85de8c5de705de545de385de1c5de005dde85ddd05ddb85dda05dd885dd705dd585dd40547e81387913875138711386d1386913865138611385d1385913855138511384d138491384513841)
  (.lf 0))) (.nd (.nd (.lf
  0x2f6282f63009f692f6182f62009f652f6082f61009f612f5f82f60009f5d2f5e82f5f009f592f5d82f5e009f552f5c82f5d009f512f5b82f5c009f4d2f5a82f5b009f4901276012720126e0126a01266012620125e0125a01256012520124e0124a01246012420123e0123a01236012320122e0b2a80b29c0269c0b2840b2780b26c0b260026940b2480b23c0b2300b2240268c0267c0b2000b1f40b1e802664)
  (.lf 0)) (.nd (.lf
  0xd9f40d9f00d9ec0d9e80d9e414e2014e1014e0014dec14de014dcc14dbc14db014da014d9014d7c14d7014d5c14d5014d4014d3014d1c14d1014cfc14cf014ce014cd014cc014cb014ca014c8c14c7c14c6c14c6014c5016031545885ab845ab645ab445ab245ab045aae45aac45aaa45aa845aa645aa445aa245aa085a9ec5a9d05a9b45a9985a97c5a9605a9445a9285a90c5a8f45a8dc5a8c45a8ac5a898)
  (.lf 0)))

def shaPos413 : BTree :=
  .nd (.nd (.nd (.lf
  0x14ba1017920bb580545d0152414b9d0bb5014b990178e0bb4c0545915865209602095c05455209502094c054512093c209380544d209302092c05449209202091c05445209102090c0544120900208fc0543d208f0208ec05439208e0208dc05435208d0208cc05431208c0208bc0542d208b0208a805429208a020898054252088c208880542120880208780541d20870208680541920860208580541520850)
  (.lf 0)) (.nd (.lf
  0x5f8045f7ec5f7d45f7bc54924549385faf45fad45fab45fa945fa745fa545fa345fa145f9f45f6845f6645f6445f6285f60c5f5f05f5d45f5b85f59c5f5805f5645f5485f52c5f5145f4fc5f4e45f4cc5f4b45f49c5f4845f46c548fc549105f7a45f7845f7645f7445f7245f7045f6e45f6c45f6a45f3345f3145f2f45f2d85f2bc5f2a05f2845f2685f24c5f2305f2145f1f85f1dc5f1c45f1ac5f1945f17c)
  (.lf 0))) (.nd (.nd (.lf
  0x6a0d03fddc0f04d6a0a43fdd00f0496a0783fdc40f0456a04c3fdb80f0416a0203fdac0f03d69ff43fda00f03969fc83fd940f03569f9c3fd880f03169f743fd7c0f02d69f4c3fd700f02969f243fd640f02569efc3fd580f02169ed43fd4c0f01d69eac3fd400f01969e843fd340f01569e5c3fd280f01169e343fd1c0f00d69e0c3fd100f00963d383fd040f00563d183fcf80f00163cf83fcec0effd63cd8)
  (.lf 0)) (.nd (.lf
  0x2f9b42f9a42f9942f9842f9742f9642f9542f9442f9342f9242f9142f9042f8f42f8e42f8d42f8c42f8b42f8a42f8942f88415a8154dbc6bd246bcf46bcc86bc9c6bc706bc446bc186bbec6bbc06bb946bb686bb406bb186baf06bac86baa06ba786ba506ba286ba006b9d86442864408643e8643c8643a86438864368622d4622b82f8742f86c2f8642f85c2f8542f84c2f8442f83c2f8342f82c2f8242f81c)
  (.lf 0)))

def shaPos414 : BTree :=
  .nd (.nd (.nd (.lf
  0x2c951842c1843002c911841c1842002c8d1840c1841002c89184045e3d802c85183f85e3b802c81183ec5e39802c7d183e05e37802c79183d45e35802c75183c45e33802c71183b85e31802c6d183b05e2f802c69183a45e2d802c65183945e2b802c61183885e29802c5d1837c5e27802c59183745e25c02c55183645e24002c51183585e22402c4d1834c5e20802c49183405e1ec02c45183385e1d002c41)
  (.lf 0)) (.nd (.lf
  0x66bfc66bd066ba466b7866b4c66b2466afc66ad466aac66a8466a5c66a3466a0c669e4669bc66780667586673066708666e0666b866690666686664062f3054be066994669646693466908668dc668b066884668586682c66800667d4667ac667846675c667346670c666e4666bc666946666c6664466404663dc663b46638c663646633c66314662ec662c462e5054bcc66618665e8665b86658c6656066534)
  (.lf 0))) (.nd (.nd (.lf
  0xc5a56578c36fc80c5a16576036fb80c59d6573436fb00c5996570836fa00c595656dc36f940c591656b036f880c58d6568436f800c5896565836f700c5856563036f680c5816560836f580c57d655e036f500c579655b836f440c5756559036f380c5716556836f2c0c56d6554036f1c0c5696551836f100c565654f036f040c56162ae436efc0c55d62ac436eec0c55962aa436ee00c55562a8436ed80c551)
  (.lf 0)) (.nd (.lf
  0x225a42259c225902258c15c610047c06c9406c9006c8c06c8806c8406c8006c7c06c7806c7406c7006c6c06c6806c6406c6006c5c06c5806c5406c5006c4c06c4806c4406c4006c3c06c3806c3406c3006c2c06c2806c2406c20225842257422564225542254422534225242251422504224f4224e4224d4224c4224b4224a422494224842247422464224542244422434224242241422400223f4223e4223d0)
  (.lf 0)))

def shaPos415 : BTree :=
  .nd (.nd (.nd (.lf
  0x79d92800c28010079d527ffc27ff8079d127fe827fec079cd27fe027fdc079c927fd027fc8079c527fbc27fb8079c127fb027fa8079bd27fa027f98079b927f8827f90079b500e1200e0e00e0a00e0600e0200dfe00dfa00df600df200dee00dea00de60ab6401e7c01e740ab4001e640ab240ab1c01e540ab0401e1c01e1401dfc003460ab60079b10ab5415059003420ab50079ad01e6c150550ab4c15051)
  (.lf 0)) (.nd (.lf
  0x33408333f8333e8333d8333c8333b8333a83339833388007c000dec32ec832eb832ea832e9832e8832e7832e6832e5832e4832e3832e2832e1832e0832df832de832dd832dc832db832da832d9832d8832d7832d6832d5832d4832d3832d2832d1832d0832cf8007b800dd832838328283281832808327f8327e8327d8327c8327b8327a832798327883277832768327583274832738327283271832708326f8)
  (.lf 0))) (.nd (.nd (.lf
  0x113b5113b1113ad113a9113a5113a11139d1139911395113911138d1138911385113811137d1137915b9147c544dfb84dfa04df884df704df584df404df2c4df184df044def04dedc4dec84deb44dea04de8c4de784de644de504de3c4de284de144de004ddec4ddd84ddc44ddb04dd9c4dd884dd784dd6847c4811375113711136d1136911365113611135d1135911355113511134d1134911345113411133d)
  (.lf 0)) (.nd (.lf
  0x679446791c678f4678cc678a46787c678546782c67804677dc677b46339463374633546333463314632f4632d461eb861e9c3ca743ca683ca5c3ca503ca443ca383ca2c3ca203ca143ca083c9fc3c9f03c9e43c9d83c9cc3c9c03c9b43c9a83c99c3c9903c9843c9783c96c3c9603c9543c9483c93c3c9303c9243c91815ed954d0469a7469a4469a14699e8699bc6999069964699386990c698e0698b469888)
  (.lf 0)))

def shaPos416 : BTree :=
  .nd (.nd (.nd (.lf 0x0) (.lf
  0x3bcc03bc803bc403bc003bbc03bb83f1d43f1c43f1b43f1a43f1943f1843f1743f1643f1543f1443f1343f1243f1143f1043f0f43f0e43f0d43f0c43f0b43f0a43f0943f0843f0743f0643f0543f0443f0343f0243f0143f0041483154ce8696e4696b469684696586962c69600695d4695a86957c6955069524694fc694d4694ac694846945c694346940c693e4693bc6939463a9463a7463a5463a3463a14))
  (.nd (.lf
  0x11f5511f5111f4d11f4911f4511f4111f3d11f3911f3511f3111f2d11f2911f2511f2111f1d11f1915bf147eb4518d4518bc518a45188c518745185c5184851834518205180c517f8517e4517d0517bc517a851794517805176c5175851744517305171c51708516f4516e0516cc516b8516a4516945168047ea411f1511f1111f0d11f0911f0511f0111efd11ef911ef511ef111eed11ee911ee511ee111edd)
  (.lf 0))) (.nd (.nd (.lf
  0x8105296682967008101296602965c080fd296502964c080f92963c29638080f52962c29630080f1296182961c080ed2961029608080e94e6e0688e4080e54e6c8688b4080e14e6b068888080dd4e6986885c080d94e68068830080d54e66868804080d14e654687d8080cd4e640687ac080c94e62c68780080c54e61868754080c14e60468728080bd4e5f068700080b94e5dc686d8080b54e5c8686b0080b1)
  (.lf 0)) (.nd (.lf
  0x4f5c44f5b04f59c4f5884f5744f5604f54c4f53c4f52c47d3c47d304f51c4f5044f4ec4f4d44f4bc4f4a44f4904f47c4f4684f4544f4404f42c4f4184f4044f3f04f3dc4f3c84f3b44f3a04f38c4f3784f3644f3504f33c4f3284f3144f3004f2ec4f2dc4f2cc47d2447d184f2bc4f2a44f28c4f2744f25c4f2444f2304f21c4f2084f1f44f1e04f1cc4f1b84f1a44f1904f17c4f1684f1544f1404f12c4f118)
  (.lf 0)))

def shaPos417 : BTree :=
  .nd (.nd (.nd (.lf
  0x34951a05c5fecc034911a0505feb40348d1a0445fe9c034891a0385fe84034851a0305fe6c034811a01c1a0240347d1a0141a00c0347919ffc1a0040347519ff419fec0347119fdc19fe40346d19fd419fcc0346919fbc19fc40346519fb419fac0346119f9c19fa40345d19f9419f8c0345919f7c19f840345519f7419f6c0345119f6419f600344d19f5419f500344919f4419f400344519f3419f3003441)
  (.lf 0)) (.nd (.lf
  0x698346980c697e4697bc697946976c697446971c63b7c63b5c63b3c63b1c63afc63adc63abc694b46948c6946454cec696f4696c469694696686963c69610695e4695b86958c695606953469508694e0694b869490694686944069418693f0693c8693a063a9c63a7c63a5c63a3c63a1c639fc639dc6913869110690e854cd8693786934869318692ec692c069294692686923c69210691e4691b86918c69164)
  (.lf 0))) (.nd (.nd (.lf
  0xcda538a8c38a880cda138a7c38a780cd9d38a7038a6c0cd9938a5c38a600cd9538a4838a500cd9138a3c38a400cd8d38a2c38a280cd8938a2038a180cd8538a0838a0c0cd81389f838a000cd7d389f0389ec0cd79389e0389dc0cd75389d0389cc0cd71389c0389bc0cd6d389b0389ac0cd69389983899c0cd65389903898c0cd6138978389800cd5d389683896c0cd5938960389580cd5538950389480cd51)
  (.lf 0)) (.nd (.lf
  0x24d4c24d4424d3c24d3424d2c24d2424d1c24d1424d0c24d0424cf824cf424cec15e81004ac06f6406f6006f5c06f5806f5406f5006f4c06f4806f4406f4006f3c06f3806f3406f3006f2c06f2806f2406f2006f1c06f1806f1406f1006f0c06f0806f0406f0006efc06ef806ef406ef024ce024cd424cc024cb424ca424c9424c8424c7424c6424c5424c4424c3424c2424c1424c0424bf424be424bd424bc4)
  (.lf 0)))

def shaPos418 : BTree :=
  .nd (.nd (.nd (.lf
  0x10aec009e910adc10ad4009e510acc10ac4009e110ab810ab4009dd10aa810aa4009d910a9856948009d510a9056928009d110a8056908009cd10a74568e8009c910a6c568c8009c510a60568a8009c110a5456888009bd10a4856868009b910a3c56848009b510a2c56828009b110a2056808009ad10a18567e8009a910a08567cc009a510a00567b0009a1109f4567940099d109e45677800999109dc5675c)
  (.lf 0)) (.nd (.lf
  0x613c8613ac6139061374613586133c6132061304612ec612d4612bc612a46128c612746125c6124454a6c54a7c61578615586153861518614f8614d8614b86149861478614586143861418613fc613e0613c4613a86138c6137061354613386131c61300612e8612d0612b8612a06128861270612586124054a681407914075140711406d1406914065140611405d1405914055140511404d140491404514041)
  (.lf 0))) (.nd (.nd (.lf
  0x30ca030c9c0a6a130c9030c8c0a69d30c8030c7c0a69930c7030c6c0a69530c6030c5c0a69130c5030c4c0a68d30c4030c3c0a68930c3030c2c0a6855118c64bf00a6815117464bc00a67d5115c64b940a6795114464b680a6755112c64b3c0a6715111864b100a66d5110464ae40a669510f064ab80a665510dc64a8c0a661510c864a600a65d510b464a340a659510a064a0c0a6555108c649e40a65151078)
  (.lf 0)) (.nd (.lf
  0x1767c1767017664176581764c1764017634176281761c1761017604175f8175ec175e0175d0175c4175b8175ac175a0175941758c15d55063d40dff80dff40dff00dfec0dfe80dfe40dfe00dfdc0dfd80dfd40dfd00dfcc0dfc80dfc40dfc00dfbc0dfb80dfb40dfb00dfac0dfa80dfa40dfa00df9c0df980df940df900df8c0df880df84175801756c175601754c1754017530175201751017500174f0174e0)
  (.lf 0)))

def shaPos419 : BTree :=
  .nd (.nd (.nd (.lf
  0x4b90845d9405b514b8f445d8405b4d4b8e045d7405b4921eec21ef005b4521ee021ed805b4121ecc21ed005b3d21eb821ebc05b3921eb021eac05b3521ea021e9c05b3121e8821e8c05b2d21e7c21e8005b2921e6c21e7005b2521e6021e5805b2121e4c21e4805b1d21e3821e4005b1921e2821e2c05b1521e2021e1c05b1121e1021e0805b0d21e0021dfc05b0921de821df005b0521de021ddc05b0121dd0)
  (.lf 0)) (.nd (.lf
  0x22380c23c02230022280c2300c2240c2180c20c0c2000222006518010162baac2ba9c0053000020022180af580af4c0af400af340af280af1c022100af10022080af040aef802200021f80aeec021f00aee00aed40aec80aebc0aeb00aea40ae980ae8c0ae80021e8021e0021d80ae740b83400fba0001c0ae6c021d0021c8021c00ae5c0ae58021b80ae4c0ae380ae30021b0021a8021a0021980219002188)
  (.lf 0))) (.nd (.nd (.lf
  0x53dac418ac0f84d53d88418a00f84953d64418940f84553d40418880f84153d1c4187c0f83d53cf8418700f83953cd4418640f83553cb0418580f83153c8c4184c0f82d53c68418400f82953c44418340f82553c24418280f82153c044181c0f81d53be4418100f81953bc4418040f81553ba4417f80f81153b84417ec0f80d53b64417e00f80953b44417d40f80553b24417c80f80153b04417bc0f7fd53ae8)
  (.lf 0)) (.nd (.lf
  0x320f4320e4320d4320c4320b4320a43209432084320743206432054320443203432024320143200431ff431fe415a9947eac53a2453a00539dc539b853994539705394c5392853904538e0538bc5389c5387c5385c5383c5381c537fc537dc537bc5379c5377c5376053744537285370c536f0536d4536b8516885167831fd031fcc31fc031fbc31fb031fac31fa431f9831f9031f8831f8431f7c31f7431f68)
  (.lf 0)))

def shaPos420 : BTree :=
  .nd (.nd (.nd (.lf
  0x658d8658b0658886586065bb065b8065b5065b2465af865acc65aa065a7465a4865a1c659f065bb465b8465b5465b2865afc65ad065aa465a7865a4c65a20659f4659c8659a0655846555c655346550c654e46583465804657d4657a86577c6575065724656f8656cc656a0656746583865808657d8657ac657806575465728656fc656d0656a4656786564c6562465208651e0651b86519065168654b865488)
  (.lf 0)) (.nd (.lf
  0x12b3d12b3912b3512b3112b2d12b2912b2512b2112b1d12b1912b1512b1112b0d12b0912b0512b0112afd543c85870c586ec586cc586ac5868c5866c5864c5862c5860c585ec585cc585ac5859058574585585853c5852058504584e8584cc584b0584945847c584645844c584345841c58404583ec583d4543b4543c458708586e8586c8586a85868858668586485862858608585e8585c8585a85858c58570)
  (.lf 0))) (.nd (.nd (.lf
  0x93e12d1d02d1cc093dd2d1c02d1bc093d92d1b02d1ac093d52d1a02d19c093d12d1902d18c093cd2d1802d17c093c92d1702d16c093c52d1602d15c093c12d1502d14c093bd2d1402d13c093b92d1302d12c093b52d1202d11c093b14fc2c6a83c093ad4fc146a80c093a94fbfc6a7e4093a54fbe46a7b8093a14fbcc6a78c0939d4fbb86a760093994fba46a734093954fb906a708093914fb7c6a6dc0938d)
  (.lf 0)) (.nd (.lf
  0x10a04109f8109ec109e0109d4109c8109b8109b0109a410998109881098010970109681095c1094c1094415fe9062cc0d0800d07c0d0780d0740d0700d06c0d0680d0640d0600d05c0d0580d0540d0500d04c0d0480d0440d0400d03c0d0380d0340d0300d02c0d0280d0240d0200d01c0d0180d0140d0100d00c10938109281091810908108f8108e8108d4108c8108b4108a41089810884108781086410854)
  (.lf 0)))

def shaPos421 : BTree :=
  .nd (.nd (.nd (.lf
  0x48994a020452c8048954a00c452bc0489149ff81e3dc0488d49fe01e3d00488949fc81e3c80488549fa81e3b80488149f901e3ac0487d49f781e3a00487949f681e3940487549f541e38c0487149f401e37c0486d1e36c1e374048691e35c1e360048651e34c1e350048611e3441e33c0485d1e3301e32c048591e3201e324048551e30c1e310048511e3041e2fc0484d1e2ec1e2f0048491e2dc1e2e004845)
  (.lf 0)) (.nd (.lf
  0x5cab45ca985ca7c5ca605ca445ca285ca105c9f85c9e05c9c85c9b05c9985c9805c96854700546ec5c9505c9305c9105c8f05c8d05c8b05c8905c8705c8505c8305c8105c7f05c7d45c7b85c79c5c7805c7645c7485c72c5c7105c6f45c6d85c6c05c6a85c6905c6785c6605c6485c6305c618546d8546c45c6005c5e05c5c05c5a05c5805c5605c5405c5205c5005c4e05c4c05c4a05c4845c4685c44c5c430)
  (.lf 0))) (.nd (.nd (.lf
  0x3d1a80e2f969e943d19c0e2f569e6c3d1900e2f169e443d1840e2ed69e1c3d1780e2e963d443d16c0e2e563d243d1600e2e163d043d1540e2dd63ce43d1480e2d963cc43d13c0e2d563ca43d1300e2d163c843d1240e2cd6212c3d1180e2c9621103d10c0e2c53d1003d0f80e2c13d0f03d0e80e2bd3d0e03d0d80e2b93d0d03d0c80e2b53d0c03d0b80e2b13d0b03d0a80e2ad3d0a03d0980e2a93d0903d088)
  (.lf 0)) (.nd (.lf
  0x2b7642b7542b7442b7342b7242b7142b7042b6f42b6e415a5954cf469a4c69a1c699f0699c4699986996c6994069914698e8698bc69890698686984069818697f0697c8697a06977869750697286970063b6863b4863b2863b0863ae863ac863aa8620a4620882b6d42b6cc2b6c42b6bc2b6b42b6ac2b6a42b69c2b6942b68c2b6842b67c2b6742b66c2b6642b65c2b6542b64c2b6442b63c2b6342b62c2b624)
  (.lf 0)))

def shaPos422 : BTree :=
  .nd (.nd (.nd (.lf
  0x1559c5b43401f3d1558c5b41401f39155805b3f801f35155785b3dc01f311556c5b3c001f2d155605b3a401f29155505b38801f25155485b36c01f211553c5b35001f1d155305b33401f19155205b31c01f15155185b2fc01f11155085b2e401f0d155005b2cc01f09154f05b2b401f05154e85b2a001f01154d85b28401efd154d05b26c01ef9154c45b25801ef5154b85b24001ef1154ac154a801eed1549c)
  (.lf 0)) (.nd (.lf
  0x417f4417e8417dc417d0417c4417b8417ac417a041794417884177c4177041764417584502c0104441404413f8413ec413e0413d4413c8413bc413b0413a4413984138c4138041374413684135c4135041344413384132c413204131441308412fc412f0412e4412d8412cc412c0412b4412a8450200103840f5440f4840f3c40f3040f2440f1840f0c40f0040ef440ee840edc40ed040ec440eb840eac40ea0)
  (.lf 0))) (.nd (.nd (.lf
  0x3484c0b995348403483c0b991348303482c0b98d348203481c0b989348103480c0b98534800347fc0b981347f0347ec0b97d347e0347dc0b979347d0347cc0b975347c0347bc0b971347b0347ac0b96d347a03479c0b969347903478c0b965347803477c0b961347703476c0b95d347603475c0b959347503474c0b955347403473c0b951528f446af80b94d528d846ae00b949528bc46ac80b9455289c46ab0)
  (.lf 0)) (.nd (.lf
  0x679806794067900678c0678806784067800677c0677806774067701e3781e3641e3541e3481e3341e3281e3141e3081e2f81e2e41e2d81e2c81e2b81e2a81e2981e2881e2741e2641e2541e2441e2381e2281e2181e2081e1f41e1e81e1d81e1c41e1b41e1a8158d9012f40bad0012dc0bab8012cc0baa00ba94012b401284001dc046f4046f0046ec046e8046e4046e0046dc046d8046d4046d0046cc046c8)
  (.lf 0)))

def shaPos423 : BTree :=
  .nd (.nd (.nd (.lf
  0x4d1506692c06e2d4d1386690006e294d120668d406e254d108668a806e214d0f46687c06e1d4d0e06685006e194d0cc6682406e154d0b8667f806e114d0a4667cc06e0d4d090667a406e094d07c6677c06e054d0686675406e014d0546672c06dfd4d0406670406df94d02c666dc06df54d018666b406df14d0046668c06ded4cff06666406de94cfdc6663c06de54cfc862f2c06de14cfb462f0c06ddd4cfa0)
  (.lf 0)) (.nd (.lf
  0x2c9d82c9d02c9c82c9c02c9b82c9b02c9a82c9a02c99848e1000ccc2c3f02c3e82c3e02c3d82c3d02c3c82c3c02c3b82c3b02c3a82c3a02c3982c3902c3882c3802c3782c3702c3682c3602c3582c3502c3482c3402c3382c3302c3282c3202c3182c3102c30848e0400cb82bd602bd582bd502bd482bd402bd382bd302bd282bd202bd182bd102bd082bd002bcf82bcf02bce82bce02bcd82bcd02bcc82bcc0)
  (.lf 0))) (.nd (.nd (.lf
  0x4fbec4fbd44fbbc4fba84fb944fb804fb6c4fb584fb444fb304fb1c4fb084faf44fae04facc4fab84faa44f82c4f8184f8044f7f04f7dc4f7c84f7b44f9cc4f9b44f99c4f9844f96c4f9d04f9b84f9a04f9884f9704f9584f9444f9304f91c4f9084f8f44f8e04f8cc4f8b84f8a44f8904f87c4f8684f8544f8404f5cc4f5b84f5a44f5904f57c4f5684f5544f76c4f7544f73c4f7244f70c4f7704f7584f740)
  (.lf 0)) (.nd (.lf
  0x316c0316838ab438aa438a9038a8438a7438a6438a5438a4438a3038a2438a1038a04389f4389e4389d4389c4389b4389a038994389843897438964389543894438934389243891438904388f4388e0147d9455f448b4848b3048b1848b0448af048adc48ac848ab448aa048a8c48a7848a6448a5048a3c48a2848a1448a00489ec489d8489c4489b445e0045dec45ddc45dcc45dbc45dac45d9c45d9045d7c)
  (.lf 0)))

def shaPos424 : BTree :=
  .nd (.nd (.nd (.lf
  0x95417230172201721017200171f0171e0171d0171c0171b0171a017190171801716c1715c1714c1713c1712c1711c1710c170fc170ec170dc170cc170bc170ac1709c1708c1707c1706c1705c063c80094c16ee416ed416ec416eb416eb016e9c16e8416e7416e6416e5816e4416e3c16e2816e1416e0416df416de416dd416dcc16db416da416d9416d8416d7416d6c16d5816d4816d3816d3016d1c063c0)
  (.lf
  0x40fc040f8040f4040f0040ec040e8040e4040e042564425544254442534425244251442504424f4424e4424d4424c4424b4424a442494424844247442464424544244442434424244241442404423f4423e4423d4423c4423b4423a4423941485d54dc86bd446bd146bce46bcb86bc8c6bc606bc346bc086bbdc6bbb06bb846bb586bb306bb086bae06bab86ba906ba686ba406ba186b9f06443864418643f8))
  (.nd (.lf
  0x5f0e05f0c05f0a05f0805f0605f0405f0205f0005efe05efbc5efa05ef845ef685ef4c5ef305ef145eef85eb8c5eb705eb545edac5ed8c5ed6c5ed4c5ed2c5ed0c5ecec5eccc5ecac5ec8c5ec6c5edb05ed905ed705ed505ed305ed105ecf05ecd05ecb05ec905ec705ec505ec345ec185ebfc5ebe05ebc45eba85e83c5e8205e8045ea5c5ea3c5ea1c5e9fc5e9dc5e9bc5e99c5e97c5e95c5e93c5e91c5ea60)
  (.lf 0))) (.nd (.nd (.lf
  0xaf2c08a5d004860af2008a590af181522d004820af1408a550af0c152290047e0af0808a510047a0aefc08a4d021fc152250aef415221004760aef008a490aee81521d004720aee408a450046e0aed808a410046a0aecc08a3d004660aec008a39004620aeb408a350045e0aea808a310045a0ae9c08a2d004560ae9008a29004520ae8408a25021e415219021dc152150ae7c152110044e0ae7808a210b838)
  (.lf 0)) (.nd (.lf
  0x4f0744f06447d0447d104f2b44f29c4f2844f26c4f2544f23c4efc84efb44efa04ef8c4ef784ef644ef504ef3c4ef284ef144ef004eeec4eed84eec44eeb04ee9c4ee884ee744ee604ee4c4ee384ee244ee144ee0447cec47cf84f0544f03c4f0244f00c4eff44efdc4ed684ed544ed404ed2c4ed184ed044ecf04ecdc4ecc84ecb44eca04ec8c4ec784ec644ec504ec3c4ec284ec144ec004ebec4ebd84ebc4)
  (.lf 0)))

def shaPos425 : BTree :=
  .nd (.nd (.nd (.lf
  0x1c5f41c5fc03f3d1c5e41c5ec03f391c5d81c5dc03f351c5c41c5c803f311c5bc1c5b403f2d1c5ac1c5a803f291c5981c59403f251c5881c58403f211c5741c57803f1d1c5641c56c03f191c55c1c55403f151c5481c54c03f111c5381c53403f0d1c5281c52403f091c5181c51c03f051c5041c50803f011c4fc1c4f403efd1c4e81c4e403ef91c4d41c4d803ef51c4cc1c4c403ef11c4bc1c4b403eed1c4ac)
  (.lf 0)) (.nd (.lf
  0x2b9882b9782b9682b9582b9482b9382b9282b9182b9082b8fc2b8ec2b8dc2b8cc2b8bc002e000c9c2b3f82b3e82b3d82b3c82b3b82b3a82b3982b3882b3782b3682b3582b3482b3382b3282b3182b3082b2f82b2e82b2d82b2c82b2b82b2a82b2982b2882b2782b2682b2582b2482b2382b228002d800c8c2ad682ad582ad482ad382ad282ad182ad082acf82ace82acd82acc82acb82aca82ac982ac882ac78)
  (.lf 0))) (.nd (.nd (.lf
  0x6648c3ade00d84d664603add80d849664383adcc0d845664103adc00d841663e83adb40d83d663c03ada80d839663983ad9c0d835663703ad900d831663483ad840d82d663203ad780d829662f83ad6c0d825662d03ad600d82162e583ad540d81d62e383ad480d81962e183ad3c0d81562df83ad300d81162dd83ad240d80d62db83ad140d80962d983ad0c0d80561d6c3acfc0d80161d503acf00d7fd68590)
  (.lf 0)) (.nd (.lf
  0x633e8633c8633a861ee461ec82825428248282442823c28234282282822028218282142820c28204281fc281f4281e8281e4281dc281d4281cc281c4281bc281b0281ac281a02819c2819428188281842817c281742816c15ee1004ec07324073200731c0731807314073100730c073080730407300072fc072f8072f4072f0072ec072e8072e4072e0072dc072d8072d4072d0072cc072c8072c4072c0072bc)
  (.lf 0)))

def shaPos426 : BTree :=
  .nd (.nd (.nd (.lf
  0x14951305c13060014911304c130500148d1303c13040014891302c13030014851301c13024014811300c130100147d12ffc130000147912fec12ff00147512fdc12fe40147112fcc12fd40146d12fbc12fc00146912fac12fb40146512f9c12fa00146112f9412f900145d12f7c12f840145912f6c12f700145512f5c12f600145112f4c12f500144d12f3c12f400144912f2c12f300144512f1c12f2401441)
  (.lf 0)) (.nd (.lf
  0x3f0cc3f0bc3f0ac3f09c3f08c3f07c3f06c3f05c3f04c3f03c3f02c3f01c3f00c3effc0012000fe03ed1c3ed0c3ecfc3ecec3ecdc3eccc3ecbc3ecac3ec9c3ec8c3ec7c3ec6c3ec5c3ec4c3ec3c3ec2c3ec1c3ec0c3ebfc3ebec3ebdc3ebcc3ebbc3ebac3eb9c3eb8c3eb7c3eb6c3eb5c3eb4c0011800fd43e86c3e85c3e84c3e83c3e82c3e81c3e80c3e7fc3e7ec3e7dc3e7cc3e7bc3e7ac3e79c3e78c3e77c)
  (.lf 0))) (.nd (.nd (.lf
  0xc7901564101ba20c78c0affd029fc1563d029f415639029ec15635029e4156310c7841562d01b9e0c7800aff901b9a0c7740aff50c76c1562901b960c7680aff10c7601562501b920c75c0afed01b8e0c7500afe90c7481562101b8a0c7440afe501b860c7380afe1029bc1561d029b415619029ac15615029a4156110299c1560d0655c15609158b132a2032a1c0afdd32a1032a0c0afd932a00329fc0afd5)
  (.lf 0)) (.nd (.lf
  0x1acd81acc81acb81aca81ac981ac881ac781ac681ac581ac481ac381ac281ac181ac081abf81abe81abd81abc81abb81aba81ab981ab881ab7815dbd54a1060b9860b7860b5860b3860b1860af860ad860ab860a9860a7860a5860a3860a1c60a00609e4609c8609ac6099060974609586093c6092060908608f0608d8608c0608a86089060878608601ab681ab581ab501ab441ab341ab281ab1c1ab101ab04)
  (.lf 0)))

def shaPos427 : BTree :=
  .nd (.nd (.nd (.lf
  0xbdec064e50190c14d9d0190414d990bde414d950186a0bde0064e1064e414d911587523de023ddc064dd23dcc23dc8064d923db823dc0064d523db023dac064d123da023d9c064cd23d8823d8c064c923d7c23d78064c523d7023d6c064c123d6023d5c064bd23d4c23d48064b923d3c23d38064b523d2c23d30064b123d1c23d18064ad23d0823d0c064a923cfc23cf8064a523cf023cec064a123ce023cdc)
  (.lf 0)) (.nd (.lf
  0x2c26c2c25c2c24c2c23c2c22c2c21c2c20c2c1fc2c1ec2c1dc2c1cc2c1bc2c1ac2c19c2c18c2c17c2c16c2c15c2c14c2c13c2c12c0053800cb42bc6c2bc5c2bc4c2bc3c2bc2c2bc1c2bc0c2bbfc2bbec2bbdc2bbcc2bbbc2bbac2bb9c2bb8c2bb7c2bb6c2bb5c2bb4c2bb3c2bb2c2bb1c2bb0c2bafc2baec2badc2bacc2babc00ca02b5dc2b5cc2b5bc2b5ac2b59c2b58c2b57c2b56c2b55c2b54c2b53c2b52c)
  (.lf 0))) (.nd (.nd (.lf
  0x43c50102f943c3843c40102f543c2843c30102f143c1843c20102ed43c0843c10102e943bf843c00102e543be843bf0102e143bd843be0102dd43bc843bd0102d943bb843bc0102d543ba843bb0102d143b9843ba0102cd43b8843b90102c943b7843b80102c543b6843b70102c143b5843b60102bd43b4843b50102b943b3843b40102b543b2843b30102b143b1843b20102ad43b0843b10102a943af843b00)
  (.lf 0)) (.nd (.lf
  0x355a43559435584355743556435554159bd003a4061ac061a8061a4061a00619c0619806194061900618c0618806184061800617c0617806174061700616c0616806164061600615c0615806154061500614c0614806144061400613c061383554435534355243551435504354f4354e4354d4354c4354b4354a435494354843547435464354543544435434354243541435404353f4353e4353d4353c4353b4)
  (.lf 0)))

def shaPos428 : BTree :=
  .nd (.nd (.nd (.lf
  0x6a0986a06c6a0406a01469fe869fbc69f9069f6863c3063c1063bf063bd063bb063b90620e4620c869dd069da069dd469da469d7469d4869d1c69cf069cc469c9869c6c69c4069c1469bec63b5063b3063b1063af063ad063ab0620ac6209069a5469a2469a5869a28699f8699cc699a069974699486991c698f0698c4698986987063a7063a5063a3063a10639f0639d06207462058696d8696a8696dc696ac)
  (.lf 0)) (.nd (.lf
  0x5ce345ce185cdfc5cde05cdc45cda85cd8c5cd705cd585cd405cd285cd105ccf85cce05ccc85ccb054720135f9135f5135f1135ed135e9135e5135e1135dd135d9135d5135d1135cd135c9135c5135c1135bd135b9135b5135b1135ad135a9135a5135a11359d1359913595135911358d1358913585135811357d547105cc9c5cc7c5cc5c5cc3c5cc1c5cbfc5cbdc5cbbc5cb9c5cb7c5cb5c5cb3c5cb205cb04)
  (.lf 0))) (.nd (.nd (.lf
  0x11f2011ee026440b1d00b1c40b1b80b1ac0b1a00262c0b188026040b1700b164025f40b14c0b140025ec0263c15451026341544d0b1dc154490056e0b1d809d210056a0b1cc09d1d005660b1c009d19005620b1b409d150055e0b1a809d110055a0b19c09d0d02624154450261c15441026141543d0260c154390b19415435005560b19009d09005520b18409d05025fc154310b17c1542d0054e0b17809d01)
  (.lf 0)) (.nd (.lf
  0x1404c140401403014020140101400013fec13fe013fd013fc013fac13fa013f9013f7c13f7013f5c13f5013f3c13f3016029544e859e4459e2459e0459de459dc459da459d8459d6459d4459d2459d0459ce459cc859cac59c9059c7459c5859c3c59c2059c0459be859bcc59bb459b9c59b8459b6c59b5459b4059b2859b1013f2013f1413f0813efc13ef013ee413ed813ecc13ec013eb413ea813e9813e90)
  (.lf 0)))

def shaPos429 : BTree :=
  .nd (.nd (.nd (.lf
  0x202302022c0520d2021c20220052092020c2021005205201f82020005201201e8201ec051fd201e0201dc051f9201c8201d0051f5201bc201b8051f1201a8201ac051ed201a020198051e92019020188051e52017820180051e12016c20168051dd201582015c051d92014c20150051d5201382013c051d1201282012c051cd201182011c051c92010c20110051c5200f8200fc051c1200ec200f0051bd200dc)
  (.lf 0)) (.nd (.lf
  0x5c3045c2ec5c2d45c2bc546a4546b85c5f45c5d45c5b45c5945c5745c5545c5345c5145c4f45c1845c1645c1445c1285c10c5c0f05c0d45c0b85c09c5c0805c0645c0485c02c5c0145bffc5bfe45bfcc5bfb45bf9c5bf845bf6c5467c546905c2a45c2845c2645c2445c2245c2045c1e45c1c45c1a45be305be145bdf45bdd85bdbc5bda05bd845bd685bd485bd305bd145bcf85bcdc5bcc45bcac5bc945bc7c)
  (.lf 0))) (.nd (.nd (.lf
  0xeda53f5003f4f80eda13f4f03f4e80ed9d3f4e03f4d80ed993f4d03f4c80ed953f4c03f4b80ed913f4b03f4a80ed8d69a643f4a00ed8969a343f4940ed8569a043f4880ed81699d83f47c0ed7d699ac3f4700ed79699803f4640ed75699543f4580ed71699283f44c0ed6d698fc3f4400ed69698d03f4340ed65698a43f4280ed616987c3f41c0ed5d698543f4100ed596982c3f4040ed55698043f3f80ed51)
  (.lf 0)) (.nd (.lf
  0x2eb942eb842eb742eb6415a7954d946b62c6b5fc6b5d06b5a46b5786b54c6b5206b4f46b4c86b49c6b4706b4486b4206b3f86b3d06b3a86b3806b3586b3306b3086b2e064268642486422864208641e8641c8641a862264622482eb542eb4c2eb442eb3c2eb342eb2c2eb242eb1c2eb142eb0c2eb042eafc2eaf42eaec2eae42eadc2ead42eacc2eac42eabc2eab42eaac2eaa42ea9c2ea942ea8c2ea842ea7c)
  (.lf 0)))

def shaPos430 : BTree :=
  .nd (.nd (.nd (.lf
  0x17af8029e917ae817aec029e517ad417ad8029e117ac817acc029dd17ab817abc029d917aac17aa8029d517a9817a9c029d117a8417a88029cd17a7c17a78029c917a6417a6c029c517a5c17a58029c117a4817a4c029bd17a3417a38029b917a285d9e8029b517a205d9c8029b117a105d9a8029ad17a085d988029a9179fc5d968029a5179f05d948029a1179e05d9280299d179d45d90802999179cc5d8e8)
  (.lf 0)) (.nd (.lf
  0x480b8480a4480904807c480684805848044480304801c4800847ff447fe047fcc47fb847fa44551c4551045504454fc454f0454e4454d8454c8454c00cd800cd88455b8455a8455984558845580455784556c4556045554455484553c4553045524455184550c45500454f4454e8454dc454d0454c4454184540c45400453f4453e8453dc453d0453c4453b80cd580cd60454b44549c45494454884547c45470)
  (.lf 0))) (.nd (.nd (.lf
  0x3667c0c2f9366703666c0c2f5366603665c0c2f1366503664c0c2ed366403663c0c2e9366303662c0c2e5366203661c0c2e1366103660c0c2dd36600365fc0c2d9365f0365ec0c2d5365e0365dc0c2d1365d0365cc0c2cd365c0365bc0c2c9365b0365ac0c2c5365a03659c0c2c1365903658c0c2bd365803657c0c2b9365703656c0c2b5365603655c0c2b1365503654c0c2ad365403653c0c2a9365303652c)
  (.lf 0)) (.nd (.lf
  0x218742186c15c510046c06ba406ba006b9c06b9806b9406b9006b8c06b8806b8406b8006b7c06b7806b7406b7006b6c06b6806b6406b6006b5c06b5806b5406b5006b4c06b4806b4406b4006b3c06b3806b3406b3021864218542184421830218202181021804217f4217e4217d4217c4217b4217a421790217842177021764217542174421734217242171021704216f4216e4216d4216c0216b4216a021694)
  (.lf 0)))

def shaPos431 : BTree :=
  .nd (.nd (.nd (.lf
  0xc0980779901dcc1500501dc41500101dbc14ffd0c09414ff90194e0c08c077950c08814ff50194a0c0800779101da414ff10c07c14fed019460c0740778d019420c068077890193e0c0600778501d9414fe90c05414fe50193a0c05007781019360c0480777d0c04014fe1019320c03c077790c03014fdd0192e0c02c0777515885278f0278e807771278d8278e00776d278cc278d007769278c0278b807765)
  (.lf 0)) (.nd (.lf
  0x2cb082caf82cae82cad82cac82cab82caa82ca982ca880074000cd02c5c82c5b82c5a82c5982c5882c5782c5682c5582c5482c5382c5282c5182c5082c4f82c4e82c4d82c4c82c4b82c4a82c4982c4882c4782c4682c4582c4482c4382c4282c4182c4082c3f80073800cbc2bf382bf282bf182bf082bef82bee82bed82bec82beb82bea82be982be882be782be682be582be482be382be282be182be082bdf8)
  (.lf 0))) (.nd (.nd (.lf
  0x10fd510fd110fcd10fc910fc510fc110fbd10fb910fb510fb110fad10fa910fa510fa110f9d10f9915b7147b944ccb84cca04cc884cc704cc584cc404cc2c4cc184cc044cbf04cbdc4cbc84cbb44cba04cb8c4cb784cb644cb504cb3c4cb284cb144cb004caec4cad84cac44cab04ca9c4ca884ca784ca6847b8810f9510f9110f8d10f8910f8510f8110f7d10f7910f7510f7110f6d10f6910f6510f6110f5d)
  (.lf 0)) (.nd (.lf
  0x369c0369803694036903be443be343be203be103be043bdf43bde43bdd43bdc43bdb43bda43bd943bd843bd743bd603bd543bd443bd343bd203bd143bd043bcf03bce43bcd43bcc43bcb43bca43bc903bc843bc701480554c0c6709067060670306700466fd866fac66f8066f5866f2866f0066ed066eac66e8066e5c66e3066e0c66de066dbc66d9066d6c66d40630f8630d4630b863094630786305463038)
  (.lf 0)))

def shaPos432 : BTree :=
  .nd (.nd (.nd (.lf
  0x8d413dac13da013d8c13d8013d7813d6013d5013d4813d3013d2413d1013cfc13cec13ce013cd013cc013cac13c9c13c9013c7c13c6c13c6813c4c13c3c13c3813c1c13c1813c0813bf813be806348008cc13a6413a5413a5013a3813a3013a1813a08139fc139e8139d8139c8139b4139a813998139841398013970139541394413938139281391813904138f4138e4138d8138c4138b8138a8138a006340)
  (.lf
  0x40af440ae840adc40ad040ac440ab815f814578c53314532f0532cc532a853284532605323c53218531f4531d0531ac5318853168531485312853108530e8530c8530a85308853068530485302c5301052ff452fd852fbc52fa0490a44909040aac40aa040a9440a8840a7c40a7040a6440a5840a4c40a4040a3440a2840a1c40a1040a04409f8409ec409e0409d4409c8409bc409b0409a4409984098c40980))
  (.nd (.lf
  0x586e0586c0586a05868058660586405862058600585e0585bc585a058584585685854c5853058514584f85818c5817058158583ac5838c5836c5834c5832c5830c582ec582cc582ac5828c58274583b05839058370583505833058310582f0582d0582b0582905826c582505823458218581fc581e0581c4581a857e3c57e2057e085805c5803c5801c57ffc57fdc57fbc57f9c57f7c57f5c57f3c57f2458060)
  (.lf 0))) (.nd (.nd (.lf
  0x85c92a6302a628085c52a6202a618085c12a6082a610085bd2a6002a5f8085b92a5ec2a5e8085b52a5e02a5d8085b12a5d02a5cc085ad2a5c02a5bc085a92a5b02a5ac085a52a5a02a59c085a12a5882a58c0859d2a5782a57c085992a5702a56c085952a5602a55c085912a54c2a5480858d2a5402a53c085892a5302a52c085852a5202a51c085812a5102a50c0857d2a5002a4fc085792a4f02a4ec08575)
  (.lf 0)) (.nd (.lf
  0x49f5849f44479ac479bc4a2004a1e44a1cc4a1b04a18c4a17c49e8449e7449e5c49e3c49e2449e0849dfc49de449dcc49db449d9c49d8449d6c49d5449d3c49d2449d0c49cf449cdc49cc449ca849c9449c8049c6c4798c4799849f2849f1049ef449ed449eb849ea049bb049b9849b8049b6849b5049b3449b2049b0849af049ad849ac049aa849a9049a7849a6049a4849a3449a1c49a04499ec499d0499bc)
  (.lf 0)))

def shaPos433 : BTree :=
  .nd (.nd (.nd (.lf
  0x1b304039e91b2ec1b2f4039e51b2dc1b2e4039e11b2cc1b2d4039dd1b2bc1b2c4039d91b2ac1b2b4039d51b29c1b2a4039d11b28c1b294039cd1b27c1b284039c91b26c1b274039c51b25c1b264039c11b24c1b254039bd1b23c1b244039b91b22c1b234039b51b21c1b224039b11b20c1b214039ad1b1fc1b204039a91b1f061234039a51b1e461214039a11b1dc611f40399d1b1cc611d4039991b1c0611b4)
  (.lf 0)) (.nd (.lf
  0x1e7401e7341e7201e7101e7041e6f01e6e01e6d01e6c01e6b81e6a01e6941e6841e67c001e000a681e1981e17c1e16c1e1601e1541e1481e12c1e1281e1101e0fc1e0f01e0dc1e0d81e0c01e0b81e0a81e08c1e07c1e06c1e0601e0501e0401e02c1e0281e0101e0001dff81dfe01dfd81dfc0001d800a541dadc1dad41dac01dab01da981da8c1da7c1da681da641da501da441da281da201da081d9f81d9f4)
  (.lf 0))) (.nd (.nd (.lf
  0x39c280d2f939c2039c1c0d2f539c0839c0c0d2f139bf839bfc0d2ed39bf039bec0d2e939bd839bdc0d2e539bcc39bc80d2e139bbc39bb80d2dd39bac39ba80d2d939b9c39b980d2d56583039b8c0d2d16580039b840d2cd657d039b740d2c9657a439b680d2c56577839b5c0d2c16574c39b540d2bd6572039b480d2b9656f439b380d2b5656c839b2c0d2b16569c39b240d2ad6567039b180d2a96564839b08)
  (.lf 0)) (.nd (.lf
  0x267ac267a42679c267942678c26784267782677426768267642675c267502674c267402673c267342672c15eb1004cc07144071400713c0713807134071300712c0712807124071200711c0711807114071100710c071080710407100070fc070f8070f4070f0070ec070e8070e4070e0070dc070d8070d4070d0267242671426704266f4266e0266d0266c4266b0266a4266942668426674266642665426640)
  (.lf 0)))

def shaPos434 : BTree :=
  .nd (.nd (.nd (.lf
  0x11da057b7000f3d11d9457b5400f3911d8857b3800f3511d7c57b1c00f3111d7457b0400f2d11d6857ae800f2911d5c57ac800f2511d4c57aac00f2111d4057a9400f1d11d3457a7c00f1911d2857a6400f1511d1c57a4c00f1111d1057a3400f0d11d0457a1c00f0911cf857a0400f0511cf0579ec00f0111cdc11ce000efd11ccc11cd000ef911cbc11cc400ef511cb411cac00ef111ca411ca000eed11c94)
  (.lf 0)) (.nd (.lf
  0x14601145fd145f9145f5145f1145ed145e9145e5145e1145dd145d9145d5145d1145cd15c1d49174552b855290552685524055218551f0551cc551a855184551605513c55118550f4550d0550ac5508855064550405501c54ff854fd454fb054f8c54f6854f4454f2054efc54ed854eb854e984915c145c9145c5145c1145bd145b9145b5145b1145ad145a9145a5145a11459d1459914595145911458d14589)
  (.lf 0))) (.nd (.nd (.lf
  0x31bfc0ab7531bf031bec0ab7131be031bdc0ab6d31bd031bcc0ab6931bc031bbc0ab6531bb031bac0ab6131ba031b9c0ab5d31b9031b8c0ab5931b8031b7c0ab5531b7031b6c0ab5131b6031b5c0ab4d31b5031b4c0ab4931b4031b3c0ab4531b3031b2c0ab4131b2031b1c0ab3d31b1031b0c0ab3931b0031afc0ab3531af031aec0ab3131ae031adc0ab2d31ad031acc0ab2931ac031abc0ab2531ab031aac)
  (.lf 0)) (.nd (.lf
  0x5f0345f0145eff45efd45efb45ef985ef7c5ef605ef445ef285ef0c5eef05eed45eeb85ee9c5ee845ee6c5ee545ee3c5ee245ee0c5edf85ede0191281911c1911019104190f8190ec190e0190d4190c8190bc190b0190a4190981908c1908019074190681905c1905019044190381902c19020190141900818ffc18ff018fe418fd818fcc15d89064140e3b80e3b40e3b00e3ac0e3a80e3a40e3a00e39c0e398)
  (.lf 0)))

def shaPos435 : BTree :=
  .nd (.nd (.nd (.lf
  0x22e2022e1c0602122e1022e0c0601d22e0022dfc0601922df022dec0601522ddc22dd80601122dcc22dd00600d22dc022dbc0600922dac22da80600522da022d9c0600122d8822d8c05ffd22d7c22d7805ff922d6c22d7005ff522d5822d5c05ff122d4822d5005fed22d3c22d3805fe922d2c22d2805fe522d1c22d2005fe122d0c22d1005fdd4c0e061c1005fd94c0c861be805fd54c0b061bc005fd14c098)
  (.lf 0)) (.nd (.lf
  0x1e9c01e9b81e9a41e9941e98c1e9781e9601e9581e9481e9381e9201e9141e9001e8fc1e8e81e8dc1e8c01e8b01e8a01e89c1e8841e8781e86800a701e3701e3681e3581e3401e3381e31c1e3181e3001e2f41e2e81e2cc1e2bc1e2ac1e29c1e28c1e2801e2781e2681e2581e2481e2341e21c1e20c1e2001e1f81e1dc1e1d41e1c800a5c1dcc01dcac1dca41dc901dc801dc6c1dc581dc481dc381dc281dc18)
  (.lf 0))) (.nd (.nd (.lf
  0xfda54671042a880fda1466fc42a7c0fd9d466ec42a700fd99466dc42a640fd95466cc42a580fd91466bc42a4c0fd8d466ac42a400fd894669c42a340fd854580842a280fd81457fc42a1c0fd7d42a0842a100fd79429f842a000fd75429e8429f00fd71429d8429e00fd6d429c8429d00fd69429b8429c00fd65429a8429b00fd6142998429a00fd5d42988429900fd5942978429800fd5542968429700fd51)
  (.lf 0)) (.nd (.lf
  0x33b7433b6433b5433b4433b3433b2433b1433b0433af433ae433ad433ac433ab433aa433a9433a8433a7433a6433a5433a4433a3433a2415aa947f2c52340523245230c522ec522d4522bc522a0522885227452258522405222c52210521fc521e0521c8521b05219c521805216852154521385212052108520f4520d8520c4520b0520985208833a1433a0c33a00339fc339f0339e8339e4339dc339d0339cc)
  (.lf 0)))

def shaPos436 : BTree :=
  .nd (.nd (.nd (.lf
  0x5409854074540505402c5400853fe453fc053fa053b9853b7853b5853b3853b1853dc053d9c53d7853d5453d3053d0c53ce853cc453ca053c7c53c5853dc453da053d7c53d5853d3453d1053cec53cc853ca453c8053c5c53c3853c1853800537e0537c0537a05378053a2853a04539e0539bc5399853974539505392c53908538e4538c053a2c53a08539e4539c05399c5397853954539305390c538e8538c4)
  (.lf 0)) (.nd (.lf
  0x5a9c85a9ac5a9905a9745a9585a93c5a9205a9045a8ec5a8d45a8bc5a8a45a88c5a8745a85c5a8445456c5457c5ab785ab585ab385ab185aaf85aad85aab85aa985aa785aa585aa385aa185a9fc5a9e05a9c45a9a85a98c5a9705a9545a9385a91c5a9005a8e85a8d05a8b85a8a05a8885a8705a8585a840545681307913075130711306d1306913065130611305d1305913055130511304d130491304513041)
  (.lf 0))) (.nd (.nd (.lf
  0x98ad2e1802e17c098a92e1702e16c098a52e1602e15c098a12e1502e14c0989d2e1402e13c098992e1302e12c098952e1202e11c098912e1102e10c0988d2e1002e0fc098892e0f02e0ec098852e0e02e0dc098812e0d02e0cc0987d2e0c02e0bc098792e0b02e0ac098752e0a02e09c098712e0902e08c0986d2e0802e07c098692e0702e06c098652e0582e060098612e0482e0500985d2e0402e03c09859)
  (.lf 0)) (.nd (.lf
  0x582685824c5823058214581f8581dc581bc581a458188581685814c581345811c58104580ec580d4580c0580a858090124dc124d0124c8124bc124ac124a0124941248c1247c12470124681245812450124401243412428124201241412404123fc123f0123e4123d8123c8123c0123b4123a41239c123901238415cc90630c0d4400d43c0d4380d4340d4300d42c0d4280d4240d4200d41c0d4180d4140d410)
  (.lf 0)))

def shaPos437 : BTree :=
  .nd (.nd (.nd (.lf
  0x4d5d1f3381f34004d591f3281f33004d551f31c1f32004d511f3101f30804d4d1f2f81f2fc04d491f2e81f2f004d451f2d81f2dc04d411f2cc1f2d004d3d1f2c01f2b804d391f2b01f2ac04d351f2a01f29804d311f28c1f28804d2d1f2781f28004d291f2701f26804d251f2601f25804d211f2501f24c04d1d1f23c1f23804d191f22c1f23004d151f21c1f22004d111f2101f20804d0d1f2001f1f804d09)
  (.lf 0)) (.nd (.lf
  0x55904558ec558d4558bc541a8541b855bec55bd055bac55b9055b7455b5455b3455b0c55af4557a455790557745575c557445572c55714556fc556e4556cc556b05569855684556705565c5564855634556205560c555f8555e45418454194558a85588c558705584c558305581c55800557dc557c4554d4554b45549c554845546c554545543c554245540c553f4553dc553c0553ac5539855384553705535c)
  (.lf 0))) (.nd (.nd (.lf
  0x3e3703e3680e84d3e3603e3580e8493e3503e3480e8453e3403e3380e8413e3303e3280e83d3e3203e3180e8393e3103e3080e8353e3003e2f80e8313e2f03e2e80e82d3e2e03e2d80e8293e2d03e2c80e8253e2c03e2b80e8213e2b03e2a80e81d3e2a03e2980e8193e2903e2880e8153e2803e2780e8113e2703e2680e80d3e2603e2580e8093e2503e2480e8053e2403e2380e8013e2303e2280e7fd3e220)
  (.lf 0)) (.nd (.lf
  0x6a6086a5e46a5b86a5906a56c6a5446a51c6a4f063ee863ec863eac63e8c63e6c63e4c63e2c62188621682d1142d10c2d1042d0fc2d0f42d0ec2d0e42d0dc2d0d42d0cc2d0c42d0bc2d0b42d0ac2d0a42d09c2d0942d08c2d0842d07c2d0742d06c2d0642d05c2d0542d04c2d0442d03c2d0342d02c15f710054c078c4078c0078bc078b8078b4078b0078ac078a8078a4078a00789c0789807894078900788c)
  (.lf 0)))

def shaPos438 : BTree :=
  .nd (.nd (.nd (.lf
  0x2495168685c6200249116854168580248d168441684802489168341683802485168241682c02481168141681c0247d168041680c02479167f4167f802475167e4167e802471167d4167d80246d167c4167c802469167b4167bc02465167a4167a80246116794167980245d1678416788024591677c1677802455167641676802451167541675c0244d167441674802449167341673802445167241672802441)
  (.lf 0)) (.nd (.lf
  0x3ce5c3ce503ce443ce383ce2c3ce203ce143ce083cdfc3cdf03cde43cdd83cdcc3cdc048d9000f883ca6c3ca603ca543ca483ca3c3ca303ca243ca183ca0c3ca003c9f43c9e83c9dc3c9d03c9c43c9b83c9ac3c9a03c9943c9883c97c3c9703c9643c9583c94c3c9403c9343c9283c91c3c91048d8400f7c3c5bc3c5b03c5a43c5983c58c3c5803c5743c5683c55c3c5503c5443c5383c52c3c5203c5143c508)
  (.lf 0))) (.nd (.nd (.lf
  0xbe0d35618356200be0935608356100be05355f8356000be01355e8355f00bdfd355d8355e00bdf9355c8355d00bdf5355b8355c00bdf1355a8355b00bded35598355a00bde935588355900bde535578355800bde135568355700bddd35558355600bdd935548355500bdd50164e0164a01646016420163e0163a01636016320162e0162a01626016220161e0161a01616016120160e0160a0160602d240b728)
  (.lf 0)) (.nd (.lf
  0x1fe2815c310044c069c4069c0069bc069b8069b4069b0069ac069a8069a4069a00699c0699806994069900698c0698806984069800697c0697806974069700696c0696806964069600695c0695806954069501fe241fe141fe001fdf41fde41fdd41fdc41fdb41fda01fd941fd841fd741fd641fd541fd401fd341fd241fd141fd041fcf41fce41fcd41fcc41fcb41fca41fc901fc801fc701fc601fc50158e9)
  (.lf 0)))

def shaPos439 : BTree :=
  .nd (.nd (.nd (.lf
  0x26ab026aa80730526aa026a980730126a9026a88072fd26a8026a78072f926a7026a68072f526a5c26a58072f126a4826a4c072ed26a3826a40072e926a3026a2c072e526a2026a1c072e126a0826a10072dd26a00269fc072d9269ec269f0072d5269e0269dc072d1269c8269cc072cd269c0269bc072c9269a8269b0072c52699c269a0072c12698826990072bd269802697c072b9269702696c072b52695c)
  (.lf 0)) (.nd (.lf
  0x1f9081f8f81f8e81f8dc1f8cc1f8bc1f8ac1f89c1f8940064000a9c1f3c81f3bc1f3a81f39c1f3881f3781f3741f3641f3481f33c1f32c1f3181f30c1f3001f2ec1f2e01f2c81f2bc1f2a81f29c1f2941f27c1f26c1f25c1f2481f2401f2281f2181f20c1f1fc0063800a8c1ed181ed081ecf81ece41ecd81ecc41ecb81eca41ec941ec841ec781ec681ec581ec441ec341ec241ec141ec041ebf41ebe81ebd4)
  (.lf 0))) (.nd (.nd (.lf
  0x10815108111080d108091080510801107fd107f9107f5107f1107ed107e9107e5107e1107dd107d915b25479c04a20c4a1f04a1d44a1b84a19c4a1804a1684a1504a1384a1204a1084a0f04a0d84a0c04a0a84a0904a0784a0604a0484a0304a0184a00049fe849fd049fb849fa049f8449f7049f5c49f48479b0107d5107d1107cd107c9107c5107c1107bd107b9107b5107b1107ad107a9107a5107a11079d)
  (.lf 0)) (.nd (.lf
  0x3a3a43a39815e7954c6467e9467e6467e3467e0867ddc67db067d8467d5867d2c67d0067cd467ca867c8067c5867c3067c0867be067bb867b9067b6867b406348063460634406342063400633e0633c061ef861edc3a38c3a3803a3743a3643a35c3a3503a3403a3383a32c3a3203a3143a3083a2fc3a2f03a2e43a2d83a2c83a2c03a2b43a2a43a29c3a2903a2843a2783a26c3a25c3a2543a2483a23c3a230)
  (.lf 0)))

def shaPos440 : BTree :=
  .nd (.nd (.nd (.lf
  0x9d01a4d81a4c41a4c01a4b41a4a01a49c1a4901a4841a4781a4641a4581a4541a4481a43c1a4281a41c1a4181a40c1a4001a3f41a3e01a3dc1a3c81a3bc1a3b81a3a41a3981a38c1a3801a374549ac009c81a1881a1841a1701a16c1a1581a1541a1401a13c1a1301a1241a1181a1041a0f81a0f41a0e81a0dc1a0c81a0bc1a0b01a0a41a0981a0941a0801a0741a0681a0641a0581a04c1a0401a02c54984)
  (.lf
  0x43e9c43e9043e8443e7843e6c43e6043e5443e4815e294506c471c8471b047198471804716847150471384712047108470f0470d8470c0470ac4709847084470704705c4704847034470204700c46ff846fe846fd846fc846fb846fa846f98458644585843e3c43e3043e2443e1843e0c43e0043df443de843ddc43dd043dc443db843dac43da043d9443d8843d7c43d7043d6443d5843d4c43d4043d3443d28))
  (.nd (.lf
  0x5643456418563fc563e0563c4563a85638c5637056358563405632856310562f8562e0562c8562b054220125f9125f5125f1125ed125e9125e5125e1125dd125d9125d5125d1125cd125c9125c5125c1125bd125b9125b5125b1125ad125a9125a5125a11259d1259912595125911258d1258912585125811257d542105629c5627c5625c5623c5621c561fc561dc561bc5619c5617c5615c5613c5612056104)
  (.lf 0))) (.nd (.nd (.lf
  0x2c2e808efd2c2e02c2d808ef92c2d02c2c808ef52c2c02c2b808ef12c2b02c2a808eed2c2a02c29808ee92c2902c28808ee52c2802c27808ee12c2702c26808edd2c2602c25808ed92c2502c24808ed52c2402c23808ed12c2302c22808ecd2c2202c21808ec92c2102c20808ec52c2002c1f808ec12c1f02c1e808ebd2c1e02c1d808eb92c1d02c1c808eb52c1c02c1b808eb12c1b02c1a808ead2c1a02c198)
  (.lf 0)) (.nd (.lf
  0x47610475f8475e0475c8475b447598475804756847550475384752047508474f4474d8474c4474ac474940f0d40f0d00f0c40f0c00f0b80f0b00f0a80f09c0f0980f0900f0880f07c0f0780f0700f0680f0600f0580f0500f0440f03c0f0380f0300f0280f0200f0140f0100f0080effc0eff80efec15c81456084607446068460444603c4601c4600c4600045ff445fe445fcc45fc045fb045f9c45f8c45f7c)
  (.lf 0)))

def shaPos441 : BTree :=
  .nd (.nd (.nd (.lf
  0x7e2007de012240121c0120c011f4011ec0a2d0011c40a2b4011bc0a2a00a294011ac011a40a30814a150007e0a304043c10121414a110a30014a0d0007a0a2fc043bd0120414a09011fc14a050a2f414a01000760a2f0043b90a2e8149fd000720a2e0043b5011e4149f9011dc149f5011d4149f1011cc149ed0a2d8149e90006e0a2d4043b10006a0a2cc043ad0a2c4149e5000660a2c0043a9000620a2b0)
  (.lf 0)) (.nd (.lf
  0x560b4560985607c5606056044560285601055ff855fe055fc855fb055f9855f8055f6854200541ec55f5055f3055f1055ef055ed055eb055e9055e7055e5055e3055e1055df055dd455db855d9c55d8055d6455d4855d2c55d1055cf455cd855cc055ca855c9055c7855c6055c4855c3055c18541d8541c455c0055be055bc055ba055b8055b6055b4055b2055b0055ae055ac055aa055a8455a6855a4c55a30)
  (.lf 0))) (.nd (.nd (.lf
  0xdda561e4c3bfc00dda161e303bfb40dd9d693803bfa40dd99693503bf9c0dd95693203bf900dd91692f43bf800dd8d692c83bf740dd896929c3bf6c0dd85692703bf600dd81692443bf500dd7d692183bf480dd79691ec3bf3c0dd75691c03bf2c0dd71691943bf200dd6d6916c3bf180dd69691443bf0c0dd656911c3befc0dd61690f43bef00dd5d690cc3bee80dd59690a43bedc0dd556907c3becc0dd51)
  (.lf 0)) (.nd (.lf
  0x68b0068ad468aa868a8068a5868a3068a08689d8689b068988689606893868910637e8637c8637a86379063768637486373061fd061fa829c9429c8c29c8429c7c29c7429c6c29c6429c5c29c5429c4c29c4429c3829c3429c2c29c2429c1c29c1429c0c29c0429bfc29bf429bec29be429bdc29bd429bcc29bc429bbc29bb429bac15f150050c0750407500074fc074f8074f4074f0074ec074e8074e4074e0)
  (.lf 0)))

def shaPos442 : BTree :=
  .nd (.nd (.nd (.lf
  0x142ec019e9142e4142dc019e5142cc142d4019e1142bc142c0019dd142b0142b4019d9142a41429c019d51429014294019d11428414280019cd1426c14270019c9142605a198019c5142545a178019c11424c5a158019bd1423c5a138019b9142305a118019b5142245a0f8019b11421c5a0d8019ad1420c5a0b8019a9142045a098019a5141f85a078019a1141e85a0580199d141dc5a03801999141d05a01c)
  (.lf 0)) (.nd (.lf
  0x381f4381e8381e0381d4381c4381b8381ac381a0381983818c3817c38170381683815c48d4000ec437e0437df837df437de437ddc37dc837dbc37db437dac37d9c37d8c37d8437d7437d6837d5c37d5037d4437d3837d2c37d2037d1c37d0837d0037cf037ce437cd837ccc37cc837cb437ca848d3400eb83795837948379443793437928379183790c37904378f4378f0378e4378d0378c4378c0378ac378a4)
  (.lf 0))) (.nd (.nd (.lf
  0x464500b4b55209c457e80b4b152084457dc0b4ad33918339200b4a933908339100b4a5338f8339000b4a1338e8338f00b49d338d8338e00b499338c8338d00b495338b8338c00b491338a8338b00b48d33898338a00b48933888338900b48533878338800b48133868338700b47d33858338600b47933848338500b47533838338400b47133828338300b46d33818338200b46933808338100b465337f833800)
  (.lf 0)) (.nd (.lf
  0x65b0065ac065a8065a4065a00659c0659806594065901c7fc1c7ec1c7e01c7cc1c7c01c7b01c79c1c7901c77c1c76c1c7601c7501c73c1c72c1c71c1c7101c7001c6f01c6dc1c6d01c6c01c6ac1c6a01c6901c6801c6701c65c1c64c1c6401c62c158c90b98c011540b9740113c0b95c0b9500112c011140b92c0b91c0b9140110c0b8fc0b8ec0b8e4010f4001bc04514045100450c045080450404500044fc)
  (.lf 0)))

def shaPos443 : BTree :=
  .nd (.nd (.nd (.lf
  0x24c2024c1c0697524c1024c0c0697124c0024bfc0696d24bf024bec0696924be024bdc0696524bd024bcc0696124bc024bbc0695d24bb024bac0695924ba024b9c0695524b9024b8c0695124b8024b7c0694d24b7024b6c0694924b6024b5c0694524b5024b4c0694124b4024b3c0693d24b3024b280693924b2024b180693524b1024b080693100c4600c4200c3e00c3a00c3600c3200c2e00c2a00c2600c22)
  (.lf 0)) (.nd (.lf
  0x1f7d81f7d41f7c81f7c01f7b81f7b01f7ac1f7a01f79847a1400a981f1f01f1e81f1e01f1d81f1d01f1c81f1c01f1b81f1b01f1a81f1a01f1981f1901f1881f1801f1781f1741f16c1f1641f1581f1501f1441f1381f12c1f1281f1181f1101f1001f0f01f0e4479f400a881eb3c1eb341eb2c1eb241eb1c1eb181eb0c1eb081eb001eaf81eaec1eae81eadc1ead41ead01eac41eabc1eab41eab01eaa41ea9c)
  (.lf 0))) (.nd (.nd (.lf
  0x4ad084ace84acd04acb84aca04ac884ac704ac584ac404ac284ac104abf84abe04abc84abb04ab984ab804a8904a8784a8604a8484a8304a8184a8004aa804aa644aa484aa2c4aa104aa844aa684aa4c4aa344aa144a9f84a9e04a9c84a9b04a9984a9804a9684a9504a9384a9204a9084a8f04a8d84a8c04a8a84a5b84a5a04a5884a5704a5584a5404a52c4a7a84a78c4a7704a7544a7404a7ac4a7904a774)
  (.lf 0)) (.nd (.lf
  0x15c3554b886584065810657e0657b4657886575c6573065704656d8656ac65680656546562c65604655dc655b46558c655646553c65514654ec62ae062ac062aa062a8062a6062a4062a2061c9061c7436ff836ff036fe436fd836fcc36fbc36fb436fa836f9c36f9036f8436f7836f6c36f6036f5436f4836f3c36f3036f2036f1436f0c36f0036ef436ee836edc36ecc36ec436eb836eac36ea015e6500044)
  (.lf 0)))

def shaPos444 : BTree :=
  .nd (.nd (.nd (.lf
  0x4950f8580f854004910f84c0f8440048d0f8340f838004890f8280f824004850f8180f814004810f8080f80c0047d0f7fc0f7f8004790f7e40f7e8004750f7d40f7d8004710f7c80f7cc0046d0f7bc0f7b4004690f7a80f7a4004650f7980f794004610f7880f7840045d0f7780f774004590f7680f764004550f7580f754004510f74c0f7440044d0f7380f73c004490f7240f728004450f7180f71400441)
  (.lf 0)) (.nd (.lf
  0x13b3d13b3913b3513b3113b2d13b2913b2513b2113b1d13b1913b1513b1113b0d13b0913b0513b0113afd548c85f10c5f0ec5f0cc5f0ac5f08c5f06c5f04c5f02c5f00c5efec5efcc5efac5ef905ef745ef585ef3c5ef205ef045eee85eecc5eeb05ee945ee7c5ee645ee4c5ee345ee1c5ee045edec5edd4548b4548c45f1085f0e85f0c85f0a85f0885f0685f0485f0285f0085efe85efc85efa85ef8c5ef70)
  (.lf 0))) (.nd (.nd (.lf
  0xa1d92fe102fe080a1d52fe002fdf80a1d12fdf02fde80a1cd2fde02fdd80a1c92fdd02fdc80a1c52fdc02fdb80a1c12fdb02fda80a1bd2fda02fd980a1b92fd902fd880a1b52fd802fd780a1b12fd702fd680a1ad2fd602fd580a1a92fd502fd480a1a52fd402fd380a1a12fd302fd280a19d2fd202fd180a1992fd102fd080a1952fd002fcf80a1912fcf02fce80a18d2fce02fcd80a1892fcd02fcc80a185)
  (.lf 0)) (.nd (.lf
  0xdc140dc100dc0c0dc080dc040dc000dbfc0dbf80dbf40dbf00dbec0dbe80dbe40dbe00dbdc0dbd80dbd40dbd00dbcc0dbc80dbc415b3c15b3015b2015b0c15b0015af015adc15ad015ac015ab015a9c15a9015a7c15a6c15a5c15a4c15a3c15a2c15a2015a1015a00159ec159dc159d0159c0159b0159a01598c159801597015d29546285b8c85b8a85b8885b8685b8485b8285b8085b7e85b7c85b7a85b788)
  (.lf 0)))

def shaPos445 : BTree :=
  .nd (.nd (.nd (.lf
  0xa654015e40a638015b4015a40a6180159c0a69814c11001ae0a6940569d001aa0a68805699001a60a67c056950160414c0d0a67814c09001a20a67405691015f414c05015ec14c010a66c14bfd0019e0a6640568d0019a0a65c05689001960a64c05685015dc14bf9015d414bf5015cc14bf1015c414bed015bc14be90a64814be5001920a644056810018e0a6340567d015ac14be10a62c14bdd0018a0a628)
  (.lf 0)) (.nd (.lf
  0xbb100bb040baf80baec0132001318013100130801300012f80bae4064b8008961e8540043000a6c012f0012e8012e00badc0bacc012d8012d00bac00bab0012c8012c0012b80baac0ba980ba8c012b0012a8012a00129801290012880ba8401280012780127001268064b00086e1e1b81e1a00042800a5801260012580ba7c012500124801240012380ba68012300ba5c0ba580ba440ba400ba34012280ba24)
  (.lf 0))) (.nd (.nd (.lf
  0x406d00f2f96a61c406c40f2f56a5f4406b80f2f16a5cc406ac0f2ed6a5a4406a00f2e96a57c406940f2e56a554406880f2e16a52c4067c0f2dd6a504406700f2d963ef8406640f2d563ed8406580f2d163eb84064c0f2cd63e98406400f2c963e78406340f2c563e58406280f2c163e384061c0f2bd62194406100f2b962178406040f2b564c10405f80f2b164be0405ec0f2ad64bb4405e00f2a964b88405d4)
  (.lf 0)) (.nd (.lf
  0x305e4305d4305c4305b4305a415a8952f6c64878648486481c647f0647c4647986476c6474064714646e8646bc646946466c646446461c645f4645cc645a46457c645546452c6282c6280c627ec627cc627ac6278c6276c54e3c54e2030594305883058430578305743056830564305583055030548305403053c30534305283052030518305143050c30504304fc304f4304e8304e4304dc304d4304c8304c0)
  (.lf 0)))

def shaPos446 : BTree :=
  .nd (.nd (.nd (.lf
  0x18d945ed0802f3d18d885ece802f3918d7c5ecc802f3518d705eca802f3118d645ec8802f2d18d585ec6802f2918d4c5ec4c02f2518d405ec3002f2118d345ec1402f1d18d285ebf802f1918d1c5ebdc02f1518d105ebc002f1118d045eba402f0d18cf85eb8802f0918cec5eb6c02f0518ce05eb5002f0118cd05eb3402efd18cc45eb1c02ef918cb85eb0402ef518cac5eaec02ef118ca45ead802eed18c98)
  (.lf 0)) (.nd (.lf
  0x6a3c06a3946a3686a33c6a3106a2e86a2c06a2986a2706a2486a2206a1f86a1d06a1a86a18069f4069f1869ef069ec869ea069e7869e5069e2869e0063d3054d206a1546a1246a0f46a0c86a09c6a0706a0446a01869fec69fc069f9469f6c69f4469f1c69ef469ecc69ea469e7c69e5469e2c69e0469bc469b9c69b7469b4c69b2469afc69ad469aac69a8463c5054d0c69dd869da869d7869d4c69d2069cf4)
  (.lf 0))) (.nd (.nd (.lf
  0x65d00378b80c84d65cd8378b00c84965cb0378a00c84565c88378980c84165c60378880c83d65c38378800c83965c10378700c83565be8378680c83162ca43785c0c82d62c843784c0c82962c64378440c82562c44378340c82162c243782c0c81d62c04378200c81962be4378100c81561d04378080c81161ce8377fc0c80d377e8377ec0c809377dc377e00c805377c8377d00c801377c0377b80c7fd377b0)
  (.lf 0)) (.nd (.lf
  0x233442333823334233282332423318233102330c23304232f8232f0232e8232e4232d8232d0232cc232c0232b8232b4232a815e510048c06d8406d8006d7c06d7806d7406d7006d6c06d6806d6406d6006d5c06d5806d5406d5006d4c06d4806d4406d4006d3c06d3806d3406d3006d2c06d2806d2406d2006d1c06d1806d1406d10232a423294232802327423264232542324423234232242321423200231f0)
  (.lf 0)))

def shaPos447 : BTree :=
  .nd (.nd (.nd (.lf
  0x2879807c352878c2879007c31287802877c07c2d287682877007c29287582875c07c25287482874c07c21287382873c07c1d287282873007c19287182871c07c15287082870c07c11286f82870007c0d286e8286f007c09286d8286dc07c05286cc286c807c01286c0286b807bfd286a8286ac07bf9286982869c07bf5286882868c07bf1286782868007bed2866c2866807be9286582866007be52864828650)
  (.lf 0)) (.nd (.lf
  0x4a5b44a59c4a5844a56c4a5544a53c4a5244a5104a4fc479f0479e44a4e84a4cc4a4b04a4944a4784a45c4a4444a42c4a4144a3fc4a3e44a3cc4a3b44a39c4a3844a36c4a3544a33c4a3244a30c4a2f44a2dc4a2c44a2ac4a2944a27c4a2644a24c4a2384a224479d4479c44a2104a1f44a1d84a1bc4a1a04a1844a16c4a1544a13c4a1244a10c4a0f44a0dc4a0c44a0ac4a0944a07c4a0644a04c4a0344a01c)
  (.lf 0))) (.nd (.nd (.lf
  0x11795117911178d1178911785117811177d1177911775117711176d1176911765117611175d1175915bb147d144f2b84f2a04f2884f2704f2584f2404f22c4f2184f2044f1f04f1dc4f1c84f1b44f1a04f18c4f1784f1644f1504f13c4f1284f1144f1004f0ec4f0d84f0c44f0b04f09c4f0884f0784f06847d0811755117511174d1174911745117411173d1173911735117311172d1172911725117211171d)
  (.lf 0)) (.nd (.lf
  0x3d74c3d7403d7343d72815efd54d406a4e86a4b86a4886a45c6a4306a4046a3d86a3ac6a3806a3546a3286a2fc6a2d46a2ac6a2846a25c6a2346a20c6a1e46a1bc6a19463e2063e0063de063dc063da063d8063d6062160621443d71c3d7103d7043d6f83d6ec3d6e03d6d43d6c83d6bc3d6b03d6a43d6983d68c3d6803d6743d6683d65c3d6503d6443d6383d62c3d6203d6143d6083d5fc3d5f03d5e43d5d8)
  (.lf 0)))

def shaPos448 : BTree :=
  .nd (.nd (.nd (.lf 0x0) (.lf
  0x3eb2c3eb203eb143eb083eafc3eaf03eae43ead83eacc3eac03eab43eaa83ea9c3ea903ea843ea783ea6c3ea603ea543ea483ea3c3ea303ea243ea183ea0c3ea003e9f43e9e815f2d54d846b2b86b2886b25c6b2306b2046b1d86b1ac6b1806b1546b1286b0fc6b0d46b0ac6b0846b05c6b0346b00c6afe46afbc6af946af6c6419064170641506413064110640f0640d062234622183e9dc3e9d03e9c43e9b8))
  (.nd (.lf
  0x11d6511d6111d5d11d5911d5511d5111d4d11d4911d4511d4111d3d11d3911d3511d3111d2d11d2915be147e3850f3c50f2450f0c50ef450edc50ec450eb050e9c50e8850e7450e6050e4c50e3850e2450e1050dfc50de850dd450dc050dac50d9850d8450d7050d5c50d4850d3450d2050d0c50cfc50cec47e2c11d2511d2111d1d11d1911d1511d1111d0d11d0911d0511d0111cfd11cf911cf511cf111ced)
  (.lf 0))) (.nd (.nd (.lf
  0x1f94150f101f8c150ed01f84150e90c0f0150e50196e0c0ec07fcd0c0e8150e10196a0c0e407fc90c0dc150dd019660c0d807fc501f64150d901f5c150d501f54150d10c0d0150cd019620c0c807fc115889293282932c07fbd293202931c07fb9293082930c07fb529300292fc07fb1292f0292e807fad292e0292dc07fa9292c8292d007fa5292bc292c007fa1292ac292a807f9d292982929c07f992928c)
  (.lf 0)) (.nd (.lf
  0x4e2c44e2b04e29c4e2884e2744e2604e24c4e23c4e22c47c7c47c704e2204e2084e1f04e1d84e1c04e1a84e1944e1804e16c4e1584e1444e1304e11c4e1084e0f44e0e04e0cc4e0b84e0a44e0904e07c4e0684e0544e0404e02c4e0184e0044dff04dfe04dfd047c6447c584dfbc4dfa44df8c4df744df5c4df444df304df1c4df084def44dee04decc4deb84dea44de904de7c4de684de544de404de2c4de18)
  (.lf 0)))

def shaPos449 : BTree :=
  .nd (.nd (.nd (.lf
  0x19b9c19b980333d19b8c19b880333919b7c19b780333519b6c19b680333119b5c19b580332d19b4c19b480332919b3c19b380332519b2c19b280332119b1c19b180331d19b0c19b080331919afc5fb080331519af05fae80331119ae45fac80330d19ad45faa80330919ac85fa880330519ac05fa680330119ab45fa48032fd19aa45fa28032f919a9c5fa08032f519a8c5f9e8032f119a805f9c8032ed19a78)
  (.lf 0)) (.nd (.lf
  0x67c5467c2c67c0467bdc67bb467b8c67b6467b3c6347c6345c6343c6341c633fc633dc633bc678d4678ac6788454c4c67b1467ae467ab467a8867a5c67a3067a04679d8679ac67980679546792867900678d8678b067888678606783867810677e8677c06339c6337c6335c6333c6331c632fc632dc67558675306750854c386779867768677386770c676e0676b4676886765c6763067604675d8675ac67584)
  (.lf 0))) (.nd (.nd (.lf
  0x62e84386240cc4d61dac386140cc4961d90386080cc45385f8386000cc41385f0385e80cc3d385d8385dc0cc39385c8385cc0cc35385bc385b80cc31385ac385a80cc2d3859c385980cc293858c385880cc25385783857c0cc213856c385700cc1d3855c385580cc1938548385500cc1538540385380cc11385303852c0cc0d38518385200cc09385103850c0cc0538500384f80cc01384e8384f00cbfd384dc)
  (.lf 0)) (.nd (.lf
  0x2467c246742466c246642465c15e75004a406eec06ee806ee406ee006edc06ed806ed406ed006ecc06ec806ec406ec006ebc06eb806eb406eb006eac06ea806ea406ea006e9c06e9806e9406e9006e8c06e8806e8406e8006e7c06e78246542464424634246242461424604245f4245e0245d4245c4245b4245a424594245842457424564245542454424534245242451424504244f0244e4244d4244c0244b4)
  (.lf 0)))

def shaPos450 : BTree :=
  .nd (.nd (.nd (.lf
  0x8951065456380008911064c563640088d1063c5634c00889106345633400885106245631c0088110618563040087d1060c562ec0087910600562d400875105f4562bc00871105e8105e40086d105d8105d400869105c4105c800865105bc105b400861105a4105a80085d1059c10598008591058c10584008551057c1057400851105681056c0084d1055c10554008491054410548008451053c1053400841)
  (.lf 0)) (.nd (.lf
  0x13f3d13f3913f3513f3113f2d13f2913f2513f2113f1d13f1913f1513f1113f0d13f0913f0513f0113efd54a0860b8c60b6c60b4c60b2c60b0c60aec60acc60aac60a8c60a6c60a4c60a2c60a10609f4609d8609bc609a060984609686094c6093060914608fc608e4608cc608b46089c608846086c60854549f454a0460b8860b6860b4860b2860b0860ae860ac860aa860a8860a6860a4860a2860a0c609f0)
  (.lf 0))) (.nd (.nd (.lf
  0x5d60b3100a57d0b3081551d005d20b3040a579005ce0b2f80a575005ca0b2ec0a571027c415519027bc15515027b415511027ac1550d027a4155090279c155050b2e415501005c60b2e00a56d005c20b2d40a5690b2cc154fd005be0b2c80a5650b2c0154f9005ba0b2bc0a5610277c154f50b2b4154f1005b60b2b00a55d0b88016085309503094c0a559309403093c0a555309303092c0a551309203091c)
  (.lf 0)) (.nd (.lf
  0x16f8c16f8016f7416f6816f5c16f5016f4416f3416f2816f1c16f1016f0816efc15d41063c40df080df040df000defc0def80def40def00deec0dee80dee40dee00dedc0ded80ded40ded00decc0dec80dec40dec00debc0deb80deb40deb00deac0dea80dea40dea00de9c0de980de9416ef016ee016ed016ec016eac16ea016e9016e8016e7016e6016e5016e4016e3016e2016e1016e0016df016de016dd0)
  (.lf 0)))

def shaPos451 : BTree :=
  .nd (.nd (.nd (.lf
  0x21bd021bc805a4921bb821bc005a4521ba821bac05a4121b9821ba005a3d21b8821b8c05a3921b8021b7c05a3521b7021b6c05a3121b5821b6005a2d21b4821b5005a2921b3821b4005a2521b3021b2805a2121b2021b1c05a1d21b0821b1005a1921af821b0005a1521aec21ae805a1121ae021ad805a0d21acc21ad005a0921abc21ac005a0521aac21ab005a0121aa021a98059fd21a8821a8c059f921a78)
  (.lf 0)) (.nd (.lf
  0xabd00abc401e880abb00aba401e800aba00ab940ab840ab740ab700b7f800e1628618004f0003dc0ab5c01e780ab5801e7001e680ab440ab3801e6001e580ab340ab280ab1801e5001e4801e4001e3801e3001e2801e200ab0c0ab0001e180aaf801e1001e0801e000aae801df801df00b7f000de200c040c0c00c0b001de801de00c0ac01dd80c0a001dd001dc801dc001db80c09001db00c08401da801da0)
  (.lf 0))) (.nd (.nd (.lf
  0x414380f6f9640e04142c0f6f562244414200f6f162228414140f6ed53a38414080f6e953a14413fc0f6e5539f0413f00f6e1539cc413e40f6dd539a8413d80f6d953984413cc0f6d553960413c00f6d15393c413b40f6cd53918413a80f6c9538f44139c0f6c5538d0413900f6c1538ac413840f6bd5388c413780f6b95386c4136c0f6b55384c413600f6b15382c413540f6ad5380c413480f6a9537ec4133c)
  (.lf 0)) (.nd (.lf
  0x319e4319d4319c4319b4319a4319943198431974319643195415a9547e8c53694536705364c5362853604535e0535bc5359853574535505352c5350c534ec534cc534ac5348c5346c5344c5342c5340c533ec533d0533b4533985337c533605334453328514205140c3194431938319343192c3192031918319103190831900318f8318f0318e8318e4318dc318d4318cc318c0318bc318b0318ac318a03189c)
  (.lf 0)))

def shaPos452 : BTree :=
  .nd (.nd (.nd (.lf
  0x10d044bc844bb844ba844b9844b8844b7844b6844b5844b4844b3844b2844b1844b0844af844ae844ad844ac844ab844aa844a9844a8844a7844a6844a5844a4844a3844a2844a1844a08449f80658c00a1c1c4381c4281c4181c4081c3f81c3e81c3d81c3c81c3b81c3a81c3981c3881c3781c3681c3581c3481c3381c3281c3181c3081c2f81c2e81c2d81c2c81c2b81c2a81c2981c2881c2781c26806490)
  (.lf
  0xf0d80f0cc0f0c80f0bc0f0b40f0ac0f0a40f0a00f0940f08c0f0840f0800f0740f06c0f0640f05c0f0540f04c0f0480f0400f0340f02c0f0240f01c0f0180f00c0f0040f0000eff40eff045088008100efe40efe00efd40efcc0efc80efbc0efb40efac0efa40ef9c0ef980ef8c0ef880ef7c0ef740ef700ef640ef5c0ef580ef4c0ef440ef3c0ef340ef300ef280ef1c0ef180ef0c0ef040eefc456000080c))
  (.nd (.lf
  0x57eb457e9857e7c57e6057e4457e2857e0c57df057dd857dc057da857d9057d7857d6057d4857d3054360129f9129f5129f1129ed129e9129e5129e1129dd129d9129d5129d1129cd129c9129c5129c1129bd129b9129b5129b1129ad129a9129a5129a11299d1299912995129911298d1298912985129811297d5435057d1c57cfc57cdc57cbc57c9c57c7c57c5c57c3c57c1c57bfc57bdc57bbc57ba057b84)
  (.lf 0))) (.nd (.nd (.lf
  0x1a7e0c420092a501a7a0c414092a101a760c4080929d01a720c3fc09299023dc153150c3f41531101a6e0c3f00929501a6a0c3e409291023cc1530d023c4153090c3dc1530501a660c3d80928d023b415301023ac152fd0c3d0152f901a620c3cc0928901a5e0c3c0092850c3b8152f501a5a0c3b40928101a560c3a80927d1589d2ce402ce3c092792ce302ce2c092752ce202ce1c092712ce102ce0c0926d)
  (.lf 0)) (.nd (.lf
  0x1031410308102fc102ec102e4102d8102cc102bc102b415c99062bc0cf900cf8c0cf880cf840cf800cf7c0cf780cf740cf700cf6c0cf680cf640cf600cf5c0cf580cf540cf500cf4c0cf480cf440cf400cf3c0cf380cf340cf300cf2c0cf280cf240cf200cf1c102a810298102881027810264102541024810238102281021810204101f8101e8101d8101c8101b8101a8101981018810178101681015410148)
  (.lf 0)))

def shaPos453 : BTree :=
  .nd (.nd (.nd (.lf
  0x47811e03c1e0440477d1e0341e030047791e01c1e020047751e00c1e014047711dffc1e0040476d1dfec1dff0047691dfdc1dfe4047651dfcc1dfd0047611dfc41dfbc0475d1dfac1dfb4047591df9c1dfa4047551df941df90047511df841df7c0474d1df6c1df70047491df601df5c047451df501df4c047411df3c1df440473d1df341df2c047391df241df20047351df0c1df10047311defc1df040472d)
  (.lf 0)) (.nd (.lf
  0x5b0345b0185affc5afe05afc45afa85af905af785af605af485af305af185af005aee8545c0545ac5aed05aeb05ae905ae705ae505ae305ae105adf05add05adb05ad905ad705ad545ad385ad1c5ad005ace45acc85acac5ac905ac745ac585ac405ac285ac105abf85abe05abc85abb05ab9854598545845ab805ab605ab405ab205ab005aae05aac05aaa05aa805aa605aa405aa205aa045a9e85a9cc5a9b0)
  (.lf 0))) (.nd (.nd (.lf
  0xe1a569be03cd280e1a169bb83cd1c0e19d69b903cd100e19969b683cd040e19569b403ccf80e19169b183ccec0e18d69af03cce00e18969ac83ccd40e18569aa03ccc80e18163c643ccbc0e17d63c443ccb00e17963c243cca40e17563c043cc980e17163be43cc8c0e16d63bc43cc800e16963ba43cc740e165620f43cc680e161620d83cc5c0e15d3cc503cc480e1593cc403cc380e1553cc303cc280e151)
  (.lf 0)) (.nd (.lf
  0x2b05415a5554ce0696d4696a469678696486961c695f0695c4695986956c6954069514694ec694c46949c694746944c69424693fc693d4693ac6938463a8863a6863a4863a2863a08639e8639c86206c620502b0402b0382b0302b02c2b0242b01c2b0142b00c2b0042affc2aff42afec2afe42afdc2afd42afcc2afc42afbc2afb42afac2afa42af9c2af942af8c2af842af7c2af742af6c2af642af5c15f35)
  (.lf 0)))

def shaPos454 : BTree :=
  .nd (.nd (.nd (.lf
  0x1511001de9150fc1510401de5150f0150ec01de1150e4150e001ddd150d0150cc01dd9150c4150c001dd5150b0150ac01dd1150a01509c01dcd150901508c01dc9150801508401dc5150741507001dc11505c1506401dbd150501504c01db91503c1504001db5150301502c01db1150241501c01dad150141500c01da9150001500401da514fec14ff401da114fe414fdc01d9d14fcc14fd001d9914fc414fbc)
  (.lf 0)) (.nd (.lf
  0x3f2783f26c3f2603f2543f2483f23c3f2303f2243f2183f20c3f2003f1f43f1e83f1dc48e5c00fe43ee843ee783ee6c3ee603ee543ee483ee3c3ee303ee243ee183ee0c3ee003edf43ede83eddc3edd03edc43edb83edac3eda03ed943ed883ed7c3ed703ed643ed583ed4c3ed403ed343ed2848e5400fd83e9d83e9cc3e9c03e9b43e9a83e99c3e9903e9843e9783e96c3e9603e9543e9483e93c3e9303e924)
  (.lf 0))) (.nd (.nd (.lf
  0x1c4e0c9900b85502be4157350c9881573101c4a0c9840b85101c460c9780b84d01c420c96c0b84901c3e0c9600b84501c3a0c9540b84102bd41572d02bcc157290c94c1572501c360c9480b83d02bbc1572102bb41571d0c9401571901c320c93c0b83902ba41571502b9c157110c9341570d01c2e0c9300b83501c2a0c9240b83101c260c9180b82d01c220c90c0b82901c1e0c9000b82502b8c1570906574)
  (.lf 0)) (.nd (.lf
  0x6724067200671c0671806714067100670c067080670406700066fc066f81dcc41dcb41dca01dc941dc841dc741dc641dc541dc441dc341dc241dc141dc041dbf41dbe41dbd41dbc41dbb01dba41db941db841db741db641db501db401db341db201db141db041daf4158d50126401254012340ba540ba4c0ba3c0ba300122c0ba180ba100ba040b9f40b9ec0b9e00b9d40b9c80b9bc0b9b00b9a00b994064ac)
  (.lf 0)))

def shaPos455 : BTree :=
  .nd (.nd (.nd (.lf
  0x2920a94006d2101afc14e990a93814e950028e0a93406d1d0b7d014e910b7cc1602d2581c2582006d192580c2581006d15257fc257f806d11257f0257ec06d0d257dc257e006d09257c8257cc06d05257c0257b806d01257b0257ac06cfd25798257a006cf9257902578c06cf52577c2578006cf1257682577006ced2575c2576006ce9257502574806ce5257402573806ce12572c2572806cdd257202571c)
  (.lf 0)) (.nd (.lf
  0x29558295502954c29540295382953029528295202951848db000c3c28f7028f6828f6428f5828f5028f4828f4028f3828f3028f2c28f2028f1828f1028f0828f0428ef828ef028ee828ee028ed828ed428ec828ec028ebc28eb028ea828ea028e9828e9028e8848da400c2c288e0288d8288d0288c8288c0288b8288b0288a8288a0288982889028888288802887828870288682886428858288502884828840)
  (.lf 0))) (.nd (.nd (.lf
  0x4e8e84e8d04e8b84e8a44e8904e87c4e8684e8544e8404e82c4e8184e8044e7f04e7dc4e7c84e7b44e7a04e52c4e5184e5044e4f04e4dc4e4c84e4b44e6cc4e6b44e69c4e6844e66c4e6d04e6b84e6a04e6884e6704e6584e6444e6304e61c4e6084e5f44e5e04e5cc4e5b84e5a44e5904e57c4e5684e5544e5404e2cc4e2b84e2a44e2904e27c4e2684e2544e46c4e4544e43c4e4244e40c4e4704e4584e440)
  (.lf 0)) (.nd (.lf
  0x383dc383d0383c4383b8383ac3839c38394383843837c3837038364383583834c383403833438328383183831038304382f8382ec382dc382d0382c815c5554bd86663066600665d0665a4665786654c66520664f4664c86649c66470664446641c663f4663cc663a46637c663546632c66304662dc62e6062e4062e2062e0062de062dc062da061d7061d54382bc382b0382a4382943828c382803827438268)
  (.lf 0)))

def shaPos456 : BTree :=
  .nd (.nd (.nd (.lf
  0x910156181560c15600155f4155e8155d4155d0155c4155b8155ac15598155941558815574155681555c1555415544155381552c15524155141550c154fc154f4154e4154dc154cc154c0154b4545ec00908152c8152c0152b0152a4152981528c1528015274152701525c1525815244152381522c152201521c1520c151fc151f0151e8151d8151cc151c8151b4151a8151a41519815184151781516c545c4)
  (.lf
  0x41ed441ec841ebc41eb041ea441e9841e8c41e8041e7441e6841e5c41e5041e4441e3841e2c41e2041e1441e0841dfc41df041de441dd841dcc41dc041db441da841d9c41d9041d8441d7815fb5457bc54154541305410c540e8540c4540a05407c54058540345401053fec53fc853fa853f8853f6853f4853f2853f0853ee853ec853ea853e8853e6c53e5053e3453e1853dfc53de0491444913041d6c41d60))
  (.nd (.lf
  0x5d6605d6405d6205d6005d5e05d5c05d5a05d5805d5605d5405d5205d5045d4e85d4cc5d4b05d4945d4785d10c5d0f05d0d85d32c5d30c5d2ec5d2cc5d2ac5d28c5d26c5d24c5d22c5d20c5d1f45d3305d3105d2f05d2d05d2b05d2905d2705d2505d2305d2105d1ec5d1d05d1b45d1985d17c5d1605d1445d1285cdbc5cda05cd845cfdc5cfbc5cf9c5cf7c5cf5c5cf3c5cf1c5cefc5cedc5cebc5ce9c5cfe0)
  (.lf 0))) (.nd (.nd (.lf
  0x89214f000696200891d4efe8695f4089194efd4695c8089154efc06959c089114efac695700890d4ef9869544089094ef8469518089054ef70694f0089014ef5c694c8088fd4ef48694a0088f94ef3469478088f54ef2069450088f14ef0c69428088ed4eef869400088e94eee4693d8088e54eed0693b0088e14eebc69388088dd4eea863a8c088d94ee9463a6c088d54ee8063a4c088d14ee6c63a2c088cd)
  (.lf 0)) (.nd (.lf
  0x4dd744dd6447c4447c504dfb44df9c4df844df6c4df544df3c4dcc84dcb44dca04dc8c4dc784dc644dc504dc3c4dc284dc184dc044dbf04dbdc4dbc84dbb44dba04db8c4db784db644db504db3c4db284db184db0847c2c47c384dd544dd3c4dd244dd0c4dcf44dcdc4da684da544da404da2c4da184da044d9f04d9dc4d9c84d9b44d9a04d98c4d9784d9644d9504d93c4d9284d9144d9004d8ec4d8d44d8c4)
  (.lf 0)))

def shaPos457 : BTree :=
  .nd (.nd (.nd (.lf
  0x4777403de91c1084776403de51c0fc4775403de11c0ec1c0f403ddd1c0dc1c0e403dd91c0cc1c0d403dd51c0bc1c0c403dd11c0ac1c0b403dcd1c09c1c0a403dc91c08c1c09403dc51c07c1c08403dc11c06c1c07403dbd1c05c1c06403db91c04c1c05403db51c03c1c04403db11c02c1c03403dad1c01c1c02403da91c00c1c01403da51bffc1c00403da11bfec1bff403d9d1bfdc1bfe403d991bfcc1bfd4)
  (.lf 0)) (.nd (.lf
  0x28508284f8284e8284d8284d0284b8284b02849c2848c284842846c284642844c28440002a000c1427f8027f6c27f5827f4827f3c27f2c27f1827f1427ef827ee827ee427ec827ebc27ea827e9c27e8827e7827e7427e5c27e4827e3c27e3427e1c27e0827e0027de827dd827dcc27dbc27dac0029800c00278ec278dc278c8278bc278ac278982788827878278682785c27848278442782c278242780827804)
  (.lf 0))) (.nd (.nd (.lf
  0x3a9700d6f9661c03a9640d6f5661943a9540d6f1661683a94c0d6ed6613c3a93c0d6e9661103a9340d6e5660e43a9240d6e1660bc3a9180d6dd660943a9100d6d96606c3a9000d6d5660443a8f40d6d16601c3a8ec0d6cd65ff43a8dc0d6c965fcc3a8d40d6c565fa43a8c40d6c165f7c3a8b80d6bd65f543a8ac0d6b962d783a8a40d6b562d583a8940d6b162d383a8880d6ad62d183a87c0d6a962cf83a874)
  (.lf 0)) (.nd (.lf
  0x27bac27ba427b9c27b9427b8c27b8427b7c27b7427b6c27b6427b5c27b5427b4c27b4427b3c27b3427b2827b2427b1c27b1427b0c27b0427afc27af427aec27ae427adc15ed5004e4072ac072a8072a4072a00729c0729807294072900728c0728807284072800727c0727807274072700726c0726807264072600725c0725807254072500724c0724807244072400723c0723827ad427ac427ab427aa427a94)
  (.lf 0)))

def shaPos458 : BTree :=
  .nd (.nd (.nd (.lf
  0x12b8c12b880133d12b7c12b780133912b6858a640133512b6058a480133112b5058a280132d12b4858a080132912b3c589e80132512b2c589c80132112b20589a80131d12b14589880131912b08589680131512b00589480131112af0589280130d12ae4589040130912ad8588e80130512acc588cc0130112ac0588b0012fd12ab458894012f912aac5887c012f512aa058860012f112a9458844012ed12a84)
  (.lf 0)) (.nd (.lf
  0x3cb4c3cb3c3cb2c3cb1c3cb0c3cafc3caec3cadc3cacc3cabc3caac3ca9c3ca8c3ca7c000e000f803c79c3c78c3c77c3c76c3c75c3c74c3c73c3c72c3c71c3c70c3c6fc3c6ec3c6dc3c6cc3c6bc3c6ac3c69c3c68c3c67c3c66c3c65c3c64c3c63c3c62c3c61c3c60c3c5fc3c5ec3c5dc3c5cc000d800f743c2ec3c2dc3c2cc3c2bc3c2ac3c29c3c28c3c27c3c26c3c25c3c24c3c23c3c22c3c21c3c20c3c1fc)
  (.lf 0))) (.nd (.nd (.lf
  0x51a9053cb40aed151a7c53c900aecd51a6853c6c0aec951a5453c480aec551a4053c280aec151a2c53c080aebd51a1853be80aeb951a0453bc80aeb5519f053ba80aeb1519dc53b880aead519c853b680aea9519b453b480aea5519a053b280aea15198c53b080ae9d5197853aec0ae995196453ad00ae955195053ab40ae915193c53a980ae8d5192853a7c0ae895191453a600ae855190453a440ae81518f4)
  (.lf 0)) (.nd (.lf
  0x1a5c81a5b81a5a81a5981a5881a5781a5681a5581a5481a5381a5281a5181a5081a4f81a4e815dad549c0604f8604d8604b86049860478604586043860418603f8603d8603b8603986037c6036060344603286030c602f0602d4602b86029c602806026860250602386022060208601f0601d8601c01a4d41a4cc1a4bc1a4b01a4a81a4981a48c1a4801a4741a46c1a4601a4501a4441a4381a4301a4241a414)
  (.lf 0)))

def shaPos459 : BTree :=
  .nd (.nd (.nd (.lf
  0x639d4c3e862acc063994c3d462aac063954c3c062a88063914c3ac62a6c0638d4c39862a4c063894c38462a28063854c37062a08063814c36061c7c0637d4c35061c64063792392c23928063752391c23918063712390c239080636d238fc238f806369238f0238e806365238dc238d806361238d0238c80635d238bc238b806359238ac238a8063552389c23898063512388c238880634d2387c2387806349)
  (.lf 0)) (.nd (.lf
  0x28dbc28da828da028d8c28d7c28d7028d6428d4828d3c28d3028d1828d0c28cfc28cf428ce428cd000c28287f4287e4287cc287b8287a82879c28788287782876c2876428754287402872c2872028714286fc286ec286e4286d0286bc286b0286a4286942867c286742865c2864c286442862c00c18281582814c281402812c2812428108280fc280e8280dc280cc280b8280ac280982808c280782806828064)
  (.lf 0))) (.nd (.nd (.lf
  0x101a5437e0437d8101a1437d0437c81019d437c0437b810199437b0437a810195437a0437981019143790437881018d43780437781018943770437681018543760437581018143750437481017d43740437381017943730437281017543720437181017143710437081016d43700436f810169436f0436e810165436e0436d810161436d0436c81015d436c0436b810159436b0436a810155436a04369810151)
  (.lf 0)) (.nd (.lf
  0x34ed434ec434eb434ea434e9434e8434e7434e6434e5434e4434e3434e2434e1434e0434df434de434dd415ab547f8c52bc852bac52b9052b7452b5852b4052b2852b1052af852ae052ac852ab052a9852a8052a6852a5052a3852a2052a08529f0529d8529c0529a85299052978529605294852934529205290c34dc434dbc34db434dac34da434d9c34d9434d8c34d8434d7c34d7434d6c34d6434d5c34d54)
  (.lf 0)))

def shaPos460 : BTree :=
  .nd (.nd (.nd (.lf
  0x61e7c61e606777c6774c677806775067720676f4676c86769c676706764467618675ec675c067598631b0631906317063150631306311061e4461e2867400673d067404673d4673a4673786734c67320672f4672c86729c67270672446721c630d0630b06309063070630506303061e0c61df0670846705467088670586702866ffc66fd066fa466f7866f4c66f2066ef466ec866ea062fec62fcc62fac62f90)
  (.lf 0)) (.nd (.lf
  0x5c4485c42c5c4105c3f45c3d85c3bc5c3a05c3845c36c5c3545c33c5c3245c30c5c2f45c2dc5c2c4546ac546bc5c5f85c5d85c5b85c5985c5785c5585c5385c5185c4f85c4d85c4b85c4985c47c5c4605c4445c4285c40c5c3f05c3d45c3b85c39c5c3805c3685c3505c3385c3205c3085c2f05c2d85c2c0546a81347913475134711346d1346913465134611345d1345913455134511344d134491344513441)
  (.lf 0))) (.nd (.nd (.lf
  0x9c0d2eb902eb8c09c092eb802eb7c09c052eb702eb6c09c012eb602eb5c09bfd505b86b63009bf9505a06b60009bf5505886b5d409bf1505706b5a809bed505586b57c09be9505406b55009be55052c6b52409be1505186b4f809bdd505046b4cc09bd9504f06b4a009bd5504dc6b47409bd1504c86b44c09bcd504b46b42409bc9504a06b3fc09bc55048c6b3d409bc1504786b3ac09bbd504646b38409bb9)
  (.lf 0)) (.nd (.lf
  0x1394013930139201391013900138f0138e0138d0138c0138b01389c1601954498597a45978459764597485972859708596e8596c8596a45968459664596485962c59610595f0595d4595b85959c59580595685954c5953059518594fc594e8594d0594b8594a059488594701389013880138781386c1386013854138481383c1383013824138181380c13800137f4137e8137dc137d0137c4137b8137ac137a0)
  (.lf 0)))

def shaPos461 : BTree :=
  .nd (.nd (.nd (.lf
  0x1fdc8050b91fdbc1fdc0050b51fdb01fda8050b11fd981fd9c050ad1fd8c1fd90050a91fd781fd7c050a51fd681fd70050a11fd601fd5c0509d1fd481fd50050991fd381fd3c050951fd301fd28050911fd1c1fd200508d1fd081fd0c050891fcfc1fcf8050851fcf01fcec050811fcd81fcdc0507d1fcd01fcc8050791fcc01fcbc050751fca81fcb0050711fca01fc9c0506d1fc8c1fc88050691fc7c1fc78)
  (.lf 0)) (.nd (.lf
  0x5a8845a86c5a8545a83c54564545785ab745ab545ab345ab145aaf45aad45aab05aa945aa745a7045a6e05a6c45a6a85a68c5a6705a6545a6385a61c5a6005a5e45a5c45a5ac5a5945a57c5a5645a54c5a5345a51c5a5045a4ec5453c545505a8245a8045a7e45a7c45a7a45a7845a7645a73c5a7245a3b45a3905a3745a3585a3385a3205a3045a2e85a2cc5a2b05a2945a2785a25c5a2445a22c5a2145a1fc)
  (.lf 0))) (.nd (.nd (.lf
  0x3f0983f0a00ec4d3f0883f0900ec493f0783f0800ec453f0683f0700ec413f0583f0600ec3d3f0483f0500ec393f0383f0400ec353f0283f0300ec313f0183f0200ec2d3f0083f0100ec293eff83f0000ec25696e83eff00ec21696b83efe40ec1d696883efd80ec196965c3efcc0ec15696303efc00ec11696043efb40ec0d695d83efa80ec09695ac3ef9c0ec05695803ef900ec01695543ef840ebfd69528)
  (.lf 0)) (.nd (.lf
  0x6b2546b2286b1fc6b1d06b1a46b1786b14c6b1206b0f46b0cc6b0a46b07c6b0546b02c6b0046afdc6afb46af8c6af646418864168641486412864108640e8640c86222c622102e4c42e4bc2e4b42e4ac2e4a42e49c2e4942e48c2e4842e47c2e4742e46c2e4642e45c2e4542e44c2e4442e43c2e4342e42c2e4242e41c2e4142e40c2e4042e3fc2e3f42e3ec2e3e42e3dc15f950056407a2c07a2807a2407a20)
  (.lf 0)))

def shaPos462 : BTree :=
  .nd (.nd (.nd (.lf
  0x2895176485d50002891176385d4e40288d176305d4c802889176205d4ac02885176145d490028811760c5d4740287d176005d45802879175f45d43c02875175e45d42002871175dc5d4040286d175cc5d3ec02869175c05d3d402865175b45d3bc02861175a85d3a40285d1759c5d39002859175905d37802855175885d3600285117574175780284d175681756402849175581755c02845175481754402841)
  (.lf 0)) (.nd (.lf
  0x43edc43ed043ec443eb843eac43ea043e9443e8843e7c43e7043e6443e5843e4c43e4045024010a843aec43ae043ad443ac843abc43ab043aa443a9843a8c43a8043a7443a6843a5c43a5043a4443a3843a2c43a2043a1443a08439fc439f0439e4439d8439cc439c0439b4439a84399c43990450180109c4363c4363043624436184360c43600435f4435e8435dc435d0435c4435b8435ac435a04359443588)
  (.lf 0))) (.nd (.nd (.lf
  0x2dac1581d0b8d8158190b8d415815362603625c0c1c5362503624c0c1c1362403623c0c1bd362303622c0c1b9362203621c0c1b5362103620c0c1b136200361fc0c1ad361f0361ec0c1a9361e0361dc0c1a5361d0361cc0c1a1361c0361bc0c19d361b0361ac0c199361a03619c0c195361903618c0c191361803617c0c18d361703616c0c189361603615c0c185361503614c0c181361403613c0c17d36130)
  (.lf 0)) (.nd (.lf
  0x212242121c212102120821200211fc211f4211e8211e4211dc15c490046406b2c06b2806b2406b2006b1c06b1806b1406b1006b0c06b0806b0406b0006afc06af806af406af006aec06ae806ae406ae006adc06ad806ad406ad006acc06ac806ac406ac006abc06ab8211d4211c0211b4211a421194211802117421164211542114421134211242111421104210f4210e4210d0210c4210b4210a42109421084)
  (.lf 0)))

def shaPos463 : BTree :=
  .nd (.nd (.nd (.lf
  0x4da4c67614076614da38675e80765d4da24675bc076594da1067594076554d9fc6756c076514d9e8675440764d4d9d46751c076494d9c0674f4076454d9ac674cc076414d998674a40763d4d9846747c076394d97067454076354d95c6742c076314d948632ac0762d4d9346328c076294d9206326c076254d90c63248076214d8f86322c0761d4d8e46320c076194d8d0631ec076154d8c061e78076114d8b0)
  (.lf 0)) (.nd (.lf
  0x29688296782966c29658296482964429628296242960c0070000c40291542913c291282911829114290f8290f4290dc290cc290b8290ac290a429088290842907029058290482904429028290182900828ffc28fe828fdc28fcc28fb828fb428f9828f8828f78006f800c3028ab828aa828aa428a8828a7828a7428a6428a4828a3828a2c28a1c28a14289f8289ec289d8289c8289b8289ac289a02898c2897c)
  (.lf 0))) (.nd (.nd (.lf
  0x10de510de110ddd10dd910dd510dd110dcd10dc910dc510dc110dbd10db910db510db110dad10da915b6147b344c3384c3204c3084c2f04c2d84c2c04c2ac4c2984c2844c2704c25c4c2484c2344c2204c20c4c1f84c1e44c1d04c1bc4c1a84c1944c1804c16c4c1584c1444c1304c11c4c1084c0f84c0e847b2810da510da110d9d10d9910d9510d9110d8d10d8910d8510d8110d7d10d7910d7510d7110d6d)
  (.lf 0)) (.nd (.lf
  0x3b7843b7783b76c3b7603b7503b7483b7383b72c3b7243b7183b70c3b6fc3b6f43b6e83b6dc3b6d03b6c43b6b83b6ac3b6a03b6943b6883b67c3b6703b6643b65815ea954cb468c8468c5468c2468bf868bcc68ba068b7468b4868b1c68af068ac468a9868a7068a4868a20689f8689d0689a868980689586893063800637e0637c0637a063780637606374061fd861fbc3b64c3b6403b6343b6283b61c3b610)
  (.lf 0)))

def shaPos464 : BTree :=
  .nd (.nd (.nd (.lf
  0x890121901218c121781217012160121581214c1213c1213412128121201211412108120f4120f0120dc120d8120cc120c0120b4120a01209412088120801207412064120581204c12040120345436c0088811e5011e4411e3811e2411e2011e1411e0011dfc11de811de411dd011dcc11dc011dac11da811d9c11d9011d8411d7011d6411d5811d5411d4811d3c11d3011d2011d1411d0811d0011cec54344)
  (.lf
  0x3e0c03e0803e0403e0003dfc03df803df403df003dec03de803de403de003ddc03dd803dd403dd003dcc03dc803dc403dc003dbc03db803db403db003dac03da803da403da003d9c03d9840494404844047440464404544044440434404244041440404403f4403e4403d4403c4403b4403a440394403844037440364403544034440334403244031440304402f4402e4402d4402c41484154d386a4d46a4a4))
  (.nd (.lf
  0x56c6056c4056c2056c0056be056bc056ba056b8056b6056b3c56b2056b0456ae856acc56ab056a9456a785670c566f0566d85692c5690c568ec568cc568ac5688c5686c5684c5682c5680c567f45693056910568f0568d0568b05689056870568505683056810567ec567d0567b4567985677c567605674456728563bc563a056388565dc565bc5659c5657c5655c5653c5651c564fc564dc564bc5649c565e0)
  (.lf 0))) (.nd (.nd (.lf
  0x2a1c82a1d0084712a1b82a1bc0846d2a1ac2a1a8084692a1a02a19c084652a1902a188084612a1802a1780845d2a16c2a170084592a15c2a160084552a1502a14c084512a1402a13c0844d2a1302a12c084492a1202a11c084452a10c2a108084412a1002a0fc0843d2a0f02a0e8084392a0dc2a0e0084352a0c82a0cc084312a0bc2a0c00842d2a0ac2a0a8084292a0982a0a0084252a0902a08c084212a07c)
  (.lf 0)) (.nd (.lf
  0x458f0458e4458d8458cc458c0458b4458a84589c4588c0ccbc45094477444772c47714476fc476e4476cc476b44769c476844766c476544763c476244760c475f4475dc475c4475ac475944757c475644754c475344751c47504474ec474d4474bc474a44748c450844917c552c055298552705524855220551f8551d4551b05518c551685514455120550fc550d8550b4550905506c55048550245500054fdc)
  (.lf 0)))

def shaPos465 : BTree :=
  .nd (.nd (.nd (.lf
  0x38951ae3c60dc4038911ae3460da40388d1ae2860d84038891ae1c60d68038851ae0c60d4c038811ae0060d300387d1adf460d14038791adec60cf8038751addc60cdc038711add460cc00386d1adc860ca4038691adbc60c88038651adb060c6c038611ada060c540385d1ad9860c3c038591ad8c60c24038551ad7c60c0c038511ad7460bf40384d1ad6460bdc038491ad5c60bc4038451ad4c60bac03841)
  (.lf 0)) (.nd (.lf
  0x46e5446e4046e2c46e1846e0446df046ddc46dc846db446da446d9446d8446d7446d6446d5446c1046bfc46be84505846d4446d2c46d1446cfc46ce446ccc46cb446c9c46c8446c6c46c5446c3c46c2846c1446c0046bec46bd846bc446bb046b9c46b8846b7446b6446b5446b4446b3446b2446b14469d0469bc469a84505046b0446aec46ad446abc46aa446a8c46a7446a5c46a4446a2c46a14469fc469e8)
  (.lf 0))) (.nd (.nd (.lf
  0xd1a5397c0397bc0d1a1397b0397ac0d19d3979c397980d199397903978c0d1953977c397800d191397683976c0d18d397583975c0d1893974c397480d185397403973c0d181397303972c0d17d39718397200d179397103970c0d17539700396f80d171396ec396e80d16d654b4396dc0d16965484396d00d16565454396c80d16165428396b80d15d653fc396ac0d159653d0396a00d155653a4396940d151)
  (.lf 0)) (.nd (.lf
  0x261382613426128261242611c261142610c26100260f8260f4260ec260e4260dc260d0260cc260c4260bc260b4260a8260a42609815ea5004c4070cc070c8070c4070c0070bc070b8070b4070b0070ac070a8070a4070a00709c0709807094070900708c0708807084070800707c0707807074070700706c0706807064070600705c070582609426084260742606426054260442603426024260142600425ff4)
  (.lf 0)))

def shaPos466 : BTree :=
  .nd (.nd (.nd (.lf
  0x1190800de9118f4118f800de5118e4118e800de1118d4118d800ddd118cc118c800dd9118bc118b800dd5118a4118ac00dd11189c1189800dcd118841188800dc91187c1187800dc5118641186800dc1118541185800dbd118441184c00db9118341183800db51182c1182800db1118141181c00dad118041180c00da9117f4117f800da5117e4117e800da1117d4117d800d9d117c4117c800d99117b857688)
  (.lf 0)) (.nd (.lf
  0x1448d1448914485144811447d1447914475144711446d1446914465144611445d144591445554aa4619306190c618e8618c4618a06187c618586183461810617ec617c8617a86178861768617486172861708616e8616c8616a8616886166c616506163461618615fc615e0615c4615a86158c54a8c552f06512c650fc650cc6509c6506c6503c6500c64fdc64fac64f7c64f4c64f1c64ef064ec464e9864e6c)
  (.lf 0))) (.nd (.nd (.lf
  0xaa2131788317900aa1d31778317800aa1931768317700aa1531758317600aa1131748317500aa0d31738317400aa0931728317300aa0531718317200aa0131708317100a9fd316f8317000a9f9316e8316f00a9f5316d8316e00a9f1316c8316d00a9ed316b8316c00a9e9316a8316b00a9e531698316a00a9e131688316900a9dd31678316800a9d9013d2013ce013ca013c6013c2013be013ba013b6013b2)
  (.lf 0)) (.nd (.lf
  0x5e8a45e8885e86c5e8505e8345e8185e7fc5e7e45e7d05e7b45e79c5e7845e76c5e7545e74018a9818a8c18a8018a7418a6818a5c18a5018a4418a3818a2c18a2018a1418a08189fc189f0189e4189d4189cc189c0189b4189a41899c1899018980189781896c1896018950189481893c15d79064040e2c80e2c40e2c00e2bc0e2b80e2b40e2b00e2ac0e2a80e2a40e2a00e29c0e2980e2940e2900e28c0e288)
  (.lf 0)))

def shaPos467 : BTree :=
  .nd (.nd (.nd (.lf
  0x17e414d050a7ac14d010020a0a7a805ee9002060a79c05ee5017d414cfd0a79814cf9002020a79405ee1001fe0a78805edd0a78014cf5001fa0a77c05ed9017bc14cf10a77414ced001f60a77005ed5017ac14ce90a76814ce5001f20a76405ed1001ee0a75805ecd0179c14ce10179414cdd0178c14cd90178414cd50a75014cd1001ea0a74c05ec90177414ccd0176c14cc90a74414cc5001e60a74005ec5)
  (.lf 0)) (.nd (.lf
  0xb6d80b6cc0b6c00b6b402cd80b6a80b69c0b6900b68402cd002cc80b6780b66c0b8c40160200e500ca7c0ca7002cc00ca6402cb802cb00ca580ca4c02ca80ca400ca3402ca00ca2802c980ca1c0ca100ca0402c900c9f80c9ec02c880c9e00c9d40c9c802c800c9bc02c7802c700c9b006578015b20040402c680b6600b6540b64802c6002c580b63c02c500b63002c480b62402c400b6180b60c02c380b600)
  (.lf 0))) (.nd (.nd (.lf
  0x46534426140fc4d46520426080fc494650c425fc0fc45464f8425f00fc41464e4425e40fc3d464d0425d80fc39464bc425cc0fc35464ac425c00fc314649c425b40fc2d4648c425a80fc294647c4259c0fc254646c425900fc214645c425840fc1d457f0425780fc19457e44256c0fc1542558425600fc1142548425500fc0d42538425400fc0942528425300fc0542518425200fc0142508425100fbfd424f8)
  (.lf 0)) (.nd (.lf
  0x9d5833564335543354433534335243351433504334f4334e4334d4334c4334b4334a433494334843347433464334543344433434334243341433404333f4333e4333d4333c4333b4333a43339415aa547f0c5206c5204c520305201451ffc51fe451fc851fb451f9851f8451f6851f5451f3851f2051f0c51ef051ed851ec451eac51e9451e7c51e6051e4c51e3451e1851e0451de851dd451dc451dac33380)
  (.lf 0)))

def shaPos468 : BTree :=
  .nd (.nd (.nd (.lf
  0x6b9d06b9a06b9706b9446b9186b8ec6b8c06b8946b8686b83c6b8106b7e46b7bc6b3906b3686b3406b3186b2f06b6406b6106b5e06b5b46b5886b55c6b5306b5046b4d86b4ac6b4806b6446b6146b5e46b5b86b58c6b5606b5346b5086b4dc6b4b06b4846b4586b4306b0246affc6afd46afac6af846b2d46b2a46b2746b2486b21c6b1f06b1c46b1986b16c6b1406b1146b2d86b2a86b2786b24c6b2206b1f4)
  (.lf 0)) (.nd (.lf
  0x12f3d12f3912f3512f3112f2d12f2912f2512f2112f1d12f1912f1512f1112f0d12f0912f0512f0112efd545085a18c5a16c5a14c5a12c5a10c5a0ec5a0cc5a0ac5a08c5a06c5a04c5a02c5a01059ff459fd859fbc59fa059f8459f6859f4c59f3059f1459efc59ee459ecc59eb459e9c59e8459e6c59e54544f4545045a1885a1685a1485a1285a1085a0e85a0c85a0a85a0885a0685a0485a0285a00c59ff0)
  (.lf 0))) (.nd (.nd (.lf
  0x2dd182dd20097552dd082dd10097512dcf82dd000974d2dce82dcf0097492dcd82dce0097452dcc82dcd0097412dcb82dcc00973d2dca82dcb0097392dc982dca0097352dc882dc90097312dc782dc800972d2dc682dc70097292dc582dc60097252dc482dc50097212dc382dc400971d2dc282dc30097192dc182dc20097152dc082dc10097112dbf82dc000970d2dbe82dbf0097092dbd82dbe0097052dbc8)
  (.lf 0)) (.nd (.lf
  0x57ae457acc57ab057a9857a8057a6857a5057a3857a2057a08579f011e4c11e4011e3411e2c11e1c11e1011e0811df811df011de011dd811dc811dbc11db411da411d9811d8c11d8011d7811d6c11d6011d5011d4411d3811d2c11d2411d1811d0c11cfc11cf415cb9062fc0d3500d34c0d3480d3440d3400d33c0d3380d3340d3300d32c0d3280d3240d3200d31c0d3180d3140d3100d30c0d3080d3040d300)
  (.lf 0)))

def shaPos469 : BTree :=
  .nd (.nd (.nd (.lf
  0x8d6008d2008ce008ca008c60a3c80a3c00a3b40a3a4013ec013d4013cc013bc013b40a360013ac0a348013940a32c0138c0a3180b758000be0a3c404c15000ba0a3bc04c11000b60a3b004c0d000b20a3a004c09013e414af9013dc14af50a39c14af1000ae0a39804c050a39014aed000aa0a38804c01013c414ae90a38414ae5000a60a38004bfd0a37814ae1000a20a37004bf90a36c14add0009e0a368)
  (.lf 0)) (.nd (.lf
  0x64e5064e2464df864dcc64da064d7464d4c64d2464cfc64cd464cac64c8464c5c64c34552e054ab4619486192461900618dc618b861894618706184c6182861804617e0617bc6179c6177c6175c6173c6171c616fc616dc616bc6169c6167c6166061644616286160c615f0615d4615b86159c54a9c54a846158061560615406152061500614e0614c0614a06148061460614406142061404613e8613cc613b0)
  (.lf 0))) (.nd (.nd (.lf
  0x3df080e6f93df003def80e6f53def03dee80e6f13dee03ded80e6ed3ded03dec80e6e93dec03deb80e6e53deb03dea80e6e13dea03de980e6dd3de903de880e6d93de803de780e6d53de703de680e6d13de603de580e6cd3de503de480e6c93de403de380e6c53de303de280e6c13de203de180e6bd3de103de080e6b93de003ddf80e6b53ddf03dde80e6b13dde03ddd80e6ad3ddd03ddc80e6a93ddc03ddb8)
  (.lf 0)) (.nd (.lf
  0x6a4386a40c6a3e06a3b46a3886a35c6a3306a3046a2dc6a2b46a28c6a2646a23c6a2146a1ec6a1c46a19c6a17463e0863de863dc863da863d8863d6863d486214c621302ca842ca7c2ca742ca6c2ca642ca5c2ca542ca4c2ca442ca3c2ca342ca2c2ca242ca1c2ca142ca0c2ca042c9fc2c9f42c9ec2c9e42c9dc2c9d42c9cc2c9c42c9bc2c9b42c9ac2c9a42c99c15f65005440784c0784807844078400783c)
  (.lf 0)))

def shaPos470 : BTree :=
  .nd (.nd (.nd (.lf
  0x163941638c0233d1637c1638402339163741636c023351635c1636402331163541634c0232d1633c1634402329163305c2b402325163285c298023211631c5c2780231d163105c25802319163045c23802315162f85c21802311162ec5c1f80230d162e05c1d402309162d45c1b802305162c85c19802301162bc5c178022fd162b05c158022f9162a45c13c022f5162985c120022f11628c5c100022ed16280)
  (.lf 0)) (.nd (.lf
  0x3a8e03a8d03a8c83a8c03a8b03a8a03a8983a88c3a8843a8703a8683a8583a8503a84048d3000f283a4ec3a4e83a4d83a4cc3a4bc3a4b03a4a83a4a03a48c3a4803a4783a46c3a4643a4503a4443a43c3a4343a4203a4183a4083a3fc3a3f03a3e43a3e03a3cc3a3c83a3b43a3b03a39c3a39048d2400f1c3a0403a0343a0243a0183a00c3a00039ff439ff039fe439fd039fc439fbc39fac39fa039f9439f88)
  (.lf 0))) (.nd (.nd (.lf
  0x353303532c0bd09353203531c0bd05353103530c0bd0135300352fc0bcfd352f0352ec0bcf9352e0352dc0bcf5352d0352cc0bcf1352c0352bc0bced352b0352ac0bce9352a03529c0bce5352903528c0bce1352803527c0bcdd352703526c0bcd9352603525c0bcd5352503524c0bcd1352403523c0bccd352303522c0bcc9352203521c0bcc5352103520c0bcc135200351fc0bcbd351f0351ec0bcb9351e0)
  (.lf 0)) (.nd (.lf
  0x693806934069300692c0692806924069200691c0691806914069100690c069080690406900068fc068f8068f4068f0068ec068e8068e4068e0068dc068d81f7941f7841f7741f7641f7541f7441f7301f7241f7101f7041f6f41f6e41f6d41f6c41f6b41f6a41f6901f6841f6741f6601f6541f6401f6341f6201f6141f6041f5f41f5e41f5d01f5c0158e5001f40485c0485804854048500484c0484804844)
  (.lf 0)))

def shaPos471 : BTree :=
  .nd (.nd (.nd (.lf
  0x2664c071b12663c26638071ad266282662c071a92661c26618071a52660c26608071a1265f8265fc0719d265ec265e807199265d8265e007195265c8265d007191265c0265b80718d265b0265ac07189265a02659807185265902658c07181265802657c0717d265702656c07179265582655c071752654c265480717100d2e00d2a00d2600d2200d1e00d1a00d1600d1200d0e00d0a00d0600d0201c7414f55)
  (.lf 0)) (.nd (.lf
  0x364c8364b8364a8364983648836478364683645836448010e800e7435ea035e9835e9035e8835e8035e7835e7035e6835e6035e5835e5035e4835e4035e3835e3035e2835e2035e1835e1035e0835e0035df835df035de835de035dd835dd035dc835dc035db80ccb800e60358103580835800357f8357f0357e8357e0357d8357d0357c8357c0357b8357b0357a8357a0357983579035788357803577835770)
  (.lf 0))) (.nd (.nd (.lf
  0x14685146811467d1467914675146711466d1466914665146611465d1465914655146511464d1464915c7548e9852f5052f3052f1852ef052ed452eb852e9c52e7c52e5c52e4c52e2452e1052df052dd852db852d9c52d8052d6852d4852d3052d1452cf452cdc52cb852ca452c8852c6452c5452c3452c1c48e7c1473d1473914735147311472d1472914725147211471d1471914715147111470d1470914705)
  (.lf 0)) (.nd (.lf
  0x33ac033a8033a4033a00339c0339803394033900338c0338803384033800337c0337803374033700336c0336803364033600335c0335803354033500334c0334839d7039d6439d5439d4439d3439d2439d1439d0439cf439ce439cd039cc039cb439ca439c9439c8439c7039c6039c5439c4439c3439c2439c1039c0039bf439be039bd439bc039bb039ba0147e954b806582c657fc657cc657a06577465748)
  (.lf 0)))

def shaPos472 : BTree :=
  .nd (.nd (.nd (.lf
  0x99018a9018a8418a7818a7018a6018a5418a4818a4018a3018a2418a1c18a0c18a00189f4189ec189dc189d8189c8189b8189ac189a81899418988189841897018964189581895418940189345486c00988187481874018734187281871c1870c18700186f4186f0186dc186d8186c8186b8186ac186a818694186901868418670186641865818650186481863c1862c1861c1861018604185fc185f054844)
  (.lf
  0x15add0019c04334043300432c0432804324043200431c0431804314043100430c043080430404300042fc042f8042f4042f0042ec042e8042e4042e0042dc042d8042d4042d0042cc042c8042c4042c0438244381443804437f4437e4437d4437c4437b4437a443794437844377443764437544374443734437244371443704436f4436e4436d4436c4436b4436a443694436844367443664436541486d45790))
  (.nd (.lf
  0x55a4855a2c55a10559f4559d8559bc559a0559845596c559545593c559245590c558f4558dc558c4541ac541bc55bf855bd855bb855b9855b7855b5855b3855b1855af855ad855ab855a9855a7c55a6055a4455a2855a0c559f0559d4559b85599c559805596855950559385592055908558f0558d8558c0541a41247912475124711246d1246912465124611245d1245912455124511244d124491244512441)
  (.lf 0))) (.nd (.nd (.lf
  0x2bf602bf5c08de52bf502bf4c08de12bf402bf3c08ddd2bf302bf2c08dd92bf202bf1c08dd52bf102bf0c08dd12bf002befc08dcd2bef02beec08dc92bee02bedc08dc52bed02becc08dc12bec02bebc08dbd2beb02beac08db92bea02be9c08db52be902be8c08db12be802be7c08dad2be702be6c08da92be602be5c08da52be502be4c08da12be402be3c08d9d2be302be2c08d992be202be1c08d952be10)
  (.lf 0)) (.nd (.lf
  0x54eb454e944915849170552b45528c552645523c55214551ec52b3452b1c52b0452aec52ad452abc52aa452a8c52a7452a5c52a4452a2c52a14529fc529e4529cc529b45299c529845296c529545293c529285291447f8047f9052bd852bbc52ba052b8452b6852b4c5285c528445282c52814527fc527e4527cc527b45279c527845276c527545273c527245270c526f4526dc526c4526ac526945267c52664)
  (.lf 0)))

def shaPos473 : BTree :=
  .nd (.nd (.nd (.lf
  0x1d0a4042b11d0981d09c042ad1d0841d088042a91d0741d07c042a5499801d06c042a1499641d0600429d499481d054042994992c1d04804295499101d03c04291498f41d02c0428d498dc1d02004289498c41d01404285498ac1d00c04281498941d0000427d4987c1cff004279498641cfe8042754984c1cfdc04271498341cfcc0426d4981c1cfc404269498041cfb804265497ec1cfa804261497d41cf9c)
  (.lf 0)) (.nd (.lf
  0x35438354283541835408353f8353e8353d8353c8353b8353a835398353883537835368003a000e4c3517835168351583514835138351283511835108350f8350e8350d8350c8350b8350a83509835088350783506835058350483503835028350183500834ff834fe834fd834fc834fb834fa80039800e3c34ae834ad834ac834ab834aa834a9834a8834a7834a6834a5834a4834a3834a2834a1834a08349f8)
  (.lf 0))) (.nd (.nd (.lf
  0x630b43bb480dc4d630983bb400dc49630743bb300dc45630583bb240dc41630343bb180dc3d61e143bb0c0dc3961df43bb000dc35690043baf40dc3168fd43baec0dc2d68fa43badc0dc2968f783bad40dc2568f4c3bac40dc2168f203babc0dc1d68ef43bab00dc1968ec83baa40dc1568e9c3ba980dc1168e703ba8c0dc0d68e443ba800dc0968e183ba740dc0568df03ba680dc0168dc83ba5c0dbfd68da0)
  (.lf 0)) (.nd (.lf
  0x686346860c685e4685bc6859463708636e8636c8636a863688636686364861f8c61f7029600295fc295f4295e8295e0295d8295d4295cc295c4295b8295b4295ac295a42959c295942958c295842957c295742956c295642955c2955429548295442953c295342952c295242951c15f05005040748c0748807484074800747c0747807474074700746c0746807464074600745c0745807454074500744c07448)
  (.lf 0)))

def shaPos474 : BTree :=
  .nd (.nd (.nd (.lf
  0x189513e5059c400189113e4059c240188d13e3459c080188913e2859bec0188513e1c59bd00188113e1059bb80187d13e0459ba00187913dfc59b880187513df059b700187113de459b580186d13dd459b3c0186913dcc59b240186513dbc59b0c0186113db413db00185d13da413d9c0185913d9413d900185513d7c13d840185113d7013d6c0184d13d5c13d640184913d4c13d540184513d4013d3c01841)
  (.lf 0)) (.nd (.lf
  0xfe580fe480fe340fe2c0fe140fe080fdfc0fdf00fdd40fdd00fdb40fda80fd940fd8c062b000844102a01028c1027c1026c10268102581023c1022c1021c1021010208101ec101e0101cc101bc101ac101a4101901017c101701016410158101401012c101281010c10108100f0100e8100d0062b8010d444d3844d2844d1c44d1844d0844cf844cf444ce444cd844cc844cbc44cb844ca444ca044c9444c84)
  (.lf 0))) (.nd (.nd (.lf
  0x335e0335dc0b399335d0335cc0b395335c0335bc0b391335b0335ac0b38d335a03359c0b389335903358c0b385335803357c0b381335703356c0b37d335603355c0b379335503354c0b375335403353c0b371335303352c0b36d335203351c0b369335103350c0b36533500334fc0b361334f0334ec0b35d334e0334dc0b359334d0334cc0b355334c0334bc0b351334b0334ac0b34d334a03349c0b34933490)
  (.lf 0)) (.nd (.lf
  0xea8c0ea880ea840ea800ea7c0ea780ea740ea700ea6c0ea680ea640ea600ea5c0ea580ea540ea500ea4c1c0f81c0e81c0d81c0c81c0b81c0a81c0981c0881c0781c0681c0581c0481c0381c0281c0181c0081bff81bfe81bfd81bfc81bfb81bfa81bf981bf881bf781bf681bf581bf481bf381bf28160ad45a0c49448494304941849400493e8493d0493b8493a0493884937049358493404932849310492f8)
  (.lf 0)))

def shaPos475 : BTree :=
  .nd (.nd (.nd (.lf
  0x248ec06875248dc248e006871248c8248cc0686d248b8248c006869248b0248ac068652489c248a0068612488c248900685d2487c2488006859248682486c068552485c2486006851248502484c0684d2483c24838068492482c2483006845248202481c068412480c248080683d247fc2480006839247f0247ec06835247d8247dc06831247d0247c80682d247b8247bc06829247b0247ac0682524798247a0)
  (.lf 0)) (.nd (.lf
  0x362ec362dc362cc362bc362ac3629c3628c3627c3626c0060000e7035dac35d9c35d8c35d7c35d6c35d5c35d4c35d3c35d2c35d1c35d0c35cfc35cec35cdc35ccc35cbc35cac35c9c35c8c35c7c35c6c35c5c35c4c35c3c35c2c35c1c35c0c35bfc35bec35bdc005f800e5c3571c3570c356fc356ec356dc356cc356bc356ac3569c3568c3567c3566c3565c3564c3563c3562c3561c3560c355fc355ec355dc)
  (.lf 0))) (.nd (.nd (.lf
  0x4965c4963c496284961449600495ec495d8495c4495b8495a04958849574495604954c49538495244951052d0c52cf052cd452cbc52c9c52c8452c7852f5452f3852f1c52eec52ed852f5c52f3452f1452ef452edc52ebc52e9452e7852e6052e4852e2c52e1452dec52dd052dbc52da052d7c52d6052d4452d2845f2045f0c45f0045eec45edc45ed045ec84607846064460504603846028460704605846048)
  (.lf 0)) (.nd (.lf
  0x2e7c02e7802e7402e7002e6c02e6802e6402e6002e5c02e5802e5402e5002e4c02e4802e4402e4002e3c02e3802e3402e3002e2c02e2802e2402e20369e4369d4369c4369b4369a436994369843697436964369543694436934369243691436900368f4368e0368d4368c4368b4368a4368943688436874368643685436844368303682436814147bd008040a18c0a1880a1840a1800a17c0a1780a1740a170)
  (.lf 0)))

def shaPos476 : BTree :=
  .nd (.nd (.nd (.lf
  0x490604790c0033d4904c478fc0033949030478ec0033549020478dc0033149010478cc0032d48ffc478bc0032948fd8478ac0032548fc84789c0032148fbc4788c0031d48fa84787c0031948f944786c0031548f884785c0031148f704784c0030d48f644783c0030948f584782c0030548f484781c0030148f384780c002fd48f28477fc002f948f14477ec002f548f08477dc002f148efc477cc002ed48ef0)
  (.lf 0)) (.nd (.lf
  0x5e8b45e8985e87c5e8605e8445e8285e80c5e7f05e7d85e7c05e7a85e7905e7785e7605e7485e73054860139f9139f5139f1139ed139e9139e5139e1139dd139d9139d5139d1139cd139c9139c5139c1139bd139b9139b5139b1139ad139a9139a5139a11399d1399913995139911398d1398913985139811397d548505e71c5e6fc5e6dc5e6bc5e69c5e67c5e65c5e63c5e61c5e5fc5e5dc5e5bc5e5a05e584)
  (.lf 0))) (.nd (.nd (.lf
  0xa0c12fa902fa8c0a0bd2fa802fa7c0a0b92fa702fa6c0a0b52fa602fa5c0a0b12fa502fa4c0a0ad2fa402fa3c0a0a92fa302fa2c0a0a52fa202fa1c0a0a12fa102fa0c0a09d2fa002f9fc0a0992f9f02f9ec0a0952f9e02f9dc0a0912f9d02f9cc0a08d2f9c02f9bc0a0892f9b02f9ac0a0852f9a02f99c0a0812f9902f98c0a07d2f9802f97c0a0792f9702f96c0a0752f9602f95c0a0712f9502f94c0a06d)
  (.lf 0)) (.nd (.lf
  0xdb040db000dafc0daf80daf40daf00daec0dae80dae40dae00dadc0dad80dad4154b0154a015490154801547015460154501544015430154201541015400153f0153e0153d0153c0153b0153a01539015380153701535c153501533c1532c1531c1530c152fc152f0152e01603d545d85b2245b2045b1e45b1c45b1a45b1845b1645b1445b1245b1045b0e85b0c45b0ac5b0905b0745b0585b03c5b0205b004)
  (.lf 0)))

def shaPos477 : BTree :=
  .nd (.nd (.nd (.lf
  0x20c3820c3c055814b320486400557d4b30448628055794b2e848610055754b2cc485fc055714b2b0485e80556d4b294485d4055694b27c485c0055654b264485ac055614b24c485900555d4b2344857c055594b21c48568055554b20448554055514b1ec485400554d4b1d04852c055494b1b848518055454b1a048504055414b188484f00553d4b174484dc055394b15c484c8055354b140484b4055314b128)
  (.lf 0)) (.nd (.lf
  0x612846126c612546123c54a6454a7861574615546153461514614f4614d4614b4614946147461104610e4610c4610a86108c6107061054610386101c6100060fe460fc860fac60f9460f7c60f6460f4c60f3460f1c60f0460eec54a3c54a506122461204611e4611c4611a46118461164611446112460db460d9460d7460d5860d3c60d2060d0460ce860ccc60cb060c9460c7860c5c60c4460c2c60c1460bfc)
  (.lf 0))) (.nd (.nd (.lf
  0xf1a56a370402500f1a16a344402440f19d6a318402380f1996a2f04022c0f1956a2c8402200f1916a2a0402140f18d6a278402080f1896a250401fc0f1856a228401f00f1816a200401e40f17d6a1d8401d80f1796a1b0401cc0f1756a188401c00f17163e18401b40f16d63df8401a80f16963dd84019c0f16563db8401900f16163d98401840f15d63d78401780f15963d584016c0f1556215c401600f151)
  (.lf 0)) (.nd (.lf
  0x2ffd42ffc42ffb42ffa42ff942ff842ff742ff642ff542ff442ff342ff242ff1415a8554dd06c0a06c0706c0446c0186bfec6bfc06bf946bf686bf3c6bf106bee46bebc6be946be6c6be446be1c6bdf46bdcc6bda46bd7c6bd5464508644e8644c8644a86448864468644486230c622f02ff042fefc2fef42feec2fee42fedc2fed42fecc2fec42febc2feb42feac2fea42fe9c2fe942fe8c2fe842fe7c2fe74)
  (.lf 0)))

def shaPos478 : BTree :=
  .nd (.nd (.nd (.lf
  0x1891402de91890c1890802de5188f8188fc02de1188e8188e402ddd188d8188dc02dd9188c8188cc02dd5188b4188b802dd1188a8188ac02dcd188981889c02dc91888c1888802dc5188741887c02dc1188641886c02dbd188581885402db9188441884c02db51883c1883802db1188281882c02dad188141881802da9188041880c02da5187fc187f802da1187e4187e802d9d187dc187d402d99187cc187c8)
  (.lf 0)) (.nd (.lf
  0x687e0687b4687886875c6873068708686e0686b868690686686864068618685f0685c8685a0683606833868310682e8682c0682986827068248682206363054c80685746854468514684e8684bc6849068464684386840c683e0683b46838c683646833c68314682ec682c46829c682746824c6822467fe467fbc67f9467f6c67f4467f1c67ef467ecc67ea46355054c6c681f8681c8681986816c6814068114)
  (.lf 0))) (.nd (.nd (.lf
  0x374480c6f965a2c374380c6f565a00374300c6f1659d4374200c6ed659ac374140c6e965984374080c6e56595c374000c6e165934373f40c6dd6590c373e80c6d9658e4373d80c6d5658bc373d00c6d165894373c00c6cd6586c373b80c6c962bc4373a80c6c562ba4373a00c6c162b84373900c6bd62b64373880c6b962b443737c0c6b562b243736c0c6b162b04373640c6ad61ccc373540c6a961cb03734c)
  (.lf 0)) (.nd (.lf
  0x22c7422c6c22c6022c5c22c5022c4c22c4422c3822c3422c2c22c2422c1815c690048406d0c06d0806d0406d0006cfc06cf806cf406cf006cec06ce806ce406ce006cdc06cd806cd406cd006ccc06cc806cc406cc006cbc06cb806cb406cb006cac06ca806ca406ca006c9c06c9822c1422c0422bf422be422bd022bc022bb422ba422b9422b8422b7422b6422b5422b4422b3022b2422b1022b0422af422ae4)
  (.lf 0)))

def shaPos479 : BTree :=
  .nd (.nd (.nd (.lf
  0x2847c07b2d284702846807b29284582845c07b25284482845007b212843c2843807b1d284302842c07b19284202841c07b15284102840c07b11283fc283f807b0d283f0283e807b09283e0283d807b05283d0283c807b01283c0283b807afd283b0283a807af9283a02839c07af5283902838c07af1283802837c07aed283682837007ae9283602835c07ae5283482834c07ae1283382834007add2832c28330)
  (.lf 0)) (.nd (.lf
  0x366a836698366883667836668366583664836638366280080000e78360783606836058360483603836028360183600835ff835fe835fd835fc835fb835fa835f9835f8835f7835f6835f5835f4835f3835f2835f1835f0835ef835ee835ed835ec835eb835ea8007f800e64359e8359d8359c8359b8359a835998359883597835968359583594835938359283591835908358f8358e8358d8358c8358b8358a8)
  (.lf 0))) (.nd (.nd (.lf
  0x115a5115a11159d1159911595115911158d1158911585115811157d1157911575115711156d1156915ba147cb44e9384e9204e9084e8f04e8d84e8c04e8ac4e8984e8844e8704e85c4e8484e8344e8204e80c4e7f84e7e44e7d04e7bc4e7a84e7944e7804e76c4e7584e7444e7304e71c4e7084e6f84e6e847ca811565115611155d1155911555115511154d1154911545115411153d1153911535115311152d)
  (.lf 0)) (.nd (.lf
  0x38dc038d8038d4038d0038cc038c8038c4038c0038bc038b8038b4038b0038ac038a8038a4038a00389c0389803894038900388c0388803884038800387c0387803874038703d1043d0f43d0e43d0d43d0c43d0b43d0a43d0943d0843d0743d0643d0543d0443d0343d0243d0143d0043cff43cfe43cfd43cfc43cfb43cfa43cf943cf843cf743cf643cf543cf443cf341481554c5c67e8067e5067e2067df4)
  (.lf 0)))

def shaPos480 : BTree :=
  .nd (.nd (.nd (.lf
  0x88411ce811cd411cc011cb011c9c11c8c11c8411c6c11c6011c4c11c4411c3011c2811c1011c0411bec11be811bcc11bc011bac11ba811b9011b8811b7811b6811b5811b4811b3811b2811b10062f80087c119a0119841197c1196c1195811948119381192c119181190411900118f0118e0118c4118b4118a8118941188c11874118701185c1184811840118241181811808117fc117f0117e0117d0062f0)
  (.lf
  0x6ba986ba706ba486ba206b9f8644406442064400643e0643c0643a064380622e8622cc3f7ec3f7e03f7d43f7c83f7bc3f7b03f7a43f7983f78c3f7803f7743f7683f75c3f7503f7443f7383f72c3f7203f7143f7083f6fc3f6f03f6e43f6d83f6cc3f6c03f6b43f6a83f69c3f69015fc10012c03ca403ca003c9c03c9803c9403c9003c8c03c8803c8403c8003c7c03c7803c7403c7003c6c03c6803c6403c60))
  (.nd (.lf
  0x12145121411213d1213912135121311212d1212912125121211211d1211912115121111210d1210915c0547f3452354523385231c52300522e4522c8522b052298522805226852250522385222052208521f0521d8521c0521a852190521785216052148521305211852100520e8520d0520b8520a45209047f241210512101120fd120f9120f5120f1120ed120e9120e5120e1120dd120d9120d5120d1120cd)
  (.lf 0))) (.nd (.nd (.lf
  0x299cc299c80820500efe00efa00ef600ef200eee00eea00ee600ee200ede00eda00ed600ed202054020440203c0201c020140200401ff401fec01fdc0acc001fd40b8180204c1514d0ad2c15149003de0ad28082010ad2015145003da0ad1c081fd02034151410202c1513d02024151390ad1415135003d60ad10081f90ad0815131003d20ad04081f50200c1512d0acfc15129003ce0acf8081f101ffc15125)
  (.lf 0)) (.nd (.lf
  0x508c4508b05089c5088850874508605084c5083c5082c47dfc47df05081c50804507ec507d4507bc507a4507905077c5076850754507405072c5071850704506f0506dc506c8506b4506a05068c5067850664506505063c506285061450600505ec505dc505cc47de447dd8505c0505a85059050578505605054850534505205050c504f8504e4504d0504bc504a850494504805046c5045850444504305041c)
  (.lf 0)))

def shaPos481 : BTree :=
  .nd (.nd (.nd (.lf
  0x1a4e4035e91a4d0604f4035e51a4c8604d4035e11a4b8604b4035dd1a4ac60494035d91a4a460474035d51a49460454035d11a48860434035cd1a47c60414035c91a470603f4035c51a468603d4035c11a45c603b4035bd1a44c60394035b91a44060378035b51a4346035c035b11a42c60340035ad1a42060324035a91a41060308035a51a404602ec035a11a3f8602d00359d1a3ec602b4035991a3e460298)
  (.lf 0)) (.nd (.lf
  0x6b40c6b3e46b3bc6b3946b36c6b3446b31c6b2f464274642546423464214641f4641d4641b46b09c6b0746b04c54d906b2dc6b2ac6b27c6b2506b2246b1f86b1cc6b1a06b1746b1486b11c6b0f06b0c86b0a06b0786b0506b0286b0006afd86afb06af88641a46418464164641446412464104640e46ad086ace06acb854d706af486af186aee86aebc6ae906ae646ae386ae0c6ade06adb46ad886ad5c6ad34)
  (.lf 0))) (.nd (.nd (.lf
  0x38efc0cef938eec38ee80cef538ee038edc0cef138ecc38ec80ceed38ec038eb80cee938eb038ea80cee538ea038e980cee138e9038e880cedd38e7c38e780ced938e6c38e680ced538e5c38e580ced138e5038e480cecd38e3c38e380cec938e2c38e280cec538e2038e1c0cec138e0c38e080cebd38e0038dfc0ceb938df038dec0ceb538ddc38dd80ceb138dd038dcc0cead38dbc38db80cea938db038da8)
  (.lf 0)) (.nd (.lf
  0x2541c254142540c25404253fc253f4253e8253e4253dc253d4253cc253c0253bc253b0253ac253a02539c253942538c253802537c15e8d004b406fdc06fd806fd406fd006fcc06fc806fc406fc006fbc06fb806fb406fb006fac06fa806fa406fa006f9c06f9806f9406f9006f8c06f8806f8406f8006f7c06f7806f7406f7006f6c06f682537425364253542534425334253242531425304252f4252e4252d4)
  (.lf 0)))

def shaPos482 : BTree :=
  .nd (.nd (.nd (.lf
  0x10fc010fbc00b3d10fac10fb000b3910fa410f9c00b3510f9010f9400b3110f8410f7c00b2d10f6c10f7000b2910f6410f6000b2510f5410f4c00b2110f4410f3c00b1d10f2c10f3000b1910f2410f2000b1510f1010f1400b1110f0010f0400b0d10ef410ef000b0910ee010edc00b0510ecc10ed000b0110ebc10ec000afd10eb410eac00af910e9c10ea000af510e8c10e9400af110e7c10e8000aed10e74)
  (.lf 0)) (.nd (.lf
  0x141bd44b1044b0c141b944b0044afc141b544af044aec141b144ae044adc141ad44ad044acc141a944ac044abc141a544ab044aac141a144aa044a9c1419d44a9044a8c1419944a8044a7c1419544a7044a6c1419144a6044a5c1418d44a5044a4c1418944a4044a3c1418544a3044a2c1418144a2044a1c1417d44a1044a0c1417944a00449fc14175449f0449ec14171449e0449dc1416d449d0449cc14169)
  (.lf 0))) (.nd (.nd (.lf
  0x136e0136a01366013620135e0135a01356013520134e0134a01346028540b3f80281c0b3e00b3d40b3c8028140280c0b3a4028040b38c0b3800b3740b3680b35c0b8900284c15561028441555d0283c1555902834155550282c15551028241554d0b40415549006260b4000a7ad006220b3f40a7a90b3ec155450061e0b3e80a7a50061a0b3dc0a7a1006160b3d00a79d006120b3c40a7990b3bc155410060e)
  (.lf 0)) (.nd (.lf
  0x17d6c17d6017d5417d4817d3c17d3017d2417d1817d0c17d0017cf417ce817cdc17cd017cc417cb817cac17ca017c9417c8817c7c17c6c17c6417c5817c4c17c3c17c3417c2817c1c15d65063e40e0e80e0e40e0e00e0dc0e0d80e0d40e0d00e0cc0e0c80e0c40e0c00e0bc0e0b80e0b40e0b00e0ac0e0a80e0a40e0a00e09c0e0980e0940e0900e08c0e0880e0840e0800e07c0e0780e07417c1017c0017bf0)
  (.lf 0)))

def shaPos483 : BTree :=
  .nd (.nd (.nd (.lf
  0x5ca9223802237805ca52236c2237005ca12235c2236005c9d2234c2235005c99223382233c05c952232c2233005c91223182231c05c8d223082230c05c89222f8222fc05c85222ec222f005c81222e0222d805c7d222cc222c805c79222bc222b805c75222a8222b005c712229c2229805c6d2228c2228805c69222802227c05c65222682227005c61222602225c05c5d222482224c05c59222382223c05c55)
  (.lf 0)) (.nd (.lf
  0x2600025f80b1740b1680b15c025f00b1500b1440b138025e8025e0025d80b864011ea00570003f4025d00b12c025c8025c00b120025b8025b0025a8025a002598025900b1140b10802588025800b0fc025780b0f0025700256802560025580b0e40b0d80b0cc02550025480b858011be2e88c00568003f0025400b0c0025380b0b40b0a8025300b09c0b0900b0840b078025280b06c02520025180b06002510)
  (.lf 0))) (.nd (.nd (.lf
  0xf9a55408041d200f9a15405c41d140f99d5403841d080f9995401441cfc0f99553ff041cf00f99153fcc41ce40f98d53fac41cd80f98953f8c41ccc0f98553f6c41cc00f98153f4c41cb40f97d53f2c41ca80f97953f0c41c9c0f97553eec41c900f97153ecc41c840f96d53eac41c780f96953e8c41c6c0f96553e7041c600f96153e5441c540f95d53e3841c480f95953e1c41c3c0f95553e0041c300f951)
  (.lf 0)) (.nd (.lf
  0x32804327f4327e4327d4327c4327b4327a432794327843277432764327543274432734327243271432704326f4326e4326d4326c4326b4326a432694326843267415a9d47ecc53db453d9053d6c53d4853d2453d0053cdc53cb853c9453c7053c4c53c2c53c0c53bec53bcc53bac53b8c53b6c53b4c53b2c53b0c53af053ad453ab853a9c53a8053a6453a48518f0518dc32660326583265432648326403263c)
  (.lf 0)))

def shaPos484 : BTree :=
  .nd (.nd (.nd (.lf
  0x67adc67aac67a8067a5467a28679fc679d0679a4679786794c67b1067ae067ab067a8467a5867a2c67a00679d4679a86797c6795067924678fc674e0674b867490674686744067790677606773067704676d8676ac676806765467628675fc675d067794677646773467708676dc676b067684676586762c67600675d4675a867580671646713c67114670ec670c467414673e4673b4673886735c6733067304)
  (.lf 0)) (.nd (.lf
  0x58f4858f2c58f1058ef458ed858ebc58ea058e8458e6c58e5458e3c58e2458e0c58df458ddc58dc45442c5443c590f8590d8590b8590985907859058590385901858ff858fd858fb858f9858f7c58f6058f4458f2858f0c58ef058ed458eb858e9c58e8058e6858e5058e3858e2058e0858df058dd858dc05442812c7912c7512c7112c6d12c6912c6512c6112c5d12c5912c5512c5112c4d12c4912c4512c41)
  (.lf 0))) (.nd (.nd (.lf
  0x94e92d5102d508094e52d5002d4f8094e12d4f02d4e8094dd2d4e02d4d8094d90113e0113a01136011320112e0112a01126011220111e0111a01116011120110e0110a011060b0080245c0aff00afe402454024440afc00243c0241c024140240c0af840af78023fc0b848004d20b004094d50affc15355004ce0aff8094d1004ca0afec094cd004c60afe0094c90244c153510afd81534d004c20afd4094c5)
  (.lf 0)) (.nd (.lf
  0x110f0110e8110d8110d0110c0110b8110a81109c11090110881107c1107011060110581104c1103c11034110281101c110101100010ff410fec10fe010fd015ff5062dc0d1700d16c0d1680d1640d1600d15c0d1580d1540d1500d14c0d1480d1440d1400d13c0d1380d1340d1300d12c0d1280d1240d1200d11c0d1180d1140d1100d10c0d1080d1040d1000d0fc10fc410fb410fa810f9810f8810f7810f68)
  (.lf 0)))

def shaPos485 : BTree :=
  .nd (.nd (.nd (.lf
  0x49dd0176e0baf0049d90131c14a950131414a910130c14a8d0130414a89012fc14a850bae814a810176a0bae0049d5158611e8441e848049d11e8301e834049cd1e8281e820049c91e8181e814049c51e8081e800049c11e7f01e7f8049bd1e7e81e7e0049b91e7d81e7d4049b51e7c41e7c0049b11e7b41e7b0049ad1e7a01e7a4049a91e7941e790049a51e7841e780049a11e7701e7780499d1e7641e760)
  (.lf 0)) (.nd (.lf
  0x5e5345e5185e4fc5e4e05e4c45e4a85e4905e4785e4605e4485e4305e4185e4005e3e8548405482c5e3d05e3b05e3905e3705e3505e3305e3105e2f05e2d05e2b05e2905e2705e2545e2385e21c5e2005e1e45e1c85e1ac5e1905e1745e1585e1405e1285e1105e0f85e0e05e0c85e0b05e09854818548045e0805e0605e0405e0205e0005dfe05dfc05dfa05df805df605df405df205df045dee85decc5deb0)
  (.lf 0))) (.nd (.nd (.lf
  0x63e243d61c0e44d63e043d6100e44963de43d6040e44563dc43d5f80e44163da43d5ec0e43d63d843d5e00e43963d643d5d40e435621643d5c80e431621483d5bc0e42d3d5b03d5a80e4293d5a03d5980e4253d5903d5880e4213d5803d5780e41d3d5703d5680e4193d5603d5580e4153d5503d5480e4113d5403d5380e40d3d5303d5280e4093d5203d5180e4053d5103d5080e4013d5003d4f80e3fd3d4f0)
  (.lf 0)) (.nd (.lf
  0x2bdc42bdb42bda42bd942bd842bd7415a5d54d0869dc869d9869d6c69d4069d1469ce869cbc69c9069c6469c3869c0c69be469bbc69b9469b6c69b4469b1c69af469acc69aa469a7c63c4863c2863c0863be863bc863ba863b88620dc620c02bd642bd5c2bd542bd4c2bd442bd3c2bd342bd2c2bd242bd1c2bd142bd0c2bd042bcfc2bcf42bcec2bce42bcdc2bcd42bccc2bcc42bcbc2bcb42bcac2bca42bc9c)
  (.lf 0)))

def shaPos486 : BTree :=
  .nd (.nd (.nd (.lf
  0x209515a4415a480209115a3415a380208d15a2415a280208915a1415a1c0208515a0415a0c02081159f4159fc0207d159e4159e802079159d4159d802075159c4159cc02071159b4159b80206d159a4159a802069159941599c02065159841598802061159741597c0205d159641596c02059159585b8c4020551594c5b8a402051159405b8840204d159345b86402049159285b844020451591c5b82402041)
  (.lf 0)) (.nd (.lf
  0x43d7443d6843d5c43d5043d4443d3843d2c43d2043d1443d0843cfc43cf043ce443cd80cbc0010a443984439784396c4396043954439484393c4393043924439184390c43900438f4438e8438dc438d0438c4438b8438ac438a043894438884387c4387043864438584384c4384043834438280cbbc01098434d4434c8434bc434b0434a4434984348c4348043474434684345c4345043444434384342c43420)
  (.lf 0))) (.nd (.nd (.lf
  0xba9934b6834b700ba9534b5834b600ba9134b4834b500ba8d34b3834b400ba8934b2834b300ba8534b1834b200ba8134b0834b100ba7d34af834b000ba79015ae015aa015a6015a20159e0159a01596015920158e0158a01586015820157e0157a0157602c6c0b65c0b65002c6402c5402c4c02c440b61402c3c0b5fc02c3402c1402c040b5cc02bfc0b66815775006f20b6640ba75006ee0b6580ba71006ea)
  (.lf 0)) (.nd (.lf
  0x68080680406800067fc067f8067f4067f0067ec067e81ea2c1ea1c1ea0c1e9fc1e9ec1e9d81e9cc1e9bc1e9ac1e99c1e9881e97c1e96c1e95c1e94c1e93c1e92c1e91c1e90c1e8f81e8ec1e8d81e8cc1e8bc1e8ac1e8981e88c1e87c1e86c1e85c158dd01384013640bb3001354013440bb0c0bb000baf401324064bc001e40476c0476804764047600475c0475804754047500474c0474804744047400473c)
  (.lf 0)))

def shaPos487 : BTree :=
  .nd (.nd (.nd (.lf
  0x6f6101bdc14f0901bd414f050bf9414f01018fa0bf9006f5d0bf8c14efd018f60bf8806f590bf7c14ef9018f20bf7806f55018ee0bf6c06f51018ea0bf6006f4d018e60bf5806f49018e20bf4c06f45018de0bf4006f41018da0bf3406f3d018d60bf2806f39018d20bf1806f350bf1414ef5018ce0bf1006f3101bac14ef101ba414eed0bf0814ee9018ca0bf0406f2d0befc14ee5018c60bef806f2901b8c)
  (.lf 0)) (.nd (.lf
  0x2fe582fe502fe482fe402fe382fe302fe282fe202fe1848e7000d582f8702f8682f8602f8582f8502f8482f8402f8382f8302f8282f8202f8182f8102f8082f8002f7f82f7f02f7e82f7e02f7d82f7d02f7c82f7c02f7b82f7b02f7a82f7a02f7982f7902f78848e6400d482f1e02f1d82f1d02f1c82f1c02f1b82f1b02f1a82f1a02f1982f1902f1882f1802f1782f1702f1682f1602f1582f1502f1482f140)
  (.lf 0))) (.nd (.nd (.lf
  0x50eec50ed450ebc50ea850e9450e8050e6c50e5850e4450e3050e1c50e0850df450de050dcc50db850da450b2c50b1850b0450af050adc50ac850ab450ccc50cb450c9c50c8450c6c50cd050cb850ca050c8850c7050c5850c4450c3050c1c50c0850bf450be050bcc50bb850ba450b9050b7c50b6850b5450b40508cc508b8508a4508905087c508685085450a6c50a5450a3c50a2450a0c50a7050a5850a40)
  (.lf 0)) (.nd (.lf
  0x66d5063100630e0630c0630a063080630606304061e1861dfc390cc390c0390b4390a83909c3909039084390783906c3906039054390483903c3903039024390143900c3900038ff438fe838fdc38fcc38fc438fb838fac38fa038f9438f8838f7c38f7015eb90007c03254032500324c0324803244032400323c0323803234032300322c0322803224032200321c0321803214032100320c032080320403200)
  (.lf 0)))

def shaPos488 : BTree :=
  .nd (.nd (.nd (.lf
  0x99418c7418c5c18c4c18c3c18c3018c2018c1818c0018bec18bdc18bcc18bc018bb018ba418b9018b7c18b6c18b6418b4c18b3c18b3418b1c18b0c18afc18af018ae018ad818ac418ab018aa8064080098c1892c1891818904188f4188ec188d4188c4188bc188a418894188841887818868188601884818834188241882018808187f4187ec187d8187c4187b4187b018798187901877c187681875406400)
  (.lf
  0x46784467704675c4674846734467204670c466f8466e8466d8466c8466b8466a84669845804457f842b7c42b7042b6442b5842b4c42b4042b3442b2842b1c42b1042b0442af842aec42ae042ad442ac842abc42ab042aa442a9842a8c42a8042a7442a6842a5c42a5042a4442a3842a2c42a2015ad100184041cc041c8041c4041c0041bc041b8041b4041b0041ac041a8041a4041a00419c041980419404190))
  (.nd (.lf
  0x60b6060b4060b2060b0060ae060ac060aa060a8060a6060a4060a2060a04609e8609cc609b060994609786060c605f0605d46082c6080c607ec607cc607ac6078c6076c6074c6072c6070c606ec6083060810607f0607d0607b06079060770607506073060710606f0606d0606b4606986067c606606064460628602bc602a060284604dc604bc6049c6047c6045c6043c6041c603fc603dc603bc6039c604e0)
  (.lf 0))) (.nd (.nd (.lf
  0x2b7302b72c08b752b7202b71c08b712b7102b70c08b6d2b7002b6fc08b692b6f02b6ec08b652b6e02b6dc08b614f2c069a5008b5d4f2a869a2008b594f290699f408b554f278699c808b514f2606999c08b4d4f2486997008b494f2346994408b454f2206991808b414f20c698ec08b3d4f1f8698c008b394f1e46989408b354f1d06986c08b314f1bc6984408b2d4f1a86981c08b294f194697f408b254f180)
  (.lf 0)) (.nd (.lf
  0x503745036447dc447dd0505b45059c505845056c505545053c502c8502b4502a05028c5027850264502505023c502285021450200501ec501d8501c4501b05019c5018850174501605014c5013850124501145010447dac47db8503545033c503245030c502f4502dc5006c5005850044500305001c500084fff44ffe04ffcc4ffb84ffa44ff904ff7c4ff684ff544ff404ff2c4ff184ff044fef04fedc4fec8)
  (.lf 0)))

def shaPos489 : BTree :=
  .nd (.nd (.nd (.lf
  0x496201c91c040594960c1c91004055495f81c90404051495e41c8f40404d495d01c8e804049495bc1c8dc04045495a81c8d404041495941c8c80403d495801c8b8040394956c1c8ac04035495581c8a404031495441c8940402d495301c888040294951c1c87c04025494fc1c87004021494f01c8640401d494d81c85804019494c81c84c04015494b41c840040114949c1c8340400d494841c8280400949474)
  (.lf 0)) (.nd (.lf
  0x2ee082edf82ede82edd82edc82edb82eda82ed982ed882ed782ed682ed582ed482ed380032000d302e8782e8682e8582e8482e8382e8282e8182e8082e7f82e7e82e7d82e7c82e7b82e7a82e7982e7882e7782e7682e7582e7482e7382e7282e7182e7082e6f82e6ec2e6dc2e6c82e6b82e6a80031800d202e1e82e1d82e1c82e1b82e1a82e1982e1882e1782e1682e1582e1482e1382e1282e1182e1082e0f8)
  (.lf 0))) (.nd (.nd (.lf
  0xd9a56673c3b2540d9a1667143b24c0d99d666ec3b2400d999666c43b2340d995666983b2240d991666703b2180d98d666483b20c0d98962f343b2040d98562f143b1f80d98162ef43b1ec0d97d62ed43b1e00d97962eb43b1d00d97562e943b1c40d97162e743b1bc0d96d61da03b1b00d96961d843b1a40d9656890c3b1980d961688dc3b1880d95d688ac3b1800d959688803b1740d955688543b1680d951)
  (.lf 0)) (.nd (.lf
  0x67f1467eec67ec467e9c635486352863508634e8634c8634a86348861f1c61f04288e4288dc288d4288cc288c4288bc288b4288ac288a42889c288942888c288842887c288742886c288602885c288542884c288442883c288342882c288242881c288142880828804287f815eed004f40739c0739807394073900738c0738807384073800737c0737807374073700736c0736807364073600735c0735807354)
  (.lf 0)))

def shaPos490 : BTree :=
  .nd (.nd (.nd (.lf
  0x59378015e9134e059358015e5134d459338015e1134cc59318015dd134c0592f8015d9134b4592dc015d5134a8592c0015d113498592a4015cd1349059288015c9134845926c015c51347859250015c11346859234015bd1346059218015b913450591fc015b513444591e0015b11343c591c8015ad13430591b0015a91342459198015a51341459180015a11340c591680159d134005915001599133f059138)
  (.lf 0)) (.nd (.lf
  0x4164c4163c4162c4161c4160c415fc415ec415dc415cc415bc415ac4159c4158c4157c00160010404129c4128c4127c4126c4125c4124c4123c4122c4121c4120c411fc411ec411dc411cc411bc411ac4119c4118c4117c4116c4115c4114c4113c4112c4111c4110c410fc410ec410dc410cc001580103440dec40ddc40dcc40dbc40dac40d9c40d8c40d7c40d6c40d5c40d4c40d3c40d2c40d1c40d0c40cfc)
  (.lf 0))) (.nd (.nd (.lf
  0xb13d32e0032dfc0b13932df032dec0b13532de032ddc0b13132dd032dcc0b12d32dc032dbc0b12932db032dac0b12532da032d9c0b12132d9032d8c0b11d32d8032d7c0b11932d7032d6c0b11532d6032d5c0b11132d5032d4c0b10d32d4032d3c0b10932d3032d2c0b10532d2032d1c0b10132d1032d0c0b0fd32d0032cfc0b0f951d94541400b0f551d7c5411c0b0f151d64540f80b0ed51d4c540d40b0e9)
  (.lf 0)) (.nd (.lf
  0xe86c1b3d81b3c81b3b81b3a81b3981b3881b3781b3681b3581b3481b3381b3281b3181b3081b2f81b2e81b2d81b2c81b2b81b2a81b2981b2881b2781b2681b2581b2481b2381b2281b2181b20815dcd54a606123861218611f8611d8611b86119861178611586113861118610f8610d8610bc610a061084610686104c610306101460ff860fdc60fc060fa860f9060f7860f6060f4860f3060f1860f001b1f4)
  (.lf 0)))

def shaPos491 : BTree :=
  .nd (.nd (.nd (.lf
  0x240ec240f006609240dc240d806605240d0240cc06601240bc240c0065fd4c80065b98065f94c7e865b68065f54c7d065b3c065f14c7b865b10065ed4c7a065ae4065e94c78865ab8065e54c77465a88065e14c76065a60065dd4c74c65a34065d94c73865a08065d54c724659dc065d14c710659b4065cd4c6fc6598c065c94c6e865964065c54c6d46593c065c14c6c065918065bd4c6ac658f0065b94c698)
  (.lf 0)) (.nd (.lf
  0x2f77c2f76c2f75c2f74c2f73c2f72c2f71c2f70c2f6fc2f6ec2f6dc2f6cc2f6bc2f6ac2f69c2f68c2f67c2f66c2f65c2f64c2f63c2f62c2f61c2f60c2f5fc2f5ec2f5dc2f5cc2f5bc2f5ac00d442f0ec2f0dc2f0cc2f0bc2f0ac2f09c2f08c2f07c2f06c2f05c2f04c2f03c2f02c2f01c2f00c2effc2efec2efdc2efcc2efbc2efac2ef9c2ef8c2ef7c2ef6c2ef5c2ef4c2ef3c2ef2c2ef1c00d342ea5c2ea4c)
  (.lf 0))) (.nd (.nd (.lf
  0x440b0440a81044d440a0440981044944090440881044544080440781044144070440681043d44060440581043944050440481043544040440381043144030440281042d4402044018104294401044008104254400043ff81042143ff043fe81041d43fe043fd81041943fd043fc81041543fc043fb81041143fb043fa81040d53a4043fa01040953a1c43f9410405539f843f8810401539d443f7c103fd539b0)
  (.lf 0)) (.nd (.lf
  0x159c10cb200cb140cb0802da402d8c0cae402d7c0cacc0cac002d7402d6c02d5402d4402d34003ac06224062200621c0621806214062100620c062080620406200061fc061f8061f4061f0061ec061e8061e4061e0061dc061d8061d4061d0061cc061c8061c4061c0061bc061b8061b4061b035bd435bc435bb435ba435b9435b8435b7435b6435b5435b4435b3435b2435b1435b0435af435ae435ad435ac4)
  (.lf 0)))

def shaPos492 : BTree :=
  .nd (.nd (.nd (.lf
  0x9552cc40eddc0009152ca80edd00008d52c800edc40008952c6c0edb80008552c500edac0008152c3c0eda40007d52c240ed940007962810627f0627d0627b0627906277054e4054e246487c6484c648806485064820647f4647c86479c647706474464718646ec646c06469864500644e0644c0644a0644806446062324623086c0b86c0886c0bc6c08c6c05c6c0306c0046bfd86bfac6bf806bf546bf28)
  (.lf 0)) (.nd (.lf
  0x1373d1373913735137311372d1372913725137211371d1371913715137111370d137091370513701136fd547885d68c5d66c5d64c5d62c5d60c5d5ec5d5cc5d5ac5d58c5d56c5d54c5d52c5d5105d4f45d4d85d4bc5d4a05d4845d4685d44c5d4305d4145d3fc5d3e45d3cc5d3b45d39c5d3845d36c5d35454774547845d6885d6685d6485d6285d6085d5e85d5c85d5a85d5885d5685d5485d5285d50c5d4f0)
  (.lf 0))) (.nd (.nd (.lf
  0x2f3302f32c09e652f3202f31c09e612f3102f30c09e5d2f3002f2fc09e592f2f02f2ec09e552f2e02f2dc09e512f2d02f2cc09e4d2f2c02f2bc09e492f2b02f2ac09e452f2a02f29c09e412f2902f28c09e3d2f2802f27c09e392f2702f26c09e352f2602f25c09e312f2502f24c09e2d2f2402f23c09e292f2302f22c09e252f2202f21c09e212f2102f20c09e1d2f2002f1fc09e192f1f02f1ec09e1550820)
  (.lf 0)) (.nd (.lf
  0x14760147501474014730147201471014700146f0146e0146d0146c0146b01469c1468c146801466c14660146501463c1462c146201461014600145f0145e0145d0145bc15d09545385a4e45a4c45a4a45a4845a4645a4445a4245a4045a3e45a3c45a3a45a3845a3685a34c5a3305a3145a2f85a2dc5a2c05a2a45a2885a26c5a2545a23c5a2245a2105a1f45a1dc5a1c85a1b0145b0145a4145981458c14580)
  (.lf 0)))

def shaPos493 : BTree :=
  .nd (.nd (.nd (.lf
  0x45bb8053114ae2445ba80530d4ae0c45b98053094adf445b88053054addc45b78053014adc445b68052fd4adac45b58052f94ad9445b44052f54ad8045b34052f1204b0204a8052ed2049c20498052e9204902048c052e52048020478052e12046820470052dd204602045c052d92044c20448052d5204402043c052d1204302042c052cd2041c20420052c9204082040c052c5203f820400052c1203ec203f0)
  (.lf 0)) (.nd (.lf
  0x5dd845dd6c5dd545dd3c547e4547f85e0745e0545e0345e0145dff45dfd45dfb45df945df745dc045dbe05dbc45dba85db8c5db705db545db385db1c5db005dae45dac45daac5da945da7c5da645da4c5da345da1c5da045d9ec547bc547d05dd245dd045dce45dcc45dca45dc845dc645dc445dc245d8b45d8905d8745d8585d83c5d8205d8045d7e85d7cc5d7b05d7945d7745d75c5d7445d72c5d7145d6fc)
  (.lf 0))) (.nd (.nd (.lf
  0x3f9700eef93f9583f9600eef569de03f9500eef169db03f9440eeed69d803f9380eee969d543f92c0eee569d283f9200eee169cfc3f9140eedd69cd03f9080eed969ca43f8fc0eed569c783f8f00eed169c4c3f8e40eecd69c203f8d80eec969bf83f8cc0eec569bd03f8c00eec169ba83f8b40eebd69b803f8a80eeb969b583f89c0eeb569b303f8900eeb169b083f8840eead69ae03f8780eea969ab83f86c)
  (.lf 0)) (.nd (.lf
  0x2f2a42f2942f2842f2742f2642f2542f2442f2342f2242f2142f2042f1f415a7d54da86b9a86b9786b94c6b9206b8f46b8c86b89c6b8706b8446b8186b7ec6b7c46b79c6b7746b74c6b7246b6fc6b6d46b6ac6b6846b65c643486432864308642e8642c8642a8642886229c622802f1e42f1dc2f1d42f1cc2f1c42f1bc2f1b42f1ac2f1a42f19c2f1942f18c2f1842f17c2f1742f16c2f1642f15c2f1542f14c)
  (.lf 0)))

def shaPos494 : BTree :=
  .nd (.nd (.nd (.lf
  0x17fb05ddf802b3d17fa85dde002b3917f9c5ddc802b3517f905ddb002b3117f845dd9802b2d17f785dd8002b2917f6c5dd6802b2517f605dd5002b2117f5417f5002b1d17f4417f4002b1917f3417f3002b1517f2417f2002b1117f1417f1002b0d17f0417f0002b0917ef417ef002b0517ee417ee002b0117ed417ed002afd17ec417ec002af917eb417eb002af517ea417ea002af117e9417e9002aed17e84)
  (.lf 0)) (.nd (.lf
  0x61b2c61b0861ae461ac061a9c61a7c61a5c61a3c61a18619fc619dc619bc6199c6197c6195c48bf048bdc48bcc48bb848ba448b9048b7c48b6848b5445e88455f848ce848cd448cbc48ca848c9448c8048c6c48c5848c4448c3048c1c48c0848bf448be048bd048bbc48ba848b9448b8048b6c48b5848a4448a3048a2048a0c489f8489e4489d0489bc489a845df8455f048b4048b2848b1048afc48ae848ad4)
  (.lf 0))) (.nd (.nd (.lf
  0x45a1c36b540c44d654c836b480c4496549836b380c4456546836b300c4416543c36b240c43d6541036b180c439653e436b080c435653b836b000c4316538c36af40c42d6536036ae40c4296533436ad80c4256530836acc0c421652dc36ac40c41d652b436ab80c4196528c36aac0c4156526436a9c0c4116523c36a900c40d6521436a880c409651ec36a780c405651c436a700c4016519c36a600c3fd65174)
  (.lf 0)) (.nd (.lf
  0x21f4421f3821f3021f2821f2021f1821f1421f0c21f0021efc15c590047406c1c06c1806c1406c1006c0c06c0806c0406c0006bfc06bf806bf406bf006bec06be806be406be006bdc06bd806bd406bd006bcc06bc806bc406bc006bbc06bb806bb406bb006bac06ba821ef421ee421ed421ec021eb421ea421e9021e8421e7421e6421e5021e4421e3421e2421e1421e0421df421de421dd421dc421db421da0)
  (.lf 0)))

def shaPos495 : BTree :=
  .nd (.nd (.nd (.lf
  0x27cbc078d527ca827cb0078d127ca027c98078cd27c9027c8c078c927c7827c80078c527c6c27c70078c127c5827c5c078bd27c4827c4c078b927c4027c38078b527c2827c30078b127c1c27c20078ad27c0c27c08078a927c0027bfc078a527be827bec078a127bdc27bd80789d27bc827bcc078994dd5867b00078954dd4067ad0078914dd2867aa00788d4dd1067a74078894dcf867a48078854dce067a1c)
  (.lf 0)) (.nd (.lf
  0x2ff882ff782ff682ff582ff482ff382ff282ff182ff080078000d5c2fa482fa382fa282fa182fa082f9f82f9e82f9d82f9c82f9b82f9a82f9982f9882f9782f9682f9582f9482f9382f9282f9182f9082f8f82f8e82f8d82f8c82f8b82f8a82f8982f8882f8780077800d4c2f3b82f3a82f3982f3882f3782f3682f3582f3482f3382f3282f3182f3082f2f82f2e82f2d82f2c82f2b82f2a82f2982f2882f278)
  (.lf 0))) (.nd (.nd (.lf
  0x111c5111c1111bd111b9111b5111b1111ad111a9111a5111a11119d1119911195111911118d1118915b8147bf44d6384d6204d6084d5f04d5d84d5c04d5ac4d5984d5844d5704d55c4d5484d5344d5204d50c4d4f84d4e44d4d04d4bc4d4a84d4944d4804d46c4d4584d4444d4304d41c4d4084d3f84d3e847be811185111811117d1117911175111711116d1116911165111611115d1115911155111511114d)
  (.lf 0)) (.nd (.lf
  0x693f4693cc693a463aa063a8063a6063a4063a2063a00639e062080620643c45c3c4503c4443c4383c42c3c4203c4143c4083c3fc3c3f03c3e43c3d83c3cc3c3c03c3b43c3a83c39c3c3903c3843c3783c36c3c3603c3543c3483c33c3c3303c3243c3183c30c3c30015f3d000d40377c0377803774037700376c0376803764037600375c0375803754037500374c0374803744037400373c037380373403730)
  (.lf 0)))

def shaPos496 : BTree :=
  .nd (.nd (.nd (.lf
  0x914157f0157dc157d0157c0157ac157a015790157881577015760157501574015730157201571015700156f0156e0156d0156c0156b0156a41569415684156741566015654156441563015620063880090c154a415494154841547415464154541544415434154241541415404153f4153e4153d4153c4153b4153a41539415384153741536415360153481534015330153201531015300152ec152dc06380)
  (.lf
  0x411a441194411844117441164411544114441134411244111441104410f4410e4410d41484d54d786af546af246aef46aec86ae9c6ae706ae446ae186adec6adc06ad946ad686ad406ad186acf06acc86aca06ac786ac506ac286ac00640b8640986407864058640386401863ff862200621e4410c4410b8410ac410a041094410884107c4107041064410584104c4104041034410284101c410104100440ff8))
  (.nd (.lf
  0x5a1605a1405a1205a1005a0e05a0c05a0a05a0805a0605a03c5a0205a00459fe859fcc59fb059f9459f7859c0c59bf059bd859e2c59e0c59dec59dcc59dac59d8c59d6c59d4c59d2c59d0c59cf459e3059e1059df059dd059db059d9059d7059d5059d3059d1059cf059cd059cb459c9859c7c59c6059c4459c28598bc598a05988859adc59abc59a9c59a7c59a5c59a3c59a1c599fc599dc599bc599a459ae0)
  (.lf 0))) (.nd (.nd (.lf
  0x6900c086c94ec48639ac086c54ec346398c086c14ec206396c086bd4ec0c6394c086b94ebf86392c086b54ebe46390c086b14ebd0638ec086ad4ebc062038086a94ebb06201c086a52a8bc2a8c0086a12a8a82a8ac0869d2a8a02a89c086992a8882a88c086952a87c2a880086912a86c2a8680868d2a85c2a860086892a8482a84c086852a83c2a840086812a8282a82c0867d2a81c2a820086792a8082a80c)
  (.lf 0)) (.nd (.lf
  0x4b6104b5fc47aa847ab84b8c04b8a44b8884b86c4b84c4b8344b5444b52c4b5144b4fc4b4e44b4cc4b4b44b49c4b4844b46c4b4544b43c4b4244b40c4b3f44b3dc4b3c44b3ac4b3944b37c4b3604b34c4b3384b32447a8847a984b5e84b5cc4b5b04b5944b5744b55c4b2684b2544b23c4b2244b20c4b1f44b1dc4b1c44b1ac4b1944b17c4b1644b14c4b1344b11c4b1044b0ec4b0d44b0bc4b0a44b0884b074)
  (.lf 0)))

def shaPos497 : BTree :=
  .nd (.nd (.nd (.lf
  0x1b7a8616e003b3d1b79c616c003b391b790616a003b351b7886168003b311b7786166403b2d1b76c6164803b291b7646162c03b251b7546161003b211b74c615f403b1d1b740615d803b191b730615bc03b151b728615a003b111b7141b71c03b0d1b7041b70c03b091b6f41b6fc03b051b6e41b6ec03b011b6d41b6dc03afd1b6c41b6cc03af91b6b41b6bc03af51b6a41b6ac03af11b6941b69c03aed1b684)
  (.lf 0)) (.nd (.lf
  0x21c1021bfc21bec21bdc21bcc21bbc21bb021b9c21b9021b7821b6821b5c21b4c21b3c0022000af4216782166c216582164821638216282161821608215f8215e8215d8215c8215b8215a821598215882157821568215582154c2153c2152c2151c21514214fc214ec214dc214c8214c4214b40021800ae420ff420fe020fd020fbc20fac20f9c20f8820f8420f6820f6420f4c20f3820f2c20f1820f0c20ef8)
  (.lf 0))) (.nd (.nd (.lf
  0x3a08c3a0880d44d3a0783a0800d4493a0703a06c0d4453a0603a0580d4413a0503a04c0d43d65bac3a03c0d43965b7c3a0300d43565b4c3a0280d43165b203a01c0d42d65af43a0100d42965ac83a0040d42565a9c39ff80d42165a7039fe80d41d65a4439fdc0d41965a1839fd40d415659ec39fc80d411659c439fb80d40d6599c39fb00d4096597439fa40d4056594c39f980d4016592439f8c0d3fd658fc)
  (.lf 0)) (.nd (.lf
  0x26e7c26e7426e6c26e6426e5826e5426e4c26e4426e3c26e3426e2c26e2426e1c26e1426e0c26e0426dfc26df426dec26de426ddc26dd026dc826dc426db815ebd004d4071bc071b8071b4071b0071ac071a8071a4071a00719c0719807194071900718c0718807184071800717c0717807174071700716c0716807164071600715c0715807154071500714c0714826db026da026d9426d8426d7426d6026d54)
  (.lf 0)))

def shaPos498 : BTree :=
  .nd (.nd (.nd (.lf
  0x10951223c1224401091122301222c0108d1221c1222401089122141221001085121fc1220001081121ec121f00107d121dc121e001079121d0121cc01075121c4121c001071121ac121b00106d1219c121a0010691219458078010651218458058010611217c580380105d1216c58018010591216457ff8010551215457fd8010511214857fb80104d1214057f98010491213057f78010451212457f5801041)
  (.lf 0)) (.nd (.lf
  0x3805038044380303801c3800c3800437ff437fdc37fc837fbc37fac37f9c37f9437f7c0006000ec037c9c37c8c37c7c37c6c37c5c37c4837c3837c2c37c1c37c0837c0037be837bdc37bd037bbc37bac37ba437b9437b8437b6837b5c37b5437b3837b2c37b1c37b1437af837aec37ad837ac80005800eb4377f4377d8377cc377bc377ac377a43779037780377683775837748377443772c3771837710376f8)
  (.lf 0))) (.nd (.nd (.lf
  0xac79516ac536d00ac755169c536b40ac715168c490f00ac6d51674490dc0ac6931ed831ee00ac6531ec831ed00ac6131eb831ec00ac5d31ea831eb00ac5931e9831ea00ac5531e8831e900ac5131e7831e800ac4d31e6831e700ac4931e5831e600ac4531e4831e500ac4131e3831e400ac3d31e2831e300ac3931e1831e200ac3531e0831e100ac3131df831e000ac2d31de831df00ac2931dd831de00ac25)
  (.lf 0)) (.nd (.lf
  0x549205f7b45f7945f7745f7545f7345f7145f6f45f6d45f6b45f6945f6745f6545f6385f61c5f6005f5e45f5c85f5ac5f5905f5745f5585f53c5f5245f50c5f4f45f4dc5f4c45f4ac5f4945f47c197b8197ac197a019794197881977c1977019764197581974c1973c19734197281971c1971019700196f8196e8196e0196d4196c8196b8196b0196a0196981968c1968019674196641965c16089064240e4a8)
  (.lf 0)))

def shaPos499 : BTree :=
  .nd (.nd (.nd (.lf
  0x6131231cc231d00612d231c0231bc06129231b0231ac06125231a02319c06121231902318c0611d2317c2317806119231702316c06115231582316006111231482314c0610d2314023138061092312c23130061052312023118061012310823110060fd230f8230fc060f9230ec230f0060f5230dc230d8060f1230cc230d0060ed00b5e00b5a00b5600b5200b4e00b4a00b4600b4200b3e01874018640a7f8)
  (.lf 0)) (.nd (.lf
  0x21ec821ec421ea821e9821e9421e7821e6821e5c21e5421e3c21e3021e1821e0c21df821dec21dd821dcc21dbc21dac21da421d8c21d8421d7421d6421d5421d4421d2c00afc2185c2184c21840218342182421814217fc217f0217e0217cc217c0217ac21798217942177c217742176021750217382172c2172021714216fc216ec216dc216c8216c4216ac216a42168c0046800ae8211d0211c4211b02119c)
  (.lf 0))) (.nd (.nd (.lf
  0x42f080fef9468fc42efc0fef5468ec42ef00fef1468dc42ee40feed4582042ed80fee94581442ecc0fee542ec042eb80fee142eb042ea80fedd42ea042e980fed942e9042e880fed542e8042e780fed142e7042e680fecd42e6042e580fec942e5042e480fec542e4042e380fec142e3042e280febd42e2042e180feb942e1042e080feb542e0042df80feb142df042de80fead42de042dd80fea942dd042dc8)
  (.lf 0)) (.nd (.lf
  0x341b4341a434194341843417434164341543414434134341243411434104340f4340e4340d4340c4340b415aad47f4c5261c525fc525e0525c8525a852594525785256052548525345251c52504524ec524d4524bc524a0524885247052458524405242c52410523f8523e0523c8523b45239c52384523705235c340a03409c34094340883408434078340743406c34064340583405034048340403403834030)
  (.lf 0)))

def shaPos500 : BTree :=
  .nd (.nd (.nd (.lf
  0x452884527c4527045264452584524c4524045234452284521c0ccdc0ccd80ccd40ccd00cccc0ccc80ccc40cce4451a045198451a84519045188451784516c4516045154451484513c45130451244511847054470404702c4701847004471bc471a44718c471744715c471444712c47114470fc470e4470cc471c0471a847190471784716047148471304711847100470e8470d0470b8470a446e1446e0046dec)
  (.lf 0)) (.nd (.lf
  0x5b3b45b3985b37c5b3605b3445b3285b30c5b2f05b2d85b2c05b2a85b2905b2785b2605b2485b230545e0131f9131f5131f1131ed131e9131e5131e1131dd131d9131d5131d1131cd131c9131c5131c1131bd131b9131b5131b1131ad131a9131a5131a11319d1319913195131911318d1318913185131811317d545d05b21c5b1fc5b1dc5b1bc5b19c5b17c5b15c5b13c5b11c5b0fc5b0dc5b0bc5b0a05b084)
  (.lf 0))) (.nd (.nd (.lf
  0x501e46afb8099ad501d06af90099a9501bc6af68099a5501a86418c099a1501946416c0999d501806414c099995016c6412c09995501586410c0999150144640ec0998d50130640cc099895012062230099855011062214099812e3d02e3c80997d2e3c02e3b8099792e3b02e3a8099752e3a02e398099712e3902e3880996d2e3802e378099692e3702e368099652e3602e358099612e3502e3480995d2e340)
  (.lf 0)) (.nd (.lf
  0x58a04589e4589c4589a45898458964589445892458908588ec588d0588b458898588785885c588405882458808587f0587d8587c0587a858790587785875c587485873012b6c12b6412b5812b4c12b4012b3012b2812b1c12b0c12b0412af812ae812adc12ad012ac412ab812ab012aa412a9812a8c12a8012a7412a6812a5c12a5012a4412a3812a2c12a2012a1415cdd0631c0d5300d52c0d5280d5240d520)
  (.lf 0)))

def shaPos501 : BTree :=
  .nd (.nd (.nd (.lf
  0x1f66804e611f65c1f65804e5d1f64c1f64804e591f63c1f63804e551f6281f63004e511f6181f61c04e4d1f6081f61004e491f5f81f60004e451f5e81f5f004e411f5d81f5e004e3d1f5c81f5cc04e391f5b81f5bc04e350094a00946009420093e0093a00936009320092e0092a00926009220091e0091a00916009120090e0a4800a4740a468014540144c0143c0a4380a42c0a4200a41401424013fc0a3f0)
  (.lf 0)) (.nd (.lf
  0x573845736c573545733c542e4542f857674576545763457614575f4575d4575b4575945757457204571e0571c4571a85718c5717057154571385711c57100570e4570c4570ac570945707c570645704c570345701c5700456fec542bc542d05732457304572e4572c4572a45728457264572445722456eb456e9056e7456e5856e3c56e2056e0456de856dcc56db056d9456d7456d5c56d4456d2c56d1456cfc)
  (.lf 0))) (.nd (.nd (.lf
  0xe9a53e7c83e7d00e9a13e7b83e7c00e99d3e7a83e7b00e9993e7983e7a00e9953e7883e7900e9913e7783e7800e98d3e7683e7700e9893e7583e7600e9853e7483e7500e9813e7383e7400e97d3e7283e7300e9793e7183e7200e9753e7083e7100e9713e6f83e7000e96d3e6e83e6f00e9693e6d83e6e00e9653e6c83e6d00e9613e6b83e6c00e95d3e6a83e6b00e9593e6983e6a00e95568ff03e6900e951)
  (.lf 0)) (.nd (.lf
  0x6aad86aaac6aa806aa546aa286a9fc6a9d46a9ac6a9846a95c6a9346a90c6a8e46a8bc6a8946a86c63fc863fa863f8863f6863f4863f2863f08621bc621a02d7a42d79c2d7942d78c2d7842d77c2d7742d76c2d7642d75c2d7542d74c2d7442d73c2d7342d72c2d7242d71c2d7142d70c2d7042d6fc2d6f42d6ec2d6e42d6dc2d6d42d6cc2d6c42d6bc15f7d005540793c0793807934079300792c0792807924)
  (.lf 0)))

def shaPos502 : BTree :=
  .nd (.nd (.nd (.lf
  0x5cc48025e916cdc5cc28025e516ccc5cc08025e116cc45cbe8025dd16cb45cbc8025d916ca85cba8025d516ca05cb88025d116c945cb68025cd16c885cb48025c916c7c5cb2c025c516c705cb10025c116c645caf4025bd16c585cad8025b916c4c5cabc025b516c405caa0025b116c345ca84025ad16c285ca68025a916c185ca4c025a516c0c5ca30025a116c045ca180259d16bf85ca000259916bec5c9e8)
  (.lf 0)) (.nd (.lf
  0x3f3dc3f3d03f3c43f3b83f3ac3f3a03f3943f3883f37c3f3703f3643f3583f34c3f34048df000fe83efec3efe03efd43efc83efbc3efb03efa43ef983ef8c3ef803ef743ef683ef5c3ef503ef443ef383ef2c3ef203ef143ef083eefc3eef03eee43eed83eecc3eec03eeb43eea83ee9c3ee9048de400fdc3eb3c3eb303eb243eb183eb0c3eb003eaf43eae83eadc3ead03eac43eab83eaac3eaa03ea943ea88)
  (.lf 0))) (.nd (.nd (.lf
  0x35a8c0bf6135a8035a7c0bf5d35a7035a6c0bf5935a6035a5c0bf5535a5035a4c0bf5135a4035a3c0bf4d35a3035a2c0bf4935a2035a1c0bf4535a1035a0c0bf4135a00359fc0bf3d359f0359ec0bf39359e0359dc0bf35359d0359cc0bf31359c0359bc0bf2d359b0359ac0bf29359a03599c0bf25359903598c0bf21359803597c0bf1d359703596c0bf19359603595c0bf15359503594c0bf11359403593c)
  (.lf 0)) (.nd (.lf
  0x204fc204f4204e8204e4204dc204d4204cc204c4204bc15c390045406a3c06a3806a3406a3006a2c06a2806a2406a2006a1c06a1806a1406a1006a0c06a0806a0406a00069fc069f8069f4069f0069ec069e8069e4069e0069dc069d8069d4069d0069cc069c8204b4204a420494204842047420464204502044420434204242041020404203f4203e4203d0203c4203b4203a02039420384203702036420354)
  (.lf 0)))

def shaPos503 : BTree :=
  .nd (.nd (.nd (.lf
  0x4d6c06318c074094d6ac6316c074054d6986314c074014d6846312c073fd4d67063108073f94d66061e40073f54d65061e20073f126dac26da8073ed26d9c26d98073e926d8826d90073e526d7826d7c073e126d6c26d70073dd26d5826d5c073d926d5026d48073d526d3c26d38073d126d2826d30073cd26d1826d1c073c926d0c26d10073c526cf826cfc073c126cec26ce8073bd26ce026cd8073b926cc8)
  (.lf 0)) (.nd (.lf
  0x22d9022d8422d6822d6422d4c22d4022d3422d1822d080068000b282284c2284022828228242280c227f8227e8227d8227c8227b8227a8227a4227942277822768227642275422738227282271822708226f8226f4226e0226cc226c4226ac2269c226902267c0067800b14221b8221b42219c2218822178221702216022148221442212c221182210822104220f4220d8220d4220bc220a822098220902207c)
  (.lf 0))) (.nd (.nd (.lf
  0x10a0510a01109fd109f9109f5109f1109ed109e9109e5109e1109dd109d9109d5109d1109cd109c915b4147a3c4ad644ad484ad2c4ad104acf44acd84acc04aca84ac904ac784ac604ac484ac304ac184ac004abe84abd04abb84aba04ab884ab704ab584ab404ab284ab104aaf84aae04aac84aab44aaa047a2c109c5109c1109bd109b9109b5109b1109ad109a9109a5109a11099d1099910995109911098d)
  (.lf 0)) (.nd (.lf
  0x3aa403aa343aa243aa143aa043a9f43a9e43a9d43a9c03a9b4147f554bbc662a0662706624066214661e8661bc6619066164661386610c660e0660b86609066068660406601865ff065fc865fa065f7865f5062d7462d5462d3462d1462cf462cd462cb461d3061d143a9a03a9983a98c3a97c3a9743a9683a9583a9503a9403a9383a9283a91c3a9143a9043a8fc3a8f03a8e43a8d83a8cc3a8bc3a8b43a8a8)
  (.lf 0)))

def shaPos504 : BTree :=
  .nd (.nd (.nd (.lf
  0xa101bf181bf041bef81bef41bee01bedc1bec81bebc1beb01beac1bea01be941be881be7c1be701be5c1be501be441be381be2c1be281be141be081bdfc1bdf01bdec1bde01bdcc1bdc01bdb4459fc00a081bbc81bbbc1bbb81bba41bba01bb941bb801bb741bb701bb5c1bb501bb4c1bb381bb341bb201bb141bb081bb041baf01bae41bae01bacc1bac01bab41bab01ba9c1ba981ba8c1ba781ba74552e4)
  (.lf
  0x445544454444534445244451444504444f4444e4444d4444c4444b4444a44449444484444744446414879457ac53db853d9453d7053d4c53d2853d0453ce053cbc53c9853c7453c5053c3053c1053bf053bd053bb053b9053b7053b5053b3053b1053af453ad853abc53aa053a8453a6853a4c4911c4910844454444484443c4443044424444184440c44400443f4443e8443dc443d0443c4443b8443ac443a0))
  (.nd (.lf
  0x1273d1273912735127311272d1272912725127211271d1271912715127111270d127091270512701126fd5428856c8c56c6c56c4c56c2c56c0c56bec56bcc56bac56b8c56b6c56b4c56b2c56b1056af456ad856abc56aa056a8456a6856a4c56a3056a14569fc569e4569cc569b45699c569845696c56954542745428456c8856c6856c4856c2856c0856be856bc856ba856b8856b6856b4856b2856b0c56af0)
  (.lf 0))) (.nd (.nd (.lf
  0x2c7502c74c090512c7402c73c0904d2c7302c72c090492c7202c71c090452c7102c70c090412c7002c6fc0903d2c6f02c6ec090392c6e02c6dc090352c6d02c6cc090312c6c02c6bc0902d2c6b02c6ac090292c6a02c69c090252c6902c68c090212c6782c6800901d2c6702c66c090192c6602c65c090152c6502c64c090112c6402c63c0900d2c6302c62c090092c6202c61c090052c6102c60c090012c600)
  (.lf 0)) (.nd (.lf
  0x493d8493c0493a44938c493744935c493444932c49314492fc492e4492cc492b8492a0492844926c492584923c4922849210491f8491e0491c8491ac491980f5840f57c0f5780f5700f5680f55c0f5540f5500f5440f5400f5380f5300f5280f5200f5180f5100f5080f5000f4f80f4ec0f4e80f4e00f4d80f4d00f4c40f4c00f4b40f4b00f4a80f4a015b014608c4907c490684905849040490384901c4900c)
  (.lf 0)))

def shaPos505 : BTree :=
  .nd (.nd (.nd (.lf
  0x45091d86c1d870045051d8601d85c045011d8501d848044fd1d83c1d840044f91d8281d830044f51d81c1d820044f11d8081d810044ed1d7f81d800044e91d7ec1d7e8044e51d7e01d7d8044e11d7d01d7cc044dd1d7b81d7bc044d91d7ac1d7b0044d51d79c1d798044d11d78c1d790044cd1d7781d77c044c91d7681d76c044c51d7581d75c044c11d7481d750044bd1d7381d73c044b91d7281d72c044b5)
  (.lf 0)) (.nd (.lf
  0x57b3457b1857afc57ae057ac457aa857a9057a7857a6057a4857a3057a1857a00579e8543405432c579d0579b05799057970579505793057910578f0578d0578b0578905787057854578385781c57800577e4577c8577ac577905777457758577405772857710576f8576e0576c8576b05769854318543045768057660576405762057600575e0575c0575a05758057560575405752057504574e8574cc574b0)
  (.lf 0))) (.nd (.nd (.lf
  0x3c4400def9696703c4340def5696443c4280def1696183c41c0deed695ec3c4100dee9695c03c4040dee5695943c3f80dee1695683c3ec0dedd6953c3c3e00ded9695103c3d40ded5694e83c3c80ded1694c03c3bc0decd694983c3b00dec9694703c3a40dec5694483c3980dec1694203c38c0debd693f83c3800deb9693d03c3740deb5693a83c3680deb163aa43c35c0dead63a843c3500dea963a643c344)
  (.lf 0)) (.nd (.lf
  0x68da468d7c68d5468d2c68d0468cdc68cb468c8c638c8638a8638886386863848638286380861ffc61fe42a3242a31c2a3142a30c2a3042a2fc2a2f42a2ec2a2e42a2dc2a2d42a2cc2a2c42a2bc2a2b42a2ac2a2a42a29c2a2942a28c2a2842a27c2a2742a26c2a2642a25c2a2542a24c2a2442a23815f1d005140757c0757807574075700756c0756807564075600755c0755807554075500754c0754807544)
  (.lf 0)))

def shaPos506 : BTree :=
  .nd (.nd (.nd (.lf
  0x147bc5a54401b3d147b05a52c01b39147a05a51401b35147985a4fc01b31147841478801b2d1477c1477401b29147641476801b25147541475c01b21147441474801b1d147341473c01b19147241472801b15147141471c01b11147041470801b0d146f8146fc01b09146ec146e401b05146d4146dc01b01146c4146c801afd146b4146bc01af9146a4146ac01af5146941469801af1146841468801aed14674)
  (.lf 0)) (.nd (.lf
  0x3a7783a7683a7603a7503a7443a7383a72c3a7203a7143a70c3a6fc3a6f03a6e43a6d848da000f243a3883a3783a36c3a3683a3543a3483a3443a3343a3283a3183a30c3a3043a2f43a2ec3a2e03a2d03a2cc3a2b83a2ac3a2a83a2943a2883a27c3a2703a2643a2603a24c3a2403a2343a22848d9400f1839ed839ec839ec039eb439ea439ea039e9039e8039e7439e7039e5c39e5039e4439e4039e2c39e20)
  (.lf 0))) (.nd (.nd (.lf
  0x33db033dac0b60933da033d9c0b60533d9033d8c0b60133d8033d7c0b5fd33d7033d6c0b5f933d6033d5c0b5f533d5033d4c0b5f133d4033d3c0b5ed33d3033d2c0b5e933d2033d1c0b5e533d1033d0c0b5e133d0033cfc0b5dd33cf033cec0b5d933ce033cdc0b5d533cd033ccc0b5d133cc033cbc0b5cd33cb033cac0b5c933ca033c9c0b5c533c9033c8c0b5c133c8033c7c0b5bd33c7033c6c0b5b933c60)
  (.lf 0)) (.nd (.lf
  0x664806644066400663c0663806634066300662c0662806624066200661c0661806614066100660c066081cf081cef81cee81ced81cec81ceb81cea81ce981ce881ce741ce641ce541ce481ce381ce241ce141ce081cdf81cde81cdd81cdc81cdb81cda81cd941cd881cd781cd681cd541cd481cd34158cd001c40458c0458804584045800457c0457804574045700456c0456804564045600455c0455804554)
  (.lf 0)))

def shaPos507 : BTree :=
  .nd (.nd (.nd (.lf
  0x6acd250802507c06ac92506c2506806ac52505c2505806ac12504c2505006abd2503c2503806ab92502c2503006ab5250182501c06ab1250082501006aad24ffc2500006aa924fec24ff006aa524fdc24fe006aa124fcc24fd006a9d24fbc24fc006a9924fa824fac06a9524fa024f9806a9124f8824f8c06a8d24f8024f7806a8924f7024f6806a8524f6024f5c06a8124f4c24f4806a7d24f4024f3c06a79)
  (.lf 0)) (.nd (.lf
  0x22c5822c5422c4822c4022c3c22c3022c2822c2022c1c47b1400b2422670226682266022658226502264c2264022638226302262c2262022618226102260822604225f8225f0225e8225e0225d8225d4225cc225c4225bc225b4225a8225a022598225942258847af400b1021fe421fd821fd021fc821fc021fb821fb021fac21fa421f9821f9021f8821f8421f7821f7021f6821f6021f5c21f5021f4c21f40)
  (.lf 0))) (.nd (.nd (.lf
  0x4c2e84c2d04c2b84c2a44c2904c27c4c2684c2544c2404c22c4c2184c2044c1f04c1dc4c1c84c1b44c1a04bf2c4bf184bf044bef04bedc4bec84beb44c0cc4c0b44c09c4c0844c06c4c0d04c0b84c0a04c0884c0704c0584c0444c0304c01c4c0084bff44bfe04bfcc4bfb84bfa44bf904bf7c4bf684bf544bf404bc784bc604bc484bc304bc184bc004bbec4be684be4c4be304be144be004be704be504be34)
  (.lf 0)) (.nd (.lf
  0x3769437684376743766037654376403763037620147c9455d448498484804846848454484404842c4841848404483f0483dc483c8483b4483a04838c4837848364483504833c48328483144830045bbc45bac45b9c45b8c45b7c45b6c45b5c45b4c45b3c3761437608375fc375f0375e4375d8375cc375c0375b4375a83759c375903758437578375683756037550375443753c3753037524375143750c37500)
  (.lf 0)))

def shaPos508 : BTree :=
  .nd (.nd (.nd (.lf
  0x55aa8005e90fcec55a8c005e50fce055a70005e10fcd455a54005dd0fcc455a34005d90fcb855a18005d50fcac559fc005d10fca4559e0005cd0fc94559c4005c90fc8c559a8005c50fc7c55990005c10fc7055974005bd0fc685595c005b90fc5855944005b50fc4c55930005b10fc4455918005ad0fc38558fc005a90fc28558e8005a50fc1c558cc005a10fc100fc0c0059d0fc040fc00005990fbec0fbf4)
  (.lf 0)) (.nd (.lf
  0x5f9485f92c5f9105f8f45f8d85f8bc5f8a05f8845f86c5f8545f83c5f8245f80c5f7f45f7dc5f7c45492c5493c5faf85fad85fab85fa985fa785fa585fa385fa185f9f85f9d85f9b85f9985f97c5f9605f9445f9285f90c5f8f05f8d45f8b85f89c5f8805f8685f8505f8385f8205f8085f7f05f7d85f7c05492813c7913c7513c7113c6d13c6913c6513c6113c5d13c5913c5513c5113c4d13c4913c4513c41)
  (.lf 0))) (.nd (.nd (.lf
  0x3027c0a32d302703026c0a329302603025c0a325302503024c0a321302403023c0a31d302303022c0a319302203021c0a315302103020c0a31130200301fc0a30d301f0301ec0a309301e0301dc0a305301d0301cc0a301301c0301bc0a2fd301b0301ac0a2f9301a03019c0a2f5301903018c0a2f1301803017c0a2ed301703016c0a2e9301603015c0a2e5301503014c0a2e1301403013c0a2dd301303012c)
  (.lf 0)) (.nd (.lf
  0xdd240dd200dd1c0dd180dd140dd100dd0c0dd080dd040dd000dcfc0dcf80dcf40dcf00dcec0dce80dce40dce00dcdc0dcd80dcd40dcd00dccc0dcc80dcc40dcc00dcbc0dcb80dcb4161d0161c0161b0161a016190161801617016160161501614016130161201611016100160ec160e0160d0160c0160b0160a0160901608016070160601605016040160301601c1600c160001604d546785bf645bf445bf24)
  (.lf 0)))

def shaPos509 : BTree :=
  .nd (.nd (.nd (.lf
  0x213ec213f0057d9213dc213d8057d5213cc213d0057d1213bc213b8057cd213ac213b0057c92139c21398057c52138c21390057c12137821380057bd213702136c057b9213602135c057b5213502134c057b1213402133c057ad2132821330057a92131821320057a5213082130c057a121300212f80579d212f0212ec05799212dc212e005795212c8212cc057914b5f8487ec0578d4b5dc487d4057894b5bc)
  (.lf 0)) (.nd (.lf
  0xa6e80a6dc0a6d0016a00a6c40a6b80a6b0016980a6a801690016880b79000a9621d200047000af8016800bca40bc94016780bc8401670016680bc80016600bc740bc64016580165001648016400bc54016380bc480bc3c0bc300bc2401630016280bc18016200bc0c0bc00016180bbf4064c800a56003c8016100a69c0a68c0a68001608016000a670015f8015f0015e80a6680a6580a650015e0015d8015d0)
  (.lf 0))) (.nd (.nd (.lf
  0x6a8f840b440f44d6a8d040b380f4496a8a840b2c0f4456a88040b200f44163fd840b140f43d63fb840b080f43963f9840afc0f43563f7840af00f43163f5840ae40f42d63f3840ad80f42963f1840acc0f425621cc40ac00f421621b040ab40f41d5331840aa80f419532f440a9c0f415532d040a900f411532ac40a840f40d5328840a780f4095326440a6c0f4055324040a600f4015321c40a540f3fd531f8)
  (.lf 0)) (.nd (.lf
  0x30cf430ce430cd430cc430cb430ca430c9430c8430c7430c6430c5430c4430c3415a8d52f8064bf464bc464b9864b6c64b4064b1464ae864abc64a9064a6464a3864a10649e8649c064998649706494864920648f8648d0648a86290c628ec628cc628ac6288c6286c6284c54e7454e5830c2030c1c30c1030c0830c0430bf830bf030be830be030bdc30bd430bc830bc030bb830bb430bac30ba030b9830b90)
  (.lf 0)))

def shaPos510 : BTree :=
  .nd (.nd (.nd (.lf
  0x309519250192540309119244192400308d192301922c03089192201921c030851920c192100308119200191fc0307d191f4191f003079191e4191e003075191d0191d403071191c4191bc0306d191b0191b4030691919c191a0030651919019194030611917c191800305d191741916c030591915c1916003055191541914c030511913c191440304d191341912c03049191205f11803045191185f0f803041)
  (.lf 0)) (.nd (.lf
  0x6bfb06bf846bf586bf2c6bf006bed86beb06be886be606be386be106bde86bdc06bd986bd706bb206baf86bad06baa86ba806ba586ba306ba086b9e06443054dc06bd346bd046bcd46bca86bc7c6bc506bc246bbf86bbcc6bba06bb746bb4c6bb246bafc6bad46baac6ba846ba5c6ba346ba0c6b9e46b7ac6b7846b75c6b7346b70c6b6e46b6bc6b6946b66c6435854db06b9c06b9906b9606b9346b9086b8dc)
  (.lf 0))) (.nd (.nd (.lf
  0xc9a565fb437d300c9a165f8c37d240c99d65f6437d140c99962d8437d0c0c99562d6437cfc0c99162d4437cf40c98d62d2437ce80c98962d0437cdc0c98562ce437cd00c98162cc437cc00c97d61d3c37cb80c97961d2037cac0c97537ca037c980c97137c9037c880c96d37c8037c780c96937c6837c700c96537c6037c580c96137c5037c4c0c95d37c3c37c400c95937c3037c280c95537c1837c200c951)
  (.lf 0)) (.nd (.lf
  0x239a42399c2399023988239842397c239742396c239602395c2395423948239402393c15e5d0049406dfc06df806df406df006dec06de806de406de006ddc06dd806dd406dd006dcc06dc806dc406dc006dbc06db806db406db006dac06da806da406da006d9c06d9806d9406d9006d8c06d8823930239202391023900238f4238e4238d4238c0238b0238a02389023880238702386023850238442383023820)
  (.lf 0)))

def shaPos511 : BTree :=
  .nd (.nd (.nd (.lf
  0x28bfc28c0007d8928bf028be807d8528be028bdc07d8128bc828bcc07d7d28bbc28bb807d7928bac28bb007d7528ba028b9c07d7128b9028b8c07d6d28b8028b7c07d6928b6c28b6807d6528b5828b6007d6128b5028b4807d5d28b3828b4007d5928b3028b2807d5528b1828b2007d5128b1028b0807d4d28af828b0007d4928ae828aec07d4528ad828ae007d4128ad028acc07d3d28ac028abc07d3928aac)
  (.lf 0)) (.nd (.lf
  0x4bc6c4bc544bc3c4bc244bc0c4bbf44bbdc4bbc84bbb447af047ae04bba04bb844bb684bb4c4bb304bb144bafc4bae44bacc4bab44ba9c4ba844ba6c4ba544ba3c4ba244ba0c4b9f44b9dc4b9c44b9ac4b9944b97c4b9644b94c4b9344b91c4b9044b8f04b8dc47ad047ac04b8c84b8ac4b8904b8744b8584b83c4b8244b80c4b7f44b7dc4b7c44b7ac4b7944b77c4b7644b74c4b7344b71c4b7044b6ec4b6d4)
  (.lf 0))) (.nd (.nd (.lf
  0x11985119811197d1197911975119711196d1196911965119611195d1195911955119511194d1194915bc147d744fc3c4fc244fc0c4fbf44fbdc4fbc44fbb04fb9c4fb884fb744fb604fb4c4fb384fb244fb104fafc4fae84fad44fac04faac4fa984fa844fa704fa5c4fa484fa344fa204fa0c4f9fc4f9ec47d6811945119411193d1193911935119311192d1192911925119211191d1191911915119111190d)
  (.lf 0)) (.nd (.lf
  0x3ddf43dde43ddd43ddc43ddb43dda43dd943dd843dd743dd643dd543dd441482154c98688f4688c468894688686883c68810687e4687b86878c68760687346870c686e4686bc686946866c686446861c685f4685cc685a463714636f4636d4636b463694636746365461f9861f7c3dd343dd283dd1c3dd103dd043dcf83dcec3dce03dcd43dcc83dcbc3dcb03dca43dc983dc8c3dc803dc743dc683dc5c3dc50)
  (.lf 0)))

/-- Class and place of the gate which drives a wire: 20 bits each, 64 per leaf. -/
def shaPos : BTree :=
  .nd (.nd (.nd (.nd (.nd (.nd (.nd (.nd (.nd (shaPos0) (shaPos1)) (.nd (shaPos2) (shaPos3))) (.nd (.nd (shaPos4) (shaPos5)) (.nd (shaPos6) (shaPos7)))) (.nd (.nd
  (.nd (shaPos8) (shaPos9)) (.nd (shaPos10) (shaPos11))) (.nd (.nd (shaPos12) (shaPos13)) (.nd (shaPos14) (shaPos15))))) (.nd (.nd (.nd (.nd (shaPos16)
  (shaPos17)) (.nd (shaPos18) (shaPos19))) (.nd (.nd (shaPos20) (shaPos21)) (.nd (shaPos22) (shaPos23)))) (.nd (.nd (.nd (shaPos24) (shaPos25)) (.nd (shaPos26)
  (shaPos27))) (.nd (.nd (shaPos28) (shaPos29)) (.nd (shaPos30) (shaPos31)))))) (.nd (.nd (.nd (.nd (.nd (shaPos32) (shaPos33)) (.nd (shaPos34) (shaPos35))) (.nd
  (.nd (shaPos36) (shaPos37)) (.nd (shaPos38) (shaPos39)))) (.nd (.nd (.nd (shaPos40) (shaPos41)) (.nd (shaPos42) (shaPos43))) (.nd (.nd (shaPos44) (shaPos45))
  (.nd (shaPos46) (shaPos47))))) (.nd (.nd (.nd (.nd (shaPos48) (shaPos49)) (.nd (shaPos50) (shaPos51))) (.nd (.nd (shaPos52) (shaPos53)) (.nd (shaPos54)
  (shaPos55)))) (.nd (.nd (.nd (shaPos56) (shaPos57)) (.nd (shaPos58) (shaPos59))) (.nd (.nd (shaPos60) (shaPos61)) (.nd (shaPos62) (shaPos63))))))) (.nd (.nd
  (.nd (.nd (.nd (.nd (shaPos64) (shaPos65)) (.nd (shaPos66) (shaPos67))) (.nd (.nd (shaPos68) (shaPos69)) (.nd (shaPos70) (shaPos71)))) (.nd (.nd (.nd (shaPos72)
  (shaPos73)) (.nd (shaPos74) (shaPos75))) (.nd (.nd (shaPos76) (shaPos77)) (.nd (shaPos78) (shaPos79))))) (.nd (.nd (.nd (.nd (shaPos80) (shaPos81)) (.nd
  (shaPos82) (shaPos83))) (.nd (.nd (shaPos84) (shaPos85)) (.nd (shaPos86) (shaPos87)))) (.nd (.nd (.nd (shaPos88) (shaPos89)) (.nd (shaPos90) (shaPos91))) (.nd
  (.nd (shaPos92) (shaPos93)) (.nd (shaPos94) (shaPos95)))))) (.nd (.nd (.nd (.nd (.nd (shaPos96) (shaPos97)) (.nd (shaPos98) (shaPos99))) (.nd (.nd (shaPos100)
  (shaPos101)) (.nd (shaPos102) (shaPos103)))) (.nd (.nd (.nd (shaPos104) (shaPos105)) (.nd (shaPos106) (shaPos107))) (.nd (.nd (shaPos108) (shaPos109)) (.nd
  (shaPos110) (shaPos111))))) (.nd (.nd (.nd (.nd (shaPos112) (shaPos113)) (.nd (shaPos114) (shaPos115))) (.nd (.nd (shaPos116) (shaPos117)) (.nd (shaPos118)
  (shaPos119)))) (.nd (.nd (.nd (shaPos120) (shaPos121)) (.nd (shaPos122) (shaPos123))) (.nd (.nd (shaPos124) (shaPos125)) (.nd (shaPos126) (shaPos127))))))))
  (.nd (.nd (.nd (.nd (.nd (.nd (.nd (shaPos128) (shaPos129)) (.nd (shaPos130) (shaPos131))) (.nd (.nd (shaPos132) (shaPos133)) (.nd (shaPos134) (shaPos135))))
  (.nd (.nd (.nd (shaPos136) (shaPos137)) (.nd (shaPos138) (shaPos139))) (.nd (.nd (shaPos140) (shaPos141)) (.nd (shaPos142) (shaPos143))))) (.nd (.nd (.nd (.nd
  (shaPos144) (shaPos145)) (.nd (shaPos146) (shaPos147))) (.nd (.nd (shaPos148) (shaPos149)) (.nd (shaPos150) (shaPos151)))) (.nd (.nd (.nd (shaPos152)
  (shaPos153)) (.nd (shaPos154) (shaPos155))) (.nd (.nd (shaPos156) (shaPos157)) (.nd (shaPos158) (shaPos159)))))) (.nd (.nd (.nd (.nd (.nd (shaPos160)
  (shaPos161)) (.nd (shaPos162) (shaPos163))) (.nd (.nd (shaPos164) (shaPos165)) (.nd (shaPos166) (shaPos167)))) (.nd (.nd (.nd (shaPos168) (shaPos169)) (.nd
  (shaPos170) (shaPos171))) (.nd (.nd (shaPos172) (shaPos173)) (.nd (shaPos174) (shaPos175))))) (.nd (.nd (.nd (.nd (shaPos176) (shaPos177)) (.nd (shaPos178)
  (shaPos179))) (.nd (.nd (shaPos180) (shaPos181)) (.nd (shaPos182) (shaPos183)))) (.nd (.nd (.nd (shaPos184) (shaPos185)) (.nd (shaPos186) (shaPos187))) (.nd
  (.nd (shaPos188) (shaPos189)) (.nd (shaPos190) (shaPos191))))))) (.nd (.nd (.nd (.nd (.nd (.nd (shaPos192) (shaPos193)) (.nd (shaPos194) (shaPos195))) (.nd (.nd
  (shaPos196) (shaPos197)) (.nd (shaPos198) (shaPos199)))) (.nd (.nd (.nd (shaPos200) (shaPos201)) (.nd (shaPos202) (shaPos203))) (.nd (.nd (shaPos204)
  (shaPos205)) (.nd (shaPos206) (shaPos207))))) (.nd (.nd (.nd (.nd (shaPos208) (shaPos209)) (.nd (shaPos210) (shaPos211))) (.nd (.nd (shaPos212) (shaPos213))
  (.nd (shaPos214) (shaPos215)))) (.nd (.nd (.nd (shaPos216) (shaPos217)) (.nd (shaPos218) (shaPos219))) (.nd (.nd (shaPos220) (shaPos221)) (.nd (shaPos222)
  (shaPos223)))))) (.nd (.nd (.nd (.nd (.nd (shaPos224) (shaPos225)) (.nd (shaPos226) (shaPos227))) (.nd (.nd (shaPos228) (shaPos229)) (.nd (shaPos230)
  (shaPos231)))) (.nd (.nd (.nd (shaPos232) (shaPos233)) (.nd (shaPos234) (shaPos235))) (.nd (.nd (shaPos236) (shaPos237)) (.nd (shaPos238) (shaPos239))))) (.nd
  (.nd (.nd (.nd (shaPos240) (shaPos241)) (.nd (shaPos242) (shaPos243))) (.nd (.nd (shaPos244) (shaPos245)) (.nd (shaPos246) (shaPos247)))) (.nd (.nd (.nd
  (shaPos248) (shaPos249)) (.nd (shaPos250) (shaPos251))) (.nd (.nd (shaPos252) (shaPos253)) (.nd (shaPos254) (shaPos255))))))))) (.nd (.nd (.nd (.nd (.nd (.nd
  (.nd (.nd (shaPos256) (shaPos257)) (.nd (shaPos258) (shaPos259))) (.nd (.nd (shaPos260) (shaPos261)) (.nd (shaPos262) (shaPos263)))) (.nd (.nd (.nd (shaPos264)
  (shaPos265)) (.nd (shaPos266) (shaPos267))) (.nd (.nd (shaPos268) (shaPos269)) (.nd (shaPos270) (shaPos271))))) (.nd (.nd (.nd (.nd (shaPos272) (shaPos273))
  (.nd (shaPos274) (shaPos275))) (.nd (.nd (shaPos276) (shaPos277)) (.nd (shaPos278) (shaPos279)))) (.nd (.nd (.nd (shaPos280) (shaPos281)) (.nd (shaPos282)
  (shaPos283))) (.nd (.nd (shaPos284) (shaPos285)) (.nd (shaPos286) (shaPos287)))))) (.nd (.nd (.nd (.nd (.nd (shaPos288) (shaPos289)) (.nd (shaPos290)
  (shaPos291))) (.nd (.nd (shaPos292) (shaPos293)) (.nd (shaPos294) (shaPos295)))) (.nd (.nd (.nd (shaPos296) (shaPos297)) (.nd (shaPos298) (shaPos299))) (.nd
  (.nd (shaPos300) (shaPos301)) (.nd (shaPos302) (shaPos303))))) (.nd (.nd (.nd (.nd (shaPos304) (shaPos305)) (.nd (shaPos306) (shaPos307))) (.nd (.nd (shaPos308)
  (shaPos309)) (.nd (shaPos310) (shaPos311)))) (.nd (.nd (.nd (shaPos312) (shaPos313)) (.nd (shaPos314) (shaPos315))) (.nd (.nd (shaPos316) (shaPos317)) (.nd
  (shaPos318) (shaPos319))))))) (.nd (.nd (.nd (.nd (.nd (.nd (shaPos320) (shaPos321)) (.nd (shaPos322) (shaPos323))) (.nd (.nd (shaPos324) (shaPos325)) (.nd
  (shaPos326) (shaPos327)))) (.nd (.nd (.nd (shaPos328) (shaPos329)) (.nd (shaPos330) (shaPos331))) (.nd (.nd (shaPos332) (shaPos333)) (.nd (shaPos334)
  (shaPos335))))) (.nd (.nd (.nd (.nd (shaPos336) (shaPos337)) (.nd (shaPos338) (shaPos339))) (.nd (.nd (shaPos340) (shaPos341)) (.nd (shaPos342) (shaPos343))))
  (.nd (.nd (.nd (shaPos344) (shaPos345)) (.nd (shaPos346) (shaPos347))) (.nd (.nd (shaPos348) (shaPos349)) (.nd (shaPos350) (shaPos351)))))) (.nd (.nd (.nd (.nd
  (.nd (shaPos352) (shaPos353)) (.nd (shaPos354) (shaPos355))) (.nd (.nd (shaPos356) (shaPos357)) (.nd (shaPos358) (shaPos359)))) (.nd (.nd (.nd (shaPos360)
  (shaPos361)) (.nd (shaPos362) (shaPos363))) (.nd (.nd (shaPos364) (shaPos365)) (.nd (shaPos366) (shaPos367))))) (.nd (.nd (.nd (.nd (shaPos368) (shaPos369))
  (.nd (shaPos370) (shaPos371))) (.nd (.nd (shaPos372) (shaPos373)) (.nd (shaPos374) (shaPos375)))) (.nd (.nd (.nd (shaPos376) (shaPos377)) (.nd (shaPos378)
  (shaPos379))) (.nd (.nd (shaPos380) (shaPos381)) (.nd (shaPos382) (shaPos383)))))))) (.nd (.nd (.nd (.nd (.nd (.nd (.nd (shaPos384) (shaPos385)) (.nd
  (shaPos386) (shaPos387))) (.nd (.nd (shaPos388) (shaPos389)) (.nd (shaPos390) (shaPos391)))) (.nd (.nd (.nd (shaPos392) (shaPos393)) (.nd (shaPos394)
  (shaPos395))) (.nd (.nd (shaPos396) (shaPos397)) (.nd (shaPos398) (shaPos399))))) (.nd (.nd (.nd (.nd (shaPos400) (shaPos401)) (.nd (shaPos402) (shaPos403)))
  (.nd (.nd (shaPos404) (shaPos405)) (.nd (shaPos406) (shaPos407)))) (.nd (.nd (.nd (shaPos408) (shaPos409)) (.nd (shaPos410) (shaPos411))) (.nd (.nd (shaPos412)
  (shaPos413)) (.nd (shaPos414) (shaPos415)))))) (.nd (.nd (.nd (.nd (.nd (shaPos416) (shaPos417)) (.nd (shaPos418) (shaPos419))) (.nd (.nd (shaPos420)
  (shaPos421)) (.nd (shaPos422) (shaPos423)))) (.nd (.nd (.nd (shaPos424) (shaPos425)) (.nd (shaPos426) (shaPos427))) (.nd (.nd (shaPos428) (shaPos429)) (.nd
  (shaPos430) (shaPos431))))) (.nd (.nd (.nd (.nd (shaPos432) (shaPos433)) (.nd (shaPos434) (shaPos435))) (.nd (.nd (shaPos436) (shaPos437)) (.nd (shaPos438)
  (shaPos439)))) (.nd (.nd (.nd (shaPos440) (shaPos441)) (.nd (shaPos442) (shaPos443))) (.nd (.nd (shaPos444) (shaPos445)) (.nd (shaPos446) (shaPos447))))))) (.nd
  (.nd (.nd (.nd (.nd (.nd (shaPos448) (shaPos449)) (.nd (shaPos450) (shaPos451))) (.nd (.nd (shaPos452) (shaPos453)) (.nd (shaPos454) (shaPos455)))) (.nd (.nd
  (.nd (shaPos456) (shaPos457)) (.nd (shaPos458) (shaPos459))) (.nd (.nd (shaPos460) (shaPos461)) (.nd (shaPos462) (shaPos463))))) (.nd (.nd (.nd (.nd (shaPos464)
  (shaPos465)) (.nd (shaPos466) (shaPos467))) (.nd (.nd (shaPos468) (shaPos469)) (.nd (shaPos470) (shaPos471)))) (.nd (.nd (.nd (shaPos472) (shaPos473)) (.nd
  (shaPos474) (shaPos475))) (.nd (.nd (shaPos476) (shaPos477)) (.nd (shaPos478) (shaPos479)))))) (.nd (.nd (.nd (.nd (.nd (shaPos480) (shaPos481)) (.nd
  (shaPos482) (shaPos483))) (.nd (.nd (shaPos484) (shaPos485)) (.nd (shaPos486) (shaPos487)))) (.nd (.nd (.nd (shaPos488) (shaPos489)) (.nd (shaPos490)
  (shaPos491))) (.nd (.nd (shaPos492) (shaPos493)) (.nd (shaPos494) (shaPos495))))) (.nd (.nd (.nd (.nd (shaPos496) (shaPos497)) (.nd (shaPos498) (shaPos499)))
  (.nd (.nd (shaPos500) (shaPos501)) (.nd (shaPos502) (shaPos503)))) (.nd (.nd (.nd (shaPos504) (shaPos505)) (.nd (shaPos506) (shaPos507))) (.nd (.nd (shaPos508)
  (shaPos509)) (.nd (shaPos510) (shaPos511)))))))))

def shaLeakTree0 : BTree :=
  .nd (.nd (.nd (.lf
  0x16088160870160b0160ab0160b0160ab06c0c86c0c206c0c46c0b80160b0160ab06c0b86c0b40160b0160ab0160b0160ab06c0c86c0c20160b0160ab0000000000000000000000000000000000000000000000000000000)
  (.lf
  0x15f7815f7706bd8c6bd8606bf846bf82015fcc15fcb015e7c15e7b06bce06bcde015ffc15ff7015eac15eab06be046bdfe0160201601f015ec415ec306bea46be9e0160201601f015ec415ec306becc6bec601600816007))
  (.nd (.lf
  0x15ed015ecf015e9415e930160881608701603816037015fe415fdf015f8415f83015f1815f13015eac15eab0160501604b015fcc15fcb015f3c15f3b06c0bc6c0640160201601f015f6c15f6b015ec415ec301600816007)
  (.lf 0))) (.nd (.nd (.lf
  0x15fd415fd3016044160430160881608706bfd86bfd2015f9c15f9b0160b0160ab0160801607f01602c16027015fb415fb30160381603701609816093015fb415fb3015fcc15fcb06c0bc6c0640160741607301600816007)
  (.lf
  0x15eb815eb7015df815df7015df815df7015ed415b93015fb415fb3015eac15eab015df815df7015c8415c8301609816093015f8415f83015e7015e6f015df815df7015c7415c7301603816037015f2415f23015e0415e03))
  (.nd (.lf
  0x1609816093015edc15edb01606816067015eac15eab0160201601f015e6415e63015fcc15fcb06c02c6c024015f6015f5f06be5c6be56015ef415ef301603816037015e7015e6f015fa815fa706bffc6bff6015f0c15f0b)
  (.lf 0)))

def shaLeakTree1 : BTree :=
  .nd (.nd (.nd (.lf
  0x1608816087016038160370160501604b06c0bc6c0640160201601f0160741607301606816067016088160870160441604306c0746c0700160b0160ab06c0a46c0a0016038160370160441604306c0bc6c06401608816087)
  (.lf
  0x15e6415e6306bf206bf1a06be106be0e015f9c15f9b015e7015e6f06bf806bf7a06be5c6be56015f8415f83015e5815e5706bf4c6bf4601608816087015f5415f5306bfd86bfd206be7c6be7601604416043015f0c15f0b))
  (.nd (.lf
  0x15e0415e03015ec415ec3015f6c15f6b0160201601f06c0b86c0b4015eac15eab015f3c15f3b015fcc15fcb0160501604b015e3415e33015eac15eab015f1815f13015f8415f83015fe415fdf0160381603701608816087)
  (.lf 0))) (.nd (.nd (.lf
  0x160201601f016068160670160981609306c0086c006015f2415f23015f2415f23015f2415f230160b0160ab0160801607f01604416043015ffc15ff7015f9c15f9b06bfe46bfde01603816037015fa815fa701608816087)
  (.lf
  0x15df815df7015df815df7015df015be70160b0160ab015fb415fb3015eb815eb7015df815df7015df815df7015f7c15bcb01607416073015f7815f77015e7c15e7b015df815df7015c7c15c7b015e9815b7f01600816007))
  (.nd (.lf
  0x15f0c15f0b015df815df7015fd415fd3015e5815e5701608816087015f0c15f0b015df815df7015fa815fa7015e2815e2701603816037015eac15eab06bfd86bfd2015f3015f2f015df815df7015f9c15f9b015e0415e03)
  (.lf 0)))

def shaLeakTree2 : BTree :=
  .nd (.nd (.nd (.lf
  0x160b0160ab01608816087016098160930160b0160ab06c0746c0700160b0160ab01606816067016088160870160981609306c0c46c0b8016074160730160881608706c0b86c0b406c0a46c0a00160801607f01608816087)
  (.lf
  0x6be846be7e06bd046bd02015fd415fd3015e9415e9306bc8c6bc8a01608816087015f4815f4706c02c6c02406be5c6be56015fe415fdf015ea015e9f06bd046bd0201606816067015f1815f1306bfa46bf9e06bd8c6bd86))
  (.nd (.lf
  0x15e5815e57015e9415e93015ed015ecf015f0c15f0b015f3015f2f015f5415f53015f7815f77015f8415f83015f9015f8f015f9c15f9b015f9015f8f015f8415f83015f7815f77015f5415f53015f3015f2f015f0c15f0b)
  (.lf 0))) (.nd (.nd (.lf
  0x15fd415fd301608816087015fb415fb3016038160370160b0160ab015f9c15f9b015fe415fdf016008160070160201601f0160201601f015ffc15ff7015fcc15fcb015f7815f7701606816067015fe415fdf01608816087)
  (.lf
  0x15f0c15f0b015e0415e03015df815df7015c0415c0301607416073015f6c15f6b015e7015e6f015df815df7015c7415c7306be106be0e015fb415fb3015eac15eab015df815df7015df815df7015ebc15b8b015fcc15fcb))
  (.nd (.lf
  0x15ffc15ff7015e6415e6301604416043015eac15eab0160801607f015edc15edb0160b0160ab015f0c15f0b015df815df7015f2415f23015df815df7015f2415f23015df815df7015f2415f2306bf8c6bf86015f0c15f0b)
  (.lf 0)))

def shaLeakTree3 : BTree :=
  .nd (.nd (.nd (.lf
  0x16074160730160b0160ab0160b0160ab01608816087016038160370160981609306c0b86c0b40160b0160ab0160681606706c0086c006015ffc15ff70160b0160ab01604416043016068160670160381603701608816087)
  (.lf
  0x15df815df7015f9415bd3015fb415fb3015e9415e93015df815df7015c7415c7301602c16027015f0c15f0b015df815df7015df815df70160801607f015f5415f53015e3415e33015df815df70160b0160ab015f8415f83))
  (.nd (.lf
  0x1603816037015e5815e57015f7815f7701608816087015eac15eab015fb415fb30160b0160ab015ec415ec3015fc015fbf0160b0160ab015eb815eb7015f9c15f9b01607416073015e7c15e7b015f4815f4701600816007)
  (.lf 0))) (.nd (.nd (.lf
  0x15f4815f4701607416073015f9c15f9b0160b0160ab015fc015fbf0160b0160ab015fb415fb301608816087015f7815f7701603816037015f0c15f0b015fa815fa70160381603706bfd86bfd2015f6015f5f015fcc15fcb)
  (.lf 0x160b0160ab015fc015fbf015ec415ec3)) (.nd (.lf
  0x15eac15eab015df815df7015fe415fdf015e7c15e7b015df815df7015f9c15f9b015e3415e330160b0160ab015f3c15f3b015df815df701603816037015ec415ec3015df815df7015fb415fb3015e4015e3f01608816087)
  (.lf 0)))

/-- Class, input and places of two gates of a last block which read the same wire, by packing parameter: 44 bits each, 16 per leaf. -/
def shaLeakTree : BTree :=
  .nd (.nd (shaLeakTree0) (shaLeakTree1)) (.nd (shaLeakTree2) (shaLeakTree3))

end Verif.Data

namespace Verif

open Data

/-- The certificate for the order of the gates. -/
noncomputable def shaSort : SortCert where
  xor := ⟨0, 2, 110644, fun j => shaXorReads.get 20 64 j, fun w => shaXorFan.get 4 256 w, fun r => shaXorOrder.get 20 64 r⟩
  and := ⟨1, 2, 22573, fun j => shaAndReads.get 20 64 j, fun w => shaAndFan.get 4 256 w, fun r => shaAndOrder.get 20 64 r⟩
  inv := ⟨2, 1, 1856, fun j => shaInvReads.get 20 64 j, fun w => shaInvFan.get 4 256 w, fun r => shaInvOrder.get 20 64 r⟩
  pos w := shaPos.get 20 64 w

/-- Class, input and places of two gates which read the same wire. -/
noncomputable def shaLeak (l : Nat) : Nat := shaLeakTree.get 44 16 l

end Verif
