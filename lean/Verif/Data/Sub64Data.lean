import Verif.Cut

/-!
# Gates of `data/circ/sub64.txt` and a certificate for them

Generated by `tools/gen_circuits.py`.
-/

namespace Verif.Data

/-- Gate codes: 56 bits each, 64 per leaf. -/
def sub64GateTree : BTree :=
  .nd (.nd (.nd (.lf
  0x7dc004000000005e4004100004005e8004200008005ec00430000c005f0004400010005f4004500014005f8004600018005fc00470001c006000048000200060400490002400608004a000280060c004b0002c00610004c0003000614004d0003400618004e000380061c004f0003c0062000500004000624005100044006280052000480062c00530004c0063000540005000634005500054006380056000580063c00570005c006400058000600064400590006400648005a000680064c005b0006c00650005c0007000654005d0007400658005e000780065c005f0007c0066000600008000664006100084006680062000880066c00630008c0067000640009000674006500094006780066000980067c00670009c006800068000a0006840069000a400688006a000a80068c006b000ac00690006c000b000694006d000b400698006e000b80069c006f000bc006a00070000c0006a40071000c4006a80072000c8006ac0073000cc006b00074000d0006b40075000d4006b80076000d8006bc0077000dc006c00078000e0006c40079000e4006c8007a000e8006cc007b000ec006d0007c000f0006d4007d000f4006d8007e000f8006dc007f000fc)
  (.lf
  0x88801e20068c003fc01e2001ac0078801e1003f4003f400fc003ed003ec01e100590005900000000aa003f001e1001a80088401e1006880078401e0003e8003e800f9003e1003e001e00058c0058c0000000a6003e401e0001a40088001e0006840078001df003dc003dc00f6003d5003d401df00588005880000000a2003d801df001a00087c01df006800077c01de003d0003d000f3003c9003c801de005840058400000009e0087801de0067c003cc01de0019c0077801dd003c4003c400f0003bd003bc01dd005800058000000009a003c001dd001980087401dd006780077401dc003b8003b800ed003b1003b001dc0057c0057c000000096003b401dc001940087001dc006740077001db003ac003ac00ea003a5003a401db0057800578000000092003a801db001900086c01db006700076c01da003a0003a000e7003990039801da005740057400000008e0039c01da0018c0086801da0066c0076801d9003940039400e40038d0038c01d9005700057000000008a0039001d9001880086401d9006680076401d8003880038800e1003810038001d80056c0056c0000000860086001d8006640038401d8001840076001d70037c0037c00de00375))
  (.nd (.lf
  0x73401cc002f8002f800bd002f1002f001cc0053c0053c0000000560083001cc00634002f401cc001540073001cb002ec002ec00ba002e5002e401cb00538005380000000520082c01cb00630002e801cb001500072c01ca002e0002e000b7002d9002d801ca005340053400000004e0082801ca0062c002dc01ca0014c0072801c9002d4002d400b4002cd002cc01c9005300053000000004a0082401c900628002d001c9001480072401c8002c8002c800b1002c1002c001c80052c0052c0000000460082001c800624002c401c8001440072001c7002bc002bc00ae002b5002b401c700528005280000000420081c01c700620002b801c7001400071c01c6002b0002b000ab002a9002a801c6005240052400000003e0081801c60061c002ac01c60013c0071801c5002a4002a400a80029d0029c01c5005200052000000003a0081401c500618002a001c5001380071401c4002980029800a5002910029001c40051c0051c0000000360081001c4006140029401c4001340071001c30028c0028c00a2002850028401c300518005180000000320080c01c3006100028801c3001300070c01c20028000280009f002790027801c2005140051400000002e)
  (.lf
  0x8d801f6006dc007d801f5004e4004e40138004dd004dc01f5005e0005e00000000fa004e001f5001f8008d401f5006d8007d401f4004d8004d80135004d1004d001f4005dc005dc0000000f6008d001f4006d4004d401f4001f4007d001f3004cc004cc0132004c5004c401f3005d8005d80000000f2004c801f3001f0008cc01f3006d0007cc01f2004c0004c0012f004b9004b801f2005d4005d40000000ee008c801f2006cc004bc01f2001ec007c801f1004b4004b4012c004ad004ac01f1005d0005d00000000ea008c401f1006c8004b001f1001e8007c401f0004a8004a80129004a1004a001f0005cc005cc0000000e6008c001f0006c4004a401f0001e4007c001ef0049c0049c0126004950049401ef005c8005c80000000e20049801ef001e0008bc01ef006c0007bc01ee00490004900123004890048801ee005c4005c40000000de0048c01ee001dc008b801ee006bc007b801ed004840048401200047d0047c01ed005c0005c00000000da008b401ed006b80048001ed001d8)))
  (.nd (.nd (.lf
  0x80801c20060c0027c01c20012c0070801c10027400274009c0026d0026c01c1005100051000000002a0080401c1006080027001c1001280070401c000268002680099002610026001c00050c0050c0000000260080001c0006040026401c0001240070001bf0025c0025c0096002550025401bf0050800508000000022007fc01bf006000025801bf00120006fc01be00250002500093002490024801be005040050400000001e007f801be005fc0024c01be0011c006f801bd002440024400900023d0023c01bd005000050000000001a007f401bd005f80024001bd00118006f401bc0023800238008d002310023001bc004fc004fc000000016007f001bc005f40023401bc00114006f001bb0022c0022c008a002250022401bb004f8004f8000000012007ec01bb005f00022801bb00110006ec01ba00220002200087002190021801ba004f4004f400000000e007e801ba005ec0021c01ba0010c006e801b9002140021400840020d0020c01b9004f0004f000000000a007e401b9005e80021001b900108006e401b800208002080081002010020001b8004ec004ec000000006007e001b8005e40020401b800104006e00040004e9004e8000000002)
  (.lf
  0x7b401ec0047800478011d004710047001ec005bc005bc0000000d6008b001ec006b40047401ec001d4007b001eb0046c0046c011a004650046401eb005b8005b80000000d2008ac01eb006b00046801eb001d0007ac01ea00460004600117004590045801ea005b4005b40000000ce008a801ea006ac0045c01ea001cc007a801e9004540045401140044d0044c01e9005b0005b00000000ca008a401e9006a80045001e9001c8007a401e800448004480111004410044001e8005ac005ac0000000c6008a001e8006a40044401e8001c4007a001e70043c0043c010e004350043401e7005a8005a80000000c20089c01e7006a00043801e7001c00079c01e60043000430010b004290042801e6005a4005a40000000be0042c01e6001bc0089801e60069c0079801e5004240042401080041d0041c01e5005a0005a00000000ba0042001e5001b80089401e5006980079401e400418004180105004110041001e40059c0059c0000000b60089001e4006940041401e4001b40079001e30040c0040c0102004050040401e300598005980000000b20040801e3001b00088c01e3006900078c01e2004000040000ff003f9003f801e200594005940000000ae))
  (.nd (.lf
  0x37401d700568005680000000820085c01d7006600037801d7001800075c01d6003700037000db003690036801d6005640056400000007e0036c01d60017c0085801d60065c0075801d5003640036400d80035d0035c01d5005600056000000007a0085401d5006580036001d5001780075401d4003580035800d5003510035001d40055c0055c0000000760035401d4001740085001d4006540075001d30034c0034c00d2003450034401d300558005580000000720084c01d3006500034801d3001700074c01d2003400034000cf003390033801d2005540055400000006e0084801d20064c0033c01d20016c0074801d1003340033400cc0032d0032c01d1005500055000000006a0033001d1001680084401d1006480074401d0003280032800c9003210032001d00054c0054c0000000660032401d0001640084001d0006440074001cf0031c0031c00c6003150031401cf00548005480000000620083c01cf006400031801cf001600073c01ce003100031000c3003090030801ce005440054400000005e0030c01ce0015c0083801ce0063c0073801cd003040030400c0002fd002fc01cd005400054000000005a0083401cd006380030001cd00158)
  (.lf 0)))

def sub64WireTree0 : BTree :=
  .nd (.nd (.nd (.lf
  0x7f0000000007d0000000007b00000000079000000000770000000007500000000073000000000710000000006f0000000006d0000000006b00000000069000000000670000000006500000000063000000000610000000005f0000000005d0000000005b00000000059000000000570000000005500000000053000000000510000000004f0000000004d0000000004b00000000049000000000470000000004500000000043000000000410000000003f0000000003d0000000003b00000000039000000000370000000003500000000033000000000310000000002f0000000002d0000000002b00000000029000000000270000000002500000000023000000000210000000001f0000000001d0000000001b00000000019000000000170000000001500000000013000000000110000000000f0000000000d0000000000b0000000000900000000007000000000050000000000300000000001)
  (.lf
  0x6d8007f2c006c0007d2c006ac007b2c0069000792c0067c00772c0066400752c0064c00732c0063000712c00618006f2c00604006d2c005ec006b2c005d400692c005bc00672c005a400652c0058c00632c0057400612c00558005f2c00540005d2c0052c005b2c0051000592c004fc00572c004e000552c004c800532c004b000512c0049c004f2c00480004d2c00468004b2c0045000492c0043800472c0042000452c0040c00432c003f400412c003d8003f2c003c4003d2c003a8003b2c0039400392c0037c00372c0036000352c0034800332c0033400312c00318002f2c00304002d2c002ec002b2c002d400292c002bc00272c002a400252c0028c00232c0027400212c0025c001f2c00244001d2c0022c001b2c0021400192c001fc00172c001e400152c001cc00132c))
  (.nd (.lf
  0x170000aaa001580008aa001400006aa001280004aa001100002aa001000000aa006d0007c48006c4007c78006cc007d4a006b8007a48006a8007a78006b4007b4a006a0007848006940078780069c00794a00688007648006780076780068400774a00670007448006600074780066c00754a00658007248006480072780065400734a00640007048006340070780063c00714a00628006e480061c006e7800624006f4a00610006c4800600006c780060c006d4a005f8006a48005e8006a78005f4006b4a005e0006848005d0006878005dc00694a005c8006648005b8006678005c400674a005b0006448005a0006478005ac00654a00598006248005880062780059400634a00580006048005700060780057c00614a00568005e480055c005e7800564005f4a00550005c4800544005c780054c005d4a00538005a4800528005a7800534005b4a00520005848005140058780051c00594a00508005648)
  (.lf 0))) (.nd (.nd (.lf
  0x30c002d4a002f8002a48002e8002a78002f4002b4a002e0002848002d0002878002dc00294a002c8002648002b8002678002c400274a002b0002448002a0002478002ac00254a00298002248002880022780029400234a00280002048002700020780027c00214a00268001e4800258001e7800264001f4a00250001c4800240001c780024c001d4a00238001a4800228001a7800234001b4a00220001848002100018780021c00194a00208001648001f80016780020400174a001f0001448001e0001478001ec00154a001d8001248001c8001278001d400134a001c0001048001b0001078001bc00114a001a8000e4800198000e78001a4000f4a00190000c4800180000c780018c000d4a00178000a4800168000a7800174000b4a00160000848001500008780015c00094a00148000648001380006780014400074a00130000448001200004780012c00054a00118000248001080002780011400034a)
  (.lf 0)) (.nd (.lf
  0x1ac000fa800194000da80017c000ba8001640009a80014c0007a8001340005a80011c0003a80010400008800000007ecc00004007ccc00008007acc0000c0078cc000100076cc000140074cc000180072cc0001c0070cc00020006ecc00024006ccc00028006acc0002c0068cc000300066cc000340064cc000380062cc0003c0060cc00040005ecc00044005ccc00048005acc0004c0058cc000500056cc000540054cc000580052cc0005c0050cc00060004ecc00064004ccc00068004acc0006c0048cc000700046cc000740044cc000780042cc0007c0040cc00080003ecc00084003ccc00088003acc0008c0038cc000900036cc000940034cc000980032cc0009c0030cc000a0002ecc000a4002ccc000a8002acc000ac0028cc000b00026cc000b40024cc000b80022cc000bc0020cc000c0001ecc000c4001ccc000c8001acc000cc0018cc000d00016cc000d40014cc000d80012cc000dc0010cc)
  (.lf 0)))

def sub64WireTree1 : BTree :=
  .nd (.nd (.nd (.lf
  0xff000000000fd000000000fb000000000f9000000000f7000000000f5000000000f3000000000f1000000000ef000000000ed000000000eb000000000e9000000000e7000000000e5000000000e3000000000e1000000000df000000000dd000000000db000000000d9000000000d7000000000d5000000000d3000000000d1000000000cf000000000cd000000000cb000000000c9000000000c7000000000c5000000000c3000000000c1000000000bf000000000bd000000000bb000000000b9000000000b7000000000b5000000000b3000000000b1000000000af000000000ad000000000ab000000000a9000000000a7000000000a5000000000a3000000000a10000000009f0000000009d0000000009b00000000099000000000970000000009500000000093000000000910000000008f0000000008d0000000008b0000000008900000000087000000000850000000008300000000081)
  (.lf 0)) (.nd (.lf
  0xe0000ecc000e4000ccc000e8000acc000ec0008cc000f00006cc000f40004cc000f80002cc006c8007caa006b0007aaa006980078aa006800076aa006680074aa006500072aa006380070aa00620006eaa00608006caa005f0006aaa005d80068aa005c00066aa005a80064aa005900062aa005780060aa00560005eaa00548005caa00530005aaa005180058aa005000056aa004e80054aa004d00052aa004b80050aa004a0004eaa00488004caa00470004aaa004580048aa004400046aa004280044aa004100042aa003f80040aa003e0003eaa003c8003caa003b0003aaa003980038aa003800036aa003680034aa003500032aa003380030aa00320002eaa00308002caa002f0002aaa002d80028aa002c00026aa002a80024aa002900022aa002780020aa00260001eaa00248001caa00230001aaa002180018aa002000016aa001e80014aa001d00012aa001b80010aa001a0000eaa00188000caa)
  (.lf 0))) (.nd (.nd (.lf
  0x4f80056780050400574a004f0005448004e4005478004ec00554a004d8005248004cc005278004d400534a004c0005048004b4005078004bc00514a004a8004e4800498004e78004a4004f4a00490004c4800484004c780048c004d4a00478004a480046c004a7800474004b4a00460004848004540048780045c00494a004480046480043c0046780044400474a00430004448004240044780042c00454a00418004248004080042780041400434a00400004048003f0004078003fc00414a003e8003e48003dc003e78003e4003f4a003d0003c48003c0003c78003cc003d4a003b8003a48003ac003a78003b4003b4a003a0003848003900038780039c00394a00388003648003780036780038400374a00370003448003640034780036c00354a003580032480034c0032780035400334a00340003048003300030780033c00314a00328002e480031c002e7800324002f4a00310002c4800300002c78)
  (.lf 0)) (.nd (.lf
  0x1b400112c0019c000f2c00184000d2c0016c000b2c0015400092c0013c00072c0012400052c0010c00032c000fc0000cc006d4007da8006bc007ba8006a40079a80068c0077a8006740075a80065c0073a8006440071a80062c006fa800614006da8005fc006ba8005e40069a8005cc0067a8005b40065a80059c0063a8005840061a80056c005fa800554005da80053c005ba8005240059a80050c0057a8004f40055a8004dc0053a8004c40051a8004ac004fa800494004da80047c004ba8004640049a80044c0047a8004340045a80041c0043a8004040041a8003ec003fa8003d4003da8003bc003ba8003a40039a80038c0037a8003740035a80035c0033a8003440031a80032c002fa800314002da8002fc002ba8002e40029a8002cc0027a8002b40025a80029c0023a8002840021a80026c001fa800254001da80023c001ba8002240019a80020c0017a8001f40015a8001dc0013a8001c40011a8)
  (.lf 0)))

/-- Claims and ranks of the wires: 44 bits each, 64 per leaf. -/
def sub64WireTree : BTree :=
  .nd (sub64WireTree0) (sub64WireTree1)

end Verif.Data
