/-!
# Text of `data/circ/aes_128.txt`, part 2 of 4

Generated by `tools/gen_circuits.py`.
-/

namespace Verif.Data

/-- Lines 9221-18436 of `data/circ/aes_128.txt`, 128 per string. -/
def aesBlocks01 : List String := [
"2 1 15703 32666 15683 XOR\n2 1 15699 15683 15649 XOR\n1 1 15649 15646 INV\n2 1 15646 15647 36777 XOR\n2 1 15704 15683 15643 XOR\n2 1 15672 15643 36782 XOR\n2 1 17652 17653 32680 XOR\n2 1 17649 32680 17629 XOR\n2 1 17650 17629 17589 XOR\n2 1 17645 17629 17595 XOR\n1 1 17595 17592 INV\n2 1 17592 17593 36745 XOR\n2 1 17618 17589 36750 XOR\n2 1 32680 17627 36747 XOR\n2 1 22517 22518 32715 XOR\n2 1 22514 32715 22494 XOR\n2 1 22510 22494 22460 XOR\n1 1 22460 22457 INV\n2 1 22457 22458 36713 XOR\n2 1 36713 1421 1293 XOR\n2 1 36745 1293 1165 XOR\n2 1 1453 1293 1325 XOR\n2 1 1325 1165 1197 XOR\n2 1 1485 1325 1357 XOR\n2 1 1357 1197 1229 XOR\n2 1 1517 1357 1389 XOR\n2 1 1390 1389 18599 XOR\n2 1 1389 1229 1261 XOR\n2 1 1262 1261 12191 XOR\n2 1 1261 12174 12176 XOR\n2 1 1257 12176 12258 XOR\n2 1 1258 12176 12255 XOR\n2 1 12181 12176 12257 XOR\n2 1 1260 1261 12151 XOR\n2 1 1389 18582 18584 XOR\n2 1 1386 18584 18662 XOR\n2 1 18589 18584 18664 XOR\n2 1 22515 22494 22454 XOR\n2 1 22483 22454 36718 XOR\n2 1 36718 1416 1288 XOR\n2 1 36750 1288 1160 XOR\n2 1 1448 1288 1320 XOR\n2 1 1320 1160 1192 XOR\n2 1 1480 1320 1352 XOR\n2 1 1352 1192 1224 XOR\n2 1 1512 1352 1384 XOR\n2 1 1384 1390 18677 XOR\n2 1 18677 18662 18658 AND\n2 1 1386 1384 18583 XOR\n2 1 18658 18583 18587 XOR\n2 1 18583 18589 18671 XOR\n2 1 18671 18664 18656 AND\n2 1 18599 18671 18669 XOR\n2 1 1384 1224 1256 XOR\n2 1 1258 1256 12175 XOR\n2 1 1256 1261 12268 XOR\n2 1 1256 1262 12270 XOR\n2 1 12270 12255 12251 AND\n2 1 12251 12175 12179 XOR\n2 1 1384 1389 18675 XOR\n2 1 12175 12181 12264 XOR\n2 1 12191 12264 12262 XOR\n2 1 12264 12257 12249 AND\n2 1 1388 1389 18559 XOR\n2 1 36782 1160 1032 XOR\n2 1 36777 1165 1037 XOR\n2 1 1197 1037 1069 XOR\n2 1 1229 1069 1101 XOR\n2 1 1261 1101 1133 XOR\n2 1 1192 1032 1064 XOR\n2 1 1224 1064 1096 XOR\n2 1 1256 1096 1128 XOR\n2 1 1385 18584 18665 XOR\n2 1 32715 22492 36715 XOR\n2 1 36715 1419 1291 XOR\n2 1 1451 1291 1323 XOR\n2 1 36747 1291 1163 XOR\n2 1 1323 1163 1195 XOR\n2 1 1483 1323 1355 XOR\n2 1 1515 1355 1387 XOR\n2 1 1387 1385 18585 XOR\n2 1 1387 1384 18676 XOR\n2 1 18676 18599 18672 XOR\n2 1 18582 18676 18668 XOR\n2 1 1391 18668 18667 XOR\n2 1 1389 1387 18678 XOR\n2 1 18583 18678 18663 XOR\n2 1 18585 18583 18545 XOR\n2 1 18582 18545 18666 XOR\n2 1 18585 1386 18544 XOR\n2 1 1391 18544 18673 XOR\n2 1 18668 18672 18661 AND\n2 1 18661 18585 18588 XOR\n2 1 18669 18667 18660 AND\n2 1 18673 1391 18659 AND\n2 1 18676 18665 18655 AND\n2 1 18655 18584 18586 XOR\n2 1 18588 18586 18592 XOR\n2 1 1384 18592 18597 XOR\n2 1 18678 18663 18654 AND\n2 1 18654 18660 18606 XOR\n2 1 18606 18597 18652 XOR\n2 1 18654 18655 18558 XOR\n2 1 18558 18559 18605 XOR\n2 1 18605 18587 18604 XOR\n2 1 18657 18604 18651 XOR\n2 1 18675 18666 18653 AND\n2 1 18653 18656 18607 XOR\n2 1 18653 18659 18611 XOR\n2 1 18611 18583 18598 XOR\n2 1 18606 18598 18649 XOR\n2 1 18654 18607 18601 XOR\n2 1 18587 18607 18561 XOR\n2 1 18561 18586 18650 XOR\n2 1 18592 18611 18560 XOR\n2 1 1386 18560 18603 XOR\n2 1 18657 18601 18557 XOR\n2 1 1390 18557 18644 XOR\n2 1 18652 18651 18648 AND\n2 1 18648 18603 18643 XOR\n2 1 18648 18650 18647 XOR\n2 1 18649 18647 18646 AND\n2 1 18646 18603 18645 XOR\n2 1 18646 18658 18552 XOR\n2 1 18552 18588 18548 XOR\n2 1 1384 18548 18551 XOR\n2 1 18646 18597 18549 XOR\n2 1 1386 18548 18547 XOR\n",
"2 1 18643 18644 18642 AND\n2 1 18642 18650 18641 XOR\n2 1 18648 18642 18640 XOR\n2 1 18642 18601 18556 XOR\n2 1 18642 18659 18555 XOR\n2 1 18555 18656 18550 XOR\n2 1 18550 18551 18633 XOR\n2 1 18650 18640 18639 AND\n2 1 18639 18647 18637 XOR\n2 1 18639 18657 18610 XOR\n2 1 18610 18604 18631 XOR\n2 1 1390 18610 18593 XOR\n2 1 18593 18556 18638 XOR\n2 1 18645 18637 18636 AND\n2 1 18636 18606 18596 XOR\n2 1 18596 18598 18635 XOR\n2 1 18636 18660 18554 XOR\n2 1 18593 18554 18546 XOR\n2 1 18583 18546 18553 XOR\n2 1 18550 18553 18634 XOR\n2 1 18596 18549 18632 XOR\n2 1 18546 18547 18630 XOR\n2 1 18631 18668 18629 AND\n2 1 18638 18667 18628 AND\n2 1 18641 1391 18627 AND\n2 1 18627 18629 18609 XOR\n2 1 18632 18662 18626 AND\n2 1 18635 18674 18625 AND\n2 1 18645 18664 18624 AND\n2 1 18624 18625 18563 XOR\n2 1 18633 18665 18623 AND\n2 1 18630 18663 18622 AND\n2 1 18622 18625 18578 XOR\n1 1 18578 18575 INV\n2 1 18622 18623 18574 XOR\n2 1 18634 18666 18621 AND\n2 1 18631 18672 18620 AND\n2 1 18638 18669 18619 AND\n2 1 18641 18673 18618 AND\n2 1 18632 18677 18617 AND\n2 1 18617 18621 18594 XOR\n2 1 18626 18617 18579 XOR\n1 1 18594 18572 INV\n2 1 18635 18670 18616 AND\n2 1 18624 18616 18581 XOR\n2 1 18645 18671 18615 AND\n2 1 18572 18615 18571 XOR\n2 1 18571 18609 18567 XOR\n2 1 18633 18676 18614 AND\n2 1 18614 18567 18570 XOR\n2 1 18630 18678 18613 AND\n2 1 18613 18614 18608 XOR\n2 1 18619 18608 18590 XOR\n2 1 18620 18590 18591 XOR\n2 1 18628 18591 18595 XOR\n2 1 18629 18595 18600 XOR\n2 1 18581 18608 18577 XOR\n2 1 18609 18577 18580 XOR\n2 1 18579 18580 18682 XOR\n2 1 18572 18577 18576 XOR\n2 1 18575 18576 18681 XOR\n2 1 18600 18574 18680 XOR\n2 1 18590 18567 18566 XOR\n2 1 18627 18595 18564 XOR\n2 1 18563 18564 36754 XOR\n2 1 18634 18675 18612 AND\n2 1 18623 18612 18573 XOR\n1 1 18573 18569 INV\n2 1 18569 18570 18679 XOR\n1 1 18682 36751 INV\n1 1 18681 36752 INV\n1 1 18680 36757 INV\n1 1 18679 36756 INV\n2 1 36756 1282 1154 XOR\n2 1 36757 1281 1153 XOR\n2 1 36752 1286 1570 XOR\n1 1 1570 1158 INV\n2 1 36751 1287 1571 XOR\n1 1 1571 1159 INV\n2 1 1314 1154 1186 XOR\n2 1 1318 1570 1574 XOR\n1 1 1574 1190 INV\n2 1 1350 1574 1578 XOR\n1 1 1578 1222 INV\n2 1 1382 1578 1582 XOR\n2 1 1313 1153 1185 XOR\n2 1 1319 1571 1575 XOR\n1 1 1575 1191 INV\n2 1 1351 1575 1579 XOR\n1 1 1579 1223 INV\n2 1 1383 1579 1583 XOR\n2 1 36754 1284 1569 XOR\n1 1 1569 1156 INV\n2 1 1316 1569 1573 XOR\n1 1 1573 1188 INV\n2 1 1345 1185 1217 XOR\n2 1 1377 1217 1249 XOR\n2 1 1346 1186 1218 XOR\n2 1 1378 1218 1250 XOR\n2 1 1348 1573 1577 XOR\n1 1 1577 1220 INV\n2 1 1380 1577 1581 XOR\n2 1 1355 1195 1227 XOR\n2 1 1387 1227 1259 XOR\n2 1 1259 1257 12177 XOR\n2 1 1259 1256 12269 XOR\n2 1 12269 12191 12265 XOR\n2 1 12174 12269 12261 XOR\n2 1 1263 12261 12260 XOR\n2 1 1261 1259 12271 XOR\n2 1 12175 12271 12256 XOR\n2 1 12177 12175 12137 XOR\n2 1 12174 12137 12259 XOR\n2 1 12177 1258 12136 XOR\n2 1 1263 12136 12266 XOR\n2 1 12261 12265 12254 AND\n2 1 12254 12177 12180 XOR\n2 1 12262 12260 12253 AND\n2 1 12266 1263 12252 AND\n2 1 12269 12258 12248 AND\n2 1 12248 12176 12178 XOR\n2 1 12180 12178 12184 XOR\n2 1 1256 12184 12189 XOR\n2 1 12271 12256 12247 AND\n2 1 12247 12253 12198 XOR\n2 1 12198 12189 12245 XOR\n2 1 12247 12248 12150 XOR\n2 1 12150 12151 12197 XOR\n",
"2 1 12197 12179 12196 XOR\n2 1 12250 12196 12244 XOR\n2 1 12268 12259 12246 AND\n2 1 12246 12249 12199 XOR\n2 1 12246 12252 12203 XOR\n2 1 12203 12175 12190 XOR\n2 1 12198 12190 12242 XOR\n2 1 12247 12199 12193 XOR\n2 1 12179 12199 12153 XOR\n2 1 12153 12178 12243 XOR\n2 1 12184 12203 12152 XOR\n2 1 1258 12152 12195 XOR\n2 1 12250 12193 12149 XOR\n2 1 1262 12149 12237 XOR\n2 1 12245 12244 12241 AND\n2 1 12241 12195 12236 XOR\n2 1 12241 12243 12240 XOR\n2 1 12242 12240 12239 AND\n2 1 12239 12195 12238 XOR\n2 1 12239 12251 12144 XOR\n2 1 12144 12180 12140 XOR\n2 1 1256 12140 12143 XOR\n2 1 12239 12189 12141 XOR\n2 1 1258 12140 12139 XOR\n2 1 12236 12237 12235 AND\n2 1 12235 12243 12234 XOR\n2 1 12241 12235 12233 XOR\n2 1 12235 12193 12148 XOR\n2 1 12235 12252 12147 XOR\n2 1 12147 12249 12142 XOR\n2 1 12142 12143 12226 XOR\n2 1 12243 12233 12232 AND\n2 1 12232 12240 12230 XOR\n2 1 12232 12250 12202 XOR\n2 1 12202 12196 12224 XOR\n2 1 1262 12202 12185 XOR\n2 1 12185 12148 12231 XOR\n2 1 12238 12230 12229 AND\n2 1 12229 12198 12188 XOR\n2 1 12188 12190 12228 XOR\n2 1 12229 12253 12146 XOR\n2 1 12185 12146 12138 XOR\n2 1 12175 12138 12145 XOR\n2 1 12142 12145 12227 XOR\n2 1 12188 12141 12225 XOR\n2 1 12138 12139 12223 XOR\n2 1 12224 12261 12222 AND\n2 1 12231 12260 12221 AND\n2 1 12234 1263 12220 AND\n2 1 12220 12222 12201 XOR\n2 1 12225 12255 12219 AND\n2 1 12228 12267 12218 AND\n2 1 12218 12219 12204 XOR\n2 1 12238 12257 12217 AND\n2 1 12217 12218 12155 XOR\n2 1 12226 12258 12216 AND\n2 1 12223 12256 12215 AND\n2 1 12215 12204 12194 XOR\n2 1 12215 12218 12170 XOR\n1 1 12170 12167 INV\n2 1 12215 12216 12166 XOR\n2 1 12216 12194 12154 XOR\n2 1 12227 12259 12214 AND\n2 1 12224 12265 12213 AND\n2 1 12231 12262 12212 AND\n2 1 12234 12266 12211 AND\n2 1 12211 12194 12160 XOR\n1 1 12160 12157 INV\n2 1 12225 12270 12210 AND\n2 1 12210 12214 12186 XOR\n2 1 12219 12210 12171 XOR\n1 1 12186 12164 INV\n2 1 12228 12263 12209 AND\n2 1 12217 12209 12173 XOR\n2 1 12238 12264 12208 AND\n2 1 12164 12208 12163 XOR\n2 1 12163 12201 12159 XOR\n2 1 12226 12269 12207 AND\n2 1 12207 12159 12162 XOR\n2 1 12223 12271 12206 AND\n2 1 12206 12207 12200 XOR\n2 1 12212 12200 12182 XOR\n2 1 12213 12182 12183 XOR\n2 1 12221 12183 12187 XOR\n2 1 12222 12187 12192 XOR\n2 1 12204 12192 36787 XOR\n2 1 12173 12200 12169 XOR\n2 1 12201 12169 12172 XOR\n2 1 12171 12172 12275 XOR\n2 1 12164 12169 12168 XOR\n2 1 12167 12168 12274 XOR\n2 1 12192 12166 12273 XOR\n2 1 12182 12159 12158 XOR\n2 1 12157 12158 36785 XOR\n2 1 12220 12187 12156 XOR\n2 1 12155 12156 36786 XOR\n2 1 12183 12154 36790 XOR\n2 1 12227 12268 12205 AND\n2 1 12216 12205 12165 XOR\n1 1 12165 12161 INV\n2 1 12161 12162 12272 XOR\n1 1 12275 36783 INV\n1 1 12274 36784 INV\n1 1 12273 36789 INV\n1 1 12272 36788 INV\n1 1 1583 1255 INV\n2 1 1255 1249 12321 XOR\n2 1 1250 12321 12407 XOR\n1 1 1582 1254 INV\n2 1 1254 12407 12403 XOR\n2 1 12407 12403 12390 AND\n1 1 1581 1252 INV\n2 1 1254 1252 12314 XOR\n2 1 36779 1163 1035 XOR\n2 1 36783 1159 1031 XOR\n2 1 36784 1158 1587 XOR\n1 1 1587 1030 INV\n2 1 1195 1035 1067 XOR\n2 1 36788 1154 1584 XOR\n1 1 1584 1026 INV\n2 1 1186 1584 1588 XOR\n1 1 1588 1058 INV\n2 1 36789 1153 1025 XOR\n2 1 1185 1025 1057 XOR\n2 1 1227 1067 1099 XOR\n2 1 1259 1099 1131 XOR\n2 1 1217 1057 1089 XOR\n2 1 1249 1089 1121 XOR\n",
"2 1 1218 1588 1592 XOR\n1 1 1592 1090 INV\n2 1 1250 1592 1596 XOR\n1 1 1596 1122 INV\n2 1 1190 1587 1591 XOR\n1 1 1591 1062 INV\n2 1 1191 1031 1063 XOR\n2 1 36786 1156 1028 XOR\n2 1 1188 1028 1060 XOR\n2 1 1220 1060 1092 XOR\n2 1 1252 1092 1124 XOR\n2 1 1223 1063 1095 XOR\n2 1 1255 1095 1127 XOR\n2 1 1222 1591 1595 XOR\n1 1 1595 1094 INV\n2 1 1254 1595 1599 XOR\n1 1 1599 1126 INV\n2 1 18625 18626 32687 XOR\n2 1 32687 18600 36755 XOR\n2 1 36755 1283 1568 XOR\n2 1 1315 1568 1572 XOR\n1 1 1572 1187 INV\n2 1 1347 1572 1576 XOR\n1 1 1576 1219 INV\n2 1 1379 1576 1580 XOR\n1 1 1580 1251 INV\n2 1 1251 1249 12317 XOR\n2 1 12317 1250 12276 XOR\n2 1 1255 12276 12406 XOR\n2 1 12406 1255 12392 AND\n1 1 1568 1155 INV\n2 1 36787 1155 1585 XOR\n1 1 1585 1027 INV\n2 1 1187 1585 1589 XOR\n1 1 1589 1059 INV\n2 1 1219 1589 1593 XOR\n1 1 1593 1091 INV\n2 1 1251 1593 1597 XOR\n1 1 1597 1123 INV\n2 1 18622 32687 18602 XOR\n2 1 18618 18602 18568 XOR\n1 1 18568 18565 INV\n2 1 18565 18566 36753 XOR\n2 1 18623 18602 18562 XOR\n2 1 18591 18562 36758 XOR\n2 1 36753 1285 1157 XOR\n2 1 36758 1280 1152 XOR\n2 1 1317 1157 1189 XOR\n2 1 1349 1189 1221 XOR\n2 1 1381 1221 1253 XOR\n2 1 1253 12314 12316 XOR\n2 1 1249 12316 12398 XOR\n2 1 1250 12316 12395 XOR\n2 1 12321 12316 12397 XOR\n2 1 1254 1253 12332 XOR\n2 1 1253 1251 12411 XOR\n2 1 1252 1253 12291 XOR\n2 1 1312 1152 1184 XOR\n2 1 1344 1184 1216 XOR\n2 1 1376 1216 1248 XOR\n2 1 1250 1248 12315 XOR\n2 1 12315 12411 12396 XOR\n2 1 1251 1248 12409 XOR\n2 1 12409 12332 12405 XOR\n2 1 12315 12321 12404 XOR\n2 1 12332 12404 12402 XOR\n2 1 12314 12409 12401 XOR\n2 1 1255 12401 12400 XOR\n2 1 12317 12315 12277 XOR\n2 1 12314 12277 12399 XOR\n2 1 1248 1254 12410 XOR\n2 1 1248 1253 12408 XOR\n2 1 12401 12405 12394 AND\n2 1 12394 12317 12320 XOR\n2 1 12402 12400 12393 AND\n2 1 12410 12395 12391 AND\n2 1 12391 12315 12319 XOR\n2 1 12404 12397 12389 AND\n2 1 12409 12398 12388 AND\n2 1 12388 12316 12318 XOR\n2 1 12320 12318 12324 XOR\n2 1 1248 12324 12330 XOR\n2 1 12411 12396 12387 AND\n2 1 12387 12393 12339 XOR\n2 1 12339 12330 12385 XOR\n2 1 12387 12388 12290 XOR\n2 1 12290 12291 12338 XOR\n2 1 12338 12319 12337 XOR\n2 1 12390 12337 12384 XOR\n2 1 12408 12399 12386 AND\n2 1 12386 12389 12340 XOR\n2 1 12386 12392 12344 XOR\n2 1 12344 12315 12331 XOR\n2 1 12339 12331 12382 XOR\n2 1 12387 12340 12334 XOR\n2 1 12319 12340 12293 XOR\n2 1 12293 12318 12383 XOR\n2 1 12324 12344 12292 XOR\n2 1 1250 12292 12336 XOR\n2 1 12390 12334 12289 XOR\n2 1 1254 12289 12377 XOR\n2 1 12385 12384 12381 AND\n2 1 12381 12336 12376 XOR\n2 1 12381 12383 12380 XOR\n2 1 12382 12380 12379 AND\n2 1 12379 12336 12378 XOR\n2 1 12379 12391 12284 XOR\n2 1 12284 12320 12280 XOR\n2 1 1248 12280 12283 XOR\n2 1 12379 12330 12281 XOR\n2 1 1250 12280 12279 XOR\n2 1 12376 12377 12375 AND\n2 1 12375 12383 12374 XOR\n2 1 12381 12375 12373 XOR\n2 1 12375 12334 12288 XOR\n2 1 12375 12392 12287 XOR\n2 1 12287 12389 12282 XOR\n2 1 12282 12283 12366 XOR\n2 1 12383 12373 12372 AND\n2 1 12372 12380 12370 XOR\n2 1 12372 12390 12343 XOR\n2 1 12343 12337 12364 XOR\n2 1 1254 12343 12325 XOR\n2 1 12325 12288 12371 XOR\n2 1 12378 12370 12369 AND\n2 1 12369 12339 12329 XOR\n2 1 12329 12331 12368 XOR\n2 1 12369 12393 12286 XOR\n",
"2 1 12325 12286 12278 XOR\n2 1 12315 12278 12285 XOR\n2 1 12282 12285 12367 XOR\n2 1 12329 12281 12365 XOR\n2 1 12278 12279 12363 XOR\n2 1 12364 12401 12362 AND\n2 1 12371 12400 12361 AND\n2 1 12374 1255 12360 AND\n2 1 12360 12362 12342 XOR\n2 1 12365 12395 12359 AND\n2 1 12368 12407 12358 AND\n2 1 12358 12359 12327 XOR\n2 1 12378 12397 12357 AND\n2 1 12357 12358 12295 XOR\n2 1 12366 12398 12356 AND\n2 1 12363 12396 12355 AND\n2 1 12355 12327 12335 XOR\n2 1 12355 12358 12310 XOR\n1 1 12310 12307 INV\n2 1 12355 12356 12306 XOR\n2 1 12356 12335 12294 XOR\n2 1 12367 12399 12354 AND\n2 1 12364 12405 12353 AND\n2 1 12371 12402 12352 AND\n2 1 12374 12406 12351 AND\n2 1 12351 12335 12300 XOR\n1 1 12300 12297 INV\n2 1 12365 12410 12350 AND\n2 1 12350 12354 12326 XOR\n2 1 12359 12350 12311 XOR\n1 1 12326 12304 INV\n2 1 12368 12403 12349 AND\n2 1 12357 12349 12313 XOR\n2 1 12378 12404 12348 AND\n2 1 12304 12348 12303 XOR\n2 1 12303 12342 12299 XOR\n2 1 12366 12409 12347 AND\n2 1 12347 12299 12302 XOR\n2 1 12363 12411 12346 AND\n2 1 12346 12347 12341 XOR\n2 1 12352 12341 12322 XOR\n2 1 12353 12322 12323 XOR\n2 1 12361 12323 12328 XOR\n2 1 12362 12328 12333 XOR\n2 1 12327 12333 36763 XOR\n2 1 12313 12341 12309 XOR\n2 1 12342 12309 12312 XOR\n2 1 12311 12312 12415 XOR\n2 1 12304 12309 12308 XOR\n2 1 12307 12308 12414 XOR\n2 1 12333 12306 12413 XOR\n2 1 12322 12299 12298 XOR\n2 1 12297 12298 36761 XOR\n2 1 12360 12328 12296 XOR\n2 1 12295 12296 36762 XOR\n2 1 12323 12294 36766 XOR\n2 1 12367 12408 12345 AND\n2 1 12356 12345 12305 XOR\n1 1 12305 12301 INV\n2 1 12301 12302 12412 XOR\n1 1 12415 36759 INV\n1 1 12414 36760 INV\n1 1 12413 36765 INV\n1 1 12412 36764 INV\n2 1 36764 1178 1050 XOR\n2 1 36760 1182 1054 XOR\n2 1 36790 1152 1024 XOR\n2 1 36759 1183 1055 XOR\n2 1 36763 1179 1051 XOR\n2 1 36762 1180 1052 XOR\n2 1 36766 1176 1048 XOR\n2 1 36761 1181 1053 XOR\n2 1 1210 1050 1082 XOR\n2 1 1242 1082 1114 XOR\n2 1 1274 1114 1146 XOR\n2 1 1211 1051 1083 XOR\n2 1 1215 1055 1087 XOR\n2 1 1212 1052 1084 XOR\n2 1 1244 1084 1116 XOR\n2 1 1276 1116 1148 XOR\n2 1 36785 1157 1586 XOR\n1 1 1586 1029 INV\n2 1 1189 1586 1590 XOR\n1 1 1590 1061 INV\n2 1 1221 1590 1594 XOR\n1 1 1594 1093 INV\n2 1 1253 1594 1598 XOR\n1 1 1598 1125 INV\n2 1 36765 1177 1049 XOR\n2 1 1209 1049 1081 XOR\n2 1 1241 1081 1113 XOR\n2 1 1273 1113 1145 XOR\n2 1 1184 1024 1056 XOR\n2 1 1208 1048 1080 XOR\n2 1 1213 1053 1085 XOR\n2 1 1214 1054 1086 XOR\n2 1 1246 1086 1118 XOR\n2 1 1278 1118 1150 XOR\n2 1 1245 1085 1117 XOR\n2 1 1277 1117 1149 XOR\n2 1 1216 1056 1088 XOR\n2 1 1248 1088 1120 XOR\n2 1 1247 1087 1119 XOR\n2 1 1279 1119 1151 XOR\n2 1 1240 1080 1112 XOR\n2 1 1272 1112 1144 XOR\n2 1 1243 1083 1115 XOR\n2 1 1275 1115 1147 XOR\n2 1 32025 32026 32727 XOR\n2 1 32727 32000 34848 XOR\n1 1 34848 5240 INV\n2 1 34861 5240 5050 XOR\n2 1 34852 5240 5241 XOR\n2 1 34848 34853 4979 XOR\n2 1 4979 5025 5074 XOR\n2 1 5074 5073 34778 XOR\n2 1 4973 4979 34786 XOR\n2 1 34786 387 33506 XOR\n2 1 34778 395 33498 XOR\n2 1 32022 32727 32002 XOR\n2 1 32018 32002 31968 XOR\n1 1 31968 31965 INV\n2 1 31965 31966 34846 XOR\n2 1 34846 34851 5005 XOR\n2 1 5005 34859 5072 XOR\n2 1 5005 5019 5060 XOR\n1 1 5060 5062 INV\n2 1 32023 32002 31962 XOR\n",
"2 1 31991 31962 34850 XOR\n2 1 34850 34862 5033 XOR\n2 1 5033 34846 5278 XOR\n2 1 5278 5277 4957 XOR\n2 1 5033 34853 5047 XOR\n2 1 5048 5047 34762 XOR\n2 1 34762 411 33482 XOR\n2 1 4957 5025 34761 XOR\n2 1 34850 34854 5044 XOR\n2 1 5044 34862 5079 XOR\n1 1 5044 4948 INV\n2 1 4948 34856 5061 XOR\n2 1 5062 5061 34769 XOR\n2 1 34769 404 33489 XOR\n2 1 34761 412 33481 XOR\n2 1 4948 34847 5242 XOR\n2 1 5242 5241 4972 XOR\n2 1 4972 5028 34770 XOR\n2 1 34770 403 33490 XOR\n2 1 32303 32304 32729 XOR\n2 1 32300 32729 32280 XOR\n2 1 32296 32280 32246 XOR\n1 1 32246 32243 INV\n2 1 32243 32244 34832 XOR\n2 1 34827 34832 4985 XOR\n1 1 4985 5210 INV\n2 1 5210 34842 5212 XOR\n2 1 5210 5003 5201 XOR\n2 1 32301 32280 32240 XOR\n2 1 32269 32240 34837 XOR\n2 1 34830 34837 5040 XOR\n2 1 34837 34841 5036 XOR\n1 1 34832 5257 INV\n2 1 34838 5257 5258 XOR\n1 1 5036 5256 INV\n2 1 5256 34844 5255 XOR\n2 1 5256 34843 5259 XOR\n2 1 5259 5258 4965 XOR\n2 1 4965 4992 34745 XOR\n2 1 34745 428 33465 XOR\n2 1 5255 5254 4966 XOR\n2 1 32729 32278 34834 XOR\n2 1 34829 34834 5000 XOR\n2 1 4966 5000 34746 XOR\n2 1 34746 427 33466 XOR\n1 1 5000 5229 INV\n2 1 5229 5003 5231 XOR\n2 1 34834 34828 5262 XOR\n2 1 5263 5262 4963 XOR\n2 1 4963 5012 34730 XOR\n2 1 34730 443 33450 XOR\n2 1 34840 34834 5213 XOR\n1 1 3554 32732 INV\n2 1 34822 32732 5178 XOR\n1 1 3555 32733 INV\n2 1 5042 32733 5164 XOR\n2 1 32733 4668 5155 XOR\n2 1 5156 5155 34712 XOR\n2 1 34712 461 33432 XOR\n2 1 33432 33434 22153 XOR\n2 1 33433 33432 22034 XOR\n1 1 3556 32734 INV\n1 1 3692 32735 INV\n2 1 32735 4250 5187 XOR\n1 1 3694 32736 INV\n2 1 32736 4807 5117 XOR\n2 1 5118 5117 34688 XOR\n2 1 34688 485 33408 XOR\n2 1 5135 32736 5106 XOR\n1 1 3695 32737 INV\n2 1 5039 32737 5247 XOR\n1 1 3553 32738 INV\n1 1 3831 32739 INV\n2 1 32739 34797 4986 XOR\n2 1 4986 32735 5110 XOR\n2 1 4986 4987 5122 XOR\n2 1 5110 5109 34683 XOR\n2 1 34683 490 33403 XOR\n1 1 3832 32740 INV\n2 1 32740 34798 4988 XOR\n2 1 4988 5039 5097 XOR\n2 1 4988 3693 5112 XOR\n2 1 34793 5097 34677 XOR\n2 1 34677 496 33397 XOR\n2 1 33394 33397 25638 XOR\n1 1 3833 32741 INV\n2 1 32741 32736 4976 XOR\n2 1 4976 4999 5123 XOR\n2 1 34805 5123 34664 XOR\n2 1 32741 5243 5064 XOR\n2 1 34664 509 33384 XOR\n2 1 33384 33386 22431 XOR\n2 1 33385 33384 22312 XOR\n1 1 3834 32742 INV\n2 1 32742 32737 4975 XOR\n2 1 4975 5038 5224 XOR\n2 1 4975 5037 5098 XOR\n2 1 4807 32742 5250 XOR\n1 1 3971 32743 INV\n2 1 32743 34853 5075 XOR\n1 1 3972 32744 INV\n2 1 34849 32744 4980 XOR\n2 1 4980 5045 5069 XOR\n2 1 34850 5069 34773 XOR\n2 1 34773 400 33493 XOR\n2 1 33490 33493 5427 XOR\n1 1 3973 32745 INV\n1 1 3974 32746 INV\n1 1 4110 32747 INV\n1 1 4111 32748 INV\n2 1 34813 32748 5151 XOR\n1 1 4112 32749 INV\n2 1 32749 34814 5002 XOR\n2 1 34815 32749 5127 XOR\n2 1 5002 5011 5142 XOR\n2 1 5146 32749 5139 XOR\n2 1 34810 5142 34704 XOR\n2 1 34704 469 33424 XOR\n2 1 33424 33426 18539 XOR\n2 1 33425 33424 18420 XOR\n1 1 4113 32750 INV\n2 1 4668 32750 5287 XOR\n1 1 4390 32751 INV\n2 1 5036 32751 5261 XOR\n2 1 5181 32751 5183 XOR\n1 1 4391 32752 INV\n2 1 5267 32752 5269 XOR\n1 1 4251 32753 INV\n",
"2 1 5134 32753 5065 XOR\n2 1 5065 5064 34672 XOR\n2 1 34672 501 33392 XOR\n2 1 5103 32753 5099 XOR\n2 1 32753 34800 4997 XOR\n2 1 4996 4997 5102 XOR\n2 1 34794 5102 34680 XOR\n2 1 34680 493 33400 XOR\n2 1 4975 4997 5107 XOR\n2 1 5107 5106 5108 XOR\n1 1 5108 34663 INV\n2 1 34663 510 33383 XOR\n2 1 33400 33402 22292 XOR\n2 1 33401 33400 22173 XOR\n2 1 33383 33385 22335 XOR\n2 1 33384 22335 22337 XOR\n2 1 33383 33384 22352 XOR\n2 1 33392 33394 25640 XOR\n2 1 33393 33392 25520 XOR\n2 1 33397 33392 25637 XOR\n1 1 4252 32754 INV\n2 1 4949 32754 5251 XOR\n2 1 32754 5098 34678 XOR\n2 1 34678 495 33398 XOR\n2 1 5251 5250 4968 XOR\n2 1 4968 4976 34671 XOR\n2 1 34671 502 33391 XOR\n2 1 33391 33393 25543 XOR\n2 1 33392 25543 25545 XOR\n2 1 25543 25638 25630 XOR\n2 1 33391 33392 25560 XOR\n2 1 25638 25560 25634 XOR\n2 1 33397 33391 25639 XOR\n2 1 25630 25634 25623 AND\n1 1 4529 32755 INV\n2 1 32755 34831 4978 XOR\n2 1 4978 4993 5199 XOR\n2 1 5257 32755 5182 XOR\n2 1 5183 5182 34728 XOR\n2 1 34728 445 33448 XOR\n2 1 33448 33450 15342 XOR\n2 1 33449 33448 15223 XOR\n2 1 34827 5199 34736 XOR\n2 1 34736 437 33456 XOR\n1 1 4530 32756 INV\n2 1 32359 32756 5268 XOR\n2 1 5269 5268 4961 XOR\n1 1 4388 32757 INV\n1 1 4389 32758 INV\n2 1 5043 32758 5194 XOR\n1 1 4667 32759 INV\n2 1 32759 32732 5024 XOR\n2 1 5042 32759 5152 XOR\n2 1 5152 5151 34709 XOR\n2 1 34709 464 33429 XOR\n2 1 33426 33429 18537 XOR\n2 1 33429 33424 18536 XOR\n2 1 5024 5041 5162 XOR\n2 1 34826 5162 34717 XOR\n2 1 34717 456 33437 XOR\n2 1 33434 33437 22151 XOR\n2 1 33437 33432 22150 XOR\n1 1 4669 32760 INV\n2 1 32750 32760 5001 XOR\n2 1 32734 32760 5275 XOR\n2 1 5001 5034 5153 XOR\n2 1 5001 5042 5163 XOR\n2 1 32734 5163 34718 XOR\n2 1 34718 455 33438 XOR\n1 1 4527 32761 INV\n2 1 32761 34835 5007 XOR\n2 1 5007 32757 5214 XOR\n2 1 5007 5012 5232 XOR\n2 1 5214 5213 34747 XOR\n2 1 34747 426 33467 XOR\n2 1 32358 32761 5190 XOR\n1 1 4528 32762 INV\n2 1 32762 34836 5014 XOR\n2 1 5014 32758 5215 XOR\n1 1 5215 5217 INV\n2 1 5014 5043 5206 XOR\n2 1 34830 5206 34741 XOR\n2 1 34741 432 33461 XOR\n2 1 33461 33456 18397 XOR\n2 1 34837 32762 5193 XOR\n2 1 5194 5193 34733 XOR\n2 1 34733 440 33453 XOR\n2 1 33450 33453 15340 XOR\n2 1 33453 33448 15339 XOR\n1 1 4805 32763 INV\n2 1 32763 32735 4991 XOR\n2 1 32763 5122 34691 XOR\n2 1 34691 482 33411 XOR\n2 1 4988 4991 5124 XOR\n2 1 4983 4991 5095 XOR\n2 1 32739 5095 34675 XOR\n2 1 34675 498 33395 XOR\n2 1 32763 4249 5111 XOR\n2 1 5112 5111 34684 XOR\n2 1 34684 489 33404 XOR\n2 1 33402 33404 22199 XOR\n2 1 33398 33404 22203 XOR\n2 1 33403 22203 22288 XOR\n2 1 22199 33403 22158 XOR\n2 1 33398 22158 22287 XOR\n2 1 22287 33398 22273 AND\n2 1 4991 34792 5169 XOR\n1 1 5169 5171 INV\n2 1 5171 5170 34667 XOR\n2 1 34667 506 33387 XOR\n2 1 33387 22337 22415 XOR\n2 1 33395 25545 25624 XOR\n2 1 33395 33397 25544 XOR\n2 1 25544 25640 25625 XOR\n2 1 25639 25624 25620 AND\n2 1 25620 25544 25548 XOR\n2 1 25640 25625 25616 AND\n1 1 4806 32764 INV\n2 1 32764 4250 5113 XOR\n2 1 5114 5113 34685 XOR\n2 1 34685 488 33405 XOR\n2 1 32764 5124 34692 XOR\n2 1 34692 481 33412 XOR\n2 1 32764 34808 4994 XOR\n2 1 4994 5038 5125 XOR\n2 1 34804 5125 34693 XOR\n2 1 4986 4994 5096 XOR\n2 1 32740 5096 34676 XOR\n",
"2 1 34676 497 33396 XOR\n2 1 34693 480 33413 XOR\n2 1 33411 33413 20946 XOR\n2 1 33413 33408 21038 XOR\n2 1 33403 33405 22197 XOR\n2 1 22197 22292 22277 XOR\n2 1 33402 33405 22290 XOR\n2 1 22197 22203 22285 XOR\n2 1 22199 22197 22159 XOR\n2 1 33405 33400 22289 XOR\n2 1 22292 22277 22268 AND\n2 1 4994 32739 5188 XOR\n2 1 5188 5187 5189 XOR\n1 1 5189 34668 INV\n2 1 34668 505 33388 XOR\n2 1 33388 22337 22418 XOR\n2 1 33386 33388 22338 XOR\n2 1 22338 33387 22297 XOR\n2 1 33396 25545 25627 XOR\n2 1 33394 33396 25546 XOR\n2 1 25623 25546 25549 XOR\n2 1 25546 25544 25506 XOR\n2 1 25543 25506 25628 XOR\n2 1 25546 33395 25505 XOR\n2 1 25638 25627 25617 AND\n2 1 25617 25545 25547 XOR\n2 1 25549 25547 25553 XOR\n2 1 33397 25553 25558 XOR\n2 1 25616 25617 25519 XOR\n2 1 25519 25520 25566 XOR\n2 1 25566 25548 25565 XOR\n2 1 25637 25628 25615 AND\n1 1 4808 32765 INV\n2 1 32741 32765 5246 XOR\n2 1 5247 5246 4970 XOR\n2 1 4970 4997 34687 XOR\n2 1 34687 486 33407 XOR\n2 1 33407 33408 20962 XOR\n2 1 33413 33407 21040 XOR\n2 1 32754 32765 4998 XOR\n2 1 4998 5031 5046 XOR\n2 1 32737 5046 34662 XOR\n2 1 34662 511 33382 XOR\n2 1 4998 5039 5115 XOR\n2 1 32742 5115 34686 XOR\n2 1 4976 4998 5100 XOR\n2 1 5100 5099 5101 XOR\n1 1 5101 34679 INV\n2 1 34679 494 33399 XOR\n2 1 33399 33401 22196 XOR\n2 1 33400 22196 22198 XOR\n2 1 33404 22198 22279 XOR\n2 1 33403 22198 22276 XOR\n2 1 22203 22198 22278 XOR\n2 1 33399 22288 22284 XOR\n2 1 22196 22290 22282 XOR\n2 1 33398 22282 22281 XOR\n2 1 33399 33400 22213 XOR\n2 1 22213 22285 22283 XOR\n2 1 22290 22213 22286 XOR\n2 1 22196 22159 22280 XOR\n2 1 33405 33399 22291 XOR\n2 1 22282 22286 22275 AND\n2 1 22275 22199 22202 XOR\n2 1 22283 22281 22274 AND\n2 1 22268 22274 22220 XOR\n2 1 22291 22276 22272 AND\n2 1 22272 22197 22201 XOR\n2 1 22288 22284 22271 AND\n2 1 22285 22278 22270 AND\n2 1 22290 22279 22269 AND\n2 1 22269 22198 22200 XOR\n2 1 22202 22200 22206 XOR\n2 1 33405 22206 22211 XOR\n2 1 22220 22211 22266 XOR\n2 1 22268 22269 22172 XOR\n2 1 22172 22173 22219 XOR\n2 1 22219 22201 22218 XOR\n2 1 22271 22218 22265 XOR\n2 1 22289 22280 22267 AND\n2 1 22267 22270 22221 XOR\n2 1 22267 22273 22225 XOR\n2 1 22225 22197 22212 XOR\n2 1 22220 22212 22263 XOR\n2 1 22268 22221 22215 XOR\n2 1 22201 22221 22175 XOR\n2 1 22175 22200 22264 XOR\n2 1 22206 22225 22174 XOR\n2 1 33403 22174 22217 XOR\n2 1 22271 22215 22171 XOR\n2 1 33399 22171 22258 XOR\n2 1 22266 22265 22262 AND\n2 1 22262 22217 22257 XOR\n2 1 22262 22264 22261 XOR\n2 1 22263 22261 22260 AND\n2 1 22260 22217 22259 XOR\n2 1 22260 22272 22166 XOR\n2 1 22166 22202 22162 XOR\n2 1 33405 22162 22165 XOR\n2 1 22260 22211 22163 XOR\n2 1 33403 22162 22161 XOR\n2 1 22257 22258 22256 AND\n2 1 22256 22264 22255 XOR\n2 1 22262 22256 22254 XOR\n2 1 22256 22215 22170 XOR\n2 1 22256 22273 22169 XOR\n2 1 22169 22270 22164 XOR\n2 1 22164 22165 22247 XOR\n2 1 22264 22254 22253 AND\n2 1 22253 22261 22251 XOR\n2 1 22253 22271 22224 XOR\n2 1 22224 22218 22245 XOR\n2 1 33399 22224 22207 XOR\n2 1 22207 22170 22252 XOR\n2 1 22259 22251 22250 AND\n2 1 22250 22220 22210 XOR\n2 1 22210 22212 22249 XOR\n2 1 22250 22274 22168 XOR\n2 1 22207 22168 22160 XOR\n2 1 22197 22160 22167 XOR\n2 1 22164 22167 22248 XOR\n2 1 22210 22163 22246 XOR\n2 1 22160 22161 22244 XOR\n2 1 22245 22282 22243 AND\n2 1 22252 22281 22242 AND\n2 1 22255 33398 22241 AND\n2 1 22241 22243 22223 XOR\n2 1 22246 22276 22240 AND\n",
"2 1 22249 22288 22239 AND\n2 1 22259 22278 22238 AND\n2 1 22238 22239 22177 XOR\n2 1 22247 22279 22237 AND\n2 1 22244 22277 22236 AND\n2 1 22236 22239 22192 XOR\n1 1 22192 22189 INV\n2 1 22236 22237 22188 XOR\n2 1 22248 22280 22235 AND\n2 1 22245 22286 22234 AND\n2 1 22252 22283 22233 AND\n2 1 22255 22287 22232 AND\n2 1 22246 22291 22231 AND\n2 1 22231 22235 22208 XOR\n2 1 22240 22231 22193 XOR\n1 1 22208 22186 INV\n2 1 22249 22284 22230 AND\n2 1 22238 22230 22195 XOR\n2 1 22259 22285 22229 AND\n2 1 22186 22229 22185 XOR\n2 1 22185 22223 22181 XOR\n2 1 22247 22290 22228 AND\n2 1 22228 22181 22184 XOR\n2 1 22244 22292 22227 AND\n2 1 22227 22228 22222 XOR\n2 1 22233 22222 22204 XOR\n2 1 22234 22204 22205 XOR\n2 1 22242 22205 22209 XOR\n2 1 22243 22209 22214 XOR\n2 1 22195 22222 22191 XOR\n2 1 22223 22191 22194 XOR\n2 1 22193 22194 22296 XOR\n2 1 22186 22191 22190 XOR\n2 1 22189 22190 22295 XOR\n2 1 22214 22188 22294 XOR\n2 1 22204 22181 22180 XOR\n2 1 22241 22209 22178 XOR\n2 1 22177 22178 35021 XOR\n2 1 22248 22289 22226 AND\n2 1 22237 22226 22187 XOR\n1 1 22187 22183 INV\n2 1 22183 22184 22293 XOR\n2 1 33382 33388 22342 XOR\n2 1 22342 22337 22417 XOR\n2 1 33387 22342 22427 XOR\n2 1 33383 22427 22423 XOR\n2 1 33382 22297 22426 XOR\n2 1 22426 33382 22412 AND\n2 1 22427 22423 22410 AND\n2 1 34686 487 33406 XOR\n2 1 33406 33412 20952 XOR\n2 1 20946 20952 21034 XOR\n2 1 20962 21034 21032 XOR\n2 1 33411 20952 21037 XOR\n2 1 33407 21037 21033 XOR\n2 1 21037 21033 21020 AND\n2 1 32765 5224 34670 XOR\n2 1 34670 503 33390 XOR\n2 1 33390 25630 25629 XOR\n2 1 33390 33396 25550 XOR\n2 1 25550 25545 25626 XOR\n2 1 25544 25550 25633 XOR\n2 1 25560 25633 25631 XOR\n2 1 33395 25550 25636 XOR\n2 1 33391 25636 25632 XOR\n2 1 33390 25505 25635 XOR\n2 1 25631 25629 25622 AND\n2 1 25616 25622 25567 XOR\n2 1 25567 25558 25614 XOR\n2 1 25635 33390 25621 AND\n2 1 25615 25621 25572 XOR\n2 1 25572 25544 25559 XOR\n2 1 25567 25559 25611 XOR\n2 1 25553 25572 25521 XOR\n2 1 33395 25521 25564 XOR\n2 1 25636 25632 25619 AND\n2 1 25619 25565 25613 XOR\n2 1 25633 25626 25618 AND\n2 1 25615 25618 25568 XOR\n2 1 25616 25568 25562 XOR\n2 1 25548 25568 25522 XOR\n2 1 25522 25547 25612 XOR\n2 1 25619 25562 25518 XOR\n2 1 33391 25518 25606 XOR\n2 1 25614 25613 25610 AND\n2 1 25610 25564 25605 XOR\n2 1 25610 25612 25609 XOR\n2 1 25611 25609 25608 AND\n2 1 25608 25564 25607 XOR\n2 1 25608 25620 25513 XOR\n2 1 25513 25549 25509 XOR\n2 1 33397 25509 25512 XOR\n2 1 25608 25558 25510 XOR\n2 1 33395 25509 25508 XOR\n2 1 25605 25606 25604 AND\n2 1 25604 25612 25603 XOR\n2 1 25610 25604 25602 XOR\n2 1 25604 25562 25517 XOR\n2 1 25604 25621 25516 XOR\n2 1 25516 25618 25511 XOR\n2 1 25511 25512 25595 XOR\n2 1 25612 25602 25601 AND\n2 1 25601 25609 25599 XOR\n2 1 25601 25619 25571 XOR\n2 1 25571 25565 25593 XOR\n2 1 33391 25571 25554 XOR\n2 1 25554 25517 25600 XOR\n2 1 25607 25599 25598 AND\n2 1 25598 25567 25557 XOR\n2 1 25557 25559 25597 XOR\n2 1 25598 25622 25515 XOR\n2 1 25554 25515 25507 XOR\n2 1 25544 25507 25514 XOR\n2 1 25511 25514 25596 XOR\n2 1 25557 25510 25594 XOR\n2 1 25507 25508 25592 XOR\n2 1 25593 25630 25591 AND\n2 1 25600 25629 25590 AND\n2 1 25603 33390 25589 AND\n2 1 25589 25591 25570 XOR\n2 1 25594 25624 25588 AND\n2 1 25597 25636 25587 AND\n2 1 25587 25588 25573 XOR\n2 1 25607 25626 25586 AND\n2 1 25586 25587 25524 XOR\n2 1 25595 25627 25585 AND\n2 1 25592 25625 25584 AND\n2 1 25584 25573 25563 XOR\n",
"2 1 25584 25587 25539 XOR\n1 1 25539 25536 INV\n2 1 25584 25585 25535 XOR\n2 1 25585 25563 25523 XOR\n2 1 25596 25628 25583 AND\n2 1 25593 25634 25582 AND\n2 1 25600 25631 25581 AND\n2 1 25603 25635 25580 AND\n2 1 25580 25563 25529 XOR\n1 1 25529 25526 INV\n2 1 25594 25639 25579 AND\n2 1 25579 25583 25555 XOR\n2 1 25588 25579 25540 XOR\n1 1 25555 25533 INV\n2 1 25597 25632 25578 AND\n2 1 25586 25578 25542 XOR\n2 1 25607 25633 25577 AND\n2 1 25533 25577 25532 XOR\n2 1 25532 25570 25528 XOR\n2 1 25595 25638 25576 AND\n2 1 25576 25528 25531 XOR\n2 1 25592 25640 25575 AND\n2 1 25575 25576 25569 XOR\n2 1 25581 25569 25551 XOR\n2 1 25582 25551 25552 XOR\n2 1 25590 25552 25556 XOR\n2 1 25591 25556 25561 XOR\n2 1 25573 25561 35035 XOR\n2 1 25542 25569 25538 XOR\n2 1 25570 25538 25541 XOR\n2 1 25540 25541 25644 XOR\n2 1 25533 25538 25537 XOR\n2 1 25536 25537 25643 XOR\n2 1 25561 25535 25642 XOR\n2 1 25551 25528 25527 XOR\n2 1 25526 25527 35033 XOR\n1 1 35033 5611 INV\n2 1 25589 25556 25525 XOR\n2 1 25524 25525 35034 XOR\n1 1 35034 5604 INV\n2 1 25552 25523 35038 XOR\n2 1 25596 25637 25574 AND\n2 1 25585 25574 25534 XOR\n1 1 25534 25530 INV\n2 1 25530 25531 25641 XOR\n1 1 25643 35032 INV\n1 1 25642 35037 INV\n1 1 25641 35036 INV\n2 1 22239 22240 32713 XOR\n2 1 32713 22214 35022 XOR\n1 1 35022 5695 INV\n2 1 22236 32713 22216 XOR\n2 1 22232 22216 22182 XOR\n1 1 22182 22179 INV\n2 1 22179 22180 35020 XOR\n2 1 22237 22216 22176 XOR\n2 1 22205 22176 35023 XOR\n1 1 4666 32766 INV\n2 1 32747 32766 5017 XOR\n2 1 32759 32766 5160 XOR\n2 1 5017 5021 5176 XOR\n2 1 32766 34812 5129 XOR\n2 1 32738 5176 34723 XOR\n2 1 34723 450 33443 XOR\n1 1 4944 32767 INV\n2 1 4980 32767 5090 XOR\n1 1 4945 32768 INV\n1 1 4946 32769 INV\n2 1 32769 34851 5236 XOR\n2 1 5030 32769 5294 XOR\n1 1 4947 32770 INV\n2 1 32770 32745 5279 XOR\n1 1 15485 32909 INV\n2 1 32909 32746 5293 XOR\n2 1 5294 5293 4950 XOR\n2 1 32909 32770 4995 XOR\n2 1 4995 5033 5235 XOR\n2 1 32746 5235 34758 XOR\n2 1 4995 5044 5055 XOR\n2 1 34758 415 33478 XOR\n1 1 15624 32913 INV\n2 1 32913 32752 4981 XOR\n2 1 4981 5040 5195 XOR\n2 1 4978 4981 5221 XOR\n1 1 5221 5223 INV\n2 1 4981 5035 5180 XOR\n2 1 32756 5195 34734 XOR\n2 1 34734 439 33454 XOR\n1 1 15482 32914 INV\n2 1 32743 32914 5020 XOR\n1 1 5020 5049 INV\n2 1 5049 32767 5051 XOR\n2 1 5020 5028 5088 XOR\n2 1 5051 5050 34763 XOR\n2 1 34763 410 33483 XOR\n2 1 4980 5020 5077 XOR\n2 1 32768 5077 34780 XOR\n2 1 34780 393 33500 XOR\n2 1 33498 33500 5475 XOR\n1 1 15483 32915 INV\n2 1 32915 32914 5089 XOR\n2 1 5090 5089 34788 XOR\n2 1 34788 385 33508 XOR\n2 1 32915 32744 5078 XOR\n2 1 5079 5078 34781 XOR\n2 1 34781 392 33501 XOR\n2 1 33498 33501 5567 XOR\n2 1 32915 32768 5022 XOR\n2 1 5022 32743 5067 XOR\n2 1 5022 5044 5091 XOR\n2 1 34858 5091 34789 XOR\n2 1 34789 384 33509 XOR\n2 1 33506 33508 23450 XOR\n2 1 33506 33509 23541 XOR\n1 1 15484 32916 INV\n2 1 32916 32769 5015 XOR\n2 1 32916 32745 5071 XOR\n2 1 5072 5071 34776 XOR\n2 1 34776 397 33496 XOR\n2 1 5005 5015 5084 XOR\n2 1 34855 5084 34784 XOR\n2 1 34784 389 33504 XOR\n2 1 33496 33498 5569 XOR\n2 1 33497 33496 5449 XOR\n2 1 33501 33496 5566 XOR\n2 1 33504 33506 23543 XOR\n2 1 33509 33504 23540 XOR\n1 1 15621 32918 INV\n",
"2 1 32918 32357 5216 XOR\n2 1 5217 5216 34748 XOR\n2 1 32918 5232 34755 XOR\n2 1 34748 425 33468 XOR\n2 1 32918 32757 5018 XOR\n2 1 33466 33468 20253 XOR\n2 1 20253 33467 20212 XOR\n2 1 5014 5018 5233 XOR\n2 1 34755 418 33475 XOR\n2 1 5000 5018 5204 XOR\n2 1 5018 34844 5184 XOR\n2 1 32761 5204 34739 XOR\n2 1 34739 434 33459 XOR\n2 1 33459 33461 18305 XOR\n1 1 5184 5186 INV\n2 1 5186 5185 34731 XOR\n2 1 34731 442 33451 XOR\n2 1 33451 33453 15247 XOR\n2 1 15247 15342 15327 XOR\n2 1 15342 15327 15318 AND\n1 1 15622 32919 INV\n2 1 32919 5233 34756 XOR\n2 1 34756 417 33476 XOR\n2 1 32919 32358 5218 XOR\n2 1 32919 32758 5029 XOR\n2 1 5007 5029 5205 XOR\n2 1 32762 5205 34740 XOR\n2 1 34740 433 33460 XOR\n2 1 33454 33460 18311 XOR\n2 1 18305 18311 18393 XOR\n2 1 33459 18311 18396 XOR\n2 1 5029 32757 5191 XOR\n2 1 5191 5190 5192 XOR\n1 1 5192 34732 INV\n2 1 34732 441 33452 XOR\n2 1 33450 33452 15249 XOR\n2 1 15249 15247 15209 XOR\n2 1 15249 33451 15208 XOR\n2 1 5029 5040 5234 XOR\n2 1 34841 5234 34757 XOR\n2 1 34757 416 33477 XOR\n2 1 33475 33477 20807 XOR\n1 1 15623 32920 INV\n2 1 32920 32359 5211 XOR\n2 1 5212 5211 34744 XOR\n2 1 32920 32751 4989 XOR\n2 1 34744 429 33464 XOR\n2 1 4961 4989 34727 XOR\n2 1 34727 446 33447 XOR\n2 1 33447 33449 15246 XOR\n2 1 33448 15246 15248 XOR\n2 1 33452 15248 15329 XOR\n2 1 33451 15248 15326 XOR\n2 1 15246 15340 15332 XOR\n2 1 33447 33448 15263 XOR\n2 1 15340 15263 15336 XOR\n2 1 15246 15209 15330 XOR\n2 1 33453 33447 15341 XOR\n2 1 15332 15336 15325 AND\n2 1 15325 15249 15252 XOR\n2 1 15341 15326 15322 AND\n2 1 15322 15247 15251 XOR\n2 1 15340 15329 15319 AND\n2 1 15319 15248 15250 XOR\n2 1 15252 15250 15256 XOR\n2 1 33453 15256 15261 XOR\n2 1 15318 15319 15222 XOR\n2 1 15222 15223 15269 XOR\n2 1 15269 15251 15268 XOR\n2 1 15339 15330 15317 AND\n2 1 33464 33466 20346 XOR\n2 1 33465 33464 20227 XOR\n2 1 4985 4989 5225 XOR\n2 1 34838 5225 34752 XOR\n2 1 34752 421 33472 XOR\n2 1 33477 33472 20899 XOR\n1 1 21184 32997 INV\n2 1 32734 32997 5004 XOR\n2 1 5004 5032 5126 XOR\n2 1 32760 5126 34694 XOR\n2 1 34694 479 33414 XOR\n2 1 5286 32997 5288 XOR\n2 1 5288 5287 4953 XOR\n2 1 32997 5153 34710 XOR\n2 1 34710 463 33430 XOR\n2 1 5004 5041 5138 XOR\n2 1 32750 5138 34702 XOR\n2 1 34702 471 33422 XOR\n2 1 5002 5004 5165 XOR\n2 1 5165 5164 34719 XOR\n2 1 34719 454 33439 XOR\n2 1 33439 33441 17470 XOR\n1 1 21181 33002 INV\n2 1 32738 33002 5026 XOR\n2 1 33002 32747 5131 XOR\n2 1 5026 34825 5130 XOR\n2 1 5130 5129 34699 XOR\n2 1 34699 474 33419 XOR\n2 1 5017 33002 5157 XOR\n1 1 5157 5159 INV\n2 1 5159 5158 34715 XOR\n2 1 34715 458 33435 XOR\n2 1 33435 33437 22058 XOR\n2 1 22058 22153 22138 XOR\n2 1 22153 22138 22129 AND\n2 1 5024 5026 5177 XOR\n2 1 32748 5177 34724 XOR\n2 1 34724 449 33444 XOR\n2 1 33442 33444 17473 XOR\n2 1 33438 33444 17477 XOR\n2 1 33443 17477 17562 XOR\n2 1 33439 17562 17558 XOR\n2 1 17473 33443 17432 XOR\n2 1 33438 17432 17561 XOR\n2 1 17561 33438 17547 AND\n2 1 17562 17558 17545 AND\n2 1 5013 5026 5149 XOR\n2 1 32747 5149 34707 XOR\n2 1 34707 466 33427 XOR\n2 1 33427 33429 18444 XOR\n2 1 18444 18539 18524 XOR\n2 1 18539 18524 18515 AND\n1 1 21182 33003 INV\n2 1 32748 33003 5023 XOR\n2 1 5017 5023 5150 XOR\n2 1 5023 5042 5133 XOR\n2 1 32732 5150 34708 XOR\n2 1 34708 465 33428 XOR\n",
"2 1 33426 33428 18446 XOR\n2 1 33422 33428 18450 XOR\n2 1 18444 18450 18532 XOR\n2 1 33427 18450 18535 XOR\n2 1 18446 18444 18406 XOR\n2 1 18446 33427 18405 XOR\n2 1 33422 18405 18534 XOR\n2 1 18534 33422 18520 AND\n2 1 5024 33003 5132 XOR\n2 1 5132 5131 34700 XOR\n2 1 34700 473 33420 XOR\n2 1 33418 33420 20392 XOR\n2 1 33414 33420 20396 XOR\n2 1 33419 20396 20481 XOR\n2 1 20392 33419 20351 XOR\n2 1 33414 20351 20480 XOR\n2 1 20480 33414 20466 AND\n2 1 5041 33003 5179 XOR\n2 1 5179 5178 34725 XOR\n2 1 34725 448 33445 XOR\n2 1 33443 33445 17471 XOR\n2 1 33442 33445 17564 XOR\n2 1 17471 17477 17559 XOR\n2 1 17470 17564 17556 XOR\n2 1 33438 17556 17555 XOR\n2 1 17473 17471 17433 XOR\n2 1 17470 17433 17554 XOR\n2 1 33445 33439 17565 XOR\n2 1 34818 5133 34701 XOR\n2 1 34701 472 33421 XOR\n2 1 33419 33421 20390 XOR\n2 1 33418 33421 20483 XOR\n2 1 20390 20396 20478 XOR\n2 1 20392 20390 20352 XOR\n2 1 5023 32738 5161 XOR\n2 1 5161 5160 34716 XOR\n2 1 34716 457 33436 XOR\n2 1 33434 33436 22060 XOR\n2 1 33430 33436 22064 XOR\n2 1 22058 22064 22146 XOR\n2 1 33435 22064 22149 XOR\n2 1 22060 22058 22020 XOR\n2 1 22060 33435 22019 XOR\n2 1 33430 22019 22148 XOR\n2 1 22148 33430 22134 AND\n1 1 21183 33004 INV\n2 1 5034 33004 5276 XOR\n2 1 5276 5275 4958 XOR\n2 1 5011 33004 5128 XOR\n2 1 5128 5127 34696 XOR\n2 1 34696 477 33416 XOR\n2 1 4958 5002 34711 XOR\n2 1 34711 462 33431 XOR\n2 1 32733 33004 5008 XOR\n2 1 4953 5008 34695 XOR\n2 1 34695 478 33415 XOR\n2 1 33415 33417 20389 XOR\n2 1 33416 20389 20391 XOR\n2 1 33420 20391 20472 XOR\n2 1 33419 20391 20469 XOR\n2 1 20396 20391 20471 XOR\n2 1 33415 20481 20477 XOR\n2 1 20389 20483 20475 XOR\n2 1 33414 20475 20474 XOR\n2 1 33415 33416 20406 XOR\n2 1 20406 20478 20476 XOR\n2 1 20483 20406 20479 XOR\n2 1 33416 33418 20485 XOR\n2 1 20390 20485 20470 XOR\n2 1 33417 33416 20366 XOR\n2 1 20389 20352 20473 XOR\n2 1 33421 33415 20484 XOR\n2 1 33421 33416 20482 XOR\n2 1 20475 20479 20468 AND\n2 1 20468 20392 20395 XOR\n2 1 20476 20474 20467 AND\n2 1 20484 20469 20465 AND\n2 1 20465 20390 20394 XOR\n2 1 20481 20477 20464 AND\n2 1 20478 20471 20463 AND\n2 1 20483 20472 20462 AND\n2 1 20462 20391 20393 XOR\n2 1 20395 20393 20399 XOR\n2 1 33421 20399 20404 XOR\n2 1 20485 20470 20461 AND\n2 1 20461 20467 20413 XOR\n2 1 20413 20404 20459 XOR\n2 1 20461 20462 20365 XOR\n2 1 20365 20366 20412 XOR\n2 1 20412 20394 20411 XOR\n2 1 20464 20411 20458 XOR\n2 1 20482 20473 20460 AND\n2 1 20460 20463 20414 XOR\n2 1 20460 20466 20418 XOR\n2 1 20418 20390 20405 XOR\n2 1 20413 20405 20456 XOR\n2 1 20461 20414 20408 XOR\n2 1 20394 20414 20368 XOR\n2 1 20368 20393 20457 XOR\n2 1 20399 20418 20367 XOR\n2 1 33419 20367 20410 XOR\n2 1 20464 20408 20364 XOR\n2 1 33415 20364 20451 XOR\n2 1 20459 20458 20455 AND\n2 1 20455 20410 20450 XOR\n2 1 20455 20457 20454 XOR\n2 1 20456 20454 20453 AND\n2 1 20453 20410 20452 XOR\n2 1 20453 20465 20359 XOR\n2 1 20359 20395 20355 XOR\n2 1 33421 20355 20358 XOR\n2 1 20453 20404 20356 XOR\n2 1 33419 20355 20354 XOR\n2 1 20450 20451 20449 AND\n2 1 20449 20457 20448 XOR\n2 1 20455 20449 20447 XOR\n2 1 20449 20408 20363 XOR\n2 1 20449 20466 20362 XOR\n2 1 20362 20463 20357 XOR\n2 1 20357 20358 20440 XOR\n2 1 20457 20447 20446 AND\n2 1 20446 20454 20444 XOR\n2 1 20446 20464 20417 XOR\n2 1 20417 20411 20438 XOR\n2 1 33415 20417 20400 XOR\n2 1 20400 20363 20445 XOR\n2 1 20452 20444 20443 AND\n2 1 20443 20413 20403 XOR\n",
"2 1 20403 20405 20442 XOR\n2 1 20443 20467 20361 XOR\n2 1 20400 20361 20353 XOR\n2 1 20390 20353 20360 XOR\n2 1 20357 20360 20441 XOR\n2 1 20403 20356 20439 XOR\n2 1 20353 20354 20437 XOR\n2 1 20438 20475 20436 AND\n2 1 20445 20474 20435 AND\n2 1 20448 33414 20434 AND\n2 1 20434 20436 20416 XOR\n2 1 20439 20469 20433 AND\n2 1 20442 20481 20432 AND\n2 1 20452 20471 20431 AND\n2 1 20431 20432 20370 XOR\n2 1 20440 20472 20430 AND\n2 1 20437 20470 20429 AND\n2 1 20429 20432 20385 XOR\n1 1 20385 20382 INV\n2 1 20429 20430 20381 XOR\n2 1 20441 20473 20428 AND\n2 1 20438 20479 20427 AND\n2 1 20445 20476 20426 AND\n2 1 20448 20480 20425 AND\n2 1 20439 20484 20424 AND\n2 1 20424 20428 20401 XOR\n2 1 20433 20424 20386 XOR\n1 1 20401 20379 INV\n2 1 20442 20477 20423 AND\n2 1 20431 20423 20388 XOR\n2 1 20452 20478 20422 AND\n2 1 20379 20422 20378 XOR\n2 1 20378 20416 20374 XOR\n2 1 20440 20483 20421 AND\n2 1 20421 20374 20377 XOR\n2 1 20437 20485 20420 AND\n2 1 20420 20421 20415 XOR\n2 1 20426 20415 20397 XOR\n2 1 20427 20397 20398 XOR\n2 1 20435 20398 20402 XOR\n2 1 20436 20402 20407 XOR\n2 1 20388 20415 20384 XOR\n2 1 20416 20384 20387 XOR\n2 1 20386 20387 20489 XOR\n2 1 20379 20384 20383 XOR\n2 1 20382 20383 20488 XOR\n2 1 20407 20381 20487 XOR\n2 1 20397 20374 20373 XOR\n2 1 20434 20402 20371 XOR\n2 1 20370 20371 34992 XOR\n2 1 20441 20482 20419 AND\n2 1 20430 20419 20380 XOR\n1 1 20380 20376 INV\n2 1 20376 20377 20486 XOR\n2 1 33431 33433 22057 XOR\n2 1 33432 22057 22059 XOR\n2 1 33436 22059 22140 XOR\n2 1 33435 22059 22137 XOR\n2 1 22064 22059 22139 XOR\n2 1 33431 22149 22145 XOR\n2 1 22057 22151 22143 XOR\n2 1 33430 22143 22142 XOR\n2 1 33431 33432 22074 XOR\n2 1 22074 22146 22144 XOR\n2 1 22151 22074 22147 XOR\n2 1 22057 22020 22141 XOR\n2 1 33437 33431 22152 XOR\n2 1 22143 22147 22136 AND\n2 1 22136 22060 22063 XOR\n2 1 22144 22142 22135 AND\n2 1 22129 22135 22081 XOR\n2 1 22152 22137 22133 AND\n2 1 22133 22058 22062 XOR\n2 1 22149 22145 22132 AND\n2 1 22146 22139 22131 AND\n2 1 22151 22140 22130 AND\n2 1 22130 22059 22061 XOR\n2 1 22063 22061 22067 XOR\n2 1 33437 22067 22072 XOR\n2 1 22081 22072 22127 XOR\n2 1 22129 22130 22033 XOR\n2 1 22033 22034 22080 XOR\n2 1 22080 22062 22079 XOR\n2 1 22132 22079 22126 XOR\n2 1 22150 22141 22128 AND\n2 1 22128 22131 22082 XOR\n2 1 22128 22134 22086 XOR\n2 1 22086 22058 22073 XOR\n2 1 22081 22073 22124 XOR\n2 1 22129 22082 22076 XOR\n2 1 22062 22082 22036 XOR\n2 1 22036 22061 22125 XOR\n2 1 22067 22086 22035 XOR\n2 1 33435 22035 22078 XOR\n2 1 22132 22076 22032 XOR\n2 1 33431 22032 22119 XOR\n2 1 22127 22126 22123 AND\n2 1 22123 22078 22118 XOR\n2 1 22123 22125 22122 XOR\n2 1 22124 22122 22121 AND\n2 1 22121 22078 22120 XOR\n2 1 22121 22133 22027 XOR\n2 1 22027 22063 22023 XOR\n2 1 33437 22023 22026 XOR\n2 1 22121 22072 22024 XOR\n2 1 33435 22023 22022 XOR\n2 1 22118 22119 22117 AND\n2 1 22117 22125 22116 XOR\n2 1 22123 22117 22115 XOR\n2 1 22117 22076 22031 XOR\n2 1 22117 22134 22030 XOR\n2 1 22030 22131 22025 XOR\n2 1 22025 22026 22108 XOR\n2 1 22125 22115 22114 AND\n2 1 22114 22122 22112 XOR\n2 1 22114 22132 22085 XOR\n2 1 22085 22079 22106 XOR\n2 1 33431 22085 22068 XOR\n2 1 22068 22031 22113 XOR\n2 1 22120 22112 22111 AND\n2 1 22111 22081 22071 XOR\n2 1 22071 22073 22110 XOR\n2 1 22111 22135 22029 XOR\n2 1 22068 22029 22021 XOR\n2 1 22058 22021 22028 XOR\n2 1 22025 22028 22109 XOR\n2 1 22071 22024 22107 XOR\n2 1 22021 22022 22105 XOR\n",
"2 1 22106 22143 22104 AND\n2 1 22113 22142 22103 AND\n2 1 22116 33430 22102 AND\n2 1 22102 22104 22084 XOR\n2 1 22107 22137 22101 AND\n2 1 22110 22149 22100 AND\n2 1 22120 22139 22099 AND\n2 1 22099 22100 22038 XOR\n2 1 22108 22140 22098 AND\n2 1 22105 22138 22097 AND\n2 1 22097 22100 22053 XOR\n1 1 22053 22050 INV\n2 1 22097 22098 22049 XOR\n2 1 22109 22141 22096 AND\n2 1 22106 22147 22095 AND\n2 1 22113 22144 22094 AND\n2 1 22116 22148 22093 AND\n2 1 22107 22152 22092 AND\n2 1 22092 22096 22069 XOR\n2 1 22101 22092 22054 XOR\n1 1 22069 22047 INV\n2 1 22110 22145 22091 AND\n2 1 22099 22091 22056 XOR\n2 1 22120 22146 22090 AND\n2 1 22047 22090 22046 XOR\n2 1 22046 22084 22042 XOR\n2 1 22108 22151 22089 AND\n2 1 22089 22042 22045 XOR\n2 1 22105 22153 22088 AND\n2 1 22088 22089 22083 XOR\n2 1 22094 22083 22065 XOR\n2 1 22095 22065 22066 XOR\n2 1 22103 22066 22070 XOR\n2 1 22104 22070 22075 XOR\n2 1 22056 22083 22052 XOR\n2 1 22084 22052 22055 XOR\n2 1 22054 22055 22157 XOR\n2 1 22047 22052 22051 XOR\n2 1 22050 22051 22156 XOR\n2 1 22075 22049 22155 XOR\n2 1 22065 22042 22041 XOR\n2 1 22102 22070 22039 XOR\n2 1 22038 22039 35040 XOR\n2 1 35040 5604 5614 XOR\n2 1 22109 22150 22087 AND\n2 1 22098 22087 22048 XOR\n1 1 22048 22044 INV\n2 1 22044 22045 22154 XOR\n2 1 5006 5008 5166 XOR\n2 1 34819 5166 34720 XOR\n2 1 34720 453 33440 XOR\n2 1 33440 17470 17472 XOR\n2 1 33444 17472 17553 XOR\n2 1 33443 17472 17550 XOR\n2 1 17477 17472 17552 XOR\n2 1 33439 33440 17487 XOR\n2 1 17487 17559 17557 XOR\n2 1 17564 17487 17560 XOR\n2 1 33440 33442 17566 XOR\n2 1 17471 17566 17551 XOR\n2 1 33441 33440 17447 XOR\n2 1 33445 33440 17563 XOR\n2 1 17556 17560 17549 AND\n2 1 17549 17473 17476 XOR\n2 1 17557 17555 17548 AND\n2 1 17565 17550 17546 AND\n2 1 17546 17471 17475 XOR\n2 1 17559 17552 17544 AND\n2 1 17564 17553 17543 AND\n2 1 17543 17472 17474 XOR\n2 1 17476 17474 17480 XOR\n2 1 33445 17480 17485 XOR\n2 1 17566 17551 17542 AND\n2 1 17542 17548 17494 XOR\n2 1 17494 17485 17540 XOR\n2 1 17542 17543 17446 XOR\n2 1 17446 17447 17493 XOR\n2 1 17493 17475 17492 XOR\n2 1 17545 17492 17539 XOR\n2 1 17563 17554 17541 AND\n2 1 17541 17544 17495 XOR\n2 1 17541 17547 17499 XOR\n2 1 17499 17471 17486 XOR\n2 1 17494 17486 17537 XOR\n2 1 17542 17495 17489 XOR\n2 1 17475 17495 17449 XOR\n2 1 17449 17474 17538 XOR\n2 1 17480 17499 17448 XOR\n2 1 33443 17448 17491 XOR\n2 1 17545 17489 17445 XOR\n2 1 33439 17445 17532 XOR\n2 1 17540 17539 17536 AND\n2 1 17536 17491 17531 XOR\n2 1 17536 17538 17535 XOR\n2 1 17537 17535 17534 AND\n2 1 17534 17491 17533 XOR\n2 1 17534 17546 17440 XOR\n2 1 17440 17476 17436 XOR\n2 1 33445 17436 17439 XOR\n2 1 17534 17485 17437 XOR\n2 1 33443 17436 17435 XOR\n2 1 17531 17532 17530 AND\n2 1 17530 17538 17529 XOR\n2 1 17536 17530 17528 XOR\n2 1 17530 17489 17444 XOR\n2 1 17530 17547 17443 XOR\n2 1 17443 17544 17438 XOR\n2 1 17438 17439 17521 XOR\n2 1 17538 17528 17527 AND\n2 1 17527 17535 17525 XOR\n2 1 17527 17545 17498 XOR\n2 1 17498 17492 17519 XOR\n2 1 33439 17498 17481 XOR\n2 1 17481 17444 17526 XOR\n2 1 17533 17525 17524 AND\n2 1 17524 17494 17484 XOR\n2 1 17484 17486 17523 XOR\n2 1 17524 17548 17442 XOR\n2 1 17481 17442 17434 XOR\n2 1 17471 17434 17441 XOR\n2 1 17438 17441 17522 XOR\n2 1 17484 17437 17520 XOR\n2 1 17434 17435 17518 XOR\n2 1 17519 17556 17517 AND\n2 1 17526 17555 17516 AND\n2 1 17529 33438 17515 AND\n2 1 17515 17517 17497 XOR\n2 1 17520 17550 17514 AND\n",
"2 1 17523 17562 17513 AND\n2 1 17533 17552 17512 AND\n2 1 17512 17513 17451 XOR\n2 1 17521 17553 17511 AND\n2 1 17518 17551 17510 AND\n2 1 17510 17513 17466 XOR\n1 1 17466 17463 INV\n2 1 17510 17511 17462 XOR\n2 1 17522 17554 17509 AND\n2 1 17519 17560 17508 AND\n2 1 17526 17557 17507 AND\n2 1 17529 17561 17506 AND\n2 1 17520 17565 17505 AND\n2 1 17505 17509 17482 XOR\n2 1 17514 17505 17467 XOR\n1 1 17482 17460 INV\n2 1 17523 17558 17504 AND\n2 1 17512 17504 17469 XOR\n2 1 17533 17559 17503 AND\n2 1 17460 17503 17459 XOR\n2 1 17459 17497 17455 XOR\n2 1 17521 17564 17502 AND\n2 1 17502 17455 17458 XOR\n2 1 17518 17566 17501 AND\n2 1 17501 17502 17496 XOR\n2 1 17507 17496 17478 XOR\n2 1 17508 17478 17479 XOR\n2 1 17516 17479 17483 XOR\n2 1 17517 17483 17488 XOR\n2 1 17469 17496 17465 XOR\n2 1 17497 17465 17468 XOR\n2 1 17467 17468 17570 XOR\n2 1 17460 17465 17464 XOR\n2 1 17463 17464 17569 XOR\n2 1 17488 17462 17568 XOR\n2 1 17478 17455 17454 XOR\n2 1 17515 17483 17452 XOR\n2 1 17451 17452 35025 XOR\n2 1 17522 17563 17500 AND\n2 1 17511 17500 17461 XOR\n1 1 17461 17457 INV\n2 1 17457 17458 17567 XOR\n2 1 35021 35025 5851 XOR\n2 1 5001 5008 5140 XOR\n2 1 5140 5139 5141 XOR\n1 1 5141 34703 INV\n2 1 34703 470 33423 XOR\n2 1 33423 33425 18443 XOR\n2 1 33424 18443 18445 XOR\n2 1 33428 18445 18526 XOR\n2 1 33427 18445 18523 XOR\n2 1 18450 18445 18525 XOR\n2 1 33423 18535 18531 XOR\n2 1 18443 18537 18529 XOR\n2 1 33422 18529 18528 XOR\n2 1 33423 33424 18460 XOR\n2 1 18460 18532 18530 XOR\n2 1 18537 18460 18533 XOR\n2 1 18443 18406 18527 XOR\n2 1 33429 33423 18538 XOR\n2 1 18529 18533 18522 AND\n2 1 18522 18446 18449 XOR\n2 1 18530 18528 18521 AND\n2 1 18515 18521 18467 XOR\n2 1 18538 18523 18519 AND\n2 1 18519 18444 18448 XOR\n2 1 18535 18531 18518 AND\n2 1 18532 18525 18517 AND\n2 1 18537 18526 18516 AND\n2 1 18516 18445 18447 XOR\n2 1 18449 18447 18453 XOR\n2 1 33429 18453 18458 XOR\n2 1 18467 18458 18513 XOR\n2 1 18515 18516 18419 XOR\n2 1 18419 18420 18466 XOR\n2 1 18466 18448 18465 XOR\n2 1 18518 18465 18512 XOR\n2 1 18536 18527 18514 AND\n2 1 18514 18517 18468 XOR\n2 1 18514 18520 18472 XOR\n2 1 18472 18444 18459 XOR\n2 1 18467 18459 18510 XOR\n2 1 18515 18468 18462 XOR\n2 1 18448 18468 18422 XOR\n2 1 18422 18447 18511 XOR\n2 1 18453 18472 18421 XOR\n2 1 33427 18421 18464 XOR\n2 1 18518 18462 18418 XOR\n2 1 33423 18418 18505 XOR\n2 1 18513 18512 18509 AND\n2 1 18509 18464 18504 XOR\n2 1 18509 18511 18508 XOR\n2 1 18510 18508 18507 AND\n2 1 18507 18464 18506 XOR\n2 1 18507 18519 18413 XOR\n2 1 18413 18449 18409 XOR\n2 1 33429 18409 18412 XOR\n2 1 18507 18458 18410 XOR\n2 1 33427 18409 18408 XOR\n2 1 18504 18505 18503 AND\n2 1 18503 18511 18502 XOR\n2 1 18509 18503 18501 XOR\n2 1 18503 18462 18417 XOR\n2 1 18503 18520 18416 XOR\n2 1 18416 18517 18411 XOR\n2 1 18411 18412 18494 XOR\n2 1 18511 18501 18500 AND\n2 1 18500 18508 18498 XOR\n2 1 18500 18518 18471 XOR\n2 1 18471 18465 18492 XOR\n2 1 33423 18471 18454 XOR\n2 1 18454 18417 18499 XOR\n2 1 18506 18498 18497 AND\n2 1 18497 18467 18457 XOR\n2 1 18457 18459 18496 XOR\n2 1 18497 18521 18415 XOR\n2 1 18454 18415 18407 XOR\n2 1 18444 18407 18414 XOR\n2 1 18411 18414 18495 XOR\n2 1 18457 18410 18493 XOR\n2 1 18407 18408 18491 XOR\n2 1 18492 18529 18490 AND\n2 1 18499 18528 18489 AND\n2 1 18502 33422 18488 AND\n2 1 18488 18490 18470 XOR\n2 1 18493 18523 18487 AND\n2 1 18496 18535 18486 AND\n2 1 18506 18525 18485 AND\n",
"2 1 18485 18486 18424 XOR\n2 1 18494 18526 18484 AND\n2 1 18491 18524 18483 AND\n2 1 18483 18486 18439 XOR\n1 1 18439 18436 INV\n2 1 18483 18484 18435 XOR\n2 1 18495 18527 18482 AND\n2 1 18492 18533 18481 AND\n2 1 18499 18530 18480 AND\n2 1 18502 18534 18479 AND\n2 1 18493 18538 18478 AND\n2 1 18478 18482 18455 XOR\n2 1 18487 18478 18440 XOR\n1 1 18455 18433 INV\n2 1 18496 18531 18477 AND\n2 1 18485 18477 18442 XOR\n2 1 18506 18532 18476 AND\n2 1 18433 18476 18432 XOR\n2 1 18432 18470 18428 XOR\n2 1 18494 18537 18475 AND\n2 1 18475 18428 18431 XOR\n2 1 18491 18539 18474 AND\n2 1 18474 18475 18469 XOR\n2 1 18480 18469 18451 XOR\n2 1 18481 18451 18452 XOR\n2 1 18489 18452 18456 XOR\n2 1 18490 18456 18461 XOR\n2 1 18442 18469 18438 XOR\n2 1 18470 18438 18441 XOR\n2 1 18440 18441 18543 XOR\n2 1 18433 18438 18437 XOR\n2 1 18436 18437 18542 XOR\n2 1 18461 18435 18541 XOR\n2 1 18451 18428 18427 XOR\n2 1 18488 18456 18425 XOR\n2 1 18424 18425 35053 XOR\n2 1 18495 18536 18473 AND\n2 1 18484 18473 18434 XOR\n1 1 18434 18430 INV\n2 1 18430 18431 18540 XOR\n2 1 17513 17514 32679 XOR\n2 1 32679 17488 35026 XOR\n2 1 35022 35026 5846 XOR\n2 1 17510 32679 17490 XOR\n2 1 17506 17490 17456 XOR\n1 1 17456 17453 INV\n2 1 17453 17454 35024 XOR\n2 1 17511 17490 17450 XOR\n2 1 17479 17450 35027 XOR\n2 1 35020 35024 5856 XOR\n2 1 35023 35027 5825 XOR\n2 1 5825 5695 5694 XOR\n2 1 5825 35021 5701 XOR\n2 1 18486 18487 32686 XOR\n2 1 18483 32686 18463 XOR\n2 1 18479 18463 18429 XOR\n1 1 18429 18426 INV\n2 1 18484 18463 18423 XOR\n2 1 18452 18423 35055 XOR\n2 1 18426 18427 35052 XOR\n2 1 35053 35052 5577 XOR\n2 1 32686 18461 35054 XOR\n2 1 20432 20433 32700 XOR\n2 1 32700 20407 34993 XOR\n2 1 20429 32700 20409 XOR\n2 1 20425 20409 20375 XOR\n1 1 20375 20372 INV\n2 1 20372 20373 34991 XOR\n2 1 20430 20409 20369 XOR\n2 1 20398 20369 34994 XOR\n2 1 22100 22101 32712 XOR\n2 1 32712 22075 35041 XOR\n2 1 35041 35035 5655 XOR\n2 1 22097 32712 22077 XOR\n2 1 22093 22077 22043 XOR\n1 1 22043 22040 INV\n2 1 22040 22041 35039 XOR\n2 1 35039 5611 5610 XOR\n2 1 22098 22077 22037 XOR\n2 1 22066 22037 35042 XOR\n2 1 35038 35042 5831 XOR\n1 1 5831 5612 INV\n1 1 17569 32933 INV\n2 1 5856 32933 5739 XOR\n1 1 17570 32934 INV\n1 1 17567 32939 INV\n1 1 17568 32940 INV\n1 1 18542 32949 INV\n1 1 18543 32950 INV\n1 1 18540 32955 INV\n2 1 32955 35054 5792 XOR\n1 1 18541 32956 INV\n1 1 20486 32985 INV\n1 1 20487 32986 INV\n1 1 20488 32987 INV\n1 1 20489 32988 INV\n1 1 22157 33009 INV\n1 1 22296 33013 INV\n2 1 33013 32934 5863 XOR\n1 1 22154 33014 INV\n2 1 33014 25641 5652 XOR\n1 1 22155 33015 INV\n2 1 33015 25642 5650 XOR\n1 1 22156 33016 INV\n2 1 33016 25643 5657 XOR\n1 1 22293 33018 INV\n2 1 33018 32939 5841 XOR\n2 1 5841 35026 5737 XOR\n1 1 22294 33019 INV\n2 1 35023 33019 5690 XOR\n1 1 22295 33020 INV\n2 1 33020 32933 5859 XOR\n2 1 5825 33020 5704 XOR\n1 1 25644 33068 INV\n2 1 33009 33068 5608 XOR\n1 1 32081 33221 INV\n2 1 5027 33221 5237 XOR\n2 1 5237 5236 34760 XOR\n2 1 34760 413 33480 XOR\n2 1 33221 32745 4990 XOR\n1 1 4990 5081 INV\n2 1 4990 5027 5059 XOR\n2 1 34846 5059 34768 XOR\n2 1 34768 405 33488 XOR\n2 1 5081 4995 5083 XOR\n2 1 4948 33221 5056 XOR\n2 1 4950 4990 34775 XOR\n2 1 34775 398 33495 XOR\n",
"2 1 33495 33497 5472 XOR\n2 1 33496 5472 5474 XOR\n2 1 33500 5474 5556 XOR\n2 1 33489 33488 5310 XOR\n2 1 33488 33490 5429 XOR\n2 1 33493 33488 5426 XOR\n2 1 5567 5556 5546 AND\n2 1 5546 5474 5476 XOR\n2 1 5472 5567 5559 XOR\n2 1 33495 33496 5489 XOR\n2 1 5567 5489 5563 XOR\n2 1 5559 5563 5552 AND\n2 1 5552 5475 5478 XOR\n2 1 5478 5476 5482 XOR\n2 1 33501 5482 5487 XOR\n2 1 33501 33495 5568 XOR\n2 1 33480 33482 22014 XOR\n2 1 33481 33480 21895 XOR\n1 1 32082 33222 INV\n2 1 5033 33222 5280 XOR\n2 1 33222 5055 34766 XOR\n2 1 34766 407 33486 XOR\n2 1 5280 5279 4956 XOR\n2 1 4956 5015 34759 XOR\n2 1 34759 414 33479 XOR\n2 1 33222 32746 4982 XOR\n2 1 4982 5030 5070 XOR\n2 1 32770 5070 34774 XOR\n2 1 34774 399 33494 XOR\n2 1 33494 33500 5479 XOR\n2 1 5479 5474 5555 XOR\n2 1 4982 5015 5057 XOR\n2 1 5057 5056 5058 XOR\n1 1 5058 34767 INV\n2 1 4982 5045 5080 XOR\n2 1 32909 5080 34782 XOR\n2 1 34782 391 33502 XOR\n2 1 34767 406 33487 XOR\n2 1 33487 33488 5350 XOR\n2 1 33494 5559 5558 XOR\n2 1 33493 33487 5428 XOR\n2 1 5427 5350 5423 XOR\n2 1 33479 33481 21918 XOR\n2 1 33480 21918 21920 XOR\n2 1 33483 21920 21998 XOR\n2 1 33479 33480 21935 XOR\n2 1 33487 33489 5333 XOR\n2 1 33488 5333 5335 XOR\n2 1 5333 5427 5419 XOR\n2 1 5419 5423 5412 AND\n2 1 33486 5419 5418 XOR\n2 1 33502 33508 23454 XOR\n1 1 32360 33225 INV\n2 1 32756 33225 4977 XOR\n2 1 4977 5043 5220 XOR\n2 1 32913 33225 5260 XOR\n2 1 5261 5260 4964 XOR\n2 1 4964 4978 34743 XOR\n2 1 34743 430 33463 XOR\n2 1 33463 33465 20250 XOR\n2 1 33464 20250 20252 XOR\n2 1 33468 20252 20333 XOR\n2 1 33467 20252 20330 XOR\n2 1 33463 33464 20267 XOR\n2 1 32913 5220 34750 XOR\n2 1 34750 423 33470 XOR\n2 1 33470 33476 20813 XOR\n2 1 20807 20813 20895 XOR\n2 1 33475 20813 20898 XOR\n2 1 4977 4989 5197 XOR\n2 1 4977 5036 5209 XOR\n2 1 32752 5209 34742 XOR\n2 1 34742 431 33462 XOR\n2 1 33462 33468 20257 XOR\n2 1 20257 20252 20332 XOR\n2 1 33467 20257 20342 XOR\n2 1 33463 20342 20338 XOR\n2 1 33462 20212 20341 XOR\n2 1 20341 33462 20327 AND\n2 1 20342 20338 20325 AND\n2 1 33225 5180 34726 XOR\n2 1 34726 447 33446 XOR\n2 1 33446 15332 15331 XOR\n2 1 33446 33452 15253 XOR\n2 1 15253 15248 15328 XOR\n2 1 15247 15253 15335 XOR\n2 1 15263 15335 15333 XOR\n2 1 33451 15253 15338 XOR\n2 1 33447 15338 15334 XOR\n2 1 33446 15208 15337 XOR\n2 1 15333 15331 15324 AND\n2 1 15318 15324 15270 XOR\n2 1 15270 15261 15316 XOR\n2 1 15337 33446 15323 AND\n2 1 15317 15323 15275 XOR\n2 1 15275 15247 15262 XOR\n2 1 15270 15262 15313 XOR\n2 1 15256 15275 15224 XOR\n2 1 33451 15224 15267 XOR\n2 1 15338 15334 15321 AND\n2 1 15321 15268 15315 XOR\n2 1 15335 15328 15320 AND\n2 1 15317 15320 15271 XOR\n2 1 15318 15271 15265 XOR\n2 1 15251 15271 15225 XOR\n2 1 15225 15250 15314 XOR\n2 1 15321 15265 15221 XOR\n2 1 33447 15221 15308 XOR\n2 1 15316 15315 15312 AND\n2 1 15312 15267 15307 XOR\n2 1 15312 15314 15311 XOR\n2 1 15313 15311 15310 AND\n2 1 15310 15267 15309 XOR\n2 1 15310 15322 15216 XOR\n2 1 15216 15252 15212 XOR\n2 1 33453 15212 15215 XOR\n2 1 15310 15261 15213 XOR\n2 1 33451 15212 15211 XOR\n2 1 15307 15308 15306 AND\n2 1 15306 15314 15305 XOR\n2 1 15312 15306 15304 XOR\n2 1 15306 15265 15220 XOR\n2 1 15306 15323 15219 XOR\n2 1 15219 15320 15214 XOR\n2 1 15214 15215 15297 XOR\n2 1 15314 15304 15303 AND\n2 1 15303 15311 15301 XOR\n2 1 15303 15321 15274 XOR\n",
"2 1 15274 15268 15295 XOR\n2 1 33447 15274 15257 XOR\n2 1 15257 15220 15302 XOR\n2 1 15309 15301 15300 AND\n2 1 15300 15270 15260 XOR\n2 1 15260 15262 15299 XOR\n2 1 15300 15324 15218 XOR\n2 1 15257 15218 15210 XOR\n2 1 15247 15210 15217 XOR\n2 1 15214 15217 15298 XOR\n2 1 15260 15213 15296 XOR\n2 1 15210 15211 15294 XOR\n2 1 15295 15332 15293 AND\n2 1 15302 15331 15292 AND\n2 1 15305 33446 15291 AND\n2 1 15291 15293 15273 XOR\n2 1 15296 15326 15290 AND\n2 1 15299 15338 15289 AND\n2 1 15309 15328 15288 AND\n2 1 15288 15289 15227 XOR\n2 1 15297 15329 15287 AND\n2 1 15294 15327 15286 AND\n2 1 15286 15289 15242 XOR\n1 1 15242 15239 INV\n2 1 15286 15287 15238 XOR\n2 1 15298 15330 15285 AND\n2 1 15295 15336 15284 AND\n2 1 15302 15333 15283 AND\n2 1 15305 15337 15282 AND\n2 1 15296 15341 15281 AND\n2 1 15281 15285 15258 XOR\n2 1 15290 15281 15243 XOR\n1 1 15258 15236 INV\n2 1 15299 15334 15280 AND\n2 1 15288 15280 15245 XOR\n2 1 15309 15335 15279 AND\n2 1 15236 15279 15235 XOR\n2 1 15235 15273 15231 XOR\n2 1 15297 15340 15278 AND\n2 1 15278 15231 15234 XOR\n2 1 15294 15342 15277 AND\n2 1 15277 15278 15272 XOR\n2 1 15283 15272 15254 XOR\n2 1 15284 15254 15255 XOR\n2 1 15292 15255 15259 XOR\n2 1 15293 15259 15264 XOR\n2 1 15245 15272 15241 XOR\n2 1 15273 15241 15244 XOR\n2 1 15243 15244 15346 XOR\n2 1 15236 15241 15240 XOR\n2 1 15239 15240 15345 XOR\n2 1 15264 15238 15344 XOR\n2 1 15254 15231 15230 XOR\n2 1 15291 15259 15228 XOR\n2 1 15227 15228 35012 XOR\n2 1 15298 15339 15276 AND\n2 1 15287 15276 15237 XOR\n1 1 15237 15233 INV\n2 1 15233 15234 15343 XOR\n2 1 15289 15290 32663 XOR\n2 1 32663 15264 35013 XOR\n2 1 15286 32663 15266 XOR\n2 1 15282 15266 15232 XOR\n1 1 15232 15229 INV\n2 1 15229 15230 35011 XOR\n2 1 15287 15266 15226 XOR\n2 1 15255 15226 35014 XOR\n2 1 35014 35027 5835 XOR\n2 1 5835 35025 5586 XOR\n1 1 5835 5582 INV\n2 1 5582 32934 5580 XOR\n2 1 5582 35024 5583 XOR\n2 1 5863 5835 5741 XOR\n1 1 15346 32905 INV\n1 1 15343 32910 INV\n2 1 32939 32910 5736 XOR\n1 1 15344 32911 INV\n2 1 35014 32911 5717 XOR\n2 1 32911 32940 5844 XOR\n2 1 5844 5825 5734 XOR\n2 1 5844 33018 5707 XOR\n1 1 15345 32912 INV\n1 1 32079 33226 INV\n2 1 33226 32767 5010 XOR\n2 1 5010 5022 5052 XOR\n2 1 32080 33226 5066 XOR\n2 1 5067 5066 5068 XOR\n2 1 4979 5010 5063 XOR\n1 1 5068 34772 INV\n2 1 34772 401 33492 XOR\n2 1 33490 33492 5336 XOR\n2 1 5010 34857 5076 XOR\n2 1 5076 5075 34779 XOR\n2 1 34779 394 33499 XOR\n2 1 33499 33501 5473 XOR\n2 1 33499 5474 5553 XOR\n2 1 32914 5063 34771 XOR\n2 1 34771 402 33491 XOR\n2 1 33491 33493 5334 XOR\n2 1 33226 5088 34787 XOR\n2 1 34787 386 33507 XOR\n2 1 32744 5052 34764 XOR\n2 1 34764 409 33484 XOR\n2 1 33492 5335 5416 XOR\n2 1 33491 5335 5413 XOR\n2 1 5412 5336 5339 XOR\n2 1 33486 33492 5340 XOR\n2 1 5334 5340 5422 XOR\n2 1 5350 5422 5420 XOR\n2 1 5336 33491 5295 XOR\n2 1 5420 5418 5411 AND\n2 1 5428 5413 5409 AND\n2 1 5409 5334 5338 XOR\n2 1 33491 5340 5425 XOR\n2 1 33487 5425 5421 XOR\n2 1 5336 5334 5296 XOR\n2 1 5333 5296 5417 XOR\n2 1 33486 5295 5424 XOR\n2 1 5424 33486 5410 AND\n2 1 5425 5421 5408 AND\n2 1 5427 5416 5406 AND\n2 1 5406 5335 5337 XOR\n2 1 5339 5337 5343 XOR\n2 1 33493 5343 5348 XOR\n2 1 5426 5417 5404 AND\n2 1 5404 5410 5362 XOR\n2 1 5362 5334 5349 XOR\n2 1 5343 5362 5311 XOR\n",
"2 1 33491 5311 5354 XOR\n2 1 5473 5569 5554 XOR\n2 1 5334 5429 5414 XOR\n2 1 5429 5414 5405 AND\n2 1 5405 5411 5357 XOR\n2 1 5405 5406 5309 XOR\n2 1 5309 5310 5356 XOR\n2 1 5356 5338 5355 XOR\n2 1 5408 5355 5402 XOR\n2 1 5340 5335 5415 XOR\n2 1 5422 5415 5407 AND\n2 1 5404 5407 5358 XOR\n2 1 5405 5358 5352 XOR\n2 1 5408 5352 5308 XOR\n2 1 33487 5308 5395 XOR\n2 1 5338 5358 5312 XOR\n2 1 5312 5337 5401 XOR\n2 1 33499 5479 5565 XOR\n2 1 33495 5565 5561 XOR\n2 1 5565 5561 5548 AND\n2 1 5357 5349 5400 XOR\n2 1 5475 5473 5435 XOR\n2 1 5472 5435 5557 XOR\n2 1 5475 33499 5434 XOR\n2 1 5473 5479 5562 XOR\n2 1 5489 5562 5560 XOR\n2 1 5560 5558 5551 AND\n2 1 33494 5434 5564 XOR\n2 1 5564 33494 5550 AND\n2 1 5568 5553 5549 AND\n2 1 5549 5473 5477 XOR\n2 1 5562 5555 5547 AND\n2 1 5569 5554 5545 AND\n2 1 5545 5551 5496 XOR\n2 1 5496 5487 5543 XOR\n2 1 5545 5546 5448 XOR\n2 1 5448 5449 5495 XOR\n2 1 5495 5477 5494 XOR\n2 1 5548 5494 5542 XOR\n2 1 5543 5542 5539 AND\n2 1 5566 5557 5544 AND\n2 1 5544 5547 5497 XOR\n2 1 5544 5550 5501 XOR\n2 1 5501 5473 5488 XOR\n2 1 5496 5488 5540 XOR\n2 1 5545 5497 5491 XOR\n2 1 5548 5491 5447 XOR\n2 1 33495 5447 5535 XOR\n2 1 5477 5497 5451 XOR\n2 1 5451 5476 5541 XOR\n2 1 5482 5501 5450 XOR\n2 1 33499 5450 5493 XOR\n2 1 5539 5493 5534 XOR\n2 1 5534 5535 5533 AND\n2 1 5533 5541 5532 XOR\n2 1 5539 5533 5531 XOR\n2 1 5532 5564 5509 AND\n2 1 5541 5531 5530 AND\n2 1 5530 5548 5500 XOR\n2 1 5500 5494 5522 XOR\n2 1 33495 5500 5483 XOR\n2 1 5522 5563 5511 AND\n2 1 5533 5491 5446 XOR\n2 1 5483 5446 5529 XOR\n2 1 5533 5550 5445 XOR\n2 1 5539 5541 5538 XOR\n2 1 5530 5538 5528 XOR\n2 1 5540 5538 5537 AND\n2 1 5537 5493 5536 XOR\n2 1 5537 5487 5439 XOR\n2 1 5537 5549 5442 XOR\n2 1 5536 5562 5506 AND\n2 1 5536 5555 5515 AND\n2 1 5536 5528 5527 AND\n2 1 5527 5551 5444 XOR\n2 1 5483 5444 5436 XOR\n2 1 5473 5436 5443 XOR\n2 1 5442 5478 5438 XOR\n2 1 33499 5438 5437 XOR\n2 1 5436 5437 5521 XOR\n2 1 5521 5554 5513 AND\n2 1 5521 5569 5504 AND\n2 1 5527 5496 5486 XOR\n2 1 5486 5488 5526 XOR\n2 1 5526 5561 5507 AND\n2 1 5515 5507 5471 XOR\n2 1 5526 5565 5516 AND\n2 1 5513 5516 5468 XOR\n1 1 5468 5465 INV\n2 1 5486 5439 5523 XOR\n2 1 5515 5516 5453 XOR\n2 1 5445 5547 5440 XOR\n2 1 5440 5443 5525 XOR\n2 1 5525 5557 5512 AND\n2 1 33501 5438 5441 XOR\n2 1 5440 5441 5524 XOR\n2 1 5522 5559 5520 AND\n2 1 5529 5558 5519 AND\n2 1 5532 33494 5518 AND\n2 1 5518 5520 5499 XOR\n2 1 5523 5553 5517 AND\n2 1 5516 5517 5502 XOR\n2 1 5513 5502 5492 XOR\n2 1 5509 5492 5458 XOR\n1 1 5458 5455 INV\n2 1 5524 5556 5514 AND\n2 1 5513 5514 5464 XOR\n2 1 5514 5492 5452 XOR\n2 1 5529 5560 5510 AND\n2 1 5523 5568 5508 AND\n2 1 5517 5508 5469 XOR\n2 1 5508 5512 5484 XOR\n1 1 5484 5462 INV\n2 1 5462 5506 5461 XOR\n2 1 5461 5499 5457 XOR\n2 1 5524 5567 5505 AND\n2 1 5504 5505 5498 XOR\n2 1 5510 5498 5480 XOR\n2 1 5511 5480 5481 XOR\n2 1 5481 5452 35005 XOR\n2 1 5471 5498 5467 XOR\n2 1 5499 5467 5470 XOR\n2 1 5505 5457 5460 XOR\n2 1 5469 5470 5573 XOR\n2 1 5480 5457 5456 XOR\n2 1 5455 5456 35002 XOR\n2 1 5519 5481 5485 XOR\n2 1 5518 5485 5454 XOR\n",
"2 1 5520 5485 5490 XOR\n2 1 5502 5490 35004 XOR\n2 1 5490 5464 5571 XOR\n2 1 5453 5454 35003 XOR\n2 1 5462 5467 5466 XOR\n2 1 5465 5466 5572 XOR\n2 1 5572 32988 5618 XOR\n1 1 5572 35001 INV\n2 1 5525 5566 5503 AND\n2 1 5514 5503 5463 XOR\n1 1 5463 5459 INV\n2 1 5459 5460 5570 XOR\n2 1 5357 5348 5403 XOR\n2 1 5403 5402 5399 AND\n2 1 5399 5401 5398 XOR\n2 1 5400 5398 5397 AND\n2 1 5399 5354 5394 XOR\n2 1 5394 5395 5393 AND\n2 1 5393 5401 5392 XOR\n2 1 5393 5352 5307 XOR\n2 1 5392 5424 5369 AND\n2 1 5392 33486 5378 AND\n2 1 5397 5409 5303 XOR\n2 1 5303 5339 5299 XOR\n2 1 33491 5299 5298 XOR\n2 1 33493 5299 5302 XOR\n2 1 5393 5410 5306 XOR\n2 1 5306 5407 5301 XOR\n2 1 5301 5302 5384 XOR\n2 1 5384 5427 5365 AND\n2 1 5384 5416 5374 AND\n2 1 5397 5348 5300 XOR\n2 1 5399 5393 5391 XOR\n2 1 5401 5391 5390 AND\n2 1 5390 5408 5361 XOR\n2 1 5361 5355 5382 XOR\n2 1 5382 5423 5371 AND\n2 1 33487 5361 5344 XOR\n2 1 5344 5307 5389 XOR\n2 1 5389 5420 5370 AND\n2 1 5389 5418 5379 AND\n2 1 5382 5419 5380 AND\n2 1 5378 5380 5360 XOR\n2 1 5397 5354 5396 XOR\n2 1 5396 5422 5366 AND\n2 1 5396 5415 5375 AND\n2 1 33484 21920 22001 XOR\n2 1 33482 33484 21921 XOR\n2 1 33478 33484 21925 XOR\n2 1 21925 21920 22000 XOR\n2 1 33483 21925 22010 XOR\n2 1 33479 22010 22006 XOR\n2 1 21921 33483 21880 XOR\n2 1 33478 21880 22009 XOR\n2 1 22009 33478 21995 AND\n2 1 22010 22006 21993 AND\n2 1 5390 5398 5388 XOR\n2 1 5396 5388 5387 AND\n2 1 5387 5411 5305 XOR\n2 1 5344 5305 5297 XOR\n2 1 5297 5298 5381 XOR\n2 1 5381 5429 5364 AND\n2 1 5381 5414 5373 AND\n2 1 5373 5374 5325 XOR\n2 1 5334 5297 5304 XOR\n2 1 5301 5304 5385 XOR\n2 1 5385 5417 5372 AND\n2 1 5385 5426 5363 AND\n2 1 5374 5363 5324 XOR\n1 1 5324 5320 INV\n2 1 5387 5357 5347 XOR\n2 1 5347 5300 5383 XOR\n2 1 5383 5428 5368 AND\n2 1 5368 5372 5345 XOR\n1 1 5345 5323 INV\n2 1 5323 5366 5322 XOR\n2 1 5322 5360 5318 XOR\n2 1 5365 5318 5321 XOR\n2 1 5320 5321 5430 XOR\n2 1 5383 5413 5377 AND\n2 1 5377 5368 5330 XOR\n2 1 5347 5349 5386 XOR\n2 1 5386 5421 5367 AND\n2 1 5375 5367 5332 XOR\n2 1 5386 5425 5376 AND\n2 1 5373 5376 5329 XOR\n1 1 5329 5326 INV\n2 1 5375 5376 5314 XOR\n2 1 5364 5365 5359 XOR\n2 1 5332 5359 5328 XOR\n2 1 5323 5328 5327 XOR\n2 1 5326 5327 5432 XOR\n2 1 5432 32905 5581 XOR\n2 1 5580 5581 5914 XOR\n2 1 5914 5859 34896 XOR\n2 1 34896 350 33543 XOR\n1 1 5432 35015 INV\n2 1 32912 35015 5865 XOR\n2 1 33020 5432 5713 XOR\n2 1 5865 5863 5703 XOR\n2 1 5703 5704 34920 XOR\n2 1 34920 326 33567 XOR\n2 1 5360 5328 5331 XOR\n2 1 5330 5331 5433 XOR\n2 1 5370 5359 5341 XOR\n2 1 5341 5318 5317 XOR\n2 1 5371 5341 5342 XOR\n2 1 5379 5342 5346 XOR\n2 1 5380 5346 5351 XOR\n2 1 5351 5325 5431 XOR\n2 1 5378 5346 5315 XOR\n2 1 5314 5315 35017 XOR\n1 1 35017 5585 INV\n2 1 5585 35011 5584 XOR\n2 1 5583 5584 5913 XOR\n2 1 5913 5851 34898 XOR\n2 1 34898 348 33545 XOR\n2 1 33543 33545 14968 XOR\n2 1 35021 5585 5597 XOR\n2 1 35012 35017 5858 XOR\n1 1 5858 5722 INV\n1 1 35002 5625 INV\n2 1 35003 5625 5624 XOR\n2 1 5865 5856 5725 XOR\n2 1 35011 5725 34905 XOR\n2 1 34905 341 33552 XOR\n2 1 32987 5625 5803 XOR\n2 1 5722 5846 5720 XOR\n",
"2 1 33507 33509 23448 XOR\n2 1 23448 23543 23528 XOR\n2 1 23448 23454 23536 XOR\n2 1 33507 23454 23539 XOR\n2 1 23450 23448 23410 XOR\n2 1 23450 33507 23409 XOR\n2 1 33502 23409 23538 XOR\n2 1 23538 33502 23524 AND\n2 1 23543 23528 23519 AND\n2 1 5376 5377 32651 XOR\n2 1 5373 32651 5353 XOR\n2 1 5369 5353 5319 XOR\n2 1 5374 5353 5313 XOR\n1 1 5319 5316 INV\n2 1 5316 5317 35016 XOR\n2 1 35011 35016 5861 XOR\n2 1 5861 5859 5702 XOR\n2 1 35020 5702 34921 XOR\n1 1 5861 5714 INV\n2 1 5714 5851 5723 XOR\n2 1 5714 35024 5712 XOR\n2 1 5712 5713 34913 XOR\n2 1 34913 333 33560 XOR\n2 1 35016 32912 5740 XOR\n2 1 35020 35016 5595 XOR\n2 1 5739 5740 34897 XOR\n2 1 34897 349 33544 XOR\n2 1 33543 33544 14985 XOR\n2 1 34921 325 33568 XOR\n2 1 33567 33568 23325 XOR\n2 1 33544 14968 14970 XOR\n2 1 33545 33544 14945 XOR\n2 1 5342 5313 35019 XOR\n2 1 35014 35019 5826 XOR\n2 1 5826 32940 5689 XOR\n2 1 5689 5690 34926 XOR\n2 1 34926 320 33573 XOR\n1 1 5826 5918 INV\n2 1 5918 35012 5724 XOR\n2 1 5723 5724 34906 XOR\n2 1 34906 340 33553 XOR\n2 1 33553 33552 18142 XOR\n2 1 5863 5826 5729 XOR\n2 1 32905 5729 34903 XOR\n2 1 34903 343 33550 XOR\n2 1 5918 35013 5721 XOR\n2 1 5720 5721 34907 XOR\n2 1 34907 339 33554 XOR\n2 1 33552 33554 18261 XOR\n2 1 33573 33567 23403 XOR\n2 1 33573 33568 23401 XOR\n2 1 5918 32912 5728 XOR\n2 1 35019 35023 5833 XOR\n2 1 5833 35025 5594 XOR\n2 1 5833 32933 5592 XOR\n1 1 5833 5598 INV\n2 1 5598 35026 5596 XOR\n2 1 5596 5597 5907 XOR\n2 1 5594 5595 5908 XOR\n2 1 5908 5858 34914 XOR\n2 1 34914 332 33561 XOR\n2 1 33561 33560 19949 XOR\n2 1 35019 5734 34902 XOR\n2 1 34902 344 33549 XOR\n2 1 33549 33544 15061 XOR\n2 1 33549 33543 15063 XOR\n2 1 32651 5351 35018 XOR\n2 1 35018 35012 5587 XOR\n2 1 5586 5587 5912 XOR\n2 1 5912 5846 34899 XOR\n2 1 34899 347 33546 XOR\n2 1 33546 33549 15062 XOR\n2 1 15062 14985 15058 XOR\n2 1 14968 15062 15054 XOR\n2 1 33544 33546 15064 XOR\n2 1 15054 15058 15047 AND\n2 1 35013 35018 5854 XOR\n2 1 5907 5854 34915 XOR\n2 1 34915 331 33562 XOR\n2 1 5854 5841 5719 XOR\n2 1 32910 5719 34908 XOR\n2 1 34908 338 33555 XOR\n2 1 33560 33562 20068 XOR\n1 1 5854 5696 INV\n2 1 5696 5851 5693 XOR\n2 1 5693 5694 34923 XOR\n2 1 34923 323 33570 XOR\n2 1 33570 33573 23402 XOR\n2 1 23402 23325 23398 XOR\n2 1 33568 33570 23404 XOR\n2 1 5695 35018 5710 XOR\n2 1 5858 5856 5700 XOR\n2 1 5700 5701 34922 XOR\n2 1 34922 324 33569 XOR\n2 1 33567 33569 23308 XOR\n2 1 33568 23308 23310 XOR\n2 1 23308 23402 23394 XOR\n2 1 33569 33568 23285 XOR\n2 1 23394 23398 23387 AND\n1 1 5431 32771 INV\n2 1 32771 33019 5843 XOR\n2 1 5843 5841 5691 XOR\n2 1 32911 5691 34925 XOR\n2 1 34925 321 33572 XOR\n2 1 5843 5826 5706 XOR\n2 1 35027 5706 34918 XOR\n2 1 34918 328 33565 XOR\n2 1 33562 33565 20066 XOR\n2 1 33565 33560 20065 XOR\n2 1 5843 32940 5735 XOR\n2 1 5735 5736 34901 XOR\n2 1 34901 345 33548 XOR\n2 1 33548 14970 15051 XOR\n2 1 33546 33548 14971 XOR\n2 1 15047 14971 14974 XOR\n2 1 15062 15051 15041 AND\n2 1 15041 14970 14972 XOR\n2 1 14974 14972 14978 XOR\n2 1 33549 14978 14983 XOR\n2 1 5825 32771 5716 XOR\n2 1 5716 5717 34910 XOR\n2 1 34910 336 33557 XOR\n2 1 33555 33557 18166 XOR\n2 1 18166 18261 18246 XOR\n2 1 33554 33557 18259 XOR\n2 1 33557 33552 18258 XOR\n2 1 18261 18246 18237 AND\n2 1 33572 23310 23391 XOR\n",
"2 1 33570 33572 23311 XOR\n2 1 23387 23311 23314 XOR\n2 1 23402 23391 23381 AND\n2 1 23381 23310 23312 XOR\n2 1 23314 23312 23318 XOR\n2 1 33573 23318 23323 XOR\n1 1 5433 32772 INV\n2 1 33013 32772 5593 XOR\n2 1 5592 5593 5909 XOR\n2 1 32905 32772 5866 XOR\n2 1 5866 5859 5727 XOR\n2 1 5909 5865 34912 XOR\n2 1 34912 334 33559 XOR\n2 1 5866 5833 5715 XOR\n2 1 32934 5715 34911 XOR\n2 1 34911 335 33558 XOR\n2 1 33559 33561 19972 XOR\n2 1 33560 19972 19974 XOR\n2 1 19972 20066 20058 XOR\n2 1 33558 20058 20057 XOR\n2 1 33559 33560 19989 XOR\n2 1 20066 19989 20062 XOR\n2 1 33565 33559 20067 XOR\n2 1 20058 20062 20051 AND\n2 1 5866 5825 5705 XOR\n2 1 33013 5705 34919 XOR\n2 1 34919 327 33566 XOR\n2 1 32772 5741 34895 XOR\n2 1 34895 351 33542 XOR\n2 1 33542 15054 15053 XOR\n2 1 33542 33548 14975 XOR\n2 1 14975 14970 15050 XOR\n2 1 5727 5728 5726 XOR\n1 1 5726 34904 INV\n2 1 34904 342 33551 XOR\n2 1 33551 33553 18165 XOR\n2 1 33552 18165 18167 XOR\n2 1 33555 18167 18245 XOR\n2 1 18165 18259 18251 XOR\n2 1 33550 18251 18250 XOR\n2 1 33551 33552 18182 XOR\n2 1 18259 18182 18255 XOR\n2 1 33557 33551 18260 XOR\n2 1 18251 18255 18244 AND\n2 1 18260 18245 18241 AND\n2 1 18241 18166 18170 XOR\n2 1 33566 23394 23393 XOR\n2 1 33566 33572 23315 XOR\n2 1 23315 23310 23390 XOR\n1 1 5570 32773 INV\n1 1 5571 32774 INV\n1 1 5573 32775 INV\n2 1 32987 32775 5622 XOR\n1 1 5430 32776 INV\n2 1 32776 35013 5738 XOR\n2 1 32771 32776 5708 XOR\n2 1 5707 5708 34917 XOR\n2 1 34917 329 33564 XOR\n2 1 33564 19974 20055 XOR\n2 1 33562 33564 19975 XOR\n2 1 20051 19975 19978 XOR\n2 1 33558 33564 19979 XOR\n2 1 19979 19974 20054 XOR\n2 1 20066 20055 20045 AND\n2 1 20045 19974 19976 XOR\n2 1 19978 19976 19982 XOR\n2 1 33565 19982 19987 XOR\n2 1 32910 32776 5850 XOR\n2 1 5850 5844 5718 XOR\n2 1 5850 5846 5692 XOR\n2 1 33018 5692 34924 XOR\n2 1 34924 322 33571 XOR\n2 1 33019 5718 34909 XOR\n2 1 34909 337 33556 XOR\n2 1 33556 18167 18248 XOR\n2 1 33554 33556 18168 XOR\n2 1 18244 18168 18171 XOR\n2 1 33550 33556 18172 XOR\n2 1 18172 18167 18247 XOR\n2 1 18166 18172 18254 XOR\n2 1 18182 18254 18252 XOR\n2 1 33555 18172 18257 XOR\n2 1 33551 18257 18253 XOR\n2 1 18168 18166 18128 XOR\n2 1 18165 18128 18249 XOR\n2 1 18168 33555 18127 XOR\n2 1 33550 18127 18256 XOR\n2 1 18252 18250 18243 AND\n2 1 18237 18243 18189 XOR\n2 1 18256 33550 18242 AND\n2 1 18257 18253 18240 AND\n2 1 18254 18247 18239 AND\n2 1 18259 18248 18238 AND\n2 1 18238 18167 18169 XOR\n2 1 18171 18169 18175 XOR\n2 1 33557 18175 18180 XOR\n2 1 18189 18180 18235 XOR\n2 1 18237 18238 18141 XOR\n2 1 18141 18142 18188 XOR\n2 1 18188 18170 18187 XOR\n2 1 18240 18187 18234 XOR\n2 1 18258 18249 18236 AND\n2 1 18236 18239 18190 XOR\n2 1 18236 18242 18194 XOR\n2 1 18194 18166 18181 XOR\n2 1 18189 18181 18232 XOR\n2 1 18237 18190 18184 XOR\n2 1 18170 18190 18144 XOR\n2 1 18144 18169 18233 XOR\n2 1 18175 18194 18143 XOR\n2 1 33555 18143 18186 XOR\n2 1 18240 18184 18140 XOR\n2 1 33551 18140 18227 XOR\n2 1 18235 18234 18231 AND\n2 1 18231 18186 18226 XOR\n2 1 18231 18233 18230 XOR\n2 1 18232 18230 18229 AND\n2 1 18229 18186 18228 XOR\n2 1 18229 18241 18135 XOR\n2 1 18135 18171 18131 XOR\n2 1 33557 18131 18134 XOR\n2 1 18229 18180 18132 XOR\n2 1 33555 18131 18130 XOR\n2 1 18226 18227 18225 AND\n2 1 18225 18233 18224 XOR\n2 1 18231 18225 18223 XOR\n2 1 18225 18184 18139 XOR\n2 1 18225 18242 18138 XOR\n",
"2 1 18138 18239 18133 XOR\n2 1 18133 18134 18216 XOR\n2 1 18233 18223 18222 AND\n2 1 18222 18230 18220 XOR\n2 1 18222 18240 18193 XOR\n2 1 18193 18187 18214 XOR\n2 1 33551 18193 18176 XOR\n2 1 18176 18139 18221 XOR\n2 1 18228 18220 18219 AND\n2 1 18219 18189 18179 XOR\n2 1 18179 18181 18218 XOR\n2 1 18219 18243 18137 XOR\n2 1 18176 18137 18129 XOR\n2 1 18166 18129 18136 XOR\n2 1 18133 18136 18217 XOR\n2 1 18179 18132 18215 XOR\n2 1 18129 18130 18213 XOR\n2 1 18214 18251 18212 AND\n2 1 18221 18250 18211 AND\n2 1 18224 33550 18210 AND\n2 1 18210 18212 18192 XOR\n2 1 18215 18245 18209 AND\n2 1 18218 18257 18208 AND\n2 1 18228 18247 18207 AND\n2 1 18207 18208 18146 XOR\n2 1 18216 18248 18206 AND\n2 1 18213 18246 18205 AND\n2 1 18205 18208 18161 XOR\n1 1 18161 18158 INV\n2 1 18205 18206 18157 XOR\n2 1 18217 18249 18204 AND\n2 1 18214 18255 18203 AND\n2 1 18221 18252 18202 AND\n2 1 18224 18256 18201 AND\n2 1 18215 18260 18200 AND\n2 1 18200 18204 18177 XOR\n2 1 18209 18200 18162 XOR\n1 1 18177 18155 INV\n2 1 18218 18253 18199 AND\n2 1 18207 18199 18164 XOR\n2 1 18228 18254 18198 AND\n2 1 18155 18198 18154 XOR\n2 1 18154 18192 18150 XOR\n2 1 18216 18259 18197 AND\n2 1 18197 18150 18153 XOR\n2 1 18213 18261 18196 AND\n2 1 18196 18197 18191 XOR\n2 1 18202 18191 18173 XOR\n2 1 18203 18173 18174 XOR\n2 1 18211 18174 18178 XOR\n2 1 18212 18178 18183 XOR\n2 1 18164 18191 18160 XOR\n2 1 18192 18160 18163 XOR\n2 1 18162 18163 18265 XOR\n2 1 18155 18160 18159 XOR\n2 1 18158 18159 18264 XOR\n2 1 18183 18157 18263 XOR\n2 1 18173 18150 18149 XOR\n2 1 18210 18178 18147 XOR\n2 1 18146 18147 35254 XOR\n2 1 18217 18258 18195 AND\n2 1 18206 18195 18156 XOR\n1 1 18156 18152 INV\n2 1 18152 18153 18262 XOR\n2 1 5737 5738 34900 XOR\n2 1 34900 346 33547 XOR\n2 1 33547 14970 15048 XOR\n2 1 33547 33549 14969 XOR\n2 1 14969 15064 15049 XOR\n2 1 14969 14975 15057 XOR\n2 1 14985 15057 15055 XOR\n2 1 33547 14975 15060 XOR\n2 1 33543 15060 15056 XOR\n2 1 14971 14969 14931 XOR\n2 1 14968 14931 15052 XOR\n2 1 14971 33547 14930 XOR\n2 1 33542 14930 15059 XOR\n2 1 15055 15053 15046 AND\n2 1 15059 33542 15045 AND\n2 1 15063 15048 15044 AND\n2 1 15044 14969 14973 XOR\n2 1 15060 15056 15043 AND\n2 1 15057 15050 15042 AND\n2 1 15064 15049 15040 AND\n2 1 15040 15046 14992 XOR\n2 1 14992 14983 15038 XOR\n2 1 15040 15041 14944 XOR\n2 1 14944 14945 14991 XOR\n2 1 14991 14973 14990 XOR\n2 1 15043 14990 15037 XOR\n2 1 15061 15052 15039 AND\n2 1 15039 15042 14993 XOR\n2 1 15039 15045 14997 XOR\n2 1 14997 14969 14984 XOR\n2 1 14992 14984 15035 XOR\n2 1 15040 14993 14987 XOR\n2 1 14973 14993 14947 XOR\n2 1 14947 14972 15036 XOR\n2 1 14978 14997 14946 XOR\n2 1 33547 14946 14989 XOR\n2 1 15043 14987 14943 XOR\n2 1 33543 14943 15030 XOR\n2 1 15038 15037 15034 AND\n2 1 15034 14989 15029 XOR\n2 1 15034 15036 15033 XOR\n2 1 15035 15033 15032 AND\n2 1 15032 14989 15031 XOR\n2 1 15032 15044 14938 XOR\n2 1 14938 14974 14934 XOR\n2 1 33549 14934 14937 XOR\n2 1 15032 14983 14935 XOR\n2 1 33547 14934 14933 XOR\n2 1 15029 15030 15028 AND\n2 1 15028 15036 15027 XOR\n2 1 15034 15028 15026 XOR\n2 1 15028 14987 14942 XOR\n2 1 15028 15045 14941 XOR\n2 1 14941 15042 14936 XOR\n2 1 14936 14937 15019 XOR\n2 1 15036 15026 15025 AND\n2 1 15025 15033 15023 XOR\n2 1 15025 15043 14996 XOR\n2 1 14996 14990 15017 XOR\n2 1 33543 14996 14979 XOR\n2 1 14979 14942 15024 XOR\n2 1 15031 15023 15022 AND\n2 1 15022 14992 14982 XOR\n2 1 14982 14984 15021 XOR\n",
"2 1 15022 15046 14940 XOR\n2 1 14979 14940 14932 XOR\n2 1 14969 14932 14939 XOR\n2 1 14936 14939 15020 XOR\n2 1 14982 14935 15018 XOR\n2 1 14932 14933 15016 XOR\n2 1 15017 15054 15015 AND\n2 1 15024 15053 15014 AND\n2 1 15027 33542 15013 AND\n2 1 15013 15015 14995 XOR\n2 1 15018 15048 15012 AND\n2 1 15021 15060 15011 AND\n2 1 15031 15050 15010 AND\n2 1 15010 15011 14949 XOR\n2 1 15019 15051 15009 AND\n2 1 15016 15049 15008 AND\n2 1 15008 15011 14964 XOR\n1 1 14964 14961 INV\n2 1 15008 15009 14960 XOR\n2 1 15020 15052 15007 AND\n2 1 15017 15058 15006 AND\n2 1 15024 15055 15005 AND\n2 1 15027 15059 15004 AND\n2 1 15018 15063 15003 AND\n2 1 15003 15007 14980 XOR\n2 1 15012 15003 14965 XOR\n1 1 14980 14958 INV\n2 1 15021 15056 15002 AND\n2 1 15010 15002 14967 XOR\n2 1 15031 15057 15001 AND\n2 1 14958 15001 14957 XOR\n2 1 14957 14995 14953 XOR\n2 1 15019 15062 15000 AND\n2 1 15000 14953 14956 XOR\n2 1 15016 15064 14999 AND\n2 1 14999 15000 14994 XOR\n2 1 15005 14994 14976 XOR\n2 1 15006 14976 14977 XOR\n2 1 15014 14977 14981 XOR\n2 1 15015 14981 14986 XOR\n2 1 14967 14994 14963 XOR\n2 1 14995 14963 14966 XOR\n2 1 14965 14966 15068 XOR\n2 1 14958 14963 14962 XOR\n2 1 14961 14962 15067 XOR\n2 1 14986 14960 15066 XOR\n2 1 14976 14953 14952 XOR\n2 1 15013 14981 14950 XOR\n2 1 14949 14950 35193 XOR\n2 1 15020 15061 14998 AND\n2 1 15009 14998 14959 XOR\n1 1 14959 14955 INV\n2 1 14955 14956 15065 XOR\n2 1 33571 23310 23388 XOR\n2 1 33571 33573 23309 XOR\n2 1 23309 23404 23389 XOR\n2 1 23309 23315 23397 XOR\n2 1 23325 23397 23395 XOR\n2 1 33571 23315 23400 XOR\n2 1 33567 23400 23396 XOR\n2 1 23311 23309 23271 XOR\n2 1 23308 23271 23392 XOR\n2 1 23311 33571 23270 XOR\n2 1 33566 23270 23399 XOR\n2 1 23395 23393 23386 AND\n2 1 23399 33566 23385 AND\n2 1 23403 23388 23384 AND\n2 1 23384 23309 23313 XOR\n2 1 23400 23396 23383 AND\n2 1 23397 23390 23382 AND\n2 1 23404 23389 23380 AND\n2 1 23380 23386 23332 XOR\n2 1 23332 23323 23378 XOR\n2 1 23380 23381 23284 XOR\n2 1 23284 23285 23331 XOR\n2 1 23331 23313 23330 XOR\n2 1 23383 23330 23377 XOR\n2 1 23401 23392 23379 AND\n2 1 23379 23382 23333 XOR\n2 1 23379 23385 23337 XOR\n2 1 23337 23309 23324 XOR\n2 1 23332 23324 23375 XOR\n2 1 23380 23333 23327 XOR\n2 1 23313 23333 23287 XOR\n2 1 23287 23312 23376 XOR\n2 1 23318 23337 23286 XOR\n2 1 33571 23286 23329 XOR\n2 1 23383 23327 23283 XOR\n2 1 33567 23283 23370 XOR\n2 1 23378 23377 23374 AND\n2 1 23374 23329 23369 XOR\n2 1 23374 23376 23373 XOR\n2 1 23375 23373 23372 AND\n2 1 23372 23329 23371 XOR\n2 1 23372 23384 23278 XOR\n2 1 23278 23314 23274 XOR\n2 1 33573 23274 23277 XOR\n2 1 23372 23323 23275 XOR\n2 1 33571 23274 23273 XOR\n2 1 23369 23370 23368 AND\n2 1 23368 23376 23367 XOR\n2 1 23374 23368 23366 XOR\n2 1 23368 23327 23282 XOR\n2 1 23368 23385 23281 XOR\n2 1 23281 23382 23276 XOR\n2 1 23276 23277 23359 XOR\n2 1 23376 23366 23365 AND\n2 1 23365 23373 23363 XOR\n2 1 23365 23383 23336 XOR\n2 1 23336 23330 23357 XOR\n2 1 33567 23336 23319 XOR\n2 1 23319 23282 23364 XOR\n2 1 23371 23363 23362 AND\n2 1 23362 23332 23322 XOR\n2 1 23322 23324 23361 XOR\n2 1 23362 23386 23280 XOR\n2 1 23319 23280 23272 XOR\n2 1 23309 23272 23279 XOR\n2 1 23276 23279 23360 XOR\n2 1 23322 23275 23358 XOR\n2 1 23272 23273 23356 XOR\n2 1 23357 23394 23355 AND\n2 1 23364 23393 23354 AND\n2 1 23367 33566 23353 AND\n2 1 23353 23355 23335 XOR\n2 1 23358 23388 23352 AND\n2 1 23361 23400 23351 AND\n2 1 23371 23390 23350 AND\n",
"2 1 23350 23351 23289 XOR\n2 1 23359 23391 23349 AND\n2 1 23356 23389 23348 AND\n2 1 23348 23351 23304 XOR\n1 1 23304 23301 INV\n2 1 23348 23349 23300 XOR\n2 1 23360 23392 23347 AND\n2 1 23357 23398 23346 AND\n2 1 23364 23395 23345 AND\n2 1 23367 23399 23344 AND\n2 1 23358 23403 23343 AND\n2 1 23343 23347 23320 XOR\n2 1 23352 23343 23305 XOR\n1 1 23320 23298 INV\n2 1 23361 23396 23342 AND\n2 1 23350 23342 23307 XOR\n2 1 23371 23397 23341 AND\n2 1 23298 23341 23297 XOR\n2 1 23297 23335 23293 XOR\n2 1 23359 23402 23340 AND\n2 1 23340 23293 23296 XOR\n2 1 23356 23404 23339 AND\n2 1 23339 23340 23334 XOR\n2 1 23345 23334 23316 XOR\n2 1 23346 23316 23317 XOR\n2 1 23354 23317 23321 XOR\n2 1 23355 23321 23326 XOR\n2 1 23307 23334 23303 XOR\n2 1 23335 23303 23306 XOR\n2 1 23305 23306 23408 XOR\n2 1 23298 23303 23302 XOR\n2 1 23301 23302 23407 XOR\n2 1 23326 23300 23406 XOR\n2 1 23316 23293 23292 XOR\n2 1 23353 23321 23290 XOR\n2 1 23289 23290 35226 XOR\n2 1 23360 23401 23338 AND\n2 1 23349 23338 23299 XOR\n1 1 23299 23295 INV\n2 1 23295 23296 23405 XOR\n2 1 15011 15012 32661 XOR\n2 1 32661 14986 35194 XOR\n2 1 15008 32661 14988 XOR\n2 1 15004 14988 14954 XOR\n1 1 14954 14951 INV\n2 1 14951 14952 35192 XOR\n2 1 15009 14988 14948 XOR\n2 1 14977 14948 35195 XOR\n2 1 5850 32939 5711 XOR\n1 1 5711 5709 INV\n2 1 5709 5710 34916 XOR\n2 1 34916 330 33563 XOR\n2 1 33563 19974 20052 XOR\n2 1 33563 33565 19973 XOR\n2 1 19973 20068 20053 XOR\n2 1 19973 19979 20061 XOR\n2 1 19989 20061 20059 XOR\n2 1 33563 19979 20064 XOR\n2 1 33559 20064 20060 XOR\n2 1 19975 19973 19935 XOR\n2 1 19972 19935 20056 XOR\n2 1 19975 33563 19934 XOR\n2 1 33558 19934 20063 XOR\n2 1 20059 20057 20050 AND\n2 1 20063 33558 20049 AND\n2 1 20067 20052 20048 AND\n2 1 20048 19973 19977 XOR\n2 1 20064 20060 20047 AND\n2 1 20061 20054 20046 AND\n2 1 20068 20053 20044 AND\n2 1 20044 20050 19996 XOR\n2 1 19996 19987 20042 XOR\n2 1 20044 20045 19948 XOR\n2 1 19948 19949 19995 XOR\n2 1 19995 19977 19994 XOR\n2 1 20047 19994 20041 XOR\n2 1 20065 20056 20043 AND\n2 1 20043 20046 19997 XOR\n2 1 20043 20049 20001 XOR\n2 1 20001 19973 19988 XOR\n2 1 19996 19988 20039 XOR\n2 1 20044 19997 19991 XOR\n2 1 19977 19997 19951 XOR\n2 1 19951 19976 20040 XOR\n2 1 19982 20001 19950 XOR\n2 1 33563 19950 19993 XOR\n2 1 20047 19991 19947 XOR\n2 1 33559 19947 20034 XOR\n2 1 20042 20041 20038 AND\n2 1 20038 19993 20033 XOR\n2 1 20038 20040 20037 XOR\n2 1 20039 20037 20036 AND\n2 1 20036 19993 20035 XOR\n2 1 20036 20048 19942 XOR\n2 1 19942 19978 19938 XOR\n2 1 33565 19938 19941 XOR\n2 1 20036 19987 19939 XOR\n2 1 33563 19938 19937 XOR\n2 1 20033 20034 20032 AND\n2 1 20032 20040 20031 XOR\n2 1 20038 20032 20030 XOR\n2 1 20032 19991 19946 XOR\n2 1 20032 20049 19945 XOR\n2 1 19945 20046 19940 XOR\n2 1 19940 19941 20023 XOR\n2 1 20040 20030 20029 AND\n2 1 20029 20037 20027 XOR\n2 1 20029 20047 20000 XOR\n2 1 20000 19994 20021 XOR\n2 1 33559 20000 19983 XOR\n2 1 19983 19946 20028 XOR\n2 1 20035 20027 20026 AND\n2 1 20026 19996 19986 XOR\n2 1 19986 19988 20025 XOR\n2 1 20026 20050 19944 XOR\n2 1 19983 19944 19936 XOR\n2 1 19973 19936 19943 XOR\n2 1 19940 19943 20024 XOR\n2 1 19986 19939 20022 XOR\n2 1 19936 19937 20020 XOR\n2 1 20021 20058 20019 AND\n2 1 20028 20057 20018 AND\n2 1 20031 33558 20017 AND\n2 1 20017 20019 19999 XOR\n2 1 20022 20052 20016 AND\n2 1 20025 20064 20015 AND\n2 1 20035 20054 20014 AND\n2 1 20014 20015 19953 XOR\n",
"2 1 20023 20055 20013 AND\n2 1 20020 20053 20012 AND\n2 1 20012 20015 19968 XOR\n1 1 19968 19965 INV\n2 1 20012 20013 19964 XOR\n2 1 20024 20056 20011 AND\n2 1 20021 20062 20010 AND\n2 1 20028 20059 20009 AND\n2 1 20031 20063 20008 AND\n2 1 20022 20067 20007 AND\n2 1 20007 20011 19984 XOR\n2 1 20016 20007 19969 XOR\n1 1 19984 19962 INV\n2 1 20025 20060 20006 AND\n2 1 20014 20006 19971 XOR\n2 1 20035 20061 20005 AND\n2 1 19962 20005 19961 XOR\n2 1 19961 19999 19957 XOR\n2 1 20023 20066 20004 AND\n2 1 20004 19957 19960 XOR\n2 1 20020 20068 20003 AND\n2 1 20003 20004 19998 XOR\n2 1 20009 19998 19980 XOR\n2 1 20010 19980 19981 XOR\n2 1 20018 19981 19985 XOR\n2 1 20019 19985 19990 XOR\n2 1 19971 19998 19967 XOR\n2 1 19999 19967 19970 XOR\n2 1 19969 19970 20072 XOR\n2 1 19962 19967 19966 XOR\n2 1 19965 19966 20071 XOR\n2 1 19990 19964 20070 XOR\n2 1 19980 19957 19956 XOR\n2 1 20017 19985 19954 XOR\n2 1 19953 19954 35241 XOR\n2 1 20024 20065 20002 AND\n2 1 20013 20002 19963 XOR\n1 1 19963 19959 INV\n2 1 19959 19960 20069 XOR\n2 1 18208 18209 32684 XOR\n2 1 18205 32684 18185 XOR\n2 1 18206 18185 18145 XOR\n2 1 18174 18145 35256 XOR\n2 1 18201 18185 18151 XOR\n1 1 18151 18148 INV\n2 1 18148 18149 35253 XOR\n2 1 35254 35253 6343 XOR\n2 1 32684 18183 35255 XOR\n2 1 20015 20016 32697 XOR\n2 1 20012 32697 19992 XOR\n2 1 20008 19992 19958 XOR\n2 1 20013 19992 19952 XOR\n2 1 19981 19952 35243 XOR\n1 1 19958 19955 INV\n2 1 19955 19956 35240 XOR\n2 1 32697 19990 35242 XOR\n2 1 23351 23352 32721 XOR\n2 1 23348 32721 23328 XOR\n2 1 23349 23328 23288 XOR\n2 1 23317 23288 35228 XOR\n2 1 23344 23328 23294 XOR\n1 1 23294 23291 INV\n2 1 23291 23292 35225 XOR\n2 1 32721 23326 35227 XOR\n1 1 15068 32897 INV\n1 1 15065 32902 INV\n1 1 15066 32903 INV\n1 1 15067 32904 INV\n1 1 18262 32945 INV\n2 1 32945 35255 6558 XOR\n1 1 18263 32946 INV\n1 1 18264 32947 INV\n1 1 18265 32948 INV\n1 1 20070 32973 INV\n1 1 20071 32974 INV\n1 1 20072 32975 INV\n1 1 20069 32980 INV\n1 1 23407 33025 INV\n1 1 23408 33026 INV\n1 1 23405 33031 INV\n1 1 23406 33032 INV\n1 1 5040 33229 INV\n2 1 33229 34845 5219 XOR\n2 1 5219 5218 34749 XOR\n2 1 34749 424 33469 XOR\n2 1 33467 33469 20251 XOR\n2 1 20251 20346 20331 XOR\n2 1 33466 33469 20344 XOR\n2 1 20344 20267 20340 XOR\n2 1 20251 20257 20339 XOR\n2 1 20267 20339 20337 XOR\n2 1 20250 20344 20336 XOR\n2 1 33462 20336 20335 XOR\n2 1 20253 20251 20213 XOR\n2 1 20250 20213 20334 XOR\n2 1 33469 33463 20345 XOR\n2 1 33469 33464 20343 XOR\n2 1 20336 20340 20329 AND\n2 1 20329 20253 20256 XOR\n2 1 20337 20335 20328 AND\n2 1 20345 20330 20326 AND\n2 1 20326 20251 20255 XOR\n2 1 20339 20332 20324 AND\n2 1 20344 20333 20323 AND\n2 1 20323 20252 20254 XOR\n2 1 20256 20254 20260 XOR\n2 1 33469 20260 20265 XOR\n2 1 20346 20331 20322 AND\n2 1 20322 20328 20274 XOR\n2 1 20274 20265 20320 XOR\n2 1 20322 20323 20226 XOR\n2 1 20226 20227 20273 XOR\n2 1 20273 20255 20272 XOR\n2 1 20325 20272 20319 XOR\n2 1 20343 20334 20321 AND\n2 1 20321 20324 20275 XOR\n2 1 20321 20327 20279 XOR\n2 1 20279 20251 20266 XOR\n2 1 20274 20266 20317 XOR\n2 1 20322 20275 20269 XOR\n2 1 20255 20275 20229 XOR\n2 1 20229 20254 20318 XOR\n2 1 20260 20279 20228 XOR\n2 1 33467 20228 20271 XOR\n2 1 20325 20269 20225 XOR\n2 1 33463 20225 20312 XOR\n2 1 20320 20319 20316 AND\n2 1 20316 20271 20311 XOR\n",
"2 1 20316 20318 20315 XOR\n2 1 20317 20315 20314 AND\n2 1 20314 20271 20313 XOR\n2 1 20314 20326 20220 XOR\n2 1 20220 20256 20216 XOR\n2 1 33469 20216 20219 XOR\n2 1 20314 20265 20217 XOR\n2 1 33467 20216 20215 XOR\n2 1 20311 20312 20310 AND\n2 1 20310 20318 20309 XOR\n2 1 20316 20310 20308 XOR\n2 1 20310 20269 20224 XOR\n2 1 20310 20327 20223 XOR\n2 1 20223 20324 20218 XOR\n2 1 20218 20219 20301 XOR\n2 1 20318 20308 20307 AND\n2 1 20307 20315 20305 XOR\n2 1 20307 20325 20278 XOR\n2 1 20278 20272 20299 XOR\n2 1 33463 20278 20261 XOR\n2 1 20261 20224 20306 XOR\n2 1 20313 20305 20304 AND\n2 1 20304 20274 20264 XOR\n2 1 20264 20266 20303 XOR\n2 1 20304 20328 20222 XOR\n2 1 20261 20222 20214 XOR\n2 1 20251 20214 20221 XOR\n2 1 20218 20221 20302 XOR\n2 1 20264 20217 20300 XOR\n2 1 20214 20215 20298 XOR\n2 1 20299 20336 20297 AND\n2 1 20306 20335 20296 AND\n2 1 20309 33462 20295 AND\n2 1 20295 20297 20277 XOR\n2 1 20300 20330 20294 AND\n2 1 20303 20342 20293 AND\n2 1 20313 20332 20292 AND\n2 1 20292 20293 20231 XOR\n2 1 20301 20333 20291 AND\n2 1 20298 20331 20290 AND\n2 1 20290 20293 20246 XOR\n1 1 20246 20243 INV\n2 1 20290 20291 20242 XOR\n2 1 20302 20334 20289 AND\n2 1 20299 20340 20288 AND\n2 1 20306 20337 20287 AND\n2 1 20309 20341 20286 AND\n2 1 20300 20345 20285 AND\n2 1 20285 20289 20262 XOR\n2 1 20294 20285 20247 XOR\n1 1 20262 20240 INV\n2 1 20303 20338 20284 AND\n2 1 20292 20284 20249 XOR\n2 1 20313 20339 20283 AND\n2 1 20240 20283 20239 XOR\n2 1 20239 20277 20235 XOR\n2 1 20301 20344 20282 AND\n2 1 20282 20235 20238 XOR\n2 1 20298 20346 20281 AND\n2 1 20281 20282 20276 XOR\n2 1 20287 20276 20258 XOR\n2 1 20288 20258 20259 XOR\n2 1 20296 20259 20263 XOR\n2 1 20297 20263 20268 XOR\n2 1 20249 20276 20245 XOR\n2 1 20277 20245 20248 XOR\n2 1 20247 20248 20350 XOR\n2 1 20240 20245 20244 XOR\n2 1 20243 20244 20349 XOR\n2 1 20268 20242 20348 XOR\n2 1 20258 20235 20234 XOR\n2 1 20295 20263 20232 XOR\n2 1 20231 20232 35057 XOR\n2 1 35053 35057 5842 XOR\n2 1 20302 20343 20280 AND\n2 1 20291 20280 20241 XOR\n1 1 20241 20237 INV\n2 1 20237 20238 20347 XOR\n2 1 33229 34829 5202 XOR\n2 1 5203 5202 34738 XOR\n2 1 34738 435 33458 XOR\n2 1 33458 33460 18307 XOR\n2 1 33458 33461 18398 XOR\n2 1 33456 33458 18400 XOR\n2 1 18305 18400 18385 XOR\n2 1 18307 18305 18267 XOR\n2 1 18307 33459 18266 XOR\n2 1 33454 18266 18395 XOR\n2 1 18395 33454 18381 AND\n2 1 18400 18385 18376 AND\n2 1 33229 32755 5196 XOR\n2 1 5197 5196 5198 XOR\n1 1 5198 34735 INV\n2 1 34735 438 33455 XOR\n2 1 33455 18396 18392 XOR\n2 1 33455 33456 18321 XOR\n2 1 18321 18393 18391 XOR\n2 1 18398 18321 18394 XOR\n2 1 33461 33455 18399 XOR\n2 1 18396 18392 18379 AND\n2 1 33229 34828 5200 XOR\n2 1 5201 5200 34737 XOR\n2 1 34737 436 33457 XOR\n2 1 33455 33457 18304 XOR\n2 1 33456 18304 18306 XOR\n2 1 33460 18306 18387 XOR\n2 1 33459 18306 18384 XOR\n2 1 18311 18306 18386 XOR\n2 1 18304 18398 18390 XOR\n2 1 33454 18390 18389 XOR\n2 1 33457 33456 18281 XOR\n2 1 18304 18267 18388 XOR\n2 1 18390 18394 18383 AND\n2 1 18383 18307 18310 XOR\n2 1 18391 18389 18382 AND\n2 1 18376 18382 18328 XOR\n2 1 18399 18384 18380 AND\n2 1 18380 18305 18309 XOR\n2 1 18393 18386 18378 AND\n2 1 18398 18387 18377 AND\n2 1 18377 18306 18308 XOR\n2 1 18310 18308 18314 XOR\n2 1 33461 18314 18319 XOR\n2 1 18328 18319 18374 XOR\n2 1 18376 18377 18280 XOR\n2 1 18280 18281 18327 XOR\n2 1 18327 18309 18326 XOR\n2 1 18379 18326 18373 XOR\n",
"2 1 18397 18388 18375 AND\n2 1 18375 18378 18329 XOR\n2 1 18375 18381 18333 XOR\n2 1 18333 18305 18320 XOR\n2 1 18328 18320 18371 XOR\n2 1 18376 18329 18323 XOR\n2 1 18309 18329 18283 XOR\n2 1 18283 18308 18372 XOR\n2 1 18314 18333 18282 XOR\n2 1 33459 18282 18325 XOR\n2 1 18379 18323 18279 XOR\n2 1 33455 18279 18366 XOR\n2 1 18374 18373 18370 AND\n2 1 18370 18325 18365 XOR\n2 1 18370 18372 18369 XOR\n2 1 18371 18369 18368 AND\n2 1 18368 18325 18367 XOR\n2 1 18368 18380 18274 XOR\n2 1 18274 18310 18270 XOR\n2 1 33461 18270 18273 XOR\n2 1 18368 18319 18271 XOR\n2 1 33459 18270 18269 XOR\n2 1 18365 18366 18364 AND\n2 1 18364 18372 18363 XOR\n2 1 18370 18364 18362 XOR\n2 1 18364 18323 18278 XOR\n2 1 18364 18381 18277 XOR\n2 1 18277 18378 18272 XOR\n2 1 18272 18273 18355 XOR\n2 1 18372 18362 18361 AND\n2 1 18361 18369 18359 XOR\n2 1 18361 18379 18332 XOR\n2 1 18332 18326 18353 XOR\n2 1 33455 18332 18315 XOR\n2 1 18315 18278 18360 XOR\n2 1 18367 18359 18358 AND\n2 1 18358 18328 18318 XOR\n2 1 18318 18320 18357 XOR\n2 1 18358 18382 18276 XOR\n2 1 18315 18276 18268 XOR\n2 1 18305 18268 18275 XOR\n2 1 18272 18275 18356 XOR\n2 1 18318 18271 18354 XOR\n2 1 18268 18269 18352 XOR\n2 1 18353 18390 18351 AND\n2 1 18360 18389 18350 AND\n2 1 18363 33454 18349 AND\n2 1 18349 18351 18331 XOR\n2 1 18354 18384 18348 AND\n2 1 18357 18396 18347 AND\n2 1 18367 18386 18346 AND\n2 1 18346 18347 18285 XOR\n2 1 18355 18387 18345 AND\n2 1 18352 18385 18344 AND\n2 1 18344 18347 18300 XOR\n1 1 18300 18297 INV\n2 1 18344 18345 18296 XOR\n2 1 18356 18388 18343 AND\n2 1 18353 18394 18342 AND\n2 1 18360 18391 18341 AND\n2 1 18363 18395 18340 AND\n2 1 18354 18399 18339 AND\n2 1 18339 18343 18316 XOR\n2 1 18348 18339 18301 XOR\n1 1 18316 18294 INV\n2 1 18357 18392 18338 AND\n2 1 18346 18338 18303 XOR\n2 1 18367 18393 18337 AND\n2 1 18294 18337 18293 XOR\n2 1 18293 18331 18289 XOR\n2 1 18355 18398 18336 AND\n2 1 18336 18289 18292 XOR\n2 1 18352 18400 18335 AND\n2 1 18335 18336 18330 XOR\n2 1 18341 18330 18312 XOR\n2 1 18342 18312 18313 XOR\n2 1 18350 18313 18317 XOR\n2 1 18351 18317 18322 XOR\n2 1 18303 18330 18299 XOR\n2 1 18331 18299 18302 XOR\n2 1 18301 18302 18404 XOR\n2 1 18294 18299 18298 XOR\n2 1 18297 18298 18403 XOR\n2 1 18322 18296 18402 XOR\n2 1 18312 18289 18288 XOR\n2 1 18349 18317 18286 XOR\n2 1 18285 18286 34996 XOR\n2 1 18356 18397 18334 AND\n2 1 18345 18334 18295 XOR\n1 1 18295 18291 INV\n2 1 18291 18292 18401 XOR\n1 1 18402 34999 INV\n1 1 18401 34998 INV\n2 1 32985 34998 5881 XOR\n2 1 32986 34999 5879 XOR\n2 1 35003 34996 5616 XOR\n2 1 34992 34996 5893 XOR\n2 1 32773 18401 5756 XOR\n1 1 5893 5775 INV\n2 1 32774 18402 5754 XOR\n2 1 18347 18348 32685 XOR\n2 1 18344 32685 18324 XOR\n2 1 18345 18324 18284 XOR\n2 1 18313 18284 35000 XOR\n2 1 34994 35000 5829 XOR\n2 1 5829 34992 5619 XOR\n1 1 5829 5922 INV\n2 1 35000 35005 5830 XOR\n2 1 18340 18324 18290 XOR\n2 1 5922 34993 5774 XOR\n1 1 5830 5764 INV\n1 1 18290 18287 INV\n2 1 18287 18288 34995 XOR\n2 1 34991 34995 5620 XOR\n2 1 5619 5620 5898 XOR\n2 1 34995 35002 5868 XOR\n1 1 5868 5751 INV\n2 1 5893 5751 5762 XOR\n2 1 5751 34991 5749 XOR\n2 1 32685 18322 34997 XOR\n2 1 34993 34997 5884 XOR\n2 1 35004 34997 5758 XOR\n2 1 20293 20294 32699 XOR\n2 1 32699 20268 35058 XOR\n2 1 35058 35057 5630 XOR\n2 1 20290 32699 20270 XOR\n2 1 20286 20270 20236 XOR\n1 1 20236 20233 INV\n",
"2 1 20233 20234 35056 XOR\n2 1 20291 20270 20230 XOR\n2 1 20259 20230 35059 XOR\n2 1 35055 35059 5837 XOR\n2 1 5837 35056 5576 XOR\n2 1 5576 5577 5916 XOR\n1 1 18403 32951 INV\n2 1 32951 35001 5870 XOR\n2 1 5764 32951 5768 XOR\n1 1 18404 32952 INV\n2 1 32952 32775 5869 XOR\n2 1 5922 32952 5617 XOR\n2 1 5617 5618 5899 XOR\n1 1 20347 32981 INV\n2 1 32955 32981 5847 XOR\n1 1 5847 5818 INV\n1 1 20348 32982 INV\n2 1 32982 32956 5789 XOR\n2 1 32982 32981 5778 XOR\n1 1 20349 32983 INV\n2 1 32983 32949 5796 XOR\n1 1 20350 32984 INV\n2 1 32984 32950 5575 XOR\n1 1 5045 33236 INV\n2 1 33236 34847 5085 XOR\n2 1 5086 5085 5087 XOR\n1 1 5087 34785 INV\n2 1 34785 388 33505 XOR\n2 1 33236 32916 5082 XOR\n2 1 5083 5082 34783 XOR\n2 1 34783 390 33503 XOR\n2 1 33236 32768 5054 XOR\n2 1 5054 5053 34765 XOR\n2 1 34765 408 33485 XOR\n2 1 33483 33485 21919 XOR\n2 1 21919 22014 21999 XOR\n2 1 33482 33485 22012 XOR\n2 1 22012 21935 22008 XOR\n2 1 21919 21925 22007 XOR\n2 1 21935 22007 22005 XOR\n2 1 21918 22012 22004 XOR\n2 1 33478 22004 22003 XOR\n2 1 21921 21919 21881 XOR\n2 1 21918 21881 22002 XOR\n2 1 33485 33479 22013 XOR\n2 1 33485 33480 22011 XOR\n2 1 22004 22008 21997 AND\n2 1 21997 21921 21924 XOR\n2 1 22005 22003 21996 AND\n2 1 22013 21998 21994 AND\n2 1 21994 21919 21923 XOR\n2 1 22007 22000 21992 AND\n2 1 22012 22001 21991 AND\n2 1 21991 21920 21922 XOR\n2 1 21924 21922 21928 XOR\n2 1 33485 21928 21933 XOR\n2 1 22014 21999 21990 AND\n2 1 21990 21996 21942 XOR\n2 1 21942 21933 21988 XOR\n2 1 21990 21991 21894 XOR\n2 1 21894 21895 21941 XOR\n2 1 21941 21923 21940 XOR\n2 1 21993 21940 21987 XOR\n2 1 22011 22002 21989 AND\n2 1 21989 21992 21943 XOR\n2 1 21989 21995 21947 XOR\n2 1 21947 21919 21934 XOR\n2 1 21942 21934 21985 XOR\n2 1 21990 21943 21937 XOR\n2 1 21923 21943 21897 XOR\n2 1 21897 21922 21986 XOR\n2 1 21928 21947 21896 XOR\n2 1 33483 21896 21939 XOR\n2 1 21993 21937 21893 XOR\n2 1 33479 21893 21980 XOR\n2 1 21988 21987 21984 AND\n2 1 21984 21939 21979 XOR\n2 1 21984 21986 21983 XOR\n2 1 21985 21983 21982 AND\n2 1 21982 21939 21981 XOR\n2 1 21982 21994 21888 XOR\n2 1 21888 21924 21884 XOR\n2 1 33485 21884 21887 XOR\n2 1 21982 21933 21885 XOR\n2 1 33483 21884 21883 XOR\n2 1 21979 21980 21978 AND\n2 1 21978 21986 21977 XOR\n2 1 21984 21978 21976 XOR\n2 1 21978 21937 21892 XOR\n2 1 21978 21995 21891 XOR\n2 1 21891 21992 21886 XOR\n2 1 21886 21887 21969 XOR\n2 1 21986 21976 21975 AND\n2 1 21975 21983 21973 XOR\n2 1 21975 21993 21946 XOR\n2 1 21946 21940 21967 XOR\n2 1 33479 21946 21929 XOR\n2 1 21929 21892 21974 XOR\n2 1 21981 21973 21972 AND\n2 1 21972 21942 21932 XOR\n2 1 21932 21934 21971 XOR\n2 1 21972 21996 21890 XOR\n2 1 21929 21890 21882 XOR\n2 1 21919 21882 21889 XOR\n2 1 21886 21889 21970 XOR\n2 1 21932 21885 21968 XOR\n2 1 21882 21883 21966 XOR\n2 1 21967 22004 21965 AND\n2 1 21974 22003 21964 AND\n2 1 21977 33478 21963 AND\n2 1 21963 21965 21945 XOR\n2 1 21968 21998 21962 AND\n2 1 21971 22010 21961 AND\n2 1 21981 22000 21960 AND\n2 1 21960 21961 21899 XOR\n2 1 21969 22001 21959 AND\n2 1 21966 21999 21958 AND\n2 1 21958 21961 21914 XOR\n1 1 21914 21911 INV\n2 1 21958 21959 21910 XOR\n2 1 21970 22002 21957 AND\n2 1 21967 22008 21956 AND\n2 1 21974 22005 21955 AND\n2 1 21977 22009 21954 AND\n2 1 21968 22013 21953 AND\n2 1 21953 21957 21930 XOR\n2 1 21962 21953 21915 XOR\n1 1 21930 21908 INV\n",
"2 1 21971 22006 21952 AND\n2 1 21960 21952 21917 XOR\n2 1 21981 22007 21951 AND\n2 1 21908 21951 21907 XOR\n2 1 21907 21945 21903 XOR\n2 1 21969 22012 21950 AND\n2 1 21950 21903 21906 XOR\n2 1 21966 22014 21949 AND\n2 1 21949 21950 21944 XOR\n2 1 21955 21944 21926 XOR\n2 1 21956 21926 21927 XOR\n2 1 21964 21927 21931 XOR\n2 1 21965 21931 21936 XOR\n2 1 21917 21944 21913 XOR\n2 1 21945 21913 21916 XOR\n2 1 21915 21916 22018 XOR\n2 1 21908 21913 21912 XOR\n2 1 21911 21912 22017 XOR\n2 1 21936 21910 22016 XOR\n2 1 21926 21903 21902 XOR\n2 1 21963 21931 21900 XOR\n2 1 21899 21900 35029 XOR\n2 1 35029 35034 5875 XOR\n1 1 5875 5642 INV\n2 1 35035 35029 5606 XOR\n2 1 21970 22011 21948 AND\n2 1 21959 21948 21909 XOR\n1 1 21909 21905 INV\n2 1 21905 21906 22015 XOR\n2 1 33503 33505 23447 XOR\n2 1 33504 23447 23449 XOR\n2 1 33508 23449 23530 XOR\n2 1 33507 23449 23527 XOR\n2 1 23454 23449 23529 XOR\n2 1 33503 23539 23535 XOR\n2 1 23447 23541 23533 XOR\n2 1 33502 23533 23532 XOR\n2 1 33503 33504 23464 XOR\n2 1 23464 23536 23534 XOR\n2 1 23541 23464 23537 XOR\n2 1 33505 33504 23424 XOR\n2 1 23447 23410 23531 XOR\n2 1 33509 33503 23542 XOR\n2 1 23533 23537 23526 AND\n2 1 23526 23450 23453 XOR\n2 1 23534 23532 23525 AND\n2 1 23519 23525 23471 XOR\n2 1 23542 23527 23523 AND\n2 1 23523 23448 23452 XOR\n2 1 23539 23535 23522 AND\n2 1 23536 23529 23521 AND\n2 1 23541 23530 23520 AND\n2 1 23520 23449 23451 XOR\n2 1 23453 23451 23457 XOR\n2 1 33509 23457 23462 XOR\n2 1 23471 23462 23517 XOR\n2 1 23519 23520 23423 XOR\n2 1 23423 23424 23470 XOR\n2 1 23470 23452 23469 XOR\n2 1 23522 23469 23516 XOR\n2 1 23540 23531 23518 AND\n2 1 23518 23521 23472 XOR\n2 1 23518 23524 23476 XOR\n2 1 23476 23448 23463 XOR\n2 1 23471 23463 23514 XOR\n2 1 23519 23472 23466 XOR\n2 1 23452 23472 23426 XOR\n2 1 23426 23451 23515 XOR\n2 1 23457 23476 23425 XOR\n2 1 33507 23425 23468 XOR\n2 1 23522 23466 23422 XOR\n2 1 33503 23422 23509 XOR\n2 1 23517 23516 23513 AND\n2 1 23513 23468 23508 XOR\n2 1 23513 23515 23512 XOR\n2 1 23514 23512 23511 AND\n2 1 23511 23468 23510 XOR\n2 1 23511 23523 23417 XOR\n2 1 23417 23453 23413 XOR\n2 1 33509 23413 23416 XOR\n2 1 23511 23462 23414 XOR\n2 1 33507 23413 23412 XOR\n2 1 23508 23509 23507 AND\n2 1 23507 23515 23506 XOR\n2 1 23513 23507 23505 XOR\n2 1 23507 23466 23421 XOR\n2 1 23507 23524 23420 XOR\n2 1 23420 23521 23415 XOR\n2 1 23415 23416 23498 XOR\n2 1 23515 23505 23504 AND\n2 1 23504 23512 23502 XOR\n2 1 23504 23522 23475 XOR\n2 1 23475 23469 23496 XOR\n2 1 33503 23475 23458 XOR\n2 1 23458 23421 23503 XOR\n2 1 23510 23502 23501 AND\n2 1 23501 23471 23461 XOR\n2 1 23461 23463 23500 XOR\n2 1 23501 23525 23419 XOR\n2 1 23458 23419 23411 XOR\n2 1 23448 23411 23418 XOR\n2 1 23415 23418 23499 XOR\n2 1 23461 23414 23497 XOR\n2 1 23411 23412 23495 XOR\n2 1 23496 23533 23494 AND\n2 1 23503 23532 23493 AND\n2 1 23506 33502 23492 AND\n2 1 23492 23494 23474 XOR\n2 1 23497 23527 23491 AND\n2 1 23500 23539 23490 AND\n2 1 23510 23529 23489 AND\n2 1 23489 23490 23428 XOR\n2 1 23498 23530 23488 AND\n2 1 23495 23528 23487 AND\n2 1 23487 23490 23443 XOR\n1 1 23443 23440 INV\n2 1 23487 23488 23439 XOR\n2 1 23499 23531 23486 AND\n2 1 23496 23537 23485 AND\n2 1 23503 23534 23484 AND\n2 1 23506 23538 23483 AND\n2 1 23497 23542 23482 AND\n2 1 23482 23486 23459 XOR\n2 1 23491 23482 23444 XOR\n1 1 23459 23437 INV\n2 1 23500 23535 23481 AND\n2 1 23489 23481 23446 XOR\n2 1 23510 23536 23480 AND\n",
"2 1 23437 23480 23436 XOR\n2 1 23436 23474 23432 XOR\n2 1 23498 23541 23479 AND\n2 1 23479 23432 23435 XOR\n2 1 23495 23543 23478 AND\n2 1 23478 23479 23473 XOR\n2 1 23484 23473 23455 XOR\n2 1 23485 23455 23456 XOR\n2 1 23493 23456 23460 XOR\n2 1 23494 23460 23465 XOR\n2 1 23446 23473 23442 XOR\n2 1 23474 23442 23445 XOR\n2 1 23444 23445 23547 XOR\n2 1 23437 23442 23441 XOR\n2 1 23440 23441 23546 XOR\n2 1 23465 23439 23545 XOR\n2 1 23455 23432 23431 XOR\n2 1 23492 23460 23429 XOR\n2 1 23428 23429 35061 XOR\n2 1 23499 23540 23477 AND\n2 1 23488 23477 23438 XOR\n1 1 23438 23434 INV\n2 1 23434 23435 23544 XOR\n2 1 21961 21962 32711 XOR\n2 1 32711 21936 35030 XOR\n2 1 35030 35035 5867 XOR\n1 1 5867 5639 INV\n2 1 25641 35030 5683 XOR\n2 1 21958 32711 21938 XOR\n2 1 21954 21938 21904 XOR\n1 1 21904 21901 INV\n2 1 21901 21902 35028 XOR\n2 1 5604 35028 5603 XOR\n2 1 35028 35033 5882 XOR\n1 1 5882 5658 INV\n2 1 21959 21938 21898 XOR\n2 1 21927 21898 35031 XOR\n2 1 35031 35038 5827 XOR\n2 1 23490 23491 32722 XOR\n2 1 23487 32722 23467 XOR\n2 1 23483 23467 23433 XOR\n2 1 23488 23467 23427 XOR\n2 1 23456 23427 35063 XOR\n2 1 35059 35063 5822 XOR\n2 1 5822 35061 5629 XOR\n2 1 5629 5630 5894 XOR\n1 1 5822 5921 INV\n2 1 5921 32983 5785 XOR\n1 1 23433 23430 INV\n2 1 23430 23431 35060 XOR\n2 1 35061 35060 5591 XOR\n2 1 35056 35060 5840 XOR\n2 1 5842 5840 5781 XOR\n2 1 32722 23465 35062 XOR\n2 1 35058 35062 5839 XOR\n2 1 5847 5839 5779 XOR\n2 1 5837 35062 5794 XOR\n1 1 22018 33005 INV\n2 1 25643 33005 5600 XOR\n2 1 33005 33068 5890 XOR\n2 1 5890 5831 5659 XOR\n1 1 22015 33010 INV\n2 1 33010 35036 5860 XOR\n2 1 25642 33010 5678 XOR\n1 1 22016 33011 INV\n2 1 35038 33011 5675 XOR\n2 1 33011 35037 5853 XOR\n1 1 22017 33012 INV\n2 1 5611 33012 5686 XOR\n2 1 33012 35032 5889 XOR\n1 1 23546 33029 INV\n2 1 5837 33029 5574 XOR\n2 1 5574 5575 5917 XOR\n2 1 33029 35052 5632 XOR\n2 1 32983 33029 5852 XOR\n1 1 23547 33030 INV\n2 1 32984 33030 5872 XOR\n2 1 33030 32949 5589 XOR\n1 1 23544 33035 INV\n2 1 5818 33035 5816 XOR\n1 1 23545 33036 INV\n2 1 32982 33036 5845 XOR\n2 1 5845 32955 5800 XOR\n2 1 5921 33036 5813 XOR\n1 1 5827 33228 INV\n2 1 33228 35029 5668 XOR\n2 1 33228 33012 5672 XOR\n2 1 33228 35030 5666 XOR\n1 1 5039 33237 INV\n2 1 33237 34803 5120 XOR\n2 1 5121 5120 34690 XOR\n2 1 34690 483 33410 XOR\n2 1 33410 33412 20948 XOR\n2 1 33410 33413 21039 XOR\n2 1 21039 20962 21035 XOR\n2 1 33408 33410 21041 XOR\n2 1 20946 21041 21026 XOR\n2 1 20948 20946 20908 XOR\n2 1 20948 33411 20907 XOR\n2 1 33406 20907 21036 XOR\n2 1 21036 33406 21022 AND\n2 1 21041 21026 21017 AND\n2 1 33237 34805 5245 XOR\n2 1 5245 5244 4971 XOR\n2 1 4971 4974 34689 XOR\n2 1 34689 484 33409 XOR\n2 1 33407 33409 20945 XOR\n2 1 33408 20945 20947 XOR\n2 1 33412 20947 21028 XOR\n2 1 33411 20947 21025 XOR\n2 1 20952 20947 21027 XOR\n2 1 20945 21039 21031 XOR\n2 1 33406 21031 21030 XOR\n2 1 33409 33408 20922 XOR\n2 1 20945 20908 21029 XOR\n2 1 21031 21035 21024 AND\n2 1 21024 20948 20951 XOR\n2 1 21032 21030 21023 AND\n2 1 21017 21023 20969 XOR\n2 1 21040 21025 21021 AND\n2 1 21021 20946 20950 XOR\n2 1 21034 21027 21019 AND\n2 1 21039 21028 21018 AND\n2 1 21018 20947 20949 XOR\n2 1 20951 20949 20955 XOR\n2 1 33413 20955 20960 XOR\n2 1 20969 20960 21015 XOR\n2 1 21017 21018 20921 XOR\n",
"2 1 20921 20922 20968 XOR\n2 1 20968 20950 20967 XOR\n2 1 21020 20967 21014 XOR\n2 1 21038 21029 21016 AND\n2 1 21016 21019 20970 XOR\n2 1 21016 21022 20974 XOR\n2 1 20974 20946 20961 XOR\n2 1 20969 20961 21012 XOR\n2 1 21017 20970 20964 XOR\n2 1 20950 20970 20924 XOR\n2 1 20924 20949 21013 XOR\n2 1 20955 20974 20923 XOR\n2 1 33411 20923 20966 XOR\n2 1 21020 20964 20920 XOR\n2 1 33407 20920 21007 XOR\n2 1 21015 21014 21011 AND\n2 1 21011 20966 21006 XOR\n2 1 21011 21013 21010 XOR\n2 1 21012 21010 21009 AND\n2 1 21009 20966 21008 XOR\n2 1 21009 21021 20915 XOR\n2 1 20915 20951 20911 XOR\n2 1 33413 20911 20914 XOR\n2 1 21009 20960 20912 XOR\n2 1 33411 20911 20910 XOR\n2 1 21006 21007 21005 AND\n2 1 21005 21013 21004 XOR\n2 1 21011 21005 21003 XOR\n2 1 21005 20964 20919 XOR\n2 1 21005 21022 20918 XOR\n2 1 20918 21019 20913 XOR\n2 1 20913 20914 20996 XOR\n2 1 21013 21003 21002 AND\n2 1 21002 21010 21000 XOR\n2 1 21002 21020 20973 XOR\n2 1 20973 20967 20994 XOR\n2 1 33407 20973 20956 XOR\n2 1 20956 20919 21001 XOR\n2 1 21008 21000 20999 AND\n2 1 20999 20969 20959 XOR\n2 1 20959 20961 20998 XOR\n2 1 20999 21023 20917 XOR\n2 1 20956 20917 20909 XOR\n2 1 20946 20909 20916 XOR\n2 1 20913 20916 20997 XOR\n2 1 20959 20912 20995 XOR\n2 1 20909 20910 20993 XOR\n2 1 20994 21031 20992 AND\n2 1 21001 21030 20991 AND\n2 1 21004 33406 20990 AND\n2 1 20990 20992 20972 XOR\n2 1 20995 21025 20989 AND\n2 1 20998 21037 20988 AND\n2 1 21008 21027 20987 AND\n2 1 20987 20988 20926 XOR\n2 1 20996 21028 20986 AND\n2 1 20993 21026 20985 AND\n2 1 20985 20988 20941 XOR\n1 1 20941 20938 INV\n2 1 20985 20986 20937 XOR\n2 1 20997 21029 20984 AND\n2 1 20994 21035 20983 AND\n2 1 21001 21032 20982 AND\n2 1 21004 21036 20981 AND\n2 1 20995 21040 20980 AND\n2 1 20980 20984 20957 XOR\n2 1 20989 20980 20942 XOR\n1 1 20957 20935 INV\n2 1 20998 21033 20979 AND\n2 1 20987 20979 20944 XOR\n2 1 21008 21034 20978 AND\n2 1 20935 20978 20934 XOR\n2 1 20934 20972 20930 XOR\n2 1 20996 21039 20977 AND\n2 1 20977 20930 20933 XOR\n2 1 20993 21041 20976 AND\n2 1 20976 20977 20971 XOR\n2 1 20982 20971 20953 XOR\n2 1 20983 20953 20954 XOR\n2 1 20991 20954 20958 XOR\n2 1 20992 20958 20963 XOR\n2 1 20944 20971 20940 XOR\n2 1 20972 20940 20943 XOR\n2 1 20942 20943 21045 XOR\n2 1 20935 20940 20939 XOR\n2 1 20938 20939 21044 XOR\n2 1 20963 20937 21043 XOR\n2 1 21043 35000 5661 XOR\n2 1 20953 20930 20929 XOR\n2 1 20990 20958 20927 XOR\n2 1 20926 20927 35007 XOR\n2 1 35007 34997 5579 XOR\n2 1 35003 35007 5883 XOR\n2 1 5898 5883 34874 XOR\n2 1 34874 372 33521 XOR\n2 1 20997 21038 20975 AND\n2 1 20986 20975 20936 XOR\n1 1 20936 20932 INV\n2 1 20932 20933 21042 XOR\n1 1 21043 35009 INV\n2 1 32774 35009 5873 XOR\n2 1 5873 32985 5680 XOR\n2 1 5764 35007 5763 XOR\n2 1 5762 5763 34882 XOR\n2 1 34882 364 33529 XOR\n2 1 5873 5829 5742 XOR\n2 1 35005 5742 34894 XOR\n2 1 34894 352 33541 XOR\n2 1 5881 5873 5771 XOR\n2 1 32986 5771 34877 XOR\n2 1 34877 369 33524 XOR\n2 1 5879 21043 5755 XOR\n2 1 5755 5756 34885 XOR\n2 1 34885 361 33532 XOR\n2 1 5884 5883 5748 XOR\n1 1 5748 5746 INV\n2 1 33237 32740 5208 XOR\n2 1 5208 5207 34669 XOR\n2 1 34669 504 33389 XOR\n2 1 33387 33389 22336 XOR\n2 1 22336 22431 22416 XOR\n2 1 33386 33389 22429 XOR\n2 1 22429 22352 22425 XOR\n2 1 22336 22342 22424 XOR\n2 1 22352 22424 22422 XOR\n2 1 22335 22429 22421 XOR\n2 1 33382 22421 22420 XOR\n2 1 22338 22336 22298 XOR\n",
"2 1 22335 22298 22419 XOR\n2 1 33389 33383 22430 XOR\n2 1 33389 33384 22428 XOR\n2 1 22421 22425 22414 AND\n2 1 22414 22338 22341 XOR\n2 1 22422 22420 22413 AND\n2 1 22430 22415 22411 AND\n2 1 22411 22336 22340 XOR\n2 1 22424 22417 22409 AND\n2 1 22429 22418 22408 AND\n2 1 22408 22337 22339 XOR\n2 1 22341 22339 22345 XOR\n2 1 33389 22345 22350 XOR\n2 1 22431 22416 22407 AND\n2 1 22407 22413 22359 XOR\n2 1 22359 22350 22405 XOR\n2 1 22407 22408 22311 XOR\n2 1 22311 22312 22358 XOR\n2 1 22358 22340 22357 XOR\n2 1 22410 22357 22404 XOR\n2 1 22428 22419 22406 AND\n2 1 22406 22409 22360 XOR\n2 1 22406 22412 22364 XOR\n2 1 22364 22336 22351 XOR\n2 1 22359 22351 22402 XOR\n2 1 22407 22360 22354 XOR\n2 1 22340 22360 22314 XOR\n2 1 22314 22339 22403 XOR\n2 1 22345 22364 22313 XOR\n2 1 33387 22313 22356 XOR\n2 1 22410 22354 22310 XOR\n2 1 33383 22310 22397 XOR\n2 1 22405 22404 22401 AND\n2 1 22401 22356 22396 XOR\n2 1 22401 22403 22400 XOR\n2 1 22402 22400 22399 AND\n2 1 22399 22356 22398 XOR\n2 1 22399 22411 22305 XOR\n2 1 22305 22341 22301 XOR\n2 1 33389 22301 22304 XOR\n2 1 22399 22350 22302 XOR\n2 1 33387 22301 22300 XOR\n2 1 22396 22397 22395 AND\n2 1 22395 22403 22394 XOR\n2 1 22401 22395 22393 XOR\n2 1 22395 22354 22309 XOR\n2 1 22395 22412 22308 XOR\n2 1 22308 22409 22303 XOR\n2 1 22303 22304 22386 XOR\n2 1 22403 22393 22392 AND\n2 1 22392 22400 22390 XOR\n2 1 22392 22410 22363 XOR\n2 1 22363 22357 22384 XOR\n2 1 33383 22363 22346 XOR\n2 1 22346 22309 22391 XOR\n2 1 22398 22390 22389 AND\n2 1 22389 22359 22349 XOR\n2 1 22349 22351 22388 XOR\n2 1 22389 22413 22307 XOR\n2 1 22346 22307 22299 XOR\n2 1 22336 22299 22306 XOR\n2 1 22303 22306 22387 XOR\n2 1 22349 22302 22385 XOR\n2 1 22299 22300 22383 XOR\n2 1 22384 22421 22382 AND\n2 1 22391 22420 22381 AND\n2 1 22394 33382 22380 AND\n2 1 22380 22382 22362 XOR\n2 1 22385 22415 22379 AND\n2 1 22388 22427 22378 AND\n2 1 22398 22417 22377 AND\n2 1 22377 22378 22316 XOR\n2 1 22386 22418 22376 AND\n2 1 22383 22416 22375 AND\n2 1 22375 22378 22331 XOR\n1 1 22331 22328 INV\n2 1 22375 22376 22327 XOR\n2 1 22387 22419 22374 AND\n2 1 22384 22425 22373 AND\n2 1 22391 22422 22372 AND\n2 1 22394 22426 22371 AND\n2 1 22385 22430 22370 AND\n2 1 22370 22374 22347 XOR\n2 1 22379 22370 22332 XOR\n1 1 22347 22325 INV\n2 1 22388 22423 22369 AND\n2 1 22377 22369 22334 XOR\n2 1 22398 22424 22368 AND\n2 1 22325 22368 22324 XOR\n2 1 22324 22362 22320 XOR\n2 1 22386 22429 22367 AND\n2 1 22367 22320 22323 XOR\n2 1 22383 22431 22366 AND\n2 1 22366 22367 22361 XOR\n2 1 22372 22361 22343 XOR\n2 1 22373 22343 22344 XOR\n2 1 22381 22344 22348 XOR\n2 1 22382 22348 22353 XOR\n2 1 22334 22361 22330 XOR\n2 1 22362 22330 22333 XOR\n2 1 22332 22333 22435 XOR\n2 1 22325 22330 22329 XOR\n2 1 22328 22329 22434 XOR\n2 1 22353 22327 22433 XOR\n2 1 22343 22320 22319 XOR\n2 1 22380 22348 22317 XOR\n2 1 22316 22317 35048 XOR\n2 1 22387 22428 22365 AND\n2 1 22376 22365 22326 XOR\n1 1 22326 22322 INV\n2 1 22322 22323 22432 XOR\n1 1 22433 35050 INV\n2 1 35050 32956 5887 XOR\n2 1 5887 5822 5798 XOR\n2 1 5887 5847 5790 XOR\n2 1 5887 33035 5777 XOR\n2 1 35048 35061 5848 XOR\n2 1 5916 5848 34978 XOR\n2 1 34978 268 33625 XOR\n2 1 5848 5839 5819 XOR\n2 1 5777 5778 34989 XOR\n2 1 34989 257 33636 XOR\n2 1 33036 5790 34981 XOR\n2 1 34981 265 33628 XOR\n2 1 5921 35048 5782 XOR\n2 1 5781 5782 5780 XOR\n2 1 35055 22433 5814 XOR\n2 1 5813 5814 34966 XOR\n",
"2 1 34966 280 33613 XOR\n1 1 5780 34986 INV\n2 1 34986 260 33633 XOR\n2 1 20988 20989 32704 XOR\n2 1 20985 32704 20965 XOR\n2 1 20986 20965 20925 XOR\n2 1 20981 20965 20931 XOR\n1 1 20931 20928 INV\n2 1 20928 20929 35006 XOR\n2 1 34991 35006 5871 XOR\n2 1 5871 5870 5765 XOR\n2 1 20954 20925 35010 XOR\n2 1 34994 35010 5836 XOR\n2 1 5836 34992 5578 XOR\n2 1 5922 35010 5753 XOR\n2 1 5753 5754 34886 XOR\n2 1 34886 360 33533 XOR\n2 1 5869 5836 5821 XOR\n1 1 5836 5732 INV\n2 1 5732 34996 5731 XOR\n2 1 34995 5765 34881 XOR\n2 1 34881 365 33528 XOR\n2 1 33533 33528 15200 XOR\n2 1 33529 33528 15084 XOR\n2 1 35005 35010 5828 XOR\n2 1 5879 5828 5770 XOR\n2 1 34994 5770 34878 XOR\n2 1 34878 368 33525 XOR\n2 1 5578 5579 5915 XOR\n1 1 5871 5733 INV\n2 1 5733 32951 5802 XOR\n2 1 5802 5803 34873 XOR\n2 1 34873 373 33520 XOR\n2 1 33525 33520 16868 XOR\n2 1 5883 5733 5730 XOR\n2 1 5730 5731 34866 XOR\n2 1 34866 380 33513 XOR\n2 1 33521 33520 16752 XOR\n2 1 5869 5828 5752 XOR\n2 1 32988 5752 34887 XOR\n2 1 34887 359 33534 XOR\n2 1 32704 20963 35008 XOR\n2 1 35008 18401 5698 XOR\n2 1 35004 35008 5880 XOR\n2 1 5915 5880 34867 XOR\n2 1 34867 379 33514 XOR\n2 1 5830 35008 5615 XOR\n2 1 5615 5616 5900 XOR\n2 1 5900 5884 34883 XOR\n2 1 34883 363 33530 XOR\n2 1 33530 33532 15110 XOR\n2 1 33530 33533 15201 XOR\n2 1 33528 33530 15203 XOR\n2 1 5775 5880 5773 XOR\n2 1 5881 5880 5745 XOR\n2 1 32773 5745 34892 XOR\n2 1 34892 354 33539 XOR\n2 1 33539 33541 17332 XOR\n2 1 5773 5774 34875 XOR\n2 1 34875 371 33522 XOR\n2 1 33522 33524 16778 XOR\n2 1 33522 33525 16869 XOR\n2 1 33520 33522 16871 XOR\n2 1 22378 22379 32714 XOR\n2 1 32714 22353 35049 XOR\n2 1 35049 35054 5888 XOR\n2 1 5894 5888 34987 XOR\n2 1 5888 5842 5793 XOR\n2 1 5793 5794 34979 XOR\n2 1 34979 267 33626 XOR\n2 1 33626 33628 14693 XOR\n1 1 35049 5628 INV\n2 1 35062 5628 5817 XOR\n2 1 5816 5817 34964 XOR\n2 1 34964 282 33611 XOR\n2 1 33611 33613 19834 XOR\n2 1 35053 5628 5627 XOR\n2 1 34987 259 33634 XOR\n2 1 33634 33636 6242 XOR\n2 1 22375 32714 22355 XOR\n2 1 22371 22355 22321 XOR\n1 1 22321 22318 INV\n2 1 22318 22319 35047 XOR\n2 1 35047 35052 5862 XOR\n2 1 22376 22355 22315 XOR\n2 1 22344 22315 35051 XOR\n2 1 35051 35063 5834 XOR\n2 1 5872 5834 5633 XOR\n2 1 32950 5633 34959 XOR\n2 1 34959 287 33606 XOR\n2 1 35051 35055 5823 XOR\n1 1 5823 5920 INV\n2 1 5920 35048 5626 XOR\n2 1 5626 5627 5895 XOR\n2 1 5895 5839 34971 XOR\n2 1 34971 275 33618 XOR\n2 1 5862 5852 5783 XOR\n2 1 5862 35060 5795 XOR\n2 1 35051 5798 34974 XOR\n2 1 34974 272 33621 XOR\n2 1 33618 33621 18120 XOR\n2 1 5834 35054 5820 XOR\n2 1 5920 35057 5806 XOR\n2 1 5819 5820 34963 XOR\n2 1 34963 283 33610 XOR\n2 1 33610 33613 19927 XOR\n2 1 5795 5796 34977 XOR\n2 1 34977 269 33624 XOR\n2 1 33624 33626 14786 XOR\n2 1 33625 33624 14667 XOR\n2 1 35056 5783 34985 XOR\n2 1 34985 261 33632 XOR\n2 1 33633 33632 6216 XOR\n2 1 33632 33634 6335 XOR\n2 1 5845 5823 5776 XOR\n2 1 5872 5823 5812 XOR\n2 1 5862 5848 5807 XOR\n1 1 5807 5805 INV\n2 1 5805 5806 34970 XOR\n2 1 34970 276 33617 XOR\n2 1 5823 35063 5788 XOR\n2 1 5788 5789 34982 XOR\n2 1 34982 264 33629 XOR\n2 1 33626 33629 14784 XOR\n2 1 33629 33624 14783 XOR\n2 1 35059 5776 34990 XOR\n2 1 34990 256 33637 XOR\n2 1 33634 33637 6333 XOR\n",
"2 1 33637 33632 6332 XOR\n2 1 5834 35047 5590 XOR\n2 1 5590 5591 5910 XOR\n2 1 5910 5842 34962 XOR\n2 1 34962 284 33609 XOR\n1 1 21042 32998 INV\n2 1 32773 32998 5876 XOR\n2 1 5876 34993 5699 XOR\n1 1 5699 5697 INV\n2 1 5697 5698 34868 XOR\n2 1 34868 378 33515 XOR\n2 1 32998 18402 5681 XOR\n2 1 5680 5681 5679 XOR\n1 1 5679 34869 INV\n2 1 34869 377 33516 XOR\n2 1 33514 33516 20114 XOR\n2 1 20114 33515 20073 XOR\n2 1 5879 5876 5743 XOR\n2 1 32774 5743 34893 XOR\n2 1 34893 353 33540 XOR\n2 1 33534 33540 17338 XOR\n2 1 17332 17338 17420 XOR\n2 1 33539 17338 17423 XOR\n2 1 5884 5876 5772 XOR\n2 1 32985 5772 34876 XOR\n2 1 34876 370 33523 XOR\n2 1 33523 33525 16776 XOR\n2 1 16776 16871 16856 XOR\n2 1 16778 16776 16738 XOR\n2 1 16778 33523 16737 XOR\n2 1 16871 16856 16847 AND\n2 1 5881 32998 5757 XOR\n2 1 5757 5758 34884 XOR\n2 1 34884 362 33531 XOR\n2 1 33531 33533 15108 XOR\n2 1 15108 15203 15188 XOR\n2 1 15110 15108 15070 XOR\n2 1 15110 33531 15069 XOR\n2 1 15203 15188 15179 AND\n1 1 21044 32999 INV\n2 1 32987 32999 5891 XOR\n2 1 5899 5891 34872 XOR\n2 1 34872 374 33519 XOR\n2 1 33519 33521 16775 XOR\n2 1 33520 16775 16777 XOR\n2 1 33524 16777 16858 XOR\n2 1 33523 16777 16855 XOR\n2 1 16775 16869 16861 XOR\n2 1 33519 33520 16792 XOR\n2 1 16869 16792 16865 XOR\n2 1 16775 16738 16859 XOR\n2 1 33525 33519 16870 XOR\n2 1 16861 16865 16854 AND\n2 1 16854 16778 16781 XOR\n2 1 16870 16855 16851 AND\n2 1 16851 16776 16780 XOR\n2 1 16869 16858 16848 AND\n2 1 16848 16777 16779 XOR\n2 1 16781 16779 16785 XOR\n2 1 33525 16785 16790 XOR\n2 1 16847 16848 16751 XOR\n2 1 16751 16752 16798 XOR\n2 1 16798 16780 16797 XOR\n2 1 16868 16859 16846 AND\n2 1 5891 5869 5767 XOR\n2 1 5767 5768 5766 XOR\n2 1 5891 5868 5744 XOR\n2 1 35006 5744 34865 XOR\n2 1 34865 381 33512 XOR\n2 1 33512 33514 20207 XOR\n2 1 33513 33512 20088 XOR\n1 1 5766 34880 INV\n2 1 34880 366 33527 XOR\n2 1 33527 33529 15107 XOR\n2 1 33528 15107 15109 XOR\n2 1 33532 15109 15190 XOR\n2 1 33531 15109 15187 XOR\n2 1 15107 15201 15193 XOR\n2 1 33527 33528 15124 XOR\n2 1 15201 15124 15197 XOR\n2 1 15107 15070 15191 XOR\n2 1 33533 33527 15202 XOR\n2 1 15193 15197 15186 AND\n2 1 15186 15110 15113 XOR\n2 1 15202 15187 15183 AND\n2 1 15183 15108 15112 XOR\n2 1 15201 15190 15180 AND\n2 1 15180 15109 15111 XOR\n2 1 15113 15111 15117 XOR\n2 1 33533 15117 15122 XOR\n2 1 15179 15180 15083 XOR\n2 1 15083 15084 15130 XOR\n2 1 15130 15112 15129 XOR\n2 1 15200 15191 15178 AND\n2 1 5732 32999 5761 XOR\n2 1 32999 5572 5750 XOR\n2 1 5749 5750 34889 XOR\n2 1 34889 357 33536 XOR\n2 1 33541 33536 17424 XOR\n1 1 21045 33000 INV\n2 1 5828 33000 5621 XOR\n2 1 5621 5622 5897 XOR\n2 1 5897 5870 34888 XOR\n2 1 34888 358 33535 XOR\n2 1 33535 17423 17419 XOR\n2 1 33535 33536 17348 XOR\n2 1 17348 17420 17418 XOR\n2 1 33541 33535 17426 XOR\n2 1 17423 17419 17406 AND\n2 1 33000 5821 34863 XOR\n2 1 34863 383 33510 XOR\n2 1 33510 33516 20118 XOR\n2 1 33515 20118 20203 XOR\n2 1 33510 20073 20202 XOR\n2 1 20202 33510 20188 AND\n2 1 32988 33000 5892 XOR\n2 1 5892 5829 5644 XOR\n2 1 32775 5644 34871 XOR\n2 1 34871 375 33518 XOR\n2 1 33518 16861 16860 XOR\n2 1 33518 33524 16782 XOR\n2 1 16782 16777 16857 XOR\n2 1 16776 16782 16864 XOR\n2 1 16792 16864 16862 XOR\n2 1 33523 16782 16867 XOR\n2 1 33519 16867 16863 XOR\n2 1 33518 16737 16866 XOR\n2 1 16862 16860 16853 AND\n",
"2 1 16847 16853 16799 XOR\n2 1 16799 16790 16845 XOR\n2 1 16866 33518 16852 AND\n2 1 16846 16852 16804 XOR\n2 1 16804 16776 16791 XOR\n2 1 16799 16791 16842 XOR\n2 1 16785 16804 16753 XOR\n2 1 33523 16753 16796 XOR\n2 1 16867 16863 16850 AND\n2 1 16850 16797 16844 XOR\n2 1 16864 16857 16849 AND\n2 1 16846 16849 16800 XOR\n2 1 16847 16800 16794 XOR\n2 1 16780 16800 16754 XOR\n2 1 16754 16779 16843 XOR\n2 1 16850 16794 16750 XOR\n2 1 33519 16750 16837 XOR\n2 1 16845 16844 16841 AND\n2 1 16841 16796 16836 XOR\n2 1 16841 16843 16840 XOR\n2 1 16842 16840 16839 AND\n2 1 16839 16796 16838 XOR\n2 1 16839 16851 16745 XOR\n2 1 16745 16781 16741 XOR\n2 1 33525 16741 16744 XOR\n2 1 16839 16790 16742 XOR\n2 1 33523 16741 16740 XOR\n2 1 16836 16837 16835 AND\n2 1 16835 16843 16834 XOR\n2 1 16841 16835 16833 XOR\n2 1 16835 16794 16749 XOR\n2 1 16835 16852 16748 XOR\n2 1 16748 16849 16743 XOR\n2 1 16743 16744 16826 XOR\n2 1 16843 16833 16832 AND\n2 1 16832 16840 16830 XOR\n2 1 16832 16850 16803 XOR\n2 1 16803 16797 16824 XOR\n2 1 33519 16803 16786 XOR\n2 1 16786 16749 16831 XOR\n2 1 16838 16830 16829 AND\n2 1 16829 16799 16789 XOR\n2 1 16789 16791 16828 XOR\n2 1 16829 16853 16747 XOR\n2 1 16786 16747 16739 XOR\n2 1 16776 16739 16746 XOR\n2 1 16743 16746 16827 XOR\n2 1 16789 16742 16825 XOR\n2 1 16739 16740 16823 XOR\n2 1 16824 16861 16822 AND\n2 1 16831 16860 16821 AND\n2 1 16834 33518 16820 AND\n2 1 16820 16822 16802 XOR\n2 1 16825 16855 16819 AND\n2 1 16828 16867 16818 AND\n2 1 16838 16857 16817 AND\n2 1 16817 16818 16756 XOR\n2 1 16826 16858 16816 AND\n2 1 16823 16856 16815 AND\n2 1 16815 16818 16771 XOR\n1 1 16771 16768 INV\n2 1 16815 16816 16767 XOR\n2 1 16827 16859 16814 AND\n2 1 16824 16865 16813 AND\n2 1 16831 16862 16812 AND\n2 1 16834 16866 16811 AND\n2 1 16825 16870 16810 AND\n2 1 16810 16814 16787 XOR\n2 1 16819 16810 16772 XOR\n1 1 16787 16765 INV\n2 1 16828 16863 16809 AND\n2 1 16817 16809 16774 XOR\n2 1 16838 16864 16808 AND\n2 1 16765 16808 16764 XOR\n2 1 16764 16802 16760 XOR\n2 1 16826 16869 16807 AND\n2 1 16807 16760 16763 XOR\n2 1 16823 16871 16806 AND\n2 1 16806 16807 16801 XOR\n2 1 16812 16801 16783 XOR\n2 1 16813 16783 16784 XOR\n2 1 16821 16784 16788 XOR\n2 1 16822 16788 16793 XOR\n2 1 16774 16801 16770 XOR\n2 1 16802 16770 16773 XOR\n2 1 16772 16773 16875 XOR\n2 1 16765 16770 16769 XOR\n2 1 16768 16769 16874 XOR\n2 1 32974 16874 6423 XOR\n2 1 16793 16767 16873 XOR\n2 1 32973 16873 6416 XOR\n2 1 16783 16760 16759 XOR\n2 1 16820 16788 16757 XOR\n2 1 16756 16757 35235 XOR\n2 1 16827 16868 16805 AND\n2 1 16816 16805 16766 XOR\n1 1 16766 16762 INV\n2 1 16762 16763 16872 XOR\n2 1 32980 16872 6418 XOR\n1 1 16874 35233 INV\n1 1 16873 35238 INV\n1 1 16872 35237 INV\n1 1 35235 6370 INV\n2 1 35241 6370 6380 XOR\n2 1 5892 5870 5760 XOR\n2 1 5892 5830 5769 XOR\n2 1 32952 5769 34879 XOR\n2 1 34879 367 33526 XOR\n2 1 33526 15193 15192 XOR\n2 1 33526 33532 15114 XOR\n2 1 15114 15109 15189 XOR\n2 1 15108 15114 15196 XOR\n2 1 15124 15196 15194 XOR\n2 1 33531 15114 15199 XOR\n2 1 33527 15199 15195 XOR\n2 1 33526 15069 15198 XOR\n2 1 15194 15192 15185 AND\n2 1 15179 15185 15131 XOR\n2 1 15131 15122 15177 XOR\n2 1 15198 33526 15184 AND\n2 1 15178 15184 15136 XOR\n2 1 15136 15108 15123 XOR\n2 1 15131 15123 15174 XOR\n2 1 15117 15136 15085 XOR\n2 1 33531 15085 15128 XOR\n2 1 15199 15195 15182 AND\n2 1 15182 15129 15176 XOR\n2 1 15196 15189 15181 AND\n",
"2 1 15178 15181 15132 XOR\n2 1 15179 15132 15126 XOR\n2 1 15112 15132 15086 XOR\n2 1 15086 15111 15175 XOR\n2 1 15182 15126 15082 XOR\n2 1 33527 15082 15169 XOR\n2 1 15177 15176 15173 AND\n2 1 15173 15128 15168 XOR\n2 1 15173 15175 15172 XOR\n2 1 15174 15172 15171 AND\n2 1 15171 15128 15170 XOR\n2 1 15171 15183 15077 XOR\n2 1 15077 15113 15073 XOR\n2 1 33533 15073 15076 XOR\n2 1 15171 15122 15074 XOR\n2 1 33531 15073 15072 XOR\n2 1 15168 15169 15167 AND\n2 1 15167 15175 15166 XOR\n2 1 15173 15167 15165 XOR\n2 1 15167 15126 15081 XOR\n2 1 15167 15184 15080 XOR\n2 1 15080 15181 15075 XOR\n2 1 15075 15076 15158 XOR\n2 1 15175 15165 15164 AND\n2 1 15164 15172 15162 XOR\n2 1 15164 15182 15135 XOR\n2 1 15135 15129 15156 XOR\n2 1 33527 15135 15118 XOR\n2 1 15118 15081 15163 XOR\n2 1 15170 15162 15161 AND\n2 1 15161 15131 15121 XOR\n2 1 15121 15123 15160 XOR\n2 1 15161 15185 15079 XOR\n2 1 15118 15079 15071 XOR\n2 1 15108 15071 15078 XOR\n2 1 15075 15078 15159 XOR\n2 1 15121 15074 15157 XOR\n2 1 15071 15072 15155 XOR\n2 1 15156 15193 15154 AND\n2 1 15163 15192 15153 AND\n2 1 15166 33526 15152 AND\n2 1 15152 15154 15134 XOR\n2 1 15157 15187 15151 AND\n2 1 15160 15199 15150 AND\n2 1 15170 15189 15149 AND\n2 1 15149 15150 15088 XOR\n2 1 15158 15190 15148 AND\n2 1 15155 15188 15147 AND\n2 1 15147 15150 15103 XOR\n1 1 15103 15100 INV\n2 1 15147 15148 15099 XOR\n2 1 15159 15191 15146 AND\n2 1 15156 15197 15145 AND\n2 1 15163 15194 15144 AND\n2 1 15166 15198 15143 AND\n2 1 15157 15202 15142 AND\n2 1 15142 15146 15119 XOR\n2 1 15151 15142 15104 XOR\n1 1 15119 15097 INV\n2 1 15160 15195 15141 AND\n2 1 15149 15141 15106 XOR\n2 1 15170 15196 15140 AND\n2 1 15097 15140 15096 XOR\n2 1 15096 15134 15092 XOR\n2 1 15158 15201 15139 AND\n2 1 15139 15092 15095 XOR\n2 1 15155 15203 15138 AND\n2 1 15138 15139 15133 XOR\n2 1 15144 15133 15115 XOR\n2 1 15145 15115 15116 XOR\n2 1 15153 15116 15120 XOR\n2 1 15154 15120 15125 XOR\n2 1 15106 15133 15102 XOR\n2 1 15134 15102 15105 XOR\n2 1 15104 15105 15207 XOR\n2 1 15097 15102 15101 XOR\n2 1 15100 15101 15206 XOR\n2 1 15125 15099 15205 XOR\n2 1 15115 15092 15091 XOR\n2 1 15152 15120 15089 XOR\n2 1 15088 15089 35222 XOR\n2 1 15159 15200 15137 AND\n2 1 15148 15137 15098 XOR\n1 1 15098 15094 INV\n2 1 15094 15095 15204 XOR\n2 1 5760 5761 5759 XOR\n1 1 5759 34864 INV\n2 1 34864 382 33511 XOR\n2 1 33511 33513 20111 XOR\n2 1 33512 20111 20113 XOR\n2 1 33516 20113 20194 XOR\n2 1 33515 20113 20191 XOR\n2 1 20118 20113 20193 XOR\n2 1 33511 20203 20199 XOR\n2 1 33511 33512 20128 XOR\n2 1 20203 20199 20186 AND\n2 1 35222 35226 6617 XOR\n2 1 15150 15151 32662 XOR\n2 1 32662 15125 35223 XOR\n1 1 35223 6461 INV\n2 1 35223 35227 6612 XOR\n2 1 15147 32662 15127 XOR\n2 1 15143 15127 15093 XOR\n1 1 15093 15090 INV\n2 1 15090 15091 35221 XOR\n2 1 15148 15127 15087 XOR\n2 1 15116 15087 35224 XOR\n2 1 35221 35225 6622 XOR\n2 1 6622 33025 6505 XOR\n2 1 35224 35228 6591 XOR\n2 1 6591 35222 6467 XOR\n2 1 6591 6461 6460 XOR\n2 1 16818 16819 32674 XOR\n2 1 16815 32674 16795 XOR\n2 1 16816 16795 16755 XOR\n2 1 16784 16755 35239 XOR\n2 1 35239 35243 6597 XOR\n1 1 6597 6378 INV\n2 1 16811 16795 16761 XOR\n1 1 16761 16758 INV\n2 1 16758 16759 35234 XOR\n1 1 35234 6377 INV\n2 1 35240 6377 6376 XOR\n2 1 32674 16793 35236 XOR\n2 1 35242 35236 6421 XOR\n1 1 15207 32901 INV\n2 1 32901 33026 6629 XOR\n1 1 15204 32906 INV\n",
"2 1 32906 33031 6607 XOR\n2 1 6607 35227 6503 XOR\n1 1 15205 32907 INV\n2 1 35224 32907 6456 XOR\n1 1 15206 32908 INV\n2 1 6591 32908 6470 XOR\n2 1 32908 33025 6625 XOR\n1 1 16875 32926 INV\n2 1 32975 32926 6374 XOR\n1 1 22435 33017 INV\n2 1 33017 32950 5885 XOR\n2 1 5834 33017 5588 XOR\n2 1 5588 5589 5911 XOR\n2 1 5911 5852 34960 XOR\n2 1 34960 286 33607 XOR\n2 1 33607 33609 19833 XOR\n2 1 19833 19927 19919 XOR\n2 1 33606 19919 19918 XOR\n2 1 33613 33607 19928 XOR\n2 1 5885 5837 5797 XOR\n2 1 33030 5797 34975 XOR\n2 1 34975 271 33622 XOR\n2 1 33622 33628 14697 XOR\n2 1 5885 5822 5787 XOR\n2 1 32984 5787 34983 XOR\n2 1 34983 263 33630 XOR\n2 1 33630 33636 6246 XOR\n2 1 33017 5812 34967 XOR\n2 1 34967 279 33614 XOR\n2 1 5885 5852 5810 XOR\n1 1 22432 33023 INV\n2 1 33023 33035 5857 XOR\n2 1 22433 33023 5801 XOR\n2 1 33023 5779 34988 XOR\n2 1 34988 258 33635 XOR\n2 1 33635 33637 6240 XOR\n2 1 6240 6335 6320 XOR\n2 1 6240 6246 6328 XOR\n2 1 33635 6246 6331 XOR\n2 1 6242 6240 6202 XOR\n2 1 6242 33635 6201 XOR\n2 1 5857 5845 5815 XOR\n2 1 32956 5815 34965 XOR\n2 1 34965 281 33612 XOR\n2 1 33610 33612 19836 XOR\n2 1 33606 33612 19840 XOR\n2 1 19834 19840 19922 XOR\n2 1 33611 19840 19925 XOR\n2 1 33607 19925 19921 XOR\n2 1 19836 19834 19796 XOR\n2 1 19833 19796 19917 XOR\n2 1 19836 33611 19795 XOR\n2 1 33606 19795 19924 XOR\n2 1 19924 33606 19910 AND\n2 1 19925 19921 19908 AND\n2 1 5857 35058 5791 XOR\n2 1 5888 5857 5804 XOR\n2 1 32981 5804 34972 XOR\n2 1 34972 274 33619 XOR\n2 1 33619 33621 18027 XOR\n2 1 5800 5801 5799 XOR\n1 1 5799 34973 INV\n2 1 34973 273 33620 XOR\n2 1 33618 33620 18029 XOR\n2 1 33614 33620 18033 XOR\n2 1 18027 18033 18115 XOR\n2 1 33619 18033 18118 XOR\n2 1 18029 18027 17989 XOR\n2 1 18029 33619 17988 XOR\n2 1 33614 17988 18117 XOR\n2 1 18117 33614 18103 AND\n2 1 5791 5792 34980 XOR\n2 1 34980 266 33627 XOR\n2 1 33627 33629 14691 XOR\n2 1 14691 14786 14771 XOR\n2 1 14691 14697 14779 XOR\n2 1 33627 14697 14782 XOR\n2 1 14693 14691 14653 XOR\n2 1 14693 33627 14652 XOR\n2 1 33622 14652 14781 XOR\n2 1 14781 33622 14767 AND\n2 1 14786 14771 14762 AND\n2 1 33630 6201 6330 XOR\n2 1 6330 33630 6316 AND\n2 1 6335 6320 6311 AND\n1 1 22434 33024 INV\n2 1 33024 32949 5877 XOR\n2 1 5917 5877 34976 XOR\n2 1 5840 33024 5631 XOR\n2 1 5631 5632 34961 XOR\n2 1 34961 285 33608 XOR\n2 1 33608 19833 19835 XOR\n2 1 33612 19835 19916 XOR\n2 1 33611 19835 19913 XOR\n2 1 19840 19835 19915 XOR\n2 1 33607 33608 19850 XOR\n2 1 19850 19922 19920 XOR\n2 1 19927 19850 19923 XOR\n2 1 33608 33610 19929 XOR\n2 1 19834 19929 19914 XOR\n2 1 33609 33608 19810 XOR\n2 1 33613 33608 19926 XOR\n2 1 19919 19923 19912 AND\n2 1 19912 19836 19839 XOR\n2 1 19920 19918 19911 AND\n2 1 19928 19913 19909 AND\n2 1 19909 19834 19838 XOR\n2 1 19922 19915 19907 AND\n2 1 19927 19916 19906 AND\n2 1 19906 19835 19837 XOR\n2 1 19839 19837 19843 XOR\n2 1 33613 19843 19848 XOR\n2 1 19929 19914 19905 AND\n2 1 19905 19911 19857 XOR\n2 1 19857 19848 19903 XOR\n2 1 19905 19906 19809 XOR\n2 1 19809 19810 19856 XOR\n2 1 19856 19838 19855 XOR\n2 1 19908 19855 19902 XOR\n2 1 19926 19917 19904 AND\n2 1 19904 19907 19858 XOR\n2 1 19904 19910 19862 XOR\n2 1 19862 19834 19849 XOR\n2 1 19857 19849 19900 XOR\n2 1 19905 19858 19852 XOR\n2 1 19838 19858 19812 XOR\n2 1 19812 19837 19901 XOR\n2 1 19843 19862 19811 XOR\n",
"2 1 33611 19811 19854 XOR\n2 1 19908 19852 19808 XOR\n2 1 33607 19808 19895 XOR\n2 1 19903 19902 19899 AND\n2 1 19899 19854 19894 XOR\n2 1 19899 19901 19898 XOR\n2 1 19900 19898 19897 AND\n2 1 19897 19854 19896 XOR\n2 1 19897 19909 19803 XOR\n2 1 19803 19839 19799 XOR\n2 1 33613 19799 19802 XOR\n2 1 19897 19848 19800 XOR\n2 1 33611 19799 19798 XOR\n2 1 19894 19895 19893 AND\n2 1 19893 19901 19892 XOR\n2 1 19899 19893 19891 XOR\n2 1 19893 19852 19807 XOR\n2 1 19893 19910 19806 XOR\n2 1 19806 19907 19801 XOR\n2 1 19801 19802 19884 XOR\n2 1 19901 19891 19890 AND\n2 1 19890 19898 19888 XOR\n2 1 19890 19908 19861 XOR\n2 1 19861 19855 19882 XOR\n2 1 33607 19861 19844 XOR\n2 1 19844 19807 19889 XOR\n2 1 19896 19888 19887 AND\n2 1 19887 19857 19847 XOR\n2 1 19847 19849 19886 XOR\n2 1 19887 19911 19805 XOR\n2 1 19844 19805 19797 XOR\n2 1 19834 19797 19804 XOR\n2 1 19801 19804 19885 XOR\n2 1 19847 19800 19883 XOR\n2 1 19797 19798 19881 XOR\n2 1 19882 19919 19880 AND\n2 1 19889 19918 19879 AND\n2 1 19892 33606 19878 AND\n2 1 19878 19880 19860 XOR\n2 1 19883 19913 19877 AND\n2 1 19886 19925 19876 AND\n2 1 19896 19915 19875 AND\n2 1 19875 19876 19814 XOR\n2 1 19884 19916 19874 AND\n2 1 19881 19914 19873 AND\n2 1 19873 19876 19829 XOR\n1 1 19829 19826 INV\n2 1 19873 19874 19825 XOR\n2 1 19885 19917 19872 AND\n2 1 19882 19923 19871 AND\n2 1 19889 19920 19870 AND\n2 1 19892 19924 19869 AND\n2 1 19883 19928 19868 AND\n2 1 19868 19872 19845 XOR\n2 1 19877 19868 19830 XOR\n1 1 19845 19823 INV\n2 1 19886 19921 19867 AND\n2 1 19875 19867 19832 XOR\n2 1 19896 19922 19866 AND\n2 1 19823 19866 19822 XOR\n2 1 19822 19860 19818 XOR\n2 1 19884 19927 19865 AND\n2 1 19865 19818 19821 XOR\n2 1 19881 19929 19864 AND\n2 1 19864 19865 19859 XOR\n2 1 19870 19859 19841 XOR\n2 1 19871 19841 19842 XOR\n2 1 19879 19842 19846 XOR\n2 1 19880 19846 19851 XOR\n2 1 19832 19859 19828 XOR\n2 1 19860 19828 19831 XOR\n2 1 19830 19831 19933 XOR\n2 1 19823 19828 19827 XOR\n2 1 19826 19827 19932 XOR\n2 1 19851 19825 19931 XOR\n2 1 19841 19818 19817 XOR\n2 1 19878 19846 19815 XOR\n2 1 19814 19815 35230 XOR\n2 1 35236 35230 6372 XOR\n2 1 19885 19926 19863 AND\n2 1 19874 19863 19824 XOR\n1 1 19824 19820 INV\n2 1 19820 19821 19930 XOR\n2 1 34976 270 33623 XOR\n2 1 33623 33625 14690 XOR\n2 1 33624 14690 14692 XOR\n2 1 33628 14692 14773 XOR\n2 1 33627 14692 14770 XOR\n2 1 14697 14692 14772 XOR\n2 1 33623 14782 14778 XOR\n2 1 14690 14784 14776 XOR\n2 1 33622 14776 14775 XOR\n2 1 33623 33624 14707 XOR\n2 1 14707 14779 14777 XOR\n2 1 14784 14707 14780 XOR\n2 1 14690 14653 14774 XOR\n2 1 33629 33623 14785 XOR\n2 1 14776 14780 14769 AND\n2 1 14769 14693 14696 XOR\n2 1 14777 14775 14768 AND\n2 1 14762 14768 14714 XOR\n2 1 14785 14770 14766 AND\n2 1 14766 14691 14695 XOR\n2 1 14782 14778 14765 AND\n2 1 14779 14772 14764 AND\n2 1 14784 14773 14763 AND\n2 1 14763 14692 14694 XOR\n2 1 14696 14694 14700 XOR\n2 1 33629 14700 14705 XOR\n2 1 14714 14705 14760 XOR\n2 1 14762 14763 14666 XOR\n2 1 14666 14667 14713 XOR\n2 1 14713 14695 14712 XOR\n2 1 14765 14712 14759 XOR\n2 1 14783 14774 14761 AND\n2 1 14761 14764 14715 XOR\n2 1 14761 14767 14719 XOR\n2 1 14719 14691 14706 XOR\n2 1 14714 14706 14757 XOR\n2 1 14762 14715 14709 XOR\n2 1 14695 14715 14669 XOR\n2 1 14669 14694 14758 XOR\n2 1 14700 14719 14668 XOR\n2 1 33627 14668 14711 XOR\n2 1 14765 14709 14665 XOR\n2 1 33623 14665 14752 XOR\n2 1 14760 14759 14756 AND\n2 1 14756 14711 14751 XOR\n",
"2 1 14756 14758 14755 XOR\n2 1 14757 14755 14754 AND\n2 1 14754 14711 14753 XOR\n2 1 14754 14766 14660 XOR\n2 1 14660 14696 14656 XOR\n2 1 33629 14656 14659 XOR\n2 1 14754 14705 14657 XOR\n2 1 33627 14656 14655 XOR\n2 1 14751 14752 14750 AND\n2 1 14750 14758 14749 XOR\n2 1 14756 14750 14748 XOR\n2 1 14750 14709 14664 XOR\n2 1 14750 14767 14663 XOR\n2 1 14663 14764 14658 XOR\n2 1 14658 14659 14741 XOR\n2 1 14758 14748 14747 AND\n2 1 14747 14755 14745 XOR\n2 1 14747 14765 14718 XOR\n2 1 14718 14712 14739 XOR\n2 1 33623 14718 14701 XOR\n2 1 14701 14664 14746 XOR\n2 1 14753 14745 14744 AND\n2 1 14744 14714 14704 XOR\n2 1 14704 14706 14743 XOR\n2 1 14744 14768 14662 XOR\n2 1 14701 14662 14654 XOR\n2 1 14691 14654 14661 XOR\n2 1 14658 14661 14742 XOR\n2 1 14704 14657 14740 XOR\n2 1 14654 14655 14738 XOR\n2 1 14739 14776 14737 AND\n2 1 14746 14775 14736 AND\n2 1 14749 33622 14735 AND\n2 1 14735 14737 14717 XOR\n2 1 14740 14770 14734 AND\n2 1 14743 14782 14733 AND\n2 1 14753 14772 14732 AND\n2 1 14732 14733 14671 XOR\n2 1 14741 14773 14731 AND\n2 1 14738 14771 14730 AND\n2 1 14730 14733 14686 XOR\n1 1 14686 14683 INV\n2 1 14730 14731 14682 XOR\n2 1 14742 14774 14729 AND\n2 1 14739 14780 14728 AND\n2 1 14746 14777 14727 AND\n2 1 14749 14781 14726 AND\n2 1 14740 14785 14725 AND\n2 1 14725 14729 14702 XOR\n2 1 14734 14725 14687 XOR\n1 1 14702 14680 INV\n2 1 14743 14778 14724 AND\n2 1 14732 14724 14689 XOR\n2 1 14753 14779 14723 AND\n2 1 14680 14723 14679 XOR\n2 1 14679 14717 14675 XOR\n2 1 14741 14784 14722 AND\n2 1 14722 14675 14678 XOR\n2 1 14738 14786 14721 AND\n2 1 14721 14722 14716 XOR\n2 1 14727 14716 14698 XOR\n2 1 14728 14698 14699 XOR\n2 1 14736 14699 14703 XOR\n2 1 14737 14703 14708 XOR\n2 1 14689 14716 14685 XOR\n2 1 14717 14685 14688 XOR\n2 1 14687 14688 14790 XOR\n2 1 14680 14685 14684 XOR\n2 1 14683 14684 14789 XOR\n2 1 14708 14682 14788 XOR\n2 1 14698 14675 14674 XOR\n2 1 14735 14703 14672 XOR\n2 1 14671 14672 35204 XOR\n2 1 14742 14783 14720 AND\n2 1 14731 14720 14681 XOR\n1 1 14681 14677 INV\n2 1 14677 14678 14787 XOR\n1 1 14789 35202 INV\n2 1 14789 32897 6384 XOR\n2 1 5877 5840 5808 XOR\n2 1 5920 33024 5811 XOR\n1 1 5877 5786 INV\n2 1 5786 5872 5784 XOR\n2 1 5784 5785 34984 XOR\n2 1 34984 262 33631 XOR\n2 1 33631 6331 6327 XOR\n2 1 33631 33633 6239 XOR\n2 1 6239 6333 6325 XOR\n2 1 33630 6325 6324 XOR\n2 1 33631 33632 6256 XOR\n2 1 6256 6328 6326 XOR\n2 1 6333 6256 6329 XOR\n2 1 33632 6239 6241 XOR\n2 1 33636 6241 6322 XOR\n2 1 6246 6241 6321 XOR\n2 1 33635 6241 6319 XOR\n2 1 6239 6202 6323 XOR\n2 1 5810 5811 5809 XOR\n1 1 5809 34968 INV\n2 1 35047 5808 34969 XOR\n2 1 34969 277 33616 XOR\n2 1 33616 33618 18122 XOR\n2 1 18027 18122 18107 XOR\n2 1 33617 33616 18003 XOR\n2 1 33621 33616 18119 XOR\n2 1 18122 18107 18098 AND\n2 1 6326 6324 6317 AND\n2 1 6311 6317 6263 XOR\n2 1 34968 278 33615 XOR\n2 1 33615 33617 18026 XOR\n2 1 33616 18026 18028 XOR\n2 1 33620 18028 18109 XOR\n2 1 33619 18028 18106 XOR\n2 1 18033 18028 18108 XOR\n2 1 33615 18118 18114 XOR\n2 1 18026 18120 18112 XOR\n2 1 33614 18112 18111 XOR\n2 1 33615 33616 18043 XOR\n2 1 18043 18115 18113 XOR\n2 1 18120 18043 18116 XOR\n2 1 18026 17989 18110 XOR\n2 1 33621 33615 18121 XOR\n2 1 18112 18116 18105 AND\n2 1 18105 18029 18032 XOR\n2 1 18113 18111 18104 AND\n2 1 18098 18104 18050 XOR\n2 1 18121 18106 18102 AND\n2 1 18102 18027 18031 XOR\n",
"2 1 18118 18114 18101 AND\n2 1 18115 18108 18100 AND\n2 1 18120 18109 18099 AND\n2 1 18099 18028 18030 XOR\n2 1 18032 18030 18036 XOR\n2 1 33621 18036 18041 XOR\n2 1 18050 18041 18096 XOR\n2 1 18098 18099 18002 XOR\n2 1 18002 18003 18049 XOR\n2 1 18049 18031 18048 XOR\n2 1 18101 18048 18095 XOR\n2 1 18119 18110 18097 AND\n2 1 18097 18100 18051 XOR\n2 1 18097 18103 18055 XOR\n2 1 18055 18027 18042 XOR\n2 1 18050 18042 18093 XOR\n2 1 18098 18051 18045 XOR\n2 1 18031 18051 18005 XOR\n2 1 18005 18030 18094 XOR\n2 1 18036 18055 18004 XOR\n2 1 33619 18004 18047 XOR\n2 1 18101 18045 18001 XOR\n2 1 33615 18001 18088 XOR\n2 1 18096 18095 18092 AND\n2 1 18092 18047 18087 XOR\n2 1 18092 18094 18091 XOR\n2 1 18093 18091 18090 AND\n2 1 18090 18047 18089 XOR\n2 1 18090 18102 17996 XOR\n2 1 17996 18032 17992 XOR\n2 1 33621 17992 17995 XOR\n2 1 18090 18041 17993 XOR\n2 1 33619 17992 17991 XOR\n2 1 18087 18088 18086 AND\n2 1 18086 18094 18085 XOR\n2 1 18092 18086 18084 XOR\n2 1 18086 18045 18000 XOR\n2 1 18086 18103 17999 XOR\n2 1 17999 18100 17994 XOR\n2 1 17994 17995 18077 XOR\n2 1 18094 18084 18083 AND\n2 1 18083 18091 18081 XOR\n2 1 18083 18101 18054 XOR\n2 1 18054 18048 18075 XOR\n2 1 33615 18054 18037 XOR\n2 1 18037 18000 18082 XOR\n2 1 18089 18081 18080 AND\n2 1 18080 18050 18040 XOR\n2 1 18040 18042 18079 XOR\n2 1 18080 18104 17998 XOR\n2 1 18037 17998 17990 XOR\n2 1 18027 17990 17997 XOR\n2 1 17994 17997 18078 XOR\n2 1 18040 17993 18076 XOR\n2 1 17990 17991 18074 XOR\n2 1 18075 18112 18073 AND\n2 1 18082 18111 18072 AND\n2 1 18085 33614 18071 AND\n2 1 18071 18073 18053 XOR\n2 1 18076 18106 18070 AND\n2 1 18079 18118 18069 AND\n2 1 18089 18108 18068 AND\n2 1 18068 18069 18007 XOR\n2 1 18077 18109 18067 AND\n2 1 18074 18107 18066 AND\n2 1 18066 18069 18022 XOR\n1 1 18022 18019 INV\n2 1 18066 18067 18018 XOR\n2 1 18078 18110 18065 AND\n2 1 18075 18116 18064 AND\n2 1 18082 18113 18063 AND\n2 1 18085 18117 18062 AND\n2 1 18076 18121 18061 AND\n2 1 18061 18065 18038 XOR\n2 1 18070 18061 18023 XOR\n1 1 18038 18016 INV\n2 1 18079 18114 18060 AND\n2 1 18068 18060 18025 XOR\n2 1 18089 18115 18059 AND\n2 1 18016 18059 18015 XOR\n2 1 18015 18053 18011 XOR\n2 1 18077 18120 18058 AND\n2 1 18058 18011 18014 XOR\n2 1 18074 18122 18057 AND\n2 1 18057 18058 18052 XOR\n2 1 18063 18052 18034 XOR\n2 1 18064 18034 18035 XOR\n2 1 18072 18035 18039 XOR\n2 1 18073 18039 18044 XOR\n2 1 18025 18052 18021 XOR\n2 1 18053 18021 18024 XOR\n2 1 18023 18024 18126 XOR\n2 1 18016 18021 18020 XOR\n2 1 18019 18020 18125 XOR\n2 1 32908 18125 6479 XOR\n2 1 18044 18018 18124 XOR\n2 1 18034 18011 18010 XOR\n2 1 18071 18039 18008 XOR\n2 1 18007 18008 35218 XOR\n1 1 35218 6351 INV\n2 1 35222 6351 6363 XOR\n2 1 18078 18119 18056 AND\n2 1 18067 18056 18017 XOR\n1 1 18017 18013 INV\n2 1 18013 18014 18123 XOR\n1 1 18125 35216 INV\n2 1 35230 35235 6641 XOR\n1 1 6641 6408 INV\n2 1 33637 33631 6334 XOR\n2 1 6334 6319 6315 AND\n2 1 6315 6240 6244 XOR\n2 1 6325 6329 6318 AND\n2 1 6318 6242 6245 XOR\n2 1 6331 6327 6314 AND\n2 1 6328 6321 6313 AND\n2 1 6333 6322 6312 AND\n2 1 6311 6312 6215 XOR\n2 1 6215 6216 6262 XOR\n2 1 6312 6241 6243 XOR\n2 1 6245 6243 6249 XOR\n2 1 33637 6249 6254 XOR\n2 1 6263 6254 6309 XOR\n2 1 6262 6244 6261 XOR\n2 1 6314 6261 6308 XOR\n2 1 6309 6308 6305 AND\n2 1 6332 6323 6310 AND\n2 1 6310 6316 6268 XOR\n2 1 6249 6268 6217 XOR\n",
"2 1 33635 6217 6260 XOR\n2 1 6305 6260 6300 XOR\n2 1 6268 6240 6255 XOR\n2 1 6263 6255 6306 XOR\n2 1 6310 6313 6264 XOR\n2 1 6311 6264 6258 XOR\n2 1 6314 6258 6214 XOR\n2 1 33631 6214 6301 XOR\n2 1 6244 6264 6218 XOR\n2 1 6218 6243 6307 XOR\n2 1 6305 6307 6304 XOR\n2 1 6306 6304 6303 AND\n2 1 6303 6254 6206 XOR\n2 1 6303 6315 6209 XOR\n2 1 6209 6245 6205 XOR\n2 1 33635 6205 6204 XOR\n2 1 33637 6205 6208 XOR\n2 1 6303 6260 6302 XOR\n2 1 6302 6321 6281 AND\n2 1 6302 6328 6272 AND\n2 1 6300 6301 6299 AND\n2 1 6299 6307 6298 XOR\n2 1 6299 6258 6213 XOR\n2 1 6299 6316 6212 XOR\n2 1 6212 6313 6207 XOR\n2 1 6305 6299 6297 XOR\n2 1 6207 6208 6290 XOR\n2 1 6290 6333 6271 AND\n2 1 6290 6322 6280 AND\n2 1 6307 6297 6296 AND\n2 1 6296 6314 6267 XOR\n2 1 33631 6267 6250 XOR\n2 1 6250 6213 6295 XOR\n2 1 6267 6261 6288 XOR\n2 1 6296 6304 6294 XOR\n2 1 6295 6326 6276 AND\n2 1 6302 6294 6293 AND\n2 1 6293 6263 6253 XOR\n2 1 6293 6317 6211 XOR\n2 1 6250 6211 6203 XOR\n2 1 6253 6206 6289 XOR\n2 1 6240 6203 6210 XOR\n2 1 6207 6210 6291 XOR\n2 1 6253 6255 6292 XOR\n2 1 6203 6204 6287 XOR\n2 1 6289 6319 6283 AND\n2 1 6292 6331 6282 AND\n2 1 6281 6282 6220 XOR\n2 1 6289 6334 6274 AND\n2 1 6283 6274 6236 XOR\n2 1 6292 6327 6273 AND\n2 1 6281 6273 6238 XOR\n2 1 6291 6332 6269 AND\n2 1 6280 6269 6230 XOR\n1 1 6230 6226 INV\n2 1 6288 6325 6286 AND\n2 1 6295 6324 6285 AND\n2 1 6287 6335 6270 AND\n2 1 6270 6271 6265 XOR\n2 1 6276 6265 6247 XOR\n2 1 6238 6265 6234 XOR\n2 1 6288 6329 6277 AND\n2 1 6277 6247 6248 XOR\n2 1 6285 6248 6252 XOR\n2 1 6286 6252 6257 XOR\n2 1 6287 6320 6279 AND\n2 1 6279 6280 6231 XOR\n2 1 6279 6282 6235 XOR\n1 1 6235 6232 INV\n2 1 6257 6231 6337 XOR\n2 1 6291 6323 6278 AND\n2 1 6274 6278 6251 XOR\n1 1 6251 6229 INV\n2 1 6229 6234 6233 XOR\n2 1 6232 6233 6338 XOR\n2 1 6229 6272 6228 XOR\n2 1 6298 33630 6284 AND\n2 1 6284 6286 6266 XOR\n2 1 6228 6266 6224 XOR\n2 1 6247 6224 6223 XOR\n2 1 6271 6224 6227 XOR\n2 1 6266 6234 6237 XOR\n2 1 6236 6237 6339 XOR\n2 1 6226 6227 6336 XOR\n2 1 6284 6252 6221 XOR\n2 1 6220 6221 35262 XOR\n2 1 6298 6330 6275 AND\n2 1 6282 6283 32654 XOR\n2 1 6279 32654 6259 XOR\n2 1 6280 6259 6219 XOR\n2 1 6248 6219 35264 XOR\n2 1 6275 6259 6225 XOR\n1 1 6225 6222 INV\n2 1 6222 6223 35261 XOR\n2 1 35262 35261 6357 XOR\n2 1 32654 6257 35263 XOR\n2 1 14733 14734 32659 XOR\n2 1 32659 14708 35205 XOR\n2 1 14730 32659 14710 XOR\n2 1 14726 14710 14676 XOR\n1 1 14676 14673 INV\n2 1 14673 14674 35203 XOR\n2 1 14731 14710 14670 XOR\n2 1 14699 14670 35206 XOR\n1 1 35203 6391 INV\n2 1 32904 6391 6569 XOR\n2 1 35204 6391 6390 XOR\n2 1 18069 18070 32683 XOR\n2 1 18066 32683 18046 XOR\n2 1 18062 18046 18012 XOR\n1 1 18012 18009 INV\n2 1 18067 18046 18006 XOR\n2 1 18035 18006 35220 XOR\n2 1 35220 35224 6599 XOR\n1 1 6599 6364 INV\n2 1 6599 35226 6360 XOR\n2 1 6364 35227 6362 XOR\n2 1 6362 6363 6673 XOR\n2 1 18009 18010 35217 XOR\n2 1 35221 35217 6361 XOR\n2 1 6599 33025 6358 XOR\n2 1 6360 6361 6674 XOR\n2 1 32683 18044 35219 XOR\n2 1 6461 35219 6476 XOR\n2 1 19876 19877 32696 XOR\n2 1 19873 32696 19853 XOR\n2 1 19874 19853 19813 XOR\n2 1 19869 19853 19819 XOR\n",
"2 1 19842 19813 35232 XOR\n1 1 19819 19816 INV\n2 1 35232 35239 6593 XOR\n2 1 19816 19817 35229 XOR\n2 1 6370 35229 6369 XOR\n2 1 35229 35234 6648 XOR\n1 1 6648 6424 INV\n2 1 32696 19851 35231 XOR\n2 1 16872 35231 6449 XOR\n2 1 35231 35236 6633 XOR\n1 1 6633 6405 INV\n1 1 6336 32783 INV\n1 1 6337 32784 INV\n1 1 6338 32785 INV\n2 1 32785 35253 6398 XOR\n1 1 6339 32786 INV\n2 1 32786 32947 6355 XOR\n1 1 14787 32894 INV\n1 1 14788 32895 INV\n1 1 14790 32896 INV\n2 1 32904 32896 6388 XOR\n1 1 18123 32941 INV\n1 1 18124 32942 INV\n2 1 32942 32941 6474 XOR\n2 1 6591 32942 6482 XOR\n2 1 32942 32907 6609 XOR\n2 1 6609 33032 6501 XOR\n2 1 6609 6607 6457 XOR\n1 1 18126 32943 INV\n2 1 32901 32943 6359 XOR\n2 1 6358 6359 6675 XOR\n1 1 19931 32969 INV\n2 1 35239 32969 6441 XOR\n2 1 32969 35238 6619 XOR\n1 1 19932 32970 INV\n2 1 6377 32970 6452 XOR\n2 1 32970 35233 6655 XOR\n1 1 19933 32971 INV\n2 1 16874 32971 6366 XOR\n2 1 32971 32926 6656 XOR\n2 1 6656 6597 6425 XOR\n1 1 19930 32976 INV\n2 1 16873 32976 6444 XOR\n2 1 32976 35237 6626 XOR\n1 1 6593 33227 INV\n2 1 33227 35230 6434 XOR\n2 1 33227 32970 6438 XOR\n2 1 33227 35231 6432 XOR\n1 1 5043 33238 INV\n2 1 33238 32920 5222 XOR\n2 1 33238 34840 5230 XOR\n2 1 5223 5222 34751 XOR\n2 1 34751 422 33471 XOR\n2 1 5231 5230 34754 XOR\n2 1 34754 419 33474 XOR\n2 1 33474 33476 20809 XOR\n2 1 33471 20898 20894 XOR\n2 1 33474 33477 20900 XOR\n2 1 33471 33472 20823 XOR\n2 1 20823 20895 20893 XOR\n2 1 20900 20823 20896 XOR\n2 1 33472 33474 20902 XOR\n2 1 20807 20902 20887 XOR\n2 1 20809 20807 20769 XOR\n2 1 20809 33475 20768 XOR\n2 1 33470 20768 20897 XOR\n2 1 33477 33471 20901 XOR\n2 1 20897 33470 20883 AND\n2 1 20898 20894 20881 AND\n2 1 20902 20887 20878 AND\n2 1 33238 34839 5227 XOR\n2 1 5228 5227 34753 XOR\n2 1 34753 420 33473 XOR\n2 1 33471 33473 20806 XOR\n2 1 33472 20806 20808 XOR\n2 1 33476 20808 20889 XOR\n2 1 33475 20808 20886 XOR\n2 1 20813 20808 20888 XOR\n2 1 20806 20900 20892 XOR\n2 1 33470 20892 20891 XOR\n2 1 33473 33472 20783 XOR\n2 1 20806 20769 20890 XOR\n2 1 20892 20896 20885 AND\n2 1 20885 20809 20812 XOR\n2 1 20893 20891 20884 AND\n2 1 20878 20884 20830 XOR\n2 1 20901 20886 20882 AND\n2 1 20882 20807 20811 XOR\n2 1 20895 20888 20880 AND\n2 1 20900 20889 20879 AND\n2 1 20879 20808 20810 XOR\n2 1 20812 20810 20816 XOR\n2 1 33477 20816 20821 XOR\n2 1 20830 20821 20876 XOR\n2 1 20878 20879 20782 XOR\n2 1 20782 20783 20829 XOR\n2 1 20829 20811 20828 XOR\n2 1 20881 20828 20875 XOR\n2 1 20899 20890 20877 AND\n2 1 20877 20880 20831 XOR\n2 1 20877 20883 20835 XOR\n2 1 20835 20807 20822 XOR\n2 1 20830 20822 20873 XOR\n2 1 20878 20831 20825 XOR\n2 1 20811 20831 20785 XOR\n2 1 20785 20810 20874 XOR\n2 1 20816 20835 20784 XOR\n2 1 33475 20784 20827 XOR\n2 1 20881 20825 20781 XOR\n2 1 33471 20781 20868 XOR\n2 1 20876 20875 20872 AND\n2 1 20872 20827 20867 XOR\n2 1 20872 20874 20871 XOR\n2 1 20873 20871 20870 AND\n2 1 20870 20827 20869 XOR\n2 1 20870 20882 20776 XOR\n2 1 20776 20812 20772 XOR\n2 1 33477 20772 20775 XOR\n2 1 20870 20821 20773 XOR\n2 1 33475 20772 20771 XOR\n2 1 20867 20868 20866 AND\n2 1 20866 20874 20865 XOR\n2 1 20872 20866 20864 XOR\n2 1 20866 20825 20780 XOR\n2 1 20866 20883 20779 XOR\n2 1 20779 20880 20774 XOR\n2 1 20774 20775 20857 XOR\n2 1 20874 20864 20863 AND\n",
"2 1 20863 20871 20861 XOR\n2 1 20863 20881 20834 XOR\n2 1 20834 20828 20855 XOR\n2 1 33471 20834 20817 XOR\n2 1 20817 20780 20862 XOR\n2 1 20869 20861 20860 AND\n2 1 20860 20830 20820 XOR\n2 1 20820 20822 20859 XOR\n2 1 20860 20884 20778 XOR\n2 1 20817 20778 20770 XOR\n2 1 20807 20770 20777 XOR\n2 1 20774 20777 20858 XOR\n2 1 20820 20773 20856 XOR\n2 1 20770 20771 20854 XOR\n2 1 20855 20892 20853 AND\n2 1 20862 20891 20852 AND\n2 1 20865 33470 20851 AND\n2 1 20851 20853 20833 XOR\n2 1 20856 20886 20850 AND\n2 1 20859 20898 20849 AND\n2 1 20869 20888 20848 AND\n2 1 20848 20849 20787 XOR\n2 1 20857 20889 20847 AND\n2 1 20854 20887 20846 AND\n2 1 20846 20849 20802 XOR\n1 1 20802 20799 INV\n2 1 20846 20847 20798 XOR\n2 1 20858 20890 20845 AND\n2 1 20855 20896 20844 AND\n2 1 20862 20893 20843 AND\n2 1 20865 20897 20842 AND\n2 1 20856 20901 20841 AND\n2 1 20841 20845 20818 XOR\n2 1 20850 20841 20803 XOR\n1 1 20818 20796 INV\n2 1 20859 20894 20840 AND\n2 1 20848 20840 20805 XOR\n2 1 20869 20895 20839 AND\n2 1 20796 20839 20795 XOR\n2 1 20795 20833 20791 XOR\n2 1 20857 20900 20838 AND\n2 1 20838 20791 20794 XOR\n2 1 20854 20902 20837 AND\n2 1 20837 20838 20832 XOR\n2 1 20843 20832 20814 XOR\n2 1 20844 20814 20815 XOR\n2 1 20852 20815 20819 XOR\n2 1 20853 20819 20824 XOR\n2 1 20805 20832 20801 XOR\n2 1 20833 20801 20804 XOR\n2 1 20803 20804 20906 XOR\n2 1 20796 20801 20800 XOR\n2 1 20799 20800 20905 XOR\n2 1 20824 20798 20904 XOR\n2 1 20814 20791 20790 XOR\n2 1 20851 20819 20788 XOR\n2 1 20787 20788 35044 XOR\n2 1 35040 35044 5864 XOR\n2 1 5658 5864 5667 XOR\n2 1 5639 5864 5637 XOR\n2 1 5612 35044 5609 XOR\n2 1 5667 5668 34938 XOR\n2 1 34938 308 33585 XOR\n2 1 5609 5610 5902 XOR\n2 1 20858 20899 20836 AND\n2 1 20847 20836 20797 XOR\n1 1 20797 20793 INV\n2 1 20793 20794 20903 XOR\n2 1 5902 5875 34946 XOR\n2 1 34946 300 33593 XOR\n2 1 20849 20850 32703 XOR\n2 1 32703 20824 35045 XOR\n2 1 35041 35045 5855 XOR\n2 1 5642 5855 5665 XOR\n2 1 5665 5666 34939 XOR\n2 1 34939 307 33586 XOR\n2 1 5860 5855 5636 XOR\n2 1 33014 5636 34956 XOR\n2 1 34956 290 33603 XOR\n2 1 5612 35045 5613 XOR\n2 1 5613 5614 5901 XOR\n2 1 5901 5867 34947 XOR\n2 1 34947 299 33594 XOR\n2 1 20846 32703 20826 XOR\n2 1 20842 20826 20792 XOR\n1 1 20792 20789 INV\n2 1 20789 20790 35043 XOR\n2 1 35039 35043 5874 XOR\n2 1 5658 35043 5656 XOR\n2 1 5656 5657 34945 XOR\n2 1 34945 301 33592 XOR\n2 1 5642 5874 5640 XOR\n2 1 5889 5874 5669 XOR\n2 1 35028 5669 34937 XOR\n2 1 34937 309 33584 XOR\n2 1 33584 33586 6057 XOR\n2 1 33585 33584 5938 XOR\n1 1 5874 5687 INV\n2 1 20847 20826 20786 XOR\n2 1 20815 20786 35046 XOR\n2 1 35031 35046 5832 XOR\n1 1 5832 5601 INV\n2 1 5832 35044 5605 XOR\n2 1 5605 5606 5904 XOR\n2 1 5904 5855 34931 XOR\n2 1 34931 315 33578 XOR\n2 1 5601 35043 5602 XOR\n2 1 5602 5603 5905 XOR\n2 1 5905 5864 34930 XOR\n2 1 34930 316 33577 XOR\n2 1 33228 35046 5649 XOR\n2 1 5649 5650 34950 XOR\n2 1 34950 296 33597 XOR\n2 1 35042 35046 5824 XOR\n2 1 5853 5824 5662 XOR\n2 1 35031 5662 34942 XOR\n2 1 34942 304 33589 XOR\n2 1 33586 33589 6055 XOR\n2 1 33589 33584 6054 XOR\n2 1 5890 5824 5648 XOR\n2 1 33009 5648 34951 XOR\n2 1 34951 295 33598 XOR\n1 1 5824 5919 INV\n2 1 5919 33016 5646 XOR\n2 1 5919 35041 5638 XOR\n2 1 5919 35040 5641 XOR\n2 1 5640 5641 34954 XOR\n2 1 34954 292 33601 XOR\n",
"2 1 5637 5638 34955 XOR\n2 1 34955 291 33602 XOR\n2 1 33594 33597 24521 XOR\n2 1 33592 33594 24523 XOR\n2 1 33593 33592 24403 XOR\n2 1 33597 33592 24520 XOR\n1 1 20903 32993 INV\n2 1 5860 32993 5654 XOR\n2 1 5654 5655 34948 XOR\n2 1 34948 298 33595 XOR\n2 1 33014 32993 5849 XOR\n2 1 5867 5849 5664 XOR\n2 1 33010 5664 34940 XOR\n2 1 34940 306 33587 XOR\n2 1 33587 33589 5962 XOR\n2 1 5962 6057 6042 XOR\n2 1 6057 6042 6033 AND\n2 1 5849 35045 5684 XOR\n1 1 5684 5682 INV\n2 1 5682 5683 34932 XOR\n2 1 34932 314 33579 XOR\n2 1 5853 5849 5635 XOR\n2 1 33015 5635 34957 XOR\n2 1 34957 289 33604 XOR\n2 1 33598 33604 6107 XOR\n2 1 33602 33604 6103 XOR\n2 1 6103 33603 6062 XOR\n2 1 33598 6062 6191 XOR\n2 1 6191 33598 6177 AND\n2 1 33603 6107 6192 XOR\n2 1 33595 33597 24427 XOR\n2 1 24427 24523 24508 XOR\n2 1 24523 24508 24499 AND\n1 1 20904 32994 INV\n2 1 5824 32994 5674 XOR\n2 1 5853 32994 5653 XOR\n1 1 5653 5651 INV\n2 1 5674 5675 34934 XOR\n2 1 34934 312 33581 XOR\n2 1 33579 33581 14830 XOR\n2 1 33578 33581 14923 XOR\n2 1 5651 5652 34949 XOR\n2 1 34949 297 33596 XOR\n2 1 33015 32994 5838 XOR\n2 1 5838 32993 5677 XOR\n2 1 5677 5678 5676 XOR\n1 1 5676 34933 INV\n2 1 34933 313 33580 XOR\n2 1 33578 33580 14832 XOR\n2 1 14832 14830 14792 XOR\n2 1 14832 33579 14791 XOR\n2 1 5838 5827 5634 XOR\n2 1 35042 5634 34958 XOR\n2 1 5860 5838 5663 XOR\n2 1 33011 5663 34941 XOR\n2 1 34941 305 33588 XOR\n2 1 33586 33588 5964 XOR\n2 1 5964 5962 5924 XOR\n2 1 5964 33587 5923 XOR\n2 1 34958 288 33605 XOR\n2 1 33602 33605 6194 XOR\n2 1 33603 33605 6101 XOR\n2 1 6103 6101 6063 XOR\n2 1 6101 6107 6189 XOR\n2 1 33594 33596 24429 XOR\n2 1 24429 24427 24389 XOR\n2 1 24429 33595 24388 XOR\n1 1 20905 32995 INV\n2 1 5831 32995 5607 XOR\n2 1 5607 5608 5903 XOR\n2 1 33016 32995 5878 XOR\n2 1 5882 5878 5643 XOR\n2 1 5890 5878 5671 XOR\n2 1 5671 5672 5670 XOR\n1 1 5670 34936 INV\n2 1 34936 310 33583 XOR\n2 1 33583 33585 5961 XOR\n2 1 33584 5961 5963 XOR\n2 1 33587 5963 6041 XOR\n2 1 5961 6055 6047 XOR\n2 1 33583 33584 5978 XOR\n2 1 6055 5978 6051 XOR\n2 1 33589 33583 6056 XOR\n2 1 6056 6041 6037 AND\n2 1 6037 5962 5966 XOR\n2 1 5961 5924 6045 XOR\n2 1 6054 6045 6032 AND\n2 1 6047 6051 6040 AND\n2 1 6040 5964 5967 XOR\n2 1 5687 32995 5685 XOR\n2 1 5685 5686 34929 XOR\n2 1 34929 317 33576 XOR\n2 1 33576 33578 14925 XOR\n2 1 14830 14925 14910 XOR\n2 1 33577 33576 14806 XOR\n2 1 33581 33576 14922 XOR\n2 1 14925 14910 14901 AND\n2 1 35039 5643 34953 XOR\n2 1 5903 5889 34944 XOR\n2 1 34944 302 33591 XOR\n2 1 33591 33593 24426 XOR\n2 1 33592 24426 24428 XOR\n2 1 33596 24428 24510 XOR\n2 1 33595 24428 24507 XOR\n2 1 24426 24521 24513 XOR\n2 1 33591 33592 24443 XOR\n2 1 24521 24443 24517 XOR\n2 1 24426 24389 24511 XOR\n2 1 33597 33591 24522 XOR\n2 1 24513 24517 24506 AND\n2 1 24506 24429 24432 XOR\n2 1 24522 24507 24503 AND\n2 1 24503 24427 24431 XOR\n2 1 24521 24510 24500 AND\n2 1 24500 24428 24430 XOR\n2 1 24432 24430 24436 XOR\n2 1 33597 24436 24441 XOR\n2 1 24499 24500 24402 XOR\n2 1 24402 24403 24449 XOR\n2 1 24449 24431 24448 XOR\n2 1 24520 24511 24498 AND\n2 1 34953 293 33600 XOR\n2 1 33601 33600 6077 XOR\n2 1 33605 33600 6193 XOR\n2 1 33600 33602 6196 XOR\n2 1 6101 6196 6181 XOR\n2 1 6196 6181 6172 AND\n2 1 33588 5963 6044 XOR\n",
"2 1 6055 6044 6034 AND\n2 1 6034 5963 5965 XOR\n2 1 6033 6034 5937 XOR\n2 1 5937 5938 5984 XOR\n2 1 5984 5966 5983 XOR\n2 1 5967 5965 5971 XOR\n2 1 33589 5971 5976 XOR\n1 1 20906 32996 INV\n2 1 32996 5659 34943 XOR\n2 1 34943 303 33590 XOR\n2 1 33009 32996 5886 XOR\n2 1 5886 5827 5673 XOR\n2 1 5886 5832 5688 XOR\n2 1 33005 5673 34935 XOR\n2 1 34935 311 33582 XOR\n2 1 33582 6047 6046 XOR\n2 1 33582 33588 5968 XOR\n2 1 5968 5963 6043 XOR\n2 1 5962 5968 6050 XOR\n2 1 33582 5923 6052 XOR\n2 1 5978 6050 6048 XOR\n2 1 6048 6046 6039 AND\n2 1 6033 6039 5985 XOR\n2 1 5985 5976 6031 XOR\n2 1 33587 5968 6053 XOR\n2 1 33583 6053 6049 XOR\n2 1 6053 6049 6036 AND\n2 1 6036 5983 6030 XOR\n2 1 6031 6030 6027 AND\n2 1 6052 33582 6038 AND\n2 1 6050 6043 6035 AND\n2 1 6032 6035 5986 XOR\n2 1 6033 5986 5980 XOR\n2 1 6036 5980 5936 XOR\n2 1 5966 5986 5940 XOR\n2 1 5940 5965 6029 XOR\n2 1 6027 6029 6026 XOR\n2 1 33583 5936 6023 XOR\n2 1 33068 5688 34927 XOR\n2 1 34927 319 33574 XOR\n2 1 33574 33580 14836 XOR\n2 1 14830 14836 14918 XOR\n2 1 33579 14836 14921 XOR\n2 1 33574 14791 14920 XOR\n2 1 14920 33574 14906 AND\n2 1 5889 5886 5647 XOR\n1 1 5647 5645 INV\n2 1 5645 5646 34952 XOR\n2 1 5601 32996 5599 XOR\n2 1 5599 5600 5906 XOR\n2 1 5906 5878 34928 XOR\n2 1 34928 318 33575 XOR\n2 1 33575 33577 14829 XOR\n2 1 33576 14829 14831 XOR\n2 1 33580 14831 14912 XOR\n2 1 33579 14831 14909 XOR\n2 1 14836 14831 14911 XOR\n2 1 33575 14921 14917 XOR\n2 1 14829 14923 14915 XOR\n2 1 33574 14915 14914 XOR\n2 1 33575 33576 14846 XOR\n2 1 14846 14918 14916 XOR\n2 1 14923 14846 14919 XOR\n2 1 14829 14792 14913 XOR\n2 1 33581 33575 14924 XOR\n2 1 14915 14919 14908 AND\n2 1 14908 14832 14835 XOR\n2 1 14916 14914 14907 AND\n2 1 14901 14907 14853 XOR\n2 1 14924 14909 14905 AND\n2 1 14905 14830 14834 XOR\n2 1 14921 14917 14904 AND\n2 1 14918 14911 14903 AND\n2 1 14923 14912 14902 AND\n2 1 14902 14831 14833 XOR\n2 1 14835 14833 14839 XOR\n2 1 33581 14839 14844 XOR\n2 1 14853 14844 14899 XOR\n2 1 14901 14902 14805 XOR\n2 1 14805 14806 14852 XOR\n2 1 14852 14834 14851 XOR\n2 1 14904 14851 14898 XOR\n2 1 14922 14913 14900 AND\n2 1 14900 14903 14854 XOR\n2 1 14900 14906 14858 XOR\n2 1 14858 14830 14845 XOR\n2 1 14853 14845 14896 XOR\n2 1 14901 14854 14848 XOR\n2 1 14834 14854 14808 XOR\n2 1 14808 14833 14897 XOR\n2 1 14839 14858 14807 XOR\n2 1 33579 14807 14850 XOR\n2 1 14904 14848 14804 XOR\n2 1 33575 14804 14891 XOR\n2 1 14899 14898 14895 AND\n2 1 14895 14850 14890 XOR\n2 1 14895 14897 14894 XOR\n2 1 14896 14894 14893 AND\n2 1 14893 14850 14892 XOR\n2 1 14893 14905 14799 XOR\n2 1 14799 14835 14795 XOR\n2 1 33581 14795 14798 XOR\n2 1 14893 14844 14796 XOR\n2 1 33579 14795 14794 XOR\n2 1 14890 14891 14889 AND\n2 1 14889 14897 14888 XOR\n2 1 14895 14889 14887 XOR\n2 1 14889 14848 14803 XOR\n2 1 14889 14906 14802 XOR\n2 1 14802 14903 14797 XOR\n2 1 14797 14798 14880 XOR\n2 1 14897 14887 14886 AND\n2 1 14886 14894 14884 XOR\n2 1 14886 14904 14857 XOR\n2 1 14857 14851 14878 XOR\n2 1 33575 14857 14840 XOR\n2 1 14840 14803 14885 XOR\n2 1 14892 14884 14883 AND\n2 1 14883 14853 14843 XOR\n2 1 14843 14845 14882 XOR\n2 1 14883 14907 14801 XOR\n2 1 14840 14801 14793 XOR\n2 1 14830 14793 14800 XOR\n2 1 14797 14800 14881 XOR\n2 1 14843 14796 14879 XOR\n2 1 14793 14794 14877 XOR\n2 1 14878 14915 14876 AND\n2 1 14885 14914 14875 AND\n",
"2 1 14888 33574 14874 AND\n2 1 14874 14876 14856 XOR\n2 1 14879 14909 14873 AND\n2 1 14882 14921 14872 AND\n2 1 14892 14911 14871 AND\n2 1 14871 14872 14810 XOR\n2 1 14880 14912 14870 AND\n2 1 14877 14910 14869 AND\n2 1 14869 14872 14825 XOR\n1 1 14825 14822 INV\n2 1 14869 14870 14821 XOR\n2 1 14881 14913 14868 AND\n2 1 14878 14919 14867 AND\n2 1 14885 14916 14866 AND\n2 1 14888 14920 14865 AND\n2 1 14879 14924 14864 AND\n2 1 14864 14868 14841 XOR\n2 1 14873 14864 14826 XOR\n1 1 14841 14819 INV\n2 1 14882 14917 14863 AND\n2 1 14871 14863 14828 XOR\n2 1 14892 14918 14862 AND\n2 1 14819 14862 14818 XOR\n2 1 14818 14856 14814 XOR\n2 1 14880 14923 14861 AND\n2 1 14861 14814 14817 XOR\n2 1 14877 14925 14860 AND\n2 1 14860 14861 14855 XOR\n2 1 14866 14855 14837 XOR\n2 1 14867 14837 14838 XOR\n2 1 14875 14838 14842 XOR\n2 1 14876 14842 14847 XOR\n2 1 14828 14855 14824 XOR\n2 1 14856 14824 14827 XOR\n2 1 14826 14827 14929 XOR\n2 1 14819 14824 14823 XOR\n2 1 14822 14823 14928 XOR\n2 1 14847 14821 14927 XOR\n2 1 14837 14814 14813 XOR\n2 1 14874 14842 14811 XOR\n2 1 14810 14811 35213 XOR\n2 1 35219 35213 6353 XOR\n2 1 14881 14922 14859 AND\n2 1 14870 14859 14820 XOR\n1 1 14820 14816 INV\n2 1 14816 14817 14926 XOR\n2 1 34952 294 33599 XOR\n2 1 33599 33601 6100 XOR\n2 1 33600 6100 6102 XOR\n2 1 6100 6194 6186 XOR\n2 1 6107 6102 6182 XOR\n2 1 6100 6063 6184 XOR\n2 1 33605 33599 6195 XOR\n2 1 33599 6192 6188 XOR\n2 1 6192 6188 6175 AND\n2 1 33599 33600 6117 XOR\n2 1 6117 6189 6187 XOR\n2 1 6194 6117 6190 XOR\n2 1 6186 6190 6179 AND\n2 1 6179 6103 6106 XOR\n2 1 33604 6102 6183 XOR\n2 1 33603 6102 6180 XOR\n2 1 6195 6180 6176 AND\n2 1 6176 6101 6105 XOR\n2 1 33598 6186 6185 XOR\n2 1 6187 6185 6178 AND\n2 1 6172 6178 6124 XOR\n2 1 6189 6182 6174 AND\n2 1 6194 6183 6173 AND\n2 1 6173 6102 6104 XOR\n2 1 6106 6104 6110 XOR\n2 1 33605 6110 6115 XOR\n2 1 6124 6115 6170 XOR\n2 1 6172 6173 6076 XOR\n2 1 6076 6077 6123 XOR\n2 1 6123 6105 6122 XOR\n2 1 6175 6122 6169 XOR\n2 1 6193 6184 6171 AND\n2 1 6171 6174 6125 XOR\n2 1 6172 6125 6119 XOR\n2 1 6175 6119 6075 XOR\n2 1 6171 6177 6129 XOR\n2 1 6129 6101 6116 XOR\n2 1 6124 6116 6167 XOR\n2 1 6105 6125 6079 XOR\n2 1 6079 6104 6168 XOR\n2 1 6110 6129 6078 XOR\n2 1 33603 6078 6121 XOR\n2 1 33599 6075 6162 XOR\n2 1 6170 6169 6166 AND\n2 1 6166 6168 6165 XOR\n2 1 6167 6165 6164 AND\n2 1 6164 6176 6070 XOR\n2 1 6070 6106 6066 XOR\n2 1 33605 6066 6069 XOR\n2 1 6164 6115 6067 XOR\n2 1 33603 6066 6065 XOR\n2 1 6166 6121 6161 XOR\n2 1 6161 6162 6160 AND\n2 1 6166 6160 6158 XOR\n2 1 6168 6158 6157 AND\n2 1 6157 6165 6155 XOR\n2 1 6160 6119 6074 XOR\n2 1 6160 6177 6073 XOR\n2 1 6073 6174 6068 XOR\n2 1 6068 6069 6151 XOR\n2 1 6151 6194 6132 AND\n2 1 6151 6183 6141 AND\n2 1 6157 6175 6128 XOR\n2 1 33599 6128 6111 XOR\n2 1 6160 6168 6159 XOR\n2 1 6159 6191 6136 AND\n2 1 6159 33598 6145 AND\n2 1 6128 6122 6149 XOR\n2 1 6149 6186 6147 AND\n2 1 6149 6190 6138 AND\n2 1 6164 6121 6163 XOR\n2 1 6163 6155 6154 AND\n2 1 6163 6189 6133 AND\n2 1 6163 6182 6142 AND\n2 1 6154 6124 6114 XOR\n2 1 6114 6116 6153 XOR\n2 1 6153 6188 6134 AND\n2 1 6153 6192 6143 AND\n2 1 6114 6067 6150 XOR\n2 1 6150 6180 6144 AND\n2 1 6150 6195 6135 AND\n2 1 6144 6135 6097 XOR\n",
"2 1 6142 6134 6099 XOR\n2 1 6145 6147 6127 XOR\n2 1 6142 6143 6081 XOR\n2 1 6111 6074 6156 XOR\n2 1 6156 6187 6137 AND\n2 1 6156 6185 6146 AND\n2 1 6154 6178 6072 XOR\n2 1 6111 6072 6064 XOR\n2 1 6064 6065 6148 XOR\n2 1 6148 6196 6131 AND\n2 1 6148 6181 6140 AND\n2 1 6140 6143 6096 XOR\n2 1 6131 6132 6126 XOR\n2 1 6137 6126 6108 XOR\n2 1 6138 6108 6109 XOR\n2 1 6099 6126 6095 XOR\n1 1 6096 6093 INV\n2 1 6146 6109 6113 XOR\n2 1 6147 6113 6118 XOR\n2 1 6140 6141 6092 XOR\n2 1 6118 6092 6198 XOR\n2 1 6127 6095 6098 XOR\n2 1 6097 6098 6200 XOR\n2 1 6145 6113 6082 XOR\n2 1 6081 6082 35245 XOR\n2 1 6378 35245 6375 XOR\n2 1 6375 6376 6668 XOR\n2 1 6101 6064 6071 XOR\n2 1 6068 6071 6152 XOR\n2 1 6152 6184 6139 AND\n2 1 6135 6139 6112 XOR\n1 1 6112 6090 INV\n2 1 6090 6095 6094 XOR\n2 1 6093 6094 6199 XOR\n2 1 6152 6193 6130 AND\n2 1 6141 6130 6091 XOR\n1 1 6091 6087 INV\n2 1 6090 6133 6089 XOR\n2 1 6089 6127 6085 XOR\n2 1 6132 6085 6088 XOR\n2 1 6087 6088 6197 XOR\n2 1 6108 6085 6084 XOR\n2 1 35213 35218 6624 XOR\n1 1 6624 6488 INV\n2 1 6624 6622 6466 XOR\n2 1 6488 6612 6486 XOR\n2 1 6466 6467 35123 XOR\n2 1 35123 964 33697 XOR\n2 1 35241 35245 6630 XOR\n2 1 6424 6630 6433 XOR\n2 1 6433 6434 35139 XOR\n2 1 35139 948 33713 XOR\n2 1 6405 6630 6403 XOR\n2 1 6668 6641 35147 XOR\n2 1 35147 940 33721 XOR\n2 1 6674 6624 35115 XOR\n2 1 35115 972 33689 XOR\n2 1 33590 24513 24512 XOR\n2 1 33590 33596 24433 XOR\n2 1 24433 24428 24509 XOR\n2 1 24427 24433 24516 XOR\n2 1 24443 24516 24514 XOR\n2 1 33595 24433 24519 XOR\n2 1 33591 24519 24515 XOR\n2 1 33590 24388 24518 XOR\n2 1 24514 24512 24505 AND\n2 1 24499 24505 24450 XOR\n2 1 24450 24441 24497 XOR\n2 1 24518 33590 24504 AND\n2 1 24498 24504 24455 XOR\n2 1 24455 24427 24442 XOR\n2 1 24450 24442 24494 XOR\n2 1 24436 24455 24404 XOR\n2 1 33595 24404 24447 XOR\n2 1 24519 24515 24502 AND\n2 1 24502 24448 24496 XOR\n2 1 24516 24509 24501 AND\n2 1 24498 24501 24451 XOR\n2 1 24499 24451 24445 XOR\n2 1 24431 24451 24405 XOR\n2 1 24405 24430 24495 XOR\n2 1 24502 24445 24401 XOR\n2 1 33591 24401 24489 XOR\n2 1 24497 24496 24493 AND\n2 1 24493 24447 24488 XOR\n2 1 24493 24495 24492 XOR\n2 1 24494 24492 24491 AND\n2 1 24491 24447 24490 XOR\n2 1 24491 24503 24396 XOR\n2 1 24396 24432 24392 XOR\n2 1 33597 24392 24395 XOR\n2 1 24491 24441 24393 XOR\n2 1 33595 24392 24391 XOR\n2 1 24488 24489 24487 AND\n2 1 24487 24495 24486 XOR\n2 1 24493 24487 24485 XOR\n2 1 24487 24445 24400 XOR\n2 1 24487 24504 24399 XOR\n2 1 24399 24501 24394 XOR\n2 1 24394 24395 24478 XOR\n2 1 24495 24485 24484 AND\n2 1 24484 24492 24482 XOR\n2 1 24484 24502 24454 XOR\n2 1 24454 24448 24476 XOR\n2 1 33591 24454 24437 XOR\n2 1 24437 24400 24483 XOR\n2 1 24490 24482 24481 AND\n2 1 24481 24450 24440 XOR\n2 1 24440 24442 24480 XOR\n2 1 24481 24505 24398 XOR\n2 1 24437 24398 24390 XOR\n2 1 24427 24390 24397 XOR\n2 1 24394 24397 24479 XOR\n2 1 24440 24393 24477 XOR\n2 1 24390 24391 24475 XOR\n2 1 24476 24513 24474 AND\n2 1 24483 24512 24473 AND\n2 1 24486 33590 24472 AND\n2 1 24472 24474 24453 XOR\n2 1 24477 24507 24471 AND\n2 1 24480 24519 24470 AND\n2 1 24470 24471 24456 XOR\n2 1 24490 24509 24469 AND\n2 1 24469 24470 24407 XOR\n2 1 24478 24510 24468 AND\n2 1 24475 24508 24467 AND\n2 1 24467 24456 24446 XOR\n2 1 24467 24470 24422 XOR\n",
"1 1 24422 24419 INV\n2 1 24467 24468 24418 XOR\n2 1 24468 24446 24406 XOR\n2 1 24479 24511 24466 AND\n2 1 24476 24517 24465 AND\n2 1 24483 24514 24464 AND\n2 1 24486 24518 24463 AND\n2 1 24463 24446 24412 XOR\n1 1 24412 24409 INV\n2 1 24477 24522 24462 AND\n2 1 24462 24466 24438 XOR\n2 1 24471 24462 24423 XOR\n1 1 24438 24416 INV\n2 1 24480 24515 24461 AND\n2 1 24469 24461 24425 XOR\n2 1 24490 24516 24460 AND\n2 1 24416 24460 24415 XOR\n2 1 24415 24453 24411 XOR\n2 1 24478 24521 24459 AND\n2 1 24459 24411 24414 XOR\n2 1 24475 24523 24458 AND\n2 1 24458 24459 24452 XOR\n2 1 24464 24452 24434 XOR\n2 1 24465 24434 24435 XOR\n2 1 24473 24435 24439 XOR\n2 1 24474 24439 24444 XOR\n2 1 24456 24444 35259 XOR\n2 1 35259 35263 6605 XOR\n2 1 24425 24452 24421 XOR\n2 1 24453 24421 24424 XOR\n2 1 24423 24424 24527 XOR\n2 1 24416 24421 24420 XOR\n2 1 24419 24420 24526 XOR\n2 1 24444 24418 24525 XOR\n2 1 24434 24411 24410 XOR\n2 1 24409 24410 35257 XOR\n2 1 35257 35261 6606 XOR\n2 1 24472 24439 24408 XOR\n2 1 24407 24408 35258 XOR\n2 1 35259 35258 6396 XOR\n2 1 35254 35258 6608 XOR\n2 1 6608 6606 6547 XOR\n2 1 24435 24406 35260 XOR\n2 1 35260 35264 6588 XOR\n2 1 6588 35262 6395 XOR\n2 1 6395 6396 6660 XOR\n1 1 6588 6684 INV\n2 1 6684 32784 6579 XOR\n2 1 35256 35260 6603 XOR\n2 1 6603 35263 6560 XOR\n2 1 6603 32785 6340 XOR\n2 1 6603 35257 6342 XOR\n2 1 6342 6343 6682 XOR\n2 1 24479 24520 24457 AND\n2 1 24468 24457 24417 XOR\n1 1 24417 24413 INV\n2 1 24413 24414 24524 XOR\n2 1 6143 6144 32653 XOR\n2 1 32653 6118 35246 XOR\n2 1 6378 35246 6379 XOR\n2 1 35242 35246 6621 XOR\n2 1 6626 6621 6402 XOR\n2 1 32980 6402 35157 XOR\n2 1 35157 930 33731 XOR\n2 1 6408 6621 6431 XOR\n2 1 6431 6432 35140 XOR\n2 1 6379 6380 6667 XOR\n2 1 6667 6633 35148 XOR\n2 1 35148 939 33722 XOR\n2 1 35140 947 33714 XOR\n2 1 6140 32653 6120 XOR\n2 1 6141 6120 6080 XOR\n2 1 6109 6080 35247 XOR\n2 1 33227 35247 6415 XOR\n2 1 6415 6416 35151 XOR\n2 1 35151 936 33725 XOR\n2 1 33722 33725 14228 XOR\n2 1 6136 6120 6086 XOR\n1 1 6086 6083 INV\n2 1 6083 6084 35244 XOR\n2 1 6424 35244 6422 XOR\n2 1 6422 6423 35146 XOR\n2 1 35146 941 33720 XOR\n2 1 33720 33722 14230 XOR\n2 1 33721 33720 14111 XOR\n2 1 33725 33720 14227 XOR\n2 1 35232 35247 6598 XOR\n2 1 6598 35245 6371 XOR\n2 1 6371 6372 6670 XOR\n2 1 6670 6621 35132 XOR\n2 1 35132 955 33706 XOR\n2 1 35240 35244 6640 XOR\n2 1 6655 6640 6435 XOR\n2 1 35229 6435 35138 XOR\n1 1 6640 6453 INV\n2 1 35138 949 33712 XOR\n2 1 6408 6640 6406 XOR\n2 1 33712 33714 16593 XOR\n2 1 33713 33712 16474 XOR\n2 1 35243 35247 6590 XOR\n2 1 6619 6590 6428 XOR\n2 1 35232 6428 35143 XOR\n2 1 35143 944 33717 XOR\n2 1 6656 6590 6414 XOR\n2 1 32975 6414 35152 XOR\n2 1 35152 935 33726 XOR\n2 1 33714 33717 16591 XOR\n2 1 33717 33712 16590 XOR\n1 1 6590 6686 INV\n2 1 6686 35241 6407 XOR\n2 1 6686 32974 6412 XOR\n2 1 6406 6407 35155 XOR\n2 1 35155 932 33729 XOR\n2 1 6686 35242 6404 XOR\n2 1 6403 6404 35156 XOR\n2 1 35156 931 33730 XOR\n2 1 14872 14873 32660 XOR\n2 1 32660 14847 35214 XOR\n2 1 32941 35214 6504 XOR\n2 1 6503 6504 35101 XOR\n2 1 35101 986 33675 XOR\n2 1 35214 35219 6620 XOR\n2 1 6620 6607 6485 XOR\n1 1 6620 6462 INV\n2 1 6462 6617 6459 XOR\n2 1 6459 6460 35124 XOR\n2 1 35124 963 33698 XOR\n2 1 6673 6620 35116 XOR\n",
"2 1 35116 971 33690 XOR\n2 1 14869 32660 14849 XOR\n2 1 14865 14849 14815 XOR\n1 1 14815 14812 INV\n2 1 14812 14813 35212 XOR\n2 1 14870 14849 14809 XOR\n2 1 14838 14809 35215 XOR\n2 1 6351 35212 6350 XOR\n2 1 35215 35220 6592 XOR\n2 1 6629 6592 6495 XOR\n2 1 6592 33032 6455 XOR\n2 1 6455 6456 35127 XOR\n2 1 6609 6592 6472 XOR\n2 1 35228 6472 35119 XOR\n2 1 35127 960 33701 XOR\n2 1 35119 968 33693 XOR\n2 1 33690 33693 14367 XOR\n2 1 33698 33701 6822 XOR\n2 1 35215 35228 6601 XOR\n2 1 6629 6601 6507 XOR\n2 1 32943 6507 35096 XOR\n2 1 35096 991 33670 XOR\n2 1 6601 35226 6352 XOR\n2 1 6352 6353 6678 XOR\n1 1 6601 6348 INV\n2 1 6348 35225 6349 XOR\n2 1 6348 33026 6346 XOR\n2 1 6349 6350 6679 XOR\n2 1 6678 6612 35100 XOR\n2 1 35100 987 33674 XOR\n2 1 6679 6617 35099 XOR\n2 1 35099 988 33673 XOR\n2 1 35212 35217 6627 XOR\n1 1 6627 6480 INV\n2 1 6480 35225 6478 XOR\n2 1 6480 6617 6489 XOR\n2 1 6478 6479 35114 XOR\n2 1 35114 973 33688 XOR\n2 1 33688 33690 14369 XOR\n2 1 33689 33688 14250 XOR\n2 1 33693 33688 14366 XOR\n2 1 6627 6625 6468 XOR\n2 1 35221 6468 35122 XOR\n2 1 35122 965 33696 XOR\n2 1 33701 33696 6821 XOR\n2 1 33697 33696 6704 XOR\n2 1 33696 33698 6824 XOR\n1 1 6598 6367 INV\n2 1 6367 35244 6368 XOR\n2 1 6368 6369 6671 XOR\n2 1 6671 6630 35131 XOR\n2 1 35131 956 33705 XOR\n2 1 6032 6038 5990 XOR\n2 1 5990 5962 5977 XOR\n2 1 5985 5977 6028 XOR\n2 1 6028 6026 6025 AND\n2 1 6025 5976 5928 XOR\n2 1 6025 6037 5931 XOR\n2 1 5931 5967 5927 XOR\n2 1 33587 5927 5926 XOR\n2 1 33589 5927 5930 XOR\n2 1 5971 5990 5939 XOR\n2 1 33587 5939 5982 XOR\n2 1 6027 5982 6022 XOR\n2 1 6025 5982 6024 XOR\n2 1 6022 6023 6021 AND\n2 1 6021 6029 6020 XOR\n2 1 6027 6021 6019 XOR\n2 1 6021 6038 5934 XOR\n2 1 5934 6035 5929 XOR\n2 1 6029 6019 6018 AND\n2 1 6018 6026 6016 XOR\n2 1 6024 6016 6015 AND\n2 1 6015 5985 5975 XOR\n2 1 5975 5977 6014 XOR\n2 1 6020 33582 6006 AND\n2 1 5929 5930 6012 XOR\n2 1 6014 6053 6004 AND\n2 1 6024 6043 6003 AND\n2 1 6003 6004 5942 XOR\n2 1 5975 5928 6011 XOR\n2 1 6011 6041 6005 AND\n2 1 6012 6044 6002 AND\n2 1 6020 6052 5997 AND\n2 1 6011 6056 5996 AND\n2 1 6014 6049 5995 AND\n2 1 6005 5996 5958 XOR\n2 1 6003 5995 5960 XOR\n2 1 6021 5980 5935 XOR\n2 1 6015 6039 5933 XOR\n2 1 6024 6050 5994 AND\n2 1 6012 6055 5993 AND\n2 1 6018 6036 5989 XOR\n2 1 33583 5989 5972 XOR\n2 1 5972 5935 6017 XOR\n2 1 6017 6048 5998 AND\n2 1 6017 6046 6007 AND\n2 1 5972 5933 5925 XOR\n2 1 5925 5926 6009 XOR\n2 1 6009 6042 6001 AND\n2 1 6001 6002 5953 XOR\n2 1 6001 6004 5957 XOR\n1 1 5957 5954 INV\n2 1 5962 5925 5932 XOR\n2 1 5929 5932 6013 XOR\n2 1 6013 6045 6000 AND\n2 1 6009 6057 5992 AND\n2 1 5992 5993 5987 XOR\n2 1 5998 5987 5969 XOR\n2 1 5960 5987 5956 XOR\n2 1 6013 6054 5991 AND\n2 1 6002 5991 5952 XOR\n1 1 5952 5948 INV\n2 1 5996 6000 5973 XOR\n1 1 5973 5951 INV\n2 1 5951 5956 5955 XOR\n2 1 5954 5955 6060 XOR\n2 1 5951 5994 5950 XOR\n2 1 5989 5983 6010 XOR\n2 1 6010 6047 6008 AND\n2 1 6010 6051 5999 AND\n2 1 5999 5969 5970 XOR\n2 1 6007 5970 5974 XOR\n2 1 6006 5974 5943 XOR\n2 1 5942 5943 35197 XOR\n2 1 6008 5974 5979 XOR\n2 1 5979 5953 6059 XOR\n1 1 6059 35200 INV\n",
"2 1 32903 35200 6645 XOR\n2 1 32895 6059 6520 XOR\n2 1 35204 35197 6382 XOR\n2 1 35193 35197 6659 XOR\n1 1 6659 6541 INV\n2 1 6004 6005 32652 XOR\n2 1 6001 32652 5981 XOR\n2 1 5997 5981 5947 XOR\n2 1 6002 5981 5941 XOR\n2 1 5970 5941 35201 XOR\n1 1 5947 5944 INV\n2 1 35201 35206 6596 XOR\n1 1 6596 6530 INV\n2 1 35195 35201 6595 XOR\n2 1 6595 35193 6385 XOR\n1 1 6595 6688 INV\n2 1 6688 35194 6540 XOR\n2 1 32652 5979 35198 XOR\n2 1 35194 35198 6650 XOR\n2 1 35205 35198 6524 XOR\n2 1 6006 6008 5988 XOR\n2 1 5950 5988 5946 XOR\n2 1 5993 5946 5949 XOR\n2 1 5948 5949 6058 XOR\n2 1 32894 6058 6522 XOR\n1 1 6058 35199 INV\n2 1 32902 35199 6647 XOR\n2 1 5969 5946 5945 XOR\n2 1 5944 5945 35196 XOR\n2 1 35196 35203 6634 XOR\n2 1 35192 35196 6386 XOR\n2 1 6385 6386 6664 XOR\n1 1 6634 6517 INV\n2 1 6659 6517 6528 XOR\n2 1 6517 35192 6515 XOR\n2 1 5988 5956 5959 XOR\n2 1 5958 5959 6061 XOR\n1 1 6060 32777 INV\n2 1 6530 32777 6534 XOR\n2 1 32777 35202 6636 XOR\n1 1 6061 32778 INV\n2 1 6688 32778 6383 XOR\n2 1 6383 6384 6665 XOR\n2 1 32778 32896 6635 XOR\n1 1 6197 32779 INV\n2 1 6626 32779 6420 XOR\n2 1 6420 6421 35149 XOR\n2 1 35149 938 33723 XOR\n2 1 33723 33725 14135 XOR\n2 1 14135 14230 14215 XOR\n2 1 14230 14215 14206 AND\n2 1 32980 32779 6615 XOR\n2 1 6633 6615 6430 XOR\n2 1 6615 35246 6450 XOR\n1 1 6450 6448 INV\n2 1 6448 6449 35133 XOR\n2 1 32976 6430 35141 XOR\n2 1 35141 946 33715 XOR\n2 1 35133 954 33707 XOR\n2 1 33715 33717 16498 XOR\n2 1 16498 16593 16578 XOR\n2 1 16593 16578 16569 AND\n2 1 6619 6615 6401 XOR\n2 1 32973 6401 35158 XOR\n2 1 35158 929 33732 XOR\n2 1 33726 33732 12461 XOR\n2 1 33731 12461 12547 XOR\n2 1 33730 33732 12457 XOR\n2 1 12457 33731 12416 XOR\n2 1 33726 12416 12546 XOR\n2 1 12546 33726 12532 AND\n1 1 6198 32780 INV\n2 1 6590 32780 6440 XOR\n2 1 6440 6441 35135 XOR\n2 1 35135 952 33709 XOR\n2 1 6619 32780 6419 XOR\n1 1 6419 6417 INV\n2 1 6417 6418 35150 XOR\n2 1 35150 937 33724 XOR\n2 1 33722 33724 14137 XOR\n2 1 14137 14135 14097 XOR\n2 1 14137 33723 14096 XOR\n2 1 33707 33709 19556 XOR\n2 1 33706 33709 19649 XOR\n2 1 32973 32780 6604 XOR\n2 1 6604 6593 6400 XOR\n2 1 6626 6604 6429 XOR\n2 1 32969 6429 35142 XOR\n2 1 6604 32779 6443 XOR\n2 1 6443 6444 6442 XOR\n1 1 6442 35134 INV\n2 1 35142 945 33716 XOR\n2 1 35134 953 33708 XOR\n2 1 35243 6400 35159 XOR\n2 1 35159 928 33733 XOR\n2 1 33714 33716 16500 XOR\n2 1 16500 16498 16460 XOR\n2 1 16500 33715 16459 XOR\n2 1 33731 33733 12455 XOR\n2 1 12457 12455 12417 XOR\n2 1 12455 12461 12544 XOR\n2 1 33706 33708 19558 XOR\n2 1 19558 19556 19518 XOR\n2 1 19558 33707 19517 XOR\n2 1 33730 33733 12549 XOR\n1 1 6199 32781 INV\n2 1 32974 32781 6644 XOR\n2 1 6648 6644 6409 XOR\n2 1 6656 6644 6437 XOR\n2 1 6437 6438 6436 XOR\n1 1 6436 35137 INV\n2 1 6453 32781 6451 XOR\n2 1 6451 6452 35130 XOR\n2 1 35137 950 33711 XOR\n2 1 35130 957 33704 XOR\n2 1 35240 6409 35154 XOR\n2 1 35154 933 33728 XOR\n2 1 33711 33713 16497 XOR\n2 1 33712 16497 16499 XOR\n2 1 33716 16499 16580 XOR\n2 1 33715 16499 16577 XOR\n2 1 16497 16591 16583 XOR\n2 1 33711 33712 16514 XOR\n2 1 16591 16514 16587 XOR\n2 1 16497 16460 16581 XOR\n2 1 33717 33711 16592 XOR\n2 1 16583 16587 16576 AND\n2 1 16576 16500 16503 XOR\n",
"2 1 16592 16577 16573 AND\n2 1 16573 16498 16502 XOR\n2 1 16591 16580 16570 AND\n2 1 16570 16499 16501 XOR\n2 1 16503 16501 16507 XOR\n2 1 33717 16507 16512 XOR\n2 1 16569 16570 16473 XOR\n2 1 16473 16474 16520 XOR\n2 1 16520 16502 16519 XOR\n2 1 16590 16581 16568 AND\n2 1 6597 32781 6373 XOR\n2 1 33733 33728 12548 XOR\n2 1 33704 33706 19651 XOR\n2 1 19556 19651 19636 XOR\n2 1 33705 33704 19532 XOR\n2 1 33709 33704 19648 XOR\n2 1 19651 19636 19627 AND\n2 1 33728 33730 12551 XOR\n2 1 12455 12551 12536 XOR\n2 1 12551 12536 12527 AND\n2 1 6373 6374 6669 XOR\n2 1 33729 33728 12431 XOR\n2 1 6669 6655 35145 XOR\n2 1 35145 942 33719 XOR\n2 1 33719 33721 14134 XOR\n2 1 33720 14134 14136 XOR\n2 1 33724 14136 14217 XOR\n2 1 33723 14136 14214 XOR\n2 1 14134 14228 14220 XOR\n2 1 33719 33720 14151 XOR\n2 1 14228 14151 14224 XOR\n2 1 14134 14097 14218 XOR\n2 1 33725 33719 14229 XOR\n2 1 14220 14224 14213 AND\n2 1 14213 14137 14140 XOR\n2 1 14229 14214 14210 AND\n2 1 14210 14135 14139 XOR\n2 1 14228 14217 14207 AND\n2 1 14207 14136 14138 XOR\n2 1 14140 14138 14144 XOR\n2 1 33725 14144 14149 XOR\n2 1 14206 14207 14110 XOR\n2 1 14110 14111 14157 XOR\n2 1 14157 14139 14156 XOR\n2 1 14227 14218 14205 AND\n1 1 6200 32782 INV\n2 1 32782 6425 35144 XOR\n2 1 35144 943 33718 XOR\n2 1 33718 14220 14219 XOR\n2 1 33718 33724 14141 XOR\n2 1 14141 14136 14216 XOR\n2 1 14135 14141 14223 XOR\n2 1 14151 14223 14221 XOR\n2 1 33723 14141 14226 XOR\n2 1 33719 14226 14222 XOR\n2 1 33718 14096 14225 XOR\n2 1 14221 14219 14212 AND\n2 1 14206 14212 14158 XOR\n2 1 14158 14149 14204 XOR\n2 1 14225 33718 14211 AND\n2 1 14205 14211 14163 XOR\n2 1 14163 14135 14150 XOR\n2 1 14158 14150 14201 XOR\n2 1 14144 14163 14112 XOR\n2 1 33723 14112 14155 XOR\n2 1 14226 14222 14209 AND\n2 1 14209 14156 14203 XOR\n2 1 14223 14216 14208 AND\n2 1 14205 14208 14159 XOR\n2 1 14206 14159 14153 XOR\n2 1 14139 14159 14113 XOR\n2 1 14113 14138 14202 XOR\n2 1 14209 14153 14109 XOR\n2 1 33719 14109 14196 XOR\n2 1 14204 14203 14200 AND\n2 1 14200 14155 14195 XOR\n2 1 14200 14202 14199 XOR\n2 1 14201 14199 14198 AND\n2 1 14198 14155 14197 XOR\n2 1 14198 14210 14104 XOR\n2 1 14104 14140 14100 XOR\n2 1 33725 14100 14103 XOR\n2 1 14198 14149 14101 XOR\n2 1 33723 14100 14099 XOR\n2 1 14195 14196 14194 AND\n2 1 14194 14202 14193 XOR\n2 1 14200 14194 14192 XOR\n2 1 14194 14153 14108 XOR\n2 1 14194 14211 14107 XOR\n2 1 14107 14208 14102 XOR\n2 1 14102 14103 14185 XOR\n2 1 14202 14192 14191 AND\n2 1 14191 14199 14189 XOR\n2 1 14191 14209 14162 XOR\n2 1 14162 14156 14183 XOR\n2 1 33719 14162 14145 XOR\n2 1 14145 14108 14190 XOR\n2 1 14197 14189 14188 AND\n2 1 14188 14158 14148 XOR\n2 1 14148 14150 14187 XOR\n2 1 14188 14212 14106 XOR\n2 1 14145 14106 14098 XOR\n2 1 14135 14098 14105 XOR\n2 1 14102 14105 14186 XOR\n2 1 14148 14101 14184 XOR\n2 1 14098 14099 14182 XOR\n2 1 14183 14220 14181 AND\n2 1 14190 14219 14180 AND\n2 1 14193 33718 14179 AND\n2 1 14179 14181 14161 XOR\n2 1 14184 14214 14178 AND\n2 1 14187 14226 14177 AND\n2 1 14197 14216 14176 AND\n2 1 14176 14177 14115 XOR\n2 1 14185 14217 14175 AND\n2 1 14182 14215 14174 AND\n2 1 14174 14177 14130 XOR\n1 1 14130 14127 INV\n2 1 14174 14175 14126 XOR\n2 1 14186 14218 14173 AND\n2 1 14183 14224 14172 AND\n2 1 14190 14221 14171 AND\n2 1 14193 14225 14170 AND\n2 1 14184 14229 14169 AND\n2 1 14169 14173 14146 XOR\n2 1 14178 14169 14131 XOR\n1 1 14146 14124 INV\n2 1 14187 14222 14168 AND\n",
"2 1 14176 14168 14133 XOR\n2 1 14197 14223 14167 AND\n2 1 14124 14167 14123 XOR\n2 1 14123 14161 14119 XOR\n2 1 14185 14228 14166 AND\n2 1 14166 14119 14122 XOR\n2 1 14182 14230 14165 AND\n2 1 14165 14166 14160 XOR\n2 1 14171 14160 14142 XOR\n2 1 14172 14142 14143 XOR\n2 1 14180 14143 14147 XOR\n2 1 14181 14147 14152 XOR\n2 1 14133 14160 14129 XOR\n2 1 14161 14129 14132 XOR\n2 1 14131 14132 14234 XOR\n2 1 14124 14129 14128 XOR\n2 1 14127 14128 14233 XOR\n2 1 14152 14126 14232 XOR\n2 1 14142 14119 14118 XOR\n2 1 14179 14147 14116 XOR\n2 1 14115 14116 35459 XOR\n2 1 14186 14227 14164 AND\n2 1 14175 14164 14125 XOR\n1 1 14125 14121 INV\n2 1 14121 14122 14231 XOR\n2 1 6367 32782 6365 XOR\n2 1 6365 6366 6672 XOR\n2 1 32975 32782 6652 XOR\n2 1 6652 6593 6439 XOR\n2 1 32971 6439 35136 XOR\n2 1 6652 6598 6454 XOR\n2 1 32926 6454 35128 XOR\n2 1 35136 951 33710 XOR\n2 1 35128 959 33702 XOR\n2 1 33710 16583 16582 XOR\n2 1 33710 33716 16504 XOR\n2 1 16504 16499 16579 XOR\n2 1 16498 16504 16586 XOR\n2 1 16514 16586 16584 XOR\n2 1 33715 16504 16589 XOR\n2 1 33711 16589 16585 XOR\n2 1 33710 16459 16588 XOR\n2 1 16584 16582 16575 AND\n2 1 16569 16575 16521 XOR\n2 1 16521 16512 16567 XOR\n2 1 16588 33710 16574 AND\n2 1 16568 16574 16526 XOR\n2 1 16526 16498 16513 XOR\n2 1 16521 16513 16564 XOR\n2 1 16507 16526 16475 XOR\n2 1 33715 16475 16518 XOR\n2 1 16589 16585 16572 AND\n2 1 16572 16519 16566 XOR\n2 1 16586 16579 16571 AND\n2 1 16568 16571 16522 XOR\n2 1 16569 16522 16516 XOR\n2 1 16502 16522 16476 XOR\n2 1 16476 16501 16565 XOR\n2 1 16572 16516 16472 XOR\n2 1 33711 16472 16559 XOR\n2 1 16567 16566 16563 AND\n2 1 16563 16518 16558 XOR\n2 1 16563 16565 16562 XOR\n2 1 16564 16562 16561 AND\n2 1 16561 16518 16560 XOR\n2 1 16561 16573 16467 XOR\n2 1 16467 16503 16463 XOR\n2 1 33717 16463 16466 XOR\n2 1 16561 16512 16464 XOR\n2 1 33715 16463 16462 XOR\n2 1 16558 16559 16557 AND\n2 1 16557 16565 16556 XOR\n2 1 16563 16557 16555 XOR\n2 1 16557 16516 16471 XOR\n2 1 16557 16574 16470 XOR\n2 1 16470 16571 16465 XOR\n2 1 16465 16466 16548 XOR\n2 1 16565 16555 16554 AND\n2 1 16554 16562 16552 XOR\n2 1 16554 16572 16525 XOR\n2 1 16525 16519 16546 XOR\n2 1 33711 16525 16508 XOR\n2 1 16508 16471 16553 XOR\n2 1 16560 16552 16551 AND\n2 1 16551 16521 16511 XOR\n2 1 16511 16513 16550 XOR\n2 1 16551 16575 16469 XOR\n2 1 16508 16469 16461 XOR\n2 1 16498 16461 16468 XOR\n2 1 16465 16468 16549 XOR\n2 1 16511 16464 16547 XOR\n2 1 16461 16462 16545 XOR\n2 1 16546 16583 16544 AND\n2 1 16553 16582 16543 AND\n2 1 16556 33710 16542 AND\n2 1 16542 16544 16524 XOR\n2 1 16547 16577 16541 AND\n2 1 16550 16589 16540 AND\n2 1 16560 16579 16539 AND\n2 1 16539 16540 16478 XOR\n2 1 16548 16580 16538 AND\n2 1 16545 16578 16537 AND\n2 1 16537 16540 16493 XOR\n1 1 16493 16490 INV\n2 1 16537 16538 16489 XOR\n2 1 16549 16581 16536 AND\n2 1 16546 16587 16535 AND\n2 1 16553 16584 16534 AND\n2 1 16556 16588 16533 AND\n2 1 16547 16592 16532 AND\n2 1 16532 16536 16509 XOR\n2 1 16541 16532 16494 XOR\n1 1 16509 16487 INV\n2 1 16550 16585 16531 AND\n2 1 16539 16531 16496 XOR\n2 1 16560 16586 16530 AND\n2 1 16487 16530 16486 XOR\n2 1 16486 16524 16482 XOR\n2 1 16548 16591 16529 AND\n2 1 16529 16482 16485 XOR\n2 1 16545 16593 16528 AND\n2 1 16528 16529 16523 XOR\n2 1 16534 16523 16505 XOR\n2 1 16535 16505 16506 XOR\n2 1 16543 16506 16510 XOR\n2 1 16544 16510 16515 XOR\n2 1 16496 16523 16492 XOR\n2 1 16524 16492 16495 XOR\n",
"2 1 16494 16495 16597 XOR\n2 1 16487 16492 16491 XOR\n2 1 16490 16491 16596 XOR\n2 1 16515 16489 16595 XOR\n2 1 16505 16482 16481 XOR\n2 1 16542 16510 16479 XOR\n2 1 16478 16479 35398 XOR\n2 1 16549 16590 16527 AND\n2 1 16538 16527 16488 XOR\n1 1 16488 16484 INV\n2 1 16484 16485 16594 XOR\n1 1 16595 35401 INV\n1 1 16594 35400 INV\n2 1 6655 6652 6413 XOR\n1 1 6413 6411 INV\n2 1 6411 6412 35153 XOR\n2 1 35153 934 33727 XOR\n2 1 33733 33727 12550 XOR\n2 1 33702 33708 19562 XOR\n2 1 19556 19562 19644 XOR\n2 1 33707 19562 19647 XOR\n2 1 33702 19517 19646 XOR\n2 1 19646 33702 19632 AND\n2 1 33727 33728 12472 XOR\n2 1 12472 12544 12542 XOR\n2 1 33727 33729 12454 XOR\n2 1 12454 12417 12539 XOR\n2 1 12548 12539 12526 AND\n2 1 12454 12549 12541 XOR\n2 1 33726 12541 12540 XOR\n2 1 12542 12540 12533 AND\n2 1 33728 12454 12456 XOR\n2 1 12461 12456 12537 XOR\n2 1 33732 12456 12538 XOR\n2 1 12549 12538 12528 AND\n2 1 12528 12456 12458 XOR\n2 1 33731 12456 12535 XOR\n2 1 12550 12535 12531 AND\n2 1 12527 12528 12430 XOR\n2 1 12544 12537 12529 AND\n2 1 12531 12455 12459 XOR\n2 1 12527 12533 12479 XOR\n2 1 12526 12529 12480 XOR\n2 1 12459 12480 12433 XOR\n2 1 12433 12458 12523 XOR\n2 1 33727 12547 12543 XOR\n2 1 12547 12543 12530 AND\n2 1 12527 12480 12474 XOR\n2 1 12430 12431 12478 XOR\n2 1 12478 12459 12477 XOR\n2 1 12530 12477 12524 XOR\n2 1 12530 12474 12429 XOR\n2 1 33727 12429 12517 XOR\n2 1 6672 6644 35129 XOR\n2 1 35129 958 33703 XOR\n2 1 33703 33705 19555 XOR\n2 1 33704 19555 19557 XOR\n2 1 33708 19557 19638 XOR\n2 1 33707 19557 19635 XOR\n2 1 19562 19557 19637 XOR\n2 1 33703 19647 19643 XOR\n2 1 19555 19649 19641 XOR\n2 1 33702 19641 19640 XOR\n2 1 33703 33704 19572 XOR\n2 1 19572 19644 19642 XOR\n2 1 19649 19572 19645 XOR\n2 1 19555 19518 19639 XOR\n2 1 33709 33703 19650 XOR\n2 1 19641 19645 19634 AND\n2 1 19634 19558 19561 XOR\n2 1 19642 19640 19633 AND\n2 1 19627 19633 19579 XOR\n2 1 19650 19635 19631 AND\n2 1 19631 19556 19560 XOR\n2 1 19647 19643 19630 AND\n2 1 19644 19637 19629 AND\n2 1 19649 19638 19628 AND\n2 1 19628 19557 19559 XOR\n2 1 19561 19559 19565 XOR\n2 1 33709 19565 19570 XOR\n2 1 19579 19570 19625 XOR\n2 1 19627 19628 19531 XOR\n2 1 19531 19532 19578 XOR\n2 1 19578 19560 19577 XOR\n2 1 19630 19577 19624 XOR\n2 1 19648 19639 19626 AND\n2 1 19626 19629 19580 XOR\n2 1 19626 19632 19584 XOR\n2 1 19584 19556 19571 XOR\n2 1 19579 19571 19622 XOR\n2 1 19627 19580 19574 XOR\n2 1 19560 19580 19534 XOR\n2 1 19534 19559 19623 XOR\n2 1 19565 19584 19533 XOR\n2 1 33707 19533 19576 XOR\n2 1 19630 19574 19530 XOR\n2 1 33703 19530 19617 XOR\n2 1 19625 19624 19621 AND\n2 1 19621 19576 19616 XOR\n2 1 19621 19623 19620 XOR\n2 1 19622 19620 19619 AND\n2 1 19619 19576 19618 XOR\n2 1 19619 19631 19525 XOR\n2 1 19525 19561 19521 XOR\n2 1 33709 19521 19524 XOR\n2 1 19619 19570 19522 XOR\n2 1 33707 19521 19520 XOR\n2 1 19616 19617 19615 AND\n2 1 19615 19623 19614 XOR\n2 1 19621 19615 19613 XOR\n2 1 19615 19574 19529 XOR\n2 1 19615 19632 19528 XOR\n2 1 19528 19629 19523 XOR\n2 1 19523 19524 19606 XOR\n2 1 19623 19613 19612 AND\n2 1 19612 19620 19610 XOR\n2 1 19612 19630 19583 XOR\n2 1 19583 19577 19604 XOR\n2 1 33703 19583 19566 XOR\n2 1 19566 19529 19611 XOR\n2 1 19618 19610 19609 AND\n2 1 19609 19579 19569 XOR\n2 1 19569 19571 19608 XOR\n2 1 19609 19633 19527 XOR\n2 1 19566 19527 19519 XOR\n2 1 19556 19519 19526 XOR\n2 1 19523 19526 19607 XOR\n2 1 19569 19522 19605 XOR\n",
"2 1 19519 19520 19603 XOR\n2 1 19604 19641 19602 AND\n2 1 19611 19640 19601 AND\n2 1 19614 33702 19600 AND\n2 1 19600 19602 19582 XOR\n2 1 19605 19635 19599 AND\n2 1 19608 19647 19598 AND\n2 1 19618 19637 19597 AND\n2 1 19597 19598 19536 XOR\n2 1 19606 19638 19596 AND\n2 1 19603 19636 19595 AND\n2 1 19595 19598 19551 XOR\n1 1 19551 19548 INV\n2 1 19595 19596 19547 XOR\n2 1 19607 19639 19594 AND\n2 1 19604 19645 19593 AND\n2 1 19611 19642 19592 AND\n2 1 19614 19646 19591 AND\n2 1 19605 19650 19590 AND\n2 1 19590 19594 19567 XOR\n2 1 19599 19590 19552 XOR\n1 1 19567 19545 INV\n2 1 19608 19643 19589 AND\n2 1 19597 19589 19554 XOR\n2 1 19618 19644 19588 AND\n2 1 19545 19588 19544 XOR\n2 1 19544 19582 19540 XOR\n2 1 19606 19649 19587 AND\n2 1 19587 19540 19543 XOR\n2 1 19603 19651 19586 AND\n2 1 19586 19587 19581 XOR\n2 1 19592 19581 19563 XOR\n2 1 19593 19563 19564 XOR\n2 1 19601 19564 19568 XOR\n2 1 19602 19568 19573 XOR\n2 1 19554 19581 19550 XOR\n2 1 19582 19550 19553 XOR\n2 1 19552 19553 19655 XOR\n2 1 19545 19550 19549 XOR\n2 1 19548 19549 19654 XOR\n2 1 19573 19547 19653 XOR\n2 1 19563 19540 19539 XOR\n2 1 19600 19568 19537 XOR\n2 1 19536 19537 35414 XOR\n2 1 19607 19648 19585 AND\n2 1 19596 19585 19546 XOR\n1 1 19546 19542 INV\n2 1 19542 19543 19652 XOR\n2 1 12526 12532 12484 XOR\n2 1 12484 12455 12471 XOR\n2 1 12479 12471 12522 XOR\n2 1 12549 12472 12545 XOR\n2 1 12541 12545 12534 AND\n2 1 12534 12457 12460 XOR\n2 1 14177 14178 32655 XOR\n2 1 14174 32655 14154 XOR\n2 1 14170 14154 14120 XOR\n2 1 14175 14154 14114 XOR\n2 1 14143 14114 35461 XOR\n1 1 14120 14117 INV\n2 1 14117 14118 35458 XOR\n2 1 32655 14152 35460 XOR\n2 1 35460 35459 6885 XOR\n2 1 16540 16541 32672 XOR\n2 1 32672 16515 35399 XOR\n2 1 16537 32672 16517 XOR\n2 1 16533 16517 16483 XOR\n1 1 16483 16480 INV\n2 1 16480 16481 35397 XOR\n2 1 16538 16517 16477 XOR\n2 1 16506 16477 35402 XOR\n2 1 19598 19599 32694 XOR\n2 1 19595 32694 19575 XOR\n2 1 19596 19575 19535 XOR\n2 1 19564 19535 35416 XOR\n2 1 19591 19575 19541 XOR\n1 1 19541 19538 INV\n2 1 19538 19539 35413 XOR\n2 1 32694 19573 35415 XOR\n1 1 14232 32877 INV\n1 1 14233 32878 INV\n1 1 14234 32879 INV\n1 1 14231 32884 INV\n2 1 32877 32884 7034 XOR\n1 1 14929 32893 INV\n2 1 32893 6495 35104 XOR\n2 1 35104 983 33678 XOR\n2 1 18125 32893 6347 XOR\n2 1 6346 6347 6680 XOR\n2 1 6680 6625 35097 XOR\n2 1 35097 990 33671 XOR\n2 1 33671 33673 14412 XOR\n2 1 32893 32943 6632 XOR\n2 1 6632 6625 6493 XOR\n2 1 6632 6591 6471 XOR\n2 1 32901 6471 35120 XOR\n2 1 6632 6599 6481 XOR\n2 1 33026 6481 35112 XOR\n2 1 35120 967 33694 XOR\n2 1 35112 975 33686 XOR\n1 1 14926 32898 INV\n2 1 32898 6485 35109 XOR\n2 1 33031 32898 6502 XOR\n2 1 6501 6502 35102 XOR\n2 1 35109 978 33683 XOR\n2 1 35102 985 33676 XOR\n2 1 33674 33676 14415 XOR\n2 1 33670 33676 14419 XOR\n2 1 33675 14419 14504 XOR\n2 1 33671 14504 14500 XOR\n2 1 14415 33675 14374 XOR\n2 1 33670 14374 14503 XOR\n2 1 14503 33670 14489 AND\n2 1 14504 14500 14487 AND\n2 1 32898 32941 6616 XOR\n2 1 6616 33031 6477 XOR\n1 1 6477 6475 INV\n2 1 6475 6476 35117 XOR\n2 1 6616 6612 6458 XOR\n2 1 32906 6458 35125 XOR\n2 1 35117 970 33691 XOR\n2 1 33691 33693 14274 XOR\n2 1 14274 14369 14354 XOR\n2 1 14369 14354 14345 AND\n2 1 35125 962 33699 XOR\n2 1 33699 33701 6728 XOR\n2 1 6728 6824 6809 XOR\n2 1 6824 6809 6800 AND\n",
"1 1 14927 32899 INV\n2 1 32899 6457 35126 XOR\n2 1 35215 32899 6483 XOR\n2 1 6482 6483 35111 XOR\n2 1 35126 961 33700 XOR\n2 1 33694 33700 6734 XOR\n2 1 35111 976 33685 XOR\n2 1 6728 6734 6817 XOR\n2 1 33698 33700 6730 XOR\n2 1 6730 6728 6690 XOR\n2 1 6730 33699 6689 XOR\n2 1 33694 6689 6819 XOR\n2 1 6819 33694 6805 AND\n2 1 33699 6734 6820 XOR\n2 1 32899 33032 6610 XOR\n2 1 6610 32906 6473 XOR\n2 1 6473 6474 35118 XOR\n2 1 6610 6591 6500 XOR\n2 1 35220 6500 35103 XOR\n2 1 6616 6610 6484 XOR\n2 1 32907 6484 35110 XOR\n2 1 35118 969 33692 XOR\n2 1 33690 33692 14276 XOR\n2 1 33686 33692 14280 XOR\n2 1 14274 14280 14362 XOR\n2 1 33691 14280 14365 XOR\n2 1 14276 14274 14236 XOR\n2 1 14276 33691 14235 XOR\n2 1 33686 14235 14364 XOR\n2 1 14364 33686 14350 AND\n2 1 35103 984 33677 XOR\n2 1 33675 33677 14413 XOR\n2 1 33674 33677 14506 XOR\n2 1 14413 14419 14501 XOR\n2 1 14412 14506 14498 XOR\n2 1 33670 14498 14497 XOR\n2 1 14415 14413 14375 XOR\n2 1 14412 14375 14496 XOR\n2 1 33677 33671 14507 XOR\n2 1 35110 977 33684 XOR\n2 1 33683 33685 31844 XOR\n2 1 33678 33684 31850 XOR\n2 1 31844 31850 31932 XOR\n2 1 33683 31850 31935 XOR\n1 1 14928 32900 INV\n2 1 35217 32900 6506 XOR\n2 1 6505 6506 35098 XOR\n2 1 35098 989 33672 XOR\n2 1 33672 14412 14414 XOR\n2 1 33676 14414 14495 XOR\n2 1 33675 14414 14492 XOR\n2 1 14419 14414 14494 XOR\n2 1 33671 33672 14429 XOR\n2 1 14429 14501 14499 XOR\n2 1 14506 14429 14502 XOR\n2 1 33672 33674 14508 XOR\n2 1 14413 14508 14493 XOR\n2 1 33673 33672 14389 XOR\n2 1 33677 33672 14505 XOR\n2 1 14498 14502 14491 AND\n2 1 14491 14415 14418 XOR\n2 1 14499 14497 14490 AND\n2 1 14507 14492 14488 AND\n2 1 14488 14413 14417 XOR\n2 1 14501 14494 14486 AND\n2 1 14506 14495 14485 AND\n2 1 14485 14414 14416 XOR\n2 1 14418 14416 14422 XOR\n2 1 33677 14422 14427 XOR\n2 1 14508 14493 14484 AND\n2 1 14484 14490 14436 XOR\n2 1 14436 14427 14482 XOR\n2 1 14484 14485 14388 XOR\n2 1 14388 14389 14435 XOR\n2 1 14435 14417 14434 XOR\n2 1 14487 14434 14481 XOR\n2 1 14505 14496 14483 AND\n2 1 14483 14486 14437 XOR\n2 1 14483 14489 14441 XOR\n2 1 14441 14413 14428 XOR\n2 1 14436 14428 14479 XOR\n2 1 14484 14437 14431 XOR\n2 1 14417 14437 14391 XOR\n2 1 14391 14416 14480 XOR\n2 1 14422 14441 14390 XOR\n2 1 33675 14390 14433 XOR\n2 1 14487 14431 14387 XOR\n2 1 33671 14387 14474 XOR\n2 1 14482 14481 14478 AND\n2 1 14478 14433 14473 XOR\n2 1 14478 14480 14477 XOR\n2 1 14479 14477 14476 AND\n2 1 14476 14433 14475 XOR\n2 1 14476 14488 14382 XOR\n2 1 14382 14418 14378 XOR\n2 1 33677 14378 14381 XOR\n2 1 14476 14427 14379 XOR\n2 1 33675 14378 14377 XOR\n2 1 14473 14474 14472 AND\n2 1 14472 14480 14471 XOR\n2 1 14478 14472 14470 XOR\n2 1 14472 14431 14386 XOR\n2 1 14472 14489 14385 XOR\n2 1 14385 14486 14380 XOR\n2 1 14380 14381 14463 XOR\n2 1 14480 14470 14469 AND\n2 1 14469 14477 14467 XOR\n2 1 14469 14487 14440 XOR\n2 1 14440 14434 14461 XOR\n2 1 33671 14440 14423 XOR\n2 1 14423 14386 14468 XOR\n2 1 14475 14467 14466 AND\n2 1 14466 14436 14426 XOR\n2 1 14426 14428 14465 XOR\n2 1 14466 14490 14384 XOR\n2 1 14423 14384 14376 XOR\n2 1 14413 14376 14383 XOR\n2 1 14380 14383 14464 XOR\n2 1 14426 14379 14462 XOR\n2 1 14376 14377 14460 XOR\n2 1 14461 14498 14459 AND\n2 1 14468 14497 14458 AND\n2 1 14471 33670 14457 AND\n2 1 14457 14459 14439 XOR\n2 1 14462 14492 14456 AND\n2 1 14465 14504 14455 AND\n2 1 14475 14494 14454 AND\n2 1 14454 14455 14393 XOR\n",
"2 1 14463 14495 14453 AND\n2 1 14460 14493 14452 AND\n2 1 14452 14455 14408 XOR\n1 1 14408 14405 INV\n2 1 14452 14453 14404 XOR\n2 1 14464 14496 14451 AND\n2 1 14461 14502 14450 AND\n2 1 14468 14499 14449 AND\n2 1 14471 14503 14448 AND\n2 1 14462 14507 14447 AND\n2 1 14447 14451 14424 XOR\n2 1 14456 14447 14409 XOR\n1 1 14424 14402 INV\n2 1 14465 14500 14446 AND\n2 1 14454 14446 14411 XOR\n2 1 14475 14501 14445 AND\n2 1 14402 14445 14401 XOR\n2 1 14401 14439 14397 XOR\n2 1 14463 14506 14444 AND\n2 1 14444 14397 14400 XOR\n2 1 14460 14508 14443 AND\n2 1 14443 14444 14438 XOR\n2 1 14449 14438 14420 XOR\n2 1 14450 14420 14421 XOR\n2 1 14458 14421 14425 XOR\n2 1 14459 14425 14430 XOR\n2 1 14411 14438 14407 XOR\n2 1 14439 14407 14410 XOR\n2 1 14409 14410 14512 XOR\n2 1 14402 14407 14406 XOR\n2 1 14405 14406 14511 XOR\n2 1 14430 14404 14510 XOR\n2 1 14420 14397 14396 XOR\n2 1 14457 14425 14394 XOR\n2 1 14393 14394 35394 XOR\n2 1 14464 14505 14442 AND\n2 1 14453 14442 14403 XOR\n1 1 14403 14399 INV\n2 1 14399 14400 14509 XOR\n2 1 35394 35398 7149 XOR\n1 1 7149 7031 INV\n2 1 32900 35216 6631 XOR\n2 1 6631 6622 6491 XOR\n2 1 35212 6491 35106 XOR\n2 1 6631 6629 6469 XOR\n2 1 6469 6470 35121 XOR\n2 1 35121 966 33695 XOR\n2 1 33695 33697 6727 XOR\n2 1 6727 6690 6812 XOR\n2 1 6821 6812 6799 AND\n2 1 33701 33695 6823 XOR\n2 1 6727 6822 6814 XOR\n2 1 33695 6820 6816 XOR\n2 1 6820 6816 6803 AND\n2 1 33696 6727 6729 XOR\n2 1 33699 6729 6808 XOR\n2 1 6823 6808 6804 AND\n2 1 6734 6729 6810 XOR\n2 1 6817 6810 6802 AND\n2 1 6804 6728 6732 XOR\n2 1 33700 6729 6811 XOR\n2 1 6822 6811 6801 AND\n2 1 6801 6729 6731 XOR\n2 1 6800 6801 6703 XOR\n2 1 6703 6704 6750 XOR\n2 1 6799 6802 6752 XOR\n2 1 6800 6752 6746 XOR\n2 1 6803 6746 6702 XOR\n2 1 33695 6702 6790 XOR\n2 1 6732 6752 6706 XOR\n2 1 6706 6731 6796 XOR\n2 1 6750 6732 6749 XOR\n2 1 6803 6749 6797 XOR\n2 1 35106 981 33680 XOR\n2 1 6675 6631 35113 XOR\n2 1 35113 974 33687 XOR\n2 1 33687 33689 14273 XOR\n2 1 33688 14273 14275 XOR\n2 1 33692 14275 14356 XOR\n2 1 33691 14275 14353 XOR\n2 1 14280 14275 14355 XOR\n2 1 33687 14365 14361 XOR\n2 1 14273 14367 14359 XOR\n2 1 33686 14359 14358 XOR\n2 1 33687 33688 14290 XOR\n2 1 14290 14362 14360 XOR\n2 1 14367 14290 14363 XOR\n2 1 14273 14236 14357 XOR\n2 1 33693 33687 14368 XOR\n2 1 14359 14363 14352 AND\n2 1 14352 14276 14279 XOR\n2 1 14360 14358 14351 AND\n2 1 14345 14351 14297 XOR\n2 1 14368 14353 14349 AND\n2 1 14349 14274 14278 XOR\n2 1 14365 14361 14348 AND\n2 1 14362 14355 14347 AND\n2 1 14367 14356 14346 AND\n2 1 14346 14275 14277 XOR\n2 1 14279 14277 14283 XOR\n2 1 33693 14283 14288 XOR\n2 1 14297 14288 14343 XOR\n2 1 14345 14346 14249 XOR\n2 1 14249 14250 14296 XOR\n2 1 14296 14278 14295 XOR\n2 1 14348 14295 14342 XOR\n2 1 14366 14357 14344 AND\n2 1 14344 14347 14298 XOR\n2 1 14344 14350 14302 XOR\n2 1 14302 14274 14289 XOR\n2 1 14297 14289 14340 XOR\n2 1 14345 14298 14292 XOR\n2 1 14278 14298 14252 XOR\n2 1 14252 14277 14341 XOR\n2 1 14283 14302 14251 XOR\n2 1 33691 14251 14294 XOR\n2 1 14348 14292 14248 XOR\n2 1 33687 14248 14335 XOR\n2 1 14343 14342 14339 AND\n2 1 14339 14294 14334 XOR\n2 1 14339 14341 14338 XOR\n2 1 14340 14338 14337 AND\n2 1 14337 14294 14336 XOR\n2 1 14337 14349 14243 XOR\n2 1 14243 14279 14239 XOR\n2 1 33693 14239 14242 XOR\n2 1 14337 14288 14240 XOR\n2 1 33691 14239 14238 XOR\n",
"2 1 14334 14335 14333 AND\n2 1 14333 14341 14332 XOR\n2 1 14339 14333 14331 XOR\n2 1 14333 14292 14247 XOR\n2 1 14333 14350 14246 XOR\n2 1 14246 14347 14241 XOR\n2 1 14241 14242 14324 XOR\n2 1 14341 14331 14330 AND\n2 1 14330 14338 14328 XOR\n2 1 14330 14348 14301 XOR\n2 1 14301 14295 14322 XOR\n2 1 33687 14301 14284 XOR\n2 1 14284 14247 14329 XOR\n2 1 14336 14328 14327 AND\n2 1 14327 14297 14287 XOR\n2 1 14287 14289 14326 XOR\n2 1 14327 14351 14245 XOR\n2 1 14284 14245 14237 XOR\n2 1 14274 14237 14244 XOR\n2 1 14241 14244 14325 XOR\n2 1 14287 14240 14323 XOR\n2 1 14237 14238 14321 XOR\n2 1 14322 14359 14320 AND\n2 1 14329 14358 14319 AND\n2 1 14332 33686 14318 AND\n2 1 14318 14320 14300 XOR\n2 1 14323 14353 14317 AND\n2 1 14326 14365 14316 AND\n2 1 14336 14355 14315 AND\n2 1 14315 14316 14254 XOR\n2 1 14324 14356 14314 AND\n2 1 14321 14354 14313 AND\n2 1 14313 14316 14269 XOR\n1 1 14269 14266 INV\n2 1 14313 14314 14265 XOR\n2 1 14325 14357 14312 AND\n2 1 14322 14363 14311 AND\n2 1 14329 14360 14310 AND\n2 1 14332 14364 14309 AND\n2 1 14323 14368 14308 AND\n2 1 14308 14312 14285 XOR\n2 1 14317 14308 14270 XOR\n1 1 14285 14263 INV\n2 1 14326 14361 14307 AND\n2 1 14315 14307 14272 XOR\n2 1 14336 14362 14306 AND\n2 1 14263 14306 14262 XOR\n2 1 14262 14300 14258 XOR\n2 1 14324 14367 14305 AND\n2 1 14305 14258 14261 XOR\n2 1 14321 14369 14304 AND\n2 1 14304 14305 14299 XOR\n2 1 14310 14299 14281 XOR\n2 1 14311 14281 14282 XOR\n2 1 14319 14282 14286 XOR\n2 1 14320 14286 14291 XOR\n2 1 14272 14299 14268 XOR\n2 1 14300 14268 14271 XOR\n2 1 14270 14271 14373 XOR\n2 1 14263 14268 14267 XOR\n2 1 14266 14267 14372 XOR\n2 1 14291 14265 14371 XOR\n2 1 14281 14258 14257 XOR\n2 1 14318 14286 14255 XOR\n2 1 14254 14255 35442 XOR\n2 1 14325 14366 14303 AND\n2 1 14314 14303 14264 XOR\n1 1 14264 14260 INV\n2 1 14260 14261 14370 XOR\n2 1 33694 6814 6813 XOR\n2 1 6799 6805 6756 XOR\n2 1 6756 6728 6743 XOR\n2 1 33695 33696 6744 XOR\n2 1 6822 6744 6818 XOR\n2 1 6814 6818 6807 AND\n2 1 6744 6817 6815 XOR\n2 1 6815 6813 6806 AND\n2 1 6800 6806 6751 XOR\n2 1 6751 6743 6795 XOR\n2 1 6807 6730 6733 XOR\n2 1 6733 6731 6737 XOR\n2 1 6737 6756 6705 XOR\n2 1 33699 6705 6748 XOR\n2 1 33701 6737 6742 XOR\n2 1 6751 6742 6798 XOR\n2 1 6798 6797 6794 AND\n2 1 6794 6796 6793 XOR\n2 1 6795 6793 6792 AND\n2 1 6792 6742 6694 XOR\n2 1 6792 6804 6697 XOR\n2 1 6697 6733 6693 XOR\n2 1 33701 6693 6696 XOR\n2 1 33699 6693 6692 XOR\n2 1 6792 6748 6791 XOR\n2 1 6791 6817 6761 AND\n2 1 6791 6810 6770 AND\n2 1 6794 6748 6789 XOR\n2 1 6789 6790 6788 AND\n2 1 6788 6805 6700 XOR\n2 1 6700 6802 6695 XOR\n2 1 6695 6696 6779 XOR\n2 1 6779 6822 6760 AND\n2 1 6779 6811 6769 AND\n2 1 6794 6788 6786 XOR\n2 1 6796 6786 6785 AND\n2 1 6785 6803 6755 XOR\n2 1 6755 6749 6777 XOR\n2 1 6777 6818 6766 AND\n2 1 6777 6814 6775 AND\n2 1 33695 6755 6738 XOR\n2 1 6785 6793 6783 XOR\n2 1 6791 6783 6782 AND\n2 1 6782 6806 6699 XOR\n2 1 6738 6699 6691 XOR\n2 1 6728 6691 6698 XOR\n2 1 6695 6698 6780 XOR\n2 1 6780 6812 6767 AND\n2 1 6691 6692 6776 XOR\n2 1 6776 6824 6759 AND\n2 1 6780 6821 6758 AND\n2 1 6769 6758 6718 XOR\n2 1 6759 6760 6753 XOR\n1 1 6718 6714 INV\n2 1 6788 6746 6701 XOR\n2 1 6738 6701 6784 XOR\n2 1 6784 6815 6765 AND\n2 1 6784 6813 6774 AND\n2 1 6765 6753 6735 XOR\n",
"2 1 6766 6735 6736 XOR\n2 1 6774 6736 6740 XOR\n2 1 6775 6740 6745 XOR\n2 1 6776 6809 6768 AND\n2 1 6788 6796 6787 XOR\n2 1 6787 6819 6764 AND\n2 1 6787 33694 6773 AND\n2 1 6773 6740 6709 XOR\n2 1 6773 6775 6754 XOR\n2 1 6782 6751 6741 XOR\n2 1 6741 6694 6778 XOR\n2 1 6778 6823 6763 AND\n2 1 6778 6808 6772 AND\n2 1 6772 6763 6724 XOR\n2 1 6763 6767 6739 XOR\n1 1 6739 6717 INV\n2 1 6717 6761 6716 XOR\n2 1 6716 6754 6712 XOR\n2 1 6760 6712 6715 XOR\n2 1 6714 6715 6825 XOR\n2 1 6735 6712 6711 XOR\n2 1 6741 6743 6781 XOR\n2 1 6781 6816 6762 AND\n2 1 6781 6820 6771 AND\n2 1 6770 6762 6726 XOR\n2 1 6771 6772 6757 XOR\n2 1 6757 6745 35428 XOR\n2 1 6768 6757 6747 XOR\n2 1 6769 6747 6707 XOR\n2 1 6736 6707 35429 XOR\n2 1 35416 35429 7091 XOR\n2 1 6764 6747 6713 XOR\n1 1 6713 6710 INV\n2 1 6710 6711 35426 XOR\n2 1 6726 6753 6722 XOR\n2 1 6770 6771 6708 XOR\n2 1 6708 6709 35427 XOR\n2 1 6754 6722 6725 XOR\n2 1 6724 6725 6828 XOR\n1 1 7091 6837 INV\n2 1 7091 35427 6841 XOR\n2 1 6837 35426 6838 XOR\n2 1 6768 6771 6723 XOR\n1 1 6723 6720 INV\n2 1 6717 6722 6721 XOR\n2 1 6720 6721 6827 XOR\n2 1 6768 6769 6719 XOR\n2 1 6745 6719 6826 XOR\n2 1 33685 33680 31936 XOR\n2 1 14316 14317 32656 XOR\n2 1 14313 32656 14293 XOR\n2 1 14314 14293 14253 XOR\n2 1 14282 14253 35444 XOR\n2 1 14309 14293 14259 XOR\n1 1 14259 14256 INV\n2 1 14256 14257 35441 XOR\n2 1 32656 14291 35443 XOR\n2 1 14455 14456 32657 XOR\n2 1 14452 32657 14432 XOR\n2 1 14448 14432 14398 XOR\n2 1 14453 14432 14392 XOR\n2 1 14421 14392 35396 XOR\n2 1 35396 35402 7085 XOR\n2 1 7085 35394 6874 XOR\n1 1 14398 14395 INV\n2 1 14395 14396 35393 XOR\n2 1 35393 35397 6875 XOR\n2 1 6874 6875 7154 XOR\n2 1 32657 14430 35395 XOR\n2 1 35395 35399 7140 XOR\n1 1 6827 32787 INV\n1 1 6828 32788 INV\n2 1 6837 32788 6835 XOR\n1 1 6825 32789 INV\n1 1 6826 32790 INV\n1 1 14371 32881 INV\n1 1 14372 32882 INV\n1 1 14373 32883 INV\n1 1 14510 32885 INV\n2 1 32885 35401 7135 XOR\n1 1 14511 32886 INV\n1 1 14512 32887 INV\n1 1 14370 32888 INV\n1 1 14509 32892 INV\n2 1 32892 35400 7137 XOR\n1 1 16597 32921 INV\n1 1 16596 32928 INV\n1 1 19653 32961 INV\n2 1 35416 32961 6972 XOR\n2 1 32961 32790 7100 XOR\n1 1 19654 32962 INV\n1 1 19655 32963 INV\n1 1 19652 32968 INV\n2 1 32789 32968 6992 XOR\n2 1 12460 12458 12464 XOR\n2 1 33733 12464 12470 XOR\n2 1 12479 12470 12525 XOR\n2 1 12525 12524 12521 AND\n2 1 12464 12484 12432 XOR\n2 1 33731 12432 12476 XOR\n2 1 12521 12476 12516 XOR\n2 1 12516 12517 12515 AND\n2 1 12515 12523 12514 XOR\n2 1 12521 12515 12513 XOR\n2 1 12523 12513 12512 AND\n2 1 12521 12523 12520 XOR\n2 1 12522 12520 12519 AND\n2 1 12519 12470 12421 XOR\n2 1 12512 12520 12510 XOR\n2 1 12519 12531 12424 XOR\n2 1 12424 12460 12420 XOR\n2 1 33731 12420 12419 XOR\n2 1 33733 12420 12423 XOR\n2 1 12519 12476 12518 XOR\n2 1 12512 12530 12483 XOR\n2 1 12483 12477 12504 XOR\n2 1 12504 12541 12502 AND\n2 1 12515 12474 12428 XOR\n2 1 12518 12510 12509 AND\n2 1 12509 12479 12469 XOR\n2 1 12469 12421 12505 XOR\n2 1 12469 12471 12508 XOR\n2 1 33727 12483 12465 XOR\n2 1 12505 12535 12499 AND\n2 1 12508 12547 12498 AND\n2 1 12498 12499 12467 XOR\n2 1 12514 33726 12500 AND\n2 1 12500 12502 12482 XOR\n",
"2 1 12465 12428 12511 XOR\n2 1 12511 12540 12501 AND\n2 1 12508 12543 12489 AND\n2 1 12514 12546 12491 AND\n2 1 12518 12537 12497 AND\n2 1 12497 12498 12435 XOR\n2 1 12497 12489 12453 XOR\n2 1 12515 12532 12427 XOR\n2 1 12427 12529 12422 XOR\n2 1 12422 12423 12506 XOR\n2 1 12506 12549 12487 AND\n2 1 12506 12538 12496 AND\n2 1 12504 12545 12493 AND\n2 1 12511 12542 12492 AND\n2 1 12505 12550 12490 AND\n2 1 12499 12490 12451 XOR\n2 1 12518 12544 12488 AND\n2 1 12509 12533 12426 XOR\n2 1 12465 12426 12418 XOR\n2 1 12418 12419 12503 XOR\n2 1 12455 12418 12425 XOR\n2 1 12422 12425 12507 XOR\n2 1 12503 12536 12495 AND\n2 1 12495 12496 12446 XOR\n2 1 12495 12467 12475 XOR\n2 1 12491 12475 12440 XOR\n1 1 12440 12437 INV\n2 1 12496 12475 12434 XOR\n2 1 12503 12551 12486 AND\n2 1 12486 12487 12481 XOR\n2 1 12453 12481 12449 XOR\n2 1 12492 12481 12462 XOR\n2 1 12482 12449 12452 XOR\n2 1 12451 12452 12555 XOR\n2 1 12507 12548 12485 AND\n2 1 12496 12485 12445 XOR\n1 1 12445 12441 INV\n2 1 12507 12539 12494 AND\n2 1 12490 12494 12466 XOR\n1 1 12466 12444 INV\n2 1 12444 12449 12448 XOR\n2 1 12444 12488 12443 XOR\n2 1 12443 12482 12439 XOR\n2 1 12462 12439 12438 XOR\n2 1 12437 12438 35445 XOR\n2 1 35441 35445 7130 XOR\n1 1 7130 6942 INV\n2 1 12487 12439 12442 XOR\n2 1 12441 12442 12552 XOR\n2 1 12493 12462 12463 XOR\n2 1 12501 12463 12468 XOR\n2 1 12500 12468 12436 XOR\n2 1 12502 12468 12473 XOR\n2 1 12473 12446 12553 XOR\n2 1 12467 12473 35447 XOR\n2 1 35443 35447 7111 XOR\n2 1 12435 12436 35446 XOR\n2 1 35442 35446 7120 XOR\n2 1 12463 12434 35448 XOR\n2 1 35444 35448 7080 XOR\n2 1 12495 12498 12450 XOR\n1 1 12555 32860 INV\n2 1 32883 32860 7142 XOR\n1 1 12552 32863 INV\n2 1 32888 32863 7105 XOR\n2 1 7105 35447 6939 XOR\n1 1 6939 6937 INV\n1 1 12553 32864 INV\n2 1 32881 32864 7094 XOR\n2 1 7094 32863 6932 XOR\n2 1 7080 32864 6929 XOR\n1 1 12450 12447 INV\n2 1 12447 12448 12554 XOR\n1 1 12554 32859 INV\n2 1 32882 32859 7134 XOR\n2 1 6942 32859 6940 XOR\n1 1 24524 33053 INV\n2 1 32945 33053 6613 XOR\n2 1 6613 6605 6545 XOR\n1 1 6613 6584 INV\n2 1 6584 32783 6582 XOR\n1 1 24525 33054 INV\n2 1 33054 33053 6544 XOR\n2 1 33054 32946 6555 XOR\n2 1 33054 32784 6611 XOR\n2 1 6611 32945 6566 XOR\n1 1 24526 33055 INV\n2 1 33055 32947 6562 XOR\n2 1 6684 33055 6551 XOR\n2 1 33055 32785 6618 XOR\n1 1 24527 33056 INV\n2 1 33056 32948 6341 XOR\n2 1 6340 6341 6683 XOR\n2 1 33056 32786 6638 XOR\n1 1 5828 33239 INV\n2 1 33239 35006 5623 XOR\n2 1 5623 5624 5896 XOR\n2 1 33239 32986 5660 XOR\n2 1 5660 5661 34870 XOR\n2 1 34870 376 33517 XOR\n2 1 33515 33517 20112 XOR\n2 1 20112 20207 20192 XOR\n2 1 33514 33517 20205 XOR\n2 1 20205 20128 20201 XOR\n2 1 20112 20118 20200 XOR\n2 1 20128 20200 20198 XOR\n2 1 20111 20205 20197 XOR\n2 1 33510 20197 20196 XOR\n2 1 20114 20112 20074 XOR\n2 1 20111 20074 20195 XOR\n2 1 33517 33511 20206 XOR\n2 1 33517 33512 20204 XOR\n2 1 20197 20201 20190 AND\n2 1 20190 20114 20117 XOR\n2 1 20198 20196 20189 AND\n2 1 20206 20191 20187 AND\n2 1 20187 20112 20116 XOR\n2 1 20200 20193 20185 AND\n2 1 20205 20194 20184 AND\n2 1 20184 20113 20115 XOR\n2 1 20117 20115 20121 XOR\n2 1 33517 20121 20126 XOR\n2 1 20207 20192 20183 AND\n2 1 20183 20189 20135 XOR\n2 1 20135 20126 20181 XOR\n2 1 20183 20184 20087 XOR\n2 1 20087 20088 20134 XOR\n2 1 20134 20116 20133 XOR\n",
"2 1 20186 20133 20180 XOR\n2 1 20204 20195 20182 AND\n2 1 20182 20185 20136 XOR\n2 1 20182 20188 20140 XOR\n2 1 20140 20112 20127 XOR\n2 1 20135 20127 20178 XOR\n2 1 20183 20136 20130 XOR\n2 1 20116 20136 20090 XOR\n2 1 20090 20115 20179 XOR\n2 1 20121 20140 20089 XOR\n2 1 33515 20089 20132 XOR\n2 1 20186 20130 20086 XOR\n2 1 33511 20086 20173 XOR\n2 1 20181 20180 20177 AND\n2 1 20177 20132 20172 XOR\n2 1 20177 20179 20176 XOR\n2 1 20178 20176 20175 AND\n2 1 20175 20132 20174 XOR\n2 1 20175 20187 20081 XOR\n2 1 20081 20117 20077 XOR\n2 1 33517 20077 20080 XOR\n2 1 20175 20126 20078 XOR\n2 1 33515 20077 20076 XOR\n2 1 20172 20173 20171 AND\n2 1 20171 20179 20170 XOR\n2 1 20177 20171 20169 XOR\n2 1 20171 20130 20085 XOR\n2 1 20171 20188 20084 XOR\n2 1 20084 20185 20079 XOR\n2 1 20079 20080 20162 XOR\n2 1 20179 20169 20168 AND\n2 1 20168 20176 20166 XOR\n2 1 20168 20186 20139 XOR\n2 1 20139 20133 20160 XOR\n2 1 33511 20139 20122 XOR\n2 1 20122 20085 20167 XOR\n2 1 20174 20166 20165 AND\n2 1 20165 20135 20125 XOR\n2 1 20125 20127 20164 XOR\n2 1 20165 20189 20083 XOR\n2 1 20122 20083 20075 XOR\n2 1 20112 20075 20082 XOR\n2 1 20079 20082 20163 XOR\n2 1 20125 20078 20161 XOR\n2 1 20075 20076 20159 XOR\n2 1 20160 20197 20158 AND\n2 1 20167 20196 20157 AND\n2 1 20170 33510 20156 AND\n2 1 20156 20158 20138 XOR\n2 1 20161 20191 20155 AND\n2 1 20164 20203 20154 AND\n2 1 20174 20193 20153 AND\n2 1 20153 20154 20092 XOR\n2 1 20162 20194 20152 AND\n2 1 20159 20192 20151 AND\n2 1 20151 20154 20107 XOR\n1 1 20107 20104 INV\n2 1 20151 20152 20103 XOR\n2 1 20163 20195 20150 AND\n2 1 20160 20201 20149 AND\n2 1 20167 20198 20148 AND\n2 1 20170 20202 20147 AND\n2 1 20161 20206 20146 AND\n2 1 20146 20150 20123 XOR\n2 1 20155 20146 20108 XOR\n1 1 20123 20101 INV\n2 1 20164 20199 20145 AND\n2 1 20153 20145 20110 XOR\n2 1 20174 20200 20144 AND\n2 1 20101 20144 20100 XOR\n2 1 20100 20138 20096 XOR\n2 1 20162 20205 20143 AND\n2 1 20143 20096 20099 XOR\n2 1 20159 20207 20142 AND\n2 1 20142 20143 20137 XOR\n2 1 20148 20137 20119 XOR\n2 1 20149 20119 20120 XOR\n2 1 20157 20120 20124 XOR\n2 1 20158 20124 20129 XOR\n2 1 20110 20137 20106 XOR\n2 1 20138 20106 20109 XOR\n2 1 20108 20109 20211 XOR\n2 1 20101 20106 20105 XOR\n2 1 20104 20105 20210 XOR\n2 1 20129 20103 20209 XOR\n2 1 35256 20209 6580 XOR\n2 1 6579 6580 35167 XOR\n2 1 35167 920 33741 XOR\n2 1 20119 20096 20095 XOR\n2 1 20156 20124 20093 XOR\n2 1 20092 20093 35249 XOR\n2 1 6684 35249 6548 XOR\n2 1 6547 6548 6546 XOR\n1 1 6546 35187 INV\n2 1 35187 900 33761 XOR\n2 1 20163 20204 20141 AND\n2 1 20152 20141 20102 XOR\n1 1 20102 20098 INV\n2 1 20098 20099 20208 XOR\n1 1 20209 35251 INV\n2 1 35251 32946 6653 XOR\n2 1 6653 32783 6543 XOR\n2 1 6543 6544 35190 XOR\n2 1 35190 897 33764 XOR\n2 1 6653 6613 6556 XOR\n2 1 32784 6556 35182 XOR\n2 1 35182 905 33756 XOR\n2 1 5896 5893 34890 XOR\n2 1 34890 356 33537 XOR\n2 1 33535 33537 17331 XOR\n2 1 33536 17331 17333 XOR\n2 1 33540 17333 17414 XOR\n2 1 33539 17333 17411 XOR\n2 1 17338 17333 17413 XOR\n2 1 33537 33536 17308 XOR\n2 1 17426 17411 17407 AND\n2 1 17407 17332 17336 XOR\n2 1 17420 17413 17405 AND\n2 1 33239 35004 5747 XOR\n2 1 5746 5747 34891 XOR\n2 1 34891 355 33538 XOR\n2 1 33538 33540 17334 XOR\n2 1 33538 33541 17425 XOR\n2 1 17425 17348 17421 XOR\n2 1 17331 17425 17417 XOR\n2 1 33534 17417 17416 XOR\n2 1 33536 33538 17427 XOR\n2 1 17332 17427 17412 XOR\n",
"2 1 17334 17332 17294 XOR\n2 1 17331 17294 17415 XOR\n2 1 17334 33539 17293 XOR\n2 1 33534 17293 17422 XOR\n2 1 17417 17421 17410 AND\n2 1 17410 17334 17337 XOR\n2 1 17418 17416 17409 AND\n2 1 17422 33534 17408 AND\n2 1 17425 17414 17404 AND\n2 1 17404 17333 17335 XOR\n2 1 17337 17335 17341 XOR\n2 1 33541 17341 17346 XOR\n2 1 17427 17412 17403 AND\n2 1 17403 17409 17355 XOR\n2 1 17355 17346 17401 XOR\n2 1 17403 17404 17307 XOR\n2 1 17307 17308 17354 XOR\n2 1 17354 17336 17353 XOR\n2 1 17406 17353 17400 XOR\n2 1 17424 17415 17402 AND\n2 1 17402 17405 17356 XOR\n2 1 17402 17408 17360 XOR\n2 1 17360 17332 17347 XOR\n2 1 17355 17347 17398 XOR\n2 1 17403 17356 17350 XOR\n2 1 17336 17356 17310 XOR\n2 1 17310 17335 17399 XOR\n2 1 17341 17360 17309 XOR\n2 1 33539 17309 17352 XOR\n2 1 17406 17350 17306 XOR\n2 1 33535 17306 17393 XOR\n2 1 17401 17400 17397 AND\n2 1 17397 17352 17392 XOR\n2 1 17397 17399 17396 XOR\n2 1 17398 17396 17395 AND\n2 1 17395 17352 17394 XOR\n2 1 17395 17407 17301 XOR\n2 1 17301 17337 17297 XOR\n2 1 33541 17297 17300 XOR\n2 1 17395 17346 17298 XOR\n2 1 33539 17297 17296 XOR\n2 1 17392 17393 17391 AND\n2 1 17391 17399 17390 XOR\n2 1 17397 17391 17389 XOR\n2 1 17391 17350 17305 XOR\n2 1 17391 17408 17304 XOR\n2 1 17304 17405 17299 XOR\n2 1 17299 17300 17382 XOR\n2 1 17399 17389 17388 AND\n2 1 17388 17396 17386 XOR\n2 1 17388 17406 17359 XOR\n2 1 17359 17353 17380 XOR\n2 1 33535 17359 17342 XOR\n2 1 17342 17305 17387 XOR\n2 1 17394 17386 17385 AND\n2 1 17385 17355 17345 XOR\n2 1 17345 17347 17384 XOR\n2 1 17385 17409 17303 XOR\n2 1 17342 17303 17295 XOR\n2 1 17332 17295 17302 XOR\n2 1 17299 17302 17383 XOR\n2 1 17345 17298 17381 XOR\n2 1 17295 17296 17379 XOR\n2 1 17380 17417 17378 AND\n2 1 17387 17416 17377 AND\n2 1 17390 33534 17376 AND\n2 1 17376 17378 17358 XOR\n2 1 17381 17411 17375 AND\n2 1 17384 17423 17374 AND\n2 1 17394 17413 17373 AND\n2 1 17373 17374 17312 XOR\n2 1 17382 17414 17372 AND\n2 1 17379 17412 17371 AND\n2 1 17371 17374 17327 XOR\n1 1 17327 17324 INV\n2 1 17371 17372 17323 XOR\n2 1 17383 17415 17370 AND\n2 1 17380 17421 17369 AND\n2 1 17387 17418 17368 AND\n2 1 17390 17422 17367 AND\n2 1 17381 17426 17366 AND\n2 1 17366 17370 17343 XOR\n2 1 17375 17366 17328 XOR\n1 1 17343 17321 INV\n2 1 17384 17419 17365 AND\n2 1 17373 17365 17330 XOR\n2 1 17394 17420 17364 AND\n2 1 17321 17364 17320 XOR\n2 1 17320 17358 17316 XOR\n2 1 17382 17425 17363 AND\n2 1 17363 17316 17319 XOR\n2 1 17379 17427 17362 AND\n2 1 17362 17363 17357 XOR\n2 1 17368 17357 17339 XOR\n2 1 17369 17339 17340 XOR\n2 1 17377 17340 17344 XOR\n2 1 17378 17344 17349 XOR\n2 1 17330 17357 17326 XOR\n2 1 17358 17326 17329 XOR\n2 1 17328 17329 17431 XOR\n2 1 17321 17326 17325 XOR\n2 1 17324 17325 17430 XOR\n2 1 17349 17323 17429 XOR\n2 1 17429 35201 6427 XOR\n2 1 17339 17316 17315 XOR\n2 1 17376 17344 17313 XOR\n2 1 17312 17313 35208 XOR\n2 1 6530 35208 6529 XOR\n2 1 6528 6529 35083 XOR\n2 1 35083 1004 33657 XOR\n2 1 35204 35208 6649 XOR\n2 1 6650 6649 6514 XOR\n1 1 6514 6512 INV\n2 1 17383 17424 17361 AND\n2 1 17372 17361 17322 XOR\n1 1 17322 17318 INV\n2 1 17318 17319 17428 XOR\n1 1 17429 35210 INV\n2 1 35208 35198 6345 XOR\n2 1 6645 17429 6521 XOR\n2 1 6521 6522 35086 XOR\n2 1 35086 1001 33660 XOR\n2 1 32895 35210 6639 XOR\n2 1 6647 6639 6537 XOR\n2 1 32903 6537 35078 XOR\n2 1 6639 32902 6446 XOR\n2 1 6639 6595 6508 XOR\n2 1 35206 6508 35095 XOR\n",
"2 1 35078 1009 33652 XOR\n2 1 35095 992 33669 XOR\n2 1 35249 35262 6614 XOR\n2 1 6682 6614 35179 XOR\n2 1 35179 908 33753 XOR\n2 1 6614 6605 6585 XOR\n2 1 6653 6588 6564 XOR\n2 1 6664 6649 35075 XOR\n2 1 35075 1012 33649 XOR\n2 1 17374 17375 32678 XOR\n2 1 32678 17349 35209 XOR\n2 1 35205 35209 6646 XOR\n2 1 6596 35209 6381 XOR\n2 1 6381 6382 6666 XOR\n2 1 35209 6058 6464 XOR\n2 1 6647 6646 6511 XOR\n2 1 32894 6511 35093 XOR\n2 1 6666 6650 35084 XOR\n2 1 35084 1003 33658 XOR\n2 1 33658 33660 19697 XOR\n2 1 35093 994 33667 XOR\n2 1 33667 33669 23170 XOR\n2 1 6541 6646 6539 XOR\n2 1 6539 6540 35076 XOR\n2 1 35076 1011 33650 XOR\n2 1 33650 33652 16639 XOR\n2 1 17371 32678 17351 XOR\n2 1 17367 17351 17317 XOR\n1 1 17317 17314 INV\n2 1 17314 17315 35207 XOR\n2 1 17372 17351 17311 XOR\n2 1 17340 17311 35211 XOR\n2 1 6688 35211 6519 XOR\n2 1 6519 6520 35087 XOR\n2 1 35192 35207 6637 XOR\n2 1 6637 6636 6531 XOR\n2 1 35196 6531 35082 XOR\n2 1 35082 1005 33656 XOR\n2 1 33656 33658 19790 XOR\n2 1 33657 33656 19671 XOR\n1 1 6637 6499 INV\n2 1 6649 6499 6496 XOR\n2 1 6499 32777 6568 XOR\n2 1 6568 6569 35074 XOR\n2 1 35074 1013 33648 XOR\n2 1 33648 33650 16732 XOR\n2 1 33649 33648 16613 XOR\n2 1 35206 35211 6594 XOR\n2 1 6645 6594 6536 XOR\n2 1 35195 6536 35079 XOR\n2 1 35079 1008 33653 XOR\n2 1 33650 33653 16730 XOR\n2 1 33653 33648 16729 XOR\n1 1 6594 6685 INV\n2 1 6685 32903 6426 XOR\n2 1 6426 6427 35071 XOR\n2 1 6685 35205 6513 XOR\n2 1 6512 6513 35092 XOR\n2 1 35092 995 33666 XOR\n2 1 35071 1016 33645 XOR\n2 1 6685 35207 6389 XOR\n2 1 6389 6390 6662 XOR\n2 1 33666 33669 23263 XOR\n2 1 6662 6659 35091 XOR\n2 1 35091 996 33665 XOR\n2 1 35195 35211 6602 XOR\n1 1 6602 6498 INV\n2 1 6498 35197 6497 XOR\n2 1 6496 6497 35067 XOR\n2 1 35067 1020 33641 XOR\n2 1 6602 35193 6344 XOR\n2 1 6344 6345 6681 XOR\n2 1 6635 6602 6587 XOR\n2 1 6681 6646 35068 XOR\n2 1 35068 1019 33642 XOR\n2 1 33642 33645 14645 XOR\n2 1 6635 6594 6518 XOR\n2 1 32897 6518 35088 XOR\n2 1 35088 999 33662 XOR\n2 1 35087 1000 33661 XOR\n2 1 33658 33661 19788 XOR\n2 1 33661 33656 19787 XOR\n2 1 20154 20155 32698 XOR\n2 1 32698 20129 35250 XOR\n1 1 35250 6394 INV\n2 1 35254 6394 6393 XOR\n2 1 35263 6394 6583 XOR\n2 1 6582 6583 35165 XOR\n2 1 35165 922 33739 XOR\n2 1 33739 33741 21780 XOR\n2 1 35250 35255 6654 XOR\n2 1 6660 6654 35188 XOR\n2 1 35188 899 33762 XOR\n2 1 33762 33764 20670 XOR\n2 1 6654 6608 6559 XOR\n2 1 6559 6560 35180 XOR\n2 1 35180 907 33754 XOR\n2 1 33754 33756 19419 XOR\n2 1 20151 32698 20131 XOR\n2 1 20147 20131 20097 XOR\n1 1 20097 20094 INV\n2 1 20094 20095 35248 XOR\n2 1 20152 20131 20091 XOR\n2 1 20120 20091 35252 XOR\n2 1 35252 35264 6600 XOR\n2 1 6638 6600 6399 XOR\n2 1 32948 6399 35160 XOR\n2 1 35160 927 33734 XOR\n2 1 6600 35248 6356 XOR\n2 1 6356 6357 6676 XOR\n2 1 35248 35253 6628 XOR\n2 1 6628 35261 6561 XOR\n2 1 6628 6618 6549 XOR\n2 1 35257 6549 35186 XOR\n2 1 6561 6562 35178 XOR\n2 1 35178 909 33752 XOR\n2 1 35186 901 33760 XOR\n2 1 6628 6614 6573 XOR\n2 1 33752 33754 19512 XOR\n2 1 33753 33752 19393 XOR\n1 1 6573 6571 INV\n2 1 33760 33762 20763 XOR\n2 1 33761 33760 20644 XOR\n2 1 6600 35255 6586 XOR\n2 1 35252 6564 35175 XOR\n2 1 35175 912 33749 XOR\n2 1 6585 6586 35164 XOR\n2 1 35164 923 33738 XOR\n",
"2 1 33738 33741 21873 XOR\n2 1 6676 6608 35163 XOR\n2 1 35163 924 33737 XOR\n2 1 35252 35256 6589 XOR\n2 1 6638 6589 6578 XOR\n2 1 6589 35264 6554 XOR\n2 1 6611 6589 6542 XOR\n2 1 35260 6542 35191 XOR\n2 1 35191 896 33765 XOR\n2 1 33762 33765 20761 XOR\n2 1 33765 33760 20760 XOR\n2 1 6554 6555 35183 XOR\n2 1 35183 904 33757 XOR\n2 1 33754 33757 19510 XOR\n2 1 33757 33752 19509 XOR\n1 1 6589 6687 INV\n2 1 6687 35258 6572 XOR\n2 1 6687 35249 6392 XOR\n2 1 6392 6393 6661 XOR\n2 1 6571 6572 35171 XOR\n2 1 35171 916 33745 XOR\n2 1 6661 6605 35172 XOR\n2 1 35172 915 33746 XOR\n2 1 33746 33749 17981 XOR\n1 1 17431 32929 INV\n2 1 6594 32929 6387 XOR\n2 1 6387 6388 6663 XOR\n2 1 32897 32929 6658 XOR\n2 1 6658 6596 6535 XOR\n2 1 32778 6535 35080 XOR\n2 1 35080 1007 33654 XOR\n2 1 6658 6636 6526 XOR\n2 1 6658 6595 6410 XOR\n2 1 32896 6410 35072 XOR\n2 1 35072 1015 33646 XOR\n2 1 33646 33652 16643 XOR\n2 1 33654 33660 19701 XOR\n2 1 32929 6587 35064 XOR\n2 1 35064 1023 33638 XOR\n2 1 6663 6636 35089 XOR\n2 1 35089 998 33663 XOR\n2 1 33663 33665 23169 XOR\n2 1 23169 23263 23255 XOR\n2 1 33662 23255 23254 XOR\n2 1 33669 33663 23264 XOR\n1 1 17428 32935 INV\n2 1 32894 32935 6642 XOR\n2 1 6645 6642 6509 XOR\n2 1 32895 6509 35094 XOR\n2 1 6642 35194 6465 XOR\n1 1 6465 6463 INV\n2 1 6463 6464 35069 XOR\n2 1 32935 6059 6447 XOR\n2 1 6446 6447 6445 XOR\n1 1 6445 35070 INV\n2 1 35070 1017 33644 XOR\n2 1 35094 993 33668 XOR\n2 1 35069 1018 33643 XOR\n2 1 33638 33644 14558 XOR\n2 1 33643 14558 14643 XOR\n2 1 33643 33645 14552 XOR\n2 1 14552 14558 14640 XOR\n2 1 33642 33644 14554 XOR\n2 1 14554 33643 14513 XOR\n2 1 14554 14552 14514 XOR\n2 1 33638 14513 14642 XOR\n2 1 14642 33638 14628 AND\n2 1 6647 32935 6523 XOR\n2 1 6523 6524 35085 XOR\n2 1 35085 1002 33659 XOR\n2 1 33659 33661 19695 XOR\n2 1 19695 19790 19775 XOR\n2 1 19695 19701 19783 XOR\n2 1 33659 19701 19786 XOR\n2 1 19697 19695 19657 XOR\n2 1 19697 33659 19656 XOR\n2 1 33654 19656 19785 XOR\n2 1 19785 33654 19771 AND\n2 1 19790 19775 19766 AND\n2 1 6650 6642 6538 XOR\n2 1 33666 33668 23172 XOR\n2 1 33662 33668 23176 XOR\n2 1 23170 23176 23258 XOR\n2 1 33667 23176 23261 XOR\n2 1 33663 23261 23257 XOR\n2 1 23172 23170 23132 XOR\n2 1 23169 23132 23253 XOR\n2 1 23172 33667 23131 XOR\n2 1 33662 23131 23260 XOR\n2 1 23260 33662 23246 AND\n2 1 23261 23257 23244 AND\n2 1 32902 6538 35077 XOR\n2 1 35077 1010 33651 XOR\n2 1 33651 33653 16637 XOR\n2 1 16637 16732 16717 XOR\n2 1 16637 16643 16725 XOR\n2 1 33651 16643 16728 XOR\n2 1 16639 16637 16599 XOR\n2 1 16639 33651 16598 XOR\n2 1 33646 16598 16727 XOR\n2 1 16727 33646 16713 AND\n2 1 16732 16717 16708 AND\n1 1 17430 32936 INV\n2 1 32936 14789 6516 XOR\n2 1 6515 6516 35090 XOR\n2 1 35090 997 33664 XOR\n2 1 6498 32936 6527 XOR\n2 1 6526 6527 6525 XOR\n1 1 6525 35065 INV\n2 1 35065 1022 33639 XOR\n2 1 33639 14643 14639 XOR\n2 1 14643 14639 14626 AND\n2 1 33639 33641 14551 XOR\n2 1 33645 33639 14646 XOR\n2 1 14551 14645 14637 XOR\n2 1 14551 14514 14635 XOR\n2 1 32904 32936 6657 XOR\n2 1 6657 6635 6533 XOR\n2 1 6533 6534 6532 XOR\n1 1 6532 35081 INV\n2 1 6657 6634 6510 XOR\n2 1 35207 6510 35066 XOR\n2 1 35081 1006 33655 XOR\n2 1 35066 1021 33640 XOR\n2 1 33645 33640 14644 XOR\n2 1 14644 14635 14622 AND\n2 1 33639 33640 14568 XOR\n2 1 14645 14568 14641 XOR\n",
"2 1 33640 33642 14647 XOR\n2 1 14568 14640 14638 XOR\n2 1 33640 14551 14553 XOR\n2 1 33643 14553 14631 XOR\n2 1 14558 14553 14633 XOR\n2 1 14646 14631 14627 AND\n2 1 14640 14633 14625 AND\n2 1 14627 14552 14556 XOR\n2 1 14622 14628 14580 XOR\n2 1 14580 14552 14567 XOR\n2 1 14622 14625 14576 XOR\n2 1 14556 14576 14530 XOR\n2 1 33641 33640 14528 XOR\n2 1 14637 14641 14630 AND\n2 1 14630 14554 14557 XOR\n2 1 33655 33657 19694 XOR\n2 1 33656 19694 19696 XOR\n2 1 33660 19696 19777 XOR\n2 1 33659 19696 19774 XOR\n2 1 19701 19696 19776 XOR\n2 1 33655 19786 19782 XOR\n2 1 19694 19788 19780 XOR\n2 1 33654 19780 19779 XOR\n2 1 33655 33656 19711 XOR\n2 1 19711 19783 19781 XOR\n2 1 19788 19711 19784 XOR\n2 1 19694 19657 19778 XOR\n2 1 33661 33655 19789 XOR\n2 1 19780 19784 19773 AND\n2 1 19773 19697 19700 XOR\n2 1 19781 19779 19772 AND\n2 1 19766 19772 19718 XOR\n2 1 19789 19774 19770 AND\n2 1 19770 19695 19699 XOR\n2 1 19786 19782 19769 AND\n2 1 19783 19776 19768 AND\n2 1 19788 19777 19767 AND\n2 1 19767 19696 19698 XOR\n2 1 19700 19698 19704 XOR\n2 1 33661 19704 19709 XOR\n2 1 19718 19709 19764 XOR\n2 1 19766 19767 19670 XOR\n2 1 19670 19671 19717 XOR\n2 1 19717 19699 19716 XOR\n2 1 19769 19716 19763 XOR\n2 1 19787 19778 19765 AND\n2 1 19765 19768 19719 XOR\n2 1 19765 19771 19723 XOR\n2 1 19723 19695 19710 XOR\n2 1 19718 19710 19761 XOR\n2 1 19766 19719 19713 XOR\n2 1 19699 19719 19673 XOR\n2 1 19673 19698 19762 XOR\n2 1 19704 19723 19672 XOR\n2 1 33659 19672 19715 XOR\n2 1 19769 19713 19669 XOR\n2 1 33655 19669 19756 XOR\n2 1 19764 19763 19760 AND\n2 1 19760 19715 19755 XOR\n2 1 19760 19762 19759 XOR\n2 1 19761 19759 19758 AND\n2 1 19758 19715 19757 XOR\n2 1 19758 19770 19664 XOR\n2 1 19664 19700 19660 XOR\n2 1 33661 19660 19663 XOR\n2 1 19758 19709 19661 XOR\n2 1 33659 19660 19659 XOR\n2 1 19755 19756 19754 AND\n2 1 19754 19762 19753 XOR\n2 1 19760 19754 19752 XOR\n2 1 19754 19713 19668 XOR\n2 1 19754 19771 19667 XOR\n2 1 19667 19768 19662 XOR\n2 1 19662 19663 19745 XOR\n2 1 19762 19752 19751 AND\n2 1 19751 19759 19749 XOR\n2 1 19751 19769 19722 XOR\n2 1 19722 19716 19743 XOR\n2 1 33655 19722 19705 XOR\n2 1 19705 19668 19750 XOR\n2 1 19757 19749 19748 AND\n2 1 19748 19718 19708 XOR\n2 1 19708 19710 19747 XOR\n2 1 19748 19772 19666 XOR\n2 1 19705 19666 19658 XOR\n2 1 19695 19658 19665 XOR\n2 1 19662 19665 19746 XOR\n2 1 19708 19661 19744 XOR\n2 1 19658 19659 19742 XOR\n2 1 19743 19780 19741 AND\n2 1 19750 19779 19740 AND\n2 1 19753 33654 19739 AND\n2 1 19739 19741 19721 XOR\n2 1 19744 19774 19738 AND\n2 1 19747 19786 19737 AND\n2 1 19757 19776 19736 AND\n2 1 19736 19737 19675 XOR\n2 1 19745 19777 19735 AND\n2 1 19742 19775 19734 AND\n2 1 19734 19737 19690 XOR\n1 1 19690 19687 INV\n2 1 19734 19735 19686 XOR\n2 1 19746 19778 19733 AND\n2 1 19743 19784 19732 AND\n2 1 19750 19781 19731 AND\n2 1 19753 19785 19730 AND\n2 1 19744 19789 19729 AND\n2 1 19729 19733 19706 XOR\n2 1 19738 19729 19691 XOR\n1 1 19706 19684 INV\n2 1 19747 19782 19728 AND\n2 1 19736 19728 19693 XOR\n2 1 19757 19783 19727 AND\n2 1 19684 19727 19683 XOR\n2 1 19683 19721 19679 XOR\n2 1 19745 19788 19726 AND\n2 1 19726 19679 19682 XOR\n2 1 19742 19790 19725 AND\n2 1 19725 19726 19720 XOR\n2 1 19731 19720 19702 XOR\n2 1 19732 19702 19703 XOR\n2 1 19740 19703 19707 XOR\n2 1 19741 19707 19712 XOR\n2 1 19693 19720 19689 XOR\n2 1 19721 19689 19692 XOR\n2 1 19691 19692 19794 XOR\n2 1 19684 19689 19688 XOR\n2 1 19687 19688 19793 XOR\n",
"2 1 19712 19686 19792 XOR\n2 1 19702 19679 19678 XOR\n2 1 19739 19707 19676 XOR\n2 1 19675 19676 35423 XOR\n2 1 35423 35427 7107 XOR\n2 1 19746 19787 19724 AND\n2 1 19735 19724 19685 XOR\n1 1 19685 19681 INV\n2 1 19681 19682 19791 XOR\n2 1 33644 14553 14634 XOR\n2 1 14645 14634 14624 AND\n2 1 14624 14553 14555 XOR\n2 1 14557 14555 14561 XOR\n2 1 33645 14561 14566 XOR\n2 1 14530 14555 14619 XOR\n2 1 14561 14580 14529 XOR\n2 1 33643 14529 14572 XOR\n2 1 33638 14637 14636 XOR\n2 1 14638 14636 14629 AND\n2 1 14552 14647 14632 XOR\n2 1 14647 14632 14623 AND\n2 1 14623 14629 14575 XOR\n2 1 14575 14567 14618 XOR\n2 1 14575 14566 14621 XOR\n2 1 14623 14576 14570 XOR\n2 1 14626 14570 14526 XOR\n2 1 14623 14624 14527 XOR\n2 1 14527 14528 14574 XOR\n2 1 14574 14556 14573 XOR\n2 1 14626 14573 14620 XOR\n2 1 14621 14620 14617 AND\n2 1 14617 14619 14616 XOR\n2 1 14618 14616 14615 AND\n2 1 14615 14572 14614 XOR\n2 1 14614 14640 14584 AND\n2 1 14614 14633 14593 AND\n2 1 14615 14627 14521 XOR\n2 1 33639 14526 14613 XOR\n2 1 14521 14557 14517 XOR\n2 1 33643 14517 14516 XOR\n2 1 33645 14517 14520 XOR\n2 1 14615 14566 14518 XOR\n2 1 14617 14572 14612 XOR\n2 1 14612 14613 14611 AND\n2 1 14611 14619 14610 XOR\n2 1 14610 33638 14596 AND\n2 1 14617 14611 14609 XOR\n2 1 14619 14609 14608 AND\n2 1 14608 14616 14606 XOR\n2 1 14614 14606 14605 AND\n2 1 14605 14575 14565 XOR\n2 1 14565 14567 14604 XOR\n2 1 14604 14639 14585 AND\n2 1 14593 14585 14550 XOR\n2 1 14604 14643 14594 AND\n2 1 14593 14594 14532 XOR\n2 1 14610 14642 14587 AND\n2 1 14608 14626 14579 XOR\n2 1 33639 14579 14562 XOR\n2 1 14611 14570 14525 XOR\n2 1 14562 14525 14607 XOR\n2 1 14607 14636 14597 AND\n2 1 14607 14638 14588 AND\n2 1 14611 14628 14524 XOR\n2 1 14524 14625 14519 XOR\n2 1 14605 14629 14523 XOR\n2 1 14562 14523 14515 XOR\n2 1 14515 14516 14599 XOR\n2 1 14599 14647 14582 AND\n2 1 14552 14515 14522 XOR\n2 1 14519 14522 14603 XOR\n2 1 14603 14644 14581 AND\n2 1 14599 14632 14591 AND\n2 1 14603 14635 14590 AND\n2 1 14591 14594 14547 XOR\n1 1 14547 14544 INV\n2 1 14519 14520 14602 XOR\n2 1 14602 14645 14583 AND\n2 1 14602 14634 14592 AND\n2 1 14582 14583 14577 XOR\n2 1 14591 14592 14543 XOR\n2 1 14592 14581 14542 XOR\n2 1 14550 14577 14546 XOR\n1 1 14542 14538 INV\n2 1 14588 14577 14559 XOR\n2 1 14565 14518 14601 XOR\n2 1 14601 14631 14595 AND\n2 1 14601 14646 14586 AND\n2 1 14586 14590 14563 XOR\n2 1 14595 14586 14548 XOR\n1 1 14563 14541 INV\n2 1 14541 14546 14545 XOR\n2 1 14544 14545 14650 XOR\n2 1 14541 14584 14540 XOR\n2 1 14579 14573 14600 XOR\n2 1 14600 14637 14598 AND\n2 1 14600 14641 14589 AND\n2 1 14589 14559 14560 XOR\n2 1 14597 14560 14564 XOR\n2 1 14596 14564 14533 XOR\n2 1 14598 14564 14569 XOR\n2 1 14569 14543 14649 XOR\n1 1 14649 35452 INV\n2 1 14532 14533 35450 XOR\n2 1 14596 14598 14578 XOR\n2 1 14540 14578 14536 XOR\n2 1 14583 14536 14539 XOR\n2 1 14538 14539 14648 XOR\n2 1 14559 14536 14535 XOR\n2 1 14578 14546 14549 XOR\n2 1 14548 14549 14651 XOR\n2 1 33664 23169 23171 XOR\n2 1 33668 23171 23252 XOR\n2 1 33667 23171 23249 XOR\n2 1 23176 23171 23251 XOR\n2 1 33663 33664 23186 XOR\n2 1 23186 23258 23256 XOR\n2 1 23263 23186 23259 XOR\n2 1 33664 33666 23265 XOR\n2 1 23170 23265 23250 XOR\n2 1 33665 33664 23146 XOR\n2 1 33669 33664 23262 XOR\n2 1 23255 23259 23248 AND\n2 1 23248 23172 23175 XOR\n2 1 23256 23254 23247 AND\n2 1 23264 23249 23245 AND\n2 1 23245 23170 23174 XOR\n2 1 23258 23251 23243 AND\n",
"2 1 23263 23252 23242 AND\n2 1 23242 23171 23173 XOR\n2 1 23175 23173 23179 XOR\n2 1 33669 23179 23184 XOR\n2 1 23265 23250 23241 AND\n2 1 23241 23247 23193 XOR\n2 1 23193 23184 23239 XOR\n2 1 23241 23242 23145 XOR\n2 1 23145 23146 23192 XOR\n2 1 23192 23174 23191 XOR\n2 1 23244 23191 23238 XOR\n2 1 23262 23253 23240 AND\n2 1 23240 23243 23194 XOR\n2 1 23240 23246 23198 XOR\n2 1 23198 23170 23185 XOR\n2 1 23193 23185 23236 XOR\n2 1 23241 23194 23188 XOR\n2 1 23174 23194 23148 XOR\n2 1 23148 23173 23237 XOR\n2 1 23179 23198 23147 XOR\n2 1 33667 23147 23190 XOR\n2 1 23244 23188 23144 XOR\n2 1 33663 23144 23231 XOR\n2 1 23239 23238 23235 AND\n2 1 23235 23190 23230 XOR\n2 1 23235 23237 23234 XOR\n2 1 23236 23234 23233 AND\n2 1 23233 23190 23232 XOR\n2 1 23233 23245 23139 XOR\n2 1 23139 23175 23135 XOR\n2 1 33669 23135 23138 XOR\n2 1 23233 23184 23136 XOR\n2 1 33667 23135 23134 XOR\n2 1 23230 23231 23229 AND\n2 1 23229 23237 23228 XOR\n2 1 23235 23229 23227 XOR\n2 1 23229 23188 23143 XOR\n2 1 23229 23246 23142 XOR\n2 1 23142 23243 23137 XOR\n2 1 23137 23138 23220 XOR\n2 1 23237 23227 23226 AND\n2 1 23226 23234 23224 XOR\n2 1 23226 23244 23197 XOR\n2 1 23197 23191 23218 XOR\n2 1 33663 23197 23180 XOR\n2 1 23180 23143 23225 XOR\n2 1 23232 23224 23223 AND\n2 1 23223 23193 23183 XOR\n2 1 23183 23185 23222 XOR\n2 1 23223 23247 23141 XOR\n2 1 23180 23141 23133 XOR\n2 1 23170 23133 23140 XOR\n2 1 23137 23140 23221 XOR\n2 1 23183 23136 23219 XOR\n2 1 23133 23134 23217 XOR\n2 1 23218 23255 23216 AND\n2 1 23225 23254 23215 AND\n2 1 23228 33662 23214 AND\n2 1 23214 23216 23196 XOR\n2 1 23219 23249 23213 AND\n2 1 23222 23261 23212 AND\n2 1 23232 23251 23211 AND\n2 1 23211 23212 23150 XOR\n2 1 23220 23252 23210 AND\n2 1 23217 23250 23209 AND\n2 1 23209 23212 23165 XOR\n1 1 23165 23162 INV\n2 1 23209 23210 23161 XOR\n2 1 23221 23253 23208 AND\n2 1 23218 23259 23207 AND\n2 1 23225 23256 23206 AND\n2 1 23228 23260 23205 AND\n2 1 23219 23264 23204 AND\n2 1 23204 23208 23181 XOR\n2 1 23213 23204 23166 XOR\n1 1 23181 23159 INV\n2 1 23222 23257 23203 AND\n2 1 23211 23203 23168 XOR\n2 1 23232 23258 23202 AND\n2 1 23159 23202 23158 XOR\n2 1 23158 23196 23154 XOR\n2 1 23220 23263 23201 AND\n2 1 23201 23154 23157 XOR\n2 1 23217 23265 23200 AND\n2 1 23200 23201 23195 XOR\n2 1 23206 23195 23177 XOR\n2 1 23207 23177 23178 XOR\n2 1 23215 23178 23182 XOR\n2 1 23216 23182 23187 XOR\n2 1 23168 23195 23164 XOR\n2 1 23196 23164 23167 XOR\n2 1 23166 23167 23269 XOR\n2 1 23159 23164 23163 XOR\n2 1 23162 23163 23268 XOR\n2 1 23187 23161 23267 XOR\n2 1 23267 35402 6916 XOR\n2 1 7135 23267 7011 XOR\n2 1 23177 23154 23153 XOR\n2 1 23214 23182 23151 XOR\n2 1 23150 23151 35409 XOR\n2 1 35409 35399 6834 XOR\n2 1 23221 23262 23199 AND\n2 1 23210 23199 23160 XOR\n1 1 23160 23156 INV\n2 1 23156 23157 23266 XOR\n1 1 23267 35411 INV\n2 1 6665 6657 35073 XOR\n2 1 35073 1014 33647 XOR\n2 1 33647 33649 16636 XOR\n2 1 33648 16636 16638 XOR\n2 1 33652 16638 16719 XOR\n2 1 33651 16638 16716 XOR\n2 1 16643 16638 16718 XOR\n2 1 33647 16728 16724 XOR\n2 1 16636 16730 16722 XOR\n2 1 33646 16722 16721 XOR\n2 1 33647 33648 16653 XOR\n2 1 16653 16725 16723 XOR\n2 1 16730 16653 16726 XOR\n2 1 16636 16599 16720 XOR\n2 1 33653 33647 16731 XOR\n2 1 16722 16726 16715 AND\n2 1 16715 16639 16642 XOR\n2 1 16723 16721 16714 AND\n2 1 16708 16714 16660 XOR\n2 1 16731 16716 16712 AND\n2 1 16712 16637 16641 XOR\n2 1 16728 16724 16711 AND\n",
"2 1 16725 16718 16710 AND\n2 1 16730 16719 16709 AND\n2 1 16709 16638 16640 XOR\n2 1 16642 16640 16646 XOR\n2 1 33653 16646 16651 XOR\n2 1 16660 16651 16706 XOR\n2 1 16708 16709 16612 XOR\n2 1 16612 16613 16659 XOR\n2 1 16659 16641 16658 XOR\n2 1 16711 16658 16705 XOR\n2 1 16729 16720 16707 AND\n2 1 16707 16710 16661 XOR\n2 1 16707 16713 16665 XOR\n2 1 16665 16637 16652 XOR\n2 1 16660 16652 16703 XOR\n2 1 16708 16661 16655 XOR\n2 1 16641 16661 16615 XOR\n2 1 16615 16640 16704 XOR\n2 1 16646 16665 16614 XOR\n2 1 33651 16614 16657 XOR\n2 1 16711 16655 16611 XOR\n2 1 33647 16611 16698 XOR\n2 1 16706 16705 16702 AND\n2 1 16702 16657 16697 XOR\n2 1 16702 16704 16701 XOR\n2 1 16703 16701 16700 AND\n2 1 16700 16657 16699 XOR\n2 1 16700 16712 16606 XOR\n2 1 16606 16642 16602 XOR\n2 1 33653 16602 16605 XOR\n2 1 16700 16651 16603 XOR\n2 1 33651 16602 16601 XOR\n2 1 16697 16698 16696 AND\n2 1 16696 16704 16695 XOR\n2 1 16702 16696 16694 XOR\n2 1 16696 16655 16610 XOR\n2 1 16696 16713 16609 XOR\n2 1 16609 16710 16604 XOR\n2 1 16604 16605 16687 XOR\n2 1 16704 16694 16693 AND\n2 1 16693 16701 16691 XOR\n2 1 16693 16711 16664 XOR\n2 1 16664 16658 16685 XOR\n2 1 33647 16664 16647 XOR\n2 1 16647 16610 16692 XOR\n2 1 16699 16691 16690 AND\n2 1 16690 16660 16650 XOR\n2 1 16650 16652 16689 XOR\n2 1 16690 16714 16608 XOR\n2 1 16647 16608 16600 XOR\n2 1 16637 16600 16607 XOR\n2 1 16604 16607 16688 XOR\n2 1 16650 16603 16686 XOR\n2 1 16600 16601 16684 XOR\n2 1 16685 16722 16683 AND\n2 1 16692 16721 16682 AND\n2 1 16695 33646 16681 AND\n2 1 16681 16683 16663 XOR\n2 1 16686 16716 16680 AND\n2 1 16689 16728 16679 AND\n2 1 16699 16718 16678 AND\n2 1 16678 16679 16617 XOR\n2 1 16687 16719 16677 AND\n2 1 16684 16717 16676 AND\n2 1 16676 16679 16632 XOR\n1 1 16632 16629 INV\n2 1 16676 16677 16628 XOR\n2 1 16688 16720 16675 AND\n2 1 16685 16726 16674 AND\n2 1 16692 16723 16673 AND\n2 1 16695 16727 16672 AND\n2 1 16686 16731 16671 AND\n2 1 16671 16675 16648 XOR\n2 1 16680 16671 16633 XOR\n1 1 16648 16626 INV\n2 1 16689 16724 16670 AND\n2 1 16678 16670 16635 XOR\n2 1 16699 16725 16669 AND\n2 1 16626 16669 16625 XOR\n2 1 16625 16663 16621 XOR\n2 1 16687 16730 16668 AND\n2 1 16668 16621 16624 XOR\n2 1 16684 16732 16667 AND\n2 1 16667 16668 16662 XOR\n2 1 16673 16662 16644 XOR\n2 1 16674 16644 16645 XOR\n2 1 16682 16645 16649 XOR\n2 1 16683 16649 16654 XOR\n2 1 16635 16662 16631 XOR\n2 1 16663 16631 16634 XOR\n2 1 16633 16634 16736 XOR\n2 1 16626 16631 16630 XOR\n2 1 16629 16630 16735 XOR\n2 1 32882 16735 6912 XOR\n2 1 16654 16628 16734 XOR\n2 1 16644 16621 16620 XOR\n2 1 16681 16649 16618 XOR\n2 1 16617 16618 35436 XOR\n2 1 16688 16729 16666 AND\n2 1 16677 16666 16627 XOR\n1 1 16627 16623 INV\n2 1 16623 16624 16733 XOR\n2 1 32888 16733 6907 XOR\n1 1 16735 35434 INV\n1 1 16734 35439 INV\n1 1 16733 35438 INV\n2 1 32881 16734 6905 XOR\n1 1 35436 6859 INV\n2 1 35442 6859 6869 XOR\n2 1 14594 14595 32658 XOR\n2 1 32658 14569 35451 XOR\n1 1 35451 6883 INV\n2 1 14591 32658 14571 XOR\n2 1 14587 14571 14537 XOR\n1 1 14537 14534 INV\n2 1 14592 14571 14531 XOR\n2 1 14560 14531 35453 XOR\n2 1 14534 14535 35449 XOR\n2 1 16679 16680 32673 XOR\n2 1 32673 16654 35437 XOR\n2 1 35443 35437 6910 XOR\n2 1 16676 32673 16656 XOR\n2 1 16672 16656 16622 XOR\n1 1 16622 16619 INV\n2 1 16619 16620 35435 XOR\n2 1 16677 16656 16616 XOR\n2 1 16645 16616 35440 XOR\n2 1 35440 35444 7087 XOR\n",
"1 1 35435 6866 INV\n1 1 7087 6867 INV\n2 1 6867 35447 6868 XOR\n2 1 6868 6869 7157 XOR\n2 1 6867 35446 6864 XOR\n2 1 35441 6866 6865 XOR\n2 1 6864 6865 7158 XOR\n2 1 7087 32859 6862 XOR\n2 1 19737 19738 32695 XOR\n2 1 19734 32695 19714 XOR\n2 1 19730 19714 19680 XOR\n1 1 19680 19677 INV\n2 1 19735 19714 19674 XOR\n2 1 19703 19674 35425 XOR\n2 1 35425 35429 7081 XOR\n2 1 7081 35423 6956 XOR\n2 1 7100 7081 6990 XOR\n2 1 19677 19678 35422 XOR\n2 1 35422 35426 7112 XOR\n2 1 7112 32787 6995 XOR\n2 1 32695 19712 35424 XOR\n2 1 35424 35428 7102 XOR\n1 1 35424 6950 INV\n2 1 7081 6950 6949 XOR\n2 1 23212 23213 32720 XOR\n2 1 23209 32720 23189 XOR\n2 1 23210 23189 23149 XOR\n2 1 23205 23189 23155 XOR\n1 1 23155 23152 INV\n2 1 23152 23153 35408 XOR\n2 1 35393 35408 7127 XOR\n1 1 7127 6989 INV\n2 1 6989 32928 7058 XOR\n2 1 23178 23149 35412 XOR\n2 1 35396 35412 7092 XOR\n1 1 7092 6988 INV\n2 1 6988 35398 6987 XOR\n2 1 7092 35394 6833 XOR\n2 1 6833 6834 7171 XOR\n2 1 32720 23187 35410 XOR\n2 1 35410 16594 6953 XOR\n1 1 14648 32889 INV\n2 1 14649 32889 7057 XOR\n1 1 14650 32890 INV\n1 1 14651 32891 INV\n1 1 16736 32927 INV\n2 1 32883 32927 6863 XOR\n2 1 6862 6863 7159 XOR\n1 1 19792 32965 INV\n2 1 35425 32965 6945 XOR\n1 1 19793 32966 INV\n2 1 32966 32787 7115 XOR\n2 1 7081 32966 6959 XOR\n1 1 19794 32967 INV\n2 1 32967 32788 7119 XOR\n2 1 7119 7091 6997 XOR\n1 1 19791 32972 INV\n2 1 32972 32789 7097 XOR\n2 1 7097 35428 6993 XOR\n2 1 7100 32972 6962 XOR\n1 1 20208 32977 INV\n2 1 20209 32977 6567 XOR\n2 1 32977 6545 35189 XOR\n2 1 6566 6567 6565 XOR\n2 1 35189 898 33763 XOR\n2 1 33763 33765 20668 XOR\n2 1 20668 20763 20748 XOR\n2 1 20670 20668 20630 XOR\n2 1 20670 33763 20629 XOR\n2 1 20763 20748 20739 AND\n2 1 32977 32783 6623 XOR\n2 1 6623 6611 6581 XOR\n2 1 6623 35259 6557 XOR\n2 1 6557 6558 35181 XOR\n2 1 35181 906 33755 XOR\n2 1 33755 33757 19417 XOR\n2 1 19417 19512 19497 XOR\n2 1 19419 19417 19379 XOR\n2 1 19419 33755 19378 XOR\n2 1 19512 19497 19488 AND\n2 1 6654 6623 6570 XOR\n2 1 33053 6570 35173 XOR\n2 1 35173 914 33747 XOR\n2 1 33747 33749 17888 XOR\n2 1 32946 6581 35166 XOR\n2 1 35166 921 33740 XOR\n2 1 33738 33740 21782 XOR\n2 1 33734 33740 21786 XOR\n2 1 21780 21786 21868 XOR\n2 1 33739 21786 21871 XOR\n2 1 21782 21780 21742 XOR\n2 1 21782 33739 21741 XOR\n2 1 33734 21741 21870 XOR\n2 1 21870 33734 21856 AND\n1 1 6565 35174 INV\n2 1 35174 913 33748 XOR\n2 1 33746 33748 17890 XOR\n2 1 17890 17888 17850 XOR\n2 1 17890 33747 17849 XOR\n1 1 20210 32978 INV\n2 1 32978 32947 6643 XOR\n2 1 6643 6606 6574 XOR\n2 1 6687 32978 6577 XOR\n2 1 35248 6574 35170 XOR\n2 1 35170 917 33744 XOR\n2 1 6606 32978 6397 XOR\n2 1 6397 6398 35162 XOR\n2 1 35162 925 33736 XOR\n2 1 33744 33746 17983 XOR\n2 1 17888 17983 17968 XOR\n2 1 33745 33744 17864 XOR\n2 1 33749 33744 17980 XOR\n2 1 17983 17968 17959 AND\n2 1 33736 33738 21875 XOR\n2 1 21780 21875 21860 XOR\n2 1 33737 33736 21756 XOR\n2 1 33741 33736 21872 XOR\n2 1 21875 21860 21851 AND\n2 1 6683 6643 35177 XOR\n2 1 35177 910 33751 XOR\n2 1 33751 33753 19416 XOR\n2 1 33752 19416 19418 XOR\n2 1 33756 19418 19499 XOR\n2 1 33755 19418 19496 XOR\n2 1 19416 19510 19502 XOR\n2 1 33751 33752 19433 XOR\n2 1 19510 19433 19506 XOR\n2 1 19416 19379 19500 XOR\n",
"2 1 33757 33751 19511 XOR\n2 1 19502 19506 19495 AND\n2 1 19495 19419 19422 XOR\n2 1 19511 19496 19492 AND\n2 1 19492 19417 19421 XOR\n2 1 19510 19499 19489 AND\n2 1 19489 19418 19420 XOR\n2 1 19422 19420 19426 XOR\n2 1 33757 19426 19431 XOR\n2 1 19488 19489 19392 XOR\n2 1 19392 19393 19439 XOR\n2 1 19439 19421 19438 XOR\n2 1 19509 19500 19487 AND\n1 1 6643 6552 INV\n2 1 6552 6638 6550 XOR\n2 1 6550 6551 35185 XOR\n2 1 35185 902 33759 XOR\n2 1 33759 33761 20667 XOR\n2 1 33760 20667 20669 XOR\n2 1 33764 20669 20750 XOR\n2 1 33763 20669 20747 XOR\n2 1 20667 20761 20753 XOR\n2 1 33759 33760 20684 XOR\n2 1 20761 20684 20757 XOR\n2 1 20667 20630 20751 XOR\n2 1 33765 33759 20762 XOR\n2 1 20753 20757 20746 AND\n2 1 20746 20670 20673 XOR\n2 1 20762 20747 20743 AND\n2 1 20743 20668 20672 XOR\n2 1 20761 20750 20740 AND\n2 1 20740 20669 20671 XOR\n2 1 20673 20671 20677 XOR\n2 1 33765 20677 20682 XOR\n2 1 20739 20740 20643 XOR\n2 1 20643 20644 20690 XOR\n2 1 20690 20672 20689 XOR\n2 1 20760 20751 20738 AND\n1 1 20211 32979 INV\n2 1 32979 32948 6651 XOR\n2 1 32979 6578 35168 XOR\n2 1 35168 919 33742 XOR\n2 1 6651 6618 6576 XOR\n2 1 6576 6577 6575 XOR\n1 1 6575 35169 INV\n2 1 35169 918 33743 XOR\n2 1 33743 33745 17887 XOR\n2 1 33744 17887 17889 XOR\n2 1 33748 17889 17970 XOR\n2 1 33747 17889 17967 XOR\n2 1 33742 33748 17894 XOR\n2 1 17894 17889 17969 XOR\n2 1 17888 17894 17976 XOR\n2 1 17887 17981 17973 XOR\n2 1 33742 17973 17972 XOR\n2 1 33743 33744 17904 XOR\n2 1 17904 17976 17974 XOR\n2 1 17981 17904 17977 XOR\n2 1 33747 17894 17979 XOR\n2 1 33743 17979 17975 XOR\n2 1 17887 17850 17971 XOR\n2 1 33742 17849 17978 XOR\n2 1 33749 33743 17982 XOR\n2 1 17973 17977 17966 AND\n2 1 17966 17890 17893 XOR\n2 1 17974 17972 17965 AND\n2 1 17959 17965 17911 XOR\n2 1 17978 33742 17964 AND\n2 1 17982 17967 17963 AND\n2 1 17963 17888 17892 XOR\n2 1 17979 17975 17962 AND\n2 1 17976 17969 17961 AND\n2 1 17981 17970 17960 AND\n2 1 17960 17889 17891 XOR\n2 1 17893 17891 17897 XOR\n2 1 33749 17897 17902 XOR\n2 1 17911 17902 17957 XOR\n2 1 17959 17960 17863 XOR\n2 1 17863 17864 17910 XOR\n2 1 17910 17892 17909 XOR\n2 1 17962 17909 17956 XOR\n2 1 17980 17971 17958 AND\n2 1 17958 17961 17912 XOR\n2 1 17958 17964 17916 XOR\n2 1 17916 17888 17903 XOR\n2 1 17911 17903 17954 XOR\n2 1 17959 17912 17906 XOR\n2 1 17892 17912 17866 XOR\n2 1 17866 17891 17955 XOR\n2 1 17897 17916 17865 XOR\n2 1 33747 17865 17908 XOR\n2 1 17962 17906 17862 XOR\n2 1 33743 17862 17949 XOR\n2 1 17957 17956 17953 AND\n2 1 17953 17908 17948 XOR\n2 1 17953 17955 17952 XOR\n2 1 17954 17952 17951 AND\n2 1 17951 17908 17950 XOR\n2 1 17951 17963 17857 XOR\n2 1 17857 17893 17853 XOR\n2 1 33749 17853 17856 XOR\n2 1 17951 17902 17854 XOR\n2 1 33747 17853 17852 XOR\n2 1 17948 17949 17947 AND\n2 1 17947 17955 17946 XOR\n2 1 17953 17947 17945 XOR\n2 1 17947 17906 17861 XOR\n2 1 17947 17964 17860 XOR\n2 1 17860 17961 17855 XOR\n2 1 17855 17856 17938 XOR\n2 1 17955 17945 17944 AND\n2 1 17944 17952 17942 XOR\n2 1 17944 17962 17915 XOR\n2 1 17915 17909 17936 XOR\n2 1 33743 17915 17898 XOR\n2 1 17898 17861 17943 XOR\n2 1 17950 17942 17941 AND\n2 1 17941 17911 17901 XOR\n2 1 17901 17903 17940 XOR\n2 1 17941 17965 17859 XOR\n2 1 17898 17859 17851 XOR\n2 1 17888 17851 17858 XOR\n2 1 17855 17858 17939 XOR\n2 1 17901 17854 17937 XOR\n2 1 17851 17852 17935 XOR\n2 1 17936 17973 17934 AND\n2 1 17943 17972 17933 AND\n2 1 17946 33742 17932 AND\n",
"2 1 17932 17934 17914 XOR\n2 1 17937 17967 17931 AND\n2 1 17940 17979 17930 AND\n2 1 17950 17969 17929 AND\n2 1 17929 17930 17868 XOR\n2 1 17938 17970 17928 AND\n2 1 17935 17968 17927 AND\n2 1 17927 17930 17883 XOR\n1 1 17883 17880 INV\n2 1 17927 17928 17879 XOR\n2 1 17939 17971 17926 AND\n2 1 17936 17977 17925 AND\n2 1 17943 17974 17924 AND\n2 1 17946 17978 17923 AND\n2 1 17937 17982 17922 AND\n2 1 17922 17926 17899 XOR\n2 1 17931 17922 17884 XOR\n1 1 17899 17877 INV\n2 1 17940 17975 17921 AND\n2 1 17929 17921 17886 XOR\n2 1 17950 17976 17920 AND\n2 1 17877 17920 17876 XOR\n2 1 17876 17914 17872 XOR\n2 1 17938 17981 17919 AND\n2 1 17919 17872 17875 XOR\n2 1 17935 17983 17918 AND\n2 1 17918 17919 17913 XOR\n2 1 17924 17913 17895 XOR\n2 1 17925 17895 17896 XOR\n2 1 17933 17896 17900 XOR\n2 1 17934 17900 17905 XOR\n2 1 17886 17913 17882 XOR\n2 1 17914 17882 17885 XOR\n2 1 17884 17885 17987 XOR\n2 1 17877 17882 17881 XOR\n2 1 17880 17881 17986 XOR\n2 1 32966 17986 6968 XOR\n2 1 17905 17879 17985 XOR\n2 1 17895 17872 17871 XOR\n2 1 17932 17900 17869 XOR\n2 1 17868 17869 35419 XOR\n2 1 35414 35419 7114 XOR\n2 1 7114 7112 6955 XOR\n1 1 7114 6978 INV\n2 1 17939 17980 17917 AND\n2 1 17928 17917 17878 XOR\n1 1 17878 17874 INV\n2 1 17874 17875 17984 XOR\n1 1 17986 35417 INV\n2 1 32962 35417 7121 XOR\n2 1 6978 7102 6975 XOR\n2 1 7121 7119 6958 XOR\n2 1 6600 32979 6354 XOR\n2 1 6354 6355 6677 XOR\n2 1 6955 6956 35324 XOR\n2 1 35324 836 33825 XOR\n2 1 6651 6588 6553 XOR\n2 1 33056 6553 35184 XOR\n2 1 35184 903 33758 XOR\n2 1 33758 20753 20752 XOR\n2 1 33758 33764 20674 XOR\n2 1 20674 20669 20749 XOR\n2 1 20668 20674 20756 XOR\n2 1 20684 20756 20754 XOR\n2 1 33763 20674 20759 XOR\n2 1 33759 20759 20755 XOR\n2 1 33758 20629 20758 XOR\n2 1 20754 20752 20745 AND\n2 1 20739 20745 20691 XOR\n2 1 20691 20682 20737 XOR\n2 1 20758 33758 20744 AND\n2 1 20738 20744 20696 XOR\n2 1 20696 20668 20683 XOR\n2 1 20691 20683 20734 XOR\n2 1 20677 20696 20645 XOR\n2 1 33763 20645 20688 XOR\n2 1 20759 20755 20742 AND\n2 1 20742 20689 20736 XOR\n2 1 20756 20749 20741 AND\n2 1 20738 20741 20692 XOR\n2 1 20739 20692 20686 XOR\n2 1 20672 20692 20646 XOR\n2 1 20646 20671 20735 XOR\n2 1 20742 20686 20642 XOR\n2 1 33759 20642 20729 XOR\n2 1 20737 20736 20733 AND\n2 1 20733 20688 20728 XOR\n2 1 20733 20735 20732 XOR\n2 1 20734 20732 20731 AND\n2 1 20731 20688 20730 XOR\n2 1 20731 20743 20637 XOR\n2 1 20637 20673 20633 XOR\n2 1 33765 20633 20636 XOR\n2 1 20731 20682 20634 XOR\n2 1 33763 20633 20632 XOR\n2 1 20728 20729 20727 AND\n2 1 20727 20735 20726 XOR\n2 1 20733 20727 20725 XOR\n2 1 20727 20686 20641 XOR\n2 1 20727 20744 20640 XOR\n2 1 20640 20741 20635 XOR\n2 1 20635 20636 20718 XOR\n2 1 20735 20725 20724 AND\n2 1 20724 20732 20722 XOR\n2 1 20724 20742 20695 XOR\n2 1 20695 20689 20716 XOR\n2 1 33759 20695 20678 XOR\n2 1 20678 20641 20723 XOR\n2 1 20730 20722 20721 AND\n2 1 20721 20691 20681 XOR\n2 1 20681 20683 20720 XOR\n2 1 20721 20745 20639 XOR\n2 1 20678 20639 20631 XOR\n2 1 20668 20631 20638 XOR\n2 1 20635 20638 20719 XOR\n2 1 20681 20634 20717 XOR\n2 1 20631 20632 20715 XOR\n2 1 20716 20753 20714 AND\n2 1 20723 20752 20713 AND\n2 1 20726 33758 20712 AND\n2 1 20712 20714 20694 XOR\n2 1 20717 20747 20711 AND\n2 1 20720 20759 20710 AND\n2 1 20730 20749 20709 AND\n2 1 20709 20710 20648 XOR\n2 1 20718 20750 20708 AND\n2 1 20715 20748 20707 AND\n2 1 20707 20710 20663 XOR\n",
"1 1 20663 20660 INV\n2 1 20707 20708 20659 XOR\n2 1 20719 20751 20706 AND\n2 1 20716 20757 20705 AND\n2 1 20723 20754 20704 AND\n2 1 20726 20758 20703 AND\n2 1 20717 20762 20702 AND\n2 1 20702 20706 20679 XOR\n2 1 20711 20702 20664 XOR\n1 1 20679 20657 INV\n2 1 20720 20755 20701 AND\n2 1 20709 20701 20666 XOR\n2 1 20730 20756 20700 AND\n2 1 20657 20700 20656 XOR\n2 1 20656 20694 20652 XOR\n2 1 20718 20761 20699 AND\n2 1 20699 20652 20655 XOR\n2 1 20715 20763 20698 AND\n2 1 20698 20699 20693 XOR\n2 1 20704 20693 20675 XOR\n2 1 20705 20675 20676 XOR\n2 1 20713 20676 20680 XOR\n2 1 20714 20680 20685 XOR\n2 1 20666 20693 20662 XOR\n2 1 20694 20662 20665 XOR\n2 1 20664 20665 20767 XOR\n2 1 20657 20662 20661 XOR\n2 1 20660 20661 20766 XOR\n2 1 20685 20659 20765 XOR\n2 1 20675 20652 20651 XOR\n2 1 20712 20680 20649 XOR\n2 1 20648 20649 35463 XOR\n2 1 35450 35463 7104 XOR\n2 1 20719 20760 20697 AND\n2 1 20708 20697 20658 XOR\n1 1 20658 20654 INV\n2 1 20654 20655 20764 XOR\n2 1 7121 7112 6981 XOR\n2 1 35413 6981 35307 XOR\n2 1 17986 32963 6836 XOR\n2 1 6835 6836 7170 XOR\n2 1 7170 7115 35298 XOR\n2 1 35298 862 33799 XOR\n1 1 35419 6840 INV\n2 1 35423 6840 6852 XOR\n2 1 6840 35413 6839 XOR\n2 1 6838 6839 7169 XOR\n2 1 7169 7107 35300 XOR\n2 1 35307 853 33808 XOR\n2 1 6958 6959 35322 XOR\n2 1 35322 838 33823 XOR\n2 1 33823 33825 17192 XOR\n2 1 35300 860 33801 XOR\n2 1 33799 33801 19277 XOR\n2 1 6651 6603 6563 XOR\n2 1 6677 6618 35161 XOR\n2 1 35161 926 33735 XOR\n2 1 33735 33737 21779 XOR\n2 1 33736 21779 21781 XOR\n2 1 33740 21781 21862 XOR\n2 1 33739 21781 21859 XOR\n2 1 21786 21781 21861 XOR\n2 1 33735 21871 21867 XOR\n2 1 21779 21873 21865 XOR\n2 1 33734 21865 21864 XOR\n2 1 33735 33736 21796 XOR\n2 1 21796 21868 21866 XOR\n2 1 21873 21796 21869 XOR\n2 1 21779 21742 21863 XOR\n2 1 33741 33735 21874 XOR\n2 1 21865 21869 21858 AND\n2 1 21858 21782 21785 XOR\n2 1 21866 21864 21857 AND\n2 1 21851 21857 21803 XOR\n2 1 21874 21859 21855 AND\n2 1 21855 21780 21784 XOR\n2 1 21871 21867 21854 AND\n2 1 21868 21861 21853 AND\n2 1 21873 21862 21852 AND\n2 1 21852 21781 21783 XOR\n2 1 21785 21783 21789 XOR\n2 1 33741 21789 21794 XOR\n2 1 21803 21794 21849 XOR\n2 1 21851 21852 21755 XOR\n2 1 21755 21756 21802 XOR\n2 1 21802 21784 21801 XOR\n2 1 21854 21801 21848 XOR\n2 1 21872 21863 21850 AND\n2 1 21850 21853 21804 XOR\n2 1 21850 21856 21808 XOR\n2 1 21808 21780 21795 XOR\n2 1 21803 21795 21846 XOR\n2 1 21851 21804 21798 XOR\n2 1 21784 21804 21758 XOR\n2 1 21758 21783 21847 XOR\n2 1 21789 21808 21757 XOR\n2 1 33739 21757 21800 XOR\n2 1 21854 21798 21754 XOR\n2 1 33735 21754 21841 XOR\n2 1 21849 21848 21845 AND\n2 1 21845 21800 21840 XOR\n2 1 21845 21847 21844 XOR\n2 1 21846 21844 21843 AND\n2 1 21843 21800 21842 XOR\n2 1 21843 21855 21749 XOR\n2 1 21749 21785 21745 XOR\n2 1 33741 21745 21748 XOR\n2 1 21843 21794 21746 XOR\n2 1 33739 21745 21744 XOR\n2 1 21840 21841 21839 AND\n2 1 21839 21847 21838 XOR\n2 1 21845 21839 21837 XOR\n2 1 21839 21798 21753 XOR\n2 1 21839 21856 21752 XOR\n2 1 21752 21853 21747 XOR\n2 1 21747 21748 21830 XOR\n2 1 21847 21837 21836 AND\n2 1 21836 21844 21834 XOR\n2 1 21836 21854 21807 XOR\n2 1 21807 21801 21828 XOR\n2 1 33735 21807 21790 XOR\n2 1 21790 21753 21835 XOR\n2 1 21842 21834 21833 AND\n2 1 21833 21803 21793 XOR\n2 1 21793 21795 21832 XOR\n2 1 21833 21857 21751 XOR\n2 1 21790 21751 21743 XOR\n2 1 21780 21743 21750 XOR\n"]

end Verif.Data
