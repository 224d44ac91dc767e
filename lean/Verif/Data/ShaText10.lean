/-!
# Text of `data/circ/sha256.txt`, part 11 of 11

Generated by `tools/gen_circuits.py`.
-/

namespace Verif.Data

/-- Lines 122885-135077 of `data/circ/sha256.txt`, 128 per string. -/
def shaBlocks10 : List String := [
"2 1 9150 103344 103345 XOR\n2 1 83771 103345 9155 XOR\n2 1 89915 103345 9154 XOR\n2 1 9154 9155 9153 AND\n2 1 9153 103345 103346 XOR\n2 1 83772 103346 9158 XOR\n2 1 103376 103345 874 XOR\n2 1 874 938 69401 XOR\n2 1 69401 69369 69337 AND\n2 1 69337 938 85787 XOR\n2 1 874 906 69273 XOR\n2 1 20803 20804 20802 AND\n2 1 20802 111129 111130 XOR\n2 1 1320 111130 20807 XOR\n2 1 75705 111130 20806 XOR\n2 1 20806 20807 20805 AND\n2 1 20805 111130 111131 XOR\n2 1 111162 111131 93823 XOR\n2 1 1321 111131 20810 XOR\n2 1 75706 111131 20809 XOR\n2 1 20809 20810 20808 AND\n2 1 20808 111131 111132 XOR\n2 1 1322 111132 20813 XOR\n2 1 75707 111132 20812 XOR\n2 1 20812 20813 20811 AND\n2 1 20811 111132 111133 XOR\n2 1 75708 111133 20815 XOR\n2 1 111163 111132 93824 XOR\n2 1 111161 111130 93822 XOR\n2 1 75704 1319 111160 XOR\n2 1 111160 111129 93821 XOR\n2 1 112052 112021 83773 XOR\n2 1 112113 112082 91953 XOR\n2 1 91953 22412 89916 XOR\n2 1 1003 89916 103315 XOR\n2 1 103315 103284 1323 XOR\n2 1 63258 1323 63226 AND\n2 1 63226 1387 98017 XOR\n2 1 1323 1355 63194 XOR\n2 1 75708 1323 111164 XOR\n2 1 1318 1323 61007 XOR\n2 1 111164 111133 93825 XOR\n2 1 89916 103284 9068 XOR\n2 1 9067 9068 9066 AND\n2 1 9066 103284 103285 XOR\n2 1 1004 103285 9070 XOR\n2 1 89916 22412 22411 AND\n2 1 22411 22412 22414 XOR\n2 1 91954 22414 89917 XOR\n2 1 1004 89917 103316 XOR\n2 1 103316 103285 1324 XOR\n2 1 63259 1324 63227 AND\n2 1 63227 1388 98018 XOR\n2 1 1324 1356 63195 XOR\n2 1 1319 1324 61008 XOR\n2 1 89917 83773 103378 XOR\n2 1 75709 1324 111165 XOR\n2 1 89917 103285 9071 XOR\n2 1 89917 22414 22413 AND\n2 1 22413 22414 22416 XOR\n2 1 91955 22416 89918 XOR\n2 1 1005 89918 103317 XOR\n2 1 89918 83774 103379 XOR\n2 1 89918 22416 22415 AND\n2 1 22415 22416 22418 XOR\n2 1 91956 22418 89919 XOR\n2 1 89919 22418 22417 AND\n2 1 22417 22418 22466 XOR\n1 1 22466 22421 INV\n2 1 91957 22466 22420 XOR\n2 1 22483 22466 89920 XOR\n2 1 1007 89920 103319 XOR\n2 1 89920 83776 103381 XOR\n2 1 22420 22421 22419 AND\n2 1 9070 9071 9069 AND\n2 1 9069 103285 103286 XOR\n2 1 89918 103286 9074 XOR\n2 1 103317 103286 1325 XOR\n2 1 63260 1325 63228 AND\n2 1 63228 1389 98019 XOR\n2 1 1325 1357 63196 XOR\n2 1 75710 1325 111166 XOR\n2 1 1320 1325 61009 XOR\n2 1 1006 89919 103318 XOR\n2 1 1323 111133 20816 XOR\n2 1 20815 20816 20814 AND\n2 1 20814 111133 111134 XOR\n2 1 1324 111134 20819 XOR\n2 1 75709 111134 20818 XOR\n2 1 20818 20819 20817 AND\n2 1 111165 111134 93826 XOR\n2 1 20817 111134 111135 XOR\n2 1 1325 111135 20822 XOR\n2 1 111166 111135 93827 XOR\n2 1 75710 111135 20821 XOR\n2 1 20821 20822 20820 AND\n2 1 20820 111135 111136 XOR\n2 1 75711 111136 20824 XOR\n2 1 89916 83772 103377 XOR\n2 1 103377 103346 875 XOR\n2 1 864 875 66957 XOR\n2 1 875 939 69402 XOR\n2 1 69402 69370 69338 AND\n2 1 875 907 69274 XOR\n2 1 69338 939 85788 XOR\n2 1 89919 83775 103380 XOR\n2 1 22419 22466 22467 XOR\n1 1 22467 22424 INV\n2 1 91958 22467 22423 XOR\n2 1 22484 22467 89921 XOR\n2 1 89921 83777 103382 XOR\n2 1 1008 89921 103320 XOR\n2 1 22423 22424 22422 AND\n2 1 22422 22467 22468 XOR\n1 1 22468 22427 INV\n2 1 91959 22468 22426 XOR\n2 1 22485 22468 89922 XOR\n2 1 1009 89922 103321 XOR\n2 1 89922 83778 103383 XOR\n2 1 22426 22427 22425 AND\n2 1 22425 22468 22469 XOR\n2 1 91960 22469 22429 XOR\n2 1 22486 22469 89923 XOR\n2 1 1010 89923 103322 XOR\n2 1 89923 83779 103384 XOR\n1 1 22469 22430 INV\n2 1 22429 22430 22428 AND\n2 1 22428 22469 22470 XOR\n",
"1 1 22470 22433 INV\n2 1 91961 22470 22432 XOR\n2 1 22487 22470 89924 XOR\n2 1 1011 89924 103323 XOR\n2 1 89924 83780 103385 XOR\n2 1 22432 22433 22431 AND\n2 1 22431 22470 22435 XOR\n2 1 91962 22435 89925 XOR\n2 1 1012 89925 103324 XOR\n2 1 89925 83781 103386 XOR\n2 1 89925 22435 22434 AND\n2 1 22434 22435 22437 XOR\n2 1 91963 22437 89926 XOR\n2 1 1013 89926 103325 XOR\n2 1 89926 83782 103387 XOR\n2 1 89926 22437 22436 AND\n2 1 22436 22437 22439 XOR\n2 1 91964 22439 89927 XOR\n2 1 89927 83783 103388 XOR\n2 1 1014 89927 103326 XOR\n2 1 89927 22439 22438 AND\n2 1 22438 22439 22471 XOR\n2 1 91965 22471 22441 XOR\n2 1 22488 22471 89928 XOR\n2 1 1015 89928 103327 XOR\n2 1 89928 83784 103389 XOR\n1 1 22471 22442 INV\n2 1 22441 22442 22440 AND\n2 1 22440 22471 22444 XOR\n2 1 91966 22444 89929 XOR\n2 1 89929 83785 103390 XOR\n2 1 89929 22444 22443 AND\n2 1 1016 89929 103328 XOR\n2 1 1005 103286 9073 XOR\n2 1 9073 9074 9072 AND\n2 1 9072 103286 103287 XOR\n2 1 89919 103287 9077 XOR\n2 1 1006 103287 9076 XOR\n2 1 9076 9077 9075 AND\n2 1 9075 103287 103288 XOR\n2 1 89920 103288 9080 XOR\n2 1 103319 103288 1327 XOR\n2 1 63262 1327 63230 AND\n2 1 63230 1391 98021 XOR\n2 1 1327 1359 63198 XOR\n2 1 1322 1327 61011 XOR\n2 1 1007 103288 9079 XOR\n2 1 9079 9080 9078 AND\n2 1 75712 1327 111168 XOR\n2 1 9078 103288 103289 XOR\n2 1 89921 103289 9083 XOR\n2 1 1008 103289 9082 XOR\n2 1 103320 103289 1328 XOR\n2 1 63263 1328 63231 AND\n2 1 63231 1392 98022 XOR\n2 1 1328 1360 63199 XOR\n2 1 9082 9083 9081 AND\n2 1 9081 103289 103290 XOR\n2 1 103321 103290 1329 XOR\n2 1 1009 103290 9085 XOR\n2 1 63264 1329 63232 AND\n2 1 63232 1393 98023 XOR\n2 1 1329 1361 63200 XOR\n2 1 89922 103290 9086 XOR\n2 1 9085 9086 9084 AND\n2 1 9084 103290 103291 XOR\n2 1 103322 103291 1330 XOR\n2 1 63265 1330 63233 AND\n2 1 63233 1394 98024 XOR\n2 1 1330 1362 63201 XOR\n2 1 75714 1329 111170 XOR\n2 1 89923 103291 9089 XOR\n2 1 1325 1330 61014 XOR\n2 1 1324 1329 61013 XOR\n2 1 1323 1328 61012 XOR\n2 1 61014 1312 100061 XOR\n2 1 1010 103291 9088 XOR\n2 1 9088 9089 9087 AND\n2 1 9087 103291 103292 XOR\n2 1 100061 98013 111985 XOR\n2 1 75713 1328 111169 XOR\n2 1 75715 1330 111171 XOR\n2 1 89924 103292 9092 XOR\n2 1 1011 103292 9091 XOR\n2 1 9091 9092 9090 AND\n2 1 103323 103292 1331 XOR\n2 1 63266 1331 63234 AND\n2 1 63234 1395 98025 XOR\n2 1 1331 1363 63202 XOR\n2 1 61033 1331 100080 XOR\n2 1 75716 1331 111172 XOR\n2 1 103318 103287 1326 XOR\n2 1 63261 1326 63229 AND\n2 1 63229 1390 98020 XOR\n2 1 1326 1358 63197 XOR\n2 1 1326 111136 20825 XOR\n2 1 20824 20825 20823 AND\n2 1 20823 111136 111137 XOR\n2 1 1327 111137 20828 XOR\n2 1 1326 1331 61015 XOR\n2 1 1321 1326 61010 XOR\n2 1 61015 1313 100062 XOR\n2 1 111168 111137 93829 XOR\n2 1 75711 1326 111167 XOR\n2 1 111167 111136 93828 XOR\n2 1 100062 98014 111986 XOR\n2 1 75712 111137 20827 XOR\n2 1 20827 20828 20826 AND\n2 1 20826 111137 111138 XOR\n2 1 75713 111138 20830 XOR\n2 1 111169 111138 93830 XOR\n2 1 1328 111138 20831 XOR\n2 1 20830 20831 20829 AND\n2 1 20829 111138 111139 XOR\n2 1 1329 111139 20834 XOR\n2 1 111170 111139 93831 XOR\n2 1 9090 103292 103293 XOR\n2 1 1012 103293 9094 XOR\n2 1 89925 103293 9095 XOR\n2 1 9094 9095 9093 AND\n2 1 9093 103293 103294 XOR\n2 1 103325 103294 1333 XOR\n2 1 63268 1333 63236 AND\n2 1 63236 1397 98027 XOR\n2 1 1333 1365 63204 XOR\n2 1 1328 1333 61017 XOR\n2 1 61035 1333 100082 XOR\n2 1 61017 1315 100064 XOR\n",
"2 1 89926 103294 9098 XOR\n2 1 1013 103294 9097 XOR\n2 1 9097 9098 9096 AND\n2 1 75718 1333 111174 XOR\n2 1 100064 98016 111988 XOR\n2 1 75714 111139 20833 XOR\n2 1 20833 20834 20832 AND\n2 1 20832 111139 111140 XOR\n2 1 111171 111140 93832 XOR\n2 1 1330 111140 20837 XOR\n2 1 75715 111140 20836 XOR\n2 1 20836 20837 20835 AND\n2 1 20835 111140 111141 XOR\n2 1 1331 111141 20840 XOR\n2 1 75716 111141 20839 XOR\n2 1 111172 111141 93833 XOR\n2 1 20839 20840 20838 AND\n2 1 20838 111141 111142 XOR\n2 1 75717 111142 20842 XOR\n2 1 103324 103293 1332 XOR\n2 1 63267 1332 63235 AND\n2 1 63235 1396 98026 XOR\n2 1 1332 1364 63203 XOR\n2 1 1327 1332 61016 XOR\n2 1 61034 1332 100081 XOR\n2 1 61016 1314 100063 XOR\n2 1 100063 98015 111987 XOR\n2 1 75717 1332 111173 XOR\n2 1 111173 111142 93834 XOR\n2 1 1332 111142 20843 XOR\n2 1 20842 20843 20841 AND\n2 1 20841 111142 111143 XOR\n2 1 1333 111143 20846 XOR\n2 1 111174 111143 93835 XOR\n2 1 75718 111143 20845 XOR\n2 1 20845 20846 20844 AND\n2 1 20844 111143 111144 XOR\n2 1 75719 111144 20848 XOR\n2 1 9096 103294 103295 XOR\n2 1 89927 103295 9101 XOR\n2 1 103326 103295 1334 XOR\n2 1 63269 1334 63237 AND\n2 1 63237 1398 98028 XOR\n2 1 1334 1366 63205 XOR\n2 1 1334 111144 20849 XOR\n2 1 20848 20849 20847 AND\n2 1 75719 1334 111175 XOR\n2 1 20847 111144 111145 XOR\n2 1 111175 111144 93836 XOR\n2 1 1329 1334 61018 XOR\n2 1 61036 1334 100083 XOR\n2 1 61018 1316 100065 XOR\n2 1 1014 103295 9100 XOR\n2 1 9100 9101 9099 AND\n2 1 9099 103295 103296 XOR\n2 1 89928 103296 9104 XOR\n2 1 1015 103296 9103 XOR\n2 1 103327 103296 1335 XOR\n2 1 63270 1335 63238 AND\n2 1 63238 1399 98029 XOR\n2 1 1335 1367 63206 XOR\n2 1 75720 1335 111176 XOR\n2 1 111176 111145 93837 XOR\n2 1 1335 111145 20852 XOR\n2 1 1330 1335 61019 XOR\n2 1 61037 1335 100084 XOR\n2 1 61019 1317 100066 XOR\n2 1 100066 98018 111990 XOR\n2 1 75720 111145 20851 XOR\n2 1 20851 20852 20850 AND\n2 1 20850 111145 111146 XOR\n2 1 75721 111146 20854 XOR\n2 1 100065 98017 111989 XOR\n2 1 9103 9104 9102 AND\n2 1 9102 103296 103297 XOR\n2 1 89929 103297 9107 XOR\n2 1 103328 103297 1336 XOR\n2 1 63271 1336 63239 AND\n2 1 63239 1400 98030 XOR\n2 1 1336 1368 63207 XOR\n2 1 1331 1336 61020 XOR\n2 1 61038 1336 100085 XOR\n2 1 61020 1318 100067 XOR\n2 1 1016 103297 9106 XOR\n2 1 9106 9107 9105 AND\n2 1 9105 103297 103298 XOR\n2 1 75721 1336 111177 XOR\n2 1 111177 111146 93838 XOR\n2 1 1017 103298 9109 XOR\n2 1 100067 98019 111991 XOR\n2 1 1336 111146 20855 XOR\n2 1 20854 20855 20853 AND\n2 1 20853 111146 111147 XOR\n2 1 75722 111147 20857 XOR\n2 1 22443 22444 22446 XOR\n2 1 91967 22446 89930 XOR\n2 1 89930 83786 103391 XOR\n2 1 89930 103298 9110 XOR\n2 1 9109 9110 9108 AND\n2 1 9108 103298 103299 XOR\n2 1 1018 103299 9112 XOR\n2 1 89930 22446 22445 AND\n2 1 22445 22446 22472 XOR\n2 1 91968 22472 22448 XOR\n1 1 22472 22449 INV\n2 1 22489 22472 89931 XOR\n2 1 89931 83787 103392 XOR\n2 1 1018 89931 103330 XOR\n2 1 103330 103299 1338 XOR\n2 1 75723 1338 111179 XOR\n2 1 63273 1338 63241 AND\n2 1 63241 1402 98032 XOR\n2 1 1338 1370 63209 XOR\n2 1 1333 1338 61022 XOR\n2 1 61022 1320 100069 XOR\n2 1 61008 1338 100055 XOR\n2 1 100055 98007 111979 XOR\n2 1 100069 98021 111993 XOR\n2 1 100080 98032 112004 XOR\n2 1 89931 103299 9113 XOR\n2 1 9112 9113 9111 AND\n2 1 9111 103299 103300 XOR\n2 1 1019 103300 9115 XOR\n2 1 22448 22449 22447 AND\n2 1 22447 22472 22451 XOR\n2 1 91969 22451 89932 XOR\n2 1 1019 89932 103331 XOR\n2 1 103331 103300 1339 XOR\n",
"2 1 63274 1339 63242 AND\n2 1 63242 1403 98033 XOR\n2 1 100081 98033 112005 XOR\n2 1 1339 1371 63210 XOR\n2 1 1339 1312 61028 XOR\n2 1 1334 1339 61023 XOR\n2 1 61028 1326 100075 XOR\n2 1 100075 98027 111999 XOR\n2 1 61023 1321 100070 XOR\n2 1 61009 1339 100056 XOR\n2 1 75724 1339 111180 XOR\n2 1 89932 103300 9116 XOR\n2 1 9115 9116 9114 AND\n2 1 9114 103300 103301 XOR\n2 1 1020 103301 9118 XOR\n2 1 89932 83788 103393 XOR\n2 1 100056 98008 111980 XOR\n2 1 100070 98022 111994 XOR\n2 1 89932 22451 22450 AND\n2 1 22450 22451 22473 XOR\n2 1 91970 22473 22453 XOR\n1 1 22473 22454 INV\n2 1 22490 22473 89933 XOR\n2 1 89933 83789 103394 XOR\n2 1 89933 103301 9119 XOR\n2 1 9118 9119 9117 AND\n2 1 9117 103301 103302 XOR\n2 1 1021 103302 9121 XOR\n2 1 22453 22454 22452 AND\n2 1 22452 22473 22474 XOR\n1 1 22474 22457 INV\n2 1 91971 22474 22456 XOR\n2 1 22491 22474 89934 XOR\n2 1 89934 83790 103395 XOR\n2 1 89934 103302 9122 XOR\n2 1 9121 9122 9120 AND\n2 1 9120 103302 103303 XOR\n2 1 1022 103303 9124 XOR\n2 1 22456 22457 22455 AND\n2 1 22455 22474 22475 XOR\n1 1 22475 22460 INV\n2 1 22492 22475 89935 XOR\n2 1 91972 22475 22459 XOR\n2 1 22459 22460 22458 AND\n2 1 22458 22475 22476 XOR\n2 1 91973 22476 89936 XOR\n2 1 89935 83791 103396 XOR\n2 1 89935 103303 9125 XOR\n2 1 9124 9125 9123 AND\n2 1 89936 83792 103397 XOR\n2 1 9123 103303 103304 XOR\n2 1 1020 89933 103332 XOR\n2 1 103332 103301 1340 XOR\n2 1 63275 1340 63243 AND\n2 1 63243 1404 98034 XOR\n2 1 1340 1372 63211 XOR\n2 1 100082 98034 112006 XOR\n2 1 75725 1340 111181 XOR\n2 1 1340 1313 61029 XOR\n2 1 1335 1340 61024 XOR\n2 1 61029 1327 100076 XOR\n2 1 61024 1322 100071 XOR\n2 1 100071 98023 111995 XOR\n2 1 61010 1340 100057 XOR\n2 1 100057 98009 111981 XOR\n2 1 100076 98028 112000 XOR\n2 1 1022 89935 103334 XOR\n2 1 103334 103303 1342 XOR\n2 1 75727 1342 111183 XOR\n2 1 63277 1342 63245 AND\n2 1 63245 1406 98036 XOR\n2 1 1342 1374 63213 XOR\n2 1 100084 98036 112008 XOR\n2 1 1342 1315 61031 XOR\n2 1 61031 1329 100078 XOR\n2 1 61012 1342 100059 XOR\n2 1 100059 98011 111983 XOR\n2 1 1017 89930 103329 XOR\n2 1 103329 103298 1337 XOR\n2 1 75722 1337 111178 XOR\n2 1 111178 111147 93839 XOR\n2 1 63272 1337 63240 AND\n2 1 63240 1401 98031 XOR\n2 1 1337 1369 63208 XOR\n2 1 1337 1342 61026 XOR\n2 1 1332 1337 61021 XOR\n2 1 61026 1324 100073 XOR\n2 1 100073 98025 111997 XOR\n2 1 61021 1319 100068 XOR\n2 1 61007 1337 100054 XOR\n2 1 100054 98006 111948 AND\n2 1 100055 111948 22209 XOR\n2 1 1337 111147 20858 XOR\n2 1 20857 20858 20856 AND\n2 1 20856 111147 111148 XOR\n2 1 75723 111148 20860 XOR\n2 1 111979 111948 95959 XOR\n2 1 98007 111948 22210 XOR\n2 1 22209 22210 22208 AND\n2 1 111179 111148 93840 XOR\n2 1 95959 93911 111855 XOR\n2 1 100054 98006 95958 XOR\n2 1 95958 93910 111824 AND\n2 1 111855 111824 91912 XOR\n1 1 91912 22011 INV\n2 1 93911 111824 22030 XOR\n2 1 95959 111824 22029 XOR\n2 1 100068 98020 111992 XOR\n2 1 95958 93910 91911 XOR\n1 1 91911 89873 INV\n2 1 960 89873 1280 XOR\n2 1 63183 1280 63151 AND\n2 1 63151 1344 97974 XOR\n2 1 1280 1312 63119 XOR\n2 1 75665 1280 110854 AND\n2 1 75666 110854 20327 XOR\n2 1 75665 1280 93782 XOR\n2 1 960 89873 103150 AND\n2 1 22011 91911 89874 XOR\n2 1 961 89874 103181 XOR\n2 1 89874 103150 8858 XOR\n2 1 91912 91911 21919 XOR\n2 1 21919 89873 21918 AND\n2 1 21918 91911 21994 XOR\n1 1 21994 21922 INV\n2 1 103181 103150 1281 XOR\n2 1 63184 1281 63152 AND\n2 1 63152 1345 97975 XOR\n",
"2 1 1281 1313 63120 XOR\n2 1 1281 110854 20328 XOR\n2 1 20327 20328 20326 AND\n2 1 20326 110854 110855 XOR\n2 1 75667 110855 20330 XOR\n2 1 75666 1281 110885 XOR\n2 1 110885 110854 93783 XOR\n2 1 961 103150 8857 XOR\n2 1 8857 8858 8856 AND\n2 1 8856 103150 103151 XOR\n2 1 962 103151 8860 XOR\n2 1 1021 89934 103333 XOR\n2 1 103333 103302 1341 XOR\n2 1 75726 1341 111182 XOR\n2 1 63276 1341 63244 AND\n2 1 63244 1405 98035 XOR\n2 1 1341 1373 63212 XOR\n2 1 1341 1314 61030 XOR\n2 1 1336 1341 61025 XOR\n2 1 61030 1328 100077 XOR\n2 1 100077 98029 112001 XOR\n2 1 61025 1323 100072 XOR\n2 1 100072 98024 111996 XOR\n2 1 61011 1341 100058 XOR\n2 1 100083 98035 112007 XOR\n2 1 100058 98010 111982 XOR\n2 1 1338 111148 20861 XOR\n2 1 20860 20861 20859 AND\n2 1 20859 111148 111149 XOR\n2 1 111180 111149 93841 XOR\n2 1 1339 111149 20864 XOR\n2 1 75724 111149 20863 XOR\n2 1 20863 20864 20862 AND\n2 1 20862 111149 111150 XOR\n2 1 1340 111150 20867 XOR\n2 1 111181 111150 93842 XOR\n2 1 75725 111150 20866 XOR\n2 1 20866 20867 20865 AND\n2 1 20865 111150 111151 XOR\n2 1 1341 111151 20870 XOR\n2 1 111182 111151 93843 XOR\n2 1 75726 111151 20869 XOR\n2 1 20869 20870 20868 AND\n2 1 20868 111151 111152 XOR\n2 1 1342 111152 20873 XOR\n2 1 75727 111152 20872 XOR\n2 1 20872 20873 20871 AND\n2 1 20871 111152 111153 XOR\n2 1 111183 111152 93844 XOR\n2 1 22208 111948 111949 XOR\n2 1 100056 111949 22212 XOR\n2 1 111980 111949 95960 XOR\n2 1 95960 93912 111856 XOR\n2 1 98008 111949 22213 XOR\n2 1 1023 89936 103335 XOR\n2 1 103335 103304 1343 XOR\n2 1 63278 1343 63246 AND\n2 1 63246 1407 98037 XOR\n2 1 1343 1375 63214 XOR\n2 1 1343 1316 61032 XOR\n2 1 1338 1343 61027 XOR\n2 1 61032 1330 100079 XOR\n2 1 100079 98031 112003 XOR\n2 1 61027 1325 100074 XOR\n2 1 61013 1343 100060 XOR\n2 1 100085 98037 112009 XOR\n2 1 75728 1343 111184 XOR\n2 1 111184 111153 93845 XOR\n2 1 100060 98012 111984 XOR\n2 1 100074 98026 111998 XOR\n2 1 22029 22030 22028 AND\n2 1 22028 111824 111825 XOR\n2 1 93912 111825 22033 XOR\n2 1 95960 111825 22032 XOR\n2 1 22032 22033 22031 AND\n2 1 22031 111825 111826 XOR\n2 1 111856 111825 91913 XOR\n2 1 91913 21994 21921 XOR\n2 1 93913 111826 22036 XOR\n1 1 91913 22012 INV\n2 1 22012 21994 89875 XOR\n2 1 89875 103151 8861 XOR\n2 1 8860 8861 8859 AND\n2 1 8859 103151 103152 XOR\n2 1 962 89875 103182 XOR\n2 1 963 103152 8863 XOR\n2 1 21921 21922 21920 AND\n2 1 21920 21994 21995 XOR\n1 1 21995 21925 INV\n2 1 103182 103151 1282 XOR\n2 1 75667 1282 110886 XOR\n2 1 63185 1282 63153 AND\n2 1 63153 1346 97976 XOR\n2 1 1282 1314 63121 XOR\n2 1 1282 110855 20331 XOR\n2 1 20330 20331 20329 AND\n2 1 20329 110855 110856 XOR\n2 1 75668 110856 20333 XOR\n2 1 110886 110855 93784 XOR\n2 1 22212 22213 22211 AND\n2 1 22211 111949 111950 XOR\n2 1 111981 111950 95961 XOR\n2 1 95961 111826 22035 XOR\n2 1 22035 22036 22034 AND\n2 1 95961 93913 111857 XOR\n2 1 98009 111950 22216 XOR\n2 1 22034 111826 111827 XOR\n2 1 93914 111827 22039 XOR\n2 1 111857 111826 91914 XOR\n1 1 91914 22013 INV\n2 1 91914 21995 21924 XOR\n2 1 22013 21995 89876 XOR\n2 1 963 89876 103183 XOR\n2 1 103183 103152 1283 XOR\n2 1 63186 1283 63154 AND\n2 1 63154 1347 97977 XOR\n2 1 1283 1315 63122 XOR\n2 1 75668 1283 110887 XOR\n2 1 110887 110856 93785 XOR\n2 1 1283 110856 20334 XOR\n2 1 21924 21925 21923 AND\n2 1 21923 21995 21927 XOR\n2 1 20333 20334 20332 AND\n2 1 20332 110856 110857 XOR\n2 1 75669 110857 20336 XOR\n2 1 89876 103152 8864 XOR\n2 1 8863 8864 8862 AND\n2 1 8862 103152 103153 XOR\n",
"2 1 964 103153 8866 XOR\n2 1 100057 111950 22215 XOR\n2 1 22215 22216 22214 AND\n2 1 22214 111950 111951 XOR\n2 1 111982 111951 95962 XOR\n2 1 95962 93914 111858 XOR\n2 1 111858 111827 91915 XOR\n2 1 95962 111827 22038 XOR\n2 1 22038 22039 22037 AND\n2 1 22037 111827 111828 XOR\n2 1 93915 111828 22042 XOR\n2 1 98010 111951 22219 XOR\n2 1 100058 111951 22218 XOR\n2 1 22218 22219 22217 AND\n2 1 22217 111951 111952 XOR\n2 1 100059 111952 22221 XOR\n2 1 98011 111952 22222 XOR\n2 1 22221 22222 22220 AND\n2 1 111983 111952 95963 XOR\n2 1 95963 93915 111859 XOR\n2 1 22220 111952 111953 XOR\n2 1 111984 111953 95964 XOR\n2 1 100060 111953 22224 XOR\n2 1 98012 111953 22225 XOR\n2 1 22224 22225 22223 AND\n2 1 22223 111953 111954 XOR\n2 1 100061 111954 22227 XOR\n2 1 111985 111954 95965 XOR\n2 1 95964 93916 111860 XOR\n2 1 111859 111828 91916 XOR\n1 1 91916 22014 INV\n2 1 95963 111828 22041 XOR\n2 1 22041 22042 22040 AND\n2 1 22040 111828 111829 XOR\n2 1 111860 111829 91917 XOR\n1 1 91917 22015 INV\n2 1 95964 111829 22044 XOR\n2 1 93916 111829 22045 XOR\n2 1 22044 22045 22043 AND\n2 1 22043 111829 111830 XOR\n2 1 95965 111830 22047 XOR\n2 1 93917 111830 22048 XOR\n2 1 22047 22048 22046 AND\n2 1 22046 111830 111831 XOR\n2 1 93918 111831 22051 XOR\n2 1 95965 93917 111861 XOR\n2 1 111861 111830 91918 XOR\n2 1 91915 21927 89877 XOR\n2 1 89877 103153 8867 XOR\n2 1 964 89877 103184 XOR\n2 1 8866 8867 8865 AND\n2 1 103184 103153 1284 XOR\n2 1 75669 1284 110888 XOR\n2 1 110888 110857 93786 XOR\n2 1 8865 103153 103154 XOR\n2 1 965 103154 8869 XOR\n2 1 63187 1284 63155 AND\n2 1 63155 1348 97978 XOR\n2 1 1284 1316 63123 XOR\n2 1 89877 21927 21926 AND\n2 1 21926 21927 21996 XOR\n2 1 91916 21996 21929 XOR\n1 1 21996 21930 INV\n2 1 21929 21930 21928 AND\n2 1 21928 21996 21997 XOR\n2 1 22014 21996 89878 XOR\n2 1 89878 103154 8870 XOR\n2 1 8869 8870 8868 AND\n2 1 8868 103154 103155 XOR\n2 1 966 103155 8872 XOR\n2 1 965 89878 103185 XOR\n2 1 103185 103154 1285 XOR\n2 1 75670 1285 110889 XOR\n2 1 63188 1285 63156 AND\n2 1 63156 1349 97979 XOR\n2 1 1285 1317 63124 XOR\n2 1 1280 1285 61001 XOR\n2 1 91917 21997 21932 XOR\n2 1 22015 21997 89879 XOR\n2 1 89879 103155 8873 XOR\n2 1 966 89879 103186 XOR\n2 1 103186 103155 1286 XOR\n2 1 63189 1286 63157 AND\n2 1 63157 1350 97980 XOR\n2 1 1286 1318 63125 XOR\n2 1 1281 1286 61002 XOR\n2 1 8872 8873 8871 AND\n2 1 8871 103155 103156 XOR\n2 1 967 103156 8875 XOR\n2 1 75671 1286 110890 XOR\n2 1 1284 110857 20337 XOR\n2 1 98013 111954 22228 XOR\n2 1 22227 22228 22226 AND\n2 1 22226 111954 111955 XOR\n2 1 100062 111955 22230 XOR\n2 1 111986 111955 95966 XOR\n2 1 95966 93918 111862 XOR\n2 1 111862 111831 91919 XOR\n1 1 91919 22016 INV\n2 1 95966 111831 22050 XOR\n2 1 22050 22051 22049 AND\n2 1 22049 111831 111832 XOR\n2 1 93919 111832 22054 XOR\n1 1 21997 21933 INV\n2 1 21932 21933 21931 AND\n2 1 21931 21997 21935 XOR\n2 1 91918 21935 89880 XOR\n2 1 89880 21935 21934 AND\n2 1 967 89880 103187 XOR\n2 1 89880 103156 8876 XOR\n2 1 8875 8876 8874 AND\n2 1 8874 103156 103157 XOR\n2 1 968 103157 8878 XOR\n2 1 103187 103156 1287 XOR\n2 1 63190 1287 63158 AND\n2 1 63158 1351 97981 XOR\n2 1 1287 1319 63126 XOR\n2 1 75672 1287 110891 XOR\n2 1 1282 1287 61003 XOR\n2 1 21934 21935 21998 XOR\n2 1 91919 21998 21937 XOR\n2 1 22016 21998 89881 XOR\n2 1 968 89881 103188 XOR\n2 1 103188 103157 1288 XOR\n2 1 75673 1288 110892 XOR\n2 1 63191 1288 63159 AND\n2 1 63159 1352 97982 XOR\n2 1 1288 1320 63127 XOR\n",
"2 1 1283 1288 61004 XOR\n1 1 21998 21938 INV\n2 1 21937 21938 21936 AND\n2 1 21936 21998 21999 XOR\n1 1 21999 21941 INV\n2 1 89881 103157 8879 XOR\n2 1 8878 8879 8877 AND\n2 1 8877 103157 103158 XOR\n2 1 969 103158 8881 XOR\n2 1 20336 20337 20335 AND\n2 1 20335 110857 110858 XOR\n2 1 110889 110858 93787 XOR\n2 1 75670 110858 20339 XOR\n2 1 1285 110858 20340 XOR\n2 1 20339 20340 20338 AND\n2 1 20338 110858 110859 XOR\n2 1 110890 110859 93788 XOR\n2 1 75671 110859 20342 XOR\n2 1 1286 110859 20343 XOR\n2 1 20342 20343 20341 AND\n2 1 20341 110859 110860 XOR\n2 1 110891 110860 93789 XOR\n2 1 75672 110860 20345 XOR\n2 1 1287 110860 20346 XOR\n2 1 20345 20346 20344 AND\n2 1 20344 110860 110861 XOR\n2 1 110892 110861 93790 XOR\n2 1 1288 110861 20349 XOR\n2 1 75673 110861 20348 XOR\n2 1 98014 111955 22231 XOR\n2 1 22230 22231 22229 AND\n2 1 22229 111955 111956 XOR\n2 1 98015 111956 22234 XOR\n2 1 111987 111956 95967 XOR\n2 1 95967 93919 111863 XOR\n2 1 111863 111832 91920 XOR\n1 1 91920 22017 INV\n2 1 22017 21999 89882 XOR\n2 1 969 89882 103189 XOR\n2 1 103189 103158 1289 XOR\n2 1 63192 1289 63160 AND\n2 1 63160 1353 97983 XOR\n2 1 1289 1321 63128 XOR\n2 1 75674 1289 110893 XOR\n2 1 89882 103158 8882 XOR\n2 1 8881 8882 8880 AND\n2 1 1284 1289 61005 XOR\n2 1 91920 21999 21940 XOR\n2 1 95967 111832 22053 XOR\n2 1 22053 22054 22052 AND\n2 1 22052 111832 111833 XOR\n2 1 93920 111833 22057 XOR\n2 1 100063 111956 22233 XOR\n2 1 22233 22234 22232 AND\n2 1 22232 111956 111957 XOR\n2 1 100064 111957 22236 XOR\n2 1 98016 111957 22237 XOR\n2 1 22236 22237 22235 AND\n2 1 22235 111957 111958 XOR\n2 1 100065 111958 22239 XOR\n2 1 111989 111958 95969 XOR\n2 1 98017 111958 22240 XOR\n2 1 22239 22240 22238 AND\n2 1 22238 111958 111959 XOR\n2 1 95969 93921 111865 XOR\n2 1 111990 111959 95970 XOR\n2 1 100066 111959 22242 XOR\n2 1 98018 111959 22243 XOR\n2 1 22242 22243 22241 AND\n2 1 22241 111959 111960 XOR\n2 1 100067 111960 22245 XOR\n2 1 111991 111960 95971 XOR\n2 1 98019 111960 22246 XOR\n2 1 111988 111957 95968 XOR\n2 1 95968 93920 111864 XOR\n2 1 95971 93923 111867 XOR\n2 1 111864 111833 91921 XOR\n2 1 95968 111833 22056 XOR\n2 1 22056 22057 22055 AND\n2 1 22055 111833 111834 XOR\n2 1 93921 111834 22060 XOR\n2 1 111865 111834 91922 XOR\n2 1 95969 111834 22059 XOR\n2 1 22059 22060 22058 AND\n2 1 22058 111834 111835 XOR\n2 1 95970 111835 22062 XOR\n2 1 93922 111835 22063 XOR\n2 1 22062 22063 22061 AND\n2 1 22061 111835 111836 XOR\n2 1 93923 111836 22066 XOR\n2 1 95971 111836 22065 XOR\n2 1 22065 22066 22064 AND\n2 1 22064 111836 111837 XOR\n2 1 93924 111837 22069 XOR\n2 1 21940 21941 21939 AND\n2 1 21939 21999 21943 XOR\n2 1 91921 21943 89883 XOR\n2 1 970 89883 103190 XOR\n2 1 8880 103158 103159 XOR\n2 1 89883 103159 8885 XOR\n2 1 103190 103159 1290 XOR\n2 1 63193 1290 63161 AND\n2 1 63161 1354 97984 XOR\n2 1 1290 1322 63129 XOR\n2 1 75675 1290 110894 XOR\n2 1 1285 1290 61006 XOR\n2 1 970 103159 8884 XOR\n2 1 8884 8885 8883 AND\n2 1 8883 103159 103160 XOR\n2 1 971 103160 8887 XOR\n2 1 22245 22246 22244 AND\n2 1 22244 111960 111961 XOR\n2 1 111992 111961 95972 XOR\n2 1 98020 111961 22249 XOR\n2 1 100068 111961 22248 XOR\n2 1 22248 22249 22247 AND\n2 1 95972 111837 22068 XOR\n2 1 95972 93924 111868 XOR\n2 1 111868 111837 91925 XOR\n1 1 91925 22019 INV\n2 1 22068 22069 22067 AND\n2 1 22067 111837 111838 XOR\n2 1 93925 111838 22072 XOR\n2 1 95970 93922 111866 XOR\n2 1 111866 111835 91923 XOR\n2 1 111867 111836 91924 XOR\n1 1 91924 22018 INV\n2 1 22247 111961 111962 XOR\n",
"2 1 98021 111962 22252 XOR\n2 1 100069 111962 22251 XOR\n2 1 111993 111962 95973 XOR\n2 1 95973 93925 111869 XOR\n2 1 22251 22252 22250 AND\n2 1 22250 111962 111963 XOR\n2 1 98022 111963 22255 XOR\n2 1 111869 111838 91926 XOR\n2 1 95973 111838 22071 XOR\n2 1 111994 111963 95974 XOR\n2 1 95974 93926 111870 XOR\n2 1 22071 22072 22070 AND\n2 1 22070 111838 111839 XOR\n2 1 95974 111839 22074 XOR\n2 1 111870 111839 91927 XOR\n1 1 91927 22020 INV\n2 1 93926 111839 22075 XOR\n2 1 22074 22075 22073 AND\n2 1 22073 111839 111840 XOR\n2 1 93927 111840 22078 XOR\n2 1 100070 111963 22254 XOR\n2 1 22254 22255 22253 AND\n2 1 22253 111963 111964 XOR\n2 1 98023 111964 22258 XOR\n2 1 100071 111964 22257 XOR\n2 1 22257 22258 22256 AND\n2 1 111995 111964 95975 XOR\n2 1 95975 93927 111871 XOR\n2 1 22256 111964 111965 XOR\n2 1 100072 111965 22260 XOR\n2 1 111996 111965 95976 XOR\n2 1 98024 111965 22261 XOR\n2 1 22260 22261 22259 AND\n2 1 22259 111965 111966 XOR\n2 1 111997 111966 95977 XOR\n2 1 98025 111966 22264 XOR\n2 1 100073 111966 22263 XOR\n2 1 22263 22264 22262 AND\n2 1 22262 111966 111967 XOR\n2 1 98026 111967 22267 XOR\n2 1 111998 111967 95978 XOR\n2 1 95978 93930 111874 XOR\n2 1 95976 93928 111872 XOR\n2 1 100074 111967 22266 XOR\n2 1 95977 93929 111873 XOR\n2 1 95975 111840 22077 XOR\n2 1 22077 22078 22076 AND\n2 1 22076 111840 111841 XOR\n2 1 95976 111841 22080 XOR\n2 1 111872 111841 91929 XOR\n1 1 91929 22021 INV\n2 1 93928 111841 22081 XOR\n2 1 22080 22081 22079 AND\n2 1 22079 111841 111842 XOR\n2 1 93929 111842 22084 XOR\n2 1 111873 111842 91930 XOR\n2 1 95977 111842 22083 XOR\n2 1 22083 22084 22082 AND\n2 1 22082 111842 111843 XOR\n2 1 95978 111843 22086 XOR\n2 1 111874 111843 91931 XOR\n2 1 93930 111843 22087 XOR\n2 1 22086 22087 22085 AND\n2 1 22085 111843 111844 XOR\n2 1 93931 111844 22090 XOR\n2 1 22266 22267 22265 AND\n2 1 22265 111967 111968 XOR\n2 1 98027 111968 22270 XOR\n2 1 111999 111968 95979 XOR\n2 1 95979 111844 22089 XOR\n2 1 22089 22090 22088 AND\n2 1 22088 111844 111845 XOR\n2 1 93932 111845 22093 XOR\n2 1 100075 111968 22269 XOR\n2 1 22269 22270 22268 AND\n2 1 22268 111968 111969 XOR\n2 1 112000 111969 95980 XOR\n2 1 98028 111969 22273 XOR\n2 1 95980 111845 22092 XOR\n2 1 100076 111969 22272 XOR\n2 1 95980 93932 111876 XOR\n2 1 111876 111845 91933 XOR\n2 1 22092 22093 22091 AND\n2 1 22091 111845 111846 XOR\n2 1 93933 111846 22096 XOR\n2 1 95979 93931 111875 XOR\n2 1 111875 111844 91932 XOR\n1 1 91932 22022 INV\n2 1 22272 22273 22271 AND\n2 1 22271 111969 111970 XOR\n2 1 100077 111970 22275 XOR\n2 1 98029 111970 22276 XOR\n2 1 22275 22276 22274 AND\n2 1 22274 111970 111971 XOR\n2 1 112001 111970 95981 XOR\n2 1 95981 93933 111877 XOR\n2 1 95981 111846 22095 XOR\n2 1 22095 22096 22094 AND\n2 1 22094 111846 111847 XOR\n2 1 93934 111847 22099 XOR\n2 1 100078 111971 22278 XOR\n2 1 98030 111971 22279 XOR\n2 1 22278 22279 22277 AND\n2 1 22277 111971 111972 XOR\n2 1 112003 111972 95983 XOR\n2 1 100079 111972 22281 XOR\n2 1 98031 111972 22282 XOR\n2 1 22281 22282 22280 AND\n2 1 22280 111972 111973 XOR\n2 1 112004 111973 95984 XOR\n2 1 98032 111973 22285 XOR\n2 1 95984 93936 111880 XOR\n2 1 100080 111973 22284 XOR\n2 1 22284 22285 22283 AND\n2 1 22283 111973 111974 XOR\n2 1 98033 111974 22288 XOR\n2 1 112005 111974 95985 XOR\n2 1 95985 93937 111881 XOR\n2 1 111877 111846 91934 XOR\n1 1 91934 22023 INV\n2 1 111871 111840 91928 XOR\n2 1 100081 111974 22287 XOR\n2 1 22287 22288 22286 AND\n2 1 22286 111974 111975 XOR\n2 1 112006 111975 95986 XOR\n2 1 95986 93938 111882 XOR\n2 1 100082 111975 22290 XOR\n2 1 98034 111975 22291 XOR\n",
"2 1 22290 22291 22289 AND\n2 1 22289 111975 111976 XOR\n2 1 100083 111976 22293 XOR\n2 1 112007 111976 95987 XOR\n2 1 95987 93939 111883 XOR\n2 1 98035 111976 22294 XOR\n2 1 22293 22294 22292 AND\n2 1 22292 111976 111977 XOR\n2 1 112008 111977 95988 XOR\n2 1 95988 93940 111884 XOR\n2 1 100084 111977 22296 XOR\n2 1 98036 111977 22297 XOR\n2 1 22296 22297 22295 AND\n2 1 22295 111977 111978 XOR\n2 1 112009 111978 95989 XOR\n2 1 95989 93941 111885 XOR\n2 1 89883 21943 21942 AND\n2 1 21942 21943 21945 XOR\n2 1 91922 21945 89884 XOR\n2 1 971 89884 103191 XOR\n2 1 89884 21945 21944 AND\n2 1 21944 21945 21947 XOR\n2 1 89884 103160 8888 XOR\n2 1 8887 8888 8886 AND\n2 1 8886 103160 103161 XOR\n2 1 972 103161 8890 XOR\n2 1 91923 21947 89885 XOR\n2 1 972 89885 103192 XOR\n2 1 103192 103161 1292 XOR\n2 1 63195 1292 63163 AND\n2 1 63163 1356 97986 XOR\n2 1 1292 1324 63131 XOR\n2 1 75677 1292 110896 XOR\n2 1 1287 1292 60976 XOR\n2 1 89885 103161 8891 XOR\n2 1 89885 21947 21946 AND\n2 1 21946 21947 22000 XOR\n2 1 22018 22000 89886 XOR\n1 1 22000 21950 INV\n2 1 91924 22000 21949 XOR\n2 1 21949 21950 21948 AND\n2 1 21948 22000 22001 XOR\n2 1 22019 22001 89887 XOR\n2 1 974 89887 103194 XOR\n2 1 973 89886 103193 XOR\n1 1 22001 21953 INV\n2 1 91925 22001 21952 XOR\n2 1 21952 21953 21951 AND\n2 1 21951 22001 21955 XOR\n2 1 91926 21955 89888 XOR\n2 1 89888 21955 21954 AND\n2 1 21954 21955 22002 XOR\n2 1 91927 22002 21957 XOR\n2 1 22020 22002 89889 XOR\n2 1 976 89889 103196 XOR\n2 1 975 89888 103195 XOR\n1 1 22002 21958 INV\n2 1 21957 21958 21956 AND\n2 1 21956 22002 21960 XOR\n2 1 91928 21960 89890 XOR\n2 1 89890 21960 21959 AND\n2 1 977 89890 103197 XOR\n2 1 21959 21960 22003 XOR\n1 1 22003 21963 INV\n2 1 22021 22003 89891 XOR\n2 1 978 89891 103198 XOR\n2 1 91929 22003 21962 XOR\n2 1 21962 21963 21961 AND\n2 1 21961 22003 21965 XOR\n2 1 91930 21965 89892 XOR\n2 1 979 89892 103199 XOR\n2 1 89892 21965 21964 AND\n2 1 21964 21965 21967 XOR\n2 1 91931 21967 89893 XOR\n2 1 89893 21967 21966 AND\n2 1 21966 21967 22004 XOR\n2 1 91932 22004 21969 XOR\n2 1 980 89893 103200 XOR\n2 1 22022 22004 89894 XOR\n2 1 981 89894 103201 XOR\n1 1 22004 21970 INV\n2 1 21969 21970 21968 AND\n2 1 21968 22004 21972 XOR\n2 1 103191 103160 1291 XOR\n2 1 63194 1291 63162 AND\n2 1 63162 1355 97985 XOR\n2 1 1291 1323 63130 XOR\n2 1 75676 1291 110895 XOR\n2 1 1286 1291 60975 XOR\n2 1 91933 21972 89895 XOR\n2 1 89895 21972 21971 AND\n2 1 21971 21972 22005 XOR\n1 1 22005 21975 INV\n2 1 22023 22005 89896 XOR\n2 1 983 89896 103203 XOR\n2 1 91934 22005 21974 XOR\n2 1 21974 21975 21973 AND\n2 1 21973 22005 21977 XOR\n2 1 982 89895 103202 XOR\n2 1 95983 93935 111879 XOR\n2 1 100078 98030 112002 XOR\n2 1 112002 111971 95982 XOR\n2 1 95982 111847 22098 XOR\n2 1 22098 22099 22097 AND\n2 1 22097 111847 111848 XOR\n2 1 93935 111848 22102 XOR\n2 1 95983 111848 22101 XOR\n2 1 22101 22102 22100 AND\n2 1 22100 111848 111849 XOR\n2 1 111880 111849 91937 XOR\n2 1 111879 111848 91936 XOR\n2 1 93936 111849 22105 XOR\n2 1 95982 93934 111878 XOR\n2 1 95984 111849 22104 XOR\n2 1 22104 22105 22103 AND\n2 1 22103 111849 111850 XOR\n2 1 111881 111850 91938 XOR\n2 1 93937 111850 22108 XOR\n1 1 91938 22024 INV\n2 1 111878 111847 91935 XOR\n2 1 91935 21977 89897 XOR\n2 1 89897 21977 21976 AND\n2 1 21976 21977 21979 XOR\n2 1 91936 21979 89898 XOR\n2 1 89898 21979 21978 AND\n2 1 21978 21979 21981 XOR\n2 1 91937 21981 89899 XOR\n2 1 986 89899 103206 XOR\n",
"2 1 984 89897 103204 XOR\n2 1 95985 111850 22107 XOR\n2 1 985 89898 103205 XOR\n2 1 22107 22108 22106 AND\n2 1 22106 111850 111851 XOR\n2 1 93938 111851 22111 XOR\n2 1 111882 111851 91939 XOR\n1 1 91939 22025 INV\n2 1 95986 111851 22110 XOR\n2 1 22110 22111 22109 AND\n2 1 22109 111851 111852 XOR\n2 1 93939 111852 22114 XOR\n2 1 95987 111852 22113 XOR\n2 1 111883 111852 91940 XOR\n1 1 91940 22026 INV\n2 1 89899 21981 21980 AND\n2 1 21980 21981 22006 XOR\n2 1 91938 22006 21983 XOR\n1 1 22006 21984 INV\n2 1 21983 21984 21982 AND\n2 1 21982 22006 22007 XOR\n2 1 22025 22007 89901 XOR\n2 1 91939 22007 21986 XOR\n2 1 988 89901 103208 XOR\n1 1 22007 21987 INV\n2 1 21986 21987 21985 AND\n2 1 21985 22007 22008 XOR\n2 1 22026 22008 89902 XOR\n2 1 91940 22008 21989 XOR\n2 1 989 89902 103209 XOR\n1 1 22008 21990 INV\n2 1 21989 21990 21988 AND\n2 1 21988 22008 22009 XOR\n1 1 22009 21993 INV\n2 1 22024 22006 89900 XOR\n2 1 987 89900 103207 XOR\n2 1 22113 22114 22112 AND\n2 1 22112 111852 111853 XOR\n2 1 111884 111853 91941 XOR\n1 1 91941 22027 INV\n2 1 91941 22009 21992 XOR\n2 1 95988 111853 22116 XOR\n2 1 21992 21993 21991 AND\n2 1 21991 22009 22010 XOR\n2 1 93940 111853 22117 XOR\n2 1 22116 22117 22115 AND\n2 1 22115 111853 111854 XOR\n2 1 111885 111854 91942 XOR\n2 1 91942 22010 89904 XOR\n2 1 991 89904 103211 XOR\n2 1 22027 22009 89903 XOR\n2 1 990 89903 103210 XOR\n2 1 89916 103346 9157 XOR\n2 1 9157 9158 9156 AND\n2 1 9156 103346 103347 XOR\n2 1 83773 103347 9161 XOR\n2 1 89917 103347 9160 XOR\n2 1 9160 9161 9159 AND\n2 1 9159 103347 103348 XOR\n2 1 89918 103348 9163 XOR\n2 1 103379 103348 877 XOR\n2 1 877 941 69404 XOR\n2 1 877 909 69276 XOR\n2 1 866 877 66927 XOR\n2 1 103378 103347 876 XOR\n2 1 876 940 69403 XOR\n2 1 69403 69371 69339 AND\n2 1 865 876 66958 XOR\n2 1 69404 69372 69340 AND\n2 1 69340 941 85790 XOR\n2 1 83774 103348 9164 XOR\n2 1 9163 9164 9162 AND\n2 1 9162 103348 103349 XOR\n2 1 83775 103349 9167 XOR\n2 1 89919 103349 9166 XOR\n2 1 103380 103349 878 XOR\n2 1 878 942 69405 XOR\n2 1 878 910 69277 XOR\n2 1 69405 69373 69341 AND\n2 1 69341 942 85791 XOR\n2 1 69339 940 85789 XOR\n2 1 867 878 66928 XOR\n2 1 9166 9167 9165 AND\n2 1 9165 103349 103350 XOR\n2 1 83776 103350 9170 XOR\n2 1 89920 103350 9169 XOR\n2 1 9169 9170 9168 AND\n2 1 103381 103350 879 XOR\n2 1 879 943 69406 XOR\n2 1 879 911 69278 XOR\n2 1 69406 69374 69342 AND\n2 1 69342 943 85792 XOR\n2 1 868 879 66929 XOR\n2 1 9168 103350 103351 XOR\n2 1 89921 103351 9172 XOR\n2 1 83777 103351 9173 XOR\n2 1 9172 9173 9171 AND\n2 1 103382 103351 880 XOR\n2 1 880 912 69279 XOR\n2 1 9171 103351 103352 XOR\n2 1 103383 103352 881 XOR\n2 1 881 945 69408 XOR\n2 1 89922 103352 9175 XOR\n2 1 83778 103352 9176 XOR\n2 1 9175 9176 9174 AND\n2 1 881 913 69280 XOR\n2 1 69408 69376 69344 AND\n2 1 870 881 66931 XOR\n2 1 880 944 69407 XOR\n2 1 69407 69375 69343 AND\n2 1 69343 944 85793 XOR\n2 1 69344 945 85794 XOR\n2 1 869 880 66930 XOR\n2 1 9174 103352 103353 XOR\n2 1 103384 103353 882 XOR\n2 1 871 882 66932 XOR\n2 1 83779 103353 9179 XOR\n2 1 882 914 69281 XOR\n2 1 882 946 69409 XOR\n2 1 69409 69377 69345 AND\n2 1 69345 946 85795 XOR\n2 1 89923 103353 9178 XOR\n2 1 9178 9179 9177 AND\n2 1 9177 103353 103354 XOR\n2 1 103385 103354 883 XOR\n2 1 83780 103354 9182 XOR\n2 1 883 947 69410 XOR\n2 1 89924 103354 9181 XOR\n",
"2 1 883 915 69282 XOR\n2 1 69410 69378 69346 AND\n2 1 69346 947 85796 XOR\n2 1 9181 9182 9180 AND\n2 1 9180 103354 103355 XOR\n2 1 103386 103355 884 XOR\n2 1 66957 884 87855 XOR\n2 1 89925 103355 9184 XOR\n2 1 873 884 66934 XOR\n2 1 884 916 69283 XOR\n2 1 83781 103355 9185 XOR\n2 1 9184 9185 9183 AND\n2 1 9183 103355 103356 XOR\n2 1 83782 103356 9188 XOR\n2 1 89926 103356 9187 XOR\n2 1 103387 103356 885 XOR\n2 1 874 885 66935 XOR\n2 1 885 864 66946 XOR\n2 1 885 949 69412 XOR\n2 1 885 917 69284 XOR\n2 1 69412 69380 69348 AND\n2 1 69348 949 85798 XOR\n2 1 9187 9188 9186 AND\n2 1 9186 103356 103357 XOR\n2 1 89927 103357 9190 XOR\n2 1 103388 103357 886 XOR\n2 1 886 950 69413 XOR\n2 1 886 865 66947 XOR\n2 1 66927 886 87825 XOR\n2 1 87825 85777 83729 XOR\n2 1 89873 83729 103212 AND\n2 1 89874 103212 8947 XOR\n2 1 69413 69381 69349 AND\n2 1 69349 950 85799 XOR\n2 1 87825 85777 111762 AND\n2 1 85778 111762 21830 XOR\n2 1 89873 83729 832 XOR\n2 1 832 896 69295 XOR\n2 1 832 864 69167 XOR\n2 1 69295 69263 69231 AND\n2 1 886 918 69285 XOR\n2 1 66947 874 87845 XOR\n2 1 884 948 69411 XOR\n2 1 69411 69379 69347 AND\n2 1 69347 948 85797 XOR\n2 1 87845 85797 111812 XOR\n2 1 875 886 66936 XOR\n2 1 66958 885 87856 XOR\n2 1 66946 873 87844 XOR\n2 1 87844 85796 111811 XOR\n2 1 872 883 66933 XOR\n2 1 69231 896 85745 XOR\n2 1 83783 103357 9191 XOR\n2 1 9190 9191 9189 AND\n2 1 9189 103357 103358 XOR\n2 1 89928 103358 9193 XOR\n2 1 103389 103358 887 XOR\n2 1 887 951 69414 XOR\n2 1 66928 887 87826 XOR\n2 1 87826 85778 111793 XOR\n2 1 87826 111762 21829 XOR\n2 1 21829 21830 21828 AND\n2 1 111793 111762 83730 XOR\n2 1 83730 103212 8948 XOR\n2 1 89874 83730 103243 XOR\n2 1 887 919 69286 XOR\n2 1 21828 111762 111763 XOR\n2 1 69414 69382 69350 AND\n2 1 69350 951 85800 XOR\n2 1 103243 103212 833 XOR\n2 1 833 897 69296 XOR\n2 1 69296 69264 69232 AND\n2 1 69232 897 85746 XOR\n2 1 833 865 69168 XOR\n2 1 876 887 66937 XOR\n2 1 66937 864 87835 XOR\n2 1 87835 85787 111802 XOR\n2 1 887 866 66948 XOR\n2 1 66948 875 87846 XOR\n2 1 87846 85798 111813 XOR\n2 1 85779 111763 21833 XOR\n2 1 8947 8948 8946 AND\n2 1 8946 103212 103213 XOR\n2 1 89875 103213 8950 XOR\n2 1 876 908 69275 XOR\n2 1 83784 103358 9194 XOR\n2 1 9193 9194 9192 AND\n2 1 9192 103358 103359 XOR\n2 1 103390 103359 888 XOR\n2 1 888 920 69287 XOR\n2 1 888 867 66949 XOR\n2 1 89929 103359 9196 XOR\n2 1 66929 888 87827 XOR\n2 1 87827 85779 111794 XOR\n2 1 111794 111763 83731 XOR\n2 1 83731 103213 8951 XOR\n2 1 89875 83731 103244 XOR\n2 1 87827 111763 21832 XOR\n2 1 21832 21833 21831 AND\n2 1 21831 111763 111764 XOR\n2 1 85780 111764 21836 XOR\n2 1 103244 103213 834 XOR\n2 1 834 898 69297 XOR\n2 1 69297 69265 69233 AND\n2 1 69233 898 85747 XOR\n2 1 834 866 69169 XOR\n2 1 8950 8951 8949 AND\n2 1 8949 103213 103214 XOR\n2 1 89876 103214 8953 XOR\n2 1 83785 103359 9197 XOR\n2 1 9196 9197 9195 AND\n2 1 9195 103359 103360 XOR\n2 1 83786 103360 9200 XOR\n2 1 89930 103360 9199 XOR\n2 1 877 888 66938 XOR\n2 1 66938 865 87836 XOR\n2 1 87836 85788 111803 XOR\n2 1 66949 876 87847 XOR\n2 1 87847 85799 111814 XOR\n2 1 103391 103360 889 XOR\n2 1 878 889 66939 XOR\n2 1 66939 866 87837 XOR\n2 1 87837 85789 111804 XOR\n2 1 889 953 69416 XOR\n2 1 66930 889 87828 XOR\n2 1 87828 85780 111795 XOR\n2 1 111795 111764 83732 XOR\n2 1 89876 83732 103245 XOR\n",
"2 1 103245 103214 835 XOR\n2 1 835 899 69298 XOR\n2 1 83732 103214 8954 XOR\n2 1 87828 111764 21835 XOR\n2 1 21835 21836 21834 AND\n2 1 21834 111764 111765 XOR\n2 1 85781 111765 21839 XOR\n2 1 69416 69384 69352 AND\n2 1 69352 953 85802 XOR\n2 1 889 921 69288 XOR\n2 1 835 867 69170 XOR\n2 1 8953 8954 8952 AND\n2 1 8952 103214 103215 XOR\n2 1 889 868 66950 XOR\n2 1 66950 877 87848 XOR\n2 1 87848 85800 111815 XOR\n2 1 69298 69266 69234 AND\n2 1 69234 899 85748 XOR\n2 1 888 952 69415 XOR\n2 1 69415 69383 69351 AND\n2 1 69351 952 85801 XOR\n2 1 89877 103215 8956 XOR\n2 1 9199 9200 9198 AND\n2 1 9198 103360 103361 XOR\n2 1 89931 103361 9202 XOR\n2 1 103392 103361 890 XOR\n2 1 890 869 66951 XOR\n2 1 66951 878 87849 XOR\n2 1 890 954 69417 XOR\n2 1 83787 103361 9203 XOR\n2 1 890 922 69289 XOR\n2 1 69417 69385 69353 AND\n2 1 69353 954 85803 XOR\n2 1 9202 9203 9201 AND\n2 1 9201 103361 103362 XOR\n2 1 103393 103362 891 XOR\n2 1 891 955 69418 XOR\n2 1 66932 891 87830 XOR\n2 1 69418 69386 69354 AND\n2 1 69354 955 85804 XOR\n2 1 83788 103362 9206 XOR\n2 1 891 923 69290 XOR\n2 1 87849 85801 111816 XOR\n2 1 87830 85782 111797 XOR\n2 1 891 870 66952 XOR\n2 1 66952 879 87850 XOR\n2 1 87850 85802 111817 XOR\n2 1 879 890 66940 XOR\n2 1 66940 867 87838 XOR\n2 1 87838 85790 111805 XOR\n2 1 880 891 66941 XOR\n2 1 66931 890 87829 XOR\n2 1 87829 85781 111796 XOR\n2 1 111796 111765 83733 XOR\n2 1 87829 111765 21838 XOR\n2 1 21838 21839 21837 AND\n2 1 21837 111765 111766 XOR\n2 1 111797 111766 83734 XOR\n2 1 89878 83734 103247 XOR\n2 1 85782 111766 21842 XOR\n2 1 87830 111766 21841 XOR\n2 1 21841 21842 21840 AND\n2 1 21840 111766 111767 XOR\n2 1 85783 111767 21845 XOR\n2 1 89877 83733 103246 XOR\n2 1 103246 103215 836 XOR\n2 1 836 868 69171 XOR\n2 1 836 900 69299 XOR\n2 1 69299 69267 69235 AND\n2 1 69235 900 85749 XOR\n2 1 66941 868 87839 XOR\n2 1 87839 85791 111806 XOR\n2 1 89932 103362 9205 XOR\n2 1 9205 9206 9204 AND\n2 1 9204 103362 103363 XOR\n2 1 89933 103363 9208 XOR\n2 1 103394 103363 892 XOR\n2 1 66933 892 87831 XOR\n2 1 87831 85783 111798 XOR\n2 1 111798 111767 83735 XOR\n2 1 89879 83735 103248 XOR\n2 1 87831 111767 21844 XOR\n2 1 21844 21845 21843 AND\n2 1 21843 111767 111768 XOR\n2 1 85784 111768 21848 XOR\n2 1 83789 103363 9209 XOR\n2 1 9208 9209 9207 AND\n2 1 9207 103363 103364 XOR\n2 1 83790 103364 9212 XOR\n2 1 89934 103364 9211 XOR\n2 1 9211 9212 9210 AND\n2 1 9210 103364 103365 XOR\n2 1 89935 103365 9214 XOR\n2 1 103395 103364 893 XOR\n2 1 66934 893 87832 XOR\n2 1 87832 85784 111799 XOR\n2 1 882 893 66943 XOR\n2 1 893 925 69292 XOR\n2 1 66943 870 87841 XOR\n2 1 111799 111768 83736 XOR\n2 1 89880 83736 103249 XOR\n2 1 87832 111768 21847 XOR\n2 1 21847 21848 21846 AND\n2 1 21846 111768 111769 XOR\n2 1 85785 111769 21851 XOR\n2 1 87841 85793 111808 XOR\n2 1 892 956 69419 XOR\n2 1 69419 69387 69355 AND\n2 1 69355 956 85805 XOR\n2 1 893 957 69420 XOR\n2 1 69420 69388 69356 AND\n2 1 69356 957 85806 XOR\n2 1 892 871 66953 XOR\n2 1 66953 880 87851 XOR\n2 1 893 872 66954 XOR\n2 1 66954 881 87852 XOR\n2 1 87852 85804 111819 XOR\n2 1 881 892 66942 XOR\n2 1 66942 869 87840 XOR\n2 1 87840 85792 111807 XOR\n2 1 83791 103365 9215 XOR\n2 1 9214 9215 9213 AND\n2 1 9213 103365 103366 XOR\n2 1 103397 103366 895 XOR\n2 1 895 959 69422 XOR\n2 1 884 895 66945 XOR\n2 1 895 874 66956 XOR\n2 1 895 927 69294 XOR\n",
"2 1 66945 872 87843 XOR\n2 1 87843 85795 111810 XOR\n2 1 69422 69390 69358 AND\n2 1 69358 959 85808 XOR\n2 1 87856 85808 111823 XOR\n2 1 66956 883 87854 XOR\n2 1 87854 85806 111821 XOR\n2 1 66936 895 87834 XOR\n2 1 87834 85786 111801 XOR\n2 1 892 924 69291 XOR\n2 1 83733 103215 8957 XOR\n2 1 8956 8957 8955 AND\n2 1 8955 103215 103216 XOR\n2 1 103247 103216 837 XOR\n2 1 837 901 69300 XOR\n2 1 69300 69268 69236 AND\n2 1 837 869 69172 XOR\n2 1 83734 103216 8960 XOR\n2 1 89878 103216 8959 XOR\n2 1 8959 8960 8958 AND\n2 1 8958 103216 103217 XOR\n2 1 103248 103217 838 XOR\n2 1 838 902 69301 XOR\n2 1 838 870 69173 XOR\n2 1 69236 901 85750 XOR\n2 1 89879 103217 8962 XOR\n2 1 83735 103217 8963 XOR\n2 1 8962 8963 8961 AND\n2 1 8961 103217 103218 XOR\n2 1 103249 103218 839 XOR\n2 1 83736 103218 8966 XOR\n2 1 89880 103218 8965 XOR\n2 1 69301 69269 69237 AND\n2 1 69237 902 85751 XOR\n2 1 8965 8966 8964 AND\n2 1 8964 103218 103219 XOR\n2 1 839 871 69174 XOR\n2 1 839 903 69302 XOR\n2 1 69302 69270 69238 AND\n2 1 69238 903 85752 XOR\n2 1 89881 103219 8968 XOR\n2 1 103396 103365 894 XOR\n2 1 883 894 66944 XOR\n2 1 894 958 69421 XOR\n2 1 69421 69389 69357 AND\n2 1 69357 958 85807 XOR\n2 1 87855 85807 111822 XOR\n2 1 66935 894 87833 XOR\n2 1 87833 111769 21850 XOR\n2 1 87833 85785 111800 XOR\n2 1 111800 111769 83737 XOR\n2 1 83737 103219 8969 XOR\n2 1 894 926 69293 XOR\n2 1 894 873 66955 XOR\n2 1 66944 871 87842 XOR\n2 1 87842 85794 111809 XOR\n2 1 21850 21851 21849 AND\n2 1 21849 111769 111770 XOR\n2 1 85786 111770 21854 XOR\n2 1 111801 111770 83738 XOR\n2 1 87834 111770 21853 XOR\n2 1 21853 21854 21852 AND\n2 1 21852 111770 111771 XOR\n2 1 111802 111771 83739 XOR\n2 1 89883 83739 103252 XOR\n2 1 85787 111771 21857 XOR\n2 1 89882 83738 103251 XOR\n2 1 87835 111771 21856 XOR\n2 1 66955 882 87853 XOR\n2 1 87853 85805 111820 XOR\n2 1 8968 8969 8967 AND\n2 1 89881 83737 103250 XOR\n2 1 103250 103219 840 XOR\n2 1 840 872 69175 XOR\n2 1 840 904 69303 XOR\n2 1 69303 69271 69239 AND\n2 1 69239 904 85753 XOR\n2 1 21856 21857 21855 AND\n2 1 21855 111771 111772 XOR\n2 1 85788 111772 21860 XOR\n2 1 111803 111772 83740 XOR\n2 1 89884 83740 103253 XOR\n2 1 87836 111772 21859 XOR\n2 1 21859 21860 21858 AND\n2 1 21858 111772 111773 XOR\n2 1 111804 111773 83741 XOR\n2 1 89885 83741 103254 XOR\n2 1 87837 111773 21862 XOR\n2 1 85789 111773 21863 XOR\n2 1 21862 21863 21861 AND\n2 1 21861 111773 111774 XOR\n2 1 85790 111774 21866 XOR\n2 1 111805 111774 83742 XOR\n2 1 87838 111774 21865 XOR\n2 1 21865 21866 21864 AND\n2 1 21864 111774 111775 XOR\n2 1 111806 111775 83743 XOR\n2 1 89887 83743 103256 XOR\n2 1 87839 111775 21868 XOR\n2 1 85791 111775 21869 XOR\n2 1 21868 21869 21867 AND\n2 1 21867 111775 111776 XOR\n2 1 85792 111776 21872 XOR\n2 1 87840 111776 21871 XOR\n2 1 111807 111776 83744 XOR\n2 1 89888 83744 103257 XOR\n2 1 21871 21872 21870 AND\n2 1 21870 111776 111777 XOR\n2 1 87841 111777 21874 XOR\n2 1 111808 111777 83745 XOR\n2 1 89889 83745 103258 XOR\n2 1 85793 111777 21875 XOR\n2 1 21874 21875 21873 AND\n2 1 21873 111777 111778 XOR\n2 1 85794 111778 21878 XOR\n2 1 111809 111778 83746 XOR\n2 1 89890 83746 103259 XOR\n2 1 87842 111778 21877 XOR\n2 1 21877 21878 21876 AND\n2 1 21876 111778 111779 XOR\n2 1 87843 111779 21880 XOR\n2 1 111810 111779 83747 XOR\n2 1 89891 83747 103260 XOR\n2 1 89886 83742 103255 XOR\n2 1 85795 111779 21881 XOR\n2 1 21880 21881 21879 AND\n2 1 21879 111779 111780 XOR\n2 1 111811 111780 83748 XOR\n",
"2 1 85796 111780 21884 XOR\n2 1 87844 111780 21883 XOR\n2 1 21883 21884 21882 AND\n2 1 21882 111780 111781 XOR\n2 1 87845 111781 21886 XOR\n2 1 85797 111781 21887 XOR\n2 1 21886 21887 21885 AND\n2 1 21885 111781 111782 XOR\n2 1 111813 111782 83750 XOR\n2 1 89894 83750 103263 XOR\n2 1 87846 111782 21889 XOR\n2 1 85798 111782 21890 XOR\n2 1 21889 21890 21888 AND\n2 1 21888 111782 111783 XOR\n2 1 111814 111783 83751 XOR\n2 1 89895 83751 103264 XOR\n2 1 85799 111783 21893 XOR\n2 1 89892 83748 103261 XOR\n2 1 8967 103219 103220 XOR\n2 1 83738 103220 8972 XOR\n2 1 89882 103220 8971 XOR\n2 1 8971 8972 8970 AND\n2 1 8970 103220 103221 XOR\n2 1 83739 103221 8975 XOR\n2 1 103252 103221 842 XOR\n2 1 842 906 69305 XOR\n2 1 842 874 69177 XOR\n2 1 89883 103221 8974 XOR\n2 1 69305 69273 69241 AND\n2 1 69241 906 85755 XOR\n2 1 103251 103220 841 XOR\n2 1 841 873 69176 XOR\n2 1 841 905 69304 XOR\n2 1 69304 69272 69240 AND\n2 1 69240 905 85754 XOR\n2 1 8974 8975 8973 AND\n2 1 8973 103221 103222 XOR\n2 1 83740 103222 8978 XOR\n2 1 103253 103222 843 XOR\n2 1 843 907 69306 XOR\n2 1 843 875 69178 XOR\n2 1 69306 69274 69242 AND\n2 1 69242 907 85756 XOR\n2 1 87847 111783 21892 XOR\n2 1 21892 21893 21891 AND\n2 1 21891 111783 111784 XOR\n2 1 87848 111784 21895 XOR\n2 1 85800 111784 21896 XOR\n2 1 21895 21896 21894 AND\n2 1 21894 111784 111785 XOR\n2 1 111816 111785 83753 XOR\n2 1 89897 83753 103266 XOR\n2 1 87849 111785 21898 XOR\n2 1 85801 111785 21899 XOR\n2 1 21898 21899 21897 AND\n2 1 21897 111785 111786 XOR\n2 1 111817 111786 83754 XOR\n2 1 87850 111786 21901 XOR\n2 1 85802 111786 21902 XOR\n2 1 21901 21902 21900 AND\n2 1 21900 111786 111787 XOR\n2 1 87851 111787 21904 XOR\n2 1 85803 111787 21905 XOR\n2 1 21904 21905 21903 AND\n2 1 21903 111787 111788 XOR\n2 1 111819 111788 83756 XOR\n2 1 89900 83756 103269 XOR\n2 1 87852 111788 21907 XOR\n2 1 85804 111788 21908 XOR\n2 1 21907 21908 21906 AND\n2 1 21906 111788 111789 XOR\n2 1 111820 111789 83757 XOR\n2 1 87853 111789 21910 XOR\n2 1 85805 111789 21911 XOR\n2 1 21910 21911 21909 AND\n2 1 21909 111789 111790 XOR\n2 1 111821 111790 83758 XOR\n2 1 89902 83758 103271 XOR\n2 1 87854 111790 21913 XOR\n2 1 85806 111790 21914 XOR\n2 1 21913 21914 21912 AND\n2 1 21912 111790 111791 XOR\n2 1 111822 111791 83759 XOR\n2 1 89903 83759 103272 XOR\n2 1 87855 111791 21916 XOR\n2 1 85807 111791 21917 XOR\n2 1 21916 21917 21915 AND\n2 1 21915 111791 111792 XOR\n2 1 111823 111792 83760 XOR\n2 1 89898 83754 103267 XOR\n2 1 89901 83757 103270 XOR\n2 1 89904 83760 103273 XOR\n2 1 111815 111784 83752 XOR\n2 1 89896 83752 103265 XOR\n2 1 832 843 66925 XOR\n2 1 111812 111781 83749 XOR\n2 1 89893 83749 103262 XOR\n2 1 8890 8891 8889 AND\n2 1 8889 103161 103162 XOR\n2 1 89886 103162 8894 XOR\n2 1 103193 103162 1293 XOR\n2 1 63196 1293 63164 AND\n2 1 63164 1357 97987 XOR\n2 1 1293 1325 63132 XOR\n2 1 1288 1293 60977 XOR\n2 1 973 103162 8893 XOR\n2 1 8893 8894 8892 AND\n2 1 8892 103162 103163 XOR\n2 1 103194 103163 1294 XOR\n2 1 63197 1294 63165 AND\n2 1 63165 1358 97988 XOR\n2 1 1294 1326 63133 XOR\n2 1 75679 1294 110898 XOR\n2 1 1289 1294 60978 XOR\n2 1 89887 103163 8897 XOR\n2 1 974 103163 8896 XOR\n2 1 8896 8897 8895 AND\n2 1 8895 103163 103164 XOR\n2 1 89888 103164 8900 XOR\n2 1 103195 103164 1295 XOR\n2 1 63198 1295 63166 AND\n2 1 63166 1359 97989 XOR\n2 1 1295 1327 63134 XOR\n2 1 1290 1295 60979 XOR\n2 1 75680 1295 110899 XOR\n2 1 75678 1293 110897 XOR\n2 1 89884 103222 8977 XOR\n2 1 8977 8978 8976 AND\n",
"2 1 8976 103222 103223 XOR\n2 1 83741 103223 8981 XOR\n2 1 103254 103223 844 XOR\n2 1 833 844 66926 XOR\n2 1 844 908 69307 XOR\n2 1 844 876 69179 XOR\n2 1 69307 69275 69243 AND\n2 1 69243 908 85757 XOR\n2 1 89885 103223 8980 XOR\n2 1 8980 8981 8979 AND\n2 1 8979 103223 103224 XOR\n2 1 103255 103224 845 XOR\n2 1 834 845 66895 XOR\n2 1 845 877 69180 XOR\n2 1 89886 103224 8983 XOR\n2 1 845 909 69308 XOR\n2 1 69308 69276 69244 AND\n2 1 69244 909 85758 XOR\n2 1 83742 103224 8984 XOR\n2 1 8983 8984 8982 AND\n2 1 8982 103224 103225 XOR\n2 1 83743 103225 8987 XOR\n2 1 103256 103225 846 XOR\n2 1 846 910 69309 XOR\n2 1 835 846 66896 XOR\n2 1 69309 69277 69245 AND\n2 1 69245 910 85759 XOR\n2 1 846 878 69181 XOR\n2 1 89887 103225 8986 XOR\n2 1 8986 8987 8985 AND\n2 1 8985 103225 103226 XOR\n2 1 103257 103226 847 XOR\n2 1 847 879 69182 XOR\n2 1 847 911 69310 XOR\n2 1 69310 69278 69246 AND\n2 1 89888 103226 8989 XOR\n2 1 69246 911 85760 XOR\n2 1 83744 103226 8990 XOR\n2 1 8989 8990 8988 AND\n2 1 8988 103226 103227 XOR\n2 1 83745 103227 8993 XOR\n2 1 103258 103227 848 XOR\n2 1 848 912 69311 XOR\n2 1 837 848 66898 XOR\n2 1 69311 69279 69247 AND\n2 1 69247 912 85761 XOR\n2 1 89889 103227 8992 XOR\n2 1 8992 8993 8991 AND\n2 1 8991 103227 103228 XOR\n2 1 103259 103228 849 XOR\n2 1 89890 103228 8995 XOR\n2 1 849 913 69312 XOR\n2 1 69312 69280 69248 AND\n2 1 69248 913 85762 XOR\n2 1 838 849 66899 XOR\n2 1 83746 103228 8996 XOR\n2 1 8995 8996 8994 AND\n2 1 8994 103228 103229 XOR\n2 1 83747 103229 8999 XOR\n2 1 89891 103229 8998 XOR\n2 1 103260 103229 850 XOR\n2 1 850 914 69313 XOR\n2 1 839 850 66900 XOR\n2 1 850 882 69185 XOR\n2 1 69313 69281 69249 AND\n2 1 69249 914 85763 XOR\n2 1 8998 8999 8997 AND\n2 1 8997 103229 103230 XOR\n2 1 89892 103230 9001 XOR\n2 1 83748 103230 9002 XOR\n2 1 103261 103230 851 XOR\n2 1 851 883 69186 XOR\n2 1 840 851 66901 XOR\n2 1 851 915 69314 XOR\n2 1 69314 69282 69250 AND\n2 1 69250 915 85764 XOR\n2 1 9001 9002 9000 AND\n2 1 9000 103230 103231 XOR\n2 1 83749 103231 9005 XOR\n2 1 103262 103231 852 XOR\n2 1 841 852 66902 XOR\n2 1 852 884 69187 XOR\n2 1 66925 852 87823 XOR\n2 1 852 916 69315 XOR\n2 1 69315 69283 69251 AND\n2 1 69251 916 85765 XOR\n2 1 848 880 69183 XOR\n2 1 89893 103231 9004 XOR\n2 1 9004 9005 9003 AND\n2 1 9003 103231 103232 XOR\n2 1 89894 103232 9007 XOR\n2 1 83750 103232 9008 XOR\n2 1 9007 9008 9006 AND\n2 1 9006 103232 103233 XOR\n2 1 103264 103233 854 XOR\n2 1 843 854 66904 XOR\n2 1 854 833 66915 XOR\n2 1 854 918 69317 XOR\n2 1 69317 69285 69253 AND\n2 1 69253 918 85767 XOR\n2 1 103263 103232 853 XOR\n2 1 66926 853 87824 XOR\n2 1 853 885 69188 XOR\n2 1 842 853 66903 XOR\n2 1 853 832 66914 XOR\n2 1 66914 841 87812 XOR\n2 1 87812 85764 111553 XOR\n2 1 66895 854 87793 XOR\n2 1 87793 85745 83697 XOR\n2 1 87793 85745 111504 AND\n2 1 89895 103233 9010 XOR\n2 1 66915 842 87813 XOR\n2 1 87813 85765 111554 XOR\n2 1 853 917 69316 XOR\n2 1 69316 69284 69252 AND\n2 1 69252 917 85766 XOR\n2 1 85746 111504 21396 XOR\n2 1 83751 103233 9011 XOR\n2 1 9010 9011 9009 AND\n2 1 9009 103233 103234 XOR\n2 1 89896 103234 9013 XOR\n2 1 83752 103234 9014 XOR\n2 1 9013 9014 9012 AND\n2 1 9012 103234 103235 XOR\n2 1 83753 103235 9017 XOR\n2 1 89897 103235 9016 XOR\n2 1 9016 9017 9015 AND\n2 1 9015 103235 103236 XOR\n",
"2 1 89898 103236 9019 XOR\n2 1 83754 103236 9020 XOR\n2 1 9019 9020 9018 AND\n2 1 9018 103236 103237 XOR\n2 1 89899 103237 9022 XOR\n2 1 103267 103236 857 XOR\n2 1 857 836 66918 XOR\n2 1 66918 845 87816 XOR\n2 1 846 857 66907 XOR\n2 1 66907 834 87805 XOR\n2 1 87805 85757 111546 XOR\n2 1 857 889 69192 XOR\n2 1 103265 103234 855 XOR\n2 1 66896 855 87794 XOR\n2 1 87794 111504 21395 XOR\n2 1 21395 21396 21394 AND\n2 1 855 919 69318 XOR\n2 1 855 834 66916 XOR\n2 1 69318 69286 69254 AND\n2 1 855 887 69190 XOR\n2 1 69254 919 85768 XOR\n2 1 87816 85768 111557 XOR\n2 1 66898 857 87796 XOR\n2 1 21394 111504 111505 XOR\n2 1 85747 111505 21399 XOR\n2 1 857 921 69320 XOR\n2 1 69320 69288 69256 AND\n2 1 69256 921 85770 XOR\n2 1 87794 85746 111535 XOR\n2 1 111535 111504 83698 XOR\n2 1 66916 843 87814 XOR\n2 1 87814 85766 111555 XOR\n2 1 87796 85748 111537 XOR\n2 1 103266 103235 856 XOR\n2 1 856 835 66917 XOR\n2 1 845 856 66906 XOR\n2 1 66906 833 87804 XOR\n2 1 856 920 69319 XOR\n2 1 66917 844 87815 XOR\n2 1 87815 85767 111556 XOR\n2 1 69319 69287 69255 AND\n2 1 69255 920 85769 XOR\n2 1 856 888 69191 XOR\n2 1 87804 85756 111545 XOR\n2 1 849 881 69184 XOR\n2 1 87851 85803 111818 XOR\n2 1 111818 111787 83755 XOR\n2 1 89899 83755 103268 XOR\n2 1 103268 103237 858 XOR\n2 1 858 837 66919 XOR\n2 1 858 890 69193 XOR\n2 1 858 922 69321 XOR\n2 1 66919 846 87817 XOR\n2 1 87817 85769 111558 XOR\n2 1 847 858 66908 XOR\n2 1 66908 835 87806 XOR\n2 1 66899 858 87797 XOR\n2 1 83755 103237 9023 XOR\n2 1 9022 9023 9021 AND\n2 1 9021 103237 103238 XOR\n2 1 83756 103238 9026 XOR\n2 1 103269 103238 859 XOR\n2 1 859 838 66920 XOR\n2 1 66900 859 87798 XOR\n2 1 66920 847 87818 XOR\n2 1 859 923 69322 XOR\n2 1 859 891 69194 XOR\n2 1 89900 103238 9025 XOR\n2 1 9025 9026 9024 AND\n2 1 9024 103238 103239 XOR\n2 1 89901 103239 9028 XOR\n2 1 83757 103239 9029 XOR\n2 1 9028 9029 9027 AND\n2 1 9027 103239 103240 XOR\n2 1 103271 103240 861 XOR\n2 1 861 840 66922 XOR\n2 1 66922 849 87820 XOR\n2 1 861 925 69324 XOR\n2 1 69324 69292 69260 AND\n2 1 69260 925 85774 XOR\n2 1 83758 103240 9032 XOR\n2 1 861 893 69196 XOR\n2 1 103270 103239 860 XOR\n2 1 66901 860 87799 XOR\n2 1 89902 103240 9031 XOR\n2 1 860 924 69323 XOR\n2 1 69323 69291 69259 AND\n2 1 69259 924 85773 XOR\n2 1 66902 861 87800 XOR\n2 1 860 839 66921 XOR\n2 1 66921 848 87819 XOR\n2 1 69322 69290 69258 AND\n2 1 9031 9032 9030 AND\n2 1 9030 103240 103241 XOR\n2 1 83759 103241 9035 XOR\n2 1 860 892 69195 XOR\n2 1 850 861 66911 XOR\n2 1 66911 838 87809 XOR\n2 1 87806 85758 111547 XOR\n2 1 849 860 66910 XOR\n2 1 66910 837 87808 XOR\n2 1 87799 85751 111540 XOR\n2 1 87798 85750 111539 XOR\n2 1 87797 85749 111538 XOR\n2 1 87809 85761 111550 XOR\n2 1 87800 85752 111541 XOR\n2 1 87808 85760 111549 XOR\n2 1 87818 85770 111559 XOR\n2 1 848 859 66909 XOR\n2 1 66909 836 87807 XOR\n2 1 87807 85759 111548 XOR\n2 1 69321 69289 69257 AND\n2 1 69257 922 85771 XOR\n2 1 87819 85771 111560 XOR\n2 1 69258 923 85772 XOR\n2 1 87820 85772 111561 XOR\n2 1 103272 103241 862 XOR\n2 1 66903 862 87801 XOR\n2 1 862 841 66923 XOR\n2 1 862 894 69197 XOR\n2 1 862 926 69325 XOR\n2 1 69325 69293 69261 AND\n2 1 87801 85753 111542 XOR\n2 1 851 862 66912 XOR\n2 1 66912 839 87810 XOR\n2 1 69261 926 85775 XOR\n2 1 87823 85775 111564 XOR\n2 1 66923 850 87821 XOR\n",
"2 1 87810 85762 111551 XOR\n2 1 87821 85773 111562 XOR\n2 1 89903 103241 9034 XOR\n2 1 9034 9035 9033 AND\n2 1 9033 103241 103242 XOR\n2 1 103273 103242 863 XOR\n2 1 863 842 66924 XOR\n2 1 66924 851 87822 XOR\n2 1 66904 863 87802 XOR\n2 1 87802 85754 111543 XOR\n2 1 863 895 69198 XOR\n2 1 863 927 69326 XOR\n2 1 69326 69294 69262 AND\n2 1 69262 927 85776 XOR\n2 1 87824 85776 111565 XOR\n2 1 852 863 66913 XOR\n2 1 66913 840 87811 XOR\n2 1 87811 85763 111552 XOR\n2 1 87822 85774 111563 XOR\n2 1 854 886 69189 XOR\n2 1 975 103164 8899 XOR\n2 1 8899 8900 8898 AND\n2 1 8898 103164 103165 XOR\n2 1 103196 103165 1296 XOR\n2 1 63199 1296 63167 AND\n2 1 63167 1360 97990 XOR\n2 1 1296 1328 63135 XOR\n2 1 976 103165 8902 XOR\n2 1 1291 1296 60980 XOR\n2 1 89889 103165 8903 XOR\n2 1 8902 8903 8901 AND\n2 1 8901 103165 103166 XOR\n2 1 103197 103166 1297 XOR\n2 1 63200 1297 63168 AND\n2 1 63168 1361 97991 XOR\n2 1 1297 1329 63136 XOR\n2 1 1292 1297 60981 XOR\n2 1 75682 1297 110901 XOR\n2 1 89890 103166 8906 XOR\n2 1 977 103166 8905 XOR\n2 1 8905 8906 8904 AND\n2 1 8904 103166 103167 XOR\n2 1 978 103167 8908 XOR\n2 1 89891 103167 8909 XOR\n2 1 8908 8909 8907 AND\n2 1 103198 103167 1298 XOR\n2 1 63201 1298 63169 AND\n2 1 63169 1362 97992 XOR\n2 1 1298 1330 63137 XOR\n2 1 75683 1298 110902 XOR\n2 1 1293 1298 60982 XOR\n2 1 60982 1280 100029 XOR\n2 1 100029 97981 111737 XOR\n2 1 75681 1296 110900 XOR\n2 1 8907 103167 103168 XOR\n2 1 103199 103168 1299 XOR\n2 1 63202 1299 63170 AND\n2 1 63170 1363 97993 XOR\n2 1 1299 1331 63138 XOR\n2 1 1294 1299 60983 XOR\n2 1 61001 1299 100048 XOR\n2 1 60983 1281 100030 XOR\n2 1 75684 1299 110903 XOR\n2 1 979 103168 8911 XOR\n2 1 100030 97982 111738 XOR\n2 1 89892 103168 8912 XOR\n2 1 8911 8912 8910 AND\n2 1 8910 103168 103169 XOR\n2 1 89893 103169 8915 XOR\n2 1 980 103169 8914 XOR\n2 1 8914 8915 8913 AND\n2 1 8913 103169 103170 XOR\n2 1 981 103170 8917 XOR\n2 1 89894 103170 8918 XOR\n2 1 103201 103170 1301 XOR\n2 1 63204 1301 63172 AND\n2 1 63172 1365 97995 XOR\n2 1 1301 1333 63140 XOR\n2 1 75686 1301 110905 XOR\n2 1 8917 8918 8916 AND\n2 1 8916 103170 103171 XOR\n2 1 982 103171 8920 XOR\n2 1 103202 103171 1302 XOR\n2 1 63205 1302 63173 AND\n2 1 63173 1366 97996 XOR\n2 1 1302 1334 63141 XOR\n2 1 75687 1302 110906 XOR\n2 1 1297 1302 60986 XOR\n2 1 1296 1301 60985 XOR\n2 1 61004 1302 100051 XOR\n2 1 61003 1301 100050 XOR\n2 1 60986 1284 100033 XOR\n2 1 100033 97985 111741 XOR\n2 1 60985 1283 100032 XOR\n2 1 100032 97984 111740 XOR\n2 1 89895 103171 8921 XOR\n2 1 8920 8921 8919 AND\n2 1 103200 103169 1300 XOR\n2 1 63203 1300 63171 AND\n2 1 63171 1364 97994 XOR\n2 1 1300 1332 63139 XOR\n2 1 75685 1300 110904 XOR\n2 1 1295 1300 60984 XOR\n2 1 61002 1300 100049 XOR\n2 1 60984 1282 100031 XOR\n2 1 100031 97983 111739 XOR\n2 1 8919 103171 103172 XOR\n2 1 103203 103172 1303 XOR\n2 1 63206 1303 63174 AND\n2 1 63174 1367 97997 XOR\n2 1 1303 1335 63142 XOR\n2 1 75688 1303 110907 XOR\n2 1 1298 1303 60987 XOR\n2 1 61005 1303 100052 XOR\n2 1 60987 1285 100034 XOR\n2 1 100034 97986 111742 XOR\n2 1 89896 103172 8924 XOR\n2 1 983 103172 8923 XOR\n2 1 8923 8924 8922 AND\n2 1 8922 103172 103173 XOR\n2 1 984 103173 8926 XOR\n2 1 103204 103173 1304 XOR\n2 1 63207 1304 63175 AND\n2 1 63175 1368 97998 XOR\n2 1 1304 1336 63143 XOR\n2 1 75689 1304 110908 XOR\n2 1 1299 1304 60988 XOR\n2 1 61006 1304 100053 XOR\n",
"2 1 60988 1286 100035 XOR\n2 1 100035 97987 111743 XOR\n2 1 89897 103173 8927 XOR\n2 1 8926 8927 8925 AND\n2 1 8925 103173 103174 XOR\n2 1 103205 103174 1305 XOR\n2 1 63208 1305 63176 AND\n2 1 63176 1369 97999 XOR\n2 1 1305 1337 63144 XOR\n2 1 985 103174 8929 XOR\n2 1 75690 1305 110909 XOR\n2 1 89898 103174 8930 XOR\n2 1 1300 1305 60989 XOR\n2 1 60989 1287 100036 XOR\n2 1 60975 1305 100022 XOR\n2 1 100036 97988 111744 XOR\n2 1 100022 97974 95926 XOR\n2 1 100022 97974 111700 AND\n2 1 97975 111700 21740 XOR\n2 1 95926 93878 89841 XOR\n2 1 89841 83697 103088 AND\n2 1 928 89841 1248 XOR\n2 1 63119 1248 63087 AND\n2 1 63087 1312 97942 XOR\n2 1 1248 1280 63055 XOR\n2 1 75633 1248 93750 XOR\n2 1 83698 103088 8768 XOR\n2 1 75633 1248 110606 AND\n2 1 75634 110606 19868 XOR\n2 1 95926 93878 111576 AND\n2 1 93879 111576 21560 XOR\n2 1 89841 83697 800 XOR\n2 1 800 864 69199 XOR\n2 1 69199 69167 69135 AND\n2 1 69135 864 85713 XOR\n2 1 8929 8930 8928 AND\n2 1 928 89841 103026 AND\n2 1 929 103026 8677 XOR\n2 1 800 832 69071 XOR\n2 1 8928 103174 103175 XOR\n2 1 103206 103175 1306 XOR\n2 1 1306 1338 63145 XOR\n2 1 986 103175 8932 XOR\n2 1 75691 1306 110910 XOR\n2 1 1301 1306 60990 XOR\n2 1 60990 1288 100037 XOR\n2 1 100037 97989 111745 XOR\n2 1 60976 1306 100023 XOR\n2 1 100023 111700 21739 XOR\n2 1 63209 1306 63177 AND\n2 1 63177 1370 98000 XOR\n2 1 100023 97975 111731 XOR\n2 1 111731 111700 95927 XOR\n2 1 21739 21740 21738 AND\n2 1 21738 111700 111701 XOR\n2 1 89899 103175 8933 XOR\n2 1 8932 8933 8931 AND\n2 1 100048 98000 111756 XOR\n2 1 95927 93879 111607 XOR\n2 1 111607 111576 89842 XOR\n2 1 89842 103026 8678 XOR\n2 1 8677 8678 8676 AND\n2 1 8676 103026 103027 XOR\n2 1 929 89842 103057 XOR\n2 1 103057 103026 1249 XOR\n2 1 63120 1249 63088 AND\n2 1 63088 1313 97943 XOR\n2 1 1249 1281 63056 XOR\n2 1 75634 1249 110637 XOR\n2 1 930 103027 8680 XOR\n2 1 110637 110606 93751 XOR\n2 1 95927 111576 21559 XOR\n2 1 21559 21560 21558 AND\n2 1 21558 111576 111577 XOR\n2 1 93880 111577 21563 XOR\n2 1 97976 111701 21743 XOR\n2 1 8931 103175 103176 XOR\n2 1 89900 103176 8936 XOR\n2 1 103207 103176 1307 XOR\n2 1 75692 1307 110911 XOR\n2 1 1307 1280 60996 XOR\n2 1 1302 1307 60991 XOR\n2 1 60996 1294 100043 XOR\n2 1 60991 1289 100038 XOR\n2 1 60977 1307 100024 XOR\n2 1 100024 111701 21742 XOR\n2 1 63210 1307 63178 AND\n2 1 63178 1371 98001 XOR\n2 1 100049 98001 111757 XOR\n2 1 21742 21743 21741 AND\n2 1 1307 1339 63146 XOR\n2 1 100043 97995 111751 XOR\n2 1 21741 111701 111702 XOR\n2 1 97977 111702 21746 XOR\n2 1 100038 97990 111746 XOR\n2 1 987 103176 8935 XOR\n2 1 8935 8936 8934 AND\n2 1 8934 103176 103177 XOR\n2 1 89901 103177 8939 XOR\n2 1 988 103177 8938 XOR\n2 1 8938 8939 8937 AND\n2 1 8937 103177 103178 XOR\n2 1 103209 103178 1309 XOR\n2 1 75694 1309 110913 XOR\n2 1 989 103178 8941 XOR\n2 1 1309 1282 60998 XOR\n2 1 1304 1309 60993 XOR\n2 1 63212 1309 63180 AND\n2 1 63180 1373 98003 XOR\n2 1 60998 1296 100045 XOR\n2 1 60993 1291 100040 XOR\n2 1 100040 97992 111748 XOR\n2 1 60979 1309 100026 XOR\n2 1 100051 98003 111759 XOR\n2 1 100045 97997 111753 XOR\n2 1 100026 97978 111734 XOR\n2 1 89902 103178 8942 XOR\n2 1 8941 8942 8940 AND\n2 1 8940 103178 103179 XOR\n2 1 89903 103179 8945 XOR\n2 1 103210 103179 1310 XOR\n2 1 63213 1310 63181 AND\n2 1 63181 1374 98004 XOR\n2 1 100052 98004 111760 XOR\n2 1 75695 1310 110914 XOR\n2 1 1310 1283 60999 XOR\n2 1 1305 1310 60994 XOR\n2 1 60999 1297 100046 XOR\n",
"2 1 60994 1292 100041 XOR\n2 1 60980 1310 100027 XOR\n2 1 100041 97993 111749 XOR\n2 1 100027 97979 111735 XOR\n2 1 100046 97998 111754 XOR\n2 1 1310 1342 63149 XOR\n2 1 1309 1341 63148 XOR\n2 1 89842 103088 8767 XOR\n2 1 8767 8768 8766 AND\n2 1 8766 103088 103089 XOR\n2 1 1249 110606 19869 XOR\n2 1 19868 19869 19867 AND\n2 1 19867 110606 110607 XOR\n2 1 75635 110607 19871 XOR\n2 1 100024 97976 111732 XOR\n2 1 111732 111701 95928 XOR\n2 1 95928 93880 111608 XOR\n2 1 95928 111577 21562 XOR\n2 1 111608 111577 91881 XOR\n1 1 91881 89843 INV\n2 1 89843 103089 8770 XOR\n2 1 930 89843 103058 XOR\n2 1 89843 103027 8681 XOR\n2 1 8680 8681 8679 AND\n2 1 8679 103027 103028 XOR\n2 1 931 103028 8683 XOR\n2 1 21562 21563 21561 AND\n2 1 21561 111577 111578 XOR\n2 1 93881 111578 21566 XOR\n2 1 990 103179 8944 XOR\n2 1 8944 8945 8943 AND\n2 1 8943 103179 103180 XOR\n2 1 103211 103180 1311 XOR\n2 1 75696 1311 110915 XOR\n2 1 63214 1311 63182 AND\n2 1 63182 1375 98005 XOR\n2 1 100053 98005 111761 XOR\n2 1 1311 1284 61000 XOR\n2 1 1306 1311 60995 XOR\n2 1 61000 1298 100047 XOR\n2 1 100047 97999 111755 XOR\n2 1 60995 1293 100042 XOR\n2 1 60981 1311 100028 XOR\n2 1 100028 97980 111736 XOR\n2 1 1311 1343 63150 XOR\n2 1 100042 97994 111750 XOR\n2 1 89842 83698 103119 XOR\n2 1 103119 103088 801 XOR\n2 1 801 833 69072 XOR\n2 1 801 865 69200 XOR\n2 1 69200 69168 69136 AND\n2 1 69136 865 85714 XOR\n2 1 103208 103177 1308 XOR\n2 1 75693 1308 110912 XOR\n2 1 1308 1340 63147 XOR\n2 1 1308 1281 60997 XOR\n2 1 1303 1308 60992 XOR\n2 1 60997 1295 100044 XOR\n2 1 60992 1290 100039 XOR\n2 1 100039 97991 111747 XOR\n2 1 63211 1308 63179 AND\n2 1 63179 1372 98002 XOR\n2 1 100050 98002 111758 XOR\n2 1 60978 1308 100025 XOR\n2 1 100025 97977 111733 XOR\n2 1 100025 111702 21745 XOR\n2 1 111733 111702 95929 XOR\n2 1 21745 21746 21744 AND\n2 1 21744 111702 111703 XOR\n2 1 100026 111703 21748 XOR\n2 1 97978 111703 21749 XOR\n2 1 21748 21749 21747 AND\n2 1 21747 111703 111704 XOR\n2 1 97979 111704 21752 XOR\n2 1 100027 111704 21751 XOR\n2 1 21751 21752 21750 AND\n2 1 21750 111704 111705 XOR\n2 1 111736 111705 95932 XOR\n2 1 95932 93884 111612 XOR\n2 1 100028 111705 21754 XOR\n2 1 97980 111705 21755 XOR\n2 1 21754 21755 21753 AND\n2 1 111735 111704 95931 XOR\n2 1 111734 111703 95930 XOR\n2 1 95930 93882 111610 XOR\n2 1 95929 93881 111609 XOR\n2 1 95931 93883 111611 XOR\n2 1 95929 111578 21565 XOR\n2 1 111609 111578 91882 XOR\n2 1 91882 91881 89844 XOR\n2 1 89844 91881 21484 AND\n2 1 89844 103028 8684 XOR\n2 1 8683 8684 8682 AND\n2 1 8682 103028 103029 XOR\n2 1 932 103029 8686 XOR\n2 1 931 89844 103059 XOR\n2 1 103059 103028 1251 XOR\n2 1 1251 1283 63058 XOR\n2 1 75636 1251 110639 XOR\n2 1 63122 1251 63090 AND\n2 1 63090 1315 97945 XOR\n2 1 21753 111705 111706 XOR\n2 1 111737 111706 95933 XOR\n2 1 97981 111706 21758 XOR\n2 1 100029 111706 21757 XOR\n2 1 21757 21758 21756 AND\n2 1 21756 111706 111707 XOR\n2 1 100030 111707 21760 XOR\n2 1 111738 111707 95934 XOR\n2 1 95933 93885 111613 XOR\n2 1 95934 93886 111614 XOR\n2 1 21565 21566 21564 AND\n2 1 21564 111578 111579 XOR\n2 1 95930 111579 21568 XOR\n2 1 111610 111579 91883 XOR\n1 1 91883 21548 INV\n2 1 93882 111579 21569 XOR\n2 1 21568 21569 21567 AND\n2 1 21567 111579 111580 XOR\n2 1 95931 111580 21571 XOR\n2 1 93883 111580 21572 XOR\n2 1 21571 21572 21570 AND\n2 1 21570 111580 111581 XOR\n2 1 111612 111581 91885 XOR\n2 1 95932 111581 21574 XOR\n2 1 93884 111581 21575 XOR\n2 1 21574 21575 21573 AND\n2 1 21573 111581 111582 XOR\n",
"2 1 111613 111582 91886 XOR\n2 1 95933 111582 21577 XOR\n2 1 93885 111582 21578 XOR\n2 1 21577 21578 21576 AND\n2 1 21576 111582 111583 XOR\n2 1 111614 111583 91887 XOR\n2 1 95934 111583 21580 XOR\n2 1 93886 111583 21581 XOR\n2 1 21580 21581 21579 AND\n2 1 21579 111583 111584 XOR\n2 1 93887 111584 21584 XOR\n2 1 21484 91881 111566 XOR\n2 1 91883 111566 21486 XOR\n2 1 21548 111566 89845 XOR\n2 1 89845 103029 8687 XOR\n2 1 932 89845 103060 XOR\n2 1 103060 103029 1252 XOR\n2 1 1252 1284 63059 XOR\n1 1 111566 21487 INV\n2 1 21486 21487 21485 AND\n2 1 21485 111566 21489 XOR\n2 1 63123 1252 63091 AND\n2 1 63091 1316 97946 XOR\n2 1 8686 8687 8685 AND\n2 1 8685 103029 103030 XOR\n2 1 933 103030 8689 XOR\n2 1 100044 97996 111752 XOR\n2 1 111611 111580 91884 XOR\n2 1 91884 21489 89846 XOR\n2 1 89846 103030 8690 XOR\n2 1 8689 8690 8688 AND\n2 1 8688 103030 103031 XOR\n2 1 934 103031 8692 XOR\n2 1 933 89846 103061 XOR\n2 1 103061 103030 1253 XOR\n2 1 1248 1253 60969 XOR\n2 1 1253 1285 63060 XOR\n2 1 63124 1253 63092 AND\n2 1 63092 1317 97947 XOR\n2 1 75638 1253 110641 XOR\n2 1 97982 111707 21761 XOR\n2 1 21760 21761 21759 AND\n2 1 21759 111707 111708 XOR\n2 1 97983 111708 21764 XOR\n2 1 111739 111708 95935 XOR\n2 1 95935 111584 21583 XOR\n2 1 21583 21584 21582 AND\n2 1 21582 111584 111585 XOR\n2 1 93888 111585 21587 XOR\n2 1 95935 93887 111615 XOR\n2 1 111615 111584 91888 XOR\n2 1 100031 111708 21763 XOR\n2 1 21763 21764 21762 AND\n2 1 21762 111708 111709 XOR\n2 1 111740 111709 95936 XOR\n2 1 97984 111709 21767 XOR\n2 1 95936 111585 21586 XOR\n2 1 21586 21587 21585 AND\n2 1 100032 111709 21766 XOR\n2 1 21766 21767 21765 AND\n2 1 21765 111709 111710 XOR\n2 1 100033 111710 21769 XOR\n2 1 111741 111710 95937 XOR\n2 1 95937 93889 111617 XOR\n2 1 97985 111710 21770 XOR\n2 1 21769 21770 21768 AND\n2 1 21768 111710 111711 XOR\n2 1 111742 111711 95938 XOR\n2 1 95938 93890 111618 XOR\n2 1 100034 111711 21772 XOR\n2 1 97986 111711 21773 XOR\n2 1 21772 21773 21771 AND\n2 1 21771 111711 111712 XOR\n2 1 111743 111712 95939 XOR\n2 1 95939 93891 111619 XOR\n2 1 100035 111712 21775 XOR\n2 1 97987 111712 21776 XOR\n2 1 21775 21776 21774 AND\n2 1 21774 111712 111713 XOR\n2 1 111744 111713 95940 XOR\n2 1 95940 93892 111620 XOR\n2 1 100036 111713 21778 XOR\n2 1 97988 111713 21779 XOR\n2 1 21778 21779 21777 AND\n2 1 21777 111713 111714 XOR\n2 1 111745 111714 95941 XOR\n2 1 95941 93893 111621 XOR\n2 1 100037 111714 21781 XOR\n2 1 97989 111714 21782 XOR\n2 1 21781 21782 21780 AND\n2 1 21780 111714 111715 XOR\n2 1 111746 111715 95942 XOR\n2 1 95942 93894 111622 XOR\n2 1 100038 111715 21784 XOR\n2 1 97990 111715 21785 XOR\n2 1 21784 21785 21783 AND\n2 1 21783 111715 111716 XOR\n2 1 111747 111716 95943 XOR\n2 1 95943 93895 111623 XOR\n2 1 100039 111716 21787 XOR\n2 1 97991 111716 21788 XOR\n2 1 21787 21788 21786 AND\n2 1 21786 111716 111717 XOR\n2 1 100040 111717 21790 XOR\n2 1 111748 111717 95944 XOR\n2 1 95944 93896 111624 XOR\n2 1 97992 111717 21791 XOR\n2 1 21790 21791 21789 AND\n2 1 21789 111717 111718 XOR\n2 1 97993 111718 21794 XOR\n2 1 111749 111718 95945 XOR\n2 1 95945 93897 111625 XOR\n2 1 100041 111718 21793 XOR\n2 1 21793 21794 21792 AND\n2 1 21792 111718 111719 XOR\n2 1 100042 111719 21796 XOR\n2 1 111750 111719 95946 XOR\n2 1 95946 93898 111626 XOR\n2 1 97994 111719 21797 XOR\n2 1 21796 21797 21795 AND\n2 1 21795 111719 111720 XOR\n2 1 111751 111720 95947 XOR\n2 1 95947 93899 111627 XOR\n2 1 100043 111720 21799 XOR\n2 1 97995 111720 21800 XOR\n2 1 95936 93888 111616 XOR\n2 1 111616 111585 91889 XOR\n2 1 103058 103027 1250 XOR\n",
"2 1 1250 110607 19872 XOR\n2 1 19871 19872 19870 AND\n2 1 1250 1282 63057 XOR\n2 1 19870 110607 110608 XOR\n2 1 110639 110608 93753 XOR\n2 1 75636 110608 19874 XOR\n2 1 1251 110608 19875 XOR\n2 1 19874 19875 19873 AND\n2 1 19873 110608 110609 XOR\n2 1 75637 110609 19877 XOR\n2 1 1252 110609 19878 XOR\n2 1 19877 19878 19876 AND\n2 1 19876 110609 110610 XOR\n2 1 1253 110610 19881 XOR\n2 1 75638 110610 19880 XOR\n2 1 19880 19881 19879 AND\n2 1 110641 110610 93755 XOR\n2 1 19879 110610 110611 XOR\n2 1 75639 110611 19883 XOR\n2 1 63121 1250 63089 AND\n2 1 63089 1314 97944 XOR\n2 1 21585 111585 111586 XOR\n2 1 95937 111586 21589 XOR\n2 1 93889 111586 21590 XOR\n2 1 21589 21590 21588 AND\n2 1 21588 111586 111587 XOR\n2 1 111618 111587 91891 XOR\n1 1 91891 21550 INV\n2 1 111617 111586 91890 XOR\n1 1 91890 21549 INV\n2 1 95938 111587 21592 XOR\n2 1 93890 111587 21593 XOR\n2 1 21592 21593 21591 AND\n2 1 21591 111587 111588 XOR\n2 1 95939 111588 21595 XOR\n2 1 111619 111588 91892 XOR\n1 1 91892 21551 INV\n2 1 93891 111588 21596 XOR\n2 1 21595 21596 21594 AND\n2 1 21594 111588 111589 XOR\n2 1 111620 111589 91893 XOR\n2 1 93892 111589 21599 XOR\n1 1 91893 21552 INV\n2 1 95940 111589 21598 XOR\n2 1 21598 21599 21597 AND\n2 1 21597 111589 111590 XOR\n2 1 93893 111590 21602 XOR\n2 1 95941 111590 21601 XOR\n2 1 21601 21602 21600 AND\n2 1 111621 111590 91894 XOR\n2 1 21600 111590 111591 XOR\n2 1 95942 111591 21604 XOR\n2 1 93894 111591 21605 XOR\n2 1 111622 111591 91895 XOR\n2 1 21604 21605 21603 AND\n2 1 21603 111591 111592 XOR\n2 1 95943 111592 21607 XOR\n2 1 93895 111592 21608 XOR\n2 1 111623 111592 91896 XOR\n2 1 21607 21608 21606 AND\n2 1 21606 111592 111593 XOR\n2 1 111624 111593 91897 XOR\n2 1 93896 111593 21611 XOR\n2 1 95944 111593 21610 XOR\n2 1 21610 21611 21609 AND\n2 1 21609 111593 111594 XOR\n2 1 95945 111594 21613 XOR\n2 1 93897 111594 21614 XOR\n2 1 111625 111594 91898 XOR\n2 1 21613 21614 21612 AND\n2 1 21612 111594 111595 XOR\n2 1 95946 111595 21616 XOR\n2 1 93898 111595 21617 XOR\n2 1 21616 21617 21615 AND\n2 1 21615 111595 111596 XOR\n2 1 93899 111596 21620 XOR\n2 1 111627 111596 91900 XOR\n1 1 91898 21553 INV\n2 1 95947 111596 21619 XOR\n2 1 21619 21620 21618 AND\n2 1 21618 111596 111597 XOR\n2 1 93900 111597 21623 XOR\n2 1 75637 1252 110640 XOR\n2 1 110640 110609 93754 XOR\n2 1 75635 1250 110638 XOR\n2 1 110638 110607 93752 XOR\n2 1 21799 21800 21798 AND\n2 1 21798 111720 111721 XOR\n2 1 111752 111721 95948 XOR\n2 1 95948 93900 111628 XOR\n2 1 111628 111597 91901 XOR\n2 1 95948 111597 21622 XOR\n2 1 97996 111721 21803 XOR\n2 1 21622 21623 21621 AND\n2 1 21621 111597 111598 XOR\n2 1 93901 111598 21626 XOR\n1 1 91901 21554 INV\n2 1 100044 111721 21802 XOR\n2 1 21802 21803 21801 AND\n2 1 21801 111721 111722 XOR\n2 1 111753 111722 95949 XOR\n2 1 97997 111722 21806 XOR\n2 1 95949 111598 21625 XOR\n2 1 21625 21626 21624 AND\n2 1 95949 93901 111629 XOR\n2 1 100045 111722 21805 XOR\n2 1 21805 21806 21804 AND\n2 1 21804 111722 111723 XOR\n2 1 100046 111723 21808 XOR\n2 1 111754 111723 95950 XOR\n2 1 95950 93902 111630 XOR\n2 1 97998 111723 21809 XOR\n2 1 21808 21809 21807 AND\n2 1 21807 111723 111724 XOR\n2 1 111755 111724 95951 XOR\n2 1 97999 111724 21812 XOR\n2 1 95951 93903 111631 XOR\n2 1 100047 111724 21811 XOR\n2 1 21811 21812 21810 AND\n2 1 21810 111724 111725 XOR\n2 1 100048 111725 21814 XOR\n2 1 111756 111725 95952 XOR\n2 1 95952 93904 111632 XOR\n2 1 98000 111725 21815 XOR\n2 1 21814 21815 21813 AND\n2 1 21813 111725 111726 XOR\n2 1 111757 111726 95953 XOR\n2 1 95953 93905 111633 XOR\n",
"2 1 98001 111726 21818 XOR\n2 1 100049 111726 21817 XOR\n2 1 21817 21818 21816 AND\n2 1 21816 111726 111727 XOR\n2 1 100050 111727 21820 XOR\n2 1 111758 111727 95954 XOR\n2 1 95954 93906 111634 XOR\n2 1 98002 111727 21821 XOR\n2 1 21820 21821 21819 AND\n2 1 21819 111727 111728 XOR\n2 1 100051 111728 21823 XOR\n2 1 111759 111728 95955 XOR\n2 1 98003 111728 21824 XOR\n2 1 95955 93907 111635 XOR\n2 1 21823 21824 21822 AND\n2 1 21822 111728 111729 XOR\n2 1 100052 111729 21826 XOR\n2 1 111760 111729 95956 XOR\n2 1 95956 93908 111636 XOR\n2 1 111629 111598 91902 XOR\n1 1 91902 21555 INV\n2 1 98004 111729 21827 XOR\n2 1 21826 21827 21825 AND\n2 1 21825 111729 111730 XOR\n2 1 111761 111730 95957 XOR\n2 1 95957 93909 111637 XOR\n2 1 21624 111598 111599 XOR\n2 1 111630 111599 91903 XOR\n2 1 93902 111599 21629 XOR\n2 1 95950 111599 21628 XOR\n2 1 21628 21629 21627 AND\n2 1 21627 111599 111600 XOR\n2 1 93903 111600 21632 XOR\n2 1 95951 111600 21631 XOR\n2 1 21631 21632 21630 AND\n2 1 21630 111600 111601 XOR\n2 1 93904 111601 21635 XOR\n2 1 111632 111601 91905 XOR\n1 1 91905 21556 INV\n2 1 95952 111601 21634 XOR\n2 1 21634 21635 21633 AND\n2 1 21633 111601 111602 XOR\n2 1 111633 111602 91906 XOR\n2 1 95953 111602 21637 XOR\n2 1 93905 111602 21638 XOR\n2 1 21637 21638 21636 AND\n2 1 21636 111602 111603 XOR\n2 1 111634 111603 91907 XOR\n2 1 93906 111603 21641 XOR\n2 1 111631 111600 91904 XOR\n2 1 95954 111603 21640 XOR\n2 1 21640 21641 21639 AND\n2 1 21639 111603 111604 XOR\n2 1 93907 111604 21644 XOR\n2 1 111635 111604 91908 XOR\n2 1 95955 111604 21643 XOR\n2 1 21643 21644 21642 AND\n2 1 21642 111604 111605 XOR\n2 1 95956 111605 21646 XOR\n2 1 111636 111605 91909 XOR\n2 1 93908 111605 21647 XOR\n2 1 21646 21647 21645 AND\n2 1 21645 111605 111606 XOR\n2 1 111637 111606 91910 XOR\n1 1 91910 21557 INV\n2 1 89846 21489 21488 AND\n2 1 21488 21489 21491 XOR\n2 1 91885 21491 89847 XOR\n2 1 934 89847 103062 XOR\n2 1 103062 103031 1254 XOR\n2 1 1254 110611 19884 XOR\n2 1 1249 1254 60970 XOR\n2 1 19883 19884 19882 AND\n2 1 1254 1286 63061 XOR\n2 1 19882 110611 110612 XOR\n2 1 75639 1254 110642 XOR\n2 1 75640 110612 19886 XOR\n2 1 63125 1254 63093 AND\n2 1 63093 1318 97948 XOR\n2 1 110642 110611 93756 XOR\n2 1 89847 103031 8693 XOR\n2 1 8692 8693 8691 AND\n2 1 8691 103031 103032 XOR\n2 1 935 103032 8695 XOR\n2 1 89847 21491 21490 AND\n2 1 21490 21491 21493 XOR\n2 1 91886 21493 89848 XOR\n2 1 89848 21493 21492 AND\n2 1 89848 103032 8696 XOR\n2 1 8695 8696 8694 AND\n2 1 8694 103032 103033 XOR\n2 1 936 103033 8698 XOR\n2 1 935 89848 103063 XOR\n2 1 103063 103032 1255 XOR\n2 1 1255 110612 19887 XOR\n2 1 1250 1255 60971 XOR\n2 1 63126 1255 63094 AND\n2 1 63094 1319 97949 XOR\n2 1 1255 1287 63062 XOR\n2 1 19886 19887 19885 AND\n2 1 19885 110612 110613 XOR\n2 1 21492 21493 21495 XOR\n2 1 91887 21495 89849 XOR\n2 1 936 89849 103064 XOR\n2 1 103064 103033 1256 XOR\n2 1 1256 1288 63063 XOR\n2 1 63127 1256 63095 AND\n2 1 63095 1320 97950 XOR\n2 1 1251 1256 60972 XOR\n2 1 1256 110613 19890 XOR\n2 1 89849 21495 21494 AND\n2 1 21494 21495 21497 XOR\n2 1 91888 21497 89850 XOR\n2 1 89850 21497 21496 AND\n2 1 21496 21497 21499 XOR\n2 1 91889 21499 89851 XOR\n2 1 938 89851 103066 XOR\n2 1 89851 21499 21498 AND\n2 1 21498 21499 111567 XOR\n2 1 21549 111567 89852 XOR\n2 1 939 89852 103067 XOR\n2 1 91890 111567 21501 XOR\n2 1 89849 103033 8699 XOR\n2 1 937 89850 103065 XOR\n2 1 75641 1256 110644 XOR\n2 1 110644 110613 93758 XOR\n2 1 8698 8699 8697 AND\n1 1 111567 21502 INV\n",
"2 1 21501 21502 21500 AND\n2 1 21500 111567 111568 XOR\n2 1 21550 111568 89853 XOR\n2 1 91891 111568 21504 XOR\n2 1 940 89853 103068 XOR\n2 1 75640 1255 110643 XOR\n2 1 110643 110612 93757 XOR\n1 1 111568 21505 INV\n2 1 21504 21505 21503 AND\n2 1 21503 111568 111569 XOR\n1 1 111569 21508 INV\n2 1 21551 111569 89854 XOR\n2 1 91892 111569 21507 XOR\n2 1 21507 21508 21506 AND\n2 1 21506 111569 111570 XOR\n2 1 21552 111570 89855 XOR\n2 1 91893 111570 21510 XOR\n1 1 111570 21511 INV\n2 1 21510 21511 21509 AND\n2 1 21509 111570 21513 XOR\n2 1 91894 21513 89856 XOR\n2 1 943 89856 103071 XOR\n2 1 89856 21513 21512 AND\n2 1 21512 21513 21515 XOR\n2 1 91895 21515 89857 XOR\n2 1 89857 21515 21514 AND\n2 1 21514 21515 21517 XOR\n2 1 91896 21517 89858 XOR\n2 1 945 89858 103073 XOR\n2 1 89858 21517 21516 AND\n2 1 21516 21517 21519 XOR\n2 1 91897 21519 89859 XOR\n2 1 946 89859 103074 XOR\n2 1 89859 21519 21518 AND\n2 1 21518 21519 111571 XOR\n2 1 21553 111571 89860 XOR\n2 1 91898 111571 21521 XOR\n1 1 111571 21522 INV\n2 1 21521 21522 21520 AND\n2 1 21520 111571 21524 XOR\n2 1 944 89857 103072 XOR\n2 1 947 89860 103075 XOR\n2 1 8697 103033 103034 XOR\n2 1 89850 103034 8702 XOR\n2 1 937 103034 8701 XOR\n2 1 103065 103034 1257 XOR\n2 1 1257 1289 63064 XOR\n2 1 63128 1257 63096 AND\n2 1 63096 1321 97951 XOR\n2 1 1252 1257 60973 XOR\n2 1 75642 1257 110645 XOR\n2 1 8701 8702 8700 AND\n2 1 8700 103034 103035 XOR\n2 1 103066 103035 1258 XOR\n2 1 63129 1258 63097 AND\n2 1 63097 1322 97952 XOR\n2 1 1258 1290 63065 XOR\n2 1 1253 1258 60974 XOR\n2 1 75643 1258 110646 XOR\n2 1 938 103035 8704 XOR\n2 1 75641 110613 19889 XOR\n2 1 19889 19890 19888 AND\n2 1 19888 110613 110614 XOR\n2 1 1257 110614 19893 XOR\n2 1 75642 110614 19892 XOR\n2 1 110645 110614 93759 XOR\n2 1 19892 19893 19891 AND\n2 1 19891 110614 110615 XOR\n2 1 1258 110615 19896 XOR\n2 1 110646 110615 93760 XOR\n2 1 75643 110615 19895 XOR\n2 1 19895 19896 19894 AND\n2 1 19894 110615 110616 XOR\n2 1 75644 110616 19898 XOR\n2 1 942 89855 103070 XOR\n2 1 89851 103035 8705 XOR\n2 1 8704 8705 8703 AND\n2 1 8703 103035 103036 XOR\n2 1 89852 103036 8708 XOR\n2 1 939 103036 8707 XOR\n2 1 103067 103036 1259 XOR\n2 1 1259 1291 63066 XOR\n2 1 75644 1259 110647 XOR\n2 1 1259 110616 19899 XOR\n2 1 19898 19899 19897 AND\n2 1 19897 110616 110617 XOR\n2 1 63130 1259 63098 AND\n2 1 1254 1259 60943 XOR\n2 1 63098 1323 97953 XOR\n2 1 110647 110616 93761 XOR\n2 1 75645 110617 19901 XOR\n2 1 8707 8708 8706 AND\n2 1 8706 103036 103037 XOR\n2 1 103068 103037 1260 XOR\n2 1 63131 1260 63099 AND\n2 1 1260 1292 63067 XOR\n2 1 1255 1260 60944 XOR\n2 1 75645 1260 110648 XOR\n2 1 110648 110617 93762 XOR\n2 1 89853 103037 8711 XOR\n2 1 63099 1324 97954 XOR\n2 1 1260 110617 19902 XOR\n2 1 19901 19902 19900 AND\n2 1 19900 110617 110618 XOR\n2 1 75646 110618 19904 XOR\n2 1 111626 111595 91899 XOR\n2 1 91899 21524 89861 XOR\n2 1 89861 21524 21523 AND\n2 1 21523 21524 21526 XOR\n2 1 91900 21526 89862 XOR\n2 1 89862 21526 21525 AND\n2 1 21525 21526 111572 XOR\n1 1 111572 21529 INV\n2 1 21554 111572 89863 XOR\n2 1 950 89863 103078 XOR\n2 1 948 89861 103076 XOR\n2 1 91901 111572 21528 XOR\n2 1 21528 21529 21527 AND\n2 1 21527 111572 111573 XOR\n2 1 21555 111573 89864 XOR\n2 1 951 89864 103079 XOR\n2 1 91902 111573 21531 XOR\n1 1 111573 21532 INV\n2 1 21531 21532 21530 AND\n2 1 21530 111573 21534 XOR\n2 1 91903 21534 89865 XOR\n2 1 952 89865 103080 XOR\n2 1 89865 21534 21533 AND\n",
"2 1 21533 21534 21536 XOR\n2 1 91904 21536 89866 XOR\n2 1 953 89866 103081 XOR\n2 1 89866 21536 21535 AND\n2 1 21535 21536 111574 XOR\n1 1 111574 21539 INV\n2 1 21556 111574 89867 XOR\n2 1 954 89867 103082 XOR\n2 1 91905 111574 21538 XOR\n2 1 21538 21539 21537 AND\n2 1 21537 111574 21541 XOR\n2 1 91906 21541 89868 XOR\n2 1 955 89868 103083 XOR\n2 1 89868 21541 21540 AND\n2 1 21540 21541 21543 XOR\n2 1 91907 21543 89869 XOR\n2 1 89869 21543 21542 AND\n2 1 21542 21543 21545 XOR\n2 1 91908 21545 89870 XOR\n2 1 957 89870 103085 XOR\n2 1 89870 21545 21544 AND\n2 1 21544 21545 21547 XOR\n2 1 91909 21547 89871 XOR\n2 1 958 89871 103086 XOR\n2 1 89871 21547 21546 AND\n2 1 21546 21547 111575 XOR\n2 1 21557 111575 89872 XOR\n2 1 959 89872 103087 XOR\n2 1 956 89869 103084 XOR\n2 1 949 89862 103077 XOR\n2 1 844 855 66905 XOR\n2 1 66905 832 87803 XOR\n2 1 87803 85755 111544 XOR\n2 1 836 847 66897 XOR\n2 1 66897 856 87795 XOR\n2 1 87795 85747 111536 XOR\n2 1 111536 111505 83699 XOR\n2 1 83699 103089 8771 XOR\n2 1 8770 8771 8769 AND\n2 1 89843 83699 103120 XOR\n2 1 103120 103089 802 XOR\n2 1 8769 103089 103090 XOR\n2 1 89844 103090 8773 XOR\n2 1 87795 111505 21398 XOR\n2 1 21398 21399 21397 AND\n2 1 21397 111505 111506 XOR\n2 1 87796 111506 21401 XOR\n2 1 111537 111506 83700 XOR\n2 1 89844 83700 103121 XOR\n2 1 103121 103090 803 XOR\n2 1 803 835 69074 XOR\n2 1 83700 103090 8774 XOR\n2 1 8773 8774 8772 AND\n2 1 8772 103090 103091 XOR\n2 1 89845 103091 8776 XOR\n2 1 85748 111506 21402 XOR\n2 1 21401 21402 21400 AND\n2 1 21400 111506 111507 XOR\n2 1 803 867 69202 XOR\n2 1 69202 69170 69138 AND\n2 1 69138 867 85716 XOR\n2 1 111538 111507 83701 XOR\n2 1 83701 103091 8777 XOR\n2 1 89845 83701 103122 XOR\n2 1 103122 103091 804 XOR\n2 1 804 868 69203 XOR\n2 1 69203 69171 69139 AND\n2 1 69139 868 85717 XOR\n2 1 8776 8777 8775 AND\n2 1 8775 103091 103092 XOR\n2 1 89846 103092 8779 XOR\n2 1 87797 111507 21404 XOR\n2 1 85749 111507 21405 XOR\n2 1 21404 21405 21403 AND\n2 1 21403 111507 111508 XOR\n2 1 87798 111508 21407 XOR\n2 1 85750 111508 21408 XOR\n2 1 111539 111508 83702 XOR\n2 1 89846 83702 103123 XOR\n2 1 83702 103092 8780 XOR\n2 1 8779 8780 8778 AND\n2 1 8778 103092 103093 XOR\n2 1 89847 103093 8782 XOR\n2 1 103123 103092 805 XOR\n2 1 805 869 69204 XOR\n2 1 69204 69172 69140 AND\n2 1 69140 869 85718 XOR\n2 1 21407 21408 21406 AND\n2 1 21406 111508 111509 XOR\n2 1 111540 111509 83703 XOR\n2 1 89847 83703 103124 XOR\n2 1 103124 103093 806 XOR\n2 1 87799 111509 21410 XOR\n2 1 806 870 69205 XOR\n2 1 69205 69173 69141 AND\n2 1 69141 870 85719 XOR\n2 1 85751 111509 21411 XOR\n2 1 21410 21411 21409 AND\n2 1 21409 111509 111510 XOR\n2 1 111541 111510 83704 XOR\n2 1 89848 83704 103125 XOR\n2 1 87800 111510 21413 XOR\n2 1 802 866 69201 XOR\n2 1 69201 69169 69137 AND\n2 1 69137 866 85715 XOR\n2 1 806 838 69077 XOR\n2 1 805 837 69076 XOR\n2 1 804 836 69075 XOR\n2 1 802 834 69073 XOR\n2 1 83703 103093 8783 XOR\n2 1 8782 8783 8781 AND\n2 1 8781 103093 103094 XOR\n2 1 103125 103094 807 XOR\n2 1 807 871 69206 XOR\n2 1 69206 69174 69142 AND\n2 1 69142 871 85720 XOR\n2 1 89848 103094 8785 XOR\n2 1 807 839 69078 XOR\n2 1 83704 103094 8786 XOR\n2 1 8785 8786 8784 AND\n2 1 8784 103094 103095 XOR\n2 1 89849 103095 8788 XOR\n2 1 85752 111510 21414 XOR\n2 1 21413 21414 21412 AND\n2 1 21412 111510 111511 XOR\n2 1 111542 111511 83705 XOR\n2 1 83705 103095 8789 XOR\n2 1 8788 8789 8787 AND\n",
"2 1 8787 103095 103096 XOR\n2 1 89849 83705 103126 XOR\n2 1 103126 103095 808 XOR\n2 1 808 872 69207 XOR\n2 1 69207 69175 69143 AND\n2 1 69143 872 85721 XOR\n2 1 85753 111511 21417 XOR\n2 1 87801 111511 21416 XOR\n2 1 21416 21417 21415 AND\n2 1 21415 111511 111512 XOR\n2 1 111543 111512 83706 XOR\n2 1 83706 103096 8792 XOR\n2 1 89850 83706 103127 XOR\n2 1 103127 103096 809 XOR\n2 1 85754 111512 21420 XOR\n2 1 809 873 69208 XOR\n2 1 69208 69176 69144 AND\n2 1 69144 873 85722 XOR\n2 1 87802 111512 21419 XOR\n2 1 21419 21420 21418 AND\n2 1 21418 111512 111513 XOR\n2 1 85755 111513 21423 XOR\n2 1 111544 111513 83707 XOR\n2 1 89851 83707 103128 XOR\n2 1 87803 111513 21422 XOR\n2 1 21422 21423 21421 AND\n2 1 21421 111513 111514 XOR\n2 1 111545 111514 83708 XOR\n2 1 89852 83708 103129 XOR\n2 1 87804 111514 21425 XOR\n2 1 85756 111514 21426 XOR\n2 1 21425 21426 21424 AND\n2 1 21424 111514 111515 XOR\n2 1 111546 111515 83709 XOR\n2 1 89853 83709 103130 XOR\n2 1 87805 111515 21428 XOR\n2 1 85757 111515 21429 XOR\n2 1 21428 21429 21427 AND\n2 1 21427 111515 111516 XOR\n2 1 85758 111516 21432 XOR\n2 1 111547 111516 83710 XOR\n2 1 89854 83710 103131 XOR\n2 1 87806 111516 21431 XOR\n2 1 21431 21432 21430 AND\n2 1 21430 111516 111517 XOR\n2 1 111548 111517 83711 XOR\n2 1 89855 83711 103132 XOR\n2 1 85759 111517 21435 XOR\n2 1 87807 111517 21434 XOR\n2 1 21434 21435 21433 AND\n2 1 21433 111517 111518 XOR\n2 1 85760 111518 21438 XOR\n2 1 111549 111518 83712 XOR\n2 1 89856 83712 103133 XOR\n2 1 87808 111518 21437 XOR\n2 1 809 841 69080 XOR\n2 1 808 840 69079 XOR\n2 1 89850 103096 8791 XOR\n2 1 8791 8792 8790 AND\n2 1 8790 103096 103097 XOR\n2 1 83707 103097 8795 XOR\n2 1 89851 103097 8794 XOR\n2 1 8794 8795 8793 AND\n2 1 8793 103097 103098 XOR\n2 1 89852 103098 8797 XOR\n2 1 103129 103098 811 XOR\n2 1 811 875 69210 XOR\n2 1 69210 69178 69146 AND\n2 1 69146 875 85724 XOR\n2 1 83708 103098 8798 XOR\n2 1 8797 8798 8796 AND\n2 1 103128 103097 810 XOR\n2 1 810 874 69209 XOR\n2 1 811 843 69082 XOR\n2 1 810 842 69081 XOR\n2 1 8796 103098 103099 XOR\n2 1 83709 103099 8801 XOR\n2 1 89853 103099 8800 XOR\n2 1 8800 8801 8799 AND\n2 1 8799 103099 103100 XOR\n2 1 83710 103100 8804 XOR\n2 1 89854 103100 8803 XOR\n2 1 8803 8804 8802 AND\n2 1 8802 103100 103101 XOR\n2 1 83711 103101 8807 XOR\n2 1 89855 103101 8806 XOR\n2 1 8806 8807 8805 AND\n2 1 8805 103101 103102 XOR\n2 1 103133 103102 815 XOR\n2 1 103131 103100 813 XOR\n2 1 802 813 66863 XOR\n2 1 83712 103102 8810 XOR\n2 1 89856 103102 8809 XOR\n2 1 8809 8810 8808 AND\n2 1 8808 103102 103103 XOR\n2 1 89857 103103 8812 XOR\n2 1 813 877 69212 XOR\n2 1 69212 69180 69148 AND\n2 1 804 815 66865 XOR\n2 1 815 879 69214 XOR\n2 1 69214 69182 69150 AND\n2 1 69150 879 85728 XOR\n2 1 103132 103101 814 XOR\n2 1 814 878 69213 XOR\n2 1 803 814 66864 XOR\n2 1 103130 103099 812 XOR\n2 1 801 812 66894 XOR\n2 1 812 876 69211 XOR\n2 1 69211 69179 69147 AND\n2 1 69147 876 85725 XOR\n2 1 815 847 69086 XOR\n2 1 814 846 69085 XOR\n2 1 813 845 69084 XOR\n2 1 812 844 69083 XOR\n2 1 69148 877 85726 XOR\n2 1 69213 69181 69149 AND\n2 1 69149 878 85727 XOR\n2 1 21437 21438 21436 AND\n2 1 21436 111518 111519 XOR\n2 1 87809 111519 21440 XOR\n2 1 85761 111519 21441 XOR\n2 1 21440 21441 21439 AND\n2 1 111550 111519 83713 XOR\n2 1 83713 103103 8813 XOR\n2 1 8812 8813 8811 AND\n2 1 8811 103103 103104 XOR\n2 1 89857 83713 103134 XOR\n2 1 103134 103103 816 XOR\n",
"2 1 805 816 66866 XOR\n2 1 816 880 69215 XOR\n2 1 69215 69183 69151 AND\n2 1 69151 880 85729 XOR\n2 1 89858 103104 8815 XOR\n2 1 21439 111519 111520 XOR\n2 1 85762 111520 21444 XOR\n2 1 111551 111520 83714 XOR\n2 1 83714 103104 8816 XOR\n2 1 8815 8816 8814 AND\n2 1 8814 103104 103105 XOR\n2 1 89859 103105 8818 XOR\n2 1 89858 83714 103135 XOR\n2 1 103135 103104 817 XOR\n2 1 817 881 69216 XOR\n2 1 69216 69184 69152 AND\n2 1 69152 881 85730 XOR\n2 1 806 817 66867 XOR\n2 1 87810 111520 21443 XOR\n2 1 21443 21444 21442 AND\n2 1 21442 111520 111521 XOR\n2 1 87811 111521 21446 XOR\n2 1 85763 111521 21447 XOR\n2 1 21446 21447 21445 AND\n2 1 21445 111521 111522 XOR\n2 1 87812 111522 21449 XOR\n2 1 85764 111522 21450 XOR\n2 1 21449 21450 21448 AND\n2 1 21448 111522 111523 XOR\n2 1 85765 111523 21453 XOR\n2 1 87813 111523 21452 XOR\n2 1 21452 21453 21451 AND\n2 1 21451 111523 111524 XOR\n2 1 111554 111523 83717 XOR\n2 1 89861 83717 103138 XOR\n2 1 111552 111521 83715 XOR\n2 1 89859 83715 103136 XOR\n2 1 103136 103105 818 XOR\n2 1 807 818 66868 XOR\n2 1 83715 103105 8819 XOR\n2 1 8818 8819 8817 AND\n2 1 8817 103105 103106 XOR\n2 1 89860 103106 8821 XOR\n2 1 818 882 69217 XOR\n2 1 69217 69185 69153 AND\n2 1 69153 882 85731 XOR\n2 1 87814 111524 21455 XOR\n2 1 85766 111524 21456 XOR\n2 1 21455 21456 21454 AND\n2 1 21454 111524 111525 XOR\n2 1 87815 111525 21458 XOR\n2 1 85767 111525 21459 XOR\n2 1 111556 111525 83719 XOR\n2 1 21458 21459 21457 AND\n2 1 21457 111525 111526 XOR\n2 1 111557 111526 83720 XOR\n2 1 89864 83720 103141 XOR\n2 1 87816 111526 21461 XOR\n2 1 818 850 69089 XOR\n2 1 817 849 69088 XOR\n2 1 816 848 69087 XOR\n2 1 111553 111522 83716 XOR\n2 1 83716 103106 8822 XOR\n2 1 8821 8822 8820 AND\n2 1 8820 103106 103107 XOR\n2 1 103138 103107 820 XOR\n2 1 820 884 69219 XOR\n2 1 69219 69187 69155 AND\n2 1 69155 884 85733 XOR\n2 1 83717 103107 8825 XOR\n2 1 89860 83716 103137 XOR\n2 1 103137 103106 819 XOR\n2 1 808 819 66869 XOR\n2 1 819 883 69218 XOR\n2 1 69218 69186 69154 AND\n2 1 69154 883 85732 XOR\n2 1 89861 103107 8824 XOR\n2 1 8824 8825 8823 AND\n2 1 8823 103107 103108 XOR\n2 1 89862 103108 8827 XOR\n2 1 820 852 69091 XOR\n2 1 819 851 69090 XOR\n2 1 111555 111524 83718 XOR\n2 1 83718 103108 8828 XOR\n2 1 8827 8828 8826 AND\n2 1 8826 103108 103109 XOR\n2 1 83719 103109 8831 XOR\n2 1 89863 103109 8830 XOR\n2 1 8830 8831 8829 AND\n2 1 8829 103109 103110 XOR\n2 1 89864 103110 8833 XOR\n2 1 103141 103110 823 XOR\n2 1 66864 823 87762 XOR\n2 1 823 802 66884 XOR\n2 1 812 823 66873 XOR\n2 1 823 887 69222 XOR\n2 1 69222 69190 69158 AND\n2 1 69158 887 85736 XOR\n2 1 66873 800 87771 XOR\n2 1 66884 811 87782 XOR\n2 1 83720 103110 8834 XOR\n2 1 8833 8834 8832 AND\n2 1 8832 103110 103111 XOR\n2 1 89865 103111 8836 XOR\n2 1 89862 83718 103139 XOR\n2 1 103139 103108 821 XOR\n2 1 821 885 69220 XOR\n2 1 69220 69188 69156 AND\n2 1 69156 885 85734 XOR\n2 1 66894 821 87792 XOR\n2 1 821 800 66882 XOR\n2 1 66882 809 87780 XOR\n2 1 87780 85732 111296 XOR\n2 1 87782 85734 111298 XOR\n2 1 810 821 66871 XOR\n2 1 823 855 69094 XOR\n2 1 821 853 69092 XOR\n2 1 87762 85714 111278 XOR\n2 1 89863 83719 103140 XOR\n2 1 103140 103109 822 XOR\n2 1 822 886 69221 XOR\n2 1 822 801 66883 XOR\n2 1 66863 822 87761 XOR\n2 1 87761 85713 83665 XOR\n2 1 66883 810 87781 XOR\n2 1 87781 85733 111297 XOR\n2 1 87761 85713 111247 AND\n2 1 87762 111247 20965 XOR\n",
"2 1 811 822 66872 XOR\n2 1 111278 111247 83666 XOR\n2 1 69221 69189 69157 AND\n2 1 69157 886 85735 XOR\n2 1 822 854 69093 XOR\n2 1 85714 111247 20966 XOR\n2 1 20965 20966 20964 AND\n2 1 20964 111247 111248 XOR\n2 1 85715 111248 20969 XOR\n2 1 85768 111526 21462 XOR\n2 1 21461 21462 21460 AND\n2 1 21460 111526 111527 XOR\n2 1 87817 111527 21464 XOR\n2 1 111558 111527 83721 XOR\n2 1 83721 103111 8837 XOR\n2 1 8836 8837 8835 AND\n2 1 8835 103111 103112 XOR\n2 1 89865 83721 103142 XOR\n2 1 103142 103111 824 XOR\n2 1 813 824 66874 XOR\n2 1 824 888 69223 XOR\n2 1 824 803 66885 XOR\n2 1 66885 812 87783 XOR\n2 1 66874 801 87772 XOR\n2 1 87772 85724 111288 XOR\n2 1 87783 85735 111299 XOR\n2 1 69223 69191 69159 AND\n2 1 69159 888 85737 XOR\n2 1 66865 824 87763 XOR\n2 1 87763 111248 20968 XOR\n2 1 20968 20969 20967 AND\n2 1 20967 111248 111249 XOR\n2 1 85716 111249 20972 XOR\n2 1 85769 111527 21465 XOR\n2 1 87763 85715 111279 XOR\n2 1 111279 111248 83667 XOR\n2 1 21464 21465 21463 AND\n2 1 21463 111527 111528 XOR\n2 1 85770 111528 21468 XOR\n2 1 111559 111528 83722 XOR\n2 1 83722 103112 8840 XOR\n2 1 89866 83722 103143 XOR\n2 1 103143 103112 825 XOR\n2 1 825 804 66886 XOR\n2 1 825 889 69224 XOR\n2 1 814 825 66875 XOR\n2 1 66866 825 87764 XOR\n2 1 87764 85716 111280 XOR\n2 1 111280 111249 83668 XOR\n2 1 87764 111249 20971 XOR\n2 1 66886 813 87784 XOR\n2 1 87784 85736 111300 XOR\n2 1 66875 802 87773 XOR\n2 1 87773 85725 111289 XOR\n2 1 20971 20972 20970 AND\n2 1 20970 111249 111250 XOR\n2 1 85717 111250 20975 XOR\n2 1 69224 69192 69160 AND\n2 1 69160 889 85738 XOR\n2 1 87818 111528 21467 XOR\n2 1 21467 21468 21466 AND\n2 1 21466 111528 111529 XOR\n2 1 87819 111529 21470 XOR\n2 1 111560 111529 83723 XOR\n2 1 89867 83723 103144 XOR\n2 1 85771 111529 21471 XOR\n2 1 21470 21471 21469 AND\n2 1 21469 111529 111530 XOR\n2 1 111561 111530 83724 XOR\n2 1 89868 83724 103145 XOR\n2 1 87820 111530 21473 XOR\n2 1 85772 111530 21474 XOR\n2 1 21473 21474 21472 AND\n2 1 21472 111530 111531 XOR\n2 1 87821 111531 21476 XOR\n2 1 111562 111531 83725 XOR\n2 1 89869 83725 103146 XOR\n2 1 85773 111531 21477 XOR\n2 1 21476 21477 21475 AND\n2 1 21475 111531 111532 XOR\n2 1 85774 111532 21480 XOR\n2 1 87822 111532 21479 XOR\n2 1 21479 21480 21478 AND\n2 1 111563 111532 83726 XOR\n2 1 89870 83726 103147 XOR\n2 1 21478 111532 111533 XOR\n2 1 111564 111533 83727 XOR\n2 1 85775 111533 21483 XOR\n2 1 89871 83727 103148 XOR\n2 1 87823 111533 21482 XOR\n2 1 21482 21483 21481 AND\n2 1 21481 111533 111534 XOR\n2 1 111565 111534 83728 XOR\n2 1 89872 83728 103149 XOR\n2 1 825 857 69096 XOR\n2 1 824 856 69095 XOR\n2 1 89866 103112 8839 XOR\n2 1 8839 8840 8838 AND\n2 1 8838 103112 103113 XOR\n2 1 89867 103113 8842 XOR\n2 1 83723 103113 8843 XOR\n2 1 8842 8843 8841 AND\n2 1 103144 103113 826 XOR\n2 1 66867 826 87765 XOR\n2 1 87765 111250 20974 XOR\n2 1 20974 20975 20973 AND\n2 1 20973 111250 111251 XOR\n2 1 85718 111251 20978 XOR\n2 1 87765 85717 111281 XOR\n2 1 826 890 69225 XOR\n2 1 69225 69193 69161 AND\n2 1 69161 890 85739 XOR\n2 1 8841 103113 103114 XOR\n2 1 103145 103114 827 XOR\n2 1 83724 103114 8846 XOR\n2 1 89868 103114 8845 XOR\n2 1 66868 827 87766 XOR\n2 1 87766 85718 111282 XOR\n2 1 111282 111251 83670 XOR\n2 1 87766 111251 20977 XOR\n2 1 20977 20978 20976 AND\n2 1 827 891 69226 XOR\n2 1 69226 69194 69162 AND\n2 1 69162 891 85740 XOR\n2 1 8845 8846 8844 AND\n2 1 8844 103114 103115 XOR\n2 1 103146 103115 828 XOR\n2 1 83725 103115 8849 XOR\n",
"2 1 817 828 66878 XOR\n2 1 20976 111251 111252 XOR\n2 1 828 807 66889 XOR\n2 1 66889 816 87787 XOR\n2 1 66878 805 87776 XOR\n2 1 828 892 69227 XOR\n2 1 69227 69195 69163 AND\n2 1 69163 892 85741 XOR\n2 1 85719 111252 20981 XOR\n2 1 87787 85739 111303 XOR\n2 1 827 806 66888 XOR\n2 1 66888 815 87786 XOR\n2 1 87786 85738 111302 XOR\n2 1 828 860 69099 XOR\n2 1 827 859 69098 XOR\n2 1 826 858 69097 XOR\n2 1 66869 828 87767 XOR\n2 1 87767 85719 111283 XOR\n2 1 111283 111252 83671 XOR\n2 1 87776 85728 111292 XOR\n2 1 87767 111252 20980 XOR\n2 1 20980 20981 20979 AND\n2 1 20979 111252 111253 XOR\n2 1 85720 111253 20984 XOR\n2 1 111281 111250 83669 XOR\n2 1 815 826 66876 XOR\n2 1 66876 803 87774 XOR\n2 1 87774 85726 111290 XOR\n2 1 89869 103115 8848 XOR\n2 1 8848 8849 8847 AND\n2 1 8847 103115 103116 XOR\n2 1 103147 103116 829 XOR\n2 1 818 829 66879 XOR\n2 1 829 893 69228 XOR\n2 1 69228 69196 69164 AND\n2 1 66879 806 87777 XOR\n2 1 69164 893 85742 XOR\n2 1 87777 85729 111293 XOR\n2 1 829 808 66890 XOR\n2 1 66890 817 87788 XOR\n2 1 87788 85740 111304 XOR\n2 1 83726 103116 8852 XOR\n2 1 89870 103116 8851 XOR\n2 1 8851 8852 8850 AND\n2 1 8850 103116 103117 XOR\n2 1 83727 103117 8855 XOR\n2 1 89871 103117 8854 XOR\n2 1 103148 103117 830 XOR\n2 1 830 894 69229 XOR\n2 1 830 809 66891 XOR\n2 1 66891 818 87789 XOR\n2 1 87789 85741 111305 XOR\n2 1 69229 69197 69165 AND\n2 1 819 830 66880 XOR\n2 1 66880 807 87778 XOR\n2 1 87778 85730 111294 XOR\n2 1 66871 830 87769 XOR\n2 1 87769 85721 111285 XOR\n2 1 8854 8855 8853 AND\n2 1 8853 103117 103118 XOR\n2 1 103149 103118 831 XOR\n2 1 831 810 66892 XOR\n2 1 820 831 66881 XOR\n2 1 66881 808 87779 XOR\n2 1 66872 831 87770 XOR\n2 1 66892 819 87790 XOR\n2 1 87790 85742 111306 XOR\n2 1 87770 85722 111286 XOR\n2 1 87779 85731 111295 XOR\n2 1 831 863 69102 XOR\n2 1 830 862 69101 XOR\n2 1 829 861 69100 XOR\n2 1 69165 894 85743 XOR\n2 1 826 805 66887 XOR\n2 1 66887 814 87785 XOR\n2 1 87785 85737 111301 XOR\n2 1 831 895 69230 XOR\n2 1 69230 69198 69166 AND\n2 1 69166 895 85744 XOR\n2 1 87792 85744 111308 XOR\n2 1 809 820 66870 XOR\n2 1 66870 829 87768 XOR\n2 1 87768 85720 111284 XOR\n2 1 87768 111253 20983 XOR\n2 1 20983 20984 20982 AND\n2 1 20982 111253 111254 XOR\n2 1 111285 111254 83673 XOR\n2 1 111284 111253 83672 XOR\n2 1 87769 111254 20986 XOR\n2 1 85721 111254 20987 XOR\n2 1 20986 20987 20985 AND\n2 1 20985 111254 111255 XOR\n2 1 85722 111255 20990 XOR\n2 1 111286 111255 83674 XOR\n2 1 87770 111255 20989 XOR\n2 1 20989 20990 20988 AND\n2 1 20988 111255 111256 XOR\n2 1 87771 111256 20992 XOR\n2 1 816 827 66877 XOR\n2 1 66877 804 87775 XOR\n2 1 87775 85727 111291 XOR\n2 1 69209 69177 69145 AND\n2 1 69145 874 85723 XOR\n2 1 87771 85723 111287 XOR\n2 1 111287 111256 83675 XOR\n2 1 85723 111256 20993 XOR\n2 1 20992 20993 20991 AND\n2 1 20991 111256 111257 XOR\n2 1 85724 111257 20996 XOR\n2 1 111288 111257 83676 XOR\n2 1 87772 111257 20995 XOR\n2 1 20995 20996 20994 AND\n2 1 20994 111257 111258 XOR\n2 1 111289 111258 83677 XOR\n2 1 85725 111258 20999 XOR\n2 1 87773 111258 20998 XOR\n2 1 20998 20999 20997 AND\n2 1 20997 111258 111259 XOR\n2 1 111290 111259 83678 XOR\n2 1 87774 111259 21001 XOR\n2 1 85726 111259 21002 XOR\n2 1 21001 21002 21000 AND\n2 1 21000 111259 111260 XOR\n2 1 111291 111260 83679 XOR\n2 1 87775 111260 21004 XOR\n2 1 85727 111260 21005 XOR\n2 1 21004 21005 21003 AND\n2 1 21003 111260 111261 XOR\n",
"2 1 85728 111261 21008 XOR\n2 1 87776 111261 21007 XOR\n2 1 21007 21008 21006 AND\n2 1 21006 111261 111262 XOR\n2 1 87777 111262 21010 XOR\n2 1 85729 111262 21011 XOR\n2 1 21010 21011 21009 AND\n2 1 21009 111262 111263 XOR\n2 1 87778 111263 21013 XOR\n2 1 111294 111263 83682 XOR\n2 1 111292 111261 83680 XOR\n2 1 85730 111263 21014 XOR\n2 1 21013 21014 21012 AND\n2 1 21012 111263 111264 XOR\n2 1 87779 111264 21016 XOR\n2 1 85731 111264 21017 XOR\n2 1 21016 21017 21015 AND\n2 1 21015 111264 111265 XOR\n2 1 111296 111265 83684 XOR\n2 1 87780 111265 21019 XOR\n2 1 85732 111265 21020 XOR\n2 1 21019 21020 21018 AND\n2 1 21018 111265 111266 XOR\n2 1 87781 111266 21022 XOR\n2 1 111297 111266 83685 XOR\n2 1 85733 111266 21023 XOR\n2 1 21022 21023 21021 AND\n2 1 21021 111266 111267 XOR\n2 1 111298 111267 83686 XOR\n2 1 87782 111267 21025 XOR\n2 1 85734 111267 21026 XOR\n2 1 21025 21026 21024 AND\n2 1 21024 111267 111268 XOR\n2 1 85735 111268 21029 XOR\n2 1 111299 111268 83687 XOR\n2 1 111295 111264 83683 XOR\n2 1 87783 111268 21028 XOR\n2 1 21028 21029 21027 AND\n2 1 21027 111268 111269 XOR\n2 1 87784 111269 21031 XOR\n2 1 85736 111269 21032 XOR\n2 1 21031 21032 21030 AND\n2 1 21030 111269 111270 XOR\n2 1 111301 111270 83689 XOR\n2 1 87785 111270 21034 XOR\n2 1 85737 111270 21035 XOR\n2 1 21034 21035 21033 AND\n2 1 21033 111270 111271 XOR\n2 1 87786 111271 21037 XOR\n2 1 85738 111271 21038 XOR\n2 1 21037 21038 21036 AND\n2 1 21036 111271 111272 XOR\n2 1 85739 111272 21041 XOR\n2 1 87787 111272 21040 XOR\n2 1 21040 21041 21039 AND\n2 1 111303 111272 83691 XOR\n2 1 111302 111271 83690 XOR\n2 1 111300 111269 83688 XOR\n2 1 21039 111272 111273 XOR\n2 1 87788 111273 21043 XOR\n2 1 111304 111273 83692 XOR\n2 1 85740 111273 21044 XOR\n2 1 21043 21044 21042 AND\n2 1 21042 111273 111274 XOR\n2 1 111305 111274 83693 XOR\n2 1 85741 111274 21047 XOR\n2 1 87789 111274 21046 XOR\n2 1 21046 21047 21045 AND\n2 1 21045 111274 111275 XOR\n2 1 111306 111275 83694 XOR\n2 1 85742 111275 21050 XOR\n2 1 87790 111275 21049 XOR\n2 1 21049 21050 21048 AND\n2 1 21048 111275 111276 XOR\n2 1 85743 111276 21053 XOR\n2 1 111293 111262 83681 XOR\n2 1 800 811 66893 XOR\n2 1 66893 820 87791 XOR\n2 1 87791 111276 21052 XOR\n2 1 87791 85743 111307 XOR\n2 1 21052 21053 21051 AND\n2 1 21051 111276 111277 XOR\n2 1 111308 111277 83696 XOR\n2 1 111307 111276 83695 XOR\n2 1 20348 20349 20347 AND\n2 1 20347 110861 110862 XOR\n2 1 110893 110862 93791 XOR\n2 1 75674 110862 20351 XOR\n2 1 1289 110862 20352 XOR\n2 1 20351 20352 20350 AND\n2 1 20350 110862 110863 XOR\n2 1 75675 110863 20354 XOR\n2 1 110894 110863 93792 XOR\n2 1 1290 110863 20355 XOR\n2 1 20354 20355 20353 AND\n2 1 20353 110863 110864 XOR\n2 1 110895 110864 93793 XOR\n2 1 75676 110864 20357 XOR\n2 1 1291 110864 20358 XOR\n2 1 20357 20358 20356 AND\n2 1 20356 110864 110865 XOR\n2 1 110896 110865 93794 XOR\n2 1 75677 110865 20360 XOR\n2 1 1292 110865 20361 XOR\n2 1 20360 20361 20359 AND\n2 1 20359 110865 110866 XOR\n2 1 1293 110866 20364 XOR\n2 1 110897 110866 93795 XOR\n2 1 75678 110866 20363 XOR\n2 1 20363 20364 20362 AND\n2 1 20362 110866 110867 XOR\n2 1 75679 110867 20366 XOR\n2 1 110898 110867 93796 XOR\n2 1 1294 110867 20367 XOR\n2 1 20366 20367 20365 AND\n2 1 20365 110867 110868 XOR\n2 1 75680 110868 20369 XOR\n2 1 1295 110868 20370 XOR\n2 1 20369 20370 20368 AND\n2 1 20368 110868 110869 XOR\n2 1 110900 110869 93798 XOR\n2 1 1296 110869 20373 XOR\n2 1 110899 110868 93797 XOR\n2 1 75681 110869 20372 XOR\n2 1 20372 20373 20371 AND\n2 1 20371 110869 110870 XOR\n2 1 75682 110870 20375 XOR\n2 1 110901 110870 93799 XOR\n",
"2 1 1297 110870 20376 XOR\n2 1 20375 20376 20374 AND\n2 1 20374 110870 110871 XOR\n2 1 1298 110871 20379 XOR\n2 1 110902 110871 93800 XOR\n2 1 75683 110871 20378 XOR\n2 1 20378 20379 20377 AND\n2 1 20377 110871 110872 XOR\n2 1 75684 110872 20381 XOR\n2 1 110903 110872 93801 XOR\n2 1 1299 110872 20382 XOR\n2 1 20381 20382 20380 AND\n2 1 20380 110872 110873 XOR\n2 1 1300 110873 20385 XOR\n2 1 75685 110873 20384 XOR\n2 1 110904 110873 93802 XOR\n2 1 20384 20385 20383 AND\n2 1 20383 110873 110874 XOR\n2 1 110905 110874 93803 XOR\n2 1 1301 110874 20388 XOR\n2 1 75686 110874 20387 XOR\n2 1 20387 20388 20386 AND\n2 1 20386 110874 110875 XOR\n2 1 75687 110875 20390 XOR\n2 1 1302 110875 20391 XOR\n2 1 20390 20391 20389 AND\n2 1 20389 110875 110876 XOR\n2 1 110907 110876 93805 XOR\n2 1 75688 110876 20393 XOR\n2 1 110906 110875 93804 XOR\n2 1 1303 110876 20394 XOR\n2 1 20393 20394 20392 AND\n2 1 20392 110876 110877 XOR\n2 1 75689 110877 20396 XOR\n2 1 1304 110877 20397 XOR\n2 1 110908 110877 93806 XOR\n2 1 20396 20397 20395 AND\n2 1 20395 110877 110878 XOR\n2 1 75690 110878 20399 XOR\n2 1 110909 110878 93807 XOR\n2 1 1305 110878 20400 XOR\n2 1 20399 20400 20398 AND\n2 1 20398 110878 110879 XOR\n2 1 1306 110879 20403 XOR\n2 1 75691 110879 20402 XOR\n2 1 20402 20403 20401 AND\n2 1 20401 110879 110880 XOR\n2 1 1307 110880 20406 XOR\n2 1 75692 110880 20405 XOR\n2 1 20405 20406 20404 AND\n2 1 110910 110879 93808 XOR\n2 1 110911 110880 93809 XOR\n2 1 20404 110880 110881 XOR\n2 1 110912 110881 93810 XOR\n2 1 1308 110881 20409 XOR\n2 1 75693 110881 20408 XOR\n2 1 20408 20409 20407 AND\n2 1 20407 110881 110882 XOR\n2 1 75694 110882 20411 XOR\n2 1 110913 110882 93811 XOR\n2 1 1309 110882 20412 XOR\n2 1 20411 20412 20410 AND\n2 1 20410 110882 110883 XOR\n2 1 1310 110883 20415 XOR\n2 1 110914 110883 93812 XOR\n2 1 75695 110883 20414 XOR\n2 1 20414 20415 20413 AND\n2 1 20413 110883 110884 XOR\n2 1 110915 110884 93813 XOR\n2 1 940 103037 8710 XOR\n2 1 8710 8711 8709 AND\n2 1 8709 103037 103038 XOR\n2 1 89854 103038 8714 XOR\n2 1 941 103038 8713 XOR\n2 1 8713 8714 8712 AND\n2 1 8712 103038 103039 XOR\n2 1 89855 103039 8717 XOR\n2 1 103070 103039 1262 XOR\n2 1 63133 1262 63101 AND\n2 1 1262 1294 63069 XOR\n2 1 1257 1262 60946 XOR\n2 1 75647 1262 110650 XOR\n2 1 63101 1326 97956 XOR\n2 1 942 103039 8716 XOR\n2 1 8716 8717 8715 AND\n2 1 8715 103039 103040 XOR\n2 1 943 103040 8719 XOR\n2 1 103071 103040 1263 XOR\n2 1 63134 1263 63102 AND\n2 1 1263 1295 63070 XOR\n2 1 1258 1263 60947 XOR\n2 1 75648 1263 110651 XOR\n2 1 63102 1327 97957 XOR\n2 1 89856 103040 8720 XOR\n2 1 8719 8720 8718 AND\n2 1 8718 103040 103041 XOR\n2 1 89857 103041 8723 XOR\n2 1 103072 103041 1264 XOR\n2 1 63135 1264 63103 AND\n2 1 1264 1296 63071 XOR\n2 1 1259 1264 60948 XOR\n2 1 75649 1264 110652 XOR\n2 1 944 103041 8722 XOR\n2 1 8722 8723 8721 AND\n2 1 8721 103041 103042 XOR\n2 1 945 103042 8725 XOR\n2 1 89858 103042 8726 XOR\n2 1 103073 103042 1265 XOR\n2 1 75650 1265 110653 XOR\n2 1 1265 1297 63072 XOR\n2 1 1260 1265 60949 XOR\n2 1 63136 1265 63104 AND\n2 1 63104 1329 97959 XOR\n2 1 8725 8726 8724 AND\n2 1 8724 103042 103043 XOR\n2 1 89859 103043 8729 XOR\n2 1 946 103043 8728 XOR\n2 1 103074 103043 1266 XOR\n2 1 1266 1298 63073 XOR\n2 1 75651 1266 110654 XOR\n2 1 63137 1266 63105 AND\n2 1 63105 1330 97960 XOR\n2 1 63103 1328 97958 XOR\n2 1 8728 8729 8727 AND\n2 1 8727 103043 103044 XOR\n2 1 947 103044 8731 XOR\n2 1 89860 103044 8732 XOR\n2 1 8731 8732 8730 AND\n",
"2 1 8730 103044 103045 XOR\n2 1 948 103045 8734 XOR\n2 1 89861 103045 8735 XOR\n2 1 8734 8735 8733 AND\n2 1 8733 103045 103046 XOR\n2 1 949 103046 8737 XOR\n2 1 103077 103046 1269 XOR\n2 1 89862 103046 8738 XOR\n2 1 8737 8738 8736 AND\n2 1 8736 103046 103047 XOR\n2 1 89863 103047 8741 XOR\n2 1 103078 103047 1270 XOR\n2 1 1270 1302 63077 XOR\n2 1 1265 1270 60954 XOR\n2 1 1264 1269 60953 XOR\n2 1 60972 1270 100019 XOR\n2 1 60971 1269 100018 XOR\n2 1 60954 1252 100001 XOR\n2 1 60953 1251 100000 XOR\n2 1 75654 1269 110657 XOR\n2 1 63141 1270 63109 AND\n2 1 63109 1334 97964 XOR\n2 1 100000 97952 111482 XOR\n2 1 100001 97953 111483 XOR\n2 1 75655 1270 110658 XOR\n2 1 103076 103045 1268 XOR\n2 1 1268 1300 63075 XOR\n2 1 1263 1268 60952 XOR\n2 1 60970 1268 100017 XOR\n2 1 60952 1250 99999 XOR\n2 1 75653 1268 110656 XOR\n2 1 99999 97951 111481 XOR\n2 1 63139 1268 63107 AND\n2 1 63107 1332 97962 XOR\n2 1 63140 1269 63108 AND\n2 1 63108 1333 97963 XOR\n2 1 950 103047 8740 XOR\n2 1 8740 8741 8739 AND\n2 1 8739 103047 103048 XOR\n2 1 951 103048 8743 XOR\n2 1 89864 103048 8744 XOR\n2 1 8743 8744 8742 AND\n2 1 8742 103048 103049 XOR\n2 1 89865 103049 8747 XOR\n2 1 952 103049 8746 XOR\n2 1 103080 103049 1272 XOR\n2 1 60974 1272 100021 XOR\n2 1 75657 1272 110660 XOR\n2 1 63143 1272 63111 AND\n2 1 63111 1336 97966 XOR\n2 1 103079 103048 1271 XOR\n2 1 1271 1303 63078 XOR\n2 1 1266 1271 60955 XOR\n2 1 60973 1271 100020 XOR\n2 1 60955 1253 100002 XOR\n2 1 75656 1271 110659 XOR\n2 1 63142 1271 63110 AND\n2 1 100002 97954 111484 XOR\n2 1 63110 1335 97965 XOR\n2 1 8746 8747 8745 AND\n2 1 8745 103049 103050 XOR\n2 1 103081 103050 1273 XOR\n2 1 89866 103050 8750 XOR\n2 1 953 103050 8749 XOR\n2 1 63144 1273 63112 AND\n2 1 1268 1273 60957 XOR\n2 1 60957 1255 100004 XOR\n2 1 100004 97956 111486 XOR\n2 1 60943 1273 99990 XOR\n2 1 75658 1273 110661 XOR\n2 1 1273 1305 63080 XOR\n2 1 63112 1337 97967 XOR\n2 1 99990 97942 111442 AND\n2 1 97943 111442 21306 XOR\n2 1 99990 97942 95894 XOR\n2 1 95894 93846 89809 XOR\n2 1 896 89809 1216 XOR\n2 1 75601 1216 110358 AND\n2 1 75601 1216 93718 XOR\n2 1 896 89809 102902 AND\n2 1 897 102902 8497 XOR\n2 1 89809 83665 102964 AND\n2 1 83666 102964 8588 XOR\n2 1 63055 1216 63023 AND\n2 1 63023 1280 97910 XOR\n2 1 1216 1248 62991 XOR\n2 1 8749 8750 8748 AND\n2 1 8748 103050 103051 XOR\n2 1 103082 103051 1274 XOR\n2 1 1274 1306 63081 XOR\n2 1 63145 1274 63113 AND\n2 1 1269 1274 60958 XOR\n2 1 60958 1256 100005 XOR\n2 1 60944 1274 99991 XOR\n2 1 75659 1274 110662 XOR\n2 1 63113 1338 97968 XOR\n2 1 89867 103051 8753 XOR\n2 1 99991 97943 111473 XOR\n2 1 111473 111442 95895 XOR\n2 1 95895 93847 111349 XOR\n2 1 100005 97957 111487 XOR\n2 1 99991 111442 21305 XOR\n2 1 21305 21306 21304 AND\n2 1 21304 111442 111443 XOR\n2 1 97944 111443 21309 XOR\n2 1 89809 83665 768 XOR\n2 1 768 800 68975 XOR\n2 1 95894 93846 111318 AND\n2 1 95895 111318 21125 XOR\n2 1 111349 111318 89810 XOR\n2 1 89810 102964 8587 XOR\n2 1 8587 8588 8586 AND\n2 1 89810 83666 102995 XOR\n2 1 897 89810 102933 XOR\n2 1 102933 102902 1217 XOR\n2 1 1217 1249 62992 XOR\n2 1 63056 1217 63024 AND\n2 1 102995 102964 769 XOR\n2 1 769 801 68976 XOR\n2 1 63024 1281 97911 XOR\n2 1 93847 111318 21126 XOR\n2 1 21125 21126 21124 AND\n2 1 21124 111318 111319 XOR\n2 1 93848 111319 21129 XOR\n2 1 8586 102964 102965 XOR\n2 1 83667 102965 8591 XOR\n2 1 954 103051 8752 XOR\n2 1 8752 8753 8751 AND\n",
"2 1 8751 103051 103052 XOR\n2 1 89868 103052 8756 XOR\n2 1 103083 103052 1275 XOR\n2 1 63146 1275 63114 AND\n2 1 1275 1248 60964 XOR\n2 1 1270 1275 60959 XOR\n2 1 60964 1262 100011 XOR\n2 1 60959 1257 100006 XOR\n2 1 100006 97958 111488 XOR\n2 1 75660 1275 110663 XOR\n2 1 955 103052 8755 XOR\n2 1 8755 8756 8754 AND\n2 1 8754 103052 103053 XOR\n2 1 956 103053 8758 XOR\n2 1 103084 103053 1276 XOR\n2 1 63147 1276 63115 AND\n2 1 63115 1340 97970 XOR\n2 1 1276 1249 60965 XOR\n2 1 1271 1276 60960 XOR\n2 1 60965 1263 100012 XOR\n2 1 60960 1258 100007 XOR\n2 1 60946 1276 99993 XOR\n2 1 100012 97964 111494 XOR\n2 1 100018 97970 111500 XOR\n2 1 75661 1276 110664 XOR\n2 1 99993 97945 111475 XOR\n2 1 100007 97959 111489 XOR\n2 1 100011 97963 111493 XOR\n2 1 89869 103053 8759 XOR\n2 1 8758 8759 8757 AND\n2 1 8757 103053 103054 XOR\n2 1 957 103054 8761 XOR\n2 1 89870 103054 8762 XOR\n2 1 103085 103054 1277 XOR\n2 1 63148 1277 63116 AND\n2 1 63116 1341 97971 XOR\n2 1 1277 1250 60966 XOR\n2 1 1272 1277 60961 XOR\n2 1 60966 1264 100013 XOR\n2 1 60961 1259 100008 XOR\n2 1 60947 1277 99994 XOR\n2 1 75662 1277 110665 XOR\n2 1 100008 97960 111490 XOR\n2 1 99994 97946 111476 XOR\n2 1 100013 97965 111495 XOR\n2 1 100019 97971 111501 XOR\n2 1 1277 1309 63084 XOR\n2 1 8761 8762 8760 AND\n2 1 8760 103054 103055 XOR\n2 1 89871 103055 8765 XOR\n2 1 958 103055 8764 XOR\n2 1 103086 103055 1278 XOR\n2 1 63149 1278 63117 AND\n2 1 63117 1342 97972 XOR\n2 1 1278 1251 60967 XOR\n2 1 1278 1310 63085 XOR\n2 1 1273 1278 60962 XOR\n2 1 60967 1265 100014 XOR\n2 1 60962 1260 100009 XOR\n2 1 60948 1278 99995 XOR\n2 1 100020 97972 111502 XOR\n2 1 75663 1278 110666 XOR\n2 1 100014 97966 111496 XOR\n2 1 99995 97947 111477 XOR\n2 1 8764 8765 8763 AND\n2 1 8763 103055 103056 XOR\n2 1 103087 103056 1279 XOR\n2 1 63150 1279 63118 AND\n2 1 1279 1311 63086 XOR\n2 1 1279 1252 60968 XOR\n2 1 1274 1279 60963 XOR\n2 1 60968 1266 100015 XOR\n2 1 60949 1279 99996 XOR\n2 1 99996 97948 111478 XOR\n2 1 100015 97967 111497 XOR\n2 1 75664 1279 110667 XOR\n2 1 63118 1343 97973 XOR\n2 1 100021 97973 111503 XOR\n2 1 1217 110358 19386 XOR\n2 1 1276 1308 63083 XOR\n2 1 1272 1304 63079 XOR\n2 1 63114 1339 97969 XOR\n2 1 100017 97969 111499 XOR\n2 1 769 833 69104 XOR\n2 1 69104 69072 69040 AND\n2 1 69040 833 85682 XOR\n2 1 768 832 69103 XOR\n2 1 69103 69071 69039 AND\n2 1 69039 832 85681 XOR\n2 1 75602 110358 19385 XOR\n2 1 89810 102902 8498 XOR\n2 1 8497 8498 8496 AND\n2 1 8496 102902 102903 XOR\n2 1 898 102903 8500 XOR\n2 1 19385 19386 19384 AND\n2 1 19384 110358 110359 XOR\n2 1 75603 110359 19388 XOR\n2 1 1275 1307 63082 XOR\n2 1 103075 103044 1267 XOR\n2 1 1267 1299 63074 XOR\n2 1 1267 1272 60956 XOR\n2 1 1262 1267 60951 XOR\n2 1 60969 1267 100016 XOR\n2 1 60956 1254 100003 XOR\n2 1 60951 1249 99998 XOR\n2 1 63138 1267 63106 AND\n2 1 75652 1267 110655 XOR\n2 1 63106 1331 97961 XOR\n2 1 100016 97968 111498 XOR\n2 1 99998 97950 111480 XOR\n2 1 100009 97961 111491 XOR\n2 1 1269 1301 63076 XOR\n2 1 75602 1217 110389 XOR\n2 1 110389 110358 93719 XOR\n2 1 941 89854 103069 XOR\n2 1 103069 103038 1261 XOR\n2 1 63132 1261 63100 AND\n2 1 1261 1293 63068 XOR\n2 1 1261 1266 60950 XOR\n2 1 1256 1261 60945 XOR\n2 1 60963 1261 100010 XOR\n2 1 60950 1248 99997 XOR\n2 1 60945 1275 99992 XOR\n2 1 75646 1261 110649 XOR\n2 1 1261 110618 19905 XOR\n2 1 19904 19905 19903 AND\n2 1 19903 110618 110619 XOR\n2 1 1262 110619 19908 XOR\n",
"2 1 75647 110619 19907 XOR\n2 1 19907 19908 19906 AND\n2 1 19906 110619 110620 XOR\n2 1 110651 110620 93765 XOR\n2 1 75648 110620 19910 XOR\n2 1 63100 1325 97955 XOR\n2 1 1263 110620 19911 XOR\n2 1 19910 19911 19909 AND\n2 1 100010 97962 111492 XOR\n2 1 110650 110619 93764 XOR\n2 1 99992 97944 111474 XOR\n2 1 99997 97949 111479 XOR\n2 1 100003 97955 111485 XOR\n2 1 111474 111443 95896 XOR\n2 1 95896 111319 21128 XOR\n2 1 21128 21129 21127 AND\n2 1 21127 111319 111320 XOR\n2 1 93849 111320 21132 XOR\n2 1 95896 93848 111350 XOR\n2 1 111350 111319 89811 XOR\n2 1 89811 102965 8590 XOR\n2 1 89811 83667 102996 XOR\n2 1 89811 102903 8501 XOR\n2 1 8500 8501 8499 AND\n2 1 8499 102903 102904 XOR\n2 1 899 102904 8503 XOR\n2 1 8590 8591 8589 AND\n2 1 8589 102965 102966 XOR\n2 1 83668 102966 8594 XOR\n2 1 898 89811 102934 XOR\n2 1 102934 102903 1218 XOR\n2 1 63057 1218 63025 AND\n2 1 63025 1282 97912 XOR\n2 1 1218 110359 19389 XOR\n2 1 1218 1250 62993 XOR\n2 1 102996 102965 770 XOR\n2 1 770 834 69105 XOR\n2 1 770 802 68977 XOR\n2 1 75603 1218 110390 XOR\n2 1 99992 111443 21308 XOR\n2 1 21308 21309 21307 AND\n2 1 19909 110620 110621 XOR\n2 1 1264 110621 19914 XOR\n2 1 110652 110621 93766 XOR\n2 1 75649 110621 19913 XOR\n2 1 19913 19914 19912 AND\n2 1 19912 110621 110622 XOR\n2 1 1265 110622 19917 XOR\n2 1 75650 110622 19916 XOR\n2 1 19916 19917 19915 AND\n2 1 19915 110622 110623 XOR\n2 1 110654 110623 93768 XOR\n2 1 75651 110623 19919 XOR\n2 1 1266 110623 19920 XOR\n2 1 19919 19920 19918 AND\n2 1 19918 110623 110624 XOR\n2 1 110655 110624 93769 XOR\n2 1 75652 110624 19922 XOR\n2 1 1267 110624 19923 XOR\n2 1 19922 19923 19921 AND\n2 1 19921 110624 110625 XOR\n2 1 75653 110625 19925 XOR\n2 1 1268 110625 19926 XOR\n2 1 19925 19926 19924 AND\n2 1 110656 110625 93770 XOR\n2 1 19924 110625 110626 XOR\n2 1 1269 110626 19929 XOR\n2 1 110657 110626 93771 XOR\n2 1 110653 110622 93767 XOR\n2 1 110390 110359 93720 XOR\n2 1 69105 69073 69041 AND\n2 1 69041 834 85683 XOR\n2 1 19388 19389 19387 AND\n2 1 19387 110359 110360 XOR\n2 1 75604 110360 19391 XOR\n2 1 75654 110626 19928 XOR\n2 1 19928 19929 19927 AND\n2 1 19927 110626 110627 XOR\n2 1 1270 110627 19932 XOR\n2 1 110658 110627 93772 XOR\n2 1 75655 110627 19931 XOR\n2 1 19931 19932 19930 AND\n2 1 19930 110627 110628 XOR\n2 1 1271 110628 19935 XOR\n2 1 75656 110628 19934 XOR\n2 1 19934 19935 19933 AND\n2 1 110659 110628 93773 XOR\n2 1 19933 110628 110629 XOR\n2 1 1272 110629 19938 XOR\n2 1 75657 110629 19937 XOR\n2 1 110660 110629 93774 XOR\n2 1 19937 19938 19936 AND\n2 1 19936 110629 110630 XOR\n2 1 75658 110630 19940 XOR\n2 1 1273 110630 19941 XOR\n2 1 110661 110630 93775 XOR\n2 1 19940 19941 19939 AND\n2 1 19939 110630 110631 XOR\n2 1 110662 110631 93776 XOR\n2 1 1274 110631 19944 XOR\n2 1 75659 110631 19943 XOR\n2 1 19943 19944 19942 AND\n2 1 19942 110631 110632 XOR\n2 1 110663 110632 93777 XOR\n2 1 1275 110632 19947 XOR\n2 1 75660 110632 19946 XOR\n2 1 19946 19947 19945 AND\n2 1 19945 110632 110633 XOR\n2 1 110664 110633 93778 XOR\n2 1 1276 110633 19950 XOR\n2 1 75661 110633 19949 XOR\n2 1 19949 19950 19948 AND\n2 1 21307 111443 111444 XOR\n2 1 97945 111444 21312 XOR\n2 1 111475 111444 95897 XOR\n2 1 95897 111320 21131 XOR\n2 1 21131 21132 21130 AND\n2 1 21130 111320 111321 XOR\n2 1 93850 111321 21135 XOR\n2 1 99993 111444 21311 XOR\n2 1 21311 21312 21310 AND\n2 1 21310 111444 111445 XOR\n2 1 99994 111445 21314 XOR\n2 1 111476 111445 95898 XOR\n2 1 95898 111321 21134 XOR\n2 1 95898 93850 111352 XOR\n2 1 111352 111321 91853 XOR\n2 1 97946 111445 21315 XOR\n",
"2 1 21314 21315 21313 AND\n2 1 21313 111445 111446 XOR\n2 1 97947 111446 21318 XOR\n2 1 111477 111446 95899 XOR\n2 1 99995 111446 21317 XOR\n2 1 21317 21318 21316 AND\n2 1 21316 111446 111447 XOR\n2 1 99996 111447 21320 XOR\n2 1 111478 111447 95900 XOR\n2 1 97948 111447 21321 XOR\n2 1 21320 21321 21319 AND\n2 1 21319 111447 111448 XOR\n2 1 111479 111448 95901 XOR\n2 1 97949 111448 21324 XOR\n2 1 95901 93853 111355 XOR\n2 1 99997 111448 21323 XOR\n2 1 21323 21324 21322 AND\n2 1 21322 111448 111449 XOR\n2 1 99998 111449 21326 XOR\n2 1 111480 111449 95902 XOR\n2 1 95902 93854 111356 XOR\n2 1 97950 111449 21327 XOR\n2 1 21326 21327 21325 AND\n2 1 21325 111449 111450 XOR\n2 1 111481 111450 95903 XOR\n2 1 95903 93855 111357 XOR\n2 1 97951 111450 21330 XOR\n2 1 95899 93851 111353 XOR\n2 1 99999 111450 21329 XOR\n2 1 21329 21330 21328 AND\n2 1 21328 111450 111451 XOR\n2 1 100000 111451 21332 XOR\n2 1 111482 111451 95904 XOR\n2 1 95904 93856 111358 XOR\n2 1 97952 111451 21333 XOR\n2 1 21332 21333 21331 AND\n2 1 21331 111451 111452 XOR\n2 1 111483 111452 95905 XOR\n2 1 95905 93857 111359 XOR\n2 1 100001 111452 21335 XOR\n2 1 21134 21135 21133 AND\n2 1 21133 111321 111322 XOR\n2 1 111353 111322 91854 XOR\n2 1 93851 111322 21138 XOR\n2 1 95899 111322 21137 XOR\n2 1 21137 21138 21136 AND\n2 1 21136 111322 111323 XOR\n2 1 95900 111323 21140 XOR\n2 1 97953 111452 21336 XOR\n2 1 21335 21336 21334 AND\n2 1 21334 111452 111453 XOR\n2 1 111484 111453 95906 XOR\n2 1 95906 93858 111360 XOR\n2 1 97954 111453 21339 XOR\n2 1 100002 111453 21338 XOR\n2 1 93852 111323 21141 XOR\n2 1 21140 21141 21139 AND\n2 1 21139 111323 111324 XOR\n2 1 95901 111324 21143 XOR\n2 1 111355 111324 91856 XOR\n2 1 93853 111324 21144 XOR\n2 1 21143 21144 21142 AND\n2 1 21142 111324 111325 XOR\n2 1 111356 111325 91857 XOR\n2 1 93854 111325 21147 XOR\n2 1 95902 111325 21146 XOR\n2 1 21146 21147 21145 AND\n2 1 21145 111325 111326 XOR\n2 1 111357 111326 91858 XOR\n1 1 91858 21115 INV\n2 1 93855 111326 21150 XOR\n2 1 95903 111326 21149 XOR\n2 1 21149 21150 21148 AND\n2 1 21148 111326 111327 XOR\n2 1 93856 111327 21153 XOR\n2 1 95904 111327 21152 XOR\n2 1 111358 111327 91859 XOR\n2 1 95897 93849 111351 XOR\n2 1 111351 111320 91852 XOR\n2 1 91853 91852 89813 XOR\n2 1 900 89813 102936 XOR\n2 1 89813 83669 102998 XOR\n2 1 89813 91852 21054 AND\n2 1 21054 91852 21056 XOR\n2 1 91854 21056 89814 XOR\n2 1 89814 83670 102999 XOR\n2 1 89814 21056 21055 AND\n2 1 21055 21056 21058 XOR\n1 1 91852 89812 INV\n2 1 899 89812 102935 XOR\n2 1 89812 83668 102997 XOR\n2 1 89812 102966 8593 XOR\n2 1 8593 8594 8592 AND\n2 1 8592 102966 102967 XOR\n2 1 83669 102967 8597 XOR\n2 1 102935 102904 1219 XOR\n2 1 901 89814 102937 XOR\n2 1 89812 102904 8504 XOR\n2 1 102997 102966 771 XOR\n2 1 102998 102967 772 XOR\n2 1 772 804 68979 XOR\n2 1 772 836 69107 XOR\n2 1 89813 102967 8596 XOR\n2 1 8596 8597 8595 AND\n2 1 8595 102967 102968 XOR\n2 1 102999 102968 773 XOR\n2 1 1219 1251 62994 XOR\n2 1 771 803 68978 XOR\n2 1 1219 110360 19392 XOR\n2 1 19391 19392 19390 AND\n2 1 19390 110360 110361 XOR\n2 1 75605 110361 19394 XOR\n2 1 83670 102968 8600 XOR\n2 1 63058 1219 63026 AND\n2 1 63026 1283 97913 XOR\n2 1 75604 1219 110391 XOR\n2 1 110391 110360 93721 XOR\n2 1 773 805 68980 XOR\n2 1 773 837 69108 XOR\n2 1 69108 69076 69044 AND\n2 1 69044 837 85686 XOR\n2 1 771 835 69106 XOR\n2 1 69106 69074 69042 AND\n2 1 69042 835 85684 XOR\n2 1 69107 69075 69043 AND\n2 1 69043 836 85685 XOR\n2 1 8503 8504 8502 AND\n2 1 8502 102904 102905 XOR\n",
"2 1 89813 102905 8507 XOR\n2 1 102936 102905 1220 XOR\n2 1 63059 1220 63027 AND\n2 1 1220 1252 62995 XOR\n2 1 63027 1284 97914 XOR\n2 1 1220 110361 19395 XOR\n2 1 19394 19395 19393 AND\n2 1 19393 110361 110362 XOR\n2 1 75605 1220 110392 XOR\n2 1 900 102905 8506 XOR\n2 1 8506 8507 8505 AND\n2 1 8505 102905 102906 XOR\n2 1 901 102906 8509 XOR\n2 1 102937 102906 1221 XOR\n2 1 1216 1221 60937 XOR\n2 1 1221 110362 19398 XOR\n2 1 110392 110361 93722 XOR\n2 1 63060 1221 63028 AND\n2 1 63028 1285 97915 XOR\n2 1 75606 110362 19397 XOR\n2 1 1221 1253 62996 XOR\n2 1 19397 19398 19396 AND\n2 1 19396 110362 110363 XOR\n2 1 75607 110363 19400 XOR\n2 1 89814 102968 8599 XOR\n2 1 8599 8600 8598 AND\n2 1 8598 102968 102969 XOR\n2 1 83671 102969 8603 XOR\n2 1 75606 1221 110393 XOR\n2 1 110393 110362 93723 XOR\n2 1 21152 21153 21151 AND\n2 1 21151 111327 111328 XOR\n2 1 95905 111328 21155 XOR\n2 1 93857 111328 21156 XOR\n2 1 21155 21156 21154 AND\n2 1 21154 111328 111329 XOR\n2 1 93858 111329 21159 XOR\n2 1 95906 111329 21158 XOR\n2 1 21158 21159 21157 AND\n2 1 21157 111329 111330 XOR\n2 1 111360 111329 91861 XOR\n2 1 111359 111328 91860 XOR\n2 1 93859 111330 21162 XOR\n2 1 19948 110633 110634 XOR\n2 1 110665 110634 93779 XOR\n2 1 75662 110634 19952 XOR\n2 1 1277 110634 19953 XOR\n2 1 19952 19953 19951 AND\n2 1 19951 110634 110635 XOR\n2 1 1278 110635 19956 XOR\n2 1 110666 110635 93780 XOR\n2 1 75663 110635 19955 XOR\n2 1 19955 19956 19954 AND\n2 1 19954 110635 110636 XOR\n2 1 110667 110636 93781 XOR\n2 1 95900 93852 111354 XOR\n2 1 111354 111323 91855 XOR\n2 1 91855 21058 89815 XOR\n2 1 89815 83671 103000 XOR\n2 1 89815 21058 21057 AND\n2 1 21057 21058 21060 XOR\n2 1 91856 21060 89816 XOR\n2 1 89816 21060 21059 AND\n2 1 21059 21060 21062 XOR\n2 1 902 89815 102938 XOR\n2 1 903 89816 102939 XOR\n2 1 103000 102969 774 XOR\n2 1 774 838 69109 XOR\n2 1 89815 102969 8602 XOR\n2 1 8602 8603 8601 AND\n2 1 8601 102969 102970 XOR\n2 1 83672 102970 8606 XOR\n2 1 89816 102970 8605 XOR\n2 1 8605 8606 8604 AND\n2 1 8604 102970 102971 XOR\n2 1 83673 102971 8609 XOR\n2 1 91857 21062 89817 XOR\n2 1 89817 21062 21061 AND\n2 1 21061 21062 111309 XOR\n2 1 91858 111309 21064 XOR\n2 1 21115 111309 89818 XOR\n2 1 89818 83674 103003 XOR\n2 1 905 89818 102941 XOR\n1 1 111309 21065 INV\n2 1 21064 21065 21063 AND\n2 1 21063 111309 21067 XOR\n2 1 91859 21067 89819 XOR\n2 1 89819 21067 21066 AND\n2 1 21066 21067 21069 XOR\n2 1 91860 21069 89820 XOR\n2 1 89820 21069 21068 AND\n2 1 21068 21069 21071 XOR\n2 1 906 89819 102942 XOR\n2 1 89817 83673 103002 XOR\n2 1 89817 102971 8608 XOR\n2 1 904 89817 102940 XOR\n2 1 8608 8609 8607 AND\n2 1 8607 102971 102972 XOR\n2 1 103003 102972 777 XOR\n2 1 777 841 69112 XOR\n2 1 69112 69080 69048 AND\n2 1 83674 102972 8612 XOR\n2 1 89818 102972 8611 XOR\n2 1 8611 8612 8610 AND\n2 1 69048 841 85690 XOR\n2 1 8610 102972 102973 XOR\n2 1 83675 102973 8615 XOR\n2 1 89819 102973 8614 XOR\n2 1 8614 8615 8613 AND\n2 1 8613 102973 102974 XOR\n2 1 83676 102974 8618 XOR\n2 1 89820 102974 8617 XOR\n2 1 8617 8618 8616 AND\n2 1 8616 102974 102975 XOR\n2 1 83677 102975 8621 XOR\n2 1 907 89820 102943 XOR\n2 1 89819 83675 103004 XOR\n2 1 103004 102973 778 XOR\n2 1 778 842 69113 XOR\n2 1 778 810 68985 XOR\n2 1 777 809 68984 XOR\n2 1 774 806 68981 XOR\n2 1 89820 83676 103005 XOR\n2 1 103005 102974 779 XOR\n2 1 768 779 66861 XOR\n2 1 779 843 69114 XOR\n2 1 69114 69082 69050 AND\n2 1 69050 843 85692 XOR\n",
"2 1 91861 21071 89821 XOR\n2 1 89821 21071 21070 AND\n2 1 21070 21071 21073 XOR\n2 1 89821 102975 8620 XOR\n2 1 908 89821 102944 XOR\n2 1 89821 83677 103006 XOR\n2 1 8620 8621 8619 AND\n2 1 8619 102975 102976 XOR\n2 1 83678 102976 8624 XOR\n2 1 103006 102975 780 XOR\n2 1 780 812 68987 XOR\n2 1 780 844 69115 XOR\n2 1 769 780 66862 XOR\n2 1 69115 69083 69051 AND\n2 1 69113 69081 69049 AND\n2 1 69049 842 85691 XOR\n2 1 69109 69077 69045 AND\n2 1 69045 838 85687 XOR\n2 1 69051 844 85693 XOR\n2 1 779 811 68986 XOR\n2 1 103002 102971 776 XOR\n2 1 776 840 69111 XOR\n2 1 776 808 68983 XOR\n2 1 69111 69079 69047 AND\n2 1 69047 840 85689 XOR\n2 1 89816 83672 103001 XOR\n2 1 103001 102970 775 XOR\n2 1 775 807 68982 XOR\n2 1 775 839 69110 XOR\n2 1 69110 69078 69046 AND\n2 1 69046 839 85688 XOR\n2 1 21338 21339 21337 AND\n2 1 21337 111453 111454 XOR\n2 1 111485 111454 95907 XOR\n2 1 100003 111454 21341 XOR\n2 1 95907 111330 21161 XOR\n2 1 21161 21162 21160 AND\n2 1 21160 111330 111331 XOR\n2 1 93860 111331 21165 XOR\n2 1 95907 93859 111361 XOR\n2 1 111361 111330 91862 XOR\n2 1 91862 21073 89822 XOR\n2 1 89822 21073 21072 AND\n2 1 21072 21073 21075 XOR\n2 1 89822 83678 103007 XOR\n2 1 103007 102976 781 XOR\n2 1 781 845 69116 XOR\n2 1 909 89822 102945 XOR\n2 1 69116 69084 69052 AND\n2 1 69052 845 85694 XOR\n2 1 781 813 68988 XOR\n2 1 770 781 66831 XOR\n2 1 89822 102976 8623 XOR\n2 1 8623 8624 8622 AND\n2 1 8622 102976 102977 XOR\n2 1 83679 102977 8627 XOR\n2 1 97955 111454 21342 XOR\n2 1 21341 21342 21340 AND\n2 1 21340 111454 111455 XOR\n2 1 111486 111455 95908 XOR\n2 1 95908 111331 21164 XOR\n2 1 21164 21165 21163 AND\n2 1 21163 111331 111332 XOR\n2 1 100004 111455 21344 XOR\n2 1 93861 111332 21168 XOR\n2 1 95908 93860 111362 XOR\n2 1 111362 111331 91863 XOR\n2 1 91863 21075 89823 XOR\n2 1 89823 21075 21074 AND\n2 1 21074 21075 21077 XOR\n2 1 89823 83679 103008 XOR\n2 1 103008 102977 782 XOR\n2 1 782 846 69117 XOR\n2 1 771 782 66832 XOR\n2 1 782 814 68989 XOR\n2 1 97956 111455 21345 XOR\n2 1 89823 102977 8626 XOR\n2 1 8626 8627 8625 AND\n2 1 8625 102977 102978 XOR\n2 1 83680 102978 8630 XOR\n2 1 21344 21345 21343 AND\n2 1 21343 111455 111456 XOR\n2 1 100005 111456 21347 XOR\n2 1 97957 111456 21348 XOR\n2 1 21347 21348 21346 AND\n2 1 21346 111456 111457 XOR\n2 1 111488 111457 95910 XOR\n2 1 95910 93862 111364 XOR\n2 1 100006 111457 21350 XOR\n2 1 97958 111457 21351 XOR\n2 1 21350 21351 21349 AND\n2 1 21349 111457 111458 XOR\n2 1 100007 111458 21353 XOR\n2 1 97959 111458 21354 XOR\n2 1 21353 21354 21352 AND\n2 1 111489 111458 95911 XOR\n2 1 95911 93863 111365 XOR\n2 1 21352 111458 111459 XOR\n2 1 111490 111459 95912 XOR\n2 1 95912 93864 111366 XOR\n2 1 100008 111459 21356 XOR\n2 1 97960 111459 21357 XOR\n2 1 21356 21357 21355 AND\n2 1 21355 111459 111460 XOR\n2 1 97961 111460 21360 XOR\n2 1 111491 111460 95913 XOR\n2 1 95913 93865 111367 XOR\n2 1 100009 111460 21359 XOR\n2 1 21359 21360 21358 AND\n2 1 21358 111460 111461 XOR\n2 1 97962 111461 21363 XOR\n2 1 100010 111461 21362 XOR\n2 1 111492 111461 95914 XOR\n2 1 95914 93866 111368 XOR\n2 1 910 89823 102946 XOR\n2 1 111487 111456 95909 XOR\n2 1 95909 93861 111363 XOR\n2 1 111363 111332 91864 XOR\n2 1 95909 111332 21167 XOR\n2 1 21167 21168 21166 AND\n2 1 21166 111332 111333 XOR\n2 1 111364 111333 91865 XOR\n1 1 91865 21116 INV\n2 1 95910 111333 21170 XOR\n2 1 93862 111333 21171 XOR\n2 1 21170 21171 21169 AND\n2 1 21169 111333 111334 XOR\n2 1 111365 111334 91866 XOR\n",
"1 1 91866 21117 INV\n2 1 95911 111334 21173 XOR\n2 1 93863 111334 21174 XOR\n2 1 21173 21174 21172 AND\n2 1 21172 111334 111335 XOR\n2 1 111366 111335 91867 XOR\n1 1 91867 21118 INV\n2 1 95912 111335 21176 XOR\n2 1 93864 111335 21177 XOR\n2 1 21176 21177 21175 AND\n2 1 21175 111335 111336 XOR\n2 1 111367 111336 91868 XOR\n2 1 95913 111336 21179 XOR\n2 1 93865 111336 21180 XOR\n2 1 21179 21180 21178 AND\n2 1 21178 111336 111337 XOR\n2 1 111368 111337 91869 XOR\n2 1 95914 111337 21182 XOR\n2 1 93866 111337 21183 XOR\n2 1 21182 21183 21181 AND\n2 1 21181 111337 111338 XOR\n2 1 93867 111338 21186 XOR\n2 1 69117 69085 69053 AND\n2 1 69053 846 85695 XOR\n2 1 21362 21363 21361 AND\n2 1 21361 111461 111462 XOR\n2 1 111493 111462 95915 XOR\n2 1 97963 111462 21366 XOR\n2 1 95915 111338 21185 XOR\n2 1 21185 21186 21184 AND\n2 1 21184 111338 111339 XOR\n2 1 93868 111339 21189 XOR\n2 1 95915 93867 111369 XOR\n2 1 111369 111338 91870 XOR\n2 1 100011 111462 21365 XOR\n2 1 21365 21366 21364 AND\n2 1 21364 111462 111463 XOR\n2 1 111494 111463 95916 XOR\n2 1 95916 111339 21188 XOR\n2 1 97964 111463 21369 XOR\n2 1 100012 111463 21368 XOR\n2 1 21368 21369 21367 AND\n2 1 21367 111463 111464 XOR\n2 1 100013 111464 21371 XOR\n2 1 111495 111464 95917 XOR\n2 1 95917 93869 111371 XOR\n2 1 95916 93868 111370 XOR\n2 1 111370 111339 91871 XOR\n1 1 91871 21119 INV\n2 1 97965 111464 21372 XOR\n2 1 21371 21372 21370 AND\n2 1 21370 111464 111465 XOR\n2 1 100014 111465 21374 XOR\n2 1 97966 111465 21375 XOR\n2 1 21374 21375 21373 AND\n2 1 21373 111465 111466 XOR\n2 1 97967 111466 21378 XOR\n2 1 111497 111466 95919 XOR\n2 1 95919 93871 111373 XOR\n2 1 111496 111465 95918 XOR\n2 1 95918 93870 111372 XOR\n2 1 100015 111466 21377 XOR\n2 1 21377 21378 21376 AND\n2 1 21376 111466 111467 XOR\n2 1 100016 111467 21380 XOR\n2 1 97968 111467 21381 XOR\n2 1 21380 21381 21379 AND\n2 1 111498 111467 95920 XOR\n2 1 95920 93872 111374 XOR\n2 1 21379 111467 111468 XOR\n2 1 97969 111468 21384 XOR\n2 1 111499 111468 95921 XOR\n2 1 95921 93873 111375 XOR\n2 1 100017 111468 21383 XOR\n2 1 21188 21189 21187 AND\n2 1 21187 111339 111340 XOR\n2 1 95917 111340 21191 XOR\n2 1 111371 111340 91872 XOR\n2 1 93869 111340 21192 XOR\n2 1 21191 21192 21190 AND\n2 1 21190 111340 111341 XOR\n2 1 93870 111341 21195 XOR\n2 1 95918 111341 21194 XOR\n1 1 91872 21120 INV\n2 1 21194 21195 21193 AND\n2 1 21193 111341 111342 XOR\n2 1 111373 111342 91874 XOR\n2 1 93871 111342 21198 XOR\n2 1 95919 111342 21197 XOR\n2 1 21197 21198 21196 AND\n2 1 21196 111342 111343 XOR\n2 1 95920 111343 21200 XOR\n2 1 93872 111343 21201 XOR\n2 1 21200 21201 21199 AND\n2 1 21199 111343 111344 XOR\n2 1 95921 111344 21203 XOR\n2 1 111375 111344 91876 XOR\n1 1 91876 21122 INV\n2 1 93873 111344 21204 XOR\n2 1 21203 21204 21202 AND\n2 1 111374 111343 91875 XOR\n1 1 91875 21121 INV\n2 1 111372 111341 91873 XOR\n2 1 21202 111344 111345 XOR\n2 1 93874 111345 21207 XOR\n2 1 21383 21384 21382 AND\n2 1 91864 21077 89824 XOR\n2 1 89824 21077 21076 AND\n2 1 21076 21077 111310 XOR\n1 1 111310 21080 INV\n2 1 21116 111310 89825 XOR\n2 1 912 89825 102948 XOR\n2 1 91865 111310 21079 XOR\n2 1 21079 21080 21078 AND\n2 1 21078 111310 111311 XOR\n1 1 111311 21083 INV\n2 1 21117 111311 89826 XOR\n2 1 913 89826 102949 XOR\n2 1 89826 83682 103011 XOR\n2 1 91866 111311 21082 XOR\n2 1 21082 21083 21081 AND\n2 1 21081 111311 111312 XOR\n2 1 91867 111312 21085 XOR\n1 1 111312 21086 INV\n2 1 21085 21086 21084 AND\n2 1 21084 111312 21088 XOR\n2 1 91868 21088 89828 XOR\n2 1 89828 83684 103013 XOR\n",
"2 1 89828 21088 21087 AND\n2 1 21087 21088 21090 XOR\n2 1 91869 21090 89829 XOR\n2 1 89829 83685 103014 XOR\n2 1 916 89829 102952 XOR\n2 1 89829 21090 21089 AND\n2 1 21089 21090 21092 XOR\n2 1 915 89828 102951 XOR\n2 1 21118 111312 89827 XOR\n2 1 89827 83683 103012 XOR\n2 1 91870 21092 89830 XOR\n2 1 89830 21092 21091 AND\n2 1 21091 21092 111313 XOR\n2 1 21119 111313 89831 XOR\n2 1 918 89831 102954 XOR\n2 1 91871 111313 21094 XOR\n1 1 111313 21095 INV\n2 1 21094 21095 21093 AND\n2 1 21093 111313 111314 XOR\n1 1 111314 21098 INV\n2 1 91872 111314 21097 XOR\n2 1 21120 111314 89832 XOR\n2 1 89832 83688 103017 XOR\n2 1 919 89832 102955 XOR\n2 1 89831 83687 103016 XOR\n2 1 89830 83686 103015 XOR\n2 1 917 89830 102953 XOR\n2 1 21097 21098 21096 AND\n2 1 21096 111314 21100 XOR\n2 1 91873 21100 89833 XOR\n2 1 89833 21100 21099 AND\n2 1 21099 21100 21102 XOR\n2 1 91874 21102 89834 XOR\n2 1 89834 21102 21101 AND\n2 1 21101 21102 111315 XOR\n1 1 111315 21105 INV\n2 1 921 89834 102957 XOR\n2 1 89834 83690 103019 XOR\n2 1 91875 111315 21104 XOR\n2 1 21121 111315 89835 XOR\n2 1 922 89835 102958 XOR\n2 1 89835 83691 103020 XOR\n2 1 21104 21105 21103 AND\n2 1 21103 111315 111316 XOR\n1 1 111316 21108 INV\n2 1 91876 111316 21107 XOR\n2 1 21107 21108 21106 AND\n2 1 21106 111316 21110 XOR\n2 1 21122 111316 89836 XOR\n2 1 923 89836 102959 XOR\n2 1 89836 83692 103021 XOR\n2 1 89833 83689 103018 XOR\n2 1 920 89833 102956 XOR\n2 1 914 89827 102950 XOR\n2 1 911 89824 102947 XOR\n2 1 89824 83680 103009 XOR\n2 1 103009 102978 783 XOR\n2 1 783 847 69118 XOR\n2 1 772 783 66833 XOR\n2 1 69118 69086 69054 AND\n2 1 69054 847 85696 XOR\n2 1 89824 102978 8629 XOR\n2 1 783 815 68990 XOR\n2 1 8629 8630 8628 AND\n2 1 8628 102978 102979 XOR\n2 1 83681 102979 8633 XOR\n2 1 89825 102979 8632 XOR\n2 1 21382 111468 111469 XOR\n2 1 100018 111469 21386 XOR\n2 1 111500 111469 95922 XOR\n2 1 97970 111469 21387 XOR\n2 1 95922 111345 21206 XOR\n2 1 95922 93874 111376 XOR\n2 1 21206 21207 21205 AND\n2 1 21205 111345 111346 XOR\n2 1 93875 111346 21210 XOR\n2 1 21386 21387 21385 AND\n2 1 21385 111469 111470 XOR\n2 1 111501 111470 95923 XOR\n2 1 95923 111346 21209 XOR\n2 1 100019 111470 21389 XOR\n2 1 21209 21210 21208 AND\n2 1 21208 111346 111347 XOR\n2 1 93876 111347 21213 XOR\n2 1 95923 93875 111377 XOR\n2 1 111377 111346 91878 XOR\n2 1 97971 111470 21390 XOR\n2 1 21389 21390 21388 AND\n2 1 21388 111470 111471 XOR\n2 1 97972 111471 21393 XOR\n2 1 111502 111471 95924 XOR\n2 1 95924 93876 111378 XOR\n2 1 111378 111347 91879 XOR\n2 1 95924 111347 21212 XOR\n2 1 21212 21213 21211 AND\n2 1 21211 111347 111348 XOR\n2 1 100020 111471 21392 XOR\n2 1 21392 21393 21391 AND\n2 1 21391 111471 111472 XOR\n2 1 111503 111472 95925 XOR\n2 1 95925 93877 111379 XOR\n2 1 111379 111348 91880 XOR\n1 1 91880 21123 INV\n2 1 8632 8633 8631 AND\n2 1 8631 102979 102980 XOR\n2 1 89826 102980 8635 XOR\n2 1 103011 102980 785 XOR\n2 1 785 849 69120 XOR\n2 1 69120 69088 69056 AND\n2 1 69056 849 85698 XOR\n2 1 774 785 66835 XOR\n2 1 785 817 68992 XOR\n2 1 83682 102980 8636 XOR\n2 1 8635 8636 8634 AND\n2 1 8634 102980 102981 XOR\n2 1 103012 102981 786 XOR\n2 1 83683 102981 8639 XOR\n2 1 786 818 68993 XOR\n2 1 89827 102981 8638 XOR\n2 1 8638 8639 8637 AND\n2 1 8637 102981 102982 XOR\n2 1 89828 102982 8641 XOR\n2 1 103013 102982 787 XOR\n2 1 787 851 69122 XOR\n2 1 69122 69090 69058 AND\n2 1 69058 851 85700 XOR\n2 1 775 786 66836 XOR\n2 1 786 850 69121 XOR\n",
"2 1 83684 102982 8642 XOR\n2 1 8641 8642 8640 AND\n2 1 8640 102982 102983 XOR\n2 1 83685 102983 8645 XOR\n2 1 89829 102983 8644 XOR\n2 1 8644 8645 8643 AND\n2 1 8643 102983 102984 XOR\n2 1 89830 102984 8647 XOR\n2 1 776 787 66837 XOR\n2 1 787 819 68994 XOR\n2 1 103015 102984 789 XOR\n2 1 789 768 66850 XOR\n2 1 778 789 66839 XOR\n2 1 789 821 68996 XOR\n2 1 789 853 69124 XOR\n2 1 69124 69092 69060 AND\n2 1 69060 853 85702 XOR\n2 1 103014 102983 788 XOR\n2 1 777 788 66838 XOR\n2 1 788 820 68995 XOR\n2 1 66861 788 87759 XOR\n2 1 788 852 69123 XOR\n2 1 83686 102984 8648 XOR\n2 1 8647 8648 8646 AND\n2 1 8646 102984 102985 XOR\n2 1 103016 102985 790 XOR\n2 1 790 854 69125 XOR\n2 1 779 790 66840 XOR\n2 1 66831 790 87729 XOR\n2 1 87729 85681 110978 AND\n2 1 87729 85681 83633 XOR\n2 1 83687 102985 8651 XOR\n2 1 790 822 68997 XOR\n2 1 85682 110978 20508 XOR\n2 1 790 769 66851 XOR\n2 1 66851 778 87749 XOR\n2 1 66862 789 87760 XOR\n2 1 89831 102985 8650 XOR\n2 1 69125 69093 69061 AND\n2 1 69123 69091 69059 AND\n2 1 69121 69089 69057 AND\n2 1 69061 854 85703 XOR\n2 1 69059 852 85701 XOR\n2 1 87749 85701 111028 XOR\n2 1 69057 850 85699 XOR\n2 1 8650 8651 8649 AND\n2 1 8649 102985 102986 XOR\n2 1 89832 102986 8653 XOR\n2 1 103017 102986 791 XOR\n2 1 791 855 69126 XOR\n2 1 69126 69094 69062 AND\n2 1 791 823 68998 XOR\n2 1 780 791 66841 XOR\n2 1 791 770 66852 XOR\n2 1 66832 791 87730 XOR\n2 1 87730 85682 111009 XOR\n2 1 87730 110978 20507 XOR\n2 1 69062 855 85704 XOR\n2 1 111009 110978 83634 XOR\n2 1 66852 779 87750 XOR\n2 1 87750 85702 111029 XOR\n2 1 20507 20508 20506 AND\n2 1 20506 110978 110979 XOR\n2 1 85683 110979 20511 XOR\n2 1 66841 768 87739 XOR\n2 1 87739 85691 111018 XOR\n2 1 83688 102986 8654 XOR\n2 1 8653 8654 8652 AND\n2 1 8652 102986 102987 XOR\n2 1 89833 102987 8656 XOR\n2 1 103018 102987 792 XOR\n2 1 781 792 66842 XOR\n2 1 66833 792 87731 XOR\n2 1 87731 110979 20510 XOR\n2 1 87731 85683 111010 XOR\n2 1 111010 110979 83635 XOR\n2 1 20510 20511 20509 AND\n2 1 20509 110979 110980 XOR\n2 1 85684 110980 20514 XOR\n2 1 792 856 69127 XOR\n2 1 792 771 66853 XOR\n2 1 66842 769 87740 XOR\n2 1 87740 85692 111019 XOR\n2 1 66853 780 87751 XOR\n2 1 87751 85703 111030 XOR\n2 1 792 824 68999 XOR\n2 1 83689 102987 8657 XOR\n2 1 8656 8657 8655 AND\n2 1 8655 102987 102988 XOR\n2 1 103019 102988 793 XOR\n2 1 782 793 66843 XOR\n2 1 793 772 66854 XOR\n2 1 66854 781 87752 XOR\n2 1 87752 85704 111031 XOR\n2 1 66843 770 87741 XOR\n2 1 87741 85693 111020 XOR\n2 1 89834 102988 8659 XOR\n2 1 793 825 69000 XOR\n2 1 83690 102988 8660 XOR\n2 1 8659 8660 8658 AND\n2 1 793 857 69128 XOR\n2 1 69128 69096 69064 AND\n2 1 69064 857 85706 XOR\n2 1 69127 69095 69063 AND\n2 1 69063 856 85705 XOR\n2 1 8658 102988 102989 XOR\n2 1 83691 102989 8663 XOR\n2 1 89835 102989 8662 XOR\n2 1 8662 8663 8661 AND\n2 1 8661 102989 102990 XOR\n2 1 89836 102990 8665 XOR\n2 1 103020 102989 794 XOR\n2 1 66835 794 87733 XOR\n2 1 87733 85685 111012 XOR\n2 1 794 858 69129 XOR\n2 1 783 794 66844 XOR\n2 1 66844 771 87742 XOR\n2 1 87742 85694 111021 XOR\n2 1 794 826 69001 XOR\n2 1 794 773 66855 XOR\n2 1 66855 782 87753 XOR\n2 1 87753 85705 111032 XOR\n2 1 103021 102990 795 XOR\n2 1 795 774 66856 XOR\n2 1 66856 783 87754 XOR\n2 1 87754 85706 111033 XOR\n2 1 66836 795 87734 XOR\n2 1 87734 85686 111013 XOR\n",
"2 1 795 859 69130 XOR\n2 1 69130 69098 69066 AND\n2 1 69066 859 85708 XOR\n2 1 69129 69097 69065 AND\n2 1 69065 858 85707 XOR\n2 1 83692 102990 8666 XOR\n2 1 8665 8666 8664 AND\n2 1 8664 102990 102991 XOR\n2 1 83693 102991 8669 XOR\n2 1 795 827 69002 XOR\n2 1 111376 111345 91877 XOR\n2 1 91877 21110 89837 XOR\n2 1 89837 21110 21109 AND\n2 1 21109 21110 21112 XOR\n2 1 91878 21112 89838 XOR\n2 1 925 89838 102961 XOR\n2 1 89838 21112 21111 AND\n2 1 21111 21112 21114 XOR\n2 1 91879 21114 89839 XOR\n2 1 89839 21114 21113 AND\n2 1 926 89839 102962 XOR\n2 1 89839 83695 103024 XOR\n2 1 21113 21114 111317 XOR\n2 1 89838 83694 103023 XOR\n2 1 89837 83693 103022 XOR\n2 1 89837 102991 8668 XOR\n2 1 8668 8669 8667 AND\n2 1 8667 102991 102992 XOR\n2 1 89838 102992 8671 XOR\n2 1 83694 102992 8672 XOR\n2 1 8671 8672 8670 AND\n2 1 103023 102992 797 XOR\n2 1 786 797 66847 XOR\n2 1 797 829 69004 XOR\n2 1 66838 797 87736 XOR\n2 1 87736 85688 111015 XOR\n2 1 8670 102992 102993 XOR\n2 1 89839 102993 8674 XOR\n2 1 83695 102993 8675 XOR\n2 1 797 776 66858 XOR\n2 1 66858 785 87756 XOR\n2 1 87756 85708 111035 XOR\n2 1 66847 774 87745 XOR\n2 1 103024 102993 798 XOR\n2 1 787 798 66848 XOR\n2 1 66839 798 87737 XOR\n2 1 87737 85689 111016 XOR\n2 1 798 777 66859 XOR\n2 1 798 830 69005 XOR\n2 1 66859 786 87757 XOR\n2 1 924 89837 102960 XOR\n2 1 797 861 69132 XOR\n2 1 69132 69100 69068 AND\n2 1 69068 861 85710 XOR\n2 1 798 862 69133 XOR\n2 1 69133 69101 69069 AND\n2 1 69069 862 85711 XOR\n2 1 87759 85711 111038 XOR\n2 1 21123 111317 89840 XOR\n2 1 89840 83696 103025 XOR\n2 1 927 89840 102963 XOR\n2 1 66848 775 87746 XOR\n2 1 87746 85698 111025 XOR\n2 1 8674 8675 8673 AND\n2 1 8673 102993 102994 XOR\n2 1 103025 102994 799 XOR\n2 1 799 863 69134 XOR\n2 1 788 799 66849 XOR\n2 1 66840 799 87738 XOR\n2 1 87738 85690 111017 XOR\n2 1 799 778 66860 XOR\n2 1 66860 787 87758 XOR\n2 1 87758 85710 111037 XOR\n2 1 66849 776 87747 XOR\n2 1 87747 85699 111026 XOR\n2 1 799 831 69006 XOR\n2 1 69134 69102 69070 AND\n2 1 69070 863 85712 XOR\n2 1 87760 85712 111039 XOR\n2 1 89825 83681 103010 XOR\n2 1 103010 102979 784 XOR\n2 1 784 795 66845 XOR\n2 1 66845 772 87743 XOR\n2 1 784 816 68991 XOR\n2 1 87743 85695 111022 XOR\n2 1 784 848 69119 XOR\n2 1 773 784 66834 XOR\n2 1 66834 793 87732 XOR\n2 1 87732 85684 111011 XOR\n2 1 87732 110980 20513 XOR\n2 1 20513 20514 20512 AND\n2 1 20512 110980 110981 XOR\n2 1 111012 110981 83637 XOR\n2 1 85685 110981 20517 XOR\n2 1 87733 110981 20516 XOR\n2 1 20516 20517 20515 AND\n2 1 20515 110981 110982 XOR\n2 1 87734 110982 20519 XOR\n2 1 111013 110982 83638 XOR\n2 1 85686 110982 20520 XOR\n2 1 111011 110980 83636 XOR\n2 1 69119 69087 69055 AND\n2 1 69055 848 85697 XOR\n2 1 87745 85697 111024 XOR\n2 1 20519 20520 20518 AND\n2 1 20518 110982 110983 XOR\n2 1 85687 110983 20523 XOR\n2 1 66850 777 87748 XOR\n2 1 87748 85700 111027 XOR\n2 1 89814 102906 8510 XOR\n2 1 8509 8510 8508 AND\n2 1 8508 102906 102907 XOR\n2 1 89815 102907 8513 XOR\n2 1 902 102907 8512 XOR\n2 1 8512 8513 8511 AND\n2 1 8511 102907 102908 XOR\n2 1 903 102908 8515 XOR\n2 1 89816 102908 8516 XOR\n2 1 102939 102908 1223 XOR\n2 1 75608 1223 110395 XOR\n2 1 63062 1223 63030 AND\n2 1 1218 1223 60939 XOR\n2 1 63030 1287 97917 XOR\n2 1 1223 1255 62998 XOR\n2 1 102938 102907 1222 XOR\n2 1 1217 1222 60938 XOR\n2 1 8515 8516 8514 AND\n2 1 75607 1222 110394 XOR\n",
"2 1 110394 110363 93724 XOR\n2 1 63061 1222 63029 AND\n2 1 63029 1286 97916 XOR\n2 1 1222 1254 62997 XOR\n2 1 1222 110363 19401 XOR\n2 1 19400 19401 19399 AND\n2 1 19399 110363 110364 XOR\n2 1 75608 110364 19403 XOR\n2 1 1223 110364 19404 XOR\n2 1 110395 110364 93725 XOR\n2 1 19403 19404 19402 AND\n2 1 19402 110364 110365 XOR\n2 1 75609 110365 19406 XOR\n2 1 8514 102908 102909 XOR\n2 1 89817 102909 8519 XOR\n2 1 904 102909 8518 XOR\n2 1 8518 8519 8517 AND\n2 1 102940 102909 1224 XOR\n2 1 1219 1224 60940 XOR\n2 1 1224 110365 19407 XOR\n2 1 63063 1224 63031 AND\n2 1 63031 1288 97918 XOR\n2 1 19406 19407 19405 AND\n2 1 19405 110365 110366 XOR\n2 1 75610 110366 19409 XOR\n2 1 75609 1224 110396 XOR\n2 1 110396 110365 93726 XOR\n2 1 1224 1256 62999 XOR\n2 1 8517 102909 102910 XOR\n2 1 905 102910 8521 XOR\n2 1 89818 102910 8522 XOR\n2 1 102941 102910 1225 XOR\n2 1 1225 1257 63000 XOR\n2 1 1220 1225 60941 XOR\n2 1 75610 1225 110397 XOR\n2 1 63064 1225 63032 AND\n2 1 63032 1289 97919 XOR\n2 1 1225 110366 19410 XOR\n2 1 19409 19410 19408 AND\n2 1 19408 110366 110367 XOR\n2 1 75611 110367 19412 XOR\n2 1 8521 8522 8520 AND\n2 1 8520 102910 102911 XOR\n2 1 102942 102911 1226 XOR\n2 1 1226 110367 19413 XOR\n2 1 63065 1226 63033 AND\n2 1 89819 102911 8525 XOR\n2 1 1221 1226 60942 XOR\n2 1 63033 1290 97920 XOR\n2 1 1226 1258 63001 XOR\n2 1 110397 110366 93727 XOR\n2 1 75611 1226 110398 XOR\n2 1 110398 110367 93728 XOR\n2 1 906 102911 8524 XOR\n2 1 8524 8525 8523 AND\n2 1 8523 102911 102912 XOR\n2 1 907 102912 8527 XOR\n2 1 102943 102912 1227 XOR\n2 1 1222 1227 60911 XOR\n2 1 63066 1227 63034 AND\n2 1 63034 1291 97921 XOR\n2 1 1227 1259 63002 XOR\n2 1 89820 102912 8528 XOR\n2 1 8527 8528 8526 AND\n2 1 8526 102912 102913 XOR\n2 1 102944 102913 1228 XOR\n2 1 1223 1228 60912 XOR\n2 1 75613 1228 110400 XOR\n2 1 63067 1228 63035 AND\n2 1 63035 1292 97922 XOR\n2 1 1228 1260 63003 XOR\n2 1 75612 1227 110399 XOR\n2 1 89821 102913 8531 XOR\n2 1 908 102913 8530 XOR\n2 1 8530 8531 8529 AND\n2 1 8529 102913 102914 XOR\n2 1 909 102914 8533 XOR\n2 1 89822 102914 8534 XOR\n2 1 8533 8534 8532 AND\n2 1 8532 102914 102915 XOR\n2 1 89823 102915 8537 XOR\n2 1 910 102915 8536 XOR\n2 1 8536 8537 8535 AND\n2 1 8535 102915 102916 XOR\n2 1 102947 102916 1231 XOR\n2 1 63070 1231 63038 AND\n2 1 1226 1231 60915 XOR\n2 1 89824 102916 8540 XOR\n2 1 911 102916 8539 XOR\n2 1 8539 8540 8538 AND\n2 1 8538 102916 102917 XOR\n2 1 102948 102917 1232 XOR\n2 1 1232 1264 63007 XOR\n2 1 1227 1232 60916 XOR\n2 1 1231 1263 63006 XOR\n2 1 63071 1232 63039 AND\n2 1 63039 1296 97926 XOR\n2 1 89825 102917 8543 XOR\n2 1 63038 1295 97925 XOR\n2 1 75616 1231 110403 XOR\n2 1 912 102917 8542 XOR\n2 1 8542 8543 8541 AND\n2 1 8541 102917 102918 XOR\n2 1 75617 1232 110404 XOR\n2 1 89826 102918 8546 XOR\n2 1 913 102918 8545 XOR\n2 1 102949 102918 1233 XOR\n2 1 1228 1233 60917 XOR\n2 1 8545 8546 8544 AND\n2 1 8544 102918 102919 XOR\n2 1 914 102919 8548 XOR\n2 1 89827 102919 8549 XOR\n2 1 8548 8549 8547 AND\n2 1 102950 102919 1234 XOR\n2 1 1234 1266 63009 XOR\n2 1 63073 1234 63041 AND\n2 1 63041 1298 97928 XOR\n2 1 8547 102919 102920 XOR\n2 1 102951 102920 1235 XOR\n2 1 915 102920 8551 XOR\n2 1 89828 102920 8552 XOR\n2 1 60937 1235 99984 XOR\n2 1 75620 1235 110407 XOR\n2 1 8551 8552 8550 AND\n2 1 63074 1235 63042 AND\n2 1 63042 1299 97929 XOR\n2 1 1235 1267 63010 XOR\n2 1 1233 1265 63008 XOR\n",
"2 1 63072 1233 63040 AND\n2 1 63040 1297 97927 XOR\n2 1 75619 1234 110406 XOR\n2 1 8550 102920 102921 XOR\n2 1 102952 102921 1236 XOR\n2 1 1236 1268 63011 XOR\n2 1 1231 1236 60920 XOR\n2 1 60938 1236 99985 XOR\n2 1 60920 1218 99967 XOR\n2 1 916 102921 8554 XOR\n2 1 75621 1236 110408 XOR\n2 1 63075 1236 63043 AND\n2 1 63043 1300 97930 XOR\n2 1 89829 102921 8555 XOR\n2 1 8554 8555 8553 AND\n2 1 8553 102921 102922 XOR\n2 1 102953 102922 1237 XOR\n2 1 917 102922 8557 XOR\n2 1 89830 102922 8558 XOR\n2 1 8557 8558 8556 AND\n2 1 8556 102922 102923 XOR\n2 1 1232 1237 60921 XOR\n2 1 60939 1237 99986 XOR\n2 1 60921 1219 99968 XOR\n2 1 102954 102923 1238 XOR\n2 1 1233 1238 60922 XOR\n2 1 60940 1238 99987 XOR\n2 1 60922 1220 99969 XOR\n2 1 99969 97921 111226 XOR\n2 1 63076 1237 63044 AND\n2 1 89831 102923 8561 XOR\n2 1 63044 1301 97931 XOR\n2 1 75622 1237 110409 XOR\n2 1 63077 1238 63045 AND\n2 1 75623 1238 110410 XOR\n2 1 63045 1302 97932 XOR\n2 1 1238 1270 63013 XOR\n2 1 75618 1233 110405 XOR\n2 1 99968 97920 111225 XOR\n2 1 102946 102915 1230 XOR\n2 1 1230 1235 60919 XOR\n2 1 1225 1230 60914 XOR\n2 1 60919 1217 99966 XOR\n2 1 75615 1230 110402 XOR\n2 1 99966 97918 111223 XOR\n2 1 63069 1230 63037 AND\n2 1 63037 1294 97924 XOR\n2 1 102945 102914 1229 XOR\n2 1 63068 1229 63036 AND\n2 1 1229 1234 60918 XOR\n2 1 1224 1229 60913 XOR\n2 1 60918 1216 99965 XOR\n2 1 63036 1293 97923 XOR\n2 1 75614 1229 110401 XOR\n2 1 99965 97917 111222 XOR\n2 1 1230 1262 63005 XOR\n2 1 99967 97919 111224 XOR\n2 1 1229 1261 63004 XOR\n2 1 1237 1269 63012 XOR\n2 1 918 102923 8560 XOR\n2 1 8560 8561 8559 AND\n2 1 8559 102923 102924 XOR\n2 1 89832 102924 8564 XOR\n2 1 919 102924 8563 XOR\n2 1 8563 8564 8562 AND\n2 1 8562 102924 102925 XOR\n2 1 102955 102924 1239 XOR\n2 1 1234 1239 60923 XOR\n2 1 60941 1239 99988 XOR\n2 1 60923 1221 99970 XOR\n2 1 75624 1239 110411 XOR\n2 1 63078 1239 63046 AND\n2 1 63046 1303 97933 XOR\n2 1 1239 1271 63014 XOR\n2 1 99970 97922 111227 XOR\n2 1 102956 102925 1240 XOR\n2 1 63079 1240 63047 AND\n2 1 1235 1240 60924 XOR\n2 1 60942 1240 99989 XOR\n2 1 60924 1222 99971 XOR\n2 1 1240 1272 63015 XOR\n2 1 63047 1304 97934 XOR\n2 1 99971 97923 111228 XOR\n2 1 75625 1240 110412 XOR\n2 1 920 102925 8566 XOR\n2 1 89833 102925 8567 XOR\n2 1 8566 8567 8565 AND\n2 1 8565 102925 102926 XOR\n2 1 89834 102926 8570 XOR\n2 1 102957 102926 1241 XOR\n2 1 1236 1241 60925 XOR\n2 1 60925 1223 99972 XOR\n2 1 60911 1241 99958 XOR\n2 1 99958 97910 95862 XOR\n2 1 95862 93814 111061 AND\n2 1 93815 111061 20696 XOR\n2 1 1241 1273 63016 XOR\n2 1 63080 1241 63048 AND\n2 1 95862 93814 89777 XOR\n2 1 89777 83633 102840 AND\n2 1 864 89777 102778 AND\n2 1 865 102778 8317 XOR\n2 1 99958 97910 111185 AND\n2 1 83634 102840 8408 XOR\n2 1 921 102926 8569 XOR\n2 1 8569 8570 8568 AND\n2 1 8568 102926 102927 XOR\n2 1 102958 102927 1242 XOR\n2 1 63081 1242 63049 AND\n2 1 1237 1242 60926 XOR\n2 1 60926 1224 99973 XOR\n2 1 99973 97925 111230 XOR\n2 1 60912 1242 99959 XOR\n2 1 1242 1274 63017 XOR\n2 1 99959 111185 20875 XOR\n2 1 63049 1306 97936 XOR\n2 1 75627 1242 110414 XOR\n2 1 99959 97911 111216 XOR\n2 1 111216 111185 95863 XOR\n2 1 95863 111061 20695 XOR\n2 1 95863 93815 111092 XOR\n2 1 20695 20696 20694 AND\n2 1 111092 111061 91821 XOR\n2 1 20694 111061 111062 XOR\n2 1 93816 111062 20699 XOR\n2 1 922 102927 8572 XOR\n1 1 91821 89778 INV\n2 1 89778 102778 8318 XOR\n",
"2 1 865 89778 102809 XOR\n2 1 102809 102778 77138 XOR\n2 1 77138 1217 62928 XOR\n2 1 62992 77138 62960 AND\n2 1 62960 1249 97879 XOR\n2 1 89778 83634 102871 XOR\n2 1 8317 8318 8316 AND\n2 1 102871 102840 77266 XOR\n2 1 641 77266 102251 XOR\n2 1 77266 769 68880 XOR\n2 1 77266 801 69008 XOR\n2 1 69008 68976 68944 AND\n2 1 68944 801 85650 XOR\n2 1 89778 102840 8407 XOR\n2 1 8407 8408 8406 AND\n2 1 8406 102840 102841 XOR\n2 1 83635 102841 8411 XOR\n2 1 513 77138 102003 XOR\n2 1 89835 102927 8573 XOR\n2 1 8572 8573 8571 AND\n2 1 8571 102927 102928 XOR\n2 1 923 102928 8575 XOR\n2 1 102959 102928 1243 XOR\n2 1 75628 1243 110415 XOR\n2 1 1243 1216 60932 XOR\n2 1 1238 1243 60927 XOR\n2 1 60932 1230 99979 XOR\n2 1 99979 97931 111236 XOR\n2 1 60927 1225 99974 XOR\n2 1 60913 1243 99960 XOR\n2 1 99960 97912 111217 XOR\n2 1 89836 102928 8576 XOR\n2 1 1243 1275 63018 XOR\n2 1 99972 97924 111229 XOR\n2 1 75626 1241 110413 XOR\n2 1 99984 97936 111241 XOR\n2 1 63048 1305 97935 XOR\n2 1 864 89777 77137 XOR\n2 1 77137 1216 62927 XOR\n2 1 512 77137 101972 AND\n2 1 77138 101972 7148 XOR\n2 1 513 101972 7147 XOR\n2 1 102003 101972 135586 XOR\n2 1 62991 77137 62959 AND\n2 1 62959 1248 97878 XOR\n2 1 8316 102778 102779 XOR\n2 1 866 102779 8320 XOR\n2 1 99974 97926 111231 XOR\n2 1 63082 1243 63050 AND\n2 1 63050 1307 97937 XOR\n2 1 99985 97937 111242 XOR\n2 1 512 77137 135585 XOR\n2 1 97911 111185 20876 XOR\n2 1 20875 20876 20874 AND\n2 1 20874 111185 111186 XOR\n2 1 99960 111186 20878 XOR\n2 1 111217 111186 95864 XOR\n2 1 95864 93816 111093 XOR\n2 1 111093 111062 91822 XOR\n2 1 91822 91821 89779 XOR\n2 1 89779 102779 8321 XOR\n2 1 89779 91821 20596 AND\n2 1 20596 91821 111040 XOR\n2 1 89779 102841 8410 XOR\n2 1 8410 8411 8409 AND\n2 1 8409 102841 102842 XOR\n2 1 83636 102842 8414 XOR\n2 1 8320 8321 8319 AND\n2 1 8319 102779 102780 XOR\n2 1 867 102780 8323 XOR\n2 1 866 89779 102810 XOR\n2 1 102810 102779 77139 XOR\n2 1 77139 1218 62929 XOR\n2 1 514 77139 102004 XOR\n2 1 62993 77139 62961 AND\n2 1 62961 1250 97880 XOR\n2 1 89779 83635 102872 XOR\n2 1 102872 102841 77267 XOR\n2 1 77267 802 69009 XOR\n2 1 642 77267 102252 XOR\n2 1 69009 68977 68945 AND\n2 1 77267 770 68881 XOR\n2 1 95864 111062 20698 XOR\n2 1 20698 20699 20697 AND\n2 1 20697 111062 111063 XOR\n2 1 93817 111063 20702 XOR\n2 1 68945 802 85651 XOR\n1 1 111040 20599 INV\n2 1 7147 7148 7146 AND\n2 1 7146 101972 101973 XOR\n2 1 102004 101973 135587 XOR\n2 1 77139 101973 7151 XOR\n2 1 514 101973 7150 XOR\n2 1 7150 7151 7149 AND\n2 1 7149 101973 101974 XOR\n2 1 515 101974 7153 XOR\n2 1 89777 83633 77265 XOR\n2 1 640 77265 102220 AND\n2 1 77265 768 68879 XOR\n2 1 77266 102220 7508 XOR\n2 1 102251 102220 135714 XOR\n2 1 640 77265 135713 XOR\n2 1 77265 800 69007 XOR\n2 1 69007 68975 68943 AND\n2 1 68943 800 85649 XOR\n2 1 641 102220 7507 XOR\n2 1 7507 7508 7506 AND\n2 1 7506 102220 102221 XOR\n2 1 642 102221 7510 XOR\n2 1 77267 102221 7511 XOR\n2 1 7510 7511 7509 AND\n2 1 7509 102221 102222 XOR\n2 1 643 102222 7513 XOR\n2 1 102252 102221 135715 XOR\n2 1 8575 8576 8574 AND\n2 1 8574 102928 102929 XOR\n2 1 89837 102929 8579 XOR\n2 1 924 102929 8578 XOR\n2 1 8578 8579 8577 AND\n2 1 8577 102929 102930 XOR\n2 1 102961 102930 1245 XOR\n2 1 63084 1245 63052 AND\n2 1 1245 1218 60934 XOR\n2 1 1240 1245 60929 XOR\n2 1 60934 1232 99981 XOR\n2 1 60929 1227 99976 XOR\n2 1 60915 1245 99962 XOR\n2 1 75630 1245 110417 XOR\n",
"2 1 89838 102930 8582 XOR\n2 1 925 102930 8581 XOR\n2 1 8581 8582 8580 AND\n2 1 8580 102930 102931 XOR\n2 1 102962 102931 1246 XOR\n2 1 89839 102931 8585 XOR\n2 1 1246 1219 60935 XOR\n2 1 1241 1246 60930 XOR\n2 1 60935 1233 99982 XOR\n2 1 60930 1228 99977 XOR\n2 1 60916 1246 99963 XOR\n2 1 99963 97915 111220 XOR\n2 1 926 102931 8584 XOR\n2 1 8584 8585 8583 AND\n2 1 8583 102931 102932 XOR\n2 1 102963 102932 1247 XOR\n2 1 1247 1220 60936 XOR\n2 1 1242 1247 60931 XOR\n2 1 63086 1247 63054 AND\n2 1 63054 1311 97941 XOR\n2 1 99989 97941 111246 XOR\n2 1 60936 1234 99983 XOR\n2 1 60931 1229 99978 XOR\n2 1 60917 1247 99964 XOR\n2 1 1247 1279 63022 XOR\n2 1 75631 1246 110418 XOR\n2 1 99976 97928 111233 XOR\n2 1 99962 97914 111219 XOR\n2 1 63085 1246 63053 AND\n2 1 63053 1310 97940 XOR\n2 1 99988 97940 111245 XOR\n2 1 1246 1278 63021 XOR\n2 1 102960 102929 1244 XOR\n2 1 63083 1244 63051 AND\n2 1 1244 1276 63019 XOR\n2 1 1244 1217 60933 XOR\n2 1 1239 1244 60928 XOR\n2 1 60933 1231 99980 XOR\n2 1 60928 1226 99975 XOR\n2 1 99975 97927 111232 XOR\n2 1 60914 1244 99961 XOR\n2 1 99961 97913 111218 XOR\n2 1 63051 1308 97938 XOR\n2 1 99980 97932 111237 XOR\n2 1 75629 1244 110416 XOR\n2 1 75632 1247 110419 XOR\n2 1 99983 97935 111240 XOR\n2 1 99986 97938 111243 XOR\n2 1 99978 97930 111235 XOR\n2 1 1245 1277 63020 XOR\n2 1 99981 97933 111238 XOR\n2 1 99982 97934 111239 XOR\n2 1 63052 1309 97939 XOR\n2 1 99987 97939 111244 XOR\n2 1 99977 97929 111234 XOR\n2 1 99964 97916 111221 XOR\n2 1 19412 19413 19411 AND\n2 1 19411 110367 110368 XOR\n2 1 1227 110368 19416 XOR\n2 1 75612 110368 19415 XOR\n2 1 19415 19416 19414 AND\n2 1 19414 110368 110369 XOR\n2 1 1228 110369 19419 XOR\n2 1 75613 110369 19418 XOR\n2 1 19418 19419 19417 AND\n2 1 19417 110369 110370 XOR\n2 1 75614 110370 19421 XOR\n2 1 110401 110370 93731 XOR\n2 1 1229 110370 19422 XOR\n2 1 19421 19422 19420 AND\n2 1 19420 110370 110371 XOR\n2 1 110402 110371 93732 XOR\n2 1 1230 110371 19425 XOR\n2 1 110400 110369 93730 XOR\n2 1 75615 110371 19424 XOR\n2 1 19424 19425 19423 AND\n2 1 19423 110371 110372 XOR\n2 1 75616 110372 19427 XOR\n2 1 110403 110372 93733 XOR\n2 1 1231 110372 19428 XOR\n2 1 19427 19428 19426 AND\n2 1 19426 110372 110373 XOR\n2 1 75617 110373 19430 XOR\n2 1 110404 110373 93734 XOR\n2 1 110399 110368 93729 XOR\n2 1 1232 110373 19431 XOR\n2 1 19430 19431 19429 AND\n2 1 19429 110373 110374 XOR\n2 1 110405 110374 93735 XOR\n2 1 1233 110374 19434 XOR\n2 1 75618 110374 19433 XOR\n2 1 19433 19434 19432 AND\n2 1 19432 110374 110375 XOR\n2 1 110406 110375 93736 XOR\n2 1 75619 110375 19436 XOR\n2 1 1234 110375 19437 XOR\n2 1 19436 19437 19435 AND\n2 1 19435 110375 110376 XOR\n2 1 1235 110376 19440 XOR\n2 1 75620 110376 19439 XOR\n2 1 19439 19440 19438 AND\n2 1 19438 110376 110377 XOR\n2 1 1236 110377 19443 XOR\n2 1 75621 110377 19442 XOR\n2 1 110408 110377 93738 XOR\n2 1 19442 19443 19441 AND\n2 1 110407 110376 93737 XOR\n2 1 19441 110377 110378 XOR\n2 1 75622 110378 19445 XOR\n2 1 110409 110378 93739 XOR\n2 1 1237 110378 19446 XOR\n2 1 19445 19446 19444 AND\n2 1 19444 110378 110379 XOR\n2 1 110410 110379 93740 XOR\n2 1 75623 110379 19448 XOR\n2 1 1238 110379 19449 XOR\n2 1 19448 19449 19447 AND\n2 1 19447 110379 110380 XOR\n2 1 1239 110380 19452 XOR\n2 1 110411 110380 93741 XOR\n2 1 75624 110380 19451 XOR\n2 1 19451 19452 19450 AND\n2 1 19450 110380 110381 XOR\n2 1 110412 110381 93742 XOR\n2 1 75625 110381 19454 XOR\n2 1 1240 110381 19455 XOR\n2 1 19454 19455 19453 AND\n2 1 19453 110381 110382 XOR\n",
"2 1 1241 110382 19458 XOR\n2 1 75626 110382 19457 XOR\n2 1 19457 19458 19456 AND\n2 1 19456 110382 110383 XOR\n2 1 110414 110383 93744 XOR\n2 1 75627 110383 19460 XOR\n2 1 1242 110383 19461 XOR\n2 1 110413 110382 93743 XOR\n2 1 19460 19461 19459 AND\n2 1 19459 110383 110384 XOR\n2 1 110415 110384 93745 XOR\n2 1 75628 110384 19463 XOR\n2 1 1243 110384 19464 XOR\n2 1 19463 19464 19462 AND\n2 1 19462 110384 110385 XOR\n2 1 75629 110385 19466 XOR\n2 1 1244 110385 19467 XOR\n2 1 19466 19467 19465 AND\n2 1 110416 110385 93746 XOR\n2 1 19465 110385 110386 XOR\n2 1 110417 110386 93747 XOR\n2 1 1245 110386 19470 XOR\n2 1 75630 110386 19469 XOR\n2 1 19469 19470 19468 AND\n2 1 19468 110386 110387 XOR\n2 1 110418 110387 93748 XOR\n2 1 1246 110387 19473 XOR\n2 1 75631 110387 19472 XOR\n2 1 19472 19473 19471 AND\n2 1 19471 110387 110388 XOR\n2 1 110419 110388 93749 XOR\n2 1 103022 102991 796 XOR\n2 1 796 775 66857 XOR\n2 1 785 796 66846 XOR\n2 1 796 828 69003 XOR\n2 1 66857 784 87755 XOR\n2 1 87755 85707 111034 XOR\n2 1 66837 796 87735 XOR\n2 1 87735 85687 111014 XOR\n2 1 111014 110983 83639 XOR\n2 1 796 860 69131 XOR\n2 1 66846 773 87744 XOR\n2 1 87744 85696 111023 XOR\n2 1 69131 69099 69067 AND\n2 1 69067 860 85709 XOR\n2 1 87757 85709 111036 XOR\n2 1 87735 110983 20522 XOR\n2 1 20522 20523 20521 AND\n2 1 20521 110983 110984 XOR\n2 1 87736 110984 20525 XOR\n2 1 85688 110984 20526 XOR\n2 1 20525 20526 20524 AND\n2 1 20524 110984 110985 XOR\n2 1 111016 110985 83641 XOR\n2 1 85689 110985 20529 XOR\n2 1 87737 110985 20528 XOR\n2 1 20528 20529 20527 AND\n2 1 20527 110985 110986 XOR\n2 1 85690 110986 20532 XOR\n2 1 87738 110986 20531 XOR\n2 1 20531 20532 20530 AND\n2 1 111017 110986 83642 XOR\n2 1 20530 110986 110987 XOR\n2 1 85691 110987 20535 XOR\n2 1 87739 110987 20534 XOR\n2 1 20534 20535 20533 AND\n2 1 111018 110987 83643 XOR\n2 1 20533 110987 110988 XOR\n2 1 111019 110988 83644 XOR\n2 1 85692 110988 20538 XOR\n2 1 87740 110988 20537 XOR\n2 1 20537 20538 20536 AND\n2 1 20536 110988 110989 XOR\n2 1 111020 110989 83645 XOR\n2 1 87741 110989 20540 XOR\n2 1 85693 110989 20541 XOR\n2 1 20540 20541 20539 AND\n2 1 20539 110989 110990 XOR\n2 1 87742 110990 20543 XOR\n2 1 111021 110990 83646 XOR\n2 1 85694 110990 20544 XOR\n2 1 20543 20544 20542 AND\n2 1 20542 110990 110991 XOR\n2 1 111022 110991 83647 XOR\n2 1 85695 110991 20547 XOR\n2 1 87743 110991 20546 XOR\n2 1 20546 20547 20545 AND\n2 1 20545 110991 110992 XOR\n2 1 85696 110992 20550 XOR\n2 1 87744 110992 20549 XOR\n2 1 20549 20550 20548 AND\n2 1 20548 110992 110993 XOR\n2 1 111024 110993 83649 XOR\n2 1 87745 110993 20552 XOR\n2 1 85697 110993 20553 XOR\n2 1 20552 20553 20551 AND\n2 1 111023 110992 83648 XOR\n2 1 20551 110993 110994 XOR\n2 1 111025 110994 83650 XOR\n2 1 85698 110994 20556 XOR\n2 1 87746 110994 20555 XOR\n2 1 20555 20556 20554 AND\n2 1 20554 110994 110995 XOR\n2 1 87747 110995 20558 XOR\n2 1 85699 110995 20559 XOR\n2 1 111026 110995 83651 XOR\n2 1 20558 20559 20557 AND\n2 1 20557 110995 110996 XOR\n2 1 111027 110996 83652 XOR\n2 1 85700 110996 20562 XOR\n2 1 87748 110996 20561 XOR\n2 1 20561 20562 20560 AND\n2 1 20560 110996 110997 XOR\n2 1 87749 110997 20564 XOR\n2 1 85701 110997 20565 XOR\n2 1 20564 20565 20563 AND\n2 1 20563 110997 110998 XOR\n2 1 85702 110998 20568 XOR\n2 1 87750 110998 20567 XOR\n2 1 20567 20568 20566 AND\n2 1 111028 110997 83653 XOR\n2 1 111029 110998 83654 XOR\n2 1 20566 110998 110999 XOR\n2 1 87751 110999 20570 XOR\n2 1 85703 110999 20571 XOR\n2 1 20570 20571 20569 AND\n2 1 20569 110999 111000 XOR\n2 1 111031 111000 83656 XOR\n",
"2 1 87752 111000 20573 XOR\n2 1 111030 110999 83655 XOR\n2 1 85704 111000 20574 XOR\n2 1 20573 20574 20572 AND\n2 1 20572 111000 111001 XOR\n2 1 85705 111001 20577 XOR\n2 1 111032 111001 83657 XOR\n2 1 87753 111001 20576 XOR\n2 1 20576 20577 20575 AND\n2 1 20575 111001 111002 XOR\n2 1 85706 111002 20580 XOR\n2 1 111033 111002 83658 XOR\n2 1 87754 111002 20579 XOR\n2 1 20579 20580 20578 AND\n2 1 20578 111002 111003 XOR\n2 1 111034 111003 83659 XOR\n2 1 85707 111003 20583 XOR\n2 1 87755 111003 20582 XOR\n2 1 20582 20583 20581 AND\n2 1 20581 111003 111004 XOR\n2 1 87756 111004 20585 XOR\n2 1 85708 111004 20586 XOR\n2 1 111035 111004 83660 XOR\n2 1 20585 20586 20584 AND\n2 1 20584 111004 111005 XOR\n2 1 85709 111005 20589 XOR\n2 1 87757 111005 20588 XOR\n2 1 20588 20589 20587 AND\n2 1 111036 111005 83661 XOR\n2 1 20587 111005 111006 XOR\n2 1 85710 111006 20592 XOR\n2 1 87758 111006 20591 XOR\n2 1 20591 20592 20590 AND\n2 1 20590 111006 111007 XOR\n2 1 85711 111007 20595 XOR\n2 1 111038 111007 83663 XOR\n2 1 87759 111007 20594 XOR\n2 1 20594 20595 20593 AND\n2 1 20593 111007 111008 XOR\n2 1 111039 111008 83664 XOR\n2 1 111037 111006 83662 XOR\n2 1 111015 110984 83640 XOR\n2 1 97912 111186 20879 XOR\n2 1 20878 20879 20877 AND\n2 1 20877 111186 111187 XOR\n2 1 97913 111187 20882 XOR\n2 1 99961 111187 20881 XOR\n2 1 20881 20882 20880 AND\n2 1 20880 111187 111188 XOR\n2 1 97914 111188 20885 XOR\n2 1 99962 111188 20884 XOR\n2 1 20884 20885 20883 AND\n2 1 20883 111188 111189 XOR\n2 1 111220 111189 95867 XOR\n2 1 95867 93819 111096 XOR\n2 1 111218 111187 95865 XOR\n2 1 95865 93817 111094 XOR\n2 1 95865 111063 20701 XOR\n2 1 111094 111063 91823 XOR\n2 1 91823 111040 20598 XOR\n2 1 20598 20599 20597 AND\n2 1 20597 111040 111041 XOR\n1 1 91823 20673 INV\n2 1 20673 111040 89780 XOR\n2 1 89780 83636 102873 XOR\n2 1 89780 102780 8324 XOR\n1 1 111041 20602 INV\n2 1 20701 20702 20700 AND\n2 1 20700 111063 111064 XOR\n2 1 102873 102842 77268 XOR\n2 1 77268 803 69010 XOR\n2 1 77268 102222 7514 XOR\n2 1 77268 771 68882 XOR\n2 1 89780 102842 8413 XOR\n2 1 8413 8414 8412 AND\n2 1 8412 102842 102843 XOR\n2 1 83637 102843 8417 XOR\n2 1 93818 111064 20705 XOR\n2 1 8323 8324 8322 AND\n2 1 8322 102780 102781 XOR\n2 1 868 102781 8326 XOR\n2 1 7513 7514 7512 AND\n2 1 7512 102222 102223 XOR\n2 1 644 102223 7516 XOR\n2 1 643 77268 102253 XOR\n2 1 102253 102222 135716 XOR\n2 1 97915 111189 20888 XOR\n2 1 69010 68978 68946 AND\n2 1 68946 803 85652 XOR\n2 1 867 89780 102811 XOR\n2 1 102811 102780 77140 XOR\n2 1 62994 77140 62962 AND\n2 1 515 77140 102005 XOR\n2 1 62962 1251 97881 XOR\n2 1 77140 101974 7154 XOR\n2 1 7153 7154 7152 AND\n2 1 7152 101974 101975 XOR\n2 1 516 101975 7156 XOR\n2 1 77140 1219 62930 XOR\n2 1 102005 101974 135588 XOR\n2 1 99963 111189 20887 XOR\n2 1 20887 20888 20886 AND\n2 1 20886 111189 111190 XOR\n2 1 99964 111190 20890 XOR\n2 1 111221 111190 95868 XOR\n2 1 97916 111190 20891 XOR\n2 1 20890 20891 20889 AND\n2 1 20889 111190 111191 XOR\n2 1 97917 111191 20894 XOR\n2 1 99965 111191 20893 XOR\n2 1 20893 20894 20892 AND\n2 1 20892 111191 111192 XOR\n2 1 97918 111192 20897 XOR\n2 1 111223 111192 95870 XOR\n2 1 99966 111192 20896 XOR\n2 1 111222 111191 95869 XOR\n2 1 95869 93821 111098 XOR\n2 1 95870 93822 111099 XOR\n2 1 111219 111188 95866 XOR\n2 1 95866 111064 20704 XOR\n2 1 95866 93818 111095 XOR\n2 1 20704 20705 20703 AND\n2 1 20703 111064 111065 XOR\n2 1 95867 111065 20707 XOR\n2 1 111096 111065 91825 XOR\n1 1 91825 20675 INV\n2 1 111095 111064 91824 XOR\n2 1 91824 111041 20601 XOR\n",
"2 1 20601 20602 20600 AND\n2 1 20600 111041 111042 XOR\n1 1 111042 20605 INV\n2 1 20675 111042 89782 XOR\n2 1 89782 83638 102875 XOR\n2 1 91825 111042 20604 XOR\n2 1 20604 20605 20603 AND\n2 1 20603 111042 111043 XOR\n2 1 869 89782 102813 XOR\n1 1 111043 20608 INV\n1 1 91824 20674 INV\n2 1 20674 111041 89781 XOR\n2 1 89781 83637 102874 XOR\n2 1 89781 102843 8416 XOR\n2 1 89781 102781 8327 XOR\n2 1 8416 8417 8415 AND\n2 1 8415 102843 102844 XOR\n2 1 102875 102844 77270 XOR\n2 1 83638 102844 8420 XOR\n2 1 77270 773 68884 XOR\n2 1 77270 805 69012 XOR\n2 1 102874 102843 77269 XOR\n2 1 644 77269 102254 XOR\n2 1 77269 102223 7517 XOR\n2 1 7516 7517 7515 AND\n2 1 7515 102223 102224 XOR\n2 1 77269 772 68883 XOR\n2 1 645 102224 7519 XOR\n2 1 89782 102844 8419 XOR\n2 1 8419 8420 8418 AND\n2 1 8418 102844 102845 XOR\n2 1 83639 102845 8423 XOR\n2 1 77269 804 69011 XOR\n2 1 69011 68979 68947 AND\n2 1 68947 804 85653 XOR\n2 1 69012 68980 68948 AND\n2 1 68948 805 85654 XOR\n2 1 77270 102224 7520 XOR\n2 1 7519 7520 7518 AND\n2 1 7518 102224 102225 XOR\n2 1 646 102225 7522 XOR\n2 1 868 89781 102812 XOR\n2 1 102812 102781 77141 XOR\n2 1 62995 77141 62963 AND\n2 1 62963 1252 97882 XOR\n2 1 77141 1220 62931 XOR\n2 1 516 77141 102006 XOR\n2 1 102254 102223 135717 XOR\n2 1 102006 101975 135589 XOR\n2 1 77141 101975 7157 XOR\n2 1 7156 7157 7155 AND\n2 1 7155 101975 101976 XOR\n2 1 517 101976 7159 XOR\n2 1 93819 111065 20708 XOR\n2 1 20707 20708 20706 AND\n2 1 20706 111065 111066 XOR\n2 1 93820 111066 20711 XOR\n2 1 95868 111066 20710 XOR\n2 1 20710 20711 20709 AND\n2 1 20709 111066 111067 XOR\n2 1 93821 111067 20714 XOR\n2 1 95869 111067 20713 XOR\n2 1 20713 20714 20712 AND\n2 1 20712 111067 111068 XOR\n2 1 111099 111068 91828 XOR\n1 1 91828 20678 INV\n2 1 93822 111068 20717 XOR\n2 1 95870 111068 20716 XOR\n2 1 20716 20717 20715 AND\n2 1 20715 111068 111069 XOR\n2 1 93823 111069 20720 XOR\n2 1 111098 111067 91827 XOR\n1 1 91827 20677 INV\n2 1 8326 8327 8325 AND\n2 1 8325 102781 102782 XOR\n2 1 102813 102782 77142 XOR\n2 1 77142 101976 7160 XOR\n2 1 77137 77142 60905 XOR\n2 1 89782 102782 8330 XOR\n2 1 77142 1221 62932 XOR\n2 1 517 77142 102007 XOR\n2 1 869 102782 8329 XOR\n2 1 62996 77142 62964 AND\n2 1 62964 1253 97883 XOR\n2 1 102007 101976 135590 XOR\n2 1 8329 8330 8328 AND\n2 1 8328 102782 102783 XOR\n2 1 870 102783 8332 XOR\n2 1 7159 7160 7158 AND\n2 1 7158 101976 101977 XOR\n2 1 518 101977 7162 XOR\n2 1 20896 20897 20895 AND\n2 1 20895 111192 111193 XOR\n2 1 97919 111193 20900 XOR\n2 1 111224 111193 95871 XOR\n2 1 95871 93823 111100 XOR\n2 1 111100 111069 91829 XOR\n1 1 91829 20679 INV\n2 1 95871 111069 20719 XOR\n2 1 20719 20720 20718 AND\n2 1 20718 111069 111070 XOR\n2 1 99967 111193 20899 XOR\n2 1 20899 20900 20898 AND\n2 1 20898 111193 111194 XOR\n2 1 97920 111194 20903 XOR\n2 1 111225 111194 95872 XOR\n2 1 95872 111070 20722 XOR\n2 1 99968 111194 20902 XOR\n2 1 20902 20903 20901 AND\n2 1 20901 111194 111195 XOR\n2 1 111226 111195 95873 XOR\n2 1 97921 111195 20906 XOR\n2 1 95872 93824 111101 XOR\n2 1 111101 111070 91830 XOR\n1 1 91830 20680 INV\n2 1 95873 93825 111102 XOR\n2 1 93824 111070 20723 XOR\n2 1 20722 20723 20721 AND\n2 1 20721 111070 111071 XOR\n2 1 111102 111071 91831 XOR\n2 1 95873 111071 20725 XOR\n1 1 91831 20681 INV\n2 1 93825 111071 20726 XOR\n2 1 20725 20726 20724 AND\n2 1 20724 111071 111072 XOR\n2 1 93826 111072 20729 XOR\n2 1 99969 111195 20905 XOR\n2 1 20905 20906 20904 AND\n",
"2 1 20904 111195 111196 XOR\n2 1 97922 111196 20909 XOR\n2 1 99970 111196 20908 XOR\n2 1 111227 111196 95874 XOR\n2 1 95874 93826 111103 XOR\n2 1 111103 111072 91832 XOR\n1 1 91832 20682 INV\n2 1 20908 20909 20907 AND\n2 1 20907 111196 111197 XOR\n2 1 111228 111197 95875 XOR\n2 1 97923 111197 20912 XOR\n2 1 99971 111197 20911 XOR\n2 1 20911 20912 20910 AND\n2 1 20910 111197 111198 XOR\n2 1 111229 111198 95876 XOR\n2 1 99972 111198 20914 XOR\n2 1 97924 111198 20915 XOR\n2 1 95876 93828 111105 XOR\n2 1 20914 20915 20913 AND\n2 1 20913 111198 111199 XOR\n2 1 111230 111199 95877 XOR\n2 1 99973 111199 20917 XOR\n2 1 95877 93829 111106 XOR\n2 1 97925 111199 20918 XOR\n2 1 20917 20918 20916 AND\n2 1 20916 111199 111200 XOR\n2 1 111231 111200 95878 XOR\n2 1 95878 93830 111107 XOR\n2 1 97926 111200 20921 XOR\n2 1 99974 111200 20920 XOR\n2 1 20920 20921 20919 AND\n2 1 20919 111200 111201 XOR\n2 1 99975 111201 20923 XOR\n2 1 111232 111201 95879 XOR\n2 1 95879 93831 111108 XOR\n2 1 95875 93827 111104 XOR\n2 1 95874 111072 20728 XOR\n2 1 20728 20729 20727 AND\n2 1 20727 111072 111073 XOR\n2 1 93827 111073 20732 XOR\n2 1 95875 111073 20731 XOR\n2 1 20731 20732 20730 AND\n2 1 20730 111073 111074 XOR\n2 1 93828 111074 20735 XOR\n2 1 111105 111074 91834 XOR\n1 1 91834 20684 INV\n2 1 95876 111074 20734 XOR\n2 1 20734 20735 20733 AND\n2 1 20733 111074 111075 XOR\n2 1 111106 111075 91835 XOR\n1 1 91835 20685 INV\n2 1 93829 111075 20738 XOR\n2 1 95877 111075 20737 XOR\n2 1 20737 20738 20736 AND\n2 1 20736 111075 111076 XOR\n2 1 111107 111076 91836 XOR\n2 1 95878 111076 20740 XOR\n2 1 93830 111076 20741 XOR\n2 1 20740 20741 20739 AND\n2 1 20739 111076 111077 XOR\n2 1 111108 111077 91837 XOR\n1 1 91837 20686 INV\n2 1 93831 111077 20744 XOR\n2 1 95879 111077 20743 XOR\n2 1 20743 20744 20742 AND\n2 1 20742 111077 111078 XOR\n2 1 93832 111078 20747 XOR\n2 1 111104 111073 91833 XOR\n1 1 91833 20683 INV\n2 1 97927 111201 20924 XOR\n2 1 20923 20924 20922 AND\n2 1 20922 111201 111202 XOR\n2 1 97928 111202 20927 XOR\n2 1 99976 111202 20926 XOR\n2 1 20926 20927 20925 AND\n2 1 20925 111202 111203 XOR\n2 1 97929 111203 20930 XOR\n2 1 111234 111203 95881 XOR\n2 1 95881 93833 111110 XOR\n2 1 99977 111203 20929 XOR\n2 1 20929 20930 20928 AND\n2 1 20928 111203 111204 XOR\n2 1 97930 111204 20933 XOR\n2 1 99978 111204 20932 XOR\n2 1 20932 20933 20931 AND\n2 1 111235 111204 95882 XOR\n2 1 20931 111204 111205 XOR\n2 1 111236 111205 95883 XOR\n2 1 99979 111205 20935 XOR\n2 1 95882 93834 111111 XOR\n2 1 97931 111205 20936 XOR\n2 1 20935 20936 20934 AND\n2 1 20934 111205 111206 XOR\n2 1 99980 111206 20938 XOR\n2 1 111237 111206 95884 XOR\n2 1 97932 111206 20939 XOR\n2 1 95884 93836 111113 XOR\n2 1 20938 20939 20937 AND\n2 1 20937 111206 111207 XOR\n2 1 97933 111207 20942 XOR\n2 1 111238 111207 95885 XOR\n2 1 95885 93837 111114 XOR\n2 1 95883 93835 111112 XOR\n2 1 99981 111207 20941 XOR\n2 1 20941 20942 20940 AND\n2 1 20940 111207 111208 XOR\n2 1 99982 111208 20944 XOR\n2 1 97934 111208 20945 XOR\n2 1 20944 20945 20943 AND\n2 1 20943 111208 111209 XOR\n2 1 99983 111209 20947 XOR\n2 1 111239 111208 95886 XOR\n2 1 95886 93838 111115 XOR\n2 1 97935 111209 20948 XOR\n2 1 20947 20948 20946 AND\n2 1 20946 111209 111210 XOR\n2 1 97936 111210 20951 XOR\n2 1 99984 111210 20950 XOR\n2 1 111241 111210 95888 XOR\n2 1 95888 93840 111117 XOR\n2 1 111240 111209 95887 XOR\n2 1 95887 93839 111116 XOR\n2 1 111233 111202 95880 XOR\n2 1 95880 93832 111109 XOR\n2 1 111109 111078 91838 XOR\n1 1 91838 20687 INV\n2 1 95880 111078 20746 XOR\n2 1 20746 20747 20745 AND\n",
"2 1 20745 111078 111079 XOR\n2 1 111110 111079 91839 XOR\n1 1 91839 20688 INV\n2 1 95881 111079 20749 XOR\n2 1 93833 111079 20750 XOR\n2 1 20749 20750 20748 AND\n2 1 20748 111079 111080 XOR\n2 1 111111 111080 91840 XOR\n1 1 91840 20689 INV\n2 1 95882 111080 20752 XOR\n2 1 93834 111080 20753 XOR\n2 1 20752 20753 20751 AND\n2 1 20751 111080 111081 XOR\n2 1 111112 111081 91841 XOR\n1 1 91841 20690 INV\n2 1 95883 111081 20755 XOR\n2 1 93835 111081 20756 XOR\n2 1 20755 20756 20754 AND\n2 1 20754 111081 111082 XOR\n2 1 111113 111082 91842 XOR\n2 1 95884 111082 20758 XOR\n2 1 93836 111082 20759 XOR\n2 1 20758 20759 20757 AND\n2 1 20757 111082 111083 XOR\n2 1 111114 111083 91843 XOR\n1 1 91843 20691 INV\n2 1 95885 111083 20761 XOR\n2 1 93837 111083 20762 XOR\n2 1 20761 20762 20760 AND\n2 1 20760 111083 111084 XOR\n2 1 111115 111084 91844 XOR\n2 1 95886 111084 20764 XOR\n2 1 93838 111084 20765 XOR\n2 1 20764 20765 20763 AND\n2 1 20763 111084 111085 XOR\n2 1 95887 111085 20767 XOR\n2 1 111116 111085 91845 XOR\n2 1 93839 111085 20768 XOR\n2 1 20767 20768 20766 AND\n2 1 20766 111085 111086 XOR\n2 1 93840 111086 20771 XOR\n2 1 95888 111086 20770 XOR\n2 1 111117 111086 91846 XOR\n2 1 20770 20771 20769 AND\n2 1 20769 111086 111087 XOR\n2 1 93841 111087 20774 XOR\n2 1 20950 20951 20949 AND\n2 1 20949 111210 111211 XOR\n2 1 99985 111211 20953 XOR\n2 1 111242 111211 95889 XOR\n2 1 95889 93841 111118 XOR\n2 1 95889 111087 20773 XOR\n2 1 111118 111087 91847 XOR\n2 1 20773 20774 20772 AND\n2 1 97937 111211 20954 XOR\n2 1 20953 20954 20952 AND\n2 1 20952 111211 111212 XOR\n2 1 111243 111212 95890 XOR\n2 1 95890 93842 111119 XOR\n2 1 99986 111212 20956 XOR\n2 1 97938 111212 20957 XOR\n2 1 20956 20957 20955 AND\n2 1 20955 111212 111213 XOR\n2 1 97939 111213 20960 XOR\n2 1 111244 111213 95891 XOR\n2 1 95891 93843 111120 XOR\n2 1 99987 111213 20959 XOR\n2 1 20959 20960 20958 AND\n2 1 20958 111213 111214 XOR\n2 1 97940 111214 20963 XOR\n2 1 111245 111214 95892 XOR\n2 1 95892 93844 111121 XOR\n2 1 99988 111214 20962 XOR\n2 1 20962 20963 20961 AND\n2 1 20961 111214 111215 XOR\n2 1 111246 111215 95893 XOR\n2 1 95893 93845 111122 XOR\n2 1 20772 111087 111088 XOR\n2 1 93842 111088 20777 XOR\n2 1 95890 111088 20776 XOR\n2 1 20776 20777 20775 AND\n2 1 20775 111088 111089 XOR\n2 1 95891 111089 20779 XOR\n2 1 111120 111089 91849 XOR\n2 1 93843 111089 20780 XOR\n2 1 20779 20780 20778 AND\n2 1 111119 111088 91848 XOR\n1 1 91848 20692 INV\n2 1 20778 111089 111090 XOR\n2 1 95892 111090 20782 XOR\n2 1 93844 111090 20783 XOR\n2 1 111121 111090 91850 XOR\n2 1 20782 20783 20781 AND\n2 1 20781 111090 111091 XOR\n2 1 111122 111091 91851 XOR\n1 1 91851 20693 INV\n2 1 95868 93820 111097 XOR\n2 1 111097 111066 91826 XOR\n1 1 91826 20676 INV\n2 1 20676 111043 89783 XOR\n2 1 89783 102783 8333 XOR\n2 1 89783 83639 102876 XOR\n2 1 91826 111043 20607 XOR\n2 1 20607 20608 20606 AND\n2 1 20606 111043 111044 XOR\n1 1 111044 20611 INV\n2 1 20677 111044 89784 XOR\n2 1 89784 83640 102877 XOR\n2 1 91827 111044 20610 XOR\n2 1 20610 20611 20609 AND\n2 1 20609 111044 111045 XOR\n2 1 20678 111045 89785 XOR\n2 1 91828 111045 20613 XOR\n2 1 89783 102845 8422 XOR\n2 1 8422 8423 8421 AND\n2 1 8332 8333 8331 AND\n2 1 8421 102845 102846 XOR\n2 1 102877 102846 77272 XOR\n2 1 647 77272 102257 XOR\n2 1 77272 807 69014 XOR\n2 1 69014 68982 68950 AND\n2 1 83640 102846 8426 XOR\n2 1 77272 775 68886 XOR\n2 1 102876 102845 77271 XOR\n2 1 77271 102225 7523 XOR\n2 1 646 77271 102256 XOR\n2 1 102256 102225 135719 XOR\n2 1 89784 102846 8425 XOR\n",
"2 1 8425 8426 8424 AND\n2 1 8424 102846 102847 XOR\n2 1 83641 102847 8429 XOR\n2 1 871 89784 102815 XOR\n2 1 89785 83641 102878 XOR\n2 1 102878 102847 77273 XOR\n2 1 77273 808 69015 XOR\n2 1 69015 68983 68951 AND\n2 1 68951 808 85657 XOR\n2 1 77273 776 68887 XOR\n2 1 77271 774 68885 XOR\n2 1 870 89783 102814 XOR\n2 1 872 89785 102816 XOR\n2 1 68950 807 85656 XOR\n2 1 89785 102847 8428 XOR\n2 1 8428 8429 8427 AND\n2 1 8427 102847 102848 XOR\n2 1 83642 102848 8432 XOR\n2 1 8331 102783 102784 XOR\n2 1 871 102784 8335 XOR\n2 1 89784 102784 8336 XOR\n2 1 102815 102784 77144 XOR\n2 1 77144 1223 62934 XOR\n2 1 77139 77144 60907 XOR\n2 1 519 77144 102009 XOR\n2 1 62998 77144 62966 AND\n2 1 62966 1255 97885 XOR\n2 1 8335 8336 8334 AND\n2 1 8334 102784 102785 XOR\n2 1 102816 102785 77145 XOR\n2 1 77140 77145 60908 XOR\n2 1 520 77145 102010 XOR\n2 1 62999 77145 62967 AND\n2 1 62967 1256 97886 XOR\n2 1 89785 102785 8339 XOR\n2 1 872 102785 8338 XOR\n2 1 8338 8339 8337 AND\n2 1 8337 102785 102786 XOR\n2 1 873 102786 8341 XOR\n2 1 648 77273 102258 XOR\n1 1 111045 20614 INV\n2 1 20613 20614 20612 AND\n2 1 20612 111045 111046 XOR\n1 1 111046 20617 INV\n2 1 20679 111046 89786 XOR\n2 1 91829 111046 20616 XOR\n2 1 873 89786 102817 XOR\n2 1 102817 102786 77146 XOR\n2 1 77141 77146 60909 XOR\n2 1 63000 77146 62968 AND\n2 1 62968 1257 97887 XOR\n2 1 89786 102786 8342 XOR\n2 1 8341 8342 8340 AND\n2 1 8340 102786 102787 XOR\n2 1 874 102787 8344 XOR\n2 1 89786 83642 102879 XOR\n2 1 89786 102848 8431 XOR\n2 1 8431 8432 8430 AND\n2 1 8430 102848 102849 XOR\n2 1 83643 102849 8435 XOR\n2 1 102879 102848 77274 XOR\n2 1 77274 809 69016 XOR\n2 1 69016 68984 68952 AND\n2 1 68952 809 85658 XOR\n2 1 77146 1225 62936 XOR\n2 1 77274 777 68888 XOR\n2 1 649 77274 102259 XOR\n2 1 521 77146 102011 XOR\n2 1 102814 102783 77143 XOR\n2 1 77138 77143 60906 XOR\n2 1 518 77143 102008 XOR\n2 1 77143 1222 62933 XOR\n2 1 62997 77143 62965 AND\n2 1 62965 1254 97884 XOR\n2 1 102008 101977 135591 XOR\n2 1 20616 20617 20615 AND\n2 1 20615 111046 111047 XOR\n2 1 20680 111047 89787 XOR\n2 1 89787 102849 8434 XOR\n2 1 89787 83643 102880 XOR\n2 1 91830 111047 20619 XOR\n1 1 111047 20620 INV\n2 1 102880 102849 77275 XOR\n2 1 77275 778 68889 XOR\n2 1 77275 810 69017 XOR\n2 1 69017 68985 68953 AND\n2 1 650 77275 102260 XOR\n2 1 20619 20620 20618 AND\n2 1 20618 111047 111048 XOR\n2 1 91831 111048 20622 XOR\n1 1 111048 20623 INV\n2 1 20622 20623 20621 AND\n2 1 20621 111048 111049 XOR\n2 1 20682 111049 89789 XOR\n2 1 91832 111049 20625 XOR\n2 1 89789 83645 102882 XOR\n2 1 89787 102787 8345 XOR\n2 1 8344 8345 8343 AND\n2 1 8343 102787 102788 XOR\n2 1 875 102788 8347 XOR\n1 1 111049 20626 INV\n2 1 20625 20626 20624 AND\n2 1 20624 111049 111050 XOR\n2 1 91833 111050 20628 XOR\n2 1 20683 111050 89790 XOR\n2 1 89790 83646 102883 XOR\n2 1 877 89790 102821 XOR\n1 1 111050 20629 INV\n2 1 20628 20629 20627 AND\n2 1 20627 111050 111051 XOR\n1 1 111051 20632 INV\n2 1 91834 111051 20631 XOR\n2 1 20631 20632 20630 AND\n2 1 20630 111051 111052 XOR\n2 1 91835 111052 20634 XOR\n2 1 20685 111052 89792 XOR\n2 1 879 89792 102823 XOR\n2 1 89792 83648 102885 XOR\n2 1 20684 111051 89791 XOR\n2 1 89791 83647 102884 XOR\n2 1 874 89787 102818 XOR\n2 1 102818 102787 77147 XOR\n2 1 77142 77147 60910 XOR\n2 1 63001 77147 62969 AND\n2 1 62969 1258 97888 XOR\n2 1 522 77147 102012 XOR\n2 1 77147 1226 62937 XOR\n2 1 876 89789 102820 XOR\n",
"2 1 878 89791 102822 XOR\n1 1 111052 20635 INV\n2 1 20634 20635 20633 AND\n2 1 20633 111052 20637 XOR\n2 1 68953 810 85659 XOR\n2 1 91836 20637 89793 XOR\n2 1 89793 20637 20636 AND\n2 1 20636 20637 111053 XOR\n1 1 111053 20640 INV\n2 1 91837 111053 20639 XOR\n2 1 20639 20640 20638 AND\n2 1 20638 111053 111054 XOR\n1 1 111054 20643 INV\n2 1 91838 111054 20642 XOR\n2 1 20642 20643 20641 AND\n2 1 20641 111054 111055 XOR\n2 1 20688 111055 89796 XOR\n1 1 111055 20646 INV\n2 1 91839 111055 20645 XOR\n2 1 20687 111054 89795 XOR\n2 1 89795 83651 102888 XOR\n2 1 883 89796 102827 XOR\n2 1 20645 20646 20644 AND\n2 1 20644 111055 111056 XOR\n1 1 111056 20649 INV\n2 1 91840 111056 20648 XOR\n2 1 20648 20649 20647 AND\n2 1 20647 111056 111057 XOR\n2 1 20690 111057 89798 XOR\n1 1 111057 20652 INV\n2 1 91841 111057 20651 XOR\n2 1 20651 20652 20650 AND\n2 1 20650 111057 20654 XOR\n2 1 89796 83652 102889 XOR\n2 1 89798 83654 102891 XOR\n2 1 91842 20654 89799 XOR\n2 1 89799 83655 102892 XOR\n2 1 886 89799 102830 XOR\n2 1 89799 20654 20653 AND\n2 1 20653 20654 111058 XOR\n1 1 111058 20657 INV\n2 1 20691 111058 89800 XOR\n2 1 887 89800 102831 XOR\n2 1 89800 83656 102893 XOR\n2 1 20689 111056 89797 XOR\n2 1 89797 83653 102890 XOR\n2 1 91843 111058 20656 XOR\n2 1 20656 20657 20655 AND\n2 1 20655 111058 20659 XOR\n2 1 91844 20659 89801 XOR\n2 1 89801 20659 20658 AND\n2 1 20658 20659 20661 XOR\n2 1 91845 20661 89802 XOR\n2 1 89802 20661 20660 AND\n2 1 20660 20661 20663 XOR\n2 1 889 89802 102833 XOR\n2 1 91846 20663 89803 XOR\n2 1 890 89803 102834 XOR\n2 1 89802 83658 102895 XOR\n2 1 89803 83659 102896 XOR\n2 1 888 89801 102832 XOR\n2 1 89801 83657 102894 XOR\n2 1 89803 20663 20662 AND\n2 1 882 89795 102826 XOR\n2 1 884 89797 102828 XOR\n2 1 20686 111053 89794 XOR\n2 1 89794 83650 102887 XOR\n2 1 20662 20663 20665 XOR\n2 1 91847 20665 89804 XOR\n2 1 89804 20665 20664 AND\n2 1 89804 83660 102897 XOR\n2 1 891 89804 102835 XOR\n2 1 881 89794 102825 XOR\n2 1 89793 83649 102886 XOR\n2 1 880 89793 102824 XOR\n2 1 20681 111048 89788 XOR\n2 1 89788 83644 102881 XOR\n2 1 875 89788 102819 XOR\n2 1 102819 102788 77148 XOR\n2 1 77143 77148 60879 XOR\n2 1 523 77148 102013 XOR\n2 1 63002 77148 62970 AND\n2 1 62970 1259 97889 XOR\n2 1 77148 1227 62938 XOR\n2 1 89788 102788 8348 XOR\n2 1 20664 20665 111059 XOR\n1 1 111059 20668 INV\n2 1 91848 111059 20667 XOR\n2 1 20667 20668 20666 AND\n2 1 20666 111059 20670 XOR\n2 1 91849 20670 89806 XOR\n2 1 893 89806 102837 XOR\n2 1 89806 83662 102899 XOR\n2 1 89806 20670 20669 AND\n2 1 20669 20670 20672 XOR\n2 1 91850 20672 89807 XOR\n2 1 894 89807 102838 XOR\n2 1 89807 20672 20671 AND\n2 1 20671 20672 111060 XOR\n2 1 89807 83663 102900 XOR\n2 1 20693 111060 89808 XOR\n2 1 895 89808 102839 XOR\n2 1 89808 83664 102901 XOR\n2 1 20692 111059 89805 XOR\n2 1 89805 83661 102898 XOR\n2 1 8434 8435 8433 AND\n2 1 8433 102849 102850 XOR\n2 1 89788 102850 8437 XOR\n2 1 102881 102850 77276 XOR\n2 1 77276 811 69018 XOR\n2 1 651 77276 102261 XOR\n2 1 69018 68986 68954 AND\n2 1 77276 779 68890 XOR\n2 1 83644 102850 8438 XOR\n2 1 8437 8438 8436 AND\n2 1 8436 102850 102851 XOR\n2 1 102882 102851 77277 XOR\n2 1 77277 812 69019 XOR\n2 1 77277 780 68891 XOR\n2 1 77266 77277 66830 XOR\n2 1 69019 68987 68955 AND\n2 1 68955 812 85661 XOR\n2 1 83645 102851 8441 XOR\n2 1 652 77277 102262 XOR\n2 1 89789 102851 8440 XOR\n2 1 68954 811 85660 XOR\n2 1 7522 7523 7521 AND\n2 1 7521 102225 102226 XOR\n",
"2 1 77272 102226 7526 XOR\n2 1 102257 102226 135720 XOR\n2 1 647 102226 7525 XOR\n2 1 7525 7526 7524 AND\n2 1 7524 102226 102227 XOR\n2 1 102258 102227 135721 XOR\n2 1 77273 102227 7529 XOR\n2 1 8440 8441 8439 AND\n2 1 8439 102851 102852 XOR\n2 1 83646 102852 8444 XOR\n2 1 102883 102852 77278 XOR\n2 1 77278 813 69020 XOR\n2 1 69020 68988 68956 AND\n2 1 68956 813 85662 XOR\n2 1 653 77278 102263 XOR\n2 1 77278 781 68892 XOR\n2 1 77267 77278 66799 XOR\n2 1 89790 102852 8443 XOR\n2 1 8443 8444 8442 AND\n2 1 8442 102852 102853 XOR\n2 1 83647 102853 8447 XOR\n2 1 89791 102853 8446 XOR\n2 1 102884 102853 77279 XOR\n2 1 654 77279 102264 XOR\n2 1 77268 77279 66800 XOR\n2 1 77279 782 68893 XOR\n2 1 77279 814 69021 XOR\n2 1 69021 68989 68957 AND\n2 1 8446 8447 8445 AND\n2 1 8445 102853 102854 XOR\n2 1 102885 102854 77280 XOR\n2 1 89792 102854 8449 XOR\n2 1 77280 815 69022 XOR\n2 1 77269 77280 66801 XOR\n2 1 655 77280 102265 XOR\n2 1 77280 783 68894 XOR\n2 1 69022 68990 68958 AND\n2 1 68958 815 85664 XOR\n2 1 83648 102854 8450 XOR\n2 1 8449 8450 8448 AND\n2 1 8448 102854 102855 XOR\n2 1 102886 102855 77281 XOR\n2 1 77281 816 69023 XOR\n2 1 77270 77281 66802 XOR\n2 1 89793 102855 8452 XOR\n2 1 83649 102855 8453 XOR\n2 1 8452 8453 8451 AND\n2 1 8451 102855 102856 XOR\n2 1 102887 102856 77282 XOR\n2 1 89794 102856 8455 XOR\n2 1 83650 102856 8456 XOR\n2 1 77271 77282 66803 XOR\n2 1 77282 817 69024 XOR\n2 1 69024 68992 68960 AND\n2 1 68960 817 85666 XOR\n2 1 657 77282 102267 XOR\n2 1 8455 8456 8454 AND\n2 1 8454 102856 102857 XOR\n2 1 89795 102857 8458 XOR\n2 1 102888 102857 77283 XOR\n2 1 77283 818 69025 XOR\n2 1 69025 68993 68961 AND\n2 1 68961 818 85667 XOR\n2 1 658 77283 102268 XOR\n2 1 77272 77283 66804 XOR\n2 1 77283 786 68897 XOR\n2 1 68957 814 85663 XOR\n2 1 77282 785 68896 XOR\n2 1 83651 102857 8459 XOR\n2 1 8458 8459 8457 AND\n2 1 8457 102857 102858 XOR\n2 1 102889 102858 77284 XOR\n2 1 77273 77284 66805 XOR\n2 1 77284 787 68898 XOR\n2 1 659 77284 102269 XOR\n2 1 77284 819 69026 XOR\n2 1 89796 102858 8461 XOR\n2 1 69026 68994 68962 AND\n2 1 68962 819 85668 XOR\n2 1 77265 77276 66829 XOR\n2 1 77145 1224 62935 XOR\n2 1 656 77281 102266 XOR\n2 1 8347 8348 8346 AND\n2 1 8346 102788 102789 XOR\n2 1 102820 102789 77149 XOR\n2 1 63003 77149 62971 AND\n2 1 77144 77149 60880 XOR\n2 1 62971 1260 97890 XOR\n2 1 77149 1228 62939 XOR\n2 1 89789 102789 8351 XOR\n2 1 876 102789 8350 XOR\n2 1 8350 8351 8349 AND\n2 1 8349 102789 102790 XOR\n2 1 89790 102790 8354 XOR\n2 1 877 102790 8353 XOR\n2 1 8353 8354 8352 AND\n2 1 8352 102790 102791 XOR\n2 1 89791 102791 8357 XOR\n2 1 878 102791 8356 XOR\n2 1 8356 8357 8355 AND\n2 1 102822 102791 77151 XOR\n2 1 63005 77151 62973 AND\n2 1 77146 77151 60882 XOR\n2 1 77151 1230 62941 XOR\n2 1 62973 1262 97892 XOR\n2 1 526 77151 102016 XOR\n2 1 8355 102791 102792 XOR\n2 1 102823 102792 77152 XOR\n2 1 527 77152 102017 XOR\n2 1 63006 77152 62974 AND\n2 1 77152 1231 62942 XOR\n2 1 879 102792 8359 XOR\n2 1 89792 102792 8360 XOR\n2 1 62974 1263 97893 XOR\n2 1 77147 77152 60883 XOR\n2 1 102821 102790 77150 XOR\n2 1 77145 77150 60881 XOR\n2 1 525 77150 102015 XOR\n2 1 77150 1229 62940 XOR\n2 1 63004 77150 62972 AND\n2 1 62972 1261 97891 XOR\n2 1 77281 784 68895 XOR\n2 1 69023 68991 68959 AND\n2 1 68959 816 85665 XOR\n2 1 892 89805 102836 XOR\n2 1 8359 8360 8358 AND\n2 1 8358 102792 102793 XOR\n2 1 89793 102793 8363 XOR\n",
"2 1 102824 102793 77153 XOR\n2 1 528 77153 102018 XOR\n2 1 880 102793 8362 XOR\n2 1 77153 1232 62943 XOR\n2 1 63007 77153 62975 AND\n2 1 62975 1264 97894 XOR\n2 1 77148 77153 60884 XOR\n2 1 648 102227 7528 XOR\n2 1 7528 7529 7527 AND\n2 1 7527 102227 102228 XOR\n2 1 77274 102228 7532 XOR\n2 1 649 102228 7531 XOR\n2 1 7531 7532 7530 AND\n2 1 7530 102228 102229 XOR\n2 1 77275 102229 7535 XOR\n2 1 650 102229 7534 XOR\n2 1 102260 102229 135723 XOR\n2 1 102259 102228 135722 XOR\n2 1 7534 7535 7533 AND\n2 1 7533 102229 102230 XOR\n2 1 77276 102230 7538 XOR\n2 1 102261 102230 135724 XOR\n2 1 77143 101977 7163 XOR\n2 1 7162 7163 7161 AND\n2 1 7161 101977 101978 XOR\n2 1 519 101978 7165 XOR\n2 1 77144 101978 7166 XOR\n2 1 102009 101978 135592 XOR\n2 1 7165 7166 7164 AND\n2 1 7164 101978 101979 XOR\n2 1 520 101979 7168 XOR\n2 1 524 77149 102014 XOR\n2 1 8362 8363 8361 AND\n2 1 8361 102793 102794 XOR\n2 1 89794 102794 8366 XOR\n2 1 881 102794 8365 XOR\n2 1 8365 8366 8364 AND\n2 1 8364 102794 102795 XOR\n2 1 102826 102795 77155 XOR\n2 1 77150 77155 60886 XOR\n2 1 89795 102795 8369 XOR\n2 1 77155 1234 62945 XOR\n2 1 882 102795 8368 XOR\n2 1 60886 77137 99933 XOR\n2 1 8368 8369 8367 AND\n2 1 530 77155 102020 XOR\n2 1 8367 102795 102796 XOR\n2 1 89796 102796 8372 XOR\n2 1 883 102796 8371 XOR\n2 1 63009 77155 62977 AND\n2 1 62977 1266 97896 XOR\n2 1 102827 102796 77156 XOR\n2 1 63010 77156 62978 AND\n2 1 531 77156 102021 XOR\n2 1 60905 77156 99952 XOR\n2 1 62978 1267 97897 XOR\n2 1 77156 1235 62946 XOR\n2 1 77151 77156 60887 XOR\n2 1 60887 77138 99934 XOR\n2 1 99934 97886 110954 XOR\n2 1 99933 97885 110953 XOR\n2 1 102825 102794 77154 XOR\n2 1 77149 77154 60885 XOR\n2 1 529 77154 102019 XOR\n2 1 63008 77154 62976 AND\n2 1 62976 1265 97895 XOR\n2 1 77154 1233 62944 XOR\n2 1 651 102230 7537 XOR\n2 1 7537 7538 7536 AND\n2 1 7536 102230 102231 XOR\n2 1 652 102231 7540 XOR\n2 1 77277 102231 7541 XOR\n2 1 7540 7541 7539 AND\n2 1 7539 102231 102232 XOR\n2 1 77278 102232 7544 XOR\n2 1 653 102232 7543 XOR\n2 1 7543 7544 7542 AND\n2 1 102263 102232 135726 XOR\n2 1 7542 102232 102233 XOR\n2 1 77279 102233 7547 XOR\n2 1 654 102233 7546 XOR\n2 1 7546 7547 7545 AND\n2 1 7545 102233 102234 XOR\n2 1 102265 102234 135728 XOR\n2 1 77280 102234 7550 XOR\n2 1 655 102234 7549 XOR\n2 1 7549 7550 7548 AND\n2 1 7548 102234 102235 XOR\n2 1 656 102235 7552 XOR\n2 1 102266 102235 135729 XOR\n2 1 77281 102235 7553 XOR\n2 1 7552 7553 7551 AND\n2 1 7551 102235 102236 XOR\n2 1 102267 102236 135730 XOR\n2 1 102262 102231 135725 XOR\n2 1 77282 102236 7556 XOR\n2 1 102264 102233 135727 XOR\n2 1 657 102236 7555 XOR\n2 1 7555 7556 7554 AND\n2 1 7554 102236 102237 XOR\n2 1 77283 102237 7559 XOR\n2 1 102268 102237 135731 XOR\n2 1 658 102237 7558 XOR\n2 1 7558 7559 7557 AND\n2 1 7557 102237 102238 XOR\n2 1 659 102238 7561 XOR\n2 1 77284 102238 7562 XOR\n2 1 7561 7562 7560 AND\n2 1 7560 102238 102239 XOR\n2 1 102269 102238 135732 XOR\n2 1 660 102239 7564 XOR\n2 1 77271 806 69013 XOR\n2 1 69013 68981 68949 AND\n2 1 68949 806 85655 XOR\n2 1 102010 101979 135593 XOR\n2 1 83652 102858 8462 XOR\n2 1 8461 8462 8460 AND\n2 1 8460 102858 102859 XOR\n2 1 89797 102859 8464 XOR\n2 1 83653 102859 8465 XOR\n2 1 8464 8465 8463 AND\n2 1 8463 102859 102860 XOR\n2 1 83654 102860 8468 XOR\n2 1 102891 102860 77286 XOR\n2 1 77286 77265 66818 XOR\n2 1 661 77286 102271 XOR\n2 1 77286 821 69028 XOR\n2 1 66830 77286 87728 XOR\n",
"2 1 66818 77274 87716 XOR\n2 1 77286 789 68900 XOR\n2 1 77275 77286 66807 XOR\n2 1 87716 85668 110779 XOR\n2 1 89798 102860 8467 XOR\n2 1 8467 8468 8466 AND\n2 1 8466 102860 102861 XOR\n2 1 102892 102861 77287 XOR\n2 1 66799 77287 87697 XOR\n2 1 87697 85649 83601 XOR\n2 1 83655 102861 8471 XOR\n2 1 77287 790 68901 XOR\n2 1 77276 77287 66808 XOR\n2 1 89799 102861 8470 XOR\n2 1 8470 8471 8469 AND\n2 1 8469 102861 102862 XOR\n2 1 102893 102862 77288 XOR\n2 1 77288 77267 66820 XOR\n2 1 66820 77276 87718 XOR\n2 1 77288 791 68902 XOR\n2 1 89800 102862 8473 XOR\n2 1 77277 77288 66809 XOR\n2 1 66809 77265 87707 XOR\n2 1 87707 85659 110770 XOR\n2 1 77287 822 69029 XOR\n2 1 69029 68997 68965 AND\n2 1 68965 822 85671 XOR\n2 1 83656 102862 8474 XOR\n2 1 8473 8474 8472 AND\n2 1 8472 102862 102863 XOR\n2 1 102894 102863 77289 XOR\n2 1 77289 792 68903 XOR\n2 1 89801 102863 8476 XOR\n2 1 77278 77289 66810 XOR\n2 1 66810 77266 87708 XOR\n2 1 664 77289 102274 XOR\n2 1 83657 102863 8477 XOR\n2 1 8476 8477 8475 AND\n2 1 8475 102863 102864 XOR\n2 1 77287 77266 66819 XOR\n2 1 66819 77275 87717 XOR\n2 1 77289 824 69031 XOR\n2 1 69031 68999 68967 AND\n2 1 68967 824 85673 XOR\n2 1 77289 77268 66821 XOR\n2 1 66821 77277 87719 XOR\n2 1 87719 85671 110782 XOR\n2 1 66801 77289 87699 XOR\n2 1 87699 85651 110762 XOR\n2 1 66800 77288 87698 XOR\n2 1 87698 85650 110761 XOR\n2 1 77288 823 69030 XOR\n2 1 69030 68998 68966 AND\n2 1 68966 823 85672 XOR\n2 1 89802 102864 8479 XOR\n2 1 662 77287 102272 XOR\n2 1 83658 102864 8480 XOR\n2 1 663 77288 102273 XOR\n2 1 8479 8480 8478 AND\n2 1 8478 102864 102865 XOR\n2 1 89803 102865 8482 XOR\n2 1 83659 102865 8483 XOR\n2 1 8482 8483 8481 AND\n2 1 8481 102865 102866 XOR\n2 1 102897 102866 77292 XOR\n2 1 66804 77292 87702 XOR\n2 1 77292 795 68906 XOR\n2 1 77292 77271 66824 XOR\n2 1 66824 77280 87722 XOR\n2 1 77292 827 69034 XOR\n2 1 69034 69002 68970 AND\n2 1 68970 827 85676 XOR\n2 1 83660 102866 8486 XOR\n2 1 89804 102866 8485 XOR\n2 1 8485 8486 8484 AND\n2 1 8484 102866 102867 XOR\n2 1 102898 102867 77293 XOR\n2 1 77293 828 69035 XOR\n2 1 77293 77272 66825 XOR\n2 1 77293 796 68907 XOR\n2 1 66825 77281 87723 XOR\n2 1 668 77293 102278 XOR\n2 1 69035 69003 68971 AND\n2 1 68971 828 85677 XOR\n2 1 77282 77293 66814 XOR\n2 1 667 77292 102277 XOR\n2 1 66805 77293 87703 XOR\n2 1 87703 85655 110766 XOR\n2 1 66814 77270 87712 XOR\n2 1 87712 85664 110775 XOR\n2 1 87697 85649 110730 AND\n2 1 110761 110730 83602 XOR\n2 1 87698 110730 20048 XOR\n2 1 85650 110730 20049 XOR\n2 1 20048 20049 20047 AND\n2 1 20047 110730 110731 XOR\n2 1 87699 110731 20051 XOR\n2 1 85651 110731 20052 XOR\n2 1 110762 110731 83603 XOR\n2 1 20051 20052 20050 AND\n2 1 20050 110731 110732 XOR\n2 1 85652 110732 20055 XOR\n2 1 83661 102867 8489 XOR\n2 1 102896 102865 77291 XOR\n2 1 77291 826 69033 XOR\n2 1 77280 77291 66812 XOR\n2 1 66812 77268 87710 XOR\n2 1 77291 77270 66823 XOR\n2 1 66823 77279 87721 XOR\n2 1 87721 85673 110784 XOR\n2 1 666 77291 102276 XOR\n2 1 69033 69001 68969 AND\n2 1 68969 826 85675 XOR\n2 1 87723 85675 110786 XOR\n2 1 87710 85662 110773 XOR\n2 1 66803 77291 87701 XOR\n2 1 87701 85653 110764 XOR\n2 1 77291 794 68905 XOR\n2 1 69028 68996 68964 AND\n2 1 68964 821 85670 XOR\n2 1 87718 85670 110781 XOR\n2 1 77281 77292 66813 XOR\n2 1 66813 77269 87711 XOR\n2 1 89805 102867 8488 XOR\n2 1 8488 8489 8487 AND\n2 1 8487 102867 102868 XOR\n2 1 102899 102868 77294 XOR\n2 1 77294 797 68908 XOR\n",
"2 1 77283 77294 66815 XOR\n2 1 66815 77271 87713 XOR\n2 1 87713 85665 110776 XOR\n2 1 77294 829 69036 XOR\n2 1 69036 69004 68972 AND\n2 1 68972 829 85678 XOR\n2 1 83662 102868 8492 XOR\n2 1 669 77294 102279 XOR\n2 1 89806 102868 8491 XOR\n2 1 8491 8492 8490 AND\n2 1 8490 102868 102869 XOR\n2 1 89807 102869 8494 XOR\n2 1 102900 102869 77295 XOR\n2 1 77284 77295 66816 XOR\n2 1 77295 830 69037 XOR\n2 1 77295 77274 66827 XOR\n2 1 66827 77283 87725 XOR\n2 1 69037 69005 68973 AND\n2 1 68973 830 85679 XOR\n2 1 66807 77295 87705 XOR\n2 1 83663 102869 8495 XOR\n2 1 670 77295 102280 XOR\n2 1 87705 85657 110768 XOR\n2 1 87725 85677 110788 XOR\n2 1 77295 798 68909 XOR\n2 1 66816 77272 87714 XOR\n2 1 87714 85666 110777 XOR\n2 1 8494 8495 8493 AND\n2 1 8493 102869 102870 XOR\n2 1 102901 102870 77296 XOR\n2 1 671 77296 102281 XOR\n2 1 77296 799 68910 XOR\n2 1 66808 77296 87706 XOR\n2 1 77296 77275 66828 XOR\n2 1 66828 77284 87726 XOR\n2 1 77296 831 69038 XOR\n2 1 87726 85678 110789 XOR\n2 1 69038 69006 68974 AND\n2 1 68974 831 85680 XOR\n2 1 87728 85680 110791 XOR\n2 1 77294 77273 66826 XOR\n2 1 66826 77282 87724 XOR\n2 1 87724 85676 110787 XOR\n2 1 87706 85658 110769 XOR\n2 1 102890 102859 77285 XOR\n2 1 77285 820 69027 XOR\n2 1 77285 77296 66817 XOR\n2 1 66817 77273 87715 XOR\n2 1 77274 77285 66806 XOR\n2 1 66806 77294 87704 XOR\n2 1 87704 85656 110767 XOR\n2 1 660 77285 102270 XOR\n2 1 102270 102239 135733 XOR\n2 1 66829 77285 87727 XOR\n2 1 87727 85679 110790 XOR\n2 1 87715 85667 110778 XOR\n2 1 77285 788 68899 XOR\n2 1 69027 68995 68963 AND\n2 1 68963 820 85669 XOR\n2 1 87717 85669 110780 XOR\n2 1 87711 85663 110774 XOR\n2 1 87708 85660 110771 XOR\n2 1 102895 102864 77290 XOR\n2 1 77290 793 68904 XOR\n2 1 77279 77290 66811 XOR\n2 1 66811 77267 87709 XOR\n2 1 66802 77290 87700 XOR\n2 1 87700 85652 110763 XOR\n2 1 110763 110732 83604 XOR\n2 1 665 77290 102275 XOR\n2 1 87700 110732 20054 XOR\n2 1 20054 20055 20053 AND\n2 1 77290 77269 66822 XOR\n2 1 66822 77278 87720 XOR\n2 1 20053 110732 110733 XOR\n2 1 87701 110733 20057 XOR\n2 1 110764 110733 83605 XOR\n2 1 85653 110733 20058 XOR\n2 1 20057 20058 20056 AND\n2 1 20056 110733 110734 XOR\n2 1 85654 110734 20061 XOR\n2 1 87702 110734 20060 XOR\n2 1 20060 20061 20059 AND\n2 1 20059 110734 110735 XOR\n2 1 110766 110735 83607 XOR\n2 1 87703 110735 20063 XOR\n2 1 85655 110735 20064 XOR\n2 1 20063 20064 20062 AND\n2 1 20062 110735 110736 XOR\n2 1 87704 110736 20066 XOR\n2 1 85656 110736 20067 XOR\n2 1 20066 20067 20065 AND\n2 1 20065 110736 110737 XOR\n2 1 110768 110737 83609 XOR\n2 1 87705 110737 20069 XOR\n2 1 110767 110736 83608 XOR\n2 1 85657 110737 20070 XOR\n2 1 20069 20070 20068 AND\n2 1 20068 110737 110738 XOR\n2 1 87706 110738 20072 XOR\n2 1 85658 110738 20073 XOR\n2 1 20072 20073 20071 AND\n2 1 110769 110738 83610 XOR\n2 1 20071 110738 110739 XOR\n2 1 87707 110739 20075 XOR\n2 1 110770 110739 83611 XOR\n2 1 85659 110739 20076 XOR\n2 1 20075 20076 20074 AND\n2 1 20074 110739 110740 XOR\n2 1 110771 110740 83612 XOR\n2 1 87708 110740 20078 XOR\n2 1 85660 110740 20079 XOR\n2 1 20078 20079 20077 AND\n2 1 20077 110740 110741 XOR\n2 1 87709 110741 20081 XOR\n2 1 85661 110741 20082 XOR\n2 1 77290 825 69032 XOR\n2 1 69032 69000 68968 AND\n2 1 68968 825 85674 XOR\n2 1 87722 85674 110785 XOR\n2 1 87709 85661 110772 XOR\n2 1 110772 110741 83613 XOR\n2 1 87720 85672 110783 XOR\n2 1 20081 20082 20080 AND\n2 1 20080 110741 110742 XOR\n2 1 85662 110742 20085 XOR\n2 1 87710 110742 20084 XOR\n2 1 110773 110742 83614 XOR\n",
"2 1 20084 20085 20083 AND\n2 1 20083 110742 110743 XOR\n2 1 87711 110743 20087 XOR\n2 1 85663 110743 20088 XOR\n2 1 20087 20088 20086 AND\n2 1 110774 110743 83615 XOR\n2 1 20086 110743 110744 XOR\n2 1 110775 110744 83616 XOR\n2 1 85664 110744 20091 XOR\n2 1 87712 110744 20090 XOR\n2 1 20090 20091 20089 AND\n2 1 20089 110744 110745 XOR\n2 1 85665 110745 20094 XOR\n2 1 110776 110745 83617 XOR\n2 1 87713 110745 20093 XOR\n2 1 20093 20094 20092 AND\n2 1 20092 110745 110746 XOR\n2 1 85666 110746 20097 XOR\n2 1 87714 110746 20096 XOR\n2 1 20096 20097 20095 AND\n2 1 20095 110746 110747 XOR\n2 1 110778 110747 83619 XOR\n2 1 87715 110747 20099 XOR\n2 1 85667 110747 20100 XOR\n2 1 20099 20100 20098 AND\n2 1 20098 110747 110748 XOR\n2 1 110779 110748 83620 XOR\n2 1 85668 110748 20103 XOR\n2 1 87716 110748 20102 XOR\n2 1 20102 20103 20101 AND\n2 1 20101 110748 110749 XOR\n2 1 110780 110749 83621 XOR\n2 1 87717 110749 20105 XOR\n2 1 85669 110749 20106 XOR\n2 1 20105 20106 20104 AND\n2 1 110777 110746 83618 XOR\n2 1 20104 110749 110750 XOR\n2 1 110781 110750 83622 XOR\n2 1 85670 110750 20109 XOR\n2 1 87718 110750 20108 XOR\n2 1 20108 20109 20107 AND\n2 1 20107 110750 110751 XOR\n2 1 85671 110751 20112 XOR\n2 1 87719 110751 20111 XOR\n2 1 20111 20112 20110 AND\n2 1 110782 110751 83623 XOR\n2 1 20110 110751 110752 XOR\n2 1 110783 110752 83624 XOR\n2 1 85672 110752 20115 XOR\n2 1 87720 110752 20114 XOR\n2 1 20114 20115 20113 AND\n2 1 20113 110752 110753 XOR\n2 1 87721 110753 20117 XOR\n2 1 110784 110753 83625 XOR\n2 1 85673 110753 20118 XOR\n2 1 20117 20118 20116 AND\n2 1 20116 110753 110754 XOR\n2 1 87722 110754 20120 XOR\n2 1 85674 110754 20121 XOR\n2 1 110785 110754 83626 XOR\n2 1 8371 8372 8370 AND\n2 1 8370 102796 102797 XOR\n2 1 102828 102797 77157 XOR\n2 1 77157 1236 62947 XOR\n2 1 60906 77157 99953 XOR\n2 1 89797 102797 8375 XOR\n2 1 63011 77157 62979 AND\n2 1 62979 1268 97898 XOR\n2 1 77152 77157 60888 XOR\n2 1 60888 77139 99935 XOR\n2 1 99935 97887 110955 XOR\n2 1 532 77157 102022 XOR\n2 1 884 102797 8374 XOR\n2 1 8374 8375 8373 AND\n2 1 8373 102797 102798 XOR\n2 1 885 102798 8377 XOR\n2 1 89798 102798 8378 XOR\n2 1 8377 8378 8376 AND\n2 1 8376 102798 102799 XOR\n2 1 102830 102799 77159 XOR\n2 1 77159 1238 62949 XOR\n2 1 77154 77159 60890 XOR\n2 1 60890 77141 99937 XOR\n2 1 63013 77159 62981 AND\n2 1 62981 1270 97900 XOR\n2 1 89799 102799 8381 XOR\n2 1 60908 77159 99955 XOR\n2 1 99937 97889 110957 XOR\n2 1 886 102799 8380 XOR\n2 1 8380 8381 8379 AND\n2 1 8379 102799 102800 XOR\n2 1 102831 102800 77160 XOR\n2 1 77155 77160 60891 XOR\n2 1 63014 77160 62982 AND\n2 1 77160 1239 62950 XOR\n2 1 62982 1271 97901 XOR\n2 1 60891 77142 99938 XOR\n2 1 60909 77160 99956 XOR\n2 1 535 77160 102025 XOR\n2 1 89800 102800 8384 XOR\n2 1 99938 97890 110958 XOR\n2 1 887 102800 8383 XOR\n2 1 8383 8384 8382 AND\n2 1 8382 102800 102801 XOR\n2 1 888 102801 8386 XOR\n2 1 89801 102801 8387 XOR\n2 1 102832 102801 77161 XOR\n2 1 77156 77161 60892 XOR\n2 1 60910 77161 99957 XOR\n2 1 63015 77161 62983 AND\n2 1 77161 1240 62951 XOR\n2 1 62983 1272 97902 XOR\n2 1 60892 77143 99939 XOR\n2 1 99939 97891 110959 XOR\n2 1 536 77161 102026 XOR\n2 1 8386 8387 8385 AND\n2 1 8385 102801 102802 XOR\n2 1 889 102802 8389 XOR\n2 1 102833 102802 77162 XOR\n2 1 537 77162 102027 XOR\n2 1 60879 77162 99926 XOR\n2 1 99926 97878 95830 XOR\n2 1 63016 77162 62984 AND\n2 1 77162 1241 62952 XOR\n2 1 95830 93782 110792 AND\n2 1 89802 102802 8390 XOR\n2 1 62984 1273 97903 XOR\n2 1 93783 110792 20238 XOR\n",
"2 1 8389 8390 8388 AND\n2 1 99926 97878 110916 AND\n2 1 97879 110916 20418 XOR\n2 1 77157 77162 60893 XOR\n2 1 60893 77144 99940 XOR\n2 1 99940 97892 110960 XOR\n2 1 95830 93782 91789 XOR\n1 1 91789 89745 INV\n2 1 832 89745 102654 AND\n2 1 833 102654 8137 XOR\n2 1 89745 83601 102716 AND\n2 1 83602 102716 8228 XOR\n2 1 89745 83601 77297 XOR\n2 1 672 77297 102282 AND\n2 1 672 77297 135745 XOR\n2 1 77297 768 68911 XOR\n2 1 68911 68879 68847 AND\n2 1 68847 768 85617 XOR\n2 1 77297 77265 68783 XOR\n2 1 832 89745 77169 XOR\n2 1 77169 77137 62863 XOR\n2 1 544 77169 135617 XOR\n2 1 544 77169 102034 AND\n2 1 62927 77169 62895 AND\n2 1 62895 1216 97846 XOR\n2 1 673 102282 7597 XOR\n2 1 8388 102802 102803 XOR\n2 1 102834 102803 77163 XOR\n2 1 60880 77163 99927 XOR\n2 1 538 77163 102028 XOR\n2 1 99927 110916 20417 XOR\n2 1 99927 97879 110947 XOR\n2 1 110947 110916 95831 XOR\n2 1 95831 110792 20237 XOR\n2 1 20417 20418 20416 AND\n2 1 890 102803 8392 XOR\n2 1 95831 93783 110823 XOR\n2 1 77163 1242 62953 XOR\n2 1 110823 110792 91790 XOR\n2 1 91790 91789 20138 XOR\n2 1 20138 89745 20137 AND\n2 1 20137 91789 20140 XOR\n2 1 20237 20238 20236 AND\n2 1 20236 110792 110793 XOR\n2 1 93784 110793 20241 XOR\n2 1 20416 110916 110917 XOR\n2 1 97880 110917 20421 XOR\n2 1 89803 102803 8393 XOR\n2 1 8392 8393 8391 AND\n2 1 8391 102803 102804 XOR\n2 1 89804 102804 8396 XOR\n2 1 102835 102804 77164 XOR\n2 1 77164 77137 60900 XOR\n2 1 63018 77164 62986 AND\n2 1 60900 77151 99947 XOR\n2 1 77164 1243 62954 XOR\n2 1 62986 1275 97905 XOR\n2 1 891 102804 8395 XOR\n2 1 77159 77164 60895 XOR\n2 1 60895 77146 99942 XOR\n2 1 99942 97894 110962 XOR\n2 1 60881 77164 99928 XOR\n2 1 99928 110917 20420 XOR\n2 1 20420 20421 20419 AND\n2 1 20419 110917 110918 XOR\n2 1 99953 97905 110973 XOR\n2 1 97881 110918 20424 XOR\n2 1 539 77164 102029 XOR\n2 1 63017 77163 62985 AND\n2 1 62985 1274 97904 XOR\n2 1 99952 97904 110972 XOR\n2 1 99928 97880 110948 XOR\n2 1 110948 110917 95832 XOR\n2 1 95832 110793 20240 XOR\n2 1 20240 20241 20239 AND\n2 1 20239 110793 110794 XOR\n2 1 93785 110794 20244 XOR\n2 1 95832 93784 110824 XOR\n2 1 110824 110793 91791 XOR\n2 1 91791 20140 89747 XOR\n2 1 834 89747 102686 XOR\n2 1 89747 83603 102748 XOR\n2 1 89747 20140 20139 AND\n2 1 20139 20140 20209 XOR\n1 1 20209 20143 INV\n2 1 8395 8396 8394 AND\n2 1 8394 102804 102805 XOR\n2 1 89805 102805 8399 XOR\n2 1 102836 102805 77165 XOR\n2 1 63019 77165 62987 AND\n2 1 540 77165 102030 XOR\n2 1 60882 77165 99929 XOR\n2 1 77160 77165 60896 XOR\n2 1 60896 77147 99943 XOR\n2 1 99943 97895 110963 XOR\n2 1 62987 1276 97906 XOR\n2 1 77165 1244 62955 XOR\n2 1 77165 77138 60901 XOR\n2 1 60901 77152 99948 XOR\n2 1 99948 97900 110968 XOR\n2 1 99929 97881 110949 XOR\n2 1 110949 110918 95833 XOR\n2 1 95833 110794 20243 XOR\n2 1 95833 93785 110825 XOR\n2 1 20243 20244 20242 AND\n2 1 20242 110794 110795 XOR\n2 1 93786 110795 20247 XOR\n2 1 110825 110794 91792 XOR\n2 1 99929 110918 20423 XOR\n2 1 20423 20424 20422 AND\n2 1 20422 110918 110919 XOR\n2 1 97882 110919 20427 XOR\n2 1 892 102805 8398 XOR\n2 1 8398 8399 8397 AND\n2 1 8397 102805 102806 XOR\n2 1 89806 102806 8402 XOR\n2 1 102837 102806 77166 XOR\n2 1 60883 77166 99930 XOR\n2 1 63020 77166 62988 AND\n2 1 893 102806 8401 XOR\n2 1 62988 1277 97907 XOR\n2 1 77166 1245 62956 XOR\n2 1 8401 8402 8400 AND\n2 1 99930 110919 20426 XOR\n2 1 20426 20427 20425 AND\n2 1 77161 77166 60897 XOR\n2 1 60897 77148 99944 XOR\n2 1 99944 97896 110964 XOR\n",
"2 1 77166 77139 60902 XOR\n2 1 60902 77153 99949 XOR\n2 1 99949 97901 110969 XOR\n2 1 541 77166 102031 XOR\n2 1 99930 97882 110950 XOR\n2 1 99955 97907 110975 XOR\n2 1 110950 110919 95834 XOR\n2 1 95834 110795 20246 XOR\n2 1 20246 20247 20245 AND\n2 1 95834 93786 110826 XOR\n2 1 110826 110795 91793 XOR\n2 1 91792 20209 20142 XOR\n2 1 20142 20143 20141 AND\n2 1 20141 20209 20145 XOR\n2 1 91793 20145 89749 XOR\n2 1 836 89749 102688 XOR\n2 1 89749 83605 102750 XOR\n2 1 89749 20145 20144 AND\n2 1 20144 20145 20210 XOR\n1 1 20210 20148 INV\n2 1 8400 102806 102807 XOR\n2 1 89807 102807 8405 XOR\n2 1 20245 110795 110796 XOR\n2 1 20425 110919 110920 XOR\n2 1 97883 110920 20430 XOR\n1 1 91790 20222 INV\n2 1 20222 91789 89746 XOR\n2 1 89746 102716 8227 XOR\n2 1 833 89746 102685 XOR\n2 1 89746 102654 8138 XOR\n2 1 89746 83602 102747 XOR\n2 1 102685 102654 77170 XOR\n2 1 77170 102034 7238 XOR\n2 1 77170 77138 62864 XOR\n2 1 62928 77170 62896 AND\n2 1 62896 1217 97847 XOR\n2 1 8227 8228 8226 AND\n2 1 102747 102716 77298 XOR\n2 1 77298 769 68912 XOR\n2 1 673 77298 102313 XOR\n2 1 68912 68880 68848 AND\n2 1 68848 769 85618 XOR\n2 1 102313 102282 135746 XOR\n2 1 77298 77266 68784 XOR\n2 1 77298 102282 7598 XOR\n2 1 8137 8138 8136 AND\n2 1 8136 102654 102655 XOR\n2 1 89747 102655 8141 XOR\n2 1 834 102655 8140 XOR\n2 1 102686 102655 77171 XOR\n2 1 62929 77171 62897 AND\n2 1 77171 77139 62865 XOR\n2 1 62897 1218 97848 XOR\n2 1 7597 7598 7596 AND\n2 1 7596 102282 102283 XOR\n2 1 674 102283 7600 XOR\n2 1 545 77170 102065 XOR\n2 1 102065 102034 135618 XOR\n2 1 8226 102716 102717 XOR\n2 1 102748 102717 77299 XOR\n2 1 77299 102283 7601 XOR\n2 1 77299 770 68913 XOR\n2 1 68913 68881 68849 AND\n2 1 68849 770 85619 XOR\n2 1 77299 77267 68785 XOR\n2 1 674 77299 102314 XOR\n2 1 102314 102283 135747 XOR\n2 1 83603 102717 8231 XOR\n2 1 89747 102717 8230 XOR\n2 1 8230 8231 8229 AND\n2 1 8229 102717 102718 XOR\n2 1 83604 102718 8234 XOR\n2 1 7600 7601 7599 AND\n2 1 7599 102283 102284 XOR\n2 1 675 102284 7603 XOR\n2 1 102838 102807 77167 XOR\n2 1 60884 77167 99931 XOR\n2 1 99931 110920 20429 XOR\n2 1 77167 1246 62957 XOR\n2 1 63021 77167 62989 AND\n2 1 99931 97883 110951 XOR\n2 1 62989 1278 97908 XOR\n2 1 110951 110920 95835 XOR\n2 1 95835 110796 20249 XOR\n2 1 95835 93787 110827 XOR\n2 1 110827 110796 91794 XOR\n1 1 91794 20224 INV\n2 1 20224 20210 89750 XOR\n2 1 77167 77140 60903 XOR\n2 1 60903 77154 99950 XOR\n2 1 99950 97902 110970 XOR\n2 1 542 77167 102032 XOR\n2 1 91794 20210 20147 XOR\n2 1 20147 20148 20146 AND\n2 1 20146 20210 20211 XOR\n1 1 20211 20151 INV\n2 1 99956 97908 110976 XOR\n2 1 20429 20430 20428 AND\n2 1 20428 110920 110921 XOR\n2 1 97884 110921 20433 XOR\n2 1 837 89750 102689 XOR\n2 1 77162 77167 60898 XOR\n2 1 60898 77149 99945 XOR\n2 1 546 77171 102066 XOR\n2 1 8140 8141 8139 AND\n2 1 8139 102655 102656 XOR\n2 1 835 102656 8143 XOR\n2 1 99945 97897 110965 XOR\n2 1 545 102034 7237 XOR\n2 1 7237 7238 7236 AND\n2 1 7236 102034 102035 XOR\n2 1 546 102035 7240 XOR\n2 1 102066 102035 135619 XOR\n2 1 77171 102035 7241 XOR\n2 1 7240 7241 7239 AND\n2 1 7239 102035 102036 XOR\n2 1 547 102036 7243 XOR\n2 1 534 77159 102024 XOR\n1 1 91792 20223 INV\n2 1 20223 20209 89748 XOR\n2 1 835 89748 102687 XOR\n2 1 102687 102656 77172 XOR\n2 1 547 77172 102067 XOR\n2 1 77172 77140 62866 XOR\n2 1 102067 102036 135620 XOR\n2 1 62930 77172 62898 AND\n2 1 62898 1219 97849 XOR\n2 1 77172 102036 7244 XOR\n",
"2 1 7243 7244 7242 AND\n2 1 89748 83604 102749 XOR\n2 1 102749 102718 77300 XOR\n2 1 77300 771 68914 XOR\n2 1 77300 102284 7604 XOR\n2 1 7242 102036 102037 XOR\n2 1 548 102037 7246 XOR\n2 1 675 77300 102315 XOR\n2 1 102315 102284 135748 XOR\n2 1 77300 77268 68786 XOR\n2 1 89748 102718 8233 XOR\n2 1 8233 8234 8232 AND\n2 1 8232 102718 102719 XOR\n2 1 102750 102719 77301 XOR\n2 1 676 77301 102316 XOR\n2 1 77301 77269 68787 XOR\n2 1 83605 102719 8237 XOR\n2 1 89749 102719 8236 XOR\n2 1 8236 8237 8235 AND\n2 1 8235 102719 102720 XOR\n2 1 89750 102720 8239 XOR\n2 1 68914 68882 68850 AND\n2 1 7603 7604 7602 AND\n2 1 7602 102284 102285 XOR\n2 1 102316 102285 135749 XOR\n2 1 77301 102285 7607 XOR\n2 1 676 102285 7606 XOR\n2 1 7606 7607 7605 AND\n2 1 7605 102285 102286 XOR\n2 1 677 102286 7609 XOR\n2 1 77301 772 68915 XOR\n2 1 68915 68883 68851 AND\n2 1 68851 772 85621 XOR\n2 1 89748 102656 8144 XOR\n2 1 8143 8144 8142 AND\n2 1 8142 102656 102657 XOR\n2 1 102688 102657 77173 XOR\n2 1 62931 77173 62899 AND\n2 1 89749 102657 8147 XOR\n2 1 62899 1220 97850 XOR\n2 1 836 102657 8146 XOR\n2 1 77173 102037 7247 XOR\n2 1 7246 7247 7245 AND\n2 1 7245 102037 102038 XOR\n2 1 549 102038 7249 XOR\n2 1 77173 77141 62867 XOR\n2 1 548 77173 102068 XOR\n2 1 102068 102037 135621 XOR\n2 1 8146 8147 8145 AND\n2 1 8145 102657 102658 XOR\n2 1 837 102658 8149 XOR\n2 1 89750 102658 8150 XOR\n2 1 8149 8150 8148 AND\n2 1 8148 102658 102659 XOR\n2 1 838 102659 8152 XOR\n2 1 102689 102658 77174 XOR\n2 1 62932 77174 62900 AND\n2 1 549 77174 102069 XOR\n2 1 77169 77174 60873 XOR\n2 1 77174 102038 7250 XOR\n2 1 62900 1221 97851 XOR\n2 1 102069 102038 135622 XOR\n2 1 77174 77142 62868 XOR\n2 1 7249 7250 7248 AND\n2 1 7248 102038 102039 XOR\n2 1 550 102039 7252 XOR\n2 1 68850 771 85620 XOR\n2 1 93787 110796 20250 XOR\n2 1 20249 20250 20248 AND\n2 1 20248 110796 110797 XOR\n2 1 93788 110797 20253 XOR\n2 1 894 102807 8404 XOR\n2 1 8404 8405 8403 AND\n2 1 8403 102807 102808 XOR\n2 1 102839 102808 77168 XOR\n2 1 77168 77141 60904 XOR\n2 1 77163 77168 60899 XOR\n2 1 60904 77155 99951 XOR\n2 1 60885 77168 99932 XOR\n2 1 99932 110921 20432 XOR\n2 1 99932 97884 110952 XOR\n2 1 110952 110921 95836 XOR\n2 1 95836 93788 110828 XOR\n2 1 95836 110797 20252 XOR\n2 1 110828 110797 91795 XOR\n2 1 99951 97903 110971 XOR\n2 1 543 77168 102033 XOR\n2 1 77168 1247 62958 XOR\n2 1 91795 20211 20150 XOR\n1 1 91795 20225 INV\n2 1 60899 77150 99946 XOR\n2 1 20225 20211 89751 XOR\n2 1 89751 102659 8153 XOR\n2 1 838 89751 102690 XOR\n2 1 8152 8153 8151 AND\n2 1 8151 102659 102660 XOR\n2 1 839 102660 8155 XOR\n2 1 89751 83607 102752 XOR\n2 1 20150 20151 20149 AND\n2 1 20149 20211 20212 XOR\n1 1 20212 20154 INV\n2 1 102690 102659 77175 XOR\n2 1 77170 77175 60874 XOR\n2 1 62933 77175 62901 AND\n2 1 77175 102039 7253 XOR\n2 1 7252 7253 7251 AND\n2 1 7251 102039 102040 XOR\n2 1 550 77175 102070 XOR\n2 1 102070 102039 135623 XOR\n2 1 62901 1222 97852 XOR\n2 1 20252 20253 20251 AND\n2 1 20251 110797 110798 XOR\n2 1 93789 110798 20256 XOR\n2 1 551 102040 7255 XOR\n2 1 99946 97898 110966 XOR\n2 1 20432 20433 20431 AND\n2 1 20431 110921 110922 XOR\n2 1 110953 110922 95837 XOR\n2 1 95837 93789 110829 XOR\n2 1 95837 110798 20255 XOR\n2 1 20255 20256 20254 AND\n2 1 20254 110798 110799 XOR\n2 1 93790 110799 20259 XOR\n2 1 97885 110922 20436 XOR\n2 1 99933 110922 20435 XOR\n2 1 20435 20436 20434 AND\n2 1 20434 110922 110923 XOR\n2 1 99934 110923 20438 XOR\n",
"2 1 97886 110923 20439 XOR\n2 1 20438 20439 20437 AND\n2 1 20437 110923 110924 XOR\n2 1 110955 110924 95839 XOR\n2 1 97887 110924 20442 XOR\n2 1 95839 93791 110831 XOR\n2 1 99935 110924 20441 XOR\n2 1 20441 20442 20440 AND\n2 1 20440 110924 110925 XOR\n2 1 97888 110925 20445 XOR\n2 1 110954 110923 95838 XOR\n2 1 95838 110799 20258 XOR\n2 1 20258 20259 20257 AND\n2 1 20257 110799 110800 XOR\n2 1 95838 93790 110830 XOR\n2 1 95839 110800 20261 XOR\n2 1 93791 110800 20262 XOR\n2 1 20261 20262 20260 AND\n2 1 20260 110800 110801 XOR\n2 1 93792 110801 20265 XOR\n2 1 110831 110800 91798 XOR\n2 1 77175 77143 62869 XOR\n2 1 110830 110799 91797 XOR\n2 1 63022 77168 62990 AND\n2 1 62990 1279 97909 XOR\n2 1 99957 97909 110977 XOR\n2 1 110829 110798 91796 XOR\n1 1 91796 20226 INV\n2 1 20226 20212 89752 XOR\n2 1 839 89752 102691 XOR\n2 1 91796 20212 20153 XOR\n2 1 20153 20154 20152 AND\n2 1 20152 20212 20156 XOR\n2 1 102691 102660 77176 XOR\n2 1 62934 77176 62902 AND\n2 1 62902 1223 97853 XOR\n2 1 77171 77176 60875 XOR\n2 1 89752 102660 8156 XOR\n2 1 8155 8156 8154 AND\n2 1 8154 102660 102661 XOR\n2 1 840 102661 8158 XOR\n2 1 77176 102040 7256 XOR\n2 1 7255 7256 7254 AND\n2 1 7254 102040 102041 XOR\n2 1 552 102041 7258 XOR\n2 1 77176 77144 62870 XOR\n2 1 89752 83608 102753 XOR\n2 1 551 77176 102071 XOR\n2 1 102071 102040 135624 XOR\n2 1 91797 20156 89753 XOR\n2 1 89753 20156 20155 AND\n2 1 20155 20156 20158 XOR\n2 1 91798 20158 89754 XOR\n2 1 89754 20158 20157 AND\n2 1 841 89754 102693 XOR\n2 1 89754 83610 102755 XOR\n2 1 89753 102661 8159 XOR\n2 1 840 89753 102692 XOR\n2 1 89753 83609 102754 XOR\n2 1 102692 102661 77177 XOR\n2 1 552 77177 102072 XOR\n2 1 77172 77177 60876 XOR\n2 1 77177 77145 62871 XOR\n2 1 8158 8159 8157 AND\n2 1 8157 102661 102662 XOR\n2 1 841 102662 8161 XOR\n2 1 89754 102662 8162 XOR\n2 1 102693 102662 77178 XOR\n2 1 77173 77178 60877 XOR\n2 1 77178 77146 62872 XOR\n2 1 553 77178 102073 XOR\n2 1 62936 77178 62904 AND\n2 1 62904 1225 97855 XOR\n2 1 77177 102041 7259 XOR\n2 1 7258 7259 7257 AND\n2 1 102072 102041 135625 XOR\n2 1 8161 8162 8160 AND\n2 1 8160 102662 102663 XOR\n2 1 842 102663 8164 XOR\n2 1 62935 77177 62903 AND\n2 1 62903 1224 97854 XOR\n2 1 20157 20158 20213 XOR\n1 1 20213 20161 INV\n2 1 7257 102041 102042 XOR\n2 1 77178 102042 7262 XOR\n2 1 102073 102042 135626 XOR\n2 1 553 102042 7261 XOR\n2 1 7261 7262 7260 AND\n2 1 7260 102042 102043 XOR\n2 1 554 102043 7264 XOR\n2 1 885 89798 102829 XOR\n2 1 102829 102798 77158 XOR\n2 1 77158 77163 60894 XOR\n2 1 60907 77158 99954 XOR\n2 1 533 77158 102023 XOR\n2 1 63012 77158 62980 AND\n2 1 77153 77158 60889 XOR\n2 1 60889 77140 99936 XOR\n2 1 62980 1269 97899 XOR\n2 1 99947 97899 110967 XOR\n2 1 77158 1237 62948 XOR\n2 1 60894 77145 99941 XOR\n2 1 99941 97893 110961 XOR\n2 1 99936 97888 110956 XOR\n2 1 99954 97906 110974 XOR\n2 1 99936 110925 20444 XOR\n2 1 20444 20445 20443 AND\n2 1 20443 110925 110926 XOR\n2 1 110957 110926 95841 XOR\n2 1 95841 93793 110833 XOR\n2 1 110956 110925 95840 XOR\n2 1 95840 110801 20264 XOR\n2 1 20264 20265 20263 AND\n2 1 20263 110801 110802 XOR\n2 1 110833 110802 91800 XOR\n2 1 95841 110802 20267 XOR\n2 1 93793 110802 20268 XOR\n2 1 20267 20268 20266 AND\n2 1 20266 110802 110803 XOR\n2 1 93794 110803 20271 XOR\n2 1 95840 93792 110832 XOR\n2 1 110832 110801 91799 XOR\n1 1 91800 20228 INV\n2 1 91799 20213 20160 XOR\n2 1 20160 20161 20159 AND\n2 1 20159 20213 20214 XOR\n1 1 20214 20164 INV\n2 1 20228 20214 89756 XOR\n",
"2 1 89756 83612 102757 XOR\n2 1 91800 20214 20163 XOR\n2 1 20163 20164 20162 AND\n2 1 20162 20214 20166 XOR\n1 1 91799 20227 INV\n2 1 20227 20213 89755 XOR\n2 1 89755 83611 102756 XOR\n2 1 842 89755 102694 XOR\n2 1 102694 102663 77179 XOR\n2 1 554 77179 102074 XOR\n2 1 102074 102043 135627 XOR\n2 1 77174 77179 60878 XOR\n2 1 77179 77147 62873 XOR\n2 1 89755 102663 8165 XOR\n2 1 8164 8165 8163 AND\n2 1 8163 102663 102664 XOR\n2 1 89756 102664 8168 XOR\n2 1 843 102664 8167 XOR\n2 1 8167 8168 8166 AND\n2 1 8166 102664 102665 XOR\n2 1 844 102665 8170 XOR\n2 1 843 89756 102695 XOR\n2 1 102695 102664 77180 XOR\n2 1 77180 77148 62874 XOR\n2 1 555 77180 102075 XOR\n2 1 62938 77180 62906 AND\n2 1 62906 1227 97857 XOR\n2 1 77179 102043 7265 XOR\n2 1 7264 7265 7263 AND\n2 1 99937 110926 20447 XOR\n2 1 7263 102043 102044 XOR\n2 1 102075 102044 135628 XOR\n2 1 555 102044 7267 XOR\n2 1 77180 102044 7268 XOR\n2 1 7267 7268 7266 AND\n2 1 7266 102044 102045 XOR\n2 1 556 102045 7270 XOR\n2 1 77175 77180 60847 XOR\n2 1 97889 110926 20448 XOR\n2 1 20447 20448 20446 AND\n2 1 20446 110926 110927 XOR\n2 1 99938 110927 20450 XOR\n2 1 110958 110927 95842 XOR\n2 1 95842 93794 110834 XOR\n2 1 95842 110803 20270 XOR\n2 1 20270 20271 20269 AND\n2 1 20269 110803 110804 XOR\n2 1 110834 110803 91801 XOR\n2 1 91801 20166 89757 XOR\n2 1 89757 20166 20165 AND\n2 1 20165 20166 20215 XOR\n1 1 20215 20169 INV\n2 1 844 89757 102696 XOR\n2 1 102696 102665 77181 XOR\n2 1 77181 77149 62875 XOR\n2 1 62939 77181 62907 AND\n2 1 62907 1228 97858 XOR\n2 1 77176 77181 60848 XOR\n2 1 89757 83613 102758 XOR\n2 1 89757 102665 8171 XOR\n2 1 8170 8171 8169 AND\n2 1 8169 102665 102666 XOR\n2 1 845 102666 8173 XOR\n2 1 77181 102045 7271 XOR\n2 1 7270 7271 7269 AND\n2 1 7269 102045 102046 XOR\n2 1 557 102046 7273 XOR\n2 1 556 77181 102076 XOR\n2 1 102076 102045 135629 XOR\n2 1 93795 110804 20274 XOR\n2 1 97890 110927 20451 XOR\n2 1 20450 20451 20449 AND\n2 1 20449 110927 110928 XOR\n2 1 99939 110928 20453 XOR\n2 1 97891 110928 20454 XOR\n2 1 20453 20454 20452 AND\n2 1 20452 110928 110929 XOR\n2 1 97892 110929 20457 XOR\n2 1 110960 110929 95844 XOR\n2 1 110959 110928 95843 XOR\n2 1 95843 110804 20273 XOR\n2 1 20273 20274 20272 AND\n2 1 20272 110804 110805 XOR\n2 1 95843 93795 110835 XOR\n2 1 95844 110805 20276 XOR\n2 1 110835 110804 91802 XOR\n1 1 91802 20229 INV\n2 1 20229 20215 89758 XOR\n2 1 89758 83614 102759 XOR\n2 1 89758 102666 8174 XOR\n2 1 845 89758 102697 XOR\n2 1 8173 8174 8172 AND\n2 1 8172 102666 102667 XOR\n2 1 846 102667 8176 XOR\n2 1 91802 20215 20168 XOR\n2 1 20168 20169 20167 AND\n2 1 20167 20215 20216 XOR\n1 1 20216 20172 INV\n2 1 102697 102666 77182 XOR\n2 1 77182 77150 62876 XOR\n2 1 62940 77182 62908 AND\n2 1 62908 1229 97859 XOR\n2 1 77177 77182 60849 XOR\n2 1 557 77182 102077 XOR\n2 1 102077 102046 135630 XOR\n2 1 93796 110805 20277 XOR\n2 1 20276 20277 20275 AND\n2 1 20275 110805 110806 XOR\n2 1 93797 110806 20280 XOR\n2 1 77182 102046 7274 XOR\n2 1 7273 7274 7272 AND\n2 1 7272 102046 102047 XOR\n2 1 99940 110929 20456 XOR\n2 1 20456 20457 20455 AND\n2 1 20455 110929 110930 XOR\n2 1 97893 110930 20460 XOR\n2 1 110961 110930 95845 XOR\n2 1 95845 110806 20279 XOR\n2 1 20279 20280 20278 AND\n2 1 20278 110806 110807 XOR\n2 1 95845 93797 110837 XOR\n2 1 110837 110806 91804 XOR\n2 1 99941 110930 20459 XOR\n2 1 20459 20460 20458 AND\n2 1 20458 110930 110931 XOR\n2 1 110962 110931 95846 XOR\n2 1 95846 93798 110838 XOR\n2 1 110838 110807 91805 XOR\n",
"2 1 97894 110931 20463 XOR\n2 1 95846 110807 20282 XOR\n2 1 99942 110931 20462 XOR\n2 1 20462 20463 20461 AND\n2 1 93798 110807 20283 XOR\n2 1 20282 20283 20281 AND\n2 1 20281 110807 110808 XOR\n2 1 93799 110808 20286 XOR\n2 1 20461 110931 110932 XOR\n2 1 97895 110932 20466 XOR\n2 1 110963 110932 95847 XOR\n2 1 95847 110808 20285 XOR\n2 1 20285 20286 20284 AND\n2 1 20284 110808 110809 XOR\n2 1 93800 110809 20289 XOR\n2 1 95847 93799 110839 XOR\n2 1 110839 110808 91806 XOR\n2 1 99943 110932 20465 XOR\n2 1 20465 20466 20464 AND\n2 1 20464 110932 110933 XOR\n2 1 110964 110933 95848 XOR\n2 1 97896 110933 20469 XOR\n2 1 99944 110933 20468 XOR\n2 1 95848 110809 20288 XOR\n2 1 20288 20289 20287 AND\n2 1 20287 110809 110810 XOR\n2 1 93801 110810 20292 XOR\n2 1 95848 93800 110840 XOR\n2 1 20468 20469 20467 AND\n2 1 20467 110933 110934 XOR\n2 1 99945 110934 20471 XOR\n2 1 110965 110934 95849 XOR\n2 1 97897 110934 20472 XOR\n2 1 95849 93801 110841 XOR\n2 1 110841 110810 91808 XOR\n2 1 95849 110810 20291 XOR\n2 1 20291 20292 20290 AND\n2 1 20290 110810 110811 XOR\n2 1 20471 20472 20470 AND\n2 1 20470 110934 110935 XOR\n2 1 110966 110935 95850 XOR\n2 1 95850 93802 110842 XOR\n2 1 99946 110935 20474 XOR\n2 1 110842 110811 91809 XOR\n1 1 91809 20231 INV\n2 1 95850 110811 20294 XOR\n2 1 97898 110935 20475 XOR\n2 1 20474 20475 20473 AND\n2 1 20473 110935 110936 XOR\n2 1 110967 110936 95851 XOR\n2 1 97899 110936 20478 XOR\n2 1 99947 110936 20477 XOR\n2 1 20477 20478 20476 AND\n2 1 20476 110936 110937 XOR\n2 1 97900 110937 20481 XOR\n2 1 110968 110937 95852 XOR\n2 1 95852 93804 110844 XOR\n2 1 95851 93803 110843 XOR\n2 1 93802 110811 20295 XOR\n2 1 20294 20295 20293 AND\n2 1 20293 110811 110812 XOR\n2 1 110843 110812 91810 XOR\n2 1 95851 110812 20297 XOR\n2 1 93803 110812 20298 XOR\n2 1 20297 20298 20296 AND\n2 1 20296 110812 110813 XOR\n2 1 93804 110813 20301 XOR\n2 1 95852 110813 20300 XOR\n2 1 110844 110813 91811 XOR\n2 1 20300 20301 20299 AND\n2 1 20299 110813 110814 XOR\n2 1 93805 110814 20304 XOR\n2 1 110840 110809 91807 XOR\n1 1 91811 20232 INV\n2 1 558 102047 7276 XOR\n2 1 99948 110937 20480 XOR\n2 1 20480 20481 20479 AND\n2 1 20479 110937 110938 XOR\n2 1 110969 110938 95853 XOR\n2 1 95853 110814 20303 XOR\n2 1 20303 20304 20302 AND\n2 1 20302 110814 110815 XOR\n2 1 97901 110938 20484 XOR\n2 1 99949 110938 20483 XOR\n2 1 95853 93805 110845 XOR\n2 1 110845 110814 91812 XOR\n2 1 20483 20484 20482 AND\n2 1 20482 110938 110939 XOR\n2 1 110970 110939 95854 XOR\n2 1 95854 110815 20306 XOR\n2 1 95854 93806 110846 XOR\n2 1 99950 110939 20486 XOR\n2 1 97902 110939 20487 XOR\n2 1 110846 110815 91813 XOR\n2 1 20486 20487 20485 AND\n2 1 20485 110939 110940 XOR\n2 1 97903 110940 20490 XOR\n2 1 110971 110940 95855 XOR\n2 1 95855 93807 110847 XOR\n2 1 99951 110940 20489 XOR\n2 1 20489 20490 20488 AND\n2 1 20488 110940 110941 XOR\n2 1 110972 110941 95856 XOR\n2 1 95856 93808 110848 XOR\n2 1 97904 110941 20493 XOR\n2 1 99952 110941 20492 XOR\n2 1 20492 20493 20491 AND\n2 1 20491 110941 110942 XOR\n2 1 110973 110942 95857 XOR\n2 1 95857 93809 110849 XOR\n2 1 99953 110942 20495 XOR\n2 1 97905 110942 20496 XOR\n2 1 20495 20496 20494 AND\n2 1 20494 110942 110943 XOR\n2 1 97906 110943 20499 XOR\n2 1 99954 110943 20498 XOR\n2 1 20498 20499 20497 AND\n2 1 20497 110943 110944 XOR\n2 1 99955 110944 20501 XOR\n2 1 110975 110944 95859 XOR\n2 1 110974 110943 95858 XOR\n2 1 95859 93811 110851 XOR\n2 1 97907 110944 20502 XOR\n2 1 95858 93810 110850 XOR\n2 1 20501 20502 20500 AND\n2 1 20500 110944 110945 XOR\n2 1 99956 110945 20504 XOR\n2 1 110976 110945 95860 XOR\n",
"2 1 95860 93812 110852 XOR\n2 1 97908 110945 20505 XOR\n2 1 20504 20505 20503 AND\n2 1 20503 110945 110946 XOR\n2 1 110977 110946 95861 XOR\n2 1 95861 93813 110853 XOR\n2 1 93806 110815 20307 XOR\n2 1 20306 20307 20305 AND\n2 1 20305 110815 110816 XOR\n2 1 93807 110816 20310 XOR\n2 1 110847 110816 91814 XOR\n2 1 95855 110816 20309 XOR\n2 1 20309 20310 20308 AND\n2 1 20308 110816 110817 XOR\n2 1 93808 110817 20313 XOR\n2 1 110848 110817 91815 XOR\n1 1 91815 20233 INV\n2 1 95856 110817 20312 XOR\n2 1 20312 20313 20311 AND\n2 1 20311 110817 110818 XOR\n2 1 93809 110818 20316 XOR\n2 1 110849 110818 91816 XOR\n2 1 95857 110818 20315 XOR\n2 1 20315 20316 20314 AND\n2 1 20314 110818 110819 XOR\n2 1 95858 110819 20318 XOR\n2 1 110850 110819 91817 XOR\n2 1 93810 110819 20319 XOR\n2 1 20318 20319 20317 AND\n2 1 20317 110819 110820 XOR\n2 1 93811 110820 20322 XOR\n2 1 110851 110820 91818 XOR\n2 1 95859 110820 20321 XOR\n2 1 20321 20322 20320 AND\n2 1 20320 110820 110821 XOR\n2 1 95860 110821 20324 XOR\n2 1 110852 110821 91819 XOR\n2 1 93812 110821 20325 XOR\n2 1 20324 20325 20323 AND\n2 1 20323 110821 110822 XOR\n2 1 110853 110822 91820 XOR\n1 1 91820 20235 INV\n1 1 91818 20234 INV\n2 1 62937 77179 62905 AND\n2 1 62905 1226 97856 XOR\n2 1 20120 20121 20119 AND\n2 1 20119 110754 110755 XOR\n2 1 110786 110755 83627 XOR\n2 1 87723 110755 20123 XOR\n2 1 85675 110755 20124 XOR\n2 1 20123 20124 20122 AND\n2 1 20122 110755 110756 XOR\n2 1 87724 110756 20126 XOR\n2 1 85676 110756 20127 XOR\n2 1 20126 20127 20125 AND\n2 1 20125 110756 110757 XOR\n2 1 110787 110756 83628 XOR\n2 1 87725 110757 20129 XOR\n2 1 110788 110757 83629 XOR\n2 1 85677 110757 20130 XOR\n2 1 20129 20130 20128 AND\n2 1 20128 110757 110758 XOR\n2 1 110789 110758 83630 XOR\n2 1 87726 110758 20132 XOR\n2 1 85678 110758 20133 XOR\n2 1 20132 20133 20131 AND\n2 1 20131 110758 110759 XOR\n2 1 110790 110759 83631 XOR\n2 1 87727 110759 20135 XOR\n2 1 85679 110759 20136 XOR\n2 1 20135 20136 20134 AND\n2 1 20134 110759 110760 XOR\n2 1 110791 110760 83632 XOR\n2 1 77145 101979 7169 XOR\n2 1 7168 7169 7167 AND\n2 1 7167 101979 101980 XOR\n2 1 102011 101980 135594 XOR\n2 1 77146 101980 7172 XOR\n2 1 521 101980 7171 XOR\n2 1 7171 7172 7170 AND\n2 1 7170 101980 101981 XOR\n2 1 522 101981 7174 XOR\n2 1 77147 101981 7175 XOR\n2 1 102012 101981 135595 XOR\n2 1 7174 7175 7173 AND\n2 1 7173 101981 101982 XOR\n2 1 523 101982 7177 XOR\n2 1 77148 101982 7178 XOR\n2 1 102013 101982 135596 XOR\n2 1 7177 7178 7176 AND\n2 1 7176 101982 101983 XOR\n2 1 77149 101983 7181 XOR\n2 1 102014 101983 135597 XOR\n2 1 524 101983 7180 XOR\n2 1 7180 7181 7179 AND\n2 1 7179 101983 101984 XOR\n2 1 102015 101984 135598 XOR\n2 1 525 101984 7183 XOR\n2 1 77150 101984 7184 XOR\n2 1 7183 7184 7182 AND\n2 1 7182 101984 101985 XOR\n2 1 102016 101985 135599 XOR\n2 1 77151 101985 7187 XOR\n2 1 526 101985 7186 XOR\n2 1 7186 7187 7185 AND\n2 1 7185 101985 101986 XOR\n2 1 102017 101986 135600 XOR\n2 1 77152 101986 7190 XOR\n2 1 527 101986 7189 XOR\n2 1 7189 7190 7188 AND\n2 1 7188 101986 101987 XOR\n2 1 528 101987 7192 XOR\n2 1 102018 101987 135601 XOR\n2 1 77153 101987 7193 XOR\n2 1 7192 7193 7191 AND\n2 1 7191 101987 101988 XOR\n2 1 529 101988 7195 XOR\n2 1 102019 101988 135602 XOR\n2 1 77154 101988 7196 XOR\n2 1 7195 7196 7194 AND\n2 1 7194 101988 101989 XOR\n2 1 530 101989 7198 XOR\n2 1 77155 101989 7199 XOR\n2 1 7198 7199 7197 AND\n2 1 102020 101989 135603 XOR\n2 1 7197 101989 101990 XOR\n2 1 77156 101990 7202 XOR\n2 1 102021 101990 135604 XOR\n",
"2 1 531 101990 7201 XOR\n2 1 7201 7202 7200 AND\n2 1 7200 101990 101991 XOR\n2 1 102022 101991 135605 XOR\n2 1 77157 101991 7205 XOR\n2 1 532 101991 7204 XOR\n2 1 7204 7205 7203 AND\n2 1 7203 101991 101992 XOR\n2 1 102023 101992 135606 XOR\n2 1 77158 101992 7208 XOR\n2 1 533 101992 7207 XOR\n2 1 7207 7208 7206 AND\n2 1 7206 101992 101993 XOR\n2 1 102024 101993 135607 XOR\n2 1 77159 101993 7211 XOR\n2 1 534 101993 7210 XOR\n2 1 7210 7211 7209 AND\n2 1 7209 101993 101994 XOR\n2 1 535 101994 7213 XOR\n2 1 102025 101994 135608 XOR\n2 1 77160 101994 7214 XOR\n2 1 7213 7214 7212 AND\n2 1 7212 101994 101995 XOR\n2 1 102026 101995 135609 XOR\n2 1 536 101995 7216 XOR\n2 1 77161 101995 7217 XOR\n2 1 7216 7217 7215 AND\n2 1 7215 101995 101996 XOR\n2 1 77162 101996 7220 XOR\n2 1 537 101996 7219 XOR\n2 1 7219 7220 7218 AND\n2 1 7218 101996 101997 XOR\n2 1 102027 101996 135610 XOR\n2 1 77163 101997 7223 XOR\n2 1 102028 101997 135611 XOR\n2 1 538 101997 7222 XOR\n2 1 7222 7223 7221 AND\n2 1 7221 101997 101998 XOR\n2 1 77164 101998 7226 XOR\n2 1 102029 101998 135612 XOR\n2 1 539 101998 7225 XOR\n2 1 7225 7226 7224 AND\n2 1 7224 101998 101999 XOR\n2 1 540 101999 7228 XOR\n2 1 77165 101999 7229 XOR\n2 1 7228 7229 7227 AND\n2 1 7227 101999 102000 XOR\n2 1 102031 102000 135614 XOR\n2 1 541 102000 7231 XOR\n2 1 77166 102000 7232 XOR\n2 1 7231 7232 7230 AND\n2 1 7230 102000 102001 XOR\n2 1 542 102001 7234 XOR\n2 1 102032 102001 135615 XOR\n2 1 77167 102001 7235 XOR\n2 1 7234 7235 7233 AND\n2 1 7233 102001 102002 XOR\n2 1 102033 102002 135616 XOR\n2 1 102030 101999 135613 XOR\n2 1 95844 93796 110836 XOR\n2 1 110836 110805 91803 XOR\n2 1 91803 20216 20171 XOR\n2 1 20171 20172 20170 AND\n2 1 20170 20216 20174 XOR\n2 1 91804 20174 89760 XOR\n2 1 89760 20174 20173 AND\n2 1 20173 20174 20176 XOR\n2 1 91805 20176 89761 XOR\n2 1 89761 20176 20175 AND\n2 1 20175 20176 20178 XOR\n2 1 91806 20178 89762 XOR\n2 1 89762 20178 20177 AND\n2 1 20177 20178 20180 XOR\n2 1 91807 20180 89763 XOR\n2 1 89763 83619 102764 XOR\n2 1 850 89763 102702 XOR\n2 1 89761 83617 102762 XOR\n2 1 849 89762 102701 XOR\n2 1 89760 83616 102761 XOR\n2 1 848 89761 102700 XOR\n2 1 89763 20180 20179 AND\n2 1 20179 20180 20182 XOR\n2 1 91808 20182 89764 XOR\n2 1 89764 20182 20181 AND\n2 1 20181 20182 20217 XOR\n2 1 91809 20217 20184 XOR\n2 1 20231 20217 89765 XOR\n2 1 89765 83621 102766 XOR\n2 1 852 89765 102704 XOR\n1 1 20217 20185 INV\n2 1 89764 83620 102765 XOR\n2 1 851 89764 102703 XOR\n1 1 91803 20230 INV\n2 1 20230 20216 89759 XOR\n2 1 89759 102667 8177 XOR\n2 1 8176 8177 8175 AND\n2 1 8175 102667 102668 XOR\n2 1 89760 102668 8180 XOR\n2 1 89759 83615 102760 XOR\n2 1 847 102668 8179 XOR\n2 1 8179 8180 8178 AND\n2 1 8178 102668 102669 XOR\n2 1 102700 102669 77185 XOR\n2 1 62943 77185 62911 AND\n2 1 560 77185 102080 XOR\n2 1 62911 1232 97862 XOR\n2 1 77185 77153 62879 XOR\n2 1 77180 77185 60852 XOR\n2 1 848 102669 8182 XOR\n2 1 89761 102669 8183 XOR\n2 1 8182 8183 8181 AND\n2 1 8181 102669 102670 XOR\n2 1 102701 102670 77186 XOR\n2 1 561 77186 102081 XOR\n2 1 89762 102670 8186 XOR\n2 1 62944 77186 62912 AND\n2 1 77181 77186 60853 XOR\n2 1 62912 1233 97863 XOR\n2 1 849 102670 8185 XOR\n2 1 8185 8186 8184 AND\n2 1 8184 102670 102671 XOR\n2 1 850 102671 8188 XOR\n2 1 102702 102671 77187 XOR\n2 1 77187 77155 62881 XOR\n2 1 562 77187 102082 XOR\n2 1 77182 77187 60854 XOR\n2 1 89763 102671 8189 XOR\n2 1 8188 8189 8187 AND\n",
"2 1 8187 102671 102672 XOR\n2 1 851 102672 8191 XOR\n2 1 89764 102672 8192 XOR\n2 1 102703 102672 77188 XOR\n2 1 62946 77188 62914 AND\n2 1 62914 1235 97865 XOR\n2 1 60873 77188 99920 XOR\n2 1 8191 8192 8190 AND\n2 1 8190 102672 102673 XOR\n2 1 852 102673 8194 XOR\n2 1 89765 102673 8195 XOR\n2 1 8194 8195 8193 AND\n2 1 8193 102673 102674 XOR\n2 1 853 102674 8197 XOR\n2 1 102704 102673 77189 XOR\n2 1 60874 77189 99921 XOR\n2 1 62947 77189 62915 AND\n2 1 564 77189 102084 XOR\n2 1 77189 77157 62883 XOR\n2 1 563 77188 102083 XOR\n2 1 62915 1236 97866 XOR\n2 1 60854 77169 99901 XOR\n2 1 99901 97853 110705 XOR\n2 1 846 89759 102698 XOR\n2 1 102698 102667 77183 XOR\n2 1 62941 77183 62909 AND\n2 1 77183 77151 62877 XOR\n2 1 77178 77183 60850 XOR\n2 1 558 77183 102078 XOR\n2 1 102078 102047 135631 XOR\n2 1 77183 102047 7277 XOR\n2 1 7276 7277 7275 AND\n2 1 7275 102047 102048 XOR\n2 1 559 102048 7279 XOR\n2 1 62945 77187 62913 AND\n2 1 62913 1234 97864 XOR\n2 1 77183 77188 60855 XOR\n2 1 60855 77170 99902 XOR\n2 1 99902 97854 110706 XOR\n2 1 62909 1230 97860 XOR\n2 1 847 89760 102699 XOR\n2 1 102699 102668 77184 XOR\n2 1 77179 77184 60851 XOR\n2 1 77184 102048 7280 XOR\n2 1 62942 77184 62910 AND\n2 1 7279 7280 7278 AND\n2 1 7278 102048 102049 XOR\n2 1 560 102049 7282 XOR\n2 1 77185 102049 7283 XOR\n2 1 77184 77152 62878 XOR\n2 1 102080 102049 135633 XOR\n2 1 62910 1231 97861 XOR\n2 1 7282 7283 7281 AND\n2 1 7281 102049 102050 XOR\n2 1 77186 102050 7286 XOR\n2 1 561 102050 7285 XOR\n2 1 102081 102050 135634 XOR\n2 1 7285 7286 7284 AND\n2 1 7284 102050 102051 XOR\n2 1 77187 102051 7289 XOR\n2 1 562 102051 7288 XOR\n2 1 7288 7289 7287 AND\n2 1 7287 102051 102052 XOR\n2 1 77188 102052 7292 XOR\n2 1 102083 102052 135636 XOR\n2 1 563 102052 7291 XOR\n2 1 7291 7292 7290 AND\n2 1 7290 102052 102053 XOR\n2 1 564 102053 7294 XOR\n2 1 77189 102053 7295 XOR\n2 1 7294 7295 7293 AND\n2 1 7293 102053 102054 XOR\n2 1 102084 102053 135637 XOR\n2 1 559 77184 102079 XOR\n2 1 102079 102048 135632 XOR\n2 1 102082 102051 135635 XOR\n2 1 565 102054 7297 XOR\n2 1 77184 77189 60856 XOR\n2 1 60856 77171 99903 XOR\n2 1 99903 97855 110707 XOR\n2 1 89762 83618 102763 XOR\n2 1 77188 77156 62882 XOR\n2 1 77186 77154 62880 XOR\n2 1 20184 20185 20183 AND\n2 1 20183 20217 20187 XOR\n2 1 91810 20187 89766 XOR\n2 1 89766 20187 20186 AND\n2 1 20186 20187 20218 XOR\n2 1 20232 20218 89767 XOR\n2 1 89767 83623 102768 XOR\n2 1 854 89767 102706 XOR\n2 1 91811 20218 20189 XOR\n2 1 89766 83622 102767 XOR\n2 1 853 89766 102705 XOR\n2 1 102705 102674 77190 XOR\n2 1 565 77190 102085 XOR\n2 1 102085 102054 135638 XOR\n2 1 62948 77190 62916 AND\n2 1 77190 102054 7298 XOR\n2 1 7297 7298 7296 AND\n2 1 7296 102054 102055 XOR\n2 1 566 102055 7300 XOR\n2 1 60875 77190 99922 XOR\n2 1 62916 1237 97867 XOR\n1 1 20218 20190 INV\n2 1 20189 20190 20188 AND\n2 1 20188 20218 20192 XOR\n2 1 91812 20192 89768 XOR\n2 1 89768 20192 20191 AND\n2 1 20191 20192 20194 XOR\n2 1 91813 20194 89769 XOR\n2 1 89769 83625 102770 XOR\n2 1 89769 20194 20193 AND\n2 1 20193 20194 20196 XOR\n2 1 91814 20196 89770 XOR\n2 1 89770 83626 102771 XOR\n2 1 89770 20196 20195 AND\n2 1 20195 20196 20219 XOR\n2 1 20233 20219 89771 XOR\n2 1 89771 83627 102772 XOR\n1 1 20219 20199 INV\n2 1 91815 20219 20198 XOR\n2 1 20198 20199 20197 AND\n2 1 20197 20219 20201 XOR\n2 1 91816 20201 89772 XOR\n2 1 89772 83628 102773 XOR\n2 1 89772 20201 20200 AND\n2 1 20200 20201 20203 XOR\n",
"2 1 91817 20203 89773 XOR\n2 1 89773 83629 102774 XOR\n2 1 860 89773 102712 XOR\n2 1 855 89768 102707 XOR\n2 1 89768 83624 102769 XOR\n2 1 89773 20203 20202 AND\n2 1 20202 20203 20220 XOR\n1 1 20220 20206 INV\n2 1 91818 20220 20205 XOR\n2 1 20205 20206 20204 AND\n2 1 20204 20220 20208 XOR\n2 1 91819 20208 89775 XOR\n2 1 89775 20208 20207 AND\n2 1 20207 20208 20221 XOR\n2 1 20235 20221 89776 XOR\n2 1 863 89776 102715 XOR\n2 1 20234 20220 89774 XOR\n2 1 89774 83630 102775 XOR\n2 1 861 89774 102713 XOR\n2 1 862 89775 102714 XOR\n2 1 856 89769 102708 XOR\n2 1 857 89770 102709 XOR\n2 1 89775 83631 102776 XOR\n2 1 859 89772 102711 XOR\n2 1 89776 83632 102777 XOR\n2 1 858 89771 102710 XOR\n2 1 77185 77190 60857 XOR\n2 1 60857 77172 99904 XOR\n2 1 99904 97856 110708 XOR\n2 1 89766 102674 8198 XOR\n2 1 8197 8198 8196 AND\n2 1 8196 102674 102675 XOR\n2 1 854 102675 8200 XOR\n2 1 89767 102675 8201 XOR\n2 1 8200 8201 8199 AND\n2 1 8199 102675 102676 XOR\n2 1 855 102676 8203 XOR\n2 1 89768 102676 8204 XOR\n2 1 8203 8204 8202 AND\n2 1 8202 102676 102677 XOR\n2 1 102707 102676 77192 XOR\n2 1 77192 77160 62886 XOR\n2 1 77187 77192 60859 XOR\n2 1 60877 77192 99924 XOR\n2 1 102708 102677 77193 XOR\n2 1 856 102677 8206 XOR\n2 1 62951 77193 62919 AND\n2 1 62919 1240 97870 XOR\n2 1 60878 77193 99925 XOR\n2 1 89769 102677 8207 XOR\n2 1 8206 8207 8205 AND\n2 1 568 77193 102088 XOR\n2 1 567 77192 102087 XOR\n2 1 60859 77174 99906 XOR\n2 1 99906 97858 110710 XOR\n2 1 62950 77192 62918 AND\n2 1 62918 1239 97869 XOR\n2 1 102706 102675 77191 XOR\n2 1 62949 77191 62917 AND\n2 1 77191 77159 62885 XOR\n2 1 77191 102055 7301 XOR\n2 1 62917 1238 97868 XOR\n2 1 60876 77191 99923 XOR\n2 1 566 77191 102086 XOR\n2 1 102086 102055 135639 XOR\n2 1 77188 77193 60860 XOR\n2 1 60860 77175 99907 XOR\n2 1 99907 97859 110711 XOR\n2 1 77186 77191 60858 XOR\n2 1 60858 77173 99905 XOR\n2 1 99905 97857 110709 XOR\n2 1 8205 102677 102678 XOR\n2 1 102709 102678 77194 XOR\n2 1 62952 77194 62920 AND\n2 1 62920 1241 97871 XOR\n2 1 569 77194 102089 XOR\n2 1 857 102678 8209 XOR\n2 1 77194 77162 62888 XOR\n2 1 77189 77194 60861 XOR\n2 1 60861 77176 99908 XOR\n2 1 99908 97860 110712 XOR\n2 1 60847 77194 99894 XOR\n2 1 99894 97846 110668 AND\n2 1 97847 110668 19959 XOR\n2 1 99894 97846 95798 XOR\n2 1 95798 93750 110544 AND\n2 1 95798 93750 91757 XOR\n2 1 93751 110544 19779 XOR\n1 1 91757 89713 INV\n2 1 800 89713 102530 AND\n2 1 801 102530 7957 XOR\n2 1 800 89713 77201 XOR\n2 1 576 77201 102096 AND\n2 1 62863 77201 62831 AND\n2 1 62831 77137 97814 XOR\n2 1 577 102096 7327 XOR\n2 1 89770 102678 8210 XOR\n2 1 8209 8210 8208 AND\n2 1 7300 7301 7299 AND\n2 1 7299 102055 102056 XOR\n2 1 102087 102056 135640 XOR\n2 1 77192 102056 7304 XOR\n2 1 567 102056 7303 XOR\n2 1 7303 7304 7302 AND\n2 1 7302 102056 102057 XOR\n2 1 102088 102057 135641 XOR\n2 1 568 102057 7306 XOR\n2 1 77193 102057 7307 XOR\n2 1 7306 7307 7305 AND\n2 1 7305 102057 102058 XOR\n2 1 569 102058 7309 XOR\n2 1 102089 102058 135642 XOR\n2 1 77190 77158 62884 XOR\n2 1 77194 102058 7310 XOR\n2 1 7309 7310 7308 AND\n2 1 7308 102058 102059 XOR\n2 1 570 102059 7312 XOR\n2 1 576 77201 135649 XOR\n2 1 8208 102678 102679 XOR\n2 1 102710 102679 77195 XOR\n2 1 570 77195 102090 XOR\n2 1 77190 77195 60862 XOR\n2 1 858 102679 8212 XOR\n2 1 77195 102059 7313 XOR\n2 1 7312 7313 7311 AND\n2 1 7311 102059 102060 XOR\n2 1 60862 77177 99909 XOR\n2 1 99909 97861 110713 XOR\n",
"2 1 77195 77163 62889 XOR\n2 1 89771 102679 8213 XOR\n2 1 8212 8213 8211 AND\n2 1 8211 102679 102680 XOR\n2 1 102711 102680 77196 XOR\n2 1 77196 77164 62890 XOR\n2 1 859 102680 8215 XOR\n2 1 77191 77196 60863 XOR\n2 1 60849 77196 99896 XOR\n2 1 77196 77169 60868 XOR\n2 1 60868 77183 99915 XOR\n2 1 99915 97867 110719 XOR\n2 1 62954 77196 62922 AND\n2 1 62922 1243 97873 XOR\n2 1 99921 97873 110725 XOR\n2 1 571 77196 102091 XOR\n2 1 102091 102060 135644 XOR\n2 1 89772 102680 8216 XOR\n2 1 8215 8216 8214 AND\n2 1 8214 102680 102681 XOR\n2 1 89773 102681 8219 XOR\n2 1 102712 102681 77197 XOR\n2 1 62955 77197 62923 AND\n2 1 572 77197 102092 XOR\n2 1 77192 77197 60864 XOR\n2 1 60864 77179 99911 XOR\n2 1 99911 97863 110715 XOR\n2 1 77197 77165 62891 XOR\n2 1 60850 77197 99897 XOR\n2 1 99897 97849 110701 XOR\n2 1 77196 102060 7316 XOR\n2 1 62953 77195 62921 AND\n2 1 62921 1242 97872 XOR\n2 1 60863 77178 99910 XOR\n2 1 99910 97862 110714 XOR\n2 1 77197 77170 60869 XOR\n2 1 60869 77184 99916 XOR\n2 1 99916 97868 110720 XOR\n2 1 99896 97848 110700 XOR\n2 1 571 102060 7315 XOR\n2 1 7315 7316 7314 AND\n2 1 7314 102060 102061 XOR\n2 1 77197 102061 7319 XOR\n2 1 102092 102061 135645 XOR\n2 1 572 102061 7318 XOR\n2 1 7318 7319 7317 AND\n2 1 7317 102061 102062 XOR\n2 1 573 102062 7321 XOR\n2 1 102090 102059 135643 XOR\n2 1 62923 1244 97874 XOR\n2 1 99922 97874 110726 XOR\n2 1 99920 97872 110724 XOR\n2 1 860 102681 8218 XOR\n2 1 8218 8219 8217 AND\n2 1 8217 102681 102682 XOR\n2 1 89774 102682 8222 XOR\n2 1 861 102682 8221 XOR\n2 1 8221 8222 8220 AND\n2 1 8220 102682 102683 XOR\n2 1 862 102683 8224 XOR\n2 1 102714 102683 77199 XOR\n2 1 62957 77199 62925 AND\n2 1 60852 77199 99899 XOR\n2 1 77194 77199 60866 XOR\n2 1 77199 77167 62893 XOR\n2 1 99899 97851 110703 XOR\n2 1 574 77199 102094 XOR\n2 1 62925 1246 97876 XOR\n2 1 99924 97876 110728 XOR\n2 1 77199 77172 60871 XOR\n2 1 60871 77186 99918 XOR\n2 1 99918 97870 110722 XOR\n2 1 102713 102682 77198 XOR\n2 1 77193 77198 60865 XOR\n2 1 77198 102062 7322 XOR\n2 1 7321 7322 7320 AND\n2 1 60851 77198 99898 XOR\n2 1 7320 102062 102063 XOR\n2 1 60865 77180 99912 XOR\n2 1 99912 97864 110716 XOR\n2 1 77199 102063 7325 XOR\n2 1 77198 77166 62892 XOR\n2 1 102094 102063 135647 XOR\n2 1 574 102063 7324 XOR\n2 1 7324 7325 7323 AND\n2 1 7323 102063 102064 XOR\n2 1 62956 77198 62924 AND\n2 1 62924 1245 97875 XOR\n2 1 99923 97875 110727 XOR\n2 1 77198 77171 60870 XOR\n2 1 60870 77185 99917 XOR\n2 1 99917 97869 110721 XOR\n2 1 99898 97850 110702 XOR\n2 1 89775 102683 8225 XOR\n2 1 8224 8225 8223 AND\n2 1 8223 102683 102684 XOR\n2 1 102715 102684 77200 XOR\n2 1 77200 77168 62894 XOR\n2 1 62958 77200 62926 AND\n2 1 62926 1247 97877 XOR\n2 1 99925 97877 110729 XOR\n2 1 575 77200 102095 XOR\n2 1 102095 102064 135648 XOR\n2 1 77200 77173 60872 XOR\n2 1 77195 77200 60867 XOR\n2 1 60867 77182 99914 XOR\n2 1 99914 97866 110718 XOR\n2 1 60853 77200 99900 XOR\n2 1 99900 97852 110704 XOR\n2 1 60848 77195 99895 XOR\n2 1 99895 97847 110699 XOR\n2 1 110699 110668 95799 XOR\n2 1 95799 93751 110575 XOR\n2 1 95799 110544 19778 XOR\n2 1 19778 19779 19777 AND\n2 1 19777 110544 110545 XOR\n2 1 93752 110545 19782 XOR\n2 1 99895 110668 19958 XOR\n2 1 60866 77181 99913 XOR\n2 1 99913 97865 110717 XOR\n2 1 19958 19959 19957 AND\n2 1 19957 110668 110669 XOR\n2 1 97848 110669 19962 XOR\n2 1 99896 110669 19961 XOR\n2 1 19961 19962 19960 AND\n2 1 19960 110669 110670 XOR\n2 1 110701 110670 95801 XOR\n2 1 95801 93753 110577 XOR\n",
"2 1 97849 110670 19965 XOR\n2 1 110700 110669 95800 XOR\n2 1 95800 110545 19781 XOR\n2 1 95800 93752 110576 XOR\n2 1 110576 110545 91759 XOR\n1 1 91759 19756 INV\n2 1 19781 19782 19780 AND\n2 1 19780 110545 110546 XOR\n2 1 95801 110546 19784 XOR\n2 1 93753 110546 19785 XOR\n2 1 19784 19785 19783 AND\n2 1 19783 110546 110547 XOR\n2 1 93754 110547 19788 XOR\n2 1 110577 110546 91760 XOR\n2 1 99897 110670 19964 XOR\n2 1 19964 19965 19963 AND\n2 1 19963 110670 110671 XOR\n2 1 99898 110671 19967 XOR\n2 1 97850 110671 19968 XOR\n2 1 19967 19968 19966 AND\n2 1 110702 110671 95802 XOR\n2 1 95802 93754 110578 XOR\n2 1 110578 110547 91761 XOR\n2 1 95802 110547 19787 XOR\n2 1 19787 19788 19786 AND\n2 1 19786 110547 110548 XOR\n2 1 93755 110548 19791 XOR\n2 1 19966 110671 110672 XOR\n2 1 99899 110672 19970 XOR\n2 1 97851 110672 19971 XOR\n2 1 19970 19971 19969 AND\n2 1 19969 110672 110673 XOR\n2 1 97852 110673 19974 XOR\n2 1 99900 110673 19973 XOR\n2 1 19973 19974 19972 AND\n2 1 19972 110673 110674 XOR\n2 1 99901 110674 19976 XOR\n2 1 110705 110674 95805 XOR\n2 1 95805 93757 110581 XOR\n2 1 110703 110672 95803 XOR\n2 1 95803 110548 19790 XOR\n2 1 95803 93755 110579 XOR\n2 1 110579 110548 91762 XOR\n1 1 91762 19758 INV\n2 1 19790 19791 19789 AND\n2 1 19789 110548 110549 XOR\n2 1 93756 110549 19794 XOR\n1 1 91761 19757 INV\n2 1 60872 77187 99919 XOR\n2 1 99919 97871 110723 XOR\n2 1 97853 110674 19977 XOR\n2 1 19976 19977 19975 AND\n2 1 19975 110674 110675 XOR\n2 1 99902 110675 19979 XOR\n2 1 97854 110675 19980 XOR\n2 1 19979 19980 19978 AND\n2 1 19978 110675 110676 XOR\n2 1 97855 110676 19983 XOR\n2 1 110707 110676 95807 XOR\n2 1 95807 93759 110583 XOR\n2 1 99903 110676 19982 XOR\n2 1 19982 19983 19981 AND\n2 1 19981 110676 110677 XOR\n2 1 110708 110677 95808 XOR\n2 1 99904 110677 19985 XOR\n2 1 95808 93760 110584 XOR\n2 1 97856 110677 19986 XOR\n2 1 19985 19986 19984 AND\n2 1 19984 110677 110678 XOR\n2 1 97857 110678 19989 XOR\n2 1 110709 110678 95809 XOR\n2 1 95809 93761 110585 XOR\n2 1 110706 110675 95806 XOR\n2 1 95806 93758 110582 XOR\n2 1 99905 110678 19988 XOR\n2 1 19988 19989 19987 AND\n2 1 19987 110678 110679 XOR\n2 1 110710 110679 95810 XOR\n2 1 95810 93762 110586 XOR\n2 1 97858 110679 19992 XOR\n2 1 99906 110679 19991 XOR\n2 1 19991 19992 19990 AND\n2 1 19990 110679 110680 XOR\n2 1 97859 110680 19995 XOR\n2 1 110711 110680 95811 XOR\n2 1 99907 110680 19994 XOR\n2 1 19994 19995 19993 AND\n2 1 19993 110680 110681 XOR\n2 1 99908 110681 19997 XOR\n2 1 110712 110681 95812 XOR\n2 1 95812 93764 110588 XOR\n2 1 97860 110681 19998 XOR\n2 1 19997 19998 19996 AND\n2 1 19996 110681 110682 XOR\n2 1 99909 110682 20000 XOR\n2 1 97861 110682 20001 XOR\n2 1 20000 20001 19999 AND\n2 1 19999 110682 110683 XOR\n2 1 97862 110683 20004 XOR\n2 1 99910 110683 20003 XOR\n2 1 110713 110682 95813 XOR\n2 1 95813 93765 110589 XOR\n2 1 20003 20004 20002 AND\n2 1 20002 110683 110684 XOR\n2 1 97863 110684 20007 XOR\n2 1 110715 110684 95815 XOR\n2 1 99911 110684 20006 XOR\n2 1 20006 20007 20005 AND\n2 1 20005 110684 110685 XOR\n2 1 110716 110685 95816 XOR\n2 1 97864 110685 20010 XOR\n2 1 99912 110685 20009 XOR\n2 1 95816 93768 110592 XOR\n2 1 95815 93767 110591 XOR\n2 1 110704 110673 95804 XOR\n2 1 95804 93756 110580 XOR\n2 1 110580 110549 91763 XOR\n2 1 95804 110549 19793 XOR\n2 1 19793 19794 19792 AND\n2 1 19792 110549 110550 XOR\n2 1 95805 110550 19796 XOR\n2 1 93757 110550 19797 XOR\n2 1 19796 19797 19795 AND\n2 1 19795 110550 110551 XOR\n2 1 110582 110551 91765 XOR\n1 1 91765 19761 INV\n2 1 93758 110551 19800 XOR\n2 1 95806 110551 19799 XOR\n",
"2 1 19799 19800 19798 AND\n2 1 19798 110551 110552 XOR\n2 1 110583 110552 91766 XOR\n2 1 93759 110552 19803 XOR\n2 1 95807 110552 19802 XOR\n2 1 19802 19803 19801 AND\n1 1 91766 19762 INV\n2 1 19801 110552 110553 XOR\n2 1 110584 110553 91767 XOR\n2 1 95808 110553 19805 XOR\n2 1 93760 110553 19806 XOR\n2 1 19805 19806 19804 AND\n2 1 19804 110553 110554 XOR\n2 1 110585 110554 91768 XOR\n2 1 93761 110554 19809 XOR\n2 1 95809 110554 19808 XOR\n2 1 19808 19809 19807 AND\n2 1 19807 110554 110555 XOR\n2 1 93762 110555 19812 XOR\n2 1 95810 110555 19811 XOR\n2 1 19811 19812 19810 AND\n2 1 110586 110555 91769 XOR\n2 1 19810 110555 110556 XOR\n2 1 95811 110556 19814 XOR\n1 1 91763 19759 INV\n2 1 77193 77161 62887 XOR\n2 1 110581 110550 91764 XOR\n1 1 91764 19760 INV\n2 1 573 77198 102093 XOR\n2 1 102093 102062 135646 XOR\n2 1 20009 20010 20008 AND\n2 1 20008 110685 110686 XOR\n2 1 97865 110686 20013 XOR\n2 1 99913 110686 20012 XOR\n2 1 20012 20013 20011 AND\n2 1 20011 110686 110687 XOR\n2 1 99914 110687 20015 XOR\n2 1 97866 110687 20016 XOR\n2 1 110718 110687 95818 XOR\n2 1 95818 93770 110594 XOR\n2 1 110717 110686 95817 XOR\n2 1 95817 93769 110593 XOR\n2 1 20015 20016 20014 AND\n2 1 20014 110687 110688 XOR\n2 1 97867 110688 20019 XOR\n2 1 110719 110688 95819 XOR\n2 1 95819 93771 110595 XOR\n2 1 99915 110688 20018 XOR\n2 1 20018 20019 20017 AND\n2 1 20017 110688 110689 XOR\n2 1 97868 110689 20022 XOR\n2 1 99916 110689 20021 XOR\n2 1 110720 110689 95820 XOR\n2 1 95820 93772 110596 XOR\n2 1 20021 20022 20020 AND\n2 1 20020 110689 110690 XOR\n2 1 110721 110690 95821 XOR\n2 1 95821 93773 110597 XOR\n2 1 99917 110690 20024 XOR\n2 1 97869 110690 20025 XOR\n2 1 20024 20025 20023 AND\n2 1 20023 110690 110691 XOR\n2 1 110722 110691 95822 XOR\n2 1 99918 110691 20027 XOR\n2 1 95822 93774 110598 XOR\n2 1 97870 110691 20028 XOR\n2 1 20027 20028 20026 AND\n2 1 20026 110691 110692 XOR\n2 1 97871 110692 20031 XOR\n2 1 99919 110692 20030 XOR\n2 1 20030 20031 20029 AND\n2 1 20029 110692 110693 XOR\n2 1 110724 110693 95824 XOR\n2 1 110723 110692 95823 XOR\n2 1 95823 93775 110599 XOR\n2 1 99920 110693 20033 XOR\n2 1 97872 110693 20034 XOR\n2 1 20033 20034 20032 AND\n2 1 20032 110693 110694 XOR\n2 1 99921 110694 20036 XOR\n2 1 110725 110694 95825 XOR\n2 1 95825 93777 110601 XOR\n2 1 97873 110694 20037 XOR\n2 1 20036 20037 20035 AND\n2 1 20035 110694 110695 XOR\n2 1 97874 110695 20040 XOR\n2 1 99922 110695 20039 XOR\n2 1 110726 110695 95826 XOR\n2 1 20039 20040 20038 AND\n2 1 20038 110695 110696 XOR\n2 1 97875 110696 20043 XOR\n2 1 99923 110696 20042 XOR\n2 1 95826 93778 110602 XOR\n2 1 110727 110696 95827 XOR\n2 1 95827 93779 110603 XOR\n2 1 20042 20043 20041 AND\n2 1 20041 110696 110697 XOR\n2 1 97876 110697 20046 XOR\n2 1 99924 110697 20045 XOR\n2 1 20045 20046 20044 AND\n2 1 20044 110697 110698 XOR\n2 1 110729 110698 95829 XOR\n2 1 95829 93781 110605 XOR\n2 1 110728 110697 95828 XOR\n2 1 95828 93780 110604 XOR\n2 1 95824 93776 110600 XOR\n2 1 110714 110683 95814 XOR\n2 1 95814 93766 110590 XOR\n2 1 110575 110544 91758 XOR\n2 1 91758 91757 19655 XOR\n2 1 19655 89713 19654 AND\n2 1 19654 91757 19734 XOR\n1 1 19734 19658 INV\n2 1 91759 19734 19657 XOR\n2 1 19657 19658 19656 AND\n1 1 91758 19755 INV\n2 1 19755 91757 89714 XOR\n2 1 801 89714 102561 XOR\n2 1 102561 102530 77202 XOR\n2 1 89714 102530 7958 XOR\n2 1 77202 102096 7328 XOR\n2 1 62864 77202 62832 AND\n2 1 62832 77138 97815 XOR\n2 1 7957 7958 7956 AND\n2 1 7956 102530 102531 XOR\n2 1 802 102531 7960 XOR\n2 1 7327 7328 7326 AND\n2 1 7326 102096 102097 XOR\n",
"2 1 578 102097 7330 XOR\n2 1 577 77202 102127 XOR\n2 1 102127 102096 135650 XOR\n2 1 19756 19734 89715 XOR\n2 1 802 89715 102562 XOR\n2 1 102562 102531 77203 XOR\n2 1 62865 77203 62833 AND\n2 1 62833 77139 97816 XOR\n2 1 77203 102097 7331 XOR\n2 1 7330 7331 7329 AND\n2 1 578 77203 102128 XOR\n2 1 102128 102097 135651 XOR\n2 1 7329 102097 102098 XOR\n2 1 89715 102531 7961 XOR\n2 1 7960 7961 7959 AND\n2 1 7959 102531 102532 XOR\n2 1 803 102532 7963 XOR\n2 1 579 102098 7333 XOR\n2 1 19656 19734 19660 XOR\n2 1 91760 19660 89716 XOR\n2 1 89716 19660 19659 AND\n2 1 19659 19660 19735 XOR\n2 1 91761 19735 19662 XOR\n1 1 19735 19663 INV\n2 1 19662 19663 19661 AND\n2 1 19757 19735 89717 XOR\n2 1 803 89716 102563 XOR\n2 1 804 89717 102564 XOR\n2 1 89716 102532 7964 XOR\n2 1 7963 7964 7962 AND\n2 1 7962 102532 102533 XOR\n2 1 804 102533 7966 XOR\n2 1 89717 102533 7967 XOR\n2 1 102564 102533 77205 XOR\n2 1 580 77205 102130 XOR\n2 1 62867 77205 62835 AND\n2 1 62835 77141 97818 XOR\n2 1 102563 102532 77204 XOR\n2 1 62866 77204 62834 AND\n2 1 579 77204 102129 XOR\n2 1 77204 102098 7334 XOR\n2 1 7333 7334 7332 AND\n2 1 7332 102098 102099 XOR\n2 1 77205 102099 7337 XOR\n2 1 580 102099 7336 XOR\n2 1 102129 102098 135652 XOR\n2 1 62834 77140 97817 XOR\n2 1 102130 102099 135653 XOR\n2 1 19661 19735 19736 XOR\n2 1 91762 19736 19665 XOR\n1 1 19736 19666 INV\n2 1 19758 19736 89718 XOR\n2 1 19665 19666 19664 AND\n2 1 19664 19736 19737 XOR\n2 1 19759 19737 89719 XOR\n2 1 805 89718 102565 XOR\n2 1 806 89719 102566 XOR\n2 1 91763 19737 19668 XOR\n1 1 19737 19669 INV\n2 1 19668 19669 19667 AND\n2 1 19667 19737 19738 XOR\n2 1 19760 19738 89720 XOR\n2 1 91764 19738 19671 XOR\n2 1 807 89720 102567 XOR\n1 1 19738 19672 INV\n2 1 19671 19672 19670 AND\n2 1 19670 19738 19739 XOR\n2 1 19761 19739 89721 XOR\n1 1 19739 19675 INV\n2 1 808 89721 102568 XOR\n2 1 91765 19739 19674 XOR\n2 1 19674 19675 19673 AND\n2 1 19673 19739 19740 XOR\n2 1 91766 19740 19677 XOR\n2 1 19762 19740 89722 XOR\n2 1 809 89722 102569 XOR\n1 1 19740 19678 INV\n2 1 19677 19678 19676 AND\n2 1 19676 19740 19680 XOR\n2 1 91767 19680 89723 XOR\n2 1 810 89723 102570 XOR\n2 1 89723 19680 19679 AND\n2 1 19679 19680 19682 XOR\n2 1 91768 19682 89724 XOR\n2 1 89724 19682 19681 AND\n2 1 19681 19682 19684 XOR\n2 1 811 89724 102571 XOR\n2 1 91769 19684 89725 XOR\n2 1 89725 19684 19683 AND\n2 1 19683 19684 19741 XOR\n2 1 7336 7337 7335 AND\n2 1 7335 102099 102100 XOR\n2 1 581 102100 7339 XOR\n1 1 19741 19687 INV\n2 1 7966 7967 7965 AND\n2 1 7965 102533 102534 XOR\n2 1 89718 102534 7970 XOR\n2 1 805 102534 7969 XOR\n2 1 7969 7970 7968 AND\n2 1 7968 102534 102535 XOR\n2 1 102566 102535 77207 XOR\n2 1 62869 77207 62837 AND\n2 1 62837 77143 97820 XOR\n2 1 77202 77207 60842 XOR\n2 1 806 102535 7972 XOR\n2 1 89719 102535 7973 XOR\n2 1 7972 7973 7971 AND\n2 1 7971 102535 102536 XOR\n2 1 807 102536 7975 XOR\n2 1 102567 102536 77208 XOR\n2 1 77203 77208 60843 XOR\n2 1 62870 77208 62838 AND\n2 1 583 77208 102133 XOR\n2 1 62838 77144 97821 XOR\n2 1 582 77207 102132 XOR\n2 1 102565 102534 77206 XOR\n2 1 77201 77206 60841 XOR\n2 1 62868 77206 62836 AND\n2 1 62836 77142 97819 XOR\n2 1 77206 102100 7340 XOR\n2 1 581 77206 102131 XOR\n2 1 102131 102100 135654 XOR\n2 1 89720 102536 7976 XOR\n2 1 7975 7976 7974 AND\n2 1 7974 102536 102537 XOR\n2 1 808 102537 7978 XOR\n2 1 89721 102537 7979 XOR\n2 1 7978 7979 7977 AND\n",
"2 1 102568 102537 77209 XOR\n2 1 62871 77209 62839 AND\n2 1 584 77209 102134 XOR\n2 1 7977 102537 102538 XOR\n2 1 102569 102538 77210 XOR\n2 1 62872 77210 62840 AND\n2 1 89722 102538 7982 XOR\n2 1 62840 77146 97823 XOR\n2 1 809 102538 7981 XOR\n2 1 585 77210 102135 XOR\n2 1 62839 77145 97822 XOR\n2 1 7981 7982 7980 AND\n2 1 7980 102538 102539 XOR\n2 1 102570 102539 77211 XOR\n2 1 62873 77211 62841 AND\n2 1 77206 77211 60846 XOR\n2 1 586 77211 102136 XOR\n2 1 89723 102539 7985 XOR\n2 1 62841 77147 97824 XOR\n2 1 77205 77210 60845 XOR\n2 1 77204 77209 60844 XOR\n2 1 810 102539 7984 XOR\n2 1 7984 7985 7983 AND\n2 1 7983 102539 102540 XOR\n2 1 89724 102540 7988 XOR\n2 1 811 102540 7987 XOR\n2 1 7987 7988 7986 AND\n2 1 102571 102540 77212 XOR\n2 1 62874 77212 62842 AND\n2 1 62842 77148 97825 XOR\n2 1 77207 77212 60815 XOR\n2 1 587 77212 102137 XOR\n2 1 7986 102540 102541 XOR\n2 1 812 102541 7990 XOR\n2 1 812 89725 102572 XOR\n2 1 102572 102541 77213 XOR\n2 1 77208 77213 60816 XOR\n2 1 62875 77213 62843 AND\n2 1 62843 77149 97826 XOR\n2 1 588 77213 102138 XOR\n2 1 7339 7340 7338 AND\n2 1 7338 102100 102101 XOR\n2 1 77207 102101 7343 XOR\n2 1 582 102101 7342 XOR\n2 1 7342 7343 7341 AND\n2 1 7341 102101 102102 XOR\n2 1 102132 102101 135655 XOR\n2 1 102133 102102 135656 XOR\n2 1 583 102102 7345 XOR\n2 1 77208 102102 7346 XOR\n2 1 7345 7346 7344 AND\n2 1 7344 102102 102103 XOR\n2 1 584 102103 7348 XOR\n2 1 102134 102103 135657 XOR\n2 1 77209 102103 7349 XOR\n2 1 7348 7349 7347 AND\n2 1 7347 102103 102104 XOR\n2 1 585 102104 7351 XOR\n2 1 102135 102104 135658 XOR\n2 1 77210 102104 7352 XOR\n2 1 7351 7352 7350 AND\n2 1 7350 102104 102105 XOR\n2 1 586 102105 7354 XOR\n2 1 102136 102105 135659 XOR\n2 1 77211 102105 7355 XOR\n2 1 7354 7355 7353 AND\n2 1 7353 102105 102106 XOR\n2 1 587 102106 7357 XOR\n2 1 77212 102106 7358 XOR\n2 1 7357 7358 7356 AND\n2 1 7356 102106 102107 XOR\n2 1 77213 102107 7361 XOR\n2 1 588 102107 7360 XOR\n2 1 7360 7361 7359 AND\n2 1 7359 102107 102108 XOR\n2 1 589 102108 7363 XOR\n2 1 102138 102107 135661 XOR\n2 1 102137 102106 135660 XOR\n2 1 89725 102541 7991 XOR\n2 1 7990 7991 7989 AND\n2 1 7989 102541 102542 XOR\n2 1 813 102542 7993 XOR\n2 1 87702 85654 110765 XOR\n2 1 110765 110734 83606 XOR\n2 1 83606 102720 8240 XOR\n2 1 8239 8240 8238 AND\n2 1 89750 83606 102751 XOR\n2 1 8238 102720 102721 XOR\n2 1 102752 102721 77303 XOR\n2 1 678 77303 102318 XOR\n2 1 77303 77271 68789 XOR\n2 1 83607 102721 8243 XOR\n2 1 77303 774 68917 XOR\n2 1 68917 68885 68853 AND\n2 1 68853 774 85623 XOR\n2 1 89751 102721 8242 XOR\n2 1 8242 8243 8241 AND\n2 1 8241 102721 102722 XOR\n2 1 89752 102722 8245 XOR\n2 1 83608 102722 8246 XOR\n2 1 8245 8246 8244 AND\n2 1 8244 102722 102723 XOR\n2 1 83609 102723 8249 XOR\n2 1 89753 102723 8248 XOR\n2 1 102754 102723 77305 XOR\n2 1 77305 77273 68791 XOR\n2 1 680 77305 102320 XOR\n2 1 102753 102722 77304 XOR\n2 1 679 77304 102319 XOR\n2 1 77304 775 68918 XOR\n2 1 68918 68886 68854 AND\n2 1 77304 77272 68790 XOR\n2 1 8248 8249 8247 AND\n2 1 77305 776 68919 XOR\n2 1 68919 68887 68855 AND\n2 1 68855 776 85625 XOR\n2 1 8247 102723 102724 XOR\n2 1 83610 102724 8252 XOR\n2 1 102755 102724 77306 XOR\n2 1 77306 777 68920 XOR\n2 1 681 77306 102321 XOR\n2 1 77306 77274 68792 XOR\n2 1 68920 68888 68856 AND\n2 1 68856 777 85626 XOR\n2 1 89754 102724 8251 XOR\n2 1 8251 8252 8250 AND\n2 1 8250 102724 102725 XOR\n2 1 102756 102725 77307 XOR\n",
"2 1 682 77307 102322 XOR\n2 1 77307 77275 68793 XOR\n2 1 77307 778 68921 XOR\n2 1 68921 68889 68857 AND\n2 1 83611 102725 8255 XOR\n2 1 68857 778 85627 XOR\n2 1 89755 102725 8254 XOR\n2 1 8254 8255 8253 AND\n2 1 8253 102725 102726 XOR\n2 1 89756 102726 8257 XOR\n2 1 83612 102726 8258 XOR\n2 1 102757 102726 77308 XOR\n2 1 77308 779 68922 XOR\n2 1 683 77308 102323 XOR\n2 1 68922 68890 68858 AND\n2 1 77308 77276 68794 XOR\n2 1 8257 8258 8256 AND\n2 1 8256 102726 102727 XOR\n2 1 102758 102727 77309 XOR\n2 1 77298 77309 66798 XOR\n2 1 684 77309 102324 XOR\n2 1 77309 77277 68795 XOR\n2 1 77309 780 68923 XOR\n2 1 89757 102727 8260 XOR\n2 1 68923 68891 68859 AND\n2 1 68859 780 85629 XOR\n2 1 83613 102727 8261 XOR\n2 1 8260 8261 8259 AND\n2 1 8259 102727 102728 XOR\n2 1 89758 102728 8263 XOR\n2 1 102759 102728 77310 XOR\n2 1 77299 77310 66767 XOR\n2 1 77310 77278 68796 XOR\n2 1 77310 781 68924 XOR\n2 1 685 77310 102325 XOR\n2 1 83614 102728 8264 XOR\n2 1 8263 8264 8262 AND\n2 1 8262 102728 102729 XOR\n2 1 89759 102729 8266 XOR\n2 1 102760 102729 77311 XOR\n2 1 77300 77311 66768 XOR\n2 1 686 77311 102326 XOR\n2 1 77311 77279 68797 XOR\n2 1 77311 782 68925 XOR\n2 1 68925 68893 68861 AND\n2 1 68861 782 85631 XOR\n2 1 83615 102729 8267 XOR\n2 1 68924 68892 68860 AND\n2 1 68860 781 85630 XOR\n2 1 77297 77308 66797 XOR\n2 1 102751 102720 77302 XOR\n2 1 77302 102286 7610 XOR\n2 1 7609 7610 7608 AND\n2 1 77302 77270 68788 XOR\n2 1 77302 773 68916 XOR\n2 1 7608 102286 102287 XOR\n2 1 678 102287 7612 XOR\n2 1 77303 102287 7613 XOR\n2 1 102318 102287 135751 XOR\n2 1 677 77302 102317 XOR\n2 1 102317 102286 135750 XOR\n2 1 68916 68884 68852 AND\n2 1 68852 773 85622 XOR\n2 1 7612 7613 7611 AND\n2 1 7611 102287 102288 XOR\n2 1 77304 102288 7616 XOR\n2 1 102319 102288 135752 XOR\n2 1 679 102288 7615 XOR\n2 1 7615 7616 7614 AND\n2 1 7614 102288 102289 XOR\n2 1 77305 102289 7619 XOR\n2 1 680 102289 7618 XOR\n2 1 102320 102289 135753 XOR\n2 1 7618 7619 7617 AND\n2 1 7617 102289 102290 XOR\n2 1 102321 102290 135754 XOR\n2 1 681 102290 7621 XOR\n2 1 77306 102290 7622 XOR\n2 1 7621 7622 7620 AND\n2 1 7620 102290 102291 XOR\n2 1 682 102291 7624 XOR\n2 1 102322 102291 135755 XOR\n2 1 77307 102291 7625 XOR\n2 1 7624 7625 7623 AND\n2 1 7623 102291 102292 XOR\n2 1 77308 102292 7628 XOR\n2 1 102323 102292 135756 XOR\n2 1 683 102292 7627 XOR\n2 1 7627 7628 7626 AND\n2 1 7626 102292 102293 XOR\n2 1 684 102293 7630 XOR\n2 1 102324 102293 135757 XOR\n2 1 77309 102293 7631 XOR\n2 1 7630 7631 7629 AND\n2 1 7629 102293 102294 XOR\n2 1 685 102294 7633 XOR\n2 1 102325 102294 135758 XOR\n2 1 77310 102294 7634 XOR\n2 1 7633 7634 7632 AND\n2 1 7632 102294 102295 XOR\n2 1 77311 102295 7637 XOR\n2 1 686 102295 7636 XOR\n2 1 7636 7637 7635 AND\n2 1 7635 102295 102296 XOR\n2 1 687 102296 7639 XOR\n2 1 8266 8267 8265 AND\n2 1 8265 102729 102730 XOR\n2 1 102761 102730 77312 XOR\n2 1 77312 77280 68798 XOR\n2 1 687 77312 102327 XOR\n2 1 77312 783 68926 XOR\n2 1 68926 68894 68862 AND\n2 1 68862 783 85632 XOR\n2 1 77312 102296 7640 XOR\n2 1 7639 7640 7638 AND\n2 1 102327 102296 135760 XOR\n2 1 77301 77312 66769 XOR\n2 1 83616 102730 8270 XOR\n2 1 89760 102730 8269 XOR\n2 1 8269 8270 8268 AND\n2 1 8268 102730 102731 XOR\n2 1 89761 102731 8272 XOR\n2 1 83617 102731 8273 XOR\n2 1 8272 8273 8271 AND\n2 1 8271 102731 102732 XOR\n2 1 83618 102732 8276 XOR\n2 1 89762 102732 8275 XOR\n2 1 8275 8276 8274 AND\n",
"2 1 8274 102732 102733 XOR\n2 1 102764 102733 77315 XOR\n2 1 83619 102733 8279 XOR\n2 1 77304 77315 66772 XOR\n2 1 77315 77283 68801 XOR\n2 1 89763 102733 8278 XOR\n2 1 77315 786 68929 XOR\n2 1 68929 68897 68865 AND\n2 1 68865 786 85635 XOR\n2 1 8278 8279 8277 AND\n2 1 8277 102733 102734 XOR\n2 1 89764 102734 8281 XOR\n2 1 102765 102734 77316 XOR\n2 1 77316 77284 68802 XOR\n2 1 83620 102734 8282 XOR\n2 1 77305 77316 66773 XOR\n2 1 7638 102296 102297 XOR\n2 1 688 102297 7642 XOR\n2 1 102763 102732 77314 XOR\n2 1 77314 785 68928 XOR\n2 1 77314 77282 68800 XOR\n2 1 77303 77314 66771 XOR\n2 1 689 77314 102329 XOR\n2 1 691 77316 102331 XOR\n2 1 68928 68896 68864 AND\n2 1 68864 785 85634 XOR\n2 1 68858 779 85628 XOR\n2 1 102762 102731 77313 XOR\n2 1 77313 102297 7643 XOR\n2 1 77313 77281 68799 XOR\n2 1 77313 784 68927 XOR\n2 1 68927 68895 68863 AND\n2 1 68863 784 85633 XOR\n2 1 688 77313 102328 XOR\n2 1 7642 7643 7641 AND\n2 1 7641 102297 102298 XOR\n2 1 102329 102298 135762 XOR\n2 1 689 102298 7645 XOR\n2 1 77314 102298 7646 XOR\n2 1 7645 7646 7644 AND\n2 1 102328 102297 135761 XOR\n2 1 7644 102298 102299 XOR\n2 1 77315 102299 7649 XOR\n2 1 690 102299 7648 XOR\n2 1 7648 7649 7647 AND\n2 1 7647 102299 102300 XOR\n2 1 102331 102300 135764 XOR\n2 1 691 102300 7651 XOR\n2 1 77316 102300 7652 XOR\n2 1 7651 7652 7650 AND\n2 1 7650 102300 102301 XOR\n2 1 692 102301 7654 XOR\n2 1 690 77315 102330 XOR\n2 1 102330 102299 135763 XOR\n2 1 8281 8282 8280 AND\n2 1 8280 102734 102735 XOR\n2 1 102766 102735 77317 XOR\n2 1 77306 77317 66774 XOR\n2 1 77317 77285 68803 XOR\n2 1 77317 788 68931 XOR\n2 1 68931 68899 68867 AND\n2 1 68867 788 85637 XOR\n2 1 83621 102735 8285 XOR\n2 1 66797 77317 87695 XOR\n2 1 692 77317 102332 XOR\n2 1 102332 102301 135765 XOR\n2 1 89765 102735 8284 XOR\n2 1 77317 102301 7655 XOR\n2 1 7654 7655 7653 AND\n2 1 7653 102301 102302 XOR\n2 1 693 102302 7657 XOR\n2 1 8284 8285 8283 AND\n2 1 8283 102735 102736 XOR\n2 1 102767 102736 77318 XOR\n2 1 693 77318 102333 XOR\n2 1 102333 102302 135766 XOR\n2 1 77318 789 68932 XOR\n2 1 77318 102302 7658 XOR\n2 1 83622 102736 8288 XOR\n2 1 66798 77318 87696 XOR\n2 1 77307 77318 66775 XOR\n2 1 89766 102736 8287 XOR\n2 1 77318 77286 68804 XOR\n2 1 7657 7658 7656 AND\n2 1 7656 102302 102303 XOR\n2 1 694 102303 7660 XOR\n2 1 77318 77297 66786 XOR\n2 1 66786 77306 87684 XOR\n2 1 8287 8288 8286 AND\n2 1 8286 102736 102737 XOR\n2 1 102768 102737 77319 XOR\n2 1 89767 102737 8290 XOR\n2 1 77319 102303 7661 XOR\n2 1 694 77319 102334 XOR\n2 1 102334 102303 135767 XOR\n2 1 77319 790 68933 XOR\n2 1 68933 68901 68869 AND\n2 1 68869 790 85639 XOR\n2 1 77319 77287 68805 XOR\n2 1 66767 77319 87665 XOR\n2 1 87665 85617 110482 AND\n2 1 85618 110482 19566 XOR\n2 1 77308 77319 66776 XOR\n2 1 7660 7661 7659 AND\n2 1 7659 102303 102304 XOR\n2 1 695 102304 7663 XOR\n2 1 83623 102737 8291 XOR\n2 1 8290 8291 8289 AND\n2 1 8289 102737 102738 XOR\n2 1 83624 102738 8294 XOR\n2 1 102769 102738 77320 XOR\n2 1 77320 77299 66788 XOR\n2 1 66768 77320 87666 XOR\n2 1 77320 791 68934 XOR\n2 1 68934 68902 68870 AND\n2 1 68870 791 85640 XOR\n2 1 695 77320 102335 XOR\n2 1 87666 85618 110513 XOR\n2 1 110513 110482 83570 XOR\n2 1 89714 83570 102623 XOR\n2 1 87666 110482 19565 XOR\n2 1 19565 19566 19564 AND\n2 1 19564 110482 110483 XOR\n2 1 85619 110483 19569 XOR\n2 1 77320 77288 68806 XOR\n2 1 89768 102738 8293 XOR\n2 1 8293 8294 8292 AND\n2 1 8292 102738 102739 XOR\n",
"2 1 102770 102739 77321 XOR\n2 1 77321 792 68935 XOR\n2 1 68935 68903 68871 AND\n2 1 77310 77321 66778 XOR\n2 1 68871 792 85641 XOR\n2 1 77321 77300 66789 XOR\n2 1 66789 77309 87687 XOR\n2 1 77321 77289 68807 XOR\n2 1 87687 85639 110534 XOR\n2 1 83625 102739 8297 XOR\n2 1 102335 102304 135768 XOR\n2 1 66788 77308 87686 XOR\n2 1 89769 102739 8296 XOR\n2 1 8296 8297 8295 AND\n2 1 8295 102739 102740 XOR\n2 1 102771 102740 77322 XOR\n2 1 77322 77301 66790 XOR\n2 1 66790 77310 87688 XOR\n2 1 77322 793 68936 XOR\n2 1 68936 68904 68872 AND\n2 1 68872 793 85642 XOR\n2 1 87688 85640 110535 XOR\n2 1 77311 77322 66779 XOR\n2 1 89770 102740 8299 XOR\n2 1 83626 102740 8300 XOR\n2 1 8299 8300 8298 AND\n2 1 8298 102740 102741 XOR\n2 1 89771 102741 8302 XOR\n2 1 66779 77299 87677 XOR\n2 1 87677 85629 110524 XOR\n2 1 83627 102741 8303 XOR\n2 1 8302 8303 8301 AND\n2 1 8301 102741 102742 XOR\n2 1 89772 102742 8305 XOR\n2 1 102773 102742 77324 XOR\n2 1 77324 77292 68810 XOR\n2 1 77324 77303 66792 XOR\n2 1 77324 795 68938 XOR\n2 1 66792 77312 87690 XOR\n2 1 87690 85642 110537 XOR\n2 1 83628 102742 8306 XOR\n2 1 8305 8306 8304 AND\n2 1 8304 102742 102743 XOR\n2 1 102774 102743 77325 XOR\n2 1 77325 796 68939 XOR\n2 1 77325 77293 68811 XOR\n2 1 68939 68907 68875 AND\n2 1 77325 77304 66793 XOR\n2 1 66793 77313 87691 XOR\n2 1 66773 77325 87671 XOR\n2 1 83629 102743 8309 XOR\n2 1 89773 102743 8308 XOR\n2 1 8308 8309 8307 AND\n2 1 8307 102743 102744 XOR\n2 1 89774 102744 8311 XOR\n2 1 102775 102744 77326 XOR\n2 1 77326 77305 66794 XOR\n2 1 66794 77314 87692 XOR\n2 1 701 77326 102341 XOR\n2 1 77326 797 68940 XOR\n2 1 68940 68908 68876 AND\n2 1 66774 77326 87672 XOR\n2 1 68876 797 85646 XOR\n2 1 77315 77326 66783 XOR\n2 1 83630 102744 8312 XOR\n2 1 8311 8312 8310 AND\n2 1 8310 102744 102745 XOR\n2 1 102776 102745 77327 XOR\n2 1 77327 77295 68813 XOR\n2 1 77327 798 68941 XOR\n2 1 68941 68909 68877 AND\n2 1 68877 798 85647 XOR\n2 1 77316 77327 66784 XOR\n2 1 66784 77304 87682 XOR\n2 1 702 77327 102342 XOR\n2 1 89775 102745 8314 XOR\n2 1 66783 77303 87681 XOR\n2 1 87695 85647 110542 XOR\n2 1 700 77325 102340 XOR\n2 1 68875 796 85645 XOR\n2 1 87681 85633 110528 XOR\n2 1 83631 102745 8315 XOR\n2 1 8314 8315 8313 AND\n2 1 8313 102745 102746 XOR\n2 1 102777 102746 77328 XOR\n2 1 77328 77307 66796 XOR\n2 1 66776 77328 87674 XOR\n2 1 77317 77328 66785 XOR\n2 1 77328 799 68942 XOR\n2 1 68942 68910 68878 AND\n2 1 68878 799 85648 XOR\n2 1 87696 85648 110543 XOR\n2 1 66785 77305 87683 XOR\n2 1 77328 77296 68814 XOR\n2 1 703 77328 102343 XOR\n2 1 87683 85635 110530 XOR\n2 1 66778 77298 87676 XOR\n2 1 87676 85628 110523 XOR\n2 1 77309 77320 66777 XOR\n2 1 66777 77297 87675 XOR\n2 1 87675 85627 110522 XOR\n2 1 66769 77321 87667 XOR\n2 1 87667 85619 110514 XOR\n2 1 110514 110483 83571 XOR\n2 1 89715 83571 102624 XOR\n2 1 87667 110483 19568 XOR\n2 1 19568 19569 19567 AND\n2 1 19567 110483 110484 XOR\n2 1 85620 110484 19572 XOR\n2 1 68938 68906 68874 AND\n2 1 68874 795 85644 XOR\n2 1 87692 85644 110539 XOR\n2 1 697 77322 102337 XOR\n2 1 696 77321 102336 XOR\n2 1 77327 77306 66795 XOR\n2 1 66795 77315 87693 XOR\n2 1 87693 85645 110540 XOR\n2 1 77319 77298 66787 XOR\n2 1 66787 77307 87685 XOR\n2 1 87685 85637 110532 XOR\n2 1 66796 77316 87694 XOR\n2 1 87694 85646 110541 XOR\n2 1 87674 85626 110521 XOR\n2 1 87665 85617 83569 XOR\n2 1 89713 83569 102592 AND\n2 1 89714 102592 8047 XOR\n2 1 83570 102592 8048 XOR\n2 1 8047 8048 8046 AND\n",
"2 1 8046 102592 102593 XOR\n2 1 102624 102593 77331 XOR\n2 1 89715 102593 8050 XOR\n2 1 83571 102593 8051 XOR\n2 1 8050 8051 8049 AND\n2 1 8049 102593 102594 XOR\n2 1 89716 102594 8053 XOR\n2 1 77331 77267 68817 XOR\n2 1 68817 68785 68753 AND\n2 1 68753 77267 85587 XOR\n2 1 699 77324 102339 XOR\n2 1 87682 85634 110529 XOR\n2 1 706 77331 102376 XOR\n2 1 87671 85623 110518 XOR\n2 1 77313 77324 66781 XOR\n2 1 89713 83569 77329 XOR\n2 1 704 77329 135777 XOR\n2 1 77329 77265 68815 XOR\n2 1 68815 68783 68751 AND\n2 1 68751 77265 85585 XOR\n2 1 704 77329 102344 AND\n2 1 705 102344 7687 XOR\n2 1 77320 102304 7664 XOR\n2 1 7663 7664 7662 AND\n2 1 7662 102304 102305 XOR\n2 1 102336 102305 135769 XOR\n2 1 77321 102305 7667 XOR\n2 1 696 102305 7666 XOR\n2 1 7666 7667 7665 AND\n2 1 7665 102305 102306 XOR\n2 1 102337 102306 135770 XOR\n2 1 697 102306 7669 XOR\n2 1 77322 102306 7670 XOR\n2 1 7669 7670 7668 AND\n2 1 7668 102306 102307 XOR\n2 1 698 102307 7672 XOR\n2 1 77314 77325 66782 XOR\n2 1 66782 77302 87680 XOR\n2 1 87680 85632 110527 XOR\n2 1 66775 77327 87673 XOR\n2 1 87673 85625 110520 XOR\n2 1 77326 77294 68812 XOR\n2 1 77322 77290 68808 XOR\n2 1 66772 77324 87670 XOR\n2 1 87670 85622 110517 XOR\n2 1 102623 102592 77330 XOR\n2 1 77330 102344 7688 XOR\n2 1 705 77330 102375 XOR\n2 1 102375 102344 135778 XOR\n2 1 7687 7688 7686 AND\n2 1 7686 102344 102345 XOR\n2 1 706 102345 7690 XOR\n2 1 102376 102345 135779 XOR\n2 1 77331 102345 7691 XOR\n2 1 7690 7691 7689 AND\n2 1 7689 102345 102346 XOR\n2 1 707 102346 7693 XOR\n2 1 77330 77266 68816 XOR\n2 1 68816 68784 68752 AND\n2 1 68752 77266 85586 XOR\n2 1 68854 775 85624 XOR\n2 1 87672 85624 110519 XOR\n2 1 102326 102295 135759 XOR\n2 1 68932 68900 68868 AND\n2 1 68868 789 85638 XOR\n2 1 87686 85638 110533 XOR\n2 1 66781 77301 87679 XOR\n2 1 77316 787 68930 XOR\n2 1 68930 68898 68866 AND\n2 1 68866 787 85636 XOR\n2 1 87684 85636 110531 XOR\n2 1 77302 77313 66770 XOR\n2 1 66770 77322 87668 XOR\n2 1 87668 110484 19571 XOR\n2 1 19571 19572 19570 AND\n2 1 19570 110484 110485 XOR\n2 1 85621 110485 19575 XOR\n2 1 87668 85620 110515 XOR\n2 1 110515 110484 83572 XOR\n2 1 89716 83572 102625 XOR\n2 1 102625 102594 77332 XOR\n2 1 77332 102346 7694 XOR\n2 1 77332 77268 68818 XOR\n2 1 68818 68786 68754 AND\n2 1 68754 77268 85588 XOR\n2 1 7693 7694 7692 AND\n2 1 707 77332 102377 XOR\n2 1 102377 102346 135780 XOR\n2 1 7692 102346 102347 XOR\n2 1 708 102347 7696 XOR\n2 1 83572 102594 8054 XOR\n2 1 8053 8054 8052 AND\n2 1 8052 102594 102595 XOR\n2 1 89717 102595 8056 XOR\n2 1 102772 102741 77323 XOR\n2 1 77323 77291 68809 XOR\n2 1 77312 77323 66780 XOR\n2 1 66780 77300 87678 XOR\n2 1 77323 77302 66791 XOR\n2 1 77323 102307 7673 XOR\n2 1 7672 7673 7671 AND\n2 1 66771 77323 87669 XOR\n2 1 87669 110485 19574 XOR\n2 1 87669 85621 110516 XOR\n2 1 87678 85630 110525 XOR\n2 1 698 77323 102338 XOR\n2 1 102338 102307 135771 XOR\n2 1 110516 110485 83573 XOR\n2 1 83573 102595 8057 XOR\n2 1 8056 8057 8055 AND\n2 1 8055 102595 102596 XOR\n2 1 89718 102596 8059 XOR\n2 1 89717 83573 102626 XOR\n2 1 102626 102595 77333 XOR\n2 1 77333 102347 7697 XOR\n2 1 7696 7697 7695 AND\n2 1 7695 102347 102348 XOR\n2 1 709 102348 7699 XOR\n2 1 708 77333 102378 XOR\n2 1 77333 77269 68819 XOR\n2 1 7671 102307 102308 XOR\n2 1 699 102308 7675 XOR\n2 1 102339 102308 135772 XOR\n2 1 77324 102308 7676 XOR\n2 1 7675 7676 7674 AND\n2 1 7674 102308 102309 XOR\n2 1 102340 102309 135773 XOR\n2 1 77325 102309 7679 XOR\n",
"2 1 700 102309 7678 XOR\n2 1 7678 7679 7677 AND\n2 1 7677 102309 102310 XOR\n2 1 77326 102310 7682 XOR\n2 1 102341 102310 135774 XOR\n2 1 102378 102347 135781 XOR\n2 1 68819 68787 68755 AND\n2 1 68755 77269 85589 XOR\n2 1 77323 794 68937 XOR\n2 1 68937 68905 68873 AND\n2 1 68873 794 85643 XOR\n2 1 87691 85643 110538 XOR\n2 1 19574 19575 19573 AND\n2 1 19573 110485 110486 XOR\n2 1 85622 110486 19578 XOR\n2 1 87670 110486 19577 XOR\n2 1 110517 110486 83574 XOR\n2 1 83574 102596 8060 XOR\n2 1 89718 83574 102627 XOR\n2 1 102627 102596 77334 XOR\n2 1 77334 77270 68820 XOR\n2 1 77334 102348 7700 XOR\n2 1 709 77334 102379 XOR\n2 1 68820 68788 68756 AND\n2 1 102379 102348 135782 XOR\n2 1 7699 7700 7698 AND\n2 1 7698 102348 102349 XOR\n2 1 710 102349 7702 XOR\n2 1 68756 77270 85590 XOR\n2 1 8059 8060 8058 AND\n2 1 8058 102596 102597 XOR\n2 1 89719 102597 8062 XOR\n2 1 66791 77311 87689 XOR\n2 1 87689 85641 110536 XOR\n2 1 701 102310 7681 XOR\n2 1 7681 7682 7680 AND\n2 1 7680 102310 102311 XOR\n2 1 702 102311 7684 XOR\n2 1 77327 102311 7685 XOR\n2 1 7684 7685 7683 AND\n2 1 102342 102311 135775 XOR\n2 1 7683 102311 102312 XOR\n2 1 102343 102312 135776 XOR\n2 1 19577 19578 19576 AND\n2 1 19576 110486 110487 XOR\n2 1 87671 110487 19580 XOR\n2 1 110518 110487 83575 XOR\n2 1 89719 83575 102628 XOR\n2 1 102628 102597 77335 XOR\n2 1 77335 77271 68821 XOR\n2 1 77335 102349 7703 XOR\n2 1 7702 7703 7701 AND\n2 1 68821 68789 68757 AND\n2 1 68757 77271 85591 XOR\n2 1 83575 102597 8063 XOR\n2 1 7701 102349 102350 XOR\n2 1 711 102350 7705 XOR\n2 1 8062 8063 8061 AND\n2 1 8061 102597 102598 XOR\n2 1 89720 102598 8065 XOR\n2 1 85623 110487 19581 XOR\n2 1 19580 19581 19579 AND\n2 1 710 77335 102380 XOR\n2 1 102380 102349 135783 XOR\n2 1 19579 110487 110488 XOR\n2 1 85624 110488 19584 XOR\n2 1 87672 110488 19583 XOR\n2 1 19583 19584 19582 AND\n2 1 19582 110488 110489 XOR\n2 1 87673 110489 19586 XOR\n2 1 110520 110489 83577 XOR\n2 1 89721 83577 102630 XOR\n2 1 85625 110489 19587 XOR\n2 1 19586 19587 19585 AND\n2 1 19585 110489 110490 XOR\n2 1 87674 110490 19589 XOR\n2 1 85626 110490 19590 XOR\n2 1 19589 19590 19588 AND\n2 1 19588 110490 110491 XOR\n2 1 87675 110491 19592 XOR\n2 1 85627 110491 19593 XOR\n2 1 19592 19593 19591 AND\n2 1 19591 110491 110492 XOR\n2 1 110523 110492 83580 XOR\n2 1 89724 83580 102633 XOR\n2 1 85628 110492 19596 XOR\n2 1 110519 110488 83576 XOR\n2 1 89720 83576 102629 XOR\n2 1 102629 102598 77336 XOR\n2 1 77336 77272 68822 XOR\n2 1 68822 68790 68758 AND\n2 1 68758 77272 85592 XOR\n2 1 83576 102598 8066 XOR\n2 1 711 77336 102381 XOR\n2 1 102381 102350 135784 XOR\n2 1 8065 8066 8064 AND\n2 1 8064 102598 102599 XOR\n2 1 102630 102599 77337 XOR\n2 1 77337 77273 68823 XOR\n2 1 68823 68791 68759 AND\n2 1 712 77337 102382 XOR\n2 1 83577 102599 8069 XOR\n2 1 89721 102599 8068 XOR\n2 1 8068 8069 8067 AND\n2 1 8067 102599 102600 XOR\n2 1 89722 102600 8071 XOR\n2 1 68759 77273 85593 XOR\n2 1 77336 102350 7706 XOR\n2 1 7705 7706 7704 AND\n2 1 7704 102350 102351 XOR\n2 1 712 102351 7708 XOR\n2 1 77337 102351 7709 XOR\n2 1 7708 7709 7707 AND\n2 1 102382 102351 135785 XOR\n2 1 7707 102351 102352 XOR\n2 1 713 102352 7711 XOR\n2 1 110522 110491 83579 XOR\n2 1 89723 83579 102632 XOR\n2 1 110521 110490 83578 XOR\n2 1 83578 102600 8072 XOR\n2 1 8071 8072 8070 AND\n2 1 89722 83578 102631 XOR\n2 1 102631 102600 77338 XOR\n2 1 713 77338 102383 XOR\n2 1 8070 102600 102601 XOR\n2 1 102632 102601 77339 XOR\n2 1 77339 77275 68825 XOR\n2 1 68825 68793 68761 AND\n",
"2 1 77338 102352 7712 XOR\n2 1 83579 102601 8075 XOR\n2 1 89723 102601 8074 XOR\n2 1 8074 8075 8073 AND\n2 1 8073 102601 102602 XOR\n2 1 102633 102602 77340 XOR\n2 1 77329 77340 66765 XOR\n2 1 77340 77276 68826 XOR\n2 1 68826 68794 68762 AND\n2 1 68762 77276 85596 XOR\n2 1 102383 102352 135786 XOR\n2 1 77338 77274 68824 XOR\n2 1 89724 102602 8077 XOR\n2 1 68761 77275 85595 XOR\n2 1 68824 68792 68760 AND\n2 1 68760 77274 85594 XOR\n2 1 714 77339 102384 XOR\n2 1 715 77340 102385 XOR\n2 1 7711 7712 7710 AND\n2 1 7710 102352 102353 XOR\n2 1 102384 102353 135787 XOR\n2 1 77339 102353 7715 XOR\n2 1 714 102353 7714 XOR\n2 1 7714 7715 7713 AND\n2 1 7713 102353 102354 XOR\n2 1 715 102354 7717 XOR\n2 1 77340 102354 7718 XOR\n2 1 7717 7718 7716 AND\n2 1 7716 102354 102355 XOR\n2 1 716 102355 7720 XOR\n2 1 102385 102354 135788 XOR\n2 1 83580 102602 8078 XOR\n2 1 8077 8078 8076 AND\n2 1 8076 102602 102603 XOR\n2 1 89725 102603 8080 XOR\n2 1 87676 110492 19595 XOR\n2 1 19595 19596 19594 AND\n2 1 19594 110492 110493 XOR\n2 1 110524 110493 83581 XOR\n2 1 89725 83581 102634 XOR\n2 1 102634 102603 77341 XOR\n2 1 77330 77341 66766 XOR\n2 1 83581 102603 8081 XOR\n2 1 8080 8081 8079 AND\n2 1 8079 102603 102604 XOR\n2 1 85629 110493 19599 XOR\n2 1 77341 102355 7721 XOR\n2 1 716 77341 102386 XOR\n2 1 102386 102355 135789 XOR\n2 1 87677 110493 19598 XOR\n2 1 19598 19599 19597 AND\n2 1 19597 110493 110494 XOR\n2 1 85630 110494 19602 XOR\n2 1 87678 110494 19601 XOR\n2 1 19601 19602 19600 AND\n2 1 19600 110494 110495 XOR\n2 1 110525 110494 83582 XOR\n2 1 7720 7721 7719 AND\n2 1 7719 102355 102356 XOR\n2 1 717 102356 7723 XOR\n2 1 87679 110495 19604 XOR\n2 1 85631 110495 19605 XOR\n2 1 19604 19605 19603 AND\n2 1 19603 110495 110496 XOR\n2 1 110527 110496 83584 XOR\n2 1 85632 110496 19608 XOR\n2 1 87680 110496 19607 XOR\n2 1 19607 19608 19606 AND\n2 1 19606 110496 110497 XOR\n2 1 85633 110497 19611 XOR\n2 1 87681 110497 19610 XOR\n2 1 19610 19611 19609 AND\n2 1 19609 110497 110498 XOR\n2 1 85634 110498 19614 XOR\n2 1 110529 110498 83586 XOR\n2 1 110528 110497 83585 XOR\n2 1 87682 110498 19613 XOR\n2 1 19613 19614 19612 AND\n2 1 77341 77277 68827 XOR\n2 1 68827 68795 68763 AND\n2 1 68763 77277 85597 XOR\n2 1 19612 110498 110499 XOR\n2 1 87683 110499 19616 XOR\n2 1 110530 110499 83587 XOR\n2 1 85635 110499 19617 XOR\n2 1 19616 19617 19615 AND\n2 1 19615 110499 110500 XOR\n2 1 87684 110500 19619 XOR\n2 1 110531 110500 83588 XOR\n2 1 83582 102604 8084 XOR\n2 1 85636 110500 19620 XOR\n2 1 19619 19620 19618 AND\n2 1 19618 110500 110501 XOR\n2 1 85637 110501 19623 XOR\n2 1 110532 110501 83589 XOR\n2 1 87685 110501 19622 XOR\n2 1 19622 19623 19621 AND\n2 1 19621 110501 110502 XOR\n2 1 85638 110502 19626 XOR\n2 1 110533 110502 83590 XOR\n2 1 87686 110502 19625 XOR\n2 1 19625 19626 19624 AND\n2 1 19624 110502 110503 XOR\n2 1 85639 110503 19629 XOR\n2 1 87687 110503 19628 XOR\n2 1 19628 19629 19627 AND\n2 1 19627 110503 110504 XOR\n2 1 110535 110504 83592 XOR\n2 1 110534 110503 83591 XOR\n2 1 87688 110504 19631 XOR\n2 1 85640 110504 19632 XOR\n2 1 19631 19632 19630 AND\n2 1 19630 110504 110505 XOR\n2 1 85641 110505 19635 XOR\n2 1 87689 110505 19634 XOR\n2 1 19634 19635 19633 AND\n2 1 19633 110505 110506 XOR\n2 1 110537 110506 83594 XOR\n2 1 85642 110506 19638 XOR\n2 1 87690 110506 19637 XOR\n2 1 19637 19638 19636 AND\n2 1 19636 110506 110507 XOR\n2 1 110538 110507 83595 XOR\n2 1 87691 110507 19640 XOR\n2 1 85643 110507 19641 XOR\n2 1 19640 19641 19639 AND\n2 1 19639 110507 110508 XOR\n2 1 110539 110508 83596 XOR\n",
"2 1 87692 110508 19643 XOR\n2 1 85644 110508 19644 XOR\n2 1 19643 19644 19642 AND\n2 1 19642 110508 110509 XOR\n2 1 110540 110509 83597 XOR\n2 1 87693 110509 19646 XOR\n2 1 85645 110509 19647 XOR\n2 1 19646 19647 19645 AND\n2 1 19645 110509 110510 XOR\n2 1 110541 110510 83598 XOR\n2 1 87694 110510 19649 XOR\n2 1 85646 110510 19650 XOR\n2 1 19649 19650 19648 AND\n2 1 19648 110510 110511 XOR\n2 1 85647 110511 19653 XOR\n2 1 110542 110511 83599 XOR\n2 1 87695 110511 19652 XOR\n2 1 19652 19653 19651 AND\n2 1 19651 110511 110512 XOR\n2 1 110543 110512 83600 XOR\n2 1 110536 110505 83593 XOR\n2 1 87679 85631 110526 XOR\n2 1 110526 110495 83583 XOR\n2 1 645 77270 102255 XOR\n2 1 102255 102224 135718 XOR\n2 1 77285 102239 7565 XOR\n2 1 7564 7565 7563 AND\n2 1 7563 102239 102240 XOR\n2 1 102271 102240 135734 XOR\n2 1 77286 102240 7568 XOR\n2 1 661 102240 7567 XOR\n2 1 7567 7568 7566 AND\n2 1 7566 102240 102241 XOR\n2 1 102272 102241 135735 XOR\n2 1 77287 102241 7571 XOR\n2 1 662 102241 7570 XOR\n2 1 7570 7571 7569 AND\n2 1 7569 102241 102242 XOR\n2 1 77288 102242 7574 XOR\n2 1 102273 102242 135736 XOR\n2 1 663 102242 7573 XOR\n2 1 7573 7574 7572 AND\n2 1 7572 102242 102243 XOR\n2 1 77289 102243 7577 XOR\n2 1 664 102243 7576 XOR\n2 1 102274 102243 135737 XOR\n2 1 7576 7577 7575 AND\n2 1 7575 102243 102244 XOR\n2 1 77290 102244 7580 XOR\n2 1 665 102244 7579 XOR\n2 1 7579 7580 7578 AND\n2 1 102275 102244 135738 XOR\n2 1 7578 102244 102245 XOR\n2 1 77291 102245 7583 XOR\n2 1 666 102245 7582 XOR\n2 1 7582 7583 7581 AND\n2 1 102276 102245 135739 XOR\n2 1 7581 102245 102246 XOR\n2 1 102277 102246 135740 XOR\n2 1 667 102246 7585 XOR\n2 1 77292 102246 7586 XOR\n2 1 7585 7586 7584 AND\n2 1 7584 102246 102247 XOR\n2 1 102278 102247 135741 XOR\n2 1 668 102247 7588 XOR\n2 1 77293 102247 7589 XOR\n2 1 7588 7589 7587 AND\n2 1 7587 102247 102248 XOR\n2 1 102279 102248 135742 XOR\n2 1 77294 102248 7592 XOR\n2 1 669 102248 7591 XOR\n2 1 7591 7592 7590 AND\n2 1 7590 102248 102249 XOR\n2 1 77295 102249 7595 XOR\n2 1 670 102249 7594 XOR\n2 1 7594 7595 7593 AND\n2 1 102280 102249 135743 XOR\n2 1 7593 102249 102250 XOR\n2 1 102281 102250 135744 XOR\n2 1 110649 110618 93763 XOR\n2 1 93763 110556 19815 XOR\n2 1 19814 19815 19813 AND\n2 1 95811 93763 110587 XOR\n2 1 110587 110556 91770 XOR\n2 1 91770 19741 19686 XOR\n1 1 91770 19763 INV\n2 1 19763 19741 89726 XOR\n2 1 89726 102542 7994 XOR\n2 1 7993 7994 7992 AND\n2 1 813 89726 102573 XOR\n2 1 102573 102542 77214 XOR\n2 1 62876 77214 62844 AND\n2 1 77209 77214 60817 XOR\n2 1 19686 19687 19685 AND\n2 1 19685 19741 19689 XOR\n2 1 19813 110556 110557 XOR\n2 1 95812 110557 19817 XOR\n2 1 110588 110557 91771 XOR\n2 1 93764 110557 19818 XOR\n2 1 19817 19818 19816 AND\n2 1 19816 110557 110558 XOR\n2 1 93765 110558 19821 XOR\n2 1 95813 110558 19820 XOR\n2 1 19820 19821 19819 AND\n2 1 19819 110558 110559 XOR\n2 1 95814 110559 19823 XOR\n2 1 93766 110559 19824 XOR\n2 1 19823 19824 19822 AND\n2 1 19822 110559 110560 XOR\n2 1 95815 110560 19826 XOR\n2 1 110589 110558 91772 XOR\n1 1 91772 19764 INV\n2 1 91771 19689 89727 XOR\n2 1 89727 83583 102636 XOR\n2 1 814 89727 102574 XOR\n2 1 89727 19689 19688 AND\n2 1 19688 19689 19742 XOR\n2 1 91772 19742 19691 XOR\n2 1 19764 19742 89728 XOR\n2 1 815 89728 102575 XOR\n2 1 589 77214 102139 XOR\n2 1 102139 102108 135662 XOR\n2 1 110591 110560 91774 XOR\n2 1 7992 102542 102543 XOR\n2 1 89727 102543 7997 XOR\n2 1 102574 102543 77215 XOR\n2 1 77210 77215 60818 XOR\n2 1 62877 77215 62845 AND\n",
"2 1 62845 77151 97828 XOR\n2 1 590 77215 102140 XOR\n2 1 814 102543 7996 XOR\n2 1 7996 7997 7995 AND\n2 1 7995 102543 102544 XOR\n2 1 89728 102544 8000 XOR\n2 1 102575 102544 77216 XOR\n2 1 815 102544 7999 XOR\n2 1 7999 8000 7998 AND\n2 1 7998 102544 102545 XOR\n2 1 816 102545 8002 XOR\n2 1 62878 77216 62846 AND\n2 1 62846 77152 97829 XOR\n2 1 93767 110560 19827 XOR\n2 1 19826 19827 19825 AND\n2 1 19825 110560 110561 XOR\n2 1 110592 110561 91775 XOR\n2 1 95816 110561 19829 XOR\n2 1 93768 110561 19830 XOR\n2 1 19829 19830 19828 AND\n2 1 19828 110561 110562 XOR\n2 1 93769 110562 19833 XOR\n2 1 95817 110562 19832 XOR\n2 1 19832 19833 19831 AND\n2 1 19831 110562 110563 XOR\n2 1 93770 110563 19836 XOR\n2 1 95818 110563 19835 XOR\n2 1 19835 19836 19834 AND\n2 1 19834 110563 110564 XOR\n2 1 95819 110564 19838 XOR\n2 1 93771 110564 19839 XOR\n2 1 19838 19839 19837 AND\n2 1 19837 110564 110565 XOR\n2 1 93772 110565 19842 XOR\n2 1 95820 110565 19841 XOR\n2 1 19841 19842 19840 AND\n2 1 110595 110564 91778 XOR\n1 1 91778 19768 INV\n2 1 110594 110563 91777 XOR\n1 1 91777 19767 INV\n2 1 110596 110565 91779 XOR\n1 1 91779 19769 INV\n2 1 19840 110565 110566 XOR\n2 1 95821 110566 19844 XOR\n2 1 110597 110566 91780 XOR\n1 1 91780 19770 INV\n2 1 93773 110566 19845 XOR\n2 1 19844 19845 19843 AND\n2 1 19843 110566 110567 XOR\n2 1 110598 110567 91781 XOR\n2 1 93774 110567 19848 XOR\n2 1 95822 110567 19847 XOR\n2 1 19847 19848 19846 AND\n2 1 19846 110567 110568 XOR\n2 1 93775 110568 19851 XOR\n2 1 77214 102108 7364 XOR\n2 1 7363 7364 7362 AND\n2 1 110599 110568 91782 XOR\n1 1 91782 19771 INV\n2 1 62844 77150 97827 XOR\n2 1 89728 83584 102637 XOR\n2 1 110590 110559 91773 XOR\n1 1 91773 19765 INV\n2 1 77211 77216 60819 XOR\n2 1 89726 102604 8083 XOR\n2 1 8083 8084 8082 AND\n2 1 8082 102604 102605 XOR\n2 1 102636 102605 77343 XOR\n2 1 77343 77279 68829 XOR\n2 1 718 77343 102388 XOR\n2 1 83583 102605 8087 XOR\n2 1 77332 77343 66736 XOR\n2 1 89727 102605 8086 XOR\n2 1 8086 8087 8085 AND\n2 1 8085 102605 102606 XOR\n2 1 102637 102606 77344 XOR\n2 1 77344 77280 68830 XOR\n2 1 68830 68798 68766 AND\n2 1 68766 77280 85600 XOR\n2 1 83584 102606 8090 XOR\n2 1 719 77344 102389 XOR\n2 1 77333 77344 66737 XOR\n2 1 89728 102606 8089 XOR\n2 1 8089 8090 8088 AND\n2 1 8088 102606 102607 XOR\n2 1 83585 102607 8093 XOR\n2 1 89726 83582 102635 XOR\n2 1 102635 102604 77342 XOR\n2 1 717 77342 102387 XOR\n2 1 77342 102356 7724 XOR\n2 1 7723 7724 7722 AND\n2 1 102387 102356 135790 XOR\n2 1 7722 102356 102357 XOR\n2 1 102388 102357 135791 XOR\n2 1 77342 77278 68828 XOR\n2 1 68828 68796 68764 AND\n2 1 68764 77278 85598 XOR\n2 1 77343 102357 7727 XOR\n2 1 718 102357 7726 XOR\n2 1 7726 7727 7725 AND\n2 1 7725 102357 102358 XOR\n2 1 719 102358 7729 XOR\n2 1 102389 102358 135792 XOR\n2 1 77344 102358 7730 XOR\n2 1 7729 7730 7728 AND\n2 1 77331 77342 66735 XOR\n2 1 7728 102358 102359 XOR\n2 1 110593 110562 91776 XOR\n1 1 91776 19766 INV\n2 1 7362 102108 102109 XOR\n2 1 102140 102109 135663 XOR\n2 1 77215 102109 7367 XOR\n2 1 95823 110568 19850 XOR\n2 1 19850 19851 19849 AND\n2 1 19849 110568 110569 XOR\n2 1 95824 110569 19853 XOR\n2 1 110600 110569 91783 XOR\n1 1 91783 19772 INV\n2 1 93776 110569 19854 XOR\n2 1 19853 19854 19852 AND\n2 1 19852 110569 110570 XOR\n2 1 110601 110570 91784 XOR\n1 1 91784 19773 INV\n2 1 95825 110570 19856 XOR\n2 1 68829 68797 68765 AND\n2 1 68765 77279 85599 XOR\n1 1 19742 19692 INV\n2 1 19691 19692 19690 AND\n",
"2 1 19690 19742 19743 XOR\n2 1 19765 19743 89729 XOR\n2 1 89729 102607 8092 XOR\n2 1 8092 8093 8091 AND\n2 1 8091 102607 102608 XOR\n2 1 83586 102608 8096 XOR\n1 1 19743 19695 INV\n2 1 816 89729 102576 XOR\n2 1 102576 102545 77217 XOR\n2 1 77212 77217 60820 XOR\n2 1 89729 83585 102638 XOR\n2 1 102638 102607 77345 XOR\n2 1 720 77345 102390 XOR\n2 1 102390 102359 135793 XOR\n2 1 77334 77345 66738 XOR\n2 1 77345 102359 7733 XOR\n2 1 592 77217 102142 XOR\n2 1 91773 19743 19694 XOR\n2 1 89729 102545 8003 XOR\n2 1 8002 8003 8001 AND\n2 1 8001 102545 102546 XOR\n2 1 817 102546 8005 XOR\n2 1 19694 19695 19693 AND\n2 1 19693 19743 19697 XOR\n2 1 91774 19697 89730 XOR\n2 1 89730 19697 19696 AND\n2 1 19696 19697 19699 XOR\n2 1 817 89730 102577 XOR\n2 1 89730 102546 8006 XOR\n2 1 8005 8006 8004 AND\n2 1 8004 102546 102547 XOR\n2 1 102577 102546 77218 XOR\n2 1 77213 77218 60821 XOR\n2 1 593 77218 102143 XOR\n2 1 818 102547 8008 XOR\n2 1 62880 77218 62848 AND\n2 1 62848 77154 97831 XOR\n2 1 89730 102608 8095 XOR\n2 1 8095 8096 8094 AND\n2 1 8094 102608 102609 XOR\n2 1 83587 102609 8099 XOR\n2 1 89730 83586 102639 XOR\n2 1 102639 102608 77346 XOR\n2 1 77335 77346 66739 XOR\n2 1 721 77346 102391 XOR\n2 1 77346 77282 68832 XOR\n2 1 68832 68800 68768 AND\n2 1 68768 77282 85602 XOR\n2 1 62879 77217 62847 AND\n2 1 62847 77153 97830 XOR\n2 1 77345 77281 68831 XOR\n2 1 68831 68799 68767 AND\n2 1 68767 77281 85601 XOR\n2 1 91775 19699 89731 XOR\n2 1 89731 19699 19698 AND\n2 1 19698 19699 19744 XOR\n2 1 91776 19744 19701 XOR\n1 1 19744 19702 INV\n2 1 19701 19702 19700 AND\n2 1 19700 19744 19745 XOR\n1 1 19745 19705 INV\n2 1 91777 19745 19704 XOR\n2 1 19704 19705 19703 AND\n2 1 19703 19745 19746 XOR\n2 1 91778 19746 19707 XOR\n1 1 19746 19708 INV\n2 1 19707 19708 19706 AND\n2 1 19706 19746 19747 XOR\n1 1 19747 19711 INV\n2 1 19769 19747 89735 XOR\n2 1 91779 19747 19710 XOR\n2 1 822 89735 102582 XOR\n2 1 19710 19711 19709 AND\n2 1 19709 19747 19748 XOR\n1 1 19748 19714 INV\n2 1 91780 19748 19713 XOR\n2 1 19713 19714 19712 AND\n2 1 19712 19748 19716 XOR\n2 1 19770 19748 89736 XOR\n2 1 91781 19716 89737 XOR\n2 1 89737 83593 102646 XOR\n2 1 824 89737 102584 XOR\n2 1 823 89736 102583 XOR\n2 1 89736 83592 102645 XOR\n2 1 89737 19716 19715 AND\n2 1 19715 19716 19749 XOR\n1 1 19749 19719 INV\n2 1 19771 19749 89738 XOR\n2 1 91782 19749 19718 XOR\n2 1 825 89738 102585 XOR\n2 1 19718 19719 19717 AND\n2 1 19717 19749 19750 XOR\n1 1 19750 19722 INV\n2 1 19772 19750 89739 XOR\n2 1 826 89739 102586 XOR\n2 1 91783 19750 19721 XOR\n2 1 19721 19722 19720 AND\n2 1 19720 19750 19751 XOR\n2 1 19773 19751 89740 XOR\n2 1 89740 83596 102649 XOR\n2 1 827 89740 102587 XOR\n1 1 19751 19725 INV\n2 1 89739 83595 102648 XOR\n2 1 19768 19746 89734 XOR\n2 1 89734 83590 102643 XOR\n2 1 89735 83591 102644 XOR\n2 1 821 89734 102581 XOR\n2 1 91784 19751 19724 XOR\n2 1 19724 19725 19723 AND\n2 1 19723 19751 19752 XOR\n1 1 19752 19728 INV\n2 1 19767 19745 89733 XOR\n2 1 89733 83589 102642 XOR\n2 1 820 89733 102580 XOR\n2 1 19766 19744 89732 XOR\n2 1 819 89732 102579 XOR\n2 1 89732 83588 102641 XOR\n2 1 89731 83587 102640 XOR\n2 1 102640 102609 77347 XOR\n2 1 722 77347 102392 XOR\n2 1 818 89731 102578 XOR\n2 1 102578 102547 77219 XOR\n2 1 594 77219 102144 XOR\n2 1 89731 102547 8009 XOR\n2 1 8008 8009 8007 AND\n2 1 8007 102547 102548 XOR\n2 1 102579 102548 77220 XOR\n2 1 77215 77220 60823 XOR\n",
"2 1 60823 77202 99870 XOR\n2 1 819 102548 8011 XOR\n2 1 89732 102548 8012 XOR\n2 1 8011 8012 8010 AND\n2 1 8010 102548 102549 XOR\n2 1 102580 102549 77221 XOR\n2 1 596 77221 102146 XOR\n2 1 77216 77221 60824 XOR\n2 1 60824 77203 99871 XOR\n2 1 820 102549 8014 XOR\n2 1 89733 102549 8015 XOR\n2 1 8014 8015 8013 AND\n2 1 8013 102549 102550 XOR\n2 1 102581 102550 77222 XOR\n2 1 60843 77222 99890 XOR\n2 1 77217 77222 60825 XOR\n2 1 597 77222 102147 XOR\n2 1 62884 77222 62852 AND\n2 1 60825 77204 99872 XOR\n2 1 99872 97824 110460 XOR\n2 1 821 102550 8017 XOR\n2 1 89734 102550 8018 XOR\n2 1 8017 8018 8016 AND\n2 1 8016 102550 102551 XOR\n2 1 89735 102551 8021 XOR\n2 1 102582 102551 77223 XOR\n2 1 60844 77223 99891 XOR\n2 1 77218 77223 60826 XOR\n2 1 60826 77205 99873 XOR\n2 1 598 77223 102148 XOR\n2 1 62885 77223 62853 AND\n2 1 822 102551 8020 XOR\n2 1 8020 8021 8019 AND\n2 1 8019 102551 102552 XOR\n2 1 823 102552 8023 XOR\n2 1 102583 102552 77224 XOR\n2 1 599 77224 102149 XOR\n2 1 77219 77224 60827 XOR\n2 1 60845 77224 99892 XOR\n2 1 60827 77206 99874 XOR\n2 1 99874 97826 110462 XOR\n2 1 89736 102552 8024 XOR\n2 1 8023 8024 8022 AND\n2 1 99870 97822 110458 XOR\n2 1 62881 77219 62849 AND\n2 1 62849 77155 97832 XOR\n2 1 62886 77224 62854 AND\n2 1 62852 77158 97835 XOR\n2 1 62854 77160 97837 XOR\n2 1 62853 77159 97836 XOR\n2 1 77336 77347 66740 XOR\n2 1 62882 77220 62850 AND\n2 1 89731 102609 8098 XOR\n2 1 8098 8099 8097 AND\n2 1 8097 102609 102610 XOR\n2 1 83588 102610 8102 XOR\n2 1 89732 102610 8101 XOR\n2 1 102641 102610 77348 XOR\n2 1 77337 77348 66741 XOR\n2 1 8101 8102 8100 AND\n2 1 8022 102552 102553 XOR\n2 1 824 102553 8026 XOR\n2 1 89737 102553 8027 XOR\n2 1 102584 102553 77225 XOR\n2 1 600 77225 102150 XOR\n2 1 60846 77225 99893 XOR\n2 1 77220 77225 60828 XOR\n2 1 8026 8027 8025 AND\n2 1 8025 102553 102554 XOR\n2 1 102585 102554 77226 XOR\n2 1 601 77226 102151 XOR\n2 1 89738 102554 8030 XOR\n2 1 77221 77226 60829 XOR\n2 1 825 102554 8029 XOR\n2 1 62888 77226 62856 AND\n2 1 62856 77162 97839 XOR\n2 1 8029 8030 8028 AND\n2 1 60829 77208 99876 XOR\n2 1 99876 97828 110464 XOR\n2 1 8028 102554 102555 XOR\n2 1 826 102555 8032 XOR\n2 1 102586 102555 77227 XOR\n2 1 60816 77227 99863 XOR\n2 1 99863 97815 110451 XOR\n2 1 77222 77227 60830 XOR\n2 1 602 77227 102152 XOR\n2 1 60815 77226 99862 XOR\n2 1 99862 97814 95766 XOR\n2 1 99862 97814 110420 AND\n2 1 99863 110420 19475 XOR\n2 1 95766 93718 110296 AND\n2 1 110451 110420 95767 XOR\n2 1 95767 110296 19295 XOR\n2 1 97815 110420 19476 XOR\n2 1 19475 19476 19474 AND\n2 1 19474 110420 110421 XOR\n2 1 97816 110421 19479 XOR\n2 1 93719 110296 19296 XOR\n2 1 19295 19296 19294 AND\n2 1 19294 110296 110297 XOR\n2 1 95767 93719 110327 XOR\n2 1 62889 77227 62857 AND\n2 1 62857 77163 97840 XOR\n2 1 62887 77225 62855 AND\n2 1 62855 77161 97838 XOR\n2 1 723 77348 102393 XOR\n2 1 60828 77207 99875 XOR\n2 1 99875 97827 110463 XOR\n2 1 95766 93718 89681 XOR\n2 1 768 89681 77233 XOR\n2 1 768 89681 135399 AND\n2 1 769 135399 74788 XOR\n2 1 89739 102555 8033 XOR\n2 1 8032 8033 8031 AND\n2 1 110327 110296 91726 XOR\n1 1 91726 89682 INV\n2 1 89682 135399 74789 XOR\n2 1 74788 74789 74787 AND\n2 1 74787 135399 135400 XOR\n2 1 769 89682 135430 XOR\n2 1 770 135400 74791 XOR\n2 1 135430 135399 77234 XOR\n2 1 60830 77209 99877 XOR\n2 1 99877 97829 110465 XOR\n2 1 77347 77283 68833 XOR\n2 1 68833 68801 68769 AND\n2 1 68769 77283 85603 XOR\n2 1 609 77234 102189 XOR\n",
"2 1 99871 97823 110459 XOR\n2 1 8031 102555 102556 XOR\n2 1 827 102556 8035 XOR\n2 1 102587 102556 77228 XOR\n2 1 60817 77228 99864 XOR\n2 1 99864 97816 110452 XOR\n2 1 77223 77228 60831 XOR\n2 1 99864 110421 19478 XOR\n2 1 19478 19479 19477 AND\n2 1 19477 110421 110422 XOR\n2 1 97817 110422 19482 XOR\n2 1 62890 77228 62858 AND\n2 1 62858 77164 97841 XOR\n2 1 110452 110421 95768 XOR\n2 1 95768 110297 19298 XOR\n2 1 95768 93720 110328 XOR\n2 1 110328 110297 91727 XOR\n2 1 77228 77201 60836 XOR\n2 1 60836 77215 99883 XOR\n2 1 99883 97835 110471 XOR\n2 1 8100 102610 102611 XOR\n2 1 89733 102611 8104 XOR\n2 1 102642 102611 77349 XOR\n2 1 724 77349 102394 XOR\n2 1 77338 77349 66742 XOR\n2 1 66765 77349 87663 XOR\n2 1 77349 77285 68835 XOR\n2 1 68835 68803 68771 AND\n2 1 68771 77285 85605 XOR\n2 1 62850 77156 97833 XOR\n2 1 603 77228 102153 XOR\n2 1 608 77233 102158 AND\n2 1 609 102158 7417 XOR\n2 1 102189 102158 135682 XOR\n2 1 77234 102158 7418 XOR\n2 1 7417 7418 7416 AND\n2 1 7416 102158 102159 XOR\n2 1 610 102159 7420 XOR\n2 1 60831 77210 99878 XOR\n2 1 99878 97830 110466 XOR\n2 1 608 77233 135681 XOR\n2 1 99873 97825 110461 XOR\n2 1 60842 77221 99889 XOR\n2 1 99889 97841 110477 XOR\n2 1 60841 77220 99888 XOR\n2 1 99888 97840 110476 XOR\n2 1 595 77220 102145 XOR\n2 1 62883 77221 62851 AND\n2 1 62851 77157 97834 XOR\n2 1 89740 102556 8036 XOR\n2 1 8035 8036 8034 AND\n2 1 8034 102556 102557 XOR\n2 1 828 102557 8038 XOR\n2 1 93720 110297 19299 XOR\n2 1 19298 19299 19297 AND\n2 1 19297 110297 110298 XOR\n2 1 93721 110298 19302 XOR\n2 1 83589 102611 8105 XOR\n2 1 8104 8105 8103 AND\n2 1 8103 102611 102612 XOR\n2 1 83590 102612 8108 XOR\n2 1 89734 102612 8107 XOR\n2 1 8107 8108 8106 AND\n2 1 8106 102612 102613 XOR\n2 1 83591 102613 8111 XOR\n2 1 89735 102613 8110 XOR\n2 1 8110 8111 8109 AND\n2 1 8109 102613 102614 XOR\n2 1 102645 102614 77352 XOR\n2 1 727 77352 102397 XOR\n2 1 89736 102614 8113 XOR\n2 1 77352 77288 68838 XOR\n2 1 66736 77352 87634 XOR\n2 1 77352 77331 66756 XOR\n2 1 77341 77352 66745 XOR\n2 1 66745 77329 87643 XOR\n2 1 87643 85595 110258 XOR\n2 1 102643 102612 77350 XOR\n2 1 77339 77350 66743 XOR\n2 1 77350 77329 66754 XOR\n2 1 66766 77350 87664 XOR\n2 1 77350 77286 68836 XOR\n2 1 68836 68804 68772 AND\n2 1 66754 77338 87652 XOR\n2 1 68772 77286 85606 XOR\n2 1 102644 102613 77351 XOR\n2 1 726 77351 102396 XOR\n2 1 77351 77330 66755 XOR\n2 1 66755 77339 87653 XOR\n2 1 77340 77351 66744 XOR\n2 1 66735 77351 87633 XOR\n2 1 87633 85585 83537 XOR\n2 1 77351 77287 68837 XOR\n2 1 68837 68805 68773 AND\n2 1 68773 77287 85607 XOR\n2 1 89681 83537 77361 XOR\n2 1 736 77361 102406 AND\n2 1 737 102406 7777 XOR\n2 1 736 77361 135809 XOR\n2 1 87653 85605 110268 XOR\n2 1 87633 85585 110218 AND\n2 1 87634 110218 19117 XOR\n2 1 85586 110218 19118 XOR\n2 1 19117 19118 19116 AND\n2 1 19116 110218 110219 XOR\n2 1 85587 110219 19121 XOR\n2 1 725 77350 102395 XOR\n2 1 66756 77340 87654 XOR\n2 1 68838 68806 68774 AND\n2 1 68774 77288 85608 XOR\n2 1 87654 85606 110269 XOR\n2 1 720 102359 7732 XOR\n2 1 7732 7733 7731 AND\n2 1 7731 102359 102360 XOR\n2 1 102391 102360 135794 XOR\n2 1 721 102360 7735 XOR\n2 1 77346 102360 7736 XOR\n2 1 7735 7736 7734 AND\n2 1 7734 102360 102361 XOR\n2 1 102392 102361 135795 XOR\n2 1 77347 102361 7739 XOR\n2 1 722 102361 7738 XOR\n2 1 7738 7739 7737 AND\n2 1 7737 102361 102362 XOR\n2 1 102393 102362 135796 XOR\n2 1 723 102362 7741 XOR\n2 1 77348 102362 7742 XOR\n2 1 7741 7742 7740 AND\n",
"2 1 7740 102362 102363 XOR\n2 1 102394 102363 135797 XOR\n2 1 724 102363 7744 XOR\n2 1 77349 102363 7745 XOR\n2 1 7744 7745 7743 AND\n2 1 7743 102363 102364 XOR\n2 1 77350 102364 7748 XOR\n2 1 102395 102364 135798 XOR\n2 1 725 102364 7747 XOR\n2 1 7747 7748 7746 AND\n2 1 7746 102364 102365 XOR\n2 1 77351 102365 7751 XOR\n2 1 726 102365 7750 XOR\n2 1 7750 7751 7749 AND\n2 1 7749 102365 102366 XOR\n2 1 77352 102366 7754 XOR\n2 1 102397 102366 135800 XOR\n2 1 727 102366 7753 XOR\n2 1 7753 7754 7752 AND\n2 1 7752 102366 102367 XOR\n2 1 728 102367 7756 XOR\n2 1 102396 102365 135799 XOR\n2 1 87634 85586 110249 XOR\n2 1 110249 110218 83538 XOR\n2 1 89682 83538 102499 XOR\n2 1 83592 102614 8114 XOR\n2 1 93777 110570 19857 XOR\n2 1 77348 77284 68834 XOR\n2 1 68834 68802 68770 AND\n2 1 68770 77284 85604 XOR\n2 1 87652 85604 110267 XOR\n2 1 89681 83537 102468 AND\n2 1 83538 102468 7868 XOR\n2 1 102499 102468 77362 XOR\n2 1 737 77362 102437 XOR\n2 1 89682 102468 7867 XOR\n2 1 7867 7868 7866 AND\n2 1 7866 102468 102469 XOR\n2 1 77362 102406 7778 XOR\n2 1 7777 7778 7776 AND\n2 1 7776 102406 102407 XOR\n2 1 738 102407 7780 XOR\n2 1 102437 102406 135810 XOR\n2 1 591 77216 102141 XOR\n2 1 19856 19857 19855 AND\n2 1 19855 110570 110571 XOR\n2 1 93778 110571 19860 XOR\n2 1 110602 110571 91785 XOR\n2 1 91785 19752 19727 XOR\n2 1 95826 110571 19859 XOR\n2 1 19859 19860 19858 AND\n2 1 19858 110571 110572 XOR\n2 1 110603 110572 91786 XOR\n1 1 91786 19775 INV\n2 1 95827 110572 19862 XOR\n2 1 93779 110572 19863 XOR\n2 1 19862 19863 19861 AND\n2 1 19861 110572 110573 XOR\n2 1 110604 110573 91787 XOR\n2 1 95828 110573 19865 XOR\n1 1 91785 19774 INV\n2 1 19727 19728 19726 AND\n2 1 19726 19752 19753 XOR\n1 1 19753 19731 INV\n2 1 19775 19753 89742 XOR\n2 1 829 89742 102589 XOR\n2 1 89742 83598 102651 XOR\n2 1 91786 19753 19730 XOR\n2 1 19730 19731 19729 AND\n2 1 19729 19753 19733 XOR\n2 1 91787 19733 89743 XOR\n2 1 89743 19733 19732 AND\n2 1 19732 19733 19754 XOR\n2 1 830 89743 102590 XOR\n2 1 89743 83599 102652 XOR\n2 1 19774 19752 89741 XOR\n2 1 89741 102557 8039 XOR\n2 1 828 89741 102588 XOR\n2 1 102588 102557 77229 XOR\n2 1 77224 77229 60832 XOR\n2 1 60832 77211 99879 XOR\n2 1 77229 77202 60837 XOR\n2 1 60818 77229 99865 XOR\n2 1 99865 110422 19481 XOR\n2 1 99865 97817 110453 XOR\n2 1 110453 110422 95769 XOR\n2 1 95769 110298 19301 XOR\n2 1 19301 19302 19300 AND\n2 1 95769 93721 110329 XOR\n2 1 19300 110298 110299 XOR\n2 1 93722 110299 19305 XOR\n2 1 62891 77229 62859 AND\n2 1 62859 77165 97842 XOR\n2 1 99890 97842 110478 XOR\n2 1 60837 77216 99884 XOR\n2 1 99884 97836 110472 XOR\n2 1 89741 83597 102650 XOR\n2 1 110329 110298 91728 XOR\n2 1 8038 8039 8037 AND\n2 1 8037 102557 102558 XOR\n2 1 102589 102558 77230 XOR\n2 1 77225 77230 60833 XOR\n2 1 62892 77230 62860 AND\n2 1 62860 77166 97843 XOR\n2 1 99891 97843 110479 XOR\n2 1 60819 77230 99866 XOR\n2 1 60833 77212 99880 XOR\n2 1 99880 97832 110468 XOR\n2 1 99866 97818 110454 XOR\n2 1 77230 77203 60838 XOR\n2 1 60838 77217 99885 XOR\n2 1 99885 97837 110473 XOR\n2 1 829 102558 8041 XOR\n2 1 605 77230 102155 XOR\n2 1 604 77229 102154 XOR\n2 1 89742 102558 8042 XOR\n2 1 8041 8042 8040 AND\n2 1 8040 102558 102559 XOR\n2 1 102590 102559 77231 XOR\n2 1 830 102559 8044 XOR\n2 1 606 77231 102156 XOR\n2 1 77231 77204 60839 XOR\n2 1 60839 77218 99886 XOR\n2 1 62893 77231 62861 AND\n2 1 60820 77231 99867 XOR\n2 1 99867 97819 110455 XOR\n2 1 99886 97838 110474 XOR\n2 1 77226 77231 60834 XOR\n",
"2 1 60834 77213 99881 XOR\n2 1 99881 97833 110469 XOR\n2 1 89743 102559 8045 XOR\n2 1 8044 8045 8043 AND\n2 1 8043 102559 102560 XOR\n2 1 19481 19482 19480 AND\n2 1 19480 110422 110423 XOR\n2 1 110454 110423 95770 XOR\n2 1 97818 110423 19485 XOR\n2 1 95770 110299 19304 XOR\n2 1 19304 19305 19303 AND\n2 1 19303 110299 110300 XOR\n2 1 99866 110423 19484 XOR\n2 1 19484 19485 19483 AND\n2 1 19483 110423 110424 XOR\n2 1 97819 110424 19488 XOR\n2 1 99867 110424 19487 XOR\n2 1 19487 19488 19486 AND\n2 1 110455 110424 95771 XOR\n2 1 95771 93723 110331 XOR\n2 1 19486 110424 110425 XOR\n2 1 97820 110425 19491 XOR\n2 1 110331 110300 91730 XOR\n1 1 91730 19279 INV\n2 1 95770 93722 110330 XOR\n2 1 110330 110299 91729 XOR\n1 1 91729 19278 INV\n2 1 95771 110300 19307 XOR\n2 1 93723 110300 19308 XOR\n2 1 19307 19308 19306 AND\n2 1 19306 110300 110301 XOR\n2 1 93724 110301 19311 XOR\n2 1 91727 91726 89683 XOR\n2 1 89683 102469 7870 XOR\n2 1 89683 135400 74792 XOR\n2 1 74791 74792 74790 AND\n2 1 74790 135400 135401 XOR\n2 1 771 135401 74794 XOR\n2 1 770 89683 135431 XOR\n2 1 135431 135400 77235 XOR\n2 1 610 77235 102190 XOR\n2 1 102190 102159 135683 XOR\n2 1 77235 102159 7421 XOR\n2 1 7420 7421 7419 AND\n2 1 7419 102159 102160 XOR\n2 1 611 102160 7423 XOR\n2 1 89683 91726 19206 AND\n2 1 19206 91726 19208 XOR\n2 1 91728 19208 89684 XOR\n2 1 89684 19208 19207 AND\n2 1 19207 19208 110280 XOR\n1 1 110280 19211 INV\n2 1 89684 135401 74795 XOR\n2 1 74794 74795 74793 AND\n2 1 771 89684 135432 XOR\n2 1 135432 135401 77236 XOR\n2 1 611 77236 102191 XOR\n2 1 74793 135401 135402 XOR\n2 1 772 135402 74797 XOR\n2 1 19278 110280 89685 XOR\n2 1 772 89685 135433 XOR\n2 1 135433 135402 77237 XOR\n2 1 612 77237 102192 XOR\n2 1 89685 135402 74798 XOR\n2 1 74797 74798 74796 AND\n2 1 74796 135402 135403 XOR\n2 1 773 135403 74800 XOR\n2 1 91729 110280 19210 XOR\n2 1 19210 19211 19209 AND\n2 1 19209 110280 110281 XOR\n2 1 91730 110281 19213 XOR\n1 1 110281 19214 INV\n2 1 19213 19214 19212 AND\n2 1 19212 110281 110282 XOR\n1 1 110282 19217 INV\n2 1 19279 110281 89686 XOR\n2 1 89686 135403 74801 XOR\n2 1 773 89686 135434 XOR\n2 1 135434 135403 77238 XOR\n2 1 613 77238 102193 XOR\n2 1 74800 74801 74799 AND\n2 1 74799 135403 135404 XOR\n2 1 774 135404 74803 XOR\n2 1 590 102109 7366 XOR\n2 1 7366 7367 7365 AND\n2 1 7365 102109 102110 XOR\n2 1 102141 102110 135664 XOR\n2 1 591 102110 7369 XOR\n2 1 77216 102110 7370 XOR\n2 1 7369 7370 7368 AND\n2 1 7368 102110 102111 XOR\n2 1 77217 102111 7373 XOR\n2 1 592 102111 7372 XOR\n2 1 7372 7373 7371 AND\n2 1 102142 102111 135665 XOR\n2 1 7371 102111 102112 XOR\n2 1 593 102112 7375 XOR\n2 1 77218 102112 7376 XOR\n2 1 7375 7376 7374 AND\n2 1 102143 102112 135666 XOR\n2 1 7374 102112 102113 XOR\n2 1 77219 102113 7379 XOR\n2 1 594 102113 7378 XOR\n2 1 7378 7379 7377 AND\n2 1 102144 102113 135667 XOR\n2 1 7377 102113 102114 XOR\n2 1 595 102114 7381 XOR\n2 1 77220 102114 7382 XOR\n2 1 7381 7382 7380 AND\n2 1 7380 102114 102115 XOR\n2 1 102146 102115 135669 XOR\n2 1 596 102115 7384 XOR\n2 1 102145 102114 135668 XOR\n2 1 77221 102115 7385 XOR\n2 1 7384 7385 7383 AND\n2 1 7383 102115 102116 XOR\n2 1 597 102116 7387 XOR\n2 1 102147 102116 135670 XOR\n2 1 77222 102116 7388 XOR\n2 1 7387 7388 7386 AND\n2 1 7386 102116 102117 XOR\n2 1 598 102117 7390 XOR\n2 1 102148 102117 135671 XOR\n2 1 77223 102117 7391 XOR\n2 1 7390 7391 7389 AND\n2 1 7389 102117 102118 XOR\n2 1 599 102118 7393 XOR\n2 1 77224 102118 7394 XOR\n",
"2 1 7393 7394 7392 AND\n2 1 7392 102118 102119 XOR\n2 1 102150 102119 135673 XOR\n2 1 77225 102119 7397 XOR\n2 1 102149 102118 135672 XOR\n2 1 600 102119 7396 XOR\n2 1 7396 7397 7395 AND\n2 1 7395 102119 102120 XOR\n2 1 102151 102120 135674 XOR\n2 1 601 102120 7399 XOR\n2 1 77226 102120 7400 XOR\n2 1 7399 7400 7398 AND\n2 1 7398 102120 102121 XOR\n2 1 77227 102121 7403 XOR\n2 1 102152 102121 135675 XOR\n2 1 602 102121 7402 XOR\n2 1 7402 7403 7401 AND\n2 1 7401 102121 102122 XOR\n2 1 102153 102122 135676 XOR\n2 1 77228 102122 7406 XOR\n2 1 603 102122 7405 XOR\n2 1 7405 7406 7404 AND\n2 1 7404 102122 102123 XOR\n2 1 77229 102123 7409 XOR\n2 1 604 102123 7408 XOR\n2 1 7408 7409 7407 AND\n2 1 7407 102123 102124 XOR\n2 1 77230 102124 7412 XOR\n2 1 605 102124 7411 XOR\n2 1 102155 102124 135678 XOR\n2 1 7411 7412 7410 AND\n2 1 7410 102124 102125 XOR\n2 1 606 102125 7414 XOR\n2 1 77231 102125 7415 XOR\n2 1 7414 7415 7413 AND\n2 1 7413 102125 102126 XOR\n2 1 102156 102125 135679 XOR\n2 1 102154 102123 135677 XOR\n2 1 62861 77167 97844 XOR\n2 1 99892 97844 110480 XOR\n2 1 77236 102160 7424 XOR\n2 1 7423 7424 7422 AND\n2 1 7422 102160 102161 XOR\n2 1 102192 102161 135685 XOR\n2 1 612 102161 7426 XOR\n2 1 77237 102161 7427 XOR\n2 1 7426 7427 7425 AND\n2 1 7425 102161 102162 XOR\n2 1 102193 102162 135686 XOR\n2 1 613 102162 7429 XOR\n2 1 77238 102162 7430 XOR\n2 1 7429 7430 7428 AND\n2 1 7428 102162 102163 XOR\n2 1 614 102163 7432 XOR\n2 1 89738 83594 102647 XOR\n2 1 99879 97831 110467 XOR\n2 1 93780 110573 19866 XOR\n2 1 19865 19866 19864 AND\n2 1 19864 110573 110574 XOR\n2 1 110605 110574 91788 XOR\n1 1 91788 19776 INV\n2 1 19776 19754 89744 XOR\n2 1 89744 83600 102653 XOR\n2 1 831 89744 102591 XOR\n2 1 102591 102560 77232 XOR\n2 1 60821 77232 99868 XOR\n2 1 99868 97820 110456 XOR\n2 1 62894 77232 62862 AND\n2 1 77232 77205 60840 XOR\n2 1 60840 77219 99887 XOR\n2 1 77227 77232 60835 XOR\n2 1 60835 77214 99882 XOR\n2 1 99887 97839 110475 XOR\n2 1 62862 77168 97845 XOR\n2 1 99868 110425 19490 XOR\n2 1 19490 19491 19489 AND\n2 1 19489 110425 110426 XOR\n2 1 97821 110426 19494 XOR\n2 1 99882 97834 110470 XOR\n2 1 607 77232 102157 XOR\n2 1 102157 102126 135680 XOR\n2 1 99893 97845 110481 XOR\n2 1 110456 110425 95772 XOR\n2 1 95772 110301 19310 XOR\n2 1 95772 93724 110332 XOR\n2 1 110332 110301 91731 XOR\n1 1 91731 19280 INV\n2 1 19280 110282 89687 XOR\n2 1 774 89687 135435 XOR\n2 1 89687 135404 74804 XOR\n2 1 91731 110282 19216 XOR\n2 1 19216 19217 19215 AND\n2 1 74803 74804 74802 AND\n2 1 74802 135404 135405 XOR\n2 1 775 135405 74806 XOR\n2 1 19215 110282 110283 XOR\n1 1 110283 19220 INV\n2 1 135435 135404 77239 XOR\n2 1 77239 102163 7433 XOR\n2 1 614 77239 102194 XOR\n2 1 102194 102163 135687 XOR\n2 1 7432 7433 7431 AND\n2 1 7431 102163 102164 XOR\n2 1 615 102164 7435 XOR\n2 1 19310 19311 19309 AND\n2 1 19309 110301 110302 XOR\n2 1 93725 110302 19314 XOR\n2 1 102191 102160 135684 XOR\n2 1 8113 8114 8112 AND\n2 1 8112 102614 102615 XOR\n2 1 89737 102615 8116 XOR\n2 1 102646 102615 77353 XOR\n2 1 66737 77353 87635 XOR\n2 1 77342 77353 66746 XOR\n2 1 728 77353 102398 XOR\n2 1 87635 85587 110250 XOR\n2 1 110250 110219 83539 XOR\n2 1 77353 102367 7757 XOR\n2 1 7756 7757 7755 AND\n2 1 7755 102367 102368 XOR\n2 1 77353 77289 68839 XOR\n2 1 68839 68807 68775 AND\n2 1 68775 77289 85609 XOR\n2 1 77353 77332 66757 XOR\n2 1 66757 77341 87655 XOR\n2 1 89683 83539 102500 XOR\n2 1 102500 102469 77363 XOR\n2 1 77363 102407 7781 XOR\n",
"2 1 7780 7781 7779 AND\n2 1 738 77363 102438 XOR\n2 1 102438 102407 135811 XOR\n2 1 87655 85607 110270 XOR\n2 1 66746 77330 87644 XOR\n2 1 87644 85596 110259 XOR\n2 1 7779 102407 102408 XOR\n2 1 739 102408 7783 XOR\n2 1 729 102368 7759 XOR\n2 1 102398 102367 135801 XOR\n2 1 83593 102615 8117 XOR\n2 1 8116 8117 8115 AND\n2 1 83539 102469 7871 XOR\n2 1 7870 7871 7869 AND\n2 1 7869 102469 102470 XOR\n2 1 89684 102470 7873 XOR\n2 1 87635 110219 19120 XOR\n2 1 19120 19121 19119 AND\n2 1 19119 110219 110220 XOR\n2 1 85588 110220 19124 XOR\n2 1 77214 77219 60822 XOR\n2 1 60822 77201 99869 XOR\n2 1 99869 97821 110457 XOR\n2 1 110457 110426 95773 XOR\n2 1 95773 93725 110333 XOR\n2 1 110333 110302 91732 XOR\n2 1 91732 110283 19219 XOR\n2 1 19219 19220 19218 AND\n1 1 91732 19281 INV\n2 1 19281 110283 89688 XOR\n2 1 89688 135405 74807 XOR\n2 1 74806 74807 74805 AND\n2 1 74805 135405 135406 XOR\n2 1 775 89688 135436 XOR\n2 1 135436 135405 77240 XOR\n2 1 615 77240 102195 XOR\n2 1 77240 102164 7436 XOR\n2 1 7435 7436 7434 AND\n2 1 7434 102164 102165 XOR\n2 1 776 135406 74809 XOR\n2 1 102195 102164 135688 XOR\n2 1 616 102165 7438 XOR\n2 1 95773 110302 19313 XOR\n2 1 19313 19314 19312 AND\n2 1 19312 110302 110303 XOR\n2 1 93726 110303 19317 XOR\n2 1 99869 110426 19493 XOR\n2 1 19493 19494 19492 AND\n2 1 19492 110426 110427 XOR\n2 1 99870 110427 19496 XOR\n2 1 110458 110427 95774 XOR\n2 1 95774 93726 110334 XOR\n2 1 110334 110303 91733 XOR\n2 1 97822 110427 19497 XOR\n2 1 19496 19497 19495 AND\n2 1 19495 110427 110428 XOR\n2 1 97823 110428 19500 XOR\n2 1 110459 110428 95775 XOR\n2 1 99871 110428 19499 XOR\n2 1 19499 19500 19498 AND\n2 1 95775 93727 110335 XOR\n2 1 19218 110283 19222 XOR\n2 1 91733 19222 89689 XOR\n2 1 776 89689 135437 XOR\n2 1 135437 135406 77241 XOR\n2 1 77241 102165 7439 XOR\n2 1 7438 7439 7437 AND\n2 1 89689 135406 74810 XOR\n2 1 74809 74810 74808 AND\n2 1 89689 19222 19221 AND\n2 1 19221 19222 19224 XOR\n2 1 74808 135406 135407 XOR\n2 1 777 135407 74812 XOR\n2 1 616 77241 102196 XOR\n2 1 102196 102165 135689 XOR\n2 1 7437 102165 102166 XOR\n2 1 617 102166 7441 XOR\n2 1 19498 110428 110429 XOR\n2 1 99872 110429 19502 XOR\n2 1 110460 110429 95776 XOR\n2 1 95776 93728 110336 XOR\n2 1 97824 110429 19503 XOR\n2 1 19502 19503 19501 AND\n2 1 19501 110429 110430 XOR\n2 1 110461 110430 95777 XOR\n2 1 95777 93729 110337 XOR\n2 1 97825 110430 19506 XOR\n2 1 99873 110430 19505 XOR\n2 1 19505 19506 19504 AND\n2 1 19504 110430 110431 XOR\n2 1 99874 110431 19508 XOR\n2 1 97826 110431 19509 XOR\n2 1 110462 110431 95778 XOR\n2 1 95778 93730 110338 XOR\n2 1 19508 19509 19507 AND\n2 1 19507 110431 110432 XOR\n2 1 97827 110432 19512 XOR\n2 1 99875 110432 19511 XOR\n2 1 19511 19512 19510 AND\n2 1 19510 110432 110433 XOR\n2 1 99876 110433 19514 XOR\n2 1 110464 110433 95780 XOR\n2 1 97828 110433 19515 XOR\n2 1 19514 19515 19513 AND\n2 1 19513 110433 110434 XOR\n2 1 97829 110434 19518 XOR\n2 1 99877 110434 19517 XOR\n2 1 19517 19518 19516 AND\n2 1 19516 110434 110435 XOR\n2 1 97830 110435 19521 XOR\n2 1 110466 110435 95782 XOR\n2 1 95782 93734 110342 XOR\n2 1 99878 110435 19520 XOR\n2 1 19520 19521 19519 AND\n2 1 19519 110435 110436 XOR\n2 1 110467 110436 95783 XOR\n2 1 95783 93735 110343 XOR\n2 1 97831 110436 19524 XOR\n2 1 99879 110436 19523 XOR\n2 1 95780 93732 110340 XOR\n2 1 110465 110434 95781 XOR\n2 1 95781 93733 110341 XOR\n2 1 110463 110432 95779 XOR\n2 1 95779 93731 110339 XOR\n2 1 95774 110303 19316 XOR\n2 1 19316 19317 19315 AND\n2 1 19315 110303 110304 XOR\n2 1 93727 110304 19320 XOR\n",
"2 1 95775 110304 19319 XOR\n2 1 19319 19320 19318 AND\n2 1 19318 110304 110305 XOR\n2 1 95776 110305 19322 XOR\n2 1 93728 110305 19323 XOR\n2 1 19322 19323 19321 AND\n2 1 110336 110305 91735 XOR\n2 1 19321 110305 110306 XOR\n2 1 110337 110306 91736 XOR\n2 1 93729 110306 19326 XOR\n1 1 91736 19282 INV\n2 1 95777 110306 19325 XOR\n2 1 19325 19326 19324 AND\n2 1 19324 110306 110307 XOR\n2 1 93730 110307 19329 XOR\n2 1 95778 110307 19328 XOR\n2 1 19328 19329 19327 AND\n2 1 19327 110307 110308 XOR\n2 1 93731 110308 19332 XOR\n2 1 110339 110308 91738 XOR\n2 1 95779 110308 19331 XOR\n2 1 19331 19332 19330 AND\n2 1 19330 110308 110309 XOR\n2 1 110340 110309 91739 XOR\n1 1 91739 19285 INV\n2 1 93732 110309 19335 XOR\n2 1 95780 110309 19334 XOR\n2 1 19334 19335 19333 AND\n2 1 19333 110309 110310 XOR\n2 1 110341 110310 91740 XOR\n2 1 93733 110310 19338 XOR\n1 1 91738 19284 INV\n2 1 110335 110304 91734 XOR\n2 1 91734 19224 89690 XOR\n2 1 89690 19224 19223 AND\n2 1 19223 19224 19226 XOR\n2 1 91735 19226 89691 XOR\n2 1 778 89691 135439 XOR\n2 1 89690 135407 74813 XOR\n2 1 777 89690 135438 XOR\n2 1 135438 135407 77242 XOR\n2 1 77242 102166 7442 XOR\n2 1 7441 7442 7440 AND\n2 1 74812 74813 74811 AND\n2 1 74811 135407 135408 XOR\n2 1 135439 135408 77243 XOR\n2 1 778 135408 74815 XOR\n2 1 89691 135408 74816 XOR\n2 1 74815 74816 74814 AND\n2 1 74814 135408 135409 XOR\n2 1 779 135409 74818 XOR\n2 1 618 77243 102198 XOR\n2 1 89691 19226 19225 AND\n2 1 19225 19226 110284 XOR\n2 1 19282 110284 89692 XOR\n2 1 91736 110284 19228 XOR\n2 1 779 89692 135440 XOR\n1 1 110284 19229 INV\n2 1 19228 19229 19227 AND\n2 1 89692 135409 74819 XOR\n2 1 74818 74819 74817 AND\n2 1 74817 135409 135410 XOR\n2 1 780 135410 74821 XOR\n2 1 135440 135409 77244 XOR\n2 1 19227 110284 110285 XOR\n1 1 110285 19232 INV\n2 1 617 77242 102197 XOR\n2 1 102197 102166 135690 XOR\n2 1 619 77244 102199 XOR\n2 1 7440 102166 102167 XOR\n2 1 618 102167 7444 XOR\n2 1 77243 102167 7445 XOR\n2 1 7444 7445 7443 AND\n2 1 7443 102167 102168 XOR\n2 1 77244 102168 7448 XOR\n2 1 102199 102168 135692 XOR\n2 1 619 102168 7447 XOR\n2 1 7447 7448 7446 AND\n2 1 102198 102167 135691 XOR\n2 1 7446 102168 102169 XOR\n2 1 620 102169 7450 XOR\n2 1 110338 110307 91737 XOR\n2 1 91737 110285 19231 XOR\n2 1 19231 19232 19230 AND\n2 1 19230 110285 110286 XOR\n1 1 110286 19235 INV\n2 1 19284 110286 89694 XOR\n2 1 91738 110286 19234 XOR\n2 1 19234 19235 19233 AND\n1 1 91737 19283 INV\n2 1 19283 110285 89693 XOR\n2 1 780 89693 135441 XOR\n2 1 135441 135410 77245 XOR\n2 1 77245 102169 7451 XOR\n2 1 7450 7451 7449 AND\n2 1 620 77245 102200 XOR\n2 1 102200 102169 135693 XOR\n2 1 7449 102169 102170 XOR\n2 1 621 102170 7453 XOR\n2 1 19233 110286 110287 XOR\n2 1 91739 110287 19237 XOR\n1 1 110287 19238 INV\n2 1 19237 19238 19236 AND\n2 1 19236 110287 19240 XOR\n2 1 91740 19240 89696 XOR\n2 1 783 89696 135444 XOR\n2 1 89693 135410 74822 XOR\n2 1 74821 74822 74820 AND\n2 1 74820 135410 135411 XOR\n2 1 781 135411 74824 XOR\n2 1 89694 135411 74825 XOR\n2 1 74824 74825 74823 AND\n2 1 74823 135411 135412 XOR\n2 1 782 135412 74827 XOR\n2 1 19285 110287 89695 XOR\n2 1 782 89695 135443 XOR\n2 1 89695 135412 74828 XOR\n2 1 74827 74828 74826 AND\n2 1 74826 135412 135413 XOR\n2 1 783 135413 74830 XOR\n2 1 89696 135413 74831 XOR\n2 1 74830 74831 74829 AND\n2 1 135444 135413 77248 XOR\n2 1 623 77248 102203 XOR\n2 1 74829 135413 135414 XOR\n2 1 784 135414 74833 XOR\n2 1 135443 135412 77247 XOR\n2 1 622 77247 102202 XOR\n",
"2 1 89696 19240 19239 AND\n2 1 19239 19240 110288 XOR\n1 1 110288 19243 INV\n2 1 781 89694 135442 XOR\n2 1 135442 135411 77246 XOR\n2 1 77246 102170 7454 XOR\n2 1 7453 7454 7452 AND\n2 1 7452 102170 102171 XOR\n2 1 102202 102171 135695 XOR\n2 1 77247 102171 7457 XOR\n2 1 621 77246 102201 XOR\n2 1 622 102171 7456 XOR\n2 1 7456 7457 7455 AND\n2 1 7455 102171 102172 XOR\n2 1 102203 102172 135696 XOR\n2 1 77248 102172 7460 XOR\n2 1 623 102172 7459 XOR\n2 1 7459 7460 7458 AND\n2 1 102201 102170 135694 XOR\n2 1 19523 19524 19522 AND\n2 1 19522 110436 110437 XOR\n2 1 110468 110437 95784 XOR\n2 1 95784 93736 110344 XOR\n2 1 99880 110437 19526 XOR\n2 1 97832 110437 19527 XOR\n2 1 19526 19527 19525 AND\n2 1 19525 110437 110438 XOR\n2 1 97833 110438 19530 XOR\n2 1 110469 110438 95785 XOR\n2 1 99881 110438 19529 XOR\n2 1 19529 19530 19528 AND\n2 1 19528 110438 110439 XOR\n2 1 110470 110439 95786 XOR\n2 1 95786 93738 110346 XOR\n2 1 97834 110439 19533 XOR\n2 1 99882 110439 19532 XOR\n2 1 95785 93737 110345 XOR\n2 1 19532 19533 19531 AND\n2 1 19531 110439 110440 XOR\n2 1 97835 110440 19536 XOR\n2 1 99883 110440 19535 XOR\n2 1 19535 19536 19534 AND\n2 1 110471 110440 95787 XOR\n2 1 95787 93739 110347 XOR\n2 1 19534 110440 110441 XOR\n2 1 110472 110441 95788 XOR\n2 1 95788 93740 110348 XOR\n2 1 99884 110441 19538 XOR\n2 1 97836 110441 19539 XOR\n2 1 19538 19539 19537 AND\n2 1 19537 110441 110442 XOR\n2 1 110473 110442 95789 XOR\n2 1 95789 93741 110349 XOR\n2 1 97837 110442 19542 XOR\n2 1 99885 110442 19541 XOR\n2 1 19541 19542 19540 AND\n2 1 19540 110442 110443 XOR\n2 1 110474 110443 95790 XOR\n2 1 95790 93742 110350 XOR\n2 1 99886 110443 19544 XOR\n2 1 97838 110443 19545 XOR\n2 1 19544 19545 19543 AND\n2 1 19543 110443 110444 XOR\n2 1 110475 110444 95791 XOR\n2 1 95791 93743 110351 XOR\n2 1 99887 110444 19547 XOR\n2 1 97839 110444 19548 XOR\n2 1 19547 19548 19546 AND\n2 1 19546 110444 110445 XOR\n2 1 99888 110445 19550 XOR\n2 1 110476 110445 95792 XOR\n2 1 97840 110445 19551 XOR\n2 1 19550 19551 19549 AND\n2 1 19549 110445 110446 XOR\n2 1 99889 110446 19553 XOR\n2 1 110477 110446 95793 XOR\n2 1 97841 110446 19554 XOR\n2 1 19553 19554 19552 AND\n2 1 95793 93745 110353 XOR\n2 1 19552 110446 110447 XOR\n2 1 110478 110447 95794 XOR\n2 1 95794 93746 110354 XOR\n2 1 95792 93744 110352 XOR\n2 1 99890 110447 19556 XOR\n2 1 97842 110447 19557 XOR\n2 1 19556 19557 19555 AND\n2 1 19555 110447 110448 XOR\n2 1 99891 110448 19559 XOR\n2 1 110479 110448 95795 XOR\n2 1 95795 93747 110355 XOR\n2 1 97843 110448 19560 XOR\n2 1 19559 19560 19558 AND\n2 1 19558 110448 110449 XOR\n2 1 99892 110449 19562 XOR\n2 1 110480 110449 95796 XOR\n2 1 97844 110449 19563 XOR\n2 1 19562 19563 19561 AND\n2 1 19561 110449 110450 XOR\n2 1 110481 110450 95797 XOR\n2 1 95797 93749 110357 XOR\n2 1 95796 93748 110356 XOR\n2 1 8115 102615 102616 XOR\n2 1 83594 102616 8120 XOR\n2 1 89738 102616 8119 XOR\n2 1 8119 8120 8118 AND\n2 1 8118 102616 102617 XOR\n2 1 83595 102617 8123 XOR\n2 1 89739 102617 8122 XOR\n2 1 8122 8123 8121 AND\n2 1 8121 102617 102618 XOR\n2 1 89740 102618 8125 XOR\n2 1 83596 102618 8126 XOR\n2 1 8125 8126 8124 AND\n2 1 102648 102617 77355 XOR\n2 1 77344 77355 66748 XOR\n2 1 66748 77332 87646 XOR\n2 1 66739 77355 87637 XOR\n2 1 87637 85589 110252 XOR\n2 1 77355 77291 68841 XOR\n2 1 68841 68809 68777 AND\n2 1 68777 77291 85611 XOR\n2 1 8124 102618 102619 XOR\n2 1 83597 102619 8129 XOR\n2 1 102650 102619 77357 XOR\n2 1 77357 77293 68843 XOR\n2 1 77346 77357 66750 XOR\n2 1 732 77357 102402 XOR\n2 1 66750 77334 87648 XOR\n",
"2 1 77357 77336 66761 XOR\n2 1 66761 77345 87659 XOR\n2 1 87659 85611 110274 XOR\n2 1 730 77355 102400 XOR\n2 1 68843 68811 68779 AND\n2 1 68779 77293 85613 XOR\n2 1 77355 77334 66759 XOR\n2 1 66759 77343 87657 XOR\n2 1 87657 85609 110272 XOR\n2 1 89741 102619 8128 XOR\n2 1 8128 8129 8127 AND\n2 1 66741 77357 87639 XOR\n2 1 87639 85591 110254 XOR\n2 1 102649 102618 77356 XOR\n2 1 77356 77292 68842 XOR\n2 1 731 77356 102401 XOR\n2 1 66740 77356 87638 XOR\n2 1 87638 85590 110253 XOR\n2 1 77356 77335 66760 XOR\n2 1 66760 77344 87658 XOR\n2 1 68842 68810 68778 AND\n2 1 68778 77292 85612 XOR\n2 1 77345 77356 66749 XOR\n2 1 66749 77333 87647 XOR\n2 1 87647 85599 110262 XOR\n2 1 87648 85600 110263 XOR\n2 1 87646 85598 110261 XOR\n2 1 8127 102619 102620 XOR\n2 1 102651 102620 77358 XOR\n2 1 77347 77358 66751 XOR\n2 1 77358 77294 68844 XOR\n2 1 66751 77335 87649 XOR\n2 1 77358 77337 66762 XOR\n2 1 89742 102620 8131 XOR\n2 1 87649 85601 110264 XOR\n2 1 83598 102620 8132 XOR\n2 1 8131 8132 8130 AND\n2 1 8130 102620 102621 XOR\n2 1 89743 102621 8134 XOR\n2 1 83599 102621 8135 XOR\n2 1 8134 8135 8133 AND\n2 1 8133 102621 102622 XOR\n2 1 733 77358 102403 XOR\n2 1 102653 102622 77360 XOR\n2 1 77349 77360 66753 XOR\n2 1 66753 77337 87651 XOR\n2 1 77360 77339 66764 XOR\n2 1 102652 102621 77359 XOR\n2 1 77359 77338 66763 XOR\n2 1 66763 77347 87661 XOR\n2 1 77348 77359 66752 XOR\n2 1 66752 77336 87650 XOR\n2 1 87650 85602 110265 XOR\n2 1 734 77359 102404 XOR\n2 1 66743 77359 87641 XOR\n2 1 87641 85593 110256 XOR\n2 1 735 77360 102405 XOR\n2 1 66762 77346 87660 XOR\n2 1 87660 85612 110275 XOR\n2 1 77359 77295 68845 XOR\n2 1 68845 68813 68781 AND\n2 1 66744 77360 87642 XOR\n2 1 87642 85594 110257 XOR\n2 1 66764 77348 87662 XOR\n2 1 66742 77358 87640 XOR\n2 1 87640 85592 110255 XOR\n2 1 87651 85603 110266 XOR\n2 1 68781 77295 85615 XOR\n2 1 87663 85615 110278 XOR\n2 1 87661 85613 110276 XOR\n2 1 68844 68812 68780 AND\n2 1 68780 77294 85614 XOR\n2 1 87662 85614 110277 XOR\n2 1 77360 77296 68846 XOR\n2 1 68846 68814 68782 AND\n2 1 68782 77296 85616 XOR\n2 1 87664 85616 110279 XOR\n2 1 102647 102616 77354 XOR\n2 1 77354 102368 7760 XOR\n2 1 7759 7760 7758 AND\n2 1 77354 77333 66758 XOR\n2 1 66758 77342 87656 XOR\n2 1 77354 77290 68840 XOR\n2 1 68840 68808 68776 AND\n2 1 68776 77290 85610 XOR\n2 1 7758 102368 102369 XOR\n2 1 730 102369 7762 XOR\n2 1 102400 102369 135803 XOR\n2 1 77355 102369 7763 XOR\n2 1 7762 7763 7761 AND\n2 1 7761 102369 102370 XOR\n2 1 102401 102370 135804 XOR\n2 1 77356 102370 7766 XOR\n2 1 731 102370 7765 XOR\n2 1 7765 7766 7764 AND\n2 1 7764 102370 102371 XOR\n2 1 77357 102371 7769 XOR\n2 1 102402 102371 135805 XOR\n2 1 87656 85608 110271 XOR\n2 1 87658 85610 110273 XOR\n2 1 66738 77354 87636 XOR\n2 1 87636 85588 110251 XOR\n2 1 87636 110220 19123 XOR\n2 1 19123 19124 19122 AND\n2 1 19122 110220 110221 XOR\n2 1 85589 110221 19127 XOR\n2 1 110252 110221 83541 XOR\n2 1 89685 83541 102502 XOR\n2 1 87637 110221 19126 XOR\n2 1 110251 110220 83540 XOR\n2 1 89684 83540 102501 XOR\n2 1 83540 102470 7874 XOR\n2 1 7873 7874 7872 AND\n2 1 7872 102470 102471 XOR\n2 1 83541 102471 7877 XOR\n2 1 89685 102471 7876 XOR\n2 1 7876 7877 7875 AND\n2 1 102502 102471 77365 XOR\n2 1 740 77365 102440 XOR\n2 1 7875 102471 102472 XOR\n2 1 19126 19127 19125 AND\n2 1 19125 110221 110222 XOR\n2 1 85590 110222 19130 XOR\n2 1 87638 110222 19129 XOR\n2 1 19129 19130 19128 AND\n2 1 19128 110222 110223 XOR\n2 1 87639 110223 19132 XOR\n2 1 110254 110223 83543 XOR\n",
"2 1 89687 83543 102504 XOR\n2 1 110253 110222 83542 XOR\n2 1 89686 83542 102503 XOR\n2 1 102503 102472 77366 XOR\n2 1 741 77366 102441 XOR\n2 1 83542 102472 7880 XOR\n2 1 85591 110223 19133 XOR\n2 1 19132 19133 19131 AND\n2 1 19131 110223 110224 XOR\n2 1 110255 110224 83544 XOR\n2 1 87640 110224 19135 XOR\n2 1 89688 83544 102505 XOR\n2 1 102501 102470 77364 XOR\n2 1 739 77364 102439 XOR\n2 1 102439 102408 135812 XOR\n2 1 77364 102408 7784 XOR\n2 1 7783 7784 7782 AND\n2 1 7782 102408 102409 XOR\n2 1 740 102409 7786 XOR\n2 1 77365 102409 7787 XOR\n2 1 7786 7787 7785 AND\n2 1 7785 102409 102410 XOR\n2 1 77366 102410 7790 XOR\n2 1 102441 102410 135814 XOR\n2 1 741 102410 7789 XOR\n2 1 7789 7790 7788 AND\n2 1 7788 102410 102411 XOR\n2 1 742 102411 7792 XOR\n2 1 729 77354 102399 XOR\n2 1 102399 102368 135802 XOR\n2 1 732 102371 7768 XOR\n2 1 7768 7769 7767 AND\n2 1 7767 102371 102372 XOR\n2 1 733 102372 7771 XOR\n2 1 77358 102372 7772 XOR\n2 1 7771 7772 7770 AND\n2 1 7770 102372 102373 XOR\n2 1 734 102373 7774 XOR\n2 1 77359 102373 7775 XOR\n2 1 7774 7775 7773 AND\n2 1 7773 102373 102374 XOR\n2 1 102405 102374 135808 XOR\n2 1 102403 102372 135806 XOR\n2 1 77343 77354 66747 XOR\n2 1 66747 77331 87645 XOR\n2 1 87645 85597 110260 XOR\n2 1 102440 102409 135813 XOR\n2 1 89686 102472 7879 XOR\n2 1 7879 7880 7878 AND\n2 1 7878 102472 102473 XOR\n2 1 89687 102473 7882 XOR\n2 1 102504 102473 77367 XOR\n2 1 77367 102411 7793 XOR\n2 1 7792 7793 7791 AND\n2 1 7791 102411 102412 XOR\n2 1 83543 102473 7883 XOR\n2 1 7882 7883 7881 AND\n2 1 7881 102473 102474 XOR\n2 1 89688 102474 7885 XOR\n2 1 83544 102474 7886 XOR\n2 1 7885 7886 7884 AND\n2 1 7884 102474 102475 XOR\n2 1 89689 102475 7888 XOR\n2 1 102505 102474 77368 XOR\n2 1 743 77368 102443 XOR\n2 1 102443 102412 135816 XOR\n2 1 77368 102412 7796 XOR\n2 1 743 102412 7795 XOR\n2 1 7795 7796 7794 AND\n2 1 7794 102412 102413 XOR\n2 1 744 102413 7798 XOR\n2 1 742 77367 102442 XOR\n2 1 102442 102411 135815 XOR\n2 1 102404 102373 135807 XOR\n2 1 95781 110310 19337 XOR\n2 1 19337 19338 19336 AND\n2 1 19336 110310 110311 XOR\n2 1 95782 110311 19340 XOR\n2 1 93734 110311 19341 XOR\n2 1 19340 19341 19339 AND\n2 1 19339 110311 110312 XOR\n2 1 95783 110312 19343 XOR\n2 1 93735 110312 19344 XOR\n2 1 19343 19344 19342 AND\n2 1 19342 110312 110313 XOR\n2 1 93736 110313 19347 XOR\n2 1 95784 110313 19346 XOR\n2 1 19346 19347 19345 AND\n2 1 19345 110313 110314 XOR\n2 1 93737 110314 19350 XOR\n2 1 110345 110314 91744 XOR\n2 1 95785 110314 19349 XOR\n2 1 19349 19350 19348 AND\n2 1 19348 110314 110315 XOR\n2 1 95786 110315 19352 XOR\n2 1 110346 110315 91745 XOR\n1 1 91745 19287 INV\n2 1 93738 110315 19353 XOR\n2 1 19352 19353 19351 AND\n2 1 19351 110315 110316 XOR\n2 1 95787 110316 19355 XOR\n2 1 93739 110316 19356 XOR\n2 1 19355 19356 19354 AND\n2 1 19354 110316 110317 XOR\n2 1 95788 110317 19358 XOR\n2 1 93740 110317 19359 XOR\n2 1 19358 19359 19357 AND\n2 1 19357 110317 110318 XOR\n2 1 110349 110318 91748 XOR\n2 1 93741 110318 19362 XOR\n2 1 95789 110318 19361 XOR\n2 1 19361 19362 19360 AND\n2 1 110348 110317 91747 XOR\n2 1 19360 110318 110319 XOR\n2 1 95790 110319 19364 XOR\n2 1 110347 110316 91746 XOR\n1 1 91746 19288 INV\n2 1 93742 110319 19365 XOR\n2 1 19364 19365 19363 AND\n2 1 19363 110319 110320 XOR\n2 1 93743 110320 19368 XOR\n2 1 110351 110320 91750 XOR\n1 1 91750 19290 INV\n2 1 110350 110319 91749 XOR\n2 1 95791 110320 19367 XOR\n2 1 19367 19368 19366 AND\n2 1 19366 110320 110321 XOR\n2 1 93744 110321 19371 XOR\n",
"2 1 95792 110321 19370 XOR\n2 1 110352 110321 91751 XOR\n2 1 19370 19371 19369 AND\n2 1 19369 110321 110322 XOR\n2 1 93745 110322 19374 XOR\n2 1 95793 110322 19373 XOR\n2 1 19373 19374 19372 AND\n2 1 19372 110322 110323 XOR\n2 1 110354 110323 91753 XOR\n2 1 93746 110323 19377 XOR\n2 1 95794 110323 19376 XOR\n2 1 19376 19377 19375 AND\n2 1 19375 110323 110324 XOR\n2 1 93747 110324 19380 XOR\n2 1 95795 110324 19379 XOR\n2 1 19379 19380 19378 AND\n2 1 19378 110324 110325 XOR\n2 1 93748 110325 19383 XOR\n1 1 91751 19291 INV\n2 1 110353 110322 91752 XOR\n2 1 95796 110325 19382 XOR\n2 1 19382 19383 19381 AND\n2 1 19381 110325 110326 XOR\n2 1 110357 110326 91756 XOR\n1 1 91756 19293 INV\n2 1 110342 110311 91741 XOR\n2 1 91741 110288 19242 XOR\n1 1 91741 19286 INV\n2 1 19286 110288 89697 XOR\n2 1 89697 135414 74834 XOR\n2 1 784 89697 135445 XOR\n2 1 74833 74834 74832 AND\n2 1 74832 135414 135415 XOR\n2 1 785 135415 74836 XOR\n2 1 135445 135414 77249 XOR\n2 1 624 77249 102204 XOR\n2 1 19242 19243 19241 AND\n2 1 19241 110288 19245 XOR\n2 1 110356 110325 91755 XOR\n1 1 91755 19292 INV\n2 1 110344 110313 91743 XOR\n1 1 91747 19289 INV\n2 1 110343 110312 91742 XOR\n2 1 91742 19245 89698 XOR\n2 1 89698 19245 19244 AND\n2 1 19244 19245 19247 XOR\n2 1 91743 19247 89699 XOR\n2 1 786 89699 135447 XOR\n2 1 89699 19247 19246 AND\n2 1 19246 19247 19249 XOR\n2 1 91744 19249 89700 XOR\n2 1 89700 19249 19248 AND\n2 1 19248 19249 110289 XOR\n2 1 19287 110289 89701 XOR\n2 1 788 89701 135449 XOR\n1 1 110289 19252 INV\n2 1 91745 110289 19251 XOR\n2 1 19251 19252 19250 AND\n2 1 19250 110289 110290 XOR\n2 1 91746 110290 19254 XOR\n2 1 19288 110290 89702 XOR\n2 1 789 89702 135450 XOR\n2 1 89698 135415 74837 XOR\n2 1 74836 74837 74835 AND\n2 1 74835 135415 135416 XOR\n2 1 786 135416 74839 XOR\n2 1 135447 135416 77251 XOR\n2 1 626 77251 102206 XOR\n2 1 785 89698 135446 XOR\n1 1 110290 19255 INV\n2 1 89699 135416 74840 XOR\n2 1 74839 74840 74838 AND\n2 1 19254 19255 19253 AND\n2 1 19253 110290 110291 XOR\n1 1 110291 19258 INV\n2 1 91747 110291 19257 XOR\n2 1 19289 110291 89703 XOR\n2 1 790 89703 135451 XOR\n2 1 19257 19258 19256 AND\n2 1 19256 110291 19260 XOR\n2 1 135446 135415 77250 XOR\n2 1 625 77250 102205 XOR\n2 1 74838 135416 135417 XOR\n2 1 89700 135417 74843 XOR\n2 1 787 135417 74842 XOR\n2 1 74842 74843 74841 AND\n2 1 74841 135417 135418 XOR\n2 1 135449 135418 77253 XOR\n2 1 628 77253 102208 XOR\n2 1 89701 135418 74846 XOR\n2 1 787 89700 135448 XOR\n2 1 135448 135417 77252 XOR\n2 1 627 77252 102207 XOR\n2 1 788 135418 74845 XOR\n2 1 74845 74846 74844 AND\n2 1 74844 135418 135419 XOR\n2 1 789 135419 74848 XOR\n2 1 135450 135419 77254 XOR\n2 1 629 77254 102209 XOR\n2 1 91748 19260 89704 XOR\n2 1 791 89704 135452 XOR\n2 1 89704 19260 19259 AND\n2 1 19259 19260 19262 XOR\n2 1 91749 19262 89705 XOR\n2 1 792 89705 135453 XOR\n2 1 89705 19262 19261 AND\n2 1 19261 19262 110292 XOR\n2 1 91750 110292 19264 XOR\n1 1 110292 19265 INV\n2 1 19264 19265 19263 AND\n2 1 19290 110292 89706 XOR\n2 1 793 89706 135454 XOR\n2 1 19263 110292 110293 XOR\n2 1 19291 110293 89707 XOR\n1 1 110293 19268 INV\n2 1 794 89707 135455 XOR\n2 1 91751 110293 19267 XOR\n2 1 19267 19268 19266 AND\n2 1 19266 110293 19270 XOR\n2 1 91752 19270 89708 XOR\n2 1 795 89708 135456 XOR\n2 1 89708 19270 19269 AND\n2 1 19269 19270 19272 XOR\n2 1 91753 19272 89709 XOR\n2 1 796 89709 135457 XOR\n2 1 89709 19272 19271 AND\n2 1 19271 19272 19274 XOR\n2 1 89702 135419 74849 XOR\n",
"2 1 74848 74849 74847 AND\n2 1 74847 135419 135420 XOR\n2 1 89703 135420 74852 XOR\n2 1 135451 135420 77255 XOR\n2 1 630 77255 102210 XOR\n2 1 790 135420 74851 XOR\n2 1 74851 74852 74850 AND\n2 1 74850 135420 135421 XOR\n2 1 89704 135421 74855 XOR\n2 1 135452 135421 77256 XOR\n2 1 791 135421 74854 XOR\n2 1 74854 74855 74853 AND\n2 1 74853 135421 135422 XOR\n2 1 792 135422 74857 XOR\n2 1 89705 135422 74858 XOR\n2 1 74857 74858 74856 AND\n2 1 74856 135422 135423 XOR\n2 1 135454 135423 77258 XOR\n2 1 633 77258 102213 XOR\n2 1 89706 135423 74861 XOR\n2 1 793 135423 74860 XOR\n2 1 74860 74861 74859 AND\n2 1 74859 135423 135424 XOR\n2 1 89707 135424 74864 XOR\n2 1 135455 135424 77259 XOR\n2 1 634 77259 102214 XOR\n2 1 135453 135422 77257 XOR\n2 1 632 77257 102212 XOR\n2 1 794 135424 74863 XOR\n2 1 74863 74864 74862 AND\n2 1 631 77256 102211 XOR\n2 1 74862 135424 135425 XOR\n2 1 89708 135425 74867 XOR\n2 1 795 135425 74866 XOR\n2 1 74866 74867 74865 AND\n2 1 74865 135425 135426 XOR\n2 1 796 135426 74869 XOR\n2 1 135457 135426 77261 XOR\n2 1 636 77261 102216 XOR\n2 1 135456 135425 77260 XOR\n2 1 635 77260 102215 XOR\n2 1 89709 135426 74870 XOR\n2 1 74869 74870 74868 AND\n2 1 74868 135426 135427 XOR\n2 1 797 135427 74872 XOR\n2 1 110355 110324 91754 XOR\n2 1 91754 19274 89710 XOR\n2 1 89710 19274 19273 AND\n2 1 19273 19274 110294 XOR\n1 1 110294 19277 INV\n2 1 19292 110294 89711 XOR\n2 1 798 89711 135459 XOR\n2 1 797 89710 135458 XOR\n2 1 135458 135427 77262 XOR\n2 1 89710 135427 74873 XOR\n2 1 74872 74873 74871 AND\n2 1 74871 135427 135428 XOR\n2 1 89711 135428 74876 XOR\n2 1 798 135428 74875 XOR\n2 1 74875 74876 74874 AND\n2 1 135459 135428 77263 XOR\n2 1 638 77263 102218 XOR\n2 1 74874 135428 135429 XOR\n2 1 91755 110294 19276 XOR\n2 1 19276 19277 19275 AND\n2 1 19275 110294 110295 XOR\n2 1 19293 110295 89712 XOR\n2 1 799 89712 135460 XOR\n2 1 135460 135429 77264 XOR\n2 1 639 77264 102219 XOR\n2 1 637 77262 102217 XOR\n2 1 85592 110224 19136 XOR\n2 1 19135 19136 19134 AND\n2 1 19134 110224 110225 XOR\n2 1 87641 110225 19138 XOR\n2 1 110256 110225 83545 XOR\n2 1 83545 102475 7889 XOR\n2 1 89689 83545 102506 XOR\n2 1 102506 102475 77369 XOR\n2 1 744 77369 102444 XOR\n2 1 102444 102413 135817 XOR\n2 1 77369 102413 7799 XOR\n2 1 7798 7799 7797 AND\n2 1 85593 110225 19139 XOR\n2 1 7797 102413 102414 XOR\n2 1 745 102414 7801 XOR\n2 1 7888 7889 7887 AND\n2 1 7887 102475 102476 XOR\n2 1 89690 102476 7891 XOR\n2 1 19138 19139 19137 AND\n2 1 19137 110225 110226 XOR\n2 1 87642 110226 19141 XOR\n2 1 110257 110226 83546 XOR\n2 1 89690 83546 102507 XOR\n2 1 83546 102476 7892 XOR\n2 1 7891 7892 7890 AND\n2 1 7890 102476 102477 XOR\n2 1 89691 102477 7894 XOR\n2 1 102507 102476 77370 XOR\n2 1 77370 102414 7802 XOR\n2 1 7801 7802 7800 AND\n2 1 7800 102414 102415 XOR\n2 1 746 102415 7804 XOR\n2 1 85594 110226 19142 XOR\n2 1 19141 19142 19140 AND\n2 1 19140 110226 110227 XOR\n2 1 85595 110227 19145 XOR\n2 1 87643 110227 19144 XOR\n2 1 745 77370 102445 XOR\n2 1 102445 102414 135818 XOR\n2 1 110258 110227 83547 XOR\n2 1 83547 102477 7895 XOR\n2 1 89691 83547 102508 XOR\n2 1 102508 102477 77371 XOR\n2 1 746 77371 102446 XOR\n2 1 7894 7895 7893 AND\n2 1 102446 102415 135819 XOR\n2 1 77371 102415 7805 XOR\n2 1 7804 7805 7803 AND\n2 1 7803 102415 102416 XOR\n2 1 747 102416 7807 XOR\n2 1 7893 102477 102478 XOR\n2 1 89692 102478 7897 XOR\n2 1 19144 19145 19143 AND\n2 1 19143 110227 110228 XOR\n2 1 87644 110228 19147 XOR\n2 1 85596 110228 19148 XOR\n2 1 110259 110228 83548 XOR\n",
"2 1 89692 83548 102509 XOR\n2 1 19147 19148 19146 AND\n2 1 83548 102478 7898 XOR\n2 1 7897 7898 7896 AND\n2 1 7896 102478 102479 XOR\n2 1 89693 102479 7900 XOR\n2 1 102509 102478 77372 XOR\n2 1 77372 102416 7808 XOR\n2 1 7807 7808 7806 AND\n2 1 7806 102416 102417 XOR\n2 1 747 77372 102447 XOR\n2 1 748 102417 7810 XOR\n2 1 102447 102416 135820 XOR\n2 1 19146 110228 110229 XOR\n2 1 87645 110229 19150 XOR\n2 1 110260 110229 83549 XOR\n2 1 89693 83549 102510 XOR\n2 1 83549 102479 7901 XOR\n2 1 102510 102479 77373 XOR\n2 1 748 77373 102448 XOR\n2 1 85597 110229 19151 XOR\n2 1 19150 19151 19149 AND\n2 1 19149 110229 110230 XOR\n2 1 85598 110230 19154 XOR\n2 1 87646 110230 19153 XOR\n2 1 19153 19154 19152 AND\n2 1 19152 110230 110231 XOR\n2 1 110262 110231 83551 XOR\n2 1 89695 83551 102512 XOR\n2 1 85599 110231 19157 XOR\n2 1 87647 110231 19156 XOR\n2 1 110261 110230 83550 XOR\n2 1 89694 83550 102511 XOR\n2 1 19156 19157 19155 AND\n2 1 19155 110231 110232 XOR\n2 1 87648 110232 19159 XOR\n2 1 85600 110232 19160 XOR\n2 1 19159 19160 19158 AND\n2 1 19158 110232 110233 XOR\n2 1 87649 110233 19162 XOR\n2 1 85601 110233 19163 XOR\n2 1 19162 19163 19161 AND\n2 1 110264 110233 83553 XOR\n2 1 89697 83553 102514 XOR\n2 1 77373 102417 7811 XOR\n2 1 102448 102417 135821 XOR\n2 1 110263 110232 83552 XOR\n2 1 89696 83552 102513 XOR\n2 1 19161 110233 110234 XOR\n2 1 110265 110234 83554 XOR\n2 1 85602 110234 19166 XOR\n2 1 87650 110234 19165 XOR\n2 1 19165 19166 19164 AND\n2 1 19164 110234 110235 XOR\n2 1 87651 110235 19168 XOR\n2 1 110266 110235 83555 XOR\n2 1 89699 83555 102516 XOR\n2 1 85603 110235 19169 XOR\n2 1 19168 19169 19167 AND\n2 1 19167 110235 110236 XOR\n2 1 85604 110236 19172 XOR\n2 1 110267 110236 83556 XOR\n2 1 89700 83556 102517 XOR\n2 1 89698 83554 102515 XOR\n2 1 87652 110236 19171 XOR\n2 1 19171 19172 19170 AND\n2 1 19170 110236 110237 XOR\n2 1 85605 110237 19175 XOR\n2 1 87653 110237 19174 XOR\n2 1 19174 19175 19173 AND\n2 1 19173 110237 110238 XOR\n2 1 87654 110238 19177 XOR\n2 1 85606 110238 19178 XOR\n2 1 19177 19178 19176 AND\n2 1 19176 110238 110239 XOR\n2 1 87655 110239 19180 XOR\n2 1 85607 110239 19181 XOR\n2 1 19180 19181 19179 AND\n2 1 19179 110239 110240 XOR\n2 1 110271 110240 83560 XOR\n2 1 89704 83560 102521 XOR\n2 1 110270 110239 83559 XOR\n2 1 89703 83559 102520 XOR\n2 1 87656 110240 19183 XOR\n2 1 110269 110238 83558 XOR\n2 1 89702 83558 102519 XOR\n2 1 85608 110240 19184 XOR\n2 1 19183 19184 19182 AND\n2 1 19182 110240 110241 XOR\n2 1 87657 110241 19186 XOR\n2 1 110272 110241 83561 XOR\n2 1 85609 110241 19187 XOR\n2 1 89705 83561 102522 XOR\n2 1 19186 19187 19185 AND\n2 1 19185 110241 110242 XOR\n2 1 85610 110242 19190 XOR\n2 1 87658 110242 19189 XOR\n2 1 19189 19190 19188 AND\n2 1 19188 110242 110243 XOR\n2 1 110274 110243 83563 XOR\n2 1 89707 83563 102524 XOR\n2 1 85611 110243 19193 XOR\n2 1 110273 110242 83562 XOR\n2 1 89706 83562 102523 XOR\n2 1 87659 110243 19192 XOR\n2 1 19192 19193 19191 AND\n2 1 19191 110243 110244 XOR\n2 1 85612 110244 19196 XOR\n2 1 110275 110244 83564 XOR\n2 1 89708 83564 102525 XOR\n2 1 87660 110244 19195 XOR\n2 1 19195 19196 19194 AND\n2 1 19194 110244 110245 XOR\n2 1 85613 110245 19199 XOR\n2 1 110276 110245 83565 XOR\n2 1 89709 83565 102526 XOR\n2 1 87661 110245 19198 XOR\n2 1 19198 19199 19197 AND\n2 1 19197 110245 110246 XOR\n2 1 85614 110246 19202 XOR\n2 1 87662 110246 19201 XOR\n2 1 19201 19202 19200 AND\n2 1 19200 110246 110247 XOR\n2 1 85615 110247 19205 XOR\n2 1 110278 110247 83567 XOR\n2 1 87663 110247 19204 XOR\n2 1 19204 19205 19203 AND\n2 1 19203 110247 110248 XOR\n",
"2 1 110279 110248 83568 XOR\n2 1 89712 83568 102529 XOR\n2 1 110277 110246 83566 XOR\n2 1 89710 83566 102527 XOR\n2 1 89711 83567 102528 XOR\n2 1 7900 7901 7899 AND\n2 1 7899 102479 102480 XOR\n2 1 89694 102480 7903 XOR\n2 1 102511 102480 77374 XOR\n2 1 749 77374 102449 XOR\n2 1 83550 102480 7904 XOR\n2 1 7903 7904 7902 AND\n2 1 7902 102480 102481 XOR\n2 1 102512 102481 77375 XOR\n2 1 83551 102481 7907 XOR\n2 1 750 77375 102450 XOR\n2 1 89695 102481 7906 XOR\n2 1 7906 7907 7905 AND\n2 1 7905 102481 102482 XOR\n2 1 83552 102482 7910 XOR\n2 1 89696 102482 7909 XOR\n2 1 7909 7910 7908 AND\n2 1 7908 102482 102483 XOR\n2 1 83553 102483 7913 XOR\n2 1 89697 102483 7912 XOR\n2 1 7912 7913 7911 AND\n2 1 7911 102483 102484 XOR\n2 1 102515 102484 77378 XOR\n2 1 89698 102484 7915 XOR\n2 1 83554 102484 7916 XOR\n2 1 7915 7916 7914 AND\n2 1 7914 102484 102485 XOR\n2 1 102516 102485 77379 XOR\n2 1 754 77379 102454 XOR\n2 1 83555 102485 7919 XOR\n2 1 753 77378 102453 XOR\n2 1 102514 102483 77377 XOR\n2 1 752 77377 102452 XOR\n2 1 102513 102482 77376 XOR\n2 1 751 77376 102451 XOR\n2 1 89699 102485 7918 XOR\n2 1 7918 7919 7917 AND\n2 1 7917 102485 102486 XOR\n2 1 89700 102486 7921 XOR\n2 1 83556 102486 7922 XOR\n2 1 7921 7922 7920 AND\n2 1 7920 102486 102487 XOR\n2 1 89701 102487 7924 XOR\n2 1 102517 102486 77380 XOR\n2 1 755 77380 102455 XOR\n2 1 7810 7811 7809 AND\n2 1 7809 102417 102418 XOR\n2 1 102449 102418 135822 XOR\n2 1 77374 102418 7814 XOR\n2 1 749 102418 7813 XOR\n2 1 7813 7814 7812 AND\n2 1 7812 102418 102419 XOR\n2 1 102450 102419 135823 XOR\n2 1 77375 102419 7817 XOR\n2 1 750 102419 7816 XOR\n2 1 7816 7817 7815 AND\n2 1 7815 102419 102420 XOR\n2 1 77376 102420 7820 XOR\n2 1 751 102420 7819 XOR\n2 1 7819 7820 7818 AND\n2 1 7818 102420 102421 XOR\n2 1 752 102421 7822 XOR\n2 1 77377 102421 7823 XOR\n2 1 102452 102421 135825 XOR\n2 1 7822 7823 7821 AND\n2 1 7821 102421 102422 XOR\n2 1 753 102422 7825 XOR\n2 1 77378 102422 7826 XOR\n2 1 7825 7826 7824 AND\n2 1 7824 102422 102423 XOR\n2 1 102454 102423 135827 XOR\n2 1 77379 102423 7829 XOR\n2 1 102451 102420 135824 XOR\n2 1 102453 102422 135826 XOR\n2 1 754 102423 7828 XOR\n2 1 7828 7829 7827 AND\n2 1 7827 102423 102424 XOR\n2 1 755 102424 7831 XOR\n2 1 102455 102424 135828 XOR\n2 1 77380 102424 7832 XOR\n2 1 7831 7832 7830 AND\n2 1 7830 102424 102425 XOR\n2 1 756 102425 7834 XOR\n2 1 110268 110237 83557 XOR\n2 1 89701 83557 102518 XOR\n2 1 83557 102487 7925 XOR\n2 1 7924 7925 7923 AND\n2 1 7923 102487 102488 XOR\n2 1 83558 102488 7928 XOR\n2 1 89702 102488 7927 XOR\n2 1 102518 102487 77381 XOR\n2 1 756 77381 102456 XOR\n2 1 102456 102425 135829 XOR\n2 1 77381 102425 7835 XOR\n2 1 7834 7835 7833 AND\n2 1 7833 102425 102426 XOR\n2 1 757 102426 7837 XOR\n2 1 102519 102488 77382 XOR\n2 1 77382 102426 7838 XOR\n2 1 7837 7838 7836 AND\n2 1 7836 102426 102427 XOR\n2 1 758 102427 7840 XOR\n2 1 7927 7928 7926 AND\n2 1 7926 102488 102489 XOR\n2 1 89703 102489 7930 XOR\n2 1 102520 102489 77383 XOR\n2 1 758 77383 102458 XOR\n2 1 102458 102427 135831 XOR\n2 1 77383 102427 7841 XOR\n2 1 7840 7841 7839 AND\n2 1 7839 102427 102428 XOR\n2 1 759 102428 7843 XOR\n2 1 83559 102489 7931 XOR\n2 1 7930 7931 7929 AND\n2 1 7929 102489 102490 XOR\n2 1 89704 102490 7933 XOR\n2 1 83560 102490 7934 XOR\n2 1 7933 7934 7932 AND\n2 1 7932 102490 102491 XOR\n2 1 83561 102491 7937 XOR\n2 1 89705 102491 7936 XOR\n2 1 7936 7937 7935 AND\n2 1 7935 102491 102492 XOR\n",
"2 1 89706 102492 7939 XOR\n2 1 83562 102492 7940 XOR\n2 1 102522 102491 77385 XOR\n2 1 760 77385 102460 XOR\n2 1 7939 7940 7938 AND\n2 1 7938 102492 102493 XOR\n2 1 102524 102493 77387 XOR\n2 1 762 77387 102462 XOR\n2 1 89707 102493 7942 XOR\n2 1 83563 102493 7943 XOR\n2 1 7942 7943 7941 AND\n2 1 7941 102493 102494 XOR\n2 1 102525 102494 77388 XOR\n2 1 83564 102494 7946 XOR\n2 1 763 77388 102463 XOR\n2 1 102521 102490 77384 XOR\n2 1 759 77384 102459 XOR\n2 1 102459 102428 135832 XOR\n2 1 77384 102428 7844 XOR\n2 1 7843 7844 7842 AND\n2 1 7842 102428 102429 XOR\n2 1 760 102429 7846 XOR\n2 1 77385 102429 7847 XOR\n2 1 7846 7847 7845 AND\n2 1 7845 102429 102430 XOR\n2 1 761 102430 7849 XOR\n2 1 757 77382 102457 XOR\n2 1 102457 102426 135830 XOR\n2 1 89708 102494 7945 XOR\n2 1 7945 7946 7944 AND\n2 1 7944 102494 102495 XOR\n2 1 102526 102495 77389 XOR\n2 1 764 77389 102464 XOR\n2 1 83565 102495 7949 XOR\n2 1 89709 102495 7948 XOR\n2 1 102523 102492 77386 XOR\n2 1 761 77386 102461 XOR\n2 1 77386 102430 7850 XOR\n2 1 7849 7850 7848 AND\n2 1 7848 102430 102431 XOR\n2 1 102462 102431 135835 XOR\n2 1 762 102431 7852 XOR\n2 1 102461 102430 135834 XOR\n2 1 77387 102431 7853 XOR\n2 1 7852 7853 7851 AND\n2 1 7851 102431 102432 XOR\n2 1 77388 102432 7856 XOR\n2 1 763 102432 7855 XOR\n2 1 7855 7856 7854 AND\n2 1 102463 102432 135836 XOR\n2 1 7854 102432 102433 XOR\n2 1 102464 102433 135837 XOR\n2 1 764 102433 7858 XOR\n2 1 77389 102433 7859 XOR\n2 1 7858 7859 7857 AND\n2 1 7857 102433 102434 XOR\n2 1 765 102434 7861 XOR\n2 1 102460 102429 135833 XOR\n2 1 7948 7949 7947 AND\n2 1 7947 102495 102496 XOR\n2 1 102527 102496 77390 XOR\n2 1 765 77390 102465 XOR\n2 1 102465 102434 135838 XOR\n2 1 77390 102434 7862 XOR\n2 1 7861 7862 7860 AND\n2 1 7860 102434 102435 XOR\n2 1 766 102435 7864 XOR\n2 1 83566 102496 7952 XOR\n2 1 89710 102496 7951 XOR\n2 1 7951 7952 7950 AND\n2 1 7950 102496 102497 XOR\n2 1 89711 102497 7954 XOR\n2 1 83567 102497 7955 XOR\n2 1 7954 7955 7953 AND\n2 1 7953 102497 102498 XOR\n2 1 102529 102498 77392 XOR\n2 1 767 77392 102467 XOR\n2 1 102528 102497 77391 XOR\n2 1 766 77391 102466 XOR\n2 1 77391 102435 7865 XOR\n2 1 7864 7865 7863 AND\n2 1 7863 102435 102436 XOR\n2 1 102467 102436 135840 XOR\n2 1 102466 102435 135839 XOR\n2 1 7458 102172 102173 XOR\n2 1 77249 102173 7463 XOR\n2 1 624 102173 7462 XOR\n2 1 7462 7463 7461 AND\n2 1 7461 102173 102174 XOR\n2 1 77250 102174 7466 XOR\n2 1 625 102174 7465 XOR\n2 1 7465 7466 7464 AND\n2 1 7464 102174 102175 XOR\n2 1 77251 102175 7469 XOR\n2 1 626 102175 7468 XOR\n2 1 102204 102173 135697 XOR\n2 1 102206 102175 135699 XOR\n2 1 102205 102174 135698 XOR\n2 1 7468 7469 7467 AND\n2 1 7467 102175 102176 XOR\n2 1 102207 102176 135700 XOR\n2 1 77252 102176 7472 XOR\n2 1 627 102176 7471 XOR\n2 1 7471 7472 7470 AND\n2 1 7470 102176 102177 XOR\n2 1 77253 102177 7475 XOR\n2 1 628 102177 7474 XOR\n2 1 7474 7475 7473 AND\n2 1 7473 102177 102178 XOR\n2 1 629 102178 7477 XOR\n2 1 77254 102178 7478 XOR\n2 1 7477 7478 7476 AND\n2 1 7476 102178 102179 XOR\n2 1 77255 102179 7481 XOR\n2 1 630 102179 7480 XOR\n2 1 7480 7481 7479 AND\n2 1 7479 102179 102180 XOR\n2 1 102211 102180 135704 XOR\n2 1 77256 102180 7484 XOR\n2 1 102210 102179 135703 XOR\n2 1 102209 102178 135702 XOR\n2 1 102208 102177 135701 XOR\n2 1 631 102180 7483 XOR\n2 1 7483 7484 7482 AND\n2 1 7482 102180 102181 XOR\n2 1 77257 102181 7487 XOR\n2 1 632 102181 7486 XOR\n2 1 7486 7487 7485 AND\n",
"2 1 7485 102181 102182 XOR\n2 1 77258 102182 7490 XOR\n2 1 633 102182 7489 XOR\n2 1 7489 7490 7488 AND\n2 1 7488 102182 102183 XOR\n2 1 102213 102182 135706 XOR\n2 1 102212 102181 135705 XOR\n2 1 77259 102183 7493 XOR\n2 1 102214 102183 135707 XOR\n2 1 634 102183 7492 XOR\n2 1 7492 7493 7491 AND\n2 1 7491 102183 102184 XOR\n2 1 635 102184 7495 XOR\n2 1 77260 102184 7496 XOR\n2 1 7495 7496 7494 AND\n2 1 7494 102184 102185 XOR\n2 1 77261 102185 7499 XOR\n2 1 636 102185 7498 XOR\n2 1 7498 7499 7497 AND\n2 1 102216 102185 135709 XOR\n2 1 7497 102185 102186 XOR\n2 1 102217 102186 135710 XOR\n2 1 77262 102186 7502 XOR\n2 1 637 102186 7501 XOR\n2 1 102215 102184 135708 XOR\n2 1 7501 7502 7500 AND\n2 1 7500 102186 102187 XOR\n2 1 77263 102187 7505 XOR\n2 1 102218 102187 135711 XOR\n2 1 638 102187 7504 XOR\n2 1 7504 7505 7503 AND\n2 1 7503 102187 102188 XOR\n2 1 102219 102188 135712 XOR\n"]

end Verif.Data
