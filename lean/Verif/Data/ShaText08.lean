/-!
# Text of `data/circ/sha256.txt`, part 9 of 11

Generated by `tools/gen_circuits.py`.
-/

namespace Verif.Data

/-- Lines 98309-110596 of `data/circ/sha256.txt`, 128 per string. -/
def shaBlocks08 : List String := [
"2 1 1170 1181 67231 XOR\n2 1 67242 1169 88140 XOR\n2 1 67231 1158 88129 XOR\n2 1 88129 86081 114085 XOR\n2 1 67222 1181 88120 XOR\n2 1 88120 86072 114076 XOR\n2 1 88140 86092 114096 XOR\n2 1 10722 104412 104413 XOR\n2 1 1752 104413 10726 XOR\n2 1 90217 104413 10727 XOR\n2 1 104444 104413 1624 XOR\n2 1 63847 1624 63815 AND\n2 1 63815 2200 98318 XOR\n2 1 1624 1656 63783 XOR\n2 1 1619 1624 61308 XOR\n2 1 61326 1624 100373 XOR\n2 1 61308 1606 100355 XOR\n2 1 100355 98307 114268 XOR\n2 1 10726 10727 10725 AND\n2 1 10725 104413 104414 XOR\n2 1 90218 104414 10730 XOR\n2 1 1753 104414 10729 XOR\n2 1 10729 10730 10728 AND\n2 1 10728 104414 104415 XOR\n2 1 104446 104415 1626 XOR\n2 1 90219 104415 10733 XOR\n2 1 104445 104414 1625 XOR\n2 1 1754 104415 10732 XOR\n2 1 10732 10733 10731 AND\n2 1 10731 104415 104416 XOR\n2 1 1755 104416 10735 XOR\n2 1 104447 104416 1627 XOR\n2 1 90220 104416 10736 XOR\n2 1 10735 10736 10734 AND\n2 1 10734 104416 104417 XOR\n2 1 90221 104417 10739 XOR\n2 1 104448 104417 1628 XOR\n2 1 1756 104417 10738 XOR\n2 1 10738 10739 10737 AND\n2 1 10737 104417 104418 XOR\n2 1 104449 104418 1629 XOR\n2 1 90222 104418 10742 XOR\n2 1 63852 1629 63820 AND\n2 1 63851 1628 63819 AND\n2 1 63850 1627 63818 AND\n2 1 63849 1626 63817 AND\n2 1 63848 1625 63816 AND\n2 1 63820 2205 98323 XOR\n2 1 100371 98323 114284 XOR\n2 1 63819 2204 98322 XOR\n2 1 100370 98322 114283 XOR\n2 1 63818 2203 98321 XOR\n2 1 100369 98321 114282 XOR\n2 1 63817 2202 98320 XOR\n2 1 100368 98320 114281 XOR\n2 1 63816 2201 98319 XOR\n2 1 1629 1661 63788 XOR\n2 1 1628 1660 63787 XOR\n2 1 1627 1659 63786 XOR\n2 1 1626 1658 63785 XOR\n2 1 1625 1657 63784 XOR\n2 1 1757 104418 10741 XOR\n2 1 1629 1602 61318 XOR\n2 1 1628 1601 61317 XOR\n2 1 1627 1600 61316 XOR\n2 1 1624 1629 61313 XOR\n2 1 1623 1628 61312 XOR\n2 1 1622 1627 61311 XOR\n2 1 1621 1626 61310 XOR\n2 1 1620 1625 61309 XOR\n2 1 61318 1616 100365 XOR\n2 1 100365 98317 114278 XOR\n2 1 61317 1615 100364 XOR\n2 1 100364 98316 114277 XOR\n2 1 61316 1614 100363 XOR\n2 1 100363 98315 114276 XOR\n2 1 61313 1611 100360 XOR\n2 1 61312 1610 100359 XOR\n2 1 61311 1609 100358 XOR\n2 1 61310 1608 100357 XOR\n2 1 100357 98309 114270 XOR\n2 1 61309 1607 100356 XOR\n2 1 100356 98308 114269 XOR\n2 1 61299 1629 100346 XOR\n2 1 61298 1628 100345 XOR\n2 1 100345 98297 114258 XOR\n2 1 61297 1627 100344 XOR\n2 1 61296 1626 100343 XOR\n2 1 100343 98295 114256 XOR\n2 1 61295 1625 100342 XOR\n2 1 100342 98294 114225 AND\n2 1 100344 98296 114257 XOR\n2 1 100342 98294 96246 XOR\n2 1 100358 98310 114271 XOR\n2 1 100360 98312 114273 XOR\n2 1 100359 98311 114272 XOR\n2 1 114256 114225 96247 XOR\n2 1 98295 114225 26316 XOR\n2 1 10741 10742 10740 AND\n2 1 10740 104418 104419 XOR\n2 1 1758 104419 10744 XOR\n2 1 100346 98298 114259 XOR\n2 1 100343 114225 26315 XOR\n2 1 26315 26316 26314 AND\n2 1 26314 114225 114226 XOR\n2 1 114257 114226 96248 XOR\n2 1 98296 114226 26319 XOR\n2 1 100344 114226 26318 XOR\n2 1 26318 26319 26317 AND\n2 1 26317 114226 114227 XOR\n2 1 100345 114227 26321 XOR\n2 1 98297 114227 26322 XOR\n2 1 26321 26322 26320 AND\n2 1 26320 114227 114228 XOR\n2 1 114258 114227 96249 XOR\n2 1 100346 114228 26324 XOR\n2 1 98298 114228 26325 XOR\n2 1 26324 26325 26323 AND\n2 1 114259 114228 96250 XOR\n2 1 26323 114228 114229 XOR\n2 1 98299 114229 26328 XOR\n2 1 88124 86076 114080 XOR\n2 1 88128 86080 114084 XOR\n2 1 88125 86077 114081 XOR\n2 1 86068 114041 25962 XOR\n2 1 25961 25962 25960 AND\n2 1 25960 114041 114042 XOR\n2 1 86069 114042 25965 XOR\n",
"2 1 88117 114042 25964 XOR\n2 1 25964 25965 25963 AND\n2 1 25963 114042 114043 XOR\n2 1 114074 114043 84022 XOR\n2 1 88118 114043 25967 XOR\n2 1 86070 114043 25968 XOR\n2 1 114073 114042 84021 XOR\n2 1 25967 25968 25966 AND\n2 1 25966 114043 114044 XOR\n2 1 88119 114044 25970 XOR\n2 1 114075 114044 84023 XOR\n2 1 86071 114044 25971 XOR\n2 1 25970 25971 25969 AND\n2 1 25969 114044 114045 XOR\n2 1 86072 114045 25974 XOR\n2 1 114076 114045 84024 XOR\n2 1 88120 114045 25973 XOR\n2 1 25973 25974 25972 AND\n2 1 25972 114045 114046 XOR\n2 1 86073 114046 25977 XOR\n2 1 90222 26551 26550 AND\n2 1 26550 26551 26553 XOR\n2 1 92249 26553 90223 XOR\n2 1 90223 104419 10745 XOR\n2 1 10744 10745 10743 AND\n2 1 90223 26553 26552 AND\n2 1 10743 104419 104420 XOR\n2 1 90223 104481 10834 XOR\n2 1 10834 10835 10833 AND\n2 1 10833 104481 104482 XOR\n2 1 1758 90223 104450 XOR\n2 1 104450 104419 1630 XOR\n2 1 63853 1630 63821 AND\n2 1 63821 2206 98324 XOR\n2 1 100372 98324 114285 XOR\n2 1 1630 1662 63789 XOR\n2 1 1630 1603 61319 XOR\n2 1 1625 1630 61314 XOR\n2 1 61319 1617 100366 XOR\n2 1 100366 98318 114279 XOR\n2 1 61314 1612 100361 XOR\n2 1 61300 1630 100347 XOR\n2 1 100347 98299 114260 XOR\n2 1 114260 114229 96251 XOR\n2 1 100347 114229 26327 XOR\n2 1 26327 26328 26326 AND\n2 1 26326 114229 114230 XOR\n2 1 98300 114230 26331 XOR\n2 1 100361 98313 114274 XOR\n2 1 26552 26553 26562 XOR\n2 1 92250 26562 90224 XOR\n2 1 1759 90224 104451 XOR\n2 1 104451 104420 1631 XOR\n2 1 63854 1631 63822 AND\n2 1 63822 2207 98325 XOR\n2 1 100373 98325 114286 XOR\n2 1 1631 1663 63790 XOR\n2 1 1631 1604 61320 XOR\n2 1 1626 1631 61315 XOR\n2 1 61320 1618 100367 XOR\n2 1 100367 98319 114280 XOR\n2 1 61315 1613 100362 XOR\n2 1 100362 98314 114275 XOR\n2 1 61301 1631 100348 XOR\n2 1 100348 98300 114261 XOR\n2 1 100348 114230 26330 XOR\n2 1 26330 26331 26329 AND\n2 1 26329 114230 114231 XOR\n2 1 114262 114231 96253 XOR\n2 1 114261 114230 96252 XOR\n2 1 98301 114231 26334 XOR\n2 1 100349 114231 26333 XOR\n2 1 26333 26334 26332 AND\n2 1 26332 114231 114232 XOR\n2 1 100350 114232 26336 XOR\n2 1 98302 114232 26337 XOR\n2 1 26336 26337 26335 AND\n2 1 26335 114232 114233 XOR\n2 1 98303 114233 26340 XOR\n2 1 100351 114233 26339 XOR\n2 1 114264 114233 96255 XOR\n2 1 26339 26340 26338 AND\n2 1 26338 114233 114234 XOR\n2 1 114265 114234 96256 XOR\n2 1 100352 114234 26342 XOR\n2 1 98304 114234 26343 XOR\n2 1 114263 114232 96254 XOR\n2 1 26342 26343 26341 AND\n2 1 26341 114234 114235 XOR\n2 1 100353 114235 26345 XOR\n2 1 98305 114235 26346 XOR\n2 1 26345 26346 26344 AND\n2 1 26344 114235 114236 XOR\n2 1 114267 114236 96258 XOR\n2 1 100354 114236 26348 XOR\n2 1 98306 114236 26349 XOR\n2 1 26348 26349 26347 AND\n2 1 26347 114236 114237 XOR\n2 1 114268 114237 96259 XOR\n2 1 114266 114235 96257 XOR\n2 1 98307 114237 26352 XOR\n2 1 100355 114237 26351 XOR\n2 1 26351 26352 26350 AND\n2 1 26350 114237 114238 XOR\n2 1 100356 114238 26354 XOR\n2 1 98308 114238 26355 XOR\n2 1 26354 26355 26353 AND\n2 1 26353 114238 114239 XOR\n2 1 114270 114239 96261 XOR\n2 1 100357 114239 26357 XOR\n2 1 98309 114239 26358 XOR\n2 1 26357 26358 26356 AND\n2 1 26356 114239 114240 XOR\n2 1 114271 114240 96262 XOR\n2 1 100358 114240 26360 XOR\n2 1 98310 114240 26361 XOR\n2 1 26360 26361 26359 AND\n2 1 26359 114240 114241 XOR\n2 1 114272 114241 96263 XOR\n2 1 100359 114241 26363 XOR\n2 1 98311 114241 26364 XOR\n2 1 26363 26364 26362 AND\n2 1 26362 114241 114242 XOR\n2 1 114273 114242 96264 XOR\n2 1 100360 114242 26366 XOR\n2 1 98312 114242 26367 XOR\n2 1 26366 26367 26365 AND\n2 1 26365 114242 114243 XOR\n",
"2 1 100361 114243 26369 XOR\n2 1 98313 114243 26370 XOR\n2 1 114274 114243 96265 XOR\n2 1 26369 26370 26368 AND\n2 1 26368 114243 114244 XOR\n2 1 98314 114244 26373 XOR\n2 1 100362 114244 26372 XOR\n2 1 114275 114244 96266 XOR\n2 1 114269 114238 96260 XOR\n2 1 26372 26373 26371 AND\n2 1 26371 114244 114245 XOR\n2 1 114276 114245 96267 XOR\n2 1 100363 114245 26375 XOR\n2 1 98315 114245 26376 XOR\n2 1 26375 26376 26374 AND\n2 1 26374 114245 114246 XOR\n2 1 98316 114246 26379 XOR\n2 1 114277 114246 96268 XOR\n2 1 100364 114246 26378 XOR\n2 1 26378 26379 26377 AND\n2 1 26377 114246 114247 XOR\n2 1 114278 114247 96269 XOR\n2 1 100365 114247 26381 XOR\n2 1 98317 114247 26382 XOR\n2 1 26381 26382 26380 AND\n2 1 26380 114247 114248 XOR\n2 1 100366 114248 26384 XOR\n2 1 114279 114248 96270 XOR\n2 1 98318 114248 26385 XOR\n2 1 26384 26385 26383 AND\n2 1 26383 114248 114249 XOR\n2 1 100367 114249 26387 XOR\n2 1 114280 114249 96271 XOR\n2 1 98319 114249 26388 XOR\n2 1 26387 26388 26386 AND\n2 1 26386 114249 114250 XOR\n2 1 114281 114250 96272 XOR\n2 1 100368 114250 26390 XOR\n2 1 98320 114250 26391 XOR\n2 1 26390 26391 26389 AND\n2 1 26389 114250 114251 XOR\n2 1 100369 114251 26393 XOR\n2 1 114282 114251 96273 XOR\n2 1 98321 114251 26394 XOR\n2 1 26393 26394 26392 AND\n2 1 26392 114251 114252 XOR\n2 1 114283 114252 96274 XOR\n2 1 100370 114252 26396 XOR\n2 1 98322 114252 26397 XOR\n2 1 26396 26397 26395 AND\n2 1 26395 114252 114253 XOR\n2 1 114284 114253 96275 XOR\n2 1 100371 114253 26399 XOR\n2 1 98323 114253 26400 XOR\n2 1 26399 26400 26398 AND\n2 1 26398 114253 114254 XOR\n2 1 114285 114254 96276 XOR\n2 1 100372 114254 26402 XOR\n2 1 98324 114254 26403 XOR\n2 1 26402 26403 26401 AND\n2 1 26401 114254 114255 XOR\n2 1 114286 114255 96277 XOR\n2 1 90223 84079 104512 XOR\n2 1 104512 104481 1182 XOR\n2 1 1182 1694 70285 XOR\n2 1 70285 70253 70221 AND\n2 1 70221 1694 86095 XOR\n2 1 1182 1214 70157 XOR\n2 1 1182 1161 67243 XOR\n2 1 1171 1182 67232 XOR\n2 1 67243 1170 88141 XOR\n2 1 88141 86093 114097 XOR\n2 1 67232 1159 88130 XOR\n2 1 88130 86082 114086 XOR\n2 1 67223 1182 88121 XOR\n2 1 88121 86073 114077 XOR\n2 1 88121 114046 25976 XOR\n2 1 114077 114046 84025 XOR\n2 1 88143 86095 114099 XOR\n2 1 25976 25977 25975 AND\n2 1 90224 84080 104513 XOR\n2 1 104513 104482 1183 XOR\n2 1 1183 1695 70286 XOR\n2 1 70286 70254 70222 AND\n2 1 70222 1695 86096 XOR\n2 1 1183 1215 70158 XOR\n2 1 1183 1162 67244 XOR\n2 1 1172 1183 67233 XOR\n2 1 67244 1171 88142 XOR\n2 1 88142 86094 114098 XOR\n2 1 67233 1160 88131 XOR\n2 1 67224 1183 88122 XOR\n2 1 88122 86074 114078 XOR\n2 1 88144 86096 114100 XOR\n2 1 88131 86083 114087 XOR\n2 1 25975 114046 114047 XOR\n2 1 88122 114047 25979 XOR\n2 1 114078 114047 84026 XOR\n2 1 86074 114047 25980 XOR\n2 1 25979 25980 25978 AND\n2 1 25978 114047 114048 XOR\n2 1 114079 114048 84027 XOR\n2 1 88123 114048 25982 XOR\n2 1 86075 114048 25983 XOR\n2 1 25982 25983 25981 AND\n2 1 25981 114048 114049 XOR\n2 1 86076 114049 25986 XOR\n2 1 114080 114049 84028 XOR\n2 1 88124 114049 25985 XOR\n2 1 25985 25986 25984 AND\n2 1 25984 114049 114050 XOR\n2 1 88125 114050 25988 XOR\n2 1 86077 114050 25989 XOR\n2 1 25988 25989 25987 AND\n2 1 25987 114050 114051 XOR\n2 1 114081 114050 84029 XOR\n2 1 114082 114051 84030 XOR\n2 1 88126 114051 25991 XOR\n2 1 86078 114051 25992 XOR\n2 1 25991 25992 25990 AND\n2 1 25990 114051 114052 XOR\n2 1 86079 114052 25995 XOR\n2 1 88127 114052 25994 XOR\n2 1 25994 25995 25993 AND\n2 1 25993 114052 114053 XOR\n2 1 86080 114053 25998 XOR\n2 1 88128 114053 25997 XOR\n2 1 114084 114053 84032 XOR\n",
"2 1 25997 25998 25996 AND\n2 1 25996 114053 114054 XOR\n2 1 86081 114054 26001 XOR\n2 1 88129 114054 26000 XOR\n2 1 26000 26001 25999 AND\n2 1 25999 114054 114055 XOR\n2 1 114085 114054 84033 XOR\n2 1 114086 114055 84034 XOR\n2 1 88130 114055 26003 XOR\n2 1 114083 114052 84031 XOR\n2 1 86082 114055 26004 XOR\n2 1 26003 26004 26002 AND\n2 1 26002 114055 114056 XOR\n2 1 88131 114056 26006 XOR\n2 1 86083 114056 26007 XOR\n2 1 26006 26007 26005 AND\n2 1 26005 114056 114057 XOR\n2 1 114088 114057 84036 XOR\n2 1 88132 114057 26009 XOR\n2 1 86084 114057 26010 XOR\n2 1 26009 26010 26008 AND\n2 1 26008 114057 114058 XOR\n2 1 88133 114058 26012 XOR\n2 1 114089 114058 84037 XOR\n2 1 86085 114058 26013 XOR\n2 1 26012 26013 26011 AND\n2 1 26011 114058 114059 XOR\n2 1 114090 114059 84038 XOR\n2 1 88134 114059 26015 XOR\n2 1 86086 114059 26016 XOR\n2 1 26015 26016 26014 AND\n2 1 26014 114059 114060 XOR\n2 1 114091 114060 84039 XOR\n2 1 88135 114060 26018 XOR\n2 1 86087 114060 26019 XOR\n2 1 26018 26019 26017 AND\n2 1 26017 114060 114061 XOR\n2 1 114092 114061 84040 XOR\n2 1 88136 114061 26021 XOR\n2 1 86088 114061 26022 XOR\n2 1 26021 26022 26020 AND\n2 1 26020 114061 114062 XOR\n2 1 114093 114062 84041 XOR\n2 1 88137 114062 26024 XOR\n2 1 86089 114062 26025 XOR\n2 1 26024 26025 26023 AND\n2 1 26023 114062 114063 XOR\n2 1 114094 114063 84042 XOR\n2 1 88138 114063 26027 XOR\n2 1 86090 114063 26028 XOR\n2 1 26027 26028 26026 AND\n2 1 26026 114063 114064 XOR\n2 1 114095 114064 84043 XOR\n2 1 88139 114064 26030 XOR\n2 1 86091 114064 26031 XOR\n2 1 26030 26031 26029 AND\n2 1 26029 114064 114065 XOR\n2 1 114096 114065 84044 XOR\n2 1 88140 114065 26033 XOR\n2 1 86092 114065 26034 XOR\n2 1 26033 26034 26032 AND\n2 1 26032 114065 114066 XOR\n2 1 114097 114066 84045 XOR\n2 1 88141 114066 26036 XOR\n2 1 86093 114066 26037 XOR\n2 1 26036 26037 26035 AND\n2 1 26035 114066 114067 XOR\n2 1 114098 114067 84046 XOR\n2 1 88142 114067 26039 XOR\n2 1 86094 114067 26040 XOR\n2 1 26039 26040 26038 AND\n2 1 26038 114067 114068 XOR\n2 1 114099 114068 84047 XOR\n2 1 88143 114068 26042 XOR\n2 1 86095 114068 26043 XOR\n2 1 26042 26043 26041 AND\n2 1 26041 114068 114069 XOR\n2 1 114100 114069 84048 XOR\n2 1 114087 114056 84035 XOR\n2 1 76567 76578 82512 XOR\n2 1 82512 76624 129322 XOR\n2 1 76566 76577 82511 XOR\n2 1 82511 76623 129321 XOR\n2 1 76565 76576 82510 XOR\n2 1 82510 76622 129320 XOR\n2 1 76564 76575 5212 XOR\n2 1 76563 76574 5211 XOR\n2 1 76562 76573 5210 XOR\n2 1 76561 76572 5209 XOR\n2 1 76592 76571 5208 XOR\n2 1 76591 76570 5207 XOR\n2 1 76590 76569 5206 XOR\n2 1 76589 76568 5205 XOR\n2 1 76588 76567 5204 XOR\n2 1 76587 76566 5203 XOR\n2 1 76586 76565 5202 XOR\n2 1 76585 76564 5201 XOR\n2 1 76584 76563 5200 XOR\n2 1 76583 76562 5199 XOR\n2 1 76582 76561 5198 XOR\n2 1 76581 76592 5197 XOR\n2 1 76580 76591 5196 XOR\n2 1 76579 76590 5195 XOR\n2 1 76578 76589 5194 XOR\n2 1 76577 76588 5193 XOR\n2 1 76576 76587 5192 XOR\n2 1 76575 76586 5191 XOR\n2 1 76574 76585 5190 XOR\n2 1 76573 76584 5189 XOR\n2 1 76572 76583 5188 XOR\n2 1 76571 76582 5187 XOR\n2 1 76570 76581 5186 XOR\n2 1 76569 76580 5185 XOR\n2 1 76568 76579 5184 XOR\n2 1 5212 76592 82509 XOR\n2 1 82509 76621 129319 XOR\n2 1 5211 76591 82508 XOR\n2 1 82508 76620 129318 XOR\n2 1 5210 76590 82507 XOR\n2 1 82507 76619 129317 XOR\n2 1 5209 76589 82506 XOR\n2 1 82506 76618 129316 XOR\n2 1 5208 76588 82505 XOR\n2 1 82505 76617 129315 XOR\n2 1 5207 76587 82504 XOR\n2 1 82504 76616 129314 XOR\n2 1 5206 76586 82503 XOR\n2 1 82503 76615 129313 XOR\n",
"2 1 5205 76585 82502 XOR\n2 1 82502 76614 129312 XOR\n2 1 5204 76584 82501 XOR\n2 1 82501 76613 129311 XOR\n2 1 5203 76583 82500 XOR\n2 1 82500 76612 129310 XOR\n2 1 5202 76582 82499 XOR\n2 1 82499 76611 129309 XOR\n2 1 5201 76581 82498 XOR\n2 1 82498 76610 129308 XOR\n2 1 5200 76580 82497 XOR\n2 1 82497 76609 129307 XOR\n2 1 5199 76579 82496 XOR\n2 1 82496 76608 129306 XOR\n2 1 5198 76578 82495 XOR\n2 1 82495 76607 129305 XOR\n2 1 5197 76577 82494 XOR\n2 1 82494 76606 129304 XOR\n2 1 5196 76576 82493 XOR\n2 1 82493 76605 129303 XOR\n2 1 5195 76575 82492 XOR\n2 1 82492 76604 129302 XOR\n2 1 5194 76574 82491 XOR\n2 1 82491 76603 129301 XOR\n2 1 5193 76573 82490 XOR\n2 1 82490 76602 129300 XOR\n2 1 5192 76572 82489 XOR\n2 1 82489 76601 129299 XOR\n2 1 5191 76571 82488 XOR\n2 1 82488 76600 129298 XOR\n2 1 5190 76570 82487 XOR\n2 1 82487 76599 129297 XOR\n2 1 5189 76569 82486 XOR\n2 1 82486 76598 129296 XOR\n2 1 5188 76568 82485 XOR\n2 1 82485 76597 129295 XOR\n2 1 5187 76567 82484 XOR\n2 1 82484 76596 129294 XOR\n2 1 5186 76566 82483 XOR\n2 1 82483 76595 129293 XOR\n2 1 5185 76565 82482 XOR\n2 1 82482 76594 129292 XOR\n2 1 5184 76564 82481 XOR\n2 1 82481 76593 129261 AND\n2 1 82482 129261 52086 XOR\n2 1 129292 129261 77874 XOR\n2 1 79410 77874 129230 XOR\n2 1 76594 129261 52087 XOR\n2 1 52086 52087 52085 AND\n2 1 52085 129261 129262 XOR\n2 1 82483 129262 52089 XOR\n2 1 129293 129262 77875 XOR\n2 1 79411 77875 129231 XOR\n2 1 76595 129262 52090 XOR\n2 1 52089 52090 52088 AND\n2 1 52088 129262 129263 XOR\n2 1 82484 129263 52092 XOR\n2 1 129294 129263 77876 XOR\n2 1 79412 77876 129232 XOR\n2 1 76596 129263 52093 XOR\n2 1 52092 52093 52091 AND\n2 1 52091 129263 129264 XOR\n2 1 82485 129264 52095 XOR\n2 1 76597 129264 52096 XOR\n2 1 52095 52096 52094 AND\n2 1 129295 129264 77877 XOR\n2 1 79413 77877 129233 XOR\n2 1 82481 76593 77873 XOR\n2 1 79409 77873 129199 AND\n2 1 129230 129199 76082 XOR\n2 1 79409 77873 76081 XOR\n2 1 76081 2208 114163 AND\n2 1 76082 114163 26225 XOR\n2 1 79410 129199 51996 XOR\n2 1 77874 129199 51997 XOR\n2 1 51996 51997 51995 AND\n2 1 51995 129199 129200 XOR\n2 1 129231 129200 76083 XOR\n2 1 76083 2210 114195 XOR\n2 1 79411 129200 51999 XOR\n2 1 77875 129200 52000 XOR\n2 1 51999 52000 51998 AND\n2 1 51998 129200 129201 XOR\n2 1 79412 129201 52002 XOR\n2 1 129232 129201 76084 XOR\n2 1 76084 2211 114196 XOR\n2 1 77876 129201 52003 XOR\n2 1 52002 52003 52001 AND\n2 1 52001 129201 129202 XOR\n2 1 77877 129202 52006 XOR\n2 1 79413 129202 52005 XOR\n2 1 52005 52006 52004 AND\n2 1 129233 129202 76085 XOR\n2 1 2209 114163 26226 XOR\n2 1 26225 26226 26224 AND\n2 1 26224 114163 114164 XOR\n2 1 2210 114164 26229 XOR\n2 1 52004 129202 129203 XOR\n2 1 79414 129203 52008 XOR\n2 1 76083 114164 26228 XOR\n2 1 52094 129264 129265 XOR\n2 1 129296 129265 77878 XOR\n2 1 79414 77878 129234 XOR\n2 1 129234 129203 76086 XOR\n2 1 77878 129203 52009 XOR\n2 1 52008 52009 52007 AND\n2 1 52007 129203 129204 XOR\n2 1 76085 2212 114197 XOR\n2 1 82486 129265 52098 XOR\n2 1 76598 129265 52099 XOR\n2 1 52098 52099 52097 AND\n2 1 52097 129265 129266 XOR\n2 1 129297 129266 77879 XOR\n2 1 79415 77879 129235 XOR\n2 1 129235 129204 76087 XOR\n2 1 76087 2214 114199 XOR\n2 1 79415 129204 52011 XOR\n2 1 77879 129204 52012 XOR\n2 1 52011 52012 52010 AND\n2 1 52010 129204 129205 XOR\n2 1 79416 129205 52014 XOR\n2 1 82487 129266 52101 XOR\n2 1 76599 129266 52102 XOR\n2 1 52101 52102 52100 AND\n2 1 52100 129266 129267 XOR\n2 1 129298 129267 77880 XOR\n2 1 79416 77880 129236 XOR\n2 1 129236 129205 76088 XOR\n",
"2 1 76088 2215 114200 XOR\n2 1 82488 129267 52104 XOR\n2 1 77880 129205 52015 XOR\n2 1 52014 52015 52013 AND\n2 1 52013 129205 129206 XOR\n2 1 79417 129206 52017 XOR\n2 1 76600 129267 52105 XOR\n2 1 52104 52105 52103 AND\n2 1 52103 129267 129268 XOR\n2 1 129299 129268 77881 XOR\n2 1 79417 77881 129237 XOR\n2 1 129237 129206 76089 XOR\n2 1 76089 2216 114201 XOR\n2 1 77881 129206 52018 XOR\n2 1 52017 52018 52016 AND\n2 1 52016 129206 129207 XOR\n2 1 82489 129268 52107 XOR\n2 1 76601 129268 52108 XOR\n2 1 52107 52108 52106 AND\n2 1 52106 129268 129269 XOR\n2 1 82490 129269 52110 XOR\n2 1 76602 129269 52111 XOR\n2 1 52110 52111 52109 AND\n2 1 52109 129269 129270 XOR\n2 1 129301 129270 77883 XOR\n2 1 79419 77883 129239 XOR\n2 1 82491 129270 52113 XOR\n2 1 76603 129270 52114 XOR\n2 1 52113 52114 52112 AND\n2 1 52112 129270 129271 XOR\n2 1 129302 129271 77884 XOR\n2 1 79420 77884 129240 XOR\n2 1 82492 129271 52116 XOR\n2 1 76604 129271 52117 XOR\n2 1 52116 52117 52115 AND\n2 1 52115 129271 129272 XOR\n2 1 129303 129272 77885 XOR\n2 1 79421 77885 129241 XOR\n2 1 82493 129272 52119 XOR\n2 1 76605 129272 52120 XOR\n2 1 52119 52120 52118 AND\n2 1 52118 129272 129273 XOR\n2 1 82494 129273 52122 XOR\n2 1 76606 129273 52123 XOR\n2 1 52122 52123 52121 AND\n2 1 52121 129273 129274 XOR\n2 1 76607 129274 52126 XOR\n2 1 82495 129274 52125 XOR\n2 1 52125 52126 52124 AND\n2 1 129305 129274 77887 XOR\n2 1 79423 77887 129243 XOR\n2 1 52124 129274 129275 XOR\n2 1 129306 129275 77888 XOR\n2 1 79424 77888 129244 XOR\n2 1 82496 129275 52128 XOR\n2 1 76608 129275 52129 XOR\n2 1 52128 52129 52127 AND\n2 1 52127 129275 129276 XOR\n2 1 82497 129276 52131 XOR\n2 1 76609 129276 52132 XOR\n2 1 129307 129276 77889 XOR\n2 1 79425 77889 129245 XOR\n2 1 52131 52132 52130 AND\n2 1 52130 129276 129277 XOR\n2 1 76610 129277 52135 XOR\n2 1 82498 129277 52134 XOR\n2 1 129308 129277 77890 XOR\n2 1 79426 77890 129246 XOR\n2 1 52134 52135 52133 AND\n2 1 52133 129277 129278 XOR\n2 1 76611 129278 52138 XOR\n2 1 129309 129278 77891 XOR\n2 1 79427 77891 129247 XOR\n2 1 129304 129273 77886 XOR\n2 1 79422 77886 129242 XOR\n2 1 79418 129207 52020 XOR\n2 1 114195 114164 94200 XOR\n2 1 96248 94200 114133 XOR\n2 1 76086 2213 114198 XOR\n2 1 129300 129269 77882 XOR\n2 1 79418 77882 129238 XOR\n2 1 129238 129207 76090 XOR\n2 1 76090 2217 114202 XOR\n2 1 77882 129207 52021 XOR\n2 1 52020 52021 52019 AND\n2 1 52019 129207 129208 XOR\n2 1 79419 129208 52023 XOR\n2 1 77883 129208 52024 XOR\n2 1 52023 52024 52022 AND\n2 1 129239 129208 76091 XOR\n2 1 76091 2218 114203 XOR\n2 1 52022 129208 129209 XOR\n2 1 129240 129209 76092 XOR\n2 1 76092 2219 114204 XOR\n2 1 79420 129209 52026 XOR\n2 1 77884 129209 52027 XOR\n2 1 52026 52027 52025 AND\n2 1 52025 129209 129210 XOR\n2 1 129241 129210 76093 XOR\n2 1 79421 129210 52029 XOR\n2 1 77885 129210 52030 XOR\n2 1 52029 52030 52028 AND\n2 1 52028 129210 129211 XOR\n2 1 129242 129211 76094 XOR\n2 1 79422 129211 52032 XOR\n2 1 77886 129211 52033 XOR\n2 1 52032 52033 52031 AND\n2 1 52031 129211 129212 XOR\n2 1 129243 129212 76095 XOR\n2 1 76095 2222 114207 XOR\n2 1 79423 129212 52035 XOR\n2 1 77887 129212 52036 XOR\n2 1 52035 52036 52034 AND\n2 1 52034 129212 129213 XOR\n2 1 79424 129213 52038 XOR\n2 1 129244 129213 76096 XOR\n2 1 76096 2223 114208 XOR\n2 1 76093 2220 114205 XOR\n2 1 77888 129213 52039 XOR\n2 1 52038 52039 52037 AND\n2 1 52037 129213 129214 XOR\n2 1 129245 129214 76097 XOR\n2 1 79425 129214 52041 XOR\n2 1 77889 129214 52042 XOR\n2 1 52041 52042 52040 AND\n2 1 52040 129214 129215 XOR\n2 1 129246 129215 76098 XOR\n2 1 76098 2225 114210 XOR\n",
"2 1 79426 129215 52044 XOR\n2 1 77890 129215 52045 XOR\n2 1 52044 52045 52043 AND\n2 1 52043 129215 129216 XOR\n2 1 79427 129216 52047 XOR\n2 1 129247 129216 76099 XOR\n2 1 77891 129216 52048 XOR\n2 1 52047 52048 52046 AND\n2 1 76099 2226 114211 XOR\n2 1 52046 129216 129217 XOR\n2 1 79428 129217 52050 XOR\n2 1 82499 129278 52137 XOR\n2 1 52137 52138 52136 AND\n2 1 52136 129278 129279 XOR\n2 1 129310 129279 77892 XOR\n2 1 77892 129217 52051 XOR\n2 1 52050 52051 52049 AND\n2 1 52049 129217 129218 XOR\n2 1 79429 129218 52053 XOR\n2 1 82500 129279 52140 XOR\n2 1 79428 77892 129248 XOR\n2 1 129248 129217 76100 XOR\n2 1 76100 2227 114212 XOR\n2 1 26228 26229 26227 AND\n2 1 26227 114164 114165 XOR\n2 1 76084 114165 26231 XOR\n2 1 114196 114165 94201 XOR\n2 1 76612 129279 52141 XOR\n2 1 52140 52141 52139 AND\n2 1 52139 129279 129280 XOR\n2 1 82501 129280 52143 XOR\n2 1 76613 129280 52144 XOR\n2 1 52143 52144 52142 AND\n2 1 129311 129280 77893 XOR\n2 1 79429 77893 129249 XOR\n2 1 77893 129218 52054 XOR\n2 1 129249 129218 76101 XOR\n2 1 76101 2228 114213 XOR\n2 1 52053 52054 52052 AND\n2 1 52052 129218 129219 XOR\n2 1 79430 129219 52056 XOR\n2 1 52142 129280 129281 XOR\n2 1 129312 129281 77894 XOR\n2 1 79430 77894 129250 XOR\n2 1 129250 129219 76102 XOR\n2 1 77894 129219 52057 XOR\n2 1 52056 52057 52055 AND\n2 1 52055 129219 129220 XOR\n2 1 79431 129220 52059 XOR\n2 1 82502 129281 52146 XOR\n2 1 76614 129281 52147 XOR\n2 1 52146 52147 52145 AND\n2 1 52145 129281 129282 XOR\n2 1 129313 129282 77895 XOR\n2 1 77895 129220 52060 XOR\n2 1 52059 52060 52058 AND\n2 1 82503 129282 52149 XOR\n2 1 79431 77895 129251 XOR\n2 1 129251 129220 76103 XOR\n2 1 76103 2230 114215 XOR\n2 1 76615 129282 52150 XOR\n2 1 52149 52150 52148 AND\n2 1 52148 129282 129283 XOR\n2 1 129314 129283 77896 XOR\n2 1 79432 77896 129252 XOR\n2 1 52058 129220 129221 XOR\n2 1 129252 129221 76104 XOR\n2 1 76104 2231 114216 XOR\n2 1 77896 129221 52063 XOR\n2 1 79432 129221 52062 XOR\n2 1 52062 52063 52061 AND\n2 1 52061 129221 129222 XOR\n2 1 79433 129222 52065 XOR\n2 1 82504 129283 52152 XOR\n2 1 76616 129283 52153 XOR\n2 1 52152 52153 52151 AND\n2 1 52151 129283 129284 XOR\n2 1 82505 129284 52155 XOR\n2 1 129315 129284 77897 XOR\n2 1 79433 77897 129253 XOR\n2 1 129253 129222 76105 XOR\n2 1 77897 129222 52066 XOR\n2 1 52065 52066 52064 AND\n2 1 52064 129222 129223 XOR\n2 1 79434 129223 52068 XOR\n2 1 76105 2232 114217 XOR\n2 1 76617 129284 52156 XOR\n2 1 52155 52156 52154 AND\n2 1 52154 129284 129285 XOR\n2 1 76618 129285 52159 XOR\n2 1 82506 129285 52158 XOR\n2 1 52158 52159 52157 AND\n2 1 52157 129285 129286 XOR\n2 1 129317 129286 77899 XOR\n2 1 79435 77899 129255 XOR\n2 1 82507 129286 52161 XOR\n2 1 129316 129285 77898 XOR\n2 1 79434 77898 129254 XOR\n2 1 76619 129286 52162 XOR\n2 1 52161 52162 52160 AND\n2 1 52160 129286 129287 XOR\n2 1 129318 129287 77900 XOR\n2 1 79436 77900 129256 XOR\n2 1 82508 129287 52164 XOR\n2 1 76620 129287 52165 XOR\n2 1 52164 52165 52163 AND\n2 1 52163 129287 129288 XOR\n2 1 76621 129288 52168 XOR\n2 1 129319 129288 77901 XOR\n2 1 79437 77901 129257 XOR\n2 1 82509 129288 52167 XOR\n2 1 52167 52168 52166 AND\n2 1 52166 129288 129289 XOR\n2 1 82510 129289 52170 XOR\n2 1 129320 129289 77902 XOR\n2 1 79438 77902 129258 XOR\n2 1 129254 129223 76106 XOR\n2 1 76106 2233 114218 XOR\n2 1 77898 129223 52069 XOR\n2 1 52068 52069 52067 AND\n2 1 52067 129223 129224 XOR\n2 1 129255 129224 76107 XOR\n2 1 76107 2234 114219 XOR\n2 1 79435 129224 52071 XOR\n2 1 77899 129224 52072 XOR\n2 1 52071 52072 52070 AND\n2 1 52070 129224 129225 XOR\n2 1 77900 129225 52075 XOR\n",
"2 1 79436 129225 52074 XOR\n2 1 52074 52075 52073 AND\n2 1 76102 2229 114214 XOR\n2 1 129256 129225 76108 XOR\n2 1 52073 129225 129226 XOR\n2 1 129257 129226 76109 XOR\n2 1 79437 129226 52077 XOR\n2 1 77901 129226 52078 XOR\n2 1 52077 52078 52076 AND\n2 1 52076 129226 129227 XOR\n2 1 77902 129227 52081 XOR\n2 1 76109 2236 114221 XOR\n2 1 79438 129227 52080 XOR\n2 1 52080 52081 52079 AND\n2 1 52079 129227 129228 XOR\n2 1 79439 129228 52083 XOR\n2 1 129258 129227 76110 XOR\n2 1 76110 2237 114222 XOR\n2 1 76094 2221 114206 XOR\n2 1 96249 94201 114134 XOR\n2 1 76622 129289 52171 XOR\n2 1 52170 52171 52169 AND\n2 1 52169 129289 129290 XOR\n2 1 129321 129290 77903 XOR\n2 1 82511 129290 52173 XOR\n2 1 77903 129228 52084 XOR\n2 1 52083 52084 52082 AND\n2 1 52082 129228 129229 XOR\n2 1 79439 77903 129259 XOR\n2 1 129259 129228 76111 XOR\n2 1 76111 2238 114223 XOR\n2 1 76623 129290 52174 XOR\n2 1 52173 52174 52172 AND\n2 1 52172 129290 129291 XOR\n2 1 129322 129291 77904 XOR\n2 1 79440 77904 129260 XOR\n2 1 129260 129229 76112 XOR\n2 1 76081 2208 94198 XOR\n2 1 96246 94198 90161 XOR\n2 1 1696 90161 104266 AND\n2 1 1696 90161 1568 XOR\n2 1 90161 84017 1120 XOR\n2 1 1120 1184 70159 XOR\n2 1 70159 70127 70095 AND\n2 1 70095 1184 86033 XOR\n2 1 1120 1152 70031 XOR\n2 1 1697 104266 10477 XOR\n2 1 63759 1568 63727 AND\n2 1 63727 1632 98262 XOR\n2 1 1568 1600 63695 XOR\n2 1 96246 94198 114101 AND\n2 1 96247 114101 26135 XOR\n2 1 76097 76099 80912 XOR\n2 1 80912 76272 129012 XOR\n2 1 76096 76098 80911 XOR\n2 1 80911 76271 129011 XOR\n2 1 76095 76097 80910 XOR\n2 1 80910 76270 129010 XOR\n2 1 76094 76096 80909 XOR\n2 1 80909 76269 129009 XOR\n2 1 76093 76095 80908 XOR\n2 1 80908 76268 129008 XOR\n2 1 76092 76094 80907 XOR\n2 1 80907 76267 129007 XOR\n2 1 76091 76093 80906 XOR\n2 1 80906 76266 129006 XOR\n2 1 76090 76092 80905 XOR\n2 1 80905 76265 129005 XOR\n2 1 76089 76091 80904 XOR\n2 1 80904 76264 129004 XOR\n2 1 76088 76090 80903 XOR\n2 1 80903 76263 129003 XOR\n2 1 76087 76089 6419 XOR\n2 1 76086 76088 6418 XOR\n2 1 76085 76087 6417 XOR\n2 1 76084 76086 6416 XOR\n2 1 76083 76085 6415 XOR\n2 1 76082 76084 6414 XOR\n2 1 76081 76083 6413 XOR\n2 1 76112 76082 6412 XOR\n2 1 76111 76081 6411 XOR\n2 1 76110 76112 6410 XOR\n2 1 76109 76111 6409 XOR\n2 1 76108 76110 6408 XOR\n2 1 76107 76109 6407 XOR\n2 1 76106 76108 6406 XOR\n2 1 76105 76107 6405 XOR\n2 1 76104 76106 6404 XOR\n2 1 76103 76105 6403 XOR\n2 1 76102 76104 6402 XOR\n2 1 76101 76103 6401 XOR\n2 1 76100 76102 6400 XOR\n2 1 76099 76101 6399 XOR\n2 1 76098 76100 6398 XOR\n2 1 6419 76112 80902 XOR\n2 1 80902 76262 129002 XOR\n2 1 6418 76111 80901 XOR\n2 1 80901 76261 129001 XOR\n2 1 6417 76110 80900 XOR\n2 1 80900 76260 129000 XOR\n2 1 6416 76109 80899 XOR\n2 1 80899 76259 128999 XOR\n2 1 6415 76108 80898 XOR\n2 1 80898 76258 128998 XOR\n2 1 6414 76107 80897 XOR\n2 1 80897 76257 128997 XOR\n2 1 6413 76106 80896 XOR\n2 1 80896 76256 128996 XOR\n2 1 6412 76105 80895 XOR\n2 1 80895 76255 128995 XOR\n2 1 6411 76104 80894 XOR\n2 1 80894 76254 128994 XOR\n2 1 6410 76103 80893 XOR\n2 1 80893 76253 128993 XOR\n2 1 6409 76102 80892 XOR\n2 1 80892 76252 128992 XOR\n2 1 6408 76101 80891 XOR\n2 1 80891 76251 128991 XOR\n2 1 6407 76100 80890 XOR\n2 1 80890 76250 128990 XOR\n2 1 6406 76099 80889 XOR\n2 1 80889 76249 128989 XOR\n2 1 6405 76098 80888 XOR\n2 1 80888 76248 128988 XOR\n2 1 6404 76097 80887 XOR\n2 1 80887 76247 128987 XOR\n2 1 6403 76096 80886 XOR\n2 1 80886 76246 128986 XOR\n",
"2 1 6402 76095 80885 XOR\n2 1 80885 76245 128985 XOR\n2 1 6401 76094 80884 XOR\n2 1 80884 76244 128984 XOR\n2 1 6400 76093 80883 XOR\n2 1 80883 76243 128983 XOR\n2 1 6399 76092 80882 XOR\n2 1 80882 76242 128982 XOR\n2 1 6398 76091 80881 XOR\n2 1 80881 76241 79345 XOR\n2 1 80881 76241 128951 AND\n2 1 76242 128951 51637 XOR\n2 1 128982 128951 79346 XOR\n2 1 80882 128951 51636 XOR\n2 1 51636 51637 51635 AND\n2 1 51635 128951 128952 XOR\n2 1 80883 128952 51639 XOR\n2 1 128983 128952 79347 XOR\n2 1 76243 128952 51640 XOR\n2 1 51639 51640 51638 AND\n2 1 51638 128952 128953 XOR\n2 1 128984 128953 79348 XOR\n2 1 76244 128953 51643 XOR\n2 1 80884 128953 51642 XOR\n2 1 51642 51643 51641 AND\n2 1 51641 128953 128954 XOR\n2 1 80885 128954 51645 XOR\n2 1 76245 128954 51646 XOR\n2 1 128985 128954 79349 XOR\n2 1 90161 84017 104328 AND\n2 1 84018 104328 10568 XOR\n2 1 51645 51646 51644 AND\n2 1 51644 128954 128955 XOR\n2 1 76246 128955 51649 XOR\n2 1 128986 128955 79350 XOR\n2 1 80886 128955 51648 XOR\n2 1 51648 51649 51647 AND\n2 1 51647 128955 128956 XOR\n2 1 76247 128956 51652 XOR\n2 1 80887 128956 51651 XOR\n2 1 51651 51652 51650 AND\n2 1 51650 128956 128957 XOR\n2 1 80888 128957 51654 XOR\n2 1 76248 128957 51655 XOR\n2 1 51654 51655 51653 AND\n2 1 128988 128957 79352 XOR\n2 1 51653 128957 128958 XOR\n2 1 80889 128958 51657 XOR\n2 1 76249 128958 51658 XOR\n2 1 128989 128958 79353 XOR\n2 1 128987 128956 79351 XOR\n2 1 51657 51658 51656 AND\n2 1 51656 128958 128959 XOR\n2 1 128990 128959 79354 XOR\n2 1 80890 128959 51660 XOR\n2 1 76250 128959 51661 XOR\n2 1 51660 51661 51659 AND\n2 1 51659 128959 128960 XOR\n2 1 80891 128960 51663 XOR\n2 1 76251 128960 51664 XOR\n2 1 128991 128960 79355 XOR\n2 1 51663 51664 51662 AND\n2 1 51662 128960 128961 XOR\n2 1 80892 128961 51666 XOR\n2 1 76252 128961 51667 XOR\n2 1 51666 51667 51665 AND\n2 1 51665 128961 128962 XOR\n2 1 80893 128962 51669 XOR\n2 1 128993 128962 79357 XOR\n2 1 76253 128962 51670 XOR\n2 1 51669 51670 51668 AND\n2 1 51668 128962 128963 XOR\n2 1 76254 128963 51673 XOR\n2 1 128994 128963 79358 XOR\n2 1 80894 128963 51672 XOR\n2 1 51672 51673 51671 AND\n2 1 51671 128963 128964 XOR\n2 1 80895 128964 51675 XOR\n2 1 76255 128964 51676 XOR\n2 1 128992 128961 79356 XOR\n2 1 128995 128964 79359 XOR\n2 1 51675 51676 51674 AND\n2 1 51674 128964 128965 XOR\n2 1 128996 128965 79360 XOR\n2 1 76256 128965 51679 XOR\n2 1 80896 128965 51678 XOR\n2 1 51678 51679 51677 AND\n2 1 51677 128965 128966 XOR\n2 1 80897 128966 51681 XOR\n2 1 128997 128966 79361 XOR\n2 1 76257 128966 51682 XOR\n2 1 51681 51682 51680 AND\n2 1 51680 128966 128967 XOR\n2 1 80898 128967 51684 XOR\n2 1 76258 128967 51685 XOR\n2 1 51684 51685 51683 AND\n2 1 51683 128967 128968 XOR\n2 1 128999 128968 79363 XOR\n2 1 80899 128968 51687 XOR\n2 1 128998 128967 79362 XOR\n2 1 76259 128968 51688 XOR\n2 1 51687 51688 51686 AND\n2 1 51686 128968 128969 XOR\n2 1 76260 128969 51691 XOR\n2 1 80900 128969 51690 XOR\n2 1 51690 51691 51689 AND\n2 1 51689 128969 128970 XOR\n2 1 80901 128970 51693 XOR\n2 1 76261 128970 51694 XOR\n2 1 51693 51694 51692 AND\n2 1 129000 128969 79364 XOR\n2 1 51692 128970 128971 XOR\n2 1 76262 128971 51697 XOR\n2 1 129002 128971 79366 XOR\n2 1 80902 128971 51696 XOR\n2 1 51696 51697 51695 AND\n2 1 51695 128971 128972 XOR\n2 1 76263 128972 51700 XOR\n2 1 80903 128972 51699 XOR\n2 1 51699 51700 51698 AND\n2 1 51698 128972 128973 XOR\n2 1 76264 128973 51703 XOR\n2 1 129004 128973 79368 XOR\n2 1 80904 128973 51702 XOR\n2 1 51702 51703 51701 AND\n2 1 51701 128973 128974 XOR\n2 1 80905 128974 51705 XOR\n2 1 76265 128974 51706 XOR\n",
"2 1 51705 51706 51704 AND\n2 1 51704 128974 128975 XOR\n2 1 129006 128975 79370 XOR\n2 1 80906 128975 51708 XOR\n2 1 76266 128975 51709 XOR\n2 1 51708 51709 51707 AND\n2 1 51707 128975 128976 XOR\n2 1 129007 128976 79371 XOR\n2 1 80907 128976 51711 XOR\n2 1 76267 128976 51712 XOR\n2 1 129005 128974 79369 XOR\n2 1 51711 51712 51710 AND\n2 1 51710 128976 128977 XOR\n2 1 76268 128977 51715 XOR\n2 1 80908 128977 51714 XOR\n2 1 51714 51715 51713 AND\n2 1 51713 128977 128978 XOR\n2 1 129009 128978 79373 XOR\n2 1 76269 128978 51718 XOR\n2 1 80909 128978 51717 XOR\n2 1 51717 51718 51716 AND\n2 1 51716 128978 128979 XOR\n2 1 80910 128979 51720 XOR\n2 1 129010 128979 79374 XOR\n2 1 129008 128977 79372 XOR\n2 1 129003 128972 79367 XOR\n2 1 76270 128979 51721 XOR\n2 1 51720 51721 51719 AND\n2 1 51719 128979 128980 XOR\n2 1 80911 128980 51723 XOR\n2 1 76271 128980 51724 XOR\n2 1 51723 51724 51722 AND\n2 1 51722 128980 128981 XOR\n2 1 129012 128981 79376 XOR\n2 1 129011 128980 79375 XOR\n2 1 129001 128970 79365 XOR\n2 1 76108 2235 114220 XOR\n2 1 76082 2209 114194 XOR\n2 1 114194 114163 94199 XOR\n2 1 94199 114101 26136 XOR\n2 1 26135 26136 26134 AND\n2 1 26134 114101 114102 XOR\n2 1 114133 114102 92193 XOR\n2 1 96247 94199 114132 XOR\n2 1 114132 114101 92192 XOR\n2 1 94200 114102 26139 XOR\n1 1 92193 26123 INV\n1 1 92192 90162 INV\n2 1 90162 84018 104359 XOR\n2 1 90162 104328 10567 XOR\n2 1 10567 10568 10566 AND\n2 1 26123 92192 90163 XOR\n2 1 90163 84019 104360 XOR\n2 1 1698 90163 104298 XOR\n2 1 92193 92192 26045 XOR\n2 1 26045 90162 26044 AND\n2 1 26044 92192 26047 XOR\n2 1 90162 104266 10478 XOR\n2 1 10477 10478 10476 AND\n2 1 10476 104266 104267 XOR\n2 1 90163 104267 10481 XOR\n2 1 104298 104267 1570 XOR\n2 1 63761 1570 63729 AND\n2 1 63729 1634 98264 XOR\n2 1 1570 1602 63697 XOR\n2 1 1698 104267 10480 XOR\n2 1 10480 10481 10479 AND\n2 1 10479 104267 104268 XOR\n2 1 96248 114102 26138 XOR\n2 1 26138 26139 26137 AND\n2 1 26137 114102 114103 XOR\n2 1 96249 114103 26141 XOR\n2 1 94201 114103 26142 XOR\n2 1 26141 26142 26140 AND\n2 1 26140 114103 114104 XOR\n2 1 96250 114104 26144 XOR\n2 1 1697 90162 104297 XOR\n2 1 104297 104266 1569 XOR\n2 1 63760 1569 63728 AND\n2 1 63728 1633 98263 XOR\n2 1 1569 1601 63696 XOR\n2 1 104359 104328 1121 XOR\n2 1 1121 1185 70160 XOR\n2 1 70160 70128 70096 AND\n2 1 70096 1185 86034 XOR\n2 1 1121 1153 70032 XOR\n2 1 10566 104328 104329 XOR\n2 1 84019 104329 10571 XOR\n2 1 90163 104329 10570 XOR\n2 1 104360 104329 1122 XOR\n2 1 1122 1186 70161 XOR\n2 1 70161 70129 70097 AND\n2 1 70097 1186 86035 XOR\n2 1 1122 1154 70033 XOR\n2 1 10570 10571 10569 AND\n2 1 10569 104329 104330 XOR\n2 1 84020 104330 10574 XOR\n2 1 114134 114103 92194 XOR\n2 1 92194 26047 90164 XOR\n2 1 90164 84020 104361 XOR\n2 1 1699 90164 104299 XOR\n2 1 104299 104268 1571 XOR\n2 1 90164 26047 26046 AND\n2 1 26046 26047 26112 XOR\n1 1 26112 26050 INV\n2 1 63762 1571 63730 AND\n2 1 63730 1635 98265 XOR\n2 1 1571 1603 63698 XOR\n2 1 104361 104330 1123 XOR\n2 1 1123 1187 70162 XOR\n2 1 70162 70130 70098 AND\n2 1 70098 1187 86036 XOR\n2 1 1123 1155 70034 XOR\n2 1 90164 104268 10484 XOR\n2 1 90164 104330 10573 XOR\n2 1 10573 10574 10572 AND\n2 1 10572 104330 104331 XOR\n2 1 84021 104331 10577 XOR\n2 1 1699 104268 10483 XOR\n2 1 10483 10484 10482 AND\n2 1 10482 104268 104269 XOR\n2 1 1700 104269 10486 XOR\n2 1 76112 2239 114224 XOR\n2 1 76097 2224 114209 XOR\n2 1 2211 114165 26232 XOR\n2 1 26231 26232 26230 AND\n2 1 26230 114165 114166 XOR\n2 1 114197 114166 94202 XOR\n",
"2 1 94202 114104 26145 XOR\n2 1 26144 26145 26143 AND\n2 1 76085 114166 26234 XOR\n2 1 26143 114104 114105 XOR\n2 1 96251 114105 26147 XOR\n2 1 96250 94202 114135 XOR\n2 1 114135 114104 92195 XOR\n1 1 92195 26124 INV\n2 1 26124 26112 90165 XOR\n2 1 90165 104331 10576 XOR\n2 1 10576 10577 10575 AND\n2 1 10575 104331 104332 XOR\n2 1 84022 104332 10580 XOR\n2 1 90165 84021 104362 XOR\n2 1 104362 104331 1124 XOR\n2 1 1124 1188 70163 XOR\n2 1 70163 70131 70099 AND\n2 1 70099 1188 86037 XOR\n2 1 1124 1156 70035 XOR\n2 1 1700 90165 104300 XOR\n2 1 104300 104269 1572 XOR\n2 1 92195 26112 26049 XOR\n2 1 26049 26050 26048 AND\n2 1 26048 26112 26052 XOR\n2 1 63763 1572 63731 AND\n2 1 63731 1636 98266 XOR\n2 1 1572 1604 63699 XOR\n2 1 90165 104269 10487 XOR\n2 1 2212 114166 26235 XOR\n2 1 10486 10487 10485 AND\n2 1 10485 104269 104270 XOR\n2 1 1701 104270 10489 XOR\n2 1 26234 26235 26233 AND\n2 1 26233 114166 114167 XOR\n2 1 2213 114167 26238 XOR\n2 1 76086 114167 26237 XOR\n2 1 26237 26238 26236 AND\n2 1 26236 114167 114168 XOR\n2 1 114199 114168 94204 XOR\n2 1 76087 114168 26240 XOR\n2 1 2214 114168 26241 XOR\n2 1 26240 26241 26239 AND\n2 1 26239 114168 114169 XOR\n2 1 76088 114169 26243 XOR\n2 1 114200 114169 94205 XOR\n2 1 96253 94205 114138 XOR\n2 1 96252 94204 114137 XOR\n2 1 114198 114167 94203 XOR\n2 1 94203 114105 26148 XOR\n2 1 96251 94203 114136 XOR\n2 1 114136 114105 92196 XOR\n2 1 92196 26052 90166 XOR\n2 1 90166 104332 10579 XOR\n2 1 10579 10580 10578 AND\n2 1 10578 104332 104333 XOR\n2 1 84023 104333 10583 XOR\n2 1 1701 90166 104301 XOR\n2 1 104301 104270 1573 XOR\n2 1 90166 84022 104363 XOR\n2 1 104363 104332 1125 XOR\n2 1 1125 1189 70164 XOR\n2 1 70164 70132 70100 AND\n2 1 70100 1189 86038 XOR\n2 1 1125 1157 70036 XOR\n2 1 90166 104270 10490 XOR\n2 1 10489 10490 10488 AND\n2 1 10488 104270 104271 XOR\n2 1 1702 104271 10492 XOR\n2 1 90166 26052 26051 AND\n2 1 26051 26052 26054 XOR\n2 1 63764 1573 63732 AND\n2 1 63732 1637 98267 XOR\n2 1 1573 1605 63700 XOR\n2 1 26147 26148 26146 AND\n2 1 26146 114105 114106 XOR\n2 1 94204 114106 26151 XOR\n2 1 96252 114106 26150 XOR\n2 1 26150 26151 26149 AND\n2 1 26149 114106 114107 XOR\n2 1 94205 114107 26154 XOR\n2 1 96253 114107 26153 XOR\n2 1 114138 114107 92198 XOR\n2 1 26153 26154 26152 AND\n2 1 26152 114107 114108 XOR\n2 1 96254 114108 26156 XOR\n2 1 2215 114169 26244 XOR\n2 1 26243 26244 26242 AND\n2 1 26242 114169 114170 XOR\n2 1 76089 114170 26246 XOR\n2 1 2216 114170 26247 XOR\n2 1 26246 26247 26245 AND\n2 1 26245 114170 114171 XOR\n2 1 76090 114171 26249 XOR\n2 1 114201 114170 94206 XOR\n2 1 94206 114108 26157 XOR\n2 1 26156 26157 26155 AND\n2 1 96254 94206 114139 XOR\n2 1 114139 114108 92199 XOR\n1 1 92199 26125 INV\n2 1 26155 114108 114109 XOR\n2 1 96255 114109 26159 XOR\n2 1 114202 114171 94207 XOR\n2 1 96255 94207 114140 XOR\n2 1 94207 114109 26160 XOR\n2 1 26159 26160 26158 AND\n2 1 114137 114106 92197 XOR\n2 1 92197 26054 90167 XOR\n2 1 90167 84023 104364 XOR\n2 1 104364 104333 1126 XOR\n2 1 1126 1190 70165 XOR\n2 1 70165 70133 70101 AND\n2 1 70101 1190 86039 XOR\n2 1 1126 1158 70037 XOR\n2 1 90167 104333 10582 XOR\n2 1 10582 10583 10581 AND\n2 1 10581 104333 104334 XOR\n2 1 84024 104334 10586 XOR\n2 1 90167 26054 26053 AND\n2 1 26053 26054 26056 XOR\n2 1 90167 104271 10493 XOR\n2 1 1702 90167 104302 XOR\n2 1 104302 104271 1574 XOR\n2 1 10492 10493 10491 AND\n2 1 63765 1574 63733 AND\n2 1 63733 1638 98268 XOR\n2 1 1574 1606 63701 XOR\n2 1 92198 26056 90168 XOR\n2 1 90168 104334 10585 XOR\n",
"2 1 10585 10586 10584 AND\n2 1 10584 104334 104335 XOR\n2 1 1703 90168 104303 XOR\n2 1 84025 104335 10589 XOR\n2 1 90168 84024 104365 XOR\n2 1 104365 104334 1127 XOR\n2 1 1127 1159 70038 XOR\n2 1 1127 1191 70166 XOR\n2 1 70166 70134 70102 AND\n2 1 70102 1191 86040 XOR\n2 1 90168 26056 26055 AND\n2 1 26055 26056 26113 XOR\n1 1 26113 26059 INV\n2 1 26125 26113 90169 XOR\n2 1 90169 104335 10588 XOR\n2 1 10588 10589 10587 AND\n2 1 10587 104335 104336 XOR\n2 1 84026 104336 10592 XOR\n2 1 1704 90169 104304 XOR\n2 1 90169 84025 104366 XOR\n2 1 104366 104335 1128 XOR\n2 1 1128 1192 70167 XOR\n2 1 70167 70135 70103 AND\n2 1 70103 1192 86041 XOR\n2 1 1128 1160 70039 XOR\n2 1 92199 26113 26058 XOR\n2 1 26058 26059 26057 AND\n2 1 26057 26113 26061 XOR\n2 1 1569 1574 61290 XOR\n2 1 1568 1573 61289 XOR\n2 1 10491 104271 104272 XOR\n2 1 1703 104272 10495 XOR\n2 1 90168 104272 10496 XOR\n2 1 10495 10496 10494 AND\n2 1 104303 104272 1575 XOR\n2 1 63766 1575 63734 AND\n2 1 63734 1639 98269 XOR\n2 1 1575 1607 63702 XOR\n2 1 1570 1575 61291 XOR\n2 1 2217 114171 26250 XOR\n2 1 26249 26250 26248 AND\n2 1 26158 114109 114110 XOR\n2 1 96256 114110 26162 XOR\n2 1 114140 114109 92200 XOR\n2 1 92200 26061 90170 XOR\n2 1 90170 104336 10591 XOR\n2 1 10591 10592 10590 AND\n2 1 10590 104336 104337 XOR\n2 1 84027 104337 10595 XOR\n2 1 1705 90170 104305 XOR\n2 1 90170 84026 104367 XOR\n2 1 104367 104336 1129 XOR\n2 1 1129 1161 70040 XOR\n2 1 1129 1193 70168 XOR\n2 1 70168 70136 70104 AND\n2 1 70104 1193 86042 XOR\n2 1 90170 26061 26060 AND\n2 1 26060 26061 26063 XOR\n2 1 10494 104272 104273 XOR\n2 1 104304 104273 1576 XOR\n2 1 1704 104273 10498 XOR\n2 1 63767 1576 63735 AND\n2 1 63735 1640 98270 XOR\n2 1 1576 1608 63703 XOR\n2 1 1571 1576 61292 XOR\n2 1 26248 114171 114172 XOR\n2 1 2218 114172 26253 XOR\n2 1 76091 114172 26252 XOR\n2 1 26252 26253 26251 AND\n2 1 26251 114172 114173 XOR\n2 1 114204 114173 94209 XOR\n2 1 2219 114173 26256 XOR\n2 1 76092 114173 26255 XOR\n2 1 26255 26256 26254 AND\n2 1 26254 114173 114174 XOR\n2 1 76093 114174 26258 XOR\n2 1 2220 114174 26259 XOR\n2 1 26258 26259 26257 AND\n2 1 114205 114174 94210 XOR\n2 1 26257 114174 114175 XOR\n2 1 2221 114175 26262 XOR\n2 1 114206 114175 94211 XOR\n2 1 76094 114175 26261 XOR\n2 1 26261 26262 26260 AND\n2 1 26260 114175 114176 XOR\n2 1 114207 114176 94212 XOR\n2 1 2222 114176 26265 XOR\n2 1 76095 114176 26264 XOR\n2 1 26264 26265 26263 AND\n2 1 26263 114176 114177 XOR\n2 1 76096 114177 26267 XOR\n2 1 114208 114177 94213 XOR\n2 1 96261 94213 114146 XOR\n2 1 2223 114177 26268 XOR\n2 1 26267 26268 26266 AND\n2 1 26266 114177 114178 XOR\n2 1 2224 114178 26271 XOR\n2 1 76097 114178 26270 XOR\n2 1 26270 26271 26269 AND\n2 1 114209 114178 94214 XOR\n2 1 26269 114178 114179 XOR\n2 1 76098 114179 26273 XOR\n2 1 2225 114179 26274 XOR\n2 1 26273 26274 26272 AND\n2 1 96262 94214 114147 XOR\n2 1 114210 114179 94215 XOR\n2 1 96263 94215 114148 XOR\n2 1 26272 114179 114180 XOR\n2 1 2226 114180 26277 XOR\n2 1 114211 114180 94216 XOR\n2 1 96264 94216 114149 XOR\n2 1 76099 114180 26276 XOR\n2 1 26276 26277 26275 AND\n2 1 26275 114180 114181 XOR\n2 1 76100 114181 26279 XOR\n2 1 2227 114181 26280 XOR\n2 1 114212 114181 94217 XOR\n2 1 96265 94217 114150 XOR\n2 1 26279 26280 26278 AND\n2 1 26278 114181 114182 XOR\n2 1 2228 114182 26283 XOR\n2 1 76101 114182 26282 XOR\n2 1 26282 26283 26281 AND\n2 1 26281 114182 114183 XOR\n2 1 76102 114183 26285 XOR\n2 1 2229 114183 26286 XOR\n2 1 26285 26286 26284 AND\n2 1 26284 114183 114184 XOR\n",
"2 1 114215 114184 94220 XOR\n2 1 96268 94220 114153 XOR\n2 1 76103 114184 26288 XOR\n2 1 2230 114184 26289 XOR\n2 1 26288 26289 26287 AND\n2 1 26287 114184 114185 XOR\n2 1 2231 114185 26292 XOR\n2 1 76104 114185 26291 XOR\n2 1 26291 26292 26290 AND\n2 1 26290 114185 114186 XOR\n2 1 114217 114186 94222 XOR\n2 1 96270 94222 114155 XOR\n2 1 114216 114185 94221 XOR\n2 1 96269 94221 114154 XOR\n2 1 2232 114186 26295 XOR\n2 1 76105 114186 26294 XOR\n2 1 26294 26295 26293 AND\n2 1 26293 114186 114187 XOR\n2 1 76106 114187 26297 XOR\n2 1 114218 114187 94223 XOR\n2 1 96271 94223 114156 XOR\n2 1 2233 114187 26298 XOR\n2 1 26297 26298 26296 AND\n2 1 26296 114187 114188 XOR\n2 1 114219 114188 94224 XOR\n2 1 2234 114188 26301 XOR\n2 1 76107 114188 26300 XOR\n2 1 26300 26301 26299 AND\n2 1 26299 114188 114189 XOR\n2 1 76108 114189 26303 XOR\n2 1 114220 114189 94225 XOR\n2 1 2235 114189 26304 XOR\n2 1 114214 114183 94219 XOR\n2 1 96267 94219 114152 XOR\n2 1 114213 114182 94218 XOR\n2 1 96259 94211 114144 XOR\n2 1 96258 94210 114143 XOR\n2 1 96272 94224 114157 XOR\n2 1 96257 94209 114142 XOR\n2 1 96260 94212 114145 XOR\n2 1 96273 94225 114158 XOR\n2 1 96266 94218 114151 XOR\n2 1 26303 26304 26302 AND\n2 1 26302 114189 114190 XOR\n2 1 2236 114190 26307 XOR\n2 1 76109 114190 26306 XOR\n2 1 26306 26307 26305 AND\n2 1 26305 114190 114191 XOR\n2 1 114222 114191 94227 XOR\n2 1 96275 94227 114160 XOR\n2 1 76110 114191 26309 XOR\n2 1 2237 114191 26310 XOR\n2 1 26309 26310 26308 AND\n2 1 114221 114190 94226 XOR\n2 1 96274 94226 114159 XOR\n2 1 26308 114191 114192 XOR\n2 1 2238 114192 26313 XOR\n2 1 114223 114192 94228 XOR\n2 1 96276 94228 114161 XOR\n2 1 76111 114192 26312 XOR\n2 1 26312 26313 26311 AND\n2 1 26311 114192 114193 XOR\n2 1 114224 114193 94229 XOR\n2 1 96277 94229 114162 XOR\n2 1 90169 104273 10499 XOR\n2 1 10498 10499 10497 AND\n2 1 10497 104273 104274 XOR\n2 1 104305 104274 1577 XOR\n2 1 63768 1577 63736 AND\n2 1 63736 1641 98271 XOR\n2 1 1577 1609 63704 XOR\n2 1 1705 104274 10501 XOR\n2 1 1572 1577 61293 XOR\n2 1 90170 104274 10502 XOR\n2 1 10501 10502 10500 AND\n2 1 10500 104274 104275 XOR\n2 1 1706 104275 10504 XOR\n2 1 114203 114172 94208 XOR\n2 1 94208 114110 26163 XOR\n2 1 26162 26163 26161 AND\n2 1 26161 114110 114111 XOR\n2 1 114142 114111 92202 XOR\n2 1 96257 114111 26165 XOR\n2 1 94209 114111 26166 XOR\n2 1 26165 26166 26164 AND\n2 1 26164 114111 114112 XOR\n2 1 96258 114112 26168 XOR\n2 1 114143 114112 92203 XOR\n2 1 94210 114112 26169 XOR\n2 1 26168 26169 26167 AND\n2 1 26167 114112 114113 XOR\n2 1 114144 114113 92204 XOR\n2 1 96259 114113 26171 XOR\n2 1 94211 114113 26172 XOR\n2 1 26171 26172 26170 AND\n2 1 26170 114113 114114 XOR\n2 1 94212 114114 26175 XOR\n2 1 96260 114114 26174 XOR\n2 1 26174 26175 26173 AND\n2 1 26173 114114 114115 XOR\n2 1 94213 114115 26178 XOR\n2 1 114146 114115 92206 XOR\n1 1 92206 26127 INV\n2 1 114145 114114 92205 XOR\n1 1 92205 26126 INV\n2 1 96256 94208 114141 XOR\n2 1 114141 114110 92201 XOR\n2 1 92201 26063 90171 XOR\n2 1 90171 84027 104368 XOR\n2 1 104368 104337 1130 XOR\n2 1 90171 104337 10594 XOR\n2 1 10594 10595 10593 AND\n2 1 10593 104337 104338 XOR\n2 1 84028 104338 10598 XOR\n2 1 1130 1194 70169 XOR\n2 1 70169 70137 70105 AND\n2 1 70105 1194 86043 XOR\n2 1 1130 1162 70041 XOR\n2 1 1706 90171 104306 XOR\n2 1 104306 104275 1578 XOR\n2 1 63769 1578 63737 AND\n2 1 63737 1642 98272 XOR\n2 1 1578 1610 63705 XOR\n2 1 90171 104275 10505 XOR\n2 1 10504 10505 10503 AND\n2 1 10503 104275 104276 XOR\n2 1 1707 104276 10507 XOR\n2 1 90171 26063 26062 AND\n",
"2 1 26062 26063 26065 XOR\n2 1 92202 26065 90172 XOR\n2 1 90172 84028 104369 XOR\n2 1 104369 104338 1131 XOR\n2 1 90172 104338 10597 XOR\n2 1 10597 10598 10596 AND\n2 1 10596 104338 104339 XOR\n2 1 84029 104339 10601 XOR\n2 1 1131 1195 70170 XOR\n2 1 70170 70138 70106 AND\n2 1 70106 1195 86044 XOR\n2 1 1131 1163 70042 XOR\n2 1 1707 90172 104307 XOR\n2 1 104307 104276 1579 XOR\n2 1 1120 1131 67213 XOR\n2 1 63770 1579 63738 AND\n2 1 63738 1643 98273 XOR\n2 1 1579 1611 63706 XOR\n2 1 90172 104276 10508 XOR\n2 1 10507 10508 10506 AND\n2 1 10506 104276 104277 XOR\n2 1 90172 26065 26064 AND\n2 1 26064 26065 26067 XOR\n2 1 92203 26067 90173 XOR\n2 1 90173 104339 10600 XOR\n2 1 10600 10601 10599 AND\n2 1 10599 104339 104340 XOR\n2 1 84030 104340 10604 XOR\n2 1 1708 90173 104308 XOR\n2 1 104308 104277 1580 XOR\n2 1 90173 104277 10511 XOR\n2 1 63771 1580 63739 AND\n2 1 63739 1644 98274 XOR\n2 1 1580 1612 63707 XOR\n2 1 90173 84029 104370 XOR\n2 1 104370 104339 1132 XOR\n2 1 1132 1164 70043 XOR\n2 1 1132 1196 70171 XOR\n2 1 70171 70139 70107 AND\n2 1 70107 1196 86045 XOR\n2 1 1121 1132 67214 XOR\n2 1 90173 26067 26066 AND\n2 1 26066 26067 26069 XOR\n2 1 92204 26069 90174 XOR\n2 1 90174 104340 10603 XOR\n2 1 10603 10604 10602 AND\n2 1 10602 104340 104341 XOR\n2 1 84031 104341 10607 XOR\n2 1 1709 90174 104309 XOR\n2 1 90174 84030 104371 XOR\n2 1 104371 104340 1133 XOR\n2 1 1133 1165 70044 XOR\n2 1 1122 1133 67183 XOR\n2 1 1133 1197 70172 XOR\n2 1 70172 70140 70108 AND\n2 1 70108 1197 86046 XOR\n2 1 90174 26069 26068 AND\n2 1 26068 26069 26114 XOR\n1 1 26114 26072 INV\n2 1 26126 26114 90175 XOR\n2 1 90175 84031 104372 XOR\n2 1 104372 104341 1134 XOR\n2 1 90175 104341 10606 XOR\n2 1 10606 10607 10605 AND\n2 1 10605 104341 104342 XOR\n2 1 84032 104342 10610 XOR\n2 1 1710 90175 104310 XOR\n2 1 1134 1198 70173 XOR\n2 1 70173 70141 70109 AND\n2 1 70109 1198 86047 XOR\n2 1 1134 1166 70045 XOR\n2 1 1123 1134 67184 XOR\n2 1 92205 26114 26071 XOR\n2 1 26071 26072 26070 AND\n2 1 26070 26114 26115 XOR\n1 1 26115 26075 INV\n2 1 26127 26115 90176 XOR\n2 1 90176 104342 10609 XOR\n2 1 10609 10610 10608 AND\n2 1 10608 104342 104343 XOR\n2 1 84033 104343 10613 XOR\n2 1 92206 26115 26074 XOR\n2 1 26074 26075 26073 AND\n2 1 26073 26115 26077 XOR\n2 1 1708 104277 10510 XOR\n2 1 90176 84032 104373 XOR\n2 1 104373 104342 1135 XOR\n2 1 1135 1199 70174 XOR\n2 1 70174 70142 70110 AND\n2 1 70110 1199 86048 XOR\n2 1 1135 1167 70046 XOR\n2 1 1124 1135 67185 XOR\n2 1 1573 1578 61294 XOR\n2 1 1575 1580 61264 XOR\n2 1 1574 1579 61263 XOR\n2 1 10510 10511 10509 AND\n2 1 10509 104277 104278 XOR\n2 1 104309 104278 1581 XOR\n2 1 1709 104278 10513 XOR\n2 1 63772 1581 63740 AND\n2 1 63740 1645 98275 XOR\n2 1 1581 1613 63708 XOR\n2 1 90174 104278 10514 XOR\n2 1 10513 10514 10512 AND\n2 1 10512 104278 104279 XOR\n2 1 90175 104279 10517 XOR\n2 1 104310 104279 1582 XOR\n2 1 1710 104279 10516 XOR\n2 1 63773 1582 63741 AND\n2 1 63741 1646 98276 XOR\n2 1 1582 1614 63709 XOR\n2 1 1577 1582 61266 XOR\n2 1 1576 1581 61265 XOR\n2 1 10516 10517 10515 AND\n2 1 1711 90176 104311 XOR\n2 1 10515 104279 104280 XOR\n2 1 104311 104280 1583 XOR\n2 1 90176 104280 10520 XOR\n2 1 1711 104280 10519 XOR\n2 1 10519 10520 10518 AND\n2 1 10518 104280 104281 XOR\n2 1 1712 104281 10522 XOR\n2 1 63774 1583 63742 AND\n2 1 63742 1647 98277 XOR\n2 1 1583 1615 63710 XOR\n2 1 1578 1583 61267 XOR\n2 1 96261 114115 26177 XOR\n2 1 26177 26178 26176 AND\n",
"2 1 26176 114115 114116 XOR\n2 1 94214 114116 26181 XOR\n2 1 96262 114116 26180 XOR\n2 1 26180 26181 26179 AND\n2 1 26179 114116 114117 XOR\n2 1 96263 114117 26183 XOR\n2 1 114148 114117 92208 XOR\n2 1 94215 114117 26184 XOR\n2 1 26183 26184 26182 AND\n2 1 26182 114117 114118 XOR\n2 1 114149 114118 92209 XOR\n1 1 92209 26128 INV\n2 1 96264 114118 26186 XOR\n2 1 114147 114116 92207 XOR\n2 1 92207 26077 90177 XOR\n2 1 90177 104281 10523 XOR\n2 1 10522 10523 10521 AND\n2 1 10521 104281 104282 XOR\n2 1 1713 104282 10525 XOR\n2 1 90177 104343 10612 XOR\n2 1 10612 10613 10611 AND\n2 1 10611 104343 104344 XOR\n2 1 84034 104344 10616 XOR\n2 1 1712 90177 104312 XOR\n2 1 90177 84033 104374 XOR\n2 1 104374 104343 1136 XOR\n2 1 1136 1168 70047 XOR\n2 1 1125 1136 67186 XOR\n2 1 1136 1200 70175 XOR\n2 1 70175 70143 70111 AND\n2 1 70111 1200 86049 XOR\n2 1 90177 26077 26076 AND\n2 1 26076 26077 26079 XOR\n2 1 92208 26079 90178 XOR\n2 1 90178 104344 10615 XOR\n2 1 10615 10616 10614 AND\n2 1 10614 104344 104345 XOR\n2 1 84035 104345 10619 XOR\n2 1 90178 84034 104375 XOR\n2 1 104375 104344 1137 XOR\n2 1 1137 1201 70176 XOR\n2 1 70176 70144 70112 AND\n2 1 70112 1201 86050 XOR\n2 1 1137 1169 70048 XOR\n2 1 1126 1137 67187 XOR\n2 1 90178 104282 10526 XOR\n2 1 10525 10526 10524 AND\n2 1 10524 104282 104283 XOR\n2 1 1714 104283 10528 XOR\n2 1 1713 90178 104313 XOR\n2 1 104313 104282 1585 XOR\n2 1 1585 1617 63712 XOR\n2 1 63776 1585 63744 AND\n2 1 63744 1649 98279 XOR\n2 1 90178 26079 26078 AND\n2 1 26078 26079 26116 XOR\n1 1 26116 26082 INV\n2 1 26128 26116 90179 XOR\n2 1 90179 104345 10618 XOR\n2 1 10618 10619 10617 AND\n2 1 10617 104345 104346 XOR\n2 1 84036 104346 10622 XOR\n2 1 1714 90179 104314 XOR\n2 1 90179 104283 10529 XOR\n2 1 90179 84035 104376 XOR\n2 1 104376 104345 1138 XOR\n2 1 1138 1202 70177 XOR\n2 1 70177 70145 70113 AND\n2 1 70113 1202 86051 XOR\n2 1 1138 1170 70049 XOR\n2 1 1127 1138 67188 XOR\n2 1 10528 10529 10527 AND\n2 1 10527 104283 104284 XOR\n2 1 1715 104284 10531 XOR\n2 1 104314 104283 1586 XOR\n2 1 63777 1586 63745 AND\n2 1 63745 1650 98280 XOR\n2 1 1586 1618 63713 XOR\n2 1 92209 26116 26081 XOR\n2 1 26081 26082 26080 AND\n2 1 26080 26116 26084 XOR\n2 1 104312 104281 1584 XOR\n2 1 63775 1584 63743 AND\n2 1 63743 1648 98278 XOR\n2 1 1584 1616 63711 XOR\n2 1 1581 1586 61270 XOR\n2 1 1580 1585 61269 XOR\n2 1 1579 1584 61268 XOR\n2 1 61270 1568 100317 XOR\n2 1 100317 98269 114014 XOR\n2 1 94216 114118 26187 XOR\n2 1 26186 26187 26185 AND\n2 1 26185 114118 114119 XOR\n2 1 96265 114119 26189 XOR\n2 1 94217 114119 26190 XOR\n2 1 114150 114119 92210 XOR\n2 1 92210 26084 90180 XOR\n2 1 90180 104284 10532 XOR\n2 1 10531 10532 10530 AND\n2 1 10530 104284 104285 XOR\n2 1 1716 104285 10534 XOR\n2 1 90180 84036 104377 XOR\n2 1 104377 104346 1139 XOR\n2 1 1139 1203 70178 XOR\n2 1 70178 70146 70114 AND\n2 1 70114 1203 86052 XOR\n2 1 1139 1171 70050 XOR\n2 1 1128 1139 67189 XOR\n2 1 1715 90180 104315 XOR\n2 1 104315 104284 1587 XOR\n2 1 63778 1587 63746 AND\n2 1 63746 1651 98281 XOR\n2 1 1587 1619 63714 XOR\n2 1 90180 104346 10621 XOR\n2 1 10621 10622 10620 AND\n2 1 10620 104346 104347 XOR\n2 1 84037 104347 10625 XOR\n2 1 90180 26084 26083 AND\n2 1 26083 26084 26086 XOR\n2 1 1582 1587 61271 XOR\n2 1 61289 1587 100336 XOR\n2 1 61271 1569 100318 XOR\n2 1 100318 98270 114015 XOR\n2 1 26189 26190 26188 AND\n2 1 26188 114119 114120 XOR\n2 1 96266 114120 26192 XOR\n2 1 114151 114120 92211 XOR\n2 1 94218 114120 26193 XOR\n",
"2 1 26192 26193 26191 AND\n2 1 26191 114120 114121 XOR\n2 1 94219 114121 26196 XOR\n2 1 114152 114121 92212 XOR\n1 1 92212 26129 INV\n2 1 96267 114121 26195 XOR\n2 1 26195 26196 26194 AND\n2 1 26194 114121 114122 XOR\n2 1 96268 114122 26198 XOR\n2 1 94220 114122 26199 XOR\n2 1 114153 114122 92213 XOR\n2 1 92211 26086 90181 XOR\n2 1 90181 104347 10624 XOR\n2 1 10624 10625 10623 AND\n2 1 10623 104347 104348 XOR\n2 1 84038 104348 10628 XOR\n2 1 90181 104285 10535 XOR\n2 1 1716 90181 104316 XOR\n2 1 10534 10535 10533 AND\n2 1 10533 104285 104286 XOR\n2 1 1717 104286 10537 XOR\n2 1 90181 84037 104378 XOR\n2 1 104378 104347 1140 XOR\n2 1 1140 1172 70051 XOR\n2 1 1129 1140 67190 XOR\n2 1 67213 1140 88111 XOR\n2 1 1140 1204 70179 XOR\n2 1 70179 70147 70115 AND\n2 1 70115 1204 86053 XOR\n2 1 90181 26086 26085 AND\n2 1 26085 26086 26117 XOR\n2 1 26129 26117 90182 XOR\n2 1 90182 104286 10538 XOR\n2 1 90182 104348 10627 XOR\n2 1 10627 10628 10626 AND\n2 1 10626 104348 104349 XOR\n2 1 84039 104349 10631 XOR\n2 1 1717 90182 104317 XOR\n1 1 26117 26089 INV\n2 1 90182 84038 104379 XOR\n2 1 104379 104348 1141 XOR\n2 1 1141 1205 70180 XOR\n2 1 70180 70148 70116 AND\n2 1 70116 1205 86054 XOR\n2 1 1141 1173 70052 XOR\n2 1 1141 1120 67202 XOR\n2 1 1130 1141 67191 XOR\n2 1 67214 1141 88112 XOR\n2 1 67202 1129 88100 XOR\n2 1 88100 86052 113826 XOR\n2 1 10537 10538 10536 AND\n2 1 10536 104286 104287 XOR\n2 1 1718 104287 10540 XOR\n2 1 92212 26117 26088 XOR\n2 1 26088 26089 26087 AND\n2 1 26087 26117 26091 XOR\n2 1 92213 26091 90183 XOR\n2 1 90183 84039 104380 XOR\n2 1 104380 104349 1142 XOR\n2 1 1142 1206 70181 XOR\n2 1 70181 70149 70117 AND\n2 1 70117 1206 86055 XOR\n2 1 1142 1174 70053 XOR\n2 1 1142 1121 67203 XOR\n2 1 1131 1142 67192 XOR\n2 1 67203 1130 88101 XOR\n2 1 67183 1142 88081 XOR\n2 1 88081 86033 83985 XOR\n2 1 88081 86033 113777 AND\n2 1 86034 113777 25517 XOR\n2 1 88101 86053 113827 XOR\n2 1 90183 104287 10541 XOR\n2 1 10540 10541 10539 AND\n2 1 10539 104287 104288 XOR\n2 1 1719 104288 10543 XOR\n2 1 90183 104349 10630 XOR\n2 1 10630 10631 10629 AND\n2 1 10629 104349 104350 XOR\n2 1 84040 104350 10634 XOR\n2 1 90183 26091 26090 AND\n2 1 26090 26091 26118 XOR\n1 1 26118 26094 INV\n2 1 104317 104286 1589 XOR\n2 1 63780 1589 63748 AND\n2 1 63748 1653 98283 XOR\n2 1 1589 1621 63716 XOR\n2 1 1584 1589 61273 XOR\n2 1 61291 1589 100338 XOR\n2 1 61273 1571 100320 XOR\n2 1 100320 98272 114017 XOR\n2 1 1718 90183 104318 XOR\n2 1 104318 104287 1590 XOR\n2 1 63781 1590 63749 AND\n2 1 63749 1654 98284 XOR\n2 1 1590 1622 63717 XOR\n2 1 1585 1590 61274 XOR\n2 1 61292 1590 100339 XOR\n2 1 61274 1572 100321 XOR\n2 1 100321 98273 114018 XOR\n2 1 104316 104285 1588 XOR\n2 1 63779 1588 63747 AND\n2 1 63747 1652 98282 XOR\n2 1 1588 1620 63715 XOR\n2 1 1583 1588 61272 XOR\n2 1 61290 1588 100337 XOR\n2 1 61272 1570 100319 XOR\n2 1 100319 98271 114016 XOR\n2 1 26198 26199 26197 AND\n2 1 26197 114122 114123 XOR\n2 1 96269 114123 26201 XOR\n2 1 94221 114123 26202 XOR\n2 1 26201 26202 26200 AND\n2 1 114154 114123 92214 XOR\n1 1 92214 26130 INV\n2 1 26200 114123 114124 XOR\n2 1 114155 114124 92215 XOR\n1 1 92215 26131 INV\n2 1 26130 26118 90184 XOR\n2 1 90184 104350 10633 XOR\n2 1 10633 10634 10632 AND\n2 1 10632 104350 104351 XOR\n2 1 84041 104351 10637 XOR\n2 1 1719 90184 104319 XOR\n2 1 104319 104288 1591 XOR\n2 1 90184 84040 104381 XOR\n2 1 104381 104350 1143 XOR\n2 1 1143 1207 70182 XOR\n2 1 70182 70150 70118 AND\n",
"2 1 70118 1207 86056 XOR\n2 1 1143 1175 70054 XOR\n2 1 1143 1122 67204 XOR\n2 1 1132 1143 67193 XOR\n2 1 67204 1131 88102 XOR\n2 1 67193 1120 88091 XOR\n2 1 88091 86043 113817 XOR\n2 1 67184 1143 88082 XOR\n2 1 88082 86034 113808 XOR\n2 1 88102 86054 113828 XOR\n2 1 113808 113777 83986 XOR\n2 1 88082 113777 25516 XOR\n2 1 25516 25517 25515 AND\n2 1 25515 113777 113778 XOR\n2 1 86035 113778 25520 XOR\n2 1 96270 114124 26204 XOR\n2 1 90184 104288 10544 XOR\n2 1 63782 1591 63750 AND\n2 1 63750 1655 98285 XOR\n2 1 1591 1623 63718 XOR\n2 1 10543 10544 10542 AND\n2 1 10542 104288 104289 XOR\n2 1 1720 104289 10546 XOR\n2 1 92214 26118 26093 XOR\n2 1 26093 26094 26092 AND\n2 1 26092 26118 26119 XOR\n1 1 26119 26097 INV\n2 1 26131 26119 90185 XOR\n2 1 90185 104351 10636 XOR\n2 1 10636 10637 10635 AND\n2 1 10635 104351 104352 XOR\n2 1 84042 104352 10640 XOR\n2 1 90185 84041 104382 XOR\n2 1 104382 104351 1144 XOR\n2 1 1144 1208 70183 XOR\n2 1 70183 70151 70119 AND\n2 1 70119 1208 86057 XOR\n2 1 1144 1176 70055 XOR\n2 1 90185 104289 10547 XOR\n2 1 10546 10547 10545 AND\n2 1 1144 1123 67205 XOR\n2 1 1133 1144 67194 XOR\n2 1 67205 1132 88103 XOR\n2 1 67194 1121 88092 XOR\n2 1 88092 86044 113818 XOR\n2 1 67185 1144 88083 XOR\n2 1 88083 86035 113809 XOR\n2 1 113809 113778 83987 XOR\n2 1 88083 113778 25519 XOR\n2 1 25519 25520 25518 AND\n2 1 25518 113778 113779 XOR\n2 1 86036 113779 25523 XOR\n2 1 1720 90185 104320 XOR\n2 1 104320 104289 1592 XOR\n2 1 10545 104289 104290 XOR\n2 1 63783 1592 63751 AND\n2 1 63751 1656 98286 XOR\n2 1 1592 1624 63719 XOR\n2 1 92215 26119 26096 XOR\n2 1 26096 26097 26095 AND\n2 1 26095 26119 26099 XOR\n2 1 94222 114124 26205 XOR\n2 1 26204 26205 26203 AND\n2 1 26203 114124 114125 XOR\n2 1 94223 114125 26208 XOR\n2 1 1587 1592 61276 XOR\n2 1 1586 1591 61275 XOR\n2 1 61294 1592 100341 XOR\n2 1 61293 1591 100340 XOR\n2 1 61276 1574 100323 XOR\n2 1 100323 98275 114020 XOR\n2 1 61275 1573 100322 XOR\n2 1 100322 98274 114019 XOR\n2 1 1721 104290 10549 XOR\n2 1 96271 114125 26207 XOR\n2 1 26207 26208 26206 AND\n2 1 26206 114125 114126 XOR\n2 1 96272 114126 26210 XOR\n2 1 94224 114126 26211 XOR\n2 1 26210 26211 26209 AND\n2 1 114156 114125 92216 XOR\n2 1 92216 26099 90186 XOR\n2 1 90186 104352 10639 XOR\n2 1 10639 10640 10638 AND\n2 1 10638 104352 104353 XOR\n2 1 84043 104353 10643 XOR\n2 1 90186 84042 104383 XOR\n2 1 104383 104352 1145 XOR\n2 1 1145 1209 70184 XOR\n2 1 70184 70152 70120 AND\n2 1 70120 1209 86058 XOR\n2 1 1145 1177 70056 XOR\n2 1 1145 1124 67206 XOR\n2 1 1134 1145 67195 XOR\n2 1 67206 1133 88104 XOR\n2 1 67195 1122 88093 XOR\n2 1 88093 86045 113819 XOR\n2 1 67186 1145 88084 XOR\n2 1 88084 113779 25522 XOR\n2 1 25522 25523 25521 AND\n2 1 25521 113779 113780 XOR\n2 1 86037 113780 25526 XOR\n2 1 88084 86036 113810 XOR\n2 1 113810 113779 83988 XOR\n2 1 1721 90186 104321 XOR\n2 1 104321 104290 1593 XOR\n2 1 1593 1625 63720 XOR\n2 1 63784 1593 63752 AND\n2 1 63752 1657 98287 XOR\n2 1 90186 26099 26098 AND\n2 1 26098 26099 26101 XOR\n2 1 1588 1593 61277 XOR\n2 1 61277 1575 100324 XOR\n2 1 100324 98276 114021 XOR\n2 1 61263 1593 100310 XOR\n2 1 100310 98262 113977 AND\n2 1 100310 98262 96214 XOR\n2 1 98263 113977 25866 XOR\n2 1 88104 86056 113830 XOR\n2 1 90186 104290 10550 XOR\n2 1 88103 86055 113829 XOR\n2 1 10549 10550 10548 AND\n2 1 10548 104290 104291 XOR\n2 1 1722 104291 10552 XOR\n2 1 26209 114126 114127 XOR\n2 1 114158 114127 92218 XOR\n1 1 92218 26132 INV\n2 1 94225 114127 26214 XOR\n",
"2 1 114157 114126 92217 XOR\n2 1 92217 26101 90187 XOR\n2 1 90187 26101 26100 AND\n2 1 26100 26101 26120 XOR\n1 1 26120 26104 INV\n2 1 92218 26120 26103 XOR\n2 1 26103 26104 26102 AND\n2 1 26102 26120 26121 XOR\n1 1 26121 26107 INV\n2 1 26132 26120 90188 XOR\n2 1 90188 84044 104385 XOR\n2 1 1723 90188 104323 XOR\n2 1 1722 90187 104322 XOR\n2 1 104322 104291 1594 XOR\n2 1 90187 104353 10642 XOR\n2 1 10642 10643 10641 AND\n2 1 10641 104353 104354 XOR\n2 1 104385 104354 1147 XOR\n2 1 90188 104354 10645 XOR\n2 1 84044 104354 10646 XOR\n2 1 10645 10646 10644 AND\n2 1 10644 104354 104355 XOR\n2 1 84045 104355 10649 XOR\n2 1 1147 1211 70186 XOR\n2 1 70186 70154 70122 AND\n2 1 70122 1211 86060 XOR\n2 1 1147 1179 70058 XOR\n2 1 1147 1126 67208 XOR\n2 1 1136 1147 67197 XOR\n2 1 67208 1135 88106 XOR\n2 1 88106 86058 113832 XOR\n2 1 67197 1124 88095 XOR\n2 1 88095 86047 113821 XOR\n2 1 67188 1147 88086 XOR\n2 1 88086 86038 113812 XOR\n2 1 63785 1594 63753 AND\n2 1 63753 1658 98288 XOR\n2 1 100336 98288 114033 XOR\n2 1 1594 1626 63721 XOR\n2 1 90187 104291 10553 XOR\n2 1 10552 10553 10551 AND\n2 1 1589 1594 61278 XOR\n2 1 61278 1576 100325 XOR\n2 1 100325 98277 114022 XOR\n2 1 61264 1594 100311 XOR\n2 1 100311 98263 114008 XOR\n2 1 114008 113977 96215 XOR\n2 1 100311 113977 25865 XOR\n2 1 25865 25866 25864 AND\n2 1 25864 113977 113978 XOR\n2 1 98264 113978 25869 XOR\n2 1 10551 104291 104292 XOR\n2 1 90188 104292 10556 XOR\n2 1 1723 104292 10555 XOR\n2 1 10555 10556 10554 AND\n2 1 10554 104292 104293 XOR\n2 1 1724 104293 10558 XOR\n2 1 104323 104292 1595 XOR\n2 1 63786 1595 63754 AND\n2 1 63754 1659 98289 XOR\n2 1 100337 98289 114034 XOR\n2 1 1595 1627 63722 XOR\n2 1 1595 1568 61284 XOR\n2 1 1590 1595 61279 XOR\n2 1 61284 1582 100331 XOR\n2 1 100331 98283 114028 XOR\n2 1 61279 1577 100326 XOR\n2 1 100326 98278 114023 XOR\n2 1 61265 1595 100312 XOR\n2 1 100312 98264 114009 XOR\n2 1 100312 113978 25868 XOR\n2 1 114009 113978 96216 XOR\n2 1 25868 25869 25867 AND\n2 1 25867 113978 113979 XOR\n2 1 98265 113979 25872 XOR\n2 1 90187 84043 104384 XOR\n2 1 104384 104353 1146 XOR\n2 1 1146 1210 70185 XOR\n2 1 70185 70153 70121 AND\n2 1 70121 1210 86059 XOR\n2 1 1146 1178 70057 XOR\n2 1 1146 1125 67207 XOR\n2 1 1135 1146 67196 XOR\n2 1 67207 1134 88105 XOR\n2 1 88105 86057 113831 XOR\n2 1 67196 1123 88094 XOR\n2 1 88094 86046 113820 XOR\n2 1 67187 1146 88085 XOR\n2 1 88085 113780 25525 XOR\n2 1 25525 25526 25524 AND\n2 1 25524 113780 113781 XOR\n2 1 113812 113781 83990 XOR\n2 1 88085 86037 113811 XOR\n2 1 113811 113780 83989 XOR\n2 1 88086 113781 25528 XOR\n2 1 86038 113781 25529 XOR\n2 1 25528 25529 25527 AND\n2 1 25527 113781 113782 XOR\n2 1 86039 113782 25532 XOR\n2 1 96273 114127 26213 XOR\n2 1 26213 26214 26212 AND\n2 1 26212 114127 114128 XOR\n2 1 96274 114128 26216 XOR\n2 1 94226 114128 26217 XOR\n2 1 114159 114128 92219 XOR\n1 1 92219 26133 INV\n2 1 92219 26121 26106 XOR\n2 1 26106 26107 26105 AND\n2 1 26105 26121 26109 XOR\n2 1 26216 26217 26215 AND\n2 1 26133 26121 90189 XOR\n2 1 1724 90189 104324 XOR\n2 1 104324 104293 1596 XOR\n2 1 90189 104355 10648 XOR\n2 1 10648 10649 10647 AND\n2 1 10647 104355 104356 XOR\n2 1 84046 104356 10652 XOR\n2 1 90189 104293 10559 XOR\n2 1 63787 1596 63755 AND\n2 1 63755 1660 98290 XOR\n2 1 100338 98290 114035 XOR\n2 1 1596 1628 63723 XOR\n2 1 90189 84045 104386 XOR\n2 1 104386 104355 1148 XOR\n2 1 1148 1212 70187 XOR\n2 1 70187 70155 70123 AND\n2 1 70123 1212 86061 XOR\n2 1 1148 1180 70059 XOR\n",
"2 1 1148 1127 67209 XOR\n2 1 1137 1148 67198 XOR\n2 1 67209 1136 88107 XOR\n2 1 88107 86059 113833 XOR\n2 1 67198 1125 88096 XOR\n2 1 88096 86048 113822 XOR\n2 1 67189 1148 88087 XOR\n2 1 88087 86039 113813 XOR\n2 1 88087 113782 25531 XOR\n2 1 25531 25532 25530 AND\n2 1 25530 113782 113783 XOR\n2 1 86040 113783 25535 XOR\n2 1 113813 113782 83991 XOR\n2 1 1596 1569 61285 XOR\n2 1 1591 1596 61280 XOR\n2 1 61285 1583 100332 XOR\n2 1 100332 98284 114029 XOR\n2 1 61280 1578 100327 XOR\n2 1 100327 98279 114024 XOR\n2 1 61266 1596 100313 XOR\n2 1 100313 98265 114010 XOR\n2 1 114010 113979 96217 XOR\n2 1 100313 113979 25871 XOR\n2 1 25871 25872 25870 AND\n2 1 25870 113979 113980 XOR\n2 1 98266 113980 25875 XOR\n2 1 26215 114128 114129 XOR\n2 1 96275 114129 26219 XOR\n2 1 114160 114129 92220 XOR\n2 1 94227 114129 26220 XOR\n2 1 26219 26220 26218 AND\n2 1 26218 114129 114130 XOR\n2 1 94228 114130 26223 XOR\n2 1 96276 114130 26222 XOR\n2 1 26222 26223 26221 AND\n2 1 114161 114130 92221 XOR\n2 1 92220 26109 90190 XOR\n2 1 1725 90190 104325 XOR\n2 1 90190 104356 10651 XOR\n2 1 10651 10652 10650 AND\n2 1 10650 104356 104357 XOR\n2 1 84047 104357 10655 XOR\n2 1 90190 84046 104387 XOR\n2 1 104387 104356 1149 XOR\n2 1 67190 1149 88088 XOR\n2 1 88088 86040 113814 XOR\n2 1 113814 113783 83992 XOR\n2 1 88088 113783 25534 XOR\n2 1 25534 25535 25533 AND\n2 1 25533 113783 113784 XOR\n2 1 86041 113784 25538 XOR\n2 1 1149 1181 70060 XOR\n2 1 1149 1128 67210 XOR\n2 1 1138 1149 67199 XOR\n2 1 67199 1126 88097 XOR\n2 1 88097 86049 113823 XOR\n2 1 67210 1137 88108 XOR\n2 1 88108 86060 113834 XOR\n2 1 1149 1213 70188 XOR\n2 1 70188 70156 70124 AND\n2 1 70124 1213 86062 XOR\n2 1 90190 26109 26108 AND\n2 1 26108 26109 26111 XOR\n2 1 92221 26111 90191 XOR\n2 1 90191 104357 10654 XOR\n2 1 10654 10655 10653 AND\n2 1 10653 104357 104358 XOR\n2 1 90191 84047 104388 XOR\n2 1 104388 104357 1150 XOR\n2 1 1150 1214 70189 XOR\n2 1 70189 70157 70125 AND\n2 1 70125 1214 86063 XOR\n2 1 1150 1182 70061 XOR\n2 1 1150 1129 67211 XOR\n2 1 1139 1150 67200 XOR\n2 1 67211 1138 88109 XOR\n2 1 88109 86061 113835 XOR\n2 1 67200 1127 88098 XOR\n2 1 67191 1150 88089 XOR\n2 1 88089 86041 113815 XOR\n2 1 88089 113784 25537 XOR\n2 1 25537 25538 25536 AND\n2 1 25536 113784 113785 XOR\n2 1 88098 86050 113824 XOR\n2 1 1726 90191 104326 XOR\n2 1 88111 86063 113837 XOR\n2 1 26221 114130 114131 XOR\n2 1 114162 114131 92222 XOR\n2 1 86042 113785 25541 XOR\n2 1 113815 113784 83993 XOR\n2 1 90191 26111 26110 AND\n2 1 26110 26111 26122 XOR\n2 1 92222 26122 90192 XOR\n2 1 90192 84048 104389 XOR\n2 1 1727 90192 104327 XOR\n2 1 104389 104358 1151 XOR\n2 1 1151 1215 70190 XOR\n2 1 70190 70158 70126 AND\n2 1 70126 1215 86064 XOR\n2 1 1151 1183 70062 XOR\n2 1 1151 1130 67212 XOR\n2 1 1140 1151 67201 XOR\n2 1 67212 1139 88110 XOR\n2 1 88110 86062 113836 XOR\n2 1 67201 1128 88099 XOR\n2 1 88099 86051 113825 XOR\n2 1 67192 1151 88090 XOR\n2 1 88090 86042 113816 XOR\n2 1 88090 113785 25540 XOR\n2 1 25540 25541 25539 AND\n2 1 25539 113785 113786 XOR\n2 1 113817 113786 83995 XOR\n2 1 88091 113786 25543 XOR\n2 1 86043 113786 25544 XOR\n2 1 25543 25544 25542 AND\n2 1 25542 113786 113787 XOR\n2 1 86044 113787 25547 XOR\n2 1 113818 113787 83996 XOR\n2 1 88092 113787 25546 XOR\n2 1 25546 25547 25545 AND\n2 1 25545 113787 113788 XOR\n2 1 113819 113788 83997 XOR\n2 1 88093 113788 25549 XOR\n2 1 113816 113785 83994 XOR\n2 1 86045 113788 25550 XOR\n2 1 88112 86064 113838 XOR\n2 1 10558 10559 10557 AND\n2 1 10557 104293 104294 XOR\n",
"2 1 90190 104294 10562 XOR\n2 1 104325 104294 1597 XOR\n2 1 63788 1597 63756 AND\n2 1 63756 1661 98291 XOR\n2 1 100339 98291 114036 XOR\n2 1 1597 1629 63724 XOR\n2 1 1725 104294 10561 XOR\n2 1 10561 10562 10560 AND\n2 1 10560 104294 104295 XOR\n2 1 1726 104295 10564 XOR\n2 1 90191 104295 10565 XOR\n2 1 10564 10565 10563 AND\n2 1 10563 104295 104296 XOR\n2 1 104327 104296 1599 XOR\n2 1 104326 104295 1598 XOR\n2 1 63790 1599 63758 AND\n2 1 63789 1598 63757 AND\n2 1 63758 1663 98293 XOR\n2 1 100341 98293 114038 XOR\n2 1 63757 1662 98292 XOR\n2 1 100340 98292 114037 XOR\n2 1 1599 1631 63726 XOR\n2 1 1598 1630 63725 XOR\n2 1 1599 1572 61288 XOR\n2 1 1598 1571 61287 XOR\n2 1 1597 1570 61286 XOR\n2 1 1594 1599 61283 XOR\n2 1 1593 1598 61282 XOR\n2 1 1592 1597 61281 XOR\n2 1 61288 1586 100335 XOR\n2 1 100335 98287 114032 XOR\n2 1 61287 1585 100334 XOR\n2 1 100334 98286 114031 XOR\n2 1 61286 1584 100333 XOR\n2 1 100333 98285 114030 XOR\n2 1 61283 1581 100330 XOR\n2 1 100330 98282 114027 XOR\n2 1 61282 1580 100329 XOR\n2 1 100329 98281 114026 XOR\n2 1 61281 1579 100328 XOR\n2 1 100328 98280 114025 XOR\n2 1 61269 1599 100316 XOR\n2 1 100316 98268 114013 XOR\n2 1 61268 1598 100315 XOR\n2 1 100315 98267 114012 XOR\n2 1 61267 1597 100314 XOR\n2 1 100314 98266 114011 XOR\n2 1 114011 113980 96218 XOR\n2 1 100314 113980 25874 XOR\n2 1 25874 25875 25873 AND\n2 1 25873 113980 113981 XOR\n2 1 98267 113981 25878 XOR\n2 1 100315 113981 25877 XOR\n2 1 25877 25878 25876 AND\n2 1 25876 113981 113982 XOR\n2 1 100316 113982 25880 XOR\n2 1 114013 113982 96220 XOR\n2 1 98268 113982 25881 XOR\n2 1 25880 25881 25879 AND\n2 1 25879 113982 113983 XOR\n2 1 98269 113983 25884 XOR\n2 1 100317 113983 25883 XOR\n2 1 114014 113983 96221 XOR\n2 1 114012 113981 96219 XOR\n2 1 25883 25884 25882 AND\n2 1 25882 113983 113984 XOR\n2 1 98270 113984 25887 XOR\n2 1 100318 113984 25886 XOR\n2 1 25886 25887 25885 AND\n2 1 25885 113984 113985 XOR\n2 1 114016 113985 96223 XOR\n2 1 100319 113985 25889 XOR\n2 1 98271 113985 25890 XOR\n2 1 25889 25890 25888 AND\n2 1 25888 113985 113986 XOR\n2 1 114017 113986 96224 XOR\n2 1 100320 113986 25892 XOR\n2 1 98272 113986 25893 XOR\n2 1 25892 25893 25891 AND\n2 1 25891 113986 113987 XOR\n2 1 114018 113987 96225 XOR\n2 1 100321 113987 25895 XOR\n2 1 98273 113987 25896 XOR\n2 1 25895 25896 25894 AND\n2 1 25894 113987 113988 XOR\n2 1 114019 113988 96226 XOR\n2 1 100322 113988 25898 XOR\n2 1 114015 113984 96222 XOR\n2 1 98274 113988 25899 XOR\n2 1 25898 25899 25897 AND\n2 1 25897 113988 113989 XOR\n2 1 114020 113989 96227 XOR\n2 1 100323 113989 25901 XOR\n2 1 98275 113989 25902 XOR\n2 1 25901 25902 25900 AND\n2 1 25900 113989 113990 XOR\n2 1 100324 113990 25904 XOR\n2 1 98276 113990 25905 XOR\n2 1 25904 25905 25903 AND\n2 1 25903 113990 113991 XOR\n2 1 98277 113991 25908 XOR\n2 1 100325 113991 25907 XOR\n2 1 25907 25908 25906 AND\n2 1 25906 113991 113992 XOR\n2 1 114023 113992 96230 XOR\n2 1 100326 113992 25910 XOR\n2 1 98278 113992 25911 XOR\n2 1 25910 25911 25909 AND\n2 1 25909 113992 113993 XOR\n2 1 114024 113993 96231 XOR\n2 1 100327 113993 25913 XOR\n2 1 98279 113993 25914 XOR\n2 1 25913 25914 25912 AND\n2 1 25912 113993 113994 XOR\n2 1 98280 113994 25917 XOR\n2 1 100328 113994 25916 XOR\n2 1 25916 25917 25915 AND\n2 1 25915 113994 113995 XOR\n2 1 100329 113995 25919 XOR\n2 1 98281 113995 25920 XOR\n2 1 25919 25920 25918 AND\n2 1 25918 113995 113996 XOR\n2 1 114027 113996 96234 XOR\n2 1 100330 113996 25922 XOR\n2 1 98282 113996 25923 XOR\n2 1 25922 25923 25921 AND\n2 1 25921 113996 113997 XOR\n2 1 114028 113997 96235 XOR\n",
"2 1 100331 113997 25925 XOR\n2 1 114025 113994 96232 XOR\n2 1 114026 113995 96233 XOR\n2 1 114022 113991 96229 XOR\n2 1 98283 113997 25926 XOR\n2 1 25925 25926 25924 AND\n2 1 25924 113997 113998 XOR\n2 1 114029 113998 96236 XOR\n2 1 100332 113998 25928 XOR\n2 1 98284 113998 25929 XOR\n2 1 25928 25929 25927 AND\n2 1 25927 113998 113999 XOR\n2 1 114030 113999 96237 XOR\n2 1 100333 113999 25931 XOR\n2 1 98285 113999 25932 XOR\n2 1 25931 25932 25930 AND\n2 1 25930 113999 114000 XOR\n2 1 114031 114000 96238 XOR\n2 1 100334 114000 25934 XOR\n2 1 98286 114000 25935 XOR\n2 1 25934 25935 25933 AND\n2 1 25933 114000 114001 XOR\n2 1 114032 114001 96239 XOR\n2 1 100335 114001 25937 XOR\n2 1 98287 114001 25938 XOR\n2 1 25937 25938 25936 AND\n2 1 25936 114001 114002 XOR\n2 1 100336 114002 25940 XOR\n2 1 114033 114002 96240 XOR\n2 1 98288 114002 25941 XOR\n2 1 25940 25941 25939 AND\n2 1 25939 114002 114003 XOR\n2 1 98289 114003 25944 XOR\n2 1 100337 114003 25943 XOR\n2 1 25943 25944 25942 AND\n2 1 25942 114003 114004 XOR\n2 1 114035 114004 96242 XOR\n2 1 98290 114004 25947 XOR\n2 1 114034 114003 96241 XOR\n2 1 100338 114004 25946 XOR\n2 1 25946 25947 25945 AND\n2 1 25945 114004 114005 XOR\n2 1 100339 114005 25949 XOR\n2 1 98291 114005 25950 XOR\n2 1 114036 114005 96243 XOR\n2 1 114021 113990 96228 XOR\n2 1 25949 25950 25948 AND\n2 1 25948 114005 114006 XOR\n2 1 100340 114006 25952 XOR\n2 1 114037 114006 96244 XOR\n2 1 98292 114006 25953 XOR\n2 1 25952 25953 25951 AND\n2 1 25951 114006 114007 XOR\n2 1 114038 114007 96245 XOR\n2 1 25549 25550 25548 AND\n2 1 25548 113788 113789 XOR\n2 1 88094 113789 25552 XOR\n2 1 86046 113789 25553 XOR\n2 1 25552 25553 25551 AND\n2 1 25551 113789 113790 XOR\n2 1 88095 113790 25555 XOR\n2 1 86047 113790 25556 XOR\n2 1 25555 25556 25554 AND\n2 1 25554 113790 113791 XOR\n2 1 86048 113791 25559 XOR\n2 1 113821 113790 83999 XOR\n2 1 113822 113791 84000 XOR\n2 1 88096 113791 25558 XOR\n2 1 25558 25559 25557 AND\n2 1 25557 113791 113792 XOR\n2 1 88097 113792 25561 XOR\n2 1 86049 113792 25562 XOR\n2 1 25561 25562 25560 AND\n2 1 25560 113792 113793 XOR\n2 1 88098 113793 25564 XOR\n2 1 86050 113793 25565 XOR\n2 1 25564 25565 25563 AND\n2 1 25563 113793 113794 XOR\n2 1 88099 113794 25567 XOR\n2 1 113825 113794 84003 XOR\n2 1 86051 113794 25568 XOR\n2 1 25567 25568 25566 AND\n2 1 25566 113794 113795 XOR\n2 1 113826 113795 84004 XOR\n2 1 86052 113795 25571 XOR\n2 1 88100 113795 25570 XOR\n2 1 113823 113792 84001 XOR\n2 1 25570 25571 25569 AND\n2 1 25569 113795 113796 XOR\n2 1 86053 113796 25574 XOR\n2 1 88101 113796 25573 XOR\n2 1 25573 25574 25572 AND\n2 1 25572 113796 113797 XOR\n2 1 113827 113796 84005 XOR\n2 1 86054 113797 25577 XOR\n2 1 88102 113797 25576 XOR\n2 1 25576 25577 25575 AND\n2 1 25575 113797 113798 XOR\n2 1 86055 113798 25580 XOR\n2 1 88103 113798 25579 XOR\n2 1 25579 25580 25578 AND\n2 1 113829 113798 84007 XOR\n2 1 113828 113797 84006 XOR\n2 1 25578 113798 113799 XOR\n2 1 113830 113799 84008 XOR\n2 1 86056 113799 25583 XOR\n2 1 88104 113799 25582 XOR\n2 1 25582 25583 25581 AND\n2 1 25581 113799 113800 XOR\n2 1 86057 113800 25586 XOR\n2 1 88105 113800 25585 XOR\n2 1 25585 25586 25584 AND\n2 1 25584 113800 113801 XOR\n2 1 113832 113801 84010 XOR\n2 1 86058 113801 25589 XOR\n2 1 88106 113801 25588 XOR\n2 1 25588 25589 25587 AND\n2 1 25587 113801 113802 XOR\n2 1 113833 113802 84011 XOR\n2 1 86059 113802 25592 XOR\n2 1 88107 113802 25591 XOR\n2 1 25591 25592 25590 AND\n2 1 25590 113802 113803 XOR\n2 1 113834 113803 84012 XOR\n2 1 86060 113803 25595 XOR\n2 1 88108 113803 25594 XOR\n2 1 113831 113800 84009 XOR\n2 1 25594 25595 25593 AND\n",
"2 1 25593 113803 113804 XOR\n2 1 88109 113804 25597 XOR\n2 1 113835 113804 84013 XOR\n2 1 86061 113804 25598 XOR\n2 1 25597 25598 25596 AND\n2 1 25596 113804 113805 XOR\n2 1 113836 113805 84014 XOR\n2 1 88110 113805 25600 XOR\n2 1 86062 113805 25601 XOR\n2 1 25600 25601 25599 AND\n2 1 25599 113805 113806 XOR\n2 1 88111 113806 25603 XOR\n2 1 86063 113806 25604 XOR\n2 1 25603 25604 25602 AND\n2 1 25602 113806 113807 XOR\n2 1 113838 113807 84016 XOR\n2 1 113837 113806 84015 XOR\n2 1 113820 113789 83998 XOR\n2 1 113824 113793 84002 XOR\n2 1 76535 76546 82480 XOR\n2 1 82480 76592 129136 XOR\n2 1 76534 76545 82479 XOR\n2 1 82479 76591 129135 XOR\n2 1 76533 76544 82478 XOR\n2 1 82478 76590 129134 XOR\n2 1 76532 76543 5183 XOR\n2 1 76531 76542 5182 XOR\n2 1 76530 76541 5181 XOR\n2 1 76529 76540 5180 XOR\n2 1 76560 76539 5179 XOR\n2 1 76559 76538 5178 XOR\n2 1 76558 76537 5177 XOR\n2 1 76557 76536 5176 XOR\n2 1 76556 76535 5175 XOR\n2 1 76555 76534 5174 XOR\n2 1 76554 76533 5173 XOR\n2 1 76553 76532 5172 XOR\n2 1 76552 76531 5171 XOR\n2 1 76551 76530 5170 XOR\n2 1 76550 76529 5169 XOR\n2 1 76549 76560 5168 XOR\n2 1 76548 76559 5167 XOR\n2 1 76547 76558 5166 XOR\n2 1 76546 76557 5165 XOR\n2 1 76545 76556 5164 XOR\n2 1 76544 76555 5163 XOR\n2 1 76543 76554 5162 XOR\n2 1 76542 76553 5161 XOR\n2 1 76541 76552 5160 XOR\n2 1 76540 76551 5159 XOR\n2 1 76539 76550 5158 XOR\n2 1 76538 76549 5157 XOR\n2 1 76537 76548 5156 XOR\n2 1 76536 76547 5155 XOR\n2 1 5183 76560 82477 XOR\n2 1 82477 76589 129133 XOR\n2 1 5182 76559 82476 XOR\n2 1 82476 76588 129132 XOR\n2 1 5181 76558 82475 XOR\n2 1 82475 76587 129131 XOR\n2 1 5180 76557 82474 XOR\n2 1 82474 76586 129130 XOR\n2 1 5179 76556 82473 XOR\n2 1 82473 76585 129129 XOR\n2 1 5178 76555 82472 XOR\n2 1 82472 76584 129128 XOR\n2 1 5177 76554 82471 XOR\n2 1 82471 76583 129127 XOR\n2 1 5176 76553 82470 XOR\n2 1 82470 76582 129126 XOR\n2 1 5175 76552 82469 XOR\n2 1 82469 76581 129125 XOR\n2 1 5174 76551 82468 XOR\n2 1 82468 76580 129124 XOR\n2 1 5173 76550 82467 XOR\n2 1 82467 76579 129123 XOR\n2 1 5172 76549 82466 XOR\n2 1 82466 76578 129122 XOR\n2 1 5171 76548 82465 XOR\n2 1 82465 76577 129121 XOR\n2 1 5170 76547 82464 XOR\n2 1 82464 76576 129120 XOR\n2 1 5169 76546 82463 XOR\n2 1 82463 76575 129119 XOR\n2 1 5168 76545 82462 XOR\n2 1 82462 76574 129118 XOR\n2 1 5167 76544 82461 XOR\n2 1 82461 76573 129117 XOR\n2 1 5166 76543 82460 XOR\n2 1 82460 76572 129116 XOR\n2 1 5165 76542 82459 XOR\n2 1 82459 76571 129115 XOR\n2 1 5164 76541 82458 XOR\n2 1 82458 76570 129114 XOR\n2 1 5163 76540 82457 XOR\n2 1 82457 76569 129113 XOR\n2 1 5162 76539 82456 XOR\n2 1 82456 76568 129112 XOR\n2 1 5161 76538 82455 XOR\n2 1 82455 76567 129111 XOR\n2 1 5160 76537 82454 XOR\n2 1 82454 76566 129110 XOR\n2 1 5159 76536 82453 XOR\n2 1 82453 76565 129109 XOR\n2 1 5158 76535 82452 XOR\n2 1 82452 76564 129108 XOR\n2 1 5157 76534 82451 XOR\n2 1 82451 76563 129107 XOR\n2 1 5156 76533 82450 XOR\n2 1 82450 76562 129106 XOR\n2 1 5155 76532 82449 XOR\n2 1 82449 76561 129075 AND\n2 1 129106 129075 77842 XOR\n2 1 79378 77842 129044 XOR\n2 1 76562 129075 51817 XOR\n2 1 82449 76561 77841 XOR\n2 1 79377 77841 129013 AND\n2 1 79378 129013 51726 XOR\n2 1 77842 129013 51727 XOR\n2 1 51726 51727 51725 AND\n2 1 129044 129013 76050 XOR\n2 1 82450 129075 51816 XOR\n2 1 51816 51817 51815 AND\n2 1 51815 129075 129076 XOR\n2 1 82451 129076 51819 XOR\n2 1 76563 129076 51820 XOR\n2 1 129107 129076 77843 XOR\n2 1 76050 2177 113946 XOR\n",
"2 1 51725 129013 129014 XOR\n2 1 77843 129014 51730 XOR\n2 1 79379 129014 51729 XOR\n2 1 51729 51730 51728 AND\n2 1 51728 129014 129015 XOR\n2 1 79380 129015 51732 XOR\n2 1 79377 77841 76049 XOR\n2 1 76049 2176 94166 XOR\n2 1 76049 2176 113915 AND\n2 1 76050 113915 25775 XOR\n2 1 96214 94166 90129 XOR\n2 1 1664 90129 104142 AND\n2 1 1665 104142 10297 XOR\n2 1 1664 90129 1536 XOR\n2 1 90129 83985 104204 AND\n2 1 90129 83985 1088 XOR\n2 1 83986 104204 10388 XOR\n2 1 1088 1152 70063 XOR\n2 1 70063 70031 69999 AND\n2 1 69999 1152 86001 XOR\n2 1 1088 1120 69935 XOR\n2 1 113946 113915 94167 XOR\n2 1 96215 94167 113884 XOR\n2 1 2177 113915 25776 XOR\n2 1 25775 25776 25774 AND\n2 1 25774 113915 113916 XOR\n2 1 2178 113916 25779 XOR\n2 1 63695 1536 63663 AND\n2 1 63663 1600 98230 XOR\n2 1 1536 1568 63631 XOR\n2 1 96214 94166 113853 AND\n2 1 113884 113853 90130 XOR\n2 1 1665 90130 104173 XOR\n2 1 96215 113853 25685 XOR\n2 1 94167 113853 25686 XOR\n2 1 25685 25686 25684 AND\n2 1 25684 113853 113854 XOR\n2 1 96216 113854 25688 XOR\n2 1 90130 104142 10298 XOR\n2 1 10297 10298 10296 AND\n2 1 90130 83986 104235 XOR\n2 1 104235 104204 1089 XOR\n2 1 1089 1153 70064 XOR\n2 1 70064 70032 70000 AND\n2 1 70000 1153 86002 XOR\n2 1 1089 1121 69936 XOR\n2 1 90130 104204 10387 XOR\n2 1 10387 10388 10386 AND\n2 1 104173 104142 1537 XOR\n2 1 10296 104142 104143 XOR\n2 1 1666 104143 10300 XOR\n2 1 10386 104204 104205 XOR\n2 1 83987 104205 10391 XOR\n2 1 63696 1537 63664 AND\n2 1 63664 1601 98231 XOR\n2 1 1537 1569 63632 XOR\n2 1 79379 77843 129045 XOR\n2 1 129045 129014 76051 XOR\n2 1 76051 113916 25778 XOR\n2 1 25778 25779 25777 AND\n2 1 25777 113916 113917 XOR\n2 1 2179 113917 25782 XOR\n2 1 76051 2178 113947 XOR\n2 1 113947 113916 94168 XOR\n2 1 94168 113854 25689 XOR\n2 1 25688 25689 25687 AND\n2 1 25687 113854 113855 XOR\n2 1 96217 113855 25691 XOR\n2 1 96216 94168 113885 XOR\n2 1 113885 113854 90131 XOR\n2 1 90131 104205 10390 XOR\n2 1 10390 10391 10389 AND\n2 1 1666 90131 104174 XOR\n2 1 104174 104143 1538 XOR\n2 1 90131 104143 10301 XOR\n2 1 63697 1538 63665 AND\n2 1 63665 1602 98232 XOR\n2 1 1538 1570 63633 XOR\n2 1 10389 104205 104206 XOR\n2 1 83988 104206 10394 XOR\n2 1 10300 10301 10299 AND\n2 1 76049 76051 6391 XOR\n2 1 90131 83987 104236 XOR\n2 1 104236 104205 1090 XOR\n2 1 1090 1154 70065 XOR\n2 1 70065 70033 70001 AND\n2 1 70001 1154 86003 XOR\n2 1 1090 1122 69937 XOR\n2 1 10299 104143 104144 XOR\n2 1 1667 104144 10303 XOR\n2 1 51819 51820 51818 AND\n2 1 51818 129076 129077 XOR\n2 1 82452 129077 51822 XOR\n2 1 76564 129077 51823 XOR\n2 1 129108 129077 77844 XOR\n2 1 77844 129015 51733 XOR\n2 1 51822 51823 51821 AND\n2 1 51821 129077 129078 XOR\n2 1 129109 129078 77845 XOR\n2 1 76565 129078 51826 XOR\n2 1 82453 129078 51825 XOR\n2 1 51825 51826 51824 AND\n2 1 51824 129078 129079 XOR\n2 1 129110 129079 77846 XOR\n2 1 79382 77846 129048 XOR\n2 1 76566 129079 51829 XOR\n2 1 79381 77845 129047 XOR\n2 1 82454 129079 51828 XOR\n2 1 51828 51829 51827 AND\n2 1 51827 129079 129080 XOR\n2 1 76567 129080 51832 XOR\n2 1 129111 129080 77847 XOR\n2 1 82455 129080 51831 XOR\n2 1 51831 51832 51830 AND\n2 1 51830 129080 129081 XOR\n2 1 82456 129081 51834 XOR\n2 1 129112 129081 77848 XOR\n2 1 79384 77848 129050 XOR\n2 1 76568 129081 51835 XOR\n2 1 51834 51835 51833 AND\n2 1 51833 129081 129082 XOR\n2 1 82457 129082 51837 XOR\n2 1 76569 129082 51838 XOR\n2 1 51837 51838 51836 AND\n2 1 51836 129082 129083 XOR\n2 1 76570 129083 51841 XOR\n2 1 82458 129083 51840 XOR\n2 1 129114 129083 77850 XOR\n",
"2 1 79386 77850 129052 XOR\n2 1 129113 129082 77849 XOR\n2 1 79385 77849 129051 XOR\n2 1 51840 51841 51839 AND\n2 1 51839 129083 129084 XOR\n2 1 129115 129084 77851 XOR\n2 1 76571 129084 51844 XOR\n2 1 79387 77851 129053 XOR\n2 1 82459 129084 51843 XOR\n2 1 51843 51844 51842 AND\n2 1 51842 129084 129085 XOR\n2 1 82460 129085 51846 XOR\n2 1 129116 129085 77852 XOR\n2 1 76572 129085 51847 XOR\n2 1 51846 51847 51845 AND\n2 1 51845 129085 129086 XOR\n2 1 129117 129086 77853 XOR\n2 1 79389 77853 129055 XOR\n2 1 82461 129086 51849 XOR\n2 1 76573 129086 51850 XOR\n2 1 51849 51850 51848 AND\n2 1 51848 129086 129087 XOR\n2 1 82462 129087 51852 XOR\n2 1 129118 129087 77854 XOR\n2 1 79390 77854 129056 XOR\n2 1 76574 129087 51853 XOR\n2 1 51852 51853 51851 AND\n2 1 51851 129087 129088 XOR\n2 1 129119 129088 77855 XOR\n2 1 76575 129088 51856 XOR\n2 1 79391 77855 129057 XOR\n2 1 82463 129088 51855 XOR\n2 1 51855 51856 51854 AND\n2 1 51854 129088 129089 XOR\n2 1 76576 129089 51859 XOR\n2 1 82464 129089 51858 XOR\n2 1 51858 51859 51857 AND\n2 1 129120 129089 77856 XOR\n2 1 79392 77856 129058 XOR\n2 1 51857 129089 129090 XOR\n2 1 129121 129090 77857 XOR\n2 1 79393 77857 129059 XOR\n2 1 76577 129090 51862 XOR\n2 1 82465 129090 51861 XOR\n2 1 51861 51862 51860 AND\n2 1 51860 129090 129091 XOR\n2 1 129122 129091 77858 XOR\n2 1 76578 129091 51865 XOR\n2 1 82466 129091 51864 XOR\n2 1 51864 51865 51863 AND\n2 1 51863 129091 129092 XOR\n2 1 76579 129092 51868 XOR\n2 1 129123 129092 77859 XOR\n2 1 82467 129092 51867 XOR\n2 1 51867 51868 51866 AND\n2 1 51866 129092 129093 XOR\n2 1 82468 129093 51870 XOR\n2 1 76580 129093 51871 XOR\n2 1 51870 51871 51869 AND\n2 1 51869 129093 129094 XOR\n2 1 82469 129094 51873 XOR\n2 1 129124 129093 77860 XOR\n2 1 79396 77860 129062 XOR\n2 1 129125 129094 77861 XOR\n2 1 79397 77861 129063 XOR\n2 1 76581 129094 51874 XOR\n2 1 51873 51874 51872 AND\n2 1 51872 129094 129095 XOR\n2 1 129126 129095 77862 XOR\n2 1 76582 129095 51877 XOR\n2 1 82470 129095 51876 XOR\n2 1 51876 51877 51875 AND\n2 1 51875 129095 129096 XOR\n2 1 129127 129096 77863 XOR\n2 1 76583 129096 51880 XOR\n2 1 82471 129096 51879 XOR\n2 1 51879 51880 51878 AND\n2 1 51878 129096 129097 XOR\n2 1 129128 129097 77864 XOR\n2 1 79400 77864 129066 XOR\n2 1 82472 129097 51882 XOR\n2 1 79395 77859 129061 XOR\n2 1 79398 77862 129064 XOR\n2 1 79380 77844 129046 XOR\n2 1 129046 129015 76052 XOR\n2 1 76052 113917 25781 XOR\n2 1 76052 2179 113948 XOR\n2 1 113948 113917 94169 XOR\n2 1 94169 113855 25692 XOR\n2 1 25691 25692 25690 AND\n2 1 25690 113855 113856 XOR\n2 1 96218 113856 25694 XOR\n2 1 96217 94169 113886 XOR\n2 1 113886 113855 92163 XOR\n1 1 92163 90132 INV\n2 1 1667 90132 104175 XOR\n2 1 104175 104144 1539 XOR\n2 1 90132 83988 104237 XOR\n2 1 104237 104206 1091 XOR\n2 1 1091 1155 70066 XOR\n2 1 70066 70034 70002 AND\n2 1 70002 1155 86004 XOR\n2 1 1091 1123 69938 XOR\n2 1 25781 25782 25780 AND\n2 1 25780 113917 113918 XOR\n2 1 2180 113918 25785 XOR\n2 1 76584 129097 51883 XOR\n2 1 51882 51883 51881 AND\n2 1 51881 129097 129098 XOR\n2 1 129129 129098 77865 XOR\n2 1 79401 77865 129067 XOR\n2 1 82473 129098 51885 XOR\n2 1 76585 129098 51886 XOR\n2 1 51885 51886 51884 AND\n2 1 51884 129098 129099 XOR\n2 1 129130 129099 77866 XOR\n2 1 79402 77866 129068 XOR\n2 1 79388 77852 129054 XOR\n2 1 79399 77863 129065 XOR\n2 1 63698 1539 63666 AND\n2 1 63666 1603 98233 XOR\n2 1 1539 1571 63634 XOR\n2 1 79383 77847 129049 XOR\n2 1 90132 104206 10393 XOR\n2 1 10393 10394 10392 AND\n2 1 10392 104206 104207 XOR\n2 1 83989 104207 10397 XOR\n2 1 82474 129099 51888 XOR\n",
"2 1 79394 77858 129060 XOR\n2 1 76586 129099 51889 XOR\n2 1 51888 51889 51887 AND\n2 1 51887 129099 129100 XOR\n2 1 76587 129100 51892 XOR\n2 1 129131 129100 77867 XOR\n2 1 79403 77867 129069 XOR\n2 1 82475 129100 51891 XOR\n2 1 51891 51892 51890 AND\n2 1 51890 129100 129101 XOR\n2 1 82476 129101 51894 XOR\n2 1 76588 129101 51895 XOR\n2 1 51894 51895 51893 AND\n2 1 51893 129101 129102 XOR\n2 1 76589 129102 51898 XOR\n2 1 82477 129102 51897 XOR\n2 1 51897 51898 51896 AND\n2 1 51896 129102 129103 XOR\n2 1 129134 129103 77870 XOR\n2 1 79406 77870 129072 XOR\n2 1 129133 129102 77869 XOR\n2 1 82478 129103 51900 XOR\n2 1 129132 129101 77868 XOR\n2 1 79404 77868 129070 XOR\n2 1 76590 129103 51901 XOR\n2 1 51900 51901 51899 AND\n2 1 51899 129103 129104 XOR\n2 1 82479 129104 51903 XOR\n2 1 129135 129104 77871 XOR\n2 1 79407 77871 129073 XOR\n2 1 76591 129104 51904 XOR\n2 1 51903 51904 51902 AND\n2 1 51902 129104 129105 XOR\n2 1 129136 129105 77872 XOR\n2 1 51732 51733 51731 AND\n2 1 51731 129015 129016 XOR\n2 1 129047 129016 76053 XOR\n2 1 79381 129016 51735 XOR\n2 1 77845 129016 51736 XOR\n2 1 51735 51736 51734 AND\n2 1 51734 129016 129017 XOR\n2 1 77846 129017 51739 XOR\n2 1 129048 129017 76054 XOR\n2 1 76053 2180 113949 XOR\n2 1 76054 2181 113950 XOR\n2 1 113949 113918 94170 XOR\n2 1 96218 94170 113887 XOR\n2 1 113887 113856 92164 XOR\n2 1 94170 113856 25695 XOR\n2 1 25694 25695 25693 AND\n2 1 25693 113856 113857 XOR\n2 1 92164 92163 90133 XOR\n2 1 90133 92163 25605 AND\n2 1 25605 92163 25607 XOR\n2 1 90133 83989 104238 XOR\n2 1 96219 113857 25697 XOR\n2 1 104238 104207 1092 XOR\n2 1 1092 1156 70067 XOR\n2 1 70067 70035 70003 AND\n2 1 70003 1156 86005 XOR\n2 1 1092 1124 69939 XOR\n2 1 90133 104207 10396 XOR\n2 1 10396 10397 10395 AND\n2 1 1668 90133 104176 XOR\n2 1 76053 113918 25784 XOR\n2 1 25784 25785 25783 AND\n2 1 25783 113918 113919 XOR\n2 1 2181 113919 25788 XOR\n2 1 113950 113919 94171 XOR\n2 1 96219 94171 113888 XOR\n2 1 94171 113857 25698 XOR\n2 1 113888 113857 92165 XOR\n2 1 92165 25607 90134 XOR\n2 1 90134 25607 25606 AND\n2 1 25606 25607 25609 XOR\n2 1 90134 83990 104239 XOR\n2 1 1669 90134 104177 XOR\n2 1 25697 25698 25696 AND\n2 1 25696 113857 113858 XOR\n2 1 96220 113858 25700 XOR\n2 1 10395 104207 104208 XOR\n2 1 83990 104208 10400 XOR\n2 1 90134 104208 10399 XOR\n2 1 10399 10400 10398 AND\n2 1 10398 104208 104209 XOR\n2 1 83991 104209 10403 XOR\n2 1 104239 104208 1093 XOR\n2 1 1093 1157 70068 XOR\n2 1 70068 70036 70004 AND\n2 1 70004 1157 86006 XOR\n2 1 1093 1125 69940 XOR\n2 1 76054 113919 25787 XOR\n2 1 25787 25788 25786 AND\n2 1 25786 113919 113920 XOR\n2 1 2182 113920 25791 XOR\n2 1 79382 129017 51738 XOR\n2 1 51738 51739 51737 AND\n2 1 51737 129017 129018 XOR\n2 1 129049 129018 76055 XOR\n2 1 76055 113920 25790 XOR\n2 1 25790 25791 25789 AND\n2 1 25789 113920 113921 XOR\n2 1 2183 113921 25794 XOR\n2 1 79383 129018 51741 XOR\n2 1 77847 129018 51742 XOR\n2 1 51741 51742 51740 AND\n2 1 51740 129018 129019 XOR\n2 1 129050 129019 76056 XOR\n2 1 76056 113921 25793 XOR\n2 1 25793 25794 25792 AND\n2 1 25792 113921 113922 XOR\n2 1 2184 113922 25797 XOR\n2 1 76055 2182 113951 XOR\n2 1 113951 113920 94172 XOR\n2 1 96220 94172 113889 XOR\n2 1 94172 113858 25701 XOR\n2 1 76056 2183 113952 XOR\n2 1 113952 113921 94173 XOR\n2 1 96221 94173 113890 XOR\n2 1 79384 129019 51744 XOR\n2 1 25700 25701 25699 AND\n2 1 25699 113858 113859 XOR\n2 1 94173 113859 25704 XOR\n2 1 113890 113859 92167 XOR\n2 1 96221 113859 25703 XOR\n2 1 25703 25704 25702 AND\n2 1 25702 113859 113860 XOR\n2 1 96222 113860 25706 XOR\n",
"2 1 77848 129019 51745 XOR\n2 1 51744 51745 51743 AND\n2 1 51743 129019 129020 XOR\n2 1 129051 129020 76057 XOR\n2 1 76057 113922 25796 XOR\n2 1 25796 25797 25795 AND\n2 1 25795 113922 113923 XOR\n2 1 2185 113923 25800 XOR\n2 1 79385 129020 51747 XOR\n2 1 77849 129020 51748 XOR\n2 1 51747 51748 51746 AND\n2 1 51746 129020 129021 XOR\n2 1 77850 129021 51751 XOR\n2 1 76057 2184 113953 XOR\n2 1 113953 113922 94174 XOR\n2 1 96222 94174 113891 XOR\n2 1 94174 113860 25707 XOR\n2 1 113891 113860 92168 XOR\n2 1 25706 25707 25705 AND\n2 1 25705 113860 113861 XOR\n2 1 96223 113861 25709 XOR\n2 1 79386 129021 51750 XOR\n2 1 51750 51751 51749 AND\n2 1 129052 129021 76058 XOR\n2 1 76058 113923 25799 XOR\n2 1 25799 25800 25798 AND\n2 1 25798 113923 113924 XOR\n2 1 2186 113924 25803 XOR\n2 1 76058 2185 113954 XOR\n2 1 113954 113923 94175 XOR\n2 1 96223 94175 113892 XOR\n2 1 113892 113861 92169 XOR\n2 1 94175 113861 25710 XOR\n2 1 25709 25710 25708 AND\n2 1 25708 113861 113862 XOR\n2 1 96224 113862 25712 XOR\n2 1 51749 129021 129022 XOR\n2 1 77851 129022 51754 XOR\n2 1 79387 129022 51753 XOR\n2 1 51753 51754 51752 AND\n2 1 51752 129022 129023 XOR\n2 1 129054 129023 76060 XOR\n2 1 77852 129023 51757 XOR\n2 1 79388 129023 51756 XOR\n2 1 51756 51757 51755 AND\n2 1 51755 129023 129024 XOR\n2 1 79389 129024 51759 XOR\n2 1 77853 129024 51760 XOR\n2 1 51759 51760 51758 AND\n2 1 129055 129024 76061 XOR\n2 1 76061 2188 113957 XOR\n2 1 76060 2187 113956 XOR\n2 1 129053 129022 76059 XOR\n2 1 76059 113924 25802 XOR\n2 1 25802 25803 25801 AND\n2 1 25801 113924 113925 XOR\n2 1 2187 113925 25806 XOR\n2 1 76060 113925 25805 XOR\n2 1 76059 2186 113955 XOR\n2 1 113955 113924 94176 XOR\n2 1 96224 94176 113893 XOR\n2 1 94176 113862 25713 XOR\n2 1 113956 113925 94177 XOR\n2 1 96225 94177 113894 XOR\n2 1 25805 25806 25804 AND\n2 1 25804 113925 113926 XOR\n2 1 76061 113926 25808 XOR\n2 1 2188 113926 25809 XOR\n2 1 113957 113926 94178 XOR\n2 1 96226 94178 113895 XOR\n2 1 25808 25809 25807 AND\n2 1 25807 113926 113927 XOR\n2 1 2189 113927 25812 XOR\n2 1 113893 113862 92170 XOR\n1 1 92170 25671 INV\n2 1 25712 25713 25711 AND\n2 1 25711 113862 113863 XOR\n2 1 94177 113863 25716 XOR\n2 1 113894 113863 92171 XOR\n1 1 92171 25672 INV\n2 1 96225 113863 25715 XOR\n2 1 51758 129024 129025 XOR\n2 1 129056 129025 76062 XOR\n2 1 76062 2189 113958 XOR\n2 1 113958 113927 94179 XOR\n2 1 96227 94179 113896 XOR\n2 1 77854 129025 51763 XOR\n2 1 79390 129025 51762 XOR\n2 1 51762 51763 51761 AND\n2 1 51761 129025 129026 XOR\n2 1 79391 129026 51765 XOR\n2 1 77855 129026 51766 XOR\n2 1 129057 129026 76063 XOR\n2 1 76063 2190 113959 XOR\n2 1 76062 113927 25811 XOR\n2 1 25811 25812 25810 AND\n2 1 25810 113927 113928 XOR\n2 1 113959 113928 94180 XOR\n2 1 96228 94180 113897 XOR\n2 1 76063 113928 25814 XOR\n2 1 2190 113928 25815 XOR\n2 1 25814 25815 25813 AND\n2 1 25813 113928 113929 XOR\n2 1 2191 113929 25818 XOR\n2 1 51765 51766 51764 AND\n2 1 51764 129026 129027 XOR\n2 1 129058 129027 76064 XOR\n2 1 76064 113929 25817 XOR\n2 1 25817 25818 25816 AND\n2 1 76064 2191 113960 XOR\n2 1 79392 129027 51768 XOR\n2 1 77856 129027 51769 XOR\n2 1 113960 113929 94181 XOR\n2 1 25816 113929 113930 XOR\n2 1 96229 94181 113898 XOR\n2 1 2192 113930 25821 XOR\n2 1 51768 51769 51767 AND\n2 1 51767 129027 129028 XOR\n2 1 79393 129028 51771 XOR\n2 1 129059 129028 76065 XOR\n2 1 76065 113930 25820 XOR\n2 1 25820 25821 25819 AND\n2 1 25819 113930 113931 XOR\n2 1 76065 2192 113961 XOR\n2 1 113961 113930 94182 XOR\n2 1 96230 94182 113899 XOR\n2 1 2193 113931 25824 XOR\n2 1 113889 113858 92166 XOR\n",
"2 1 92166 25609 90135 XOR\n2 1 90135 83991 104240 XOR\n2 1 104240 104209 1094 XOR\n2 1 1094 1158 70069 XOR\n2 1 70069 70037 70005 AND\n2 1 70005 1158 86007 XOR\n2 1 1094 1126 69941 XOR\n2 1 90135 104209 10402 XOR\n2 1 10402 10403 10401 AND\n2 1 1670 90135 104178 XOR\n2 1 79408 77872 129074 XOR\n2 1 90132 104144 10304 XOR\n2 1 10303 10304 10302 AND\n2 1 25715 25716 25714 AND\n2 1 25714 113863 113864 XOR\n2 1 94178 113864 25719 XOR\n2 1 96226 113864 25718 XOR\n2 1 113895 113864 92172 XOR\n2 1 25718 25719 25717 AND\n2 1 25717 113864 113865 XOR\n2 1 113896 113865 92173 XOR\n1 1 92173 25673 INV\n2 1 94179 113865 25722 XOR\n2 1 96227 113865 25721 XOR\n2 1 25721 25722 25720 AND\n2 1 25720 113865 113866 XOR\n2 1 96228 113866 25724 XOR\n2 1 94180 113866 25725 XOR\n2 1 25724 25725 25723 AND\n2 1 113897 113866 92174 XOR\n1 1 92174 25674 INV\n2 1 25723 113866 113867 XOR\n2 1 113898 113867 92175 XOR\n2 1 94181 113867 25728 XOR\n2 1 96229 113867 25727 XOR\n2 1 25727 25728 25726 AND\n2 1 25726 113867 113868 XOR\n2 1 113899 113868 92176 XOR\n1 1 92176 25675 INV\n2 1 94182 113868 25731 XOR\n2 1 96230 113868 25730 XOR\n2 1 25730 25731 25729 AND\n2 1 25729 113868 113869 XOR\n2 1 96231 113869 25733 XOR\n2 1 77857 129028 51772 XOR\n2 1 51771 51772 51770 AND\n2 1 51770 129028 129029 XOR\n2 1 129060 129029 76066 XOR\n2 1 79394 129029 51774 XOR\n2 1 77858 129029 51775 XOR\n2 1 51774 51775 51773 AND\n2 1 51773 129029 129030 XOR\n2 1 77859 129030 51778 XOR\n2 1 76066 2193 113962 XOR\n2 1 113962 113931 94183 XOR\n2 1 96231 94183 113900 XOR\n2 1 79395 129030 51777 XOR\n2 1 51777 51778 51776 AND\n2 1 51776 129030 129031 XOR\n2 1 77860 129031 51781 XOR\n2 1 129061 129030 76067 XOR\n2 1 113900 113869 92177 XOR\n1 1 92177 25676 INV\n2 1 76067 2194 113963 XOR\n2 1 129062 129031 76068 XOR\n2 1 76068 2195 113964 XOR\n2 1 79396 129031 51780 XOR\n2 1 51780 51781 51779 AND\n2 1 51779 129031 129032 XOR\n2 1 129063 129032 76069 XOR\n2 1 79397 129032 51783 XOR\n2 1 77861 129032 51784 XOR\n2 1 51783 51784 51782 AND\n2 1 51782 129032 129033 XOR\n2 1 129064 129033 76070 XOR\n2 1 79398 129033 51786 XOR\n2 1 77862 129033 51787 XOR\n2 1 51786 51787 51785 AND\n2 1 51785 129033 129034 XOR\n2 1 129065 129034 76071 XOR\n2 1 79399 129034 51789 XOR\n2 1 76071 2198 113967 XOR\n2 1 77863 129034 51790 XOR\n2 1 76069 2196 113965 XOR\n2 1 76070 2197 113966 XOR\n2 1 51789 51790 51788 AND\n2 1 51788 129034 129035 XOR\n2 1 129066 129035 76072 XOR\n2 1 76072 2199 113968 XOR\n2 1 79400 129035 51792 XOR\n2 1 77864 129035 51793 XOR\n2 1 51792 51793 51791 AND\n2 1 51791 129035 129036 XOR\n2 1 129067 129036 76073 XOR\n2 1 76073 2200 113969 XOR\n2 1 79401 129036 51795 XOR\n2 1 77865 129036 51796 XOR\n2 1 51795 51796 51794 AND\n2 1 51794 129036 129037 XOR\n2 1 79402 129037 51798 XOR\n2 1 77866 129037 51799 XOR\n2 1 129068 129037 76074 XOR\n2 1 76074 2201 113970 XOR\n2 1 51798 51799 51797 AND\n2 1 51797 129037 129038 XOR\n2 1 129069 129038 76075 XOR\n2 1 76075 2202 113971 XOR\n2 1 77867 129038 51802 XOR\n2 1 79403 129038 51801 XOR\n2 1 51801 51802 51800 AND\n2 1 51800 129038 129039 XOR\n2 1 129070 129039 76076 XOR\n2 1 76076 2203 113972 XOR\n2 1 79404 129039 51804 XOR\n2 1 77868 129039 51805 XOR\n2 1 51804 51805 51803 AND\n2 1 51803 129039 129040 XOR\n2 1 79405 129040 51807 XOR\n2 1 77869 129040 51808 XOR\n2 1 51807 51808 51806 AND\n2 1 51806 129040 129041 XOR\n2 1 129072 129041 76078 XOR\n2 1 79406 129041 51810 XOR\n2 1 76078 2205 113974 XOR\n2 1 77870 129041 51811 XOR\n2 1 51810 51811 51809 AND\n2 1 51809 129041 129042 XOR\n2 1 129073 129042 76079 XOR\n",
"2 1 76079 2206 113975 XOR\n2 1 79407 129042 51813 XOR\n2 1 77871 129042 51814 XOR\n2 1 51813 51814 51812 AND\n2 1 51812 129042 129043 XOR\n2 1 129074 129043 76080 XOR\n2 1 76080 2207 113976 XOR\n2 1 90135 25609 25608 AND\n2 1 25608 25609 25611 XOR\n2 1 92167 25611 90136 XOR\n2 1 90136 83992 104241 XOR\n2 1 90136 25611 25610 AND\n2 1 25610 25611 25613 XOR\n2 1 92168 25613 90137 XOR\n2 1 90137 25613 25612 AND\n2 1 25612 25613 25615 XOR\n2 1 90137 83993 104242 XOR\n2 1 92169 25615 90138 XOR\n2 1 90138 83994 104243 XOR\n2 1 90138 25615 25614 AND\n2 1 25614 25615 113839 XOR\n2 1 25671 113839 90139 XOR\n2 1 1674 90139 104182 XOR\n2 1 1671 90136 104179 XOR\n2 1 90139 83995 104244 XOR\n2 1 1672 90137 104180 XOR\n1 1 113839 25618 INV\n2 1 1673 90138 104181 XOR\n2 1 76065 76067 80880 XOR\n2 1 80880 76240 128826 XOR\n2 1 76064 76066 80879 XOR\n2 1 80879 76239 128825 XOR\n2 1 76063 76065 80878 XOR\n2 1 80878 76238 128824 XOR\n2 1 76062 76064 80877 XOR\n2 1 80877 76237 128823 XOR\n2 1 76061 76063 80876 XOR\n2 1 80876 76236 128822 XOR\n2 1 76060 76062 80875 XOR\n2 1 80875 76235 128821 XOR\n2 1 76059 76061 80874 XOR\n2 1 80874 76234 128820 XOR\n2 1 76058 76060 80873 XOR\n2 1 80873 76233 128819 XOR\n2 1 76057 76059 80872 XOR\n2 1 80872 76232 128818 XOR\n2 1 76056 76058 80871 XOR\n2 1 80871 76231 128817 XOR\n2 1 76055 76057 6397 XOR\n2 1 76054 76056 6396 XOR\n2 1 76053 76055 6395 XOR\n2 1 76052 76054 6394 XOR\n2 1 76051 76053 6393 XOR\n2 1 76050 76052 6392 XOR\n2 1 76080 76050 6390 XOR\n2 1 76079 76049 6389 XOR\n2 1 76078 76080 6388 XOR\n2 1 76076 76078 6386 XOR\n2 1 76074 76076 6384 XOR\n2 1 76073 76075 6383 XOR\n2 1 76072 76074 6382 XOR\n2 1 76071 76073 6381 XOR\n2 1 76070 76072 6380 XOR\n2 1 76069 76071 6379 XOR\n2 1 76068 76070 6378 XOR\n2 1 76067 76069 6377 XOR\n2 1 76066 76068 6376 XOR\n2 1 6397 76080 80870 XOR\n2 1 80870 76230 128816 XOR\n2 1 6396 76079 80869 XOR\n2 1 80869 76229 128815 XOR\n2 1 6395 76078 80868 XOR\n2 1 80868 76228 128814 XOR\n2 1 6393 76076 80866 XOR\n2 1 80866 76226 128812 XOR\n2 1 6392 76075 80865 XOR\n2 1 80865 76225 128811 XOR\n2 1 6391 76074 80864 XOR\n2 1 80864 76224 128810 XOR\n2 1 6390 76073 80863 XOR\n2 1 80863 76223 128809 XOR\n2 1 6389 76072 80862 XOR\n2 1 80862 76222 128808 XOR\n2 1 6388 76071 80861 XOR\n2 1 80861 76221 128807 XOR\n2 1 6386 76069 80859 XOR\n2 1 80859 76219 128805 XOR\n2 1 6384 76067 80857 XOR\n2 1 80857 76217 128803 XOR\n2 1 6383 76066 80856 XOR\n2 1 80856 76216 128802 XOR\n2 1 6382 76065 80855 XOR\n2 1 80855 76215 128801 XOR\n2 1 6381 76064 80854 XOR\n2 1 80854 76214 128800 XOR\n2 1 6380 76063 80853 XOR\n2 1 80853 76213 128799 XOR\n2 1 6379 76062 80852 XOR\n2 1 80852 76212 128798 XOR\n2 1 6378 76061 80851 XOR\n2 1 80851 76211 128797 XOR\n2 1 6377 76060 80850 XOR\n2 1 80850 76210 128796 XOR\n2 1 6376 76059 80849 XOR\n2 1 80849 76209 128765 AND\n2 1 128796 128765 79314 XOR\n2 1 80849 76209 79313 XOR\n2 1 80850 128765 51366 XOR\n2 1 76210 128765 51367 XOR\n2 1 51366 51367 51365 AND\n2 1 51365 128765 128766 XOR\n2 1 128797 128766 79315 XOR\n2 1 76211 128766 51370 XOR\n2 1 80851 128766 51369 XOR\n2 1 51369 51370 51368 AND\n2 1 51368 128766 128767 XOR\n2 1 76212 128767 51373 XOR\n2 1 80852 128767 51372 XOR\n2 1 51372 51373 51371 AND\n2 1 51371 128767 128768 XOR\n2 1 128799 128768 79317 XOR\n2 1 80853 128768 51375 XOR\n2 1 76213 128768 51376 XOR\n2 1 51375 51376 51374 AND\n2 1 51374 128768 128769 XOR\n2 1 80854 128769 51378 XOR\n2 1 76214 128769 51379 XOR\n2 1 51378 51379 51377 AND\n",
"2 1 51377 128769 128770 XOR\n2 1 128801 128770 79319 XOR\n2 1 128800 128769 79318 XOR\n2 1 128798 128767 79316 XOR\n2 1 80855 128770 51381 XOR\n2 1 76215 128770 51382 XOR\n2 1 10302 104144 104145 XOR\n2 1 90133 104145 10307 XOR\n2 1 1668 104145 10306 XOR\n2 1 10306 10307 10305 AND\n2 1 10305 104145 104146 XOR\n2 1 104177 104146 1541 XOR\n2 1 90134 104146 10310 XOR\n2 1 1669 104146 10309 XOR\n2 1 10309 10310 10308 AND\n2 1 10308 104146 104147 XOR\n2 1 104178 104147 1542 XOR\n2 1 1670 104147 10312 XOR\n2 1 90135 104147 10313 XOR\n2 1 10312 10313 10311 AND\n2 1 10311 104147 104148 XOR\n2 1 1671 104148 10315 XOR\n2 1 90136 104148 10316 XOR\n2 1 10315 10316 10314 AND\n2 1 63701 1542 63669 AND\n2 1 63700 1541 63668 AND\n2 1 63669 1606 98236 XOR\n2 1 63668 1605 98235 XOR\n2 1 1542 1574 63637 XOR\n2 1 1541 1573 63636 XOR\n2 1 10314 104148 104149 XOR\n2 1 90137 104149 10319 XOR\n2 1 104180 104149 1544 XOR\n2 1 63703 1544 63671 AND\n2 1 63671 1608 98238 XOR\n2 1 1544 1576 63639 XOR\n2 1 104179 104148 1543 XOR\n2 1 63702 1543 63670 AND\n2 1 63670 1607 98237 XOR\n2 1 1543 1575 63638 XOR\n2 1 1539 1544 61260 XOR\n2 1 1538 1543 61259 XOR\n2 1 1537 1542 61258 XOR\n2 1 1536 1541 61257 XOR\n2 1 1672 104149 10318 XOR\n2 1 10318 10319 10317 AND\n2 1 10317 104149 104150 XOR\n2 1 90138 104150 10322 XOR\n2 1 1673 104150 10321 XOR\n2 1 10321 10322 10320 AND\n2 1 104181 104150 1545 XOR\n2 1 63704 1545 63672 AND\n2 1 63672 1609 98239 XOR\n2 1 1545 1577 63640 XOR\n2 1 10401 104209 104210 XOR\n2 1 83992 104210 10406 XOR\n2 1 104241 104210 1095 XOR\n2 1 1095 1159 70070 XOR\n2 1 70070 70038 70006 AND\n2 1 70006 1159 86008 XOR\n2 1 1095 1127 69942 XOR\n2 1 90136 104210 10405 XOR\n2 1 10405 10406 10404 AND\n2 1 10404 104210 104211 XOR\n2 1 90137 104211 10408 XOR\n2 1 104242 104211 1096 XOR\n2 1 83993 104211 10409 XOR\n2 1 10408 10409 10407 AND\n2 1 10407 104211 104212 XOR\n2 1 83994 104212 10412 XOR\n2 1 90138 104212 10411 XOR\n2 1 104243 104212 1097 XOR\n2 1 1097 1161 70072 XOR\n2 1 1096 1160 70071 XOR\n2 1 70072 70040 70008 AND\n2 1 70071 70039 70007 AND\n2 1 70008 1161 86010 XOR\n2 1 70007 1160 86009 XOR\n2 1 1097 1129 69944 XOR\n2 1 1096 1128 69943 XOR\n2 1 10411 10412 10410 AND\n2 1 10410 104212 104213 XOR\n2 1 104244 104213 1098 XOR\n2 1 90139 104213 10414 XOR\n2 1 83995 104213 10415 XOR\n2 1 1098 1162 70073 XOR\n2 1 70073 70041 70009 AND\n2 1 70009 1162 86011 XOR\n2 1 1098 1130 69945 XOR\n2 1 79405 77869 129071 XOR\n2 1 129071 129040 76077 XOR\n2 1 76077 2204 113973 XOR\n2 1 76077 76079 6387 XOR\n2 1 76075 76077 6385 XOR\n2 1 6394 76077 80867 XOR\n2 1 80867 76227 128813 XOR\n2 1 6387 76070 80860 XOR\n2 1 80860 76220 128806 XOR\n2 1 6385 76068 80858 XOR\n2 1 80858 76218 128804 XOR\n2 1 104176 104145 1540 XOR\n2 1 63699 1540 63667 AND\n2 1 63667 1604 98234 XOR\n2 1 1540 1572 63635 XOR\n2 1 1540 1545 61261 XOR\n2 1 10320 104150 104151 XOR\n2 1 90139 104151 10325 XOR\n2 1 104182 104151 1546 XOR\n2 1 1674 104151 10324 XOR\n2 1 10324 10325 10323 AND\n2 1 10323 104151 104152 XOR\n2 1 1675 104152 10327 XOR\n2 1 63705 1546 63673 AND\n2 1 63673 1610 98240 XOR\n2 1 1546 1578 63641 XOR\n2 1 1541 1546 61262 XOR\n2 1 10414 10415 10413 AND\n2 1 10413 104213 104214 XOR\n2 1 83996 104214 10418 XOR\n2 1 92170 113839 25617 XOR\n2 1 25617 25618 25616 AND\n2 1 25616 113839 113840 XOR\n2 1 25672 113840 90140 XOR\n2 1 90140 83996 104245 XOR\n2 1 92171 113840 25620 XOR\n2 1 1675 90140 104183 XOR\n2 1 104183 104152 1547 XOR\n1 1 113840 25621 INV\n",
"2 1 63706 1547 63674 AND\n2 1 63674 1611 98241 XOR\n2 1 1547 1579 63642 XOR\n2 1 90140 104152 10328 XOR\n2 1 10327 10328 10326 AND\n2 1 10326 104152 104153 XOR\n2 1 1676 104153 10330 XOR\n2 1 25620 25621 25619 AND\n2 1 25619 113840 25623 XOR\n2 1 92172 25623 90141 XOR\n2 1 90141 104153 10331 XOR\n2 1 10330 10331 10329 AND\n2 1 10329 104153 104154 XOR\n2 1 90141 83997 104246 XOR\n2 1 90141 25623 25622 AND\n2 1 25622 25623 113841 XOR\n1 1 113841 25626 INV\n2 1 92173 113841 25625 XOR\n2 1 25673 113841 90142 XOR\n2 1 90142 83998 104247 XOR\n2 1 1676 90141 104184 XOR\n2 1 104184 104153 1548 XOR\n2 1 1677 90142 104185 XOR\n2 1 104185 104154 1549 XOR\n2 1 63708 1549 63676 AND\n2 1 63707 1548 63675 AND\n2 1 63676 1613 98243 XOR\n2 1 63675 1612 98242 XOR\n2 1 1549 1581 63644 XOR\n2 1 1548 1580 63643 XOR\n2 1 90142 104154 10334 XOR\n2 1 25625 25626 25624 AND\n2 1 25624 113841 113842 XOR\n1 1 113842 25629 INV\n2 1 25674 113842 90143 XOR\n2 1 90143 83999 104248 XOR\n2 1 92174 113842 25628 XOR\n2 1 25628 25629 25627 AND\n2 1 1544 1549 61233 XOR\n2 1 1543 1548 61232 XOR\n2 1 1542 1547 61231 XOR\n2 1 1677 104154 10333 XOR\n2 1 10333 10334 10332 AND\n2 1 10332 104154 104155 XOR\n2 1 1678 104155 10336 XOR\n2 1 90143 104155 10337 XOR\n2 1 104245 104214 1099 XOR\n2 1 1099 1163 70074 XOR\n2 1 70074 70042 70010 AND\n2 1 70010 1163 86012 XOR\n2 1 1099 1131 69946 XOR\n2 1 1088 1099 67181 XOR\n2 1 1678 90143 104186 XOR\n2 1 104186 104155 1550 XOR\n2 1 63709 1550 63677 AND\n2 1 63677 1614 98244 XOR\n2 1 1550 1582 63645 XOR\n2 1 1545 1550 61234 XOR\n2 1 10336 10337 10335 AND\n2 1 10335 104155 104156 XOR\n2 1 1679 104156 10339 XOR\n2 1 90140 104214 10417 XOR\n2 1 10417 10418 10416 AND\n2 1 10416 104214 104215 XOR\n2 1 83997 104215 10421 XOR\n2 1 90141 104215 10420 XOR\n2 1 10420 10421 10419 AND\n2 1 10419 104215 104216 XOR\n2 1 90142 104216 10423 XOR\n2 1 83998 104216 10424 XOR\n2 1 104247 104216 1101 XOR\n2 1 1101 1165 70076 XOR\n2 1 70076 70044 70012 AND\n2 1 70012 1165 86014 XOR\n2 1 1101 1133 69948 XOR\n2 1 1090 1101 67151 XOR\n2 1 10423 10424 10422 AND\n2 1 10422 104216 104217 XOR\n2 1 104248 104217 1102 XOR\n2 1 1102 1166 70077 XOR\n2 1 70077 70045 70013 AND\n2 1 70013 1166 86015 XOR\n2 1 1102 1134 69949 XOR\n2 1 83999 104217 10427 XOR\n2 1 1091 1102 67152 XOR\n2 1 104246 104215 1100 XOR\n2 1 1100 1164 70075 XOR\n2 1 70075 70043 70011 AND\n2 1 70011 1164 86013 XOR\n2 1 1100 1132 69947 XOR\n2 1 1089 1100 67182 XOR\n2 1 90143 104217 10426 XOR\n2 1 10426 10427 10425 AND\n2 1 10425 104217 104218 XOR\n2 1 84000 104218 10430 XOR\n2 1 25627 113842 25631 XOR\n2 1 92175 25631 90144 XOR\n2 1 90144 25631 25630 AND\n2 1 25630 25631 113843 XOR\n2 1 25675 113843 90145 XOR\n2 1 92176 113843 25633 XOR\n2 1 90145 84001 104250 XOR\n1 1 113843 25634 INV\n2 1 25633 25634 25632 AND\n2 1 25632 113843 113844 XOR\n2 1 92177 113844 25636 XOR\n1 1 113844 25637 INV\n2 1 25636 25637 25635 AND\n2 1 25635 113844 113845 XOR\n1 1 113845 25640 INV\n2 1 25676 113844 90146 XOR\n2 1 90146 84002 104251 XOR\n2 1 90144 84000 104249 XOR\n2 1 90144 104218 10429 XOR\n2 1 10429 10430 10428 AND\n2 1 10428 104218 104219 XOR\n2 1 104250 104219 1104 XOR\n2 1 1104 1168 70079 XOR\n2 1 70079 70047 70015 AND\n2 1 70015 1168 86017 XOR\n2 1 1104 1136 69951 XOR\n2 1 104249 104218 1103 XOR\n2 1 1103 1167 70078 XOR\n2 1 70078 70046 70014 AND\n2 1 70014 1167 86016 XOR\n2 1 1103 1135 69950 XOR\n2 1 1093 1104 67154 XOR\n2 1 1092 1103 67153 XOR\n",
"2 1 90145 104219 10432 XOR\n2 1 84001 104219 10433 XOR\n2 1 10432 10433 10431 AND\n2 1 10431 104219 104220 XOR\n2 1 104251 104220 1105 XOR\n2 1 1105 1169 70080 XOR\n2 1 70080 70048 70016 AND\n2 1 70016 1169 86018 XOR\n2 1 1105 1137 69952 XOR\n2 1 84002 104220 10436 XOR\n2 1 1094 1105 67155 XOR\n2 1 90144 104156 10340 XOR\n2 1 10339 10340 10338 AND\n2 1 90146 104220 10435 XOR\n2 1 10338 104156 104157 XOR\n2 1 90145 104157 10343 XOR\n2 1 1680 104157 10342 XOR\n2 1 10342 10343 10341 AND\n2 1 10341 104157 104158 XOR\n2 1 90146 104158 10346 XOR\n2 1 1681 104158 10345 XOR\n2 1 10345 10346 10344 AND\n2 1 10344 104158 104159 XOR\n2 1 1682 104159 10348 XOR\n2 1 10435 10436 10434 AND\n2 1 10434 104220 104221 XOR\n2 1 84003 104221 10439 XOR\n2 1 1679 90144 104187 XOR\n2 1 104187 104156 1551 XOR\n2 1 63710 1551 63678 AND\n2 1 63678 1615 98245 XOR\n2 1 1551 1583 63646 XOR\n2 1 1546 1551 61235 XOR\n2 1 1681 90146 104189 XOR\n2 1 104189 104158 1553 XOR\n2 1 63712 1553 63680 AND\n2 1 63680 1617 98247 XOR\n2 1 1553 1585 63648 XOR\n2 1 1548 1553 61237 XOR\n2 1 1680 90145 104188 XOR\n2 1 104188 104157 1552 XOR\n2 1 63711 1552 63679 AND\n2 1 63679 1616 98246 XOR\n2 1 1552 1584 63647 XOR\n2 1 1547 1552 61236 XOR\n2 1 94183 113869 25734 XOR\n2 1 25733 25734 25732 AND\n2 1 25732 113869 113870 XOR\n2 1 96232 113870 25736 XOR\n2 1 76066 113931 25823 XOR\n2 1 25823 25824 25822 AND\n2 1 25822 113931 113932 XOR\n2 1 2194 113932 25827 XOR\n2 1 113963 113932 94184 XOR\n2 1 96232 94184 113901 XOR\n2 1 94184 113870 25737 XOR\n2 1 113901 113870 92178 XOR\n1 1 92178 25677 INV\n2 1 25677 113845 90147 XOR\n2 1 1682 90147 104190 XOR\n2 1 90147 84003 104252 XOR\n2 1 104252 104221 1106 XOR\n2 1 1106 1170 70081 XOR\n2 1 70081 70049 70017 AND\n2 1 70017 1170 86019 XOR\n2 1 1106 1138 69953 XOR\n2 1 1095 1106 67156 XOR\n2 1 92178 113845 25639 XOR\n2 1 25639 25640 25638 AND\n2 1 25638 113845 25642 XOR\n2 1 104190 104159 1554 XOR\n2 1 63713 1554 63681 AND\n2 1 63681 1618 98248 XOR\n2 1 1554 1586 63649 XOR\n2 1 90147 104221 10438 XOR\n2 1 90147 104159 10349 XOR\n2 1 10348 10349 10347 AND\n2 1 10347 104159 104160 XOR\n2 1 1683 104160 10351 XOR\n2 1 76067 113932 25826 XOR\n2 1 25826 25827 25825 AND\n2 1 25825 113932 113933 XOR\n2 1 113964 113933 94185 XOR\n2 1 76068 113933 25829 XOR\n2 1 96233 94185 113902 XOR\n2 1 2195 113933 25830 XOR\n2 1 25829 25830 25828 AND\n2 1 25828 113933 113934 XOR\n2 1 76069 113934 25832 XOR\n2 1 113965 113934 94186 XOR\n2 1 2196 113934 25833 XOR\n2 1 25832 25833 25831 AND\n2 1 25831 113934 113935 XOR\n2 1 2197 113935 25836 XOR\n2 1 96234 94186 113903 XOR\n2 1 76070 113935 25835 XOR\n2 1 25835 25836 25834 AND\n2 1 25834 113935 113936 XOR\n2 1 2198 113936 25839 XOR\n2 1 113967 113936 94188 XOR\n2 1 96236 94188 113905 XOR\n2 1 113966 113935 94187 XOR\n2 1 96235 94187 113904 XOR\n2 1 25736 25737 25735 AND\n2 1 25735 113870 113871 XOR\n2 1 96233 113871 25739 XOR\n2 1 94185 113871 25740 XOR\n2 1 113902 113871 92179 XOR\n2 1 25739 25740 25738 AND\n2 1 25738 113871 113872 XOR\n2 1 113903 113872 92180 XOR\n1 1 92180 25678 INV\n2 1 96234 113872 25742 XOR\n2 1 76071 113936 25838 XOR\n2 1 25838 25839 25837 AND\n2 1 25837 113936 113937 XOR\n2 1 76072 113937 25841 XOR\n2 1 113968 113937 94189 XOR\n2 1 96237 94189 113906 XOR\n2 1 2199 113937 25842 XOR\n2 1 25841 25842 25840 AND\n2 1 25840 113937 113938 XOR\n2 1 2200 113938 25845 XOR\n2 1 113969 113938 94190 XOR\n2 1 96238 94190 113907 XOR\n2 1 76073 113938 25844 XOR\n2 1 25844 25845 25843 AND\n2 1 25843 113938 113939 XOR\n",
"2 1 2201 113939 25848 XOR\n2 1 76074 113939 25847 XOR\n2 1 25847 25848 25846 AND\n2 1 25846 113939 113940 XOR\n2 1 113971 113940 94192 XOR\n2 1 96240 94192 113909 XOR\n2 1 76075 113940 25850 XOR\n2 1 2202 113940 25851 XOR\n2 1 25850 25851 25849 AND\n2 1 25849 113940 113941 XOR\n2 1 113972 113941 94193 XOR\n2 1 96241 94193 113910 XOR\n2 1 76076 113941 25853 XOR\n2 1 2203 113941 25854 XOR\n2 1 25853 25854 25852 AND\n2 1 25852 113941 113942 XOR\n2 1 113973 113942 94194 XOR\n2 1 96242 94194 113911 XOR\n2 1 76077 113942 25856 XOR\n2 1 2204 113942 25857 XOR\n2 1 25856 25857 25855 AND\n2 1 25855 113942 113943 XOR\n2 1 113974 113943 94195 XOR\n2 1 96243 94195 113912 XOR\n2 1 76078 113943 25859 XOR\n2 1 2205 113943 25860 XOR\n2 1 25859 25860 25858 AND\n2 1 25858 113943 113944 XOR\n2 1 113975 113944 94196 XOR\n2 1 96244 94196 113913 XOR\n2 1 76079 113944 25862 XOR\n2 1 2206 113944 25863 XOR\n2 1 25862 25863 25861 AND\n2 1 25861 113944 113945 XOR\n2 1 113976 113945 94197 XOR\n2 1 96245 94197 113914 XOR\n2 1 113970 113939 94191 XOR\n2 1 96239 94191 113908 XOR\n2 1 1549 1554 61238 XOR\n2 1 61238 1536 100285 XOR\n2 1 100285 98237 113752 XOR\n2 1 94186 113872 25743 XOR\n2 1 25742 25743 25741 AND\n2 1 25741 113872 113873 XOR\n2 1 113904 113873 92181 XOR\n2 1 96235 113873 25745 XOR\n2 1 94187 113873 25746 XOR\n2 1 25745 25746 25744 AND\n2 1 25744 113873 113874 XOR\n2 1 96236 113874 25748 XOR\n2 1 113905 113874 92182 XOR\n2 1 94188 113874 25749 XOR\n2 1 25748 25749 25747 AND\n2 1 25747 113874 113875 XOR\n2 1 96237 113875 25751 XOR\n2 1 94189 113875 25752 XOR\n2 1 25751 25752 25750 AND\n2 1 113906 113875 92183 XOR\n1 1 92181 25679 INV\n2 1 25750 113875 113876 XOR\n2 1 96238 113876 25754 XOR\n2 1 94190 113876 25755 XOR\n2 1 25754 25755 25753 AND\n2 1 113907 113876 92184 XOR\n2 1 25753 113876 113877 XOR\n2 1 94191 113877 25758 XOR\n2 1 113908 113877 92185 XOR\n1 1 92185 25680 INV\n2 1 96239 113877 25757 XOR\n2 1 25757 25758 25756 AND\n2 1 25756 113877 113878 XOR\n2 1 113909 113878 92186 XOR\n1 1 92186 25681 INV\n2 1 96240 113878 25760 XOR\n2 1 94192 113878 25761 XOR\n2 1 25760 25761 25759 AND\n2 1 25759 113878 113879 XOR\n2 1 94193 113879 25764 XOR\n2 1 113910 113879 92187 XOR\n2 1 96241 113879 25763 XOR\n2 1 25763 25764 25762 AND\n2 1 25762 113879 113880 XOR\n2 1 113911 113880 92188 XOR\n1 1 92188 25683 INV\n2 1 96242 113880 25766 XOR\n2 1 94194 113880 25767 XOR\n2 1 25766 25767 25765 AND\n1 1 92187 25682 INV\n2 1 10438 10439 10437 AND\n2 1 10437 104221 104222 XOR\n2 1 84004 104222 10442 XOR\n2 1 92179 25642 90148 XOR\n2 1 90148 104160 10352 XOR\n2 1 10351 10352 10350 AND\n2 1 90148 84004 104253 XOR\n2 1 10350 104160 104161 XOR\n2 1 90148 104222 10441 XOR\n2 1 10441 10442 10440 AND\n2 1 104253 104222 1107 XOR\n2 1 1107 1171 70082 XOR\n2 1 70082 70050 70018 AND\n2 1 70018 1171 86020 XOR\n2 1 1107 1139 69954 XOR\n2 1 1096 1107 67157 XOR\n2 1 10440 104222 104223 XOR\n2 1 84005 104223 10445 XOR\n2 1 1684 104161 10354 XOR\n2 1 90148 25642 25641 AND\n2 1 25641 25642 113846 XOR\n1 1 113846 25645 INV\n2 1 25678 113846 90149 XOR\n2 1 90149 104223 10444 XOR\n2 1 92180 113846 25644 XOR\n2 1 25644 25645 25643 AND\n2 1 90149 104161 10355 XOR\n2 1 25643 113846 113847 XOR\n1 1 113847 25648 INV\n2 1 25679 113847 90150 XOR\n2 1 10444 10445 10443 AND\n2 1 10443 104223 104224 XOR\n2 1 90150 104224 10447 XOR\n2 1 1684 90149 104192 XOR\n2 1 104192 104161 1556 XOR\n2 1 63715 1556 63683 AND\n2 1 63683 1620 98250 XOR\n2 1 1556 1588 63651 XOR\n2 1 84006 104224 10448 XOR\n2 1 10447 10448 10446 AND\n",
"2 1 10446 104224 104225 XOR\n2 1 84007 104225 10451 XOR\n2 1 92181 113847 25647 XOR\n2 1 25647 25648 25646 AND\n2 1 25646 113847 25650 XOR\n2 1 92182 25650 90151 XOR\n2 1 90151 25650 25649 AND\n2 1 90151 104225 10450 XOR\n2 1 90151 84007 104256 XOR\n2 1 104256 104225 1110 XOR\n2 1 1110 1174 70085 XOR\n2 1 70085 70053 70021 AND\n2 1 70021 1174 86023 XOR\n2 1 1110 1142 69957 XOR\n2 1 1110 1089 67171 XOR\n2 1 1099 1110 67160 XOR\n2 1 67171 1098 88069 XOR\n2 1 67151 1110 88049 XOR\n2 1 88049 86001 83953 XOR\n2 1 88049 86001 113529 AND\n2 1 10450 10451 10449 AND\n2 1 10449 104225 104226 XOR\n2 1 25649 25650 25652 XOR\n2 1 10354 10355 10353 AND\n2 1 1551 1556 61240 XOR\n2 1 61258 1556 100305 XOR\n2 1 61240 1538 100287 XOR\n2 1 86002 113529 25060 XOR\n2 1 92183 25652 90152 XOR\n2 1 90152 25652 25651 AND\n2 1 25651 25652 25654 XOR\n2 1 92184 25654 90153 XOR\n2 1 90153 84009 104258 XOR\n2 1 1688 90153 104196 XOR\n2 1 90153 25654 25653 AND\n2 1 25653 25654 113848 XOR\n1 1 113848 25657 INV\n2 1 25680 113848 90154 XOR\n2 1 1689 90154 104197 XOR\n2 1 90154 84010 104259 XOR\n2 1 92185 113848 25656 XOR\n2 1 25656 25657 25655 AND\n2 1 25655 113848 113849 XOR\n2 1 25681 113849 90155 XOR\n2 1 1690 90155 104198 XOR\n1 1 113849 25660 INV\n2 1 92186 113849 25659 XOR\n2 1 25659 25660 25658 AND\n2 1 25658 113849 113850 XOR\n2 1 25682 113850 90156 XOR\n2 1 90156 84012 104261 XOR\n1 1 113850 25663 INV\n2 1 1691 90156 104199 XOR\n2 1 92187 113850 25662 XOR\n2 1 25662 25663 25661 AND\n2 1 25661 113850 113851 XOR\n2 1 25683 113851 90157 XOR\n2 1 1692 90157 104200 XOR\n2 1 90157 84013 104262 XOR\n2 1 90155 84011 104260 XOR\n2 1 90152 104226 10453 XOR\n2 1 90152 84008 104257 XOR\n2 1 104257 104226 1111 XOR\n2 1 1111 1175 70086 XOR\n2 1 70086 70054 70022 AND\n2 1 70022 1175 86024 XOR\n2 1 1111 1143 69958 XOR\n2 1 1111 1090 67172 XOR\n2 1 1100 1111 67161 XOR\n2 1 67172 1099 88070 XOR\n2 1 67161 1088 88059 XOR\n2 1 88059 86011 113569 XOR\n2 1 67152 1111 88050 XOR\n2 1 88050 86002 113560 XOR\n2 1 113560 113529 83954 XOR\n2 1 1687 90152 104195 XOR\n2 1 88050 113529 25059 XOR\n2 1 25059 25060 25058 AND\n2 1 25058 113529 113530 XOR\n2 1 86003 113530 25063 XOR\n2 1 90149 84005 104254 XOR\n2 1 104254 104223 1108 XOR\n2 1 1108 1172 70083 XOR\n2 1 70083 70051 70019 AND\n2 1 70019 1172 86021 XOR\n2 1 88069 86021 113579 XOR\n2 1 1108 1140 69955 XOR\n2 1 1097 1108 67158 XOR\n2 1 67181 1108 88079 XOR\n2 1 90150 84006 104255 XOR\n2 1 104255 104224 1109 XOR\n2 1 1109 1173 70084 XOR\n2 1 70084 70052 70020 AND\n2 1 70020 1173 86022 XOR\n2 1 1109 1141 69956 XOR\n2 1 1109 1088 67170 XOR\n2 1 1098 1109 67159 XOR\n2 1 67182 1109 88080 XOR\n2 1 67170 1097 88068 XOR\n2 1 88068 86020 113578 XOR\n2 1 88070 86022 113580 XOR\n2 1 1686 90151 104194 XOR\n2 1 1685 90150 104193 XOR\n2 1 100287 98239 113754 XOR\n2 1 92188 113851 25665 XOR\n2 1 84008 104226 10454 XOR\n2 1 10453 10454 10452 AND\n2 1 25765 113880 113881 XOR\n2 1 96243 113881 25769 XOR\n2 1 113912 113881 92189 XOR\n2 1 94195 113881 25770 XOR\n2 1 25769 25770 25768 AND\n2 1 25768 113881 113882 XOR\n2 1 113913 113882 92190 XOR\n2 1 94196 113882 25773 XOR\n2 1 96244 113882 25772 XOR\n2 1 25772 25773 25771 AND\n2 1 25771 113882 113883 XOR\n2 1 113914 113883 92191 XOR\n2 1 10353 104161 104162 XOR\n2 1 90150 104162 10358 XOR\n2 1 1685 104162 10357 XOR\n2 1 10357 10358 10356 AND\n2 1 10356 104162 104163 XOR\n2 1 90151 104163 10361 XOR\n2 1 1686 104163 10360 XOR\n2 1 10360 10361 10359 AND\n2 1 10359 104163 104164 XOR\n",
"2 1 104195 104164 1559 XOR\n2 1 104194 104163 1558 XOR\n2 1 104193 104162 1557 XOR\n2 1 90152 104164 10364 XOR\n2 1 1687 104164 10363 XOR\n2 1 10363 10364 10362 AND\n2 1 63718 1559 63686 AND\n2 1 63717 1558 63685 AND\n2 1 63716 1557 63684 AND\n2 1 63686 1623 98253 XOR\n2 1 63685 1622 98252 XOR\n2 1 63684 1621 98251 XOR\n2 1 1559 1591 63654 XOR\n2 1 1558 1590 63653 XOR\n2 1 1557 1589 63652 XOR\n2 1 10362 104164 104165 XOR\n2 1 1688 104165 10366 XOR\n2 1 90153 104165 10367 XOR\n2 1 10366 10367 10365 AND\n2 1 10365 104165 104166 XOR\n2 1 1689 104166 10369 XOR\n2 1 90154 104166 10370 XOR\n2 1 10369 10370 10368 AND\n2 1 10368 104166 104167 XOR\n2 1 1690 104167 10372 XOR\n2 1 90155 104167 10373 XOR\n2 1 104197 104166 1561 XOR\n2 1 63720 1561 63688 AND\n2 1 63688 1625 98255 XOR\n2 1 1561 1593 63656 XOR\n2 1 10372 10373 10371 AND\n2 1 10371 104167 104168 XOR\n2 1 90156 104168 10376 XOR\n2 1 104199 104168 1563 XOR\n2 1 1691 104168 10375 XOR\n2 1 63722 1563 63690 AND\n2 1 63690 1627 98257 XOR\n2 1 100305 98257 113772 XOR\n2 1 1563 1595 63658 XOR\n2 1 10375 10376 10374 AND\n2 1 10374 104168 104169 XOR\n2 1 1692 104169 10378 XOR\n2 1 104200 104169 1564 XOR\n2 1 90157 104169 10379 XOR\n2 1 10378 10379 10377 AND\n2 1 10377 104169 104170 XOR\n2 1 1693 104170 10381 XOR\n2 1 63723 1564 63691 AND\n2 1 63691 1628 98258 XOR\n2 1 1564 1596 63659 XOR\n2 1 1564 1537 61253 XOR\n2 1 1563 1536 61252 XOR\n2 1 1559 1564 61248 XOR\n2 1 1558 1563 61247 XOR\n2 1 1556 1561 61245 XOR\n2 1 1554 1559 61243 XOR\n2 1 1553 1558 61242 XOR\n2 1 1552 1557 61241 XOR\n2 1 61261 1559 100308 XOR\n2 1 61260 1558 100307 XOR\n2 1 61259 1557 100306 XOR\n2 1 100306 98258 113773 XOR\n2 1 61253 1551 100300 XOR\n2 1 100300 98252 113767 XOR\n2 1 61252 1550 100299 XOR\n2 1 100299 98251 113766 XOR\n2 1 61248 1546 100295 XOR\n2 1 100295 98247 113762 XOR\n2 1 61247 1545 100294 XOR\n2 1 100294 98246 113761 XOR\n2 1 61245 1543 100292 XOR\n2 1 100292 98244 113759 XOR\n2 1 61243 1541 100290 XOR\n2 1 100290 98242 113757 XOR\n2 1 61242 1540 100289 XOR\n2 1 61241 1539 100288 XOR\n2 1 100288 98240 113755 XOR\n2 1 61234 1564 100281 XOR\n2 1 100281 98233 113748 XOR\n2 1 61233 1563 100280 XOR\n2 1 100280 98232 113747 XOR\n2 1 61231 1561 100278 XOR\n2 1 100278 98230 96182 XOR\n2 1 100278 98230 113715 AND\n2 1 98231 113715 25427 XOR\n2 1 100289 98241 113756 XOR\n2 1 104196 104165 1560 XOR\n2 1 63719 1560 63687 AND\n2 1 63687 1624 98254 XOR\n2 1 1560 1592 63655 XOR\n2 1 61262 1560 100309 XOR\n2 1 104198 104167 1562 XOR\n2 1 63721 1562 63689 AND\n2 1 63689 1626 98256 XOR\n2 1 1562 1594 63657 XOR\n2 1 1557 1562 61246 XOR\n2 1 61246 1544 100293 XOR\n2 1 100293 98245 113760 XOR\n2 1 61232 1562 100279 XOR\n2 1 100279 113715 25426 XOR\n2 1 25426 25427 25425 AND\n2 1 100279 98231 113746 XOR\n2 1 25425 113715 113716 XOR\n2 1 98232 113716 25430 XOR\n2 1 113746 113715 96183 XOR\n2 1 113747 113716 96184 XOR\n2 1 100280 113716 25429 XOR\n2 1 25429 25430 25428 AND\n2 1 25428 113716 113717 XOR\n2 1 113748 113717 96185 XOR\n2 1 100281 113717 25432 XOR\n2 1 98233 113717 25433 XOR\n2 1 25432 25433 25431 AND\n2 1 25431 113717 113718 XOR\n2 1 98234 113718 25436 XOR\n2 1 10452 104226 104227 XOR\n2 1 104258 104227 1112 XOR\n2 1 1112 1176 70087 XOR\n2 1 70087 70055 70023 AND\n2 1 70023 1176 86025 XOR\n2 1 1112 1144 69959 XOR\n2 1 1112 1091 67173 XOR\n2 1 1101 1112 67162 XOR\n2 1 67173 1100 88071 XOR\n2 1 88071 86023 113581 XOR\n2 1 67162 1089 88060 XOR\n2 1 88060 86012 113570 XOR\n2 1 67153 1112 88051 XOR\n",
"2 1 88051 86003 113561 XOR\n2 1 84009 104227 10457 XOR\n2 1 113561 113530 83955 XOR\n2 1 88051 113530 25062 XOR\n2 1 25062 25063 25061 AND\n2 1 25061 113530 113531 XOR\n2 1 86004 113531 25066 XOR\n2 1 90153 104227 10456 XOR\n2 1 1683 90148 104191 XOR\n2 1 104191 104160 1555 XOR\n2 1 63714 1555 63682 AND\n2 1 63682 1619 98249 XOR\n2 1 1555 1587 63650 XOR\n2 1 1555 1560 61244 XOR\n2 1 1550 1555 61239 XOR\n2 1 61257 1555 100304 XOR\n2 1 100304 98256 113771 XOR\n2 1 61244 1542 100291 XOR\n2 1 100291 98243 113758 XOR\n2 1 61239 1537 100286 XOR\n2 1 100286 98238 113753 XOR\n1 1 113851 25666 INV\n2 1 25665 25666 25664 AND\n2 1 25664 113851 25668 XOR\n2 1 92189 25668 90158 XOR\n2 1 1693 90158 104201 XOR\n2 1 90158 104170 10382 XOR\n2 1 90158 25668 25667 AND\n2 1 25667 25668 25670 XOR\n2 1 10381 10382 10380 AND\n2 1 10380 104170 104171 XOR\n2 1 1694 104171 10384 XOR\n2 1 92190 25670 90159 XOR\n2 1 90159 25670 25669 AND\n2 1 25669 25670 113852 XOR\n2 1 92191 113852 90160 XOR\n2 1 90160 84016 104265 XOR\n2 1 1695 90160 104203 XOR\n2 1 90159 84015 104264 XOR\n2 1 90159 104171 10385 XOR\n2 1 10384 10385 10383 AND\n2 1 10383 104171 104172 XOR\n2 1 104203 104172 1567 XOR\n2 1 1694 90159 104202 XOR\n2 1 104202 104171 1566 XOR\n2 1 63726 1567 63694 AND\n2 1 63725 1566 63693 AND\n2 1 63694 1631 98261 XOR\n2 1 100309 98261 113776 XOR\n2 1 63693 1630 98260 XOR\n2 1 100308 98260 113775 XOR\n2 1 1567 1599 63662 XOR\n2 1 1566 1598 63661 XOR\n2 1 1567 1540 61256 XOR\n2 1 1566 1539 61255 XOR\n2 1 1562 1567 61251 XOR\n2 1 1561 1566 61250 XOR\n2 1 61256 1554 100303 XOR\n2 1 100303 98255 113770 XOR\n2 1 61255 1553 100302 XOR\n2 1 100302 98254 113769 XOR\n2 1 61251 1549 100298 XOR\n2 1 100298 98250 113765 XOR\n2 1 61250 1548 100297 XOR\n2 1 100297 98249 113764 XOR\n2 1 61237 1567 100284 XOR\n2 1 100284 98236 113751 XOR\n2 1 61236 1566 100283 XOR\n2 1 100283 98235 113750 XOR\n2 1 104201 104170 1565 XOR\n2 1 63724 1565 63692 AND\n2 1 63692 1629 98259 XOR\n2 1 100307 98259 113774 XOR\n2 1 1565 1597 63660 XOR\n2 1 1565 1538 61254 XOR\n2 1 1560 1565 61249 XOR\n2 1 61254 1552 100301 XOR\n2 1 100301 98253 113768 XOR\n2 1 61249 1547 100296 XOR\n2 1 100296 98248 113763 XOR\n2 1 61235 1565 100282 XOR\n2 1 100282 113718 25435 XOR\n2 1 25435 25436 25434 AND\n2 1 25434 113718 113719 XOR\n2 1 113750 113719 96187 XOR\n2 1 98235 113719 25439 XOR\n2 1 100283 113719 25438 XOR\n2 1 25438 25439 25437 AND\n2 1 25437 113719 113720 XOR\n2 1 113751 113720 96188 XOR\n2 1 100282 98234 113749 XOR\n2 1 98236 113720 25442 XOR\n2 1 100284 113720 25441 XOR\n2 1 25441 25442 25440 AND\n2 1 25440 113720 113721 XOR\n2 1 100285 113721 25444 XOR\n2 1 113752 113721 96189 XOR\n2 1 113749 113718 96186 XOR\n2 1 90158 84014 104263 XOR\n2 1 98237 113721 25445 XOR\n2 1 25444 25445 25443 AND\n2 1 25443 113721 113722 XOR\n2 1 100286 113722 25447 XOR\n2 1 98238 113722 25448 XOR\n2 1 25447 25448 25446 AND\n2 1 25446 113722 113723 XOR\n2 1 113753 113722 96190 XOR\n2 1 98239 113723 25451 XOR\n2 1 113754 113723 96191 XOR\n2 1 100287 113723 25450 XOR\n2 1 25450 25451 25449 AND\n2 1 25449 113723 113724 XOR\n2 1 100288 113724 25453 XOR\n2 1 113755 113724 96192 XOR\n2 1 98240 113724 25454 XOR\n2 1 25453 25454 25452 AND\n2 1 25452 113724 113725 XOR\n2 1 98241 113725 25457 XOR\n2 1 100289 113725 25456 XOR\n2 1 25456 25457 25455 AND\n2 1 113756 113725 96193 XOR\n2 1 25455 113725 113726 XOR\n2 1 113757 113726 96194 XOR\n2 1 98242 113726 25460 XOR\n2 1 100290 113726 25459 XOR\n2 1 25459 25460 25458 AND\n2 1 25458 113726 113727 XOR\n2 1 113758 113727 96195 XOR\n",
"2 1 100291 113727 25462 XOR\n2 1 98243 113727 25463 XOR\n2 1 25462 25463 25461 AND\n2 1 25461 113727 113728 XOR\n2 1 100292 113728 25465 XOR\n2 1 113759 113728 96196 XOR\n2 1 98244 113728 25466 XOR\n2 1 25465 25466 25464 AND\n2 1 25464 113728 113729 XOR\n2 1 100293 113729 25468 XOR\n2 1 98245 113729 25469 XOR\n2 1 25468 25469 25467 AND\n2 1 25467 113729 113730 XOR\n2 1 113761 113730 96198 XOR\n2 1 100294 113730 25471 XOR\n2 1 113760 113729 96197 XOR\n2 1 10456 10457 10455 AND\n2 1 10455 104227 104228 XOR\n2 1 90154 104228 10459 XOR\n2 1 104259 104228 1113 XOR\n2 1 84010 104228 10460 XOR\n2 1 10459 10460 10458 AND\n2 1 10458 104228 104229 XOR\n2 1 104260 104229 1114 XOR\n2 1 1114 1178 70089 XOR\n2 1 1113 1177 70088 XOR\n2 1 70089 70057 70025 AND\n2 1 70088 70056 70024 AND\n2 1 70025 1178 86027 XOR\n2 1 70024 1177 86026 XOR\n2 1 1114 1146 69961 XOR\n2 1 1113 1145 69960 XOR\n2 1 84011 104229 10463 XOR\n2 1 90155 104229 10462 XOR\n2 1 10462 10463 10461 AND\n2 1 1114 1093 67175 XOR\n2 1 1113 1092 67174 XOR\n2 1 1103 1114 67164 XOR\n2 1 1102 1113 67163 XOR\n2 1 67175 1102 88073 XOR\n2 1 88073 86025 113583 XOR\n2 1 67174 1101 88072 XOR\n2 1 67164 1091 88062 XOR\n2 1 88062 86014 113572 XOR\n2 1 67163 1090 88061 XOR\n2 1 88061 86013 113571 XOR\n2 1 67155 1114 88053 XOR\n2 1 88053 86005 113563 XOR\n2 1 67154 1113 88052 XOR\n2 1 88052 86004 113562 XOR\n2 1 10461 104229 104230 XOR\n2 1 104261 104230 1115 XOR\n2 1 1115 1179 70090 XOR\n2 1 70090 70058 70026 AND\n2 1 70026 1179 86028 XOR\n2 1 1115 1147 69962 XOR\n2 1 1115 1094 67176 XOR\n2 1 1104 1115 67165 XOR\n2 1 67176 1103 88074 XOR\n2 1 67165 1092 88063 XOR\n2 1 67156 1115 88054 XOR\n2 1 88054 86006 113564 XOR\n2 1 88063 86015 113573 XOR\n2 1 90156 104230 10465 XOR\n2 1 84012 104230 10466 XOR\n2 1 10465 10466 10464 AND\n2 1 88072 86024 113582 XOR\n2 1 88074 86026 113584 XOR\n2 1 113562 113531 83956 XOR\n2 1 88052 113531 25065 XOR\n2 1 25065 25066 25064 AND\n2 1 25064 113531 113532 XOR\n2 1 113563 113532 83957 XOR\n2 1 88053 113532 25068 XOR\n2 1 86005 113532 25069 XOR\n2 1 25068 25069 25067 AND\n2 1 25067 113532 113533 XOR\n2 1 113564 113533 83958 XOR\n2 1 88054 113533 25071 XOR\n2 1 86006 113533 25072 XOR\n2 1 25071 25072 25070 AND\n2 1 25070 113533 113534 XOR\n2 1 86007 113534 25075 XOR\n2 1 10464 104230 104231 XOR\n2 1 104262 104231 1116 XOR\n2 1 1116 1180 70091 XOR\n2 1 70091 70059 70027 AND\n2 1 70027 1180 86029 XOR\n2 1 1116 1148 69963 XOR\n2 1 1116 1095 67177 XOR\n2 1 1105 1116 67166 XOR\n2 1 67177 1104 88075 XOR\n2 1 88075 86027 113585 XOR\n2 1 67166 1093 88064 XOR\n2 1 67157 1116 88055 XOR\n2 1 88055 113534 25074 XOR\n2 1 88055 86007 113565 XOR\n2 1 84013 104231 10469 XOR\n2 1 88064 86016 113574 XOR\n2 1 113565 113534 83959 XOR\n2 1 25074 25075 25073 AND\n2 1 25073 113534 113535 XOR\n2 1 86008 113535 25078 XOR\n2 1 90157 104231 10468 XOR\n2 1 10468 10469 10467 AND\n2 1 10467 104231 104232 XOR\n2 1 90158 104232 10471 XOR\n2 1 104263 104232 1117 XOR\n2 1 1117 1181 70092 XOR\n2 1 70092 70060 70028 AND\n2 1 70028 1181 86030 XOR\n2 1 1117 1149 69964 XOR\n2 1 84014 104232 10472 XOR\n2 1 1117 1096 67178 XOR\n2 1 1106 1117 67167 XOR\n2 1 67178 1105 88076 XOR\n2 1 67167 1094 88065 XOR\n2 1 88065 86017 113575 XOR\n2 1 67158 1117 88056 XOR\n2 1 88056 86008 113566 XOR\n2 1 113566 113535 83960 XOR\n2 1 88076 86028 113586 XOR\n2 1 88056 113535 25077 XOR\n2 1 25077 25078 25076 AND\n2 1 25076 113535 113536 XOR\n2 1 86009 113536 25081 XOR\n2 1 10471 10472 10470 AND\n2 1 10470 104232 104233 XOR\n",
"2 1 90159 104233 10474 XOR\n2 1 84015 104233 10475 XOR\n2 1 10474 10475 10473 AND\n2 1 104264 104233 1118 XOR\n2 1 1118 1182 70093 XOR\n2 1 70093 70061 70029 AND\n2 1 70029 1182 86031 XOR\n2 1 88079 86031 113589 XOR\n2 1 1118 1150 69965 XOR\n2 1 1118 1097 67179 XOR\n2 1 1107 1118 67168 XOR\n2 1 67179 1106 88077 XOR\n2 1 88077 86029 113587 XOR\n2 1 67168 1095 88066 XOR\n2 1 67159 1118 88057 XOR\n2 1 88057 113536 25080 XOR\n2 1 88057 86009 113567 XOR\n2 1 88066 86018 113576 XOR\n2 1 113567 113536 83961 XOR\n2 1 25080 25081 25079 AND\n2 1 25079 113536 113537 XOR\n2 1 86010 113537 25084 XOR\n2 1 10473 104233 104234 XOR\n2 1 104265 104234 1119 XOR\n2 1 1119 1183 70094 XOR\n2 1 70094 70062 70030 AND\n2 1 70030 1183 86032 XOR\n2 1 1119 1151 69966 XOR\n2 1 1119 1098 67180 XOR\n2 1 1108 1119 67169 XOR\n2 1 67180 1107 88078 XOR\n2 1 67169 1096 88067 XOR\n2 1 88067 86019 113577 XOR\n2 1 67160 1119 88058 XOR\n2 1 88058 86010 113568 XOR\n2 1 113568 113537 83962 XOR\n2 1 88078 86030 113588 XOR\n2 1 88080 86032 113590 XOR\n2 1 88058 113537 25083 XOR\n2 1 25083 25084 25082 AND\n2 1 25082 113537 113538 XOR\n2 1 88059 113538 25086 XOR\n2 1 113569 113538 83963 XOR\n2 1 86011 113538 25087 XOR\n2 1 25086 25087 25085 AND\n2 1 25085 113538 113539 XOR\n2 1 86012 113539 25090 XOR\n2 1 113570 113539 83964 XOR\n2 1 88060 113539 25089 XOR\n2 1 25089 25090 25088 AND\n2 1 25088 113539 113540 XOR\n2 1 88061 113540 25092 XOR\n2 1 113571 113540 83965 XOR\n2 1 86013 113540 25093 XOR\n2 1 25092 25093 25091 AND\n2 1 25091 113540 113541 XOR\n2 1 86014 113541 25096 XOR\n2 1 113572 113541 83966 XOR\n2 1 88062 113541 25095 XOR\n2 1 25095 25096 25094 AND\n2 1 25094 113541 113542 XOR\n2 1 88063 113542 25098 XOR\n2 1 86015 113542 25099 XOR\n2 1 113573 113542 83967 XOR\n2 1 25098 25099 25097 AND\n2 1 25097 113542 113543 XOR\n2 1 113574 113543 83968 XOR\n2 1 88064 113543 25101 XOR\n2 1 86016 113543 25102 XOR\n2 1 25101 25102 25100 AND\n2 1 25100 113543 113544 XOR\n2 1 86017 113544 25105 XOR\n2 1 88065 113544 25104 XOR\n2 1 25104 25105 25103 AND\n2 1 25103 113544 113545 XOR\n2 1 88066 113545 25107 XOR\n2 1 113576 113545 83970 XOR\n2 1 86018 113545 25108 XOR\n2 1 25107 25108 25106 AND\n2 1 25106 113545 113546 XOR\n2 1 86019 113546 25111 XOR\n2 1 88067 113546 25110 XOR\n2 1 25110 25111 25109 AND\n2 1 113577 113546 83971 XOR\n2 1 25109 113546 113547 XOR\n2 1 113578 113547 83972 XOR\n2 1 86020 113547 25114 XOR\n2 1 113575 113544 83969 XOR\n2 1 88068 113547 25113 XOR\n2 1 25113 25114 25112 AND\n2 1 25112 113547 113548 XOR\n2 1 86021 113548 25117 XOR\n2 1 88069 113548 25116 XOR\n2 1 25116 25117 25115 AND\n2 1 25115 113548 113549 XOR\n2 1 113580 113549 83974 XOR\n2 1 86022 113549 25120 XOR\n2 1 88070 113549 25119 XOR\n2 1 25119 25120 25118 AND\n2 1 25118 113549 113550 XOR\n2 1 113581 113550 83975 XOR\n2 1 88071 113550 25122 XOR\n2 1 113579 113548 83973 XOR\n2 1 86023 113550 25123 XOR\n2 1 25122 25123 25121 AND\n2 1 25121 113550 113551 XOR\n2 1 86024 113551 25126 XOR\n2 1 88072 113551 25125 XOR\n2 1 25125 25126 25124 AND\n2 1 25124 113551 113552 XOR\n2 1 113583 113552 83977 XOR\n2 1 86025 113552 25129 XOR\n2 1 113582 113551 83976 XOR\n2 1 88073 113552 25128 XOR\n2 1 25128 25129 25127 AND\n2 1 25127 113552 113553 XOR\n2 1 86026 113553 25132 XOR\n2 1 88074 113553 25131 XOR\n2 1 25131 25132 25130 AND\n2 1 113584 113553 83978 XOR\n2 1 25130 113553 113554 XOR\n2 1 113585 113554 83979 XOR\n2 1 86027 113554 25135 XOR\n2 1 88075 113554 25134 XOR\n2 1 25134 25135 25133 AND\n2 1 25133 113554 113555 XOR\n2 1 113586 113555 83980 XOR\n2 1 88076 113555 25137 XOR\n",
"2 1 86028 113555 25138 XOR\n2 1 25137 25138 25136 AND\n2 1 25136 113555 113556 XOR\n2 1 86029 113556 25141 XOR\n2 1 113587 113556 83981 XOR\n2 1 88077 113556 25140 XOR\n2 1 25140 25141 25139 AND\n2 1 25139 113556 113557 XOR\n2 1 86030 113557 25144 XOR\n2 1 88078 113557 25143 XOR\n2 1 25143 25144 25142 AND\n2 1 113588 113557 83982 XOR\n2 1 25142 113557 113558 XOR\n2 1 86031 113558 25147 XOR\n2 1 113589 113558 83983 XOR\n2 1 88079 113558 25146 XOR\n2 1 25146 25147 25145 AND\n2 1 25145 113558 113559 XOR\n2 1 113590 113559 83984 XOR\n2 1 98246 113730 25472 XOR\n2 1 25471 25472 25470 AND\n2 1 25470 113730 113731 XOR\n2 1 100295 113731 25474 XOR\n2 1 98247 113731 25475 XOR\n2 1 25474 25475 25473 AND\n2 1 25473 113731 113732 XOR\n2 1 98248 113732 25478 XOR\n2 1 100296 113732 25477 XOR\n2 1 25477 25478 25476 AND\n2 1 25476 113732 113733 XOR\n2 1 113764 113733 96201 XOR\n2 1 98249 113733 25481 XOR\n2 1 100297 113733 25480 XOR\n2 1 25480 25481 25479 AND\n2 1 25479 113733 113734 XOR\n2 1 113765 113734 96202 XOR\n2 1 113763 113732 96200 XOR\n2 1 98250 113734 25484 XOR\n2 1 113762 113731 96199 XOR\n2 1 100298 113734 25483 XOR\n2 1 25483 25484 25482 AND\n2 1 25482 113734 113735 XOR\n2 1 100299 113735 25486 XOR\n2 1 113766 113735 96203 XOR\n2 1 98251 113735 25487 XOR\n2 1 25486 25487 25485 AND\n2 1 25485 113735 113736 XOR\n2 1 100300 113736 25489 XOR\n2 1 98252 113736 25490 XOR\n2 1 25489 25490 25488 AND\n2 1 25488 113736 113737 XOR\n2 1 113768 113737 96205 XOR\n2 1 100301 113737 25492 XOR\n2 1 98253 113737 25493 XOR\n2 1 25492 25493 25491 AND\n2 1 25491 113737 113738 XOR\n2 1 98254 113738 25496 XOR\n2 1 100302 113738 25495 XOR\n2 1 25495 25496 25494 AND\n2 1 113769 113738 96206 XOR\n2 1 113767 113736 96204 XOR\n2 1 25494 113738 113739 XOR\n2 1 98255 113739 25499 XOR\n2 1 100303 113739 25498 XOR\n2 1 25498 25499 25497 AND\n2 1 113770 113739 96207 XOR\n2 1 25497 113739 113740 XOR\n2 1 113771 113740 96208 XOR\n2 1 98256 113740 25502 XOR\n2 1 100304 113740 25501 XOR\n2 1 25501 25502 25500 AND\n2 1 25500 113740 113741 XOR\n2 1 113772 113741 96209 XOR\n2 1 100305 113741 25504 XOR\n2 1 98257 113741 25505 XOR\n2 1 25504 25505 25503 AND\n2 1 25503 113741 113742 XOR\n2 1 100306 113742 25507 XOR\n2 1 113773 113742 96210 XOR\n2 1 98258 113742 25508 XOR\n2 1 25507 25508 25506 AND\n2 1 25506 113742 113743 XOR\n2 1 98259 113743 25511 XOR\n2 1 100307 113743 25510 XOR\n2 1 25510 25511 25509 AND\n2 1 25509 113743 113744 XOR\n2 1 113775 113744 96212 XOR\n2 1 100308 113744 25513 XOR\n2 1 98260 113744 25514 XOR\n2 1 25513 25514 25512 AND\n2 1 25512 113744 113745 XOR\n2 1 113776 113745 96213 XOR\n2 1 113774 113743 96211 XOR\n2 1 51381 51382 51380 AND\n2 1 51380 128770 128771 XOR\n2 1 80856 128771 51384 XOR\n2 1 76216 128771 51385 XOR\n2 1 51384 51385 51383 AND\n2 1 51383 128771 128772 XOR\n2 1 128803 128772 79321 XOR\n2 1 76217 128772 51388 XOR\n2 1 80857 128772 51387 XOR\n2 1 51387 51388 51386 AND\n2 1 51386 128772 128773 XOR\n2 1 128804 128773 79322 XOR\n2 1 128802 128771 79320 XOR\n2 1 80858 128773 51390 XOR\n2 1 76218 128773 51391 XOR\n2 1 51390 51391 51389 AND\n2 1 51389 128773 128774 XOR\n2 1 76219 128774 51394 XOR\n2 1 128805 128774 79323 XOR\n2 1 80859 128774 51393 XOR\n2 1 51393 51394 51392 AND\n2 1 51392 128774 128775 XOR\n2 1 128806 128775 79324 XOR\n2 1 76220 128775 51397 XOR\n2 1 80860 128775 51396 XOR\n2 1 51396 51397 51395 AND\n2 1 51395 128775 128776 XOR\n2 1 80861 128776 51399 XOR\n2 1 128807 128776 79325 XOR\n2 1 76221 128776 51400 XOR\n2 1 51399 51400 51398 AND\n2 1 51398 128776 128777 XOR\n2 1 128808 128777 79326 XOR\n2 1 76222 128777 51403 XOR\n2 1 80862 128777 51402 XOR\n",
"2 1 51402 51403 51401 AND\n2 1 51401 128777 128778 XOR\n2 1 80863 128778 51405 XOR\n2 1 76223 128778 51406 XOR\n2 1 51405 51406 51404 AND\n2 1 51404 128778 128779 XOR\n2 1 80864 128779 51408 XOR\n2 1 76224 128779 51409 XOR\n2 1 128810 128779 79328 XOR\n2 1 51408 51409 51407 AND\n2 1 51407 128779 128780 XOR\n2 1 76225 128780 51412 XOR\n2 1 128811 128780 79329 XOR\n2 1 128809 128778 79327 XOR\n2 1 80865 128780 51411 XOR\n2 1 51411 51412 51410 AND\n2 1 51410 128780 128781 XOR\n2 1 128812 128781 79330 XOR\n2 1 80866 128781 51414 XOR\n2 1 76226 128781 51415 XOR\n2 1 51414 51415 51413 AND\n2 1 51413 128781 128782 XOR\n2 1 80867 128782 51417 XOR\n2 1 76227 128782 51418 XOR\n2 1 51417 51418 51416 AND\n2 1 51416 128782 128783 XOR\n2 1 80868 128783 51420 XOR\n2 1 128814 128783 79332 XOR\n2 1 128813 128782 79331 XOR\n2 1 76228 128783 51421 XOR\n2 1 51420 51421 51419 AND\n2 1 51419 128783 128784 XOR\n2 1 76229 128784 51424 XOR\n2 1 80869 128784 51423 XOR\n2 1 128815 128784 79333 XOR\n2 1 51423 51424 51422 AND\n2 1 51422 128784 128785 XOR\n2 1 128816 128785 79334 XOR\n2 1 76230 128785 51427 XOR\n2 1 80870 128785 51426 XOR\n2 1 51426 51427 51425 AND\n2 1 51425 128785 128786 XOR\n2 1 128817 128786 79335 XOR\n2 1 80871 128786 51429 XOR\n2 1 76231 128786 51430 XOR\n2 1 51429 51430 51428 AND\n2 1 51428 128786 128787 XOR\n2 1 76232 128787 51433 XOR\n2 1 80872 128787 51432 XOR\n2 1 51432 51433 51431 AND\n2 1 51431 128787 128788 XOR\n2 1 80873 128788 51435 XOR\n2 1 76233 128788 51436 XOR\n2 1 51435 51436 51434 AND\n2 1 128819 128788 79337 XOR\n2 1 128818 128787 79336 XOR\n2 1 51434 128788 128789 XOR\n2 1 128820 128789 79338 XOR\n2 1 80874 128789 51438 XOR\n2 1 76234 128789 51439 XOR\n2 1 51438 51439 51437 AND\n2 1 51437 128789 128790 XOR\n2 1 128821 128790 79339 XOR\n2 1 80875 128790 51441 XOR\n2 1 76235 128790 51442 XOR\n2 1 51441 51442 51440 AND\n2 1 51440 128790 128791 XOR\n2 1 80876 128791 51444 XOR\n2 1 128822 128791 79340 XOR\n2 1 76236 128791 51445 XOR\n2 1 51444 51445 51443 AND\n2 1 51443 128791 128792 XOR\n2 1 80877 128792 51447 XOR\n2 1 76237 128792 51448 XOR\n2 1 128823 128792 79341 XOR\n2 1 51447 51448 51446 AND\n2 1 51446 128792 128793 XOR\n2 1 80878 128793 51450 XOR\n2 1 76238 128793 51451 XOR\n2 1 51450 51451 51449 AND\n2 1 51449 128793 128794 XOR\n2 1 128825 128794 79343 XOR\n2 1 76239 128794 51454 XOR\n2 1 80879 128794 51453 XOR\n2 1 51453 51454 51452 AND\n2 1 51452 128794 128795 XOR\n2 1 128826 128795 79344 XOR\n2 1 128824 128793 79342 XOR\n2 1 76503 76514 82448 XOR\n2 1 82448 76560 128950 XOR\n2 1 76502 76513 82447 XOR\n2 1 82447 76559 128949 XOR\n2 1 76501 76512 82446 XOR\n2 1 82446 76558 128948 XOR\n2 1 76500 76511 5154 XOR\n2 1 76499 76510 5153 XOR\n2 1 76498 76509 5152 XOR\n2 1 76497 76508 5151 XOR\n2 1 76528 76507 5150 XOR\n2 1 76527 76506 5149 XOR\n2 1 76526 76505 5148 XOR\n2 1 76525 76504 5147 XOR\n2 1 76524 76503 5146 XOR\n2 1 76523 76502 5145 XOR\n2 1 76522 76501 5144 XOR\n2 1 76521 76500 5143 XOR\n2 1 76520 76499 5142 XOR\n2 1 76519 76498 5141 XOR\n2 1 76518 76497 5140 XOR\n2 1 76517 76528 5139 XOR\n2 1 76516 76527 5138 XOR\n2 1 76515 76526 5137 XOR\n2 1 76514 76525 5136 XOR\n2 1 76513 76524 5135 XOR\n2 1 76512 76523 5134 XOR\n2 1 76511 76522 5133 XOR\n2 1 76510 76521 5132 XOR\n2 1 76509 76520 5131 XOR\n2 1 76508 76519 5130 XOR\n2 1 76507 76518 5129 XOR\n2 1 76506 76517 5128 XOR\n2 1 76505 76516 5127 XOR\n2 1 76504 76515 5126 XOR\n2 1 5154 76528 82445 XOR\n2 1 82445 76557 128947 XOR\n2 1 5153 76527 82444 XOR\n2 1 82444 76556 128946 XOR\n2 1 5152 76526 82443 XOR\n",
"2 1 82443 76555 128945 XOR\n2 1 5151 76525 82442 XOR\n2 1 82442 76554 128944 XOR\n2 1 5150 76524 82441 XOR\n2 1 82441 76553 128943 XOR\n2 1 5149 76523 82440 XOR\n2 1 82440 76552 128942 XOR\n2 1 5148 76522 82439 XOR\n2 1 82439 76551 128941 XOR\n2 1 5147 76521 82438 XOR\n2 1 82438 76550 128940 XOR\n2 1 5146 76520 82437 XOR\n2 1 82437 76549 128939 XOR\n2 1 5145 76519 82436 XOR\n2 1 82436 76548 128938 XOR\n2 1 5144 76518 82435 XOR\n2 1 82435 76547 128937 XOR\n2 1 5143 76517 82434 XOR\n2 1 82434 76546 128936 XOR\n2 1 5142 76516 82433 XOR\n2 1 82433 76545 128935 XOR\n2 1 5141 76515 82432 XOR\n2 1 82432 76544 128934 XOR\n2 1 5140 76514 82431 XOR\n2 1 82431 76543 128933 XOR\n2 1 5139 76513 82430 XOR\n2 1 82430 76542 128932 XOR\n2 1 5138 76512 82429 XOR\n2 1 82429 76541 128931 XOR\n2 1 5137 76511 82428 XOR\n2 1 82428 76540 128930 XOR\n2 1 5136 76510 82427 XOR\n2 1 82427 76539 128929 XOR\n2 1 5135 76509 82426 XOR\n2 1 82426 76538 128928 XOR\n2 1 5134 76508 82425 XOR\n2 1 82425 76537 128927 XOR\n2 1 5133 76507 82424 XOR\n2 1 82424 76536 128926 XOR\n2 1 5132 76506 82423 XOR\n2 1 82423 76535 128925 XOR\n2 1 5131 76505 82422 XOR\n2 1 82422 76534 128924 XOR\n2 1 5130 76504 82421 XOR\n2 1 82421 76533 128923 XOR\n2 1 5129 76503 82420 XOR\n2 1 82420 76532 128922 XOR\n2 1 5128 76502 82419 XOR\n2 1 82419 76531 128921 XOR\n2 1 5127 76501 82418 XOR\n2 1 82418 76530 128920 XOR\n2 1 5126 76500 82417 XOR\n2 1 82417 76529 77809 XOR\n2 1 82417 76529 128889 AND\n2 1 128920 128889 77810 XOR\n2 1 82418 128889 51546 XOR\n2 1 76530 128889 51547 XOR\n2 1 51546 51547 51545 AND\n2 1 51545 128889 128890 XOR\n2 1 128921 128890 77811 XOR\n2 1 82419 128890 51549 XOR\n2 1 76531 128890 51550 XOR\n2 1 51549 51550 51548 AND\n2 1 51548 128890 128891 XOR\n2 1 128922 128891 77812 XOR\n2 1 82420 128891 51552 XOR\n2 1 76532 128891 51553 XOR\n2 1 51552 51553 51551 AND\n2 1 51551 128891 128892 XOR\n2 1 76533 128892 51556 XOR\n2 1 128923 128892 77813 XOR\n2 1 79348 77812 128860 XOR\n2 1 79346 77810 128858 XOR\n2 1 79345 77809 128827 AND\n2 1 79345 77809 76017 XOR\n2 1 76017 1632 94134 XOR\n2 1 96182 94134 90097 XOR\n2 1 90097 83953 104080 AND\n2 1 1184 90097 1504 XOR\n2 1 1184 90097 104018 AND\n2 1 1185 104018 10117 XOR\n2 1 96182 94134 113591 AND\n2 1 90097 83953 1056 XOR\n2 1 1056 1120 69967 XOR\n2 1 69967 69935 69903 AND\n2 1 69903 1120 85969 XOR\n2 1 1056 1088 69839 XOR\n2 1 96183 113591 25246 XOR\n2 1 63631 1504 63599 AND\n2 1 63599 1568 98198 XOR\n2 1 1504 1536 63567 XOR\n2 1 76017 1632 113653 AND\n2 1 1633 113653 25337 XOR\n2 1 83954 104080 10208 XOR\n2 1 79347 77811 128859 XOR\n2 1 79349 77813 128861 XOR\n2 1 128858 128827 76018 XOR\n2 1 76018 113653 25336 XOR\n2 1 25336 25337 25335 AND\n2 1 76018 1633 113684 XOR\n2 1 113684 113653 94135 XOR\n2 1 96183 94135 113622 XOR\n2 1 94135 113591 25247 XOR\n2 1 25246 25247 25245 AND\n2 1 113622 113591 90098 XOR\n2 1 90098 104080 10207 XOR\n2 1 10207 10208 10206 AND\n2 1 1185 90098 104049 XOR\n2 1 104049 104018 1505 XOR\n2 1 63632 1505 63600 AND\n2 1 63600 1569 98199 XOR\n2 1 1505 1537 63568 XOR\n2 1 25335 113653 113654 XOR\n2 1 1634 113654 25340 XOR\n2 1 25245 113591 113592 XOR\n2 1 96184 113592 25249 XOR\n2 1 79346 128827 51456 XOR\n2 1 77810 128827 51457 XOR\n2 1 51456 51457 51455 AND\n2 1 51455 128827 128828 XOR\n2 1 77811 128828 51460 XOR\n2 1 128859 128828 76019 XOR\n2 1 76019 1634 113685 XOR\n2 1 76019 113654 25339 XOR\n2 1 25339 25340 25338 AND\n2 1 25338 113654 113655 XOR\n2 1 1635 113655 25343 XOR\n2 1 113685 113654 94136 XOR\n",
"2 1 96184 94136 113623 XOR\n2 1 113623 113592 92133 XOR\n2 1 94136 113592 25250 XOR\n1 1 92133 90099 INV\n2 1 90099 83955 104112 XOR\n2 1 25249 25250 25248 AND\n2 1 25248 113592 113593 XOR\n2 1 96185 113593 25252 XOR\n2 1 1186 90099 104050 XOR\n2 1 79347 128828 51459 XOR\n2 1 51459 51460 51458 AND\n2 1 51458 128828 128829 XOR\n2 1 79348 128829 51462 XOR\n2 1 128860 128829 76020 XOR\n2 1 76020 1635 113686 XOR\n2 1 113686 113655 94137 XOR\n2 1 94137 113593 25253 XOR\n2 1 25252 25253 25251 AND\n2 1 25251 113593 113594 XOR\n2 1 76020 113655 25342 XOR\n2 1 25342 25343 25341 AND\n2 1 25341 113655 113656 XOR\n2 1 1636 113656 25346 XOR\n2 1 96185 94137 113624 XOR\n2 1 113624 113593 92134 XOR\n1 1 92134 25231 INV\n2 1 92134 92133 25149 XOR\n2 1 25231 92133 90100 XOR\n2 1 1187 90100 104051 XOR\n2 1 90100 83956 104113 XOR\n2 1 25149 90099 25148 AND\n2 1 25148 92133 25151 XOR\n2 1 96186 113594 25255 XOR\n2 1 77812 128829 51463 XOR\n2 1 51462 51463 51461 AND\n2 1 51461 128829 128830 XOR\n2 1 128861 128830 76021 XOR\n2 1 76021 113656 25345 XOR\n2 1 76021 1636 113687 XOR\n2 1 113687 113656 94138 XOR\n2 1 77813 128830 51466 XOR\n2 1 25345 25346 25344 AND\n2 1 25344 113656 113657 XOR\n2 1 1637 113657 25349 XOR\n2 1 94138 113594 25256 XOR\n2 1 25255 25256 25254 AND\n2 1 25254 113594 113595 XOR\n2 1 96186 94138 113625 XOR\n2 1 113625 113594 92135 XOR\n2 1 92135 25151 90101 XOR\n2 1 90101 83957 104114 XOR\n2 1 1188 90101 104052 XOR\n2 1 90101 25151 25150 AND\n2 1 25150 25151 25153 XOR\n2 1 96187 113595 25258 XOR\n2 1 79349 128830 51465 XOR\n2 1 51465 51466 51464 AND\n2 1 51464 128830 128831 XOR\n2 1 79350 128831 51468 XOR\n2 1 90098 104018 10118 XOR\n2 1 10117 10118 10116 AND\n2 1 10116 104018 104019 XOR\n2 1 1186 104019 10120 XOR\n2 1 104050 104019 1506 XOR\n2 1 63633 1506 63601 AND\n2 1 63601 1570 98200 XOR\n2 1 1506 1538 63569 XOR\n2 1 90099 104019 10121 XOR\n2 1 10120 10121 10119 AND\n2 1 10119 104019 104020 XOR\n2 1 104051 104020 1507 XOR\n2 1 90100 104020 10124 XOR\n2 1 63634 1507 63602 AND\n2 1 63602 1571 98201 XOR\n2 1 1507 1539 63570 XOR\n2 1 1187 104020 10123 XOR\n2 1 10123 10124 10122 AND\n2 1 10122 104020 104021 XOR\n2 1 1188 104021 10126 XOR\n2 1 104052 104021 1508 XOR\n2 1 90101 104021 10127 XOR\n2 1 10126 10127 10125 AND\n2 1 10125 104021 104022 XOR\n2 1 1189 104022 10129 XOR\n2 1 63635 1508 63603 AND\n2 1 63603 1572 98202 XOR\n2 1 1508 1540 63571 XOR\n2 1 76019 76021 6371 XOR\n2 1 76018 76020 6370 XOR\n2 1 76017 76019 6369 XOR\n2 1 90098 83954 104111 XOR\n2 1 104111 104080 1057 XOR\n2 1 1057 1121 69968 XOR\n2 1 69968 69936 69904 AND\n2 1 69904 1121 85970 XOR\n2 1 1057 1089 69840 XOR\n2 1 10206 104080 104081 XOR\n2 1 83955 104081 10211 XOR\n2 1 90099 104081 10210 XOR\n2 1 10210 10211 10209 AND\n2 1 10209 104081 104082 XOR\n2 1 104113 104082 1059 XOR\n2 1 1059 1123 69970 XOR\n2 1 69970 69938 69906 AND\n2 1 69906 1123 85972 XOR\n2 1 1059 1091 69842 XOR\n2 1 90100 104082 10213 XOR\n2 1 83956 104082 10214 XOR\n2 1 10213 10214 10212 AND\n2 1 104112 104081 1058 XOR\n2 1 1058 1122 69969 XOR\n2 1 69969 69937 69905 AND\n2 1 69905 1122 85971 XOR\n2 1 1058 1090 69841 XOR\n2 1 10212 104082 104083 XOR\n2 1 90101 104083 10216 XOR\n2 1 83957 104083 10217 XOR\n2 1 10216 10217 10215 AND\n2 1 10215 104083 104084 XOR\n2 1 104114 104083 1060 XOR\n2 1 1060 1124 69971 XOR\n2 1 69971 69939 69907 AND\n2 1 69907 1124 85973 XOR\n2 1 1060 1092 69843 XOR\n2 1 83958 104084 10220 XOR\n2 1 82421 128892 51555 XOR\n2 1 51555 51556 51554 AND\n2 1 51554 128892 128893 XOR\n",
"2 1 82422 128893 51558 XOR\n2 1 128924 128893 77814 XOR\n2 1 79350 77814 128862 XOR\n2 1 128862 128831 76022 XOR\n2 1 76022 113657 25348 XOR\n2 1 25348 25349 25347 AND\n2 1 25347 113657 113658 XOR\n2 1 1638 113658 25352 XOR\n2 1 76022 1637 113688 XOR\n2 1 113688 113657 94139 XOR\n2 1 94139 113595 25259 XOR\n2 1 96187 94139 113626 XOR\n2 1 25258 25259 25257 AND\n2 1 25257 113595 113596 XOR\n2 1 96188 113596 25261 XOR\n2 1 113626 113595 92136 XOR\n2 1 92136 25153 90102 XOR\n2 1 1189 90102 104053 XOR\n2 1 104053 104022 1509 XOR\n2 1 90102 25153 25152 AND\n2 1 90102 104084 10219 XOR\n2 1 10219 10220 10218 AND\n2 1 10218 104084 104085 XOR\n2 1 90102 104022 10130 XOR\n2 1 10129 10130 10128 AND\n2 1 25152 25153 25217 XOR\n1 1 25217 25156 INV\n2 1 63636 1509 63604 AND\n2 1 63604 1573 98203 XOR\n2 1 1509 1541 63572 XOR\n2 1 10128 104022 104023 XOR\n2 1 1190 104023 10132 XOR\n2 1 1504 1509 61225 XOR\n2 1 77814 128831 51469 XOR\n2 1 51468 51469 51467 AND\n2 1 51467 128831 128832 XOR\n2 1 79351 128832 51471 XOR\n2 1 76020 76022 6372 XOR\n2 1 90102 83958 104115 XOR\n2 1 104115 104084 1061 XOR\n2 1 1061 1125 69972 XOR\n2 1 69972 69940 69908 AND\n2 1 69908 1125 85974 XOR\n2 1 1061 1093 69844 XOR\n2 1 83959 104085 10223 XOR\n2 1 76534 128893 51559 XOR\n2 1 51558 51559 51557 AND\n2 1 51557 128893 128894 XOR\n2 1 128925 128894 77815 XOR\n2 1 77815 128832 51472 XOR\n2 1 51471 51472 51470 AND\n2 1 79351 77815 128863 XOR\n2 1 128863 128832 76023 XOR\n2 1 76023 113658 25351 XOR\n2 1 25351 25352 25350 AND\n2 1 25350 113658 113659 XOR\n2 1 76023 1638 113689 XOR\n2 1 113689 113658 94140 XOR\n2 1 94140 113596 25262 XOR\n2 1 25261 25262 25260 AND\n2 1 25260 113596 113597 XOR\n2 1 96189 113597 25264 XOR\n2 1 96188 94140 113627 XOR\n2 1 113627 113596 92137 XOR\n1 1 92137 25232 INV\n2 1 92137 25217 25155 XOR\n2 1 25155 25156 25154 AND\n2 1 25154 25217 25158 XOR\n2 1 1639 113659 25355 XOR\n2 1 51470 128832 128833 XOR\n2 1 79352 128833 51474 XOR\n2 1 76021 76023 6373 XOR\n2 1 82423 128894 51561 XOR\n2 1 76535 128894 51562 XOR\n2 1 51561 51562 51560 AND\n2 1 51560 128894 128895 XOR\n2 1 128926 128895 77816 XOR\n2 1 79352 77816 128864 XOR\n2 1 128864 128833 76024 XOR\n2 1 76024 113659 25354 XOR\n2 1 25354 25355 25353 AND\n2 1 25353 113659 113660 XOR\n2 1 1640 113660 25358 XOR\n2 1 76024 1639 113690 XOR\n2 1 113690 113659 94141 XOR\n2 1 94141 113597 25265 XOR\n2 1 25264 25265 25263 AND\n2 1 25263 113597 113598 XOR\n2 1 96189 94141 113628 XOR\n2 1 113628 113597 92138 XOR\n2 1 96190 113598 25267 XOR\n2 1 92138 25158 90104 XOR\n2 1 1191 90104 104055 XOR\n2 1 90104 83960 104117 XOR\n2 1 90104 25158 25157 AND\n2 1 25157 25158 25218 XOR\n1 1 25218 25161 INV\n2 1 77816 128833 51475 XOR\n2 1 51474 51475 51473 AND\n2 1 51473 128833 128834 XOR\n2 1 79353 128834 51477 XOR\n2 1 76022 76024 6374 XOR\n2 1 82424 128895 51564 XOR\n2 1 76536 128895 51565 XOR\n2 1 51564 51565 51563 AND\n2 1 51563 128895 128896 XOR\n2 1 128927 128896 77817 XOR\n2 1 77817 128834 51478 XOR\n2 1 51477 51478 51476 AND\n2 1 79353 77817 128865 XOR\n2 1 128865 128834 76025 XOR\n2 1 76025 113660 25357 XOR\n2 1 25357 25358 25356 AND\n2 1 25356 113660 113661 XOR\n2 1 1641 113661 25361 XOR\n2 1 76025 1640 113691 XOR\n2 1 113691 113660 94142 XOR\n2 1 96190 94142 113629 XOR\n2 1 113629 113598 92139 XOR\n2 1 92139 25218 25160 XOR\n1 1 92139 25233 INV\n2 1 25233 25218 90105 XOR\n2 1 90105 83961 104118 XOR\n2 1 1192 90105 104056 XOR\n2 1 25160 25161 25159 AND\n2 1 25159 25218 25219 XOR\n1 1 25219 25164 INV\n2 1 94142 113598 25268 XOR\n",
"2 1 25267 25268 25266 AND\n2 1 25266 113598 113599 XOR\n2 1 96191 113599 25270 XOR\n2 1 51476 128834 128835 XOR\n2 1 79354 128835 51480 XOR\n2 1 76023 76025 6375 XOR\n2 1 82425 128896 51567 XOR\n2 1 76537 128896 51568 XOR\n2 1 51567 51568 51566 AND\n2 1 51566 128896 128897 XOR\n2 1 128928 128897 77818 XOR\n2 1 79354 77818 128866 XOR\n2 1 128866 128835 76026 XOR\n2 1 76026 113661 25360 XOR\n2 1 25360 25361 25359 AND\n2 1 25359 113661 113662 XOR\n2 1 1642 113662 25364 XOR\n2 1 76026 1641 113692 XOR\n2 1 113692 113661 94143 XOR\n2 1 94143 113599 25271 XOR\n2 1 25270 25271 25269 AND\n2 1 25269 113599 113600 XOR\n2 1 96191 94143 113630 XOR\n2 1 96192 113600 25273 XOR\n2 1 113630 113599 92140 XOR\n1 1 92140 25234 INV\n2 1 25234 25219 90106 XOR\n2 1 92140 25219 25163 XOR\n2 1 25163 25164 25162 AND\n2 1 25162 25219 25220 XOR\n1 1 25220 25167 INV\n2 1 1193 90106 104057 XOR\n2 1 90106 83962 104119 XOR\n2 1 77818 128835 51481 XOR\n2 1 51480 51481 51479 AND\n2 1 51479 128835 128836 XOR\n2 1 79355 128836 51483 XOR\n2 1 76024 76026 80839 XOR\n2 1 80839 76199 128631 XOR\n2 1 82426 128897 51570 XOR\n2 1 76538 128897 51571 XOR\n2 1 51570 51571 51569 AND\n2 1 51569 128897 128898 XOR\n2 1 128929 128898 77819 XOR\n2 1 77819 128836 51484 XOR\n2 1 51483 51484 51482 AND\n2 1 79355 77819 128867 XOR\n2 1 128867 128836 76027 XOR\n2 1 76027 1642 113693 XOR\n2 1 113693 113662 94144 XOR\n2 1 96192 94144 113631 XOR\n2 1 113631 113600 92141 XOR\n1 1 92141 25235 INV\n2 1 25235 25220 90107 XOR\n2 1 1194 90107 104058 XOR\n2 1 92141 25220 25166 XOR\n2 1 25166 25167 25165 AND\n2 1 25165 25220 25169 XOR\n2 1 90107 83963 104120 XOR\n2 1 94144 113600 25274 XOR\n2 1 25273 25274 25272 AND\n2 1 25272 113600 113601 XOR\n2 1 96193 113601 25276 XOR\n2 1 76027 113662 25363 XOR\n2 1 25363 25364 25362 AND\n2 1 25362 113662 113663 XOR\n2 1 1643 113663 25367 XOR\n2 1 51482 128836 128837 XOR\n2 1 79356 128837 51486 XOR\n2 1 76025 76027 80840 XOR\n2 1 80840 76200 128632 XOR\n2 1 82427 128898 51573 XOR\n2 1 76539 128898 51574 XOR\n2 1 51573 51574 51572 AND\n2 1 51572 128898 128899 XOR\n2 1 76540 128899 51577 XOR\n2 1 128930 128899 77820 XOR\n2 1 77820 128837 51487 XOR\n2 1 51486 51487 51485 AND\n2 1 79356 77820 128868 XOR\n2 1 128868 128837 76028 XOR\n2 1 76028 113663 25366 XOR\n2 1 25366 25367 25365 AND\n2 1 25365 113663 113664 XOR\n2 1 1644 113664 25370 XOR\n2 1 76028 1643 113694 XOR\n2 1 51485 128837 128838 XOR\n2 1 79357 128838 51489 XOR\n2 1 76026 76028 80841 XOR\n2 1 80841 76201 128633 XOR\n2 1 82428 128899 51576 XOR\n2 1 51576 51577 51575 AND\n2 1 51575 128899 128900 XOR\n2 1 82429 128900 51579 XOR\n2 1 128931 128900 77821 XOR\n2 1 77821 128838 51490 XOR\n2 1 51489 51490 51488 AND\n2 1 51488 128838 128839 XOR\n2 1 79358 128839 51492 XOR\n2 1 79357 77821 128869 XOR\n2 1 128869 128838 76029 XOR\n2 1 76029 113664 25369 XOR\n2 1 25369 25370 25368 AND\n2 1 76029 1644 113695 XOR\n2 1 113695 113664 94146 XOR\n2 1 96194 94146 113633 XOR\n2 1 25368 113664 113665 XOR\n2 1 1645 113665 25373 XOR\n2 1 76027 76029 80842 XOR\n2 1 80842 76202 128634 XOR\n2 1 76541 128900 51580 XOR\n2 1 51579 51580 51578 AND\n2 1 51578 128900 128901 XOR\n2 1 76542 128901 51583 XOR\n2 1 128932 128901 77822 XOR\n2 1 79358 77822 128870 XOR\n2 1 128870 128839 76030 XOR\n2 1 76030 113665 25372 XOR\n2 1 25372 25373 25371 AND\n2 1 25371 113665 113666 XOR\n2 1 1646 113666 25376 XOR\n2 1 76030 1645 113696 XOR\n2 1 113696 113665 94147 XOR\n2 1 96195 94147 113634 XOR\n2 1 77822 128839 51493 XOR\n2 1 51492 51493 51491 AND\n2 1 51491 128839 128840 XOR\n2 1 79359 128840 51495 XOR\n",
"2 1 76028 76030 80843 XOR\n2 1 80843 76203 128635 XOR\n2 1 82430 128901 51582 XOR\n2 1 51582 51583 51581 AND\n2 1 51581 128901 128902 XOR\n2 1 82431 128902 51585 XOR\n2 1 128933 128902 77823 XOR\n2 1 77823 128840 51496 XOR\n2 1 51495 51496 51494 AND\n2 1 51494 128840 128841 XOR\n2 1 79360 128841 51498 XOR\n2 1 79359 77823 128871 XOR\n2 1 128871 128840 76031 XOR\n2 1 76031 1646 113697 XOR\n2 1 113697 113666 94148 XOR\n2 1 96196 94148 113635 XOR\n2 1 76031 113666 25375 XOR\n2 1 25375 25376 25374 AND\n2 1 25374 113666 113667 XOR\n2 1 1647 113667 25379 XOR\n2 1 76029 76031 80844 XOR\n2 1 80844 76204 128636 XOR\n2 1 76543 128902 51586 XOR\n2 1 51585 51586 51584 AND\n2 1 51584 128902 128903 XOR\n2 1 76544 128903 51589 XOR\n2 1 128934 128903 77824 XOR\n2 1 77824 128841 51499 XOR\n2 1 51498 51499 51497 AND\n2 1 51497 128841 128842 XOR\n2 1 79360 77824 128872 XOR\n2 1 79361 128842 51501 XOR\n2 1 128872 128841 76032 XOR\n2 1 76032 1647 113698 XOR\n2 1 113698 113667 94149 XOR\n2 1 96197 94149 113636 XOR\n2 1 76032 113667 25378 XOR\n2 1 25378 25379 25377 AND\n2 1 25377 113667 113668 XOR\n2 1 1648 113668 25382 XOR\n2 1 76030 76032 80845 XOR\n2 1 80845 76205 128637 XOR\n2 1 82432 128903 51588 XOR\n2 1 51588 51589 51587 AND\n2 1 51587 128903 128904 XOR\n2 1 82433 128904 51591 XOR\n2 1 128935 128904 77825 XOR\n2 1 77825 128842 51502 XOR\n2 1 51501 51502 51500 AND\n2 1 51500 128842 128843 XOR\n2 1 79362 128843 51504 XOR\n2 1 79361 77825 128873 XOR\n2 1 128873 128842 76033 XOR\n2 1 76033 113668 25381 XOR\n2 1 25381 25382 25380 AND\n2 1 76033 1648 113699 XOR\n2 1 113699 113668 94150 XOR\n2 1 96198 94150 113637 XOR\n2 1 76031 76033 80846 XOR\n2 1 80846 76206 128638 XOR\n2 1 76545 128904 51592 XOR\n2 1 51591 51592 51590 AND\n2 1 51590 128904 128905 XOR\n2 1 76546 128905 51595 XOR\n2 1 128936 128905 77826 XOR\n2 1 77826 128843 51505 XOR\n2 1 51504 51505 51503 AND\n2 1 51503 128843 128844 XOR\n2 1 79363 128844 51507 XOR\n2 1 79362 77826 128874 XOR\n2 1 128874 128843 76034 XOR\n2 1 76034 1649 113700 XOR\n2 1 76032 76034 80847 XOR\n2 1 80847 76207 128639 XOR\n2 1 82434 128905 51594 XOR\n2 1 51594 51595 51593 AND\n2 1 51593 128905 128906 XOR\n2 1 82435 128906 51597 XOR\n2 1 128937 128906 77827 XOR\n2 1 77827 128844 51508 XOR\n2 1 51507 51508 51506 AND\n2 1 51506 128844 128845 XOR\n2 1 79364 128845 51510 XOR\n2 1 79363 77827 128875 XOR\n2 1 128875 128844 76035 XOR\n2 1 76035 1650 113701 XOR\n2 1 76033 76035 80848 XOR\n2 1 80848 76208 128640 XOR\n2 1 76547 128906 51598 XOR\n2 1 51597 51598 51596 AND\n2 1 51596 128906 128907 XOR\n2 1 76548 128907 51601 XOR\n2 1 128938 128907 77828 XOR\n2 1 77828 128845 51511 XOR\n2 1 51510 51511 51509 AND\n2 1 51509 128845 128846 XOR\n2 1 79365 128846 51513 XOR\n2 1 79364 77828 128876 XOR\n2 1 128876 128845 76036 XOR\n2 1 76036 1651 113702 XOR\n2 1 76034 76036 6354 XOR\n2 1 6354 76027 80817 XOR\n2 1 80817 76177 79281 XOR\n2 1 80817 76177 128579 AND\n2 1 76178 128579 51097 XOR\n2 1 82436 128907 51600 XOR\n2 1 51600 51601 51599 AND\n2 1 51599 128907 128908 XOR\n2 1 82437 128908 51603 XOR\n2 1 128939 128908 77829 XOR\n2 1 77829 128846 51514 XOR\n2 1 51513 51514 51512 AND\n2 1 51512 128846 128847 XOR\n2 1 79366 128847 51516 XOR\n2 1 79365 77829 128877 XOR\n2 1 128877 128846 76037 XOR\n2 1 76037 1652 113703 XOR\n2 1 76035 76037 6355 XOR\n2 1 6355 76028 80818 XOR\n2 1 80818 76178 128610 XOR\n2 1 128610 128579 79282 XOR\n2 1 80818 128579 51096 XOR\n2 1 51096 51097 51095 AND\n2 1 51095 128579 128580 XOR\n2 1 76179 128580 51100 XOR\n2 1 76549 128908 51604 XOR\n2 1 51603 51604 51602 AND\n2 1 51602 128908 128909 XOR\n",
"2 1 76550 128909 51607 XOR\n2 1 128940 128909 77830 XOR\n2 1 77830 128847 51517 XOR\n2 1 51516 51517 51515 AND\n2 1 51515 128847 128848 XOR\n2 1 79367 128848 51519 XOR\n2 1 79366 77830 128878 XOR\n2 1 128878 128847 76038 XOR\n2 1 76038 1653 113704 XOR\n2 1 76036 76038 6356 XOR\n2 1 6356 76029 80819 XOR\n2 1 80819 128580 51099 XOR\n2 1 51099 51100 51098 AND\n2 1 51098 128580 128581 XOR\n2 1 76180 128581 51103 XOR\n2 1 80819 76179 128611 XOR\n2 1 128611 128580 79283 XOR\n2 1 82438 128909 51606 XOR\n2 1 51606 51607 51605 AND\n2 1 51605 128909 128910 XOR\n2 1 82439 128910 51609 XOR\n2 1 128941 128910 77831 XOR\n2 1 77831 128848 51520 XOR\n2 1 51519 51520 51518 AND\n2 1 51518 128848 128849 XOR\n2 1 79368 128849 51522 XOR\n2 1 79367 77831 128879 XOR\n2 1 128879 128848 76039 XOR\n2 1 76039 1654 113705 XOR\n2 1 76037 76039 6357 XOR\n2 1 6357 76030 80820 XOR\n2 1 80820 128581 51102 XOR\n2 1 51102 51103 51101 AND\n2 1 51101 128581 128582 XOR\n2 1 76181 128582 51106 XOR\n2 1 80820 76180 128612 XOR\n2 1 128612 128581 79284 XOR\n2 1 76551 128910 51610 XOR\n2 1 51609 51610 51608 AND\n2 1 51608 128910 128911 XOR\n2 1 128942 128911 77832 XOR\n2 1 82440 128911 51612 XOR\n2 1 76552 128911 51613 XOR\n2 1 51612 51613 51611 AND\n2 1 51611 128911 128912 XOR\n2 1 128943 128912 77833 XOR\n2 1 76553 128912 51616 XOR\n2 1 82441 128912 51615 XOR\n2 1 51615 51616 51614 AND\n2 1 51614 128912 128913 XOR\n2 1 82442 128913 51618 XOR\n2 1 76554 128913 51619 XOR\n2 1 51618 51619 51617 AND\n2 1 128944 128913 77834 XOR\n2 1 51617 128913 128914 XOR\n2 1 128945 128914 77835 XOR\n2 1 82443 128914 51621 XOR\n2 1 76555 128914 51622 XOR\n2 1 51621 51622 51620 AND\n2 1 51620 128914 128915 XOR\n2 1 76556 128915 51625 XOR\n2 1 82444 128915 51624 XOR\n2 1 51624 51625 51623 AND\n2 1 51623 128915 128916 XOR\n2 1 128947 128916 77837 XOR\n2 1 82445 128916 51627 XOR\n2 1 128946 128915 77836 XOR\n2 1 77832 128849 51523 XOR\n2 1 51522 51523 51521 AND\n2 1 51521 128849 128850 XOR\n2 1 79369 128850 51525 XOR\n2 1 77833 128850 51526 XOR\n2 1 76557 128916 51628 XOR\n2 1 51627 51628 51626 AND\n2 1 51626 128916 128917 XOR\n2 1 76558 128917 51631 XOR\n2 1 128948 128917 77838 XOR\n2 1 82446 128917 51630 XOR\n2 1 51525 51526 51524 AND\n2 1 51524 128850 128851 XOR\n2 1 77834 128851 51529 XOR\n2 1 79370 128851 51528 XOR\n2 1 51528 51529 51527 AND\n2 1 51527 128851 128852 XOR\n2 1 77835 128852 51532 XOR\n2 1 79371 128852 51531 XOR\n2 1 51531 51532 51530 AND\n2 1 51530 128852 128853 XOR\n2 1 79372 128853 51534 XOR\n2 1 51630 51631 51629 AND\n2 1 51629 128917 128918 XOR\n2 1 82447 128918 51633 XOR\n2 1 128949 128918 77839 XOR\n2 1 76559 128918 51634 XOR\n2 1 51633 51634 51632 AND\n2 1 51632 128918 128919 XOR\n2 1 128950 128919 77840 XOR\n2 1 79368 77832 128880 XOR\n2 1 128880 128849 76040 XOR\n2 1 76040 1655 113706 XOR\n2 1 79369 77833 128881 XOR\n2 1 128881 128850 76041 XOR\n2 1 76041 1656 113707 XOR\n2 1 79370 77834 128882 XOR\n2 1 128882 128851 76042 XOR\n2 1 76042 1657 113708 XOR\n2 1 79371 77835 128883 XOR\n2 1 128883 128852 76043 XOR\n2 1 76043 1658 113709 XOR\n2 1 79372 77836 128884 XOR\n2 1 128884 128853 76044 XOR\n2 1 76044 1659 113710 XOR\n2 1 79373 77837 128885 XOR\n2 1 79374 77838 128886 XOR\n2 1 79375 77839 128887 XOR\n2 1 79376 77840 128888 XOR\n2 1 76042 76044 6362 XOR\n2 1 76041 76043 6361 XOR\n2 1 76040 76042 6360 XOR\n2 1 76039 76041 6359 XOR\n2 1 76038 76040 6358 XOR\n2 1 6371 76044 80834 XOR\n2 1 80834 76194 128626 XOR\n2 1 6370 76043 80833 XOR\n2 1 80833 76193 128625 XOR\n2 1 6369 76042 80832 XOR\n2 1 80832 76192 128624 XOR\n2 1 6362 76035 80825 XOR\n",
"2 1 80825 76185 128617 XOR\n2 1 6361 76034 80824 XOR\n2 1 80824 76184 128616 XOR\n2 1 6360 76033 80823 XOR\n2 1 80823 76183 128615 XOR\n2 1 6359 76032 80822 XOR\n2 1 80822 76182 128614 XOR\n2 1 6358 76031 80821 XOR\n2 1 80821 76181 128613 XOR\n2 1 128613 128582 79285 XOR\n2 1 80821 128582 51105 XOR\n2 1 51105 51106 51104 AND\n2 1 51104 128582 128583 XOR\n2 1 76182 128583 51109 XOR\n2 1 128614 128583 79286 XOR\n2 1 80822 128583 51108 XOR\n2 1 51108 51109 51107 AND\n2 1 51107 128583 128584 XOR\n2 1 80823 128584 51111 XOR\n2 1 128615 128584 79287 XOR\n2 1 76183 128584 51112 XOR\n2 1 51111 51112 51110 AND\n2 1 51110 128584 128585 XOR\n2 1 128616 128585 79288 XOR\n2 1 80824 128585 51114 XOR\n2 1 76184 128585 51115 XOR\n2 1 51114 51115 51113 AND\n2 1 51113 128585 128586 XOR\n2 1 128617 128586 79289 XOR\n2 1 80825 128586 51117 XOR\n2 1 76185 128586 51118 XOR\n2 1 51117 51118 51116 AND\n2 1 51116 128586 128587 XOR\n2 1 76186 128587 51121 XOR\n2 1 77836 128853 51535 XOR\n2 1 51534 51535 51533 AND\n2 1 51533 128853 128854 XOR\n2 1 128885 128854 76045 XOR\n2 1 76045 1660 113711 XOR\n2 1 77837 128854 51538 XOR\n2 1 79373 128854 51537 XOR\n2 1 51537 51538 51536 AND\n2 1 51536 128854 128855 XOR\n2 1 77838 128855 51541 XOR\n2 1 128886 128855 76046 XOR\n2 1 79374 128855 51540 XOR\n2 1 51540 51541 51539 AND\n2 1 51539 128855 128856 XOR\n2 1 77839 128856 51544 XOR\n2 1 128887 128856 76047 XOR\n2 1 76047 1662 113713 XOR\n2 1 79375 128856 51543 XOR\n2 1 51543 51544 51542 AND\n2 1 51542 128856 128857 XOR\n2 1 128888 128857 76048 XOR\n2 1 76048 1663 113714 XOR\n2 1 76046 1661 113712 XOR\n2 1 76048 76018 6368 XOR\n2 1 76047 76017 6367 XOR\n2 1 76046 76048 6366 XOR\n2 1 76045 76047 6365 XOR\n2 1 76044 76046 6364 XOR\n2 1 76043 76045 6363 XOR\n2 1 6375 76048 80838 XOR\n2 1 80838 76198 128630 XOR\n2 1 6374 76047 80837 XOR\n2 1 80837 76197 128629 XOR\n2 1 6373 76046 80836 XOR\n2 1 80836 76196 128628 XOR\n2 1 6372 76045 80835 XOR\n2 1 80835 76195 128627 XOR\n2 1 6368 76041 80831 XOR\n2 1 80831 76191 128623 XOR\n2 1 6367 76040 80830 XOR\n2 1 80830 76190 128622 XOR\n2 1 6366 76039 80829 XOR\n2 1 80829 76189 128621 XOR\n2 1 6365 76038 80828 XOR\n2 1 80828 76188 128620 XOR\n2 1 6364 76037 80827 XOR\n2 1 80827 76187 128619 XOR\n2 1 6363 76036 80826 XOR\n2 1 80826 128587 51120 XOR\n2 1 51120 51121 51119 AND\n2 1 51119 128587 128588 XOR\n2 1 76187 128588 51124 XOR\n2 1 128619 128588 79291 XOR\n2 1 80827 128588 51123 XOR\n2 1 51123 51124 51122 AND\n2 1 51122 128588 128589 XOR\n2 1 80828 128589 51126 XOR\n2 1 128620 128589 79292 XOR\n2 1 76188 128589 51127 XOR\n2 1 51126 51127 51125 AND\n2 1 51125 128589 128590 XOR\n2 1 128621 128590 79293 XOR\n2 1 76189 128590 51130 XOR\n2 1 80829 128590 51129 XOR\n2 1 51129 51130 51128 AND\n2 1 51128 128590 128591 XOR\n2 1 80830 128591 51132 XOR\n2 1 128622 128591 79294 XOR\n2 1 76190 128591 51133 XOR\n2 1 51132 51133 51131 AND\n2 1 51131 128591 128592 XOR\n2 1 76191 128592 51136 XOR\n2 1 128623 128592 79295 XOR\n2 1 80831 128592 51135 XOR\n2 1 51135 51136 51134 AND\n2 1 51134 128592 128593 XOR\n2 1 128624 128593 79296 XOR\n2 1 80832 128593 51138 XOR\n2 1 76192 128593 51139 XOR\n2 1 51138 51139 51137 AND\n2 1 51137 128593 128594 XOR\n2 1 128625 128594 79297 XOR\n2 1 80833 128594 51141 XOR\n2 1 76193 128594 51142 XOR\n2 1 51141 51142 51140 AND\n2 1 51140 128594 128595 XOR\n2 1 128626 128595 79298 XOR\n2 1 80834 128595 51144 XOR\n2 1 76194 128595 51145 XOR\n2 1 51144 51145 51143 AND\n2 1 51143 128595 128596 XOR\n2 1 128627 128596 79299 XOR\n2 1 80835 128596 51147 XOR\n2 1 76195 128596 51148 XOR\n",
"2 1 51147 51148 51146 AND\n2 1 51146 128596 128597 XOR\n2 1 80836 128597 51150 XOR\n2 1 76196 128597 51151 XOR\n2 1 51150 51151 51149 AND\n2 1 128628 128597 79300 XOR\n2 1 51149 128597 128598 XOR\n2 1 128629 128598 79301 XOR\n2 1 80837 128598 51153 XOR\n2 1 76197 128598 51154 XOR\n2 1 80826 76186 128618 XOR\n2 1 128618 128587 79290 XOR\n2 1 25380 113668 113669 XOR\n2 1 113700 113669 94151 XOR\n2 1 96199 94151 113638 XOR\n2 1 76034 113669 25384 XOR\n2 1 1649 113669 25385 XOR\n2 1 25384 25385 25383 AND\n2 1 25383 113669 113670 XOR\n2 1 76035 113670 25387 XOR\n2 1 1650 113670 25388 XOR\n2 1 25387 25388 25386 AND\n2 1 25386 113670 113671 XOR\n2 1 1651 113671 25391 XOR\n2 1 76036 113671 25390 XOR\n2 1 113701 113670 94152 XOR\n2 1 113702 113671 94153 XOR\n2 1 96200 94152 113639 XOR\n2 1 25390 25391 25389 AND\n2 1 25389 113671 113672 XOR\n2 1 113703 113672 94154 XOR\n2 1 96202 94154 113641 XOR\n2 1 1652 113672 25394 XOR\n2 1 76037 113672 25393 XOR\n2 1 25393 25394 25392 AND\n2 1 25392 113672 113673 XOR\n2 1 76038 113673 25396 XOR\n2 1 113704 113673 94155 XOR\n2 1 96203 94155 113642 XOR\n2 1 1653 113673 25397 XOR\n2 1 25396 25397 25395 AND\n2 1 25395 113673 113674 XOR\n2 1 1654 113674 25400 XOR\n2 1 76039 113674 25399 XOR\n2 1 25399 25400 25398 AND\n2 1 25398 113674 113675 XOR\n2 1 1655 113675 25403 XOR\n2 1 113705 113674 94156 XOR\n2 1 96204 94156 113643 XOR\n2 1 76040 113675 25402 XOR\n2 1 25402 25403 25401 AND\n2 1 25401 113675 113676 XOR\n2 1 113707 113676 94158 XOR\n2 1 96206 94158 113645 XOR\n2 1 1656 113676 25406 XOR\n2 1 76041 113676 25405 XOR\n2 1 25405 25406 25404 AND\n2 1 25404 113676 113677 XOR\n2 1 76042 113677 25408 XOR\n2 1 1657 113677 25409 XOR\n2 1 25408 25409 25407 AND\n2 1 113708 113677 94159 XOR\n2 1 96207 94159 113646 XOR\n2 1 25407 113677 113678 XOR\n2 1 1658 113678 25412 XOR\n2 1 113709 113678 94160 XOR\n2 1 96208 94160 113647 XOR\n2 1 96201 94153 113640 XOR\n2 1 113706 113675 94157 XOR\n2 1 96205 94157 113644 XOR\n2 1 76043 113678 25411 XOR\n2 1 25411 25412 25410 AND\n2 1 25410 113678 113679 XOR\n2 1 113710 113679 94161 XOR\n2 1 76044 113679 25414 XOR\n2 1 96209 94161 113648 XOR\n2 1 1659 113679 25415 XOR\n2 1 25414 25415 25413 AND\n2 1 25413 113679 113680 XOR\n2 1 1660 113680 25418 XOR\n2 1 113711 113680 94162 XOR\n2 1 96210 94162 113649 XOR\n2 1 76045 113680 25417 XOR\n2 1 25417 25418 25416 AND\n2 1 25416 113680 113681 XOR\n2 1 113712 113681 94163 XOR\n2 1 96211 94163 113650 XOR\n2 1 76046 113681 25420 XOR\n2 1 1661 113681 25421 XOR\n2 1 25420 25421 25419 AND\n2 1 25419 113681 113682 XOR\n2 1 1662 113682 25424 XOR\n2 1 76047 113682 25423 XOR\n2 1 25423 25424 25422 AND\n2 1 25422 113682 113683 XOR\n2 1 113714 113683 94165 XOR\n2 1 96213 94165 113652 XOR\n2 1 113713 113682 94164 XOR\n2 1 96212 94164 113651 XOR\n2 1 51153 51154 51152 AND\n2 1 51152 128598 128599 XOR\n2 1 128630 128599 79302 XOR\n2 1 80838 128599 51156 XOR\n2 1 76198 128599 51157 XOR\n2 1 51156 51157 51155 AND\n2 1 51155 128599 128600 XOR\n2 1 80839 128600 51159 XOR\n2 1 76199 128600 51160 XOR\n2 1 51159 51160 51158 AND\n2 1 51158 128600 128601 XOR\n2 1 76200 128601 51163 XOR\n2 1 80840 128601 51162 XOR\n2 1 51162 51163 51161 AND\n2 1 51161 128601 128602 XOR\n2 1 128633 128602 79305 XOR\n2 1 76201 128602 51166 XOR\n2 1 80841 128602 51165 XOR\n2 1 51165 51166 51164 AND\n2 1 51164 128602 128603 XOR\n2 1 76202 128603 51169 XOR\n2 1 128632 128601 79304 XOR\n2 1 128634 128603 79306 XOR\n2 1 128631 128600 79303 XOR\n2 1 80842 128603 51168 XOR\n2 1 51168 51169 51167 AND\n2 1 51167 128603 128604 XOR\n2 1 128635 128604 79307 XOR\n2 1 80843 128604 51171 XOR\n",
"2 1 76203 128604 51172 XOR\n2 1 51171 51172 51170 AND\n2 1 51170 128604 128605 XOR\n2 1 76204 128605 51175 XOR\n2 1 128636 128605 79308 XOR\n2 1 80844 128605 51174 XOR\n2 1 51174 51175 51173 AND\n2 1 51173 128605 128606 XOR\n2 1 128637 128606 79309 XOR\n2 1 76205 128606 51178 XOR\n2 1 80845 128606 51177 XOR\n2 1 51177 51178 51176 AND\n2 1 51176 128606 128607 XOR\n2 1 80846 128607 51180 XOR\n2 1 128638 128607 79310 XOR\n2 1 76206 128607 51181 XOR\n2 1 51180 51181 51179 AND\n2 1 51179 128607 128608 XOR\n2 1 80847 128608 51183 XOR\n2 1 128639 128608 79311 XOR\n2 1 76207 128608 51184 XOR\n2 1 51183 51184 51182 AND\n2 1 51182 128608 128609 XOR\n2 1 128640 128609 79312 XOR\n2 1 25232 25217 90103 XOR\n2 1 90103 83959 104116 XOR\n2 1 1190 90103 104054 XOR\n2 1 90103 104023 10133 XOR\n2 1 10132 10133 10131 AND\n2 1 104054 104023 1510 XOR\n2 1 63637 1510 63605 AND\n2 1 63605 1574 98204 XOR\n2 1 1510 1542 63573 XOR\n2 1 1505 1510 61226 XOR\n2 1 90103 104085 10222 XOR\n2 1 10222 10223 10221 AND\n2 1 10221 104085 104086 XOR\n2 1 83960 104086 10226 XOR\n2 1 90104 104086 10225 XOR\n2 1 104117 104086 1063 XOR\n2 1 1063 1127 69974 XOR\n2 1 69974 69942 69910 AND\n2 1 69910 1127 85976 XOR\n2 1 1063 1095 69846 XOR\n2 1 10225 10226 10224 AND\n2 1 10224 104086 104087 XOR\n2 1 104118 104087 1064 XOR\n2 1 90105 104087 10228 XOR\n2 1 83961 104087 10229 XOR\n2 1 10228 10229 10227 AND\n2 1 10227 104087 104088 XOR\n2 1 83962 104088 10232 XOR\n2 1 1064 1128 69975 XOR\n2 1 69975 69943 69911 AND\n2 1 69911 1128 85977 XOR\n2 1 1064 1096 69847 XOR\n2 1 104119 104088 1065 XOR\n2 1 1065 1129 69976 XOR\n2 1 69976 69944 69912 AND\n2 1 69912 1129 85978 XOR\n2 1 1065 1097 69848 XOR\n2 1 90106 104088 10231 XOR\n2 1 10231 10232 10230 AND\n2 1 10230 104088 104089 XOR\n2 1 90107 104089 10234 XOR\n2 1 83963 104089 10235 XOR\n2 1 10234 10235 10233 AND\n2 1 10233 104089 104090 XOR\n2 1 104120 104089 1066 XOR\n2 1 1066 1130 69977 XOR\n2 1 69977 69945 69913 AND\n2 1 69913 1130 85979 XOR\n2 1 1066 1098 69849 XOR\n2 1 10131 104023 104024 XOR\n2 1 1191 104024 10135 XOR\n2 1 90104 104024 10136 XOR\n2 1 104055 104024 1511 XOR\n2 1 63638 1511 63606 AND\n2 1 63606 1575 98205 XOR\n2 1 1511 1543 63574 XOR\n2 1 10135 10136 10134 AND\n2 1 10134 104024 104025 XOR\n2 1 104056 104025 1512 XOR\n2 1 90105 104025 10139 XOR\n2 1 1192 104025 10138 XOR\n2 1 63639 1512 63607 AND\n2 1 63607 1576 98206 XOR\n2 1 1512 1544 63575 XOR\n2 1 1507 1512 61228 XOR\n2 1 1506 1511 61227 XOR\n2 1 10138 10139 10137 AND\n2 1 10137 104025 104026 XOR\n2 1 104057 104026 1513 XOR\n2 1 90106 104026 10142 XOR\n2 1 1193 104026 10141 XOR\n2 1 63640 1513 63608 AND\n2 1 63608 1577 98207 XOR\n2 1 1513 1545 63576 XOR\n2 1 10141 10142 10140 AND\n2 1 10140 104026 104027 XOR\n2 1 104058 104027 1514 XOR\n2 1 1194 104027 10144 XOR\n2 1 63641 1514 63609 AND\n2 1 63609 1578 98208 XOR\n2 1 1514 1546 63577 XOR\n2 1 1509 1514 61230 XOR\n2 1 1508 1513 61229 XOR\n2 1 90107 104027 10145 XOR\n2 1 10144 10145 10143 AND\n2 1 10143 104027 104028 XOR\n2 1 1195 104028 10147 XOR\n2 1 104116 104085 1062 XOR\n2 1 1062 1126 69973 XOR\n2 1 69973 69941 69909 AND\n2 1 69909 1126 85975 XOR\n2 1 1062 1094 69845 XOR\n2 1 83964 104090 10238 XOR\n2 1 113694 113663 94145 XOR\n2 1 96193 94145 113632 XOR\n2 1 113632 113601 92142 XOR\n2 1 92142 25169 90108 XOR\n2 1 90108 83964 104121 XOR\n2 1 90108 104028 10148 XOR\n2 1 10147 10148 10146 AND\n2 1 104121 104090 1067 XOR\n2 1 1067 1131 69978 XOR\n2 1 69978 69946 69914 AND\n2 1 69914 1131 85980 XOR\n",
"2 1 1067 1099 69850 XOR\n2 1 1056 1067 67149 XOR\n2 1 94145 113601 25277 XOR\n2 1 25276 25277 25275 AND\n2 1 25275 113601 113602 XOR\n2 1 96194 113602 25279 XOR\n2 1 113633 113602 92143 XOR\n1 1 92143 25236 INV\n2 1 94146 113602 25280 XOR\n2 1 25279 25280 25278 AND\n2 1 25278 113602 113603 XOR\n2 1 113634 113603 92144 XOR\n2 1 96195 113603 25282 XOR\n1 1 92144 25237 INV\n2 1 94147 113603 25283 XOR\n2 1 25282 25283 25281 AND\n2 1 25281 113603 113604 XOR\n2 1 94148 113604 25286 XOR\n2 1 113635 113604 92145 XOR\n1 1 92145 25238 INV\n2 1 96196 113604 25285 XOR\n2 1 25285 25286 25284 AND\n2 1 25284 113604 113605 XOR\n2 1 113636 113605 92146 XOR\n2 1 96197 113605 25288 XOR\n2 1 94149 113605 25289 XOR\n2 1 25288 25289 25287 AND\n2 1 25287 113605 113606 XOR\n2 1 96198 113606 25291 XOR\n2 1 113637 113606 92147 XOR\n2 1 94150 113606 25292 XOR\n2 1 25291 25292 25290 AND\n2 1 25290 113606 113607 XOR\n2 1 113638 113607 92148 XOR\n2 1 96199 113607 25294 XOR\n2 1 94151 113607 25295 XOR\n2 1 25294 25295 25293 AND\n2 1 25293 113607 113608 XOR\n2 1 94152 113608 25298 XOR\n2 1 96200 113608 25297 XOR\n2 1 113639 113608 92149 XOR\n2 1 25297 25298 25296 AND\n2 1 25296 113608 113609 XOR\n2 1 94153 113609 25301 XOR\n2 1 113640 113609 92150 XOR\n1 1 92150 25239 INV\n2 1 96201 113609 25300 XOR\n2 1 25300 25301 25299 AND\n2 1 25299 113609 113610 XOR\n2 1 96202 113610 25303 XOR\n2 1 94154 113610 25304 XOR\n2 1 25303 25304 25302 AND\n2 1 25302 113610 113611 XOR\n2 1 96203 113611 25306 XOR\n2 1 113642 113611 92152 XOR\n2 1 94155 113611 25307 XOR\n2 1 25306 25307 25305 AND\n2 1 25305 113611 113612 XOR\n2 1 113643 113612 92153 XOR\n2 1 94156 113612 25310 XOR\n1 1 92153 25240 INV\n2 1 96204 113612 25309 XOR\n2 1 25309 25310 25308 AND\n2 1 25308 113612 113613 XOR\n2 1 113644 113613 92154 XOR\n2 1 94157 113613 25313 XOR\n2 1 96205 113613 25312 XOR\n2 1 25312 25313 25311 AND\n2 1 113641 113610 92151 XOR\n2 1 25311 113613 113614 XOR\n2 1 94158 113614 25316 XOR\n2 1 96206 113614 25315 XOR\n2 1 25315 25316 25314 AND\n2 1 25314 113614 113615 XOR\n2 1 113646 113615 92156 XOR\n2 1 113645 113614 92155 XOR\n1 1 92156 25242 INV\n2 1 96207 113615 25318 XOR\n2 1 94159 113615 25319 XOR\n2 1 25318 25319 25317 AND\n2 1 25317 113615 113616 XOR\n2 1 113647 113616 92157 XOR\n1 1 92157 25243 INV\n2 1 96208 113616 25321 XOR\n1 1 92155 25241 INV\n2 1 94160 113616 25322 XOR\n2 1 25321 25322 25320 AND\n2 1 25320 113616 113617 XOR\n2 1 94161 113617 25325 XOR\n2 1 96209 113617 25324 XOR\n2 1 25324 25325 25323 AND\n2 1 25323 113617 113618 XOR\n2 1 113649 113618 92159 XOR\n2 1 94162 113618 25328 XOR\n2 1 96210 113618 25327 XOR\n2 1 25327 25328 25326 AND\n2 1 25326 113618 113619 XOR\n2 1 96211 113619 25330 XOR\n2 1 113650 113619 92160 XOR\n2 1 94163 113619 25331 XOR\n2 1 25330 25331 25329 AND\n2 1 25329 113619 113620 XOR\n1 1 92160 25244 INV\n2 1 113651 113620 92161 XOR\n2 1 113648 113617 92158 XOR\n2 1 94164 113620 25334 XOR\n2 1 96212 113620 25333 XOR\n2 1 25333 25334 25332 AND\n2 1 25332 113620 113621 XOR\n2 1 113652 113621 92162 XOR\n2 1 10146 104028 104029 XOR\n2 1 1196 104029 10150 XOR\n2 1 90108 104090 10237 XOR\n2 1 10237 10238 10236 AND\n2 1 10236 104090 104091 XOR\n2 1 83965 104091 10241 XOR\n2 1 1195 90108 104059 XOR\n2 1 104059 104028 1515 XOR\n2 1 63642 1515 63610 AND\n2 1 63610 1579 98209 XOR\n2 1 1515 1547 63578 XOR\n2 1 1510 1515 61199 XOR\n2 1 90108 25169 25168 AND\n2 1 25168 25169 25221 XOR\n1 1 25221 25172 INV\n2 1 25236 25221 90109 XOR\n2 1 90109 104029 10151 XOR\n2 1 10150 10151 10149 AND\n",
"2 1 10149 104029 104030 XOR\n2 1 1197 104030 10153 XOR\n2 1 90109 83965 104122 XOR\n2 1 1196 90109 104060 XOR\n2 1 104060 104029 1516 XOR\n2 1 63643 1516 63611 AND\n2 1 63611 1580 98210 XOR\n2 1 1516 1548 63579 XOR\n2 1 1511 1516 61200 XOR\n2 1 92143 25221 25171 XOR\n2 1 25171 25172 25170 AND\n2 1 25170 25221 25222 XOR\n2 1 25237 25222 90110 XOR\n2 1 90110 104030 10154 XOR\n2 1 10153 10154 10152 AND\n2 1 10152 104030 104031 XOR\n2 1 1198 104031 10156 XOR\n2 1 90110 83966 104123 XOR\n2 1 92144 25222 25174 XOR\n1 1 25222 25175 INV\n2 1 25174 25175 25173 AND\n2 1 25173 25222 25223 XOR\n2 1 25238 25223 90111 XOR\n2 1 90111 104031 10157 XOR\n2 1 10156 10157 10155 AND\n2 1 10155 104031 104032 XOR\n2 1 1199 104032 10159 XOR\n2 1 90111 83967 104124 XOR\n2 1 92145 25223 25177 XOR\n2 1 1197 90110 104061 XOR\n2 1 104061 104030 1517 XOR\n2 1 63644 1517 63612 AND\n2 1 63612 1581 98211 XOR\n2 1 1517 1549 63580 XOR\n2 1 1198 90111 104062 XOR\n2 1 104062 104031 1518 XOR\n2 1 63645 1518 63613 AND\n2 1 63613 1582 98212 XOR\n2 1 1518 1550 63581 XOR\n1 1 25223 25178 INV\n2 1 25177 25178 25176 AND\n2 1 25176 25223 25180 XOR\n2 1 1513 1518 61202 XOR\n2 1 1512 1517 61201 XOR\n2 1 90109 104091 10240 XOR\n2 1 104122 104091 1068 XOR\n2 1 1068 1132 69979 XOR\n2 1 69979 69947 69915 AND\n2 1 69915 1132 85981 XOR\n2 1 1068 1100 69851 XOR\n2 1 1057 1068 67150 XOR\n2 1 10240 10241 10239 AND\n2 1 10239 104091 104092 XOR\n2 1 83966 104092 10244 XOR\n2 1 90110 104092 10243 XOR\n2 1 10243 10244 10242 AND\n2 1 104123 104092 1069 XOR\n2 1 1069 1133 69980 XOR\n2 1 69980 69948 69916 AND\n2 1 69916 1133 85982 XOR\n2 1 1069 1101 69852 XOR\n2 1 1058 1069 67119 XOR\n2 1 10242 104092 104093 XOR\n2 1 104124 104093 1070 XOR\n2 1 1070 1134 69981 XOR\n2 1 69981 69949 69917 AND\n2 1 69917 1134 85983 XOR\n2 1 1070 1102 69853 XOR\n2 1 1059 1070 67120 XOR\n2 1 90111 104093 10246 XOR\n2 1 83967 104093 10247 XOR\n2 1 10246 10247 10245 AND\n2 1 10245 104093 104094 XOR\n2 1 83968 104094 10250 XOR\n2 1 92146 25180 90112 XOR\n2 1 90112 83968 104125 XOR\n2 1 1199 90112 104063 XOR\n2 1 104063 104032 1519 XOR\n2 1 63646 1519 63614 AND\n2 1 63614 1583 98213 XOR\n2 1 1519 1551 63582 XOR\n2 1 104125 104094 1071 XOR\n2 1 1071 1135 69982 XOR\n2 1 69982 69950 69918 AND\n2 1 69918 1135 85984 XOR\n2 1 1071 1103 69854 XOR\n2 1 1060 1071 67121 XOR\n2 1 1514 1519 61203 XOR\n2 1 90112 104094 10249 XOR\n2 1 10249 10250 10248 AND\n2 1 10248 104094 104095 XOR\n2 1 83969 104095 10253 XOR\n2 1 90112 104032 10160 XOR\n2 1 10159 10160 10158 AND\n2 1 10158 104032 104033 XOR\n2 1 1200 104033 10162 XOR\n2 1 90112 25180 25179 AND\n2 1 25179 25180 25182 XOR\n2 1 92147 25182 90113 XOR\n2 1 90113 83969 104126 XOR\n2 1 104126 104095 1072 XOR\n2 1 1072 1136 69983 XOR\n2 1 69983 69951 69919 AND\n2 1 69919 1136 85985 XOR\n2 1 1072 1104 69855 XOR\n2 1 1061 1072 67122 XOR\n2 1 90113 104095 10252 XOR\n2 1 10252 10253 10251 AND\n2 1 10251 104095 104096 XOR\n2 1 83970 104096 10256 XOR\n2 1 90113 104033 10163 XOR\n2 1 10162 10163 10161 AND\n2 1 10161 104033 104034 XOR\n2 1 1201 104034 10165 XOR\n2 1 90113 25182 25181 AND\n2 1 25181 25182 25184 XOR\n2 1 1200 90113 104064 XOR\n2 1 104064 104033 1520 XOR\n2 1 63647 1520 63615 AND\n2 1 63615 1584 98214 XOR\n2 1 1520 1552 63583 XOR\n2 1 1515 1520 61204 XOR\n2 1 92148 25184 90114 XOR\n2 1 1201 90114 104065 XOR\n2 1 104065 104034 1521 XOR\n2 1 1521 1553 63584 XOR\n2 1 1516 1521 61205 XOR\n2 1 63648 1521 63616 AND\n",
"2 1 63616 1585 98215 XOR\n2 1 90114 104096 10255 XOR\n2 1 10255 10256 10254 AND\n2 1 90114 83970 104127 XOR\n2 1 104127 104096 1073 XOR\n2 1 1073 1137 69984 XOR\n2 1 1062 1073 67123 XOR\n2 1 69984 69952 69920 AND\n2 1 69920 1137 85986 XOR\n2 1 1073 1105 69856 XOR\n2 1 90114 104034 10166 XOR\n2 1 10165 10166 10164 AND\n2 1 10254 104096 104097 XOR\n2 1 83971 104097 10259 XOR\n2 1 10164 104034 104035 XOR\n2 1 1202 104035 10168 XOR\n2 1 90114 25184 25183 AND\n2 1 25183 25184 25186 XOR\n2 1 92149 25186 90115 XOR\n2 1 90115 25186 25185 AND\n2 1 25185 25186 25224 XOR\n2 1 92150 25224 25188 XOR\n1 1 25224 25189 INV\n2 1 25188 25189 25187 AND\n2 1 25187 25224 25191 XOR\n2 1 92151 25191 90117 XOR\n2 1 90117 25191 25190 AND\n2 1 25190 25191 25193 XOR\n2 1 92152 25193 90118 XOR\n2 1 90118 25193 25192 AND\n2 1 1205 90118 104069 XOR\n2 1 90118 83974 104131 XOR\n2 1 25192 25193 25225 XOR\n2 1 92153 25225 25195 XOR\n1 1 25225 25196 INV\n2 1 25240 25225 90119 XOR\n2 1 90119 83975 104132 XOR\n2 1 1206 90119 104070 XOR\n2 1 25195 25196 25194 AND\n2 1 25194 25225 25198 XOR\n2 1 92154 25198 90120 XOR\n2 1 90120 25198 25197 AND\n2 1 25197 25198 25226 XOR\n2 1 25241 25226 90121 XOR\n2 1 90121 83977 104134 XOR\n2 1 1208 90121 104072 XOR\n2 1 90120 83976 104133 XOR\n2 1 92155 25226 25200 XOR\n2 1 1207 90120 104071 XOR\n2 1 25239 25224 90116 XOR\n2 1 1203 90116 104067 XOR\n2 1 90116 83972 104129 XOR\n2 1 90115 83971 104128 XOR\n2 1 90115 104035 10169 XOR\n2 1 10168 10169 10167 AND\n2 1 10167 104035 104036 XOR\n2 1 90115 104097 10258 XOR\n2 1 10258 10259 10257 AND\n2 1 10257 104097 104098 XOR\n2 1 83972 104098 10262 XOR\n2 1 90116 104098 10261 XOR\n2 1 10261 10262 10260 AND\n2 1 10260 104098 104099 XOR\n2 1 83973 104099 10265 XOR\n2 1 1202 90115 104066 XOR\n2 1 104066 104035 1522 XOR\n2 1 63649 1522 63617 AND\n2 1 63617 1586 98216 XOR\n2 1 1522 1554 63585 XOR\n2 1 90117 104099 10264 XOR\n2 1 10264 10265 10263 AND\n2 1 10263 104099 104100 XOR\n2 1 83974 104100 10268 XOR\n2 1 104131 104100 1077 XOR\n2 1 1077 1141 69988 XOR\n2 1 69988 69956 69924 AND\n2 1 69924 1141 85990 XOR\n2 1 1077 1109 69860 XOR\n2 1 1077 1056 67138 XOR\n2 1 1066 1077 67127 XOR\n2 1 67150 1077 88048 XOR\n2 1 67138 1065 88036 XOR\n2 1 1203 104036 10171 XOR\n2 1 90117 83973 104130 XOR\n2 1 104130 104099 1076 XOR\n2 1 1076 1140 69987 XOR\n2 1 69987 69955 69923 AND\n2 1 69923 1140 85989 XOR\n2 1 1076 1108 69859 XOR\n2 1 1065 1076 67126 XOR\n2 1 67149 1076 88047 XOR\n1 1 25226 25201 INV\n2 1 25200 25201 25199 AND\n2 1 25199 25226 25227 XOR\n2 1 92156 25227 25203 XOR\n2 1 25242 25227 90122 XOR\n2 1 90122 83978 104135 XOR\n2 1 1209 90122 104073 XOR\n1 1 25227 25204 INV\n2 1 25203 25204 25202 AND\n2 1 25202 25227 25228 XOR\n1 1 25228 25207 INV\n2 1 25243 25228 90123 XOR\n2 1 1210 90123 104074 XOR\n2 1 90123 83979 104136 XOR\n2 1 92157 25228 25206 XOR\n2 1 25206 25207 25205 AND\n2 1 25205 25228 25209 XOR\n2 1 92158 25209 90124 XOR\n2 1 90124 25209 25208 AND\n2 1 1211 90124 104075 XOR\n2 1 25208 25209 25211 XOR\n2 1 92159 25211 90125 XOR\n2 1 90125 25211 25210 AND\n2 1 25210 25211 25229 XOR\n2 1 92160 25229 25213 XOR\n2 1 25244 25229 90126 XOR\n1 1 25229 25214 INV\n2 1 25213 25214 25212 AND\n2 1 25212 25229 25216 XOR\n2 1 1212 90125 104076 XOR\n2 1 92161 25216 90127 XOR\n2 1 90127 25216 25215 AND\n2 1 25215 25216 25230 XOR\n2 1 92162 25230 90128 XOR\n2 1 1215 90128 104079 XOR\n2 1 1213 90126 104077 XOR\n2 1 1214 90127 104078 XOR\n",
"2 1 90116 104036 10172 XOR\n2 1 10171 10172 10170 AND\n2 1 10170 104036 104037 XOR\n2 1 90117 104037 10175 XOR\n2 1 1517 1522 61206 XOR\n2 1 61206 1504 100253 XOR\n2 1 100253 98205 113504 XOR\n2 1 1204 104037 10174 XOR\n2 1 10174 10175 10173 AND\n2 1 10173 104037 104038 XOR\n2 1 1205 104038 10177 XOR\n2 1 90118 104038 10178 XOR\n2 1 10177 10178 10176 AND\n2 1 104069 104038 1525 XOR\n2 1 63652 1525 63620 AND\n2 1 63620 1589 98219 XOR\n2 1 1525 1557 63588 XOR\n2 1 1520 1525 61209 XOR\n2 1 61227 1525 100274 XOR\n2 1 61209 1507 100256 XOR\n2 1 100256 98208 113507 XOR\n2 1 104129 104098 1075 XOR\n2 1 1075 1139 69986 XOR\n2 1 69986 69954 69922 AND\n2 1 69922 1139 85988 XOR\n2 1 1075 1107 69858 XOR\n2 1 1064 1075 67125 XOR\n2 1 88036 85988 113314 XOR\n2 1 1204 90117 104068 XOR\n2 1 104068 104037 1524 XOR\n2 1 63651 1524 63619 AND\n2 1 63619 1588 98218 XOR\n2 1 1524 1556 63587 XOR\n2 1 1519 1524 61208 XOR\n2 1 61226 1524 100273 XOR\n2 1 61208 1506 100255 XOR\n2 1 100255 98207 113506 XOR\n2 1 104067 104036 1523 XOR\n2 1 63650 1523 63618 AND\n2 1 63618 1587 98217 XOR\n2 1 1523 1555 63586 XOR\n2 1 1518 1523 61207 XOR\n2 1 61225 1523 100272 XOR\n2 1 61207 1505 100254 XOR\n2 1 100254 98206 113505 XOR\n2 1 90124 83980 104137 XOR\n2 1 90118 104100 10267 XOR\n2 1 10267 10268 10266 AND\n2 1 10266 104100 104101 XOR\n2 1 104132 104101 1078 XOR\n2 1 1078 1142 69989 XOR\n2 1 69989 69957 69925 AND\n2 1 69925 1142 85991 XOR\n2 1 1078 1110 69861 XOR\n2 1 1078 1057 67139 XOR\n2 1 1067 1078 67128 XOR\n2 1 67139 1066 88037 XOR\n2 1 88037 85989 113315 XOR\n2 1 67119 1078 88017 XOR\n2 1 88017 85969 113265 AND\n2 1 85970 113265 24611 XOR\n2 1 88017 85969 83921 XOR\n2 1 90119 104101 10270 XOR\n2 1 83975 104101 10271 XOR\n2 1 10270 10271 10269 AND\n2 1 10269 104101 104102 XOR\n2 1 83976 104102 10274 XOR\n2 1 90125 83981 104138 XOR\n2 1 104133 104102 1079 XOR\n2 1 1079 1143 69990 XOR\n2 1 69990 69958 69926 AND\n2 1 69926 1143 85992 XOR\n2 1 1079 1111 69862 XOR\n2 1 1079 1058 67140 XOR\n2 1 1068 1079 67129 XOR\n2 1 67140 1067 88038 XOR\n2 1 67129 1056 88027 XOR\n2 1 88027 85979 113305 XOR\n2 1 67120 1079 88018 XOR\n2 1 88038 85990 113316 XOR\n2 1 88018 113265 24610 XOR\n2 1 24610 24611 24609 AND\n2 1 24609 113265 113266 XOR\n2 1 85971 113266 24614 XOR\n2 1 88018 85970 113296 XOR\n2 1 113296 113265 83922 XOR\n2 1 10176 104038 104039 XOR\n2 1 90119 104039 10181 XOR\n2 1 1206 104039 10180 XOR\n2 1 10180 10181 10179 AND\n2 1 104070 104039 1526 XOR\n2 1 10179 104039 104040 XOR\n2 1 104071 104040 1527 XOR\n2 1 1207 104040 10183 XOR\n2 1 90120 104040 10184 XOR\n2 1 10183 10184 10182 AND\n2 1 10182 104040 104041 XOR\n2 1 90121 104041 10187 XOR\n2 1 1208 104041 10186 XOR\n2 1 104072 104041 1528 XOR\n2 1 63655 1528 63623 AND\n2 1 63654 1527 63622 AND\n2 1 63653 1526 63621 AND\n2 1 63623 1592 98222 XOR\n2 1 63622 1591 98221 XOR\n2 1 63621 1590 98220 XOR\n2 1 1528 1560 63591 XOR\n2 1 1527 1559 63590 XOR\n2 1 1526 1558 63589 XOR\n2 1 10186 10187 10185 AND\n2 1 10185 104041 104042 XOR\n2 1 90122 104042 10190 XOR\n2 1 104073 104042 1529 XOR\n2 1 63656 1529 63624 AND\n2 1 63624 1593 98223 XOR\n2 1 1529 1561 63592 XOR\n2 1 1209 104042 10189 XOR\n2 1 10189 10190 10188 AND\n2 1 10188 104042 104043 XOR\n2 1 104074 104043 1530 XOR\n2 1 63657 1530 63625 AND\n2 1 63625 1594 98224 XOR\n2 1 1530 1562 63593 XOR\n2 1 100272 98224 113523 XOR\n2 1 1525 1530 61214 XOR\n2 1 1524 1529 61213 XOR\n2 1 1523 1528 61212 XOR\n2 1 1522 1527 61211 XOR\n",
"2 1 1521 1526 61210 XOR\n2 1 61230 1528 100277 XOR\n2 1 61229 1527 100276 XOR\n2 1 61228 1526 100275 XOR\n2 1 61214 1512 100261 XOR\n2 1 100261 98213 113512 XOR\n2 1 61213 1511 100260 XOR\n2 1 100260 98212 113511 XOR\n2 1 61212 1510 100259 XOR\n2 1 100259 98211 113510 XOR\n2 1 61211 1509 100258 XOR\n2 1 100258 98210 113509 XOR\n2 1 61210 1508 100257 XOR\n2 1 100257 98209 113508 XOR\n2 1 61200 1530 100247 XOR\n2 1 100247 98199 113498 XOR\n2 1 61199 1529 100246 XOR\n2 1 100246 98198 113467 AND\n2 1 100247 113467 24969 XOR\n2 1 98199 113467 24970 XOR\n2 1 24969 24970 24968 AND\n2 1 24968 113467 113468 XOR\n2 1 98200 113468 24973 XOR\n2 1 113498 113467 96151 XOR\n2 1 100246 98198 96150 XOR\n2 1 90123 104043 10193 XOR\n2 1 1210 104043 10192 XOR\n2 1 10192 10193 10191 AND\n2 1 10191 104043 104044 XOR\n2 1 90124 104044 10196 XOR\n2 1 1211 104044 10195 XOR\n2 1 10195 10196 10194 AND\n2 1 104075 104044 1531 XOR\n2 1 63658 1531 63626 AND\n2 1 63626 1595 98225 XOR\n2 1 1531 1563 63594 XOR\n2 1 100273 98225 113524 XOR\n2 1 1531 1504 61220 XOR\n2 1 1526 1531 61215 XOR\n2 1 61220 1518 100267 XOR\n2 1 100267 98219 113518 XOR\n2 1 61215 1513 100262 XOR\n2 1 100262 98214 113513 XOR\n2 1 61201 1531 100248 XOR\n2 1 100248 98200 113499 XOR\n2 1 113499 113468 96152 XOR\n2 1 100248 113468 24972 XOR\n2 1 24972 24973 24971 AND\n2 1 24971 113468 113469 XOR\n2 1 98201 113469 24976 XOR\n2 1 10194 104044 104045 XOR\n2 1 1212 104045 10198 XOR\n2 1 104076 104045 1532 XOR\n2 1 90125 104045 10199 XOR\n2 1 10198 10199 10197 AND\n2 1 10197 104045 104046 XOR\n2 1 1213 104046 10201 XOR\n2 1 90126 104046 10202 XOR\n2 1 10201 10202 10200 AND\n2 1 10200 104046 104047 XOR\n2 1 1214 104047 10204 XOR\n2 1 104078 104047 1534 XOR\n2 1 90127 104047 10205 XOR\n2 1 104077 104046 1533 XOR\n2 1 10204 10205 10203 AND\n2 1 10203 104047 104048 XOR\n2 1 104079 104048 1535 XOR\n2 1 63662 1535 63630 AND\n2 1 63661 1534 63629 AND\n2 1 63660 1533 63628 AND\n2 1 63659 1532 63627 AND\n2 1 63630 1599 98229 XOR\n2 1 63629 1598 98228 XOR\n2 1 63628 1597 98227 XOR\n2 1 63627 1596 98226 XOR\n2 1 1535 1567 63598 XOR\n2 1 1534 1566 63597 XOR\n2 1 1533 1565 63596 XOR\n2 1 1532 1564 63595 XOR\n2 1 100275 98227 113526 XOR\n2 1 100277 98229 113528 XOR\n2 1 100276 98228 113527 XOR\n2 1 100274 98226 113525 XOR\n2 1 1535 1508 61224 XOR\n2 1 1534 1507 61223 XOR\n2 1 1533 1506 61222 XOR\n2 1 1532 1505 61221 XOR\n2 1 1530 1535 61219 XOR\n2 1 1529 1534 61218 XOR\n2 1 1528 1533 61217 XOR\n2 1 1527 1532 61216 XOR\n2 1 61224 1522 100271 XOR\n2 1 100271 98223 113522 XOR\n2 1 61223 1521 100270 XOR\n2 1 100270 98222 113521 XOR\n2 1 61222 1520 100269 XOR\n2 1 100269 98221 113520 XOR\n2 1 61221 1519 100268 XOR\n2 1 100268 98220 113519 XOR\n2 1 61219 1517 100266 XOR\n2 1 100266 98218 113517 XOR\n2 1 61218 1516 100265 XOR\n2 1 100265 98217 113516 XOR\n2 1 61217 1515 100264 XOR\n2 1 100264 98216 113515 XOR\n2 1 61216 1514 100263 XOR\n2 1 100263 98215 113514 XOR\n2 1 61205 1535 100252 XOR\n2 1 100252 98204 113503 XOR\n2 1 61204 1534 100251 XOR\n2 1 100251 98203 113502 XOR\n2 1 61203 1533 100250 XOR\n2 1 100250 98202 113501 XOR\n2 1 61202 1532 100249 XOR\n2 1 100249 98201 113500 XOR\n2 1 100249 113469 24975 XOR\n2 1 24975 24976 24974 AND\n2 1 24974 113469 113470 XOR\n2 1 100250 113470 24978 XOR\n2 1 98202 113470 24979 XOR\n2 1 113501 113470 96154 XOR\n2 1 113500 113469 96153 XOR\n2 1 24978 24979 24977 AND\n2 1 24977 113470 113471 XOR\n2 1 113502 113471 96155 XOR\n2 1 98203 113471 24982 XOR\n2 1 100251 113471 24981 XOR\n2 1 24981 24982 24980 AND\n",
"2 1 24980 113471 113472 XOR\n2 1 100252 113472 24984 XOR\n2 1 98204 113472 24985 XOR\n2 1 113503 113472 96156 XOR\n2 1 24984 24985 24983 AND\n2 1 24983 113472 113473 XOR\n2 1 113504 113473 96157 XOR\n2 1 98205 113473 24988 XOR\n2 1 100253 113473 24987 XOR\n2 1 24987 24988 24986 AND\n2 1 24986 113473 113474 XOR\n2 1 100254 113474 24990 XOR\n2 1 98206 113474 24991 XOR\n2 1 113505 113474 96158 XOR\n2 1 24990 24991 24989 AND\n2 1 24989 113474 113475 XOR\n2 1 113506 113475 96159 XOR\n2 1 98207 113475 24994 XOR\n2 1 100255 113475 24993 XOR\n2 1 24993 24994 24992 AND\n2 1 24992 113475 113476 XOR\n2 1 100256 113476 24996 XOR\n2 1 98208 113476 24997 XOR\n2 1 113507 113476 96160 XOR\n2 1 24996 24997 24995 AND\n2 1 24995 113476 113477 XOR\n2 1 113508 113477 96161 XOR\n2 1 98209 113477 25000 XOR\n2 1 100257 113477 24999 XOR\n2 1 24999 25000 24998 AND\n2 1 24998 113477 113478 XOR\n2 1 113509 113478 96162 XOR\n2 1 98210 113478 25003 XOR\n2 1 100258 113478 25002 XOR\n2 1 25002 25003 25001 AND\n2 1 25001 113478 113479 XOR\n2 1 113510 113479 96163 XOR\n2 1 98211 113479 25006 XOR\n2 1 100259 113479 25005 XOR\n2 1 25005 25006 25004 AND\n2 1 25004 113479 113480 XOR\n2 1 98212 113480 25009 XOR\n2 1 100260 113480 25008 XOR\n2 1 25008 25009 25007 AND\n2 1 25007 113480 113481 XOR\n2 1 100261 113481 25011 XOR\n2 1 98213 113481 25012 XOR\n2 1 25011 25012 25010 AND\n2 1 25010 113481 113482 XOR\n2 1 113513 113482 96166 XOR\n2 1 100262 113482 25014 XOR\n2 1 98214 113482 25015 XOR\n2 1 25014 25015 25013 AND\n2 1 25013 113482 113483 XOR\n2 1 113514 113483 96167 XOR\n2 1 100263 113483 25017 XOR\n2 1 98215 113483 25018 XOR\n2 1 25017 25018 25016 AND\n2 1 113512 113481 96165 XOR\n2 1 25016 113483 113484 XOR\n2 1 113515 113484 96168 XOR\n2 1 100264 113484 25020 XOR\n2 1 98216 113484 25021 XOR\n2 1 25020 25021 25019 AND\n2 1 25019 113484 113485 XOR\n2 1 98217 113485 25024 XOR\n2 1 113516 113485 96169 XOR\n2 1 113511 113480 96164 XOR\n2 1 100265 113485 25023 XOR\n2 1 25023 25024 25022 AND\n2 1 25022 113485 113486 XOR\n2 1 98218 113486 25027 XOR\n2 1 100266 113486 25026 XOR\n2 1 113517 113486 96170 XOR\n2 1 25026 25027 25025 AND\n2 1 25025 113486 113487 XOR\n2 1 100267 113487 25029 XOR\n2 1 113518 113487 96171 XOR\n2 1 98219 113487 25030 XOR\n2 1 25029 25030 25028 AND\n2 1 25028 113487 113488 XOR\n2 1 113519 113488 96172 XOR\n2 1 98220 113488 25033 XOR\n2 1 100268 113488 25032 XOR\n2 1 25032 25033 25031 AND\n2 1 25031 113488 113489 XOR\n2 1 113520 113489 96173 XOR\n2 1 98221 113489 25036 XOR\n2 1 100269 113489 25035 XOR\n2 1 25035 25036 25034 AND\n2 1 25034 113489 113490 XOR\n2 1 113521 113490 96174 XOR\n2 1 98222 113490 25039 XOR\n2 1 100270 113490 25038 XOR\n2 1 25038 25039 25037 AND\n2 1 25037 113490 113491 XOR\n2 1 100271 113491 25041 XOR\n2 1 113522 113491 96175 XOR\n2 1 98223 113491 25042 XOR\n2 1 25041 25042 25040 AND\n2 1 25040 113491 113492 XOR\n2 1 100272 113492 25044 XOR\n2 1 98224 113492 25045 XOR\n2 1 25044 25045 25043 AND\n2 1 25043 113492 113493 XOR\n2 1 98225 113493 25048 XOR\n2 1 113524 113493 96177 XOR\n2 1 113523 113492 96176 XOR\n2 1 100273 113493 25047 XOR\n2 1 25047 25048 25046 AND\n2 1 25046 113493 113494 XOR\n2 1 98226 113494 25051 XOR\n2 1 113525 113494 96178 XOR\n2 1 100274 113494 25050 XOR\n2 1 25050 25051 25049 AND\n2 1 25049 113494 113495 XOR\n2 1 113526 113495 96179 XOR\n2 1 100275 113495 25053 XOR\n2 1 98227 113495 25054 XOR\n2 1 25053 25054 25052 AND\n2 1 25052 113495 113496 XOR\n2 1 100276 113496 25056 XOR\n2 1 113527 113496 96180 XOR\n2 1 98228 113496 25057 XOR\n2 1 25056 25057 25055 AND\n2 1 25055 113496 113497 XOR\n2 1 113528 113497 96181 XOR\n2 1 90126 83982 104139 XOR\n",
"2 1 90128 83984 104141 XOR\n2 1 90127 83983 104140 XOR\n2 1 104128 104097 1074 XOR\n2 1 1074 1138 69985 XOR\n2 1 69985 69953 69921 AND\n2 1 69921 1138 85987 XOR\n2 1 1074 1106 69857 XOR\n2 1 1063 1074 67124 XOR\n2 1 90120 104102 10273 XOR\n2 1 10273 10274 10272 AND\n2 1 10272 104102 104103 XOR\n2 1 90121 104103 10276 XOR\n2 1 83977 104103 10277 XOR\n2 1 10276 10277 10275 AND\n2 1 10275 104103 104104 XOR\n2 1 90122 104104 10279 XOR\n2 1 104135 104104 1081 XOR\n2 1 83978 104104 10280 XOR\n2 1 10279 10280 10278 AND\n2 1 10278 104104 104105 XOR\n2 1 1081 1145 69992 XOR\n2 1 69992 69960 69928 AND\n2 1 69928 1145 85994 XOR\n2 1 1081 1113 69864 XOR\n2 1 1081 1060 67142 XOR\n2 1 1070 1081 67131 XOR\n2 1 67142 1069 88040 XOR\n2 1 67131 1058 88029 XOR\n2 1 88029 85981 113307 XOR\n2 1 67122 1081 88020 XOR\n2 1 88020 85972 113298 XOR\n2 1 88040 85992 113318 XOR\n2 1 90123 104105 10282 XOR\n2 1 104136 104105 1082 XOR\n2 1 1082 1146 69993 XOR\n2 1 69993 69961 69929 AND\n2 1 69929 1146 85995 XOR\n2 1 1082 1114 69865 XOR\n2 1 1082 1061 67143 XOR\n2 1 1071 1082 67132 XOR\n2 1 67143 1070 88041 XOR\n2 1 67132 1059 88030 XOR\n2 1 67123 1082 88021 XOR\n2 1 88021 85973 113299 XOR\n2 1 88030 85982 113308 XOR\n2 1 83979 104105 10283 XOR\n2 1 10282 10283 10281 AND\n2 1 10281 104105 104106 XOR\n2 1 104137 104106 1083 XOR\n2 1 1083 1147 69994 XOR\n2 1 69994 69962 69930 AND\n2 1 69930 1147 85996 XOR\n2 1 1083 1115 69866 XOR\n2 1 1083 1062 67144 XOR\n2 1 1072 1083 67133 XOR\n2 1 67144 1071 88042 XOR\n2 1 67133 1060 88031 XOR\n2 1 88031 85983 113309 XOR\n2 1 67124 1083 88022 XOR\n2 1 88042 85994 113320 XOR\n2 1 88022 85974 113300 XOR\n2 1 83980 104106 10286 XOR\n2 1 90124 104106 10285 XOR\n2 1 10285 10286 10284 AND\n2 1 10284 104106 104107 XOR\n2 1 104138 104107 1084 XOR\n2 1 1084 1148 69995 XOR\n2 1 69995 69963 69931 AND\n2 1 69931 1148 85997 XOR\n2 1 1084 1116 69867 XOR\n2 1 1084 1063 67145 XOR\n2 1 1073 1084 67134 XOR\n2 1 67145 1072 88043 XOR\n2 1 67134 1061 88032 XOR\n2 1 88032 85984 113310 XOR\n2 1 67125 1084 88023 XOR\n2 1 88023 85975 113301 XOR\n2 1 88043 85995 113321 XOR\n2 1 90125 104107 10288 XOR\n2 1 83981 104107 10289 XOR\n2 1 10288 10289 10287 AND\n2 1 10287 104107 104108 XOR\n2 1 83982 104108 10292 XOR\n2 1 90126 104108 10291 XOR\n2 1 10291 10292 10290 AND\n2 1 10290 104108 104109 XOR\n2 1 90127 104109 10294 XOR\n2 1 83983 104109 10295 XOR\n2 1 104140 104109 1086 XOR\n2 1 1086 1150 69997 XOR\n2 1 69997 69965 69933 AND\n2 1 69933 1150 85999 XOR\n2 1 1086 1118 69869 XOR\n2 1 1086 1065 67147 XOR\n2 1 1075 1086 67136 XOR\n2 1 67147 1074 88045 XOR\n2 1 67136 1063 88034 XOR\n2 1 67127 1086 88025 XOR\n2 1 88025 85977 113303 XOR\n2 1 88034 85986 113312 XOR\n2 1 88047 85999 113325 XOR\n2 1 88045 85997 113323 XOR\n2 1 10294 10295 10293 AND\n2 1 10293 104109 104110 XOR\n2 1 104141 104110 1087 XOR\n2 1 1087 1151 69998 XOR\n2 1 69998 69966 69934 AND\n2 1 69934 1151 86000 XOR\n2 1 1087 1119 69870 XOR\n2 1 1087 1066 67148 XOR\n2 1 1076 1087 67137 XOR\n2 1 67148 1075 88046 XOR\n2 1 67137 1064 88035 XOR\n2 1 67128 1087 88026 XOR\n2 1 88035 85987 113313 XOR\n2 1 88048 86000 113326 XOR\n2 1 88026 85978 113304 XOR\n2 1 104134 104103 1080 XOR\n2 1 1080 1144 69991 XOR\n2 1 69991 69959 69927 AND\n2 1 69927 1144 85993 XOR\n2 1 1080 1112 69863 XOR\n2 1 1080 1059 67141 XOR\n2 1 1069 1080 67130 XOR\n2 1 67141 1068 88039 XOR\n2 1 67130 1057 88028 XOR\n2 1 88028 85980 113306 XOR\n2 1 67121 1080 88019 XOR\n",
"2 1 88041 85993 113319 XOR\n2 1 88039 85991 113317 XOR\n2 1 88019 113266 24613 XOR\n2 1 24613 24614 24612 AND\n2 1 24612 113266 113267 XOR\n2 1 113298 113267 83924 XOR\n2 1 85972 113267 24617 XOR\n2 1 88020 113267 24616 XOR\n2 1 24616 24617 24615 AND\n2 1 24615 113267 113268 XOR\n2 1 88021 113268 24619 XOR\n2 1 113299 113268 83925 XOR\n2 1 85973 113268 24620 XOR\n2 1 24619 24620 24618 AND\n2 1 24618 113268 113269 XOR\n2 1 88022 113269 24622 XOR\n2 1 113300 113269 83926 XOR\n2 1 85974 113269 24623 XOR\n2 1 24622 24623 24621 AND\n2 1 24621 113269 113270 XOR\n2 1 88023 113270 24625 XOR\n2 1 113301 113270 83927 XOR\n2 1 85975 113270 24626 XOR\n2 1 24625 24626 24624 AND\n2 1 24624 113270 113271 XOR\n2 1 88019 85971 113297 XOR\n2 1 113297 113266 83923 XOR\n2 1 85976 113271 24629 XOR\n2 1 104139 104108 1085 XOR\n2 1 1085 1149 69996 XOR\n2 1 69996 69964 69932 AND\n2 1 69932 1149 85998 XOR\n2 1 1085 1117 69868 XOR\n2 1 1085 1064 67146 XOR\n2 1 1074 1085 67135 XOR\n2 1 67146 1073 88044 XOR\n2 1 67135 1062 88033 XOR\n2 1 67126 1085 88024 XOR\n2 1 88024 85976 113302 XOR\n2 1 88033 85985 113311 XOR\n2 1 88046 85998 113324 XOR\n2 1 88044 85996 113322 XOR\n2 1 88024 113271 24628 XOR\n2 1 24628 24629 24627 AND\n2 1 24627 113271 113272 XOR\n2 1 85977 113272 24632 XOR\n2 1 113303 113272 83929 XOR\n2 1 113302 113271 83928 XOR\n2 1 88025 113272 24631 XOR\n2 1 24631 24632 24630 AND\n2 1 24630 113272 113273 XOR\n2 1 88026 113273 24634 XOR\n2 1 113304 113273 83930 XOR\n2 1 85978 113273 24635 XOR\n2 1 24634 24635 24633 AND\n2 1 24633 113273 113274 XOR\n2 1 85979 113274 24638 XOR\n2 1 113305 113274 83931 XOR\n2 1 88027 113274 24637 XOR\n2 1 24637 24638 24636 AND\n2 1 24636 113274 113275 XOR\n2 1 88028 113275 24640 XOR\n2 1 113306 113275 83932 XOR\n2 1 85980 113275 24641 XOR\n2 1 24640 24641 24639 AND\n2 1 24639 113275 113276 XOR\n2 1 113307 113276 83933 XOR\n2 1 88029 113276 24643 XOR\n2 1 85981 113276 24644 XOR\n2 1 24643 24644 24642 AND\n2 1 24642 113276 113277 XOR\n2 1 113308 113277 83934 XOR\n2 1 88030 113277 24646 XOR\n2 1 85982 113277 24647 XOR\n2 1 24646 24647 24645 AND\n2 1 24645 113277 113278 XOR\n2 1 113309 113278 83935 XOR\n2 1 88031 113278 24649 XOR\n2 1 85983 113278 24650 XOR\n2 1 24649 24650 24648 AND\n2 1 24648 113278 113279 XOR\n2 1 113310 113279 83936 XOR\n2 1 88032 113279 24652 XOR\n2 1 85984 113279 24653 XOR\n2 1 24652 24653 24651 AND\n2 1 24651 113279 113280 XOR\n2 1 113311 113280 83937 XOR\n2 1 88033 113280 24655 XOR\n2 1 85985 113280 24656 XOR\n2 1 24655 24656 24654 AND\n2 1 24654 113280 113281 XOR\n2 1 113312 113281 83938 XOR\n2 1 88034 113281 24658 XOR\n2 1 85986 113281 24659 XOR\n2 1 24658 24659 24657 AND\n2 1 24657 113281 113282 XOR\n2 1 113313 113282 83939 XOR\n2 1 88035 113282 24661 XOR\n2 1 85987 113282 24662 XOR\n2 1 24661 24662 24660 AND\n2 1 24660 113282 113283 XOR\n2 1 113314 113283 83940 XOR\n2 1 88036 113283 24664 XOR\n2 1 85988 113283 24665 XOR\n2 1 24664 24665 24663 AND\n2 1 24663 113283 113284 XOR\n2 1 113315 113284 83941 XOR\n2 1 88037 113284 24667 XOR\n2 1 85989 113284 24668 XOR\n2 1 24667 24668 24666 AND\n2 1 24666 113284 113285 XOR\n2 1 113316 113285 83942 XOR\n2 1 88038 113285 24670 XOR\n2 1 85990 113285 24671 XOR\n2 1 24670 24671 24669 AND\n2 1 24669 113285 113286 XOR\n2 1 113317 113286 83943 XOR\n2 1 88039 113286 24673 XOR\n2 1 85991 113286 24674 XOR\n2 1 24673 24674 24672 AND\n2 1 24672 113286 113287 XOR\n2 1 113318 113287 83944 XOR\n2 1 88040 113287 24676 XOR\n2 1 85992 113287 24677 XOR\n2 1 24676 24677 24675 AND\n2 1 24675 113287 113288 XOR\n2 1 113319 113288 83945 XOR\n2 1 88041 113288 24679 XOR\n",
"2 1 85993 113288 24680 XOR\n2 1 24679 24680 24678 AND\n2 1 24678 113288 113289 XOR\n2 1 113320 113289 83946 XOR\n2 1 88042 113289 24682 XOR\n2 1 85994 113289 24683 XOR\n2 1 24682 24683 24681 AND\n2 1 24681 113289 113290 XOR\n2 1 113321 113290 83947 XOR\n2 1 88043 113290 24685 XOR\n2 1 85995 113290 24686 XOR\n2 1 24685 24686 24684 AND\n2 1 24684 113290 113291 XOR\n2 1 113322 113291 83948 XOR\n2 1 88044 113291 24688 XOR\n2 1 85996 113291 24689 XOR\n2 1 24688 24689 24687 AND\n2 1 24687 113291 113292 XOR\n2 1 113323 113292 83949 XOR\n2 1 88045 113292 24691 XOR\n2 1 85997 113292 24692 XOR\n2 1 24691 24692 24690 AND\n2 1 24690 113292 113293 XOR\n2 1 85998 113293 24695 XOR\n2 1 113324 113293 83950 XOR\n2 1 88046 113293 24694 XOR\n2 1 24694 24695 24693 AND\n2 1 24693 113293 113294 XOR\n2 1 113325 113294 83951 XOR\n2 1 88047 113294 24697 XOR\n2 1 85999 113294 24698 XOR\n2 1 24697 24698 24696 AND\n2 1 24696 113294 113295 XOR\n2 1 113326 113295 83952 XOR\n2 1 76471 76482 82416 XOR\n2 1 82416 76528 128764 XOR\n2 1 76470 76481 82415 XOR\n2 1 82415 76527 128763 XOR\n2 1 76469 76480 82414 XOR\n2 1 82414 76526 128762 XOR\n2 1 76468 76479 5125 XOR\n2 1 76467 76478 5124 XOR\n2 1 76466 76477 5123 XOR\n2 1 76465 76476 5122 XOR\n2 1 76496 76475 5121 XOR\n2 1 76495 76474 5120 XOR\n2 1 76494 76473 5119 XOR\n2 1 76493 76472 5118 XOR\n2 1 76492 76471 5117 XOR\n2 1 76491 76470 5116 XOR\n2 1 76490 76469 5115 XOR\n2 1 76489 76468 5114 XOR\n2 1 76488 76467 5113 XOR\n2 1 76487 76466 5112 XOR\n2 1 76486 76465 5111 XOR\n2 1 76485 76496 5110 XOR\n2 1 76484 76495 5109 XOR\n2 1 76483 76494 5108 XOR\n2 1 76482 76493 5107 XOR\n2 1 76481 76492 5106 XOR\n2 1 76480 76491 5105 XOR\n2 1 76479 76490 5104 XOR\n2 1 76478 76489 5103 XOR\n2 1 76477 76488 5102 XOR\n2 1 76476 76487 5101 XOR\n2 1 76475 76486 5100 XOR\n2 1 76474 76485 5099 XOR\n2 1 76473 76484 5098 XOR\n2 1 76472 76483 5097 XOR\n2 1 5125 76496 82413 XOR\n2 1 82413 76525 128761 XOR\n2 1 5124 76495 82412 XOR\n2 1 82412 76524 128760 XOR\n2 1 5123 76494 82411 XOR\n2 1 82411 76523 128759 XOR\n2 1 5122 76493 82410 XOR\n2 1 82410 76522 128758 XOR\n2 1 5121 76492 82409 XOR\n2 1 82409 76521 128757 XOR\n2 1 5120 76491 82408 XOR\n2 1 82408 76520 128756 XOR\n2 1 5119 76490 82407 XOR\n2 1 82407 76519 128755 XOR\n2 1 5118 76489 82406 XOR\n2 1 82406 76518 128754 XOR\n2 1 5117 76488 82405 XOR\n2 1 82405 76517 128753 XOR\n2 1 5116 76487 82404 XOR\n2 1 82404 76516 128752 XOR\n2 1 5115 76486 82403 XOR\n2 1 82403 76515 128751 XOR\n2 1 5114 76485 82402 XOR\n2 1 82402 76514 128750 XOR\n2 1 5113 76484 82401 XOR\n2 1 82401 76513 128749 XOR\n2 1 5112 76483 82400 XOR\n2 1 82400 76512 128748 XOR\n2 1 5111 76482 82399 XOR\n2 1 82399 76511 128747 XOR\n2 1 5110 76481 82398 XOR\n2 1 82398 76510 128746 XOR\n2 1 5109 76480 82397 XOR\n2 1 82397 76509 128745 XOR\n2 1 5108 76479 82396 XOR\n2 1 82396 76508 128744 XOR\n2 1 5107 76478 82395 XOR\n2 1 82395 76507 128743 XOR\n2 1 5106 76477 82394 XOR\n2 1 82394 76506 128742 XOR\n2 1 5105 76476 82393 XOR\n2 1 82393 76505 128741 XOR\n2 1 5104 76475 82392 XOR\n2 1 82392 76504 128740 XOR\n2 1 5103 76474 82391 XOR\n2 1 82391 76503 128739 XOR\n2 1 5102 76473 82390 XOR\n2 1 82390 76502 128738 XOR\n2 1 5101 76472 82389 XOR\n2 1 82389 76501 128737 XOR\n2 1 5100 76471 82388 XOR\n2 1 82388 76500 128736 XOR\n2 1 5099 76470 82387 XOR\n2 1 82387 76499 128735 XOR\n2 1 5098 76469 82386 XOR\n2 1 82386 76498 128734 XOR\n2 1 5097 76468 82385 XOR\n2 1 82385 76497 128703 AND\n2 1 128734 128703 77778 XOR\n",
"2 1 76498 128703 51277 XOR\n2 1 82385 76497 77777 XOR\n2 1 79313 77777 75985 XOR\n2 1 82386 128703 51276 XOR\n2 1 51276 51277 51275 AND\n2 1 51275 128703 128704 XOR\n2 1 128735 128704 77779 XOR\n2 1 82387 128704 51279 XOR\n2 1 76499 128704 51280 XOR\n2 1 51279 51280 51278 AND\n2 1 51278 128704 128705 XOR\n2 1 76500 128705 51283 XOR\n2 1 128736 128705 77780 XOR\n2 1 79315 77779 128673 XOR\n2 1 79316 77780 128674 XOR\n2 1 82388 128705 51282 XOR\n2 1 51282 51283 51281 AND\n2 1 51281 128705 128706 XOR\n2 1 128737 128706 77781 XOR\n2 1 82389 128706 51285 XOR\n2 1 76501 128706 51286 XOR\n2 1 51285 51286 51284 AND\n2 1 51284 128706 128707 XOR\n2 1 76502 128707 51289 XOR\n2 1 82390 128707 51288 XOR\n2 1 51288 51289 51287 AND\n2 1 51287 128707 128708 XOR\n2 1 128739 128708 77783 XOR\n2 1 128738 128707 77782 XOR\n2 1 82391 128708 51291 XOR\n2 1 76503 128708 51292 XOR\n2 1 79318 77782 128676 XOR\n2 1 79319 77783 128677 XOR\n2 1 79317 77781 128675 XOR\n2 1 75985 1600 113405 AND\n2 1 79314 77778 128672 XOR\n2 1 79313 77777 128641 AND\n2 1 128672 128641 75986 XOR\n2 1 79314 128641 51186 XOR\n2 1 75986 1601 113436 XOR\n2 1 113436 113405 94103 XOR\n2 1 77778 128641 51187 XOR\n2 1 51186 51187 51185 AND\n2 1 51185 128641 128642 XOR\n2 1 79315 128642 51189 XOR\n2 1 128673 128642 75987 XOR\n2 1 75987 1602 113437 XOR\n2 1 77779 128642 51190 XOR\n2 1 51189 51190 51188 AND\n2 1 51188 128642 128643 XOR\n2 1 128674 128643 75988 XOR\n2 1 79316 128643 51192 XOR\n2 1 96151 94103 113374 XOR\n2 1 51291 51292 51290 AND\n2 1 51290 128708 128709 XOR\n2 1 76504 128709 51295 XOR\n2 1 128740 128709 77784 XOR\n2 1 79320 77784 128678 XOR\n2 1 82392 128709 51294 XOR\n2 1 51294 51295 51293 AND\n2 1 51293 128709 128710 XOR\n2 1 128741 128710 77785 XOR\n2 1 79321 77785 128679 XOR\n2 1 82393 128710 51297 XOR\n2 1 76505 128710 51298 XOR\n2 1 51297 51298 51296 AND\n2 1 51296 128710 128711 XOR\n2 1 128742 128711 77786 XOR\n2 1 79322 77786 128680 XOR\n2 1 82394 128711 51300 XOR\n2 1 77780 128643 51193 XOR\n2 1 51192 51193 51191 AND\n2 1 51191 128643 128644 XOR\n2 1 77781 128644 51196 XOR\n2 1 128675 128644 75989 XOR\n2 1 75989 1604 113439 XOR\n2 1 79317 128644 51195 XOR\n2 1 51195 51196 51194 AND\n2 1 51194 128644 128645 XOR\n2 1 79318 128645 51198 XOR\n2 1 77782 128645 51199 XOR\n2 1 51198 51199 51197 AND\n2 1 51197 128645 128646 XOR\n2 1 77783 128646 51202 XOR\n2 1 128677 128646 75991 XOR\n2 1 79319 128646 51201 XOR\n2 1 51201 51202 51200 AND\n2 1 51200 128646 128647 XOR\n2 1 128678 128647 75992 XOR\n2 1 75992 1607 113442 XOR\n2 1 128676 128645 75990 XOR\n2 1 75990 1605 113440 XOR\n2 1 79320 128647 51204 XOR\n2 1 77784 128647 51205 XOR\n2 1 51204 51205 51203 AND\n2 1 51203 128647 128648 XOR\n2 1 77785 128648 51208 XOR\n2 1 128679 128648 75993 XOR\n2 1 75993 1608 113443 XOR\n2 1 75991 75993 6353 XOR\n2 1 75990 75992 6352 XOR\n2 1 75989 75991 6351 XOR\n2 1 75988 75990 6350 XOR\n2 1 75987 75989 6349 XOR\n2 1 75986 75988 6348 XOR\n2 1 75985 75987 6347 XOR\n2 1 75988 1603 113438 XOR\n2 1 75985 1600 94102 XOR\n2 1 96150 94102 92101 XOR\n1 1 92101 90065 INV\n2 1 1152 90065 103894 AND\n2 1 90065 83921 103956 AND\n2 1 90065 83921 1024 XOR\n2 1 1024 1088 69871 XOR\n2 1 69871 69839 69807 AND\n2 1 69807 1088 85937 XOR\n2 1 1024 1056 69743 XOR\n2 1 83922 103956 10028 XOR\n2 1 1152 90065 1472 XOR\n2 1 63567 1472 63535 AND\n2 1 63535 1536 98166 XOR\n2 1 1472 1504 63503 XOR\n2 1 1153 103894 9937 XOR\n2 1 96150 94102 113343 AND\n2 1 94103 113343 24790 XOR\n2 1 113374 113343 92102 XOR\n2 1 92102 92101 90066 XOR\n2 1 1153 90066 103925 XOR\n",
"2 1 103925 103894 1473 XOR\n2 1 90066 103894 9938 XOR\n2 1 90066 92101 24699 AND\n2 1 90066 83922 103987 XOR\n2 1 63568 1473 63536 AND\n2 1 63536 1537 98167 XOR\n2 1 1473 1505 63504 XOR\n2 1 103987 103956 1025 XOR\n2 1 1025 1089 69872 XOR\n2 1 69872 69840 69808 AND\n2 1 69808 1089 85938 XOR\n2 1 1025 1057 69744 XOR\n2 1 90066 103956 10027 XOR\n2 1 10027 10028 10026 AND\n2 1 10026 103956 103957 XOR\n2 1 83923 103957 10031 XOR\n2 1 24699 92101 113327 XOR\n1 1 113327 24702 INV\n2 1 9937 9938 9936 AND\n2 1 9936 103894 103895 XOR\n2 1 1154 103895 9940 XOR\n2 1 96151 113343 24789 XOR\n2 1 24789 24790 24788 AND\n2 1 24788 113343 113344 XOR\n2 1 96152 113344 24792 XOR\n2 1 75991 1606 113441 XOR\n2 1 75986 113405 24879 XOR\n2 1 1601 113405 24880 XOR\n2 1 24879 24880 24878 AND\n2 1 24878 113405 113406 XOR\n2 1 75987 113406 24882 XOR\n2 1 1602 113406 24883 XOR\n2 1 24882 24883 24881 AND\n2 1 113437 113406 94104 XOR\n2 1 96152 94104 113375 XOR\n2 1 94104 113344 24793 XOR\n2 1 24792 24793 24791 AND\n2 1 24791 113344 113345 XOR\n2 1 96153 113345 24795 XOR\n2 1 113375 113344 92103 XOR\n1 1 92103 24773 INV\n2 1 24773 113327 90067 XOR\n2 1 90067 103895 9941 XOR\n2 1 92103 113327 24701 XOR\n2 1 24701 24702 24700 AND\n2 1 90067 83923 103988 XOR\n2 1 103988 103957 1026 XOR\n2 1 1026 1090 69873 XOR\n2 1 69873 69841 69809 AND\n2 1 69809 1090 85939 XOR\n2 1 1026 1058 69745 XOR\n2 1 90067 103957 10030 XOR\n2 1 10030 10031 10029 AND\n2 1 10029 103957 103958 XOR\n2 1 83924 103958 10034 XOR\n2 1 1154 90067 103926 XOR\n2 1 9940 9941 9939 AND\n2 1 9939 103895 103896 XOR\n2 1 1155 103896 9943 XOR\n2 1 103926 103895 1474 XOR\n2 1 63569 1474 63537 AND\n2 1 63537 1538 98168 XOR\n2 1 1474 1506 63505 XOR\n2 1 24700 113327 24704 XOR\n2 1 24881 113406 113407 XOR\n2 1 113438 113407 94105 XOR\n2 1 96153 94105 113376 XOR\n2 1 75988 113407 24885 XOR\n2 1 1603 113407 24886 XOR\n2 1 24885 24886 24884 AND\n2 1 24884 113407 113408 XOR\n2 1 113439 113408 94106 XOR\n2 1 75989 113408 24888 XOR\n2 1 1604 113408 24889 XOR\n2 1 24888 24889 24887 AND\n2 1 24887 113408 113409 XOR\n2 1 113440 113409 94107 XOR\n2 1 75990 113409 24891 XOR\n2 1 1605 113409 24892 XOR\n2 1 24891 24892 24890 AND\n2 1 24890 113409 113410 XOR\n2 1 113441 113410 94108 XOR\n2 1 96156 94108 113379 XOR\n2 1 75991 113410 24894 XOR\n2 1 1606 113410 24895 XOR\n2 1 24894 24895 24893 AND\n2 1 24893 113410 113411 XOR\n2 1 113442 113411 94109 XOR\n2 1 75992 113411 24897 XOR\n2 1 1607 113411 24898 XOR\n2 1 24897 24898 24896 AND\n2 1 24896 113411 113412 XOR\n2 1 113443 113412 94110 XOR\n2 1 96158 94110 113381 XOR\n2 1 75993 113412 24900 XOR\n2 1 1608 113412 24901 XOR\n2 1 24900 24901 24899 AND\n2 1 24899 113412 113413 XOR\n2 1 1609 113413 24904 XOR\n2 1 113376 113345 92104 XOR\n2 1 96155 94107 113378 XOR\n2 1 94105 113345 24796 XOR\n2 1 24795 24796 24794 AND\n2 1 24794 113345 113346 XOR\n2 1 94106 113346 24799 XOR\n2 1 96157 94109 113380 XOR\n2 1 96154 113346 24798 XOR\n2 1 24798 24799 24797 AND\n2 1 24797 113346 113347 XOR\n2 1 113378 113347 92106 XOR\n1 1 92106 24775 INV\n2 1 94107 113347 24802 XOR\n2 1 96154 94106 113377 XOR\n2 1 113377 113346 92105 XOR\n1 1 92105 24774 INV\n2 1 96155 113347 24801 XOR\n2 1 24801 24802 24800 AND\n2 1 24800 113347 113348 XOR\n2 1 96156 113348 24804 XOR\n2 1 113379 113348 92107 XOR\n2 1 92104 24704 90068 XOR\n2 1 90068 103896 9944 XOR\n2 1 9943 9944 9942 AND\n2 1 90068 83924 103989 XOR\n2 1 1155 90068 103927 XOR\n2 1 103927 103896 1475 XOR\n2 1 9942 103896 103897 XOR\n2 1 1156 103897 9946 XOR\n",
"2 1 63570 1475 63538 AND\n2 1 63538 1539 98169 XOR\n2 1 1475 1507 63506 XOR\n2 1 103989 103958 1027 XOR\n2 1 1027 1091 69874 XOR\n2 1 69874 69842 69810 AND\n2 1 69810 1091 85940 XOR\n2 1 1027 1059 69746 XOR\n2 1 90068 103958 10033 XOR\n2 1 10033 10034 10032 AND\n2 1 10032 103958 103959 XOR\n2 1 83925 103959 10037 XOR\n2 1 90068 24704 24703 AND\n2 1 24703 24704 113328 XOR\n1 1 113328 24707 INV\n2 1 24774 113328 90069 XOR\n2 1 1156 90069 103928 XOR\n2 1 90069 103897 9947 XOR\n2 1 103928 103897 1476 XOR\n2 1 90069 83925 103990 XOR\n2 1 103990 103959 1028 XOR\n2 1 1028 1092 69875 XOR\n2 1 69875 69843 69811 AND\n2 1 69811 1092 85941 XOR\n2 1 1028 1060 69747 XOR\n2 1 9946 9947 9945 AND\n2 1 9945 103897 103898 XOR\n2 1 1157 103898 9949 XOR\n2 1 63571 1476 63539 AND\n2 1 63539 1540 98170 XOR\n2 1 1476 1508 63507 XOR\n2 1 90069 103959 10036 XOR\n2 1 10036 10037 10035 AND\n2 1 10035 103959 103960 XOR\n2 1 83926 103960 10040 XOR\n2 1 92105 113328 24706 XOR\n2 1 24706 24707 24705 AND\n2 1 24705 113328 113329 XOR\n1 1 113329 24710 INV\n2 1 24775 113329 90070 XOR\n2 1 90070 103960 10039 XOR\n2 1 90070 83926 103991 XOR\n2 1 90070 103898 9950 XOR\n2 1 103991 103960 1029 XOR\n2 1 1029 1093 69876 XOR\n2 1 69876 69844 69812 AND\n2 1 69812 1093 85942 XOR\n2 1 1029 1061 69748 XOR\n2 1 10039 10040 10038 AND\n2 1 10038 103960 103961 XOR\n2 1 83927 103961 10043 XOR\n2 1 1157 90070 103929 XOR\n2 1 103929 103898 1477 XOR\n2 1 63572 1477 63540 AND\n2 1 63540 1541 98171 XOR\n2 1 1477 1509 63508 XOR\n2 1 9949 9950 9948 AND\n2 1 9948 103898 103899 XOR\n2 1 1158 103899 9952 XOR\n2 1 1472 1477 61193 XOR\n2 1 92106 113329 24709 XOR\n2 1 24709 24710 24708 AND\n2 1 24708 113329 24712 XOR\n2 1 92107 24712 90071 XOR\n2 1 90071 103899 9953 XOR\n2 1 9952 9953 9951 AND\n2 1 9951 103899 103900 XOR\n2 1 1159 103900 9955 XOR\n2 1 90071 83927 103992 XOR\n2 1 90071 103961 10042 XOR\n2 1 10042 10043 10041 AND\n2 1 10041 103961 103962 XOR\n2 1 83928 103962 10046 XOR\n2 1 103992 103961 1030 XOR\n2 1 1030 1094 69877 XOR\n2 1 69877 69845 69813 AND\n2 1 69813 1094 85943 XOR\n2 1 1030 1062 69749 XOR\n2 1 1158 90071 103930 XOR\n2 1 103930 103899 1478 XOR\n2 1 1478 1510 63509 XOR\n2 1 1473 1478 61194 XOR\n2 1 63573 1478 63541 AND\n2 1 63541 1542 98172 XOR\n2 1 90071 24712 24711 AND\n2 1 24711 24712 113330 XOR\n1 1 113330 24715 INV\n2 1 94108 113348 24805 XOR\n2 1 76506 128711 51301 XOR\n2 1 51300 51301 51299 AND\n2 1 51299 128711 128712 XOR\n2 1 128743 128712 77787 XOR\n2 1 79323 77787 128681 XOR\n2 1 82395 128712 51303 XOR\n2 1 76507 128712 51304 XOR\n2 1 51303 51304 51302 AND\n2 1 51302 128712 128713 XOR\n2 1 82396 128713 51306 XOR\n2 1 76508 128713 51307 XOR\n2 1 51306 51307 51305 AND\n2 1 51305 128713 128714 XOR\n2 1 76509 128714 51310 XOR\n2 1 128745 128714 77789 XOR\n2 1 79325 77789 128683 XOR\n2 1 82397 128714 51309 XOR\n2 1 51309 51310 51308 AND\n2 1 51308 128714 128715 XOR\n2 1 128746 128715 77790 XOR\n2 1 79326 77790 128684 XOR\n2 1 82398 128715 51312 XOR\n2 1 76510 128715 51313 XOR\n2 1 128744 128713 77788 XOR\n2 1 79324 77788 128682 XOR\n2 1 51312 51313 51311 AND\n2 1 51311 128715 128716 XOR\n2 1 82399 128716 51315 XOR\n2 1 76511 128716 51316 XOR\n2 1 51315 51316 51314 AND\n2 1 51314 128716 128717 XOR\n2 1 128748 128717 77792 XOR\n2 1 82400 128717 51318 XOR\n2 1 76512 128717 51319 XOR\n2 1 51318 51319 51317 AND\n2 1 51317 128717 128718 XOR\n2 1 79328 77792 128686 XOR\n2 1 82401 128718 51321 XOR\n2 1 128749 128718 77793 XOR\n2 1 79329 77793 128687 XOR\n",
"2 1 76513 128718 51322 XOR\n2 1 51321 51322 51320 AND\n2 1 51320 128718 128719 XOR\n2 1 82402 128719 51324 XOR\n2 1 76514 128719 51325 XOR\n2 1 128750 128719 77794 XOR\n2 1 79330 77794 128688 XOR\n2 1 51324 51325 51323 AND\n2 1 51323 128719 128720 XOR\n2 1 128751 128720 77795 XOR\n2 1 82403 128720 51327 XOR\n2 1 76515 128720 51328 XOR\n2 1 51327 51328 51326 AND\n2 1 79331 77795 128689 XOR\n2 1 51326 128720 128721 XOR\n2 1 82404 128721 51330 XOR\n2 1 128752 128721 77796 XOR\n2 1 76516 128721 51331 XOR\n2 1 51330 51331 51329 AND\n2 1 51329 128721 128722 XOR\n2 1 128753 128722 77797 XOR\n2 1 79333 77797 128691 XOR\n2 1 76517 128722 51334 XOR\n2 1 82405 128722 51333 XOR\n2 1 51333 51334 51332 AND\n2 1 79332 77796 128690 XOR\n2 1 51332 128722 128723 XOR\n2 1 128754 128723 77798 XOR\n2 1 79334 77798 128692 XOR\n2 1 82406 128723 51336 XOR\n2 1 76518 128723 51337 XOR\n2 1 51336 51337 51335 AND\n2 1 51335 128723 128724 XOR\n2 1 76519 128724 51340 XOR\n2 1 82407 128724 51339 XOR\n2 1 51339 51340 51338 AND\n2 1 128755 128724 77799 XOR\n2 1 79335 77799 128693 XOR\n2 1 51338 128724 128725 XOR\n2 1 82408 128725 51342 XOR\n2 1 128756 128725 77800 XOR\n2 1 79336 77800 128694 XOR\n2 1 76520 128725 51343 XOR\n2 1 51342 51343 51341 AND\n2 1 51341 128725 128726 XOR\n2 1 82409 128726 51345 XOR\n2 1 76521 128726 51346 XOR\n2 1 51345 51346 51344 AND\n2 1 51344 128726 128727 XOR\n2 1 128758 128727 77802 XOR\n2 1 82410 128727 51348 XOR\n2 1 76522 128727 51349 XOR\n2 1 51348 51349 51347 AND\n2 1 51347 128727 128728 XOR\n2 1 128759 128728 77803 XOR\n2 1 82411 128728 51351 XOR\n2 1 76523 128728 51352 XOR\n2 1 51351 51352 51350 AND\n2 1 51350 128728 128729 XOR\n2 1 82412 128729 51354 XOR\n2 1 76524 128729 51355 XOR\n2 1 51354 51355 51353 AND\n2 1 51353 128729 128730 XOR\n2 1 128761 128730 77805 XOR\n2 1 79341 77805 128699 XOR\n2 1 82413 128730 51357 XOR\n2 1 76525 128730 51358 XOR\n2 1 51357 51358 51356 AND\n2 1 51356 128730 128731 XOR\n2 1 128762 128731 77806 XOR\n2 1 82414 128731 51360 XOR\n2 1 79342 77806 128700 XOR\n2 1 128760 128729 77804 XOR\n2 1 79340 77804 128698 XOR\n2 1 76526 128731 51361 XOR\n2 1 51360 51361 51359 AND\n2 1 51359 128731 128732 XOR\n2 1 76527 128732 51364 XOR\n2 1 82415 128732 51363 XOR\n2 1 128763 128732 77807 XOR\n2 1 79343 77807 128701 XOR\n2 1 79338 77802 128696 XOR\n2 1 51363 51364 51362 AND\n2 1 51362 128732 128733 XOR\n2 1 128764 128733 77808 XOR\n2 1 79344 77808 128702 XOR\n2 1 128747 128716 77791 XOR\n2 1 79327 77791 128685 XOR\n2 1 128757 128726 77801 XOR\n2 1 79337 77801 128695 XOR\n2 1 79339 77803 128697 XOR\n2 1 24804 24805 24803 AND\n2 1 24803 113348 113349 XOR\n2 1 94109 113349 24808 XOR\n2 1 113380 113349 92108 XOR\n1 1 92108 24776 INV\n2 1 24776 113330 90072 XOR\n2 1 90072 103962 10045 XOR\n2 1 1159 90072 103931 XOR\n2 1 90072 103900 9956 XOR\n2 1 9955 9956 9954 AND\n2 1 9954 103900 103901 XOR\n2 1 103931 103900 1479 XOR\n2 1 90072 83928 103993 XOR\n2 1 1160 103901 9958 XOR\n2 1 92108 113330 24714 XOR\n2 1 24714 24715 24713 AND\n2 1 63574 1479 63542 AND\n2 1 63542 1543 98173 XOR\n2 1 1479 1511 63510 XOR\n2 1 103993 103962 1031 XOR\n2 1 1031 1095 69878 XOR\n2 1 69878 69846 69814 AND\n2 1 69814 1095 85944 XOR\n2 1 1031 1063 69750 XOR\n2 1 10045 10046 10044 AND\n2 1 10044 103962 103963 XOR\n2 1 83929 103963 10049 XOR\n2 1 24713 113330 24717 XOR\n2 1 1474 1479 61195 XOR\n2 1 96157 113349 24807 XOR\n2 1 24807 24808 24806 AND\n2 1 24806 113349 113350 XOR\n2 1 94110 113350 24811 XOR\n2 1 113381 113350 92109 XOR\n2 1 96158 113350 24810 XOR\n2 1 92109 24717 90073 XOR\n2 1 90073 103901 9959 XOR\n",
"2 1 90073 83929 103994 XOR\n2 1 103994 103963 1032 XOR\n2 1 1032 1096 69879 XOR\n2 1 69879 69847 69815 AND\n2 1 69815 1096 85945 XOR\n2 1 1032 1064 69751 XOR\n2 1 90073 103963 10048 XOR\n2 1 10048 10049 10047 AND\n2 1 10047 103963 103964 XOR\n2 1 83930 103964 10052 XOR\n2 1 9958 9959 9957 AND\n2 1 9957 103901 103902 XOR\n2 1 1161 103902 9961 XOR\n2 1 1160 90073 103932 XOR\n2 1 103932 103901 1480 XOR\n2 1 63575 1480 63543 AND\n2 1 63543 1544 98174 XOR\n2 1 1475 1480 61196 XOR\n2 1 1480 1512 63511 XOR\n2 1 90073 24717 24716 AND\n2 1 24716 24717 24719 XOR\n2 1 24810 24811 24809 AND\n2 1 24809 113350 113351 XOR\n2 1 96159 113351 24813 XOR\n2 1 79321 128648 51207 XOR\n2 1 51207 51208 51206 AND\n2 1 51206 128648 128649 XOR\n2 1 79322 128649 51210 XOR\n2 1 77786 128649 51211 XOR\n2 1 51210 51211 51209 AND\n2 1 51209 128649 128650 XOR\n2 1 128681 128650 75995 XOR\n2 1 128680 128649 75994 XOR\n2 1 75994 113413 24903 XOR\n2 1 24903 24904 24902 AND\n2 1 24902 113413 113414 XOR\n2 1 75995 113414 24906 XOR\n2 1 1610 113414 24907 XOR\n2 1 24906 24907 24905 AND\n2 1 24905 113414 113415 XOR\n2 1 1611 113415 24910 XOR\n2 1 79323 128650 51213 XOR\n2 1 75994 1609 113444 XOR\n2 1 113444 113413 94111 XOR\n2 1 94111 113351 24814 XOR\n2 1 24813 24814 24812 AND\n2 1 24812 113351 113352 XOR\n2 1 96160 113352 24816 XOR\n2 1 96159 94111 113382 XOR\n2 1 113382 113351 92110 XOR\n2 1 92110 24719 90074 XOR\n2 1 90074 103902 9962 XOR\n2 1 1161 90074 103933 XOR\n2 1 9961 9962 9960 AND\n2 1 9960 103902 103903 XOR\n2 1 1162 103903 9964 XOR\n2 1 103933 103902 1481 XOR\n2 1 63576 1481 63544 AND\n2 1 63544 1545 98175 XOR\n2 1 1481 1513 63512 XOR\n2 1 90074 83930 103995 XOR\n2 1 103995 103964 1033 XOR\n2 1 1033 1097 69880 XOR\n2 1 69880 69848 69816 AND\n2 1 69816 1097 85946 XOR\n2 1 1033 1065 69752 XOR\n2 1 1476 1481 61197 XOR\n2 1 90074 103964 10051 XOR\n2 1 10051 10052 10050 AND\n2 1 10050 103964 103965 XOR\n2 1 83931 103965 10055 XOR\n2 1 90074 24719 24718 AND\n2 1 24718 24719 113331 XOR\n1 1 113331 24722 INV\n2 1 77787 128650 51214 XOR\n2 1 51213 51214 51212 AND\n2 1 51212 128650 128651 XOR\n2 1 77788 128651 51217 XOR\n2 1 79324 128651 51216 XOR\n2 1 51216 51217 51215 AND\n2 1 51215 128651 128652 XOR\n2 1 128683 128652 75997 XOR\n2 1 75997 1612 113447 XOR\n2 1 79325 128652 51219 XOR\n2 1 77789 128652 51220 XOR\n2 1 51219 51220 51218 AND\n2 1 51218 128652 128653 XOR\n2 1 79326 128653 51222 XOR\n2 1 128684 128653 75998 XOR\n2 1 77790 128653 51223 XOR\n2 1 51222 51223 51221 AND\n2 1 51221 128653 128654 XOR\n2 1 128685 128654 75999 XOR\n2 1 79327 128654 51225 XOR\n2 1 77791 128654 51226 XOR\n2 1 51225 51226 51224 AND\n2 1 51224 128654 128655 XOR\n2 1 128686 128655 76000 XOR\n2 1 76000 1615 113450 XOR\n2 1 79328 128655 51228 XOR\n2 1 77792 128655 51229 XOR\n2 1 51228 51229 51227 AND\n2 1 51227 128655 128656 XOR\n2 1 77793 128656 51232 XOR\n2 1 79329 128656 51231 XOR\n2 1 51231 51232 51230 AND\n2 1 51230 128656 128657 XOR\n2 1 128688 128657 76002 XOR\n2 1 79330 128657 51234 XOR\n2 1 128687 128656 76001 XOR\n2 1 77794 128657 51235 XOR\n2 1 51234 51235 51233 AND\n2 1 51233 128657 128658 XOR\n2 1 128689 128658 76003 XOR\n2 1 76003 1618 113453 XOR\n2 1 79331 128658 51237 XOR\n2 1 77795 128658 51238 XOR\n2 1 51237 51238 51236 AND\n2 1 51236 128658 128659 XOR\n2 1 79332 128659 51240 XOR\n2 1 77796 128659 51241 XOR\n2 1 51240 51241 51239 AND\n2 1 51239 128659 128660 XOR\n2 1 79333 128660 51243 XOR\n2 1 77797 128660 51244 XOR\n2 1 128691 128660 76005 XOR\n2 1 76005 1620 113455 XOR\n2 1 128690 128659 76004 XOR\n",
"2 1 76004 1619 113454 XOR\n2 1 51243 51244 51242 AND\n2 1 51242 128660 128661 XOR\n2 1 128692 128661 76006 XOR\n2 1 76006 1621 113456 XOR\n2 1 79334 128661 51246 XOR\n2 1 77798 128661 51247 XOR\n2 1 51246 51247 51245 AND\n2 1 51245 128661 128662 XOR\n2 1 77799 128662 51250 XOR\n2 1 79335 128662 51249 XOR\n2 1 51249 51250 51248 AND\n2 1 51248 128662 128663 XOR\n2 1 128694 128663 76008 XOR\n2 1 79336 128663 51252 XOR\n2 1 77800 128663 51253 XOR\n2 1 51252 51253 51251 AND\n2 1 51251 128663 128664 XOR\n2 1 79337 128664 51255 XOR\n2 1 77801 128664 51256 XOR\n2 1 128695 128664 76009 XOR\n2 1 51255 51256 51254 AND\n2 1 51254 128664 128665 XOR\n2 1 128696 128665 76010 XOR\n2 1 79338 128665 51258 XOR\n2 1 77802 128665 51259 XOR\n2 1 51258 51259 51257 AND\n2 1 51257 128665 128666 XOR\n2 1 128697 128666 76011 XOR\n2 1 77803 128666 51262 XOR\n2 1 79339 128666 51261 XOR\n2 1 51261 51262 51260 AND\n2 1 51260 128666 128667 XOR\n2 1 128698 128667 76012 XOR\n2 1 77804 128667 51265 XOR\n2 1 79340 128667 51264 XOR\n2 1 51264 51265 51263 AND\n2 1 51263 128667 128668 XOR\n2 1 128699 128668 76013 XOR\n2 1 76013 1628 113463 XOR\n2 1 79341 128668 51267 XOR\n2 1 77805 128668 51268 XOR\n2 1 51267 51268 51266 AND\n2 1 51266 128668 128669 XOR\n2 1 128700 128669 76014 XOR\n2 1 76014 1629 113464 XOR\n2 1 79342 128669 51270 XOR\n2 1 77806 128669 51271 XOR\n2 1 51270 51271 51269 AND\n2 1 51269 128669 128670 XOR\n2 1 79343 128670 51273 XOR\n2 1 77807 128670 51274 XOR\n2 1 51273 51274 51272 AND\n2 1 51272 128670 128671 XOR\n2 1 128702 128671 76016 XOR\n2 1 76016 1631 113466 XOR\n2 1 128701 128670 76015 XOR\n2 1 76015 1630 113465 XOR\n2 1 128693 128662 76007 XOR\n2 1 76007 1622 113457 XOR\n2 1 76001 76003 80816 XOR\n2 1 80816 76176 128454 XOR\n2 1 76000 76002 80815 XOR\n2 1 80815 76175 128453 XOR\n2 1 75999 76001 80814 XOR\n2 1 80814 76174 128452 XOR\n2 1 75998 76000 80813 XOR\n2 1 80813 76173 128451 XOR\n2 1 75997 75999 80812 XOR\n2 1 80812 76172 128450 XOR\n2 1 75995 75997 80810 XOR\n2 1 80810 76170 128448 XOR\n2 1 75993 75995 80808 XOR\n2 1 80808 76168 128446 XOR\n2 1 75992 75994 80807 XOR\n2 1 80807 76167 128445 XOR\n2 1 76016 75986 6346 XOR\n2 1 76015 75985 6345 XOR\n2 1 76014 76016 6344 XOR\n2 1 76013 76015 6343 XOR\n2 1 76012 76014 6342 XOR\n2 1 76011 76013 6341 XOR\n2 1 76010 76012 6340 XOR\n2 1 76009 76011 6339 XOR\n2 1 76008 76010 6338 XOR\n2 1 76007 76009 6337 XOR\n2 1 76006 76008 6336 XOR\n2 1 76005 76007 6335 XOR\n2 1 76004 76006 6334 XOR\n2 1 76003 76005 6333 XOR\n2 1 76002 76004 6332 XOR\n2 1 6353 76016 80806 XOR\n2 1 80806 76166 128444 XOR\n2 1 6352 76015 80805 XOR\n2 1 80805 76165 128443 XOR\n2 1 6351 76014 80804 XOR\n2 1 80804 76164 128442 XOR\n2 1 6350 76013 80803 XOR\n2 1 80803 76163 128441 XOR\n2 1 6349 76012 80802 XOR\n2 1 80802 76162 128440 XOR\n2 1 6348 76011 80801 XOR\n2 1 80801 76161 128439 XOR\n2 1 6347 76010 80800 XOR\n2 1 80800 76160 128438 XOR\n2 1 6346 76009 80799 XOR\n2 1 80799 76159 128437 XOR\n2 1 6345 76008 80798 XOR\n2 1 80798 76158 128436 XOR\n2 1 6344 76007 80797 XOR\n2 1 80797 76157 128435 XOR\n2 1 6343 76006 80796 XOR\n2 1 80796 76156 128434 XOR\n2 1 6342 76005 80795 XOR\n2 1 80795 76155 128433 XOR\n2 1 6341 76004 80794 XOR\n2 1 80794 76154 128432 XOR\n2 1 6340 76003 80793 XOR\n2 1 80793 76153 128431 XOR\n2 1 6339 76002 80792 XOR\n2 1 80792 76152 128430 XOR\n2 1 6338 76001 80791 XOR\n2 1 80791 76151 128429 XOR\n2 1 6337 76000 80790 XOR\n2 1 80790 76150 128428 XOR\n2 1 6336 75999 80789 XOR\n2 1 80789 76149 128427 XOR\n2 1 6335 75998 80788 XOR\n",
"2 1 80788 76148 128426 XOR\n2 1 6334 75997 80787 XOR\n2 1 80787 76147 128425 XOR\n2 1 6332 75995 80785 XOR\n2 1 80785 76145 128393 AND\n2 1 76146 128393 50827 XOR\n2 1 80785 76145 79249 XOR\n2 1 128682 128651 75996 XOR\n2 1 75996 1611 113446 XOR\n2 1 113446 113415 94113 XOR\n2 1 96161 94113 113384 XOR\n2 1 75996 113415 24909 XOR\n2 1 24909 24910 24908 AND\n2 1 24908 113415 113416 XOR\n2 1 113447 113416 94114 XOR\n2 1 75997 113416 24912 XOR\n2 1 1612 113416 24913 XOR\n2 1 24912 24913 24911 AND\n2 1 24911 113416 113417 XOR\n2 1 75998 113417 24915 XOR\n2 1 1613 113417 24916 XOR\n2 1 24915 24916 24914 AND\n2 1 24914 113417 113418 XOR\n2 1 75999 113418 24918 XOR\n2 1 1614 113418 24919 XOR\n2 1 24918 24919 24917 AND\n2 1 24917 113418 113419 XOR\n2 1 113450 113419 94117 XOR\n2 1 96165 94117 113388 XOR\n2 1 76000 113419 24921 XOR\n2 1 1615 113419 24922 XOR\n2 1 24921 24922 24920 AND\n2 1 24920 113419 113420 XOR\n2 1 76001 113420 24924 XOR\n2 1 1616 113420 24925 XOR\n2 1 24924 24925 24923 AND\n2 1 24923 113420 113421 XOR\n2 1 76002 113421 24927 XOR\n2 1 1617 113421 24928 XOR\n2 1 24927 24928 24926 AND\n2 1 24926 113421 113422 XOR\n2 1 113453 113422 94120 XOR\n2 1 96168 94120 113391 XOR\n2 1 76003 113422 24930 XOR\n2 1 1618 113422 24931 XOR\n2 1 24930 24931 24929 AND\n2 1 24929 113422 113423 XOR\n2 1 113454 113423 94121 XOR\n2 1 76004 113423 24933 XOR\n2 1 1619 113423 24934 XOR\n2 1 24933 24934 24932 AND\n2 1 24932 113423 113424 XOR\n2 1 113455 113424 94122 XOR\n2 1 96170 94122 113393 XOR\n2 1 76005 113424 24936 XOR\n2 1 1620 113424 24937 XOR\n2 1 24936 24937 24935 AND\n2 1 24935 113424 113425 XOR\n2 1 113456 113425 94123 XOR\n2 1 96162 94114 113385 XOR\n2 1 76006 113425 24939 XOR\n2 1 1621 113425 24940 XOR\n2 1 24939 24940 24938 AND\n2 1 24938 113425 113426 XOR\n2 1 113457 113426 94124 XOR\n2 1 96172 94124 113395 XOR\n2 1 76007 113426 24942 XOR\n2 1 1622 113426 24943 XOR\n2 1 24942 24943 24941 AND\n2 1 24941 113426 113427 XOR\n2 1 76008 113427 24945 XOR\n2 1 1623 113427 24946 XOR\n2 1 24945 24946 24944 AND\n2 1 24944 113427 113428 XOR\n2 1 76009 113428 24948 XOR\n2 1 1624 113428 24949 XOR\n2 1 24948 24949 24947 AND\n2 1 24947 113428 113429 XOR\n2 1 76010 113429 24951 XOR\n2 1 1625 113429 24952 XOR\n2 1 24951 24952 24950 AND\n2 1 24950 113429 113430 XOR\n2 1 76011 113430 24954 XOR\n2 1 1626 113430 24955 XOR\n2 1 24954 24955 24953 AND\n2 1 24953 113430 113431 XOR\n2 1 76012 113431 24957 XOR\n2 1 1627 113431 24958 XOR\n2 1 24957 24958 24956 AND\n2 1 24956 113431 113432 XOR\n2 1 76013 113432 24960 XOR\n2 1 113463 113432 94130 XOR\n2 1 1628 113432 24961 XOR\n2 1 24960 24961 24959 AND\n2 1 24959 113432 113433 XOR\n2 1 76014 113433 24963 XOR\n2 1 1629 113433 24964 XOR\n2 1 24963 24964 24962 AND\n2 1 24962 113433 113434 XOR\n2 1 113465 113434 94132 XOR\n2 1 96180 94132 113403 XOR\n2 1 1630 113434 24967 XOR\n2 1 76015 113434 24966 XOR\n2 1 24966 24967 24965 AND\n2 1 24965 113434 113435 XOR\n2 1 113466 113435 94133 XOR\n2 1 96181 94133 113404 XOR\n2 1 113464 113433 94131 XOR\n2 1 96179 94131 113402 XOR\n2 1 96171 94123 113394 XOR\n2 1 96178 94130 113401 XOR\n2 1 75996 75998 80811 XOR\n2 1 80811 76171 128449 XOR\n2 1 75994 75996 80809 XOR\n2 1 80809 76169 128447 XOR\n2 1 6333 75996 80786 XOR\n2 1 80786 76146 128424 XOR\n2 1 128424 128393 79250 XOR\n2 1 80786 128393 50826 XOR\n2 1 50826 50827 50825 AND\n2 1 50825 128393 128394 XOR\n2 1 80787 128394 50829 XOR\n2 1 128425 128394 79251 XOR\n2 1 76147 128394 50830 XOR\n2 1 50829 50830 50828 AND\n2 1 50828 128394 128395 XOR\n2 1 76148 128395 50833 XOR\n2 1 80788 128395 50832 XOR\n",
"2 1 50832 50833 50831 AND\n2 1 128426 128395 79252 XOR\n2 1 50831 128395 128396 XOR\n2 1 128427 128396 79253 XOR\n2 1 80789 128396 50835 XOR\n2 1 76149 128396 50836 XOR\n2 1 50835 50836 50834 AND\n2 1 50834 128396 128397 XOR\n2 1 128428 128397 79254 XOR\n2 1 76150 128397 50839 XOR\n2 1 80790 128397 50838 XOR\n2 1 50838 50839 50837 AND\n2 1 50837 128397 128398 XOR\n2 1 128429 128398 79255 XOR\n2 1 80791 128398 50841 XOR\n2 1 76151 128398 50842 XOR\n2 1 50841 50842 50840 AND\n2 1 50840 128398 128399 XOR\n2 1 80792 128399 50844 XOR\n2 1 128430 128399 79256 XOR\n2 1 76152 128399 50845 XOR\n2 1 50844 50845 50843 AND\n2 1 50843 128399 128400 XOR\n2 1 128431 128400 79257 XOR\n2 1 80793 128400 50847 XOR\n2 1 76153 128400 50848 XOR\n2 1 50847 50848 50846 AND\n2 1 50846 128400 128401 XOR\n2 1 80794 128401 50850 XOR\n2 1 76154 128401 50851 XOR\n2 1 50850 50851 50849 AND\n2 1 128432 128401 79258 XOR\n2 1 50849 128401 128402 XOR\n2 1 76155 128402 50854 XOR\n2 1 128433 128402 79259 XOR\n2 1 80795 128402 50853 XOR\n2 1 50853 50854 50852 AND\n2 1 50852 128402 128403 XOR\n2 1 128434 128403 79260 XOR\n2 1 76156 128403 50857 XOR\n2 1 80796 128403 50856 XOR\n2 1 50856 50857 50855 AND\n2 1 50855 128403 128404 XOR\n2 1 80797 128404 50859 XOR\n2 1 76157 128404 50860 XOR\n2 1 128435 128404 79261 XOR\n2 1 50859 50860 50858 AND\n2 1 50858 128404 128405 XOR\n2 1 128436 128405 79262 XOR\n2 1 76158 128405 50863 XOR\n2 1 80798 128405 50862 XOR\n2 1 50862 50863 50861 AND\n2 1 50861 128405 128406 XOR\n2 1 76159 128406 50866 XOR\n2 1 80799 128406 50865 XOR\n2 1 50865 50866 50864 AND\n2 1 50864 128406 128407 XOR\n2 1 80800 128407 50868 XOR\n2 1 76160 128407 50869 XOR\n2 1 50868 50869 50867 AND\n2 1 50867 128407 128408 XOR\n2 1 128439 128408 79265 XOR\n2 1 76161 128408 50872 XOR\n2 1 80801 128408 50871 XOR\n2 1 50871 50872 50870 AND\n2 1 50870 128408 128409 XOR\n2 1 76162 128409 50875 XOR\n2 1 128440 128409 79266 XOR\n2 1 80802 128409 50874 XOR\n2 1 50874 50875 50873 AND\n2 1 50873 128409 128410 XOR\n2 1 76163 128410 50878 XOR\n2 1 128441 128410 79267 XOR\n2 1 80803 128410 50877 XOR\n2 1 50877 50878 50876 AND\n2 1 50876 128410 128411 XOR\n2 1 76164 128411 50881 XOR\n2 1 80804 128411 50880 XOR\n2 1 50880 50881 50879 AND\n2 1 50879 128411 128412 XOR\n2 1 128443 128412 79269 XOR\n2 1 76165 128412 50884 XOR\n2 1 80805 128412 50883 XOR\n2 1 50883 50884 50882 AND\n2 1 50882 128412 128413 XOR\n2 1 128444 128413 79270 XOR\n2 1 76166 128413 50887 XOR\n2 1 128437 128406 79263 XOR\n2 1 128442 128411 79268 XOR\n2 1 128438 128407 79264 XOR\n2 1 80806 128413 50886 XOR\n2 1 50886 50887 50885 AND\n2 1 50885 128413 128414 XOR\n2 1 80807 128414 50889 XOR\n2 1 128445 128414 79271 XOR\n2 1 76167 128414 50890 XOR\n2 1 50889 50890 50888 AND\n2 1 50888 128414 128415 XOR\n2 1 80808 128415 50892 XOR\n2 1 76168 128415 50893 XOR\n2 1 50892 50893 50891 AND\n2 1 128446 128415 79272 XOR\n2 1 50891 128415 128416 XOR\n2 1 128447 128416 79273 XOR\n2 1 80809 128416 50895 XOR\n2 1 76169 128416 50896 XOR\n2 1 50895 50896 50894 AND\n2 1 50894 128416 128417 XOR\n2 1 128448 128417 79274 XOR\n2 1 80810 128417 50898 XOR\n2 1 76170 128417 50899 XOR\n2 1 50898 50899 50897 AND\n2 1 50897 128417 128418 XOR\n2 1 80811 128418 50901 XOR\n2 1 128449 128418 79275 XOR\n2 1 76171 128418 50902 XOR\n2 1 50901 50902 50900 AND\n2 1 50900 128418 128419 XOR\n2 1 80812 128419 50904 XOR\n2 1 128450 128419 79276 XOR\n2 1 76172 128419 50905 XOR\n2 1 50904 50905 50903 AND\n2 1 50903 128419 128420 XOR\n2 1 80813 128420 50907 XOR\n2 1 128451 128420 79277 XOR\n2 1 76173 128420 50908 XOR\n2 1 50907 50908 50906 AND\n2 1 50906 128420 128421 XOR\n",
"2 1 128452 128421 79278 XOR\n2 1 80814 128421 50910 XOR\n2 1 76174 128421 50911 XOR\n2 1 50910 50911 50909 AND\n2 1 50909 128421 128422 XOR\n2 1 76175 128422 50914 XOR\n2 1 80815 128422 50913 XOR\n2 1 128453 128422 79279 XOR\n2 1 50913 50914 50912 AND\n2 1 50912 128422 128423 XOR\n2 1 128454 128423 79280 XOR\n2 1 96169 94121 113392 XOR\n2 1 76001 1616 113451 XOR\n2 1 113451 113420 94118 XOR\n2 1 96166 94118 113389 XOR\n2 1 76002 1617 113452 XOR\n2 1 113452 113421 94119 XOR\n2 1 75995 1610 113445 XOR\n2 1 113445 113414 94112 XOR\n2 1 94112 113352 24817 XOR\n2 1 24816 24817 24815 AND\n2 1 96160 94112 113383 XOR\n2 1 113383 113352 92111 XOR\n1 1 92111 24777 INV\n2 1 24777 113331 90075 XOR\n2 1 1162 90075 103934 XOR\n2 1 103934 103903 1482 XOR\n2 1 63577 1482 63545 AND\n2 1 63545 1546 98176 XOR\n2 1 1482 1514 63513 XOR\n2 1 90075 83931 103996 XOR\n2 1 103996 103965 1034 XOR\n2 1 1034 1098 69881 XOR\n2 1 69881 69849 69817 AND\n2 1 69817 1098 85947 XOR\n2 1 1034 1066 69753 XOR\n2 1 90075 103965 10054 XOR\n2 1 10054 10055 10053 AND\n2 1 10053 103965 103966 XOR\n2 1 83932 103966 10058 XOR\n2 1 92111 113331 24721 XOR\n2 1 24721 24722 24720 AND\n2 1 24720 113331 113332 XOR\n1 1 113332 24725 INV\n2 1 24815 113352 113353 XOR\n2 1 96161 113353 24819 XOR\n2 1 113384 113353 92112 XOR\n1 1 92112 24778 INV\n2 1 24778 113332 90076 XOR\n2 1 90076 103966 10057 XOR\n2 1 1163 90076 103935 XOR\n2 1 90076 83932 103997 XOR\n2 1 103997 103966 1035 XOR\n2 1 1035 1099 69882 XOR\n2 1 69882 69850 69818 AND\n2 1 69818 1099 85948 XOR\n2 1 1035 1067 69754 XOR\n2 1 1024 1035 67117 XOR\n2 1 10057 10058 10056 AND\n2 1 10056 103966 103967 XOR\n2 1 83933 103967 10061 XOR\n2 1 94113 113353 24820 XOR\n2 1 24819 24820 24818 AND\n2 1 24818 113353 113354 XOR\n2 1 113385 113354 92113 XOR\n1 1 92113 24779 INV\n2 1 96162 113354 24822 XOR\n2 1 94114 113354 24823 XOR\n2 1 24822 24823 24821 AND\n2 1 24821 113354 113355 XOR\n2 1 96163 113355 24825 XOR\n2 1 90075 103903 9965 XOR\n2 1 9964 9965 9963 AND\n2 1 9963 103903 103904 XOR\n2 1 1163 103904 9967 XOR\n2 1 1477 1482 61198 XOR\n2 1 103935 103904 1483 XOR\n2 1 63578 1483 63546 AND\n2 1 63546 1547 98177 XOR\n2 1 1483 1515 63514 XOR\n2 1 1478 1483 61167 XOR\n2 1 92112 113332 24724 XOR\n2 1 24724 24725 24723 AND\n2 1 24723 113332 113333 XOR\n1 1 113333 24728 INV\n2 1 24779 113333 90077 XOR\n2 1 1164 90077 103936 XOR\n2 1 90077 83933 103998 XOR\n2 1 103998 103967 1036 XOR\n2 1 1036 1100 69883 XOR\n2 1 69883 69851 69819 AND\n2 1 69819 1100 85949 XOR\n2 1 1036 1068 69755 XOR\n2 1 1025 1036 67118 XOR\n2 1 90077 103967 10060 XOR\n2 1 10060 10061 10059 AND\n2 1 10059 103967 103968 XOR\n2 1 83934 103968 10064 XOR\n2 1 92113 113333 24727 XOR\n2 1 24727 24728 24726 AND\n2 1 24726 113333 113334 XOR\n1 1 113334 24731 INV\n2 1 90076 103904 9968 XOR\n2 1 9967 9968 9966 AND\n2 1 9966 103904 103905 XOR\n2 1 1164 103905 9970 XOR\n2 1 103936 103905 1484 XOR\n2 1 90077 103905 9971 XOR\n2 1 63579 1484 63547 AND\n2 1 63547 1548 98178 XOR\n2 1 1484 1516 63515 XOR\n2 1 1479 1484 61168 XOR\n2 1 9970 9971 9969 AND\n2 1 9969 103905 103906 XOR\n2 1 1165 103906 9973 XOR\n2 1 75998 1613 113448 XOR\n2 1 113448 113417 94115 XOR\n2 1 94115 113355 24826 XOR\n2 1 96163 94115 113386 XOR\n2 1 113386 113355 92114 XOR\n1 1 92114 24780 INV\n2 1 24780 113334 90078 XOR\n2 1 90078 103906 9974 XOR\n2 1 9973 9974 9972 AND\n2 1 9972 103906 103907 XOR\n2 1 1166 103907 9976 XOR\n2 1 1165 90078 103937 XOR\n2 1 103937 103906 1485 XOR\n",
"2 1 63580 1485 63548 AND\n2 1 63548 1549 98179 XOR\n2 1 1485 1517 63516 XOR\n2 1 90078 83934 103999 XOR\n2 1 103999 103968 1037 XOR\n2 1 1037 1101 69884 XOR\n2 1 69884 69852 69820 AND\n2 1 69820 1101 85950 XOR\n2 1 1037 1069 69756 XOR\n2 1 1026 1037 67087 XOR\n2 1 92114 113334 24730 XOR\n2 1 24730 24731 24729 AND\n2 1 24729 113334 24733 XOR\n2 1 90078 103968 10063 XOR\n2 1 10063 10064 10062 AND\n2 1 24825 24826 24824 AND\n2 1 24824 113355 113356 XOR\n2 1 1480 1485 61169 XOR\n2 1 10062 103968 103969 XOR\n2 1 96164 113356 24828 XOR\n2 1 75999 1614 113449 XOR\n2 1 113449 113418 94116 XOR\n2 1 96164 94116 113387 XOR\n2 1 94116 113356 24829 XOR\n2 1 113387 113356 92115 XOR\n2 1 92115 24733 90079 XOR\n2 1 90079 103907 9977 XOR\n2 1 9976 9977 9975 AND\n2 1 9975 103907 103908 XOR\n2 1 1167 103908 9979 XOR\n2 1 90079 83935 104000 XOR\n2 1 90079 103969 10066 XOR\n2 1 104000 103969 1038 XOR\n2 1 1038 1102 69885 XOR\n2 1 69885 69853 69821 AND\n2 1 69821 1102 85951 XOR\n2 1 1038 1070 69757 XOR\n2 1 1027 1038 67088 XOR\n2 1 1166 90079 103938 XOR\n2 1 103938 103907 1486 XOR\n2 1 1486 1518 63517 XOR\n2 1 1481 1486 61170 XOR\n2 1 63581 1486 63549 AND\n2 1 63549 1550 98180 XOR\n2 1 90079 24733 24732 AND\n2 1 24732 24733 113335 XOR\n1 1 113335 24736 INV\n2 1 24828 24829 24827 AND\n2 1 24827 113356 113357 XOR\n2 1 94117 113357 24832 XOR\n2 1 96165 113357 24831 XOR\n2 1 24831 24832 24830 AND\n2 1 24830 113357 113358 XOR\n2 1 94118 113358 24835 XOR\n2 1 113389 113358 92117 XOR\n2 1 96166 113358 24834 XOR\n2 1 24834 24835 24833 AND\n2 1 24833 113358 113359 XOR\n2 1 94119 113359 24838 XOR\n2 1 96167 113359 24837 XOR\n2 1 24837 24838 24836 AND\n2 1 24836 113359 113360 XOR\n2 1 113391 113360 92119 XOR\n2 1 94120 113360 24841 XOR\n2 1 96168 113360 24840 XOR\n2 1 24840 24841 24839 AND\n2 1 24839 113360 113361 XOR\n2 1 96169 113361 24843 XOR\n2 1 113392 113361 92120 XOR\n2 1 94121 113361 24844 XOR\n2 1 24843 24844 24842 AND\n2 1 24842 113361 113362 XOR\n2 1 96170 113362 24846 XOR\n2 1 94122 113362 24847 XOR\n2 1 113393 113362 92121 XOR\n1 1 92121 24782 INV\n2 1 24846 24847 24845 AND\n2 1 24845 113362 113363 XOR\n2 1 94123 113363 24850 XOR\n2 1 113394 113363 92122 XOR\n1 1 92122 24783 INV\n2 1 96171 113363 24849 XOR\n2 1 24849 24850 24848 AND\n2 1 24848 113363 113364 XOR\n2 1 96172 113364 24852 XOR\n2 1 94124 113364 24853 XOR\n2 1 113395 113364 92123 XOR\n2 1 24852 24853 24851 AND\n2 1 24851 113364 113365 XOR\n2 1 96173 113365 24855 XOR\n2 1 113388 113357 92116 XOR\n1 1 92116 24781 INV\n2 1 24781 113335 90080 XOR\n2 1 90080 103908 9980 XOR\n2 1 9979 9980 9978 AND\n2 1 9978 103908 103909 XOR\n2 1 1168 103909 9982 XOR\n2 1 1167 90080 103939 XOR\n2 1 103939 103908 1487 XOR\n2 1 63582 1487 63550 AND\n2 1 63550 1551 98181 XOR\n2 1 1487 1519 63518 XOR\n2 1 90080 83936 104001 XOR\n2 1 1482 1487 61171 XOR\n2 1 92116 113335 24735 XOR\n2 1 24735 24736 24734 AND\n2 1 24734 113335 24738 XOR\n2 1 92117 24738 90081 XOR\n2 1 90081 103909 9983 XOR\n2 1 9982 9983 9981 AND\n2 1 9981 103909 103910 XOR\n2 1 1169 103910 9985 XOR\n2 1 90081 83937 104002 XOR\n2 1 1168 90081 103940 XOR\n2 1 103940 103909 1488 XOR\n2 1 1488 1520 63519 XOR\n2 1 1483 1488 61172 XOR\n2 1 63583 1488 63551 AND\n2 1 63551 1552 98182 XOR\n2 1 90081 24738 24737 AND\n2 1 24737 24738 24740 XOR\n2 1 76009 1624 113459 XOR\n2 1 113459 113428 94126 XOR\n2 1 96174 94126 113397 XOR\n2 1 76011 1626 113461 XOR\n2 1 113461 113430 94128 XOR\n2 1 96176 94128 113399 XOR\n2 1 76008 1623 113458 XOR\n",
"2 1 113458 113427 94125 XOR\n2 1 94125 113365 24856 XOR\n2 1 24855 24856 24854 AND\n2 1 96173 94125 113396 XOR\n2 1 113396 113365 92124 XOR\n1 1 92124 24784 INV\n2 1 24854 113365 113366 XOR\n2 1 96174 113366 24858 XOR\n2 1 113397 113366 92125 XOR\n2 1 94126 113366 24859 XOR\n2 1 76012 1627 113462 XOR\n2 1 113462 113431 94129 XOR\n2 1 96177 94129 113400 XOR\n2 1 76010 1625 113460 XOR\n2 1 113460 113429 94127 XOR\n2 1 96175 94127 113398 XOR\n2 1 83935 103969 10067 XOR\n2 1 10066 10067 10065 AND\n2 1 10065 103969 103970 XOR\n2 1 90080 103970 10069 XOR\n2 1 104001 103970 1039 XOR\n2 1 1039 1103 69886 XOR\n2 1 69886 69854 69822 AND\n2 1 69822 1103 85952 XOR\n2 1 1039 1071 69758 XOR\n2 1 1028 1039 67089 XOR\n2 1 83936 103970 10070 XOR\n2 1 10069 10070 10068 AND\n2 1 10068 103970 103971 XOR\n2 1 90081 103971 10072 XOR\n2 1 83937 103971 10073 XOR\n2 1 10072 10073 10071 AND\n2 1 104002 103971 1040 XOR\n2 1 1040 1104 69887 XOR\n2 1 69887 69855 69823 AND\n2 1 69823 1104 85953 XOR\n2 1 1040 1072 69759 XOR\n2 1 10071 103971 103972 XOR\n2 1 83938 103972 10076 XOR\n2 1 1029 1040 67090 XOR\n2 1 96167 94119 113390 XOR\n2 1 113390 113359 92118 XOR\n2 1 92118 24740 90082 XOR\n2 1 90082 103972 10075 XOR\n2 1 1169 90082 103941 XOR\n2 1 103941 103910 1489 XOR\n2 1 90082 103910 9986 XOR\n2 1 9985 9986 9984 AND\n2 1 9984 103910 103911 XOR\n2 1 1170 103911 9988 XOR\n2 1 63584 1489 63552 AND\n2 1 63552 1553 98183 XOR\n2 1 1489 1521 63520 XOR\n2 1 90082 83938 104003 XOR\n2 1 104003 103972 1041 XOR\n2 1 1041 1105 69888 XOR\n2 1 69888 69856 69824 AND\n2 1 69824 1105 85954 XOR\n2 1 1041 1073 69760 XOR\n2 1 1030 1041 67091 XOR\n2 1 10075 10076 10074 AND\n2 1 10074 103972 103973 XOR\n2 1 83939 103973 10079 XOR\n2 1 1484 1489 61173 XOR\n2 1 90082 24740 24739 AND\n2 1 24739 24740 24742 XOR\n2 1 92119 24742 90083 XOR\n2 1 90083 103973 10078 XOR\n2 1 10078 10079 10077 AND\n2 1 10077 103973 103974 XOR\n2 1 90083 103911 9989 XOR\n2 1 9988 9989 9987 AND\n2 1 9987 103911 103912 XOR\n2 1 1171 103912 9991 XOR\n2 1 90083 83939 104004 XOR\n2 1 104004 103973 1042 XOR\n2 1 1042 1106 69889 XOR\n2 1 69889 69857 69825 AND\n2 1 69825 1106 85955 XOR\n2 1 1042 1074 69761 XOR\n2 1 1031 1042 67092 XOR\n2 1 83940 103974 10082 XOR\n2 1 1170 90083 103942 XOR\n2 1 103942 103911 1490 XOR\n2 1 1490 1522 63521 XOR\n2 1 1485 1490 61174 XOR\n2 1 61174 1472 100221 XOR\n2 1 100221 98173 113240 XOR\n2 1 63585 1490 63553 AND\n2 1 63553 1554 98184 XOR\n2 1 90083 24742 24741 AND\n2 1 24741 24742 24744 XOR\n2 1 92120 24744 90084 XOR\n2 1 90084 103974 10081 XOR\n2 1 10081 10082 10080 AND\n2 1 10080 103974 103975 XOR\n2 1 90084 103912 9992 XOR\n2 1 9991 9992 9990 AND\n2 1 9990 103912 103913 XOR\n2 1 1172 103913 9994 XOR\n2 1 83941 103975 10085 XOR\n2 1 90084 83940 104005 XOR\n2 1 104005 103974 1043 XOR\n2 1 1043 1107 69890 XOR\n2 1 69890 69858 69826 AND\n2 1 69826 1107 85956 XOR\n2 1 1043 1075 69762 XOR\n2 1 1032 1043 67093 XOR\n2 1 1171 90084 103943 XOR\n2 1 103943 103912 1491 XOR\n2 1 63586 1491 63554 AND\n2 1 63554 1555 98185 XOR\n2 1 1491 1523 63522 XOR\n2 1 1486 1491 61175 XOR\n2 1 61193 1491 100240 XOR\n2 1 61175 1473 100222 XOR\n2 1 90084 24744 24743 AND\n2 1 24743 24744 113336 XOR\n2 1 92121 113336 24746 XOR\n2 1 24782 113336 90085 XOR\n2 1 1172 90085 103944 XOR\n1 1 113336 24747 INV\n2 1 103944 103913 1492 XOR\n2 1 90085 103913 9995 XOR\n2 1 9994 9995 9993 AND\n2 1 9993 103913 103914 XOR\n2 1 1173 103914 9997 XOR\n2 1 63587 1492 63555 AND\n",
"2 1 63555 1556 98186 XOR\n2 1 1492 1524 63523 XOR\n2 1 90085 83941 104006 XOR\n2 1 104006 103975 1044 XOR\n2 1 1044 1108 69891 XOR\n2 1 69891 69859 69827 AND\n2 1 69827 1108 85957 XOR\n2 1 1044 1076 69763 XOR\n2 1 1033 1044 67094 XOR\n2 1 67117 1044 88015 XOR\n2 1 1487 1492 61176 XOR\n2 1 61194 1492 100241 XOR\n2 1 61176 1474 100223 XOR\n2 1 100223 98175 113242 XOR\n2 1 90085 103975 10084 XOR\n2 1 10084 10085 10083 AND\n2 1 10083 103975 103976 XOR\n2 1 83942 103976 10088 XOR\n2 1 24746 24747 24745 AND\n2 1 24745 113336 113337 XOR\n2 1 92122 113337 24749 XOR\n1 1 113337 24750 INV\n2 1 24749 24750 24748 AND\n2 1 24748 113337 24752 XOR\n2 1 92123 24752 90087 XOR\n2 1 1174 90087 103946 XOR\n2 1 90087 83943 104008 XOR\n2 1 90087 24752 24751 AND\n2 1 24751 24752 113338 XOR\n1 1 113338 24755 INV\n2 1 92124 113338 24754 XOR\n2 1 24754 24755 24753 AND\n2 1 24753 113338 24757 XOR\n2 1 92125 24757 90089 XOR\n2 1 1176 90089 103948 XOR\n2 1 90089 24757 24756 AND\n2 1 24756 24757 24759 XOR\n2 1 90089 83945 104010 XOR\n2 1 24783 113337 90086 XOR\n2 1 90086 103976 10087 XOR\n2 1 10087 10088 10086 AND\n2 1 90086 103914 9998 XOR\n2 1 9997 9998 9996 AND\n2 1 9996 103914 103915 XOR\n2 1 103946 103915 1494 XOR\n2 1 1174 103915 10000 XOR\n2 1 90087 103915 10001 XOR\n2 1 10000 10001 9999 AND\n2 1 9999 103915 103916 XOR\n2 1 1175 103916 10003 XOR\n2 1 63589 1494 63557 AND\n2 1 63557 1558 98188 XOR\n2 1 1494 1526 63525 XOR\n2 1 90086 83942 104007 XOR\n2 1 104007 103976 1045 XOR\n2 1 1045 1109 69892 XOR\n2 1 69892 69860 69828 AND\n2 1 69828 1109 85958 XOR\n2 1 1045 1077 69764 XOR\n2 1 1045 1024 67106 XOR\n2 1 1034 1045 67095 XOR\n2 1 67118 1045 88016 XOR\n2 1 67106 1033 88004 XOR\n2 1 88004 85956 113066 XOR\n2 1 1173 90086 103945 XOR\n2 1 103945 103914 1493 XOR\n2 1 63588 1493 63556 AND\n2 1 63556 1557 98187 XOR\n2 1 1493 1525 63524 XOR\n2 1 1489 1494 61178 XOR\n2 1 1488 1493 61177 XOR\n2 1 61196 1494 100243 XOR\n2 1 61195 1493 100242 XOR\n2 1 61178 1476 100225 XOR\n2 1 100225 98177 113244 XOR\n2 1 61177 1475 100224 XOR\n2 1 100224 98176 113243 XOR\n2 1 24784 113338 90088 XOR\n2 1 90088 103916 10004 XOR\n2 1 10003 10004 10002 AND\n2 1 10002 103916 103917 XOR\n2 1 103948 103917 1496 XOR\n2 1 1176 103917 10006 XOR\n2 1 90089 103917 10007 XOR\n2 1 10006 10007 10005 AND\n2 1 10005 103917 103918 XOR\n2 1 1177 103918 10009 XOR\n2 1 63591 1496 63559 AND\n2 1 63559 1560 98190 XOR\n2 1 1496 1528 63527 XOR\n2 1 90088 83944 104009 XOR\n2 1 1175 90088 103947 XOR\n2 1 103947 103916 1495 XOR\n2 1 63590 1495 63558 AND\n2 1 63558 1559 98189 XOR\n2 1 1495 1527 63526 XOR\n2 1 1491 1496 61180 XOR\n2 1 1490 1495 61179 XOR\n2 1 61198 1496 100245 XOR\n2 1 61197 1495 100244 XOR\n2 1 61180 1478 100227 XOR\n2 1 100227 98179 113246 XOR\n2 1 61179 1477 100226 XOR\n2 1 100226 98178 113245 XOR\n2 1 100222 98174 113241 XOR\n2 1 10086 103976 103977 XOR\n2 1 90087 103977 10090 XOR\n2 1 83943 103977 10091 XOR\n2 1 104008 103977 1046 XOR\n2 1 1046 1110 69893 XOR\n2 1 69893 69861 69829 AND\n2 1 69829 1110 85959 XOR\n2 1 1046 1078 69765 XOR\n2 1 1046 1025 67107 XOR\n2 1 1035 1046 67096 XOR\n2 1 67107 1034 88005 XOR\n2 1 67087 1046 87985 XOR\n2 1 87985 85937 113017 AND\n2 1 85938 113017 24153 XOR\n2 1 87985 85937 83889 XOR\n2 1 88005 85957 113067 XOR\n2 1 10090 10091 10089 AND\n2 1 10089 103977 103978 XOR\n2 1 83944 103978 10094 XOR\n2 1 104009 103978 1047 XOR\n2 1 1047 1111 69894 XOR\n2 1 69894 69862 69830 AND\n2 1 69830 1111 85960 XOR\n",
"2 1 1047 1079 69766 XOR\n2 1 1047 1026 67108 XOR\n2 1 1036 1047 67097 XOR\n2 1 67108 1035 88006 XOR\n2 1 88006 85958 113068 XOR\n2 1 67097 1024 87995 XOR\n2 1 67088 1047 87986 XOR\n2 1 87986 113017 24152 XOR\n2 1 24152 24153 24151 AND\n2 1 24151 113017 113018 XOR\n2 1 85939 113018 24156 XOR\n2 1 87986 85938 113048 XOR\n2 1 113048 113017 83890 XOR\n2 1 87995 85947 113057 XOR\n2 1 90088 103978 10093 XOR\n2 1 10093 10094 10092 AND\n2 1 10092 103978 103979 XOR\n2 1 104010 103979 1048 XOR\n2 1 90089 103979 10096 XOR\n2 1 1048 1112 69895 XOR\n2 1 69895 69863 69831 AND\n2 1 69831 1112 85961 XOR\n2 1 1048 1080 69767 XOR\n2 1 1048 1027 67109 XOR\n2 1 1037 1048 67098 XOR\n2 1 67109 1036 88007 XOR\n2 1 67098 1025 87996 XOR\n2 1 87996 85948 113058 XOR\n2 1 67089 1048 87987 XOR\n2 1 83945 103979 10097 XOR\n2 1 10096 10097 10095 AND\n2 1 10095 103979 103980 XOR\n2 1 83946 103980 10100 XOR\n2 1 87987 85939 113049 XOR\n2 1 88007 85959 113069 XOR\n2 1 113049 113018 83891 XOR\n2 1 87987 113018 24155 XOR\n2 1 24155 24156 24154 AND\n2 1 24154 113018 113019 XOR\n2 1 85940 113019 24159 XOR\n2 1 24858 24859 24857 AND\n2 1 24857 113366 113367 XOR\n2 1 94127 113367 24862 XOR\n2 1 96175 113367 24861 XOR\n2 1 24861 24862 24860 AND\n2 1 24860 113367 113368 XOR\n2 1 96176 113368 24864 XOR\n2 1 94128 113368 24865 XOR\n2 1 24864 24865 24863 AND\n2 1 24863 113368 113369 XOR\n2 1 113399 113368 92127 XOR\n1 1 92127 24785 INV\n2 1 113398 113367 92126 XOR\n2 1 96177 113369 24867 XOR\n2 1 94129 113369 24868 XOR\n2 1 24867 24868 24866 AND\n2 1 24866 113369 113370 XOR\n2 1 94130 113370 24871 XOR\n2 1 96178 113370 24870 XOR\n2 1 113401 113370 92129 XOR\n1 1 92129 24786 INV\n2 1 113400 113369 92128 XOR\n2 1 92126 24759 90090 XOR\n2 1 90090 103918 10010 XOR\n2 1 10009 10010 10008 AND\n2 1 10008 103918 103919 XOR\n2 1 1178 103919 10012 XOR\n2 1 90090 103980 10099 XOR\n2 1 10099 10100 10098 AND\n2 1 10098 103980 103981 XOR\n2 1 83947 103981 10103 XOR\n2 1 90090 24759 24758 AND\n2 1 24758 24759 113339 XOR\n2 1 24785 113339 90091 XOR\n2 1 92127 113339 24761 XOR\n1 1 113339 24762 INV\n2 1 90091 103919 10013 XOR\n2 1 10012 10013 10011 AND\n2 1 10011 103919 103920 XOR\n2 1 1179 103920 10015 XOR\n2 1 90091 103981 10102 XOR\n2 1 10102 10103 10101 AND\n2 1 10101 103981 103982 XOR\n2 1 83948 103982 10106 XOR\n2 1 90090 83946 104011 XOR\n2 1 104011 103980 1049 XOR\n2 1 1049 1113 69896 XOR\n2 1 69896 69864 69832 AND\n2 1 69832 1113 85962 XOR\n2 1 1049 1081 69768 XOR\n2 1 1049 1028 67110 XOR\n2 1 1038 1049 67099 XOR\n2 1 67110 1037 88008 XOR\n2 1 88008 85960 113070 XOR\n2 1 67099 1026 87997 XOR\n2 1 67090 1049 87988 XOR\n2 1 87988 85940 113050 XOR\n2 1 113050 113019 83892 XOR\n2 1 90091 83947 104012 XOR\n2 1 104012 103981 1050 XOR\n2 1 1050 1114 69897 XOR\n2 1 69897 69865 69833 AND\n2 1 69833 1114 85963 XOR\n2 1 1050 1082 69769 XOR\n2 1 1050 1029 67111 XOR\n2 1 1039 1050 67100 XOR\n2 1 67111 1038 88009 XOR\n2 1 88009 85961 113071 XOR\n2 1 67100 1027 87998 XOR\n2 1 87998 85950 113060 XOR\n2 1 67091 1050 87989 XOR\n2 1 24761 24762 24760 AND\n2 1 24760 113339 24764 XOR\n2 1 1177 90090 103949 XOR\n2 1 103949 103918 1497 XOR\n2 1 63592 1497 63560 AND\n2 1 63560 1561 98191 XOR\n2 1 1497 1529 63528 XOR\n2 1 87989 85941 113051 XOR\n2 1 87997 85949 113059 XOR\n2 1 87988 113019 24158 XOR\n2 1 24158 24159 24157 AND\n2 1 24157 113019 113020 XOR\n2 1 85941 113020 24162 XOR\n2 1 87989 113020 24161 XOR\n2 1 24161 24162 24160 AND\n2 1 24160 113020 113021 XOR\n2 1 92128 24764 90092 XOR\n",
"2 1 90092 103982 10105 XOR\n2 1 10105 10106 10104 AND\n2 1 10104 103982 103983 XOR\n2 1 1179 90092 103951 XOR\n2 1 103951 103920 1499 XOR\n2 1 63594 1499 63562 AND\n2 1 63562 1563 98193 XOR\n2 1 1499 1531 63530 XOR\n2 1 90092 83948 104013 XOR\n2 1 104013 103982 1051 XOR\n2 1 1051 1115 69898 XOR\n2 1 69898 69866 69834 AND\n2 1 69834 1115 85964 XOR\n2 1 1051 1083 69770 XOR\n2 1 1051 1030 67112 XOR\n2 1 1040 1051 67101 XOR\n2 1 67112 1039 88010 XOR\n2 1 88010 85962 113072 XOR\n2 1 67101 1028 87999 XOR\n2 1 67092 1051 87990 XOR\n2 1 87990 85942 113052 XOR\n2 1 113052 113021 83894 XOR\n2 1 87990 113021 24164 XOR\n2 1 83949 103983 10109 XOR\n2 1 87999 85951 113061 XOR\n2 1 90092 103920 10016 XOR\n2 1 10015 10016 10014 AND\n2 1 10014 103920 103921 XOR\n2 1 1180 103921 10018 XOR\n2 1 90092 24764 24763 AND\n2 1 24763 24764 113340 XOR\n2 1 92129 113340 24766 XOR\n1 1 113340 24767 INV\n2 1 24786 113340 90093 XOR\n2 1 90093 103921 10019 XOR\n2 1 10018 10019 10017 AND\n2 1 10017 103921 103922 XOR\n2 1 1181 103922 10021 XOR\n2 1 90093 103983 10108 XOR\n2 1 10108 10109 10107 AND\n2 1 10107 103983 103984 XOR\n2 1 83950 103984 10112 XOR\n2 1 90093 83949 104014 XOR\n2 1 104014 103983 1052 XOR\n2 1 1052 1116 69899 XOR\n2 1 69899 69867 69835 AND\n2 1 69835 1116 85965 XOR\n2 1 1052 1084 69771 XOR\n2 1 1052 1031 67113 XOR\n2 1 1041 1052 67102 XOR\n2 1 67113 1040 88011 XOR\n2 1 88011 85963 113073 XOR\n2 1 67102 1029 88000 XOR\n2 1 88000 85952 113062 XOR\n2 1 67093 1052 87991 XOR\n2 1 87991 85943 113053 XOR\n2 1 24766 24767 24765 AND\n2 1 24765 113340 113341 XOR\n1 1 113341 24770 INV\n2 1 113051 113020 83893 XOR\n2 1 24870 24871 24869 AND\n2 1 1499 1472 61188 XOR\n2 1 1494 1499 61183 XOR\n2 1 1492 1497 61181 XOR\n2 1 61188 1486 100235 XOR\n2 1 100235 98187 113254 XOR\n2 1 61183 1481 100230 XOR\n2 1 100230 98182 113249 XOR\n2 1 61181 1479 100228 XOR\n2 1 61169 1499 100216 XOR\n2 1 100216 98168 113235 XOR\n2 1 61167 1497 100214 XOR\n2 1 100214 98166 96118 XOR\n2 1 100214 98166 113203 AND\n2 1 98167 113203 24521 XOR\n2 1 24869 113370 113371 XOR\n2 1 94131 113371 24874 XOR\n2 1 113402 113371 92130 XOR\n2 1 92130 113341 24769 XOR\n2 1 24769 24770 24768 AND\n2 1 24768 113341 24772 XOR\n1 1 92130 24787 INV\n2 1 24787 113341 90094 XOR\n2 1 90094 103922 10022 XOR\n2 1 10021 10022 10020 AND\n2 1 10020 103922 103923 XOR\n2 1 1182 103923 10024 XOR\n2 1 90094 83950 104015 XOR\n2 1 104015 103984 1053 XOR\n2 1 1053 1117 69900 XOR\n2 1 69900 69868 69836 AND\n2 1 69836 1117 85966 XOR\n2 1 1053 1085 69772 XOR\n2 1 1053 1032 67114 XOR\n2 1 1042 1053 67103 XOR\n2 1 67114 1041 88012 XOR\n2 1 88012 85964 113074 XOR\n2 1 67103 1030 88001 XOR\n2 1 67094 1053 87992 XOR\n2 1 87992 85944 113054 XOR\n2 1 90094 103984 10111 XOR\n2 1 10111 10112 10110 AND\n2 1 10110 103984 103985 XOR\n2 1 83951 103985 10115 XOR\n2 1 88001 85953 113063 XOR\n2 1 1181 90094 103953 XOR\n2 1 103953 103922 1501 XOR\n2 1 63596 1501 63564 AND\n2 1 63564 1565 98195 XOR\n2 1 1501 1533 63532 XOR\n2 1 100243 98195 113262 XOR\n2 1 1501 1474 61190 XOR\n2 1 1496 1501 61185 XOR\n2 1 61190 1488 100237 XOR\n2 1 100237 98189 113256 XOR\n2 1 61185 1483 100232 XOR\n2 1 100232 98184 113251 XOR\n2 1 61171 1501 100218 XOR\n2 1 100218 98170 113237 XOR\n2 1 1178 90091 103950 XOR\n2 1 103950 103919 1498 XOR\n2 1 63593 1498 63561 AND\n2 1 63561 1562 98192 XOR\n2 1 100240 98192 113259 XOR\n2 1 1498 1530 63529 XOR\n2 1 1493 1498 61182 XOR\n2 1 61182 1480 100229 XOR\n2 1 100229 98181 113248 XOR\n",
"2 1 61168 1498 100215 XOR\n2 1 100215 98167 113234 XOR\n2 1 100215 113203 24520 XOR\n2 1 24520 24521 24519 AND\n2 1 24519 113203 113204 XOR\n2 1 113235 113204 96120 XOR\n2 1 98168 113204 24524 XOR\n2 1 1180 90093 103952 XOR\n2 1 103952 103921 1500 XOR\n2 1 63595 1500 63563 AND\n2 1 63563 1564 98194 XOR\n2 1 1500 1532 63531 XOR\n2 1 100242 98194 113261 XOR\n2 1 1500 1473 61189 XOR\n2 1 1495 1500 61184 XOR\n2 1 61189 1487 100236 XOR\n2 1 100236 98188 113255 XOR\n2 1 61184 1482 100231 XOR\n2 1 100231 98183 113250 XOR\n2 1 61170 1500 100217 XOR\n2 1 100217 98169 113236 XOR\n2 1 100241 98193 113260 XOR\n2 1 100216 113204 24523 XOR\n2 1 24523 24524 24522 AND\n2 1 24522 113204 113205 XOR\n2 1 113236 113205 96121 XOR\n2 1 100217 113205 24526 XOR\n2 1 98169 113205 24527 XOR\n2 1 24526 24527 24525 AND\n2 1 24525 113205 113206 XOR\n2 1 100218 113206 24529 XOR\n2 1 113237 113206 96122 XOR\n2 1 98170 113206 24530 XOR\n2 1 24529 24530 24528 AND\n2 1 24528 113206 113207 XOR\n2 1 98171 113207 24533 XOR\n2 1 100228 98180 113247 XOR\n2 1 113234 113203 96119 XOR\n2 1 85942 113021 24165 XOR\n2 1 24164 24165 24163 AND\n2 1 24163 113021 113022 XOR\n2 1 87991 113022 24167 XOR\n2 1 85943 113022 24168 XOR\n2 1 24167 24168 24166 AND\n2 1 24166 113022 113023 XOR\n2 1 113054 113023 83896 XOR\n2 1 87992 113023 24170 XOR\n2 1 85944 113023 24171 XOR\n2 1 113053 113022 83895 XOR\n2 1 24170 24171 24169 AND\n2 1 24169 113023 113024 XOR\n2 1 85945 113024 24174 XOR\n2 1 96179 113371 24873 XOR\n2 1 24873 24874 24872 AND\n2 1 24872 113371 113372 XOR\n2 1 96180 113372 24876 XOR\n2 1 113403 113372 92131 XOR\n2 1 92131 24772 90095 XOR\n2 1 90095 103985 10114 XOR\n2 1 90095 103923 10025 XOR\n2 1 10024 10025 10023 AND\n2 1 10023 103923 103924 XOR\n2 1 10114 10115 10113 AND\n2 1 90095 83951 104016 XOR\n2 1 104016 103985 1054 XOR\n2 1 1054 1118 69901 XOR\n2 1 69901 69869 69837 AND\n2 1 69837 1118 85967 XOR\n2 1 1054 1086 69773 XOR\n2 1 1054 1033 67115 XOR\n2 1 1043 1054 67104 XOR\n2 1 67115 1042 88013 XOR\n2 1 67104 1031 88002 XOR\n2 1 88002 85954 113064 XOR\n2 1 67095 1054 87993 XOR\n2 1 87993 113024 24173 XOR\n2 1 24173 24174 24172 AND\n2 1 24172 113024 113025 XOR\n2 1 85946 113025 24177 XOR\n2 1 88015 85967 113077 XOR\n2 1 10113 103985 103986 XOR\n2 1 87993 85945 113055 XOR\n2 1 113055 113024 83897 XOR\n2 1 88013 85965 113075 XOR\n2 1 1182 90095 103954 XOR\n2 1 103954 103923 1502 XOR\n2 1 63597 1502 63565 AND\n2 1 63565 1566 98196 XOR\n2 1 1502 1534 63533 XOR\n2 1 100244 98196 113263 XOR\n2 1 1502 1475 61191 XOR\n2 1 1497 1502 61186 XOR\n2 1 61191 1489 100238 XOR\n2 1 100238 98190 113257 XOR\n2 1 61186 1484 100233 XOR\n2 1 100233 98185 113252 XOR\n2 1 61172 1502 100219 XOR\n2 1 100219 98171 113238 XOR\n2 1 100219 113207 24532 XOR\n2 1 24532 24533 24531 AND\n2 1 24531 113207 113208 XOR\n2 1 98172 113208 24536 XOR\n2 1 113238 113207 96123 XOR\n2 1 90095 24772 24771 AND\n2 1 24771 24772 113342 XOR\n2 1 94132 113372 24877 XOR\n2 1 24876 24877 24875 AND\n2 1 24875 113372 113373 XOR\n2 1 113404 113373 92132 XOR\n2 1 92132 113342 90096 XOR\n2 1 90096 83952 104017 XOR\n2 1 104017 103986 1055 XOR\n2 1 1055 1119 69902 XOR\n2 1 69902 69870 69838 AND\n2 1 69838 1119 85968 XOR\n2 1 88016 85968 113078 XOR\n2 1 1055 1087 69774 XOR\n2 1 1055 1034 67116 XOR\n2 1 1044 1055 67105 XOR\n2 1 67116 1043 88014 XOR\n2 1 88014 85966 113076 XOR\n2 1 67105 1032 88003 XOR\n2 1 67096 1055 87994 XOR\n2 1 87994 113025 24176 XOR\n2 1 87994 85946 113056 XOR\n2 1 24176 24177 24175 AND\n2 1 24175 113025 113026 XOR\n2 1 113057 113026 83899 XOR\n",
"2 1 85947 113026 24180 XOR\n2 1 87995 113026 24179 XOR\n2 1 24179 24180 24178 AND\n2 1 24178 113026 113027 XOR\n2 1 87996 113027 24182 XOR\n2 1 85948 113027 24183 XOR\n2 1 24182 24183 24181 AND\n2 1 113058 113027 83900 XOR\n2 1 24181 113027 113028 XOR\n2 1 85949 113028 24186 XOR\n2 1 87997 113028 24185 XOR\n2 1 24185 24186 24184 AND\n2 1 24184 113028 113029 XOR\n2 1 85950 113029 24189 XOR\n2 1 113060 113029 83902 XOR\n2 1 87998 113029 24188 XOR\n2 1 24188 24189 24187 AND\n2 1 24187 113029 113030 XOR\n2 1 87999 113030 24191 XOR\n2 1 113061 113030 83903 XOR\n2 1 113056 113025 83898 XOR\n2 1 113059 113028 83901 XOR\n2 1 88003 85955 113065 XOR\n2 1 85951 113030 24192 XOR\n2 1 24191 24192 24190 AND\n2 1 24190 113030 113031 XOR\n2 1 113062 113031 83904 XOR\n2 1 85952 113031 24195 XOR\n2 1 88000 113031 24194 XOR\n2 1 24194 24195 24193 AND\n2 1 24193 113031 113032 XOR\n2 1 85953 113032 24198 XOR\n2 1 113063 113032 83905 XOR\n2 1 88001 113032 24197 XOR\n2 1 24197 24198 24196 AND\n2 1 24196 113032 113033 XOR\n2 1 113064 113033 83906 XOR\n2 1 88002 113033 24200 XOR\n2 1 85954 113033 24201 XOR\n2 1 24200 24201 24199 AND\n2 1 24199 113033 113034 XOR\n2 1 85955 113034 24204 XOR\n2 1 113065 113034 83907 XOR\n2 1 88003 113034 24203 XOR\n2 1 24203 24204 24202 AND\n2 1 24202 113034 113035 XOR\n2 1 113066 113035 83908 XOR\n2 1 85956 113035 24207 XOR\n2 1 88004 113035 24206 XOR\n2 1 24206 24207 24205 AND\n2 1 24205 113035 113036 XOR\n2 1 88005 113036 24209 XOR\n2 1 113067 113036 83909 XOR\n2 1 85957 113036 24210 XOR\n2 1 24209 24210 24208 AND\n2 1 24208 113036 113037 XOR\n2 1 85958 113037 24213 XOR\n2 1 88006 113037 24212 XOR\n2 1 24212 24213 24211 AND\n2 1 24211 113037 113038 XOR\n2 1 113069 113038 83911 XOR\n2 1 85959 113038 24216 XOR\n2 1 113068 113037 83910 XOR\n2 1 1183 90096 103955 XOR\n2 1 103955 103924 1503 XOR\n2 1 63598 1503 63566 AND\n2 1 63566 1567 98197 XOR\n2 1 100245 98197 113264 XOR\n2 1 1503 1535 63534 XOR\n2 1 1503 1476 61192 XOR\n2 1 1498 1503 61187 XOR\n2 1 61192 1490 100239 XOR\n2 1 100239 98191 113258 XOR\n2 1 61187 1485 100234 XOR\n2 1 61173 1503 100220 XOR\n2 1 100220 98172 113239 XOR\n2 1 113239 113208 96124 XOR\n2 1 100220 113208 24535 XOR\n2 1 24535 24536 24534 AND\n2 1 24534 113208 113209 XOR\n2 1 98173 113209 24539 XOR\n2 1 113240 113209 96125 XOR\n2 1 100221 113209 24538 XOR\n2 1 24538 24539 24537 AND\n2 1 24537 113209 113210 XOR\n2 1 113241 113210 96126 XOR\n2 1 100222 113210 24541 XOR\n2 1 98174 113210 24542 XOR\n2 1 24541 24542 24540 AND\n2 1 24540 113210 113211 XOR\n2 1 113242 113211 96127 XOR\n2 1 100223 113211 24544 XOR\n2 1 98175 113211 24545 XOR\n2 1 24544 24545 24543 AND\n2 1 24543 113211 113212 XOR\n2 1 113243 113212 96128 XOR\n2 1 100224 113212 24547 XOR\n2 1 98176 113212 24548 XOR\n2 1 24547 24548 24546 AND\n2 1 24546 113212 113213 XOR\n2 1 113244 113213 96129 XOR\n2 1 100225 113213 24550 XOR\n2 1 98177 113213 24551 XOR\n2 1 24550 24551 24549 AND\n2 1 24549 113213 113214 XOR\n2 1 98178 113214 24554 XOR\n2 1 113245 113214 96130 XOR\n2 1 100226 113214 24553 XOR\n2 1 24553 24554 24552 AND\n2 1 24552 113214 113215 XOR\n2 1 113246 113215 96131 XOR\n2 1 98179 113215 24557 XOR\n2 1 100227 113215 24556 XOR\n2 1 24556 24557 24555 AND\n2 1 24555 113215 113216 XOR\n2 1 100228 113216 24559 XOR\n2 1 98180 113216 24560 XOR\n2 1 24559 24560 24558 AND\n2 1 24558 113216 113217 XOR\n2 1 113248 113217 96133 XOR\n2 1 98181 113217 24563 XOR\n2 1 100229 113217 24562 XOR\n2 1 24562 24563 24561 AND\n2 1 24561 113217 113218 XOR\n2 1 100230 113218 24565 XOR\n2 1 98182 113218 24566 XOR\n2 1 24565 24566 24564 AND\n2 1 113249 113218 96134 XOR\n",
"2 1 24564 113218 113219 XOR\n2 1 113250 113219 96135 XOR\n2 1 98183 113219 24569 XOR\n2 1 100231 113219 24568 XOR\n2 1 24568 24569 24567 AND\n2 1 24567 113219 113220 XOR\n2 1 100232 113220 24571 XOR\n2 1 98184 113220 24572 XOR\n2 1 24571 24572 24570 AND\n2 1 24570 113220 113221 XOR\n2 1 113252 113221 96137 XOR\n2 1 98185 113221 24575 XOR\n2 1 100233 113221 24574 XOR\n2 1 24574 24575 24573 AND\n2 1 24573 113221 113222 XOR\n2 1 100234 113222 24577 XOR\n2 1 98186 113222 24578 XOR\n2 1 24577 24578 24576 AND\n2 1 24576 113222 113223 XOR\n2 1 98187 113223 24581 XOR\n2 1 113254 113223 96139 XOR\n2 1 100235 113223 24580 XOR\n2 1 113251 113220 96136 XOR\n2 1 24580 24581 24579 AND\n2 1 24579 113223 113224 XOR\n2 1 113255 113224 96140 XOR\n2 1 100236 113224 24583 XOR\n2 1 98188 113224 24584 XOR\n2 1 24583 24584 24582 AND\n2 1 24582 113224 113225 XOR\n2 1 100237 113225 24586 XOR\n2 1 98189 113225 24587 XOR\n2 1 113256 113225 96141 XOR\n2 1 24586 24587 24585 AND\n2 1 24585 113225 113226 XOR\n2 1 113257 113226 96142 XOR\n2 1 98190 113226 24590 XOR\n2 1 100238 113226 24589 XOR\n2 1 24589 24590 24588 AND\n2 1 24588 113226 113227 XOR\n2 1 100239 113227 24592 XOR\n2 1 98191 113227 24593 XOR\n2 1 24592 24593 24591 AND\n2 1 24591 113227 113228 XOR\n2 1 113259 113228 96144 XOR\n2 1 100240 113228 24595 XOR\n2 1 98192 113228 24596 XOR\n2 1 24595 24596 24594 AND\n2 1 24594 113228 113229 XOR\n2 1 100241 113229 24598 XOR\n2 1 98193 113229 24599 XOR\n2 1 24598 24599 24597 AND\n2 1 24597 113229 113230 XOR\n2 1 113261 113230 96146 XOR\n2 1 100242 113230 24601 XOR\n2 1 113260 113229 96145 XOR\n2 1 98194 113230 24602 XOR\n2 1 113247 113216 96132 XOR\n2 1 24601 24602 24600 AND\n2 1 24600 113230 113231 XOR\n2 1 98195 113231 24605 XOR\n2 1 113262 113231 96147 XOR\n2 1 100243 113231 24604 XOR\n2 1 24604 24605 24603 AND\n2 1 24603 113231 113232 XOR\n2 1 100244 113232 24607 XOR\n2 1 98196 113232 24608 XOR\n2 1 24607 24608 24606 AND\n2 1 24606 113232 113233 XOR\n2 1 113264 113233 96149 XOR\n2 1 88007 113038 24215 XOR\n2 1 24215 24216 24214 AND\n2 1 24214 113038 113039 XOR\n2 1 88008 113039 24218 XOR\n2 1 85960 113039 24219 XOR\n2 1 24218 24219 24217 AND\n2 1 24217 113039 113040 XOR\n2 1 113071 113040 83913 XOR\n2 1 88009 113040 24221 XOR\n2 1 85961 113040 24222 XOR\n2 1 113070 113039 83912 XOR\n2 1 24221 24222 24220 AND\n2 1 24220 113040 113041 XOR\n2 1 88010 113041 24224 XOR\n2 1 113072 113041 83914 XOR\n2 1 85962 113041 24225 XOR\n2 1 24224 24225 24223 AND\n2 1 24223 113041 113042 XOR\n2 1 85963 113042 24228 XOR\n2 1 113073 113042 83915 XOR\n2 1 88011 113042 24227 XOR\n2 1 24227 24228 24226 AND\n2 1 24226 113042 113043 XOR\n2 1 88012 113043 24230 XOR\n2 1 113074 113043 83916 XOR\n2 1 85964 113043 24231 XOR\n2 1 24230 24231 24229 AND\n2 1 24229 113043 113044 XOR\n2 1 85965 113044 24234 XOR\n2 1 88013 113044 24233 XOR\n2 1 113075 113044 83917 XOR\n2 1 24233 24234 24232 AND\n2 1 24232 113044 113045 XOR\n2 1 88014 113045 24236 XOR\n2 1 85966 113045 24237 XOR\n2 1 113076 113045 83918 XOR\n2 1 100234 98186 113253 XOR\n2 1 113253 113222 96138 XOR\n2 1 24236 24237 24235 AND\n2 1 24235 113045 113046 XOR\n2 1 88015 113046 24239 XOR\n2 1 85967 113046 24240 XOR\n2 1 24239 24240 24238 AND\n2 1 24238 113046 113047 XOR\n2 1 113077 113046 83919 XOR\n2 1 113078 113047 83920 XOR\n2 1 113258 113227 96143 XOR\n2 1 113263 113232 96148 XOR\n2 1 76439 76450 82384 XOR\n2 1 82384 76496 128578 XOR\n2 1 76438 76449 82383 XOR\n2 1 82383 76495 128577 XOR\n2 1 76437 76448 82382 XOR\n2 1 82382 76494 128576 XOR\n2 1 76436 76447 5096 XOR\n2 1 76435 76446 5095 XOR\n2 1 76434 76445 5094 XOR\n2 1 76433 76444 5093 XOR\n",
"2 1 76464 76443 5092 XOR\n2 1 76463 76442 5091 XOR\n2 1 76462 76441 5090 XOR\n2 1 76461 76440 5089 XOR\n2 1 76460 76439 5088 XOR\n2 1 76459 76438 5087 XOR\n2 1 76458 76437 5086 XOR\n2 1 76457 76436 5085 XOR\n2 1 76456 76435 5084 XOR\n2 1 76455 76434 5083 XOR\n2 1 76454 76433 5082 XOR\n2 1 76453 76464 5081 XOR\n2 1 76452 76463 5080 XOR\n2 1 76451 76462 5079 XOR\n2 1 76450 76461 5078 XOR\n2 1 76449 76460 5077 XOR\n2 1 76448 76459 5076 XOR\n2 1 76447 76458 5075 XOR\n2 1 76446 76457 5074 XOR\n2 1 76445 76456 5073 XOR\n2 1 76444 76455 5072 XOR\n2 1 76443 76454 5071 XOR\n2 1 76442 76453 5070 XOR\n2 1 76441 76452 5069 XOR\n2 1 76440 76451 5068 XOR\n2 1 5096 76464 82381 XOR\n2 1 82381 76493 128575 XOR\n2 1 5095 76463 82380 XOR\n2 1 82380 76492 128574 XOR\n2 1 5094 76462 82379 XOR\n2 1 82379 76491 128573 XOR\n2 1 5093 76461 82378 XOR\n2 1 82378 76490 128572 XOR\n2 1 5092 76460 82377 XOR\n2 1 82377 76489 128571 XOR\n2 1 5091 76459 82376 XOR\n2 1 82376 76488 128570 XOR\n2 1 5090 76458 82375 XOR\n2 1 82375 76487 128569 XOR\n2 1 5089 76457 82374 XOR\n2 1 82374 76486 128568 XOR\n2 1 5088 76456 82373 XOR\n2 1 82373 76485 128567 XOR\n2 1 5087 76455 82372 XOR\n2 1 82372 76484 128566 XOR\n2 1 5086 76454 82371 XOR\n2 1 82371 76483 128565 XOR\n2 1 5085 76453 82370 XOR\n2 1 82370 76482 128564 XOR\n2 1 5084 76452 82369 XOR\n2 1 82369 76481 128563 XOR\n2 1 5083 76451 82368 XOR\n2 1 82368 76480 128562 XOR\n2 1 5082 76450 82367 XOR\n2 1 82367 76479 128561 XOR\n2 1 5081 76449 82366 XOR\n2 1 82366 76478 128560 XOR\n2 1 5080 76448 82365 XOR\n2 1 82365 76477 128559 XOR\n2 1 5079 76447 82364 XOR\n2 1 82364 76476 128558 XOR\n2 1 5078 76446 82363 XOR\n2 1 82363 76475 128557 XOR\n2 1 5077 76445 82362 XOR\n2 1 82362 76474 128556 XOR\n2 1 5076 76444 82361 XOR\n2 1 82361 76473 128555 XOR\n2 1 5075 76443 82360 XOR\n2 1 82360 76472 128554 XOR\n2 1 5074 76442 82359 XOR\n2 1 82359 76471 128553 XOR\n2 1 5073 76441 82358 XOR\n2 1 82358 76470 128552 XOR\n2 1 5072 76440 82357 XOR\n2 1 82357 76469 128551 XOR\n2 1 5071 76439 82356 XOR\n2 1 82356 76468 128550 XOR\n2 1 5070 76438 82355 XOR\n2 1 82355 76467 128549 XOR\n2 1 5069 76437 82354 XOR\n2 1 82354 76466 128548 XOR\n2 1 5068 76436 82353 XOR\n2 1 82353 76465 77745 XOR\n2 1 79281 77745 75953 XOR\n2 1 75953 1568 94070 XOR\n2 1 96118 94070 113079 AND\n2 1 96119 113079 24340 XOR\n2 1 96118 94070 92069 XOR\n1 1 92069 90033 INV\n2 1 90033 83889 992 XOR\n2 1 1120 90033 103770 AND\n2 1 90033 83889 103832 AND\n2 1 992 1056 69775 XOR\n2 1 69775 69743 69711 AND\n2 1 69711 1056 85905 XOR\n2 1 992 1024 69647 XOR\n2 1 83890 103832 9848 XOR\n2 1 75953 1568 113141 AND\n2 1 1569 113141 24431 XOR\n2 1 79281 77745 128455 AND\n2 1 1120 90033 1440 XOR\n2 1 63503 1440 63471 AND\n2 1 63471 1504 98134 XOR\n2 1 1440 1472 63439 XOR\n2 1 82353 76465 128517 AND\n2 1 128548 128517 77746 XOR\n2 1 79282 77746 128486 XOR\n2 1 79282 128455 50916 XOR\n2 1 77746 128455 50917 XOR\n2 1 50916 50917 50915 AND\n2 1 50915 128455 128456 XOR\n2 1 79283 128456 50919 XOR\n2 1 82354 128517 51006 XOR\n2 1 76466 128517 51007 XOR\n2 1 51006 51007 51005 AND\n2 1 51005 128517 128518 XOR\n2 1 82355 128518 51009 XOR\n2 1 128549 128518 77747 XOR\n2 1 77747 128456 50920 XOR\n2 1 50919 50920 50918 AND\n2 1 50918 128456 128457 XOR\n2 1 79284 128457 50922 XOR\n2 1 1121 103770 9757 XOR\n2 1 79283 77747 128487 XOR\n2 1 128487 128456 75955 XOR\n2 1 75955 1570 113173 XOR\n2 1 128486 128455 75954 XOR\n2 1 75954 113141 24430 XOR\n",
"2 1 75954 1569 113172 XOR\n2 1 113172 113141 94071 XOR\n2 1 96119 94071 113110 XOR\n2 1 113110 113079 92070 XOR\n1 1 92070 24326 INV\n2 1 24326 92069 90034 XOR\n2 1 90034 83890 103863 XOR\n2 1 103863 103832 993 XOR\n2 1 993 1057 69776 XOR\n2 1 69776 69744 69712 AND\n2 1 69712 1057 85906 XOR\n2 1 993 1025 69648 XOR\n2 1 90034 103832 9847 XOR\n2 1 9847 9848 9846 AND\n2 1 9846 103832 103833 XOR\n2 1 83891 103833 9851 XOR\n2 1 24430 24431 24429 AND\n2 1 24429 113141 113142 XOR\n2 1 113173 113142 94072 XOR\n2 1 75955 113142 24433 XOR\n2 1 96120 94072 113111 XOR\n2 1 94071 113079 24341 XOR\n2 1 24340 24341 24339 AND\n2 1 24339 113079 113080 XOR\n2 1 94072 113080 24344 XOR\n2 1 96120 113080 24343 XOR\n2 1 24343 24344 24342 AND\n2 1 24342 113080 113081 XOR\n2 1 96121 113081 24346 XOR\n2 1 113111 113080 92071 XOR\n2 1 1570 113142 24434 XOR\n2 1 24433 24434 24432 AND\n2 1 24432 113142 113143 XOR\n2 1 1571 113143 24437 XOR\n2 1 92070 92069 24242 XOR\n2 1 90034 103770 9758 XOR\n2 1 9757 9758 9756 AND\n2 1 9756 103770 103771 XOR\n2 1 1122 103771 9760 XOR\n2 1 76467 128518 51010 XOR\n2 1 51009 51010 51008 AND\n2 1 51008 128518 128519 XOR\n2 1 76468 128519 51013 XOR\n2 1 82356 128519 51012 XOR\n2 1 51012 51013 51011 AND\n2 1 51011 128519 128520 XOR\n2 1 128551 128520 77749 XOR\n2 1 76469 128520 51016 XOR\n2 1 82357 128520 51015 XOR\n2 1 51015 51016 51014 AND\n2 1 51014 128520 128521 XOR\n2 1 128552 128521 77750 XOR\n2 1 76470 128521 51019 XOR\n2 1 128550 128519 77748 XOR\n2 1 77748 128457 50923 XOR\n2 1 50922 50923 50921 AND\n2 1 50921 128457 128458 XOR\n2 1 79285 128458 50925 XOR\n2 1 77749 128458 50926 XOR\n2 1 50925 50926 50924 AND\n2 1 82358 128521 51018 XOR\n2 1 51018 51019 51017 AND\n2 1 51017 128521 128522 XOR\n2 1 76471 128522 51022 XOR\n2 1 82359 128522 51021 XOR\n2 1 51021 51022 51020 AND\n2 1 51020 128522 128523 XOR\n2 1 128554 128523 77752 XOR\n2 1 82360 128523 51024 XOR\n2 1 76472 128523 51025 XOR\n2 1 51024 51025 51023 AND\n2 1 51023 128523 128524 XOR\n2 1 82361 128524 51027 XOR\n2 1 128555 128524 77753 XOR\n2 1 79289 77753 128493 XOR\n2 1 76473 128524 51028 XOR\n2 1 51027 51028 51026 AND\n2 1 51026 128524 128525 XOR\n2 1 76474 128525 51031 XOR\n2 1 128556 128525 77754 XOR\n2 1 79290 77754 128494 XOR\n2 1 79286 77750 128490 XOR\n2 1 79285 77749 128489 XOR\n2 1 128489 128458 75957 XOR\n2 1 75957 1572 113175 XOR\n2 1 82362 128525 51030 XOR\n2 1 51030 51031 51029 AND\n2 1 51029 128525 128526 XOR\n2 1 82363 128526 51033 XOR\n2 1 76475 128526 51034 XOR\n2 1 51033 51034 51032 AND\n2 1 51032 128526 128527 XOR\n2 1 82364 128527 51036 XOR\n2 1 128558 128527 77756 XOR\n2 1 76476 128527 51037 XOR\n2 1 51036 51037 51035 AND\n2 1 51035 128527 128528 XOR\n2 1 128559 128528 77757 XOR\n2 1 79293 77757 128497 XOR\n2 1 82365 128528 51039 XOR\n2 1 76477 128528 51040 XOR\n2 1 51039 51040 51038 AND\n2 1 51038 128528 128529 XOR\n2 1 82366 128529 51042 XOR\n2 1 128560 128529 77758 XOR\n2 1 79292 77756 128496 XOR\n2 1 76478 128529 51043 XOR\n2 1 51042 51043 51041 AND\n2 1 51041 128529 128530 XOR\n2 1 82367 128530 51045 XOR\n2 1 76479 128530 51046 XOR\n2 1 51045 51046 51044 AND\n2 1 51044 128530 128531 XOR\n2 1 128562 128531 77760 XOR\n2 1 82368 128531 51048 XOR\n2 1 76480 128531 51049 XOR\n2 1 51048 51049 51047 AND\n2 1 51047 128531 128532 XOR\n2 1 76481 128532 51052 XOR\n2 1 128563 128532 77761 XOR\n2 1 79297 77761 128501 XOR\n2 1 82369 128532 51051 XOR\n2 1 51051 51052 51050 AND\n2 1 51050 128532 128533 XOR\n2 1 76482 128533 51055 XOR\n2 1 128561 128530 77759 XOR\n2 1 79295 77759 128499 XOR\n2 1 128553 128522 77751 XOR\n",
"2 1 79287 77751 128491 XOR\n2 1 50924 128458 128459 XOR\n2 1 77750 128459 50929 XOR\n2 1 79286 128459 50928 XOR\n2 1 50928 50929 50927 AND\n2 1 50927 128459 128460 XOR\n2 1 128491 128460 75959 XOR\n2 1 79287 128460 50931 XOR\n2 1 77751 128460 50932 XOR\n2 1 50931 50932 50930 AND\n2 1 50930 128460 128461 XOR\n2 1 77752 128461 50935 XOR\n2 1 75959 1574 113177 XOR\n2 1 128490 128459 75958 XOR\n2 1 79288 128461 50934 XOR\n2 1 75958 1573 113176 XOR\n2 1 50934 50935 50933 AND\n2 1 50933 128461 128462 XOR\n2 1 77753 128462 50938 XOR\n2 1 79289 128462 50937 XOR\n2 1 50937 50938 50936 AND\n2 1 50936 128462 128463 XOR\n2 1 128494 128463 75962 XOR\n2 1 75962 1577 113180 XOR\n2 1 79290 128463 50940 XOR\n2 1 77754 128463 50941 XOR\n2 1 50940 50941 50939 AND\n2 1 50939 128463 128464 XOR\n2 1 128493 128462 75961 XOR\n2 1 75961 1576 113179 XOR\n2 1 79291 128464 50943 XOR\n2 1 82370 128533 51054 XOR\n2 1 51054 51055 51053 AND\n2 1 51053 128533 128534 XOR\n2 1 128565 128534 77763 XOR\n2 1 79299 77763 128503 XOR\n2 1 82371 128534 51057 XOR\n2 1 76483 128534 51058 XOR\n2 1 51057 51058 51056 AND\n2 1 51056 128534 128535 XOR\n2 1 128566 128535 77764 XOR\n2 1 82372 128535 51060 XOR\n2 1 76484 128535 51061 XOR\n2 1 51060 51061 51059 AND\n2 1 51059 128535 128536 XOR\n2 1 128567 128536 77765 XOR\n2 1 76485 128536 51064 XOR\n2 1 79301 77765 128505 XOR\n2 1 128564 128533 77762 XOR\n2 1 79298 77762 128502 XOR\n2 1 82373 128536 51063 XOR\n2 1 51063 51064 51062 AND\n2 1 51062 128536 128537 XOR\n2 1 82374 128537 51066 XOR\n2 1 76486 128537 51067 XOR\n2 1 51066 51067 51065 AND\n2 1 51065 128537 128538 XOR\n2 1 128569 128538 77767 XOR\n2 1 82375 128538 51069 XOR\n2 1 76487 128538 51070 XOR\n2 1 51069 51070 51068 AND\n2 1 51068 128538 128539 XOR\n2 1 128570 128539 77768 XOR\n2 1 79304 77768 128508 XOR\n2 1 82376 128539 51072 XOR\n2 1 76488 128539 51073 XOR\n2 1 51072 51073 51071 AND\n2 1 51071 128539 128540 XOR\n2 1 82377 128540 51075 XOR\n2 1 128571 128540 77769 XOR\n2 1 79305 77769 128509 XOR\n2 1 76489 128540 51076 XOR\n2 1 51075 51076 51074 AND\n2 1 51074 128540 128541 XOR\n2 1 82378 128541 51078 XOR\n2 1 76490 128541 51079 XOR\n2 1 51078 51079 51077 AND\n2 1 79303 77767 128507 XOR\n2 1 128568 128537 77766 XOR\n2 1 79302 77766 128506 XOR\n2 1 51077 128541 128542 XOR\n2 1 128573 128542 77771 XOR\n2 1 82379 128542 51081 XOR\n2 1 76491 128542 51082 XOR\n2 1 51081 51082 51080 AND\n2 1 51080 128542 128543 XOR\n2 1 82380 128543 51084 XOR\n2 1 128574 128543 77772 XOR\n2 1 76492 128543 51085 XOR\n2 1 51084 51085 51083 AND\n2 1 51083 128543 128544 XOR\n2 1 82381 128544 51087 XOR\n2 1 79307 77771 128511 XOR\n2 1 128575 128544 77773 XOR\n2 1 79309 77773 128513 XOR\n2 1 76493 128544 51088 XOR\n2 1 51087 51088 51086 AND\n2 1 51086 128544 128545 XOR\n2 1 128576 128545 77774 XOR\n2 1 76494 128545 51091 XOR\n2 1 82382 128545 51090 XOR\n2 1 51090 51091 51089 AND\n2 1 79310 77774 128514 XOR\n2 1 79308 77772 128512 XOR\n2 1 128572 128541 77770 XOR\n2 1 79306 77770 128510 XOR\n2 1 79296 77760 128500 XOR\n2 1 128557 128526 77755 XOR\n2 1 79291 77755 128495 XOR\n2 1 128495 128464 75963 XOR\n2 1 75963 1578 113181 XOR\n2 1 77755 128464 50944 XOR\n2 1 50943 50944 50942 AND\n2 1 50942 128464 128465 XOR\n2 1 79292 128465 50946 XOR\n2 1 77756 128465 50947 XOR\n2 1 50946 50947 50945 AND\n2 1 128496 128465 75964 XOR\n2 1 75964 1579 113182 XOR\n2 1 50945 128465 128466 XOR\n2 1 128497 128466 75965 XOR\n2 1 75965 1580 113183 XOR\n2 1 79293 128466 50949 XOR\n2 1 77757 128466 50950 XOR\n2 1 50949 50950 50948 AND\n2 1 50948 128466 128467 XOR\n2 1 77758 128467 50953 XOR\n2 1 79294 128467 50952 XOR\n",
"2 1 50952 50953 50951 AND\n2 1 50951 128467 128468 XOR\n2 1 79295 128468 50955 XOR\n2 1 77759 128468 50956 XOR\n2 1 50955 50956 50954 AND\n2 1 50954 128468 128469 XOR\n2 1 128500 128469 75968 XOR\n2 1 79296 128469 50958 XOR\n2 1 77760 128469 50959 XOR\n2 1 50958 50959 50957 AND\n2 1 50957 128469 128470 XOR\n2 1 128501 128470 75969 XOR\n2 1 75969 1584 113187 XOR\n2 1 77761 128470 50962 XOR\n2 1 75968 1583 113186 XOR\n2 1 128499 128468 75967 XOR\n2 1 75967 1582 113185 XOR\n2 1 79297 128470 50961 XOR\n2 1 50961 50962 50960 AND\n2 1 50960 128470 128471 XOR\n2 1 128502 128471 75970 XOR\n2 1 79298 128471 50964 XOR\n2 1 77762 128471 50965 XOR\n2 1 50964 50965 50963 AND\n2 1 50963 128471 128472 XOR\n2 1 128503 128472 75971 XOR\n2 1 79299 128472 50967 XOR\n2 1 77763 128472 50968 XOR\n2 1 50967 50968 50966 AND\n2 1 50966 128472 128473 XOR\n2 1 77764 128473 50971 XOR\n2 1 75970 1585 113188 XOR\n2 1 79300 128473 50970 XOR\n2 1 50970 50971 50969 AND\n2 1 50969 128473 128474 XOR\n2 1 79301 128474 50973 XOR\n2 1 77765 128474 50974 XOR\n2 1 50973 50974 50972 AND\n2 1 50972 128474 128475 XOR\n2 1 128506 128475 75974 XOR\n2 1 75974 1589 113192 XOR\n2 1 79302 128475 50976 XOR\n2 1 77766 128475 50977 XOR\n2 1 50976 50977 50975 AND\n2 1 50975 128475 128476 XOR\n2 1 128507 128476 75975 XOR\n2 1 75975 1590 113193 XOR\n2 1 77767 128476 50980 XOR\n2 1 79303 128476 50979 XOR\n2 1 50979 50980 50978 AND\n2 1 50978 128476 128477 XOR\n2 1 79304 128477 50982 XOR\n2 1 77768 128477 50983 XOR\n2 1 128508 128477 75976 XOR\n2 1 75976 1591 113194 XOR\n2 1 50982 50983 50981 AND\n2 1 50981 128477 128478 XOR\n2 1 128509 128478 75977 XOR\n2 1 79305 128478 50985 XOR\n2 1 75977 1592 113195 XOR\n2 1 77769 128478 50986 XOR\n2 1 50985 50986 50984 AND\n2 1 50984 128478 128479 XOR\n2 1 128510 128479 75978 XOR\n2 1 75978 1593 113196 XOR\n2 1 79306 128479 50988 XOR\n2 1 77770 128479 50989 XOR\n2 1 50988 50989 50987 AND\n2 1 50987 128479 128480 XOR\n2 1 77771 128480 50992 XOR\n2 1 128511 128480 75979 XOR\n2 1 75979 1594 113197 XOR\n2 1 79307 128480 50991 XOR\n2 1 50991 50992 50990 AND\n2 1 75971 1586 113189 XOR\n2 1 128505 128474 75973 XOR\n2 1 75973 1588 113191 XOR\n2 1 50990 128480 128481 XOR\n2 1 79308 128481 50994 XOR\n2 1 128512 128481 75980 XOR\n2 1 75980 1595 113198 XOR\n2 1 77772 128481 50995 XOR\n2 1 50994 50995 50993 AND\n2 1 50993 128481 128482 XOR\n2 1 128513 128482 75981 XOR\n2 1 79309 128482 50997 XOR\n2 1 77773 128482 50998 XOR\n2 1 50997 50998 50996 AND\n2 1 50996 128482 128483 XOR\n2 1 128514 128483 75982 XOR\n2 1 75982 1597 113200 XOR\n2 1 79310 128483 51000 XOR\n2 1 79294 77758 128498 XOR\n2 1 128498 128467 75966 XOR\n2 1 75966 1581 113184 XOR\n2 1 79300 77764 128504 XOR\n2 1 128504 128473 75972 XOR\n2 1 75972 1587 113190 XOR\n2 1 79288 77752 128492 XOR\n2 1 128492 128461 75960 XOR\n2 1 75969 75971 80784 XOR\n2 1 80784 76144 128268 XOR\n2 1 75968 75970 80783 XOR\n2 1 80783 76143 128267 XOR\n2 1 75967 75969 80782 XOR\n2 1 80782 76142 128266 XOR\n2 1 75966 75968 80781 XOR\n2 1 80781 76141 128265 XOR\n2 1 75965 75967 80780 XOR\n2 1 80780 76140 128264 XOR\n2 1 75964 75966 80779 XOR\n2 1 80779 76139 128263 XOR\n2 1 75963 75965 80778 XOR\n2 1 80778 76138 128262 XOR\n2 1 75962 75964 80777 XOR\n2 1 80777 76137 128261 XOR\n2 1 75961 75963 80776 XOR\n2 1 80776 76136 128260 XOR\n2 1 75960 75962 80775 XOR\n2 1 80775 76135 128259 XOR\n2 1 75959 75961 6331 XOR\n2 1 75958 75960 6330 XOR\n2 1 75957 75959 6329 XOR\n2 1 75955 75957 6327 XOR\n2 1 75953 75955 6325 XOR\n2 1 75980 75982 6320 XOR\n2 1 75979 75981 6319 XOR\n2 1 75978 75980 6318 XOR\n",
"2 1 75977 75979 6317 XOR\n2 1 75976 75978 6316 XOR\n2 1 75975 75977 6315 XOR\n2 1 75974 75976 6314 XOR\n2 1 75973 75975 6313 XOR\n2 1 75972 75974 6312 XOR\n2 1 75971 75973 6311 XOR\n2 1 75970 75972 6310 XOR\n2 1 6329 75982 80772 XOR\n2 1 80772 76132 128256 XOR\n2 1 6327 75980 80770 XOR\n2 1 80770 76130 128254 XOR\n2 1 6325 75978 80768 XOR\n2 1 80768 76128 128252 XOR\n2 1 6320 75973 80763 XOR\n2 1 80763 76123 128247 XOR\n2 1 6319 75972 80762 XOR\n2 1 80762 76122 128246 XOR\n2 1 6318 75971 80761 XOR\n2 1 80761 76121 128245 XOR\n2 1 6317 75970 80760 XOR\n2 1 80760 76120 128244 XOR\n2 1 6316 75969 80759 XOR\n2 1 80759 76119 128243 XOR\n2 1 6315 75968 80758 XOR\n2 1 80758 76118 128242 XOR\n2 1 6314 75967 80757 XOR\n2 1 80757 76117 128241 XOR\n2 1 6313 75966 80756 XOR\n2 1 80756 76116 128240 XOR\n2 1 6312 75965 80755 XOR\n2 1 80755 76115 128239 XOR\n2 1 6311 75964 80754 XOR\n2 1 80754 76114 128238 XOR\n2 1 6310 75963 80753 XOR\n2 1 80753 76113 128207 AND\n2 1 80754 128207 50556 XOR\n2 1 128238 128207 79218 XOR\n2 1 76114 128207 50557 XOR\n2 1 50556 50557 50555 AND\n2 1 80753 76113 79217 XOR\n2 1 77774 128483 51001 XOR\n2 1 51000 51001 50999 AND\n2 1 50999 128483 128484 XOR\n2 1 79311 128484 51003 XOR\n2 1 50555 128207 128208 XOR\n2 1 128239 128208 79219 XOR\n2 1 80755 128208 50559 XOR\n2 1 76115 128208 50560 XOR\n2 1 50559 50560 50558 AND\n2 1 50558 128208 128209 XOR\n2 1 80756 128209 50562 XOR\n2 1 76116 128209 50563 XOR\n2 1 51089 128545 128546 XOR\n2 1 76495 128546 51094 XOR\n2 1 82383 128546 51093 XOR\n2 1 128577 128546 77775 XOR\n2 1 77775 128484 51004 XOR\n2 1 51003 51004 51002 AND\n2 1 51093 51094 51092 AND\n2 1 51002 128484 128485 XOR\n2 1 79311 77775 128515 XOR\n2 1 128515 128484 75983 XOR\n2 1 75983 1598 113201 XOR\n2 1 51092 128546 128547 XOR\n2 1 128578 128547 77776 XOR\n2 1 79312 77776 128516 XOR\n2 1 128516 128485 75984 XOR\n2 1 75984 1599 113202 XOR\n2 1 75984 75954 6324 XOR\n2 1 75983 75953 6323 XOR\n2 1 75982 75984 6322 XOR\n2 1 75981 75983 6321 XOR\n2 1 6331 75984 80774 XOR\n2 1 80774 76134 128258 XOR\n2 1 6330 75983 80773 XOR\n2 1 80773 76133 128257 XOR\n2 1 6324 75977 80767 XOR\n2 1 80767 76127 128251 XOR\n2 1 6323 75976 80766 XOR\n2 1 80766 76126 128250 XOR\n2 1 6322 75975 80765 XOR\n2 1 80765 76125 128249 XOR\n2 1 6321 75974 80764 XOR\n2 1 80764 76124 128248 XOR\n2 1 128240 128209 79220 XOR\n2 1 50562 50563 50561 AND\n2 1 50561 128209 128210 XOR\n2 1 76117 128210 50566 XOR\n2 1 128241 128210 79221 XOR\n2 1 80757 128210 50565 XOR\n2 1 50565 50566 50564 AND\n2 1 50564 128210 128211 XOR\n2 1 76118 128211 50569 XOR\n2 1 128242 128211 79222 XOR\n2 1 80758 128211 50568 XOR\n2 1 50568 50569 50567 AND\n2 1 50567 128211 128212 XOR\n2 1 76119 128212 50572 XOR\n2 1 128243 128212 79223 XOR\n2 1 80759 128212 50571 XOR\n2 1 50571 50572 50570 AND\n2 1 50570 128212 128213 XOR\n2 1 80760 128213 50574 XOR\n2 1 128244 128213 79224 XOR\n2 1 76120 128213 50575 XOR\n2 1 50574 50575 50573 AND\n2 1 50573 128213 128214 XOR\n2 1 128245 128214 79225 XOR\n2 1 76121 128214 50578 XOR\n2 1 80761 128214 50577 XOR\n2 1 50577 50578 50576 AND\n2 1 50576 128214 128215 XOR\n2 1 128246 128215 79226 XOR\n2 1 80762 128215 50580 XOR\n2 1 76122 128215 50581 XOR\n2 1 50580 50581 50579 AND\n2 1 50579 128215 128216 XOR\n2 1 128247 128216 79227 XOR\n2 1 76123 128216 50584 XOR\n2 1 80763 128216 50583 XOR\n2 1 50583 50584 50582 AND\n2 1 50582 128216 128217 XOR\n2 1 128248 128217 79228 XOR\n2 1 76124 128217 50587 XOR\n2 1 80764 128217 50586 XOR\n2 1 50586 50587 50585 AND\n2 1 50585 128217 128218 XOR\n",
"2 1 128249 128218 79229 XOR\n2 1 76125 128218 50590 XOR\n2 1 80765 128218 50589 XOR\n2 1 50589 50590 50588 AND\n2 1 50588 128218 128219 XOR\n2 1 128250 128219 79230 XOR\n2 1 80766 128219 50592 XOR\n2 1 76126 128219 50593 XOR\n2 1 50592 50593 50591 AND\n2 1 50591 128219 128220 XOR\n2 1 128251 128220 79231 XOR\n2 1 76127 128220 50596 XOR\n2 1 80767 128220 50595 XOR\n2 1 50595 50596 50594 AND\n2 1 50594 128220 128221 XOR\n2 1 76128 128221 50599 XOR\n2 1 128252 128221 79232 XOR\n2 1 80768 128221 50598 XOR\n2 1 50598 50599 50597 AND\n2 1 50597 128221 128222 XOR\n2 1 76129 128222 50602 XOR\n2 1 24242 90033 24241 AND\n2 1 24241 92069 24244 XOR\n2 1 92071 24244 90035 XOR\n2 1 90035 103771 9761 XOR\n2 1 90035 103833 9850 XOR\n2 1 9850 9851 9849 AND\n2 1 9849 103833 103834 XOR\n2 1 83892 103834 9854 XOR\n2 1 1122 90035 103802 XOR\n2 1 103802 103771 1442 XOR\n2 1 9760 9761 9759 AND\n2 1 9759 103771 103772 XOR\n2 1 1123 103772 9763 XOR\n2 1 90035 83891 103864 XOR\n2 1 103864 103833 994 XOR\n2 1 994 1058 69777 XOR\n2 1 69777 69745 69713 AND\n2 1 69713 1058 85907 XOR\n2 1 994 1026 69649 XOR\n2 1 90035 24244 24243 AND\n2 1 24243 24244 24246 XOR\n2 1 63505 1442 63473 AND\n2 1 63473 1506 98136 XOR\n2 1 1442 1474 63441 XOR\n2 1 79284 77748 128488 XOR\n2 1 128488 128457 75956 XOR\n2 1 75956 113143 24436 XOR\n2 1 24436 24437 24435 AND\n2 1 24435 113143 113144 XOR\n2 1 113175 113144 94074 XOR\n2 1 96122 94074 113113 XOR\n2 1 75957 113144 24439 XOR\n2 1 75956 1571 113174 XOR\n2 1 113174 113143 94073 XOR\n2 1 96121 94073 113112 XOR\n2 1 1572 113144 24440 XOR\n2 1 24439 24440 24438 AND\n2 1 24438 113144 113145 XOR\n2 1 113176 113145 94075 XOR\n2 1 96123 94075 113114 XOR\n2 1 113112 113081 92072 XOR\n2 1 92072 24246 90036 XOR\n2 1 90036 103834 9853 XOR\n2 1 9853 9854 9852 AND\n2 1 9852 103834 103835 XOR\n2 1 83893 103835 9857 XOR\n2 1 1123 90036 103803 XOR\n2 1 103803 103772 1443 XOR\n2 1 90036 24246 24245 AND\n2 1 24245 24246 24313 XOR\n2 1 90036 83892 103865 XOR\n2 1 103865 103834 995 XOR\n2 1 995 1059 69778 XOR\n2 1 69778 69746 69714 AND\n2 1 69714 1059 85908 XOR\n2 1 995 1027 69650 XOR\n2 1 90036 103772 9764 XOR\n2 1 94073 113081 24347 XOR\n2 1 24346 24347 24345 AND\n2 1 24345 113081 113082 XOR\n2 1 113113 113082 92073 XOR\n2 1 92073 24313 24248 XOR\n2 1 96122 113082 24349 XOR\n1 1 92073 24327 INV\n2 1 94074 113082 24350 XOR\n2 1 24349 24350 24348 AND\n2 1 24348 113082 113083 XOR\n2 1 96123 113083 24352 XOR\n2 1 94075 113083 24353 XOR\n2 1 113114 113083 92074 XOR\n1 1 92074 24328 INV\n2 1 24327 24313 90037 XOR\n2 1 1124 90037 103804 XOR\n2 1 90037 103835 9856 XOR\n2 1 9856 9857 9855 AND\n2 1 9855 103835 103836 XOR\n2 1 83894 103836 9860 XOR\n1 1 24313 24249 INV\n2 1 24248 24249 24247 AND\n2 1 24247 24313 24314 XOR\n2 1 92074 24314 24251 XOR\n1 1 24314 24252 INV\n2 1 24251 24252 24250 AND\n2 1 24328 24314 90038 XOR\n2 1 90038 103836 9859 XOR\n2 1 9859 9860 9858 AND\n2 1 9858 103836 103837 XOR\n2 1 83895 103837 9863 XOR\n2 1 1125 90038 103805 XOR\n2 1 90038 83894 103867 XOR\n2 1 103867 103836 997 XOR\n2 1 997 1061 69780 XOR\n2 1 69780 69748 69716 AND\n2 1 69716 1061 85910 XOR\n2 1 997 1029 69652 XOR\n2 1 24250 24314 24254 XOR\n2 1 63506 1443 63474 AND\n2 1 63474 1507 98137 XOR\n2 1 1443 1475 63442 XOR\n2 1 90037 83893 103866 XOR\n2 1 103866 103835 996 XOR\n2 1 996 1060 69779 XOR\n2 1 69779 69747 69715 AND\n2 1 69715 1060 85909 XOR\n2 1 996 1028 69651 XOR\n2 1 75958 113145 24442 XOR\n2 1 24352 24353 24351 AND\n",
"2 1 24351 113083 113084 XOR\n2 1 96124 113084 24355 XOR\n2 1 9763 9764 9762 AND\n2 1 9762 103772 103773 XOR\n2 1 1124 103773 9766 XOR\n2 1 103804 103773 1444 XOR\n2 1 63507 1444 63475 AND\n2 1 63475 1508 98138 XOR\n2 1 1444 1476 63443 XOR\n2 1 90037 103773 9767 XOR\n2 1 9766 9767 9765 AND\n2 1 9765 103773 103774 XOR\n2 1 1125 103774 9769 XOR\n2 1 90038 103774 9770 XOR\n2 1 9769 9770 9768 AND\n2 1 9768 103774 103775 XOR\n2 1 103805 103774 1445 XOR\n2 1 63508 1445 63476 AND\n2 1 63476 1509 98139 XOR\n2 1 1445 1477 63444 XOR\n2 1 1440 1445 61161 XOR\n2 1 75956 75958 6328 XOR\n2 1 75954 75956 6326 XOR\n2 1 6328 75981 80771 XOR\n2 1 80771 76131 128255 XOR\n2 1 6326 75979 80769 XOR\n2 1 80769 76129 128253 XOR\n2 1 80769 128222 50601 XOR\n2 1 50601 50602 50600 AND\n2 1 50600 128222 128223 XOR\n2 1 76130 128223 50605 XOR\n2 1 128254 128223 79234 XOR\n2 1 80770 128223 50604 XOR\n2 1 50604 50605 50603 AND\n2 1 50603 128223 128224 XOR\n2 1 76131 128224 50608 XOR\n2 1 80771 128224 50607 XOR\n2 1 50607 50608 50606 AND\n2 1 50606 128224 128225 XOR\n2 1 80772 128225 50610 XOR\n2 1 128256 128225 79236 XOR\n2 1 76132 128225 50611 XOR\n2 1 50610 50611 50609 AND\n2 1 50609 128225 128226 XOR\n2 1 76133 128226 50614 XOR\n2 1 128257 128226 79237 XOR\n2 1 128255 128224 79235 XOR\n2 1 80773 128226 50613 XOR\n2 1 50613 50614 50612 AND\n2 1 50612 128226 128227 XOR\n2 1 128258 128227 79238 XOR\n2 1 76134 128227 50617 XOR\n2 1 80774 128227 50616 XOR\n2 1 50616 50617 50615 AND\n2 1 50615 128227 128228 XOR\n2 1 80775 128228 50619 XOR\n2 1 128259 128228 79239 XOR\n2 1 128253 128222 79233 XOR\n2 1 1573 113145 24443 XOR\n2 1 24442 24443 24441 AND\n2 1 24441 113145 113146 XOR\n2 1 1574 113146 24446 XOR\n2 1 75959 113146 24445 XOR\n2 1 24445 24446 24444 AND\n2 1 24444 113146 113147 XOR\n2 1 1575 113147 24449 XOR\n2 1 75960 113147 24448 XOR\n2 1 24448 24449 24447 AND\n2 1 24447 113147 113148 XOR\n2 1 75961 113148 24451 XOR\n2 1 1576 113148 24452 XOR\n2 1 24451 24452 24450 AND\n2 1 24450 113148 113149 XOR\n2 1 113180 113149 94079 XOR\n2 1 96127 94079 113118 XOR\n2 1 113179 113148 94078 XOR\n2 1 96126 94078 113117 XOR\n2 1 75962 113149 24454 XOR\n2 1 113177 113146 94076 XOR\n2 1 96124 94076 113115 XOR\n2 1 113115 113084 92075 XOR\n2 1 94076 113084 24356 XOR\n2 1 24355 24356 24354 AND\n2 1 24354 113084 113085 XOR\n2 1 96125 113085 24358 XOR\n2 1 92075 24254 90039 XOR\n2 1 90039 24254 24253 AND\n2 1 24253 24254 24315 XOR\n1 1 24315 24257 INV\n2 1 90039 103837 9862 XOR\n2 1 9862 9863 9861 AND\n2 1 9861 103837 103838 XOR\n2 1 83896 103838 9866 XOR\n2 1 1126 90039 103806 XOR\n2 1 103806 103775 1446 XOR\n2 1 90039 83895 103868 XOR\n2 1 103868 103837 998 XOR\n2 1 998 1062 69781 XOR\n2 1 69781 69749 69717 AND\n2 1 69717 1062 85911 XOR\n2 1 998 1030 69653 XOR\n2 1 63509 1446 63477 AND\n2 1 63477 1510 98140 XOR\n2 1 1446 1478 63445 XOR\n2 1 90039 103775 9773 XOR\n2 1 1577 113149 24455 XOR\n2 1 24454 24455 24453 AND\n2 1 24453 113149 113150 XOR\n2 1 1578 113150 24458 XOR\n2 1 113181 113150 94080 XOR\n2 1 96128 94080 113119 XOR\n2 1 75963 113150 24457 XOR\n2 1 24457 24458 24456 AND\n2 1 24456 113150 113151 XOR\n2 1 113182 113151 94081 XOR\n2 1 75964 113151 24460 XOR\n2 1 1579 113151 24461 XOR\n2 1 24460 24461 24459 AND\n2 1 24459 113151 113152 XOR\n2 1 113183 113152 94082 XOR\n2 1 1580 113152 24464 XOR\n2 1 75965 113152 24463 XOR\n2 1 24463 24464 24462 AND\n2 1 24462 113152 113153 XOR\n2 1 113184 113153 94083 XOR\n2 1 1581 113153 24467 XOR\n2 1 75966 113153 24466 XOR\n2 1 24466 24467 24465 AND\n",
"2 1 24465 113153 113154 XOR\n2 1 75967 113154 24469 XOR\n2 1 113185 113154 94084 XOR\n2 1 1582 113154 24470 XOR\n2 1 24469 24470 24468 AND\n2 1 24468 113154 113155 XOR\n2 1 1583 113155 24473 XOR\n2 1 75968 113155 24472 XOR\n2 1 24472 24473 24471 AND\n2 1 24471 113155 113156 XOR\n2 1 113187 113156 94086 XOR\n2 1 1584 113156 24476 XOR\n2 1 75969 113156 24475 XOR\n2 1 24475 24476 24474 AND\n2 1 96131 94083 113122 XOR\n2 1 96130 94082 113121 XOR\n2 1 96129 94081 113120 XOR\n2 1 96132 94084 113123 XOR\n2 1 24474 113156 113157 XOR\n2 1 113188 113157 94087 XOR\n2 1 75970 113157 24478 XOR\n2 1 1585 113157 24479 XOR\n2 1 96135 94087 113126 XOR\n2 1 24478 24479 24477 AND\n2 1 24477 113157 113158 XOR\n2 1 113189 113158 94088 XOR\n2 1 1586 113158 24482 XOR\n2 1 96136 94088 113127 XOR\n2 1 113186 113155 94085 XOR\n2 1 96133 94085 113124 XOR\n2 1 96134 94086 113125 XOR\n2 1 75971 113158 24481 XOR\n2 1 24481 24482 24480 AND\n2 1 24480 113158 113159 XOR\n2 1 113190 113159 94089 XOR\n2 1 75972 113159 24484 XOR\n2 1 96137 94089 113128 XOR\n2 1 1587 113159 24485 XOR\n2 1 24484 24485 24483 AND\n2 1 24483 113159 113160 XOR\n2 1 75973 113160 24487 XOR\n2 1 113191 113160 94090 XOR\n2 1 1588 113160 24488 XOR\n2 1 24487 24488 24486 AND\n2 1 24486 113160 113161 XOR\n2 1 1589 113161 24491 XOR\n2 1 75974 113161 24490 XOR\n2 1 24490 24491 24489 AND\n2 1 24489 113161 113162 XOR\n2 1 113193 113162 94092 XOR\n2 1 1590 113162 24494 XOR\n2 1 75975 113162 24493 XOR\n2 1 24493 24494 24492 AND\n2 1 96138 94090 113129 XOR\n2 1 96140 94092 113131 XOR\n2 1 24492 113162 113163 XOR\n2 1 113194 113163 94093 XOR\n2 1 75976 113163 24496 XOR\n2 1 1591 113163 24497 XOR\n2 1 96141 94093 113132 XOR\n2 1 24496 24497 24495 AND\n2 1 24495 113163 113164 XOR\n2 1 113195 113164 94094 XOR\n2 1 1592 113164 24500 XOR\n2 1 96142 94094 113133 XOR\n2 1 75977 113164 24499 XOR\n2 1 24499 24500 24498 AND\n2 1 24498 113164 113165 XOR\n2 1 113196 113165 94095 XOR\n2 1 75978 113165 24502 XOR\n2 1 96143 94095 113134 XOR\n2 1 1593 113165 24503 XOR\n2 1 24502 24503 24501 AND\n2 1 24501 113165 113166 XOR\n2 1 75979 113166 24505 XOR\n2 1 113197 113166 94096 XOR\n2 1 1594 113166 24506 XOR\n2 1 24505 24506 24504 AND\n2 1 24504 113166 113167 XOR\n2 1 1595 113167 24509 XOR\n2 1 75980 113167 24508 XOR\n2 1 24508 24509 24507 AND\n2 1 24507 113167 113168 XOR\n2 1 1596 113168 24512 XOR\n2 1 75981 113168 24511 XOR\n2 1 24511 24512 24510 AND\n2 1 96144 94096 113135 XOR\n2 1 113198 113167 94097 XOR\n2 1 96145 94097 113136 XOR\n2 1 24510 113168 113169 XOR\n2 1 113200 113169 94099 XOR\n2 1 75982 113169 24514 XOR\n2 1 1597 113169 24515 XOR\n2 1 96147 94099 113138 XOR\n2 1 24514 24515 24513 AND\n2 1 24513 113169 113170 XOR\n2 1 113201 113170 94100 XOR\n2 1 1598 113170 24518 XOR\n2 1 75983 113170 24517 XOR\n2 1 24517 24518 24516 AND\n2 1 24516 113170 113171 XOR\n2 1 113202 113171 94101 XOR\n2 1 96149 94101 113140 XOR\n2 1 96148 94100 113139 XOR\n2 1 113192 113161 94091 XOR\n2 1 96139 94091 113130 XOR\n2 1 76135 128228 50620 XOR\n2 1 50619 50620 50618 AND\n2 1 50618 128228 128229 XOR\n2 1 76136 128229 50623 XOR\n2 1 128260 128229 79240 XOR\n2 1 80776 128229 50622 XOR\n2 1 50622 50623 50621 AND\n2 1 50621 128229 128230 XOR\n2 1 80777 128230 50625 XOR\n2 1 128261 128230 79241 XOR\n2 1 76137 128230 50626 XOR\n2 1 50625 50626 50624 AND\n2 1 50624 128230 128231 XOR\n2 1 80778 128231 50628 XOR\n2 1 76138 128231 50629 XOR\n2 1 50628 50629 50627 AND\n2 1 50627 128231 128232 XOR\n2 1 80779 128232 50631 XOR\n2 1 76139 128232 50632 XOR\n2 1 128263 128232 79243 XOR\n2 1 50631 50632 50630 AND\n2 1 50630 128232 128233 XOR\n",
"2 1 76140 128233 50635 XOR\n2 1 80780 128233 50634 XOR\n2 1 50634 50635 50633 AND\n2 1 50633 128233 128234 XOR\n2 1 76141 128234 50638 XOR\n2 1 128265 128234 79245 XOR\n2 1 80781 128234 50637 XOR\n2 1 50637 50638 50636 AND\n2 1 50636 128234 128235 XOR\n2 1 80782 128235 50640 XOR\n2 1 76142 128235 50641 XOR\n2 1 50640 50641 50639 AND\n2 1 50639 128235 128236 XOR\n2 1 76143 128236 50644 XOR\n2 1 80783 128236 50643 XOR\n2 1 50643 50644 50642 AND\n2 1 50642 128236 128237 XOR\n2 1 128268 128237 79248 XOR\n2 1 128267 128236 79247 XOR\n2 1 128266 128235 79246 XOR\n2 1 128262 128231 79242 XOR\n2 1 128264 128233 79244 XOR\n2 1 75960 1575 113178 XOR\n2 1 113178 113147 94077 XOR\n2 1 96125 94077 113116 XOR\n2 1 94077 113085 24359 XOR\n2 1 24358 24359 24357 AND\n2 1 113116 113085 92076 XOR\n2 1 92076 24315 24256 XOR\n2 1 24256 24257 24255 AND\n2 1 24255 24315 24259 XOR\n1 1 92076 24329 INV\n2 1 24329 24315 90040 XOR\n2 1 1127 90040 103807 XOR\n2 1 24357 113085 113086 XOR\n2 1 113117 113086 92077 XOR\n2 1 92077 24259 90041 XOR\n2 1 90041 83897 103870 XOR\n2 1 1128 90041 103808 XOR\n2 1 90041 24259 24258 AND\n2 1 24258 24259 24261 XOR\n2 1 96126 113086 24361 XOR\n2 1 90040 103838 9865 XOR\n2 1 9865 9866 9864 AND\n2 1 9864 103838 103839 XOR\n2 1 83897 103839 9869 XOR\n2 1 90041 103839 9868 XOR\n2 1 9868 9869 9867 AND\n2 1 9867 103839 103840 XOR\n2 1 83898 103840 9872 XOR\n2 1 103870 103839 1000 XOR\n2 1 1000 1064 69783 XOR\n2 1 69783 69751 69719 AND\n2 1 69719 1064 85913 XOR\n2 1 1000 1032 69655 XOR\n2 1 90040 83896 103869 XOR\n2 1 103869 103838 999 XOR\n2 1 999 1063 69782 XOR\n2 1 69782 69750 69718 AND\n2 1 69718 1063 85912 XOR\n2 1 999 1031 69654 XOR\n2 1 94078 113086 24362 XOR\n2 1 24361 24362 24360 AND\n2 1 24360 113086 113087 XOR\n2 1 96127 113087 24364 XOR\n2 1 113118 113087 92078 XOR\n2 1 94079 113087 24365 XOR\n2 1 24364 24365 24363 AND\n2 1 24363 113087 113088 XOR\n2 1 94080 113088 24368 XOR\n2 1 113119 113088 92079 XOR\n1 1 92079 24330 INV\n2 1 96128 113088 24367 XOR\n2 1 24367 24368 24366 AND\n2 1 24366 113088 113089 XOR\n2 1 96129 113089 24370 XOR\n2 1 94081 113089 24371 XOR\n2 1 24370 24371 24369 AND\n2 1 113120 113089 92080 XOR\n1 1 92080 24331 INV\n2 1 24369 113089 113090 XOR\n2 1 113121 113090 92081 XOR\n2 1 94082 113090 24374 XOR\n2 1 96130 113090 24373 XOR\n2 1 24373 24374 24372 AND\n2 1 24372 113090 113091 XOR\n2 1 113122 113091 92082 XOR\n2 1 94083 113091 24377 XOR\n2 1 96131 113091 24376 XOR\n2 1 24376 24377 24375 AND\n2 1 24375 113091 113092 XOR\n2 1 96132 113092 24379 XOR\n2 1 94084 113092 24380 XOR\n2 1 24379 24380 24378 AND\n2 1 24378 113092 113093 XOR\n2 1 94085 113093 24383 XOR\n2 1 113124 113093 92084 XOR\n2 1 96133 113093 24382 XOR\n2 1 24382 24383 24381 AND\n2 1 24381 113093 113094 XOR\n2 1 113125 113094 92085 XOR\n2 1 113123 113092 92083 XOR\n2 1 96134 113094 24385 XOR\n2 1 94086 113094 24386 XOR\n2 1 24385 24386 24384 AND\n2 1 24384 113094 113095 XOR\n2 1 94087 113095 24389 XOR\n2 1 96135 113095 24388 XOR\n2 1 113126 113095 92086 XOR\n2 1 24388 24389 24387 AND\n2 1 24387 113095 113096 XOR\n2 1 113127 113096 92087 XOR\n1 1 92087 24332 INV\n2 1 94088 113096 24392 XOR\n2 1 96136 113096 24391 XOR\n2 1 24391 24392 24390 AND\n2 1 24390 113096 113097 XOR\n2 1 113128 113097 92088 XOR\n1 1 92088 24333 INV\n2 1 96137 113097 24394 XOR\n2 1 94089 113097 24395 XOR\n2 1 24394 24395 24393 AND\n2 1 24393 113097 113098 XOR\n2 1 94090 113098 24398 XOR\n2 1 113129 113098 92089 XOR\n1 1 92089 24334 INV\n2 1 96138 113098 24397 XOR\n2 1 24397 24398 24396 AND\n",
"2 1 24396 113098 113099 XOR\n2 1 113130 113099 92090 XOR\n2 1 96139 113099 24400 XOR\n2 1 94091 113099 24401 XOR\n2 1 24400 24401 24399 AND\n2 1 24399 113099 113100 XOR\n2 1 94092 113100 24404 XOR\n2 1 113131 113100 92091 XOR\n2 1 96140 113100 24403 XOR\n2 1 24403 24404 24402 AND\n2 1 24402 113100 113101 XOR\n2 1 96141 113101 24406 XOR\n2 1 113132 113101 92092 XOR\n2 1 94093 113101 24407 XOR\n2 1 24406 24407 24405 AND\n2 1 24405 113101 113102 XOR\n2 1 96142 113102 24409 XOR\n2 1 94094 113102 24410 XOR\n2 1 24409 24410 24408 AND\n2 1 113133 113102 92093 XOR\n1 1 92093 24335 INV\n2 1 24408 113102 113103 XOR\n2 1 96143 113103 24412 XOR\n2 1 94095 113103 24413 XOR\n2 1 24412 24413 24411 AND\n2 1 24411 113103 113104 XOR\n2 1 113135 113104 92095 XOR\n2 1 113134 113103 92094 XOR\n2 1 94096 113104 24416 XOR\n2 1 96144 113104 24415 XOR\n2 1 24415 24416 24414 AND\n2 1 24414 113104 113105 XOR\n2 1 96145 113105 24418 XOR\n2 1 113136 113105 92096 XOR\n2 1 94097 113105 24419 XOR\n2 1 24418 24419 24417 AND\n2 1 24417 113105 113106 XOR\n2 1 96146 113106 24421 XOR\n1 1 92096 24336 INV\n2 1 92078 24261 90042 XOR\n2 1 90042 83898 103871 XOR\n2 1 103871 103840 1001 XOR\n2 1 1001 1065 69784 XOR\n2 1 69784 69752 69720 AND\n2 1 69720 1065 85914 XOR\n2 1 1001 1033 69656 XOR\n2 1 1129 90042 103809 XOR\n2 1 90042 103840 9871 XOR\n2 1 9871 9872 9870 AND\n2 1 9870 103840 103841 XOR\n2 1 83899 103841 9875 XOR\n2 1 90042 24261 24260 AND\n2 1 24260 24261 24316 XOR\n2 1 92079 24316 24263 XOR\n1 1 24316 24264 INV\n2 1 24263 24264 24262 AND\n2 1 24262 24316 24317 XOR\n2 1 24331 24317 90044 XOR\n2 1 90044 83900 103873 XOR\n1 1 24317 24267 INV\n2 1 92080 24317 24266 XOR\n2 1 24266 24267 24265 AND\n2 1 24265 24317 24269 XOR\n2 1 92081 24269 90045 XOR\n2 1 90045 24269 24268 AND\n2 1 24268 24269 24271 XOR\n2 1 92082 24271 90046 XOR\n2 1 90046 24271 24270 AND\n2 1 24270 24271 24273 XOR\n2 1 1133 90046 103813 XOR\n2 1 1131 90044 103811 XOR\n2 1 24330 24316 90043 XOR\n2 1 90043 103841 9874 XOR\n2 1 9874 9875 9873 AND\n2 1 9873 103841 103842 XOR\n2 1 103873 103842 1003 XOR\n2 1 1003 1067 69786 XOR\n2 1 69786 69754 69722 AND\n2 1 69722 1067 85916 XOR\n2 1 1003 1035 69658 XOR\n2 1 83900 103842 9878 XOR\n2 1 992 1003 67085 XOR\n2 1 90043 83899 103872 XOR\n2 1 103872 103841 1002 XOR\n2 1 1002 1066 69785 XOR\n2 1 69785 69753 69721 AND\n2 1 69721 1066 85915 XOR\n2 1 1002 1034 69657 XOR\n2 1 90045 83901 103874 XOR\n2 1 90046 83902 103875 XOR\n2 1 1130 90043 103810 XOR\n2 1 90044 103842 9877 XOR\n2 1 9877 9878 9876 AND\n2 1 9876 103842 103843 XOR\n2 1 90045 103843 9880 XOR\n2 1 103874 103843 1004 XOR\n2 1 1004 1068 69787 XOR\n2 1 69787 69755 69723 AND\n2 1 69723 1068 85917 XOR\n2 1 1004 1036 69659 XOR\n2 1 993 1004 67086 XOR\n2 1 83901 103843 9881 XOR\n2 1 9880 9881 9879 AND\n2 1 9879 103843 103844 XOR\n2 1 103875 103844 1005 XOR\n2 1 1005 1069 69788 XOR\n2 1 69788 69756 69724 AND\n2 1 69724 1069 85918 XOR\n2 1 1005 1037 69660 XOR\n2 1 83902 103844 9884 XOR\n2 1 994 1005 67055 XOR\n2 1 90046 103844 9883 XOR\n2 1 9883 9884 9882 AND\n2 1 9882 103844 103845 XOR\n2 1 83903 103845 9887 XOR\n2 1 1132 90045 103812 XOR\n2 1 92083 24273 90047 XOR\n2 1 90047 24273 24272 AND\n2 1 24272 24273 24275 XOR\n2 1 92084 24275 90048 XOR\n2 1 90048 83904 103877 XOR\n2 1 90048 24275 24274 AND\n2 1 24274 24275 24277 XOR\n2 1 92085 24277 90049 XOR\n2 1 90049 24277 24276 AND\n2 1 1136 90049 103816 XOR\n2 1 90049 83905 103878 XOR\n2 1 24276 24277 24279 XOR\n",
"2 1 90047 103845 9886 XOR\n2 1 9886 9887 9885 AND\n2 1 9885 103845 103846 XOR\n2 1 103877 103846 1007 XOR\n2 1 1007 1071 69790 XOR\n2 1 69790 69758 69726 AND\n2 1 69726 1071 85920 XOR\n2 1 1007 1039 69662 XOR\n2 1 83904 103846 9890 XOR\n2 1 996 1007 67057 XOR\n2 1 90048 103846 9889 XOR\n2 1 9889 9890 9888 AND\n2 1 9888 103846 103847 XOR\n2 1 83905 103847 9893 XOR\n2 1 90049 103847 9892 XOR\n2 1 103878 103847 1008 XOR\n2 1 1008 1072 69791 XOR\n2 1 69791 69759 69727 AND\n2 1 69727 1072 85921 XOR\n2 1 1008 1040 69663 XOR\n2 1 997 1008 67058 XOR\n2 1 9892 9893 9891 AND\n2 1 9891 103847 103848 XOR\n2 1 83906 103848 9896 XOR\n2 1 90047 83903 103876 XOR\n2 1 92086 24279 90050 XOR\n2 1 90050 83906 103879 XOR\n2 1 103879 103848 1009 XOR\n2 1 1009 1041 69664 XOR\n2 1 1009 1073 69792 XOR\n2 1 69792 69760 69728 AND\n2 1 69728 1073 85922 XOR\n2 1 998 1009 67059 XOR\n2 1 1137 90050 103817 XOR\n2 1 90050 103848 9895 XOR\n2 1 9895 9896 9894 AND\n2 1 9894 103848 103849 XOR\n2 1 83907 103849 9899 XOR\n2 1 90050 24279 24278 AND\n2 1 24278 24279 24318 XOR\n2 1 92087 24318 24281 XOR\n2 1 24332 24318 90051 XOR\n2 1 90051 103849 9898 XOR\n2 1 1138 90051 103818 XOR\n2 1 9898 9899 9897 AND\n2 1 9897 103849 103850 XOR\n2 1 83908 103850 9902 XOR\n2 1 90051 83907 103880 XOR\n2 1 103880 103849 1010 XOR\n2 1 1010 1074 69793 XOR\n2 1 69793 69761 69729 AND\n2 1 69729 1074 85923 XOR\n2 1 1010 1042 69665 XOR\n2 1 999 1010 67060 XOR\n1 1 24318 24282 INV\n2 1 24281 24282 24280 AND\n2 1 24280 24318 24319 XOR\n1 1 24319 24285 INV\n2 1 24333 24319 90052 XOR\n2 1 90052 83908 103881 XOR\n2 1 103881 103850 1011 XOR\n2 1 1011 1075 69794 XOR\n2 1 69794 69762 69730 AND\n2 1 69730 1075 85924 XOR\n2 1 1011 1043 69666 XOR\n2 1 1000 1011 67061 XOR\n2 1 1139 90052 103819 XOR\n2 1 92088 24319 24284 XOR\n2 1 24284 24285 24283 AND\n2 1 24283 24319 24320 XOR\n1 1 24320 24288 INV\n2 1 92089 24320 24287 XOR\n2 1 24334 24320 90053 XOR\n2 1 1140 90053 103820 XOR\n2 1 90053 83909 103882 XOR\n2 1 24287 24288 24286 AND\n2 1 24286 24320 24290 XOR\n2 1 90052 103850 9901 XOR\n2 1 9901 9902 9900 AND\n2 1 9900 103850 103851 XOR\n2 1 90053 103851 9904 XOR\n2 1 83909 103851 9905 XOR\n2 1 103882 103851 1012 XOR\n2 1 1012 1076 69795 XOR\n2 1 69795 69763 69731 AND\n2 1 69731 1076 85925 XOR\n2 1 1012 1044 69667 XOR\n2 1 1001 1012 67062 XOR\n2 1 67085 1012 87983 XOR\n2 1 9904 9905 9903 AND\n2 1 9903 103851 103852 XOR\n2 1 92090 24290 90054 XOR\n2 1 1141 90054 103821 XOR\n2 1 90054 83910 103883 XOR\n2 1 103883 103852 1013 XOR\n2 1 1013 1045 69668 XOR\n2 1 1013 992 67074 XOR\n2 1 1002 1013 67063 XOR\n2 1 67086 1013 87984 XOR\n2 1 67074 1001 87972 XOR\n2 1 87972 85924 112803 XOR\n2 1 1013 1077 69796 XOR\n2 1 69796 69764 69732 AND\n2 1 69732 1077 85926 XOR\n2 1 90054 24290 24289 AND\n2 1 24289 24290 24292 XOR\n2 1 90054 103852 9907 XOR\n2 1 83910 103852 9908 XOR\n2 1 9907 9908 9906 AND\n2 1 9906 103852 103853 XOR\n2 1 83911 103853 9911 XOR\n2 1 103876 103845 1006 XOR\n2 1 1006 1070 69789 XOR\n2 1 69789 69757 69725 AND\n2 1 69725 1070 85919 XOR\n2 1 1006 1038 69661 XOR\n2 1 995 1006 67056 XOR\n2 1 92091 24292 90055 XOR\n2 1 90055 24292 24291 AND\n2 1 24291 24292 24294 XOR\n2 1 92092 24294 90056 XOR\n2 1 1143 90056 103823 XOR\n2 1 90056 24294 24293 AND\n2 1 90056 83912 103885 XOR\n2 1 24293 24294 24321 XOR\n2 1 24335 24321 90057 XOR\n2 1 1144 90057 103824 XOR\n2 1 90057 83913 103886 XOR\n",
"2 1 92093 24321 24296 XOR\n1 1 24321 24297 INV\n2 1 24296 24297 24295 AND\n2 1 24295 24321 24299 XOR\n2 1 92094 24299 90058 XOR\n2 1 90058 83914 103887 XOR\n2 1 1145 90058 103825 XOR\n2 1 90058 24299 24298 AND\n2 1 24298 24299 24301 XOR\n2 1 92095 24301 90059 XOR\n2 1 1146 90059 103826 XOR\n2 1 90059 83915 103888 XOR\n2 1 90059 24301 24300 AND\n2 1 24300 24301 24322 XOR\n2 1 92096 24322 24303 XOR\n2 1 24336 24322 90060 XOR\n2 1 1147 90060 103827 XOR\n2 1 90060 83916 103889 XOR\n1 1 24322 24304 INV\n2 1 24303 24304 24302 AND\n2 1 24302 24322 24323 XOR\n1 1 24323 24307 INV\n2 1 1142 90055 103822 XOR\n2 1 90055 83911 103884 XOR\n2 1 103884 103853 1014 XOR\n2 1 1014 1078 69797 XOR\n2 1 69797 69765 69733 AND\n2 1 69733 1078 85927 XOR\n2 1 1014 1046 69669 XOR\n2 1 1014 993 67075 XOR\n2 1 1003 1014 67064 XOR\n2 1 67075 1002 87973 XOR\n2 1 87973 85925 112804 XOR\n2 1 67055 1014 87953 XOR\n2 1 87953 85905 83857 XOR\n2 1 87953 85905 112754 AND\n2 1 85906 112754 23708 XOR\n2 1 90055 103853 9910 XOR\n2 1 9910 9911 9909 AND\n2 1 9909 103853 103854 XOR\n2 1 103885 103854 1015 XOR\n2 1 1015 1079 69798 XOR\n2 1 69798 69766 69734 AND\n2 1 69734 1079 85928 XOR\n2 1 1015 1047 69670 XOR\n2 1 1015 994 67076 XOR\n2 1 1004 1015 67065 XOR\n2 1 67076 1003 87974 XOR\n2 1 67065 992 87963 XOR\n2 1 87963 85915 112794 XOR\n2 1 67056 1015 87954 XOR\n2 1 87954 112754 23707 XOR\n2 1 23707 23708 23706 AND\n2 1 23706 112754 112755 XOR\n2 1 85907 112755 23711 XOR\n2 1 87954 85906 112785 XOR\n2 1 112785 112754 83858 XOR\n2 1 83912 103854 9914 XOR\n2 1 90056 103854 9913 XOR\n2 1 9913 9914 9912 AND\n2 1 9912 103854 103855 XOR\n2 1 90057 103855 9916 XOR\n2 1 83913 103855 9917 XOR\n2 1 9916 9917 9915 AND\n2 1 103886 103855 1016 XOR\n2 1 1016 1080 69799 XOR\n2 1 69799 69767 69735 AND\n2 1 69735 1080 85929 XOR\n2 1 1016 1048 69671 XOR\n2 1 1016 995 67077 XOR\n2 1 1005 1016 67066 XOR\n2 1 67077 1004 87975 XOR\n2 1 87975 85927 112806 XOR\n2 1 67066 993 87964 XOR\n2 1 87964 85916 112795 XOR\n2 1 67057 1016 87955 XOR\n2 1 87955 85907 112786 XOR\n2 1 87955 112755 23710 XOR\n2 1 23710 23711 23709 AND\n2 1 112786 112755 83859 XOR\n2 1 23709 112755 112756 XOR\n2 1 85908 112756 23714 XOR\n2 1 9915 103855 103856 XOR\n2 1 103887 103856 1017 XOR\n2 1 1017 1081 69800 XOR\n2 1 69800 69768 69736 AND\n2 1 69736 1081 85930 XOR\n2 1 1017 1049 69672 XOR\n2 1 1017 996 67078 XOR\n2 1 1006 1017 67067 XOR\n2 1 67078 1005 87976 XOR\n2 1 67067 994 87965 XOR\n2 1 87965 85917 112796 XOR\n2 1 67058 1017 87956 XOR\n2 1 87956 85908 112787 XOR\n2 1 90058 103856 9919 XOR\n2 1 87956 112756 23713 XOR\n2 1 23713 23714 23712 AND\n2 1 112787 112756 83860 XOR\n2 1 23712 112756 112757 XOR\n2 1 85909 112757 23717 XOR\n2 1 83914 103856 9920 XOR\n2 1 9919 9920 9918 AND\n2 1 9918 103856 103857 XOR\n2 1 103888 103857 1018 XOR\n2 1 1018 1082 69801 XOR\n2 1 69801 69769 69737 AND\n2 1 69737 1082 85931 XOR\n2 1 1018 1050 69673 XOR\n2 1 1018 997 67079 XOR\n2 1 1007 1018 67068 XOR\n2 1 67079 1006 87977 XOR\n2 1 87977 85929 112808 XOR\n2 1 67068 995 87966 XOR\n2 1 67059 1018 87957 XOR\n2 1 87957 85909 112788 XOR\n2 1 87957 112757 23716 XOR\n2 1 23716 23717 23715 AND\n2 1 112788 112757 83861 XOR\n2 1 23715 112757 112758 XOR\n2 1 85910 112758 23720 XOR\n2 1 87966 85918 112797 XOR\n2 1 90059 103857 9922 XOR\n2 1 87976 85928 112807 XOR\n2 1 83915 103857 9923 XOR\n2 1 87974 85926 112805 XOR\n2 1 1135 90048 103815 XOR\n2 1 1134 90047 103814 XOR\n",
"2 1 9922 9923 9921 AND\n2 1 9921 103857 103858 XOR\n2 1 90060 103858 9925 XOR\n2 1 103889 103858 1019 XOR\n2 1 1019 1083 69802 XOR\n2 1 69802 69770 69738 AND\n2 1 69738 1083 85932 XOR\n2 1 1019 1051 69674 XOR\n2 1 1019 998 67080 XOR\n2 1 1008 1019 67069 XOR\n2 1 67080 1007 87978 XOR\n2 1 87978 85930 112809 XOR\n2 1 67069 996 87967 XOR\n2 1 87967 85919 112798 XOR\n2 1 67060 1019 87958 XOR\n2 1 87958 85910 112789 XOR\n2 1 87958 112758 23719 XOR\n2 1 23719 23720 23718 AND\n2 1 112789 112758 83862 XOR\n2 1 23718 112758 112759 XOR\n2 1 85911 112759 23723 XOR\n2 1 83916 103858 9926 XOR\n2 1 9925 9926 9924 AND\n2 1 9924 103858 103859 XOR\n2 1 83917 103859 9929 XOR\n2 1 75981 1596 113199 XOR\n2 1 113199 113168 94098 XOR\n2 1 94098 113106 24422 XOR\n2 1 96146 94098 113137 XOR\n2 1 113137 113106 92097 XOR\n2 1 92097 24323 24306 XOR\n2 1 24421 24422 24420 AND\n2 1 24420 113106 113107 XOR\n1 1 92097 24337 INV\n2 1 94099 113107 24425 XOR\n2 1 96147 113107 24424 XOR\n2 1 24424 24425 24423 AND\n2 1 24423 113107 113108 XOR\n2 1 94100 113108 24428 XOR\n2 1 96148 113108 24427 XOR\n2 1 24427 24428 24426 AND\n2 1 113139 113108 92099 XOR\n2 1 24426 113108 113109 XOR\n2 1 113140 113109 92100 XOR\n2 1 24337 24323 90061 XOR\n2 1 90061 83917 103890 XOR\n2 1 103890 103859 1020 XOR\n2 1 1020 1084 69803 XOR\n2 1 69803 69771 69739 AND\n2 1 69739 1084 85933 XOR\n2 1 1020 1052 69675 XOR\n2 1 1020 999 67081 XOR\n2 1 1009 1020 67070 XOR\n2 1 67081 1008 87979 XOR\n2 1 67070 997 87968 XOR\n2 1 87968 85920 112799 XOR\n2 1 67061 1020 87959 XOR\n2 1 87959 85911 112790 XOR\n2 1 1148 90061 103828 XOR\n2 1 87959 112759 23722 XOR\n2 1 23722 23723 23721 AND\n2 1 112790 112759 83863 XOR\n2 1 23721 112759 112760 XOR\n2 1 85912 112760 23726 XOR\n2 1 87979 85931 112810 XOR\n2 1 90061 103859 9928 XOR\n2 1 9928 9929 9927 AND\n2 1 9927 103859 103860 XOR\n2 1 83918 103860 9932 XOR\n2 1 113138 113107 92098 XOR\n1 1 92098 24338 INV\n2 1 24306 24307 24305 AND\n2 1 24305 24323 24324 XOR\n2 1 92098 24324 24309 XOR\n1 1 24324 24310 INV\n2 1 24309 24310 24308 AND\n2 1 24308 24324 24312 XOR\n2 1 92099 24312 90063 XOR\n2 1 90063 24312 24311 AND\n2 1 1150 90063 103830 XOR\n2 1 90063 83919 103892 XOR\n2 1 24311 24312 24325 XOR\n2 1 92100 24325 90064 XOR\n2 1 1151 90064 103831 XOR\n2 1 90064 83920 103893 XOR\n2 1 24338 24324 90062 XOR\n2 1 1149 90062 103829 XOR\n2 1 90062 103860 9931 XOR\n2 1 90062 83918 103891 XOR\n2 1 103891 103860 1021 XOR\n2 1 1021 1085 69804 XOR\n2 1 69804 69772 69740 AND\n2 1 69740 1085 85934 XOR\n2 1 1021 1053 69676 XOR\n2 1 1021 1000 67082 XOR\n2 1 1010 1021 67071 XOR\n2 1 67082 1009 87980 XOR\n2 1 87980 85932 112811 XOR\n2 1 67071 998 87969 XOR\n2 1 87969 85921 112800 XOR\n2 1 67062 1021 87960 XOR\n2 1 87960 85912 112791 XOR\n2 1 87960 112760 23725 XOR\n2 1 23725 23726 23724 AND\n2 1 112791 112760 83864 XOR\n2 1 23724 112760 112761 XOR\n2 1 85913 112761 23729 XOR\n2 1 9931 9932 9930 AND\n2 1 9930 103860 103861 XOR\n2 1 83919 103861 9935 XOR\n2 1 90063 103861 9934 XOR\n2 1 9934 9935 9933 AND\n2 1 9933 103861 103862 XOR\n2 1 103893 103862 1023 XOR\n2 1 1023 1087 69806 XOR\n2 1 69806 69774 69742 AND\n2 1 69742 1087 85936 XOR\n2 1 1023 1055 69678 XOR\n2 1 1023 1002 67084 XOR\n2 1 1012 1023 67073 XOR\n2 1 67084 1011 87982 XOR\n2 1 67073 1000 87971 XOR\n2 1 87971 85923 112802 XOR\n2 1 67064 1023 87962 XOR\n2 1 87984 85936 112815 XOR\n2 1 87982 85934 112813 XOR\n2 1 103892 103861 1022 XOR\n2 1 1022 1086 69805 XOR\n",
"2 1 69805 69773 69741 AND\n2 1 69741 1086 85935 XOR\n2 1 1022 1054 69677 XOR\n2 1 87983 85935 112814 XOR\n2 1 1022 1001 67083 XOR\n2 1 1011 1022 67072 XOR\n2 1 67083 1010 87981 XOR\n2 1 67072 999 87970 XOR\n2 1 67063 1022 87961 XOR\n2 1 87961 112761 23728 XOR\n2 1 23728 23729 23727 AND\n2 1 23727 112761 112762 XOR\n2 1 87962 112762 23731 XOR\n2 1 85914 112762 23732 XOR\n2 1 23731 23732 23730 AND\n2 1 23730 112762 112763 XOR\n2 1 87963 112763 23734 XOR\n2 1 112794 112763 83867 XOR\n2 1 85915 112763 23735 XOR\n2 1 23734 23735 23733 AND\n2 1 23733 112763 112764 XOR\n2 1 87964 112764 23737 XOR\n2 1 112795 112764 83868 XOR\n2 1 85916 112764 23738 XOR\n2 1 23737 23738 23736 AND\n2 1 23736 112764 112765 XOR\n2 1 87965 112765 23740 XOR\n2 1 112796 112765 83869 XOR\n2 1 85917 112765 23741 XOR\n2 1 23740 23741 23739 AND\n2 1 23739 112765 112766 XOR\n2 1 87966 112766 23743 XOR\n2 1 112797 112766 83870 XOR\n2 1 85918 112766 23744 XOR\n2 1 23743 23744 23742 AND\n2 1 23742 112766 112767 XOR\n2 1 87967 112767 23746 XOR\n2 1 112798 112767 83871 XOR\n2 1 85919 112767 23747 XOR\n2 1 23746 23747 23745 AND\n2 1 23745 112767 112768 XOR\n2 1 87968 112768 23749 XOR\n2 1 112799 112768 83872 XOR\n2 1 85920 112768 23750 XOR\n2 1 23749 23750 23748 AND\n2 1 23748 112768 112769 XOR\n2 1 87969 112769 23752 XOR\n2 1 112800 112769 83873 XOR\n2 1 85921 112769 23753 XOR\n2 1 23752 23753 23751 AND\n2 1 23751 112769 112770 XOR\n2 1 87970 112770 23755 XOR\n2 1 85922 112770 23756 XOR\n2 1 23755 23756 23754 AND\n2 1 23754 112770 112771 XOR\n2 1 87971 112771 23758 XOR\n2 1 112802 112771 83875 XOR\n2 1 85923 112771 23759 XOR\n2 1 23758 23759 23757 AND\n2 1 23757 112771 112772 XOR\n2 1 87972 112772 23761 XOR\n2 1 112803 112772 83876 XOR\n2 1 85924 112772 23762 XOR\n2 1 23761 23762 23760 AND\n2 1 23760 112772 112773 XOR\n2 1 87970 85922 112801 XOR\n2 1 112801 112770 83874 XOR\n2 1 112804 112773 83877 XOR\n2 1 87973 112773 23764 XOR\n2 1 85925 112773 23765 XOR\n2 1 23764 23765 23763 AND\n2 1 23763 112773 112774 XOR\n2 1 112805 112774 83878 XOR\n2 1 87974 112774 23767 XOR\n2 1 85926 112774 23768 XOR\n2 1 23767 23768 23766 AND\n2 1 23766 112774 112775 XOR\n2 1 112806 112775 83879 XOR\n2 1 87975 112775 23770 XOR\n2 1 85927 112775 23771 XOR\n2 1 23770 23771 23769 AND\n2 1 23769 112775 112776 XOR\n2 1 112807 112776 83880 XOR\n2 1 87976 112776 23773 XOR\n2 1 85928 112776 23774 XOR\n2 1 23773 23774 23772 AND\n2 1 23772 112776 112777 XOR\n2 1 112808 112777 83881 XOR\n2 1 87977 112777 23776 XOR\n2 1 85929 112777 23777 XOR\n2 1 23776 23777 23775 AND\n2 1 23775 112777 112778 XOR\n2 1 112809 112778 83882 XOR\n2 1 87978 112778 23779 XOR\n2 1 85930 112778 23780 XOR\n2 1 23779 23780 23778 AND\n2 1 23778 112778 112779 XOR\n2 1 112810 112779 83883 XOR\n2 1 87979 112779 23782 XOR\n2 1 85931 112779 23783 XOR\n2 1 23782 23783 23781 AND\n2 1 23781 112779 112780 XOR\n2 1 112811 112780 83884 XOR\n2 1 87980 112780 23785 XOR\n2 1 85932 112780 23786 XOR\n2 1 23785 23786 23784 AND\n2 1 23784 112780 112781 XOR\n2 1 87981 112781 23788 XOR\n2 1 85933 112781 23789 XOR\n2 1 23788 23789 23787 AND\n2 1 23787 112781 112782 XOR\n2 1 112813 112782 83886 XOR\n2 1 87982 112782 23791 XOR\n2 1 85934 112782 23792 XOR\n2 1 23791 23792 23790 AND\n2 1 23790 112782 112783 XOR\n2 1 112814 112783 83887 XOR\n2 1 87983 112783 23794 XOR\n2 1 85935 112783 23795 XOR\n2 1 23794 23795 23793 AND\n2 1 23793 112783 112784 XOR\n2 1 112815 112784 83888 XOR\n2 1 87981 85933 112812 XOR\n2 1 112812 112781 83885 XOR\n2 1 87961 85913 112792 XOR\n2 1 112792 112761 83865 XOR\n2 1 87962 85914 112793 XOR\n2 1 112793 112762 83866 XOR\n",
"2 1 1121 90034 103801 XOR\n2 1 103801 103770 1441 XOR\n2 1 63504 1441 63472 AND\n2 1 63472 1505 98135 XOR\n2 1 1441 1473 63440 XOR\n2 1 1441 1446 61162 XOR\n2 1 1126 103775 9772 XOR\n2 1 9772 9773 9771 AND\n2 1 9771 103775 103776 XOR\n2 1 1127 103776 9775 XOR\n2 1 90040 103776 9776 XOR\n2 1 103807 103776 1447 XOR\n2 1 63510 1447 63478 AND\n2 1 63478 1511 98141 XOR\n2 1 1447 1479 63446 XOR\n2 1 9775 9776 9774 AND\n2 1 9774 103776 103777 XOR\n2 1 103808 103777 1448 XOR\n2 1 90041 103777 9779 XOR\n2 1 1128 103777 9778 XOR\n2 1 63511 1448 63479 AND\n2 1 63479 1512 98142 XOR\n2 1 1448 1480 63447 XOR\n2 1 1443 1448 61164 XOR\n2 1 1442 1447 61163 XOR\n2 1 9778 9779 9777 AND\n2 1 9777 103777 103778 XOR\n2 1 1129 103778 9781 XOR\n2 1 103809 103778 1449 XOR\n2 1 90042 103778 9782 XOR\n2 1 63512 1449 63480 AND\n2 1 63480 1513 98143 XOR\n2 1 1449 1481 63448 XOR\n2 1 1444 1449 61165 XOR\n2 1 9781 9782 9780 AND\n2 1 9780 103778 103779 XOR\n2 1 1130 103779 9784 XOR\n2 1 103810 103779 1450 XOR\n2 1 63513 1450 63481 AND\n2 1 63481 1514 98144 XOR\n2 1 1450 1482 63449 XOR\n2 1 90043 103779 9785 XOR\n2 1 9784 9785 9783 AND\n2 1 9783 103779 103780 XOR\n2 1 90044 103780 9788 XOR\n2 1 1131 103780 9787 XOR\n2 1 9787 9788 9786 AND\n2 1 9786 103780 103781 XOR\n2 1 1132 103781 9790 XOR\n2 1 90045 103781 9791 XOR\n2 1 9790 9791 9789 AND\n2 1 9789 103781 103782 XOR\n2 1 103813 103782 1453 XOR\n2 1 63516 1453 63484 AND\n2 1 63484 1517 98147 XOR\n2 1 1453 1485 63452 XOR\n2 1 1133 103782 9793 XOR\n2 1 90046 103782 9794 XOR\n2 1 9793 9794 9792 AND\n2 1 9792 103782 103783 XOR\n2 1 1134 103783 9796 XOR\n2 1 90047 103783 9797 XOR\n2 1 9796 9797 9795 AND\n2 1 1445 1450 61166 XOR\n2 1 1448 1453 61137 XOR\n2 1 9795 103783 103784 XOR\n2 1 103815 103784 1455 XOR\n2 1 1135 103784 9799 XOR\n2 1 63518 1455 63486 AND\n2 1 63486 1519 98149 XOR\n2 1 1455 1487 63454 XOR\n2 1 90048 103784 9800 XOR\n2 1 9799 9800 9798 AND\n2 1 9798 103784 103785 XOR\n2 1 103816 103785 1456 XOR\n2 1 63519 1456 63487 AND\n2 1 63487 1520 98150 XOR\n2 1 1456 1488 63455 XOR\n2 1 1136 103785 9802 XOR\n2 1 1450 1455 61139 XOR\n2 1 103814 103783 1454 XOR\n2 1 63517 1454 63485 AND\n2 1 63485 1518 98148 XOR\n2 1 1454 1486 63453 XOR\n2 1 1449 1454 61138 XOR\n2 1 103812 103781 1452 XOR\n2 1 63515 1452 63483 AND\n2 1 63483 1516 98146 XOR\n2 1 1452 1484 63451 XOR\n2 1 1447 1452 61136 XOR\n2 1 103811 103780 1451 XOR\n2 1 63514 1451 63482 AND\n2 1 63482 1515 98145 XOR\n2 1 1451 1483 63450 XOR\n2 1 1451 1456 61140 XOR\n2 1 1446 1451 61135 XOR\n2 1 90049 103785 9803 XOR\n2 1 9802 9803 9801 AND\n2 1 9801 103785 103786 XOR\n2 1 1137 103786 9805 XOR\n2 1 103817 103786 1457 XOR\n2 1 63520 1457 63488 AND\n2 1 63488 1521 98151 XOR\n2 1 1457 1489 63456 XOR\n2 1 1452 1457 61141 XOR\n2 1 90050 103786 9806 XOR\n2 1 9805 9806 9804 AND\n2 1 9804 103786 103787 XOR\n2 1 90051 103787 9809 XOR\n2 1 103818 103787 1458 XOR\n2 1 63521 1458 63489 AND\n2 1 63489 1522 98152 XOR\n2 1 1458 1490 63457 XOR\n2 1 1138 103787 9808 XOR\n2 1 9808 9809 9807 AND\n2 1 1453 1458 61142 XOR\n2 1 61142 1440 100189 XOR\n2 1 100189 98141 112992 XOR\n2 1 9807 103787 103788 XOR\n2 1 103819 103788 1459 XOR\n2 1 1139 103788 9811 XOR\n2 1 63522 1459 63490 AND\n2 1 63490 1523 98153 XOR\n2 1 1459 1491 63458 XOR\n2 1 90052 103788 9812 XOR\n2 1 9811 9812 9810 AND\n2 1 9810 103788 103789 XOR\n2 1 90053 103789 9815 XOR\n",
"2 1 103820 103789 1460 XOR\n2 1 63523 1460 63491 AND\n2 1 63491 1524 98154 XOR\n2 1 1460 1492 63459 XOR\n2 1 1140 103789 9814 XOR\n2 1 9814 9815 9813 AND\n2 1 9813 103789 103790 XOR\n2 1 90054 103790 9818 XOR\n2 1 103821 103790 1461 XOR\n2 1 63524 1461 63492 AND\n2 1 63492 1525 98155 XOR\n2 1 1461 1493 63460 XOR\n2 1 1456 1461 61145 XOR\n2 1 1455 1460 61144 XOR\n2 1 1454 1459 61143 XOR\n2 1 61163 1461 100210 XOR\n2 1 61162 1460 100209 XOR\n2 1 61161 1459 100208 XOR\n2 1 61145 1443 100192 XOR\n2 1 100192 98144 112995 XOR\n2 1 61144 1442 100191 XOR\n2 1 100191 98143 112994 XOR\n2 1 61143 1441 100190 XOR\n2 1 1141 103790 9817 XOR\n2 1 9817 9818 9816 AND\n2 1 9816 103790 103791 XOR\n2 1 1142 103791 9820 XOR\n2 1 90055 103791 9821 XOR\n2 1 9820 9821 9819 AND\n2 1 9819 103791 103792 XOR\n2 1 103823 103792 1463 XOR\n2 1 1143 103792 9823 XOR\n2 1 90056 103792 9824 XOR\n2 1 9823 9824 9822 AND\n2 1 9822 103792 103793 XOR\n2 1 1144 103793 9826 XOR\n2 1 103824 103793 1464 XOR\n2 1 63527 1464 63495 AND\n2 1 63526 1463 63494 AND\n2 1 63495 1528 98158 XOR\n2 1 63494 1527 98157 XOR\n2 1 1464 1496 63463 XOR\n2 1 1463 1495 63462 XOR\n2 1 90057 103793 9827 XOR\n2 1 9826 9827 9825 AND\n2 1 9825 103793 103794 XOR\n2 1 1145 103794 9829 XOR\n2 1 90058 103794 9830 XOR\n2 1 9829 9830 9828 AND\n2 1 9828 103794 103795 XOR\n2 1 90059 103795 9833 XOR\n2 1 103825 103794 1465 XOR\n2 1 63528 1465 63496 AND\n2 1 63496 1529 98159 XOR\n2 1 1465 1497 63464 XOR\n2 1 1146 103795 9832 XOR\n2 1 9832 9833 9831 AND\n2 1 9831 103795 103796 XOR\n2 1 103827 103796 1467 XOR\n2 1 63530 1467 63498 AND\n2 1 63498 1531 98161 XOR\n2 1 100209 98161 113012 XOR\n2 1 1467 1499 63466 XOR\n2 1 1467 1440 61156 XOR\n2 1 1460 1465 61149 XOR\n2 1 1459 1464 61148 XOR\n2 1 1458 1463 61147 XOR\n2 1 61166 1464 100213 XOR\n2 1 61165 1463 100212 XOR\n2 1 61156 1454 100203 XOR\n2 1 100203 98155 113006 XOR\n2 1 61149 1447 100196 XOR\n2 1 100196 98148 112999 XOR\n2 1 61148 1446 100195 XOR\n2 1 100195 98147 112998 XOR\n2 1 61147 1445 100194 XOR\n2 1 100194 98146 112997 XOR\n2 1 61137 1467 100184 XOR\n2 1 100184 98136 112987 XOR\n2 1 61135 1465 100182 XOR\n2 1 100182 98134 112955 AND\n2 1 100182 98134 96086 XOR\n2 1 98135 112955 24063 XOR\n2 1 90060 103796 9836 XOR\n2 1 1147 103796 9835 XOR\n2 1 9835 9836 9834 AND\n2 1 9834 103796 103797 XOR\n2 1 1148 103797 9838 XOR\n2 1 90061 103797 9839 XOR\n2 1 9838 9839 9837 AND\n2 1 9837 103797 103798 XOR\n2 1 103829 103798 1469 XOR\n2 1 63532 1469 63500 AND\n2 1 63500 1533 98163 XOR\n2 1 1469 1501 63468 XOR\n2 1 90062 103798 9842 XOR\n2 1 1149 103798 9841 XOR\n2 1 9841 9842 9840 AND\n2 1 9840 103798 103799 XOR\n2 1 103830 103799 1470 XOR\n2 1 63533 1470 63501 AND\n2 1 63501 1534 98164 XOR\n2 1 100212 98164 113015 XOR\n2 1 1470 1502 63469 XOR\n2 1 90063 103799 9845 XOR\n2 1 1150 103799 9844 XOR\n2 1 9844 9845 9843 AND\n2 1 9843 103799 103800 XOR\n2 1 103831 103800 1471 XOR\n2 1 63534 1471 63502 AND\n2 1 63502 1535 98165 XOR\n2 1 100213 98165 113016 XOR\n2 1 1471 1503 63470 XOR\n2 1 1471 1444 61160 XOR\n2 1 1470 1443 61159 XOR\n2 1 1469 1442 61158 XOR\n2 1 1465 1470 61154 XOR\n2 1 1464 1469 61153 XOR\n2 1 61160 1458 100207 XOR\n2 1 100207 98159 113010 XOR\n2 1 61159 1457 100206 XOR\n2 1 61158 1456 100205 XOR\n2 1 100205 98157 113008 XOR\n2 1 61154 1452 100201 XOR\n2 1 100201 98153 113004 XOR\n2 1 61153 1451 100200 XOR\n2 1 100200 98152 113003 XOR\n2 1 61141 1471 100188 XOR\n",
"2 1 100188 98140 112991 XOR\n2 1 61140 1470 100187 XOR\n2 1 100187 98139 112990 XOR\n2 1 61139 1469 100186 XOR\n2 1 100186 98138 112989 XOR\n2 1 100206 98158 113009 XOR\n2 1 103828 103797 1468 XOR\n2 1 63531 1468 63499 AND\n2 1 63499 1532 98162 XOR\n2 1 100210 98162 113013 XOR\n2 1 1468 1500 63467 XOR\n2 1 1468 1441 61157 XOR\n2 1 1463 1468 61152 XOR\n2 1 61157 1455 100204 XOR\n2 1 61152 1450 100199 XOR\n2 1 100199 98151 113002 XOR\n2 1 61138 1468 100185 XOR\n2 1 100185 98137 112988 XOR\n2 1 103822 103791 1462 XOR\n2 1 63525 1462 63493 AND\n2 1 63493 1526 98156 XOR\n2 1 100204 98156 113007 XOR\n2 1 1462 1494 63461 XOR\n2 1 1462 1467 61151 XOR\n2 1 1457 1462 61146 XOR\n2 1 61164 1462 100211 XOR\n2 1 100211 98163 113014 XOR\n2 1 61151 1449 100198 XOR\n2 1 100198 98150 113001 XOR\n2 1 61146 1444 100193 XOR\n2 1 100193 98145 112996 XOR\n2 1 103826 103795 1466 XOR\n2 1 63529 1466 63497 AND\n2 1 63497 1530 98160 XOR\n2 1 100208 98160 113011 XOR\n2 1 1466 1498 63465 XOR\n2 1 1466 1471 61155 XOR\n2 1 1461 1466 61150 XOR\n2 1 61155 1453 100202 XOR\n2 1 100202 98154 113005 XOR\n2 1 61150 1448 100197 XOR\n2 1 100197 98149 113000 XOR\n2 1 61136 1466 100183 XOR\n2 1 100183 112955 24062 XOR\n2 1 100183 98135 112986 XOR\n2 1 112986 112955 96087 XOR\n2 1 24062 24063 24061 AND\n2 1 24061 112955 112956 XOR\n2 1 112987 112956 96088 XOR\n2 1 100184 112956 24065 XOR\n2 1 98136 112956 24066 XOR\n2 1 24065 24066 24064 AND\n2 1 24064 112956 112957 XOR\n2 1 100185 112957 24068 XOR\n2 1 98137 112957 24069 XOR\n2 1 112988 112957 96089 XOR\n2 1 24068 24069 24067 AND\n2 1 24067 112957 112958 XOR\n2 1 100186 112958 24071 XOR\n2 1 98138 112958 24072 XOR\n2 1 24071 24072 24070 AND\n2 1 24070 112958 112959 XOR\n2 1 98139 112959 24075 XOR\n2 1 100187 112959 24074 XOR\n2 1 24074 24075 24073 AND\n2 1 112990 112959 96091 XOR\n2 1 24073 112959 112960 XOR\n2 1 100188 112960 24077 XOR\n2 1 112991 112960 96092 XOR\n2 1 98140 112960 24078 XOR\n2 1 24077 24078 24076 AND\n2 1 24076 112960 112961 XOR\n2 1 112992 112961 96093 XOR\n2 1 98141 112961 24081 XOR\n2 1 112989 112958 96090 XOR\n2 1 100189 112961 24080 XOR\n2 1 24080 24081 24079 AND\n2 1 24079 112961 112962 XOR\n2 1 98142 112962 24084 XOR\n2 1 100190 112962 24083 XOR\n2 1 24083 24084 24082 AND\n2 1 24082 112962 112963 XOR\n2 1 112994 112963 96095 XOR\n2 1 100191 112963 24086 XOR\n2 1 98143 112963 24087 XOR\n2 1 24086 24087 24085 AND\n2 1 24085 112963 112964 XOR\n2 1 112995 112964 96096 XOR\n2 1 98144 112964 24090 XOR\n2 1 100192 112964 24089 XOR\n2 1 24089 24090 24088 AND\n2 1 24088 112964 112965 XOR\n2 1 112996 112965 96097 XOR\n2 1 100193 112965 24092 XOR\n2 1 98145 112965 24093 XOR\n2 1 24092 24093 24091 AND\n2 1 24091 112965 112966 XOR\n2 1 100194 112966 24095 XOR\n2 1 112997 112966 96098 XOR\n2 1 98146 112966 24096 XOR\n2 1 24095 24096 24094 AND\n2 1 24094 112966 112967 XOR\n2 1 112998 112967 96099 XOR\n2 1 100195 112967 24098 XOR\n2 1 98147 112967 24099 XOR\n2 1 24098 24099 24097 AND\n2 1 24097 112967 112968 XOR\n2 1 100196 112968 24101 XOR\n2 1 98148 112968 24102 XOR\n2 1 112999 112968 96100 XOR\n2 1 24101 24102 24100 AND\n2 1 24100 112968 112969 XOR\n2 1 113000 112969 96101 XOR\n2 1 98149 112969 24105 XOR\n2 1 100197 112969 24104 XOR\n2 1 24104 24105 24103 AND\n2 1 24103 112969 112970 XOR\n2 1 98150 112970 24108 XOR\n2 1 100198 112970 24107 XOR\n2 1 24107 24108 24106 AND\n2 1 24106 112970 112971 XOR\n2 1 113001 112970 96102 XOR\n2 1 113002 112971 96103 XOR\n2 1 100199 112971 24110 XOR\n2 1 98151 112971 24111 XOR\n2 1 24110 24111 24109 AND\n2 1 24109 112971 112972 XOR\n2 1 113003 112972 96104 XOR\n",
"2 1 100200 112972 24113 XOR\n2 1 98152 112972 24114 XOR\n2 1 24113 24114 24112 AND\n2 1 24112 112972 112973 XOR\n2 1 113004 112973 96105 XOR\n2 1 100201 112973 24116 XOR\n2 1 98153 112973 24117 XOR\n2 1 24116 24117 24115 AND\n2 1 24115 112973 112974 XOR\n2 1 113005 112974 96106 XOR\n2 1 100202 112974 24119 XOR\n2 1 98154 112974 24120 XOR\n2 1 24119 24120 24118 AND\n2 1 24118 112974 112975 XOR\n2 1 113006 112975 96107 XOR\n2 1 100203 112975 24122 XOR\n2 1 98155 112975 24123 XOR\n2 1 24122 24123 24121 AND\n2 1 24121 112975 112976 XOR\n2 1 113007 112976 96108 XOR\n2 1 100204 112976 24125 XOR\n2 1 98156 112976 24126 XOR\n2 1 24125 24126 24124 AND\n2 1 24124 112976 112977 XOR\n2 1 113008 112977 96109 XOR\n2 1 98157 112977 24129 XOR\n2 1 100205 112977 24128 XOR\n2 1 24128 24129 24127 AND\n2 1 24127 112977 112978 XOR\n2 1 98158 112978 24132 XOR\n2 1 113009 112978 96110 XOR\n2 1 100206 112978 24131 XOR\n2 1 24131 24132 24130 AND\n2 1 24130 112978 112979 XOR\n2 1 100207 112979 24134 XOR\n2 1 113010 112979 96111 XOR\n2 1 98159 112979 24135 XOR\n2 1 24134 24135 24133 AND\n2 1 24133 112979 112980 XOR\n2 1 113011 112980 96112 XOR\n2 1 98160 112980 24138 XOR\n2 1 100208 112980 24137 XOR\n2 1 24137 24138 24136 AND\n2 1 24136 112980 112981 XOR\n2 1 100209 112981 24140 XOR\n2 1 113012 112981 96113 XOR\n2 1 98161 112981 24141 XOR\n2 1 24140 24141 24139 AND\n2 1 24139 112981 112982 XOR\n2 1 113013 112982 96114 XOR\n2 1 98162 112982 24144 XOR\n2 1 100210 112982 24143 XOR\n2 1 24143 24144 24142 AND\n2 1 24142 112982 112983 XOR\n2 1 100211 112983 24146 XOR\n2 1 113014 112983 96115 XOR\n2 1 98163 112983 24147 XOR\n2 1 24146 24147 24145 AND\n2 1 24145 112983 112984 XOR\n2 1 98164 112984 24150 XOR\n2 1 113015 112984 96116 XOR\n2 1 100212 112984 24149 XOR\n2 1 24149 24150 24148 AND\n2 1 24148 112984 112985 XOR\n2 1 113016 112985 96117 XOR\n2 1 100190 98142 112993 XOR\n2 1 112993 112962 96094 XOR\n2 1 76407 76418 82352 XOR\n2 1 82352 76464 128392 XOR\n2 1 76406 76417 82351 XOR\n2 1 82351 76463 128391 XOR\n2 1 76405 76416 82350 XOR\n2 1 82350 76462 128390 XOR\n2 1 76404 76415 5067 XOR\n2 1 76403 76414 5066 XOR\n2 1 76402 76413 5065 XOR\n2 1 76401 76412 5064 XOR\n2 1 76432 76411 5063 XOR\n2 1 76431 76410 5062 XOR\n2 1 76430 76409 5061 XOR\n2 1 76429 76408 5060 XOR\n2 1 76428 76407 5059 XOR\n2 1 76427 76406 5058 XOR\n2 1 76426 76405 5057 XOR\n2 1 76425 76404 5056 XOR\n2 1 76424 76403 5055 XOR\n2 1 76423 76402 5054 XOR\n2 1 76422 76401 5053 XOR\n2 1 76421 76432 5052 XOR\n2 1 76420 76431 5051 XOR\n2 1 76419 76430 5050 XOR\n2 1 76418 76429 5049 XOR\n2 1 76417 76428 5048 XOR\n2 1 76416 76427 5047 XOR\n2 1 76415 76426 5046 XOR\n2 1 76414 76425 5045 XOR\n2 1 76413 76424 5044 XOR\n2 1 76412 76423 5043 XOR\n2 1 76411 76422 5042 XOR\n2 1 76410 76421 5041 XOR\n2 1 76409 76420 5040 XOR\n2 1 76408 76419 5039 XOR\n2 1 5067 76432 82349 XOR\n2 1 82349 76461 128389 XOR\n2 1 5066 76431 82348 XOR\n2 1 82348 76460 128388 XOR\n2 1 5065 76430 82347 XOR\n2 1 82347 76459 128387 XOR\n2 1 5064 76429 82346 XOR\n2 1 82346 76458 128386 XOR\n2 1 5063 76428 82345 XOR\n2 1 82345 76457 128385 XOR\n2 1 5062 76427 82344 XOR\n2 1 82344 76456 128384 XOR\n2 1 5061 76426 82343 XOR\n2 1 82343 76455 128383 XOR\n2 1 5060 76425 82342 XOR\n2 1 82342 76454 128382 XOR\n2 1 5059 76424 82341 XOR\n2 1 82341 76453 128381 XOR\n2 1 5058 76423 82340 XOR\n2 1 82340 76452 128380 XOR\n2 1 5057 76422 82339 XOR\n2 1 82339 76451 128379 XOR\n2 1 5056 76421 82338 XOR\n2 1 82338 76450 128378 XOR\n2 1 5055 76420 82337 XOR\n2 1 82337 76449 128377 XOR\n",
"2 1 5054 76419 82336 XOR\n2 1 82336 76448 128376 XOR\n2 1 5053 76418 82335 XOR\n2 1 82335 76447 128375 XOR\n2 1 5052 76417 82334 XOR\n2 1 82334 76446 128374 XOR\n2 1 5051 76416 82333 XOR\n2 1 82333 76445 128373 XOR\n2 1 5050 76415 82332 XOR\n2 1 82332 76444 128372 XOR\n2 1 5049 76414 82331 XOR\n2 1 82331 76443 128371 XOR\n2 1 5048 76413 82330 XOR\n2 1 82330 76442 128370 XOR\n2 1 5047 76412 82329 XOR\n2 1 82329 76441 128369 XOR\n2 1 5046 76411 82328 XOR\n2 1 82328 76440 128368 XOR\n2 1 5045 76410 82327 XOR\n2 1 82327 76439 128367 XOR\n2 1 5044 76409 82326 XOR\n2 1 82326 76438 128366 XOR\n2 1 5043 76408 82325 XOR\n2 1 82325 76437 128365 XOR\n2 1 5042 76407 82324 XOR\n2 1 82324 76436 128364 XOR\n2 1 5041 76406 82323 XOR\n2 1 82323 76435 128363 XOR\n2 1 5040 76405 82322 XOR\n2 1 82322 76434 128362 XOR\n2 1 5039 76404 82321 XOR\n2 1 82321 76433 128331 AND\n2 1 76434 128331 50737 XOR\n2 1 82321 76433 77713 XOR\n2 1 79249 77713 128269 AND\n2 1 79249 77713 75921 XOR\n2 1 75921 1536 112893 AND\n2 1 79250 128269 50646 XOR\n2 1 1537 112893 23973 XOR\n2 1 75921 1536 94038 XOR\n2 1 96086 94038 90001 XOR\n2 1 1088 90001 103646 AND\n2 1 90001 83857 103708 AND\n2 1 83858 103708 9668 XOR\n2 1 90001 83857 960 XOR\n2 1 960 1024 69679 XOR\n2 1 69679 69647 69615 AND\n2 1 69615 1024 85873 XOR\n2 1 960 992 69551 XOR\n2 1 96086 94038 112831 AND\n2 1 96087 112831 23882 XOR\n2 1 1089 103646 9577 XOR\n2 1 1088 90001 1408 XOR\n2 1 63439 1408 63407 AND\n2 1 63407 1472 98102 XOR\n2 1 1408 1440 63375 XOR\n2 1 82322 128331 50736 XOR\n2 1 50736 50737 50735 AND\n2 1 50735 128331 128332 XOR\n2 1 128363 128332 77715 XOR\n2 1 79251 77715 128301 XOR\n2 1 76435 128332 50740 XOR\n2 1 82323 128332 50739 XOR\n2 1 50739 50740 50738 AND\n2 1 50738 128332 128333 XOR\n2 1 128364 128333 77716 XOR\n2 1 82324 128333 50742 XOR\n2 1 76436 128333 50743 XOR\n2 1 50742 50743 50741 AND\n2 1 50741 128333 128334 XOR\n2 1 82325 128334 50745 XOR\n2 1 128365 128334 77717 XOR\n2 1 79253 77717 128303 XOR\n2 1 76437 128334 50746 XOR\n2 1 50745 50746 50744 AND\n2 1 50744 128334 128335 XOR\n2 1 76438 128335 50749 XOR\n2 1 128366 128335 77718 XOR\n2 1 82326 128335 50748 XOR\n2 1 50748 50749 50747 AND\n2 1 50747 128335 128336 XOR\n2 1 128367 128336 77719 XOR\n2 1 82327 128336 50751 XOR\n2 1 76439 128336 50752 XOR\n2 1 50751 50752 50750 AND\n2 1 50750 128336 128337 XOR\n2 1 76440 128337 50755 XOR\n2 1 128368 128337 77720 XOR\n2 1 82328 128337 50754 XOR\n2 1 50754 50755 50753 AND\n2 1 50753 128337 128338 XOR\n2 1 128369 128338 77721 XOR\n2 1 82329 128338 50757 XOR\n2 1 79257 77721 128307 XOR\n2 1 76441 128338 50758 XOR\n2 1 50757 50758 50756 AND\n2 1 50756 128338 128339 XOR\n2 1 76442 128339 50761 XOR\n2 1 128370 128339 77722 XOR\n2 1 79258 77722 128308 XOR\n2 1 82330 128339 50760 XOR\n2 1 50760 50761 50759 AND\n2 1 50759 128339 128340 XOR\n2 1 128371 128340 77723 XOR\n2 1 82331 128340 50763 XOR\n2 1 79259 77723 128309 XOR\n2 1 79252 77716 128302 XOR\n2 1 76443 128340 50764 XOR\n2 1 50763 50764 50762 AND\n2 1 50762 128340 128341 XOR\n2 1 76444 128341 50767 XOR\n2 1 128372 128341 77724 XOR\n2 1 79260 77724 128310 XOR\n2 1 82332 128341 50766 XOR\n2 1 50766 50767 50765 AND\n2 1 50765 128341 128342 XOR\n2 1 128373 128342 77725 XOR\n2 1 79261 77725 128311 XOR\n2 1 76445 128342 50770 XOR\n2 1 82333 128342 50769 XOR\n2 1 50769 50770 50768 AND\n2 1 79256 77720 128306 XOR\n2 1 50768 128342 128343 XOR\n2 1 82334 128343 50772 XOR\n2 1 128374 128343 77726 XOR\n2 1 79262 77726 128312 XOR\n2 1 76446 128343 50773 XOR\n2 1 50772 50773 50771 AND\n",
"2 1 50771 128343 128344 XOR\n2 1 82335 128344 50775 XOR\n2 1 76447 128344 50776 XOR\n2 1 50775 50776 50774 AND\n2 1 128375 128344 77727 XOR\n2 1 79263 77727 128313 XOR\n2 1 50774 128344 128345 XOR\n2 1 82336 128345 50778 XOR\n2 1 128376 128345 77728 XOR\n2 1 76448 128345 50779 XOR\n2 1 50778 50779 50777 AND\n2 1 50777 128345 128346 XOR\n2 1 76449 128346 50782 XOR\n2 1 82337 128346 50781 XOR\n2 1 128377 128346 77729 XOR\n2 1 79265 77729 128315 XOR\n2 1 50781 50782 50780 AND\n2 1 50780 128346 128347 XOR\n2 1 76450 128347 50785 XOR\n2 1 128378 128347 77730 XOR\n2 1 79266 77730 128316 XOR\n2 1 82338 128347 50784 XOR\n2 1 50784 50785 50783 AND\n2 1 50783 128347 128348 XOR\n2 1 76451 128348 50788 XOR\n2 1 128379 128348 77731 XOR\n2 1 82339 128348 50787 XOR\n2 1 50787 50788 50786 AND\n2 1 50786 128348 128349 XOR\n2 1 128380 128349 77732 XOR\n2 1 82340 128349 50790 XOR\n2 1 76452 128349 50791 XOR\n2 1 50790 50791 50789 AND\n2 1 50789 128349 128350 XOR\n2 1 76453 128350 50794 XOR\n2 1 82341 128350 50793 XOR\n2 1 50793 50794 50792 AND\n2 1 50792 128350 128351 XOR\n2 1 128382 128351 77734 XOR\n2 1 82342 128351 50796 XOR\n2 1 76454 128351 50797 XOR\n2 1 50796 50797 50795 AND\n2 1 50795 128351 128352 XOR\n2 1 128383 128352 77735 XOR\n2 1 128381 128350 77733 XOR\n2 1 79269 77733 128319 XOR\n2 1 82343 128352 50799 XOR\n2 1 76455 128352 50800 XOR\n2 1 50799 50800 50798 AND\n2 1 50798 128352 128353 XOR\n2 1 128384 128353 77736 XOR\n2 1 79272 77736 128322 XOR\n2 1 76456 128353 50803 XOR\n2 1 82344 128353 50802 XOR\n2 1 50802 50803 50801 AND\n2 1 50801 128353 128354 XOR\n2 1 128385 128354 77737 XOR\n2 1 82345 128354 50805 XOR\n2 1 76457 128354 50806 XOR\n2 1 50805 50806 50804 AND\n2 1 50804 128354 128355 XOR\n2 1 79273 77737 128323 XOR\n2 1 76458 128355 50809 XOR\n2 1 128386 128355 77738 XOR\n2 1 82346 128355 50808 XOR\n2 1 50808 50809 50807 AND\n2 1 50807 128355 128356 XOR\n2 1 82347 128356 50811 XOR\n2 1 76459 128356 50812 XOR\n2 1 50811 50812 50810 AND\n2 1 50810 128356 128357 XOR\n2 1 82348 128357 50814 XOR\n2 1 128388 128357 77740 XOR\n2 1 76460 128357 50815 XOR\n2 1 128387 128356 77739 XOR\n2 1 79275 77739 128325 XOR\n2 1 50814 50815 50813 AND\n2 1 79274 77738 128324 XOR\n2 1 50813 128357 128358 XOR\n2 1 76461 128358 50818 XOR\n2 1 82349 128358 50817 XOR\n2 1 50817 50818 50816 AND\n2 1 50816 128358 128359 XOR\n2 1 128390 128359 77742 XOR\n2 1 79278 77742 128328 XOR\n2 1 76462 128359 50821 XOR\n2 1 128389 128358 77741 XOR\n2 1 79270 77734 128320 XOR\n2 1 79255 77719 128305 XOR\n2 1 79254 77718 128304 XOR\n2 1 79267 77731 128317 XOR\n2 1 79264 77728 128314 XOR\n2 1 79268 77732 128318 XOR\n2 1 79277 77741 128327 XOR\n2 1 79276 77740 128326 XOR\n2 1 82350 128359 50820 XOR\n2 1 50820 50821 50819 AND\n2 1 50819 128359 128360 XOR\n2 1 82351 128360 50823 XOR\n2 1 128391 128360 77743 XOR\n2 1 79279 77743 128329 XOR\n2 1 76463 128360 50824 XOR\n2 1 50823 50824 50822 AND\n2 1 50822 128360 128361 XOR\n2 1 128392 128361 77744 XOR\n2 1 79280 77744 128330 XOR\n2 1 79271 77735 128321 XOR\n2 1 128362 128331 77714 XOR\n2 1 77714 128269 50647 XOR\n2 1 50646 50647 50645 AND\n2 1 79250 77714 128300 XOR\n2 1 128300 128269 75922 XOR\n2 1 75922 1537 112924 XOR\n2 1 112924 112893 94039 XOR\n2 1 96087 94039 112862 XOR\n2 1 94039 112831 23883 XOR\n2 1 112862 112831 92038 XOR\n1 1 92038 90002 INV\n2 1 90002 83858 103739 XOR\n2 1 90002 103646 9578 XOR\n2 1 90002 103708 9667 XOR\n2 1 9667 9668 9666 AND\n2 1 9666 103708 103709 XOR\n2 1 83859 103709 9671 XOR\n2 1 75922 112893 23972 XOR\n2 1 23972 23973 23971 AND\n2 1 23971 112893 112894 XOR\n2 1 1538 112894 23976 XOR\n",
"2 1 103739 103708 961 XOR\n2 1 961 1025 69680 XOR\n2 1 69680 69648 69616 AND\n2 1 69616 1025 85874 XOR\n2 1 961 993 69552 XOR\n2 1 1089 90002 103677 XOR\n2 1 103677 103646 1409 XOR\n2 1 63440 1409 63408 AND\n2 1 63408 1473 98103 XOR\n2 1 1409 1441 63376 XOR\n2 1 9577 9578 9576 AND\n2 1 9576 103646 103647 XOR\n2 1 1090 103647 9580 XOR\n2 1 50645 128269 128270 XOR\n2 1 23882 23883 23881 AND\n2 1 23881 112831 112832 XOR\n2 1 96088 112832 23885 XOR\n2 1 79251 128270 50649 XOR\n2 1 128301 128270 75923 XOR\n2 1 75923 1538 112925 XOR\n2 1 112925 112894 94040 XOR\n2 1 96088 94040 112863 XOR\n2 1 75923 112894 23975 XOR\n2 1 23975 23976 23974 AND\n2 1 23974 112894 112895 XOR\n2 1 1539 112895 23979 XOR\n2 1 75921 75923 6303 XOR\n2 1 94040 112832 23886 XOR\n2 1 23885 23886 23884 AND\n2 1 23884 112832 112833 XOR\n2 1 96089 112833 23888 XOR\n2 1 112863 112832 92039 XOR\n2 1 92039 92038 90003 XOR\n2 1 90003 92038 23796 AND\n2 1 90003 83859 103740 XOR\n2 1 90003 103709 9670 XOR\n2 1 9670 9671 9669 AND\n2 1 9669 103709 103710 XOR\n2 1 83860 103710 9674 XOR\n2 1 103740 103709 962 XOR\n2 1 962 1026 69681 XOR\n2 1 69681 69649 69617 AND\n2 1 69617 1026 85875 XOR\n2 1 962 994 69553 XOR\n2 1 23796 92038 112816 XOR\n1 1 112816 23799 INV\n2 1 1090 90003 103678 XOR\n2 1 103678 103647 1410 XOR\n2 1 63441 1410 63409 AND\n2 1 63409 1474 98104 XOR\n2 1 1410 1442 63377 XOR\n2 1 90003 103647 9581 XOR\n2 1 77715 128270 50650 XOR\n2 1 50649 50650 50648 AND\n2 1 50648 128270 128271 XOR\n2 1 128302 128271 75924 XOR\n2 1 75924 1539 112926 XOR\n2 1 112926 112895 94041 XOR\n2 1 96089 94041 112864 XOR\n2 1 112864 112833 92040 XOR\n2 1 92040 112816 23798 XOR\n2 1 23798 23799 23797 AND\n2 1 23797 112816 23801 XOR\n1 1 92040 23867 INV\n2 1 23867 112816 90004 XOR\n2 1 90004 83860 103741 XOR\n2 1 90004 103710 9673 XOR\n2 1 9673 9674 9672 AND\n2 1 9672 103710 103711 XOR\n2 1 103741 103710 963 XOR\n2 1 963 1027 69682 XOR\n2 1 69682 69650 69618 AND\n2 1 69618 1027 85876 XOR\n2 1 963 995 69554 XOR\n2 1 75924 112895 23978 XOR\n2 1 23978 23979 23977 AND\n2 1 23977 112895 112896 XOR\n2 1 1540 112896 23982 XOR\n2 1 79252 128271 50652 XOR\n2 1 1091 90004 103679 XOR\n2 1 83861 103711 9677 XOR\n2 1 75922 75924 6304 XOR\n2 1 77716 128271 50653 XOR\n2 1 50652 50653 50651 AND\n2 1 50651 128271 128272 XOR\n2 1 77717 128272 50656 XOR\n2 1 128303 128272 75925 XOR\n2 1 75925 112896 23981 XOR\n2 1 23981 23982 23980 AND\n2 1 23980 112896 112897 XOR\n2 1 1541 112897 23985 XOR\n2 1 75925 1540 112927 XOR\n2 1 112927 112896 94042 XOR\n2 1 96090 94042 112865 XOR\n2 1 75923 75925 6305 XOR\n2 1 94041 112833 23889 XOR\n2 1 23888 23889 23887 AND\n2 1 23887 112833 112834 XOR\n2 1 94042 112834 23892 XOR\n2 1 112865 112834 92041 XOR\n2 1 92041 23801 90005 XOR\n2 1 90005 23801 23800 AND\n2 1 90005 103711 9676 XOR\n2 1 1092 90005 103680 XOR\n2 1 90005 83861 103742 XOR\n2 1 103742 103711 964 XOR\n2 1 964 1028 69683 XOR\n2 1 69683 69651 69619 AND\n2 1 69619 1028 85877 XOR\n2 1 964 996 69555 XOR\n2 1 23800 23801 23803 XOR\n2 1 96090 112834 23891 XOR\n2 1 23891 23892 23890 AND\n2 1 23890 112834 112835 XOR\n2 1 96091 112835 23894 XOR\n2 1 9676 9677 9675 AND\n2 1 9675 103711 103712 XOR\n2 1 83862 103712 9680 XOR\n2 1 79253 128272 50655 XOR\n2 1 50655 50656 50654 AND\n2 1 50654 128272 128273 XOR\n2 1 128304 128273 75926 XOR\n2 1 75926 112897 23984 XOR\n2 1 23984 23985 23983 AND\n2 1 23983 112897 112898 XOR\n2 1 1542 112898 23988 XOR\n2 1 75926 1541 112928 XOR\n2 1 112928 112897 94043 XOR\n",
"2 1 94043 112835 23895 XOR\n2 1 96091 94043 112866 XOR\n2 1 23894 23895 23893 AND\n2 1 23893 112835 112836 XOR\n2 1 96092 112836 23897 XOR\n2 1 112866 112835 92042 XOR\n2 1 92042 23803 90006 XOR\n2 1 90006 23803 23802 AND\n2 1 23802 23803 112817 XOR\n1 1 112817 23806 INV\n2 1 90006 83862 103743 XOR\n2 1 103743 103712 965 XOR\n2 1 965 1029 69684 XOR\n2 1 69684 69652 69620 AND\n2 1 69620 1029 85878 XOR\n2 1 965 997 69556 XOR\n2 1 90006 103712 9679 XOR\n2 1 9679 9680 9678 AND\n2 1 9678 103712 103713 XOR\n2 1 1093 90006 103681 XOR\n2 1 83863 103713 9683 XOR\n2 1 79254 128273 50658 XOR\n2 1 75924 75926 6306 XOR\n2 1 77718 128273 50659 XOR\n2 1 50658 50659 50657 AND\n2 1 50657 128273 128274 XOR\n2 1 128305 128274 75927 XOR\n2 1 75927 1542 112929 XOR\n2 1 112929 112898 94044 XOR\n2 1 75927 112898 23987 XOR\n2 1 23987 23988 23986 AND\n2 1 23986 112898 112899 XOR\n2 1 1543 112899 23991 XOR\n2 1 94044 112836 23898 XOR\n2 1 96092 94044 112867 XOR\n2 1 112867 112836 92043 XOR\n2 1 23897 23898 23896 AND\n2 1 23896 112836 112837 XOR\n1 1 92043 23868 INV\n2 1 79255 128274 50661 XOR\n2 1 96093 112837 23900 XOR\n2 1 92043 112817 23805 XOR\n2 1 23805 23806 23804 AND\n2 1 23868 112817 90007 XOR\n2 1 90007 83863 103744 XOR\n2 1 23804 112817 23808 XOR\n2 1 1094 90007 103682 XOR\n2 1 103744 103713 966 XOR\n2 1 966 1030 69685 XOR\n2 1 69685 69653 69621 AND\n2 1 69621 1030 85879 XOR\n2 1 966 998 69557 XOR\n2 1 90007 103713 9682 XOR\n2 1 75925 75927 6307 XOR\n2 1 77719 128274 50662 XOR\n2 1 50661 50662 50660 AND\n2 1 50660 128274 128275 XOR\n2 1 79256 128275 50664 XOR\n2 1 77720 128275 50665 XOR\n2 1 50664 50665 50663 AND\n2 1 50663 128275 128276 XOR\n2 1 77721 128276 50668 XOR\n2 1 79257 128276 50667 XOR\n2 1 50667 50668 50666 AND\n2 1 128307 128276 75929 XOR\n2 1 75929 1544 112931 XOR\n2 1 75927 75929 6309 XOR\n2 1 128306 128275 75928 XOR\n2 1 75928 1543 112930 XOR\n2 1 112930 112899 94045 XOR\n2 1 96093 94045 112868 XOR\n2 1 75928 112899 23990 XOR\n2 1 23990 23991 23989 AND\n2 1 23989 112899 112900 XOR\n2 1 112931 112900 94046 XOR\n2 1 96094 94046 112869 XOR\n2 1 75929 112900 23993 XOR\n2 1 1544 112900 23994 XOR\n2 1 23993 23994 23992 AND\n2 1 23992 112900 112901 XOR\n2 1 1545 112901 23997 XOR\n2 1 112868 112837 92044 XOR\n2 1 92044 23808 90008 XOR\n2 1 90008 23808 23807 AND\n2 1 23807 23808 23810 XOR\n2 1 90008 83864 103745 XOR\n2 1 1095 90008 103683 XOR\n2 1 94045 112837 23901 XOR\n2 1 23900 23901 23899 AND\n2 1 23899 112837 112838 XOR\n2 1 94046 112838 23904 XOR\n2 1 112869 112838 92045 XOR\n2 1 92045 23810 90009 XOR\n2 1 90009 23810 23809 AND\n2 1 90009 83865 103746 XOR\n2 1 23809 23810 112818 XOR\n1 1 112818 23813 INV\n2 1 1096 90009 103684 XOR\n2 1 75926 75928 6308 XOR\n2 1 96094 112838 23903 XOR\n2 1 23903 23904 23902 AND\n2 1 23902 112838 112839 XOR\n2 1 96095 112839 23906 XOR\n2 1 9682 9683 9681 AND\n2 1 9681 103713 103714 XOR\n2 1 103745 103714 967 XOR\n2 1 967 1031 69686 XOR\n2 1 69686 69654 69622 AND\n2 1 69622 1031 85880 XOR\n2 1 967 999 69558 XOR\n2 1 90008 103714 9685 XOR\n2 1 83864 103714 9686 XOR\n2 1 9685 9686 9684 AND\n2 1 9684 103714 103715 XOR\n2 1 83865 103715 9689 XOR\n2 1 90009 103715 9688 XOR\n2 1 9688 9689 9687 AND\n2 1 9687 103715 103716 XOR\n2 1 103746 103715 968 XOR\n2 1 968 1032 69687 XOR\n2 1 69687 69655 69623 AND\n2 1 69623 1032 85881 XOR\n2 1 968 1000 69559 XOR\n2 1 83866 103716 9692 XOR\n2 1 9580 9581 9579 AND\n2 1 9579 103647 103648 XOR\n2 1 103679 103648 1411 XOR\n2 1 90004 103648 9584 XOR\n"]

end Verif.Data
