/-!
# Text of `data/circ/sha256.txt`, part 3 of 11

Generated by `tools/gen_circuits.py`.
-/

namespace Verif.Data

/-- Lines 24581-36868 of `data/circ/sha256.txt`, 128 per string. -/
def shaBlocks02 : List String := [
"2 1 3698 3703 62363 XOR\n2 1 3697 3702 62362 XOR\n2 1 3696 3701 62361 XOR\n2 1 3695 3700 62360 XOR\n2 1 3694 3699 62359 XOR\n2 1 3693 3698 62358 XOR\n2 1 3692 3697 62357 XOR\n2 1 3691 3696 62356 XOR\n2 1 3690 3695 62355 XOR\n2 1 3689 3694 62354 XOR\n2 1 3688 3693 62353 XOR\n2 1 3687 3692 62352 XOR\n2 1 3686 3691 62351 XOR\n2 1 62382 3704 101429 XOR\n2 1 101429 99381 122679 XOR\n2 1 62381 3703 101428 XOR\n2 1 101428 99380 122678 XOR\n2 1 62380 3702 101427 XOR\n2 1 101427 99379 122677 XOR\n2 1 62379 3701 101426 XOR\n2 1 101426 99378 122676 XOR\n2 1 62378 3700 101425 XOR\n2 1 101425 99377 122675 XOR\n2 1 62377 3699 101424 XOR\n2 1 101424 99376 122674 XOR\n2 1 62376 3698 101423 XOR\n2 1 101423 99375 122673 XOR\n2 1 62375 3697 101422 XOR\n2 1 101422 99374 122672 XOR\n2 1 62374 3696 101421 XOR\n2 1 101421 99373 122671 XOR\n2 1 62373 3695 101420 XOR\n2 1 101420 99372 122670 XOR\n2 1 62372 3694 101419 XOR\n2 1 101419 99371 122669 XOR\n2 1 62371 3693 101418 XOR\n2 1 101418 99370 122668 XOR\n2 1 62370 3692 101417 XOR\n2 1 101417 99369 122667 XOR\n2 1 62369 3691 101416 XOR\n2 1 101416 99368 122666 XOR\n2 1 62368 3690 101415 XOR\n2 1 101415 99367 122665 XOR\n2 1 62367 3689 101414 XOR\n2 1 101414 99366 122664 XOR\n2 1 62366 3688 101413 XOR\n2 1 101413 99365 122663 XOR\n2 1 62365 3687 101412 XOR\n2 1 101412 99364 122662 XOR\n2 1 62364 3686 101411 XOR\n2 1 101411 99363 122661 XOR\n2 1 62363 3685 101410 XOR\n2 1 101410 99362 122660 XOR\n2 1 62362 3684 101409 XOR\n2 1 101409 99361 122659 XOR\n2 1 62361 3683 101408 XOR\n2 1 101408 99360 122658 XOR\n2 1 62360 3682 101407 XOR\n2 1 101407 99359 122657 XOR\n2 1 62359 3681 101406 XOR\n2 1 101406 99358 122656 XOR\n2 1 62358 3680 101405 XOR\n2 1 101405 99357 122655 XOR\n2 1 62357 3711 101404 XOR\n2 1 101404 99356 122654 XOR\n2 1 62356 3710 101403 XOR\n2 1 101403 99355 122653 XOR\n2 1 62355 3709 101402 XOR\n2 1 101402 99354 122652 XOR\n2 1 62354 3708 101401 XOR\n2 1 101401 99353 122651 XOR\n2 1 62353 3707 101400 XOR\n2 1 101400 99352 122650 XOR\n2 1 62352 3706 101399 XOR\n2 1 101399 99351 122649 XOR\n2 1 62351 3705 101398 XOR\n2 1 101398 99350 122618 AND\n2 1 101398 99350 97302 XOR\n2 1 97302 95254 122494 AND\n2 1 97302 95254 91217 XOR\n2 1 95255 122494 41061 XOR\n2 1 4224 91217 3648 XOR\n2 1 4224 91217 108358 AND\n2 1 4225 108358 16417 XOR\n2 1 122649 122618 97303 XOR\n2 1 97303 95255 122525 XOR\n2 1 122525 122494 91218 XOR\n2 1 97303 122494 41060 XOR\n2 1 41060 41061 41059 AND\n2 1 41059 122494 122495 XOR\n2 1 95256 122495 41064 XOR\n2 1 4225 91218 108389 XOR\n2 1 108389 108358 3649 XOR\n2 1 101399 122618 41240 XOR\n2 1 99351 122618 41241 XOR\n2 1 41240 41241 41239 AND\n2 1 41239 122618 122619 XOR\n2 1 122650 122619 97304 XOR\n2 1 97304 95256 122526 XOR\n2 1 122526 122495 93217 XOR\n1 1 93217 91219 INV\n2 1 97304 122495 41063 XOR\n2 1 41063 41064 41062 AND\n2 1 41062 122495 122496 XOR\n2 1 95257 122496 41067 XOR\n2 1 4226 91219 108390 XOR\n2 1 101400 122619 41243 XOR\n2 1 99352 122619 41244 XOR\n2 1 41243 41244 41242 AND\n2 1 41242 122619 122620 XOR\n2 1 122651 122620 97305 XOR\n2 1 97305 95257 122527 XOR\n2 1 122527 122496 93218 XOR\n2 1 93218 93217 91220 XOR\n2 1 91220 93217 40973 AND\n2 1 40973 93217 122478 XOR\n1 1 122478 40976 INV\n2 1 97305 122496 41066 XOR\n2 1 41066 41067 41065 AND\n2 1 41065 122496 122497 XOR\n2 1 95258 122497 41070 XOR\n2 1 101401 122620 41246 XOR\n2 1 99353 122620 41247 XOR\n2 1 41246 41247 41245 AND\n2 1 41245 122620 122621 XOR\n2 1 122652 122621 97306 XOR\n2 1 97306 95258 122528 XOR\n2 1 122528 122497 93219 XOR\n",
"1 1 93219 41043 INV\n2 1 41043 122478 91221 XOR\n2 1 93219 122478 40975 XOR\n2 1 40975 40976 40974 AND\n2 1 40974 122478 122479 XOR\n1 1 122479 40979 INV\n2 1 97306 122497 41069 XOR\n2 1 41069 41070 41068 AND\n2 1 41068 122497 122498 XOR\n2 1 95259 122498 41073 XOR\n2 1 101402 122621 41249 XOR\n2 1 99354 122621 41250 XOR\n2 1 41249 41250 41248 AND\n2 1 41248 122621 122622 XOR\n2 1 122653 122622 97307 XOR\n2 1 97307 95259 122529 XOR\n2 1 122529 122498 93220 XOR\n1 1 93220 41044 INV\n2 1 41044 122479 91222 XOR\n2 1 93220 122479 40978 XOR\n2 1 40978 40979 40977 AND\n2 1 40977 122479 122480 XOR\n1 1 122480 40982 INV\n2 1 97307 122498 41072 XOR\n2 1 41072 41073 41071 AND\n2 1 41071 122498 122499 XOR\n2 1 95260 122499 41076 XOR\n2 1 101403 122622 41252 XOR\n2 1 99355 122622 41253 XOR\n2 1 41252 41253 41251 AND\n2 1 41251 122622 122623 XOR\n2 1 122654 122623 97308 XOR\n2 1 97308 95260 122530 XOR\n2 1 122530 122499 93221 XOR\n1 1 93221 41045 INV\n2 1 41045 122480 91223 XOR\n2 1 93221 122480 40981 XOR\n2 1 40981 40982 40980 AND\n2 1 40980 122480 40984 XOR\n2 1 97308 122499 41075 XOR\n2 1 41075 41076 41074 AND\n2 1 41074 122499 122500 XOR\n2 1 95261 122500 41079 XOR\n2 1 101404 122623 41255 XOR\n2 1 99356 122623 41256 XOR\n2 1 41255 41256 41254 AND\n2 1 41254 122623 122624 XOR\n2 1 122655 122624 97309 XOR\n2 1 97309 95261 122531 XOR\n2 1 122531 122500 93222 XOR\n2 1 93222 40984 91224 XOR\n2 1 91224 40984 40983 AND\n2 1 40983 40984 122481 XOR\n1 1 122481 40987 INV\n2 1 97309 122500 41078 XOR\n2 1 41078 41079 41077 AND\n2 1 41077 122500 122501 XOR\n2 1 95262 122501 41082 XOR\n2 1 101405 122624 41258 XOR\n2 1 99357 122624 41259 XOR\n2 1 41258 41259 41257 AND\n2 1 41257 122624 122625 XOR\n2 1 122656 122625 97310 XOR\n2 1 97310 95262 122532 XOR\n2 1 122532 122501 93223 XOR\n1 1 93223 41046 INV\n2 1 41046 122481 91225 XOR\n2 1 93223 122481 40986 XOR\n2 1 40986 40987 40985 AND\n2 1 40985 122481 40989 XOR\n2 1 97310 122501 41081 XOR\n2 1 41081 41082 41080 AND\n2 1 41080 122501 122502 XOR\n2 1 95263 122502 41085 XOR\n2 1 101406 122625 41261 XOR\n2 1 99358 122625 41262 XOR\n2 1 41261 41262 41260 AND\n2 1 41260 122625 122626 XOR\n2 1 122657 122626 97311 XOR\n2 1 97311 95263 122533 XOR\n2 1 122533 122502 93224 XOR\n2 1 93224 40989 91226 XOR\n2 1 91226 40989 40988 AND\n2 1 40988 40989 40991 XOR\n2 1 97311 122502 41084 XOR\n2 1 41084 41085 41083 AND\n2 1 41083 122502 122503 XOR\n2 1 95264 122503 41088 XOR\n2 1 101407 122626 41264 XOR\n2 1 99359 122626 41265 XOR\n2 1 41264 41265 41263 AND\n2 1 41263 122626 122627 XOR\n2 1 122658 122627 97312 XOR\n2 1 97312 95264 122534 XOR\n2 1 122534 122503 93225 XOR\n2 1 93225 40991 91227 XOR\n2 1 91227 40991 40990 AND\n2 1 40990 40991 40993 XOR\n2 1 97312 122503 41087 XOR\n2 1 41087 41088 41086 AND\n2 1 41086 122503 122504 XOR\n2 1 95265 122504 41091 XOR\n2 1 101408 122627 41267 XOR\n2 1 99360 122627 41268 XOR\n2 1 41267 41268 41266 AND\n2 1 41266 122627 122628 XOR\n2 1 122659 122628 97313 XOR\n2 1 97313 95265 122535 XOR\n2 1 122535 122504 93226 XOR\n2 1 93226 40993 91228 XOR\n2 1 91228 40993 40992 AND\n2 1 40992 40993 122482 XOR\n1 1 122482 40996 INV\n2 1 97313 122504 41090 XOR\n2 1 41090 41091 41089 AND\n2 1 41089 122504 122505 XOR\n2 1 95266 122505 41094 XOR\n2 1 101409 122628 41270 XOR\n2 1 99361 122628 41271 XOR\n2 1 41270 41271 41269 AND\n2 1 41269 122628 122629 XOR\n2 1 122660 122629 97314 XOR\n2 1 97314 95266 122536 XOR\n2 1 122536 122505 93227 XOR\n1 1 93227 41047 INV\n2 1 41047 122482 91229 XOR\n2 1 93227 122482 40995 XOR\n2 1 40995 40996 40994 AND\n",
"2 1 40994 122482 122483 XOR\n1 1 122483 40999 INV\n2 1 97314 122505 41093 XOR\n2 1 41093 41094 41092 AND\n2 1 41092 122505 122506 XOR\n2 1 95267 122506 41097 XOR\n2 1 101410 122629 41273 XOR\n2 1 99362 122629 41274 XOR\n2 1 41273 41274 41272 AND\n2 1 41272 122629 122630 XOR\n2 1 122661 122630 97315 XOR\n2 1 97315 95267 122537 XOR\n2 1 122537 122506 93228 XOR\n1 1 93228 41048 INV\n2 1 41048 122483 91230 XOR\n2 1 93228 122483 40998 XOR\n2 1 40998 40999 40997 AND\n2 1 40997 122483 122484 XOR\n1 1 122484 41002 INV\n2 1 97315 122506 41096 XOR\n2 1 41096 41097 41095 AND\n2 1 41095 122506 122507 XOR\n2 1 95268 122507 41100 XOR\n2 1 101411 122630 41276 XOR\n2 1 99363 122630 41277 XOR\n2 1 41276 41277 41275 AND\n2 1 41275 122630 122631 XOR\n2 1 122662 122631 97316 XOR\n2 1 97316 95268 122538 XOR\n2 1 122538 122507 93229 XOR\n1 1 93229 41049 INV\n2 1 41049 122484 91231 XOR\n2 1 93229 122484 41001 XOR\n2 1 41001 41002 41000 AND\n2 1 41000 122484 122485 XOR\n1 1 122485 41005 INV\n2 1 97316 122507 41099 XOR\n2 1 41099 41100 41098 AND\n2 1 41098 122507 122508 XOR\n2 1 95269 122508 41103 XOR\n2 1 101412 122631 41279 XOR\n2 1 99364 122631 41280 XOR\n2 1 41279 41280 41278 AND\n2 1 41278 122631 122632 XOR\n2 1 122663 122632 97317 XOR\n2 1 97317 95269 122539 XOR\n2 1 122539 122508 93230 XOR\n1 1 93230 41050 INV\n2 1 41050 122485 91232 XOR\n2 1 93230 122485 41004 XOR\n2 1 41004 41005 41003 AND\n2 1 41003 122485 122486 XOR\n1 1 122486 41008 INV\n2 1 97317 122508 41102 XOR\n2 1 41102 41103 41101 AND\n2 1 41101 122508 122509 XOR\n2 1 95270 122509 41106 XOR\n2 1 101413 122632 41282 XOR\n2 1 99365 122632 41283 XOR\n2 1 41282 41283 41281 AND\n2 1 41281 122632 122633 XOR\n2 1 122664 122633 97318 XOR\n2 1 97318 95270 122540 XOR\n2 1 122540 122509 93231 XOR\n1 1 93231 41051 INV\n2 1 41051 122486 91233 XOR\n2 1 93231 122486 41007 XOR\n2 1 41007 41008 41006 AND\n2 1 41006 122486 122487 XOR\n1 1 122487 41011 INV\n2 1 97318 122509 41105 XOR\n2 1 41105 41106 41104 AND\n2 1 41104 122509 122510 XOR\n2 1 95271 122510 41109 XOR\n2 1 101414 122633 41285 XOR\n2 1 99366 122633 41286 XOR\n2 1 41285 41286 41284 AND\n2 1 41284 122633 122634 XOR\n2 1 122665 122634 97319 XOR\n2 1 97319 95271 122541 XOR\n2 1 122541 122510 93232 XOR\n1 1 93232 41052 INV\n2 1 41052 122487 91234 XOR\n2 1 93232 122487 41010 XOR\n2 1 41010 41011 41009 AND\n2 1 41009 122487 41013 XOR\n2 1 97319 122510 41108 XOR\n2 1 41108 41109 41107 AND\n2 1 41107 122510 122511 XOR\n2 1 95272 122511 41112 XOR\n2 1 101415 122634 41288 XOR\n2 1 99367 122634 41289 XOR\n2 1 41288 41289 41287 AND\n2 1 41287 122634 122635 XOR\n2 1 122666 122635 97320 XOR\n2 1 97320 95272 122542 XOR\n2 1 122542 122511 93233 XOR\n2 1 93233 41013 91235 XOR\n2 1 91235 41013 41012 AND\n2 1 41012 41013 122488 XOR\n1 1 122488 41016 INV\n2 1 97320 122511 41111 XOR\n2 1 41111 41112 41110 AND\n2 1 41110 122511 122512 XOR\n2 1 95273 122512 41115 XOR\n2 1 101416 122635 41291 XOR\n2 1 99368 122635 41292 XOR\n2 1 41291 41292 41290 AND\n2 1 41290 122635 122636 XOR\n2 1 122667 122636 97321 XOR\n2 1 97321 95273 122543 XOR\n2 1 122543 122512 93234 XOR\n1 1 93234 41053 INV\n2 1 41053 122488 91236 XOR\n2 1 93234 122488 41015 XOR\n2 1 41015 41016 41014 AND\n2 1 41014 122488 122489 XOR\n1 1 122489 41019 INV\n2 1 97321 122512 41114 XOR\n2 1 41114 41115 41113 AND\n2 1 41113 122512 122513 XOR\n2 1 95274 122513 41118 XOR\n2 1 91236 85092 108469 XOR\n2 1 101417 122636 41294 XOR\n2 1 99369 122636 41295 XOR\n2 1 41294 41295 41293 AND\n2 1 41293 122636 122637 XOR\n2 1 122668 122637 97322 XOR\n",
"2 1 97322 95274 122544 XOR\n2 1 122544 122513 93235 XOR\n1 1 93235 41054 INV\n2 1 41054 122489 91237 XOR\n2 1 93235 122489 41018 XOR\n2 1 41018 41019 41017 AND\n2 1 41017 122489 41021 XOR\n2 1 97322 122513 41117 XOR\n2 1 41117 41118 41116 AND\n2 1 41116 122513 122514 XOR\n2 1 95275 122514 41121 XOR\n2 1 91237 85093 108470 XOR\n2 1 101418 122637 41297 XOR\n2 1 99370 122637 41298 XOR\n2 1 41297 41298 41296 AND\n2 1 41296 122637 122638 XOR\n2 1 122669 122638 97323 XOR\n2 1 97323 95275 122545 XOR\n2 1 122545 122514 93236 XOR\n2 1 93236 41021 91238 XOR\n2 1 91238 41021 41020 AND\n2 1 41020 41021 41023 XOR\n2 1 97323 122514 41120 XOR\n2 1 41120 41121 41119 AND\n2 1 41119 122514 122515 XOR\n2 1 95276 122515 41124 XOR\n2 1 91238 85094 108471 XOR\n2 1 101419 122638 41300 XOR\n2 1 99371 122638 41301 XOR\n2 1 41300 41301 41299 AND\n2 1 41299 122638 122639 XOR\n2 1 122670 122639 97324 XOR\n2 1 97324 95276 122546 XOR\n2 1 122546 122515 93237 XOR\n2 1 93237 41023 91239 XOR\n2 1 91239 41023 41022 AND\n2 1 41022 41023 122490 XOR\n1 1 122490 41026 INV\n2 1 97324 122515 41123 XOR\n2 1 41123 41124 41122 AND\n2 1 41122 122515 122516 XOR\n2 1 95277 122516 41127 XOR\n2 1 91239 85095 108472 XOR\n2 1 101420 122639 41303 XOR\n2 1 99372 122639 41304 XOR\n2 1 41303 41304 41302 AND\n2 1 41302 122639 122640 XOR\n2 1 122671 122640 97325 XOR\n2 1 97325 95277 122547 XOR\n2 1 122547 122516 93238 XOR\n1 1 93238 41055 INV\n2 1 41055 122490 91240 XOR\n2 1 93238 122490 41025 XOR\n2 1 41025 41026 41024 AND\n2 1 41024 122490 122491 XOR\n1 1 122491 41029 INV\n2 1 97325 122516 41126 XOR\n2 1 41126 41127 41125 AND\n2 1 41125 122516 122517 XOR\n2 1 95278 122517 41130 XOR\n2 1 91240 85096 108473 XOR\n2 1 101421 122640 41306 XOR\n2 1 99373 122640 41307 XOR\n2 1 41306 41307 41305 AND\n2 1 41305 122640 122641 XOR\n2 1 122672 122641 97326 XOR\n2 1 97326 95278 122548 XOR\n2 1 122548 122517 93239 XOR\n1 1 93239 41056 INV\n2 1 41056 122491 91241 XOR\n2 1 93239 122491 41028 XOR\n2 1 41028 41029 41027 AND\n2 1 41027 122491 41031 XOR\n2 1 97326 122517 41129 XOR\n2 1 41129 41130 41128 AND\n2 1 41128 122517 122518 XOR\n2 1 95279 122518 41133 XOR\n2 1 91241 85097 108474 XOR\n2 1 101422 122641 41309 XOR\n2 1 99374 122641 41310 XOR\n2 1 41309 41310 41308 AND\n2 1 41308 122641 122642 XOR\n2 1 122673 122642 97327 XOR\n2 1 97327 95279 122549 XOR\n2 1 122549 122518 93240 XOR\n2 1 93240 41031 91242 XOR\n2 1 91242 41031 41030 AND\n2 1 41030 41031 41033 XOR\n2 1 97327 122518 41132 XOR\n2 1 41132 41133 41131 AND\n2 1 41131 122518 122519 XOR\n2 1 95280 122519 41136 XOR\n2 1 101423 122642 41312 XOR\n2 1 99375 122642 41313 XOR\n2 1 41312 41313 41311 AND\n2 1 41311 122642 122643 XOR\n2 1 122674 122643 97328 XOR\n2 1 97328 95280 122550 XOR\n2 1 122550 122519 93241 XOR\n2 1 93241 41033 91243 XOR\n2 1 91243 41033 41032 AND\n2 1 41032 41033 41035 XOR\n2 1 97328 122519 41135 XOR\n2 1 41135 41136 41134 AND\n2 1 41134 122519 122520 XOR\n2 1 95281 122520 41139 XOR\n2 1 101424 122643 41315 XOR\n2 1 99376 122643 41316 XOR\n2 1 41315 41316 41314 AND\n2 1 41314 122643 122644 XOR\n2 1 122675 122644 97329 XOR\n2 1 97329 95281 122551 XOR\n2 1 122551 122520 93242 XOR\n2 1 93242 41035 91244 XOR\n2 1 91244 41035 41034 AND\n2 1 41034 41035 41037 XOR\n2 1 97329 122520 41138 XOR\n2 1 41138 41139 41137 AND\n2 1 41137 122520 122521 XOR\n2 1 95282 122521 41142 XOR\n2 1 101425 122644 41318 XOR\n2 1 99377 122644 41319 XOR\n2 1 41318 41319 41317 AND\n2 1 41317 122644 122645 XOR\n2 1 122676 122645 97330 XOR\n2 1 97330 95282 122552 XOR\n2 1 122552 122521 93243 XOR\n2 1 93243 41037 91245 XOR\n",
"2 1 91245 41037 41036 AND\n2 1 41036 41037 41039 XOR\n2 1 97330 122521 41141 XOR\n2 1 41141 41142 41140 AND\n2 1 41140 122521 122522 XOR\n2 1 95283 122522 41145 XOR\n2 1 101426 122645 41321 XOR\n2 1 99378 122645 41322 XOR\n2 1 41321 41322 41320 AND\n2 1 41320 122645 122646 XOR\n2 1 122677 122646 97331 XOR\n2 1 97331 95283 122553 XOR\n2 1 122553 122522 93244 XOR\n2 1 93244 41039 91246 XOR\n2 1 91246 41039 41038 AND\n2 1 41038 41039 122492 XOR\n1 1 122492 41042 INV\n2 1 97331 122522 41144 XOR\n2 1 41144 41145 41143 AND\n2 1 41143 122522 122523 XOR\n2 1 95284 122523 41148 XOR\n2 1 101427 122646 41324 XOR\n2 1 99379 122646 41325 XOR\n2 1 41324 41325 41323 AND\n2 1 41323 122646 122647 XOR\n2 1 122678 122647 97332 XOR\n2 1 97332 95284 122554 XOR\n2 1 122554 122523 93245 XOR\n1 1 93245 41057 INV\n2 1 41057 122492 91247 XOR\n2 1 93245 122492 41041 XOR\n2 1 41041 41042 41040 AND\n2 1 41040 122492 122493 XOR\n2 1 97332 122523 41147 XOR\n2 1 41147 41148 41146 AND\n2 1 41146 122523 122524 XOR\n2 1 4254 91247 108418 XOR\n2 1 101428 122647 41327 XOR\n2 1 99380 122647 41328 XOR\n2 1 41327 41328 41326 AND\n2 1 41326 122647 122648 XOR\n2 1 122679 122648 97333 XOR\n2 1 97333 95285 122555 XOR\n2 1 122555 122524 93246 XOR\n1 1 93246 41058 INV\n2 1 41058 122493 91248 XOR\n2 1 4255 91248 108419 XOR\n2 1 4242 91235 108406 XOR\n2 1 91231 85087 108464 XOR\n2 1 91233 85089 108466 XOR\n2 1 91234 85090 108467 XOR\n2 1 91232 85088 108465 XOR\n2 1 4245 91238 108409 XOR\n2 1 91230 85086 108463 XOR\n2 1 4251 91244 108415 XOR\n2 1 4246 91239 108410 XOR\n2 1 4243 91236 108407 XOR\n2 1 4250 91243 108414 XOR\n2 1 4253 91246 108417 XOR\n2 1 91229 85085 108462 XOR\n2 1 4249 91242 108413 XOR\n2 1 91224 85080 108457 XOR\n2 1 4244 91237 108408 XOR\n2 1 91228 85084 108461 XOR\n2 1 91225 85081 108458 XOR\n2 1 91227 85083 108460 XOR\n2 1 4252 91245 108416 XOR\n2 1 91235 85091 108468 XOR\n2 1 4247 91240 108411 XOR\n2 1 91226 85082 108459 XOR\n2 1 4248 91241 108412 XOR\n2 1 91245 85101 108478 XOR\n2 1 91222 85078 108455 XOR\n2 1 4229 91222 108393 XOR\n2 1 4228 91221 108392 XOR\n2 1 4227 91220 108391 XOR\n2 1 4241 91234 108405 XOR\n2 1 91218 108358 16418 XOR\n2 1 16417 16418 16416 AND\n2 1 16416 108358 108359 XOR\n2 1 108390 108359 3650 XOR\n2 1 91223 85079 108456 XOR\n2 1 91244 85100 108477 XOR\n2 1 91243 85099 108476 XOR\n2 1 91242 85098 108475 XOR\n2 1 4239 91232 108403 XOR\n2 1 91220 85076 108453 XOR\n2 1 4232 91225 108396 XOR\n2 1 4231 91224 108395 XOR\n2 1 4230 91223 108394 XOR\n2 1 4240 91233 108404 XOR\n2 1 91219 108359 16421 XOR\n2 1 4226 108359 16420 XOR\n2 1 16420 16421 16419 AND\n2 1 16419 108359 108360 XOR\n2 1 108391 108360 3651 XOR\n2 1 4233 91226 108397 XOR\n2 1 91221 85077 108454 XOR\n2 1 91248 85104 108481 XOR\n2 1 91247 85103 108480 XOR\n2 1 91246 85102 108479 XOR\n2 1 4237 91230 108401 XOR\n2 1 4236 91229 108400 XOR\n2 1 4234 91227 108398 XOR\n2 1 4235 91228 108399 XOR\n2 1 4238 91231 108402 XOR\n2 1 91220 108360 16424 XOR\n2 1 4227 108360 16423 XOR\n2 1 16423 16424 16422 AND\n2 1 16422 108360 108361 XOR\n2 1 91221 108361 16427 XOR\n2 1 4228 108361 16426 XOR\n2 1 16426 16427 16425 AND\n2 1 108392 108361 3652 XOR\n2 1 16425 108361 108362 XOR\n2 1 4229 108362 16429 XOR\n2 1 91222 108362 16430 XOR\n2 1 16429 16430 16428 AND\n2 1 16428 108362 108363 XOR\n2 1 4230 108363 16432 XOR\n2 1 91223 108363 16433 XOR\n2 1 108394 108363 3654 XOR\n2 1 16432 16433 16431 AND\n2 1 16431 108363 108364 XOR\n2 1 4231 108364 16435 XOR\n2 1 91224 108364 16436 XOR\n2 1 108395 108364 3655 XOR\n2 1 16435 16436 16434 AND\n",
"2 1 16434 108364 108365 XOR\n2 1 108396 108365 3656 XOR\n2 1 4232 108365 16438 XOR\n2 1 108393 108362 3653 XOR\n2 1 91225 108365 16439 XOR\n2 1 16438 16439 16437 AND\n2 1 16437 108365 108366 XOR\n2 1 108397 108366 3657 XOR\n2 1 91226 108366 16442 XOR\n2 1 4233 108366 16441 XOR\n2 1 16441 16442 16440 AND\n2 1 16440 108366 108367 XOR\n2 1 108398 108367 3658 XOR\n2 1 91227 108367 16445 XOR\n2 1 4234 108367 16444 XOR\n2 1 16444 16445 16443 AND\n2 1 16443 108367 108368 XOR\n2 1 91228 108368 16448 XOR\n2 1 4235 108368 16447 XOR\n2 1 16447 16448 16446 AND\n2 1 108399 108368 3659 XOR\n2 1 16446 108368 108369 XOR\n2 1 4236 108369 16450 XOR\n2 1 91229 108369 16451 XOR\n2 1 16450 16451 16449 AND\n2 1 16449 108369 108370 XOR\n2 1 4237 108370 16453 XOR\n2 1 91230 108370 16454 XOR\n2 1 108401 108370 3661 XOR\n2 1 16453 16454 16452 AND\n2 1 16452 108370 108371 XOR\n2 1 4238 108371 16456 XOR\n2 1 91231 108371 16457 XOR\n2 1 108402 108371 3662 XOR\n2 1 16456 16457 16455 AND\n2 1 16455 108371 108372 XOR\n2 1 108403 108372 3663 XOR\n2 1 4239 108372 16459 XOR\n2 1 108400 108369 3660 XOR\n2 1 91232 108372 16460 XOR\n2 1 16459 16460 16458 AND\n2 1 16458 108372 108373 XOR\n2 1 108404 108373 3664 XOR\n2 1 91233 108373 16463 XOR\n2 1 4240 108373 16462 XOR\n2 1 16462 16463 16461 AND\n2 1 16461 108373 108374 XOR\n2 1 108405 108374 3665 XOR\n2 1 91234 108374 16466 XOR\n2 1 4241 108374 16465 XOR\n2 1 16465 16466 16464 AND\n2 1 16464 108374 108375 XOR\n2 1 91235 108375 16469 XOR\n2 1 4242 108375 16468 XOR\n2 1 16468 16469 16467 AND\n2 1 108406 108375 3666 XOR\n2 1 16467 108375 108376 XOR\n2 1 91236 108376 16472 XOR\n2 1 4243 108376 16471 XOR\n2 1 16471 16472 16470 AND\n2 1 16470 108376 108377 XOR\n2 1 108408 108377 3668 XOR\n2 1 91237 108377 16475 XOR\n2 1 4244 108377 16474 XOR\n2 1 16474 16475 16473 AND\n2 1 16473 108377 108378 XOR\n2 1 4245 108378 16477 XOR\n2 1 91238 108378 16478 XOR\n2 1 16477 16478 16476 AND\n2 1 108409 108378 3669 XOR\n2 1 16476 108378 108379 XOR\n2 1 108410 108379 3670 XOR\n2 1 4246 108379 16480 XOR\n2 1 108407 108376 3667 XOR\n2 1 91239 108379 16481 XOR\n2 1 16480 16481 16479 AND\n2 1 16479 108379 108380 XOR\n2 1 108411 108380 3671 XOR\n2 1 91240 108380 16484 XOR\n2 1 4247 108380 16483 XOR\n2 1 16483 16484 16482 AND\n2 1 16482 108380 108381 XOR\n2 1 108412 108381 3672 XOR\n2 1 91241 108381 16487 XOR\n2 1 4248 108381 16486 XOR\n2 1 16486 16487 16485 AND\n2 1 16485 108381 108382 XOR\n2 1 91242 108382 16490 XOR\n2 1 4249 108382 16489 XOR\n2 1 16489 16490 16488 AND\n2 1 16488 108382 108383 XOR\n2 1 4250 108383 16492 XOR\n2 1 108414 108383 3674 XOR\n2 1 91243 108383 16493 XOR\n2 1 16492 16493 16491 AND\n2 1 16491 108383 108384 XOR\n2 1 4251 108384 16495 XOR\n2 1 108415 108384 3675 XOR\n2 1 91244 108384 16496 XOR\n2 1 16495 16496 16494 AND\n2 1 16494 108384 108385 XOR\n2 1 91245 108385 16499 XOR\n2 1 4252 108385 16498 XOR\n2 1 16498 16499 16497 AND\n2 1 16497 108385 108386 XOR\n2 1 108417 108386 3677 XOR\n2 1 108416 108385 3676 XOR\n2 1 91246 108386 16502 XOR\n2 1 4253 108386 16501 XOR\n2 1 16501 16502 16500 AND\n2 1 16500 108386 108387 XOR\n2 1 108418 108387 3678 XOR\n2 1 4254 108387 16504 XOR\n2 1 91247 108387 16505 XOR\n2 1 16504 16505 16503 AND\n2 1 16503 108387 108388 XOR\n2 1 108413 108382 3673 XOR\n2 1 91218 85074 108451 XOR\n2 1 91217 85073 3136 XOR\n2 1 108419 108388 3679 XOR\n2 1 91217 85073 108420 AND\n2 1 108451 108420 3137 XOR\n2 1 91219 85075 108452 XOR\n2 1 85074 108420 16508 XOR\n2 1 91218 108420 16507 XOR\n2 1 16507 16508 16506 AND\n2 1 16506 108420 108421 XOR\n2 1 91219 108421 16510 XOR\n",
"2 1 85075 108421 16511 XOR\n2 1 16510 16511 16509 AND\n2 1 16509 108421 108422 XOR\n2 1 108453 108422 3139 XOR\n2 1 85076 108422 16514 XOR\n2 1 91220 108422 16513 XOR\n2 1 16513 16514 16512 AND\n2 1 16512 108422 108423 XOR\n2 1 108454 108423 3140 XOR\n2 1 85077 108423 16517 XOR\n2 1 91221 108423 16516 XOR\n2 1 16516 16517 16515 AND\n2 1 16515 108423 108424 XOR\n2 1 91222 108424 16519 XOR\n2 1 85078 108424 16520 XOR\n2 1 16519 16520 16518 AND\n2 1 108455 108424 3141 XOR\n2 1 16518 108424 108425 XOR\n2 1 108456 108425 3142 XOR\n2 1 85079 108425 16523 XOR\n2 1 91223 108425 16522 XOR\n2 1 16522 16523 16521 AND\n2 1 16521 108425 108426 XOR\n2 1 108457 108426 3143 XOR\n2 1 85080 108426 16526 XOR\n2 1 91224 108426 16525 XOR\n2 1 16525 16526 16524 AND\n2 1 16524 108426 108427 XOR\n2 1 108458 108427 3144 XOR\n2 1 108452 108421 3138 XOR\n2 1 85081 108427 16529 XOR\n2 1 91225 108427 16528 XOR\n2 1 16528 16529 16527 AND\n2 1 16527 108427 108428 XOR\n2 1 91226 108428 16531 XOR\n2 1 85082 108428 16532 XOR\n2 1 16531 16532 16530 AND\n2 1 16530 108428 108429 XOR\n2 1 91227 108429 16534 XOR\n2 1 108460 108429 3146 XOR\n2 1 85083 108429 16535 XOR\n2 1 16534 16535 16533 AND\n2 1 16533 108429 108430 XOR\n2 1 108461 108430 3147 XOR\n2 1 85084 108430 16538 XOR\n2 1 91228 108430 16537 XOR\n2 1 16537 16538 16536 AND\n2 1 16536 108430 108431 XOR\n2 1 91229 108431 16540 XOR\n2 1 85085 108431 16541 XOR\n2 1 16540 16541 16539 AND\n2 1 16539 108431 108432 XOR\n2 1 108463 108432 3149 XOR\n2 1 108462 108431 3148 XOR\n2 1 85086 108432 16544 XOR\n2 1 91230 108432 16543 XOR\n2 1 16543 16544 16542 AND\n2 1 16542 108432 108433 XOR\n2 1 108464 108433 3150 XOR\n2 1 85087 108433 16547 XOR\n2 1 91231 108433 16546 XOR\n2 1 16546 16547 16545 AND\n2 1 16545 108433 108434 XOR\n2 1 108465 108434 3151 XOR\n2 1 108459 108428 3145 XOR\n2 1 85088 108434 16550 XOR\n2 1 91232 108434 16549 XOR\n2 1 16549 16550 16548 AND\n2 1 16548 108434 108435 XOR\n2 1 91233 108435 16552 XOR\n2 1 85089 108435 16553 XOR\n2 1 16552 16553 16551 AND\n2 1 16551 108435 108436 XOR\n2 1 108467 108436 3153 XOR\n2 1 85090 108436 16556 XOR\n2 1 91234 108436 16555 XOR\n2 1 16555 16556 16554 AND\n2 1 16554 108436 108437 XOR\n2 1 85091 108437 16559 XOR\n2 1 108468 108437 3154 XOR\n2 1 91235 108437 16558 XOR\n2 1 16558 16559 16557 AND\n2 1 16557 108437 108438 XOR\n2 1 91236 108438 16561 XOR\n2 1 85092 108438 16562 XOR\n2 1 16561 16562 16560 AND\n2 1 16560 108438 108439 XOR\n2 1 108470 108439 3156 XOR\n2 1 108469 108438 3155 XOR\n2 1 85093 108439 16565 XOR\n2 1 91237 108439 16564 XOR\n2 1 16564 16565 16563 AND\n2 1 16563 108439 108440 XOR\n2 1 108471 108440 3157 XOR\n2 1 85094 108440 16568 XOR\n2 1 91238 108440 16567 XOR\n2 1 16567 16568 16566 AND\n2 1 16566 108440 108441 XOR\n2 1 108472 108441 3158 XOR\n2 1 108466 108435 3152 XOR\n2 1 85095 108441 16571 XOR\n2 1 91239 108441 16570 XOR\n2 1 16570 16571 16569 AND\n2 1 16569 108441 108442 XOR\n2 1 91240 108442 16573 XOR\n2 1 85096 108442 16574 XOR\n2 1 16573 16574 16572 AND\n2 1 16572 108442 108443 XOR\n2 1 108474 108443 3160 XOR\n2 1 85097 108443 16577 XOR\n2 1 91241 108443 16576 XOR\n2 1 16576 16577 16575 AND\n2 1 16575 108443 108444 XOR\n2 1 91242 108444 16579 XOR\n2 1 85098 108444 16580 XOR\n2 1 16579 16580 16578 AND\n2 1 16578 108444 108445 XOR\n2 1 91243 108445 16582 XOR\n2 1 85099 108445 16583 XOR\n2 1 16582 16583 16581 AND\n2 1 108476 108445 3162 XOR\n2 1 16581 108445 108446 XOR\n2 1 108477 108446 3163 XOR\n2 1 108475 108444 3161 XOR\n2 1 85100 108446 16586 XOR\n2 1 91244 108446 16585 XOR\n2 1 16585 16586 16584 AND\n2 1 16584 108446 108447 XOR\n",
"2 1 108478 108447 3164 XOR\n2 1 91245 108447 16588 XOR\n2 1 85101 108447 16589 XOR\n2 1 16588 16589 16587 AND\n2 1 16587 108447 108448 XOR\n2 1 108473 108442 3159 XOR\n2 1 91246 108448 16591 XOR\n2 1 108479 108448 3165 XOR\n2 1 85102 108448 16592 XOR\n2 1 16591 16592 16590 AND\n2 1 16590 108448 108449 XOR\n2 1 91247 108449 16594 XOR\n2 1 85103 108449 16595 XOR\n2 1 16594 16595 16593 AND\n2 1 108480 108449 3166 XOR\n2 1 16593 108449 108450 XOR\n2 1 108481 108450 3167 XOR\n2 1 3167 4191 73358 XOR\n2 1 3166 4190 73357 XOR\n2 1 3165 4189 73356 XOR\n2 1 3164 4188 73355 XOR\n2 1 3163 4187 73354 XOR\n2 1 3162 4186 73353 XOR\n2 1 3161 4185 73352 XOR\n2 1 3160 4184 73351 XOR\n2 1 3159 4183 73350 XOR\n2 1 3158 4182 73349 XOR\n2 1 3157 4181 73348 XOR\n2 1 3156 4180 73347 XOR\n2 1 3155 4179 73346 XOR\n2 1 3154 4178 73345 XOR\n2 1 3153 4177 73344 XOR\n2 1 3152 4176 73343 XOR\n2 1 3151 4175 73342 XOR\n2 1 3150 4174 73341 XOR\n2 1 3149 4173 73340 XOR\n2 1 3148 4172 73339 XOR\n2 1 3147 4171 73338 XOR\n2 1 3146 4170 73337 XOR\n2 1 3145 4169 73336 XOR\n2 1 3144 4168 73335 XOR\n2 1 3143 4167 73334 XOR\n2 1 3142 4166 73333 XOR\n2 1 3141 4165 73332 XOR\n2 1 3140 4164 73331 XOR\n2 1 3139 4163 73330 XOR\n2 1 3138 4162 73329 XOR\n2 1 3137 4161 73328 XOR\n2 1 3136 4160 73327 XOR\n2 1 73358 73326 73294 AND\n2 1 73357 73325 73293 AND\n2 1 73356 73324 73292 AND\n2 1 73355 73323 73291 AND\n2 1 73354 73322 73290 AND\n2 1 73353 73321 73289 AND\n2 1 73352 73320 73288 AND\n2 1 73351 73319 73287 AND\n2 1 73350 73318 73286 AND\n2 1 73349 73317 73285 AND\n2 1 73348 73316 73284 AND\n2 1 73347 73315 73283 AND\n2 1 73346 73314 73282 AND\n2 1 73345 73313 73281 AND\n2 1 73344 73312 73280 AND\n2 1 73343 73311 73279 AND\n2 1 73342 73310 73278 AND\n2 1 73341 73309 73277 AND\n2 1 73340 73308 73276 AND\n2 1 73339 73307 73275 AND\n2 1 73338 73306 73274 AND\n2 1 73337 73305 73273 AND\n2 1 73336 73304 73272 AND\n2 1 73335 73303 73271 AND\n2 1 73334 73302 73270 AND\n2 1 73333 73301 73269 AND\n2 1 73332 73300 73268 AND\n2 1 73331 73299 73267 AND\n2 1 73330 73298 73266 AND\n2 1 73329 73297 73265 AND\n2 1 73328 73296 73264 AND\n2 1 73327 73295 73263 AND\n2 1 73294 4191 87120 XOR\n2 1 73293 4190 87119 XOR\n2 1 73292 4189 87118 XOR\n2 1 73291 4188 87117 XOR\n2 1 73290 4187 87116 XOR\n2 1 73289 4186 87115 XOR\n2 1 73288 4185 87114 XOR\n2 1 73287 4184 87113 XOR\n2 1 73286 4183 87112 XOR\n2 1 73285 4182 87111 XOR\n2 1 73284 4181 87110 XOR\n2 1 73283 4180 87109 XOR\n2 1 73282 4179 87108 XOR\n2 1 73281 4178 87107 XOR\n2 1 73280 4177 87106 XOR\n2 1 73279 4176 87105 XOR\n2 1 73278 4175 87104 XOR\n2 1 73277 4174 87103 XOR\n2 1 73276 4173 87102 XOR\n2 1 73275 4172 87101 XOR\n2 1 73274 4171 87100 XOR\n2 1 73273 4170 87099 XOR\n2 1 73272 4169 87098 XOR\n2 1 73271 4168 87097 XOR\n2 1 73270 4167 87096 XOR\n2 1 73269 4166 87095 XOR\n2 1 73268 4165 87094 XOR\n2 1 73267 4164 87093 XOR\n2 1 73266 4163 87092 XOR\n2 1 73265 4162 87091 XOR\n2 1 73264 4161 87090 XOR\n2 1 73263 4160 87089 XOR\n2 1 3167 3199 73230 XOR\n2 1 3166 3198 73229 XOR\n2 1 3165 3197 73228 XOR\n2 1 3164 3196 73227 XOR\n2 1 3163 3195 73226 XOR\n2 1 3162 3194 73225 XOR\n2 1 3161 3193 73224 XOR\n2 1 3160 3192 73223 XOR\n2 1 3159 3191 73222 XOR\n2 1 3158 3190 73221 XOR\n2 1 3157 3189 73220 XOR\n2 1 3156 3188 73219 XOR\n2 1 3155 3187 73218 XOR\n2 1 3154 3186 73217 XOR\n2 1 3153 3185 73216 XOR\n",
"2 1 3152 3184 73215 XOR\n2 1 3151 3183 73214 XOR\n2 1 3150 3182 73213 XOR\n2 1 3149 3181 73212 XOR\n2 1 3148 3180 73211 XOR\n2 1 3147 3179 73210 XOR\n2 1 3146 3178 73209 XOR\n2 1 3145 3177 73208 XOR\n2 1 3144 3176 73207 XOR\n2 1 3143 3175 73206 XOR\n2 1 3142 3174 73205 XOR\n2 1 3141 3173 73204 XOR\n2 1 3140 3172 73203 XOR\n2 1 3139 3171 73202 XOR\n2 1 3138 3170 73201 XOR\n2 1 3137 3169 73200 XOR\n2 1 3136 3168 73199 XOR\n2 1 3137 3148 68270 XOR\n2 1 3136 3147 68269 XOR\n2 1 3167 3146 68268 XOR\n2 1 3166 3145 68267 XOR\n2 1 3165 3144 68266 XOR\n2 1 3164 3143 68265 XOR\n2 1 3163 3142 68264 XOR\n2 1 3162 3141 68263 XOR\n2 1 3161 3140 68262 XOR\n2 1 3160 3139 68261 XOR\n2 1 3159 3138 68260 XOR\n2 1 3158 3137 68259 XOR\n2 1 3157 3136 68258 XOR\n2 1 3156 3167 68257 XOR\n2 1 3155 3166 68256 XOR\n2 1 3154 3165 68255 XOR\n2 1 3153 3164 68254 XOR\n2 1 3152 3163 68253 XOR\n2 1 3151 3162 68252 XOR\n2 1 3150 3161 68251 XOR\n2 1 3149 3160 68250 XOR\n2 1 3148 3159 68249 XOR\n2 1 3147 3158 68248 XOR\n2 1 3146 3157 68247 XOR\n2 1 3145 3156 68246 XOR\n2 1 3144 3155 68245 XOR\n2 1 3143 3154 68244 XOR\n2 1 3142 3153 68243 XOR\n2 1 3141 3152 68242 XOR\n2 1 3140 3151 68241 XOR\n2 1 3139 3150 68240 XOR\n2 1 3138 3149 68239 XOR\n2 1 68270 3157 89168 XOR\n2 1 89168 87120 122214 XOR\n2 1 68269 3156 89167 XOR\n2 1 89167 87119 122213 XOR\n2 1 68268 3155 89166 XOR\n2 1 89166 87118 122212 XOR\n2 1 68267 3154 89165 XOR\n2 1 89165 87117 122211 XOR\n2 1 68266 3153 89164 XOR\n2 1 89164 87116 122210 XOR\n2 1 68265 3152 89163 XOR\n2 1 89163 87115 122209 XOR\n2 1 68264 3151 89162 XOR\n2 1 89162 87114 122208 XOR\n2 1 68263 3150 89161 XOR\n2 1 89161 87113 122207 XOR\n2 1 68262 3149 89160 XOR\n2 1 89160 87112 122206 XOR\n2 1 68261 3148 89159 XOR\n2 1 89159 87111 122205 XOR\n2 1 68260 3147 89158 XOR\n2 1 89158 87110 122204 XOR\n2 1 68259 3146 89157 XOR\n2 1 89157 87109 122203 XOR\n2 1 68258 3145 89156 XOR\n2 1 89156 87108 122202 XOR\n2 1 68257 3144 89155 XOR\n2 1 89155 87107 122201 XOR\n2 1 68256 3143 89154 XOR\n2 1 89154 87106 122200 XOR\n2 1 68255 3142 89153 XOR\n2 1 89153 87105 122199 XOR\n2 1 68254 3141 89152 XOR\n2 1 89152 87104 122198 XOR\n2 1 68253 3140 89151 XOR\n2 1 89151 87103 122197 XOR\n2 1 68252 3139 89150 XOR\n2 1 89150 87102 122196 XOR\n2 1 68251 3138 89149 XOR\n2 1 89149 87101 122195 XOR\n2 1 68250 3137 89148 XOR\n2 1 89148 87100 122194 XOR\n2 1 68249 3136 89147 XOR\n2 1 89147 87099 122193 XOR\n2 1 68248 3167 89146 XOR\n2 1 89146 87098 122192 XOR\n2 1 68247 3166 89145 XOR\n2 1 89145 87097 122191 XOR\n2 1 68246 3165 89144 XOR\n2 1 89144 87096 122190 XOR\n2 1 68245 3164 89143 XOR\n2 1 89143 87095 122189 XOR\n2 1 68244 3163 89142 XOR\n2 1 89142 87094 122188 XOR\n2 1 68243 3162 89141 XOR\n2 1 89141 87093 122187 XOR\n2 1 68242 3161 89140 XOR\n2 1 89140 87092 122186 XOR\n2 1 68241 3160 89139 XOR\n2 1 89139 87091 122185 XOR\n2 1 68240 3159 89138 XOR\n2 1 89138 87090 122184 XOR\n2 1 68239 3158 89137 XOR\n2 1 89137 87089 122153 AND\n2 1 89137 87089 85041 XOR\n2 1 122184 122153 85042 XOR\n2 1 89138 122153 40436 XOR\n2 1 87090 122153 40437 XOR\n2 1 40436 40437 40435 AND\n2 1 40435 122153 122154 XOR\n2 1 122185 122154 85043 XOR\n2 1 89139 122154 40439 XOR\n2 1 87091 122154 40440 XOR\n2 1 40439 40440 40438 AND\n2 1 40438 122154 122155 XOR\n2 1 122186 122155 85044 XOR\n2 1 89140 122155 40442 XOR\n2 1 87092 122155 40443 XOR\n2 1 40442 40443 40441 AND\n",
"2 1 40441 122155 122156 XOR\n2 1 122187 122156 85045 XOR\n2 1 89141 122156 40445 XOR\n2 1 87093 122156 40446 XOR\n2 1 40445 40446 40444 AND\n2 1 40444 122156 122157 XOR\n2 1 122188 122157 85046 XOR\n2 1 89142 122157 40448 XOR\n2 1 87094 122157 40449 XOR\n2 1 40448 40449 40447 AND\n2 1 40447 122157 122158 XOR\n2 1 122189 122158 85047 XOR\n2 1 89143 122158 40451 XOR\n2 1 87095 122158 40452 XOR\n2 1 40451 40452 40450 AND\n2 1 40450 122158 122159 XOR\n2 1 122190 122159 85048 XOR\n2 1 89144 122159 40454 XOR\n2 1 87096 122159 40455 XOR\n2 1 40454 40455 40453 AND\n2 1 40453 122159 122160 XOR\n2 1 122191 122160 85049 XOR\n2 1 89145 122160 40457 XOR\n2 1 87097 122160 40458 XOR\n2 1 40457 40458 40456 AND\n2 1 40456 122160 122161 XOR\n2 1 122192 122161 85050 XOR\n2 1 89146 122161 40460 XOR\n2 1 87098 122161 40461 XOR\n2 1 40460 40461 40459 AND\n2 1 40459 122161 122162 XOR\n2 1 122193 122162 85051 XOR\n2 1 89147 122162 40463 XOR\n2 1 87099 122162 40464 XOR\n2 1 40463 40464 40462 AND\n2 1 40462 122162 122163 XOR\n2 1 122194 122163 85052 XOR\n2 1 89148 122163 40466 XOR\n2 1 87100 122163 40467 XOR\n2 1 40466 40467 40465 AND\n2 1 40465 122163 122164 XOR\n2 1 122195 122164 85053 XOR\n2 1 89149 122164 40469 XOR\n2 1 87101 122164 40470 XOR\n2 1 40469 40470 40468 AND\n2 1 40468 122164 122165 XOR\n2 1 122196 122165 85054 XOR\n2 1 89150 122165 40472 XOR\n2 1 87102 122165 40473 XOR\n2 1 40472 40473 40471 AND\n2 1 40471 122165 122166 XOR\n2 1 122197 122166 85055 XOR\n2 1 89151 122166 40475 XOR\n2 1 87103 122166 40476 XOR\n2 1 40475 40476 40474 AND\n2 1 40474 122166 122167 XOR\n2 1 122198 122167 85056 XOR\n2 1 89152 122167 40478 XOR\n2 1 87104 122167 40479 XOR\n2 1 40478 40479 40477 AND\n2 1 40477 122167 122168 XOR\n2 1 122199 122168 85057 XOR\n2 1 89153 122168 40481 XOR\n2 1 87105 122168 40482 XOR\n2 1 40481 40482 40480 AND\n2 1 40480 122168 122169 XOR\n2 1 122200 122169 85058 XOR\n2 1 89154 122169 40484 XOR\n2 1 87106 122169 40485 XOR\n2 1 40484 40485 40483 AND\n2 1 40483 122169 122170 XOR\n2 1 122201 122170 85059 XOR\n2 1 89155 122170 40487 XOR\n2 1 87107 122170 40488 XOR\n2 1 40487 40488 40486 AND\n2 1 40486 122170 122171 XOR\n2 1 122202 122171 85060 XOR\n2 1 89156 122171 40490 XOR\n2 1 87108 122171 40491 XOR\n2 1 40490 40491 40489 AND\n2 1 40489 122171 122172 XOR\n2 1 122203 122172 85061 XOR\n2 1 89157 122172 40493 XOR\n2 1 87109 122172 40494 XOR\n2 1 40493 40494 40492 AND\n2 1 40492 122172 122173 XOR\n2 1 122204 122173 85062 XOR\n2 1 89158 122173 40496 XOR\n2 1 87110 122173 40497 XOR\n2 1 40496 40497 40495 AND\n2 1 40495 122173 122174 XOR\n2 1 122205 122174 85063 XOR\n2 1 89159 122174 40499 XOR\n2 1 87111 122174 40500 XOR\n2 1 40499 40500 40498 AND\n2 1 40498 122174 122175 XOR\n2 1 122206 122175 85064 XOR\n2 1 89160 122175 40502 XOR\n2 1 87112 122175 40503 XOR\n2 1 40502 40503 40501 AND\n2 1 40501 122175 122176 XOR\n2 1 122207 122176 85065 XOR\n2 1 89161 122176 40505 XOR\n2 1 87113 122176 40506 XOR\n2 1 40505 40506 40504 AND\n2 1 40504 122176 122177 XOR\n2 1 122208 122177 85066 XOR\n2 1 89162 122177 40508 XOR\n2 1 87114 122177 40509 XOR\n2 1 40508 40509 40507 AND\n2 1 40507 122177 122178 XOR\n2 1 122209 122178 85067 XOR\n2 1 89163 122178 40511 XOR\n2 1 87115 122178 40512 XOR\n2 1 40511 40512 40510 AND\n2 1 40510 122178 122179 XOR\n2 1 122210 122179 85068 XOR\n2 1 89164 122179 40514 XOR\n2 1 87116 122179 40515 XOR\n2 1 40514 40515 40513 AND\n2 1 40513 122179 122180 XOR\n2 1 122211 122180 85069 XOR\n2 1 89165 122180 40517 XOR\n2 1 87117 122180 40518 XOR\n2 1 40517 40518 40516 AND\n2 1 40516 122180 122181 XOR\n2 1 122212 122181 85070 XOR\n2 1 89166 122181 40520 XOR\n",
"2 1 87118 122181 40521 XOR\n2 1 40520 40521 40519 AND\n2 1 40519 122181 122182 XOR\n2 1 122213 122182 85071 XOR\n2 1 89167 122182 40523 XOR\n2 1 87119 122182 40524 XOR\n2 1 40523 40524 40522 AND\n2 1 40522 122182 122183 XOR\n2 1 122214 122183 85072 XOR\n2 1 65902 3679 65870 AND\n2 1 65901 3678 65869 AND\n2 1 65900 3677 65868 AND\n2 1 65899 3676 65867 AND\n2 1 65898 3675 65866 AND\n2 1 65897 3674 65865 AND\n2 1 65896 3673 65864 AND\n2 1 65895 3672 65863 AND\n2 1 65894 3671 65862 AND\n2 1 65893 3670 65861 AND\n2 1 65892 3669 65860 AND\n2 1 65891 3668 65859 AND\n2 1 65890 3667 65858 AND\n2 1 65889 3666 65857 AND\n2 1 65888 3665 65856 AND\n2 1 65887 3664 65855 AND\n2 1 65886 3663 65854 AND\n2 1 65885 3662 65853 AND\n2 1 65884 3661 65852 AND\n2 1 65883 3660 65851 AND\n2 1 65882 3659 65850 AND\n2 1 65881 3658 65849 AND\n2 1 65880 3657 65848 AND\n2 1 65879 3656 65847 AND\n2 1 65878 3655 65846 AND\n2 1 65877 3654 65845 AND\n2 1 65876 3653 65844 AND\n2 1 65875 3652 65843 AND\n2 1 65874 3651 65842 AND\n2 1 65873 3650 65841 AND\n2 1 65872 3649 65840 AND\n2 1 65871 3648 65839 AND\n2 1 65870 3743 99349 XOR\n2 1 65869 3742 99348 XOR\n2 1 65868 3741 99347 XOR\n2 1 65867 3740 99346 XOR\n2 1 65866 3739 99345 XOR\n2 1 65865 3738 99344 XOR\n2 1 65864 3737 99343 XOR\n2 1 65863 3736 99342 XOR\n2 1 65862 3735 99341 XOR\n2 1 65861 3734 99340 XOR\n2 1 65860 3733 99339 XOR\n2 1 65859 3732 99338 XOR\n2 1 65858 3731 99337 XOR\n2 1 65857 3730 99336 XOR\n2 1 65856 3729 99335 XOR\n2 1 65855 3728 99334 XOR\n2 1 65854 3727 99333 XOR\n2 1 65853 3726 99332 XOR\n2 1 65852 3725 99331 XOR\n2 1 65851 3724 99330 XOR\n2 1 65850 3723 99329 XOR\n2 1 65849 3722 99328 XOR\n2 1 65848 3721 99327 XOR\n2 1 65847 3720 99326 XOR\n2 1 65846 3719 99325 XOR\n2 1 65845 3718 99324 XOR\n2 1 65844 3717 99323 XOR\n2 1 65843 3716 99322 XOR\n2 1 65842 3715 99321 XOR\n2 1 65841 3714 99320 XOR\n2 1 65840 3713 99319 XOR\n2 1 65839 3712 99318 XOR\n2 1 3679 3711 65838 XOR\n2 1 3678 3710 65837 XOR\n2 1 3677 3709 65836 XOR\n2 1 3676 3708 65835 XOR\n2 1 3675 3707 65834 XOR\n2 1 3674 3706 65833 XOR\n2 1 3673 3705 65832 XOR\n2 1 3672 3704 65831 XOR\n2 1 3671 3703 65830 XOR\n2 1 3670 3702 65829 XOR\n2 1 3669 3701 65828 XOR\n2 1 3668 3700 65827 XOR\n2 1 3667 3699 65826 XOR\n2 1 3666 3698 65825 XOR\n2 1 3665 3697 65824 XOR\n2 1 3664 3696 65823 XOR\n2 1 3663 3695 65822 XOR\n2 1 3662 3694 65821 XOR\n2 1 3661 3693 65820 XOR\n2 1 3660 3692 65819 XOR\n2 1 3659 3691 65818 XOR\n2 1 3658 3690 65817 XOR\n2 1 3657 3689 65816 XOR\n2 1 3656 3688 65815 XOR\n2 1 3655 3687 65814 XOR\n2 1 3654 3686 65813 XOR\n2 1 3653 3685 65812 XOR\n2 1 3652 3684 65811 XOR\n2 1 3651 3683 65810 XOR\n2 1 3650 3682 65809 XOR\n2 1 3649 3681 65808 XOR\n2 1 3648 3680 65807 XOR\n2 1 3653 3658 62350 XOR\n2 1 3652 3657 62349 XOR\n2 1 3651 3656 62348 XOR\n2 1 3650 3655 62347 XOR\n2 1 3649 3654 62346 XOR\n2 1 3648 3653 62345 XOR\n2 1 3679 3652 62344 XOR\n2 1 3678 3651 62343 XOR\n2 1 3677 3650 62342 XOR\n2 1 3676 3649 62341 XOR\n2 1 3675 3648 62340 XOR\n2 1 3674 3679 62339 XOR\n2 1 3673 3678 62338 XOR\n2 1 3672 3677 62337 XOR\n2 1 3671 3676 62336 XOR\n2 1 3670 3675 62335 XOR\n2 1 3669 3674 62334 XOR\n2 1 3668 3673 62333 XOR\n2 1 3667 3672 62332 XOR\n2 1 3666 3671 62331 XOR\n2 1 3665 3670 62330 XOR\n2 1 3664 3669 62329 XOR\n2 1 3663 3668 62328 XOR\n",
"2 1 3662 3667 62327 XOR\n2 1 3661 3666 62326 XOR\n2 1 3660 3665 62325 XOR\n2 1 3659 3664 62324 XOR\n2 1 3658 3663 62323 XOR\n2 1 3657 3662 62322 XOR\n2 1 3656 3661 62321 XOR\n2 1 3655 3660 62320 XOR\n2 1 3654 3659 62319 XOR\n2 1 62350 3672 101397 XOR\n2 1 101397 99349 122415 XOR\n2 1 62349 3671 101396 XOR\n2 1 101396 99348 122414 XOR\n2 1 62348 3670 101395 XOR\n2 1 101395 99347 122413 XOR\n2 1 62347 3669 101394 XOR\n2 1 101394 99346 122412 XOR\n2 1 62346 3668 101393 XOR\n2 1 101393 99345 122411 XOR\n2 1 62345 3667 101392 XOR\n2 1 101392 99344 122410 XOR\n2 1 62344 3666 101391 XOR\n2 1 101391 99343 122409 XOR\n2 1 62343 3665 101390 XOR\n2 1 101390 99342 122408 XOR\n2 1 62342 3664 101389 XOR\n2 1 101389 99341 122407 XOR\n2 1 62341 3663 101388 XOR\n2 1 101388 99340 122406 XOR\n2 1 62340 3662 101387 XOR\n2 1 101387 99339 122405 XOR\n2 1 62339 3661 101386 XOR\n2 1 101386 99338 122404 XOR\n2 1 62338 3660 101385 XOR\n2 1 101385 99337 122403 XOR\n2 1 62337 3659 101384 XOR\n2 1 101384 99336 122402 XOR\n2 1 62336 3658 101383 XOR\n2 1 101383 99335 122401 XOR\n2 1 62335 3657 101382 XOR\n2 1 101382 99334 122400 XOR\n2 1 62334 3656 101381 XOR\n2 1 101381 99333 122399 XOR\n2 1 62333 3655 101380 XOR\n2 1 101380 99332 122398 XOR\n2 1 62332 3654 101379 XOR\n2 1 101379 99331 122397 XOR\n2 1 62331 3653 101378 XOR\n2 1 101378 99330 122396 XOR\n2 1 62330 3652 101377 XOR\n2 1 101377 99329 122395 XOR\n2 1 62329 3651 101376 XOR\n2 1 101376 99328 122394 XOR\n2 1 62328 3650 101375 XOR\n2 1 101375 99327 122393 XOR\n2 1 62327 3649 101374 XOR\n2 1 101374 99326 122392 XOR\n2 1 62326 3648 101373 XOR\n2 1 101373 99325 122391 XOR\n2 1 62325 3679 101372 XOR\n2 1 101372 99324 122390 XOR\n2 1 62324 3678 101371 XOR\n2 1 101371 99323 122389 XOR\n2 1 62323 3677 101370 XOR\n2 1 101370 99322 122388 XOR\n2 1 62322 3676 101369 XOR\n2 1 101369 99321 122387 XOR\n2 1 62321 3675 101368 XOR\n2 1 101368 99320 122386 XOR\n2 1 62320 3674 101367 XOR\n2 1 101367 99319 122385 XOR\n2 1 62319 3673 101366 XOR\n2 1 101366 99318 122354 AND\n2 1 101366 99318 97270 XOR\n2 1 122385 122354 97271 XOR\n2 1 101367 122354 40794 XOR\n2 1 99319 122354 40795 XOR\n2 1 40794 40795 40793 AND\n2 1 40793 122354 122355 XOR\n2 1 122386 122355 97272 XOR\n2 1 101368 122355 40797 XOR\n2 1 99320 122355 40798 XOR\n2 1 40797 40798 40796 AND\n2 1 40796 122355 122356 XOR\n2 1 122387 122356 97273 XOR\n2 1 101369 122356 40800 XOR\n2 1 99321 122356 40801 XOR\n2 1 40800 40801 40799 AND\n2 1 40799 122356 122357 XOR\n2 1 122388 122357 97274 XOR\n2 1 101370 122357 40803 XOR\n2 1 99322 122357 40804 XOR\n2 1 40803 40804 40802 AND\n2 1 40802 122357 122358 XOR\n2 1 122389 122358 97275 XOR\n2 1 101371 122358 40806 XOR\n2 1 99323 122358 40807 XOR\n2 1 40806 40807 40805 AND\n2 1 40805 122358 122359 XOR\n2 1 122390 122359 97276 XOR\n2 1 101372 122359 40809 XOR\n2 1 99324 122359 40810 XOR\n2 1 40809 40810 40808 AND\n2 1 40808 122359 122360 XOR\n2 1 122391 122360 97277 XOR\n2 1 101373 122360 40812 XOR\n2 1 99325 122360 40813 XOR\n2 1 40812 40813 40811 AND\n2 1 40811 122360 122361 XOR\n2 1 122392 122361 97278 XOR\n2 1 101374 122361 40815 XOR\n2 1 99326 122361 40816 XOR\n2 1 40815 40816 40814 AND\n2 1 40814 122361 122362 XOR\n2 1 122393 122362 97279 XOR\n2 1 101375 122362 40818 XOR\n2 1 99327 122362 40819 XOR\n2 1 40818 40819 40817 AND\n2 1 40817 122362 122363 XOR\n2 1 122394 122363 97280 XOR\n2 1 101376 122363 40821 XOR\n2 1 99328 122363 40822 XOR\n2 1 40821 40822 40820 AND\n2 1 40820 122363 122364 XOR\n2 1 122395 122364 97281 XOR\n2 1 101377 122364 40824 XOR\n2 1 99329 122364 40825 XOR\n2 1 40824 40825 40823 AND\n",
"2 1 40823 122364 122365 XOR\n2 1 122396 122365 97282 XOR\n2 1 101378 122365 40827 XOR\n2 1 99330 122365 40828 XOR\n2 1 40827 40828 40826 AND\n2 1 40826 122365 122366 XOR\n2 1 122397 122366 97283 XOR\n2 1 101379 122366 40830 XOR\n2 1 99331 122366 40831 XOR\n2 1 40830 40831 40829 AND\n2 1 40829 122366 122367 XOR\n2 1 122398 122367 97284 XOR\n2 1 101380 122367 40833 XOR\n2 1 99332 122367 40834 XOR\n2 1 40833 40834 40832 AND\n2 1 40832 122367 122368 XOR\n2 1 122399 122368 97285 XOR\n2 1 101381 122368 40836 XOR\n2 1 99333 122368 40837 XOR\n2 1 40836 40837 40835 AND\n2 1 40835 122368 122369 XOR\n2 1 122400 122369 97286 XOR\n2 1 101382 122369 40839 XOR\n2 1 99334 122369 40840 XOR\n2 1 40839 40840 40838 AND\n2 1 40838 122369 122370 XOR\n2 1 122401 122370 97287 XOR\n2 1 101383 122370 40842 XOR\n2 1 99335 122370 40843 XOR\n2 1 40842 40843 40841 AND\n2 1 40841 122370 122371 XOR\n2 1 122402 122371 97288 XOR\n2 1 101384 122371 40845 XOR\n2 1 99336 122371 40846 XOR\n2 1 40845 40846 40844 AND\n2 1 40844 122371 122372 XOR\n2 1 122403 122372 97289 XOR\n2 1 101385 122372 40848 XOR\n2 1 99337 122372 40849 XOR\n2 1 40848 40849 40847 AND\n2 1 40847 122372 122373 XOR\n2 1 122404 122373 97290 XOR\n2 1 101386 122373 40851 XOR\n2 1 99338 122373 40852 XOR\n2 1 40851 40852 40850 AND\n2 1 40850 122373 122374 XOR\n2 1 122405 122374 97291 XOR\n2 1 101387 122374 40854 XOR\n2 1 99339 122374 40855 XOR\n2 1 40854 40855 40853 AND\n2 1 40853 122374 122375 XOR\n2 1 122406 122375 97292 XOR\n2 1 101388 122375 40857 XOR\n2 1 99340 122375 40858 XOR\n2 1 40857 40858 40856 AND\n2 1 40856 122375 122376 XOR\n2 1 122407 122376 97293 XOR\n2 1 101389 122376 40860 XOR\n2 1 99341 122376 40861 XOR\n2 1 40860 40861 40859 AND\n2 1 40859 122376 122377 XOR\n2 1 122408 122377 97294 XOR\n2 1 101390 122377 40863 XOR\n2 1 99342 122377 40864 XOR\n2 1 40863 40864 40862 AND\n2 1 40862 122377 122378 XOR\n2 1 122409 122378 97295 XOR\n2 1 101391 122378 40866 XOR\n2 1 99343 122378 40867 XOR\n2 1 40866 40867 40865 AND\n2 1 40865 122378 122379 XOR\n2 1 122410 122379 97296 XOR\n2 1 101392 122379 40869 XOR\n2 1 99344 122379 40870 XOR\n2 1 40869 40870 40868 AND\n2 1 40868 122379 122380 XOR\n2 1 122411 122380 97297 XOR\n2 1 101393 122380 40872 XOR\n2 1 99345 122380 40873 XOR\n2 1 40872 40873 40871 AND\n2 1 40871 122380 122381 XOR\n2 1 122412 122381 97298 XOR\n2 1 101394 122381 40875 XOR\n2 1 99346 122381 40876 XOR\n2 1 40875 40876 40874 AND\n2 1 40874 122381 122382 XOR\n2 1 122413 122382 97299 XOR\n2 1 101395 122382 40878 XOR\n2 1 99347 122382 40879 XOR\n2 1 40878 40879 40877 AND\n2 1 40877 122382 122383 XOR\n2 1 122414 122383 97300 XOR\n2 1 101396 122383 40881 XOR\n2 1 99348 122383 40882 XOR\n2 1 40881 40882 40880 AND\n2 1 40880 122383 122384 XOR\n2 1 122415 122384 97301 XOR\n2 1 16 18 81968 XOR\n2 1 81968 191 135150 XOR\n2 1 15 17 81967 XOR\n2 1 81967 190 135149 XOR\n2 1 14 16 81966 XOR\n2 1 81966 189 135148 XOR\n2 1 13 15 81965 XOR\n2 1 81965 188 135147 XOR\n2 1 12 14 81964 XOR\n2 1 81964 187 135146 XOR\n2 1 11 13 81963 XOR\n2 1 81963 186 135145 XOR\n2 1 10 12 81962 XOR\n2 1 81962 185 135144 XOR\n2 1 9 11 81961 XOR\n2 1 81961 184 135143 XOR\n2 1 8 10 81960 XOR\n2 1 81960 183 135142 XOR\n2 1 7 9 81959 XOR\n2 1 81959 182 135141 XOR\n2 1 6 8 7145 XOR\n2 1 5 7 7144 XOR\n2 1 4 6 7143 XOR\n2 1 3 5 7142 XOR\n2 1 2 4 7141 XOR\n2 1 1 3 7140 XOR\n2 1 0 2 7139 XOR\n2 1 31 1 7138 XOR\n2 1 30 0 7137 XOR\n2 1 29 31 7136 XOR\n2 1 28 30 7135 XOR\n",
"2 1 27 29 7134 XOR\n2 1 26 28 7133 XOR\n2 1 25 27 7132 XOR\n2 1 24 26 7131 XOR\n2 1 23 25 7130 XOR\n2 1 22 24 7129 XOR\n2 1 21 23 7128 XOR\n2 1 20 22 7127 XOR\n2 1 19 21 7126 XOR\n2 1 18 20 7125 XOR\n2 1 17 19 7124 XOR\n2 1 7145 31 81958 XOR\n2 1 81958 181 135140 XOR\n2 1 7144 30 81957 XOR\n2 1 81957 180 135139 XOR\n2 1 7143 29 81956 XOR\n2 1 81956 179 135138 XOR\n2 1 7142 28 81955 XOR\n2 1 81955 178 135137 XOR\n2 1 7141 27 81954 XOR\n2 1 81954 177 135136 XOR\n2 1 7140 26 81953 XOR\n2 1 81953 176 135135 XOR\n2 1 7139 25 81952 XOR\n2 1 81952 175 135134 XOR\n2 1 7138 24 81951 XOR\n2 1 81951 174 135133 XOR\n2 1 7137 23 81950 XOR\n2 1 81950 173 135132 XOR\n2 1 7136 22 81949 XOR\n2 1 81949 172 135131 XOR\n2 1 7135 21 81948 XOR\n2 1 81948 171 135130 XOR\n2 1 7134 20 81947 XOR\n2 1 81947 170 135129 XOR\n2 1 7133 19 81946 XOR\n2 1 81946 169 135128 XOR\n2 1 7132 18 81945 XOR\n2 1 81945 168 135127 XOR\n2 1 7131 17 81944 XOR\n2 1 81944 167 135126 XOR\n2 1 7130 16 81943 XOR\n2 1 81943 166 135125 XOR\n2 1 7129 15 81942 XOR\n2 1 81942 165 135124 XOR\n2 1 7128 14 81941 XOR\n2 1 81941 164 135123 XOR\n2 1 7127 13 81940 XOR\n2 1 81940 163 135122 XOR\n2 1 7126 12 81939 XOR\n2 1 81939 162 135121 XOR\n2 1 7125 11 81938 XOR\n2 1 81938 161 135120 XOR\n2 1 7124 10 81937 XOR\n2 1 81937 160 135089 AND\n2 1 81937 160 80401 XOR\n2 1 135120 135089 80402 XOR\n2 1 81938 135089 60546 XOR\n2 1 161 135089 60547 XOR\n2 1 60546 60547 60545 AND\n2 1 60545 135089 135090 XOR\n2 1 135121 135090 80403 XOR\n2 1 81939 135090 60549 XOR\n2 1 162 135090 60550 XOR\n2 1 60549 60550 60548 AND\n2 1 60548 135090 135091 XOR\n2 1 135122 135091 80404 XOR\n2 1 81940 135091 60552 XOR\n2 1 163 135091 60553 XOR\n2 1 60552 60553 60551 AND\n2 1 60551 135091 135092 XOR\n2 1 135123 135092 80405 XOR\n2 1 81941 135092 60555 XOR\n2 1 164 135092 60556 XOR\n2 1 60555 60556 60554 AND\n2 1 60554 135092 135093 XOR\n2 1 135124 135093 80406 XOR\n2 1 81942 135093 60558 XOR\n2 1 165 135093 60559 XOR\n2 1 60558 60559 60557 AND\n2 1 60557 135093 135094 XOR\n2 1 135125 135094 80407 XOR\n2 1 81943 135094 60561 XOR\n2 1 166 135094 60562 XOR\n2 1 60561 60562 60560 AND\n2 1 60560 135094 135095 XOR\n2 1 135126 135095 80408 XOR\n2 1 81944 135095 60564 XOR\n2 1 167 135095 60565 XOR\n2 1 60564 60565 60563 AND\n2 1 60563 135095 135096 XOR\n2 1 135127 135096 80409 XOR\n2 1 81945 135096 60567 XOR\n2 1 168 135096 60568 XOR\n2 1 60567 60568 60566 AND\n2 1 60566 135096 135097 XOR\n2 1 135128 135097 80410 XOR\n2 1 81946 135097 60570 XOR\n2 1 169 135097 60571 XOR\n2 1 60570 60571 60569 AND\n2 1 60569 135097 135098 XOR\n2 1 135129 135098 80411 XOR\n2 1 81947 135098 60573 XOR\n2 1 170 135098 60574 XOR\n2 1 60573 60574 60572 AND\n2 1 60572 135098 135099 XOR\n2 1 135130 135099 80412 XOR\n2 1 81948 135099 60576 XOR\n2 1 171 135099 60577 XOR\n2 1 60576 60577 60575 AND\n2 1 60575 135099 135100 XOR\n2 1 135131 135100 80413 XOR\n2 1 81949 135100 60579 XOR\n2 1 172 135100 60580 XOR\n2 1 60579 60580 60578 AND\n2 1 60578 135100 135101 XOR\n2 1 135132 135101 80414 XOR\n2 1 81950 135101 60582 XOR\n2 1 173 135101 60583 XOR\n2 1 60582 60583 60581 AND\n2 1 60581 135101 135102 XOR\n2 1 135133 135102 80415 XOR\n2 1 81951 135102 60585 XOR\n2 1 174 135102 60586 XOR\n2 1 60585 60586 60584 AND\n2 1 60584 135102 135103 XOR\n2 1 135134 135103 80416 XOR\n2 1 81952 135103 60588 XOR\n",
"2 1 175 135103 60589 XOR\n2 1 60588 60589 60587 AND\n2 1 60587 135103 135104 XOR\n2 1 135135 135104 80417 XOR\n2 1 81953 135104 60591 XOR\n2 1 176 135104 60592 XOR\n2 1 60591 60592 60590 AND\n2 1 60590 135104 135105 XOR\n2 1 135136 135105 80418 XOR\n2 1 81954 135105 60594 XOR\n2 1 177 135105 60595 XOR\n2 1 60594 60595 60593 AND\n2 1 60593 135105 135106 XOR\n2 1 135137 135106 80419 XOR\n2 1 81955 135106 60597 XOR\n2 1 178 135106 60598 XOR\n2 1 60597 60598 60596 AND\n2 1 60596 135106 135107 XOR\n2 1 135138 135107 80420 XOR\n2 1 81956 135107 60600 XOR\n2 1 179 135107 60601 XOR\n2 1 60600 60601 60599 AND\n2 1 60599 135107 135108 XOR\n2 1 135139 135108 80421 XOR\n2 1 81957 135108 60603 XOR\n2 1 180 135108 60604 XOR\n2 1 60603 60604 60602 AND\n2 1 60602 135108 135109 XOR\n2 1 135140 135109 80422 XOR\n2 1 81958 135109 60606 XOR\n2 1 181 135109 60607 XOR\n2 1 60606 60607 60605 AND\n2 1 60605 135109 135110 XOR\n2 1 135141 135110 80423 XOR\n2 1 81959 135110 60609 XOR\n2 1 182 135110 60610 XOR\n2 1 60609 60610 60608 AND\n2 1 60608 135110 135111 XOR\n2 1 135142 135111 80424 XOR\n2 1 81960 135111 60612 XOR\n2 1 183 135111 60613 XOR\n2 1 60612 60613 60611 AND\n2 1 60611 135111 135112 XOR\n2 1 135143 135112 80425 XOR\n2 1 81961 135112 60615 XOR\n2 1 184 135112 60616 XOR\n2 1 60615 60616 60614 AND\n2 1 60614 135112 135113 XOR\n2 1 135144 135113 80426 XOR\n2 1 81962 135113 60618 XOR\n2 1 185 135113 60619 XOR\n2 1 60618 60619 60617 AND\n2 1 60617 135113 135114 XOR\n2 1 135145 135114 80427 XOR\n2 1 81963 135114 60621 XOR\n2 1 186 135114 60622 XOR\n2 1 60621 60622 60620 AND\n2 1 60620 135114 135115 XOR\n2 1 135146 135115 80428 XOR\n2 1 81964 135115 60624 XOR\n2 1 187 135115 60625 XOR\n2 1 60624 60625 60623 AND\n2 1 60623 135115 135116 XOR\n2 1 135147 135116 80429 XOR\n2 1 81965 135116 60627 XOR\n2 1 188 135116 60628 XOR\n2 1 60627 60628 60626 AND\n2 1 60626 135116 135117 XOR\n2 1 135148 135117 80430 XOR\n2 1 81966 135117 60630 XOR\n2 1 189 135117 60631 XOR\n2 1 60630 60631 60629 AND\n2 1 60629 135117 135118 XOR\n2 1 135149 135118 80431 XOR\n2 1 81967 135118 60633 XOR\n2 1 190 135118 60634 XOR\n2 1 60633 60634 60632 AND\n2 1 60632 135118 135119 XOR\n2 1 135150 135119 80432 XOR\n2 1 422 433 83504 XOR\n2 1 83504 479 135088 XOR\n2 1 421 432 83503 XOR\n2 1 83503 478 135087 XOR\n2 1 420 431 83502 XOR\n2 1 83502 477 135086 XOR\n2 1 419 430 6111 XOR\n2 1 418 429 6110 XOR\n2 1 417 428 6109 XOR\n2 1 416 427 6108 XOR\n2 1 447 426 6107 XOR\n2 1 446 425 6106 XOR\n2 1 445 424 6105 XOR\n2 1 444 423 6104 XOR\n2 1 443 422 6103 XOR\n2 1 442 421 6102 XOR\n2 1 441 420 6101 XOR\n2 1 440 419 6100 XOR\n2 1 439 418 6099 XOR\n2 1 438 417 6098 XOR\n2 1 437 416 6097 XOR\n2 1 436 447 6096 XOR\n2 1 435 446 6095 XOR\n2 1 434 445 6094 XOR\n2 1 433 444 6093 XOR\n2 1 432 443 6092 XOR\n2 1 431 442 6091 XOR\n2 1 430 441 6090 XOR\n2 1 429 440 6089 XOR\n2 1 428 439 6088 XOR\n2 1 427 438 6087 XOR\n2 1 426 437 6086 XOR\n2 1 425 436 6085 XOR\n2 1 424 435 6084 XOR\n2 1 423 434 6083 XOR\n2 1 6111 447 83501 XOR\n2 1 83501 476 135085 XOR\n2 1 6110 446 83500 XOR\n2 1 83500 475 135084 XOR\n2 1 6109 445 83499 XOR\n2 1 83499 474 135083 XOR\n2 1 6108 444 83498 XOR\n2 1 83498 473 135082 XOR\n2 1 6107 443 83497 XOR\n2 1 83497 472 135081 XOR\n2 1 6106 442 83496 XOR\n2 1 83496 471 135080 XOR\n2 1 6105 441 83495 XOR\n2 1 83495 470 135079 XOR\n",
"2 1 6104 440 83494 XOR\n2 1 83494 469 135078 XOR\n2 1 6103 439 83493 XOR\n2 1 83493 468 135077 XOR\n2 1 6102 438 83492 XOR\n2 1 83492 467 135076 XOR\n2 1 6101 437 83491 XOR\n2 1 83491 466 135075 XOR\n2 1 6100 436 83490 XOR\n2 1 83490 465 135074 XOR\n2 1 6099 435 83489 XOR\n2 1 83489 464 135073 XOR\n2 1 6098 434 83488 XOR\n2 1 83488 463 135072 XOR\n2 1 6097 433 83487 XOR\n2 1 83487 462 135071 XOR\n2 1 6096 432 83486 XOR\n2 1 83486 461 135070 XOR\n2 1 6095 431 83485 XOR\n2 1 83485 460 135069 XOR\n2 1 6094 430 83484 XOR\n2 1 83484 459 135068 XOR\n2 1 6093 429 83483 XOR\n2 1 83483 458 135067 XOR\n2 1 6092 428 83482 XOR\n2 1 83482 457 135066 XOR\n2 1 6091 427 83481 XOR\n2 1 83481 456 135065 XOR\n2 1 6090 426 83480 XOR\n2 1 83480 455 135064 XOR\n2 1 6089 425 83479 XOR\n2 1 83479 454 135063 XOR\n2 1 6088 424 83478 XOR\n2 1 83478 453 135062 XOR\n2 1 6087 423 83477 XOR\n2 1 83477 452 135061 XOR\n2 1 6086 422 83476 XOR\n2 1 83476 451 135060 XOR\n2 1 6085 421 83475 XOR\n2 1 83475 450 135059 XOR\n2 1 6084 420 83474 XOR\n2 1 83474 449 135058 XOR\n2 1 6083 419 83473 XOR\n2 1 83473 448 135027 AND\n2 1 83473 448 78865 XOR\n2 1 80401 78865 134965 AND\n2 1 80401 78865 77073 XOR\n2 1 77073 3712 122029 AND\n2 1 77073 3712 95190 XOR\n2 1 3713 122029 40257 XOR\n2 1 80402 134965 60366 XOR\n2 1 135058 135027 78866 XOR\n2 1 80402 78866 134996 XOR\n2 1 134996 134965 77074 XOR\n2 1 77074 3713 122060 XOR\n2 1 122060 122029 95191 XOR\n2 1 77074 122029 40256 XOR\n2 1 40256 40257 40255 AND\n2 1 40255 122029 122030 XOR\n2 1 3714 122030 40260 XOR\n2 1 78866 134965 60367 XOR\n2 1 60366 60367 60365 AND\n2 1 60365 134965 134966 XOR\n2 1 80403 134966 60369 XOR\n2 1 83474 135027 60456 XOR\n2 1 449 135027 60457 XOR\n2 1 60456 60457 60455 AND\n2 1 60455 135027 135028 XOR\n2 1 135059 135028 78867 XOR\n2 1 80403 78867 134997 XOR\n2 1 134997 134966 77075 XOR\n2 1 77075 3714 122061 XOR\n2 1 122061 122030 95192 XOR\n2 1 77075 122030 40259 XOR\n2 1 40259 40260 40258 AND\n2 1 40258 122030 122031 XOR\n2 1 3715 122031 40263 XOR\n2 1 78867 134966 60370 XOR\n2 1 60369 60370 60368 AND\n2 1 60368 134966 134967 XOR\n2 1 80404 134967 60372 XOR\n2 1 83475 135028 60459 XOR\n2 1 450 135028 60460 XOR\n2 1 60459 60460 60458 AND\n2 1 60458 135028 135029 XOR\n2 1 135060 135029 78868 XOR\n2 1 80404 78868 134998 XOR\n2 1 134998 134967 77076 XOR\n2 1 77076 3715 122062 XOR\n2 1 122062 122031 95193 XOR\n2 1 77076 122031 40262 XOR\n2 1 40262 40263 40261 AND\n2 1 40261 122031 122032 XOR\n2 1 3716 122032 40266 XOR\n2 1 78868 134967 60373 XOR\n2 1 60372 60373 60371 AND\n2 1 60371 134967 134968 XOR\n2 1 80405 134968 60375 XOR\n2 1 83476 135029 60462 XOR\n2 1 451 135029 60463 XOR\n2 1 60462 60463 60461 AND\n2 1 60461 135029 135030 XOR\n2 1 135061 135030 78869 XOR\n2 1 80405 78869 134999 XOR\n2 1 134999 134968 77077 XOR\n2 1 77077 3716 122063 XOR\n2 1 122063 122032 95194 XOR\n2 1 77077 122032 40265 XOR\n2 1 40265 40266 40264 AND\n2 1 40264 122032 122033 XOR\n2 1 3717 122033 40269 XOR\n2 1 78869 134968 60376 XOR\n2 1 60375 60376 60374 AND\n2 1 60374 134968 134969 XOR\n2 1 80406 134969 60378 XOR\n2 1 83477 135030 60465 XOR\n2 1 452 135030 60466 XOR\n2 1 60465 60466 60464 AND\n2 1 60464 135030 135031 XOR\n2 1 135062 135031 78870 XOR\n2 1 80406 78870 135000 XOR\n2 1 135000 134969 77078 XOR\n2 1 77078 3717 122064 XOR\n2 1 122064 122033 95195 XOR\n2 1 77078 122033 40268 XOR\n2 1 40268 40269 40267 AND\n2 1 40267 122033 122034 XOR\n2 1 3718 122034 40272 XOR\n",
"2 1 78870 134969 60379 XOR\n2 1 60378 60379 60377 AND\n2 1 60377 134969 134970 XOR\n2 1 80407 134970 60381 XOR\n2 1 83478 135031 60468 XOR\n2 1 453 135031 60469 XOR\n2 1 60468 60469 60467 AND\n2 1 60467 135031 135032 XOR\n2 1 135063 135032 78871 XOR\n2 1 80407 78871 135001 XOR\n2 1 135001 134970 77079 XOR\n2 1 77079 3718 122065 XOR\n2 1 122065 122034 95196 XOR\n2 1 77079 122034 40271 XOR\n2 1 40271 40272 40270 AND\n2 1 40270 122034 122035 XOR\n2 1 3719 122035 40275 XOR\n2 1 78871 134970 60382 XOR\n2 1 60381 60382 60380 AND\n2 1 60380 134970 134971 XOR\n2 1 80408 134971 60384 XOR\n2 1 83479 135032 60471 XOR\n2 1 454 135032 60472 XOR\n2 1 60471 60472 60470 AND\n2 1 60470 135032 135033 XOR\n2 1 135064 135033 78872 XOR\n2 1 80408 78872 135002 XOR\n2 1 135002 134971 77080 XOR\n2 1 77080 3719 122066 XOR\n2 1 122066 122035 95197 XOR\n2 1 77080 122035 40274 XOR\n2 1 40274 40275 40273 AND\n2 1 40273 122035 122036 XOR\n2 1 3720 122036 40278 XOR\n2 1 78872 134971 60385 XOR\n2 1 60384 60385 60383 AND\n2 1 60383 134971 134972 XOR\n2 1 80409 134972 60387 XOR\n2 1 83480 135033 60474 XOR\n2 1 455 135033 60475 XOR\n2 1 60474 60475 60473 AND\n2 1 60473 135033 135034 XOR\n2 1 135065 135034 78873 XOR\n2 1 80409 78873 135003 XOR\n2 1 135003 134972 77081 XOR\n2 1 77081 3720 122067 XOR\n2 1 122067 122036 95198 XOR\n2 1 77081 122036 40277 XOR\n2 1 40277 40278 40276 AND\n2 1 40276 122036 122037 XOR\n2 1 3721 122037 40281 XOR\n2 1 78873 134972 60388 XOR\n2 1 60387 60388 60386 AND\n2 1 60386 134972 134973 XOR\n2 1 80410 134973 60390 XOR\n2 1 83481 135034 60477 XOR\n2 1 456 135034 60478 XOR\n2 1 60477 60478 60476 AND\n2 1 60476 135034 135035 XOR\n2 1 135066 135035 78874 XOR\n2 1 80410 78874 135004 XOR\n2 1 135004 134973 77082 XOR\n2 1 77082 3721 122068 XOR\n2 1 122068 122037 95199 XOR\n2 1 77082 122037 40280 XOR\n2 1 40280 40281 40279 AND\n2 1 40279 122037 122038 XOR\n2 1 3722 122038 40284 XOR\n2 1 78874 134973 60391 XOR\n2 1 60390 60391 60389 AND\n2 1 60389 134973 134974 XOR\n2 1 80411 134974 60393 XOR\n2 1 83482 135035 60480 XOR\n2 1 457 135035 60481 XOR\n2 1 60480 60481 60479 AND\n2 1 60479 135035 135036 XOR\n2 1 135067 135036 78875 XOR\n2 1 80411 78875 135005 XOR\n2 1 135005 134974 77083 XOR\n2 1 77083 3722 122069 XOR\n2 1 122069 122038 95200 XOR\n2 1 77083 122038 40283 XOR\n2 1 40283 40284 40282 AND\n2 1 40282 122038 122039 XOR\n2 1 3723 122039 40287 XOR\n2 1 78875 134974 60394 XOR\n2 1 60393 60394 60392 AND\n2 1 60392 134974 134975 XOR\n2 1 80412 134975 60396 XOR\n2 1 83483 135036 60483 XOR\n2 1 458 135036 60484 XOR\n2 1 60483 60484 60482 AND\n2 1 60482 135036 135037 XOR\n2 1 135068 135037 78876 XOR\n2 1 80412 78876 135006 XOR\n2 1 135006 134975 77084 XOR\n2 1 77084 3723 122070 XOR\n2 1 122070 122039 95201 XOR\n2 1 77084 122039 40286 XOR\n2 1 40286 40287 40285 AND\n2 1 40285 122039 122040 XOR\n2 1 3724 122040 40290 XOR\n2 1 78876 134975 60397 XOR\n2 1 60396 60397 60395 AND\n2 1 60395 134975 134976 XOR\n2 1 80413 134976 60399 XOR\n2 1 83484 135037 60486 XOR\n2 1 459 135037 60487 XOR\n2 1 60486 60487 60485 AND\n2 1 60485 135037 135038 XOR\n2 1 135069 135038 78877 XOR\n2 1 80413 78877 135007 XOR\n2 1 135007 134976 77085 XOR\n2 1 77085 3724 122071 XOR\n2 1 122071 122040 95202 XOR\n2 1 77085 122040 40289 XOR\n2 1 40289 40290 40288 AND\n2 1 40288 122040 122041 XOR\n2 1 3725 122041 40293 XOR\n2 1 78877 134976 60400 XOR\n2 1 60399 60400 60398 AND\n2 1 60398 134976 134977 XOR\n2 1 80414 134977 60402 XOR\n2 1 83485 135038 60489 XOR\n2 1 460 135038 60490 XOR\n2 1 60489 60490 60488 AND\n2 1 60488 135038 135039 XOR\n2 1 135070 135039 78878 XOR\n",
"2 1 80414 78878 135008 XOR\n2 1 135008 134977 77086 XOR\n2 1 77086 3725 122072 XOR\n2 1 122072 122041 95203 XOR\n2 1 77086 122041 40292 XOR\n2 1 40292 40293 40291 AND\n2 1 40291 122041 122042 XOR\n2 1 3726 122042 40296 XOR\n2 1 78878 134977 60403 XOR\n2 1 60402 60403 60401 AND\n2 1 60401 134977 134978 XOR\n2 1 80415 134978 60405 XOR\n2 1 83486 135039 60492 XOR\n2 1 461 135039 60493 XOR\n2 1 60492 60493 60491 AND\n2 1 60491 135039 135040 XOR\n2 1 135071 135040 78879 XOR\n2 1 80415 78879 135009 XOR\n2 1 135009 134978 77087 XOR\n2 1 77087 3726 122073 XOR\n2 1 122073 122042 95204 XOR\n2 1 77087 122042 40295 XOR\n2 1 40295 40296 40294 AND\n2 1 40294 122042 122043 XOR\n2 1 3727 122043 40299 XOR\n2 1 78879 134978 60406 XOR\n2 1 60405 60406 60404 AND\n2 1 60404 134978 134979 XOR\n2 1 80416 134979 60408 XOR\n2 1 83487 135040 60495 XOR\n2 1 462 135040 60496 XOR\n2 1 60495 60496 60494 AND\n2 1 60494 135040 135041 XOR\n2 1 135072 135041 78880 XOR\n2 1 80416 78880 135010 XOR\n2 1 135010 134979 77088 XOR\n2 1 77088 3727 122074 XOR\n2 1 122074 122043 95205 XOR\n2 1 77088 122043 40298 XOR\n2 1 40298 40299 40297 AND\n2 1 40297 122043 122044 XOR\n2 1 3728 122044 40302 XOR\n2 1 78880 134979 60409 XOR\n2 1 60408 60409 60407 AND\n2 1 60407 134979 134980 XOR\n2 1 80417 134980 60411 XOR\n2 1 83488 135041 60498 XOR\n2 1 463 135041 60499 XOR\n2 1 60498 60499 60497 AND\n2 1 60497 135041 135042 XOR\n2 1 135073 135042 78881 XOR\n2 1 80417 78881 135011 XOR\n2 1 135011 134980 77089 XOR\n2 1 77089 3728 122075 XOR\n2 1 122075 122044 95206 XOR\n2 1 77089 122044 40301 XOR\n2 1 40301 40302 40300 AND\n2 1 40300 122044 122045 XOR\n2 1 3729 122045 40305 XOR\n2 1 78881 134980 60412 XOR\n2 1 60411 60412 60410 AND\n2 1 60410 134980 134981 XOR\n2 1 80418 134981 60414 XOR\n2 1 83489 135042 60501 XOR\n2 1 464 135042 60502 XOR\n2 1 60501 60502 60500 AND\n2 1 60500 135042 135043 XOR\n2 1 135074 135043 78882 XOR\n2 1 80418 78882 135012 XOR\n2 1 135012 134981 77090 XOR\n2 1 77090 3729 122076 XOR\n2 1 122076 122045 95207 XOR\n2 1 77090 122045 40304 XOR\n2 1 40304 40305 40303 AND\n2 1 40303 122045 122046 XOR\n2 1 3730 122046 40308 XOR\n2 1 78882 134981 60415 XOR\n2 1 60414 60415 60413 AND\n2 1 60413 134981 134982 XOR\n2 1 80419 134982 60417 XOR\n2 1 83490 135043 60504 XOR\n2 1 465 135043 60505 XOR\n2 1 60504 60505 60503 AND\n2 1 60503 135043 135044 XOR\n2 1 135075 135044 78883 XOR\n2 1 80419 78883 135013 XOR\n2 1 135013 134982 77091 XOR\n2 1 77091 3730 122077 XOR\n2 1 122077 122046 95208 XOR\n2 1 77091 122046 40307 XOR\n2 1 40307 40308 40306 AND\n2 1 40306 122046 122047 XOR\n2 1 3731 122047 40311 XOR\n2 1 78883 134982 60418 XOR\n2 1 60417 60418 60416 AND\n2 1 60416 134982 134983 XOR\n2 1 80420 134983 60420 XOR\n2 1 83491 135044 60507 XOR\n2 1 466 135044 60508 XOR\n2 1 60507 60508 60506 AND\n2 1 60506 135044 135045 XOR\n2 1 135076 135045 78884 XOR\n2 1 80420 78884 135014 XOR\n2 1 135014 134983 77092 XOR\n2 1 77092 3731 122078 XOR\n2 1 122078 122047 95209 XOR\n2 1 77092 122047 40310 XOR\n2 1 40310 40311 40309 AND\n2 1 40309 122047 122048 XOR\n2 1 3732 122048 40314 XOR\n2 1 78884 134983 60421 XOR\n2 1 60420 60421 60419 AND\n2 1 60419 134983 134984 XOR\n2 1 80421 134984 60423 XOR\n2 1 83492 135045 60510 XOR\n2 1 467 135045 60511 XOR\n2 1 60510 60511 60509 AND\n2 1 60509 135045 135046 XOR\n2 1 135077 135046 78885 XOR\n2 1 80421 78885 135015 XOR\n2 1 135015 134984 77093 XOR\n2 1 77093 3732 122079 XOR\n2 1 122079 122048 95210 XOR\n2 1 77093 122048 40313 XOR\n2 1 40313 40314 40312 AND\n2 1 40312 122048 122049 XOR\n2 1 3733 122049 40317 XOR\n2 1 78885 134984 60424 XOR\n",
"2 1 60423 60424 60422 AND\n2 1 60422 134984 134985 XOR\n2 1 80422 134985 60426 XOR\n2 1 83493 135046 60513 XOR\n2 1 468 135046 60514 XOR\n2 1 60513 60514 60512 AND\n2 1 60512 135046 135047 XOR\n2 1 135078 135047 78886 XOR\n2 1 80422 78886 135016 XOR\n2 1 135016 134985 77094 XOR\n2 1 77094 3733 122080 XOR\n2 1 122080 122049 95211 XOR\n2 1 77094 122049 40316 XOR\n2 1 40316 40317 40315 AND\n2 1 40315 122049 122050 XOR\n2 1 3734 122050 40320 XOR\n2 1 78886 134985 60427 XOR\n2 1 60426 60427 60425 AND\n2 1 60425 134985 134986 XOR\n2 1 80423 134986 60429 XOR\n2 1 83494 135047 60516 XOR\n2 1 469 135047 60517 XOR\n2 1 60516 60517 60515 AND\n2 1 60515 135047 135048 XOR\n2 1 135079 135048 78887 XOR\n2 1 80423 78887 135017 XOR\n2 1 135017 134986 77095 XOR\n2 1 77095 3734 122081 XOR\n2 1 122081 122050 95212 XOR\n2 1 77095 122050 40319 XOR\n2 1 40319 40320 40318 AND\n2 1 40318 122050 122051 XOR\n2 1 3735 122051 40323 XOR\n2 1 78887 134986 60430 XOR\n2 1 60429 60430 60428 AND\n2 1 60428 134986 134987 XOR\n2 1 80424 134987 60432 XOR\n2 1 83495 135048 60519 XOR\n2 1 470 135048 60520 XOR\n2 1 60519 60520 60518 AND\n2 1 60518 135048 135049 XOR\n2 1 135080 135049 78888 XOR\n2 1 80424 78888 135018 XOR\n2 1 135018 134987 77096 XOR\n2 1 77096 3735 122082 XOR\n2 1 122082 122051 95213 XOR\n2 1 77096 122051 40322 XOR\n2 1 40322 40323 40321 AND\n2 1 40321 122051 122052 XOR\n2 1 3736 122052 40326 XOR\n2 1 78888 134987 60433 XOR\n2 1 60432 60433 60431 AND\n2 1 60431 134987 134988 XOR\n2 1 80425 134988 60435 XOR\n2 1 83496 135049 60522 XOR\n2 1 471 135049 60523 XOR\n2 1 60522 60523 60521 AND\n2 1 60521 135049 135050 XOR\n2 1 135081 135050 78889 XOR\n2 1 80425 78889 135019 XOR\n2 1 135019 134988 77097 XOR\n2 1 77097 3736 122083 XOR\n2 1 122083 122052 95214 XOR\n2 1 77097 122052 40325 XOR\n2 1 40325 40326 40324 AND\n2 1 40324 122052 122053 XOR\n2 1 3737 122053 40329 XOR\n2 1 78889 134988 60436 XOR\n2 1 60435 60436 60434 AND\n2 1 60434 134988 134989 XOR\n2 1 80426 134989 60438 XOR\n2 1 83497 135050 60525 XOR\n2 1 472 135050 60526 XOR\n2 1 60525 60526 60524 AND\n2 1 60524 135050 135051 XOR\n2 1 135082 135051 78890 XOR\n2 1 80426 78890 135020 XOR\n2 1 135020 134989 77098 XOR\n2 1 77098 3737 122084 XOR\n2 1 122084 122053 95215 XOR\n2 1 77098 122053 40328 XOR\n2 1 40328 40329 40327 AND\n2 1 40327 122053 122054 XOR\n2 1 3738 122054 40332 XOR\n2 1 78890 134989 60439 XOR\n2 1 60438 60439 60437 AND\n2 1 60437 134989 134990 XOR\n2 1 80427 134990 60441 XOR\n2 1 83498 135051 60528 XOR\n2 1 473 135051 60529 XOR\n2 1 60528 60529 60527 AND\n2 1 60527 135051 135052 XOR\n2 1 135083 135052 78891 XOR\n2 1 80427 78891 135021 XOR\n2 1 135021 134990 77099 XOR\n2 1 77099 3738 122085 XOR\n2 1 122085 122054 95216 XOR\n2 1 77099 122054 40331 XOR\n2 1 40331 40332 40330 AND\n2 1 40330 122054 122055 XOR\n2 1 3739 122055 40335 XOR\n2 1 78891 134990 60442 XOR\n2 1 60441 60442 60440 AND\n2 1 60440 134990 134991 XOR\n2 1 80428 134991 60444 XOR\n2 1 83499 135052 60531 XOR\n2 1 474 135052 60532 XOR\n2 1 60531 60532 60530 AND\n2 1 60530 135052 135053 XOR\n2 1 135084 135053 78892 XOR\n2 1 80428 78892 135022 XOR\n2 1 135022 134991 77100 XOR\n2 1 77100 3739 122086 XOR\n2 1 122086 122055 95217 XOR\n2 1 77100 122055 40334 XOR\n2 1 40334 40335 40333 AND\n2 1 40333 122055 122056 XOR\n2 1 3740 122056 40338 XOR\n2 1 78892 134991 60445 XOR\n2 1 60444 60445 60443 AND\n2 1 60443 134991 134992 XOR\n2 1 80429 134992 60447 XOR\n2 1 83500 135053 60534 XOR\n2 1 475 135053 60535 XOR\n2 1 60534 60535 60533 AND\n2 1 60533 135053 135054 XOR\n2 1 135085 135054 78893 XOR\n2 1 80429 78893 135023 XOR\n",
"2 1 135023 134992 77101 XOR\n2 1 77101 3740 122087 XOR\n2 1 122087 122056 95218 XOR\n2 1 77101 122056 40337 XOR\n2 1 40337 40338 40336 AND\n2 1 40336 122056 122057 XOR\n2 1 3741 122057 40341 XOR\n2 1 78893 134992 60448 XOR\n2 1 60447 60448 60446 AND\n2 1 60446 134992 134993 XOR\n2 1 80430 134993 60450 XOR\n2 1 83501 135054 60537 XOR\n2 1 476 135054 60538 XOR\n2 1 60537 60538 60536 AND\n2 1 60536 135054 135055 XOR\n2 1 135086 135055 78894 XOR\n2 1 80430 78894 135024 XOR\n2 1 135024 134993 77102 XOR\n2 1 77102 3741 122088 XOR\n2 1 122088 122057 95219 XOR\n2 1 77102 122057 40340 XOR\n2 1 40340 40341 40339 AND\n2 1 40339 122057 122058 XOR\n2 1 3742 122058 40344 XOR\n2 1 78894 134993 60451 XOR\n2 1 60450 60451 60449 AND\n2 1 60449 134993 134994 XOR\n2 1 80431 134994 60453 XOR\n2 1 83502 135055 60540 XOR\n2 1 477 135055 60541 XOR\n2 1 60540 60541 60539 AND\n2 1 60539 135055 135056 XOR\n2 1 135087 135056 78895 XOR\n2 1 80431 78895 135025 XOR\n2 1 135025 134994 77103 XOR\n2 1 77103 3742 122089 XOR\n2 1 122089 122058 95220 XOR\n2 1 77103 122058 40343 XOR\n2 1 40343 40344 40342 AND\n2 1 40342 122058 122059 XOR\n2 1 78895 134994 60454 XOR\n2 1 60453 60454 60452 AND\n2 1 60452 134994 134995 XOR\n2 1 83503 135056 60543 XOR\n2 1 478 135056 60544 XOR\n2 1 60543 60544 60542 AND\n2 1 60542 135056 135057 XOR\n2 1 135088 135057 78896 XOR\n2 1 80432 78896 135026 XOR\n2 1 135026 134995 77104 XOR\n2 1 77104 3743 122090 XOR\n2 1 122090 122059 95221 XOR\n2 1 77089 77091 81904 XOR\n2 1 81904 127 134778 XOR\n2 1 77088 77090 81903 XOR\n2 1 81903 126 134777 XOR\n2 1 77087 77089 81902 XOR\n2 1 81902 125 134776 XOR\n2 1 77086 77088 81901 XOR\n2 1 81901 124 134775 XOR\n2 1 77085 77087 81900 XOR\n2 1 81900 123 134774 XOR\n2 1 77084 77086 81899 XOR\n2 1 81899 122 134773 XOR\n2 1 77083 77085 81898 XOR\n2 1 81898 121 134772 XOR\n2 1 77082 77084 81897 XOR\n2 1 81897 120 134771 XOR\n2 1 77081 77083 81896 XOR\n2 1 81896 119 134770 XOR\n2 1 77080 77082 81895 XOR\n2 1 81895 118 134769 XOR\n2 1 77079 77081 7101 XOR\n2 1 77078 77080 7100 XOR\n2 1 77077 77079 7099 XOR\n2 1 77076 77078 7098 XOR\n2 1 77075 77077 7097 XOR\n2 1 77074 77076 7096 XOR\n2 1 77073 77075 7095 XOR\n2 1 77104 77074 7094 XOR\n2 1 77103 77073 7093 XOR\n2 1 77102 77104 7092 XOR\n2 1 77101 77103 7091 XOR\n2 1 77100 77102 7090 XOR\n2 1 77099 77101 7089 XOR\n2 1 77098 77100 7088 XOR\n2 1 77097 77099 7087 XOR\n2 1 77096 77098 7086 XOR\n2 1 77095 77097 7085 XOR\n2 1 77094 77096 7084 XOR\n2 1 77093 77095 7083 XOR\n2 1 77092 77094 7082 XOR\n2 1 77091 77093 7081 XOR\n2 1 77090 77092 7080 XOR\n2 1 7101 77104 81894 XOR\n2 1 81894 117 134768 XOR\n2 1 7100 77103 81893 XOR\n2 1 81893 116 134767 XOR\n2 1 7099 77102 81892 XOR\n2 1 81892 115 134766 XOR\n2 1 7098 77101 81891 XOR\n2 1 81891 114 134765 XOR\n2 1 7097 77100 81890 XOR\n2 1 81890 113 134764 XOR\n2 1 7096 77099 81889 XOR\n2 1 81889 112 134763 XOR\n2 1 7095 77098 81888 XOR\n2 1 81888 111 134762 XOR\n2 1 7094 77097 81887 XOR\n2 1 81887 110 134761 XOR\n2 1 7093 77096 81886 XOR\n2 1 81886 109 134760 XOR\n2 1 7092 77095 81885 XOR\n2 1 81885 108 134759 XOR\n2 1 7091 77094 81884 XOR\n2 1 81884 107 134758 XOR\n2 1 7090 77093 81883 XOR\n2 1 81883 106 134757 XOR\n2 1 7089 77092 81882 XOR\n2 1 81882 105 134756 XOR\n2 1 7088 77091 81881 XOR\n2 1 81881 104 134755 XOR\n2 1 7087 77090 81880 XOR\n2 1 81880 103 134754 XOR\n2 1 7086 77089 81879 XOR\n2 1 81879 102 134753 XOR\n2 1 7085 77088 81878 XOR\n2 1 81878 101 134752 XOR\n",
"2 1 7084 77087 81877 XOR\n2 1 81877 100 134751 XOR\n2 1 7083 77086 81876 XOR\n2 1 81876 99 134750 XOR\n2 1 7082 77085 81875 XOR\n2 1 81875 98 134749 XOR\n2 1 7081 77084 81874 XOR\n2 1 81874 97 134748 XOR\n2 1 7080 77083 81873 XOR\n2 1 81873 96 134717 AND\n2 1 81873 96 80337 XOR\n2 1 134748 134717 80338 XOR\n2 1 81874 134717 60006 XOR\n2 1 97 134717 60007 XOR\n2 1 60006 60007 60005 AND\n2 1 60005 134717 134718 XOR\n2 1 134749 134718 80339 XOR\n2 1 81875 134718 60009 XOR\n2 1 98 134718 60010 XOR\n2 1 60009 60010 60008 AND\n2 1 60008 134718 134719 XOR\n2 1 134750 134719 80340 XOR\n2 1 81876 134719 60012 XOR\n2 1 99 134719 60013 XOR\n2 1 60012 60013 60011 AND\n2 1 60011 134719 134720 XOR\n2 1 134751 134720 80341 XOR\n2 1 81877 134720 60015 XOR\n2 1 100 134720 60016 XOR\n2 1 60015 60016 60014 AND\n2 1 60014 134720 134721 XOR\n2 1 134752 134721 80342 XOR\n2 1 81878 134721 60018 XOR\n2 1 101 134721 60019 XOR\n2 1 60018 60019 60017 AND\n2 1 60017 134721 134722 XOR\n2 1 134753 134722 80343 XOR\n2 1 81879 134722 60021 XOR\n2 1 102 134722 60022 XOR\n2 1 60021 60022 60020 AND\n2 1 60020 134722 134723 XOR\n2 1 134754 134723 80344 XOR\n2 1 81880 134723 60024 XOR\n2 1 103 134723 60025 XOR\n2 1 60024 60025 60023 AND\n2 1 60023 134723 134724 XOR\n2 1 134755 134724 80345 XOR\n2 1 81881 134724 60027 XOR\n2 1 104 134724 60028 XOR\n2 1 60027 60028 60026 AND\n2 1 60026 134724 134725 XOR\n2 1 134756 134725 80346 XOR\n2 1 81882 134725 60030 XOR\n2 1 105 134725 60031 XOR\n2 1 60030 60031 60029 AND\n2 1 60029 134725 134726 XOR\n2 1 134757 134726 80347 XOR\n2 1 81883 134726 60033 XOR\n2 1 106 134726 60034 XOR\n2 1 60033 60034 60032 AND\n2 1 60032 134726 134727 XOR\n2 1 134758 134727 80348 XOR\n2 1 81884 134727 60036 XOR\n2 1 107 134727 60037 XOR\n2 1 60036 60037 60035 AND\n2 1 60035 134727 134728 XOR\n2 1 134759 134728 80349 XOR\n2 1 81885 134728 60039 XOR\n2 1 108 134728 60040 XOR\n2 1 60039 60040 60038 AND\n2 1 60038 134728 134729 XOR\n2 1 134760 134729 80350 XOR\n2 1 81886 134729 60042 XOR\n2 1 109 134729 60043 XOR\n2 1 60042 60043 60041 AND\n2 1 60041 134729 134730 XOR\n2 1 134761 134730 80351 XOR\n2 1 81887 134730 60045 XOR\n2 1 110 134730 60046 XOR\n2 1 60045 60046 60044 AND\n2 1 60044 134730 134731 XOR\n2 1 134762 134731 80352 XOR\n2 1 81888 134731 60048 XOR\n2 1 111 134731 60049 XOR\n2 1 60048 60049 60047 AND\n2 1 60047 134731 134732 XOR\n2 1 134763 134732 80353 XOR\n2 1 81889 134732 60051 XOR\n2 1 112 134732 60052 XOR\n2 1 60051 60052 60050 AND\n2 1 60050 134732 134733 XOR\n2 1 134764 134733 80354 XOR\n2 1 81890 134733 60054 XOR\n2 1 113 134733 60055 XOR\n2 1 60054 60055 60053 AND\n2 1 60053 134733 134734 XOR\n2 1 134765 134734 80355 XOR\n2 1 81891 134734 60057 XOR\n2 1 114 134734 60058 XOR\n2 1 60057 60058 60056 AND\n2 1 60056 134734 134735 XOR\n2 1 134766 134735 80356 XOR\n2 1 81892 134735 60060 XOR\n2 1 115 134735 60061 XOR\n2 1 60060 60061 60059 AND\n2 1 60059 134735 134736 XOR\n2 1 134767 134736 80357 XOR\n2 1 81893 134736 60063 XOR\n2 1 116 134736 60064 XOR\n2 1 60063 60064 60062 AND\n2 1 60062 134736 134737 XOR\n2 1 134768 134737 80358 XOR\n2 1 81894 134737 60066 XOR\n2 1 117 134737 60067 XOR\n2 1 60066 60067 60065 AND\n2 1 60065 134737 134738 XOR\n2 1 134769 134738 80359 XOR\n2 1 81895 134738 60069 XOR\n2 1 118 134738 60070 XOR\n2 1 60069 60070 60068 AND\n2 1 60068 134738 134739 XOR\n2 1 134770 134739 80360 XOR\n2 1 81896 134739 60072 XOR\n2 1 119 134739 60073 XOR\n2 1 60072 60073 60071 AND\n2 1 60071 134739 134740 XOR\n2 1 134771 134740 80361 XOR\n2 1 81897 134740 60075 XOR\n",
"2 1 120 134740 60076 XOR\n2 1 60075 60076 60074 AND\n2 1 60074 134740 134741 XOR\n2 1 134772 134741 80362 XOR\n2 1 81898 134741 60078 XOR\n2 1 121 134741 60079 XOR\n2 1 60078 60079 60077 AND\n2 1 60077 134741 134742 XOR\n2 1 134773 134742 80363 XOR\n2 1 81899 134742 60081 XOR\n2 1 122 134742 60082 XOR\n2 1 60081 60082 60080 AND\n2 1 60080 134742 134743 XOR\n2 1 134774 134743 80364 XOR\n2 1 81900 134743 60084 XOR\n2 1 123 134743 60085 XOR\n2 1 60084 60085 60083 AND\n2 1 60083 134743 134744 XOR\n2 1 134775 134744 80365 XOR\n2 1 81901 134744 60087 XOR\n2 1 124 134744 60088 XOR\n2 1 60087 60088 60086 AND\n2 1 60086 134744 134745 XOR\n2 1 134776 134745 80366 XOR\n2 1 81902 134745 60090 XOR\n2 1 125 134745 60091 XOR\n2 1 60090 60091 60089 AND\n2 1 60089 134745 134746 XOR\n2 1 134777 134746 80367 XOR\n2 1 81903 134746 60093 XOR\n2 1 126 134746 60094 XOR\n2 1 60093 60094 60092 AND\n2 1 60092 134746 134747 XOR\n2 1 134778 134747 80368 XOR\n2 1 390 401 83472 XOR\n2 1 83472 447 134902 XOR\n2 1 389 400 83471 XOR\n2 1 83471 446 134901 XOR\n2 1 388 399 83470 XOR\n2 1 83470 445 134900 XOR\n2 1 387 398 6082 XOR\n2 1 386 397 6081 XOR\n2 1 385 396 6080 XOR\n2 1 384 395 6079 XOR\n2 1 415 394 6078 XOR\n2 1 414 393 6077 XOR\n2 1 413 392 6076 XOR\n2 1 412 391 6075 XOR\n2 1 411 390 6074 XOR\n2 1 410 389 6073 XOR\n2 1 409 388 6072 XOR\n2 1 408 387 6071 XOR\n2 1 407 386 6070 XOR\n2 1 406 385 6069 XOR\n2 1 405 384 6068 XOR\n2 1 404 415 6067 XOR\n2 1 403 414 6066 XOR\n2 1 402 413 6065 XOR\n2 1 401 412 6064 XOR\n2 1 400 411 6063 XOR\n2 1 399 410 6062 XOR\n2 1 398 409 6061 XOR\n2 1 397 408 6060 XOR\n2 1 396 407 6059 XOR\n2 1 395 406 6058 XOR\n2 1 394 405 6057 XOR\n2 1 393 404 6056 XOR\n2 1 392 403 6055 XOR\n2 1 391 402 6054 XOR\n2 1 6082 415 83469 XOR\n2 1 83469 444 134899 XOR\n2 1 6081 414 83468 XOR\n2 1 83468 443 134898 XOR\n2 1 6080 413 83467 XOR\n2 1 83467 442 134897 XOR\n2 1 6079 412 83466 XOR\n2 1 83466 441 134896 XOR\n2 1 6078 411 83465 XOR\n2 1 83465 440 134895 XOR\n2 1 6077 410 83464 XOR\n2 1 83464 439 134894 XOR\n2 1 6076 409 83463 XOR\n2 1 83463 438 134893 XOR\n2 1 6075 408 83462 XOR\n2 1 83462 437 134892 XOR\n2 1 6074 407 83461 XOR\n2 1 83461 436 134891 XOR\n2 1 6073 406 83460 XOR\n2 1 83460 435 134890 XOR\n2 1 6072 405 83459 XOR\n2 1 83459 434 134889 XOR\n2 1 6071 404 83458 XOR\n2 1 83458 433 134888 XOR\n2 1 6070 403 83457 XOR\n2 1 83457 432 134887 XOR\n2 1 6069 402 83456 XOR\n2 1 83456 431 134886 XOR\n2 1 6068 401 83455 XOR\n2 1 83455 430 134885 XOR\n2 1 6067 400 83454 XOR\n2 1 83454 429 134884 XOR\n2 1 6066 399 83453 XOR\n2 1 83453 428 134883 XOR\n2 1 6065 398 83452 XOR\n2 1 83452 427 134882 XOR\n2 1 6064 397 83451 XOR\n2 1 83451 426 134881 XOR\n2 1 6063 396 83450 XOR\n2 1 83450 425 134880 XOR\n2 1 6062 395 83449 XOR\n2 1 83449 424 134879 XOR\n2 1 6061 394 83448 XOR\n2 1 83448 423 134878 XOR\n2 1 6060 393 83447 XOR\n2 1 83447 422 134877 XOR\n2 1 6059 392 83446 XOR\n2 1 83446 421 134876 XOR\n2 1 6058 391 83445 XOR\n2 1 83445 420 134875 XOR\n2 1 6057 390 83444 XOR\n2 1 83444 419 134874 XOR\n2 1 6056 389 83443 XOR\n2 1 83443 418 134873 XOR\n2 1 6055 388 83442 XOR\n2 1 83442 417 134872 XOR\n2 1 6054 387 83441 XOR\n2 1 83441 416 134841 AND\n2 1 83441 416 78833 XOR\n",
"2 1 134872 134841 78834 XOR\n2 1 83442 134841 60186 XOR\n2 1 417 134841 60187 XOR\n2 1 60186 60187 60185 AND\n2 1 60185 134841 134842 XOR\n2 1 134873 134842 78835 XOR\n2 1 83443 134842 60189 XOR\n2 1 418 134842 60190 XOR\n2 1 60189 60190 60188 AND\n2 1 60188 134842 134843 XOR\n2 1 134874 134843 78836 XOR\n2 1 83444 134843 60192 XOR\n2 1 419 134843 60193 XOR\n2 1 60192 60193 60191 AND\n2 1 60191 134843 134844 XOR\n2 1 134875 134844 78837 XOR\n2 1 83445 134844 60195 XOR\n2 1 420 134844 60196 XOR\n2 1 60195 60196 60194 AND\n2 1 60194 134844 134845 XOR\n2 1 134876 134845 78838 XOR\n2 1 83446 134845 60198 XOR\n2 1 421 134845 60199 XOR\n2 1 60198 60199 60197 AND\n2 1 60197 134845 134846 XOR\n2 1 134877 134846 78839 XOR\n2 1 83447 134846 60201 XOR\n2 1 422 134846 60202 XOR\n2 1 60201 60202 60200 AND\n2 1 60200 134846 134847 XOR\n2 1 134878 134847 78840 XOR\n2 1 83448 134847 60204 XOR\n2 1 423 134847 60205 XOR\n2 1 60204 60205 60203 AND\n2 1 60203 134847 134848 XOR\n2 1 134879 134848 78841 XOR\n2 1 83449 134848 60207 XOR\n2 1 424 134848 60208 XOR\n2 1 60207 60208 60206 AND\n2 1 60206 134848 134849 XOR\n2 1 134880 134849 78842 XOR\n2 1 83450 134849 60210 XOR\n2 1 425 134849 60211 XOR\n2 1 60210 60211 60209 AND\n2 1 60209 134849 134850 XOR\n2 1 134881 134850 78843 XOR\n2 1 83451 134850 60213 XOR\n2 1 426 134850 60214 XOR\n2 1 60213 60214 60212 AND\n2 1 60212 134850 134851 XOR\n2 1 134882 134851 78844 XOR\n2 1 83452 134851 60216 XOR\n2 1 427 134851 60217 XOR\n2 1 60216 60217 60215 AND\n2 1 60215 134851 134852 XOR\n2 1 134883 134852 78845 XOR\n2 1 83453 134852 60219 XOR\n2 1 428 134852 60220 XOR\n2 1 60219 60220 60218 AND\n2 1 60218 134852 134853 XOR\n2 1 134884 134853 78846 XOR\n2 1 83454 134853 60222 XOR\n2 1 429 134853 60223 XOR\n2 1 60222 60223 60221 AND\n2 1 60221 134853 134854 XOR\n2 1 134885 134854 78847 XOR\n2 1 83455 134854 60225 XOR\n2 1 430 134854 60226 XOR\n2 1 60225 60226 60224 AND\n2 1 60224 134854 134855 XOR\n2 1 134886 134855 78848 XOR\n2 1 83456 134855 60228 XOR\n2 1 431 134855 60229 XOR\n2 1 60228 60229 60227 AND\n2 1 60227 134855 134856 XOR\n2 1 134887 134856 78849 XOR\n2 1 83457 134856 60231 XOR\n2 1 432 134856 60232 XOR\n2 1 60231 60232 60230 AND\n2 1 60230 134856 134857 XOR\n2 1 134888 134857 78850 XOR\n2 1 83458 134857 60234 XOR\n2 1 433 134857 60235 XOR\n2 1 60234 60235 60233 AND\n2 1 60233 134857 134858 XOR\n2 1 134889 134858 78851 XOR\n2 1 83459 134858 60237 XOR\n2 1 434 134858 60238 XOR\n2 1 60237 60238 60236 AND\n2 1 60236 134858 134859 XOR\n2 1 134890 134859 78852 XOR\n2 1 83460 134859 60240 XOR\n2 1 435 134859 60241 XOR\n2 1 60240 60241 60239 AND\n2 1 60239 134859 134860 XOR\n2 1 134891 134860 78853 XOR\n2 1 83461 134860 60243 XOR\n2 1 436 134860 60244 XOR\n2 1 60243 60244 60242 AND\n2 1 60242 134860 134861 XOR\n2 1 134892 134861 78854 XOR\n2 1 83462 134861 60246 XOR\n2 1 437 134861 60247 XOR\n2 1 60246 60247 60245 AND\n2 1 60245 134861 134862 XOR\n2 1 134893 134862 78855 XOR\n2 1 83463 134862 60249 XOR\n2 1 438 134862 60250 XOR\n2 1 60249 60250 60248 AND\n2 1 60248 134862 134863 XOR\n2 1 134894 134863 78856 XOR\n2 1 83464 134863 60252 XOR\n2 1 439 134863 60253 XOR\n2 1 60252 60253 60251 AND\n2 1 60251 134863 134864 XOR\n2 1 134895 134864 78857 XOR\n2 1 83465 134864 60255 XOR\n2 1 440 134864 60256 XOR\n2 1 60255 60256 60254 AND\n2 1 60254 134864 134865 XOR\n2 1 134896 134865 78858 XOR\n2 1 83466 134865 60258 XOR\n2 1 441 134865 60259 XOR\n2 1 60258 60259 60257 AND\n2 1 60257 134865 134866 XOR\n2 1 134897 134866 78859 XOR\n2 1 83467 134866 60261 XOR\n2 1 442 134866 60262 XOR\n",
"2 1 60261 60262 60260 AND\n2 1 60260 134866 134867 XOR\n2 1 134898 134867 78860 XOR\n2 1 83468 134867 60264 XOR\n2 1 443 134867 60265 XOR\n2 1 60264 60265 60263 AND\n2 1 60263 134867 134868 XOR\n2 1 134899 134868 78861 XOR\n2 1 83469 134868 60267 XOR\n2 1 444 134868 60268 XOR\n2 1 60267 60268 60266 AND\n2 1 60266 134868 134869 XOR\n2 1 134900 134869 78862 XOR\n2 1 83470 134869 60270 XOR\n2 1 445 134869 60271 XOR\n2 1 60270 60271 60269 AND\n2 1 60269 134869 134870 XOR\n2 1 134901 134870 78863 XOR\n2 1 83471 134870 60273 XOR\n2 1 446 134870 60274 XOR\n2 1 60273 60274 60272 AND\n2 1 60272 134870 134871 XOR\n2 1 134902 134871 78864 XOR\n2 1 358 369 83440 XOR\n2 1 83440 415 134716 XOR\n2 1 357 368 83439 XOR\n2 1 83439 414 134715 XOR\n2 1 356 367 83438 XOR\n2 1 83438 413 134714 XOR\n2 1 355 366 6053 XOR\n2 1 354 365 6052 XOR\n2 1 353 364 6051 XOR\n2 1 352 363 6050 XOR\n2 1 383 362 6049 XOR\n2 1 382 361 6048 XOR\n2 1 381 360 6047 XOR\n2 1 380 359 6046 XOR\n2 1 379 358 6045 XOR\n2 1 378 357 6044 XOR\n2 1 377 356 6043 XOR\n2 1 376 355 6042 XOR\n2 1 375 354 6041 XOR\n2 1 374 353 6040 XOR\n2 1 373 352 6039 XOR\n2 1 372 383 6038 XOR\n2 1 371 382 6037 XOR\n2 1 370 381 6036 XOR\n2 1 369 380 6035 XOR\n2 1 368 379 6034 XOR\n2 1 367 378 6033 XOR\n2 1 366 377 6032 XOR\n2 1 365 376 6031 XOR\n2 1 364 375 6030 XOR\n2 1 363 374 6029 XOR\n2 1 362 373 6028 XOR\n2 1 361 372 6027 XOR\n2 1 360 371 6026 XOR\n2 1 359 370 6025 XOR\n2 1 6053 383 83437 XOR\n2 1 83437 412 134713 XOR\n2 1 6052 382 83436 XOR\n2 1 83436 411 134712 XOR\n2 1 6051 381 83435 XOR\n2 1 83435 410 134711 XOR\n2 1 6050 380 83434 XOR\n2 1 83434 409 134710 XOR\n2 1 6049 379 83433 XOR\n2 1 83433 408 134709 XOR\n2 1 6048 378 83432 XOR\n2 1 83432 407 134708 XOR\n2 1 6047 377 83431 XOR\n2 1 83431 406 134707 XOR\n2 1 6046 376 83430 XOR\n2 1 83430 405 134706 XOR\n2 1 6045 375 83429 XOR\n2 1 83429 404 134705 XOR\n2 1 6044 374 83428 XOR\n2 1 83428 403 134704 XOR\n2 1 6043 373 83427 XOR\n2 1 83427 402 134703 XOR\n2 1 6042 372 83426 XOR\n2 1 83426 401 134702 XOR\n2 1 6041 371 83425 XOR\n2 1 83425 400 134701 XOR\n2 1 6040 370 83424 XOR\n2 1 83424 399 134700 XOR\n2 1 6039 369 83423 XOR\n2 1 83423 398 134699 XOR\n2 1 6038 368 83422 XOR\n2 1 83422 397 134698 XOR\n2 1 6037 367 83421 XOR\n2 1 83421 396 134697 XOR\n2 1 6036 366 83420 XOR\n2 1 83420 395 134696 XOR\n2 1 6035 365 83419 XOR\n2 1 83419 394 134695 XOR\n2 1 6034 364 83418 XOR\n2 1 83418 393 134694 XOR\n2 1 6033 363 83417 XOR\n2 1 83417 392 134693 XOR\n2 1 6032 362 83416 XOR\n2 1 83416 391 134692 XOR\n2 1 6031 361 83415 XOR\n2 1 83415 390 134691 XOR\n2 1 6030 360 83414 XOR\n2 1 83414 389 134690 XOR\n2 1 6029 359 83413 XOR\n2 1 83413 388 134689 XOR\n2 1 6028 358 83412 XOR\n2 1 83412 387 134688 XOR\n2 1 6027 357 83411 XOR\n2 1 83411 386 134687 XOR\n2 1 6026 356 83410 XOR\n2 1 83410 385 134686 XOR\n2 1 6025 355 83409 XOR\n2 1 83409 384 134655 AND\n2 1 83409 384 78801 XOR\n2 1 80337 78801 134593 AND\n2 1 80337 78801 77009 XOR\n2 1 77009 3648 121533 AND\n2 1 77009 3648 95126 XOR\n2 1 3649 121533 39323 XOR\n2 1 80338 134593 59826 XOR\n2 1 134686 134655 78802 XOR\n2 1 80338 78802 134624 XOR\n2 1 134624 134593 77010 XOR\n2 1 77010 3649 121564 XOR\n2 1 121564 121533 95127 XOR\n",
"2 1 77010 121533 39322 XOR\n2 1 39322 39323 39321 AND\n2 1 39321 121533 121534 XOR\n2 1 3650 121534 39326 XOR\n2 1 78802 134593 59827 XOR\n2 1 59826 59827 59825 AND\n2 1 59825 134593 134594 XOR\n2 1 80339 134594 59829 XOR\n2 1 83410 134655 59916 XOR\n2 1 385 134655 59917 XOR\n2 1 59916 59917 59915 AND\n2 1 59915 134655 134656 XOR\n2 1 134687 134656 78803 XOR\n2 1 80339 78803 134625 XOR\n2 1 134625 134594 77011 XOR\n2 1 77011 3650 121565 XOR\n2 1 121565 121534 95128 XOR\n2 1 77011 121534 39325 XOR\n2 1 39325 39326 39324 AND\n2 1 39324 121534 121535 XOR\n2 1 3651 121535 39329 XOR\n2 1 78803 134594 59830 XOR\n2 1 59829 59830 59828 AND\n2 1 59828 134594 134595 XOR\n2 1 80340 134595 59832 XOR\n2 1 83411 134656 59919 XOR\n2 1 386 134656 59920 XOR\n2 1 59919 59920 59918 AND\n2 1 59918 134656 134657 XOR\n2 1 134688 134657 78804 XOR\n2 1 80340 78804 134626 XOR\n2 1 134626 134595 77012 XOR\n2 1 77012 3651 121566 XOR\n2 1 121566 121535 95129 XOR\n2 1 77012 121535 39328 XOR\n2 1 39328 39329 39327 AND\n2 1 39327 121535 121536 XOR\n2 1 3652 121536 39332 XOR\n2 1 78804 134595 59833 XOR\n2 1 59832 59833 59831 AND\n2 1 59831 134595 134596 XOR\n2 1 80341 134596 59835 XOR\n2 1 83412 134657 59922 XOR\n2 1 387 134657 59923 XOR\n2 1 59922 59923 59921 AND\n2 1 59921 134657 134658 XOR\n2 1 134689 134658 78805 XOR\n2 1 80341 78805 134627 XOR\n2 1 134627 134596 77013 XOR\n2 1 77013 3652 121567 XOR\n2 1 121567 121536 95130 XOR\n2 1 77013 121536 39331 XOR\n2 1 39331 39332 39330 AND\n2 1 39330 121536 121537 XOR\n2 1 3653 121537 39335 XOR\n2 1 78805 134596 59836 XOR\n2 1 59835 59836 59834 AND\n2 1 59834 134596 134597 XOR\n2 1 80342 134597 59838 XOR\n2 1 83413 134658 59925 XOR\n2 1 388 134658 59926 XOR\n2 1 59925 59926 59924 AND\n2 1 59924 134658 134659 XOR\n2 1 134690 134659 78806 XOR\n2 1 80342 78806 134628 XOR\n2 1 134628 134597 77014 XOR\n2 1 77014 3653 121568 XOR\n2 1 121568 121537 95131 XOR\n2 1 77014 121537 39334 XOR\n2 1 39334 39335 39333 AND\n2 1 39333 121537 121538 XOR\n2 1 3654 121538 39338 XOR\n2 1 78806 134597 59839 XOR\n2 1 59838 59839 59837 AND\n2 1 59837 134597 134598 XOR\n2 1 80343 134598 59841 XOR\n2 1 83414 134659 59928 XOR\n2 1 389 134659 59929 XOR\n2 1 59928 59929 59927 AND\n2 1 59927 134659 134660 XOR\n2 1 134691 134660 78807 XOR\n2 1 80343 78807 134629 XOR\n2 1 134629 134598 77015 XOR\n2 1 77015 3654 121569 XOR\n2 1 121569 121538 95132 XOR\n2 1 77015 121538 39337 XOR\n2 1 39337 39338 39336 AND\n2 1 39336 121538 121539 XOR\n2 1 3655 121539 39341 XOR\n2 1 78807 134598 59842 XOR\n2 1 59841 59842 59840 AND\n2 1 59840 134598 134599 XOR\n2 1 80344 134599 59844 XOR\n2 1 83415 134660 59931 XOR\n2 1 390 134660 59932 XOR\n2 1 59931 59932 59930 AND\n2 1 59930 134660 134661 XOR\n2 1 134692 134661 78808 XOR\n2 1 80344 78808 134630 XOR\n2 1 134630 134599 77016 XOR\n2 1 77016 3655 121570 XOR\n2 1 121570 121539 95133 XOR\n2 1 77016 121539 39340 XOR\n2 1 39340 39341 39339 AND\n2 1 39339 121539 121540 XOR\n2 1 3656 121540 39344 XOR\n2 1 78808 134599 59845 XOR\n2 1 59844 59845 59843 AND\n2 1 59843 134599 134600 XOR\n2 1 80345 134600 59847 XOR\n2 1 83416 134661 59934 XOR\n2 1 391 134661 59935 XOR\n2 1 59934 59935 59933 AND\n2 1 59933 134661 134662 XOR\n2 1 134693 134662 78809 XOR\n2 1 80345 78809 134631 XOR\n2 1 134631 134600 77017 XOR\n2 1 77017 3656 121571 XOR\n2 1 121571 121540 95134 XOR\n2 1 77017 121540 39343 XOR\n2 1 39343 39344 39342 AND\n2 1 39342 121540 121541 XOR\n2 1 3657 121541 39347 XOR\n2 1 78809 134600 59848 XOR\n2 1 59847 59848 59846 AND\n2 1 59846 134600 134601 XOR\n2 1 80346 134601 59850 XOR\n2 1 83417 134662 59937 XOR\n",
"2 1 392 134662 59938 XOR\n2 1 59937 59938 59936 AND\n2 1 59936 134662 134663 XOR\n2 1 134694 134663 78810 XOR\n2 1 80346 78810 134632 XOR\n2 1 134632 134601 77018 XOR\n2 1 77018 3657 121572 XOR\n2 1 121572 121541 95135 XOR\n2 1 77018 121541 39346 XOR\n2 1 39346 39347 39345 AND\n2 1 39345 121541 121542 XOR\n2 1 3658 121542 39350 XOR\n2 1 78810 134601 59851 XOR\n2 1 59850 59851 59849 AND\n2 1 59849 134601 134602 XOR\n2 1 80347 134602 59853 XOR\n2 1 83418 134663 59940 XOR\n2 1 393 134663 59941 XOR\n2 1 59940 59941 59939 AND\n2 1 59939 134663 134664 XOR\n2 1 134695 134664 78811 XOR\n2 1 80347 78811 134633 XOR\n2 1 134633 134602 77019 XOR\n2 1 77019 3658 121573 XOR\n2 1 121573 121542 95136 XOR\n2 1 77019 121542 39349 XOR\n2 1 39349 39350 39348 AND\n2 1 39348 121542 121543 XOR\n2 1 3659 121543 39353 XOR\n2 1 78811 134602 59854 XOR\n2 1 59853 59854 59852 AND\n2 1 59852 134602 134603 XOR\n2 1 80348 134603 59856 XOR\n2 1 83419 134664 59943 XOR\n2 1 394 134664 59944 XOR\n2 1 59943 59944 59942 AND\n2 1 59942 134664 134665 XOR\n2 1 134696 134665 78812 XOR\n2 1 80348 78812 134634 XOR\n2 1 134634 134603 77020 XOR\n2 1 77020 3659 121574 XOR\n2 1 121574 121543 95137 XOR\n2 1 77020 121543 39352 XOR\n2 1 39352 39353 39351 AND\n2 1 39351 121543 121544 XOR\n2 1 3660 121544 39356 XOR\n2 1 78812 134603 59857 XOR\n2 1 59856 59857 59855 AND\n2 1 59855 134603 134604 XOR\n2 1 80349 134604 59859 XOR\n2 1 83420 134665 59946 XOR\n2 1 395 134665 59947 XOR\n2 1 59946 59947 59945 AND\n2 1 59945 134665 134666 XOR\n2 1 134697 134666 78813 XOR\n2 1 80349 78813 134635 XOR\n2 1 134635 134604 77021 XOR\n2 1 77021 3660 121575 XOR\n2 1 121575 121544 95138 XOR\n2 1 77021 121544 39355 XOR\n2 1 39355 39356 39354 AND\n2 1 39354 121544 121545 XOR\n2 1 3661 121545 39359 XOR\n2 1 78813 134604 59860 XOR\n2 1 59859 59860 59858 AND\n2 1 59858 134604 134605 XOR\n2 1 80350 134605 59862 XOR\n2 1 83421 134666 59949 XOR\n2 1 396 134666 59950 XOR\n2 1 59949 59950 59948 AND\n2 1 59948 134666 134667 XOR\n2 1 134698 134667 78814 XOR\n2 1 80350 78814 134636 XOR\n2 1 134636 134605 77022 XOR\n2 1 77022 3661 121576 XOR\n2 1 121576 121545 95139 XOR\n2 1 77022 121545 39358 XOR\n2 1 39358 39359 39357 AND\n2 1 39357 121545 121546 XOR\n2 1 3662 121546 39362 XOR\n2 1 78814 134605 59863 XOR\n2 1 59862 59863 59861 AND\n2 1 59861 134605 134606 XOR\n2 1 80351 134606 59865 XOR\n2 1 83422 134667 59952 XOR\n2 1 397 134667 59953 XOR\n2 1 59952 59953 59951 AND\n2 1 59951 134667 134668 XOR\n2 1 134699 134668 78815 XOR\n2 1 80351 78815 134637 XOR\n2 1 134637 134606 77023 XOR\n2 1 77023 3662 121577 XOR\n2 1 121577 121546 95140 XOR\n2 1 77023 121546 39361 XOR\n2 1 39361 39362 39360 AND\n2 1 39360 121546 121547 XOR\n2 1 3663 121547 39365 XOR\n2 1 78815 134606 59866 XOR\n2 1 59865 59866 59864 AND\n2 1 59864 134606 134607 XOR\n2 1 80352 134607 59868 XOR\n2 1 83423 134668 59955 XOR\n2 1 398 134668 59956 XOR\n2 1 59955 59956 59954 AND\n2 1 59954 134668 134669 XOR\n2 1 134700 134669 78816 XOR\n2 1 80352 78816 134638 XOR\n2 1 134638 134607 77024 XOR\n2 1 77024 3663 121578 XOR\n2 1 121578 121547 95141 XOR\n2 1 77024 121547 39364 XOR\n2 1 39364 39365 39363 AND\n2 1 39363 121547 121548 XOR\n2 1 3664 121548 39368 XOR\n2 1 78816 134607 59869 XOR\n2 1 59868 59869 59867 AND\n2 1 59867 134607 134608 XOR\n2 1 80353 134608 59871 XOR\n2 1 83424 134669 59958 XOR\n2 1 399 134669 59959 XOR\n2 1 59958 59959 59957 AND\n2 1 59957 134669 134670 XOR\n2 1 134701 134670 78817 XOR\n2 1 80353 78817 134639 XOR\n2 1 134639 134608 77025 XOR\n2 1 77025 3664 121579 XOR\n2 1 121579 121548 95142 XOR\n2 1 77025 121548 39367 XOR\n",
"2 1 39367 39368 39366 AND\n2 1 39366 121548 121549 XOR\n2 1 3665 121549 39371 XOR\n2 1 78817 134608 59872 XOR\n2 1 59871 59872 59870 AND\n2 1 59870 134608 134609 XOR\n2 1 80354 134609 59874 XOR\n2 1 83425 134670 59961 XOR\n2 1 400 134670 59962 XOR\n2 1 59961 59962 59960 AND\n2 1 59960 134670 134671 XOR\n2 1 134702 134671 78818 XOR\n2 1 80354 78818 134640 XOR\n2 1 134640 134609 77026 XOR\n2 1 77026 3665 121580 XOR\n2 1 121580 121549 95143 XOR\n2 1 77026 121549 39370 XOR\n2 1 39370 39371 39369 AND\n2 1 39369 121549 121550 XOR\n2 1 3666 121550 39374 XOR\n2 1 78818 134609 59875 XOR\n2 1 59874 59875 59873 AND\n2 1 59873 134609 134610 XOR\n2 1 80355 134610 59877 XOR\n2 1 83426 134671 59964 XOR\n2 1 401 134671 59965 XOR\n2 1 59964 59965 59963 AND\n2 1 59963 134671 134672 XOR\n2 1 134703 134672 78819 XOR\n2 1 80355 78819 134641 XOR\n2 1 134641 134610 77027 XOR\n2 1 77027 3666 121581 XOR\n2 1 121581 121550 95144 XOR\n2 1 77027 121550 39373 XOR\n2 1 39373 39374 39372 AND\n2 1 39372 121550 121551 XOR\n2 1 3667 121551 39377 XOR\n2 1 78819 134610 59878 XOR\n2 1 59877 59878 59876 AND\n2 1 59876 134610 134611 XOR\n2 1 80356 134611 59880 XOR\n2 1 83427 134672 59967 XOR\n2 1 402 134672 59968 XOR\n2 1 59967 59968 59966 AND\n2 1 59966 134672 134673 XOR\n2 1 134704 134673 78820 XOR\n2 1 80356 78820 134642 XOR\n2 1 134642 134611 77028 XOR\n2 1 77028 3667 121582 XOR\n2 1 121582 121551 95145 XOR\n2 1 77028 121551 39376 XOR\n2 1 39376 39377 39375 AND\n2 1 39375 121551 121552 XOR\n2 1 3668 121552 39380 XOR\n2 1 78820 134611 59881 XOR\n2 1 59880 59881 59879 AND\n2 1 59879 134611 134612 XOR\n2 1 80357 134612 59883 XOR\n2 1 83428 134673 59970 XOR\n2 1 403 134673 59971 XOR\n2 1 59970 59971 59969 AND\n2 1 59969 134673 134674 XOR\n2 1 134705 134674 78821 XOR\n2 1 80357 78821 134643 XOR\n2 1 134643 134612 77029 XOR\n2 1 77029 3668 121583 XOR\n2 1 121583 121552 95146 XOR\n2 1 77029 121552 39379 XOR\n2 1 39379 39380 39378 AND\n2 1 39378 121552 121553 XOR\n2 1 3669 121553 39383 XOR\n2 1 78821 134612 59884 XOR\n2 1 59883 59884 59882 AND\n2 1 59882 134612 134613 XOR\n2 1 80358 134613 59886 XOR\n2 1 83429 134674 59973 XOR\n2 1 404 134674 59974 XOR\n2 1 59973 59974 59972 AND\n2 1 59972 134674 134675 XOR\n2 1 134706 134675 78822 XOR\n2 1 80358 78822 134644 XOR\n2 1 134644 134613 77030 XOR\n2 1 77030 3669 121584 XOR\n2 1 121584 121553 95147 XOR\n2 1 77030 121553 39382 XOR\n2 1 39382 39383 39381 AND\n2 1 39381 121553 121554 XOR\n2 1 3670 121554 39386 XOR\n2 1 78822 134613 59887 XOR\n2 1 59886 59887 59885 AND\n2 1 59885 134613 134614 XOR\n2 1 80359 134614 59889 XOR\n2 1 83430 134675 59976 XOR\n2 1 405 134675 59977 XOR\n2 1 59976 59977 59975 AND\n2 1 59975 134675 134676 XOR\n2 1 134707 134676 78823 XOR\n2 1 80359 78823 134645 XOR\n2 1 134645 134614 77031 XOR\n2 1 77031 3670 121585 XOR\n2 1 121585 121554 95148 XOR\n2 1 77031 121554 39385 XOR\n2 1 39385 39386 39384 AND\n2 1 39384 121554 121555 XOR\n2 1 3671 121555 39389 XOR\n2 1 78823 134614 59890 XOR\n2 1 59889 59890 59888 AND\n2 1 59888 134614 134615 XOR\n2 1 80360 134615 59892 XOR\n2 1 83431 134676 59979 XOR\n2 1 406 134676 59980 XOR\n2 1 59979 59980 59978 AND\n2 1 59978 134676 134677 XOR\n2 1 134708 134677 78824 XOR\n2 1 80360 78824 134646 XOR\n2 1 134646 134615 77032 XOR\n2 1 77032 3671 121586 XOR\n2 1 121586 121555 95149 XOR\n2 1 77032 121555 39388 XOR\n2 1 39388 39389 39387 AND\n2 1 39387 121555 121556 XOR\n2 1 3672 121556 39392 XOR\n2 1 78824 134615 59893 XOR\n2 1 59892 59893 59891 AND\n2 1 59891 134615 134616 XOR\n2 1 80361 134616 59895 XOR\n2 1 83432 134677 59982 XOR\n2 1 407 134677 59983 XOR\n",
"2 1 59982 59983 59981 AND\n2 1 59981 134677 134678 XOR\n2 1 134709 134678 78825 XOR\n2 1 80361 78825 134647 XOR\n2 1 134647 134616 77033 XOR\n2 1 77033 3672 121587 XOR\n2 1 121587 121556 95150 XOR\n2 1 77033 121556 39391 XOR\n2 1 39391 39392 39390 AND\n2 1 39390 121556 121557 XOR\n2 1 3673 121557 39395 XOR\n2 1 78825 134616 59896 XOR\n2 1 59895 59896 59894 AND\n2 1 59894 134616 134617 XOR\n2 1 80362 134617 59898 XOR\n2 1 83433 134678 59985 XOR\n2 1 408 134678 59986 XOR\n2 1 59985 59986 59984 AND\n2 1 59984 134678 134679 XOR\n2 1 134710 134679 78826 XOR\n2 1 80362 78826 134648 XOR\n2 1 134648 134617 77034 XOR\n2 1 77034 3673 121588 XOR\n2 1 121588 121557 95151 XOR\n2 1 77034 121557 39394 XOR\n2 1 39394 39395 39393 AND\n2 1 39393 121557 121558 XOR\n2 1 3674 121558 39398 XOR\n2 1 78826 134617 59899 XOR\n2 1 59898 59899 59897 AND\n2 1 59897 134617 134618 XOR\n2 1 80363 134618 59901 XOR\n2 1 83434 134679 59988 XOR\n2 1 409 134679 59989 XOR\n2 1 59988 59989 59987 AND\n2 1 59987 134679 134680 XOR\n2 1 134711 134680 78827 XOR\n2 1 80363 78827 134649 XOR\n2 1 134649 134618 77035 XOR\n2 1 77035 3674 121589 XOR\n2 1 121589 121558 95152 XOR\n2 1 77035 121558 39397 XOR\n2 1 39397 39398 39396 AND\n2 1 39396 121558 121559 XOR\n2 1 3675 121559 39401 XOR\n2 1 78827 134618 59902 XOR\n2 1 59901 59902 59900 AND\n2 1 59900 134618 134619 XOR\n2 1 80364 134619 59904 XOR\n2 1 83435 134680 59991 XOR\n2 1 410 134680 59992 XOR\n2 1 59991 59992 59990 AND\n2 1 59990 134680 134681 XOR\n2 1 134712 134681 78828 XOR\n2 1 80364 78828 134650 XOR\n2 1 134650 134619 77036 XOR\n2 1 77036 3675 121590 XOR\n2 1 121590 121559 95153 XOR\n2 1 77036 121559 39400 XOR\n2 1 39400 39401 39399 AND\n2 1 39399 121559 121560 XOR\n2 1 3676 121560 39404 XOR\n2 1 78828 134619 59905 XOR\n2 1 59904 59905 59903 AND\n2 1 59903 134619 134620 XOR\n2 1 80365 134620 59907 XOR\n2 1 83436 134681 59994 XOR\n2 1 411 134681 59995 XOR\n2 1 59994 59995 59993 AND\n2 1 59993 134681 134682 XOR\n2 1 134713 134682 78829 XOR\n2 1 80365 78829 134651 XOR\n2 1 134651 134620 77037 XOR\n2 1 77037 3676 121591 XOR\n2 1 121591 121560 95154 XOR\n2 1 77037 121560 39403 XOR\n2 1 39403 39404 39402 AND\n2 1 39402 121560 121561 XOR\n2 1 3677 121561 39407 XOR\n2 1 78829 134620 59908 XOR\n2 1 59907 59908 59906 AND\n2 1 59906 134620 134621 XOR\n2 1 80366 134621 59910 XOR\n2 1 83437 134682 59997 XOR\n2 1 412 134682 59998 XOR\n2 1 59997 59998 59996 AND\n2 1 59996 134682 134683 XOR\n2 1 134714 134683 78830 XOR\n2 1 80366 78830 134652 XOR\n2 1 134652 134621 77038 XOR\n2 1 77038 3677 121592 XOR\n2 1 121592 121561 95155 XOR\n2 1 77038 121561 39406 XOR\n2 1 39406 39407 39405 AND\n2 1 39405 121561 121562 XOR\n2 1 3678 121562 39410 XOR\n2 1 78830 134621 59911 XOR\n2 1 59910 59911 59909 AND\n2 1 59909 134621 134622 XOR\n2 1 80367 134622 59913 XOR\n2 1 83438 134683 60000 XOR\n2 1 413 134683 60001 XOR\n2 1 60000 60001 59999 AND\n2 1 59999 134683 134684 XOR\n2 1 134715 134684 78831 XOR\n2 1 80367 78831 134653 XOR\n2 1 134653 134622 77039 XOR\n2 1 77039 3678 121593 XOR\n2 1 121593 121562 95156 XOR\n2 1 77039 121562 39409 XOR\n2 1 39409 39410 39408 AND\n2 1 39408 121562 121563 XOR\n2 1 78831 134622 59914 XOR\n2 1 59913 59914 59912 AND\n2 1 59912 134622 134623 XOR\n2 1 83439 134684 60003 XOR\n2 1 414 134684 60004 XOR\n2 1 60003 60004 60002 AND\n2 1 60002 134684 134685 XOR\n2 1 134716 134685 78832 XOR\n2 1 80368 78832 134654 XOR\n2 1 134654 134623 77040 XOR\n2 1 77040 3679 121594 XOR\n2 1 121594 121563 95157 XOR\n2 1 77025 77027 81840 XOR\n2 1 81840 63 134406 XOR\n2 1 77024 77026 81839 XOR\n2 1 81839 62 134405 XOR\n",
"2 1 77023 77025 81838 XOR\n2 1 81838 61 134404 XOR\n2 1 77022 77024 81837 XOR\n2 1 81837 60 134403 XOR\n2 1 77021 77023 81836 XOR\n2 1 81836 59 134402 XOR\n2 1 77020 77022 81835 XOR\n2 1 81835 58 134401 XOR\n2 1 77019 77021 81834 XOR\n2 1 81834 57 134400 XOR\n2 1 77018 77020 81833 XOR\n2 1 81833 56 134399 XOR\n2 1 77017 77019 81832 XOR\n2 1 81832 55 134398 XOR\n2 1 77016 77018 81831 XOR\n2 1 81831 54 134397 XOR\n2 1 77015 77017 7057 XOR\n2 1 77014 77016 7056 XOR\n2 1 77013 77015 7055 XOR\n2 1 77012 77014 7054 XOR\n2 1 77011 77013 7053 XOR\n2 1 77010 77012 7052 XOR\n2 1 77009 77011 7051 XOR\n2 1 77040 77010 7050 XOR\n2 1 77039 77009 7049 XOR\n2 1 77038 77040 7048 XOR\n2 1 77037 77039 7047 XOR\n2 1 77036 77038 7046 XOR\n2 1 77035 77037 7045 XOR\n2 1 77034 77036 7044 XOR\n2 1 77033 77035 7043 XOR\n2 1 77032 77034 7042 XOR\n2 1 77031 77033 7041 XOR\n2 1 77030 77032 7040 XOR\n2 1 77029 77031 7039 XOR\n2 1 77028 77030 7038 XOR\n2 1 77027 77029 7037 XOR\n2 1 77026 77028 7036 XOR\n2 1 7057 77040 81830 XOR\n2 1 81830 53 134396 XOR\n2 1 7056 77039 81829 XOR\n2 1 81829 52 134395 XOR\n2 1 7055 77038 81828 XOR\n2 1 81828 51 134394 XOR\n2 1 7054 77037 81827 XOR\n2 1 81827 50 134393 XOR\n2 1 7053 77036 81826 XOR\n2 1 81826 49 134392 XOR\n2 1 7052 77035 81825 XOR\n2 1 81825 48 134391 XOR\n2 1 7051 77034 81824 XOR\n2 1 81824 47 134390 XOR\n2 1 7050 77033 81823 XOR\n2 1 81823 46 134389 XOR\n2 1 7049 77032 81822 XOR\n2 1 81822 45 134388 XOR\n2 1 7048 77031 81821 XOR\n2 1 81821 44 134387 XOR\n2 1 7047 77030 81820 XOR\n2 1 81820 43 134386 XOR\n2 1 7046 77029 81819 XOR\n2 1 81819 42 134385 XOR\n2 1 7045 77028 81818 XOR\n2 1 81818 41 134384 XOR\n2 1 7044 77027 81817 XOR\n2 1 81817 40 134383 XOR\n2 1 7043 77026 81816 XOR\n2 1 81816 39 134382 XOR\n2 1 7042 77025 81815 XOR\n2 1 81815 38 134381 XOR\n2 1 7041 77024 81814 XOR\n2 1 81814 37 134380 XOR\n2 1 7040 77023 81813 XOR\n2 1 81813 36 134379 XOR\n2 1 7039 77022 81812 XOR\n2 1 81812 35 134378 XOR\n2 1 7038 77021 81811 XOR\n2 1 81811 34 134377 XOR\n2 1 7037 77020 81810 XOR\n2 1 81810 33 134376 XOR\n2 1 7036 77019 81809 XOR\n2 1 81809 32 134345 AND\n2 1 81809 32 80273 XOR\n2 1 134376 134345 80274 XOR\n2 1 81810 134345 59466 XOR\n2 1 33 134345 59467 XOR\n2 1 59466 59467 59465 AND\n2 1 59465 134345 134346 XOR\n2 1 134377 134346 80275 XOR\n2 1 81811 134346 59469 XOR\n2 1 34 134346 59470 XOR\n2 1 59469 59470 59468 AND\n2 1 59468 134346 134347 XOR\n2 1 134378 134347 80276 XOR\n2 1 81812 134347 59472 XOR\n2 1 35 134347 59473 XOR\n2 1 59472 59473 59471 AND\n2 1 59471 134347 134348 XOR\n2 1 134379 134348 80277 XOR\n2 1 81813 134348 59475 XOR\n2 1 36 134348 59476 XOR\n2 1 59475 59476 59474 AND\n2 1 59474 134348 134349 XOR\n2 1 134380 134349 80278 XOR\n2 1 81814 134349 59478 XOR\n2 1 37 134349 59479 XOR\n2 1 59478 59479 59477 AND\n2 1 59477 134349 134350 XOR\n2 1 134381 134350 80279 XOR\n2 1 81815 134350 59481 XOR\n2 1 38 134350 59482 XOR\n2 1 59481 59482 59480 AND\n2 1 59480 134350 134351 XOR\n2 1 134382 134351 80280 XOR\n2 1 81816 134351 59484 XOR\n2 1 39 134351 59485 XOR\n2 1 59484 59485 59483 AND\n2 1 59483 134351 134352 XOR\n2 1 134383 134352 80281 XOR\n2 1 81817 134352 59487 XOR\n2 1 40 134352 59488 XOR\n2 1 59487 59488 59486 AND\n2 1 59486 134352 134353 XOR\n2 1 134384 134353 80282 XOR\n2 1 81818 134353 59490 XOR\n2 1 41 134353 59491 XOR\n2 1 59490 59491 59489 AND\n2 1 59489 134353 134354 XOR\n",
"2 1 134385 134354 80283 XOR\n2 1 81819 134354 59493 XOR\n2 1 42 134354 59494 XOR\n2 1 59493 59494 59492 AND\n2 1 59492 134354 134355 XOR\n2 1 134386 134355 80284 XOR\n2 1 81820 134355 59496 XOR\n2 1 43 134355 59497 XOR\n2 1 59496 59497 59495 AND\n2 1 59495 134355 134356 XOR\n2 1 134387 134356 80285 XOR\n2 1 81821 134356 59499 XOR\n2 1 44 134356 59500 XOR\n2 1 59499 59500 59498 AND\n2 1 59498 134356 134357 XOR\n2 1 134388 134357 80286 XOR\n2 1 81822 134357 59502 XOR\n2 1 45 134357 59503 XOR\n2 1 59502 59503 59501 AND\n2 1 59501 134357 134358 XOR\n2 1 134389 134358 80287 XOR\n2 1 81823 134358 59505 XOR\n2 1 46 134358 59506 XOR\n2 1 59505 59506 59504 AND\n2 1 59504 134358 134359 XOR\n2 1 134390 134359 80288 XOR\n2 1 81824 134359 59508 XOR\n2 1 47 134359 59509 XOR\n2 1 59508 59509 59507 AND\n2 1 59507 134359 134360 XOR\n2 1 134391 134360 80289 XOR\n2 1 81825 134360 59511 XOR\n2 1 48 134360 59512 XOR\n2 1 59511 59512 59510 AND\n2 1 59510 134360 134361 XOR\n2 1 134392 134361 80290 XOR\n2 1 81826 134361 59514 XOR\n2 1 49 134361 59515 XOR\n2 1 59514 59515 59513 AND\n2 1 59513 134361 134362 XOR\n2 1 134393 134362 80291 XOR\n2 1 81827 134362 59517 XOR\n2 1 50 134362 59518 XOR\n2 1 59517 59518 59516 AND\n2 1 59516 134362 134363 XOR\n2 1 134394 134363 80292 XOR\n2 1 81828 134363 59520 XOR\n2 1 51 134363 59521 XOR\n2 1 59520 59521 59519 AND\n2 1 59519 134363 134364 XOR\n2 1 134395 134364 80293 XOR\n2 1 81829 134364 59523 XOR\n2 1 52 134364 59524 XOR\n2 1 59523 59524 59522 AND\n2 1 59522 134364 134365 XOR\n2 1 134396 134365 80294 XOR\n2 1 81830 134365 59526 XOR\n2 1 53 134365 59527 XOR\n2 1 59526 59527 59525 AND\n2 1 59525 134365 134366 XOR\n2 1 134397 134366 80295 XOR\n2 1 81831 134366 59529 XOR\n2 1 54 134366 59530 XOR\n2 1 59529 59530 59528 AND\n2 1 59528 134366 134367 XOR\n2 1 134398 134367 80296 XOR\n2 1 81832 134367 59532 XOR\n2 1 55 134367 59533 XOR\n2 1 59532 59533 59531 AND\n2 1 59531 134367 134368 XOR\n2 1 134399 134368 80297 XOR\n2 1 81833 134368 59535 XOR\n2 1 56 134368 59536 XOR\n2 1 59535 59536 59534 AND\n2 1 59534 134368 134369 XOR\n2 1 134400 134369 80298 XOR\n2 1 81834 134369 59538 XOR\n2 1 57 134369 59539 XOR\n2 1 59538 59539 59537 AND\n2 1 59537 134369 134370 XOR\n2 1 134401 134370 80299 XOR\n2 1 81835 134370 59541 XOR\n2 1 58 134370 59542 XOR\n2 1 59541 59542 59540 AND\n2 1 59540 134370 134371 XOR\n2 1 134402 134371 80300 XOR\n2 1 81836 134371 59544 XOR\n2 1 59 134371 59545 XOR\n2 1 59544 59545 59543 AND\n2 1 59543 134371 134372 XOR\n2 1 134403 134372 80301 XOR\n2 1 81837 134372 59547 XOR\n2 1 60 134372 59548 XOR\n2 1 59547 59548 59546 AND\n2 1 59546 134372 134373 XOR\n2 1 134404 134373 80302 XOR\n2 1 81838 134373 59550 XOR\n2 1 61 134373 59551 XOR\n2 1 59550 59551 59549 AND\n2 1 59549 134373 134374 XOR\n2 1 134405 134374 80303 XOR\n2 1 81839 134374 59553 XOR\n2 1 62 134374 59554 XOR\n2 1 59553 59554 59552 AND\n2 1 59552 134374 134375 XOR\n2 1 134406 134375 80304 XOR\n2 1 326 337 83408 XOR\n2 1 83408 383 134530 XOR\n2 1 325 336 83407 XOR\n2 1 83407 382 134529 XOR\n2 1 324 335 83406 XOR\n2 1 83406 381 134528 XOR\n2 1 323 334 6024 XOR\n2 1 322 333 6023 XOR\n2 1 321 332 6022 XOR\n2 1 320 331 6021 XOR\n2 1 351 330 6020 XOR\n2 1 350 329 6019 XOR\n2 1 349 328 6018 XOR\n2 1 348 327 6017 XOR\n2 1 347 326 6016 XOR\n2 1 346 325 6015 XOR\n2 1 345 324 6014 XOR\n2 1 344 323 6013 XOR\n2 1 343 322 6012 XOR\n2 1 342 321 6011 XOR\n2 1 341 320 6010 XOR\n2 1 340 351 6009 XOR\n",
"2 1 339 350 6008 XOR\n2 1 338 349 6007 XOR\n2 1 337 348 6006 XOR\n2 1 336 347 6005 XOR\n2 1 335 346 6004 XOR\n2 1 334 345 6003 XOR\n2 1 333 344 6002 XOR\n2 1 332 343 6001 XOR\n2 1 331 342 6000 XOR\n2 1 330 341 5999 XOR\n2 1 329 340 5998 XOR\n2 1 328 339 5997 XOR\n2 1 327 338 5996 XOR\n2 1 6024 351 83405 XOR\n2 1 83405 380 134527 XOR\n2 1 6023 350 83404 XOR\n2 1 83404 379 134526 XOR\n2 1 6022 349 83403 XOR\n2 1 83403 378 134525 XOR\n2 1 6021 348 83402 XOR\n2 1 83402 377 134524 XOR\n2 1 6020 347 83401 XOR\n2 1 83401 376 134523 XOR\n2 1 6019 346 83400 XOR\n2 1 83400 375 134522 XOR\n2 1 6018 345 83399 XOR\n2 1 83399 374 134521 XOR\n2 1 6017 344 83398 XOR\n2 1 83398 373 134520 XOR\n2 1 6016 343 83397 XOR\n2 1 83397 372 134519 XOR\n2 1 6015 342 83396 XOR\n2 1 83396 371 134518 XOR\n2 1 6014 341 83395 XOR\n2 1 83395 370 134517 XOR\n2 1 6013 340 83394 XOR\n2 1 83394 369 134516 XOR\n2 1 6012 339 83393 XOR\n2 1 83393 368 134515 XOR\n2 1 6011 338 83392 XOR\n2 1 83392 367 134514 XOR\n2 1 6010 337 83391 XOR\n2 1 83391 366 134513 XOR\n2 1 6009 336 83390 XOR\n2 1 83390 365 134512 XOR\n2 1 6008 335 83389 XOR\n2 1 83389 364 134511 XOR\n2 1 6007 334 83388 XOR\n2 1 83388 363 134510 XOR\n2 1 6006 333 83387 XOR\n2 1 83387 362 134509 XOR\n2 1 6005 332 83386 XOR\n2 1 83386 361 134508 XOR\n2 1 6004 331 83385 XOR\n2 1 83385 360 134507 XOR\n2 1 6003 330 83384 XOR\n2 1 83384 359 134506 XOR\n2 1 6002 329 83383 XOR\n2 1 83383 358 134505 XOR\n2 1 6001 328 83382 XOR\n2 1 83382 357 134504 XOR\n2 1 6000 327 83381 XOR\n2 1 83381 356 134503 XOR\n2 1 5999 326 83380 XOR\n2 1 83380 355 134502 XOR\n2 1 5998 325 83379 XOR\n2 1 83379 354 134501 XOR\n2 1 5997 324 83378 XOR\n2 1 83378 353 134500 XOR\n2 1 5996 323 83377 XOR\n2 1 83377 352 134469 AND\n2 1 83377 352 78769 XOR\n2 1 134500 134469 78770 XOR\n2 1 83378 134469 59646 XOR\n2 1 353 134469 59647 XOR\n2 1 59646 59647 59645 AND\n2 1 59645 134469 134470 XOR\n2 1 134501 134470 78771 XOR\n2 1 83379 134470 59649 XOR\n2 1 354 134470 59650 XOR\n2 1 59649 59650 59648 AND\n2 1 59648 134470 134471 XOR\n2 1 134502 134471 78772 XOR\n2 1 83380 134471 59652 XOR\n2 1 355 134471 59653 XOR\n2 1 59652 59653 59651 AND\n2 1 59651 134471 134472 XOR\n2 1 134503 134472 78773 XOR\n2 1 83381 134472 59655 XOR\n2 1 356 134472 59656 XOR\n2 1 59655 59656 59654 AND\n2 1 59654 134472 134473 XOR\n2 1 134504 134473 78774 XOR\n2 1 83382 134473 59658 XOR\n2 1 357 134473 59659 XOR\n2 1 59658 59659 59657 AND\n2 1 59657 134473 134474 XOR\n2 1 134505 134474 78775 XOR\n2 1 83383 134474 59661 XOR\n2 1 358 134474 59662 XOR\n2 1 59661 59662 59660 AND\n2 1 59660 134474 134475 XOR\n2 1 134506 134475 78776 XOR\n2 1 83384 134475 59664 XOR\n2 1 359 134475 59665 XOR\n2 1 59664 59665 59663 AND\n2 1 59663 134475 134476 XOR\n2 1 134507 134476 78777 XOR\n2 1 83385 134476 59667 XOR\n2 1 360 134476 59668 XOR\n2 1 59667 59668 59666 AND\n2 1 59666 134476 134477 XOR\n2 1 134508 134477 78778 XOR\n2 1 83386 134477 59670 XOR\n2 1 361 134477 59671 XOR\n2 1 59670 59671 59669 AND\n2 1 59669 134477 134478 XOR\n2 1 134509 134478 78779 XOR\n2 1 83387 134478 59673 XOR\n2 1 362 134478 59674 XOR\n2 1 59673 59674 59672 AND\n2 1 59672 134478 134479 XOR\n2 1 134510 134479 78780 XOR\n2 1 83388 134479 59676 XOR\n2 1 363 134479 59677 XOR\n2 1 59676 59677 59675 AND\n2 1 59675 134479 134480 XOR\n2 1 134511 134480 78781 XOR\n",
"2 1 83389 134480 59679 XOR\n2 1 364 134480 59680 XOR\n2 1 59679 59680 59678 AND\n2 1 59678 134480 134481 XOR\n2 1 134512 134481 78782 XOR\n2 1 83390 134481 59682 XOR\n2 1 365 134481 59683 XOR\n2 1 59682 59683 59681 AND\n2 1 59681 134481 134482 XOR\n2 1 134513 134482 78783 XOR\n2 1 83391 134482 59685 XOR\n2 1 366 134482 59686 XOR\n2 1 59685 59686 59684 AND\n2 1 59684 134482 134483 XOR\n2 1 134514 134483 78784 XOR\n2 1 83392 134483 59688 XOR\n2 1 367 134483 59689 XOR\n2 1 59688 59689 59687 AND\n2 1 59687 134483 134484 XOR\n2 1 134515 134484 78785 XOR\n2 1 83393 134484 59691 XOR\n2 1 368 134484 59692 XOR\n2 1 59691 59692 59690 AND\n2 1 59690 134484 134485 XOR\n2 1 134516 134485 78786 XOR\n2 1 83394 134485 59694 XOR\n2 1 369 134485 59695 XOR\n2 1 59694 59695 59693 AND\n2 1 59693 134485 134486 XOR\n2 1 134517 134486 78787 XOR\n2 1 83395 134486 59697 XOR\n2 1 370 134486 59698 XOR\n2 1 59697 59698 59696 AND\n2 1 59696 134486 134487 XOR\n2 1 134518 134487 78788 XOR\n2 1 83396 134487 59700 XOR\n2 1 371 134487 59701 XOR\n2 1 59700 59701 59699 AND\n2 1 59699 134487 134488 XOR\n2 1 134519 134488 78789 XOR\n2 1 83397 134488 59703 XOR\n2 1 372 134488 59704 XOR\n2 1 59703 59704 59702 AND\n2 1 59702 134488 134489 XOR\n2 1 134520 134489 78790 XOR\n2 1 83398 134489 59706 XOR\n2 1 373 134489 59707 XOR\n2 1 59706 59707 59705 AND\n2 1 59705 134489 134490 XOR\n2 1 134521 134490 78791 XOR\n2 1 83399 134490 59709 XOR\n2 1 374 134490 59710 XOR\n2 1 59709 59710 59708 AND\n2 1 59708 134490 134491 XOR\n2 1 134522 134491 78792 XOR\n2 1 83400 134491 59712 XOR\n2 1 375 134491 59713 XOR\n2 1 59712 59713 59711 AND\n2 1 59711 134491 134492 XOR\n2 1 134523 134492 78793 XOR\n2 1 83401 134492 59715 XOR\n2 1 376 134492 59716 XOR\n2 1 59715 59716 59714 AND\n2 1 59714 134492 134493 XOR\n2 1 134524 134493 78794 XOR\n2 1 83402 134493 59718 XOR\n2 1 377 134493 59719 XOR\n2 1 59718 59719 59717 AND\n2 1 59717 134493 134494 XOR\n2 1 134525 134494 78795 XOR\n2 1 83403 134494 59721 XOR\n2 1 378 134494 59722 XOR\n2 1 59721 59722 59720 AND\n2 1 59720 134494 134495 XOR\n2 1 134526 134495 78796 XOR\n2 1 83404 134495 59724 XOR\n2 1 379 134495 59725 XOR\n2 1 59724 59725 59723 AND\n2 1 59723 134495 134496 XOR\n2 1 134527 134496 78797 XOR\n2 1 83405 134496 59727 XOR\n2 1 380 134496 59728 XOR\n2 1 59727 59728 59726 AND\n2 1 59726 134496 134497 XOR\n2 1 134528 134497 78798 XOR\n2 1 83406 134497 59730 XOR\n2 1 381 134497 59731 XOR\n2 1 59730 59731 59729 AND\n2 1 59729 134497 134498 XOR\n2 1 134529 134498 78799 XOR\n2 1 83407 134498 59733 XOR\n2 1 382 134498 59734 XOR\n2 1 59733 59734 59732 AND\n2 1 59732 134498 134499 XOR\n2 1 134530 134499 78800 XOR\n2 1 294 305 83376 XOR\n2 1 83376 351 134344 XOR\n2 1 293 304 83375 XOR\n2 1 83375 350 134343 XOR\n2 1 292 303 83374 XOR\n2 1 83374 349 134342 XOR\n2 1 291 302 5995 XOR\n2 1 290 301 5994 XOR\n2 1 289 300 5993 XOR\n2 1 288 299 5992 XOR\n2 1 319 298 5991 XOR\n2 1 318 297 5990 XOR\n2 1 317 296 5989 XOR\n2 1 316 295 5988 XOR\n2 1 315 294 5987 XOR\n2 1 314 293 5986 XOR\n2 1 313 292 5985 XOR\n2 1 312 291 5984 XOR\n2 1 311 290 5983 XOR\n2 1 310 289 5982 XOR\n2 1 309 288 5981 XOR\n2 1 308 319 5980 XOR\n2 1 307 318 5979 XOR\n2 1 306 317 5978 XOR\n2 1 305 316 5977 XOR\n2 1 304 315 5976 XOR\n2 1 303 314 5975 XOR\n2 1 302 313 5974 XOR\n2 1 301 312 5973 XOR\n2 1 300 311 5972 XOR\n2 1 299 310 5971 XOR\n2 1 298 309 5970 XOR\n2 1 297 308 5969 XOR\n",
"2 1 296 307 5968 XOR\n2 1 295 306 5967 XOR\n2 1 5995 319 83373 XOR\n2 1 83373 348 134341 XOR\n2 1 5994 318 83372 XOR\n2 1 83372 347 134340 XOR\n2 1 5993 317 83371 XOR\n2 1 83371 346 134339 XOR\n2 1 5992 316 83370 XOR\n2 1 83370 345 134338 XOR\n2 1 5991 315 83369 XOR\n2 1 83369 344 134337 XOR\n2 1 5990 314 83368 XOR\n2 1 83368 343 134336 XOR\n2 1 5989 313 83367 XOR\n2 1 83367 342 134335 XOR\n2 1 5988 312 83366 XOR\n2 1 83366 341 134334 XOR\n2 1 5987 311 83365 XOR\n2 1 83365 340 134333 XOR\n2 1 5986 310 83364 XOR\n2 1 83364 339 134332 XOR\n2 1 5985 309 83363 XOR\n2 1 83363 338 134331 XOR\n2 1 5984 308 83362 XOR\n2 1 83362 337 134330 XOR\n2 1 5983 307 83361 XOR\n2 1 83361 336 134329 XOR\n2 1 5982 306 83360 XOR\n2 1 83360 335 134328 XOR\n2 1 5981 305 83359 XOR\n2 1 83359 334 134327 XOR\n2 1 5980 304 83358 XOR\n2 1 83358 333 134326 XOR\n2 1 5979 303 83357 XOR\n2 1 83357 332 134325 XOR\n2 1 5978 302 83356 XOR\n2 1 83356 331 134324 XOR\n2 1 5977 301 83355 XOR\n2 1 83355 330 134323 XOR\n2 1 5976 300 83354 XOR\n2 1 83354 329 134322 XOR\n2 1 5975 299 83353 XOR\n2 1 83353 328 134321 XOR\n2 1 5974 298 83352 XOR\n2 1 83352 327 134320 XOR\n2 1 5973 297 83351 XOR\n2 1 83351 326 134319 XOR\n2 1 5972 296 83350 XOR\n2 1 83350 325 134318 XOR\n2 1 5971 295 83349 XOR\n2 1 83349 324 134317 XOR\n2 1 5970 294 83348 XOR\n2 1 83348 323 134316 XOR\n2 1 5969 293 83347 XOR\n2 1 83347 322 134315 XOR\n2 1 5968 292 83346 XOR\n2 1 83346 321 134314 XOR\n2 1 5967 291 83345 XOR\n2 1 83345 320 134283 AND\n2 1 83345 320 78737 XOR\n2 1 80273 78737 134221 AND\n2 1 80273 78737 76945 XOR\n2 1 80274 134221 59286 XOR\n2 1 134314 134283 78738 XOR\n2 1 80274 78738 134252 XOR\n2 1 134252 134221 76946 XOR\n2 1 78738 134221 59287 XOR\n2 1 59286 59287 59285 AND\n2 1 59285 134221 134222 XOR\n2 1 80275 134222 59289 XOR\n2 1 83346 134283 59376 XOR\n2 1 321 134283 59377 XOR\n2 1 59376 59377 59375 AND\n2 1 59375 134283 134284 XOR\n2 1 134315 134284 78739 XOR\n2 1 80275 78739 134253 XOR\n2 1 134253 134222 76947 XOR\n2 1 78739 134222 59290 XOR\n2 1 59289 59290 59288 AND\n2 1 59288 134222 134223 XOR\n2 1 80276 134223 59292 XOR\n2 1 83347 134284 59379 XOR\n2 1 322 134284 59380 XOR\n2 1 59379 59380 59378 AND\n2 1 59378 134284 134285 XOR\n2 1 134316 134285 78740 XOR\n2 1 80276 78740 134254 XOR\n2 1 134254 134223 76948 XOR\n2 1 78740 134223 59293 XOR\n2 1 59292 59293 59291 AND\n2 1 59291 134223 134224 XOR\n2 1 80277 134224 59295 XOR\n2 1 83348 134285 59382 XOR\n2 1 323 134285 59383 XOR\n2 1 59382 59383 59381 AND\n2 1 59381 134285 134286 XOR\n2 1 134317 134286 78741 XOR\n2 1 80277 78741 134255 XOR\n2 1 134255 134224 76949 XOR\n2 1 78741 134224 59296 XOR\n2 1 59295 59296 59294 AND\n2 1 59294 134224 134225 XOR\n2 1 80278 134225 59298 XOR\n2 1 83349 134286 59385 XOR\n2 1 324 134286 59386 XOR\n2 1 59385 59386 59384 AND\n2 1 59384 134286 134287 XOR\n2 1 134318 134287 78742 XOR\n2 1 80278 78742 134256 XOR\n2 1 134256 134225 76950 XOR\n2 1 78742 134225 59299 XOR\n2 1 59298 59299 59297 AND\n2 1 59297 134225 134226 XOR\n2 1 80279 134226 59301 XOR\n2 1 83350 134287 59388 XOR\n2 1 325 134287 59389 XOR\n2 1 59388 59389 59387 AND\n2 1 59387 134287 134288 XOR\n2 1 134319 134288 78743 XOR\n2 1 80279 78743 134257 XOR\n2 1 134257 134226 76951 XOR\n2 1 78743 134226 59302 XOR\n2 1 59301 59302 59300 AND\n2 1 59300 134226 134227 XOR\n2 1 80280 134227 59304 XOR\n2 1 83351 134288 59391 XOR\n2 1 326 134288 59392 XOR\n",
"2 1 59391 59392 59390 AND\n2 1 59390 134288 134289 XOR\n2 1 134320 134289 78744 XOR\n2 1 80280 78744 134258 XOR\n2 1 134258 134227 76952 XOR\n2 1 78744 134227 59305 XOR\n2 1 59304 59305 59303 AND\n2 1 59303 134227 134228 XOR\n2 1 80281 134228 59307 XOR\n2 1 83352 134289 59394 XOR\n2 1 327 134289 59395 XOR\n2 1 59394 59395 59393 AND\n2 1 59393 134289 134290 XOR\n2 1 134321 134290 78745 XOR\n2 1 80281 78745 134259 XOR\n2 1 134259 134228 76953 XOR\n2 1 78745 134228 59308 XOR\n2 1 59307 59308 59306 AND\n2 1 59306 134228 134229 XOR\n2 1 80282 134229 59310 XOR\n2 1 83353 134290 59397 XOR\n2 1 328 134290 59398 XOR\n2 1 59397 59398 59396 AND\n2 1 59396 134290 134291 XOR\n2 1 134322 134291 78746 XOR\n2 1 80282 78746 134260 XOR\n2 1 134260 134229 76954 XOR\n2 1 78746 134229 59311 XOR\n2 1 59310 59311 59309 AND\n2 1 59309 134229 134230 XOR\n2 1 80283 134230 59313 XOR\n2 1 83354 134291 59400 XOR\n2 1 329 134291 59401 XOR\n2 1 59400 59401 59399 AND\n2 1 59399 134291 134292 XOR\n2 1 134323 134292 78747 XOR\n2 1 80283 78747 134261 XOR\n2 1 134261 134230 76955 XOR\n2 1 78747 134230 59314 XOR\n2 1 59313 59314 59312 AND\n2 1 59312 134230 134231 XOR\n2 1 80284 134231 59316 XOR\n2 1 83355 134292 59403 XOR\n2 1 330 134292 59404 XOR\n2 1 59403 59404 59402 AND\n2 1 59402 134292 134293 XOR\n2 1 134324 134293 78748 XOR\n2 1 80284 78748 134262 XOR\n2 1 134262 134231 76956 XOR\n2 1 78748 134231 59317 XOR\n2 1 59316 59317 59315 AND\n2 1 59315 134231 134232 XOR\n2 1 80285 134232 59319 XOR\n2 1 83356 134293 59406 XOR\n2 1 331 134293 59407 XOR\n2 1 59406 59407 59405 AND\n2 1 59405 134293 134294 XOR\n2 1 134325 134294 78749 XOR\n2 1 80285 78749 134263 XOR\n2 1 134263 134232 76957 XOR\n2 1 78749 134232 59320 XOR\n2 1 59319 59320 59318 AND\n2 1 59318 134232 134233 XOR\n2 1 80286 134233 59322 XOR\n2 1 83357 134294 59409 XOR\n2 1 332 134294 59410 XOR\n2 1 59409 59410 59408 AND\n2 1 59408 134294 134295 XOR\n2 1 134326 134295 78750 XOR\n2 1 80286 78750 134264 XOR\n2 1 134264 134233 76958 XOR\n2 1 78750 134233 59323 XOR\n2 1 59322 59323 59321 AND\n2 1 59321 134233 134234 XOR\n2 1 80287 134234 59325 XOR\n2 1 83358 134295 59412 XOR\n2 1 333 134295 59413 XOR\n2 1 59412 59413 59411 AND\n2 1 59411 134295 134296 XOR\n2 1 134327 134296 78751 XOR\n2 1 80287 78751 134265 XOR\n2 1 134265 134234 76959 XOR\n2 1 78751 134234 59326 XOR\n2 1 59325 59326 59324 AND\n2 1 59324 134234 134235 XOR\n2 1 80288 134235 59328 XOR\n2 1 83359 134296 59415 XOR\n2 1 334 134296 59416 XOR\n2 1 59415 59416 59414 AND\n2 1 59414 134296 134297 XOR\n2 1 134328 134297 78752 XOR\n2 1 80288 78752 134266 XOR\n2 1 134266 134235 76960 XOR\n2 1 78752 134235 59329 XOR\n2 1 59328 59329 59327 AND\n2 1 59327 134235 134236 XOR\n2 1 80289 134236 59331 XOR\n2 1 83360 134297 59418 XOR\n2 1 335 134297 59419 XOR\n2 1 59418 59419 59417 AND\n2 1 59417 134297 134298 XOR\n2 1 134329 134298 78753 XOR\n2 1 80289 78753 134267 XOR\n2 1 134267 134236 76961 XOR\n2 1 78753 134236 59332 XOR\n2 1 59331 59332 59330 AND\n2 1 59330 134236 134237 XOR\n2 1 80290 134237 59334 XOR\n2 1 83361 134298 59421 XOR\n2 1 336 134298 59422 XOR\n2 1 59421 59422 59420 AND\n2 1 59420 134298 134299 XOR\n2 1 134330 134299 78754 XOR\n2 1 80290 78754 134268 XOR\n2 1 134268 134237 76962 XOR\n2 1 78754 134237 59335 XOR\n2 1 59334 59335 59333 AND\n2 1 59333 134237 134238 XOR\n2 1 80291 134238 59337 XOR\n2 1 83362 134299 59424 XOR\n2 1 337 134299 59425 XOR\n2 1 59424 59425 59423 AND\n2 1 59423 134299 134300 XOR\n2 1 134331 134300 78755 XOR\n2 1 80291 78755 134269 XOR\n2 1 134269 134238 76963 XOR\n2 1 78755 134238 59338 XOR\n2 1 59337 59338 59336 AND\n",
"2 1 59336 134238 134239 XOR\n2 1 80292 134239 59340 XOR\n2 1 83363 134300 59427 XOR\n2 1 338 134300 59428 XOR\n2 1 59427 59428 59426 AND\n2 1 59426 134300 134301 XOR\n2 1 134332 134301 78756 XOR\n2 1 80292 78756 134270 XOR\n2 1 134270 134239 76964 XOR\n2 1 78756 134239 59341 XOR\n2 1 59340 59341 59339 AND\n2 1 59339 134239 134240 XOR\n2 1 80293 134240 59343 XOR\n2 1 83364 134301 59430 XOR\n2 1 339 134301 59431 XOR\n2 1 59430 59431 59429 AND\n2 1 59429 134301 134302 XOR\n2 1 134333 134302 78757 XOR\n2 1 80293 78757 134271 XOR\n2 1 134271 134240 76965 XOR\n2 1 78757 134240 59344 XOR\n2 1 59343 59344 59342 AND\n2 1 59342 134240 134241 XOR\n2 1 80294 134241 59346 XOR\n2 1 83365 134302 59433 XOR\n2 1 340 134302 59434 XOR\n2 1 59433 59434 59432 AND\n2 1 59432 134302 134303 XOR\n2 1 134334 134303 78758 XOR\n2 1 80294 78758 134272 XOR\n2 1 134272 134241 76966 XOR\n2 1 78758 134241 59347 XOR\n2 1 59346 59347 59345 AND\n2 1 59345 134241 134242 XOR\n2 1 80295 134242 59349 XOR\n2 1 83366 134303 59436 XOR\n2 1 341 134303 59437 XOR\n2 1 59436 59437 59435 AND\n2 1 59435 134303 134304 XOR\n2 1 134335 134304 78759 XOR\n2 1 80295 78759 134273 XOR\n2 1 134273 134242 76967 XOR\n2 1 78759 134242 59350 XOR\n2 1 59349 59350 59348 AND\n2 1 59348 134242 134243 XOR\n2 1 80296 134243 59352 XOR\n2 1 83367 134304 59439 XOR\n2 1 342 134304 59440 XOR\n2 1 59439 59440 59438 AND\n2 1 59438 134304 134305 XOR\n2 1 134336 134305 78760 XOR\n2 1 80296 78760 134274 XOR\n2 1 134274 134243 76968 XOR\n2 1 78760 134243 59353 XOR\n2 1 59352 59353 59351 AND\n2 1 59351 134243 134244 XOR\n2 1 80297 134244 59355 XOR\n2 1 83368 134305 59442 XOR\n2 1 343 134305 59443 XOR\n2 1 59442 59443 59441 AND\n2 1 59441 134305 134306 XOR\n2 1 134337 134306 78761 XOR\n2 1 80297 78761 134275 XOR\n2 1 134275 134244 76969 XOR\n2 1 78761 134244 59356 XOR\n2 1 59355 59356 59354 AND\n2 1 59354 134244 134245 XOR\n2 1 80298 134245 59358 XOR\n2 1 83369 134306 59445 XOR\n2 1 344 134306 59446 XOR\n2 1 59445 59446 59444 AND\n2 1 59444 134306 134307 XOR\n2 1 134338 134307 78762 XOR\n2 1 80298 78762 134276 XOR\n2 1 134276 134245 76970 XOR\n2 1 78762 134245 59359 XOR\n2 1 59358 59359 59357 AND\n2 1 59357 134245 134246 XOR\n2 1 80299 134246 59361 XOR\n2 1 83370 134307 59448 XOR\n2 1 345 134307 59449 XOR\n2 1 59448 59449 59447 AND\n2 1 59447 134307 134308 XOR\n2 1 134339 134308 78763 XOR\n2 1 80299 78763 134277 XOR\n2 1 134277 134246 76971 XOR\n2 1 78763 134246 59362 XOR\n2 1 59361 59362 59360 AND\n2 1 59360 134246 134247 XOR\n2 1 80300 134247 59364 XOR\n2 1 83371 134308 59451 XOR\n2 1 346 134308 59452 XOR\n2 1 59451 59452 59450 AND\n2 1 59450 134308 134309 XOR\n2 1 134340 134309 78764 XOR\n2 1 80300 78764 134278 XOR\n2 1 134278 134247 76972 XOR\n2 1 78764 134247 59365 XOR\n2 1 59364 59365 59363 AND\n2 1 59363 134247 134248 XOR\n2 1 80301 134248 59367 XOR\n2 1 83372 134309 59454 XOR\n2 1 347 134309 59455 XOR\n2 1 59454 59455 59453 AND\n2 1 59453 134309 134310 XOR\n2 1 134341 134310 78765 XOR\n2 1 80301 78765 134279 XOR\n2 1 134279 134248 76973 XOR\n2 1 78765 134248 59368 XOR\n2 1 59367 59368 59366 AND\n2 1 59366 134248 134249 XOR\n2 1 80302 134249 59370 XOR\n2 1 83373 134310 59457 XOR\n2 1 348 134310 59458 XOR\n2 1 59457 59458 59456 AND\n2 1 59456 134310 134311 XOR\n2 1 134342 134311 78766 XOR\n2 1 80302 78766 134280 XOR\n2 1 134280 134249 76974 XOR\n2 1 78766 134249 59371 XOR\n2 1 59370 59371 59369 AND\n2 1 59369 134249 134250 XOR\n2 1 80303 134250 59373 XOR\n2 1 83374 134311 59460 XOR\n2 1 349 134311 59461 XOR\n2 1 59460 59461 59459 AND\n2 1 59459 134311 134312 XOR\n2 1 134343 134312 78767 XOR\n",
"2 1 80303 78767 134281 XOR\n2 1 134281 134250 76975 XOR\n2 1 78767 134250 59374 XOR\n2 1 59373 59374 59372 AND\n2 1 59372 134250 134251 XOR\n2 1 83375 134312 59463 XOR\n2 1 350 134312 59464 XOR\n2 1 59463 59464 59462 AND\n2 1 59462 134312 134313 XOR\n2 1 134344 134313 78768 XOR\n2 1 80304 78768 134282 XOR\n2 1 134282 134251 76976 XOR\n2 1 76961 76963 81776 XOR\n2 1 76960 76962 81775 XOR\n2 1 76959 76961 81774 XOR\n2 1 76958 76960 81773 XOR\n2 1 76957 76959 81772 XOR\n2 1 76956 76958 81771 XOR\n2 1 76955 76957 81770 XOR\n2 1 76954 76956 81769 XOR\n2 1 76953 76955 81768 XOR\n2 1 76952 76954 81767 XOR\n2 1 76951 76953 7013 XOR\n2 1 76950 76952 7012 XOR\n2 1 76949 76951 7011 XOR\n2 1 76948 76950 7010 XOR\n2 1 76947 76949 7009 XOR\n2 1 76946 76948 7008 XOR\n2 1 76945 76947 7007 XOR\n2 1 76976 76946 7006 XOR\n2 1 76975 76945 7005 XOR\n2 1 76974 76976 7004 XOR\n2 1 76973 76975 7003 XOR\n2 1 76972 76974 7002 XOR\n2 1 76971 76973 7001 XOR\n2 1 76970 76972 7000 XOR\n2 1 76969 76971 6999 XOR\n2 1 76968 76970 6998 XOR\n2 1 76967 76969 6997 XOR\n2 1 76966 76968 6996 XOR\n2 1 76965 76967 6995 XOR\n2 1 76964 76966 6994 XOR\n2 1 76963 76965 6993 XOR\n2 1 76962 76964 6992 XOR\n2 1 7013 76976 81766 XOR\n2 1 7012 76975 81765 XOR\n2 1 7011 76974 81764 XOR\n2 1 7010 76973 81763 XOR\n2 1 7009 76972 81762 XOR\n2 1 7008 76971 81761 XOR\n2 1 7007 76970 81760 XOR\n2 1 7006 76969 81759 XOR\n2 1 7005 76968 81758 XOR\n2 1 7004 76967 81757 XOR\n2 1 7003 76966 81756 XOR\n2 1 7002 76965 81755 XOR\n2 1 7001 76964 81754 XOR\n2 1 7000 76963 81753 XOR\n2 1 6999 76962 81752 XOR\n2 1 6998 76961 81751 XOR\n2 1 6997 76960 81750 XOR\n2 1 6996 76959 81749 XOR\n2 1 6995 76958 81748 XOR\n2 1 6994 76957 81747 XOR\n2 1 6993 76956 81746 XOR\n2 1 6992 76955 81745 XOR\n2 1 262 273 83344 XOR\n2 1 83344 319 134158 XOR\n2 1 261 272 83343 XOR\n2 1 83343 318 134157 XOR\n2 1 260 271 83342 XOR\n2 1 83342 317 134156 XOR\n2 1 259 270 5966 XOR\n2 1 258 269 5965 XOR\n2 1 257 268 5964 XOR\n2 1 256 267 5963 XOR\n2 1 287 266 5962 XOR\n2 1 286 265 5961 XOR\n2 1 285 264 5960 XOR\n2 1 284 263 5959 XOR\n2 1 283 262 5958 XOR\n2 1 282 261 5957 XOR\n2 1 281 260 5956 XOR\n2 1 280 259 5955 XOR\n2 1 279 258 5954 XOR\n2 1 278 257 5953 XOR\n2 1 277 256 5952 XOR\n2 1 276 287 5951 XOR\n2 1 275 286 5950 XOR\n2 1 274 285 5949 XOR\n2 1 273 284 5948 XOR\n2 1 272 283 5947 XOR\n2 1 271 282 5946 XOR\n2 1 270 281 5945 XOR\n2 1 269 280 5944 XOR\n2 1 268 279 5943 XOR\n2 1 267 278 5942 XOR\n2 1 266 277 5941 XOR\n2 1 265 276 5940 XOR\n2 1 264 275 5939 XOR\n2 1 263 274 5938 XOR\n2 1 5966 287 83341 XOR\n2 1 83341 316 134155 XOR\n2 1 5965 286 83340 XOR\n2 1 83340 315 134154 XOR\n2 1 5964 285 83339 XOR\n2 1 83339 314 134153 XOR\n2 1 5963 284 83338 XOR\n2 1 83338 313 134152 XOR\n2 1 5962 283 83337 XOR\n2 1 83337 312 134151 XOR\n2 1 5961 282 83336 XOR\n2 1 83336 311 134150 XOR\n2 1 5960 281 83335 XOR\n2 1 83335 310 134149 XOR\n2 1 5959 280 83334 XOR\n2 1 83334 309 134148 XOR\n2 1 5958 279 83333 XOR\n2 1 83333 308 134147 XOR\n2 1 5957 278 83332 XOR\n2 1 83332 307 134146 XOR\n2 1 5956 277 83331 XOR\n2 1 83331 306 134145 XOR\n2 1 5955 276 83330 XOR\n2 1 83330 305 134144 XOR\n2 1 5954 275 83329 XOR\n2 1 83329 304 134143 XOR\n2 1 5953 274 83328 XOR\n",
"2 1 83328 303 134142 XOR\n2 1 5952 273 83327 XOR\n2 1 83327 302 134141 XOR\n2 1 5951 272 83326 XOR\n2 1 83326 301 134140 XOR\n2 1 5950 271 83325 XOR\n2 1 83325 300 134139 XOR\n2 1 5949 270 83324 XOR\n2 1 83324 299 134138 XOR\n2 1 5948 269 83323 XOR\n2 1 83323 298 134137 XOR\n2 1 5947 268 83322 XOR\n2 1 83322 297 134136 XOR\n2 1 5946 267 83321 XOR\n2 1 83321 296 134135 XOR\n2 1 5945 266 83320 XOR\n2 1 83320 295 134134 XOR\n2 1 5944 265 83319 XOR\n2 1 83319 294 134133 XOR\n2 1 5943 264 83318 XOR\n2 1 83318 293 134132 XOR\n2 1 5942 263 83317 XOR\n2 1 83317 292 134131 XOR\n2 1 5941 262 83316 XOR\n2 1 83316 291 134130 XOR\n2 1 5940 261 83315 XOR\n2 1 83315 290 134129 XOR\n2 1 5939 260 83314 XOR\n2 1 83314 289 134128 XOR\n2 1 5938 259 83313 XOR\n2 1 83313 288 134097 AND\n2 1 83313 288 78705 XOR\n2 1 134128 134097 78706 XOR\n2 1 83314 134097 59106 XOR\n2 1 289 134097 59107 XOR\n2 1 59106 59107 59105 AND\n2 1 59105 134097 134098 XOR\n2 1 134129 134098 78707 XOR\n2 1 83315 134098 59109 XOR\n2 1 290 134098 59110 XOR\n2 1 59109 59110 59108 AND\n2 1 59108 134098 134099 XOR\n2 1 134130 134099 78708 XOR\n2 1 83316 134099 59112 XOR\n2 1 291 134099 59113 XOR\n2 1 59112 59113 59111 AND\n2 1 59111 134099 134100 XOR\n2 1 134131 134100 78709 XOR\n2 1 83317 134100 59115 XOR\n2 1 292 134100 59116 XOR\n2 1 59115 59116 59114 AND\n2 1 59114 134100 134101 XOR\n2 1 134132 134101 78710 XOR\n2 1 83318 134101 59118 XOR\n2 1 293 134101 59119 XOR\n2 1 59118 59119 59117 AND\n2 1 59117 134101 134102 XOR\n2 1 134133 134102 78711 XOR\n2 1 83319 134102 59121 XOR\n2 1 294 134102 59122 XOR\n2 1 59121 59122 59120 AND\n2 1 59120 134102 134103 XOR\n2 1 134134 134103 78712 XOR\n2 1 83320 134103 59124 XOR\n2 1 295 134103 59125 XOR\n2 1 59124 59125 59123 AND\n2 1 59123 134103 134104 XOR\n2 1 134135 134104 78713 XOR\n2 1 83321 134104 59127 XOR\n2 1 296 134104 59128 XOR\n2 1 59127 59128 59126 AND\n2 1 59126 134104 134105 XOR\n2 1 134136 134105 78714 XOR\n2 1 83322 134105 59130 XOR\n2 1 297 134105 59131 XOR\n2 1 59130 59131 59129 AND\n2 1 59129 134105 134106 XOR\n2 1 134137 134106 78715 XOR\n2 1 83323 134106 59133 XOR\n2 1 298 134106 59134 XOR\n2 1 59133 59134 59132 AND\n2 1 59132 134106 134107 XOR\n2 1 134138 134107 78716 XOR\n2 1 83324 134107 59136 XOR\n2 1 299 134107 59137 XOR\n2 1 59136 59137 59135 AND\n2 1 59135 134107 134108 XOR\n2 1 134139 134108 78717 XOR\n2 1 83325 134108 59139 XOR\n2 1 300 134108 59140 XOR\n2 1 59139 59140 59138 AND\n2 1 59138 134108 134109 XOR\n2 1 134140 134109 78718 XOR\n2 1 83326 134109 59142 XOR\n2 1 301 134109 59143 XOR\n2 1 59142 59143 59141 AND\n2 1 59141 134109 134110 XOR\n2 1 134141 134110 78719 XOR\n2 1 83327 134110 59145 XOR\n2 1 302 134110 59146 XOR\n2 1 59145 59146 59144 AND\n2 1 59144 134110 134111 XOR\n2 1 134142 134111 78720 XOR\n2 1 83328 134111 59148 XOR\n2 1 303 134111 59149 XOR\n2 1 59148 59149 59147 AND\n2 1 59147 134111 134112 XOR\n2 1 134143 134112 78721 XOR\n2 1 83329 134112 59151 XOR\n2 1 304 134112 59152 XOR\n2 1 59151 59152 59150 AND\n2 1 59150 134112 134113 XOR\n2 1 134144 134113 78722 XOR\n2 1 83330 134113 59154 XOR\n2 1 305 134113 59155 XOR\n2 1 59154 59155 59153 AND\n2 1 59153 134113 134114 XOR\n2 1 134145 134114 78723 XOR\n2 1 83331 134114 59157 XOR\n2 1 306 134114 59158 XOR\n2 1 59157 59158 59156 AND\n2 1 59156 134114 134115 XOR\n2 1 134146 134115 78724 XOR\n2 1 83332 134115 59160 XOR\n2 1 307 134115 59161 XOR\n2 1 59160 59161 59159 AND\n2 1 59159 134115 134116 XOR\n2 1 134147 134116 78725 XOR\n",
"2 1 83333 134116 59163 XOR\n2 1 308 134116 59164 XOR\n2 1 59163 59164 59162 AND\n2 1 59162 134116 134117 XOR\n2 1 134148 134117 78726 XOR\n2 1 83334 134117 59166 XOR\n2 1 309 134117 59167 XOR\n2 1 59166 59167 59165 AND\n2 1 59165 134117 134118 XOR\n2 1 134149 134118 78727 XOR\n2 1 83335 134118 59169 XOR\n2 1 310 134118 59170 XOR\n2 1 59169 59170 59168 AND\n2 1 59168 134118 134119 XOR\n2 1 134150 134119 78728 XOR\n2 1 83336 134119 59172 XOR\n2 1 311 134119 59173 XOR\n2 1 59172 59173 59171 AND\n2 1 59171 134119 134120 XOR\n2 1 134151 134120 78729 XOR\n2 1 83337 134120 59175 XOR\n2 1 312 134120 59176 XOR\n2 1 59175 59176 59174 AND\n2 1 59174 134120 134121 XOR\n2 1 134152 134121 78730 XOR\n2 1 83338 134121 59178 XOR\n2 1 313 134121 59179 XOR\n2 1 59178 59179 59177 AND\n2 1 59177 134121 134122 XOR\n2 1 134153 134122 78731 XOR\n2 1 83339 134122 59181 XOR\n2 1 314 134122 59182 XOR\n2 1 59181 59182 59180 AND\n2 1 59180 134122 134123 XOR\n2 1 134154 134123 78732 XOR\n2 1 83340 134123 59184 XOR\n2 1 315 134123 59185 XOR\n2 1 59184 59185 59183 AND\n2 1 59183 134123 134124 XOR\n2 1 134155 134124 78733 XOR\n2 1 83341 134124 59187 XOR\n2 1 316 134124 59188 XOR\n2 1 59187 59188 59186 AND\n2 1 59186 134124 134125 XOR\n2 1 134156 134125 78734 XOR\n2 1 83342 134125 59190 XOR\n2 1 317 134125 59191 XOR\n2 1 59190 59191 59189 AND\n2 1 59189 134125 134126 XOR\n2 1 134157 134126 78735 XOR\n2 1 83343 134126 59193 XOR\n2 1 318 134126 59194 XOR\n2 1 59193 59194 59192 AND\n2 1 59192 134126 134127 XOR\n2 1 134158 134127 78736 XOR\n2 1 230 241 83312 XOR\n2 1 83312 287 133972 XOR\n2 1 229 240 83311 XOR\n2 1 83311 286 133971 XOR\n2 1 228 239 83310 XOR\n2 1 83310 285 133970 XOR\n2 1 227 238 5937 XOR\n2 1 226 237 5936 XOR\n2 1 225 236 5935 XOR\n2 1 224 235 5934 XOR\n2 1 255 234 5933 XOR\n2 1 254 233 5932 XOR\n2 1 253 232 5931 XOR\n2 1 252 231 5930 XOR\n2 1 251 230 5929 XOR\n2 1 250 229 5928 XOR\n2 1 249 228 5927 XOR\n2 1 248 227 5926 XOR\n2 1 247 226 5925 XOR\n2 1 246 225 5924 XOR\n2 1 245 224 5923 XOR\n2 1 244 255 5922 XOR\n2 1 243 254 5921 XOR\n2 1 242 253 5920 XOR\n2 1 241 252 5919 XOR\n2 1 240 251 5918 XOR\n2 1 239 250 5917 XOR\n2 1 238 249 5916 XOR\n2 1 237 248 5915 XOR\n2 1 236 247 5914 XOR\n2 1 235 246 5913 XOR\n2 1 234 245 5912 XOR\n2 1 233 244 5911 XOR\n2 1 232 243 5910 XOR\n2 1 231 242 5909 XOR\n2 1 5937 255 83309 XOR\n2 1 83309 284 133969 XOR\n2 1 5936 254 83308 XOR\n2 1 83308 283 133968 XOR\n2 1 5935 253 83307 XOR\n2 1 83307 282 133967 XOR\n2 1 5934 252 83306 XOR\n2 1 83306 281 133966 XOR\n2 1 5933 251 83305 XOR\n2 1 83305 280 133965 XOR\n2 1 5932 250 83304 XOR\n2 1 83304 279 133964 XOR\n2 1 5931 249 83303 XOR\n2 1 83303 278 133963 XOR\n2 1 5930 248 83302 XOR\n2 1 83302 277 133962 XOR\n2 1 5929 247 83301 XOR\n2 1 83301 276 133961 XOR\n2 1 5928 246 83300 XOR\n2 1 83300 275 133960 XOR\n2 1 5927 245 83299 XOR\n2 1 83299 274 133959 XOR\n2 1 5926 244 83298 XOR\n2 1 83298 273 133958 XOR\n2 1 5925 243 83297 XOR\n2 1 83297 272 133957 XOR\n2 1 5924 242 83296 XOR\n2 1 83296 271 133956 XOR\n2 1 5923 241 83295 XOR\n2 1 83295 270 133955 XOR\n2 1 5922 240 83294 XOR\n2 1 83294 269 133954 XOR\n2 1 5921 239 83293 XOR\n2 1 83293 268 133953 XOR\n2 1 5920 238 83292 XOR\n2 1 83292 267 133952 XOR\n2 1 5919 237 83291 XOR\n2 1 83291 266 133951 XOR\n",
"2 1 5918 236 83290 XOR\n2 1 83290 265 133950 XOR\n2 1 5917 235 83289 XOR\n2 1 83289 264 133949 XOR\n2 1 5916 234 83288 XOR\n2 1 83288 263 133948 XOR\n2 1 5915 233 83287 XOR\n2 1 83287 262 133947 XOR\n2 1 5914 232 83286 XOR\n2 1 83286 261 133946 XOR\n2 1 5913 231 83285 XOR\n2 1 83285 260 133945 XOR\n2 1 5912 230 83284 XOR\n2 1 83284 259 133944 XOR\n2 1 5911 229 83283 XOR\n2 1 83283 258 133943 XOR\n2 1 5910 228 83282 XOR\n2 1 83282 257 133942 XOR\n2 1 5909 227 83281 XOR\n2 1 83281 256 133911 AND\n2 1 83281 256 78673 XOR\n2 1 133942 133911 78674 XOR\n2 1 83282 133911 58836 XOR\n2 1 257 133911 58837 XOR\n2 1 58836 58837 58835 AND\n2 1 58835 133911 133912 XOR\n2 1 133943 133912 78675 XOR\n2 1 83283 133912 58839 XOR\n2 1 258 133912 58840 XOR\n2 1 58839 58840 58838 AND\n2 1 58838 133912 133913 XOR\n2 1 133944 133913 78676 XOR\n2 1 83284 133913 58842 XOR\n2 1 259 133913 58843 XOR\n2 1 58842 58843 58841 AND\n2 1 58841 133913 133914 XOR\n2 1 133945 133914 78677 XOR\n2 1 83285 133914 58845 XOR\n2 1 260 133914 58846 XOR\n2 1 58845 58846 58844 AND\n2 1 58844 133914 133915 XOR\n2 1 133946 133915 78678 XOR\n2 1 83286 133915 58848 XOR\n2 1 261 133915 58849 XOR\n2 1 58848 58849 58847 AND\n2 1 58847 133915 133916 XOR\n2 1 133947 133916 78679 XOR\n2 1 83287 133916 58851 XOR\n2 1 262 133916 58852 XOR\n2 1 58851 58852 58850 AND\n2 1 58850 133916 133917 XOR\n2 1 133948 133917 78680 XOR\n2 1 83288 133917 58854 XOR\n2 1 263 133917 58855 XOR\n2 1 58854 58855 58853 AND\n2 1 58853 133917 133918 XOR\n2 1 133949 133918 78681 XOR\n2 1 83289 133918 58857 XOR\n2 1 264 133918 58858 XOR\n2 1 58857 58858 58856 AND\n2 1 58856 133918 133919 XOR\n2 1 133950 133919 78682 XOR\n2 1 83290 133919 58860 XOR\n2 1 265 133919 58861 XOR\n2 1 58860 58861 58859 AND\n2 1 58859 133919 133920 XOR\n2 1 133951 133920 78683 XOR\n2 1 83291 133920 58863 XOR\n2 1 266 133920 58864 XOR\n2 1 58863 58864 58862 AND\n2 1 58862 133920 133921 XOR\n2 1 133952 133921 78684 XOR\n2 1 83292 133921 58866 XOR\n2 1 267 133921 58867 XOR\n2 1 58866 58867 58865 AND\n2 1 58865 133921 133922 XOR\n2 1 133953 133922 78685 XOR\n2 1 83293 133922 58869 XOR\n2 1 268 133922 58870 XOR\n2 1 58869 58870 58868 AND\n2 1 58868 133922 133923 XOR\n2 1 133954 133923 78686 XOR\n2 1 83294 133923 58872 XOR\n2 1 269 133923 58873 XOR\n2 1 58872 58873 58871 AND\n2 1 58871 133923 133924 XOR\n2 1 133955 133924 78687 XOR\n2 1 83295 133924 58875 XOR\n2 1 270 133924 58876 XOR\n2 1 58875 58876 58874 AND\n2 1 58874 133924 133925 XOR\n2 1 133956 133925 78688 XOR\n2 1 83296 133925 58878 XOR\n2 1 271 133925 58879 XOR\n2 1 58878 58879 58877 AND\n2 1 58877 133925 133926 XOR\n2 1 133957 133926 78689 XOR\n2 1 83297 133926 58881 XOR\n2 1 272 133926 58882 XOR\n2 1 58881 58882 58880 AND\n2 1 58880 133926 133927 XOR\n2 1 133958 133927 78690 XOR\n2 1 83298 133927 58884 XOR\n2 1 273 133927 58885 XOR\n2 1 58884 58885 58883 AND\n2 1 58883 133927 133928 XOR\n2 1 133959 133928 78691 XOR\n2 1 83299 133928 58887 XOR\n2 1 274 133928 58888 XOR\n2 1 58887 58888 58886 AND\n2 1 58886 133928 133929 XOR\n2 1 133960 133929 78692 XOR\n2 1 83300 133929 58890 XOR\n2 1 275 133929 58891 XOR\n2 1 58890 58891 58889 AND\n2 1 58889 133929 133930 XOR\n2 1 133961 133930 78693 XOR\n2 1 83301 133930 58893 XOR\n2 1 276 133930 58894 XOR\n2 1 58893 58894 58892 AND\n2 1 58892 133930 133931 XOR\n2 1 133962 133931 78694 XOR\n2 1 83302 133931 58896 XOR\n2 1 277 133931 58897 XOR\n2 1 58896 58897 58895 AND\n2 1 58895 133931 133932 XOR\n2 1 133963 133932 78695 XOR\n2 1 83303 133932 58899 XOR\n",
"2 1 278 133932 58900 XOR\n2 1 58899 58900 58898 AND\n2 1 58898 133932 133933 XOR\n2 1 133964 133933 78696 XOR\n2 1 83304 133933 58902 XOR\n2 1 279 133933 58903 XOR\n2 1 58902 58903 58901 AND\n2 1 58901 133933 133934 XOR\n2 1 133965 133934 78697 XOR\n2 1 83305 133934 58905 XOR\n2 1 280 133934 58906 XOR\n2 1 58905 58906 58904 AND\n2 1 58904 133934 133935 XOR\n2 1 133966 133935 78698 XOR\n2 1 83306 133935 58908 XOR\n2 1 281 133935 58909 XOR\n2 1 58908 58909 58907 AND\n2 1 58907 133935 133936 XOR\n2 1 133967 133936 78699 XOR\n2 1 83307 133936 58911 XOR\n2 1 282 133936 58912 XOR\n2 1 58911 58912 58910 AND\n2 1 58910 133936 133937 XOR\n2 1 133968 133937 78700 XOR\n2 1 83308 133937 58914 XOR\n2 1 283 133937 58915 XOR\n2 1 58914 58915 58913 AND\n2 1 58913 133937 133938 XOR\n2 1 133969 133938 78701 XOR\n2 1 83309 133938 58917 XOR\n2 1 284 133938 58918 XOR\n2 1 58917 58918 58916 AND\n2 1 58916 133938 133939 XOR\n2 1 133970 133939 78702 XOR\n2 1 83310 133939 58920 XOR\n2 1 285 133939 58921 XOR\n2 1 58920 58921 58919 AND\n2 1 58919 133939 133940 XOR\n2 1 133971 133940 78703 XOR\n2 1 83311 133940 58923 XOR\n2 1 286 133940 58924 XOR\n2 1 58923 58924 58922 AND\n2 1 58922 133940 133941 XOR\n2 1 133972 133941 78704 XOR\n2 1 198 209 83280 XOR\n2 1 83280 255 133786 XOR\n2 1 197 208 83279 XOR\n2 1 83279 254 133785 XOR\n2 1 196 207 83278 XOR\n2 1 83278 253 133784 XOR\n2 1 195 206 5908 XOR\n2 1 194 205 5907 XOR\n2 1 193 204 5906 XOR\n2 1 192 203 5905 XOR\n2 1 223 202 5904 XOR\n2 1 222 201 5903 XOR\n2 1 221 200 5902 XOR\n2 1 220 199 5901 XOR\n2 1 219 198 5900 XOR\n2 1 218 197 5899 XOR\n2 1 217 196 5898 XOR\n2 1 216 195 5897 XOR\n2 1 215 194 5896 XOR\n2 1 214 193 5895 XOR\n2 1 213 192 5894 XOR\n2 1 212 223 5893 XOR\n2 1 211 222 5892 XOR\n2 1 210 221 5891 XOR\n2 1 209 220 5890 XOR\n2 1 208 219 5889 XOR\n2 1 207 218 5888 XOR\n2 1 206 217 5887 XOR\n2 1 205 216 5886 XOR\n2 1 204 215 5885 XOR\n2 1 203 214 5884 XOR\n2 1 202 213 5883 XOR\n2 1 201 212 5882 XOR\n2 1 200 211 5881 XOR\n2 1 199 210 5880 XOR\n2 1 5908 223 83277 XOR\n2 1 83277 252 133783 XOR\n2 1 5907 222 83276 XOR\n2 1 83276 251 133782 XOR\n2 1 5906 221 83275 XOR\n2 1 83275 250 133781 XOR\n2 1 5905 220 83274 XOR\n2 1 83274 249 133780 XOR\n2 1 5904 219 83273 XOR\n2 1 83273 248 133779 XOR\n2 1 5903 218 83272 XOR\n2 1 83272 247 133778 XOR\n2 1 5902 217 83271 XOR\n2 1 83271 246 133777 XOR\n2 1 5901 216 83270 XOR\n2 1 83270 245 133776 XOR\n2 1 5900 215 83269 XOR\n2 1 83269 244 133775 XOR\n2 1 5899 214 83268 XOR\n2 1 83268 243 133774 XOR\n2 1 5898 213 83267 XOR\n2 1 83267 242 133773 XOR\n2 1 5897 212 83266 XOR\n2 1 83266 241 133772 XOR\n2 1 5896 211 83265 XOR\n2 1 83265 240 133771 XOR\n2 1 5895 210 83264 XOR\n2 1 83264 239 133770 XOR\n2 1 5894 209 83263 XOR\n2 1 83263 238 133769 XOR\n2 1 5893 208 83262 XOR\n2 1 83262 237 133768 XOR\n2 1 5892 207 83261 XOR\n2 1 83261 236 133767 XOR\n2 1 5891 206 83260 XOR\n2 1 83260 235 133766 XOR\n2 1 5890 205 83259 XOR\n2 1 83259 234 133765 XOR\n2 1 5889 204 83258 XOR\n2 1 83258 233 133764 XOR\n2 1 5888 203 83257 XOR\n2 1 83257 232 133763 XOR\n2 1 5887 202 83256 XOR\n2 1 83256 231 133762 XOR\n2 1 5886 201 83255 XOR\n2 1 83255 230 133761 XOR\n2 1 5885 200 83254 XOR\n2 1 83254 229 133760 XOR\n2 1 5884 199 83253 XOR\n",
"2 1 83253 228 133759 XOR\n2 1 5883 198 83252 XOR\n2 1 83252 227 133758 XOR\n2 1 5882 197 83251 XOR\n2 1 83251 226 133757 XOR\n2 1 5881 196 83250 XOR\n2 1 83250 225 133756 XOR\n2 1 5880 195 83249 XOR\n2 1 83249 224 133725 AND\n2 1 83249 224 78641 XOR\n2 1 133756 133725 78642 XOR\n2 1 83250 133725 58566 XOR\n2 1 225 133725 58567 XOR\n2 1 58566 58567 58565 AND\n2 1 58565 133725 133726 XOR\n2 1 133757 133726 78643 XOR\n2 1 83251 133726 58569 XOR\n2 1 226 133726 58570 XOR\n2 1 58569 58570 58568 AND\n2 1 58568 133726 133727 XOR\n2 1 133758 133727 78644 XOR\n2 1 83252 133727 58572 XOR\n2 1 227 133727 58573 XOR\n2 1 58572 58573 58571 AND\n2 1 58571 133727 133728 XOR\n2 1 133759 133728 78645 XOR\n2 1 83253 133728 58575 XOR\n2 1 228 133728 58576 XOR\n2 1 58575 58576 58574 AND\n2 1 58574 133728 133729 XOR\n2 1 133760 133729 78646 XOR\n2 1 83254 133729 58578 XOR\n2 1 229 133729 58579 XOR\n2 1 58578 58579 58577 AND\n2 1 58577 133729 133730 XOR\n2 1 133761 133730 78647 XOR\n2 1 83255 133730 58581 XOR\n2 1 230 133730 58582 XOR\n2 1 58581 58582 58580 AND\n2 1 58580 133730 133731 XOR\n2 1 133762 133731 78648 XOR\n2 1 83256 133731 58584 XOR\n2 1 231 133731 58585 XOR\n2 1 58584 58585 58583 AND\n2 1 58583 133731 133732 XOR\n2 1 133763 133732 78649 XOR\n2 1 83257 133732 58587 XOR\n2 1 232 133732 58588 XOR\n2 1 58587 58588 58586 AND\n2 1 58586 133732 133733 XOR\n2 1 133764 133733 78650 XOR\n2 1 83258 133733 58590 XOR\n2 1 233 133733 58591 XOR\n2 1 58590 58591 58589 AND\n2 1 58589 133733 133734 XOR\n2 1 133765 133734 78651 XOR\n2 1 83259 133734 58593 XOR\n2 1 234 133734 58594 XOR\n2 1 58593 58594 58592 AND\n2 1 58592 133734 133735 XOR\n2 1 133766 133735 78652 XOR\n2 1 83260 133735 58596 XOR\n2 1 235 133735 58597 XOR\n2 1 58596 58597 58595 AND\n2 1 58595 133735 133736 XOR\n2 1 133767 133736 78653 XOR\n2 1 83261 133736 58599 XOR\n2 1 236 133736 58600 XOR\n2 1 58599 58600 58598 AND\n2 1 58598 133736 133737 XOR\n2 1 133768 133737 78654 XOR\n2 1 83262 133737 58602 XOR\n2 1 237 133737 58603 XOR\n2 1 58602 58603 58601 AND\n2 1 58601 133737 133738 XOR\n2 1 133769 133738 78655 XOR\n2 1 83263 133738 58605 XOR\n2 1 238 133738 58606 XOR\n2 1 58605 58606 58604 AND\n2 1 58604 133738 133739 XOR\n2 1 133770 133739 78656 XOR\n2 1 83264 133739 58608 XOR\n2 1 239 133739 58609 XOR\n2 1 58608 58609 58607 AND\n2 1 58607 133739 133740 XOR\n2 1 133771 133740 78657 XOR\n2 1 83265 133740 58611 XOR\n2 1 240 133740 58612 XOR\n2 1 58611 58612 58610 AND\n2 1 58610 133740 133741 XOR\n2 1 133772 133741 78658 XOR\n2 1 83266 133741 58614 XOR\n2 1 241 133741 58615 XOR\n2 1 58614 58615 58613 AND\n2 1 58613 133741 133742 XOR\n2 1 133773 133742 78659 XOR\n2 1 83267 133742 58617 XOR\n2 1 242 133742 58618 XOR\n2 1 58617 58618 58616 AND\n2 1 58616 133742 133743 XOR\n2 1 133774 133743 78660 XOR\n2 1 83268 133743 58620 XOR\n2 1 243 133743 58621 XOR\n2 1 58620 58621 58619 AND\n2 1 58619 133743 133744 XOR\n2 1 133775 133744 78661 XOR\n2 1 83269 133744 58623 XOR\n2 1 244 133744 58624 XOR\n2 1 58623 58624 58622 AND\n2 1 58622 133744 133745 XOR\n2 1 133776 133745 78662 XOR\n2 1 83270 133745 58626 XOR\n2 1 245 133745 58627 XOR\n2 1 58626 58627 58625 AND\n2 1 58625 133745 133746 XOR\n2 1 133777 133746 78663 XOR\n2 1 83271 133746 58629 XOR\n2 1 246 133746 58630 XOR\n2 1 58629 58630 58628 AND\n2 1 58628 133746 133747 XOR\n2 1 133778 133747 78664 XOR\n2 1 83272 133747 58632 XOR\n2 1 247 133747 58633 XOR\n2 1 58632 58633 58631 AND\n2 1 58631 133747 133748 XOR\n2 1 133779 133748 78665 XOR\n2 1 83273 133748 58635 XOR\n2 1 248 133748 58636 XOR\n",
"2 1 58635 58636 58634 AND\n2 1 58634 133748 133749 XOR\n2 1 133780 133749 78666 XOR\n2 1 83274 133749 58638 XOR\n2 1 249 133749 58639 XOR\n2 1 58638 58639 58637 AND\n2 1 58637 133749 133750 XOR\n2 1 133781 133750 78667 XOR\n2 1 83275 133750 58641 XOR\n2 1 250 133750 58642 XOR\n2 1 58641 58642 58640 AND\n2 1 58640 133750 133751 XOR\n2 1 133782 133751 78668 XOR\n2 1 83276 133751 58644 XOR\n2 1 251 133751 58645 XOR\n2 1 58644 58645 58643 AND\n2 1 58643 133751 133752 XOR\n2 1 133783 133752 78669 XOR\n2 1 83277 133752 58647 XOR\n2 1 252 133752 58648 XOR\n2 1 58647 58648 58646 AND\n2 1 58646 133752 133753 XOR\n2 1 133784 133753 78670 XOR\n2 1 83278 133753 58650 XOR\n2 1 253 133753 58651 XOR\n2 1 58650 58651 58649 AND\n2 1 58649 133753 133754 XOR\n2 1 133785 133754 78671 XOR\n2 1 83279 133754 58653 XOR\n2 1 254 133754 58654 XOR\n2 1 58653 58654 58652 AND\n2 1 58652 133754 133755 XOR\n2 1 133786 133755 78672 XOR\n2 1 166 177 83248 XOR\n2 1 83248 223 133600 XOR\n2 1 165 176 83247 XOR\n2 1 83247 222 133599 XOR\n2 1 164 175 83246 XOR\n2 1 83246 221 133598 XOR\n2 1 163 174 5879 XOR\n2 1 162 173 5878 XOR\n2 1 161 172 5877 XOR\n2 1 160 171 5876 XOR\n2 1 191 170 5875 XOR\n2 1 190 169 5874 XOR\n2 1 189 168 5873 XOR\n2 1 188 167 5872 XOR\n2 1 187 166 5871 XOR\n2 1 186 165 5870 XOR\n2 1 185 164 5869 XOR\n2 1 184 163 5868 XOR\n2 1 183 162 5867 XOR\n2 1 182 161 5866 XOR\n2 1 181 160 5865 XOR\n2 1 180 191 5864 XOR\n2 1 179 190 5863 XOR\n2 1 178 189 5862 XOR\n2 1 177 188 5861 XOR\n2 1 176 187 5860 XOR\n2 1 175 186 5859 XOR\n2 1 174 185 5858 XOR\n2 1 173 184 5857 XOR\n2 1 172 183 5856 XOR\n2 1 171 182 5855 XOR\n2 1 170 181 5854 XOR\n2 1 169 180 5853 XOR\n2 1 168 179 5852 XOR\n2 1 167 178 5851 XOR\n2 1 5879 191 83245 XOR\n2 1 83245 220 133597 XOR\n2 1 5878 190 83244 XOR\n2 1 83244 219 133596 XOR\n2 1 5877 189 83243 XOR\n2 1 83243 218 133595 XOR\n2 1 5876 188 83242 XOR\n2 1 83242 217 133594 XOR\n2 1 5875 187 83241 XOR\n2 1 83241 216 133593 XOR\n2 1 5874 186 83240 XOR\n2 1 83240 215 133592 XOR\n2 1 5873 185 83239 XOR\n2 1 83239 214 133591 XOR\n2 1 5872 184 83238 XOR\n2 1 83238 213 133590 XOR\n2 1 5871 183 83237 XOR\n2 1 83237 212 133589 XOR\n2 1 5870 182 83236 XOR\n2 1 83236 211 133588 XOR\n2 1 5869 181 83235 XOR\n2 1 83235 210 133587 XOR\n2 1 5868 180 83234 XOR\n2 1 83234 209 133586 XOR\n2 1 5867 179 83233 XOR\n2 1 83233 208 133585 XOR\n2 1 5866 178 83232 XOR\n2 1 83232 207 133584 XOR\n2 1 5865 177 83231 XOR\n2 1 83231 206 133583 XOR\n2 1 5864 176 83230 XOR\n2 1 83230 205 133582 XOR\n2 1 5863 175 83229 XOR\n2 1 83229 204 133581 XOR\n2 1 5862 174 83228 XOR\n2 1 83228 203 133580 XOR\n2 1 5861 173 83227 XOR\n2 1 83227 202 133579 XOR\n2 1 5860 172 83226 XOR\n2 1 83226 201 133578 XOR\n2 1 5859 171 83225 XOR\n2 1 83225 200 133577 XOR\n2 1 5858 170 83224 XOR\n2 1 83224 199 133576 XOR\n2 1 5857 169 83223 XOR\n2 1 83223 198 133575 XOR\n2 1 5856 168 83222 XOR\n2 1 83222 197 133574 XOR\n2 1 5855 167 83221 XOR\n2 1 83221 196 133573 XOR\n2 1 5854 166 83220 XOR\n2 1 83220 195 133572 XOR\n2 1 5853 165 83219 XOR\n2 1 83219 194 133571 XOR\n2 1 5852 164 83218 XOR\n2 1 83218 193 133570 XOR\n2 1 5851 163 83217 XOR\n2 1 83217 192 133539 AND\n2 1 83217 192 78609 XOR\n2 1 133570 133539 78610 XOR\n",
"2 1 83218 133539 58296 XOR\n2 1 193 133539 58297 XOR\n2 1 58296 58297 58295 AND\n2 1 58295 133539 133540 XOR\n2 1 133571 133540 78611 XOR\n2 1 83219 133540 58299 XOR\n2 1 194 133540 58300 XOR\n2 1 58299 58300 58298 AND\n2 1 58298 133540 133541 XOR\n2 1 133572 133541 78612 XOR\n2 1 83220 133541 58302 XOR\n2 1 195 133541 58303 XOR\n2 1 58302 58303 58301 AND\n2 1 58301 133541 133542 XOR\n2 1 133573 133542 78613 XOR\n2 1 83221 133542 58305 XOR\n2 1 196 133542 58306 XOR\n2 1 58305 58306 58304 AND\n2 1 58304 133542 133543 XOR\n2 1 133574 133543 78614 XOR\n2 1 83222 133543 58308 XOR\n2 1 197 133543 58309 XOR\n2 1 58308 58309 58307 AND\n2 1 58307 133543 133544 XOR\n2 1 133575 133544 78615 XOR\n2 1 83223 133544 58311 XOR\n2 1 198 133544 58312 XOR\n2 1 58311 58312 58310 AND\n2 1 58310 133544 133545 XOR\n2 1 133576 133545 78616 XOR\n2 1 83224 133545 58314 XOR\n2 1 199 133545 58315 XOR\n2 1 58314 58315 58313 AND\n2 1 58313 133545 133546 XOR\n2 1 133577 133546 78617 XOR\n2 1 83225 133546 58317 XOR\n2 1 200 133546 58318 XOR\n2 1 58317 58318 58316 AND\n2 1 58316 133546 133547 XOR\n2 1 133578 133547 78618 XOR\n2 1 83226 133547 58320 XOR\n2 1 201 133547 58321 XOR\n2 1 58320 58321 58319 AND\n2 1 58319 133547 133548 XOR\n2 1 133579 133548 78619 XOR\n2 1 83227 133548 58323 XOR\n2 1 202 133548 58324 XOR\n2 1 58323 58324 58322 AND\n2 1 58322 133548 133549 XOR\n2 1 133580 133549 78620 XOR\n2 1 83228 133549 58326 XOR\n2 1 203 133549 58327 XOR\n2 1 58326 58327 58325 AND\n2 1 58325 133549 133550 XOR\n2 1 133581 133550 78621 XOR\n2 1 83229 133550 58329 XOR\n2 1 204 133550 58330 XOR\n2 1 58329 58330 58328 AND\n2 1 58328 133550 133551 XOR\n2 1 133582 133551 78622 XOR\n2 1 83230 133551 58332 XOR\n2 1 205 133551 58333 XOR\n2 1 58332 58333 58331 AND\n2 1 58331 133551 133552 XOR\n2 1 133583 133552 78623 XOR\n2 1 83231 133552 58335 XOR\n2 1 206 133552 58336 XOR\n2 1 58335 58336 58334 AND\n2 1 58334 133552 133553 XOR\n2 1 133584 133553 78624 XOR\n2 1 83232 133553 58338 XOR\n2 1 207 133553 58339 XOR\n2 1 58338 58339 58337 AND\n2 1 58337 133553 133554 XOR\n2 1 133585 133554 78625 XOR\n2 1 83233 133554 58341 XOR\n2 1 208 133554 58342 XOR\n2 1 58341 58342 58340 AND\n2 1 58340 133554 133555 XOR\n2 1 133586 133555 78626 XOR\n2 1 83234 133555 58344 XOR\n2 1 209 133555 58345 XOR\n2 1 58344 58345 58343 AND\n2 1 58343 133555 133556 XOR\n2 1 133587 133556 78627 XOR\n2 1 83235 133556 58347 XOR\n2 1 210 133556 58348 XOR\n2 1 58347 58348 58346 AND\n2 1 58346 133556 133557 XOR\n2 1 133588 133557 78628 XOR\n2 1 83236 133557 58350 XOR\n2 1 211 133557 58351 XOR\n2 1 58350 58351 58349 AND\n2 1 58349 133557 133558 XOR\n2 1 133589 133558 78629 XOR\n2 1 83237 133558 58353 XOR\n2 1 212 133558 58354 XOR\n2 1 58353 58354 58352 AND\n2 1 58352 133558 133559 XOR\n2 1 133590 133559 78630 XOR\n2 1 83238 133559 58356 XOR\n2 1 213 133559 58357 XOR\n2 1 58356 58357 58355 AND\n2 1 58355 133559 133560 XOR\n2 1 133591 133560 78631 XOR\n2 1 83239 133560 58359 XOR\n2 1 214 133560 58360 XOR\n2 1 58359 58360 58358 AND\n2 1 58358 133560 133561 XOR\n2 1 133592 133561 78632 XOR\n2 1 83240 133561 58362 XOR\n2 1 215 133561 58363 XOR\n2 1 58362 58363 58361 AND\n2 1 58361 133561 133562 XOR\n2 1 133593 133562 78633 XOR\n2 1 83241 133562 58365 XOR\n2 1 216 133562 58366 XOR\n2 1 58365 58366 58364 AND\n2 1 58364 133562 133563 XOR\n2 1 133594 133563 78634 XOR\n2 1 83242 133563 58368 XOR\n2 1 217 133563 58369 XOR\n2 1 58368 58369 58367 AND\n2 1 58367 133563 133564 XOR\n2 1 133595 133564 78635 XOR\n2 1 83243 133564 58371 XOR\n2 1 218 133564 58372 XOR\n2 1 58371 58372 58370 AND\n",
"2 1 58370 133564 133565 XOR\n2 1 133596 133565 78636 XOR\n2 1 83244 133565 58374 XOR\n2 1 219 133565 58375 XOR\n2 1 58374 58375 58373 AND\n2 1 58373 133565 133566 XOR\n2 1 133597 133566 78637 XOR\n2 1 83245 133566 58377 XOR\n2 1 220 133566 58378 XOR\n2 1 58377 58378 58376 AND\n2 1 58376 133566 133567 XOR\n2 1 133598 133567 78638 XOR\n2 1 83246 133567 58380 XOR\n2 1 221 133567 58381 XOR\n2 1 58380 58381 58379 AND\n2 1 58379 133567 133568 XOR\n2 1 133599 133568 78639 XOR\n2 1 83247 133568 58383 XOR\n2 1 222 133568 58384 XOR\n2 1 58383 58384 58382 AND\n2 1 58382 133568 133569 XOR\n2 1 133600 133569 78640 XOR\n2 1 134 145 83216 XOR\n2 1 83216 191 133414 XOR\n2 1 133 144 83215 XOR\n2 1 83215 190 133413 XOR\n2 1 132 143 83214 XOR\n2 1 83214 189 133412 XOR\n2 1 131 142 5850 XOR\n2 1 130 141 5849 XOR\n2 1 129 140 5848 XOR\n2 1 128 139 5847 XOR\n2 1 159 138 5846 XOR\n2 1 158 137 5845 XOR\n2 1 157 136 5844 XOR\n2 1 156 135 5843 XOR\n2 1 155 134 5842 XOR\n2 1 154 133 5841 XOR\n2 1 153 132 5840 XOR\n2 1 152 131 5839 XOR\n2 1 151 130 5838 XOR\n2 1 150 129 5837 XOR\n2 1 149 128 5836 XOR\n2 1 148 159 5835 XOR\n2 1 147 158 5834 XOR\n2 1 146 157 5833 XOR\n2 1 145 156 5832 XOR\n2 1 144 155 5831 XOR\n2 1 143 154 5830 XOR\n2 1 142 153 5829 XOR\n2 1 141 152 5828 XOR\n2 1 140 151 5827 XOR\n2 1 139 150 5826 XOR\n2 1 138 149 5825 XOR\n2 1 137 148 5824 XOR\n2 1 136 147 5823 XOR\n2 1 135 146 5822 XOR\n2 1 5850 159 83213 XOR\n2 1 83213 188 133411 XOR\n2 1 5849 158 83212 XOR\n2 1 83212 187 133410 XOR\n2 1 5848 157 83211 XOR\n2 1 83211 186 133409 XOR\n2 1 5847 156 83210 XOR\n2 1 83210 185 133408 XOR\n2 1 5846 155 83209 XOR\n2 1 83209 184 133407 XOR\n2 1 5845 154 83208 XOR\n2 1 83208 183 133406 XOR\n2 1 5844 153 83207 XOR\n2 1 83207 182 133405 XOR\n2 1 5843 152 83206 XOR\n2 1 83206 181 133404 XOR\n2 1 5842 151 83205 XOR\n2 1 83205 180 133403 XOR\n2 1 5841 150 83204 XOR\n2 1 83204 179 133402 XOR\n2 1 5840 149 83203 XOR\n2 1 83203 178 133401 XOR\n2 1 5839 148 83202 XOR\n2 1 83202 177 133400 XOR\n2 1 5838 147 83201 XOR\n2 1 83201 176 133399 XOR\n2 1 5837 146 83200 XOR\n2 1 83200 175 133398 XOR\n2 1 5836 145 83199 XOR\n2 1 83199 174 133397 XOR\n2 1 5835 144 83198 XOR\n2 1 83198 173 133396 XOR\n2 1 5834 143 83197 XOR\n2 1 83197 172 133395 XOR\n2 1 5833 142 83196 XOR\n2 1 83196 171 133394 XOR\n2 1 5832 141 83195 XOR\n2 1 83195 170 133393 XOR\n2 1 5831 140 83194 XOR\n2 1 83194 169 133392 XOR\n2 1 5830 139 83193 XOR\n2 1 83193 168 133391 XOR\n2 1 5829 138 83192 XOR\n2 1 83192 167 133390 XOR\n2 1 5828 137 83191 XOR\n2 1 83191 166 133389 XOR\n2 1 5827 136 83190 XOR\n2 1 83190 165 133388 XOR\n2 1 5826 135 83189 XOR\n2 1 83189 164 133387 XOR\n2 1 5825 134 83188 XOR\n2 1 83188 163 133386 XOR\n2 1 5824 133 83187 XOR\n2 1 83187 162 133385 XOR\n2 1 5823 132 83186 XOR\n2 1 83186 161 133384 XOR\n2 1 5822 131 83185 XOR\n2 1 83185 160 133353 AND\n2 1 83185 160 78577 XOR\n2 1 133384 133353 78578 XOR\n2 1 83186 133353 58026 XOR\n2 1 161 133353 58027 XOR\n2 1 58026 58027 58025 AND\n2 1 58025 133353 133354 XOR\n2 1 133385 133354 78579 XOR\n2 1 83187 133354 58029 XOR\n2 1 162 133354 58030 XOR\n2 1 58029 58030 58028 AND\n2 1 58028 133354 133355 XOR\n2 1 133386 133355 78580 XOR\n2 1 83188 133355 58032 XOR\n",
"2 1 163 133355 58033 XOR\n2 1 58032 58033 58031 AND\n2 1 58031 133355 133356 XOR\n2 1 133387 133356 78581 XOR\n2 1 83189 133356 58035 XOR\n2 1 164 133356 58036 XOR\n2 1 58035 58036 58034 AND\n2 1 58034 133356 133357 XOR\n2 1 133388 133357 78582 XOR\n2 1 83190 133357 58038 XOR\n2 1 165 133357 58039 XOR\n2 1 58038 58039 58037 AND\n2 1 58037 133357 133358 XOR\n2 1 133389 133358 78583 XOR\n2 1 83191 133358 58041 XOR\n2 1 166 133358 58042 XOR\n2 1 58041 58042 58040 AND\n2 1 58040 133358 133359 XOR\n2 1 133390 133359 78584 XOR\n2 1 83192 133359 58044 XOR\n2 1 167 133359 58045 XOR\n2 1 58044 58045 58043 AND\n2 1 58043 133359 133360 XOR\n2 1 133391 133360 78585 XOR\n2 1 83193 133360 58047 XOR\n2 1 168 133360 58048 XOR\n2 1 58047 58048 58046 AND\n2 1 58046 133360 133361 XOR\n2 1 133392 133361 78586 XOR\n2 1 83194 133361 58050 XOR\n2 1 169 133361 58051 XOR\n2 1 58050 58051 58049 AND\n2 1 58049 133361 133362 XOR\n2 1 133393 133362 78587 XOR\n2 1 83195 133362 58053 XOR\n2 1 170 133362 58054 XOR\n2 1 58053 58054 58052 AND\n2 1 58052 133362 133363 XOR\n2 1 133394 133363 78588 XOR\n2 1 83196 133363 58056 XOR\n2 1 171 133363 58057 XOR\n2 1 58056 58057 58055 AND\n2 1 58055 133363 133364 XOR\n2 1 133395 133364 78589 XOR\n2 1 83197 133364 58059 XOR\n2 1 172 133364 58060 XOR\n2 1 58059 58060 58058 AND\n2 1 58058 133364 133365 XOR\n2 1 133396 133365 78590 XOR\n2 1 83198 133365 58062 XOR\n2 1 173 133365 58063 XOR\n2 1 58062 58063 58061 AND\n2 1 58061 133365 133366 XOR\n2 1 133397 133366 78591 XOR\n2 1 83199 133366 58065 XOR\n2 1 174 133366 58066 XOR\n2 1 58065 58066 58064 AND\n2 1 58064 133366 133367 XOR\n2 1 133398 133367 78592 XOR\n2 1 83200 133367 58068 XOR\n2 1 175 133367 58069 XOR\n2 1 58068 58069 58067 AND\n2 1 58067 133367 133368 XOR\n2 1 133399 133368 78593 XOR\n2 1 83201 133368 58071 XOR\n2 1 176 133368 58072 XOR\n2 1 58071 58072 58070 AND\n2 1 58070 133368 133369 XOR\n2 1 133400 133369 78594 XOR\n2 1 83202 133369 58074 XOR\n2 1 177 133369 58075 XOR\n2 1 58074 58075 58073 AND\n2 1 58073 133369 133370 XOR\n2 1 133401 133370 78595 XOR\n2 1 83203 133370 58077 XOR\n2 1 178 133370 58078 XOR\n2 1 58077 58078 58076 AND\n2 1 58076 133370 133371 XOR\n2 1 133402 133371 78596 XOR\n2 1 83204 133371 58080 XOR\n2 1 179 133371 58081 XOR\n2 1 58080 58081 58079 AND\n2 1 58079 133371 133372 XOR\n2 1 133403 133372 78597 XOR\n2 1 83205 133372 58083 XOR\n2 1 180 133372 58084 XOR\n2 1 58083 58084 58082 AND\n2 1 58082 133372 133373 XOR\n2 1 133404 133373 78598 XOR\n2 1 83206 133373 58086 XOR\n2 1 181 133373 58087 XOR\n2 1 58086 58087 58085 AND\n2 1 58085 133373 133374 XOR\n2 1 133405 133374 78599 XOR\n2 1 83207 133374 58089 XOR\n2 1 182 133374 58090 XOR\n2 1 58089 58090 58088 AND\n2 1 58088 133374 133375 XOR\n2 1 133406 133375 78600 XOR\n2 1 83208 133375 58092 XOR\n2 1 183 133375 58093 XOR\n2 1 58092 58093 58091 AND\n2 1 58091 133375 133376 XOR\n2 1 133407 133376 78601 XOR\n2 1 83209 133376 58095 XOR\n2 1 184 133376 58096 XOR\n2 1 58095 58096 58094 AND\n2 1 58094 133376 133377 XOR\n2 1 133408 133377 78602 XOR\n2 1 83210 133377 58098 XOR\n2 1 185 133377 58099 XOR\n2 1 58098 58099 58097 AND\n2 1 58097 133377 133378 XOR\n2 1 133409 133378 78603 XOR\n2 1 83211 133378 58101 XOR\n2 1 186 133378 58102 XOR\n2 1 58101 58102 58100 AND\n2 1 58100 133378 133379 XOR\n2 1 133410 133379 78604 XOR\n2 1 83212 133379 58104 XOR\n2 1 187 133379 58105 XOR\n2 1 58104 58105 58103 AND\n2 1 58103 133379 133380 XOR\n2 1 133411 133380 78605 XOR\n2 1 83213 133380 58107 XOR\n2 1 188 133380 58108 XOR\n2 1 58107 58108 58106 AND\n2 1 58106 133380 133381 XOR\n",
"2 1 133412 133381 78606 XOR\n2 1 83214 133381 58110 XOR\n2 1 189 133381 58111 XOR\n2 1 58110 58111 58109 AND\n2 1 58109 133381 133382 XOR\n2 1 133413 133382 78607 XOR\n2 1 83215 133382 58113 XOR\n2 1 190 133382 58114 XOR\n2 1 58113 58114 58112 AND\n2 1 58112 133382 133383 XOR\n2 1 133414 133383 78608 XOR\n2 1 102 113 83184 XOR\n2 1 83184 159 133228 XOR\n2 1 101 112 83183 XOR\n2 1 83183 158 133227 XOR\n2 1 100 111 83182 XOR\n2 1 83182 157 133226 XOR\n2 1 99 110 5821 XOR\n2 1 98 109 5820 XOR\n2 1 97 108 5819 XOR\n2 1 96 107 5818 XOR\n2 1 127 106 5817 XOR\n2 1 126 105 5816 XOR\n2 1 125 104 5815 XOR\n2 1 124 103 5814 XOR\n2 1 123 102 5813 XOR\n2 1 122 101 5812 XOR\n2 1 121 100 5811 XOR\n2 1 120 99 5810 XOR\n2 1 119 98 5809 XOR\n2 1 118 97 5808 XOR\n2 1 117 96 5807 XOR\n2 1 116 127 5806 XOR\n2 1 115 126 5805 XOR\n2 1 114 125 5804 XOR\n2 1 113 124 5803 XOR\n2 1 112 123 5802 XOR\n2 1 111 122 5801 XOR\n2 1 110 121 5800 XOR\n2 1 109 120 5799 XOR\n2 1 108 119 5798 XOR\n2 1 107 118 5797 XOR\n2 1 106 117 5796 XOR\n2 1 105 116 5795 XOR\n2 1 104 115 5794 XOR\n2 1 103 114 5793 XOR\n2 1 5821 127 83181 XOR\n2 1 83181 156 133225 XOR\n2 1 5820 126 83180 XOR\n2 1 83180 155 133224 XOR\n2 1 5819 125 83179 XOR\n2 1 83179 154 133223 XOR\n2 1 5818 124 83178 XOR\n2 1 83178 153 133222 XOR\n2 1 5817 123 83177 XOR\n2 1 83177 152 133221 XOR\n2 1 5816 122 83176 XOR\n2 1 83176 151 133220 XOR\n2 1 5815 121 83175 XOR\n2 1 83175 150 133219 XOR\n2 1 5814 120 83174 XOR\n2 1 83174 149 133218 XOR\n2 1 5813 119 83173 XOR\n2 1 83173 148 133217 XOR\n2 1 5812 118 83172 XOR\n2 1 83172 147 133216 XOR\n2 1 5811 117 83171 XOR\n2 1 83171 146 133215 XOR\n2 1 5810 116 83170 XOR\n2 1 83170 145 133214 XOR\n2 1 5809 115 83169 XOR\n2 1 83169 144 133213 XOR\n2 1 5808 114 83168 XOR\n2 1 83168 143 133212 XOR\n2 1 5807 113 83167 XOR\n2 1 83167 142 133211 XOR\n2 1 5806 112 83166 XOR\n2 1 83166 141 133210 XOR\n2 1 5805 111 83165 XOR\n2 1 83165 140 133209 XOR\n2 1 5804 110 83164 XOR\n2 1 83164 139 133208 XOR\n2 1 5803 109 83163 XOR\n2 1 83163 138 133207 XOR\n2 1 5802 108 83162 XOR\n2 1 83162 137 133206 XOR\n2 1 5801 107 83161 XOR\n2 1 83161 136 133205 XOR\n2 1 5800 106 83160 XOR\n2 1 83160 135 133204 XOR\n2 1 5799 105 83159 XOR\n2 1 83159 134 133203 XOR\n2 1 5798 104 83158 XOR\n2 1 83158 133 133202 XOR\n2 1 5797 103 83157 XOR\n2 1 83157 132 133201 XOR\n2 1 5796 102 83156 XOR\n2 1 83156 131 133200 XOR\n2 1 5795 101 83155 XOR\n2 1 83155 130 133199 XOR\n2 1 5794 100 83154 XOR\n2 1 83154 129 133198 XOR\n2 1 5793 99 83153 XOR\n2 1 83153 128 133167 AND\n2 1 83153 128 78545 XOR\n2 1 133198 133167 78546 XOR\n2 1 83154 133167 57756 XOR\n2 1 129 133167 57757 XOR\n2 1 57756 57757 57755 AND\n2 1 57755 133167 133168 XOR\n2 1 133199 133168 78547 XOR\n2 1 83155 133168 57759 XOR\n2 1 130 133168 57760 XOR\n2 1 57759 57760 57758 AND\n2 1 57758 133168 133169 XOR\n2 1 133200 133169 78548 XOR\n2 1 83156 133169 57762 XOR\n2 1 131 133169 57763 XOR\n2 1 57762 57763 57761 AND\n2 1 57761 133169 133170 XOR\n2 1 133201 133170 78549 XOR\n2 1 83157 133170 57765 XOR\n2 1 132 133170 57766 XOR\n2 1 57765 57766 57764 AND\n2 1 57764 133170 133171 XOR\n2 1 133202 133171 78550 XOR\n2 1 83158 133171 57768 XOR\n2 1 133 133171 57769 XOR\n",
"2 1 57768 57769 57767 AND\n2 1 57767 133171 133172 XOR\n2 1 133203 133172 78551 XOR\n2 1 83159 133172 57771 XOR\n2 1 134 133172 57772 XOR\n2 1 57771 57772 57770 AND\n2 1 57770 133172 133173 XOR\n2 1 133204 133173 78552 XOR\n2 1 83160 133173 57774 XOR\n2 1 135 133173 57775 XOR\n2 1 57774 57775 57773 AND\n2 1 57773 133173 133174 XOR\n2 1 133205 133174 78553 XOR\n2 1 83161 133174 57777 XOR\n2 1 136 133174 57778 XOR\n2 1 57777 57778 57776 AND\n2 1 57776 133174 133175 XOR\n2 1 133206 133175 78554 XOR\n2 1 83162 133175 57780 XOR\n2 1 137 133175 57781 XOR\n2 1 57780 57781 57779 AND\n2 1 57779 133175 133176 XOR\n2 1 133207 133176 78555 XOR\n2 1 83163 133176 57783 XOR\n2 1 138 133176 57784 XOR\n2 1 57783 57784 57782 AND\n2 1 57782 133176 133177 XOR\n2 1 133208 133177 78556 XOR\n2 1 83164 133177 57786 XOR\n2 1 139 133177 57787 XOR\n2 1 57786 57787 57785 AND\n2 1 57785 133177 133178 XOR\n2 1 133209 133178 78557 XOR\n2 1 83165 133178 57789 XOR\n2 1 140 133178 57790 XOR\n2 1 57789 57790 57788 AND\n2 1 57788 133178 133179 XOR\n2 1 133210 133179 78558 XOR\n2 1 83166 133179 57792 XOR\n2 1 141 133179 57793 XOR\n2 1 57792 57793 57791 AND\n2 1 57791 133179 133180 XOR\n2 1 133211 133180 78559 XOR\n2 1 83167 133180 57795 XOR\n2 1 142 133180 57796 XOR\n2 1 57795 57796 57794 AND\n2 1 57794 133180 133181 XOR\n2 1 133212 133181 78560 XOR\n2 1 83168 133181 57798 XOR\n2 1 143 133181 57799 XOR\n2 1 57798 57799 57797 AND\n2 1 57797 133181 133182 XOR\n2 1 133213 133182 78561 XOR\n2 1 83169 133182 57801 XOR\n2 1 144 133182 57802 XOR\n2 1 57801 57802 57800 AND\n2 1 57800 133182 133183 XOR\n2 1 133214 133183 78562 XOR\n2 1 83170 133183 57804 XOR\n2 1 145 133183 57805 XOR\n2 1 57804 57805 57803 AND\n2 1 57803 133183 133184 XOR\n2 1 133215 133184 78563 XOR\n2 1 83171 133184 57807 XOR\n2 1 146 133184 57808 XOR\n2 1 57807 57808 57806 AND\n2 1 57806 133184 133185 XOR\n2 1 133216 133185 78564 XOR\n2 1 83172 133185 57810 XOR\n2 1 147 133185 57811 XOR\n2 1 57810 57811 57809 AND\n2 1 57809 133185 133186 XOR\n2 1 133217 133186 78565 XOR\n2 1 83173 133186 57813 XOR\n2 1 148 133186 57814 XOR\n2 1 57813 57814 57812 AND\n2 1 57812 133186 133187 XOR\n2 1 133218 133187 78566 XOR\n2 1 83174 133187 57816 XOR\n2 1 149 133187 57817 XOR\n2 1 57816 57817 57815 AND\n2 1 57815 133187 133188 XOR\n2 1 133219 133188 78567 XOR\n2 1 83175 133188 57819 XOR\n2 1 150 133188 57820 XOR\n2 1 57819 57820 57818 AND\n2 1 57818 133188 133189 XOR\n2 1 133220 133189 78568 XOR\n2 1 83176 133189 57822 XOR\n2 1 151 133189 57823 XOR\n2 1 57822 57823 57821 AND\n2 1 57821 133189 133190 XOR\n2 1 133221 133190 78569 XOR\n2 1 83177 133190 57825 XOR\n2 1 152 133190 57826 XOR\n2 1 57825 57826 57824 AND\n2 1 57824 133190 133191 XOR\n2 1 133222 133191 78570 XOR\n2 1 83178 133191 57828 XOR\n2 1 153 133191 57829 XOR\n2 1 57828 57829 57827 AND\n2 1 57827 133191 133192 XOR\n2 1 133223 133192 78571 XOR\n2 1 83179 133192 57831 XOR\n2 1 154 133192 57832 XOR\n2 1 57831 57832 57830 AND\n2 1 57830 133192 133193 XOR\n2 1 133224 133193 78572 XOR\n2 1 83180 133193 57834 XOR\n2 1 155 133193 57835 XOR\n2 1 57834 57835 57833 AND\n2 1 57833 133193 133194 XOR\n2 1 133225 133194 78573 XOR\n2 1 83181 133194 57837 XOR\n2 1 156 133194 57838 XOR\n2 1 57837 57838 57836 AND\n2 1 57836 133194 133195 XOR\n2 1 133226 133195 78574 XOR\n2 1 83182 133195 57840 XOR\n2 1 157 133195 57841 XOR\n2 1 57840 57841 57839 AND\n2 1 57839 133195 133196 XOR\n2 1 133227 133196 78575 XOR\n2 1 83183 133196 57843 XOR\n2 1 158 133196 57844 XOR\n2 1 57843 57844 57842 AND\n2 1 57842 133196 133197 XOR\n2 1 133228 133197 78576 XOR\n",
"2 1 70 81 83152 XOR\n2 1 83152 127 133042 XOR\n2 1 69 80 83151 XOR\n2 1 83151 126 133041 XOR\n2 1 68 79 83150 XOR\n2 1 83150 125 133040 XOR\n2 1 67 78 5792 XOR\n2 1 66 77 5791 XOR\n2 1 65 76 5790 XOR\n2 1 64 75 5789 XOR\n2 1 95 74 5788 XOR\n2 1 94 73 5787 XOR\n2 1 93 72 5786 XOR\n2 1 92 71 5785 XOR\n2 1 91 70 5784 XOR\n2 1 90 69 5783 XOR\n2 1 89 68 5782 XOR\n2 1 88 67 5781 XOR\n2 1 87 66 5780 XOR\n2 1 86 65 5779 XOR\n2 1 85 64 5778 XOR\n2 1 84 95 5777 XOR\n2 1 83 94 5776 XOR\n2 1 82 93 5775 XOR\n2 1 81 92 5774 XOR\n2 1 80 91 5773 XOR\n2 1 79 90 5772 XOR\n2 1 78 89 5771 XOR\n2 1 77 88 5770 XOR\n2 1 76 87 5769 XOR\n2 1 75 86 5768 XOR\n2 1 74 85 5767 XOR\n2 1 73 84 5766 XOR\n2 1 72 83 5765 XOR\n2 1 71 82 5764 XOR\n2 1 5792 95 83149 XOR\n2 1 83149 124 133039 XOR\n2 1 5791 94 83148 XOR\n2 1 83148 123 133038 XOR\n2 1 5790 93 83147 XOR\n2 1 83147 122 133037 XOR\n2 1 5789 92 83146 XOR\n2 1 83146 121 133036 XOR\n2 1 5788 91 83145 XOR\n2 1 83145 120 133035 XOR\n2 1 5787 90 83144 XOR\n2 1 83144 119 133034 XOR\n2 1 5786 89 83143 XOR\n2 1 83143 118 133033 XOR\n2 1 5785 88 83142 XOR\n2 1 83142 117 133032 XOR\n2 1 5784 87 83141 XOR\n2 1 83141 116 133031 XOR\n2 1 5783 86 83140 XOR\n2 1 83140 115 133030 XOR\n2 1 5782 85 83139 XOR\n2 1 83139 114 133029 XOR\n2 1 5781 84 83138 XOR\n2 1 83138 113 133028 XOR\n2 1 5780 83 83137 XOR\n2 1 83137 112 133027 XOR\n2 1 5779 82 83136 XOR\n2 1 83136 111 133026 XOR\n2 1 5778 81 83135 XOR\n2 1 83135 110 133025 XOR\n2 1 5777 80 83134 XOR\n2 1 83134 109 133024 XOR\n2 1 5776 79 83133 XOR\n2 1 83133 108 133023 XOR\n2 1 5775 78 83132 XOR\n2 1 83132 107 133022 XOR\n2 1 5774 77 83131 XOR\n2 1 83131 106 133021 XOR\n2 1 5773 76 83130 XOR\n2 1 83130 105 133020 XOR\n2 1 5772 75 83129 XOR\n2 1 83129 104 133019 XOR\n2 1 5771 74 83128 XOR\n2 1 83128 103 133018 XOR\n2 1 5770 73 83127 XOR\n2 1 83127 102 133017 XOR\n2 1 5769 72 83126 XOR\n2 1 83126 101 133016 XOR\n2 1 5768 71 83125 XOR\n2 1 83125 100 133015 XOR\n2 1 5767 70 83124 XOR\n2 1 83124 99 133014 XOR\n2 1 5766 69 83123 XOR\n2 1 83123 98 133013 XOR\n2 1 5765 68 83122 XOR\n2 1 83122 97 133012 XOR\n2 1 5764 67 83121 XOR\n2 1 83121 96 132981 AND\n2 1 83121 96 78513 XOR\n2 1 133012 132981 78514 XOR\n2 1 83122 132981 57486 XOR\n2 1 97 132981 57487 XOR\n2 1 57486 57487 57485 AND\n2 1 57485 132981 132982 XOR\n2 1 133013 132982 78515 XOR\n2 1 83123 132982 57489 XOR\n2 1 98 132982 57490 XOR\n2 1 57489 57490 57488 AND\n2 1 57488 132982 132983 XOR\n2 1 133014 132983 78516 XOR\n2 1 83124 132983 57492 XOR\n2 1 99 132983 57493 XOR\n2 1 57492 57493 57491 AND\n2 1 57491 132983 132984 XOR\n2 1 133015 132984 78517 XOR\n2 1 83125 132984 57495 XOR\n2 1 100 132984 57496 XOR\n2 1 57495 57496 57494 AND\n2 1 57494 132984 132985 XOR\n2 1 133016 132985 78518 XOR\n2 1 83126 132985 57498 XOR\n2 1 101 132985 57499 XOR\n2 1 57498 57499 57497 AND\n2 1 57497 132985 132986 XOR\n2 1 133017 132986 78519 XOR\n2 1 83127 132986 57501 XOR\n2 1 102 132986 57502 XOR\n2 1 57501 57502 57500 AND\n2 1 57500 132986 132987 XOR\n2 1 133018 132987 78520 XOR\n2 1 83128 132987 57504 XOR\n2 1 103 132987 57505 XOR\n2 1 57504 57505 57503 AND\n",
"2 1 57503 132987 132988 XOR\n2 1 133019 132988 78521 XOR\n2 1 83129 132988 57507 XOR\n2 1 104 132988 57508 XOR\n2 1 57507 57508 57506 AND\n2 1 57506 132988 132989 XOR\n2 1 133020 132989 78522 XOR\n2 1 83130 132989 57510 XOR\n2 1 105 132989 57511 XOR\n2 1 57510 57511 57509 AND\n2 1 57509 132989 132990 XOR\n2 1 133021 132990 78523 XOR\n2 1 83131 132990 57513 XOR\n2 1 106 132990 57514 XOR\n2 1 57513 57514 57512 AND\n2 1 57512 132990 132991 XOR\n2 1 133022 132991 78524 XOR\n2 1 83132 132991 57516 XOR\n2 1 107 132991 57517 XOR\n2 1 57516 57517 57515 AND\n2 1 57515 132991 132992 XOR\n2 1 133023 132992 78525 XOR\n2 1 83133 132992 57519 XOR\n2 1 108 132992 57520 XOR\n2 1 57519 57520 57518 AND\n2 1 57518 132992 132993 XOR\n2 1 133024 132993 78526 XOR\n2 1 83134 132993 57522 XOR\n2 1 109 132993 57523 XOR\n2 1 57522 57523 57521 AND\n2 1 57521 132993 132994 XOR\n2 1 133025 132994 78527 XOR\n2 1 83135 132994 57525 XOR\n2 1 110 132994 57526 XOR\n2 1 57525 57526 57524 AND\n2 1 57524 132994 132995 XOR\n2 1 133026 132995 78528 XOR\n2 1 83136 132995 57528 XOR\n2 1 111 132995 57529 XOR\n2 1 57528 57529 57527 AND\n2 1 57527 132995 132996 XOR\n2 1 133027 132996 78529 XOR\n2 1 83137 132996 57531 XOR\n2 1 112 132996 57532 XOR\n2 1 57531 57532 57530 AND\n2 1 57530 132996 132997 XOR\n2 1 133028 132997 78530 XOR\n2 1 83138 132997 57534 XOR\n2 1 113 132997 57535 XOR\n2 1 57534 57535 57533 AND\n2 1 57533 132997 132998 XOR\n2 1 133029 132998 78531 XOR\n2 1 83139 132998 57537 XOR\n2 1 114 132998 57538 XOR\n2 1 57537 57538 57536 AND\n2 1 57536 132998 132999 XOR\n2 1 133030 132999 78532 XOR\n2 1 83140 132999 57540 XOR\n2 1 115 132999 57541 XOR\n2 1 57540 57541 57539 AND\n2 1 57539 132999 133000 XOR\n2 1 133031 133000 78533 XOR\n2 1 83141 133000 57543 XOR\n2 1 116 133000 57544 XOR\n2 1 57543 57544 57542 AND\n2 1 57542 133000 133001 XOR\n2 1 133032 133001 78534 XOR\n2 1 83142 133001 57546 XOR\n2 1 117 133001 57547 XOR\n2 1 57546 57547 57545 AND\n2 1 57545 133001 133002 XOR\n2 1 133033 133002 78535 XOR\n2 1 83143 133002 57549 XOR\n2 1 118 133002 57550 XOR\n2 1 57549 57550 57548 AND\n2 1 57548 133002 133003 XOR\n2 1 133034 133003 78536 XOR\n2 1 83144 133003 57552 XOR\n2 1 119 133003 57553 XOR\n2 1 57552 57553 57551 AND\n2 1 57551 133003 133004 XOR\n2 1 133035 133004 78537 XOR\n2 1 83145 133004 57555 XOR\n2 1 120 133004 57556 XOR\n2 1 57555 57556 57554 AND\n2 1 57554 133004 133005 XOR\n2 1 133036 133005 78538 XOR\n2 1 83146 133005 57558 XOR\n2 1 121 133005 57559 XOR\n2 1 57558 57559 57557 AND\n2 1 57557 133005 133006 XOR\n2 1 133037 133006 78539 XOR\n2 1 83147 133006 57561 XOR\n2 1 122 133006 57562 XOR\n2 1 57561 57562 57560 AND\n2 1 57560 133006 133007 XOR\n2 1 133038 133007 78540 XOR\n2 1 83148 133007 57564 XOR\n2 1 123 133007 57565 XOR\n2 1 57564 57565 57563 AND\n2 1 57563 133007 133008 XOR\n2 1 133039 133008 78541 XOR\n2 1 83149 133008 57567 XOR\n2 1 124 133008 57568 XOR\n2 1 57567 57568 57566 AND\n2 1 57566 133008 133009 XOR\n2 1 133040 133009 78542 XOR\n2 1 83150 133009 57570 XOR\n2 1 125 133009 57571 XOR\n2 1 57570 57571 57569 AND\n2 1 57569 133009 133010 XOR\n2 1 133041 133010 78543 XOR\n2 1 83151 133010 57573 XOR\n2 1 126 133010 57574 XOR\n2 1 57573 57574 57572 AND\n2 1 57572 133010 133011 XOR\n2 1 133042 133011 78544 XOR\n2 1 38 49 83120 XOR\n2 1 83120 95 132856 XOR\n2 1 37 48 83119 XOR\n2 1 83119 94 132855 XOR\n2 1 36 47 83118 XOR\n2 1 83118 93 132854 XOR\n2 1 35 46 5763 XOR\n2 1 34 45 5762 XOR\n2 1 33 44 5761 XOR\n2 1 32 43 5760 XOR\n2 1 63 42 5759 XOR\n",
"2 1 62 41 5758 XOR\n2 1 61 40 5757 XOR\n2 1 60 39 5756 XOR\n2 1 59 38 5755 XOR\n2 1 58 37 5754 XOR\n2 1 57 36 5753 XOR\n2 1 56 35 5752 XOR\n2 1 55 34 5751 XOR\n2 1 54 33 5750 XOR\n2 1 53 32 5749 XOR\n2 1 52 63 5748 XOR\n2 1 51 62 5747 XOR\n2 1 50 61 5746 XOR\n2 1 49 60 5745 XOR\n2 1 48 59 5744 XOR\n2 1 47 58 5743 XOR\n2 1 46 57 5742 XOR\n2 1 45 56 5741 XOR\n2 1 44 55 5740 XOR\n2 1 43 54 5739 XOR\n2 1 42 53 5738 XOR\n2 1 41 52 5737 XOR\n2 1 40 51 5736 XOR\n2 1 39 50 5735 XOR\n2 1 5763 63 83117 XOR\n2 1 83117 92 132853 XOR\n2 1 5762 62 83116 XOR\n2 1 83116 91 132852 XOR\n2 1 5761 61 83115 XOR\n2 1 83115 90 132851 XOR\n2 1 5760 60 83114 XOR\n2 1 83114 89 132850 XOR\n2 1 5759 59 83113 XOR\n2 1 83113 88 132849 XOR\n2 1 5758 58 83112 XOR\n2 1 83112 87 132848 XOR\n2 1 5757 57 83111 XOR\n2 1 83111 86 132847 XOR\n2 1 5756 56 83110 XOR\n2 1 83110 85 132846 XOR\n2 1 5755 55 83109 XOR\n2 1 83109 84 132845 XOR\n2 1 5754 54 83108 XOR\n2 1 83108 83 132844 XOR\n2 1 5753 53 83107 XOR\n2 1 83107 82 132843 XOR\n2 1 5752 52 83106 XOR\n2 1 83106 81 132842 XOR\n2 1 5751 51 83105 XOR\n2 1 83105 80 132841 XOR\n2 1 5750 50 83104 XOR\n2 1 83104 79 132840 XOR\n2 1 5749 49 83103 XOR\n2 1 83103 78 132839 XOR\n2 1 5748 48 83102 XOR\n2 1 83102 77 132838 XOR\n2 1 5747 47 83101 XOR\n2 1 83101 76 132837 XOR\n2 1 5746 46 83100 XOR\n2 1 83100 75 132836 XOR\n2 1 5745 45 83099 XOR\n2 1 83099 74 132835 XOR\n2 1 5744 44 83098 XOR\n2 1 83098 73 132834 XOR\n2 1 5743 43 83097 XOR\n2 1 83097 72 132833 XOR\n2 1 5742 42 83096 XOR\n2 1 83096 71 132832 XOR\n2 1 5741 41 83095 XOR\n2 1 83095 70 132831 XOR\n2 1 5740 40 83094 XOR\n2 1 83094 69 132830 XOR\n2 1 5739 39 83093 XOR\n2 1 83093 68 132829 XOR\n2 1 5738 38 83092 XOR\n2 1 83092 67 132828 XOR\n2 1 5737 37 83091 XOR\n2 1 83091 66 132827 XOR\n2 1 5736 36 83090 XOR\n2 1 83090 65 132826 XOR\n2 1 5735 35 83089 XOR\n2 1 83089 64 132795 AND\n2 1 83089 64 78481 XOR\n2 1 132826 132795 78482 XOR\n2 1 83090 132795 57216 XOR\n2 1 65 132795 57217 XOR\n2 1 57216 57217 57215 AND\n2 1 57215 132795 132796 XOR\n2 1 132827 132796 78483 XOR\n2 1 83091 132796 57219 XOR\n2 1 66 132796 57220 XOR\n2 1 57219 57220 57218 AND\n2 1 57218 132796 132797 XOR\n2 1 132828 132797 78484 XOR\n2 1 83092 132797 57222 XOR\n2 1 67 132797 57223 XOR\n2 1 57222 57223 57221 AND\n2 1 57221 132797 132798 XOR\n2 1 132829 132798 78485 XOR\n2 1 83093 132798 57225 XOR\n2 1 68 132798 57226 XOR\n2 1 57225 57226 57224 AND\n2 1 57224 132798 132799 XOR\n2 1 132830 132799 78486 XOR\n2 1 83094 132799 57228 XOR\n2 1 69 132799 57229 XOR\n2 1 57228 57229 57227 AND\n2 1 57227 132799 132800 XOR\n2 1 132831 132800 78487 XOR\n2 1 83095 132800 57231 XOR\n2 1 70 132800 57232 XOR\n2 1 57231 57232 57230 AND\n2 1 57230 132800 132801 XOR\n2 1 132832 132801 78488 XOR\n2 1 83096 132801 57234 XOR\n2 1 71 132801 57235 XOR\n2 1 57234 57235 57233 AND\n2 1 57233 132801 132802 XOR\n2 1 132833 132802 78489 XOR\n2 1 83097 132802 57237 XOR\n2 1 72 132802 57238 XOR\n2 1 57237 57238 57236 AND\n2 1 57236 132802 132803 XOR\n2 1 132834 132803 78490 XOR\n2 1 83098 132803 57240 XOR\n2 1 73 132803 57241 XOR\n2 1 57240 57241 57239 AND\n2 1 57239 132803 132804 XOR\n",
"2 1 132835 132804 78491 XOR\n2 1 83099 132804 57243 XOR\n2 1 74 132804 57244 XOR\n2 1 57243 57244 57242 AND\n2 1 57242 132804 132805 XOR\n2 1 132836 132805 78492 XOR\n2 1 83100 132805 57246 XOR\n2 1 75 132805 57247 XOR\n2 1 57246 57247 57245 AND\n2 1 57245 132805 132806 XOR\n2 1 132837 132806 78493 XOR\n2 1 83101 132806 57249 XOR\n2 1 76 132806 57250 XOR\n2 1 57249 57250 57248 AND\n2 1 57248 132806 132807 XOR\n2 1 132838 132807 78494 XOR\n2 1 83102 132807 57252 XOR\n2 1 77 132807 57253 XOR\n2 1 57252 57253 57251 AND\n2 1 57251 132807 132808 XOR\n2 1 132839 132808 78495 XOR\n2 1 83103 132808 57255 XOR\n2 1 78 132808 57256 XOR\n2 1 57255 57256 57254 AND\n2 1 57254 132808 132809 XOR\n2 1 132840 132809 78496 XOR\n2 1 83104 132809 57258 XOR\n2 1 79 132809 57259 XOR\n2 1 57258 57259 57257 AND\n2 1 57257 132809 132810 XOR\n2 1 132841 132810 78497 XOR\n2 1 83105 132810 57261 XOR\n2 1 80 132810 57262 XOR\n2 1 57261 57262 57260 AND\n2 1 57260 132810 132811 XOR\n2 1 132842 132811 78498 XOR\n2 1 83106 132811 57264 XOR\n2 1 81 132811 57265 XOR\n2 1 57264 57265 57263 AND\n2 1 57263 132811 132812 XOR\n2 1 132843 132812 78499 XOR\n2 1 83107 132812 57267 XOR\n2 1 82 132812 57268 XOR\n2 1 57267 57268 57266 AND\n2 1 57266 132812 132813 XOR\n2 1 132844 132813 78500 XOR\n2 1 83108 132813 57270 XOR\n2 1 83 132813 57271 XOR\n2 1 57270 57271 57269 AND\n2 1 57269 132813 132814 XOR\n2 1 132845 132814 78501 XOR\n2 1 83109 132814 57273 XOR\n2 1 84 132814 57274 XOR\n2 1 57273 57274 57272 AND\n2 1 57272 132814 132815 XOR\n2 1 132846 132815 78502 XOR\n2 1 83110 132815 57276 XOR\n2 1 85 132815 57277 XOR\n2 1 57276 57277 57275 AND\n2 1 57275 132815 132816 XOR\n2 1 132847 132816 78503 XOR\n2 1 83111 132816 57279 XOR\n2 1 86 132816 57280 XOR\n2 1 57279 57280 57278 AND\n2 1 57278 132816 132817 XOR\n2 1 132848 132817 78504 XOR\n2 1 83112 132817 57282 XOR\n2 1 87 132817 57283 XOR\n2 1 57282 57283 57281 AND\n2 1 57281 132817 132818 XOR\n2 1 132849 132818 78505 XOR\n2 1 83113 132818 57285 XOR\n2 1 88 132818 57286 XOR\n2 1 57285 57286 57284 AND\n2 1 57284 132818 132819 XOR\n2 1 132850 132819 78506 XOR\n2 1 83114 132819 57288 XOR\n2 1 89 132819 57289 XOR\n2 1 57288 57289 57287 AND\n2 1 57287 132819 132820 XOR\n2 1 132851 132820 78507 XOR\n2 1 83115 132820 57291 XOR\n2 1 90 132820 57292 XOR\n2 1 57291 57292 57290 AND\n2 1 57290 132820 132821 XOR\n2 1 132852 132821 78508 XOR\n2 1 83116 132821 57294 XOR\n2 1 91 132821 57295 XOR\n2 1 57294 57295 57293 AND\n2 1 57293 132821 132822 XOR\n2 1 132853 132822 78509 XOR\n2 1 83117 132822 57297 XOR\n2 1 92 132822 57298 XOR\n2 1 57297 57298 57296 AND\n2 1 57296 132822 132823 XOR\n2 1 132854 132823 78510 XOR\n2 1 83118 132823 57300 XOR\n2 1 93 132823 57301 XOR\n2 1 57300 57301 57299 AND\n2 1 57299 132823 132824 XOR\n2 1 132855 132824 78511 XOR\n2 1 83119 132824 57303 XOR\n2 1 94 132824 57304 XOR\n2 1 57303 57304 57302 AND\n2 1 57302 132824 132825 XOR\n2 1 132856 132825 78512 XOR\n2 1 6 17 83088 XOR\n2 1 83088 63 132670 XOR\n2 1 5 16 83087 XOR\n2 1 83087 62 132669 XOR\n2 1 4 15 83086 XOR\n2 1 83086 61 132668 XOR\n2 1 3 14 5734 XOR\n2 1 2 13 5733 XOR\n2 1 1 12 5732 XOR\n2 1 0 11 5731 XOR\n2 1 31 10 5730 XOR\n2 1 30 9 5729 XOR\n2 1 29 8 5728 XOR\n2 1 28 7 5727 XOR\n2 1 27 6 5726 XOR\n2 1 26 5 5725 XOR\n2 1 25 4 5724 XOR\n2 1 24 3 5723 XOR\n2 1 23 2 5722 XOR\n2 1 22 1 5721 XOR\n2 1 21 0 5720 XOR\n2 1 20 31 5719 XOR\n",
"2 1 19 30 5718 XOR\n2 1 18 29 5717 XOR\n2 1 17 28 5716 XOR\n2 1 16 27 5715 XOR\n2 1 15 26 5714 XOR\n2 1 14 25 5713 XOR\n2 1 13 24 5712 XOR\n2 1 12 23 5711 XOR\n2 1 11 22 5710 XOR\n2 1 10 21 5709 XOR\n2 1 9 20 5708 XOR\n2 1 8 19 5707 XOR\n2 1 7 18 5706 XOR\n2 1 5734 31 83085 XOR\n2 1 83085 60 132667 XOR\n2 1 5733 30 83084 XOR\n2 1 83084 59 132666 XOR\n2 1 5732 29 83083 XOR\n2 1 83083 58 132665 XOR\n2 1 5731 28 83082 XOR\n2 1 83082 57 132664 XOR\n2 1 5730 27 83081 XOR\n2 1 83081 56 132663 XOR\n2 1 5729 26 83080 XOR\n2 1 83080 55 132662 XOR\n2 1 5728 25 83079 XOR\n2 1 83079 54 132661 XOR\n2 1 5727 24 83078 XOR\n2 1 83078 53 132660 XOR\n2 1 5726 23 83077 XOR\n2 1 83077 52 132659 XOR\n2 1 5725 22 83076 XOR\n2 1 83076 51 132658 XOR\n2 1 5724 21 83075 XOR\n2 1 83075 50 132657 XOR\n2 1 5723 20 83074 XOR\n2 1 83074 49 132656 XOR\n2 1 5722 19 83073 XOR\n2 1 83073 48 132655 XOR\n2 1 5721 18 83072 XOR\n2 1 83072 47 132654 XOR\n2 1 5720 17 83071 XOR\n2 1 83071 46 132653 XOR\n2 1 5719 16 83070 XOR\n2 1 83070 45 132652 XOR\n2 1 5718 15 83069 XOR\n2 1 83069 44 132651 XOR\n2 1 5717 14 83068 XOR\n2 1 83068 43 132650 XOR\n2 1 5716 13 83067 XOR\n2 1 83067 42 132649 XOR\n2 1 5715 12 83066 XOR\n2 1 83066 41 132648 XOR\n2 1 5714 11 83065 XOR\n2 1 83065 40 132647 XOR\n2 1 5713 10 83064 XOR\n2 1 83064 39 132646 XOR\n2 1 5712 9 83063 XOR\n2 1 83063 38 132645 XOR\n2 1 5711 8 83062 XOR\n2 1 83062 37 132644 XOR\n2 1 5710 7 83061 XOR\n2 1 83061 36 132643 XOR\n2 1 5709 6 83060 XOR\n2 1 83060 35 132642 XOR\n2 1 5708 5 83059 XOR\n2 1 83059 34 132641 XOR\n2 1 5707 4 83058 XOR\n2 1 83058 33 132640 XOR\n2 1 5706 3 83057 XOR\n2 1 83057 32 132609 AND\n2 1 83057 32 78449 XOR\n2 1 132640 132609 78450 XOR\n2 1 83058 132609 56946 XOR\n2 1 33 132609 56947 XOR\n2 1 56946 56947 56945 AND\n2 1 56945 132609 132610 XOR\n2 1 132641 132610 78451 XOR\n2 1 83059 132610 56949 XOR\n2 1 34 132610 56950 XOR\n2 1 56949 56950 56948 AND\n2 1 56948 132610 132611 XOR\n2 1 132642 132611 78452 XOR\n2 1 83060 132611 56952 XOR\n2 1 35 132611 56953 XOR\n2 1 56952 56953 56951 AND\n2 1 56951 132611 132612 XOR\n2 1 132643 132612 78453 XOR\n2 1 83061 132612 56955 XOR\n2 1 36 132612 56956 XOR\n2 1 56955 56956 56954 AND\n2 1 56954 132612 132613 XOR\n2 1 132644 132613 78454 XOR\n2 1 83062 132613 56958 XOR\n2 1 37 132613 56959 XOR\n2 1 56958 56959 56957 AND\n2 1 56957 132613 132614 XOR\n2 1 132645 132614 78455 XOR\n2 1 83063 132614 56961 XOR\n2 1 38 132614 56962 XOR\n2 1 56961 56962 56960 AND\n2 1 56960 132614 132615 XOR\n2 1 132646 132615 78456 XOR\n2 1 83064 132615 56964 XOR\n2 1 39 132615 56965 XOR\n2 1 56964 56965 56963 AND\n2 1 56963 132615 132616 XOR\n2 1 132647 132616 78457 XOR\n2 1 83065 132616 56967 XOR\n2 1 40 132616 56968 XOR\n2 1 56967 56968 56966 AND\n2 1 56966 132616 132617 XOR\n2 1 132648 132617 78458 XOR\n2 1 83066 132617 56970 XOR\n2 1 41 132617 56971 XOR\n2 1 56970 56971 56969 AND\n2 1 56969 132617 132618 XOR\n2 1 132649 132618 78459 XOR\n2 1 83067 132618 56973 XOR\n2 1 42 132618 56974 XOR\n2 1 56973 56974 56972 AND\n2 1 56972 132618 132619 XOR\n2 1 132650 132619 78460 XOR\n2 1 83068 132619 56976 XOR\n2 1 43 132619 56977 XOR\n2 1 56976 56977 56975 AND\n2 1 56975 132619 132620 XOR\n2 1 132651 132620 78461 XOR\n",
"2 1 83069 132620 56979 XOR\n2 1 44 132620 56980 XOR\n2 1 56979 56980 56978 AND\n2 1 56978 132620 132621 XOR\n2 1 132652 132621 78462 XOR\n2 1 83070 132621 56982 XOR\n2 1 45 132621 56983 XOR\n2 1 56982 56983 56981 AND\n2 1 56981 132621 132622 XOR\n2 1 132653 132622 78463 XOR\n2 1 83071 132622 56985 XOR\n2 1 46 132622 56986 XOR\n2 1 56985 56986 56984 AND\n2 1 56984 132622 132623 XOR\n2 1 132654 132623 78464 XOR\n2 1 83072 132623 56988 XOR\n2 1 47 132623 56989 XOR\n2 1 56988 56989 56987 AND\n2 1 56987 132623 132624 XOR\n2 1 132655 132624 78465 XOR\n2 1 83073 132624 56991 XOR\n2 1 48 132624 56992 XOR\n2 1 56991 56992 56990 AND\n2 1 56990 132624 132625 XOR\n2 1 132656 132625 78466 XOR\n2 1 83074 132625 56994 XOR\n2 1 49 132625 56995 XOR\n2 1 56994 56995 56993 AND\n2 1 56993 132625 132626 XOR\n2 1 132657 132626 78467 XOR\n2 1 83075 132626 56997 XOR\n2 1 50 132626 56998 XOR\n2 1 56997 56998 56996 AND\n2 1 56996 132626 132627 XOR\n2 1 132658 132627 78468 XOR\n2 1 83076 132627 57000 XOR\n2 1 51 132627 57001 XOR\n2 1 57000 57001 56999 AND\n2 1 56999 132627 132628 XOR\n2 1 132659 132628 78469 XOR\n2 1 83077 132628 57003 XOR\n2 1 52 132628 57004 XOR\n2 1 57003 57004 57002 AND\n2 1 57002 132628 132629 XOR\n2 1 132660 132629 78470 XOR\n2 1 83078 132629 57006 XOR\n2 1 53 132629 57007 XOR\n2 1 57006 57007 57005 AND\n2 1 57005 132629 132630 XOR\n2 1 132661 132630 78471 XOR\n2 1 83079 132630 57009 XOR\n2 1 54 132630 57010 XOR\n2 1 57009 57010 57008 AND\n2 1 57008 132630 132631 XOR\n2 1 132662 132631 78472 XOR\n2 1 83080 132631 57012 XOR\n2 1 55 132631 57013 XOR\n2 1 57012 57013 57011 AND\n2 1 57011 132631 132632 XOR\n2 1 132663 132632 78473 XOR\n2 1 83081 132632 57015 XOR\n2 1 56 132632 57016 XOR\n2 1 57015 57016 57014 AND\n2 1 57014 132632 132633 XOR\n2 1 132664 132633 78474 XOR\n2 1 83082 132633 57018 XOR\n2 1 57 132633 57019 XOR\n2 1 57018 57019 57017 AND\n2 1 57017 132633 132634 XOR\n2 1 132665 132634 78475 XOR\n2 1 83083 132634 57021 XOR\n2 1 58 132634 57022 XOR\n2 1 57021 57022 57020 AND\n2 1 57020 132634 132635 XOR\n2 1 132666 132635 78476 XOR\n2 1 83084 132635 57024 XOR\n2 1 59 132635 57025 XOR\n2 1 57024 57025 57023 AND\n2 1 57023 132635 132636 XOR\n2 1 132667 132636 78477 XOR\n2 1 83085 132636 57027 XOR\n2 1 60 132636 57028 XOR\n2 1 57027 57028 57026 AND\n2 1 57026 132636 132637 XOR\n2 1 132668 132637 78478 XOR\n2 1 83086 132637 57030 XOR\n2 1 61 132637 57031 XOR\n2 1 57030 57031 57029 AND\n2 1 57029 132637 132638 XOR\n2 1 132669 132638 78479 XOR\n2 1 83087 132638 57033 XOR\n2 1 62 132638 57034 XOR\n2 1 57033 57034 57032 AND\n2 1 57032 132638 132639 XOR\n2 1 132670 132639 78480 XOR\n2 1 77079 77090 83024 XOR\n2 1 77078 77089 83023 XOR\n2 1 77077 77088 83022 XOR\n2 1 77076 77087 5676 XOR\n2 1 77075 77086 5675 XOR\n2 1 77074 77085 5674 XOR\n2 1 77073 77084 5673 XOR\n2 1 77104 77083 5672 XOR\n2 1 77103 77082 5671 XOR\n2 1 77102 77081 5670 XOR\n2 1 77101 77080 5669 XOR\n2 1 77100 77079 5668 XOR\n2 1 77099 77078 5667 XOR\n2 1 77098 77077 5666 XOR\n2 1 77097 77076 5665 XOR\n2 1 77096 77075 5664 XOR\n2 1 77095 77074 5663 XOR\n2 1 77094 77073 5662 XOR\n2 1 77093 77104 5661 XOR\n2 1 77092 77103 5660 XOR\n2 1 77091 77102 5659 XOR\n2 1 77090 77101 5658 XOR\n2 1 77089 77100 5657 XOR\n2 1 77088 77099 5656 XOR\n2 1 77087 77098 5655 XOR\n2 1 77086 77097 5654 XOR\n2 1 77085 77096 5653 XOR\n2 1 77084 77095 5652 XOR\n2 1 77083 77094 5651 XOR\n2 1 77082 77093 5650 XOR\n2 1 77081 77092 5649 XOR\n2 1 77080 77091 5648 XOR\n2 1 5676 77104 83021 XOR\n",
"2 1 5675 77103 83020 XOR\n2 1 5674 77102 83019 XOR\n2 1 5673 77101 83018 XOR\n2 1 5672 77100 83017 XOR\n2 1 5671 77099 83016 XOR\n2 1 5670 77098 83015 XOR\n2 1 5669 77097 83014 XOR\n2 1 5668 77096 83013 XOR\n2 1 5667 77095 83012 XOR\n2 1 5666 77094 83011 XOR\n2 1 5665 77093 83010 XOR\n2 1 5664 77092 83009 XOR\n2 1 5663 77091 83008 XOR\n2 1 5662 77090 83007 XOR\n2 1 5661 77089 83006 XOR\n2 1 5660 77088 83005 XOR\n2 1 5659 77087 83004 XOR\n2 1 5658 77086 83003 XOR\n2 1 5657 77085 83002 XOR\n2 1 5656 77084 83001 XOR\n2 1 5655 77083 83000 XOR\n2 1 5654 77082 82999 XOR\n2 1 5653 77081 82998 XOR\n2 1 5652 77080 82997 XOR\n2 1 5651 77079 82996 XOR\n2 1 5650 77078 82995 XOR\n2 1 5649 77077 82994 XOR\n2 1 5648 77076 82993 XOR\n2 1 77015 77026 82960 XOR\n2 1 77014 77025 82959 XOR\n2 1 77013 77024 82958 XOR\n2 1 77012 77023 5618 XOR\n2 1 77011 77022 5617 XOR\n2 1 77010 77021 5616 XOR\n2 1 77009 77020 5615 XOR\n2 1 77040 77019 5614 XOR\n2 1 77039 77018 5613 XOR\n2 1 77038 77017 5612 XOR\n2 1 77037 77016 5611 XOR\n2 1 77036 77015 5610 XOR\n2 1 77035 77014 5609 XOR\n2 1 77034 77013 5608 XOR\n2 1 77033 77012 5607 XOR\n2 1 77032 77011 5606 XOR\n2 1 77031 77010 5605 XOR\n2 1 77030 77009 5604 XOR\n2 1 77029 77040 5603 XOR\n2 1 77028 77039 5602 XOR\n2 1 77027 77038 5601 XOR\n2 1 77026 77037 5600 XOR\n2 1 77025 77036 5599 XOR\n2 1 77024 77035 5598 XOR\n2 1 77023 77034 5597 XOR\n2 1 77022 77033 5596 XOR\n2 1 77021 77032 5595 XOR\n2 1 77020 77031 5594 XOR\n2 1 77019 77030 5593 XOR\n2 1 77018 77029 5592 XOR\n2 1 77017 77028 5591 XOR\n2 1 77016 77027 5590 XOR\n2 1 5618 77040 82957 XOR\n2 1 5617 77039 82956 XOR\n2 1 5616 77038 82955 XOR\n2 1 5615 77037 82954 XOR\n2 1 5614 77036 82953 XOR\n2 1 5613 77035 82952 XOR\n2 1 5612 77034 82951 XOR\n2 1 5611 77033 82950 XOR\n2 1 5610 77032 82949 XOR\n2 1 5609 77031 82948 XOR\n2 1 5608 77030 82947 XOR\n2 1 5607 77029 82946 XOR\n2 1 5606 77028 82945 XOR\n2 1 5605 77027 82944 XOR\n2 1 5604 77026 82943 XOR\n2 1 5603 77025 82942 XOR\n2 1 5602 77024 82941 XOR\n2 1 5601 77023 82940 XOR\n2 1 5600 77022 82939 XOR\n2 1 5599 77021 82938 XOR\n2 1 5598 77020 82937 XOR\n2 1 5597 77019 82936 XOR\n2 1 5596 77018 82935 XOR\n2 1 5595 77017 82934 XOR\n2 1 5594 77016 82933 XOR\n2 1 5593 77015 82932 XOR\n2 1 5592 77014 82931 XOR\n2 1 5591 77013 82930 XOR\n2 1 5590 77012 82929 XOR\n2 1 76951 76962 82896 XOR\n2 1 76950 76961 82895 XOR\n2 1 76949 76960 82894 XOR\n2 1 76948 76959 5560 XOR\n2 1 76947 76958 5559 XOR\n2 1 76946 76957 5558 XOR\n2 1 76945 76956 5557 XOR\n2 1 76976 76955 5556 XOR\n2 1 76975 76954 5555 XOR\n2 1 76974 76953 5554 XOR\n2 1 76973 76952 5553 XOR\n2 1 76972 76951 5552 XOR\n2 1 76971 76950 5551 XOR\n2 1 76970 76949 5550 XOR\n2 1 76969 76948 5549 XOR\n2 1 76968 76947 5548 XOR\n2 1 76967 76946 5547 XOR\n2 1 76966 76945 5546 XOR\n2 1 76965 76976 5545 XOR\n2 1 76964 76975 5544 XOR\n2 1 76963 76974 5543 XOR\n2 1 76962 76973 5542 XOR\n2 1 76961 76972 5541 XOR\n2 1 76960 76971 5540 XOR\n2 1 76959 76970 5539 XOR\n2 1 76958 76969 5538 XOR\n2 1 76957 76968 5537 XOR\n2 1 76956 76967 5536 XOR\n2 1 76955 76966 5535 XOR\n2 1 76954 76965 5534 XOR\n2 1 76953 76964 5533 XOR\n2 1 76952 76963 5532 XOR\n2 1 5560 76976 82893 XOR\n2 1 5559 76975 82892 XOR\n2 1 5558 76974 82891 XOR\n2 1 5557 76973 82890 XOR\n2 1 5556 76972 82889 XOR\n2 1 5555 76971 82888 XOR\n2 1 5554 76970 82887 XOR\n",
"2 1 5553 76969 82886 XOR\n2 1 5552 76968 82885 XOR\n2 1 5551 76967 82884 XOR\n2 1 5550 76966 82883 XOR\n2 1 5549 76965 82882 XOR\n2 1 5548 76964 82881 XOR\n2 1 5547 76963 82880 XOR\n2 1 5546 76962 82879 XOR\n2 1 5545 76961 82878 XOR\n2 1 5544 76960 82877 XOR\n2 1 5543 76959 82876 XOR\n2 1 5542 76958 82875 XOR\n2 1 5541 76957 82874 XOR\n2 1 5540 76956 82873 XOR\n2 1 5539 76955 82872 XOR\n2 1 5538 76954 82871 XOR\n2 1 5537 76953 82870 XOR\n2 1 5536 76952 82869 XOR\n2 1 5535 76951 82868 XOR\n2 1 5534 76950 82867 XOR\n2 1 5533 76949 82866 XOR\n2 1 5532 76948 82865 XOR\n2 1 48 50 82000 XOR\n2 1 82000 223 101971 XOR\n2 1 47 49 81999 XOR\n2 1 81999 222 101970 XOR\n2 1 46 48 81998 XOR\n2 1 81998 221 101969 XOR\n2 1 45 47 81997 XOR\n2 1 81997 220 101968 XOR\n2 1 44 46 81996 XOR\n2 1 81996 219 101967 XOR\n2 1 43 45 81995 XOR\n2 1 81995 218 101966 XOR\n2 1 42 44 81994 XOR\n2 1 81994 217 101965 XOR\n2 1 41 43 81993 XOR\n2 1 81993 216 101964 XOR\n2 1 40 42 81992 XOR\n2 1 81992 215 101963 XOR\n2 1 39 41 81991 XOR\n2 1 81991 214 101962 XOR\n2 1 38 40 4658 XOR\n2 1 37 39 4657 XOR\n2 1 36 38 4656 XOR\n2 1 35 37 4655 XOR\n2 1 34 36 4654 XOR\n2 1 33 35 4653 XOR\n2 1 32 34 4652 XOR\n2 1 63 33 4651 XOR\n2 1 62 32 4650 XOR\n2 1 61 63 4649 XOR\n2 1 60 62 4648 XOR\n2 1 59 61 4647 XOR\n2 1 58 60 4646 XOR\n2 1 57 59 4645 XOR\n2 1 56 58 4644 XOR\n2 1 55 57 4643 XOR\n2 1 54 56 4642 XOR\n2 1 53 55 4641 XOR\n2 1 52 54 4640 XOR\n2 1 51 53 4639 XOR\n2 1 50 52 4638 XOR\n2 1 49 51 4637 XOR\n2 1 4658 63 81990 XOR\n2 1 81990 213 101961 XOR\n2 1 4657 62 81989 XOR\n2 1 81989 212 101960 XOR\n2 1 4656 61 81988 XOR\n2 1 81988 211 101959 XOR\n2 1 4655 60 81987 XOR\n2 1 81987 210 101958 XOR\n2 1 4654 59 81986 XOR\n2 1 81986 209 101957 XOR\n2 1 4653 58 81985 XOR\n2 1 81985 208 101956 XOR\n2 1 4652 57 81984 XOR\n2 1 81984 207 101955 XOR\n2 1 4651 56 81983 XOR\n2 1 81983 206 101954 XOR\n2 1 4650 55 81982 XOR\n2 1 81982 205 101953 XOR\n2 1 4649 54 81981 XOR\n2 1 81981 204 101952 XOR\n2 1 4648 53 81980 XOR\n2 1 81980 203 101951 XOR\n2 1 4647 52 81979 XOR\n2 1 81979 202 101950 XOR\n2 1 4646 51 81978 XOR\n2 1 81978 201 101949 XOR\n2 1 4645 50 81977 XOR\n2 1 81977 200 101948 XOR\n2 1 4644 49 81976 XOR\n2 1 81976 199 101947 XOR\n2 1 4643 48 81975 XOR\n2 1 81975 198 101946 XOR\n2 1 4642 47 81974 XOR\n2 1 81974 197 101945 XOR\n2 1 4641 46 81973 XOR\n2 1 81973 196 101944 XOR\n2 1 4640 45 81972 XOR\n2 1 81972 195 101943 XOR\n2 1 4639 44 81971 XOR\n2 1 81971 194 101942 XOR\n2 1 4638 43 81970 XOR\n2 1 81970 193 101941 XOR\n2 1 4637 42 81969 XOR\n2 1 81969 192 101910 AND\n2 1 81969 192 80433 XOR\n2 1 101941 101910 80434 XOR\n2 1 193 101910 4661 XOR\n2 1 81970 101910 4660 XOR\n2 1 4660 4661 4659 AND\n2 1 4659 101910 101911 XOR\n2 1 101942 101911 80435 XOR\n2 1 194 101911 4664 XOR\n2 1 81971 101911 4663 XOR\n2 1 4663 4664 4662 AND\n2 1 4662 101911 101912 XOR\n2 1 101943 101912 80436 XOR\n2 1 195 101912 4667 XOR\n2 1 81972 101912 4666 XOR\n2 1 4666 4667 4665 AND\n2 1 4665 101912 101913 XOR\n2 1 101944 101913 80437 XOR\n2 1 196 101913 4670 XOR\n2 1 81973 101913 4669 XOR\n2 1 4669 4670 4668 AND\n",
"2 1 4668 101913 101914 XOR\n2 1 101945 101914 80438 XOR\n2 1 197 101914 4673 XOR\n2 1 81974 101914 4672 XOR\n2 1 4672 4673 4671 AND\n2 1 4671 101914 101915 XOR\n2 1 101946 101915 80439 XOR\n2 1 198 101915 4676 XOR\n2 1 81975 101915 4675 XOR\n2 1 4675 4676 4674 AND\n2 1 4674 101915 101916 XOR\n2 1 101947 101916 80440 XOR\n2 1 199 101916 4679 XOR\n2 1 81976 101916 4678 XOR\n2 1 4678 4679 4677 AND\n2 1 4677 101916 101917 XOR\n2 1 101948 101917 80441 XOR\n2 1 200 101917 4682 XOR\n2 1 81977 101917 4681 XOR\n2 1 4681 4682 4680 AND\n2 1 4680 101917 101918 XOR\n2 1 101949 101918 80442 XOR\n2 1 201 101918 4685 XOR\n2 1 81978 101918 4684 XOR\n2 1 4684 4685 4683 AND\n2 1 4683 101918 101919 XOR\n2 1 101950 101919 80443 XOR\n2 1 202 101919 4688 XOR\n2 1 81979 101919 4687 XOR\n2 1 4687 4688 4686 AND\n2 1 4686 101919 101920 XOR\n2 1 101951 101920 80444 XOR\n2 1 203 101920 4691 XOR\n2 1 81980 101920 4690 XOR\n2 1 4690 4691 4689 AND\n2 1 4689 101920 101921 XOR\n2 1 101952 101921 80445 XOR\n2 1 204 101921 4694 XOR\n2 1 81981 101921 4693 XOR\n2 1 4693 4694 4692 AND\n2 1 4692 101921 101922 XOR\n2 1 101953 101922 80446 XOR\n2 1 205 101922 4697 XOR\n2 1 81982 101922 4696 XOR\n2 1 4696 4697 4695 AND\n2 1 4695 101922 101923 XOR\n2 1 101954 101923 80447 XOR\n2 1 206 101923 4700 XOR\n2 1 81983 101923 4699 XOR\n2 1 4699 4700 4698 AND\n2 1 4698 101923 101924 XOR\n2 1 101955 101924 80448 XOR\n2 1 207 101924 4703 XOR\n2 1 81984 101924 4702 XOR\n2 1 4702 4703 4701 AND\n2 1 4701 101924 101925 XOR\n2 1 101956 101925 80449 XOR\n2 1 208 101925 4706 XOR\n2 1 81985 101925 4705 XOR\n2 1 4705 4706 4704 AND\n2 1 4704 101925 101926 XOR\n2 1 101957 101926 80450 XOR\n2 1 209 101926 4709 XOR\n2 1 81986 101926 4708 XOR\n2 1 4708 4709 4707 AND\n2 1 4707 101926 101927 XOR\n2 1 101958 101927 80451 XOR\n2 1 210 101927 4712 XOR\n2 1 81987 101927 4711 XOR\n2 1 4711 4712 4710 AND\n2 1 4710 101927 101928 XOR\n2 1 101959 101928 80452 XOR\n2 1 211 101928 4715 XOR\n2 1 81988 101928 4714 XOR\n2 1 4714 4715 4713 AND\n2 1 4713 101928 101929 XOR\n2 1 101960 101929 80453 XOR\n2 1 212 101929 4718 XOR\n2 1 81989 101929 4717 XOR\n2 1 4717 4718 4716 AND\n2 1 4716 101929 101930 XOR\n2 1 101961 101930 80454 XOR\n2 1 213 101930 4721 XOR\n2 1 81990 101930 4720 XOR\n2 1 4720 4721 4719 AND\n2 1 4719 101930 101931 XOR\n2 1 101962 101931 80455 XOR\n2 1 214 101931 4724 XOR\n2 1 81991 101931 4723 XOR\n2 1 4723 4724 4722 AND\n2 1 4722 101931 101932 XOR\n2 1 101963 101932 80456 XOR\n2 1 215 101932 4727 XOR\n2 1 81992 101932 4726 XOR\n2 1 4726 4727 4725 AND\n2 1 4725 101932 101933 XOR\n2 1 101964 101933 80457 XOR\n2 1 216 101933 4730 XOR\n2 1 81993 101933 4729 XOR\n2 1 4729 4730 4728 AND\n2 1 4728 101933 101934 XOR\n2 1 101965 101934 80458 XOR\n2 1 217 101934 4733 XOR\n2 1 81994 101934 4732 XOR\n2 1 4732 4733 4731 AND\n2 1 4731 101934 101935 XOR\n2 1 101966 101935 80459 XOR\n2 1 218 101935 4736 XOR\n2 1 81995 101935 4735 XOR\n2 1 4735 4736 4734 AND\n2 1 4734 101935 101936 XOR\n2 1 101967 101936 80460 XOR\n2 1 219 101936 4739 XOR\n2 1 81996 101936 4738 XOR\n2 1 4738 4739 4737 AND\n2 1 4737 101936 101937 XOR\n2 1 101968 101937 80461 XOR\n2 1 220 101937 4742 XOR\n2 1 81997 101937 4741 XOR\n2 1 4741 4742 4740 AND\n2 1 4740 101937 101938 XOR\n2 1 101969 101938 80462 XOR\n2 1 221 101938 4745 XOR\n2 1 81998 101938 4744 XOR\n2 1 4744 4745 4743 AND\n2 1 4743 101938 101939 XOR\n2 1 101970 101939 80463 XOR\n2 1 222 101939 4748 XOR\n",
"2 1 81999 101939 4747 XOR\n2 1 4747 4748 4746 AND\n2 1 4746 101939 101940 XOR\n2 1 101971 101940 80464 XOR\n2 1 454 465 83536 XOR\n2 1 83536 511 135274 XOR\n2 1 453 464 83535 XOR\n2 1 83535 510 135273 XOR\n2 1 452 463 83534 XOR\n2 1 83534 509 135272 XOR\n2 1 451 462 4636 XOR\n2 1 450 461 4635 XOR\n2 1 449 460 4634 XOR\n2 1 448 459 4633 XOR\n2 1 479 458 4632 XOR\n2 1 478 457 4631 XOR\n2 1 477 456 4630 XOR\n2 1 476 455 4629 XOR\n2 1 475 454 4628 XOR\n2 1 474 453 4627 XOR\n2 1 473 452 4626 XOR\n2 1 472 451 4625 XOR\n2 1 471 450 4624 XOR\n2 1 470 449 4623 XOR\n2 1 469 448 4622 XOR\n2 1 468 479 4621 XOR\n2 1 467 478 4620 XOR\n2 1 466 477 4619 XOR\n2 1 465 476 4618 XOR\n2 1 464 475 4617 XOR\n2 1 463 474 4616 XOR\n2 1 462 473 4615 XOR\n2 1 461 472 4614 XOR\n2 1 460 471 4613 XOR\n2 1 459 470 4612 XOR\n2 1 458 469 4611 XOR\n2 1 457 468 4610 XOR\n2 1 456 467 4609 XOR\n2 1 455 466 4608 XOR\n2 1 4636 479 83533 XOR\n2 1 83533 508 135271 XOR\n2 1 4635 478 83532 XOR\n2 1 83532 507 135270 XOR\n2 1 4634 477 83531 XOR\n2 1 83531 506 135269 XOR\n2 1 4633 476 83530 XOR\n2 1 83530 505 135268 XOR\n2 1 4632 475 83529 XOR\n2 1 83529 504 135267 XOR\n2 1 4631 474 83528 XOR\n2 1 83528 503 135266 XOR\n2 1 4630 473 83527 XOR\n2 1 83527 502 135265 XOR\n2 1 4629 472 83526 XOR\n2 1 83526 501 135264 XOR\n2 1 4628 471 83525 XOR\n2 1 83525 500 135263 XOR\n2 1 4627 470 83524 XOR\n2 1 83524 499 135262 XOR\n2 1 4626 469 83523 XOR\n2 1 83523 498 135261 XOR\n2 1 4625 468 83522 XOR\n2 1 83522 497 135260 XOR\n2 1 4624 467 83521 XOR\n2 1 83521 496 135259 XOR\n2 1 4623 466 83520 XOR\n2 1 83520 495 135258 XOR\n2 1 4622 465 83519 XOR\n2 1 83519 494 135257 XOR\n2 1 4621 464 83518 XOR\n2 1 83518 493 135256 XOR\n2 1 4620 463 83517 XOR\n2 1 83517 492 135255 XOR\n2 1 4619 462 83516 XOR\n2 1 83516 491 135254 XOR\n2 1 4618 461 83515 XOR\n2 1 83515 490 135253 XOR\n2 1 4617 460 83514 XOR\n2 1 83514 489 135252 XOR\n2 1 4616 459 83513 XOR\n2 1 83513 488 135251 XOR\n2 1 4615 458 83512 XOR\n2 1 83512 487 135250 XOR\n2 1 4614 457 83511 XOR\n2 1 83511 486 135249 XOR\n2 1 4613 456 83510 XOR\n2 1 83510 485 135248 XOR\n2 1 4612 455 83509 XOR\n2 1 83509 484 135247 XOR\n2 1 4611 454 83508 XOR\n2 1 83508 483 135246 XOR\n2 1 4610 453 83507 XOR\n2 1 83507 482 135245 XOR\n2 1 4609 452 83506 XOR\n2 1 83506 481 135244 XOR\n2 1 4608 451 83505 XOR\n2 1 83505 480 135213 AND\n2 1 83505 480 78897 XOR\n2 1 80433 78897 135151 AND\n2 1 80433 78897 77105 XOR\n2 1 77105 3744 122292 AND\n2 1 77105 3744 95222 XOR\n2 1 97270 95222 122230 AND\n2 1 97270 95222 93185 XOR\n1 1 93185 91185 INV\n2 1 97271 122230 40614 XOR\n2 1 3745 122292 40705 XOR\n2 1 4192 91185 3616 XOR\n2 1 4192 91185 108234 AND\n2 1 4193 108234 16237 XOR\n2 1 91185 85041 108296 AND\n2 1 82993 77105 132237 AND\n2 1 82993 77105 78385 XOR\n2 1 82994 132237 56406 XOR\n2 1 81745 77105 133973 AND\n2 1 81745 77105 80209 XOR\n2 1 80209 78673 133849 AND\n2 1 80209 78673 76881 XOR\n2 1 78674 133849 58747 XOR\n2 1 81746 133973 58926 XOR\n2 1 80434 135151 60636 XOR\n2 1 135244 135213 78898 XOR\n2 1 80434 78898 135182 XOR\n2 1 135182 135151 77106 XOR\n2 1 77106 3745 122323 XOR\n2 1 122323 122292 95223 XOR\n2 1 97271 95223 122261 XOR\n2 1 122261 122230 93186 XOR\n",
"2 1 93186 93185 91186 XOR\n2 1 91186 93185 40525 AND\n2 1 40525 93185 40527 XOR\n2 1 95223 122230 40615 XOR\n2 1 40614 40615 40613 AND\n2 1 40613 122230 122231 XOR\n2 1 97272 122231 40617 XOR\n2 1 77106 122292 40704 XOR\n2 1 40704 40705 40703 AND\n2 1 40703 122292 122293 XOR\n2 1 3746 122293 40708 XOR\n2 1 4193 91186 108265 XOR\n2 1 108265 108234 3617 XOR\n2 1 91186 108234 16238 XOR\n2 1 16237 16238 16236 AND\n2 1 16236 108234 108235 XOR\n2 1 4194 108235 16240 XOR\n2 1 91186 108296 16327 XOR\n2 1 91186 85042 108327 XOR\n2 1 82994 77106 132268 XOR\n2 1 132268 132237 78386 XOR\n2 1 77106 132237 56407 XOR\n2 1 56406 56407 56405 AND\n2 1 56405 132237 132238 XOR\n2 1 82995 132238 56409 XOR\n2 1 81746 77106 134004 XOR\n2 1 134004 133973 80210 XOR\n2 1 80210 78674 133880 XOR\n2 1 133880 133849 76882 XOR\n2 1 80210 133849 58746 XOR\n2 1 58746 58747 58745 AND\n2 1 58745 133849 133850 XOR\n2 1 78675 133850 58750 XOR\n2 1 77106 133973 58927 XOR\n2 1 58926 58927 58925 AND\n2 1 58925 133973 133974 XOR\n2 1 81747 133974 58929 XOR\n2 1 78898 135151 60637 XOR\n2 1 60636 60637 60635 AND\n2 1 60635 135151 135152 XOR\n2 1 80435 135152 60639 XOR\n2 1 83506 135213 60726 XOR\n2 1 481 135213 60727 XOR\n2 1 60726 60727 60725 AND\n2 1 60725 135213 135214 XOR\n2 1 135245 135214 78899 XOR\n2 1 80435 78899 135183 XOR\n2 1 135183 135152 77107 XOR\n2 1 77107 3746 122324 XOR\n2 1 122324 122293 95224 XOR\n2 1 97272 95224 122262 XOR\n2 1 122262 122231 93187 XOR\n2 1 93187 40527 91187 XOR\n2 1 91187 40527 40526 AND\n2 1 40526 40527 40529 XOR\n2 1 95224 122231 40618 XOR\n2 1 40617 40618 40616 AND\n2 1 40616 122231 122232 XOR\n2 1 97273 122232 40620 XOR\n2 1 77107 122293 40707 XOR\n2 1 40707 40708 40706 AND\n2 1 40706 122293 122294 XOR\n2 1 3747 122294 40711 XOR\n2 1 4194 91187 108266 XOR\n2 1 108266 108235 3618 XOR\n2 1 91187 108235 16241 XOR\n2 1 16240 16241 16239 AND\n2 1 16239 108235 108236 XOR\n2 1 82995 77107 132269 XOR\n2 1 132269 132238 78387 XOR\n2 1 77107 132238 56410 XOR\n2 1 56409 56410 56408 AND\n2 1 56408 132238 132239 XOR\n2 1 82996 132239 56412 XOR\n2 1 81747 77107 134005 XOR\n2 1 134005 133974 80211 XOR\n2 1 80211 78675 133881 XOR\n2 1 133881 133850 76883 XOR\n2 1 80211 133850 58749 XOR\n2 1 58749 58750 58748 AND\n2 1 58748 133850 133851 XOR\n2 1 78676 133851 58753 XOR\n2 1 77107 133974 58930 XOR\n2 1 58929 58930 58928 AND\n2 1 58928 133974 133975 XOR\n2 1 81748 133975 58932 XOR\n2 1 78899 135152 60640 XOR\n2 1 60639 60640 60638 AND\n2 1 60638 135152 135153 XOR\n2 1 80436 135153 60642 XOR\n2 1 83507 135214 60729 XOR\n2 1 482 135214 60730 XOR\n2 1 60729 60730 60728 AND\n2 1 60728 135214 135215 XOR\n2 1 135246 135215 78900 XOR\n2 1 80436 78900 135184 XOR\n2 1 135184 135153 77108 XOR\n2 1 77108 3747 122325 XOR\n2 1 122325 122294 95225 XOR\n2 1 97273 95225 122263 XOR\n2 1 122263 122232 93188 XOR\n2 1 93188 40529 91188 XOR\n2 1 91188 40529 40528 AND\n2 1 40528 40529 40531 XOR\n2 1 95225 122232 40621 XOR\n2 1 40620 40621 40619 AND\n2 1 40619 122232 122233 XOR\n2 1 97274 122233 40623 XOR\n2 1 77108 122294 40710 XOR\n2 1 40710 40711 40709 AND\n2 1 40709 122294 122295 XOR\n2 1 3748 122295 40714 XOR\n2 1 4195 91188 108267 XOR\n2 1 91188 85044 108329 XOR\n2 1 82996 77108 132270 XOR\n2 1 132270 132239 78388 XOR\n2 1 77108 132239 56413 XOR\n2 1 56412 56413 56411 AND\n2 1 56411 132239 132240 XOR\n2 1 82997 132240 56415 XOR\n2 1 81748 77108 134006 XOR\n2 1 134006 133975 80212 XOR\n2 1 80212 78676 133882 XOR\n2 1 133882 133851 76884 XOR\n2 1 80212 133851 58752 XOR\n2 1 58752 58753 58751 AND\n2 1 58751 133851 133852 XOR\n2 1 78677 133852 58756 XOR\n",
"2 1 77108 133975 58933 XOR\n2 1 58932 58933 58931 AND\n2 1 58931 133975 133976 XOR\n2 1 81749 133976 58935 XOR\n2 1 78900 135153 60643 XOR\n2 1 60642 60643 60641 AND\n2 1 60641 135153 135154 XOR\n2 1 80437 135154 60645 XOR\n2 1 83508 135215 60732 XOR\n2 1 483 135215 60733 XOR\n2 1 60732 60733 60731 AND\n2 1 60731 135215 135216 XOR\n2 1 135247 135216 78901 XOR\n2 1 80437 78901 135185 XOR\n2 1 135185 135154 77109 XOR\n2 1 77109 3748 122326 XOR\n2 1 122326 122295 95226 XOR\n2 1 97274 95226 122264 XOR\n2 1 122264 122233 93189 XOR\n2 1 93189 40531 91189 XOR\n2 1 91189 40531 40530 AND\n2 1 40530 40531 40533 XOR\n2 1 95226 122233 40624 XOR\n2 1 40623 40624 40622 AND\n2 1 40622 122233 122234 XOR\n2 1 97275 122234 40626 XOR\n2 1 77109 122295 40713 XOR\n2 1 40713 40714 40712 AND\n2 1 40712 122295 122296 XOR\n2 1 3749 122296 40717 XOR\n2 1 4196 91189 108268 XOR\n2 1 82997 77109 132271 XOR\n2 1 132271 132240 78389 XOR\n2 1 77109 132240 56416 XOR\n2 1 56415 56416 56414 AND\n2 1 56414 132240 132241 XOR\n2 1 82998 132241 56418 XOR\n2 1 81749 77109 134007 XOR\n2 1 134007 133976 80213 XOR\n2 1 80213 78677 133883 XOR\n2 1 133883 133852 76885 XOR\n2 1 80213 133852 58755 XOR\n2 1 58755 58756 58754 AND\n2 1 58754 133852 133853 XOR\n2 1 78678 133853 58759 XOR\n2 1 77109 133976 58936 XOR\n2 1 58935 58936 58934 AND\n2 1 58934 133976 133977 XOR\n2 1 81750 133977 58938 XOR\n2 1 78901 135154 60646 XOR\n2 1 60645 60646 60644 AND\n2 1 60644 135154 135155 XOR\n2 1 80438 135155 60648 XOR\n2 1 83509 135216 60735 XOR\n2 1 484 135216 60736 XOR\n2 1 60735 60736 60734 AND\n2 1 60734 135216 135217 XOR\n2 1 135248 135217 78902 XOR\n2 1 80438 78902 135186 XOR\n2 1 135186 135155 77110 XOR\n2 1 77110 3749 122327 XOR\n2 1 122327 122296 95227 XOR\n2 1 97275 95227 122265 XOR\n2 1 122265 122234 93190 XOR\n2 1 93190 40533 91190 XOR\n2 1 91190 40533 40532 AND\n2 1 40532 40533 122215 XOR\n1 1 122215 40536 INV\n2 1 95227 122234 40627 XOR\n2 1 40626 40627 40625 AND\n2 1 40625 122234 122235 XOR\n2 1 97276 122235 40629 XOR\n2 1 77110 122296 40716 XOR\n2 1 40716 40717 40715 AND\n2 1 40715 122296 122297 XOR\n2 1 3750 122297 40720 XOR\n2 1 4197 91190 108269 XOR\n2 1 91190 85046 108331 XOR\n2 1 82998 77110 132272 XOR\n2 1 132272 132241 78390 XOR\n2 1 77110 132241 56419 XOR\n2 1 56418 56419 56417 AND\n2 1 56417 132241 132242 XOR\n2 1 82999 132242 56421 XOR\n2 1 81750 77110 134008 XOR\n2 1 134008 133977 80214 XOR\n2 1 80214 78678 133884 XOR\n2 1 133884 133853 76886 XOR\n2 1 80214 133853 58758 XOR\n2 1 58758 58759 58757 AND\n2 1 58757 133853 133854 XOR\n2 1 78679 133854 58762 XOR\n2 1 77110 133977 58939 XOR\n2 1 58938 58939 58937 AND\n2 1 58937 133977 133978 XOR\n2 1 81751 133978 58941 XOR\n2 1 78902 135155 60649 XOR\n2 1 60648 60649 60647 AND\n2 1 60647 135155 135156 XOR\n2 1 80439 135156 60651 XOR\n2 1 83510 135217 60738 XOR\n2 1 485 135217 60739 XOR\n2 1 60738 60739 60737 AND\n2 1 60737 135217 135218 XOR\n2 1 135249 135218 78903 XOR\n2 1 80439 78903 135187 XOR\n2 1 135187 135156 77111 XOR\n2 1 77111 3750 122328 XOR\n2 1 122328 122297 95228 XOR\n2 1 97276 95228 122266 XOR\n2 1 122266 122235 93191 XOR\n1 1 93191 40598 INV\n2 1 40598 122215 91191 XOR\n2 1 93191 122215 40535 XOR\n2 1 40535 40536 40534 AND\n2 1 40534 122215 122216 XOR\n1 1 122216 40539 INV\n2 1 95228 122235 40630 XOR\n2 1 40629 40630 40628 AND\n2 1 40628 122235 122236 XOR\n2 1 97277 122236 40632 XOR\n2 1 77111 122297 40719 XOR\n2 1 40719 40720 40718 AND\n2 1 40718 122297 122298 XOR\n2 1 3751 122298 40723 XOR\n2 1 4198 91191 108270 XOR\n2 1 82999 77111 132273 XOR\n2 1 132273 132242 78391 XOR\n",
"2 1 77111 132242 56422 XOR\n2 1 56421 56422 56420 AND\n2 1 56420 132242 132243 XOR\n2 1 83000 132243 56424 XOR\n2 1 81751 77111 134009 XOR\n2 1 134009 133978 80215 XOR\n2 1 80215 78679 133885 XOR\n2 1 133885 133854 76887 XOR\n2 1 80215 133854 58761 XOR\n2 1 58761 58762 58760 AND\n2 1 58760 133854 133855 XOR\n2 1 78680 133855 58765 XOR\n2 1 77111 133978 58942 XOR\n2 1 58941 58942 58940 AND\n2 1 58940 133978 133979 XOR\n2 1 81752 133979 58944 XOR\n2 1 78903 135156 60652 XOR\n2 1 60651 60652 60650 AND\n2 1 60650 135156 135157 XOR\n2 1 80440 135157 60654 XOR\n2 1 83511 135218 60741 XOR\n2 1 486 135218 60742 XOR\n2 1 60741 60742 60740 AND\n2 1 60740 135218 135219 XOR\n2 1 135250 135219 78904 XOR\n2 1 80440 78904 135188 XOR\n2 1 135188 135157 77112 XOR\n2 1 77112 3751 122329 XOR\n2 1 122329 122298 95229 XOR\n2 1 97277 95229 122267 XOR\n2 1 122267 122236 93192 XOR\n1 1 93192 40599 INV\n2 1 40599 122216 91192 XOR\n2 1 93192 122216 40538 XOR\n2 1 40538 40539 40537 AND\n2 1 40537 122216 122217 XOR\n1 1 122217 40542 INV\n2 1 95229 122236 40633 XOR\n2 1 40632 40633 40631 AND\n2 1 40631 122236 122237 XOR\n2 1 97278 122237 40635 XOR\n2 1 77112 122298 40722 XOR\n2 1 40722 40723 40721 AND\n2 1 40721 122298 122299 XOR\n2 1 3752 122299 40726 XOR\n2 1 4199 91192 108271 XOR\n2 1 91192 85048 108333 XOR\n2 1 83000 77112 132274 XOR\n2 1 132274 132243 78392 XOR\n2 1 77112 132243 56425 XOR\n2 1 56424 56425 56423 AND\n2 1 56423 132243 132244 XOR\n2 1 83001 132244 56427 XOR\n2 1 81752 77112 134010 XOR\n2 1 134010 133979 80216 XOR\n2 1 80216 78680 133886 XOR\n2 1 133886 133855 76888 XOR\n2 1 80216 133855 58764 XOR\n2 1 58764 58765 58763 AND\n2 1 58763 133855 133856 XOR\n2 1 78681 133856 58768 XOR\n2 1 77112 133979 58945 XOR\n2 1 58944 58945 58943 AND\n2 1 58943 133979 133980 XOR\n2 1 81753 133980 58947 XOR\n2 1 78904 135157 60655 XOR\n2 1 60654 60655 60653 AND\n2 1 60653 135157 135158 XOR\n2 1 80441 135158 60657 XOR\n2 1 83512 135219 60744 XOR\n2 1 487 135219 60745 XOR\n2 1 60744 60745 60743 AND\n2 1 60743 135219 135220 XOR\n2 1 135251 135220 78905 XOR\n2 1 80441 78905 135189 XOR\n2 1 135189 135158 77113 XOR\n2 1 77113 3752 122330 XOR\n2 1 122330 122299 95230 XOR\n2 1 97278 95230 122268 XOR\n2 1 122268 122237 93193 XOR\n1 1 93193 40600 INV\n2 1 40600 122217 91193 XOR\n2 1 93193 122217 40541 XOR\n2 1 40541 40542 40540 AND\n2 1 40540 122217 40544 XOR\n2 1 95230 122237 40636 XOR\n2 1 40635 40636 40634 AND\n2 1 40634 122237 122238 XOR\n2 1 97279 122238 40638 XOR\n2 1 77113 122299 40725 XOR\n2 1 40725 40726 40724 AND\n2 1 40724 122299 122300 XOR\n2 1 3753 122300 40729 XOR\n2 1 4200 91193 108272 XOR\n2 1 83001 77113 132275 XOR\n2 1 132275 132244 78393 XOR\n2 1 77113 132244 56428 XOR\n2 1 56427 56428 56426 AND\n2 1 56426 132244 132245 XOR\n2 1 83002 132245 56430 XOR\n2 1 81753 77113 134011 XOR\n2 1 134011 133980 80217 XOR\n2 1 80217 78681 133887 XOR\n2 1 133887 133856 76889 XOR\n2 1 80217 133856 58767 XOR\n2 1 58767 58768 58766 AND\n2 1 58766 133856 133857 XOR\n2 1 78682 133857 58771 XOR\n2 1 77113 133980 58948 XOR\n2 1 58947 58948 58946 AND\n2 1 58946 133980 133981 XOR\n2 1 81754 133981 58950 XOR\n2 1 78905 135158 60658 XOR\n2 1 60657 60658 60656 AND\n2 1 60656 135158 135159 XOR\n2 1 80442 135159 60660 XOR\n2 1 83513 135220 60747 XOR\n2 1 488 135220 60748 XOR\n2 1 60747 60748 60746 AND\n2 1 60746 135220 135221 XOR\n2 1 135252 135221 78906 XOR\n2 1 80442 78906 135190 XOR\n2 1 135190 135159 77114 XOR\n2 1 77114 3753 122331 XOR\n2 1 122331 122300 95231 XOR\n2 1 97279 95231 122269 XOR\n2 1 122269 122238 93194 XOR\n2 1 93194 40544 91194 XOR\n",
"2 1 91194 40544 40543 AND\n2 1 40543 40544 40546 XOR\n2 1 95231 122238 40639 XOR\n2 1 40638 40639 40637 AND\n2 1 40637 122238 122239 XOR\n2 1 97280 122239 40641 XOR\n2 1 77114 122300 40728 XOR\n2 1 40728 40729 40727 AND\n2 1 40727 122300 122301 XOR\n2 1 3754 122301 40732 XOR\n2 1 4201 91194 108273 XOR\n2 1 91194 85050 108335 XOR\n2 1 83002 77114 132276 XOR\n2 1 132276 132245 78394 XOR\n2 1 77114 132245 56431 XOR\n2 1 56430 56431 56429 AND\n2 1 56429 132245 132246 XOR\n2 1 83003 132246 56433 XOR\n2 1 81754 77114 134012 XOR\n2 1 134012 133981 80218 XOR\n2 1 80218 78682 133888 XOR\n2 1 133888 133857 76890 XOR\n2 1 80218 133857 58770 XOR\n2 1 58770 58771 58769 AND\n2 1 58769 133857 133858 XOR\n2 1 78683 133858 58774 XOR\n2 1 77114 133981 58951 XOR\n2 1 58950 58951 58949 AND\n2 1 58949 133981 133982 XOR\n2 1 81755 133982 58953 XOR\n2 1 78906 135159 60661 XOR\n2 1 60660 60661 60659 AND\n2 1 60659 135159 135160 XOR\n2 1 80443 135160 60663 XOR\n2 1 83514 135221 60750 XOR\n2 1 489 135221 60751 XOR\n2 1 60750 60751 60749 AND\n2 1 60749 135221 135222 XOR\n2 1 135253 135222 78907 XOR\n2 1 80443 78907 135191 XOR\n2 1 135191 135160 77115 XOR\n2 1 77115 3754 122332 XOR\n2 1 122332 122301 95232 XOR\n2 1 97280 95232 122270 XOR\n2 1 122270 122239 93195 XOR\n2 1 93195 40546 91195 XOR\n2 1 91195 40546 40545 AND\n2 1 40545 40546 122218 XOR\n1 1 122218 40549 INV\n2 1 95232 122239 40642 XOR\n2 1 40641 40642 40640 AND\n2 1 40640 122239 122240 XOR\n2 1 97281 122240 40644 XOR\n2 1 77115 122301 40731 XOR\n2 1 40731 40732 40730 AND\n2 1 40730 122301 122302 XOR\n2 1 3755 122302 40735 XOR\n2 1 4202 91195 108274 XOR\n2 1 83003 77115 132277 XOR\n2 1 132277 132246 78395 XOR\n2 1 77115 132246 56434 XOR\n2 1 56433 56434 56432 AND\n2 1 56432 132246 132247 XOR\n2 1 83004 132247 56436 XOR\n2 1 81755 77115 134013 XOR\n2 1 134013 133982 80219 XOR\n2 1 80219 78683 133889 XOR\n2 1 133889 133858 76891 XOR\n2 1 80219 133858 58773 XOR\n2 1 58773 58774 58772 AND\n2 1 58772 133858 133859 XOR\n2 1 78684 133859 58777 XOR\n2 1 77115 133982 58954 XOR\n2 1 58953 58954 58952 AND\n2 1 58952 133982 133983 XOR\n2 1 81756 133983 58956 XOR\n2 1 78907 135160 60664 XOR\n2 1 60663 60664 60662 AND\n2 1 60662 135160 135161 XOR\n2 1 80444 135161 60666 XOR\n2 1 83515 135222 60753 XOR\n2 1 490 135222 60754 XOR\n2 1 60753 60754 60752 AND\n2 1 60752 135222 135223 XOR\n2 1 135254 135223 78908 XOR\n2 1 80444 78908 135192 XOR\n2 1 135192 135161 77116 XOR\n2 1 77116 3755 122333 XOR\n2 1 122333 122302 95233 XOR\n2 1 97281 95233 122271 XOR\n2 1 122271 122240 93196 XOR\n1 1 93196 40601 INV\n2 1 40601 122218 91196 XOR\n2 1 93196 122218 40548 XOR\n2 1 40548 40549 40547 AND\n2 1 40547 122218 40551 XOR\n2 1 95233 122240 40645 XOR\n2 1 40644 40645 40643 AND\n2 1 40643 122240 122241 XOR\n2 1 97282 122241 40647 XOR\n2 1 77116 122302 40734 XOR\n2 1 40734 40735 40733 AND\n2 1 40733 122302 122303 XOR\n2 1 3756 122303 40738 XOR\n2 1 4203 91196 108275 XOR\n2 1 91196 85052 108337 XOR\n2 1 83004 77116 132278 XOR\n2 1 132278 132247 78396 XOR\n2 1 77116 132247 56437 XOR\n2 1 56436 56437 56435 AND\n2 1 56435 132247 132248 XOR\n2 1 83005 132248 56439 XOR\n2 1 81756 77116 134014 XOR\n2 1 134014 133983 80220 XOR\n2 1 80220 78684 133890 XOR\n2 1 133890 133859 76892 XOR\n2 1 80220 133859 58776 XOR\n2 1 58776 58777 58775 AND\n2 1 58775 133859 133860 XOR\n2 1 78685 133860 58780 XOR\n2 1 77116 133983 58957 XOR\n2 1 58956 58957 58955 AND\n2 1 58955 133983 133984 XOR\n2 1 81757 133984 58959 XOR\n2 1 78908 135161 60667 XOR\n2 1 60666 60667 60665 AND\n2 1 60665 135161 135162 XOR\n2 1 80445 135162 60669 XOR\n",
"2 1 83516 135223 60756 XOR\n2 1 491 135223 60757 XOR\n2 1 60756 60757 60755 AND\n2 1 60755 135223 135224 XOR\n2 1 135255 135224 78909 XOR\n2 1 80445 78909 135193 XOR\n2 1 135193 135162 77117 XOR\n2 1 77117 3756 122334 XOR\n2 1 122334 122303 95234 XOR\n2 1 97282 95234 122272 XOR\n2 1 122272 122241 93197 XOR\n2 1 93197 40551 91197 XOR\n2 1 91197 40551 40550 AND\n2 1 40550 40551 122219 XOR\n1 1 122219 40554 INV\n2 1 95234 122241 40648 XOR\n2 1 40647 40648 40646 AND\n2 1 40646 122241 122242 XOR\n2 1 97283 122242 40650 XOR\n2 1 77117 122303 40737 XOR\n2 1 40737 40738 40736 AND\n2 1 40736 122303 122304 XOR\n2 1 3757 122304 40741 XOR\n2 1 4204 91197 108276 XOR\n2 1 83005 77117 132279 XOR\n2 1 132279 132248 78397 XOR\n2 1 77117 132248 56440 XOR\n2 1 56439 56440 56438 AND\n2 1 56438 132248 132249 XOR\n2 1 83006 132249 56442 XOR\n2 1 81757 77117 134015 XOR\n2 1 134015 133984 80221 XOR\n2 1 80221 78685 133891 XOR\n2 1 133891 133860 76893 XOR\n2 1 80221 133860 58779 XOR\n2 1 58779 58780 58778 AND\n2 1 58778 133860 133861 XOR\n2 1 78686 133861 58783 XOR\n2 1 77117 133984 58960 XOR\n2 1 58959 58960 58958 AND\n2 1 58958 133984 133985 XOR\n2 1 81758 133985 58962 XOR\n2 1 78909 135162 60670 XOR\n2 1 60669 60670 60668 AND\n2 1 60668 135162 135163 XOR\n2 1 80446 135163 60672 XOR\n2 1 83517 135224 60759 XOR\n2 1 492 135224 60760 XOR\n2 1 60759 60760 60758 AND\n2 1 60758 135224 135225 XOR\n2 1 135256 135225 78910 XOR\n2 1 80446 78910 135194 XOR\n2 1 135194 135163 77118 XOR\n2 1 77118 3757 122335 XOR\n2 1 122335 122304 95235 XOR\n2 1 97283 95235 122273 XOR\n2 1 122273 122242 93198 XOR\n1 1 93198 40602 INV\n2 1 40602 122219 91198 XOR\n2 1 93198 122219 40553 XOR\n2 1 40553 40554 40552 AND\n2 1 40552 122219 122220 XOR\n1 1 122220 40557 INV\n2 1 95235 122242 40651 XOR\n2 1 40650 40651 40649 AND\n2 1 40649 122242 122243 XOR\n2 1 97284 122243 40653 XOR\n2 1 77118 122304 40740 XOR\n2 1 40740 40741 40739 AND\n2 1 40739 122304 122305 XOR\n2 1 3758 122305 40744 XOR\n2 1 4205 91198 108277 XOR\n2 1 91198 85054 108339 XOR\n2 1 83006 77118 132280 XOR\n2 1 132280 132249 78398 XOR\n2 1 77118 132249 56443 XOR\n2 1 56442 56443 56441 AND\n2 1 56441 132249 132250 XOR\n2 1 83007 132250 56445 XOR\n2 1 81758 77118 134016 XOR\n2 1 134016 133985 80222 XOR\n2 1 80222 78686 133892 XOR\n2 1 133892 133861 76894 XOR\n2 1 80222 133861 58782 XOR\n2 1 58782 58783 58781 AND\n2 1 58781 133861 133862 XOR\n2 1 78687 133862 58786 XOR\n2 1 77118 133985 58963 XOR\n2 1 58962 58963 58961 AND\n2 1 58961 133985 133986 XOR\n2 1 81759 133986 58965 XOR\n2 1 78910 135163 60673 XOR\n2 1 60672 60673 60671 AND\n2 1 60671 135163 135164 XOR\n2 1 80447 135164 60675 XOR\n2 1 83518 135225 60762 XOR\n2 1 493 135225 60763 XOR\n2 1 60762 60763 60761 AND\n2 1 60761 135225 135226 XOR\n2 1 135257 135226 78911 XOR\n2 1 80447 78911 135195 XOR\n2 1 135195 135164 77119 XOR\n2 1 77119 3758 122336 XOR\n2 1 122336 122305 95236 XOR\n2 1 97284 95236 122274 XOR\n2 1 122274 122243 93199 XOR\n1 1 93199 40603 INV\n2 1 40603 122220 91199 XOR\n2 1 93199 122220 40556 XOR\n2 1 40556 40557 40555 AND\n2 1 40555 122220 40559 XOR\n2 1 95236 122243 40654 XOR\n2 1 40653 40654 40652 AND\n2 1 40652 122243 122244 XOR\n2 1 97285 122244 40656 XOR\n2 1 77119 122305 40743 XOR\n2 1 40743 40744 40742 AND\n2 1 40742 122305 122306 XOR\n2 1 3759 122306 40747 XOR\n2 1 4206 91199 108278 XOR\n2 1 83007 77119 132281 XOR\n2 1 132281 132250 78399 XOR\n2 1 77119 132250 56446 XOR\n2 1 56445 56446 56444 AND\n2 1 56444 132250 132251 XOR\n2 1 83008 132251 56448 XOR\n2 1 81759 77119 134017 XOR\n2 1 134017 133986 80223 XOR\n",
"2 1 80223 78687 133893 XOR\n2 1 133893 133862 76895 XOR\n2 1 80223 133862 58785 XOR\n2 1 58785 58786 58784 AND\n2 1 58784 133862 133863 XOR\n2 1 78688 133863 58789 XOR\n2 1 77119 133986 58966 XOR\n2 1 58965 58966 58964 AND\n2 1 58964 133986 133987 XOR\n2 1 81760 133987 58968 XOR\n2 1 78911 135164 60676 XOR\n2 1 60675 60676 60674 AND\n2 1 60674 135164 135165 XOR\n2 1 80448 135165 60678 XOR\n2 1 83519 135226 60765 XOR\n2 1 494 135226 60766 XOR\n2 1 60765 60766 60764 AND\n2 1 60764 135226 135227 XOR\n2 1 135258 135227 78912 XOR\n2 1 80448 78912 135196 XOR\n2 1 135196 135165 77120 XOR\n2 1 77120 3759 122337 XOR\n2 1 122337 122306 95237 XOR\n2 1 97285 95237 122275 XOR\n2 1 122275 122244 93200 XOR\n2 1 93200 40559 91200 XOR\n2 1 91200 40559 40558 AND\n2 1 40558 40559 122221 XOR\n1 1 122221 40562 INV\n2 1 95237 122244 40657 XOR\n2 1 40656 40657 40655 AND\n2 1 40655 122244 122245 XOR\n2 1 97286 122245 40659 XOR\n2 1 77120 122306 40746 XOR\n2 1 40746 40747 40745 AND\n2 1 40745 122306 122307 XOR\n2 1 3760 122307 40750 XOR\n2 1 4207 91200 108279 XOR\n2 1 91200 85056 108341 XOR\n2 1 83008 77120 132282 XOR\n2 1 132282 132251 78400 XOR\n2 1 77120 132251 56449 XOR\n2 1 56448 56449 56447 AND\n2 1 56447 132251 132252 XOR\n2 1 83009 132252 56451 XOR\n2 1 81760 77120 134018 XOR\n2 1 134018 133987 80224 XOR\n2 1 80224 78688 133894 XOR\n2 1 133894 133863 76896 XOR\n2 1 80224 133863 58788 XOR\n2 1 58788 58789 58787 AND\n2 1 58787 133863 133864 XOR\n2 1 78689 133864 58792 XOR\n2 1 77120 133987 58969 XOR\n2 1 58968 58969 58967 AND\n2 1 58967 133987 133988 XOR\n2 1 81761 133988 58971 XOR\n2 1 78912 135165 60679 XOR\n2 1 60678 60679 60677 AND\n2 1 60677 135165 135166 XOR\n2 1 80449 135166 60681 XOR\n2 1 83520 135227 60768 XOR\n2 1 495 135227 60769 XOR\n2 1 60768 60769 60767 AND\n2 1 60767 135227 135228 XOR\n2 1 135259 135228 78913 XOR\n2 1 80449 78913 135197 XOR\n2 1 135197 135166 77121 XOR\n2 1 77121 3760 122338 XOR\n2 1 122338 122307 95238 XOR\n2 1 97286 95238 122276 XOR\n2 1 122276 122245 93201 XOR\n1 1 93201 40604 INV\n2 1 40604 122221 91201 XOR\n2 1 93201 122221 40561 XOR\n2 1 40561 40562 40560 AND\n2 1 40560 122221 122222 XOR\n1 1 122222 40565 INV\n2 1 95238 122245 40660 XOR\n2 1 40659 40660 40658 AND\n2 1 40658 122245 122246 XOR\n2 1 97287 122246 40662 XOR\n2 1 77121 122307 40749 XOR\n2 1 40749 40750 40748 AND\n2 1 40748 122307 122308 XOR\n2 1 3761 122308 40753 XOR\n2 1 4208 91201 108280 XOR\n2 1 83009 77121 132283 XOR\n2 1 132283 132252 78401 XOR\n2 1 77121 132252 56452 XOR\n2 1 56451 56452 56450 AND\n2 1 56450 132252 132253 XOR\n2 1 83010 132253 56454 XOR\n2 1 81761 77121 134019 XOR\n2 1 134019 133988 80225 XOR\n2 1 80225 78689 133895 XOR\n2 1 133895 133864 76897 XOR\n2 1 80225 133864 58791 XOR\n2 1 58791 58792 58790 AND\n2 1 58790 133864 133865 XOR\n2 1 78690 133865 58795 XOR\n2 1 77121 133988 58972 XOR\n2 1 58971 58972 58970 AND\n2 1 58970 133988 133989 XOR\n2 1 81762 133989 58974 XOR\n2 1 78913 135166 60682 XOR\n2 1 60681 60682 60680 AND\n2 1 60680 135166 135167 XOR\n2 1 80450 135167 60684 XOR\n2 1 83521 135228 60771 XOR\n2 1 496 135228 60772 XOR\n2 1 60771 60772 60770 AND\n2 1 60770 135228 135229 XOR\n2 1 135260 135229 78914 XOR\n2 1 80450 78914 135198 XOR\n2 1 135198 135167 77122 XOR\n2 1 77122 3761 122339 XOR\n2 1 122339 122308 95239 XOR\n2 1 97287 95239 122277 XOR\n2 1 122277 122246 93202 XOR\n1 1 93202 40605 INV\n2 1 40605 122222 91202 XOR\n2 1 93202 122222 40564 XOR\n2 1 40564 40565 40563 AND\n2 1 40563 122222 40567 XOR\n2 1 95239 122246 40663 XOR\n2 1 40662 40663 40661 AND\n2 1 40661 122246 122247 XOR\n",
"2 1 97288 122247 40665 XOR\n2 1 77122 122308 40752 XOR\n2 1 40752 40753 40751 AND\n2 1 40751 122308 122309 XOR\n2 1 3762 122309 40756 XOR\n2 1 4209 91202 108281 XOR\n2 1 91202 85058 108343 XOR\n2 1 83010 77122 132284 XOR\n2 1 132284 132253 78402 XOR\n2 1 77122 132253 56455 XOR\n2 1 56454 56455 56453 AND\n2 1 56453 132253 132254 XOR\n2 1 83011 132254 56457 XOR\n2 1 81762 77122 134020 XOR\n2 1 134020 133989 80226 XOR\n2 1 80226 78690 133896 XOR\n2 1 133896 133865 76898 XOR\n2 1 80226 133865 58794 XOR\n2 1 58794 58795 58793 AND\n2 1 58793 133865 133866 XOR\n2 1 78691 133866 58798 XOR\n2 1 77122 133989 58975 XOR\n2 1 58974 58975 58973 AND\n2 1 58973 133989 133990 XOR\n2 1 81763 133990 58977 XOR\n2 1 78914 135167 60685 XOR\n2 1 60684 60685 60683 AND\n2 1 60683 135167 135168 XOR\n2 1 80451 135168 60687 XOR\n2 1 83522 135229 60774 XOR\n2 1 497 135229 60775 XOR\n2 1 60774 60775 60773 AND\n2 1 60773 135229 135230 XOR\n2 1 135261 135230 78915 XOR\n2 1 80451 78915 135199 XOR\n2 1 135199 135168 77123 XOR\n2 1 77123 3762 122340 XOR\n2 1 122340 122309 95240 XOR\n2 1 97288 95240 122278 XOR\n2 1 122278 122247 93203 XOR\n2 1 93203 40567 91203 XOR\n2 1 91203 40567 40566 AND\n2 1 40566 40567 122223 XOR\n1 1 122223 40570 INV\n2 1 95240 122247 40666 XOR\n2 1 40665 40666 40664 AND\n2 1 40664 122247 122248 XOR\n2 1 97289 122248 40668 XOR\n2 1 77123 122309 40755 XOR\n2 1 40755 40756 40754 AND\n2 1 40754 122309 122310 XOR\n2 1 3763 122310 40759 XOR\n2 1 4210 91203 108282 XOR\n2 1 83011 77123 132285 XOR\n2 1 132285 132254 78403 XOR\n2 1 77123 132254 56458 XOR\n2 1 56457 56458 56456 AND\n2 1 56456 132254 132255 XOR\n2 1 83012 132255 56460 XOR\n2 1 81763 77123 134021 XOR\n2 1 134021 133990 80227 XOR\n2 1 80227 78691 133897 XOR\n2 1 133897 133866 76899 XOR\n2 1 80227 133866 58797 XOR\n2 1 58797 58798 58796 AND\n2 1 58796 133866 133867 XOR\n2 1 78692 133867 58801 XOR\n2 1 77123 133990 58978 XOR\n2 1 58977 58978 58976 AND\n2 1 58976 133990 133991 XOR\n2 1 81764 133991 58980 XOR\n2 1 78915 135168 60688 XOR\n2 1 60687 60688 60686 AND\n2 1 60686 135168 135169 XOR\n2 1 80452 135169 60690 XOR\n2 1 83523 135230 60777 XOR\n2 1 498 135230 60778 XOR\n2 1 60777 60778 60776 AND\n2 1 60776 135230 135231 XOR\n2 1 135262 135231 78916 XOR\n2 1 80452 78916 135200 XOR\n2 1 135200 135169 77124 XOR\n2 1 77124 3763 122341 XOR\n2 1 122341 122310 95241 XOR\n2 1 97289 95241 122279 XOR\n2 1 122279 122248 93204 XOR\n1 1 93204 40606 INV\n2 1 40606 122223 91204 XOR\n2 1 93204 122223 40569 XOR\n2 1 40569 40570 40568 AND\n2 1 40568 122223 122224 XOR\n1 1 122224 40573 INV\n2 1 95241 122248 40669 XOR\n2 1 40668 40669 40667 AND\n2 1 40667 122248 122249 XOR\n2 1 97290 122249 40671 XOR\n2 1 77124 122310 40758 XOR\n2 1 40758 40759 40757 AND\n2 1 40757 122310 122311 XOR\n2 1 3764 122311 40762 XOR\n2 1 4211 91204 108283 XOR\n2 1 91204 85060 108345 XOR\n2 1 83012 77124 132286 XOR\n2 1 132286 132255 78404 XOR\n2 1 77124 132255 56461 XOR\n2 1 56460 56461 56459 AND\n2 1 56459 132255 132256 XOR\n2 1 83013 132256 56463 XOR\n2 1 81764 77124 134022 XOR\n2 1 134022 133991 80228 XOR\n2 1 80228 78692 133898 XOR\n2 1 133898 133867 76900 XOR\n2 1 80228 133867 58800 XOR\n2 1 58800 58801 58799 AND\n2 1 58799 133867 133868 XOR\n2 1 78693 133868 58804 XOR\n2 1 77124 133991 58981 XOR\n2 1 58980 58981 58979 AND\n2 1 58979 133991 133992 XOR\n2 1 81765 133992 58983 XOR\n2 1 78916 135169 60691 XOR\n2 1 60690 60691 60689 AND\n2 1 60689 135169 135170 XOR\n2 1 80453 135170 60693 XOR\n2 1 83524 135231 60780 XOR\n2 1 499 135231 60781 XOR\n2 1 60780 60781 60779 AND\n2 1 60779 135231 135232 XOR\n",
"2 1 135263 135232 78917 XOR\n2 1 80453 78917 135201 XOR\n2 1 135201 135170 77125 XOR\n2 1 77125 3764 122342 XOR\n2 1 122342 122311 95242 XOR\n2 1 97290 95242 122280 XOR\n2 1 122280 122249 93205 XOR\n1 1 93205 40607 INV\n2 1 40607 122224 91205 XOR\n2 1 93205 122224 40572 XOR\n2 1 40572 40573 40571 AND\n2 1 40571 122224 40575 XOR\n2 1 95242 122249 40672 XOR\n2 1 40671 40672 40670 AND\n2 1 40670 122249 122250 XOR\n2 1 97291 122250 40674 XOR\n2 1 77125 122311 40761 XOR\n2 1 40761 40762 40760 AND\n2 1 40760 122311 122312 XOR\n2 1 3765 122312 40765 XOR\n2 1 4212 91205 108284 XOR\n2 1 83013 77125 132287 XOR\n2 1 132287 132256 78405 XOR\n2 1 77125 132256 56464 XOR\n2 1 56463 56464 56462 AND\n2 1 56462 132256 132257 XOR\n2 1 83014 132257 56466 XOR\n2 1 81765 77125 134023 XOR\n2 1 134023 133992 80229 XOR\n2 1 80229 78693 133899 XOR\n2 1 133899 133868 76901 XOR\n2 1 80229 133868 58803 XOR\n2 1 58803 58804 58802 AND\n2 1 58802 133868 133869 XOR\n2 1 78694 133869 58807 XOR\n2 1 77125 133992 58984 XOR\n2 1 58983 58984 58982 AND\n2 1 58982 133992 133993 XOR\n2 1 81766 133993 58986 XOR\n2 1 78917 135170 60694 XOR\n2 1 60693 60694 60692 AND\n2 1 60692 135170 135171 XOR\n2 1 80454 135171 60696 XOR\n2 1 83525 135232 60783 XOR\n2 1 500 135232 60784 XOR\n2 1 60783 60784 60782 AND\n2 1 60782 135232 135233 XOR\n2 1 135264 135233 78918 XOR\n2 1 80454 78918 135202 XOR\n2 1 135202 135171 77126 XOR\n2 1 77126 3765 122343 XOR\n2 1 122343 122312 95243 XOR\n2 1 97291 95243 122281 XOR\n2 1 122281 122250 93206 XOR\n2 1 93206 40575 91206 XOR\n2 1 91206 40575 40574 AND\n2 1 40574 40575 40577 XOR\n2 1 95243 122250 40675 XOR\n2 1 40674 40675 40673 AND\n2 1 40673 122250 122251 XOR\n2 1 97292 122251 40677 XOR\n2 1 77126 122312 40764 XOR\n2 1 40764 40765 40763 AND\n2 1 40763 122312 122313 XOR\n2 1 3766 122313 40768 XOR\n2 1 4213 91206 108285 XOR\n2 1 91206 85062 108347 XOR\n2 1 83014 77126 132288 XOR\n2 1 132288 132257 78406 XOR\n2 1 77126 132257 56467 XOR\n2 1 56466 56467 56465 AND\n2 1 56465 132257 132258 XOR\n2 1 83015 132258 56469 XOR\n2 1 81766 77126 134024 XOR\n2 1 134024 133993 80230 XOR\n2 1 80230 78694 133900 XOR\n2 1 133900 133869 76902 XOR\n2 1 80230 133869 58806 XOR\n2 1 58806 58807 58805 AND\n2 1 58805 133869 133870 XOR\n2 1 78695 133870 58810 XOR\n2 1 77126 133993 58987 XOR\n2 1 58986 58987 58985 AND\n2 1 58985 133993 133994 XOR\n2 1 81767 133994 58989 XOR\n2 1 78918 135171 60697 XOR\n2 1 60696 60697 60695 AND\n2 1 60695 135171 135172 XOR\n2 1 80455 135172 60699 XOR\n2 1 83526 135233 60786 XOR\n2 1 501 135233 60787 XOR\n2 1 60786 60787 60785 AND\n2 1 60785 135233 135234 XOR\n2 1 135265 135234 78919 XOR\n2 1 80455 78919 135203 XOR\n2 1 135203 135172 77127 XOR\n2 1 77127 3766 122344 XOR\n2 1 122344 122313 95244 XOR\n2 1 97292 95244 122282 XOR\n2 1 122282 122251 93207 XOR\n2 1 93207 40577 91207 XOR\n2 1 91207 40577 40576 AND\n2 1 40576 40577 122225 XOR\n1 1 122225 40580 INV\n2 1 95244 122251 40678 XOR\n2 1 40677 40678 40676 AND\n2 1 40676 122251 122252 XOR\n2 1 97293 122252 40680 XOR\n2 1 77127 122313 40767 XOR\n2 1 40767 40768 40766 AND\n2 1 40766 122313 122314 XOR\n2 1 3767 122314 40771 XOR\n2 1 4214 91207 108286 XOR\n2 1 83015 77127 132289 XOR\n2 1 132289 132258 78407 XOR\n2 1 77127 132258 56470 XOR\n2 1 56469 56470 56468 AND\n2 1 56468 132258 132259 XOR\n2 1 83016 132259 56472 XOR\n2 1 81767 77127 134025 XOR\n2 1 134025 133994 80231 XOR\n2 1 80231 78695 133901 XOR\n2 1 133901 133870 76903 XOR\n2 1 80231 133870 58809 XOR\n2 1 58809 58810 58808 AND\n2 1 58808 133870 133871 XOR\n2 1 78696 133871 58813 XOR\n2 1 77127 133994 58990 XOR\n",
"2 1 58989 58990 58988 AND\n2 1 58988 133994 133995 XOR\n2 1 81768 133995 58992 XOR\n2 1 78919 135172 60700 XOR\n2 1 60699 60700 60698 AND\n2 1 60698 135172 135173 XOR\n2 1 80456 135173 60702 XOR\n2 1 83527 135234 60789 XOR\n2 1 502 135234 60790 XOR\n2 1 60789 60790 60788 AND\n2 1 60788 135234 135235 XOR\n2 1 135266 135235 78920 XOR\n2 1 80456 78920 135204 XOR\n2 1 135204 135173 77128 XOR\n2 1 77128 3767 122345 XOR\n2 1 122345 122314 95245 XOR\n2 1 97293 95245 122283 XOR\n2 1 122283 122252 93208 XOR\n1 1 93208 40608 INV\n2 1 40608 122225 91208 XOR\n2 1 93208 122225 40579 XOR\n2 1 40579 40580 40578 AND\n2 1 40578 122225 40582 XOR\n2 1 95245 122252 40681 XOR\n2 1 40680 40681 40679 AND\n2 1 40679 122252 122253 XOR\n2 1 97294 122253 40683 XOR\n2 1 77128 122314 40770 XOR\n2 1 40770 40771 40769 AND\n2 1 40769 122314 122315 XOR\n2 1 3768 122315 40774 XOR\n2 1 4215 91208 108287 XOR\n2 1 91208 85064 108349 XOR\n2 1 83016 77128 132290 XOR\n2 1 132290 132259 78408 XOR\n2 1 77128 132259 56473 XOR\n2 1 56472 56473 56471 AND\n2 1 56471 132259 132260 XOR\n2 1 83017 132260 56475 XOR\n2 1 81768 77128 134026 XOR\n2 1 134026 133995 80232 XOR\n2 1 80232 78696 133902 XOR\n2 1 133902 133871 76904 XOR\n2 1 80232 133871 58812 XOR\n2 1 58812 58813 58811 AND\n2 1 58811 133871 133872 XOR\n2 1 78697 133872 58816 XOR\n2 1 77128 133995 58993 XOR\n2 1 58992 58993 58991 AND\n2 1 58991 133995 133996 XOR\n2 1 81769 133996 58995 XOR\n2 1 78920 135173 60703 XOR\n2 1 60702 60703 60701 AND\n2 1 60701 135173 135174 XOR\n2 1 80457 135174 60705 XOR\n2 1 83528 135235 60792 XOR\n2 1 503 135235 60793 XOR\n2 1 60792 60793 60791 AND\n2 1 60791 135235 135236 XOR\n2 1 135267 135236 78921 XOR\n2 1 80457 78921 135205 XOR\n2 1 135205 135174 77129 XOR\n2 1 77129 3768 122346 XOR\n2 1 122346 122315 95246 XOR\n2 1 97294 95246 122284 XOR\n2 1 122284 122253 93209 XOR\n2 1 93209 40582 91209 XOR\n2 1 91209 40582 40581 AND\n2 1 40581 40582 40584 XOR\n2 1 95246 122253 40684 XOR\n2 1 40683 40684 40682 AND\n2 1 40682 122253 122254 XOR\n2 1 97295 122254 40686 XOR\n2 1 77129 122315 40773 XOR\n2 1 40773 40774 40772 AND\n2 1 40772 122315 122316 XOR\n2 1 3769 122316 40777 XOR\n2 1 4216 91209 108288 XOR\n2 1 83017 77129 132291 XOR\n2 1 132291 132260 78409 XOR\n2 1 77129 132260 56476 XOR\n2 1 56475 56476 56474 AND\n2 1 56474 132260 132261 XOR\n2 1 83018 132261 56478 XOR\n2 1 81769 77129 134027 XOR\n2 1 134027 133996 80233 XOR\n2 1 80233 78697 133903 XOR\n2 1 133903 133872 76905 XOR\n2 1 80233 133872 58815 XOR\n2 1 58815 58816 58814 AND\n2 1 58814 133872 133873 XOR\n2 1 78698 133873 58819 XOR\n2 1 77129 133996 58996 XOR\n2 1 58995 58996 58994 AND\n2 1 58994 133996 133997 XOR\n2 1 81770 133997 58998 XOR\n2 1 78921 135174 60706 XOR\n2 1 60705 60706 60704 AND\n2 1 60704 135174 135175 XOR\n2 1 80458 135175 60708 XOR\n2 1 83529 135236 60795 XOR\n2 1 504 135236 60796 XOR\n2 1 60795 60796 60794 AND\n2 1 60794 135236 135237 XOR\n2 1 135268 135237 78922 XOR\n2 1 80458 78922 135206 XOR\n2 1 135206 135175 77130 XOR\n2 1 77130 3769 122347 XOR\n2 1 122347 122316 95247 XOR\n2 1 97295 95247 122285 XOR\n2 1 122285 122254 93210 XOR\n2 1 93210 40584 91210 XOR\n2 1 91210 40584 40583 AND\n2 1 40583 40584 122226 XOR\n1 1 122226 40587 INV\n2 1 95247 122254 40687 XOR\n2 1 40686 40687 40685 AND\n2 1 40685 122254 122255 XOR\n2 1 97296 122255 40689 XOR\n2 1 77130 122316 40776 XOR\n2 1 40776 40777 40775 AND\n2 1 40775 122316 122317 XOR\n2 1 3770 122317 40780 XOR\n2 1 4217 91210 108289 XOR\n2 1 91210 85066 108351 XOR\n2 1 83018 77130 132292 XOR\n2 1 132292 132261 78410 XOR\n2 1 77130 132261 56479 XOR\n",
"2 1 56478 56479 56477 AND\n2 1 56477 132261 132262 XOR\n2 1 83019 132262 56481 XOR\n2 1 81770 77130 134028 XOR\n2 1 134028 133997 80234 XOR\n2 1 80234 78698 133904 XOR\n2 1 133904 133873 76906 XOR\n2 1 80234 133873 58818 XOR\n2 1 58818 58819 58817 AND\n2 1 58817 133873 133874 XOR\n2 1 78699 133874 58822 XOR\n2 1 77130 133997 58999 XOR\n2 1 58998 58999 58997 AND\n2 1 58997 133997 133998 XOR\n2 1 81771 133998 59001 XOR\n2 1 78922 135175 60709 XOR\n2 1 60708 60709 60707 AND\n2 1 60707 135175 135176 XOR\n2 1 80459 135176 60711 XOR\n2 1 83530 135237 60798 XOR\n2 1 505 135237 60799 XOR\n2 1 60798 60799 60797 AND\n2 1 60797 135237 135238 XOR\n2 1 135269 135238 78923 XOR\n2 1 80459 78923 135207 XOR\n2 1 135207 135176 77131 XOR\n2 1 77131 3770 122348 XOR\n2 1 122348 122317 95248 XOR\n2 1 97296 95248 122286 XOR\n2 1 122286 122255 93211 XOR\n1 1 93211 40609 INV\n2 1 40609 122226 91211 XOR\n2 1 93211 122226 40586 XOR\n2 1 40586 40587 40585 AND\n2 1 40585 122226 40589 XOR\n2 1 95248 122255 40690 XOR\n2 1 40689 40690 40688 AND\n2 1 40688 122255 122256 XOR\n2 1 97297 122256 40692 XOR\n2 1 77131 122317 40779 XOR\n2 1 40779 40780 40778 AND\n2 1 40778 122317 122318 XOR\n2 1 3771 122318 40783 XOR\n2 1 4218 91211 108290 XOR\n2 1 83019 77131 132293 XOR\n2 1 132293 132262 78411 XOR\n2 1 77131 132262 56482 XOR\n2 1 56481 56482 56480 AND\n2 1 56480 132262 132263 XOR\n2 1 83020 132263 56484 XOR\n2 1 81771 77131 134029 XOR\n2 1 134029 133998 80235 XOR\n2 1 80235 78699 133905 XOR\n2 1 133905 133874 76907 XOR\n2 1 80235 133874 58821 XOR\n2 1 58821 58822 58820 AND\n2 1 58820 133874 133875 XOR\n2 1 78700 133875 58825 XOR\n2 1 77131 133998 59002 XOR\n2 1 59001 59002 59000 AND\n2 1 59000 133998 133999 XOR\n2 1 81772 133999 59004 XOR\n2 1 78923 135176 60712 XOR\n2 1 60711 60712 60710 AND\n2 1 60710 135176 135177 XOR\n2 1 80460 135177 60714 XOR\n2 1 83531 135238 60801 XOR\n2 1 506 135238 60802 XOR\n2 1 60801 60802 60800 AND\n2 1 60800 135238 135239 XOR\n2 1 135270 135239 78924 XOR\n2 1 80460 78924 135208 XOR\n2 1 135208 135177 77132 XOR\n2 1 77132 3771 122349 XOR\n2 1 122349 122318 95249 XOR\n2 1 97297 95249 122287 XOR\n2 1 122287 122256 93212 XOR\n2 1 93212 40589 91212 XOR\n2 1 91212 40589 40588 AND\n2 1 40588 40589 40591 XOR\n2 1 95249 122256 40693 XOR\n2 1 40692 40693 40691 AND\n2 1 40691 122256 122257 XOR\n2 1 97298 122257 40695 XOR\n2 1 77132 122318 40782 XOR\n2 1 40782 40783 40781 AND\n2 1 40781 122318 122319 XOR\n2 1 3772 122319 40786 XOR\n2 1 4219 91212 108291 XOR\n2 1 91212 85068 108353 XOR\n2 1 83020 77132 132294 XOR\n2 1 132294 132263 78412 XOR\n2 1 77132 132263 56485 XOR\n2 1 56484 56485 56483 AND\n2 1 56483 132263 132264 XOR\n2 1 83021 132264 56487 XOR\n2 1 81772 77132 134030 XOR\n2 1 134030 133999 80236 XOR\n2 1 80236 78700 133906 XOR\n2 1 133906 133875 76908 XOR\n2 1 80236 133875 58824 XOR\n2 1 58824 58825 58823 AND\n2 1 58823 133875 133876 XOR\n2 1 78701 133876 58828 XOR\n2 1 77132 133999 59005 XOR\n2 1 59004 59005 59003 AND\n2 1 59003 133999 134000 XOR\n2 1 81773 134000 59007 XOR\n2 1 78924 135177 60715 XOR\n2 1 60714 60715 60713 AND\n2 1 60713 135177 135178 XOR\n2 1 80461 135178 60717 XOR\n2 1 83532 135239 60804 XOR\n2 1 507 135239 60805 XOR\n2 1 60804 60805 60803 AND\n2 1 60803 135239 135240 XOR\n2 1 135271 135240 78925 XOR\n2 1 80461 78925 135209 XOR\n2 1 135209 135178 77133 XOR\n2 1 77133 3772 122350 XOR\n2 1 122350 122319 95250 XOR\n2 1 97298 95250 122288 XOR\n2 1 122288 122257 93213 XOR\n2 1 93213 40591 91213 XOR\n2 1 91213 40591 40590 AND\n2 1 40590 40591 122227 XOR\n1 1 122227 40594 INV\n2 1 95250 122257 40696 XOR\n",
"2 1 40695 40696 40694 AND\n2 1 40694 122257 122258 XOR\n2 1 97299 122258 40698 XOR\n2 1 77133 122319 40785 XOR\n2 1 40785 40786 40784 AND\n2 1 40784 122319 122320 XOR\n2 1 3773 122320 40789 XOR\n2 1 4220 91213 108292 XOR\n2 1 83021 77133 132295 XOR\n2 1 132295 132264 78413 XOR\n2 1 77133 132264 56488 XOR\n2 1 56487 56488 56486 AND\n2 1 56486 132264 132265 XOR\n2 1 83022 132265 56490 XOR\n2 1 81773 77133 134031 XOR\n2 1 134031 134000 80237 XOR\n2 1 80237 78701 133907 XOR\n2 1 133907 133876 76909 XOR\n2 1 80237 133876 58827 XOR\n2 1 58827 58828 58826 AND\n2 1 58826 133876 133877 XOR\n2 1 78702 133877 58831 XOR\n2 1 77133 134000 59008 XOR\n2 1 59007 59008 59006 AND\n2 1 59006 134000 134001 XOR\n2 1 81774 134001 59010 XOR\n2 1 78925 135178 60718 XOR\n2 1 60717 60718 60716 AND\n2 1 60716 135178 135179 XOR\n2 1 80462 135179 60720 XOR\n2 1 83533 135240 60807 XOR\n2 1 508 135240 60808 XOR\n2 1 60807 60808 60806 AND\n2 1 60806 135240 135241 XOR\n2 1 135272 135241 78926 XOR\n2 1 80462 78926 135210 XOR\n2 1 135210 135179 77134 XOR\n2 1 77134 3773 122351 XOR\n2 1 122351 122320 95251 XOR\n2 1 97299 95251 122289 XOR\n2 1 122289 122258 93214 XOR\n1 1 93214 40610 INV\n2 1 40610 122227 91214 XOR\n2 1 93214 122227 40593 XOR\n2 1 40593 40594 40592 AND\n2 1 40592 122227 122228 XOR\n1 1 122228 40597 INV\n2 1 95251 122258 40699 XOR\n2 1 40698 40699 40697 AND\n2 1 40697 122258 122259 XOR\n2 1 97300 122259 40701 XOR\n2 1 77134 122320 40788 XOR\n2 1 40788 40789 40787 AND\n2 1 40787 122320 122321 XOR\n2 1 3774 122321 40792 XOR\n2 1 4221 91214 108293 XOR\n2 1 91214 85070 108355 XOR\n2 1 83022 77134 132296 XOR\n2 1 132296 132265 78414 XOR\n2 1 77134 132265 56491 XOR\n2 1 56490 56491 56489 AND\n2 1 56489 132265 132266 XOR\n2 1 83023 132266 56493 XOR\n2 1 81774 77134 134032 XOR\n2 1 134032 134001 80238 XOR\n2 1 80238 78702 133908 XOR\n2 1 133908 133877 76910 XOR\n2 1 80238 133877 58830 XOR\n2 1 58830 58831 58829 AND\n2 1 58829 133877 133878 XOR\n2 1 78703 133878 58834 XOR\n2 1 77134 134001 59011 XOR\n2 1 59010 59011 59009 AND\n2 1 59009 134001 134002 XOR\n2 1 81775 134002 59013 XOR\n2 1 78926 135179 60721 XOR\n2 1 60720 60721 60719 AND\n2 1 60719 135179 135180 XOR\n2 1 80463 135180 60723 XOR\n2 1 83534 135241 60810 XOR\n2 1 509 135241 60811 XOR\n2 1 60810 60811 60809 AND\n2 1 60809 135241 135242 XOR\n2 1 135273 135242 78927 XOR\n2 1 80463 78927 135211 XOR\n2 1 135211 135180 77135 XOR\n2 1 77135 3774 122352 XOR\n2 1 122352 122321 95252 XOR\n2 1 97300 95252 122290 XOR\n2 1 122290 122259 93215 XOR\n1 1 93215 40611 INV\n2 1 40611 122228 91215 XOR\n2 1 93215 122228 40596 XOR\n2 1 40596 40597 40595 AND\n2 1 40595 122228 122229 XOR\n2 1 95252 122259 40702 XOR\n2 1 40701 40702 40700 AND\n2 1 40700 122259 122260 XOR\n2 1 77135 122321 40791 XOR\n2 1 40791 40792 40790 AND\n2 1 40790 122321 122322 XOR\n2 1 4222 91215 108294 XOR\n2 1 83023 77135 132297 XOR\n2 1 132297 132266 78415 XOR\n2 1 77135 132266 56494 XOR\n2 1 56493 56494 56492 AND\n2 1 56492 132266 132267 XOR\n2 1 81775 77135 134033 XOR\n2 1 134033 134002 80239 XOR\n2 1 80239 78703 133909 XOR\n2 1 133909 133878 76911 XOR\n2 1 80239 133878 58833 XOR\n2 1 58833 58834 58832 AND\n2 1 58832 133878 133879 XOR\n2 1 77135 134002 59014 XOR\n2 1 59013 59014 59012 AND\n2 1 59012 134002 134003 XOR\n2 1 78927 135180 60724 XOR\n2 1 60723 60724 60722 AND\n2 1 60722 135180 135181 XOR\n2 1 83535 135242 60813 XOR\n2 1 510 135242 60814 XOR\n2 1 60813 60814 60812 AND\n2 1 60812 135242 135243 XOR\n2 1 135274 135243 78928 XOR\n2 1 80464 78928 135212 XOR\n2 1 135212 135181 77136 XOR\n2 1 77136 3775 122353 XOR\n",
"2 1 122353 122322 95253 XOR\n2 1 97301 95253 122291 XOR\n2 1 122291 122260 93216 XOR\n1 1 93216 40612 INV\n2 1 40612 122229 91216 XOR\n2 1 4223 91216 108295 XOR\n2 1 91216 85072 108357 XOR\n2 1 83024 77136 132298 XOR\n2 1 132298 132267 78416 XOR\n2 1 81776 77136 134034 XOR\n2 1 134034 134003 80240 XOR\n2 1 80240 78704 133910 XOR\n2 1 133910 133879 76912 XOR\n2 1 108267 108236 3619 XOR\n2 1 4195 108236 16243 XOR\n2 1 91188 108236 16244 XOR\n2 1 16243 16244 16242 AND\n2 1 16242 108236 108237 XOR\n2 1 108268 108237 3620 XOR\n2 1 4196 108237 16246 XOR\n2 1 91189 108237 16247 XOR\n2 1 16246 16247 16245 AND\n2 1 16245 108237 108238 XOR\n2 1 108269 108238 3621 XOR\n2 1 4197 108238 16249 XOR\n2 1 91190 108238 16250 XOR\n2 1 16249 16250 16248 AND\n2 1 16248 108238 108239 XOR\n2 1 108270 108239 3622 XOR\n2 1 4198 108239 16252 XOR\n2 1 91191 108239 16253 XOR\n2 1 16252 16253 16251 AND\n2 1 16251 108239 108240 XOR\n2 1 108271 108240 3623 XOR\n2 1 4199 108240 16255 XOR\n2 1 91192 108240 16256 XOR\n2 1 16255 16256 16254 AND\n2 1 16254 108240 108241 XOR\n2 1 108272 108241 3624 XOR\n2 1 4200 108241 16258 XOR\n2 1 91193 108241 16259 XOR\n2 1 16258 16259 16257 AND\n2 1 16257 108241 108242 XOR\n2 1 108273 108242 3625 XOR\n2 1 4201 108242 16261 XOR\n2 1 91194 108242 16262 XOR\n2 1 16261 16262 16260 AND\n2 1 16260 108242 108243 XOR\n2 1 108274 108243 3626 XOR\n2 1 4202 108243 16264 XOR\n2 1 91195 108243 16265 XOR\n2 1 16264 16265 16263 AND\n2 1 16263 108243 108244 XOR\n2 1 108275 108244 3627 XOR\n2 1 4203 108244 16267 XOR\n2 1 91196 108244 16268 XOR\n2 1 16267 16268 16266 AND\n2 1 16266 108244 108245 XOR\n2 1 108276 108245 3628 XOR\n2 1 4204 108245 16270 XOR\n2 1 91197 108245 16271 XOR\n2 1 16270 16271 16269 AND\n2 1 16269 108245 108246 XOR\n2 1 108277 108246 3629 XOR\n2 1 4205 108246 16273 XOR\n2 1 91198 108246 16274 XOR\n2 1 16273 16274 16272 AND\n2 1 16272 108246 108247 XOR\n2 1 108278 108247 3630 XOR\n2 1 4206 108247 16276 XOR\n2 1 91199 108247 16277 XOR\n2 1 16276 16277 16275 AND\n2 1 16275 108247 108248 XOR\n2 1 108279 108248 3631 XOR\n2 1 4207 108248 16279 XOR\n2 1 91200 108248 16280 XOR\n2 1 16279 16280 16278 AND\n2 1 16278 108248 108249 XOR\n2 1 108280 108249 3632 XOR\n2 1 4208 108249 16282 XOR\n2 1 91201 108249 16283 XOR\n2 1 16282 16283 16281 AND\n2 1 16281 108249 108250 XOR\n2 1 108281 108250 3633 XOR\n2 1 4209 108250 16285 XOR\n2 1 91202 108250 16286 XOR\n2 1 16285 16286 16284 AND\n2 1 16284 108250 108251 XOR\n2 1 108282 108251 3634 XOR\n2 1 4210 108251 16288 XOR\n2 1 91203 108251 16289 XOR\n2 1 16288 16289 16287 AND\n2 1 16287 108251 108252 XOR\n2 1 108283 108252 3635 XOR\n2 1 4211 108252 16291 XOR\n2 1 91204 108252 16292 XOR\n2 1 16291 16292 16290 AND\n2 1 16290 108252 108253 XOR\n2 1 108284 108253 3636 XOR\n2 1 4212 108253 16294 XOR\n2 1 91205 108253 16295 XOR\n2 1 16294 16295 16293 AND\n2 1 16293 108253 108254 XOR\n2 1 108285 108254 3637 XOR\n2 1 4213 108254 16297 XOR\n2 1 91206 108254 16298 XOR\n2 1 16297 16298 16296 AND\n2 1 16296 108254 108255 XOR\n2 1 108286 108255 3638 XOR\n2 1 65829 3638 65797 AND\n2 1 65828 3637 65796 AND\n2 1 65827 3636 65795 AND\n2 1 65826 3635 65794 AND\n2 1 65825 3634 65793 AND\n2 1 65824 3633 65792 AND\n2 1 65823 3632 65791 AND\n2 1 65822 3631 65790 AND\n2 1 65821 3630 65789 AND\n2 1 65820 3629 65788 AND\n2 1 65819 3628 65787 AND\n2 1 65818 3627 65786 AND\n2 1 65817 3626 65785 AND\n2 1 65816 3625 65784 AND\n2 1 65815 3624 65783 AND\n2 1 65814 3623 65782 AND\n2 1 65813 3622 65781 AND\n2 1 65812 3621 65780 AND\n2 1 65811 3620 65779 AND\n",
"2 1 65810 3619 65778 AND\n2 1 65809 3618 65777 AND\n2 1 65808 3617 65776 AND\n2 1 65807 3616 65775 AND\n2 1 65797 3702 99308 XOR\n2 1 65796 3701 99307 XOR\n2 1 65795 3700 99306 XOR\n2 1 65794 3699 99305 XOR\n2 1 65793 3698 99304 XOR\n2 1 65792 3697 99303 XOR\n2 1 65791 3696 99302 XOR\n2 1 65790 3695 99301 XOR\n2 1 65789 3694 99300 XOR\n2 1 65788 3693 99299 XOR\n2 1 65787 3692 99298 XOR\n2 1 65786 3691 99297 XOR\n2 1 65785 3690 99296 XOR\n2 1 65784 3689 99295 XOR\n2 1 65783 3688 99294 XOR\n2 1 65782 3687 99293 XOR\n2 1 65781 3686 99292 XOR\n2 1 65780 3685 99291 XOR\n2 1 65779 3684 99290 XOR\n2 1 65778 3683 99289 XOR\n2 1 65777 3682 99288 XOR\n2 1 65776 3681 99287 XOR\n2 1 65775 3680 99286 XOR\n2 1 3638 3670 65765 XOR\n2 1 3637 3669 65764 XOR\n2 1 3636 3668 65763 XOR\n2 1 3635 3667 65762 XOR\n2 1 3634 3666 65761 XOR\n2 1 3633 3665 65760 XOR\n2 1 3632 3664 65759 XOR\n2 1 3631 3663 65758 XOR\n2 1 3630 3662 65757 XOR\n2 1 3629 3661 65756 XOR\n2 1 3628 3660 65755 XOR\n2 1 3627 3659 65754 XOR\n2 1 3626 3658 65753 XOR\n2 1 3625 3657 65752 XOR\n2 1 3624 3656 65751 XOR\n2 1 3623 3655 65750 XOR\n2 1 3622 3654 65749 XOR\n2 1 3621 3653 65748 XOR\n2 1 3620 3652 65747 XOR\n2 1 3619 3651 65746 XOR\n2 1 3618 3650 65745 XOR\n2 1 3617 3649 65744 XOR\n2 1 3616 3648 65743 XOR\n2 1 4214 108255 16300 XOR\n2 1 91207 108255 16301 XOR\n2 1 16300 16301 16299 AND\n2 1 16299 108255 108256 XOR\n2 1 108287 108256 3639 XOR\n2 1 65830 3639 65798 AND\n2 1 65798 3703 99309 XOR\n2 1 3639 3671 65766 XOR\n2 1 4215 108256 16303 XOR\n2 1 91208 108256 16304 XOR\n2 1 16303 16304 16302 AND\n2 1 16302 108256 108257 XOR\n2 1 108288 108257 3640 XOR\n2 1 65831 3640 65799 AND\n2 1 65799 3704 99310 XOR\n2 1 3640 3672 65767 XOR\n2 1 4216 108257 16306 XOR\n2 1 91209 108257 16307 XOR\n2 1 16306 16307 16305 AND\n2 1 16305 108257 108258 XOR\n2 1 108289 108258 3641 XOR\n2 1 65832 3641 65800 AND\n2 1 65800 3705 99311 XOR\n2 1 3641 3673 65768 XOR\n2 1 4217 108258 16309 XOR\n2 1 91210 108258 16310 XOR\n2 1 16309 16310 16308 AND\n2 1 16308 108258 108259 XOR\n2 1 108290 108259 3642 XOR\n2 1 65833 3642 65801 AND\n2 1 65801 3706 99312 XOR\n2 1 3642 3674 65769 XOR\n2 1 4218 108259 16312 XOR\n2 1 91211 108259 16313 XOR\n2 1 16312 16313 16311 AND\n2 1 16311 108259 108260 XOR\n2 1 108291 108260 3643 XOR\n2 1 65834 3643 65802 AND\n2 1 65802 3707 99313 XOR\n2 1 3643 3675 65770 XOR\n2 1 4219 108260 16315 XOR\n2 1 91212 108260 16316 XOR\n2 1 16315 16316 16314 AND\n2 1 16314 108260 108261 XOR\n2 1 91213 108261 16319 XOR\n2 1 108292 108261 3644 XOR\n2 1 65835 3644 65803 AND\n2 1 65803 3708 99314 XOR\n2 1 3644 3676 65771 XOR\n2 1 4220 108261 16318 XOR\n2 1 16318 16319 16317 AND\n2 1 16317 108261 108262 XOR\n2 1 4221 108262 16321 XOR\n2 1 108293 108262 3645 XOR\n2 1 65836 3645 65804 AND\n2 1 65804 3709 99315 XOR\n2 1 3645 3677 65772 XOR\n2 1 91214 108262 16322 XOR\n2 1 16321 16322 16320 AND\n2 1 16320 108262 108263 XOR\n2 1 91215 108263 16325 XOR\n2 1 108294 108263 3646 XOR\n2 1 65837 3646 65805 AND\n2 1 65805 3710 99316 XOR\n2 1 3646 3678 65773 XOR\n2 1 4222 108263 16324 XOR\n2 1 16324 16325 16323 AND\n2 1 16323 108263 108264 XOR\n2 1 108295 108264 3647 XOR\n2 1 65838 3647 65806 AND\n2 1 65806 3711 99317 XOR\n2 1 3647 3679 65774 XOR\n2 1 91185 85041 3104 XOR\n2 1 3104 3168 73231 XOR\n2 1 73231 73199 73167 AND\n2 1 73167 3168 87057 XOR\n2 1 3104 3136 73103 XOR\n2 1 91187 85043 108328 XOR\n",
"2 1 91189 85045 108330 XOR\n2 1 91191 85047 108332 XOR\n2 1 91193 85049 108334 XOR\n2 1 91195 85051 108336 XOR\n2 1 91197 85053 108338 XOR\n2 1 91199 85055 108340 XOR\n2 1 91201 85057 108342 XOR\n2 1 91203 85059 108344 XOR\n2 1 91205 85061 108346 XOR\n2 1 91207 85063 108348 XOR\n2 1 91209 85065 108350 XOR\n2 1 91211 85067 108352 XOR\n2 1 91213 85069 108354 XOR\n2 1 91215 85071 108356 XOR\n2 1 108327 108296 3105 XOR\n2 1 3105 3169 73232 XOR\n2 1 73232 73200 73168 AND\n2 1 73168 3169 87058 XOR\n2 1 3105 3137 73104 XOR\n2 1 85042 108296 16328 XOR\n2 1 16327 16328 16326 AND\n2 1 16326 108296 108297 XOR\n2 1 85043 108297 16331 XOR\n2 1 108328 108297 3106 XOR\n2 1 3106 3170 73233 XOR\n2 1 73233 73201 73169 AND\n2 1 73169 3170 87059 XOR\n2 1 3106 3138 73105 XOR\n2 1 91187 108297 16330 XOR\n2 1 16330 16331 16329 AND\n2 1 16329 108297 108298 XOR\n2 1 91188 108298 16333 XOR\n2 1 108329 108298 3107 XOR\n2 1 3107 3171 73234 XOR\n2 1 73234 73202 73170 AND\n2 1 73170 3171 87060 XOR\n2 1 3107 3139 73106 XOR\n2 1 85044 108298 16334 XOR\n2 1 16333 16334 16332 AND\n2 1 16332 108298 108299 XOR\n2 1 85045 108299 16337 XOR\n2 1 91189 108299 16336 XOR\n2 1 16336 16337 16335 AND\n2 1 108330 108299 3108 XOR\n2 1 3108 3172 73235 XOR\n2 1 73235 73203 73171 AND\n2 1 73171 3172 87061 XOR\n2 1 3108 3140 73107 XOR\n2 1 16335 108299 108300 XOR\n2 1 91190 108300 16339 XOR\n2 1 108331 108300 3109 XOR\n2 1 3109 3173 73236 XOR\n2 1 73236 73204 73172 AND\n2 1 73172 3173 87062 XOR\n2 1 3109 3141 73108 XOR\n2 1 85046 108300 16340 XOR\n2 1 16339 16340 16338 AND\n2 1 16338 108300 108301 XOR\n2 1 85047 108301 16343 XOR\n2 1 91191 108301 16342 XOR\n2 1 108332 108301 3110 XOR\n2 1 16342 16343 16341 AND\n2 1 16341 108301 108302 XOR\n2 1 108333 108302 3111 XOR\n2 1 85048 108302 16346 XOR\n2 1 91192 108302 16345 XOR\n2 1 16345 16346 16344 AND\n2 1 16344 108302 108303 XOR\n2 1 85049 108303 16349 XOR\n2 1 91193 108303 16348 XOR\n2 1 16348 16349 16347 AND\n2 1 16347 108303 108304 XOR\n2 1 108335 108304 3113 XOR\n2 1 85050 108304 16352 XOR\n2 1 91194 108304 16351 XOR\n2 1 16351 16352 16350 AND\n2 1 16350 108304 108305 XOR\n2 1 91195 108305 16354 XOR\n2 1 108336 108305 3114 XOR\n2 1 85051 108305 16355 XOR\n2 1 16354 16355 16353 AND\n2 1 16353 108305 108306 XOR\n2 1 108337 108306 3115 XOR\n2 1 85052 108306 16358 XOR\n2 1 91196 108306 16357 XOR\n2 1 16357 16358 16356 AND\n2 1 16356 108306 108307 XOR\n2 1 108338 108307 3116 XOR\n2 1 91197 108307 16360 XOR\n2 1 108334 108303 3112 XOR\n2 1 85053 108307 16361 XOR\n2 1 16360 16361 16359 AND\n2 1 16359 108307 108308 XOR\n2 1 108339 108308 3117 XOR\n2 1 91198 108308 16363 XOR\n2 1 85054 108308 16364 XOR\n2 1 16363 16364 16362 AND\n2 1 16362 108308 108309 XOR\n2 1 91199 108309 16366 XOR\n2 1 85055 108309 16367 XOR\n2 1 108340 108309 3118 XOR\n2 1 16366 16367 16365 AND\n2 1 16365 108309 108310 XOR\n2 1 85056 108310 16370 XOR\n2 1 91200 108310 16369 XOR\n2 1 16369 16370 16368 AND\n2 1 16368 108310 108311 XOR\n2 1 91201 108311 16372 XOR\n2 1 85057 108311 16373 XOR\n2 1 16372 16373 16371 AND\n2 1 16371 108311 108312 XOR\n2 1 91202 108312 16375 XOR\n2 1 85058 108312 16376 XOR\n2 1 108343 108312 3121 XOR\n2 1 16375 16376 16374 AND\n2 1 16374 108312 108313 XOR\n2 1 108344 108313 3122 XOR\n2 1 91203 108313 16378 XOR\n2 1 108342 108311 3120 XOR\n2 1 108341 108310 3119 XOR\n2 1 85059 108313 16379 XOR\n2 1 16378 16379 16377 AND\n2 1 16377 108313 108314 XOR\n2 1 108345 108314 3123 XOR\n2 1 85060 108314 16382 XOR\n2 1 91204 108314 16381 XOR\n2 1 16381 16382 16380 AND\n2 1 16380 108314 108315 XOR\n",
"2 1 108346 108315 3124 XOR\n2 1 85061 108315 16385 XOR\n2 1 91205 108315 16384 XOR\n2 1 16384 16385 16383 AND\n2 1 16383 108315 108316 XOR\n2 1 85062 108316 16388 XOR\n2 1 91206 108316 16387 XOR\n2 1 16387 16388 16386 AND\n2 1 16386 108316 108317 XOR\n2 1 85063 108317 16391 XOR\n2 1 108348 108317 3126 XOR\n2 1 91207 108317 16390 XOR\n2 1 16390 16391 16389 AND\n2 1 16389 108317 108318 XOR\n2 1 91208 108318 16393 XOR\n2 1 85064 108318 16394 XOR\n2 1 16393 16394 16392 AND\n2 1 16392 108318 108319 XOR\n2 1 85065 108319 16397 XOR\n2 1 91209 108319 16396 XOR\n2 1 16396 16397 16395 AND\n2 1 16395 108319 108320 XOR\n2 1 108351 108320 3129 XOR\n2 1 108349 108318 3127 XOR\n2 1 108350 108319 3128 XOR\n2 1 85066 108320 16400 XOR\n2 1 91210 108320 16399 XOR\n2 1 16399 16400 16398 AND\n2 1 16398 108320 108321 XOR\n2 1 108352 108321 3130 XOR\n2 1 91211 108321 16402 XOR\n2 1 108347 108316 3125 XOR\n2 1 85067 108321 16403 XOR\n2 1 16402 16403 16401 AND\n2 1 16401 108321 108322 XOR\n2 1 85068 108322 16406 XOR\n2 1 108353 108322 3131 XOR\n2 1 91212 108322 16405 XOR\n2 1 16405 16406 16404 AND\n2 1 16404 108322 108323 XOR\n2 1 91213 108323 16408 XOR\n2 1 85069 108323 16409 XOR\n2 1 16408 16409 16407 AND\n2 1 16407 108323 108324 XOR\n2 1 108355 108324 3133 XOR\n2 1 91214 108324 16411 XOR\n2 1 85070 108324 16412 XOR\n2 1 16411 16412 16410 AND\n2 1 16410 108324 108325 XOR\n2 1 85071 108325 16415 XOR\n2 1 91215 108325 16414 XOR\n2 1 108356 108325 3134 XOR\n2 1 16414 16415 16413 AND\n2 1 16413 108325 108326 XOR\n2 1 108357 108326 3135 XOR\n2 1 108354 108323 3132 XOR\n2 1 3135 3199 73262 XOR\n2 1 3134 3198 73261 XOR\n2 1 3133 3197 73260 XOR\n2 1 3132 3196 73259 XOR\n2 1 3131 3195 73258 XOR\n2 1 3130 3194 73257 XOR\n2 1 3129 3193 73256 XOR\n2 1 3128 3192 73255 XOR\n2 1 3127 3191 73254 XOR\n2 1 3126 3190 73253 XOR\n2 1 3125 3189 73252 XOR\n2 1 3124 3188 73251 XOR\n2 1 3123 3187 73250 XOR\n2 1 3122 3186 73249 XOR\n2 1 3121 3185 73248 XOR\n2 1 3120 3184 73247 XOR\n2 1 3119 3183 73246 XOR\n2 1 3118 3182 73245 XOR\n2 1 3117 3181 73244 XOR\n2 1 3116 3180 73243 XOR\n2 1 3115 3179 73242 XOR\n2 1 3114 3178 73241 XOR\n2 1 3113 3177 73240 XOR\n2 1 3112 3176 73239 XOR\n2 1 3111 3175 73238 XOR\n2 1 3110 3174 73237 XOR\n2 1 73262 73230 73198 AND\n2 1 73261 73229 73197 AND\n2 1 73260 73228 73196 AND\n2 1 73259 73227 73195 AND\n2 1 73258 73226 73194 AND\n2 1 73257 73225 73193 AND\n2 1 73256 73224 73192 AND\n2 1 73255 73223 73191 AND\n2 1 73254 73222 73190 AND\n2 1 73253 73221 73189 AND\n2 1 73252 73220 73188 AND\n2 1 73251 73219 73187 AND\n2 1 73250 73218 73186 AND\n2 1 73249 73217 73185 AND\n2 1 73248 73216 73184 AND\n2 1 73247 73215 73183 AND\n2 1 73246 73214 73182 AND\n2 1 73245 73213 73181 AND\n2 1 73244 73212 73180 AND\n2 1 73243 73211 73179 AND\n2 1 73242 73210 73178 AND\n2 1 73241 73209 73177 AND\n2 1 73240 73208 73176 AND\n2 1 73239 73207 73175 AND\n2 1 73238 73206 73174 AND\n2 1 73237 73205 73173 AND\n2 1 73198 3199 87088 XOR\n2 1 73197 3198 87087 XOR\n2 1 73196 3197 87086 XOR\n2 1 73195 3196 87085 XOR\n2 1 73194 3195 87084 XOR\n2 1 73193 3194 87083 XOR\n2 1 73192 3193 87082 XOR\n2 1 73191 3192 87081 XOR\n2 1 73190 3191 87080 XOR\n2 1 73189 3190 87079 XOR\n2 1 73188 3189 87078 XOR\n2 1 73187 3188 87077 XOR\n2 1 73186 3187 87076 XOR\n2 1 73185 3186 87075 XOR\n2 1 73184 3185 87074 XOR\n2 1 73183 3184 87073 XOR\n2 1 73182 3183 87072 XOR\n2 1 73181 3182 87071 XOR\n2 1 73180 3181 87070 XOR\n2 1 73179 3180 87069 XOR\n",
"2 1 73178 3179 87068 XOR\n2 1 73177 3178 87067 XOR\n2 1 73176 3177 87066 XOR\n2 1 73175 3176 87065 XOR\n2 1 73174 3175 87064 XOR\n2 1 73173 3174 87063 XOR\n2 1 3135 3167 73134 XOR\n2 1 3134 3166 73133 XOR\n2 1 3133 3165 73132 XOR\n2 1 3132 3164 73131 XOR\n2 1 3131 3163 73130 XOR\n2 1 3130 3162 73129 XOR\n2 1 3129 3161 73128 XOR\n2 1 3128 3160 73127 XOR\n2 1 3127 3159 73126 XOR\n2 1 3126 3158 73125 XOR\n2 1 3125 3157 73124 XOR\n2 1 3124 3156 73123 XOR\n2 1 3123 3155 73122 XOR\n2 1 3122 3154 73121 XOR\n2 1 3121 3153 73120 XOR\n2 1 3120 3152 73119 XOR\n2 1 3119 3151 73118 XOR\n2 1 3118 3150 73117 XOR\n2 1 3117 3149 73116 XOR\n2 1 3116 3148 73115 XOR\n2 1 3115 3147 73114 XOR\n2 1 3114 3146 73113 XOR\n2 1 3113 3145 73112 XOR\n2 1 3112 3144 73111 XOR\n2 1 3111 3143 73110 XOR\n2 1 3110 3142 73109 XOR\n2 1 3105 3116 68238 XOR\n2 1 3104 3115 68237 XOR\n2 1 3135 3114 68236 XOR\n2 1 3134 3113 68235 XOR\n2 1 3133 3112 68234 XOR\n2 1 3132 3111 68233 XOR\n2 1 3131 3110 68232 XOR\n2 1 3130 3109 68231 XOR\n2 1 3129 3108 68230 XOR\n2 1 3128 3107 68229 XOR\n2 1 3127 3106 68228 XOR\n2 1 3126 3105 68227 XOR\n2 1 3125 3104 68226 XOR\n2 1 3124 3135 68225 XOR\n2 1 3123 3134 68224 XOR\n2 1 3122 3133 68223 XOR\n2 1 3121 3132 68222 XOR\n2 1 3120 3131 68221 XOR\n2 1 3119 3130 68220 XOR\n2 1 3118 3129 68219 XOR\n2 1 3117 3128 68218 XOR\n2 1 3116 3127 68217 XOR\n2 1 3115 3126 68216 XOR\n2 1 3114 3125 68215 XOR\n2 1 3113 3124 68214 XOR\n2 1 3112 3123 68213 XOR\n2 1 3111 3122 68212 XOR\n2 1 3110 3121 68211 XOR\n2 1 3109 3120 68210 XOR\n2 1 3108 3119 68209 XOR\n2 1 3107 3118 68208 XOR\n2 1 3106 3117 68207 XOR\n2 1 68238 3125 89136 XOR\n2 1 89136 87088 121966 XOR\n2 1 68237 3124 89135 XOR\n2 1 89135 87087 121965 XOR\n2 1 68236 3123 89134 XOR\n2 1 89134 87086 121964 XOR\n2 1 68235 3122 89133 XOR\n2 1 89133 87085 121963 XOR\n2 1 68234 3121 89132 XOR\n2 1 89132 87084 121962 XOR\n2 1 68233 3120 89131 XOR\n2 1 89131 87083 121961 XOR\n2 1 68232 3119 89130 XOR\n2 1 89130 87082 121960 XOR\n2 1 68231 3118 89129 XOR\n2 1 89129 87081 121959 XOR\n2 1 68230 3117 89128 XOR\n2 1 89128 87080 121958 XOR\n2 1 68229 3116 89127 XOR\n2 1 89127 87079 121957 XOR\n2 1 68228 3115 89126 XOR\n2 1 89126 87078 121956 XOR\n2 1 68227 3114 89125 XOR\n2 1 89125 87077 121955 XOR\n2 1 68226 3113 89124 XOR\n2 1 89124 87076 121954 XOR\n2 1 68225 3112 89123 XOR\n2 1 89123 87075 121953 XOR\n2 1 68224 3111 89122 XOR\n2 1 89122 87074 121952 XOR\n2 1 68223 3110 89121 XOR\n2 1 89121 87073 121951 XOR\n2 1 68222 3109 89120 XOR\n2 1 89120 87072 121950 XOR\n2 1 68221 3108 89119 XOR\n2 1 89119 87071 121949 XOR\n2 1 68220 3107 89118 XOR\n2 1 89118 87070 121948 XOR\n2 1 68219 3106 89117 XOR\n2 1 89117 87069 121947 XOR\n2 1 68218 3105 89116 XOR\n2 1 89116 87068 121946 XOR\n2 1 68217 3104 89115 XOR\n2 1 89115 87067 121945 XOR\n2 1 68216 3135 89114 XOR\n2 1 89114 87066 121944 XOR\n2 1 68215 3134 89113 XOR\n2 1 89113 87065 121943 XOR\n2 1 68214 3133 89112 XOR\n2 1 89112 87064 121942 XOR\n2 1 68213 3132 89111 XOR\n2 1 89111 87063 121941 XOR\n2 1 68212 3131 89110 XOR\n2 1 89110 87062 121940 XOR\n2 1 68211 3130 89109 XOR\n2 1 89109 87061 121939 XOR\n2 1 68210 3129 89108 XOR\n2 1 89108 87060 121938 XOR\n2 1 68209 3128 89107 XOR\n2 1 89107 87059 121937 XOR\n2 1 68208 3127 89106 XOR\n2 1 89106 87058 121936 XOR\n2 1 68207 3126 89105 XOR\n2 1 89105 87057 121905 AND\n",
"2 1 89105 87057 85009 XOR\n2 1 121936 121905 85010 XOR\n2 1 89106 121905 39964 XOR\n2 1 87058 121905 39965 XOR\n2 1 39964 39965 39963 AND\n2 1 39963 121905 121906 XOR\n2 1 121937 121906 85011 XOR\n2 1 89107 121906 39967 XOR\n2 1 87059 121906 39968 XOR\n2 1 39967 39968 39966 AND\n2 1 39966 121906 121907 XOR\n2 1 121938 121907 85012 XOR\n2 1 89108 121907 39970 XOR\n2 1 87060 121907 39971 XOR\n2 1 39970 39971 39969 AND\n2 1 39969 121907 121908 XOR\n2 1 121939 121908 85013 XOR\n2 1 89109 121908 39973 XOR\n2 1 87061 121908 39974 XOR\n2 1 39973 39974 39972 AND\n2 1 39972 121908 121909 XOR\n2 1 121940 121909 85014 XOR\n2 1 89110 121909 39976 XOR\n2 1 87062 121909 39977 XOR\n2 1 39976 39977 39975 AND\n2 1 39975 121909 121910 XOR\n2 1 121941 121910 85015 XOR\n2 1 89111 121910 39979 XOR\n2 1 87063 121910 39980 XOR\n2 1 39979 39980 39978 AND\n2 1 39978 121910 121911 XOR\n2 1 121942 121911 85016 XOR\n2 1 89112 121911 39982 XOR\n2 1 87064 121911 39983 XOR\n2 1 39982 39983 39981 AND\n2 1 39981 121911 121912 XOR\n2 1 121943 121912 85017 XOR\n2 1 89113 121912 39985 XOR\n2 1 87065 121912 39986 XOR\n2 1 39985 39986 39984 AND\n2 1 39984 121912 121913 XOR\n2 1 121944 121913 85018 XOR\n2 1 89114 121913 39988 XOR\n2 1 87066 121913 39989 XOR\n2 1 39988 39989 39987 AND\n2 1 39987 121913 121914 XOR\n2 1 121945 121914 85019 XOR\n2 1 89115 121914 39991 XOR\n2 1 87067 121914 39992 XOR\n2 1 39991 39992 39990 AND\n2 1 39990 121914 121915 XOR\n2 1 121946 121915 85020 XOR\n2 1 89116 121915 39994 XOR\n2 1 87068 121915 39995 XOR\n2 1 39994 39995 39993 AND\n2 1 39993 121915 121916 XOR\n2 1 121947 121916 85021 XOR\n2 1 89117 121916 39997 XOR\n2 1 87069 121916 39998 XOR\n2 1 39997 39998 39996 AND\n2 1 39996 121916 121917 XOR\n2 1 121948 121917 85022 XOR\n2 1 89118 121917 40000 XOR\n2 1 87070 121917 40001 XOR\n2 1 40000 40001 39999 AND\n2 1 39999 121917 121918 XOR\n2 1 121949 121918 85023 XOR\n2 1 89119 121918 40003 XOR\n2 1 87071 121918 40004 XOR\n2 1 40003 40004 40002 AND\n2 1 40002 121918 121919 XOR\n2 1 121950 121919 85024 XOR\n2 1 89120 121919 40006 XOR\n2 1 87072 121919 40007 XOR\n2 1 40006 40007 40005 AND\n2 1 40005 121919 121920 XOR\n2 1 121951 121920 85025 XOR\n2 1 89121 121920 40009 XOR\n2 1 87073 121920 40010 XOR\n2 1 40009 40010 40008 AND\n2 1 40008 121920 121921 XOR\n2 1 121952 121921 85026 XOR\n2 1 89122 121921 40012 XOR\n2 1 87074 121921 40013 XOR\n2 1 40012 40013 40011 AND\n2 1 40011 121921 121922 XOR\n2 1 121953 121922 85027 XOR\n2 1 89123 121922 40015 XOR\n2 1 87075 121922 40016 XOR\n2 1 40015 40016 40014 AND\n2 1 40014 121922 121923 XOR\n2 1 121954 121923 85028 XOR\n2 1 89124 121923 40018 XOR\n2 1 87076 121923 40019 XOR\n2 1 40018 40019 40017 AND\n2 1 40017 121923 121924 XOR\n2 1 121955 121924 85029 XOR\n2 1 89125 121924 40021 XOR\n2 1 87077 121924 40022 XOR\n2 1 40021 40022 40020 AND\n2 1 40020 121924 121925 XOR\n2 1 121956 121925 85030 XOR\n2 1 89126 121925 40024 XOR\n2 1 87078 121925 40025 XOR\n2 1 40024 40025 40023 AND\n2 1 40023 121925 121926 XOR\n2 1 121957 121926 85031 XOR\n2 1 89127 121926 40027 XOR\n2 1 87079 121926 40028 XOR\n2 1 40027 40028 40026 AND\n2 1 40026 121926 121927 XOR\n2 1 121958 121927 85032 XOR\n2 1 89128 121927 40030 XOR\n2 1 87080 121927 40031 XOR\n2 1 40030 40031 40029 AND\n2 1 40029 121927 121928 XOR\n2 1 121959 121928 85033 XOR\n2 1 89129 121928 40033 XOR\n2 1 87081 121928 40034 XOR\n2 1 40033 40034 40032 AND\n2 1 40032 121928 121929 XOR\n2 1 121960 121929 85034 XOR\n2 1 89130 121929 40036 XOR\n2 1 87082 121929 40037 XOR\n2 1 40036 40037 40035 AND\n2 1 40035 121929 121930 XOR\n2 1 121961 121930 85035 XOR\n2 1 89131 121930 40039 XOR\n",
"2 1 87083 121930 40040 XOR\n2 1 40039 40040 40038 AND\n2 1 40038 121930 121931 XOR\n2 1 121962 121931 85036 XOR\n2 1 89132 121931 40042 XOR\n2 1 87084 121931 40043 XOR\n2 1 40042 40043 40041 AND\n2 1 40041 121931 121932 XOR\n2 1 121963 121932 85037 XOR\n2 1 89133 121932 40045 XOR\n2 1 87085 121932 40046 XOR\n2 1 40045 40046 40044 AND\n2 1 40044 121932 121933 XOR\n2 1 121964 121933 85038 XOR\n2 1 89134 121933 40048 XOR\n2 1 87086 121933 40049 XOR\n2 1 40048 40049 40047 AND\n2 1 40047 121933 121934 XOR\n2 1 121965 121934 85039 XOR\n2 1 89135 121934 40051 XOR\n2 1 87087 121934 40052 XOR\n2 1 40051 40052 40050 AND\n2 1 40050 121934 121935 XOR\n2 1 121966 121935 85040 XOR\n2 1 3621 3626 62318 XOR\n2 1 3620 3625 62317 XOR\n2 1 3619 3624 62316 XOR\n2 1 3618 3623 62315 XOR\n2 1 3617 3622 62314 XOR\n2 1 3616 3621 62313 XOR\n2 1 3647 3620 62312 XOR\n2 1 3646 3619 62311 XOR\n2 1 3645 3618 62310 XOR\n2 1 3644 3617 62309 XOR\n2 1 3643 3616 62308 XOR\n2 1 3642 3647 62307 XOR\n2 1 3641 3646 62306 XOR\n2 1 3640 3645 62305 XOR\n2 1 3639 3644 62304 XOR\n2 1 3638 3643 62303 XOR\n2 1 3637 3642 62302 XOR\n2 1 3636 3641 62301 XOR\n2 1 3635 3640 62300 XOR\n2 1 3634 3639 62299 XOR\n2 1 3633 3638 62298 XOR\n2 1 3632 3637 62297 XOR\n2 1 3631 3636 62296 XOR\n2 1 3630 3635 62295 XOR\n2 1 3629 3634 62294 XOR\n2 1 3628 3633 62293 XOR\n2 1 3627 3632 62292 XOR\n2 1 3626 3631 62291 XOR\n2 1 3625 3630 62290 XOR\n2 1 3624 3629 62289 XOR\n2 1 3623 3628 62288 XOR\n2 1 3622 3627 62287 XOR\n2 1 62318 3640 101365 XOR\n2 1 101365 99317 122152 XOR\n2 1 62317 3639 101364 XOR\n2 1 101364 99316 122151 XOR\n2 1 62316 3638 101363 XOR\n2 1 101363 99315 122150 XOR\n2 1 62315 3637 101362 XOR\n2 1 101362 99314 122149 XOR\n2 1 62314 3636 101361 XOR\n2 1 101361 99313 122148 XOR\n2 1 62313 3635 101360 XOR\n2 1 101360 99312 122147 XOR\n2 1 62312 3634 101359 XOR\n2 1 101359 99311 122146 XOR\n2 1 62311 3633 101358 XOR\n2 1 101358 99310 122145 XOR\n2 1 62310 3632 101357 XOR\n2 1 101357 99309 122144 XOR\n2 1 62309 3631 101356 XOR\n2 1 101356 99308 122143 XOR\n2 1 62308 3630 101355 XOR\n2 1 101355 99307 122142 XOR\n2 1 62307 3629 101354 XOR\n2 1 101354 99306 122141 XOR\n2 1 62306 3628 101353 XOR\n2 1 101353 99305 122140 XOR\n2 1 62305 3627 101352 XOR\n2 1 101352 99304 122139 XOR\n2 1 62304 3626 101351 XOR\n2 1 101351 99303 122138 XOR\n2 1 62303 3625 101350 XOR\n2 1 101350 99302 122137 XOR\n2 1 62302 3624 101349 XOR\n2 1 101349 99301 122136 XOR\n2 1 62301 3623 101348 XOR\n2 1 101348 99300 122135 XOR\n2 1 62300 3622 101347 XOR\n2 1 101347 99299 122134 XOR\n2 1 62299 3621 101346 XOR\n2 1 101346 99298 122133 XOR\n2 1 62298 3620 101345 XOR\n2 1 101345 99297 122132 XOR\n2 1 62297 3619 101344 XOR\n2 1 101344 99296 122131 XOR\n2 1 62296 3618 101343 XOR\n2 1 101343 99295 122130 XOR\n2 1 62295 3617 101342 XOR\n2 1 101342 99294 122129 XOR\n2 1 62294 3616 101341 XOR\n2 1 101341 99293 122128 XOR\n2 1 62293 3647 101340 XOR\n2 1 101340 99292 122127 XOR\n2 1 62292 3646 101339 XOR\n2 1 101339 99291 122126 XOR\n2 1 62291 3645 101338 XOR\n2 1 101338 99290 122125 XOR\n2 1 62290 3644 101337 XOR\n2 1 101337 99289 122124 XOR\n2 1 62289 3643 101336 XOR\n2 1 101336 99288 122123 XOR\n2 1 62288 3642 101335 XOR\n2 1 101335 99287 122122 XOR\n2 1 62287 3641 101334 XOR\n2 1 101334 99286 122091 AND\n2 1 101334 99286 97238 XOR\n2 1 97238 95190 121967 AND\n2 1 97238 95190 91153 XOR\n2 1 95191 121967 40167 XOR\n2 1 122122 122091 97239 XOR\n2 1 97239 95191 121998 XOR\n2 1 121998 121967 93154 XOR\n1 1 93154 91154 INV\n",
"2 1 97239 121967 40166 XOR\n2 1 40166 40167 40165 AND\n2 1 40165 121967 121968 XOR\n2 1 95192 121968 40170 XOR\n2 1 101335 122091 40346 XOR\n2 1 99287 122091 40347 XOR\n2 1 40346 40347 40345 AND\n2 1 40345 122091 122092 XOR\n2 1 122123 122092 97240 XOR\n2 1 97240 95192 121999 XOR\n2 1 121999 121968 93155 XOR\n1 1 93155 40146 INV\n2 1 40146 93154 91155 XOR\n2 1 93155 93154 40054 XOR\n2 1 40054 91154 40053 AND\n2 1 40053 93154 40056 XOR\n2 1 97240 121968 40169 XOR\n2 1 40169 40170 40168 AND\n2 1 40168 121968 121969 XOR\n2 1 95193 121969 40173 XOR\n2 1 101336 122092 40349 XOR\n2 1 99288 122092 40350 XOR\n2 1 40349 40350 40348 AND\n2 1 40348 122092 122093 XOR\n2 1 122124 122093 97241 XOR\n2 1 97241 95193 122000 XOR\n2 1 122000 121969 93156 XOR\n2 1 93156 40056 91156 XOR\n2 1 91156 40056 40055 AND\n2 1 40055 40056 40058 XOR\n2 1 97241 121969 40172 XOR\n2 1 40172 40173 40171 AND\n2 1 40171 121969 121970 XOR\n2 1 95194 121970 40176 XOR\n2 1 101337 122093 40352 XOR\n2 1 99289 122093 40353 XOR\n2 1 40352 40353 40351 AND\n2 1 40351 122093 122094 XOR\n2 1 122125 122094 97242 XOR\n2 1 97242 95194 122001 XOR\n2 1 122001 121970 93157 XOR\n2 1 93157 40058 91157 XOR\n2 1 91157 40058 40057 AND\n2 1 40057 40058 40060 XOR\n2 1 97242 121970 40175 XOR\n2 1 40175 40176 40174 AND\n2 1 40174 121970 121971 XOR\n2 1 95195 121971 40179 XOR\n2 1 101338 122094 40355 XOR\n2 1 99290 122094 40356 XOR\n2 1 40355 40356 40354 AND\n2 1 40354 122094 122095 XOR\n2 1 122126 122095 97243 XOR\n2 1 97243 95195 122002 XOR\n2 1 122002 121971 93158 XOR\n2 1 93158 40060 91158 XOR\n2 1 91158 40060 40059 AND\n2 1 40059 40060 40062 XOR\n2 1 97243 121971 40178 XOR\n2 1 40178 40179 40177 AND\n2 1 40177 121971 121972 XOR\n2 1 95196 121972 40182 XOR\n2 1 101339 122095 40358 XOR\n2 1 99291 122095 40359 XOR\n2 1 40358 40359 40357 AND\n2 1 40357 122095 122096 XOR\n2 1 122127 122096 97244 XOR\n2 1 97244 95196 122003 XOR\n2 1 122003 121972 93159 XOR\n2 1 93159 40062 91159 XOR\n2 1 91159 40062 40061 AND\n2 1 40061 40062 40128 XOR\n1 1 40128 40065 INV\n2 1 97244 121972 40181 XOR\n2 1 40181 40182 40180 AND\n2 1 40180 121972 121973 XOR\n2 1 95197 121973 40185 XOR\n2 1 101340 122096 40361 XOR\n2 1 99292 122096 40362 XOR\n2 1 40361 40362 40360 AND\n2 1 40360 122096 122097 XOR\n2 1 122128 122097 97245 XOR\n2 1 97245 95197 122004 XOR\n2 1 122004 121973 93160 XOR\n1 1 93160 40147 INV\n2 1 40147 40128 91160 XOR\n2 1 93160 40128 40064 XOR\n2 1 40064 40065 40063 AND\n2 1 40063 40128 40129 XOR\n1 1 40129 40068 INV\n2 1 97245 121973 40184 XOR\n2 1 40184 40185 40183 AND\n2 1 40183 121973 121974 XOR\n2 1 95198 121974 40188 XOR\n2 1 101341 122097 40364 XOR\n2 1 99293 122097 40365 XOR\n2 1 40364 40365 40363 AND\n2 1 40363 122097 122098 XOR\n2 1 122129 122098 97246 XOR\n2 1 97246 95198 122005 XOR\n2 1 122005 121974 93161 XOR\n1 1 93161 40148 INV\n2 1 40148 40129 91161 XOR\n2 1 93161 40129 40067 XOR\n2 1 40067 40068 40066 AND\n2 1 40066 40129 40130 XOR\n1 1 40130 40071 INV\n2 1 97246 121974 40187 XOR\n2 1 40187 40188 40186 AND\n2 1 40186 121974 121975 XOR\n2 1 95199 121975 40191 XOR\n2 1 101342 122098 40367 XOR\n2 1 99294 122098 40368 XOR\n2 1 40367 40368 40366 AND\n2 1 40366 122098 122099 XOR\n2 1 122130 122099 97247 XOR\n2 1 97247 95199 122006 XOR\n2 1 122006 121975 93162 XOR\n1 1 93162 40149 INV\n2 1 40149 40130 91162 XOR\n2 1 93162 40130 40070 XOR\n2 1 40070 40071 40069 AND\n2 1 40069 40130 40131 XOR\n1 1 40131 40074 INV\n2 1 97247 121975 40190 XOR\n2 1 40190 40191 40189 AND\n2 1 40189 121975 121976 XOR\n2 1 95200 121976 40194 XOR\n",
"2 1 101343 122099 40370 XOR\n2 1 99295 122099 40371 XOR\n2 1 40370 40371 40369 AND\n2 1 40369 122099 122100 XOR\n2 1 122131 122100 97248 XOR\n2 1 97248 95200 122007 XOR\n2 1 122007 121976 93163 XOR\n1 1 93163 40150 INV\n2 1 40150 40131 91163 XOR\n2 1 93163 40131 40073 XOR\n2 1 40073 40074 40072 AND\n2 1 40072 40131 40076 XOR\n2 1 97248 121976 40193 XOR\n2 1 40193 40194 40192 AND\n2 1 40192 121976 121977 XOR\n2 1 95201 121977 40197 XOR\n2 1 101344 122100 40373 XOR\n2 1 99296 122100 40374 XOR\n2 1 40373 40374 40372 AND\n2 1 40372 122100 122101 XOR\n2 1 122132 122101 97249 XOR\n2 1 97249 95201 122008 XOR\n2 1 122008 121977 93164 XOR\n2 1 93164 40076 91164 XOR\n2 1 91164 40076 40075 AND\n2 1 40075 40076 40078 XOR\n2 1 97249 121977 40196 XOR\n2 1 40196 40197 40195 AND\n2 1 40195 121977 121978 XOR\n2 1 95202 121978 40200 XOR\n2 1 101345 122101 40376 XOR\n2 1 99297 122101 40377 XOR\n2 1 40376 40377 40375 AND\n2 1 40375 122101 122102 XOR\n2 1 122133 122102 97250 XOR\n2 1 97250 95202 122009 XOR\n2 1 122009 121978 93165 XOR\n2 1 93165 40078 91165 XOR\n2 1 91165 40078 40077 AND\n2 1 40077 40078 40080 XOR\n2 1 97250 121978 40199 XOR\n2 1 40199 40200 40198 AND\n2 1 40198 121978 121979 XOR\n2 1 95203 121979 40203 XOR\n2 1 101346 122102 40379 XOR\n2 1 99298 122102 40380 XOR\n2 1 40379 40380 40378 AND\n2 1 40378 122102 122103 XOR\n2 1 122134 122103 97251 XOR\n2 1 97251 95203 122010 XOR\n2 1 122010 121979 93166 XOR\n2 1 93166 40080 91166 XOR\n2 1 91166 40080 40079 AND\n2 1 40079 40080 40132 XOR\n1 1 40132 40083 INV\n2 1 97251 121979 40202 XOR\n2 1 40202 40203 40201 AND\n2 1 40201 121979 121980 XOR\n2 1 95204 121980 40206 XOR\n2 1 101347 122103 40382 XOR\n2 1 99299 122103 40383 XOR\n2 1 40382 40383 40381 AND\n2 1 40381 122103 122104 XOR\n2 1 122135 122104 97252 XOR\n2 1 97252 95204 122011 XOR\n2 1 122011 121980 93167 XOR\n1 1 93167 40151 INV\n2 1 40151 40132 91167 XOR\n2 1 93167 40132 40082 XOR\n2 1 40082 40083 40081 AND\n2 1 40081 40132 40085 XOR\n2 1 97252 121980 40205 XOR\n2 1 40205 40206 40204 AND\n2 1 40204 121980 121981 XOR\n2 1 95205 121981 40209 XOR\n2 1 101348 122104 40385 XOR\n2 1 99300 122104 40386 XOR\n2 1 40385 40386 40384 AND\n2 1 40384 122104 122105 XOR\n2 1 122136 122105 97253 XOR\n2 1 97253 95205 122012 XOR\n2 1 122012 121981 93168 XOR\n2 1 93168 40085 91168 XOR\n2 1 91168 40085 40084 AND\n2 1 40084 40085 40087 XOR\n2 1 97253 121981 40208 XOR\n2 1 40208 40209 40207 AND\n2 1 40207 121981 121982 XOR\n2 1 95206 121982 40212 XOR\n2 1 101349 122105 40388 XOR\n2 1 99301 122105 40389 XOR\n2 1 40388 40389 40387 AND\n2 1 40387 122105 122106 XOR\n2 1 122137 122106 97254 XOR\n2 1 97254 95206 122013 XOR\n2 1 122013 121982 93169 XOR\n2 1 93169 40087 91169 XOR\n2 1 91169 40087 40086 AND\n2 1 40086 40087 40133 XOR\n1 1 40133 40090 INV\n2 1 97254 121982 40211 XOR\n2 1 40211 40212 40210 AND\n2 1 40210 121982 121983 XOR\n2 1 95207 121983 40215 XOR\n2 1 101350 122106 40391 XOR\n2 1 99302 122106 40392 XOR\n2 1 40391 40392 40390 AND\n2 1 40390 122106 122107 XOR\n2 1 122138 122107 97255 XOR\n2 1 97255 95207 122014 XOR\n2 1 122014 121983 93170 XOR\n1 1 93170 40152 INV\n2 1 40152 40133 91170 XOR\n2 1 93170 40133 40089 XOR\n2 1 40089 40090 40088 AND\n2 1 40088 40133 40134 XOR\n1 1 40134 40093 INV\n2 1 97255 121983 40214 XOR\n2 1 40214 40215 40213 AND\n2 1 40213 121983 121984 XOR\n2 1 95208 121984 40218 XOR\n2 1 101351 122107 40394 XOR\n2 1 99303 122107 40395 XOR\n2 1 40394 40395 40393 AND\n2 1 40393 122107 122108 XOR\n2 1 122139 122108 97256 XOR\n2 1 97256 95208 122015 XOR\n2 1 122015 121984 93171 XOR\n",
"1 1 93171 40153 INV\n2 1 40153 40134 91171 XOR\n2 1 93171 40134 40092 XOR\n2 1 40092 40093 40091 AND\n2 1 40091 40134 40135 XOR\n1 1 40135 40096 INV\n2 1 97256 121984 40217 XOR\n2 1 40217 40218 40216 AND\n2 1 40216 121984 121985 XOR\n2 1 95209 121985 40221 XOR\n2 1 101352 122108 40397 XOR\n2 1 99304 122108 40398 XOR\n2 1 40397 40398 40396 AND\n2 1 40396 122108 122109 XOR\n2 1 122140 122109 97257 XOR\n2 1 97257 95209 122016 XOR\n2 1 122016 121985 93172 XOR\n1 1 93172 40154 INV\n2 1 40154 40135 91172 XOR\n2 1 93172 40135 40095 XOR\n2 1 40095 40096 40094 AND\n2 1 40094 40135 40136 XOR\n1 1 40136 40099 INV\n2 1 97257 121985 40220 XOR\n2 1 40220 40221 40219 AND\n2 1 40219 121985 121986 XOR\n2 1 95210 121986 40224 XOR\n2 1 101353 122109 40400 XOR\n2 1 99305 122109 40401 XOR\n2 1 40400 40401 40399 AND\n2 1 40399 122109 122110 XOR\n2 1 122141 122110 97258 XOR\n2 1 97258 95210 122017 XOR\n2 1 122017 121986 93173 XOR\n1 1 93173 40155 INV\n2 1 40155 40136 91173 XOR\n2 1 93173 40136 40098 XOR\n2 1 40098 40099 40097 AND\n2 1 40097 40136 40137 XOR\n1 1 40137 40102 INV\n2 1 97258 121986 40223 XOR\n2 1 40223 40224 40222 AND\n2 1 40222 121986 121987 XOR\n2 1 95211 121987 40227 XOR\n2 1 101354 122110 40403 XOR\n2 1 99306 122110 40404 XOR\n2 1 40403 40404 40402 AND\n2 1 40402 122110 122111 XOR\n2 1 122142 122111 97259 XOR\n2 1 97259 95211 122018 XOR\n2 1 122018 121987 93174 XOR\n1 1 93174 40156 INV\n2 1 40156 40137 91174 XOR\n2 1 93174 40137 40101 XOR\n2 1 40101 40102 40100 AND\n2 1 40100 40137 40104 XOR\n2 1 97259 121987 40226 XOR\n2 1 40226 40227 40225 AND\n2 1 40225 121987 121988 XOR\n2 1 95212 121988 40230 XOR\n2 1 101355 122111 40406 XOR\n2 1 99307 122111 40407 XOR\n2 1 40406 40407 40405 AND\n2 1 40405 122111 122112 XOR\n2 1 122143 122112 97260 XOR\n2 1 97260 95212 122019 XOR\n2 1 122019 121988 93175 XOR\n2 1 93175 40104 91175 XOR\n2 1 91175 40104 40103 AND\n2 1 40103 40104 40138 XOR\n1 1 40138 40107 INV\n2 1 97260 121988 40229 XOR\n2 1 40229 40230 40228 AND\n2 1 40228 121988 121989 XOR\n2 1 95213 121989 40233 XOR\n2 1 101356 122112 40409 XOR\n2 1 99308 122112 40410 XOR\n2 1 40409 40410 40408 AND\n2 1 40408 122112 122113 XOR\n2 1 122144 122113 97261 XOR\n2 1 97261 95213 122020 XOR\n2 1 122020 121989 93176 XOR\n1 1 93176 40157 INV\n2 1 40157 40138 91176 XOR\n2 1 93176 40138 40106 XOR\n2 1 40106 40107 40105 AND\n2 1 40105 40138 40139 XOR\n1 1 40139 40110 INV\n2 1 97261 121989 40232 XOR\n2 1 40232 40233 40231 AND\n2 1 40231 121989 121990 XOR\n2 1 95214 121990 40236 XOR\n2 1 101357 122113 40412 XOR\n2 1 99309 122113 40413 XOR\n2 1 40412 40413 40411 AND\n2 1 40411 122113 122114 XOR\n2 1 122145 122114 97262 XOR\n2 1 97262 95214 122021 XOR\n2 1 122021 121990 93177 XOR\n1 1 93177 40158 INV\n2 1 40158 40139 91177 XOR\n2 1 93177 40139 40109 XOR\n2 1 40109 40110 40108 AND\n2 1 40108 40139 40140 XOR\n1 1 40140 40113 INV\n2 1 97262 121990 40235 XOR\n2 1 40235 40236 40234 AND\n2 1 40234 121990 121991 XOR\n2 1 95215 121991 40239 XOR\n2 1 101358 122114 40415 XOR\n2 1 99310 122114 40416 XOR\n2 1 40415 40416 40414 AND\n2 1 40414 122114 122115 XOR\n2 1 122146 122115 97263 XOR\n2 1 97263 95215 122022 XOR\n2 1 122022 121991 93178 XOR\n1 1 93178 40159 INV\n2 1 40159 40140 91178 XOR\n2 1 93178 40140 40112 XOR\n2 1 40112 40113 40111 AND\n2 1 40111 40140 40141 XOR\n1 1 40141 40116 INV\n2 1 97263 121991 40238 XOR\n2 1 40238 40239 40237 AND\n2 1 40237 121991 121992 XOR\n2 1 95216 121992 40242 XOR\n2 1 101359 122115 40418 XOR\n2 1 99311 122115 40419 XOR\n",
"2 1 40418 40419 40417 AND\n2 1 40417 122115 122116 XOR\n2 1 122147 122116 97264 XOR\n2 1 97264 95216 122023 XOR\n2 1 122023 121992 93179 XOR\n1 1 93179 40160 INV\n2 1 40160 40141 91179 XOR\n2 1 93179 40141 40115 XOR\n2 1 40115 40116 40114 AND\n2 1 40114 40141 40142 XOR\n1 1 40142 40119 INV\n2 1 97264 121992 40241 XOR\n2 1 40241 40242 40240 AND\n2 1 40240 121992 121993 XOR\n2 1 95217 121993 40245 XOR\n2 1 101360 122116 40421 XOR\n2 1 99312 122116 40422 XOR\n2 1 40421 40422 40420 AND\n2 1 40420 122116 122117 XOR\n2 1 122148 122117 97265 XOR\n2 1 97265 95217 122024 XOR\n2 1 122024 121993 93180 XOR\n1 1 93180 40161 INV\n2 1 40161 40142 91180 XOR\n2 1 93180 40142 40118 XOR\n2 1 40118 40119 40117 AND\n2 1 40117 40142 40121 XOR\n2 1 97265 121993 40244 XOR\n2 1 40244 40245 40243 AND\n2 1 40243 121993 121994 XOR\n2 1 95218 121994 40248 XOR\n2 1 101361 122117 40424 XOR\n2 1 99313 122117 40425 XOR\n2 1 40424 40425 40423 AND\n2 1 40423 122117 122118 XOR\n2 1 122149 122118 97266 XOR\n2 1 97266 95218 122025 XOR\n2 1 122025 121994 93181 XOR\n2 1 93181 40121 91181 XOR\n2 1 91181 40121 40120 AND\n2 1 40120 40121 40143 XOR\n1 1 40143 40124 INV\n2 1 97266 121994 40247 XOR\n2 1 40247 40248 40246 AND\n2 1 40246 121994 121995 XOR\n2 1 95219 121995 40251 XOR\n2 1 101362 122118 40427 XOR\n2 1 99314 122118 40428 XOR\n2 1 40427 40428 40426 AND\n2 1 40426 122118 122119 XOR\n2 1 122150 122119 97267 XOR\n2 1 97267 95219 122026 XOR\n2 1 122026 121995 93182 XOR\n1 1 93182 40162 INV\n2 1 40162 40143 91182 XOR\n2 1 93182 40143 40123 XOR\n2 1 40123 40124 40122 AND\n2 1 40122 40143 40144 XOR\n1 1 40144 40127 INV\n2 1 97267 121995 40250 XOR\n2 1 40250 40251 40249 AND\n2 1 40249 121995 121996 XOR\n2 1 95220 121996 40254 XOR\n2 1 101363 122119 40430 XOR\n2 1 99315 122119 40431 XOR\n2 1 40430 40431 40429 AND\n2 1 40429 122119 122120 XOR\n2 1 122151 122120 97268 XOR\n2 1 97268 95220 122027 XOR\n2 1 122027 121996 93183 XOR\n1 1 93183 40163 INV\n2 1 40163 40144 91183 XOR\n2 1 93183 40144 40126 XOR\n2 1 40126 40127 40125 AND\n2 1 40125 40144 40145 XOR\n2 1 97268 121996 40253 XOR\n2 1 40253 40254 40252 AND\n2 1 40252 121996 121997 XOR\n2 1 101364 122120 40433 XOR\n2 1 99316 122120 40434 XOR\n2 1 40433 40434 40432 AND\n2 1 40432 122120 122121 XOR\n2 1 122152 122121 97269 XOR\n2 1 97269 95221 122028 XOR\n2 1 122028 121997 93184 XOR\n1 1 93184 40164 INV\n2 1 40164 40145 91184 XOR\n2 1 4169 91162 108149 XOR\n2 1 4170 91163 108150 XOR\n2 1 4173 91166 108153 XOR\n2 1 4172 91165 108152 XOR\n2 1 4171 91164 108151 XOR\n2 1 4164 91157 108144 XOR\n2 1 4190 91183 108170 XOR\n2 1 4188 91181 108168 XOR\n2 1 4160 91153 108110 AND\n2 1 4162 91155 108142 XOR\n2 1 4163 91156 108143 XOR\n2 1 4160 91153 3584 XOR\n2 1 76945 3584 121037 AND\n2 1 76945 3584 95062 XOR\n2 1 76946 121037 38407 XOR\n2 1 4161 91154 108141 XOR\n2 1 108141 108110 3585 XOR\n2 1 76946 3585 121068 XOR\n2 1 121068 121037 95063 XOR\n2 1 3585 121037 38408 XOR\n2 1 38407 38408 38406 AND\n2 1 38406 121037 121038 XOR\n2 1 76947 121038 38410 XOR\n2 1 4189 91182 108169 XOR\n2 1 91184 85040 108233 XOR\n2 1 91182 85038 108231 XOR\n2 1 91180 85036 108229 XOR\n2 1 91178 85034 108227 XOR\n2 1 91176 85032 108225 XOR\n2 1 91174 85030 108223 XOR\n2 1 91172 85028 108221 XOR\n2 1 91170 85026 108219 XOR\n2 1 91168 85024 108217 XOR\n2 1 91166 85022 108215 XOR\n2 1 91164 85020 108213 XOR\n2 1 4176 91169 108156 XOR\n2 1 4175 91168 108155 XOR\n2 1 4174 91167 108154 XOR\n2 1 4187 91180 108167 XOR\n2 1 4185 91178 108165 XOR\n2 1 4179 91172 108159 XOR\n",
"2 1 4178 91171 108158 XOR\n2 1 4177 91170 108157 XOR\n2 1 4186 91179 108166 XOR\n2 1 4183 91176 108163 XOR\n2 1 4182 91175 108162 XOR\n2 1 4180 91173 108160 XOR\n2 1 4181 91174 108161 XOR\n2 1 4184 91177 108164 XOR\n2 1 4161 108110 16057 XOR\n2 1 91154 108110 16058 XOR\n2 1 16057 16058 16056 AND\n2 1 16056 108110 108111 XOR\n2 1 108142 108111 3586 XOR\n2 1 76947 3586 121069 XOR\n2 1 121069 121038 95064 XOR\n2 1 3586 121038 38411 XOR\n2 1 38410 38411 38409 AND\n2 1 38409 121038 121039 XOR\n2 1 76948 121039 38413 XOR\n2 1 4162 108111 16060 XOR\n2 1 91155 108111 16061 XOR\n2 1 16060 16061 16059 AND\n2 1 16059 108111 108112 XOR\n2 1 108143 108112 3587 XOR\n2 1 76948 3587 121070 XOR\n2 1 121070 121039 95065 XOR\n2 1 3587 121039 38414 XOR\n2 1 38413 38414 38412 AND\n2 1 38412 121039 121040 XOR\n2 1 76949 121040 38416 XOR\n2 1 4163 108112 16063 XOR\n2 1 91156 108112 16064 XOR\n2 1 16063 16064 16062 AND\n2 1 16062 108112 108113 XOR\n2 1 108144 108113 3588 XOR\n2 1 76949 3588 121071 XOR\n2 1 121071 121040 95066 XOR\n2 1 3588 121040 38417 XOR\n2 1 38416 38417 38415 AND\n2 1 38415 121040 121041 XOR\n2 1 76950 121041 38419 XOR\n2 1 4164 108113 16066 XOR\n2 1 91157 108113 16067 XOR\n2 1 16066 16067 16065 AND\n2 1 16065 108113 108114 XOR\n2 1 4165 108114 16069 XOR\n2 1 91158 108114 16070 XOR\n2 1 16069 16070 16068 AND\n2 1 16068 108114 108115 XOR\n2 1 4166 108115 16072 XOR\n2 1 91159 108115 16073 XOR\n2 1 16072 16073 16071 AND\n2 1 16071 108115 108116 XOR\n2 1 4167 108116 16075 XOR\n2 1 91160 108116 16076 XOR\n2 1 16075 16076 16074 AND\n2 1 16074 108116 108117 XOR\n2 1 4168 108117 16078 XOR\n2 1 91161 108117 16079 XOR\n2 1 16078 16079 16077 AND\n2 1 16077 108117 108118 XOR\n2 1 108149 108118 3593 XOR\n2 1 76954 3593 121076 XOR\n2 1 4169 108118 16081 XOR\n2 1 91162 108118 16082 XOR\n2 1 16081 16082 16080 AND\n2 1 16080 108118 108119 XOR\n2 1 108150 108119 3594 XOR\n2 1 76955 3594 121077 XOR\n2 1 4170 108119 16084 XOR\n2 1 91163 108119 16085 XOR\n2 1 16084 16085 16083 AND\n2 1 16083 108119 108120 XOR\n2 1 108151 108120 3595 XOR\n2 1 76956 3595 121078 XOR\n2 1 4171 108120 16087 XOR\n2 1 91164 108120 16088 XOR\n2 1 16087 16088 16086 AND\n2 1 16086 108120 108121 XOR\n2 1 108152 108121 3596 XOR\n2 1 76957 3596 121079 XOR\n2 1 4172 108121 16090 XOR\n2 1 91165 108121 16091 XOR\n2 1 16090 16091 16089 AND\n2 1 16089 108121 108122 XOR\n2 1 108153 108122 3597 XOR\n2 1 76958 3597 121080 XOR\n2 1 4173 108122 16093 XOR\n2 1 91166 108122 16094 XOR\n2 1 16093 16094 16092 AND\n2 1 16092 108122 108123 XOR\n2 1 108154 108123 3598 XOR\n2 1 76959 3598 121081 XOR\n2 1 4174 108123 16096 XOR\n2 1 91167 108123 16097 XOR\n2 1 16096 16097 16095 AND\n2 1 16095 108123 108124 XOR\n2 1 108155 108124 3599 XOR\n2 1 76960 3599 121082 XOR\n2 1 4175 108124 16099 XOR\n2 1 91168 108124 16100 XOR\n2 1 16099 16100 16098 AND\n2 1 16098 108124 108125 XOR\n2 1 108156 108125 3600 XOR\n2 1 76961 3600 121083 XOR\n2 1 4176 108125 16102 XOR\n2 1 91169 108125 16103 XOR\n2 1 16102 16103 16101 AND\n2 1 16101 108125 108126 XOR\n2 1 108157 108126 3601 XOR\n2 1 76962 3601 121084 XOR\n2 1 4177 108126 16105 XOR\n2 1 91170 108126 16106 XOR\n2 1 16105 16106 16104 AND\n2 1 16104 108126 108127 XOR\n2 1 108158 108127 3602 XOR\n2 1 76963 3602 121085 XOR\n2 1 4178 108127 16108 XOR\n2 1 91171 108127 16109 XOR\n2 1 16108 16109 16107 AND\n2 1 16107 108127 108128 XOR\n2 1 108159 108128 3603 XOR\n2 1 76964 3603 121086 XOR\n2 1 4179 108128 16111 XOR\n2 1 91172 108128 16112 XOR\n2 1 16111 16112 16110 AND\n2 1 16110 108128 108129 XOR\n2 1 108160 108129 3604 XOR\n",
"2 1 76965 3604 121087 XOR\n2 1 4180 108129 16114 XOR\n2 1 91173 108129 16115 XOR\n2 1 16114 16115 16113 AND\n2 1 16113 108129 108130 XOR\n2 1 108161 108130 3605 XOR\n2 1 76966 3605 121088 XOR\n2 1 4181 108130 16117 XOR\n2 1 91174 108130 16118 XOR\n2 1 16117 16118 16116 AND\n2 1 16116 108130 108131 XOR\n2 1 108162 108131 3606 XOR\n2 1 76967 3606 121089 XOR\n2 1 4182 108131 16120 XOR\n2 1 91175 108131 16121 XOR\n2 1 16120 16121 16119 AND\n2 1 16119 108131 108132 XOR\n2 1 108163 108132 3607 XOR\n2 1 76968 3607 121090 XOR\n2 1 4183 108132 16123 XOR\n2 1 91176 108132 16124 XOR\n2 1 16123 16124 16122 AND\n2 1 16122 108132 108133 XOR\n2 1 108164 108133 3608 XOR\n2 1 76969 3608 121091 XOR\n2 1 4184 108133 16126 XOR\n2 1 91177 108133 16127 XOR\n2 1 16126 16127 16125 AND\n2 1 16125 108133 108134 XOR\n2 1 108165 108134 3609 XOR\n2 1 76970 3609 121092 XOR\n2 1 4185 108134 16129 XOR\n2 1 91178 108134 16130 XOR\n2 1 16129 16130 16128 AND\n2 1 16128 108134 108135 XOR\n2 1 108166 108135 3610 XOR\n2 1 76971 3610 121093 XOR\n2 1 4186 108135 16132 XOR\n2 1 91179 108135 16133 XOR\n2 1 16132 16133 16131 AND\n2 1 16131 108135 108136 XOR\n2 1 4165 91158 108145 XOR\n2 1 108145 108114 3589 XOR\n2 1 76950 3589 121072 XOR\n2 1 121072 121041 95067 XOR\n2 1 3589 121041 38420 XOR\n2 1 38419 38420 38418 AND\n2 1 38418 121041 121042 XOR\n2 1 76951 121042 38422 XOR\n2 1 4168 91161 108148 XOR\n2 1 108148 108117 3592 XOR\n2 1 76953 3592 121075 XOR\n2 1 4167 91160 108147 XOR\n2 1 108147 108116 3591 XOR\n2 1 76952 3591 121074 XOR\n2 1 108167 108136 3611 XOR\n2 1 76972 3611 121094 XOR\n2 1 4187 108136 16135 XOR\n2 1 91180 108136 16136 XOR\n2 1 16135 16136 16134 AND\n2 1 16134 108136 108137 XOR\n2 1 108168 108137 3612 XOR\n2 1 76973 3612 121095 XOR\n2 1 4188 108137 16138 XOR\n2 1 91181 108137 16139 XOR\n2 1 16138 16139 16137 AND\n2 1 16137 108137 108138 XOR\n2 1 108169 108138 3613 XOR\n2 1 76974 3613 121096 XOR\n2 1 4189 108138 16141 XOR\n2 1 91182 108138 16142 XOR\n2 1 16141 16142 16140 AND\n2 1 16140 108138 108139 XOR\n2 1 108170 108139 3614 XOR\n2 1 76975 3614 121097 XOR\n2 1 4190 108139 16144 XOR\n2 1 91183 108139 16145 XOR\n2 1 16144 16145 16143 AND\n2 1 16143 108139 108140 XOR\n2 1 91153 85009 108172 AND\n2 1 91154 108172 16147 XOR\n2 1 91153 85009 3072 XOR\n2 1 3072 3136 73135 XOR\n2 1 73135 73103 73071 AND\n2 1 73071 3136 87025 XOR\n2 1 3072 3104 73007 XOR\n2 1 91154 85010 108203 XOR\n2 1 91155 85011 108204 XOR\n2 1 91156 85012 108205 XOR\n2 1 91157 85013 108206 XOR\n2 1 91158 85014 108207 XOR\n2 1 91159 85015 108208 XOR\n2 1 91160 85016 108209 XOR\n2 1 91161 85017 108210 XOR\n2 1 91162 85018 108211 XOR\n2 1 91163 85019 108212 XOR\n2 1 91165 85021 108214 XOR\n2 1 91167 85023 108216 XOR\n2 1 91169 85025 108218 XOR\n2 1 91171 85027 108220 XOR\n2 1 91173 85029 108222 XOR\n2 1 91175 85031 108224 XOR\n2 1 91177 85033 108226 XOR\n2 1 91179 85035 108228 XOR\n2 1 91181 85037 108230 XOR\n2 1 91183 85039 108232 XOR\n2 1 108203 108172 3073 XOR\n2 1 3073 3137 73136 XOR\n2 1 73136 73104 73072 AND\n2 1 73072 3137 87026 XOR\n2 1 3073 3105 73008 XOR\n2 1 85010 108172 16148 XOR\n2 1 16147 16148 16146 AND\n2 1 16146 108172 108173 XOR\n2 1 85011 108173 16151 XOR\n2 1 108204 108173 3074 XOR\n2 1 3074 3138 73137 XOR\n2 1 73137 73105 73073 AND\n2 1 73073 3138 87027 XOR\n2 1 3074 3106 73009 XOR\n2 1 91155 108173 16150 XOR\n2 1 16150 16151 16149 AND\n2 1 16149 108173 108174 XOR\n2 1 91156 108174 16153 XOR\n2 1 108205 108174 3075 XOR\n2 1 3075 3139 73138 XOR\n2 1 73138 73106 73074 AND\n2 1 73074 3139 87028 XOR\n",
"2 1 3075 3107 73010 XOR\n2 1 85012 108174 16154 XOR\n2 1 16153 16154 16152 AND\n2 1 16152 108174 108175 XOR\n2 1 85013 108175 16157 XOR\n2 1 108206 108175 3076 XOR\n2 1 3076 3140 73139 XOR\n2 1 73139 73107 73075 AND\n2 1 73075 3140 87029 XOR\n2 1 3076 3108 73011 XOR\n2 1 91157 108175 16156 XOR\n2 1 16156 16157 16155 AND\n2 1 16155 108175 108176 XOR\n2 1 91158 108176 16159 XOR\n2 1 108207 108176 3077 XOR\n2 1 3077 3141 73140 XOR\n2 1 73140 73108 73076 AND\n2 1 73076 3141 87030 XOR\n2 1 3077 3109 73012 XOR\n2 1 85014 108176 16160 XOR\n2 1 16159 16160 16158 AND\n2 1 16158 108176 108177 XOR\n2 1 85015 108177 16163 XOR\n2 1 108208 108177 3078 XOR\n2 1 3078 3142 73141 XOR\n2 1 73141 73109 73077 AND\n2 1 73077 3142 87031 XOR\n2 1 3078 3110 73013 XOR\n2 1 91159 108177 16162 XOR\n2 1 16162 16163 16161 AND\n2 1 16161 108177 108178 XOR\n2 1 91160 108178 16165 XOR\n2 1 108209 108178 3079 XOR\n2 1 3079 3143 73142 XOR\n2 1 73142 73110 73078 AND\n2 1 73078 3143 87032 XOR\n2 1 3079 3111 73014 XOR\n2 1 85016 108178 16166 XOR\n2 1 16165 16166 16164 AND\n2 1 16164 108178 108179 XOR\n2 1 85017 108179 16169 XOR\n2 1 108210 108179 3080 XOR\n2 1 3080 3144 73143 XOR\n2 1 73143 73111 73079 AND\n2 1 73079 3144 87033 XOR\n2 1 3080 3112 73015 XOR\n2 1 91161 108179 16168 XOR\n2 1 16168 16169 16167 AND\n2 1 16167 108179 108180 XOR\n2 1 91162 108180 16171 XOR\n2 1 85018 108180 16172 XOR\n2 1 16171 16172 16170 AND\n2 1 16170 108180 108181 XOR\n2 1 108212 108181 3082 XOR\n2 1 91163 108181 16174 XOR\n2 1 85019 108181 16175 XOR\n2 1 16174 16175 16173 AND\n2 1 16173 108181 108182 XOR\n2 1 108213 108182 3083 XOR\n2 1 91164 108182 16177 XOR\n2 1 85020 108182 16178 XOR\n2 1 16177 16178 16176 AND\n2 1 16176 108182 108183 XOR\n2 1 108214 108183 3084 XOR\n2 1 91165 108183 16180 XOR\n2 1 85021 108183 16181 XOR\n2 1 16180 16181 16179 AND\n2 1 16179 108183 108184 XOR\n2 1 108215 108184 3085 XOR\n2 1 91166 108184 16183 XOR\n2 1 85022 108184 16184 XOR\n2 1 16183 16184 16182 AND\n2 1 16182 108184 108185 XOR\n2 1 108216 108185 3086 XOR\n2 1 91167 108185 16186 XOR\n2 1 85023 108185 16187 XOR\n2 1 16186 16187 16185 AND\n2 1 16185 108185 108186 XOR\n2 1 108217 108186 3087 XOR\n2 1 91168 108186 16189 XOR\n2 1 85024 108186 16190 XOR\n2 1 16189 16190 16188 AND\n2 1 16188 108186 108187 XOR\n2 1 108218 108187 3088 XOR\n2 1 91169 108187 16192 XOR\n2 1 85025 108187 16193 XOR\n2 1 16192 16193 16191 AND\n2 1 16191 108187 108188 XOR\n2 1 108219 108188 3089 XOR\n2 1 91170 108188 16195 XOR\n2 1 85026 108188 16196 XOR\n2 1 16195 16196 16194 AND\n2 1 16194 108188 108189 XOR\n2 1 108220 108189 3090 XOR\n2 1 91171 108189 16198 XOR\n2 1 85027 108189 16199 XOR\n2 1 16198 16199 16197 AND\n2 1 16197 108189 108190 XOR\n2 1 108221 108190 3091 XOR\n2 1 91172 108190 16201 XOR\n2 1 85028 108190 16202 XOR\n2 1 16201 16202 16200 AND\n2 1 16200 108190 108191 XOR\n2 1 108222 108191 3092 XOR\n2 1 91173 108191 16204 XOR\n2 1 85029 108191 16205 XOR\n2 1 16204 16205 16203 AND\n2 1 16203 108191 108192 XOR\n2 1 108223 108192 3093 XOR\n2 1 91174 108192 16207 XOR\n2 1 85030 108192 16208 XOR\n2 1 16207 16208 16206 AND\n2 1 16206 108192 108193 XOR\n2 1 108224 108193 3094 XOR\n2 1 91175 108193 16210 XOR\n2 1 85031 108193 16211 XOR\n2 1 16210 16211 16209 AND\n2 1 16209 108193 108194 XOR\n2 1 108225 108194 3095 XOR\n2 1 91176 108194 16213 XOR\n2 1 85032 108194 16214 XOR\n2 1 16213 16214 16212 AND\n2 1 16212 108194 108195 XOR\n2 1 108226 108195 3096 XOR\n2 1 91177 108195 16216 XOR\n2 1 85033 108195 16217 XOR\n2 1 16216 16217 16215 AND\n2 1 16215 108195 108196 XOR\n",
"2 1 108227 108196 3097 XOR\n2 1 91178 108196 16219 XOR\n2 1 85034 108196 16220 XOR\n2 1 16219 16220 16218 AND\n2 1 16218 108196 108197 XOR\n2 1 108228 108197 3098 XOR\n2 1 91179 108197 16222 XOR\n2 1 85035 108197 16223 XOR\n2 1 16222 16223 16221 AND\n2 1 16221 108197 108198 XOR\n2 1 108229 108198 3099 XOR\n2 1 91180 108198 16225 XOR\n2 1 85036 108198 16226 XOR\n2 1 16225 16226 16224 AND\n2 1 16224 108198 108199 XOR\n2 1 108230 108199 3100 XOR\n2 1 91181 108199 16228 XOR\n2 1 85037 108199 16229 XOR\n2 1 16228 16229 16227 AND\n2 1 16227 108199 108200 XOR\n2 1 108231 108200 3101 XOR\n2 1 91182 108200 16231 XOR\n2 1 85038 108200 16232 XOR\n2 1 16231 16232 16230 AND\n2 1 16230 108200 108201 XOR\n2 1 108232 108201 3102 XOR\n2 1 91183 108201 16234 XOR\n2 1 85039 108201 16235 XOR\n2 1 16234 16235 16233 AND\n2 1 16233 108201 108202 XOR\n2 1 108233 108202 3103 XOR\n2 1 3103 3167 73166 XOR\n2 1 3102 3166 73165 XOR\n2 1 3101 3165 73164 XOR\n2 1 3100 3164 73163 XOR\n2 1 3099 3163 73162 XOR\n2 1 3098 3162 73161 XOR\n2 1 3097 3161 73160 XOR\n2 1 3096 3160 73159 XOR\n2 1 3095 3159 73158 XOR\n2 1 3094 3158 73157 XOR\n2 1 3093 3157 73156 XOR\n2 1 3092 3156 73155 XOR\n2 1 3091 3155 73154 XOR\n2 1 3090 3154 73153 XOR\n2 1 3089 3153 73152 XOR\n2 1 3088 3152 73151 XOR\n2 1 3087 3151 73150 XOR\n2 1 3086 3150 73149 XOR\n2 1 3085 3149 73148 XOR\n2 1 3084 3148 73147 XOR\n2 1 3083 3147 73146 XOR\n2 1 3082 3146 73145 XOR\n2 1 73166 73134 73102 AND\n2 1 73165 73133 73101 AND\n2 1 73164 73132 73100 AND\n2 1 73163 73131 73099 AND\n2 1 73162 73130 73098 AND\n2 1 73161 73129 73097 AND\n2 1 73160 73128 73096 AND\n2 1 73159 73127 73095 AND\n2 1 73158 73126 73094 AND\n2 1 73157 73125 73093 AND\n2 1 73156 73124 73092 AND\n2 1 73155 73123 73091 AND\n2 1 73154 73122 73090 AND\n2 1 73153 73121 73089 AND\n2 1 73152 73120 73088 AND\n2 1 73151 73119 73087 AND\n2 1 73150 73118 73086 AND\n2 1 73149 73117 73085 AND\n2 1 73148 73116 73084 AND\n2 1 73147 73115 73083 AND\n2 1 73146 73114 73082 AND\n2 1 73145 73113 73081 AND\n2 1 73102 3167 87056 XOR\n2 1 73101 3166 87055 XOR\n2 1 73100 3165 87054 XOR\n2 1 73099 3164 87053 XOR\n2 1 73098 3163 87052 XOR\n2 1 73097 3162 87051 XOR\n2 1 73096 3161 87050 XOR\n2 1 73095 3160 87049 XOR\n2 1 73094 3159 87048 XOR\n2 1 73093 3158 87047 XOR\n2 1 73092 3157 87046 XOR\n2 1 73091 3156 87045 XOR\n2 1 73090 3155 87044 XOR\n2 1 73089 3154 87043 XOR\n2 1 73088 3153 87042 XOR\n2 1 73087 3152 87041 XOR\n2 1 73086 3151 87040 XOR\n2 1 73085 3150 87039 XOR\n2 1 73084 3149 87038 XOR\n2 1 73083 3148 87037 XOR\n2 1 73082 3147 87036 XOR\n2 1 73081 3146 87035 XOR\n2 1 3103 3135 73038 XOR\n2 1 3102 3134 73037 XOR\n2 1 3101 3133 73036 XOR\n2 1 3100 3132 73035 XOR\n2 1 3099 3131 73034 XOR\n2 1 3098 3130 73033 XOR\n2 1 3097 3129 73032 XOR\n2 1 3096 3128 73031 XOR\n2 1 3095 3127 73030 XOR\n2 1 3094 3126 73029 XOR\n2 1 3093 3125 73028 XOR\n2 1 3092 3124 73027 XOR\n2 1 3091 3123 73026 XOR\n2 1 3090 3122 73025 XOR\n2 1 3089 3121 73024 XOR\n2 1 3088 3120 73023 XOR\n2 1 3087 3119 73022 XOR\n2 1 3086 3118 73021 XOR\n2 1 3085 3117 73020 XOR\n2 1 3084 3116 73019 XOR\n2 1 3083 3115 73018 XOR\n2 1 3082 3114 73017 XOR\n2 1 108211 108180 3081 XOR\n2 1 3081 3145 73144 XOR\n2 1 73144 73112 73080 AND\n2 1 73080 3145 87034 XOR\n2 1 3081 3113 73016 XOR\n2 1 3073 3084 68206 XOR\n2 1 3072 3083 68205 XOR\n2 1 3103 3082 68204 XOR\n2 1 3102 3081 68203 XOR\n",
"2 1 3101 3080 68202 XOR\n2 1 3100 3079 68201 XOR\n2 1 3099 3078 68200 XOR\n2 1 3098 3077 68199 XOR\n2 1 3097 3076 68198 XOR\n2 1 3096 3075 68197 XOR\n2 1 3095 3074 68196 XOR\n2 1 3094 3073 68195 XOR\n2 1 3093 3072 68194 XOR\n2 1 3092 3103 68193 XOR\n2 1 3091 3102 68192 XOR\n2 1 3090 3101 68191 XOR\n2 1 3089 3100 68190 XOR\n2 1 3088 3099 68189 XOR\n2 1 3087 3098 68188 XOR\n2 1 3086 3097 68187 XOR\n2 1 3085 3096 68186 XOR\n2 1 3084 3095 68185 XOR\n2 1 3083 3094 68184 XOR\n2 1 3082 3093 68183 XOR\n2 1 3081 3092 68182 XOR\n2 1 3080 3091 68181 XOR\n2 1 3079 3090 68180 XOR\n2 1 3078 3089 68179 XOR\n2 1 3077 3088 68178 XOR\n2 1 3076 3087 68177 XOR\n2 1 3075 3086 68176 XOR\n2 1 3074 3085 68175 XOR\n2 1 68206 3093 89104 XOR\n2 1 89104 87056 121718 XOR\n2 1 68205 3092 89103 XOR\n2 1 89103 87055 121717 XOR\n2 1 68204 3091 89102 XOR\n2 1 89102 87054 121716 XOR\n2 1 68203 3090 89101 XOR\n2 1 89101 87053 121715 XOR\n2 1 68202 3089 89100 XOR\n2 1 89100 87052 121714 XOR\n2 1 68201 3088 89099 XOR\n2 1 89099 87051 121713 XOR\n2 1 68200 3087 89098 XOR\n2 1 89098 87050 121712 XOR\n2 1 68199 3086 89097 XOR\n2 1 89097 87049 121711 XOR\n2 1 68198 3085 89096 XOR\n2 1 89096 87048 121710 XOR\n2 1 68197 3084 89095 XOR\n2 1 89095 87047 121709 XOR\n2 1 68196 3083 89094 XOR\n2 1 89094 87046 121708 XOR\n2 1 68195 3082 89093 XOR\n2 1 89093 87045 121707 XOR\n2 1 68194 3081 89092 XOR\n2 1 89092 87044 121706 XOR\n2 1 68193 3080 89091 XOR\n2 1 89091 87043 121705 XOR\n2 1 68192 3079 89090 XOR\n2 1 89090 87042 121704 XOR\n2 1 68191 3078 89089 XOR\n2 1 89089 87041 121703 XOR\n2 1 68190 3077 89088 XOR\n2 1 89088 87040 121702 XOR\n2 1 68189 3076 89087 XOR\n2 1 89087 87039 121701 XOR\n2 1 68188 3075 89086 XOR\n2 1 89086 87038 121700 XOR\n2 1 68187 3074 89085 XOR\n2 1 89085 87037 121699 XOR\n2 1 68186 3073 89084 XOR\n2 1 89084 87036 121698 XOR\n2 1 68185 3072 89083 XOR\n2 1 89083 87035 121697 XOR\n2 1 68184 3103 89082 XOR\n2 1 89082 87034 121696 XOR\n2 1 68183 3102 89081 XOR\n2 1 89081 87033 121695 XOR\n2 1 68182 3101 89080 XOR\n2 1 89080 87032 121694 XOR\n2 1 68181 3100 89079 XOR\n2 1 89079 87031 121693 XOR\n2 1 68180 3099 89078 XOR\n2 1 89078 87030 121692 XOR\n2 1 68179 3098 89077 XOR\n2 1 89077 87029 121691 XOR\n2 1 68178 3097 89076 XOR\n2 1 89076 87028 121690 XOR\n2 1 68177 3096 89075 XOR\n2 1 89075 87027 121689 XOR\n2 1 68176 3095 89074 XOR\n2 1 89074 87026 121688 XOR\n2 1 68175 3094 89073 XOR\n2 1 89073 87025 121657 AND\n2 1 89073 87025 84977 XOR\n2 1 121688 121657 84978 XOR\n2 1 89074 121657 39502 XOR\n2 1 87026 121657 39503 XOR\n2 1 39502 39503 39501 AND\n2 1 39501 121657 121658 XOR\n2 1 121689 121658 84979 XOR\n2 1 89075 121658 39505 XOR\n2 1 87027 121658 39506 XOR\n2 1 39505 39506 39504 AND\n2 1 39504 121658 121659 XOR\n2 1 121690 121659 84980 XOR\n2 1 89076 121659 39508 XOR\n2 1 87028 121659 39509 XOR\n2 1 39508 39509 39507 AND\n2 1 39507 121659 121660 XOR\n2 1 121691 121660 84981 XOR\n2 1 89077 121660 39511 XOR\n2 1 87029 121660 39512 XOR\n2 1 39511 39512 39510 AND\n2 1 39510 121660 121661 XOR\n2 1 121692 121661 84982 XOR\n2 1 89078 121661 39514 XOR\n2 1 87030 121661 39515 XOR\n2 1 39514 39515 39513 AND\n2 1 39513 121661 121662 XOR\n2 1 121693 121662 84983 XOR\n2 1 89079 121662 39517 XOR\n2 1 87031 121662 39518 XOR\n2 1 39517 39518 39516 AND\n2 1 39516 121662 121663 XOR\n2 1 121694 121663 84984 XOR\n2 1 89080 121663 39520 XOR\n2 1 87032 121663 39521 XOR\n2 1 39520 39521 39519 AND\n2 1 39519 121663 121664 XOR\n",
"2 1 121695 121664 84985 XOR\n2 1 89081 121664 39523 XOR\n2 1 87033 121664 39524 XOR\n2 1 39523 39524 39522 AND\n2 1 39522 121664 121665 XOR\n2 1 121696 121665 84986 XOR\n2 1 89082 121665 39526 XOR\n2 1 87034 121665 39527 XOR\n2 1 39526 39527 39525 AND\n2 1 39525 121665 121666 XOR\n2 1 121697 121666 84987 XOR\n2 1 89083 121666 39529 XOR\n2 1 87035 121666 39530 XOR\n2 1 39529 39530 39528 AND\n2 1 39528 121666 121667 XOR\n2 1 121698 121667 84988 XOR\n2 1 89084 121667 39532 XOR\n2 1 87036 121667 39533 XOR\n2 1 39532 39533 39531 AND\n2 1 39531 121667 121668 XOR\n2 1 121699 121668 84989 XOR\n2 1 89085 121668 39535 XOR\n2 1 87037 121668 39536 XOR\n2 1 39535 39536 39534 AND\n2 1 39534 121668 121669 XOR\n2 1 121700 121669 84990 XOR\n2 1 89086 121669 39538 XOR\n2 1 87038 121669 39539 XOR\n2 1 39538 39539 39537 AND\n2 1 39537 121669 121670 XOR\n2 1 121701 121670 84991 XOR\n2 1 89087 121670 39541 XOR\n2 1 87039 121670 39542 XOR\n2 1 39541 39542 39540 AND\n2 1 39540 121670 121671 XOR\n2 1 121702 121671 84992 XOR\n2 1 89088 121671 39544 XOR\n2 1 87040 121671 39545 XOR\n2 1 39544 39545 39543 AND\n2 1 39543 121671 121672 XOR\n2 1 121703 121672 84993 XOR\n2 1 89089 121672 39547 XOR\n2 1 87041 121672 39548 XOR\n2 1 39547 39548 39546 AND\n2 1 39546 121672 121673 XOR\n2 1 121704 121673 84994 XOR\n2 1 89090 121673 39550 XOR\n2 1 87042 121673 39551 XOR\n2 1 39550 39551 39549 AND\n2 1 39549 121673 121674 XOR\n2 1 121705 121674 84995 XOR\n2 1 89091 121674 39553 XOR\n2 1 87043 121674 39554 XOR\n2 1 39553 39554 39552 AND\n2 1 39552 121674 121675 XOR\n2 1 121706 121675 84996 XOR\n2 1 89092 121675 39556 XOR\n2 1 87044 121675 39557 XOR\n2 1 39556 39557 39555 AND\n2 1 39555 121675 121676 XOR\n2 1 121707 121676 84997 XOR\n2 1 89093 121676 39559 XOR\n2 1 87045 121676 39560 XOR\n2 1 39559 39560 39558 AND\n2 1 39558 121676 121677 XOR\n2 1 121708 121677 84998 XOR\n2 1 89094 121677 39562 XOR\n2 1 87046 121677 39563 XOR\n2 1 39562 39563 39561 AND\n2 1 39561 121677 121678 XOR\n2 1 121709 121678 84999 XOR\n2 1 89095 121678 39565 XOR\n2 1 87047 121678 39566 XOR\n2 1 39565 39566 39564 AND\n2 1 39564 121678 121679 XOR\n2 1 121710 121679 85000 XOR\n2 1 89096 121679 39568 XOR\n2 1 87048 121679 39569 XOR\n2 1 39568 39569 39567 AND\n2 1 39567 121679 121680 XOR\n2 1 121711 121680 85001 XOR\n2 1 89097 121680 39571 XOR\n2 1 87049 121680 39572 XOR\n2 1 39571 39572 39570 AND\n2 1 39570 121680 121681 XOR\n2 1 121712 121681 85002 XOR\n2 1 89098 121681 39574 XOR\n2 1 87050 121681 39575 XOR\n2 1 39574 39575 39573 AND\n2 1 39573 121681 121682 XOR\n2 1 121713 121682 85003 XOR\n2 1 89099 121682 39577 XOR\n2 1 87051 121682 39578 XOR\n2 1 39577 39578 39576 AND\n2 1 39576 121682 121683 XOR\n2 1 121714 121683 85004 XOR\n2 1 89100 121683 39580 XOR\n2 1 87052 121683 39581 XOR\n2 1 39580 39581 39579 AND\n2 1 39579 121683 121684 XOR\n2 1 121715 121684 85005 XOR\n2 1 89101 121684 39583 XOR\n2 1 87053 121684 39584 XOR\n2 1 39583 39584 39582 AND\n2 1 39582 121684 121685 XOR\n2 1 121716 121685 85006 XOR\n2 1 89102 121685 39586 XOR\n2 1 87054 121685 39587 XOR\n2 1 39586 39587 39585 AND\n2 1 39585 121685 121686 XOR\n2 1 121717 121686 85007 XOR\n2 1 89103 121686 39589 XOR\n2 1 87055 121686 39590 XOR\n2 1 39589 39590 39588 AND\n2 1 39588 121686 121687 XOR\n2 1 121718 121687 85008 XOR\n2 1 4191 91184 108171 XOR\n2 1 108171 108140 3615 XOR\n2 1 76976 3615 121098 XOR\n2 1 4166 91159 108146 XOR\n2 1 108146 108115 3590 XOR\n2 1 76951 3590 121073 XOR\n2 1 121073 121042 95068 XOR\n2 1 3590 121042 38423 XOR\n2 1 38422 38423 38421 AND\n2 1 38421 121042 121043 XOR\n2 1 121074 121043 95069 XOR\n2 1 76952 121043 38425 XOR\n",
"2 1 3591 121043 38426 XOR\n2 1 38425 38426 38424 AND\n2 1 38424 121043 121044 XOR\n2 1 121075 121044 95070 XOR\n2 1 76953 121044 38428 XOR\n2 1 3592 121044 38429 XOR\n2 1 38428 38429 38427 AND\n2 1 38427 121044 121045 XOR\n2 1 121076 121045 95071 XOR\n2 1 76954 121045 38431 XOR\n2 1 3593 121045 38432 XOR\n2 1 38431 38432 38430 AND\n2 1 38430 121045 121046 XOR\n2 1 121077 121046 95072 XOR\n2 1 76955 121046 38434 XOR\n2 1 3594 121046 38435 XOR\n2 1 38434 38435 38433 AND\n2 1 38433 121046 121047 XOR\n2 1 121078 121047 95073 XOR\n2 1 76956 121047 38437 XOR\n2 1 3595 121047 38438 XOR\n2 1 38437 38438 38436 AND\n2 1 38436 121047 121048 XOR\n2 1 121079 121048 95074 XOR\n2 1 76957 121048 38440 XOR\n2 1 3596 121048 38441 XOR\n2 1 38440 38441 38439 AND\n2 1 38439 121048 121049 XOR\n2 1 121080 121049 95075 XOR\n2 1 76958 121049 38443 XOR\n2 1 3597 121049 38444 XOR\n2 1 38443 38444 38442 AND\n2 1 38442 121049 121050 XOR\n2 1 121081 121050 95076 XOR\n2 1 76959 121050 38446 XOR\n2 1 3598 121050 38447 XOR\n2 1 38446 38447 38445 AND\n2 1 38445 121050 121051 XOR\n2 1 121082 121051 95077 XOR\n2 1 76960 121051 38449 XOR\n2 1 3599 121051 38450 XOR\n2 1 38449 38450 38448 AND\n2 1 38448 121051 121052 XOR\n2 1 121083 121052 95078 XOR\n2 1 76961 121052 38452 XOR\n2 1 3600 121052 38453 XOR\n2 1 38452 38453 38451 AND\n2 1 38451 121052 121053 XOR\n2 1 121084 121053 95079 XOR\n2 1 76962 121053 38455 XOR\n2 1 3601 121053 38456 XOR\n2 1 38455 38456 38454 AND\n2 1 38454 121053 121054 XOR\n2 1 121085 121054 95080 XOR\n2 1 76963 121054 38458 XOR\n2 1 3602 121054 38459 XOR\n2 1 38458 38459 38457 AND\n2 1 38457 121054 121055 XOR\n2 1 121086 121055 95081 XOR\n2 1 76964 121055 38461 XOR\n2 1 3603 121055 38462 XOR\n2 1 38461 38462 38460 AND\n2 1 38460 121055 121056 XOR\n2 1 121087 121056 95082 XOR\n2 1 76965 121056 38464 XOR\n2 1 3604 121056 38465 XOR\n2 1 38464 38465 38463 AND\n2 1 38463 121056 121057 XOR\n2 1 121088 121057 95083 XOR\n2 1 76966 121057 38467 XOR\n2 1 3605 121057 38468 XOR\n2 1 38467 38468 38466 AND\n2 1 38466 121057 121058 XOR\n2 1 121089 121058 95084 XOR\n2 1 76967 121058 38470 XOR\n2 1 3606 121058 38471 XOR\n2 1 38470 38471 38469 AND\n2 1 38469 121058 121059 XOR\n2 1 121090 121059 95085 XOR\n2 1 76968 121059 38473 XOR\n2 1 3607 121059 38474 XOR\n2 1 38473 38474 38472 AND\n2 1 38472 121059 121060 XOR\n2 1 121091 121060 95086 XOR\n2 1 76969 121060 38476 XOR\n2 1 3608 121060 38477 XOR\n2 1 38476 38477 38475 AND\n2 1 38475 121060 121061 XOR\n2 1 121092 121061 95087 XOR\n2 1 76970 121061 38479 XOR\n2 1 3609 121061 38480 XOR\n2 1 38479 38480 38478 AND\n2 1 38478 121061 121062 XOR\n2 1 121093 121062 95088 XOR\n2 1 76971 121062 38482 XOR\n2 1 3610 121062 38483 XOR\n2 1 38482 38483 38481 AND\n2 1 38481 121062 121063 XOR\n2 1 121094 121063 95089 XOR\n2 1 76972 121063 38485 XOR\n2 1 3611 121063 38486 XOR\n2 1 38485 38486 38484 AND\n2 1 38484 121063 121064 XOR\n2 1 121095 121064 95090 XOR\n2 1 76973 121064 38488 XOR\n2 1 3612 121064 38489 XOR\n2 1 38488 38489 38487 AND\n2 1 38487 121064 121065 XOR\n2 1 121096 121065 95091 XOR\n2 1 76974 121065 38491 XOR\n2 1 3613 121065 38492 XOR\n2 1 38491 38492 38490 AND\n2 1 38490 121065 121066 XOR\n2 1 121097 121066 95092 XOR\n2 1 76975 121066 38494 XOR\n2 1 3614 121066 38495 XOR\n2 1 38494 38495 38493 AND\n2 1 38493 121066 121067 XOR\n2 1 121098 121067 95093 XOR\n2 1 65774 3615 65742 AND\n2 1 65773 3614 65741 AND\n2 1 65772 3613 65740 AND\n2 1 65771 3612 65739 AND\n2 1 65770 3611 65738 AND\n2 1 65769 3610 65737 AND\n2 1 65768 3609 65736 AND\n2 1 65767 3608 65735 AND\n2 1 65766 3607 65734 AND\n",
"2 1 65765 3606 65733 AND\n2 1 65764 3605 65732 AND\n2 1 65763 3604 65731 AND\n2 1 65762 3603 65730 AND\n2 1 65761 3602 65729 AND\n2 1 65760 3601 65728 AND\n2 1 65759 3600 65727 AND\n2 1 65758 3599 65726 AND\n2 1 65757 3598 65725 AND\n2 1 65756 3597 65724 AND\n2 1 65755 3596 65723 AND\n2 1 65754 3595 65722 AND\n2 1 65753 3594 65721 AND\n2 1 65752 3593 65720 AND\n2 1 65751 3592 65719 AND\n2 1 65750 3591 65718 AND\n2 1 65749 3590 65717 AND\n2 1 65748 3589 65716 AND\n2 1 65747 3588 65715 AND\n2 1 65746 3587 65714 AND\n2 1 65745 3586 65713 AND\n2 1 65744 3585 65712 AND\n2 1 65743 3584 65711 AND\n2 1 65742 3679 99285 XOR\n2 1 65741 3678 99284 XOR\n2 1 65740 3677 99283 XOR\n2 1 65739 3676 99282 XOR\n2 1 65738 3675 99281 XOR\n2 1 65737 3674 99280 XOR\n2 1 65736 3673 99279 XOR\n2 1 65735 3672 99278 XOR\n2 1 65734 3671 99277 XOR\n2 1 65733 3670 99276 XOR\n2 1 65732 3669 99275 XOR\n2 1 65731 3668 99274 XOR\n2 1 65730 3667 99273 XOR\n2 1 65729 3666 99272 XOR\n2 1 65728 3665 99271 XOR\n2 1 65727 3664 99270 XOR\n2 1 65726 3663 99269 XOR\n2 1 65725 3662 99268 XOR\n2 1 65724 3661 99267 XOR\n2 1 65723 3660 99266 XOR\n2 1 65722 3659 99265 XOR\n2 1 65721 3658 99264 XOR\n2 1 65720 3657 99263 XOR\n2 1 65719 3656 99262 XOR\n2 1 65718 3655 99261 XOR\n2 1 65717 3654 99260 XOR\n2 1 65716 3653 99259 XOR\n2 1 65715 3652 99258 XOR\n2 1 65714 3651 99257 XOR\n2 1 65713 3650 99256 XOR\n2 1 65712 3649 99255 XOR\n2 1 65711 3648 99254 XOR\n2 1 3615 3647 65710 XOR\n2 1 3614 3646 65709 XOR\n2 1 3613 3645 65708 XOR\n2 1 3612 3644 65707 XOR\n2 1 3611 3643 65706 XOR\n2 1 3610 3642 65705 XOR\n2 1 3609 3641 65704 XOR\n2 1 3608 3640 65703 XOR\n2 1 3607 3639 65702 XOR\n2 1 3606 3638 65701 XOR\n2 1 3605 3637 65700 XOR\n2 1 3604 3636 65699 XOR\n2 1 3603 3635 65698 XOR\n2 1 3602 3634 65697 XOR\n2 1 3601 3633 65696 XOR\n2 1 3600 3632 65695 XOR\n2 1 3599 3631 65694 XOR\n2 1 3598 3630 65693 XOR\n2 1 3597 3629 65692 XOR\n2 1 3596 3628 65691 XOR\n2 1 3595 3627 65690 XOR\n2 1 3594 3626 65689 XOR\n2 1 3593 3625 65688 XOR\n2 1 3592 3624 65687 XOR\n2 1 3591 3623 65686 XOR\n2 1 3590 3622 65685 XOR\n2 1 3589 3621 65684 XOR\n2 1 3588 3620 65683 XOR\n2 1 3587 3619 65682 XOR\n2 1 3586 3618 65681 XOR\n2 1 3585 3617 65680 XOR\n2 1 3584 3616 65679 XOR\n2 1 3589 3594 62286 XOR\n2 1 3588 3593 62285 XOR\n2 1 3587 3592 62284 XOR\n2 1 3586 3591 62283 XOR\n2 1 3585 3590 62282 XOR\n2 1 3584 3589 62281 XOR\n2 1 3615 3588 62280 XOR\n2 1 3614 3587 62279 XOR\n2 1 3613 3586 62278 XOR\n2 1 3612 3585 62277 XOR\n2 1 3611 3584 62276 XOR\n2 1 3610 3615 62275 XOR\n2 1 3609 3614 62274 XOR\n2 1 3608 3613 62273 XOR\n2 1 3607 3612 62272 XOR\n2 1 3606 3611 62271 XOR\n2 1 3605 3610 62270 XOR\n2 1 3604 3609 62269 XOR\n2 1 3603 3608 62268 XOR\n2 1 3602 3607 62267 XOR\n2 1 3601 3606 62266 XOR\n2 1 3600 3605 62265 XOR\n2 1 3599 3604 62264 XOR\n2 1 3598 3603 62263 XOR\n2 1 3597 3602 62262 XOR\n2 1 3596 3601 62261 XOR\n2 1 3595 3600 62260 XOR\n2 1 3594 3599 62259 XOR\n2 1 3593 3598 62258 XOR\n2 1 3592 3597 62257 XOR\n2 1 3591 3596 62256 XOR\n2 1 3590 3595 62255 XOR\n2 1 62286 3608 101333 XOR\n2 1 101333 99285 121904 XOR\n2 1 62285 3607 101332 XOR\n2 1 101332 99284 121903 XOR\n2 1 62284 3606 101331 XOR\n2 1 101331 99283 121902 XOR\n2 1 62283 3605 101330 XOR\n2 1 101330 99282 121901 XOR\n2 1 62282 3604 101329 XOR\n",
"2 1 101329 99281 121900 XOR\n2 1 62281 3603 101328 XOR\n2 1 101328 99280 121899 XOR\n2 1 62280 3602 101327 XOR\n2 1 101327 99279 121898 XOR\n2 1 62279 3601 101326 XOR\n2 1 101326 99278 121897 XOR\n2 1 62278 3600 101325 XOR\n2 1 101325 99277 121896 XOR\n2 1 62277 3599 101324 XOR\n2 1 101324 99276 121895 XOR\n2 1 62276 3598 101323 XOR\n2 1 101323 99275 121894 XOR\n2 1 62275 3597 101322 XOR\n2 1 101322 99274 121893 XOR\n2 1 62274 3596 101321 XOR\n2 1 101321 99273 121892 XOR\n2 1 62273 3595 101320 XOR\n2 1 101320 99272 121891 XOR\n2 1 62272 3594 101319 XOR\n2 1 101319 99271 121890 XOR\n2 1 62271 3593 101318 XOR\n2 1 101318 99270 121889 XOR\n2 1 62270 3592 101317 XOR\n2 1 101317 99269 121888 XOR\n2 1 62269 3591 101316 XOR\n2 1 101316 99268 121887 XOR\n2 1 62268 3590 101315 XOR\n2 1 101315 99267 121886 XOR\n2 1 62267 3589 101314 XOR\n2 1 101314 99266 121885 XOR\n2 1 62266 3588 101313 XOR\n2 1 101313 99265 121884 XOR\n2 1 62265 3587 101312 XOR\n2 1 101312 99264 121883 XOR\n2 1 62264 3586 101311 XOR\n2 1 101311 99263 121882 XOR\n2 1 62263 3585 101310 XOR\n2 1 101310 99262 121881 XOR\n2 1 62262 3584 101309 XOR\n2 1 101309 99261 121880 XOR\n2 1 62261 3615 101308 XOR\n2 1 101308 99260 121879 XOR\n2 1 62260 3614 101307 XOR\n2 1 101307 99259 121878 XOR\n2 1 62259 3613 101306 XOR\n2 1 101306 99258 121877 XOR\n2 1 62258 3612 101305 XOR\n2 1 101305 99257 121876 XOR\n2 1 62257 3611 101304 XOR\n2 1 101304 99256 121875 XOR\n2 1 62256 3610 101303 XOR\n2 1 101303 99255 121874 XOR\n2 1 62255 3609 101302 XOR\n2 1 101302 99254 121843 AND\n2 1 101302 99254 97206 XOR\n2 1 121874 121843 97207 XOR\n2 1 101303 121843 39874 XOR\n2 1 99255 121843 39875 XOR\n2 1 39874 39875 39873 AND\n2 1 39873 121843 121844 XOR\n2 1 121875 121844 97208 XOR\n2 1 101304 121844 39877 XOR\n2 1 99256 121844 39878 XOR\n2 1 39877 39878 39876 AND\n2 1 39876 121844 121845 XOR\n2 1 121876 121845 97209 XOR\n2 1 101305 121845 39880 XOR\n2 1 99257 121845 39881 XOR\n2 1 39880 39881 39879 AND\n2 1 39879 121845 121846 XOR\n2 1 121877 121846 97210 XOR\n2 1 101306 121846 39883 XOR\n2 1 99258 121846 39884 XOR\n2 1 39883 39884 39882 AND\n2 1 39882 121846 121847 XOR\n2 1 121878 121847 97211 XOR\n2 1 101307 121847 39886 XOR\n2 1 99259 121847 39887 XOR\n2 1 39886 39887 39885 AND\n2 1 39885 121847 121848 XOR\n2 1 121879 121848 97212 XOR\n2 1 101308 121848 39889 XOR\n2 1 99260 121848 39890 XOR\n2 1 39889 39890 39888 AND\n2 1 39888 121848 121849 XOR\n2 1 121880 121849 97213 XOR\n2 1 101309 121849 39892 XOR\n2 1 99261 121849 39893 XOR\n2 1 39892 39893 39891 AND\n2 1 39891 121849 121850 XOR\n2 1 121881 121850 97214 XOR\n2 1 101310 121850 39895 XOR\n2 1 99262 121850 39896 XOR\n2 1 39895 39896 39894 AND\n2 1 39894 121850 121851 XOR\n2 1 121882 121851 97215 XOR\n2 1 101311 121851 39898 XOR\n2 1 99263 121851 39899 XOR\n2 1 39898 39899 39897 AND\n2 1 39897 121851 121852 XOR\n2 1 121883 121852 97216 XOR\n2 1 101312 121852 39901 XOR\n2 1 99264 121852 39902 XOR\n2 1 39901 39902 39900 AND\n2 1 39900 121852 121853 XOR\n2 1 121884 121853 97217 XOR\n2 1 101313 121853 39904 XOR\n2 1 99265 121853 39905 XOR\n2 1 39904 39905 39903 AND\n2 1 39903 121853 121854 XOR\n2 1 121885 121854 97218 XOR\n2 1 101314 121854 39907 XOR\n2 1 99266 121854 39908 XOR\n2 1 39907 39908 39906 AND\n2 1 39906 121854 121855 XOR\n2 1 121886 121855 97219 XOR\n2 1 101315 121855 39910 XOR\n2 1 99267 121855 39911 XOR\n2 1 39910 39911 39909 AND\n2 1 39909 121855 121856 XOR\n2 1 121887 121856 97220 XOR\n2 1 101316 121856 39913 XOR\n2 1 99268 121856 39914 XOR\n2 1 39913 39914 39912 AND\n2 1 39912 121856 121857 XOR\n2 1 121888 121857 97221 XOR\n2 1 101317 121857 39916 XOR\n",
"2 1 99269 121857 39917 XOR\n2 1 39916 39917 39915 AND\n2 1 39915 121857 121858 XOR\n2 1 121889 121858 97222 XOR\n2 1 101318 121858 39919 XOR\n2 1 99270 121858 39920 XOR\n2 1 39919 39920 39918 AND\n2 1 39918 121858 121859 XOR\n2 1 121890 121859 97223 XOR\n2 1 101319 121859 39922 XOR\n2 1 99271 121859 39923 XOR\n2 1 39922 39923 39921 AND\n2 1 39921 121859 121860 XOR\n2 1 121891 121860 97224 XOR\n2 1 101320 121860 39925 XOR\n2 1 99272 121860 39926 XOR\n2 1 39925 39926 39924 AND\n2 1 39924 121860 121861 XOR\n2 1 121892 121861 97225 XOR\n2 1 101321 121861 39928 XOR\n2 1 99273 121861 39929 XOR\n2 1 39928 39929 39927 AND\n2 1 39927 121861 121862 XOR\n2 1 121893 121862 97226 XOR\n2 1 101322 121862 39931 XOR\n2 1 99274 121862 39932 XOR\n2 1 39931 39932 39930 AND\n2 1 39930 121862 121863 XOR\n2 1 121894 121863 97227 XOR\n2 1 101323 121863 39934 XOR\n2 1 99275 121863 39935 XOR\n2 1 39934 39935 39933 AND\n2 1 39933 121863 121864 XOR\n2 1 121895 121864 97228 XOR\n2 1 101324 121864 39937 XOR\n2 1 99276 121864 39938 XOR\n2 1 39937 39938 39936 AND\n2 1 39936 121864 121865 XOR\n2 1 121896 121865 97229 XOR\n2 1 101325 121865 39940 XOR\n2 1 99277 121865 39941 XOR\n2 1 39940 39941 39939 AND\n2 1 39939 121865 121866 XOR\n2 1 121897 121866 97230 XOR\n2 1 101326 121866 39943 XOR\n2 1 99278 121866 39944 XOR\n2 1 39943 39944 39942 AND\n2 1 39942 121866 121867 XOR\n2 1 121898 121867 97231 XOR\n2 1 101327 121867 39946 XOR\n2 1 99279 121867 39947 XOR\n2 1 39946 39947 39945 AND\n2 1 39945 121867 121868 XOR\n2 1 121899 121868 97232 XOR\n2 1 101328 121868 39949 XOR\n2 1 99280 121868 39950 XOR\n2 1 39949 39950 39948 AND\n2 1 39948 121868 121869 XOR\n2 1 121900 121869 97233 XOR\n2 1 101329 121869 39952 XOR\n2 1 99281 121869 39953 XOR\n2 1 39952 39953 39951 AND\n2 1 39951 121869 121870 XOR\n2 1 121901 121870 97234 XOR\n2 1 101330 121870 39955 XOR\n2 1 99282 121870 39956 XOR\n2 1 39955 39956 39954 AND\n2 1 39954 121870 121871 XOR\n2 1 121902 121871 97235 XOR\n2 1 101331 121871 39958 XOR\n2 1 99283 121871 39959 XOR\n2 1 39958 39959 39957 AND\n2 1 39957 121871 121872 XOR\n2 1 121903 121872 97236 XOR\n2 1 101332 121872 39961 XOR\n2 1 99284 121872 39962 XOR\n2 1 39961 39962 39960 AND\n2 1 39960 121872 121873 XOR\n2 1 121904 121873 97237 XOR\n2 1 77121 77123 81936 XOR\n2 1 81936 159 134964 XOR\n2 1 77120 77122 81935 XOR\n2 1 81935 158 134963 XOR\n2 1 77119 77121 81934 XOR\n2 1 81934 157 134962 XOR\n2 1 77118 77120 81933 XOR\n2 1 81933 156 134961 XOR\n2 1 77117 77119 81932 XOR\n2 1 81932 155 134960 XOR\n2 1 77116 77118 81931 XOR\n2 1 81931 154 134959 XOR\n2 1 77115 77117 81930 XOR\n2 1 81930 153 134958 XOR\n2 1 77114 77116 81929 XOR\n2 1 81929 152 134957 XOR\n2 1 77113 77115 81928 XOR\n2 1 81928 151 134956 XOR\n2 1 77112 77114 81927 XOR\n2 1 81927 150 134955 XOR\n2 1 77111 77113 7123 XOR\n2 1 77110 77112 7122 XOR\n2 1 77109 77111 7121 XOR\n2 1 77108 77110 7120 XOR\n2 1 77107 77109 7119 XOR\n2 1 77106 77108 7118 XOR\n2 1 77105 77107 7117 XOR\n2 1 77136 77106 7116 XOR\n2 1 77135 77105 7115 XOR\n2 1 77134 77136 7114 XOR\n2 1 77133 77135 7113 XOR\n2 1 77132 77134 7112 XOR\n2 1 77131 77133 7111 XOR\n2 1 77130 77132 7110 XOR\n2 1 77129 77131 7109 XOR\n2 1 77128 77130 7108 XOR\n2 1 77127 77129 7107 XOR\n2 1 77126 77128 7106 XOR\n2 1 77125 77127 7105 XOR\n2 1 77124 77126 7104 XOR\n2 1 77123 77125 7103 XOR\n2 1 77122 77124 7102 XOR\n2 1 7123 77136 81926 XOR\n2 1 81926 149 134954 XOR\n2 1 7122 77135 81925 XOR\n2 1 81925 148 134953 XOR\n2 1 7121 77134 81924 XOR\n2 1 81924 147 134952 XOR\n2 1 7120 77133 81923 XOR\n",
"2 1 81923 146 134951 XOR\n2 1 7119 77132 81922 XOR\n2 1 81922 145 134950 XOR\n2 1 7118 77131 81921 XOR\n2 1 81921 144 134949 XOR\n2 1 7117 77130 81920 XOR\n2 1 81920 143 134948 XOR\n2 1 7116 77129 81919 XOR\n2 1 81919 142 134947 XOR\n2 1 7115 77128 81918 XOR\n2 1 81918 141 134946 XOR\n2 1 7114 77127 81917 XOR\n2 1 81917 140 134945 XOR\n2 1 7113 77126 81916 XOR\n2 1 81916 139 134944 XOR\n2 1 7112 77125 81915 XOR\n2 1 81915 138 134943 XOR\n2 1 7111 77124 81914 XOR\n2 1 81914 137 134942 XOR\n2 1 7110 77123 81913 XOR\n2 1 81913 136 134941 XOR\n2 1 7109 77122 81912 XOR\n2 1 81912 135 134940 XOR\n2 1 7108 77121 81911 XOR\n2 1 81911 134 134939 XOR\n2 1 7107 77120 81910 XOR\n2 1 81910 133 134938 XOR\n2 1 7106 77119 81909 XOR\n2 1 81909 132 134937 XOR\n2 1 7105 77118 81908 XOR\n2 1 81908 131 134936 XOR\n2 1 7104 77117 81907 XOR\n2 1 81907 130 134935 XOR\n2 1 7103 77116 81906 XOR\n2 1 81906 129 134934 XOR\n2 1 7102 77115 81905 XOR\n2 1 81905 128 134903 AND\n2 1 81905 128 80369 XOR\n2 1 80369 78833 134779 AND\n2 1 80369 78833 77041 XOR\n2 1 77041 3680 121781 AND\n2 1 77041 3680 95158 XOR\n2 1 97206 95158 121719 AND\n2 1 97206 95158 91121 XOR\n2 1 97207 121719 39694 XOR\n2 1 3681 121781 39785 XOR\n2 1 3168 91121 3552 XOR\n2 1 3168 91121 107986 AND\n2 1 3169 107986 15877 XOR\n2 1 91121 84977 3040 XOR\n2 1 91121 84977 108048 AND\n2 1 84978 108048 15968 XOR\n2 1 82929 77041 131865 AND\n2 1 82929 77041 78321 XOR\n2 1 82930 131865 55866 XOR\n2 1 78834 134779 60097 XOR\n2 1 134934 134903 80370 XOR\n2 1 80370 78834 134810 XOR\n2 1 134810 134779 77042 XOR\n2 1 77042 3681 121812 XOR\n2 1 121812 121781 95159 XOR\n2 1 97207 95159 121750 XOR\n2 1 121750 121719 93123 XOR\n1 1 93123 91122 INV\n2 1 95159 121719 39695 XOR\n2 1 39694 39695 39693 AND\n2 1 39693 121719 121720 XOR\n2 1 97208 121720 39697 XOR\n2 1 77042 121781 39784 XOR\n2 1 39784 39785 39783 AND\n2 1 39783 121781 121782 XOR\n2 1 3682 121782 39788 XOR\n2 1 3169 91122 108017 XOR\n2 1 108017 107986 3553 XOR\n2 1 91122 107986 15878 XOR\n2 1 15877 15878 15876 AND\n2 1 15876 107986 107987 XOR\n2 1 91122 108048 15967 XOR\n2 1 91122 84978 108079 XOR\n2 1 15967 15968 15966 AND\n2 1 15966 108048 108049 XOR\n2 1 108079 108048 3041 XOR\n2 1 84979 108049 15971 XOR\n2 1 82930 77042 131896 XOR\n2 1 131896 131865 78322 XOR\n2 1 77042 131865 55867 XOR\n2 1 55866 55867 55865 AND\n2 1 55865 131865 131866 XOR\n2 1 82931 131866 55869 XOR\n2 1 80370 134779 60096 XOR\n2 1 60096 60097 60095 AND\n2 1 60095 134779 134780 XOR\n2 1 78835 134780 60100 XOR\n2 1 81906 134903 60276 XOR\n2 1 129 134903 60277 XOR\n2 1 60276 60277 60275 AND\n2 1 60275 134903 134904 XOR\n2 1 134935 134904 80371 XOR\n2 1 80371 78835 134811 XOR\n2 1 134811 134780 77043 XOR\n2 1 77043 3682 121813 XOR\n2 1 121813 121782 95160 XOR\n2 1 97208 95160 121751 XOR\n2 1 121751 121720 93124 XOR\n1 1 93124 39678 INV\n2 1 39678 93123 91123 XOR\n2 1 93124 93123 39592 XOR\n2 1 39592 91122 39591 AND\n2 1 39591 93123 39594 XOR\n2 1 95160 121720 39698 XOR\n2 1 39697 39698 39696 AND\n2 1 39696 121720 121721 XOR\n2 1 97209 121721 39700 XOR\n2 1 77043 121782 39787 XOR\n2 1 39787 39788 39786 AND\n2 1 39786 121782 121783 XOR\n2 1 3683 121783 39791 XOR\n2 1 3170 91123 108018 XOR\n2 1 108018 107987 3554 XOR\n2 1 91123 84979 108080 XOR\n2 1 108080 108049 3042 XOR\n2 1 91123 108049 15970 XOR\n2 1 15970 15971 15969 AND\n2 1 15969 108049 108050 XOR\n2 1 84980 108050 15974 XOR\n2 1 82931 77043 131897 XOR\n2 1 131897 131866 78323 XOR\n2 1 77043 131866 55870 XOR\n",
"2 1 55869 55870 55868 AND\n2 1 55868 131866 131867 XOR\n2 1 82932 131867 55872 XOR\n2 1 80371 134780 60099 XOR\n2 1 60099 60100 60098 AND\n2 1 60098 134780 134781 XOR\n2 1 78836 134781 60103 XOR\n2 1 81907 134904 60279 XOR\n2 1 130 134904 60280 XOR\n2 1 60279 60280 60278 AND\n2 1 60278 134904 134905 XOR\n2 1 134936 134905 80372 XOR\n2 1 80372 78836 134812 XOR\n2 1 134812 134781 77044 XOR\n2 1 77044 3683 121814 XOR\n2 1 121814 121783 95161 XOR\n2 1 97209 95161 121752 XOR\n2 1 121752 121721 93125 XOR\n2 1 93125 39594 91124 XOR\n2 1 91124 39594 39593 AND\n2 1 39593 39594 39596 XOR\n2 1 95161 121721 39701 XOR\n2 1 39700 39701 39699 AND\n2 1 39699 121721 121722 XOR\n2 1 97210 121722 39703 XOR\n2 1 77044 121783 39790 XOR\n2 1 39790 39791 39789 AND\n2 1 39789 121783 121784 XOR\n2 1 3684 121784 39794 XOR\n2 1 91124 108050 15973 XOR\n2 1 91124 84980 108081 XOR\n2 1 108081 108050 3043 XOR\n2 1 15973 15974 15972 AND\n2 1 15972 108050 108051 XOR\n2 1 84981 108051 15977 XOR\n2 1 82932 77044 131898 XOR\n2 1 131898 131867 78324 XOR\n2 1 77044 131867 55873 XOR\n2 1 55872 55873 55871 AND\n2 1 55871 131867 131868 XOR\n2 1 82933 131868 55875 XOR\n2 1 80372 134781 60102 XOR\n2 1 60102 60103 60101 AND\n2 1 60101 134781 134782 XOR\n2 1 78837 134782 60106 XOR\n2 1 81908 134905 60282 XOR\n2 1 131 134905 60283 XOR\n2 1 60282 60283 60281 AND\n2 1 60281 134905 134906 XOR\n2 1 134937 134906 80373 XOR\n2 1 80373 78837 134813 XOR\n2 1 134813 134782 77045 XOR\n2 1 77045 3684 121815 XOR\n2 1 121815 121784 95162 XOR\n2 1 97210 95162 121753 XOR\n2 1 121753 121722 93126 XOR\n2 1 93126 39596 91125 XOR\n2 1 91125 39596 39595 AND\n2 1 39595 39596 39598 XOR\n2 1 95162 121722 39704 XOR\n2 1 39703 39704 39702 AND\n2 1 39702 121722 121723 XOR\n2 1 97211 121723 39706 XOR\n2 1 77045 121784 39793 XOR\n2 1 39793 39794 39792 AND\n2 1 39792 121784 121785 XOR\n2 1 3685 121785 39797 XOR\n2 1 91125 108051 15976 XOR\n2 1 15976 15977 15975 AND\n2 1 15975 108051 108052 XOR\n2 1 91125 84981 108082 XOR\n2 1 108082 108051 3044 XOR\n2 1 82933 77045 131899 XOR\n2 1 131899 131868 78325 XOR\n2 1 77045 131868 55876 XOR\n2 1 55875 55876 55874 AND\n2 1 55874 131868 131869 XOR\n2 1 82934 131869 55878 XOR\n2 1 80373 134782 60105 XOR\n2 1 60105 60106 60104 AND\n2 1 60104 134782 134783 XOR\n2 1 78838 134783 60109 XOR\n2 1 81909 134906 60285 XOR\n2 1 132 134906 60286 XOR\n2 1 60285 60286 60284 AND\n2 1 60284 134906 134907 XOR\n2 1 134938 134907 80374 XOR\n2 1 80374 78838 134814 XOR\n2 1 134814 134783 77046 XOR\n2 1 77046 3685 121816 XOR\n2 1 121816 121785 95163 XOR\n2 1 97211 95163 121754 XOR\n2 1 121754 121723 93127 XOR\n2 1 93127 39598 91126 XOR\n2 1 91126 39598 39597 AND\n2 1 39597 39598 39663 XOR\n1 1 39663 39601 INV\n2 1 95163 121723 39707 XOR\n2 1 39706 39707 39705 AND\n2 1 39705 121723 121724 XOR\n2 1 97212 121724 39709 XOR\n2 1 77046 121785 39796 XOR\n2 1 39796 39797 39795 AND\n2 1 39795 121785 121786 XOR\n2 1 3686 121786 39800 XOR\n2 1 91126 108052 15979 XOR\n2 1 91126 84982 108083 XOR\n2 1 108083 108052 3045 XOR\n2 1 82934 77046 131900 XOR\n2 1 131900 131869 78326 XOR\n2 1 77046 131869 55879 XOR\n2 1 55878 55879 55877 AND\n2 1 55877 131869 131870 XOR\n2 1 82935 131870 55881 XOR\n2 1 80374 134783 60108 XOR\n2 1 60108 60109 60107 AND\n2 1 60107 134783 134784 XOR\n2 1 78839 134784 60112 XOR\n2 1 81910 134907 60288 XOR\n2 1 133 134907 60289 XOR\n2 1 60288 60289 60287 AND\n2 1 60287 134907 134908 XOR\n2 1 134939 134908 80375 XOR\n2 1 80375 78839 134815 XOR\n2 1 134815 134784 77047 XOR\n2 1 77047 3686 121817 XOR\n2 1 121817 121786 95164 XOR\n2 1 97212 95164 121755 XOR\n",
"2 1 121755 121724 93128 XOR\n1 1 93128 39679 INV\n2 1 39679 39663 91127 XOR\n2 1 93128 39663 39600 XOR\n2 1 39600 39601 39599 AND\n2 1 39599 39663 39664 XOR\n1 1 39664 39604 INV\n2 1 95164 121724 39710 XOR\n2 1 39709 39710 39708 AND\n2 1 39708 121724 121725 XOR\n2 1 97213 121725 39712 XOR\n2 1 77047 121786 39799 XOR\n2 1 39799 39800 39798 AND\n2 1 39798 121786 121787 XOR\n2 1 3687 121787 39803 XOR\n2 1 91127 84983 108084 XOR\n2 1 82935 77047 131901 XOR\n2 1 131901 131870 78327 XOR\n2 1 77047 131870 55882 XOR\n2 1 55881 55882 55880 AND\n2 1 55880 131870 131871 XOR\n2 1 82936 131871 55884 XOR\n2 1 80375 134784 60111 XOR\n2 1 60111 60112 60110 AND\n2 1 60110 134784 134785 XOR\n2 1 78840 134785 60115 XOR\n2 1 81911 134908 60291 XOR\n2 1 134 134908 60292 XOR\n2 1 60291 60292 60290 AND\n2 1 60290 134908 134909 XOR\n2 1 134940 134909 80376 XOR\n2 1 80376 78840 134816 XOR\n2 1 134816 134785 77048 XOR\n2 1 77048 3687 121818 XOR\n2 1 121818 121787 95165 XOR\n2 1 97213 95165 121756 XOR\n2 1 121756 121725 93129 XOR\n1 1 93129 39680 INV\n2 1 39680 39664 91128 XOR\n2 1 93129 39664 39603 XOR\n2 1 39603 39604 39602 AND\n2 1 39602 39664 39665 XOR\n1 1 39665 39607 INV\n2 1 95165 121725 39713 XOR\n2 1 39712 39713 39711 AND\n2 1 39711 121725 121726 XOR\n2 1 97214 121726 39715 XOR\n2 1 77048 121787 39802 XOR\n2 1 39802 39803 39801 AND\n2 1 39801 121787 121788 XOR\n2 1 3688 121788 39806 XOR\n2 1 91128 84984 108085 XOR\n2 1 82936 77048 131902 XOR\n2 1 131902 131871 78328 XOR\n2 1 77048 131871 55885 XOR\n2 1 55884 55885 55883 AND\n2 1 55883 131871 131872 XOR\n2 1 82937 131872 55887 XOR\n2 1 80376 134785 60114 XOR\n2 1 60114 60115 60113 AND\n2 1 60113 134785 134786 XOR\n2 1 78841 134786 60118 XOR\n2 1 81912 134909 60294 XOR\n2 1 135 134909 60295 XOR\n2 1 60294 60295 60293 AND\n2 1 60293 134909 134910 XOR\n2 1 134941 134910 80377 XOR\n2 1 80377 78841 134817 XOR\n2 1 134817 134786 77049 XOR\n2 1 77049 3688 121819 XOR\n2 1 121819 121788 95166 XOR\n2 1 97214 95166 121757 XOR\n2 1 121757 121726 93130 XOR\n1 1 93130 39681 INV\n2 1 39681 39665 91129 XOR\n2 1 93130 39665 39606 XOR\n2 1 39606 39607 39605 AND\n2 1 39605 39665 39609 XOR\n2 1 95166 121726 39716 XOR\n2 1 39715 39716 39714 AND\n2 1 39714 121726 121727 XOR\n2 1 97215 121727 39718 XOR\n2 1 77049 121788 39805 XOR\n2 1 39805 39806 39804 AND\n2 1 39804 121788 121789 XOR\n2 1 3689 121789 39809 XOR\n2 1 3176 91129 108024 XOR\n2 1 91129 84985 108086 XOR\n2 1 82937 77049 131903 XOR\n2 1 131903 131872 78329 XOR\n2 1 77049 131872 55888 XOR\n2 1 55887 55888 55886 AND\n2 1 55886 131872 131873 XOR\n2 1 82938 131873 55890 XOR\n2 1 80377 134786 60117 XOR\n2 1 60117 60118 60116 AND\n2 1 60116 134786 134787 XOR\n2 1 78842 134787 60121 XOR\n2 1 81913 134910 60297 XOR\n2 1 136 134910 60298 XOR\n2 1 60297 60298 60296 AND\n2 1 60296 134910 134911 XOR\n2 1 134942 134911 80378 XOR\n2 1 80378 78842 134818 XOR\n2 1 134818 134787 77050 XOR\n2 1 77050 3689 121820 XOR\n2 1 121820 121789 95167 XOR\n2 1 97215 95167 121758 XOR\n2 1 121758 121727 93131 XOR\n2 1 93131 39609 91130 XOR\n2 1 91130 39609 39608 AND\n2 1 39608 39609 39666 XOR\n1 1 39666 39612 INV\n2 1 95167 121727 39719 XOR\n2 1 39718 39719 39717 AND\n2 1 39717 121727 121728 XOR\n2 1 97216 121728 39721 XOR\n2 1 77050 121789 39808 XOR\n2 1 39808 39809 39807 AND\n2 1 39807 121789 121790 XOR\n2 1 3690 121790 39812 XOR\n2 1 3177 91130 108025 XOR\n2 1 91130 84986 108087 XOR\n2 1 82938 77050 131904 XOR\n2 1 131904 131873 78330 XOR\n2 1 77050 131873 55891 XOR\n2 1 55890 55891 55889 AND\n2 1 55889 131873 131874 XOR\n",
"2 1 82939 131874 55893 XOR\n2 1 80378 134787 60120 XOR\n2 1 60120 60121 60119 AND\n2 1 60119 134787 134788 XOR\n2 1 78843 134788 60124 XOR\n2 1 81914 134911 60300 XOR\n2 1 137 134911 60301 XOR\n2 1 60300 60301 60299 AND\n2 1 60299 134911 134912 XOR\n2 1 134943 134912 80379 XOR\n2 1 80379 78843 134819 XOR\n2 1 134819 134788 77051 XOR\n2 1 77051 3690 121821 XOR\n2 1 121821 121790 95168 XOR\n2 1 97216 95168 121759 XOR\n2 1 121759 121728 93132 XOR\n1 1 93132 39682 INV\n2 1 39682 39666 91131 XOR\n2 1 93132 39666 39611 XOR\n2 1 39611 39612 39610 AND\n2 1 39610 39666 39667 XOR\n1 1 39667 39615 INV\n2 1 95168 121728 39722 XOR\n2 1 39721 39722 39720 AND\n2 1 39720 121728 121729 XOR\n2 1 97217 121729 39724 XOR\n2 1 77051 121790 39811 XOR\n2 1 39811 39812 39810 AND\n2 1 39810 121790 121791 XOR\n2 1 3691 121791 39815 XOR\n2 1 3178 91131 108026 XOR\n2 1 91131 84987 108088 XOR\n2 1 82939 77051 131905 XOR\n2 1 131905 131874 78331 XOR\n2 1 77051 131874 55894 XOR\n2 1 55893 55894 55892 AND\n2 1 55892 131874 131875 XOR\n2 1 82940 131875 55896 XOR\n2 1 80379 134788 60123 XOR\n2 1 60123 60124 60122 AND\n2 1 60122 134788 134789 XOR\n2 1 78844 134789 60127 XOR\n2 1 81915 134912 60303 XOR\n2 1 138 134912 60304 XOR\n2 1 60303 60304 60302 AND\n2 1 60302 134912 134913 XOR\n2 1 134944 134913 80380 XOR\n2 1 80380 78844 134820 XOR\n2 1 134820 134789 77052 XOR\n2 1 77052 3691 121822 XOR\n2 1 121822 121791 95169 XOR\n2 1 97217 95169 121760 XOR\n2 1 121760 121729 93133 XOR\n1 1 93133 39683 INV\n2 1 39683 39667 91132 XOR\n2 1 93133 39667 39614 XOR\n2 1 39614 39615 39613 AND\n2 1 39613 39667 39668 XOR\n1 1 39668 39618 INV\n2 1 95169 121729 39725 XOR\n2 1 39724 39725 39723 AND\n2 1 39723 121729 121730 XOR\n2 1 97218 121730 39727 XOR\n2 1 77052 121791 39814 XOR\n2 1 39814 39815 39813 AND\n2 1 39813 121791 121792 XOR\n2 1 3692 121792 39818 XOR\n2 1 3179 91132 108027 XOR\n2 1 91132 84988 108089 XOR\n2 1 82940 77052 131906 XOR\n2 1 131906 131875 78332 XOR\n2 1 77052 131875 55897 XOR\n2 1 55896 55897 55895 AND\n2 1 55895 131875 131876 XOR\n2 1 82941 131876 55899 XOR\n2 1 80380 134789 60126 XOR\n2 1 60126 60127 60125 AND\n2 1 60125 134789 134790 XOR\n2 1 78845 134790 60130 XOR\n2 1 81916 134913 60306 XOR\n2 1 139 134913 60307 XOR\n2 1 60306 60307 60305 AND\n2 1 60305 134913 134914 XOR\n2 1 134945 134914 80381 XOR\n2 1 80381 78845 134821 XOR\n2 1 134821 134790 77053 XOR\n2 1 77053 3692 121823 XOR\n2 1 121823 121792 95170 XOR\n2 1 97218 95170 121761 XOR\n2 1 121761 121730 93134 XOR\n1 1 93134 39684 INV\n2 1 39684 39668 91133 XOR\n2 1 93134 39668 39617 XOR\n2 1 39617 39618 39616 AND\n2 1 39616 39668 39620 XOR\n2 1 95170 121730 39728 XOR\n2 1 39727 39728 39726 AND\n2 1 39726 121730 121731 XOR\n2 1 97219 121731 39730 XOR\n2 1 77053 121792 39817 XOR\n2 1 39817 39818 39816 AND\n2 1 39816 121792 121793 XOR\n2 1 3693 121793 39821 XOR\n2 1 3180 91133 108028 XOR\n2 1 91133 84989 108090 XOR\n2 1 82941 77053 131907 XOR\n2 1 131907 131876 78333 XOR\n2 1 77053 131876 55900 XOR\n2 1 55899 55900 55898 AND\n2 1 55898 131876 131877 XOR\n2 1 82942 131877 55902 XOR\n2 1 80381 134790 60129 XOR\n2 1 60129 60130 60128 AND\n2 1 60128 134790 134791 XOR\n2 1 78846 134791 60133 XOR\n2 1 81917 134914 60309 XOR\n2 1 140 134914 60310 XOR\n2 1 60309 60310 60308 AND\n2 1 60308 134914 134915 XOR\n2 1 134946 134915 80382 XOR\n2 1 80382 78846 134822 XOR\n2 1 134822 134791 77054 XOR\n2 1 77054 3693 121824 XOR\n2 1 121824 121793 95171 XOR\n2 1 97219 95171 121762 XOR\n2 1 121762 121731 93135 XOR\n2 1 93135 39620 91134 XOR\n2 1 91134 39620 39619 AND\n",
"2 1 39619 39620 39622 XOR\n2 1 95171 121731 39731 XOR\n2 1 39730 39731 39729 AND\n2 1 39729 121731 121732 XOR\n2 1 97220 121732 39733 XOR\n2 1 77054 121793 39820 XOR\n2 1 39820 39821 39819 AND\n2 1 39819 121793 121794 XOR\n2 1 3694 121794 39824 XOR\n2 1 3181 91134 108029 XOR\n2 1 91134 84990 108091 XOR\n2 1 82942 77054 131908 XOR\n2 1 131908 131877 78334 XOR\n2 1 77054 131877 55903 XOR\n2 1 55902 55903 55901 AND\n2 1 55901 131877 131878 XOR\n2 1 82943 131878 55905 XOR\n2 1 80382 134791 60132 XOR\n2 1 60132 60133 60131 AND\n2 1 60131 134791 134792 XOR\n2 1 78847 134792 60136 XOR\n2 1 81918 134915 60312 XOR\n2 1 141 134915 60313 XOR\n2 1 60312 60313 60311 AND\n2 1 60311 134915 134916 XOR\n2 1 134947 134916 80383 XOR\n2 1 80383 78847 134823 XOR\n2 1 134823 134792 77055 XOR\n2 1 77055 3694 121825 XOR\n2 1 121825 121794 95172 XOR\n2 1 97220 95172 121763 XOR\n2 1 121763 121732 93136 XOR\n2 1 93136 39622 91135 XOR\n2 1 91135 39622 39621 AND\n2 1 39621 39622 39669 XOR\n1 1 39669 39625 INV\n2 1 95172 121732 39734 XOR\n2 1 39733 39734 39732 AND\n2 1 39732 121732 121733 XOR\n2 1 97221 121733 39736 XOR\n2 1 77055 121794 39823 XOR\n2 1 39823 39824 39822 AND\n2 1 39822 121794 121795 XOR\n2 1 3695 121795 39827 XOR\n2 1 91135 84991 108092 XOR\n2 1 3182 91135 108030 XOR\n2 1 82943 77055 131909 XOR\n2 1 131909 131878 78335 XOR\n2 1 77055 131878 55906 XOR\n2 1 55905 55906 55904 AND\n2 1 55904 131878 131879 XOR\n2 1 82944 131879 55908 XOR\n2 1 80383 134792 60135 XOR\n2 1 60135 60136 60134 AND\n2 1 60134 134792 134793 XOR\n2 1 78848 134793 60139 XOR\n2 1 81919 134916 60315 XOR\n2 1 142 134916 60316 XOR\n2 1 60315 60316 60314 AND\n2 1 60314 134916 134917 XOR\n2 1 134948 134917 80384 XOR\n2 1 80384 78848 134824 XOR\n2 1 134824 134793 77056 XOR\n2 1 77056 3695 121826 XOR\n2 1 121826 121795 95173 XOR\n2 1 97221 95173 121764 XOR\n2 1 121764 121733 93137 XOR\n1 1 93137 39685 INV\n2 1 39685 39669 91136 XOR\n2 1 93137 39669 39624 XOR\n2 1 39624 39625 39623 AND\n2 1 39623 39669 39670 XOR\n1 1 39670 39628 INV\n2 1 95173 121733 39737 XOR\n2 1 39736 39737 39735 AND\n2 1 39735 121733 121734 XOR\n2 1 97222 121734 39739 XOR\n2 1 77056 121795 39826 XOR\n2 1 39826 39827 39825 AND\n2 1 39825 121795 121796 XOR\n2 1 3696 121796 39830 XOR\n2 1 91136 84992 108093 XOR\n2 1 3183 91136 108031 XOR\n2 1 82944 77056 131910 XOR\n2 1 131910 131879 78336 XOR\n2 1 77056 131879 55909 XOR\n2 1 55908 55909 55907 AND\n2 1 55907 131879 131880 XOR\n2 1 82945 131880 55911 XOR\n2 1 80384 134793 60138 XOR\n2 1 60138 60139 60137 AND\n2 1 60137 134793 134794 XOR\n2 1 78849 134794 60142 XOR\n2 1 81920 134917 60318 XOR\n2 1 143 134917 60319 XOR\n2 1 60318 60319 60317 AND\n2 1 60317 134917 134918 XOR\n2 1 134949 134918 80385 XOR\n2 1 80385 78849 134825 XOR\n2 1 134825 134794 77057 XOR\n2 1 77057 3696 121827 XOR\n2 1 121827 121796 95174 XOR\n2 1 97222 95174 121765 XOR\n2 1 121765 121734 93138 XOR\n1 1 93138 39686 INV\n2 1 39686 39670 91137 XOR\n2 1 93138 39670 39627 XOR\n2 1 39627 39628 39626 AND\n2 1 39626 39670 39630 XOR\n2 1 95174 121734 39740 XOR\n2 1 39739 39740 39738 AND\n2 1 39738 121734 121735 XOR\n2 1 97223 121735 39742 XOR\n2 1 77057 121796 39829 XOR\n2 1 39829 39830 39828 AND\n2 1 39828 121796 121797 XOR\n2 1 3697 121797 39833 XOR\n2 1 91137 84993 108094 XOR\n2 1 3184 91137 108032 XOR\n2 1 82945 77057 131911 XOR\n2 1 131911 131880 78337 XOR\n2 1 77057 131880 55912 XOR\n2 1 55911 55912 55910 AND\n2 1 55910 131880 131881 XOR\n2 1 82946 131881 55914 XOR\n2 1 80385 134794 60141 XOR\n2 1 60141 60142 60140 AND\n2 1 60140 134794 134795 XOR\n",
"2 1 78850 134795 60145 XOR\n2 1 81921 134918 60321 XOR\n2 1 144 134918 60322 XOR\n2 1 60321 60322 60320 AND\n2 1 60320 134918 134919 XOR\n2 1 134950 134919 80386 XOR\n2 1 80386 78850 134826 XOR\n2 1 134826 134795 77058 XOR\n2 1 77058 3697 121828 XOR\n2 1 121828 121797 95175 XOR\n2 1 97223 95175 121766 XOR\n2 1 121766 121735 93139 XOR\n2 1 93139 39630 91138 XOR\n2 1 91138 39630 39629 AND\n2 1 39629 39630 39632 XOR\n2 1 95175 121735 39743 XOR\n2 1 39742 39743 39741 AND\n2 1 39741 121735 121736 XOR\n2 1 97224 121736 39745 XOR\n2 1 77058 121797 39832 XOR\n2 1 39832 39833 39831 AND\n2 1 39831 121797 121798 XOR\n2 1 3698 121798 39836 XOR\n2 1 91138 84994 108095 XOR\n2 1 3185 91138 108033 XOR\n2 1 82946 77058 131912 XOR\n2 1 131912 131881 78338 XOR\n2 1 77058 131881 55915 XOR\n2 1 55914 55915 55913 AND\n2 1 55913 131881 131882 XOR\n2 1 82947 131882 55917 XOR\n2 1 80386 134795 60144 XOR\n2 1 60144 60145 60143 AND\n2 1 60143 134795 134796 XOR\n2 1 78851 134796 60148 XOR\n2 1 81922 134919 60324 XOR\n2 1 145 134919 60325 XOR\n2 1 60324 60325 60323 AND\n2 1 60323 134919 134920 XOR\n2 1 134951 134920 80387 XOR\n2 1 80387 78851 134827 XOR\n2 1 134827 134796 77059 XOR\n2 1 77059 3698 121829 XOR\n2 1 121829 121798 95176 XOR\n2 1 97224 95176 121767 XOR\n2 1 121767 121736 93140 XOR\n2 1 93140 39632 91139 XOR\n2 1 91139 39632 39631 AND\n2 1 39631 39632 39634 XOR\n2 1 95176 121736 39746 XOR\n2 1 39745 39746 39744 AND\n2 1 39744 121736 121737 XOR\n2 1 97225 121737 39748 XOR\n2 1 77059 121798 39835 XOR\n2 1 39835 39836 39834 AND\n2 1 39834 121798 121799 XOR\n2 1 3699 121799 39839 XOR\n2 1 91139 84995 108096 XOR\n2 1 3186 91139 108034 XOR\n2 1 82947 77059 131913 XOR\n2 1 131913 131882 78339 XOR\n2 1 77059 131882 55918 XOR\n2 1 55917 55918 55916 AND\n2 1 55916 131882 131883 XOR\n2 1 82948 131883 55920 XOR\n2 1 80387 134796 60147 XOR\n2 1 60147 60148 60146 AND\n2 1 60146 134796 134797 XOR\n2 1 78852 134797 60151 XOR\n2 1 81923 134920 60327 XOR\n2 1 146 134920 60328 XOR\n2 1 60327 60328 60326 AND\n2 1 60326 134920 134921 XOR\n2 1 134952 134921 80388 XOR\n2 1 80388 78852 134828 XOR\n2 1 134828 134797 77060 XOR\n2 1 77060 3699 121830 XOR\n2 1 121830 121799 95177 XOR\n2 1 97225 95177 121768 XOR\n2 1 121768 121737 93141 XOR\n2 1 93141 39634 91140 XOR\n2 1 91140 39634 39633 AND\n2 1 39633 39634 39636 XOR\n2 1 95177 121737 39749 XOR\n2 1 39748 39749 39747 AND\n2 1 39747 121737 121738 XOR\n2 1 97226 121738 39751 XOR\n2 1 77060 121799 39838 XOR\n2 1 39838 39839 39837 AND\n2 1 39837 121799 121800 XOR\n2 1 3700 121800 39842 XOR\n2 1 91140 84996 108097 XOR\n2 1 3187 91140 108035 XOR\n2 1 82948 77060 131914 XOR\n2 1 131914 131883 78340 XOR\n2 1 77060 131883 55921 XOR\n2 1 55920 55921 55919 AND\n2 1 55919 131883 131884 XOR\n2 1 82949 131884 55923 XOR\n2 1 80388 134797 60150 XOR\n2 1 60150 60151 60149 AND\n2 1 60149 134797 134798 XOR\n2 1 78853 134798 60154 XOR\n2 1 81924 134921 60330 XOR\n2 1 147 134921 60331 XOR\n2 1 60330 60331 60329 AND\n2 1 60329 134921 134922 XOR\n2 1 134953 134922 80389 XOR\n2 1 80389 78853 134829 XOR\n2 1 134829 134798 77061 XOR\n2 1 77061 3700 121831 XOR\n2 1 121831 121800 95178 XOR\n2 1 97226 95178 121769 XOR\n2 1 121769 121738 93142 XOR\n2 1 93142 39636 91141 XOR\n2 1 91141 39636 39635 AND\n2 1 39635 39636 39638 XOR\n2 1 95178 121738 39752 XOR\n2 1 39751 39752 39750 AND\n2 1 39750 121738 121739 XOR\n2 1 97227 121739 39754 XOR\n2 1 77061 121800 39841 XOR\n2 1 39841 39842 39840 AND\n2 1 39840 121800 121801 XOR\n2 1 3701 121801 39845 XOR\n2 1 91141 84997 108098 XOR\n2 1 3188 91141 108036 XOR\n2 1 82949 77061 131915 XOR\n",
"2 1 131915 131884 78341 XOR\n2 1 77061 131884 55924 XOR\n2 1 55923 55924 55922 AND\n2 1 55922 131884 131885 XOR\n2 1 82950 131885 55926 XOR\n2 1 80389 134798 60153 XOR\n2 1 60153 60154 60152 AND\n2 1 60152 134798 134799 XOR\n2 1 78854 134799 60157 XOR\n2 1 81925 134922 60333 XOR\n2 1 148 134922 60334 XOR\n2 1 60333 60334 60332 AND\n2 1 60332 134922 134923 XOR\n2 1 134954 134923 80390 XOR\n2 1 80390 78854 134830 XOR\n2 1 134830 134799 77062 XOR\n2 1 77062 3701 121832 XOR\n2 1 121832 121801 95179 XOR\n2 1 97227 95179 121770 XOR\n2 1 121770 121739 93143 XOR\n2 1 93143 39638 91142 XOR\n2 1 91142 39638 39637 AND\n2 1 39637 39638 39671 XOR\n1 1 39671 39641 INV\n2 1 95179 121739 39755 XOR\n2 1 39754 39755 39753 AND\n2 1 39753 121739 121740 XOR\n2 1 97228 121740 39757 XOR\n2 1 77062 121801 39844 XOR\n2 1 39844 39845 39843 AND\n2 1 39843 121801 121802 XOR\n2 1 3702 121802 39848 XOR\n2 1 3189 91142 108037 XOR\n2 1 82950 77062 131916 XOR\n2 1 131916 131885 78342 XOR\n2 1 77062 131885 55927 XOR\n2 1 55926 55927 55925 AND\n2 1 55925 131885 131886 XOR\n2 1 82951 131886 55929 XOR\n2 1 80390 134799 60156 XOR\n2 1 60156 60157 60155 AND\n2 1 60155 134799 134800 XOR\n2 1 78855 134800 60160 XOR\n2 1 81926 134923 60336 XOR\n2 1 149 134923 60337 XOR\n2 1 60336 60337 60335 AND\n2 1 60335 134923 134924 XOR\n2 1 134955 134924 80391 XOR\n2 1 80391 78855 134831 XOR\n2 1 134831 134800 77063 XOR\n2 1 77063 3702 121833 XOR\n2 1 121833 121802 95180 XOR\n2 1 97228 95180 121771 XOR\n2 1 121771 121740 93144 XOR\n1 1 93144 39687 INV\n2 1 39687 39671 91143 XOR\n2 1 93144 39671 39640 XOR\n2 1 39640 39641 39639 AND\n2 1 39639 39671 39672 XOR\n1 1 39672 39644 INV\n2 1 95180 121740 39758 XOR\n2 1 39757 39758 39756 AND\n2 1 39756 121740 121741 XOR\n2 1 97229 121741 39760 XOR\n2 1 77063 121802 39847 XOR\n2 1 39847 39848 39846 AND\n2 1 39846 121802 121803 XOR\n2 1 3703 121803 39851 XOR\n2 1 3190 91143 108038 XOR\n2 1 82951 77063 131917 XOR\n2 1 131917 131886 78343 XOR\n2 1 77063 131886 55930 XOR\n2 1 55929 55930 55928 AND\n2 1 55928 131886 131887 XOR\n2 1 82952 131887 55932 XOR\n2 1 80391 134800 60159 XOR\n2 1 60159 60160 60158 AND\n2 1 60158 134800 134801 XOR\n2 1 78856 134801 60163 XOR\n2 1 81927 134924 60339 XOR\n2 1 150 134924 60340 XOR\n2 1 60339 60340 60338 AND\n2 1 60338 134924 134925 XOR\n2 1 134956 134925 80392 XOR\n2 1 80392 78856 134832 XOR\n2 1 134832 134801 77064 XOR\n2 1 77064 3703 121834 XOR\n2 1 121834 121803 95181 XOR\n2 1 97229 95181 121772 XOR\n2 1 121772 121741 93145 XOR\n1 1 93145 39688 INV\n2 1 39688 39672 91144 XOR\n2 1 93145 39672 39643 XOR\n2 1 39643 39644 39642 AND\n2 1 39642 39672 39673 XOR\n1 1 39673 39647 INV\n2 1 95181 121741 39761 XOR\n2 1 39760 39761 39759 AND\n2 1 39759 121741 121742 XOR\n2 1 97230 121742 39763 XOR\n2 1 77064 121803 39850 XOR\n2 1 39850 39851 39849 AND\n2 1 39849 121803 121804 XOR\n2 1 3704 121804 39854 XOR\n2 1 3191 91144 108039 XOR\n2 1 82952 77064 131918 XOR\n2 1 131918 131887 78344 XOR\n2 1 77064 131887 55933 XOR\n2 1 55932 55933 55931 AND\n2 1 55931 131887 131888 XOR\n2 1 82953 131888 55935 XOR\n2 1 80392 134801 60162 XOR\n2 1 60162 60163 60161 AND\n2 1 60161 134801 134802 XOR\n2 1 78857 134802 60166 XOR\n2 1 81928 134925 60342 XOR\n2 1 151 134925 60343 XOR\n2 1 60342 60343 60341 AND\n2 1 60341 134925 134926 XOR\n2 1 134957 134926 80393 XOR\n2 1 80393 78857 134833 XOR\n2 1 134833 134802 77065 XOR\n2 1 77065 3704 121835 XOR\n2 1 121835 121804 95182 XOR\n2 1 97230 95182 121773 XOR\n2 1 121773 121742 93146 XOR\n1 1 93146 39689 INV\n2 1 39689 39673 91145 XOR\n"]

end Verif.Data
