/-!
# Text of `data/circ/aes_128.txt`, part 4 of 4

Generated by `tools/gen_circuits.py`.
-/

namespace Verif.Data

/-- Lines 27653-36667 of `data/circ/aes_128.txt`, 128 per string. -/
def aesBlocks03 : List String := [
"2 1 26613 26606 26598 AND\n2 1 26620 26605 26596 AND\n2 1 26596 26602 26547 XOR\n2 1 26547 26538 26594 XOR\n2 1 26596 26597 26499 XOR\n2 1 26499 26500 26546 XOR\n2 1 26546 26528 26545 XOR\n2 1 26599 26545 26593 XOR\n2 1 26617 26608 26595 AND\n2 1 26595 26598 26548 XOR\n2 1 26595 26601 26552 XOR\n2 1 26552 26524 26539 XOR\n2 1 26547 26539 26591 XOR\n2 1 26596 26548 26542 XOR\n2 1 26528 26548 26502 XOR\n2 1 26502 26527 26592 XOR\n2 1 26533 26552 26501 XOR\n2 1 34179 26501 26544 XOR\n2 1 26599 26542 26498 XOR\n2 1 34175 26498 26586 XOR\n2 1 26594 26593 26590 AND\n2 1 26590 26544 26585 XOR\n2 1 26590 26592 26589 XOR\n2 1 26591 26589 26588 AND\n2 1 26588 26544 26587 XOR\n2 1 26588 26600 26493 XOR\n2 1 26493 26529 26489 XOR\n2 1 34181 26489 26492 XOR\n2 1 26588 26538 26490 XOR\n2 1 34179 26489 26488 XOR\n2 1 26585 26586 26584 AND\n2 1 26584 26592 26583 XOR\n2 1 26590 26584 26582 XOR\n2 1 26584 26542 26497 XOR\n2 1 26584 26601 26496 XOR\n2 1 26496 26598 26491 XOR\n2 1 26491 26492 26575 XOR\n2 1 26592 26582 26581 AND\n2 1 26581 26589 26579 XOR\n2 1 26581 26599 26551 XOR\n2 1 26551 26545 26573 XOR\n2 1 34175 26551 26534 XOR\n2 1 26534 26497 26580 XOR\n2 1 26587 26579 26578 AND\n2 1 26578 26547 26537 XOR\n2 1 26537 26539 26577 XOR\n2 1 26578 26602 26495 XOR\n2 1 26534 26495 26487 XOR\n2 1 26524 26487 26494 XOR\n2 1 26491 26494 26576 XOR\n2 1 26537 26490 26574 XOR\n2 1 26487 26488 26572 XOR\n2 1 26573 26610 26571 AND\n2 1 26580 26609 26570 AND\n2 1 26583 34174 26569 AND\n2 1 26569 26571 26550 XOR\n2 1 26574 26604 26568 AND\n2 1 26577 26616 26567 AND\n2 1 26567 26568 26553 XOR\n2 1 26587 26606 26566 AND\n2 1 26566 26567 26504 XOR\n2 1 26575 26607 26565 AND\n2 1 26572 26605 26564 AND\n2 1 26564 26553 26543 XOR\n2 1 26564 26567 26519 XOR\n1 1 26519 26516 INV\n2 1 26564 26565 26515 XOR\n2 1 26565 26543 26503 XOR\n2 1 26576 26608 26563 AND\n2 1 26573 26614 26562 AND\n2 1 26580 26611 26561 AND\n2 1 26583 26615 26560 AND\n2 1 26560 26543 26509 XOR\n1 1 26509 26506 INV\n2 1 26574 26619 26559 AND\n2 1 26559 26563 26535 XOR\n2 1 26568 26559 26520 XOR\n1 1 26535 26513 INV\n2 1 26577 26612 26558 AND\n2 1 26566 26558 26522 XOR\n2 1 26587 26613 26557 AND\n2 1 26513 26557 26512 XOR\n2 1 26512 26550 26508 XOR\n2 1 26575 26618 26556 AND\n2 1 26556 26508 26511 XOR\n2 1 26572 26620 26555 AND\n2 1 26555 26556 26549 XOR\n2 1 26561 26549 26531 XOR\n2 1 26562 26531 26532 XOR\n2 1 26570 26532 26536 XOR\n2 1 26571 26536 26541 XOR\n2 1 26553 26541 36214 XOR\n2 1 26522 26549 26518 XOR\n2 1 26550 26518 26521 XOR\n2 1 26520 26521 26624 XOR\n2 1 26513 26518 26517 XOR\n2 1 26516 26517 26623 XOR\n2 1 26541 26515 26622 XOR\n2 1 26531 26508 26507 XOR\n2 1 26506 26507 36212 XOR\n2 1 26569 26536 26505 XOR\n2 1 26504 26505 36213 XOR\n2 1 26532 26503 36216 XOR\n2 1 26576 26617 26554 AND\n2 1 26565 26554 26514 XOR\n1 1 26514 26510 INV\n2 1 26510 26511 26621 XOR\n1 1 26622 36215 INV\n1 1 26621 33090 INV\n1 1 26623 33091 INV\n1 1 26624 33092 INV\n2 1 8848 8849 35793 XOR\n2 1 35793 513 34148 XOR\n2 1 34148 26665 26747 XOR\n2 1 34146 34148 26666 XOR\n2 1 26743 26666 26669 XOR\n2 1 34142 34148 26670 XOR\n2 1 26670 26665 26746 XOR\n2 1 26664 26670 26753 XOR\n2 1 26680 26753 26751 XOR\n2 1 34147 26670 26756 XOR\n2 1 34143 26756 26752 XOR\n2 1 26666 26664 26626 XOR\n2 1 26663 26626 26748 XOR\n2 1 26666 34147 26625 XOR\n2 1 34142 26625 26755 XOR\n2 1 26751 26749 26742 AND\n2 1 26736 26742 26687 XOR\n",
"2 1 26755 34142 26741 AND\n2 1 26756 26752 26739 AND\n2 1 26753 26746 26738 AND\n2 1 26758 26747 26737 AND\n2 1 26737 26665 26667 XOR\n2 1 26669 26667 26673 XOR\n2 1 34149 26673 26678 XOR\n2 1 26687 26678 26734 XOR\n2 1 26736 26737 26639 XOR\n2 1 26639 26640 26686 XOR\n2 1 26686 26668 26685 XOR\n2 1 26739 26685 26733 XOR\n2 1 26757 26748 26735 AND\n2 1 26735 26738 26688 XOR\n2 1 26735 26741 26692 XOR\n2 1 26692 26664 26679 XOR\n2 1 26687 26679 26731 XOR\n2 1 26736 26688 26682 XOR\n2 1 26668 26688 26642 XOR\n2 1 26642 26667 26732 XOR\n2 1 26673 26692 26641 XOR\n2 1 34147 26641 26684 XOR\n2 1 26739 26682 26638 XOR\n2 1 34143 26638 26726 XOR\n2 1 26734 26733 26730 AND\n2 1 26730 26684 26725 XOR\n2 1 26730 26732 26729 XOR\n2 1 26731 26729 26728 AND\n2 1 26728 26684 26727 XOR\n2 1 26728 26740 26633 XOR\n2 1 26633 26669 26629 XOR\n2 1 34149 26629 26632 XOR\n2 1 26728 26678 26630 XOR\n2 1 34147 26629 26628 XOR\n2 1 26725 26726 26724 AND\n2 1 26724 26732 26723 XOR\n2 1 26730 26724 26722 XOR\n2 1 26724 26682 26637 XOR\n2 1 26724 26741 26636 XOR\n2 1 26636 26738 26631 XOR\n2 1 26631 26632 26715 XOR\n2 1 26732 26722 26721 AND\n2 1 26721 26729 26719 XOR\n2 1 26721 26739 26691 XOR\n2 1 26691 26685 26713 XOR\n2 1 34143 26691 26674 XOR\n2 1 26674 26637 26720 XOR\n2 1 26727 26719 26718 AND\n2 1 26718 26687 26677 XOR\n2 1 26677 26679 26717 XOR\n2 1 26718 26742 26635 XOR\n2 1 26674 26635 26627 XOR\n2 1 26664 26627 26634 XOR\n2 1 26631 26634 26716 XOR\n2 1 26677 26630 26714 XOR\n2 1 26627 26628 26712 XOR\n2 1 26713 26750 26711 AND\n2 1 26720 26749 26710 AND\n2 1 26723 34142 26709 AND\n2 1 26709 26711 26690 XOR\n2 1 26714 26744 26708 AND\n2 1 26717 26756 26707 AND\n2 1 26707 26708 26693 XOR\n2 1 26727 26746 26706 AND\n2 1 26706 26707 26644 XOR\n2 1 26715 26747 26705 AND\n2 1 26712 26745 26704 AND\n2 1 26704 26693 26683 XOR\n2 1 26704 26707 26659 XOR\n1 1 26659 26656 INV\n2 1 26704 26705 26655 XOR\n2 1 26705 26683 26643 XOR\n2 1 26716 26748 26703 AND\n2 1 26713 26754 26702 AND\n2 1 26720 26751 26701 AND\n2 1 26723 26755 26700 AND\n2 1 26700 26683 26649 XOR\n1 1 26649 26646 INV\n2 1 26714 26759 26699 AND\n2 1 26699 26703 26675 XOR\n2 1 26708 26699 26660 XOR\n1 1 26675 26653 INV\n2 1 26717 26752 26698 AND\n2 1 26706 26698 26662 XOR\n2 1 26727 26753 26697 AND\n2 1 26653 26697 26652 XOR\n2 1 26652 26690 26648 XOR\n2 1 26715 26758 26696 AND\n2 1 26696 26648 26651 XOR\n2 1 26712 26760 26695 AND\n2 1 26695 26696 26689 XOR\n2 1 26701 26689 26671 XOR\n2 1 26702 26671 26672 XOR\n2 1 26710 26672 26676 XOR\n2 1 26711 26676 26681 XOR\n2 1 26693 26681 36067 XOR\n2 1 26662 26689 26658 XOR\n2 1 26690 26658 26661 XOR\n2 1 26660 26661 26764 XOR\n2 1 26653 26658 26657 XOR\n2 1 26656 26657 26763 XOR\n2 1 26681 26655 26762 XOR\n2 1 26671 26648 26647 XOR\n2 1 26646 26647 36065 XOR\n2 1 26709 26676 26645 XOR\n2 1 26644 26645 36066 XOR\n2 1 36053 36066 9405 XOR\n2 1 26672 26643 36068 XOR\n2 1 26716 26757 26694 AND\n2 1 26705 26694 26654 XOR\n1 1 26654 26650 INV\n2 1 26650 26651 26761 XOR\n2 1 36063 36067 9396 XOR\n2 1 9404 9396 9336 XOR\n2 1 9405 9396 9376 XOR\n2 1 36064 36068 9379 XOR\n2 1 9379 36066 9186 XOR\n2 1 9473 9405 35983 XOR\n2 1 9419 9405 9364 XOR\n2 1 9442 9379 9344 XOR\n2 1 36056 36068 9391 XOR\n1 1 9379 9475 INV\n2 1 36061 36065 9397 XOR\n2 1 9434 9397 9365 XOR\n2 1 36052 9365 35974 XOR\n2 1 35974 1429 34256 XOR\n2 1 33048 9336 35993 XOR\n2 1 35993 1410 34275 XOR\n",
"2 1 36067 9185 9374 XOR\n2 1 36066 36065 9148 XOR\n2 1 9475 33164 9342 XOR\n2 1 9391 36059 9377 XOR\n2 1 9376 9377 35968 XOR\n2 1 35968 1435 34250 XOR\n2 1 9380 36068 9345 XOR\n2 1 9419 36065 9352 XOR\n2 1 9352 9353 35982 XOR\n2 1 35982 1421 34264 XOR\n2 1 9475 36053 9339 XOR\n2 1 9397 33041 9188 XOR\n2 1 9394 36067 9351 XOR\n2 1 9391 36052 9147 XOR\n2 1 9147 9148 9467 XOR\n2 1 9467 9399 35967 XOR\n2 1 35967 1436 34249 XOR\n1 1 9364 9362 INV\n2 1 35983 1420 34265 XOR\n2 1 34265 34264 9774 XOR\n2 1 9186 9187 9451 XOR\n2 1 9451 9445 35992 XOR\n2 1 35992 1411 34274 XOR\n2 1 9444 9379 9355 XOR\n2 1 36056 9355 35979 XOR\n2 1 35979 1424 34261 XOR\n2 1 34261 34256 27737 XOR\n2 1 9350 9351 35984 XOR\n2 1 35984 1419 34266 XOR\n2 1 34264 34266 9894 XOR\n2 1 9399 9397 9338 XOR\n2 1 9338 9339 9337 XOR\n1 1 9337 35991 INV\n2 1 35991 1412 34273 XOR\n2 1 9391 33042 9145 XOR\n2 1 9345 9346 35987 XOR\n2 1 35987 1416 34269 XOR\n2 1 34266 34269 9892 XOR\n2 1 34269 34264 9891 XOR\n1 1 26764 33089 INV\n2 1 33089 33132 9146 XOR\n2 1 9145 9146 9468 XOR\n2 1 33157 33089 9429 XOR\n2 1 9343 9429 9341 XOR\n2 1 9341 9342 35989 XOR\n2 1 9429 9380 9369 XOR\n2 1 33042 9369 35972 XOR\n2 1 35972 1431 34254 XOR\n2 1 35989 1414 34271 XOR\n2 1 34271 34273 26243 XOR\n2 1 9429 9391 9190 XOR\n2 1 33125 9190 35964 XOR\n2 1 35964 1439 34246 XOR\n2 1 33089 9354 35980 XOR\n2 1 35980 1423 34262 XOR\n1 1 26761 33094 INV\n2 1 9375 33094 9373 XOR\n2 1 9444 33094 9334 XOR\n2 1 9334 9335 35994 XOR\n2 1 33048 33094 9414 XOR\n2 1 9414 36063 9348 XOR\n2 1 35994 1409 34276 XOR\n2 1 34274 34276 26246 XOR\n2 1 26246 34275 26205 XOR\n2 1 9373 9374 35969 XOR\n2 1 35969 1434 34251 XOR\n2 1 9445 9414 9361 XOR\n2 1 33162 9361 35977 XOR\n2 1 35977 1426 34259 XOR\n2 1 34259 34261 27644 XOR\n2 1 9348 9349 35985 XOR\n2 1 35985 1418 34267 XOR\n2 1 34267 34269 9798 XOR\n2 1 9798 9894 9879 XOR\n2 1 9894 9879 9870 AND\n1 1 26762 33095 INV\n2 1 33163 33095 9402 XOR\n2 1 9414 9402 9372 XOR\n2 1 33131 9372 35970 XOR\n2 1 9475 33095 9370 XOR\n2 1 9402 9380 9333 XOR\n2 1 36064 9333 35995 XOR\n2 1 35995 1408 34277 XOR\n2 1 34275 34277 26244 XOR\n2 1 34274 34277 26338 XOR\n2 1 26243 26338 26330 XOR\n2 1 26246 26244 26206 XOR\n2 1 26243 26206 26328 XOR\n2 1 34277 34271 26339 XOR\n2 1 35970 1433 34252 XOR\n2 1 34250 34252 29046 XOR\n2 1 34246 34252 29050 XOR\n2 1 34251 29050 29136 XOR\n2 1 29046 34251 29005 XOR\n2 1 34246 29005 29135 XOR\n2 1 29135 34246 29121 AND\n2 1 9370 9371 35971 XOR\n2 1 35971 1432 34253 XOR\n2 1 34251 34253 29044 XOR\n2 1 34250 34253 29138 XOR\n2 1 29044 29050 29133 XOR\n2 1 29046 29044 29006 XOR\n2 1 9402 33130 9357 XOR\n2 1 9357 9358 9356 XOR\n1 1 9356 35978 INV\n2 1 35978 1425 34260 XOR\n2 1 34254 34260 27650 XOR\n2 1 27644 27650 27733 XOR\n2 1 34259 27650 27736 XOR\n2 1 33095 9347 35986 XOR\n2 1 35986 1417 34268 XOR\n2 1 34262 34268 9804 XOR\n2 1 9798 9804 9887 XOR\n2 1 34267 9804 9890 XOR\n2 1 34266 34268 9800 XOR\n2 1 9800 34267 9759 XOR\n2 1 34262 9759 9889 XOR\n2 1 9889 34262 9875 AND\n2 1 9800 9798 9760 XOR\n1 1 26763 33096 INV\n2 1 33096 36057 9189 XOR\n2 1 9188 9189 35966 XOR\n2 1 35966 1437 34248 XOR\n2 1 34248 34250 29140 XOR\n2 1 29044 29140 29125 XOR\n2 1 34249 34248 29020 XOR\n2 1 34253 34248 29137 XOR\n2 1 29140 29125 29116 AND\n",
"2 1 9394 33096 9131 XOR\n2 1 9131 9132 9474 XOR\n2 1 9474 9434 35981 XOR\n2 1 35981 1422 34263 XOR\n2 1 34263 34265 9797 XOR\n2 1 9797 9892 9884 XOR\n2 1 34263 34264 9814 XOR\n2 1 9892 9814 9888 XOR\n2 1 34262 9884 9883 XOR\n2 1 9797 9760 9882 XOR\n2 1 34263 9890 9886 XOR\n2 1 34264 9797 9799 XOR\n2 1 9804 9799 9880 XOR\n2 1 9887 9880 9872 AND\n2 1 34268 9799 9881 XOR\n2 1 9892 9881 9871 AND\n2 1 9870 9871 9773 XOR\n2 1 9773 9774 9820 XOR\n2 1 9871 9799 9801 XOR\n2 1 9890 9886 9873 AND\n2 1 34267 9799 9878 XOR\n2 1 33164 33096 9409 XOR\n2 1 9419 9409 9340 XOR\n2 1 9442 9409 9367 XOR\n2 1 9468 9409 35965 XOR\n2 1 35965 1438 34247 XOR\n2 1 34247 34249 29043 XOR\n2 1 34248 29043 29045 XOR\n2 1 34252 29045 29127 XOR\n2 1 34251 29045 29124 XOR\n2 1 29050 29045 29126 XOR\n2 1 34247 29136 29132 XOR\n2 1 29043 29138 29130 XOR\n2 1 34246 29130 29129 XOR\n2 1 34247 34248 29060 XOR\n2 1 29060 29133 29131 XOR\n2 1 29138 29060 29134 XOR\n2 1 29043 29006 29128 XOR\n2 1 34253 34247 29139 XOR\n2 1 29130 29134 29123 AND\n2 1 29123 29046 29049 XOR\n2 1 29131 29129 29122 AND\n2 1 29116 29122 29067 XOR\n2 1 29139 29124 29120 AND\n2 1 29120 29044 29048 XOR\n2 1 29136 29132 29119 AND\n2 1 29133 29126 29118 AND\n2 1 29138 29127 29117 AND\n2 1 29117 29045 29047 XOR\n2 1 29049 29047 29053 XOR\n2 1 34253 29053 29058 XOR\n2 1 29067 29058 29114 XOR\n2 1 29116 29117 29019 XOR\n2 1 29019 29020 29066 XOR\n2 1 29066 29048 29065 XOR\n2 1 29119 29065 29113 XOR\n2 1 29137 29128 29115 AND\n2 1 29115 29118 29068 XOR\n2 1 29115 29121 29072 XOR\n2 1 29072 29044 29059 XOR\n2 1 29067 29059 29111 XOR\n2 1 29116 29068 29062 XOR\n2 1 29048 29068 29022 XOR\n2 1 29022 29047 29112 XOR\n2 1 29053 29072 29021 XOR\n2 1 34251 29021 29064 XOR\n2 1 29119 29062 29018 XOR\n2 1 34247 29018 29106 XOR\n2 1 29114 29113 29110 AND\n2 1 29110 29064 29105 XOR\n2 1 29110 29112 29109 XOR\n2 1 29111 29109 29108 AND\n2 1 29108 29064 29107 XOR\n2 1 29108 29120 29013 XOR\n2 1 29013 29049 29009 XOR\n2 1 34253 29009 29012 XOR\n2 1 29108 29058 29010 XOR\n2 1 34251 29009 29008 XOR\n2 1 29105 29106 29104 AND\n2 1 29104 29112 29103 XOR\n2 1 29110 29104 29102 XOR\n2 1 29104 29062 29017 XOR\n2 1 29104 29121 29016 XOR\n2 1 29016 29118 29011 XOR\n2 1 29011 29012 29095 XOR\n2 1 29112 29102 29101 AND\n2 1 29101 29109 29099 XOR\n2 1 29101 29119 29071 XOR\n2 1 29071 29065 29093 XOR\n2 1 34247 29071 29054 XOR\n2 1 29054 29017 29100 XOR\n2 1 29107 29099 29098 AND\n2 1 29098 29067 29057 XOR\n2 1 29057 29059 29097 XOR\n2 1 29098 29122 29015 XOR\n2 1 29054 29015 29007 XOR\n2 1 29044 29007 29014 XOR\n2 1 29011 29014 29096 XOR\n2 1 29057 29010 29094 XOR\n2 1 29007 29008 29092 XOR\n2 1 29093 29130 29091 AND\n2 1 29100 29129 29090 AND\n2 1 29103 34246 29089 AND\n2 1 29089 29091 29070 XOR\n2 1 29094 29124 29088 AND\n2 1 29097 29136 29087 AND\n2 1 29087 29088 29073 XOR\n2 1 29107 29126 29086 AND\n2 1 29086 29087 29024 XOR\n2 1 29095 29127 29085 AND\n2 1 29092 29125 29084 AND\n2 1 29084 29073 29063 XOR\n2 1 29084 29087 29039 XOR\n1 1 29039 29036 INV\n2 1 29084 29085 29035 XOR\n2 1 29085 29063 29023 XOR\n2 1 29096 29128 29083 AND\n2 1 29093 29134 29082 AND\n2 1 29100 29131 29081 AND\n2 1 29103 29135 29080 AND\n2 1 29080 29063 29029 XOR\n1 1 29029 29026 INV\n2 1 29094 29139 29079 AND\n2 1 29079 29083 29055 XOR\n2 1 29088 29079 29040 XOR\n1 1 29055 29033 INV\n2 1 29097 29132 29078 AND\n2 1 29086 29078 29042 XOR\n",
"2 1 29107 29133 29077 AND\n2 1 29033 29077 29032 XOR\n2 1 29032 29070 29028 XOR\n2 1 29095 29138 29076 AND\n2 1 29076 29028 29031 XOR\n2 1 29092 29140 29075 AND\n2 1 29075 29076 29069 XOR\n2 1 29081 29069 29051 XOR\n2 1 29082 29051 29052 XOR\n2 1 29090 29052 29056 XOR\n2 1 29091 29056 29061 XOR\n2 1 29073 29061 36236 XOR\n2 1 29042 29069 29038 XOR\n2 1 29070 29038 29041 XOR\n2 1 29040 29041 29144 XOR\n2 1 29033 29038 29037 XOR\n2 1 29036 29037 29143 XOR\n2 1 29061 29035 29142 XOR\n2 1 29051 29028 29027 XOR\n2 1 29026 29027 36234 XOR\n2 1 29089 29056 29025 XOR\n2 1 29024 29025 36235 XOR\n2 1 29052 29023 36237 XOR\n2 1 29096 29137 29074 AND\n2 1 29085 29074 29034 XOR\n1 1 29034 29030 INV\n2 1 29030 29031 29141 XOR\n2 1 36061 9340 35990 XOR\n2 1 35990 1413 34272 XOR\n2 1 34272 26243 26245 XOR\n2 1 34276 26245 26327 XOR\n2 1 34275 26245 26324 XOR\n2 1 34271 34272 26260 XOR\n2 1 26338 26260 26334 XOR\n2 1 34272 34274 26340 XOR\n2 1 26244 26340 26325 XOR\n2 1 34273 34272 26220 XOR\n2 1 34277 34272 26337 XOR\n2 1 26330 26334 26323 AND\n2 1 26323 26246 26249 XOR\n2 1 26339 26324 26320 AND\n2 1 26320 26244 26248 XOR\n2 1 26338 26327 26317 AND\n2 1 26317 26245 26247 XOR\n2 1 26249 26247 26253 XOR\n2 1 34277 26253 26258 XOR\n2 1 26340 26325 26316 AND\n2 1 26316 26317 26219 XOR\n2 1 26219 26220 26266 XOR\n2 1 26266 26248 26265 XOR\n2 1 26337 26328 26315 AND\n2 1 34269 34263 9893 XOR\n2 1 9893 9878 9874 AND\n2 1 9874 9798 9802 XOR\n2 1 9814 9887 9885 XOR\n2 1 9885 9883 9876 AND\n1 1 29142 33141 INV\n1 1 29143 33142 INV\n1 1 29144 33143 INV\n1 1 29141 33148 INV\n2 1 9870 9876 9821 XOR\n2 1 9884 9888 9877 AND\n2 1 9877 9800 9803 XOR\n2 1 9803 9801 9807 XOR\n2 1 34269 9807 9812 XOR\n2 1 9821 9812 9868 XOR\n2 1 9820 9802 9819 XOR\n2 1 9873 9819 9867 XOR\n2 1 9868 9867 9864 AND\n2 1 9891 9882 9869 AND\n2 1 9869 9872 9822 XOR\n2 1 9870 9822 9816 XOR\n2 1 9802 9822 9776 XOR\n2 1 9776 9801 9866 XOR\n2 1 9869 9875 9826 XOR\n2 1 9826 9798 9813 XOR\n2 1 9821 9813 9865 XOR\n2 1 9873 9816 9772 XOR\n2 1 34263 9772 9860 XOR\n2 1 9807 9826 9775 XOR\n2 1 34267 9775 9818 XOR\n2 1 9864 9818 9859 XOR\n2 1 9859 9860 9858 AND\n2 1 9858 9875 9770 XOR\n2 1 9770 9872 9765 XOR\n2 1 9858 9816 9771 XOR\n2 1 9858 9866 9857 XOR\n2 1 9857 9889 9834 AND\n2 1 9857 34262 9843 AND\n2 1 9864 9858 9856 XOR\n2 1 9866 9856 9855 AND\n2 1 9864 9866 9863 XOR\n2 1 9865 9863 9862 AND\n2 1 9855 9863 9853 XOR\n2 1 9862 9812 9764 XOR\n2 1 9862 9874 9767 XOR\n2 1 9862 9818 9861 XOR\n2 1 9861 9853 9852 AND\n2 1 9852 9876 9769 XOR\n2 1 9861 9880 9840 AND\n2 1 9852 9821 9811 XOR\n2 1 9811 9764 9848 XOR\n2 1 9811 9813 9851 XOR\n2 1 9848 9893 9833 AND\n2 1 9851 9886 9832 AND\n2 1 9840 9832 9796 XOR\n2 1 9851 9890 9841 AND\n2 1 9840 9841 9778 XOR\n2 1 9848 9878 9842 AND\n2 1 9842 9833 9794 XOR\n2 1 9841 9842 9827 XOR\n2 1 9767 9803 9763 XOR\n2 1 34267 9763 9762 XOR\n2 1 9855 9873 9825 XOR\n2 1 34263 9825 9808 XOR\n2 1 9808 9769 9761 XOR\n2 1 9798 9761 9768 XOR\n2 1 9765 9768 9850 XOR\n2 1 9850 9891 9828 AND\n2 1 9850 9882 9837 AND\n2 1 9833 9837 9809 XOR\n1 1 9809 9787 INV\n2 1 9808 9771 9854 XOR\n2 1 9854 9883 9844 AND\n2 1 9761 9762 9846 XOR\n2 1 9846 9894 9829 AND\n2 1 9854 9885 9835 AND\n2 1 9825 9819 9847 XOR\n",
"2 1 9847 9888 9836 AND\n2 1 9847 9884 9845 AND\n2 1 9843 9845 9824 XOR\n2 1 34269 9763 9766 XOR\n2 1 9765 9766 9849 XOR\n2 1 9849 9881 9839 AND\n2 1 9849 9892 9830 AND\n2 1 9829 9830 9823 XOR\n2 1 9796 9823 9792 XOR\n2 1 9824 9792 9795 XOR\n2 1 9835 9823 9805 XOR\n2 1 9836 9805 9806 XOR\n2 1 9844 9806 9810 XOR\n2 1 9843 9810 9779 XOR\n2 1 9845 9810 9815 XOR\n2 1 9827 9815 36210 XOR\n2 1 36210 36214 10207 XOR\n2 1 9778 9779 36209 XOR\n2 1 36209 36213 10210 XOR\n2 1 9787 9792 9791 XOR\n2 1 9794 9795 9898 XOR\n2 1 9839 9828 9788 XOR\n1 1 9788 9784 INV\n1 1 9898 32827 INV\n2 1 9861 9887 9831 AND\n2 1 9787 9831 9786 XOR\n2 1 9786 9824 9782 XOR\n2 1 9805 9782 9781 XOR\n2 1 9830 9782 9785 XOR\n2 1 9784 9785 9895 XOR\n1 1 9895 32825 INV\n2 1 32825 33090 10203 XOR\n2 1 33157 9344 35988 XOR\n2 1 35988 1415 34270 XOR\n2 1 34270 26330 26329 XOR\n2 1 34270 34276 26250 XOR\n2 1 26250 26245 26326 XOR\n2 1 26244 26250 26333 XOR\n2 1 26260 26333 26331 XOR\n2 1 34275 26250 26336 XOR\n2 1 34271 26336 26332 XOR\n2 1 34270 26205 26335 XOR\n2 1 26331 26329 26322 AND\n2 1 26316 26322 26267 XOR\n2 1 26267 26258 26314 XOR\n2 1 26335 34270 26321 AND\n2 1 26315 26321 26272 XOR\n2 1 26272 26244 26259 XOR\n2 1 26267 26259 26311 XOR\n2 1 26253 26272 26221 XOR\n2 1 34275 26221 26264 XOR\n2 1 26336 26332 26319 AND\n2 1 26319 26265 26313 XOR\n2 1 26333 26326 26318 AND\n2 1 26315 26318 26268 XOR\n2 1 26316 26268 26262 XOR\n2 1 26248 26268 26222 XOR\n2 1 26222 26247 26312 XOR\n2 1 26319 26262 26218 XOR\n2 1 34271 26218 26306 XOR\n2 1 26314 26313 26310 AND\n2 1 26310 26264 26305 XOR\n2 1 26310 26312 26309 XOR\n2 1 26311 26309 26308 AND\n2 1 26308 26264 26307 XOR\n2 1 26308 26320 26213 XOR\n2 1 26213 26249 26209 XOR\n2 1 34277 26209 26212 XOR\n2 1 26308 26258 26210 XOR\n2 1 34275 26209 26208 XOR\n2 1 26305 26306 26304 AND\n2 1 26304 26312 26303 XOR\n2 1 26310 26304 26302 XOR\n2 1 26304 26262 26217 XOR\n2 1 26304 26321 26216 XOR\n2 1 26216 26318 26211 XOR\n2 1 26211 26212 26295 XOR\n2 1 26312 26302 26301 AND\n2 1 26301 26309 26299 XOR\n2 1 26301 26319 26271 XOR\n2 1 26271 26265 26293 XOR\n2 1 34271 26271 26254 XOR\n2 1 26254 26217 26300 XOR\n2 1 26307 26299 26298 AND\n2 1 26298 26267 26257 XOR\n2 1 26257 26259 26297 XOR\n2 1 26298 26322 26215 XOR\n2 1 26254 26215 26207 XOR\n2 1 26244 26207 26214 XOR\n2 1 26211 26214 26296 XOR\n2 1 26257 26210 26294 XOR\n2 1 26207 26208 26292 XOR\n2 1 26293 26330 26291 AND\n2 1 26300 26329 26290 AND\n2 1 26303 34270 26289 AND\n2 1 26289 26291 26270 XOR\n2 1 26294 26324 26288 AND\n2 1 26297 26336 26287 AND\n2 1 26287 26288 26273 XOR\n2 1 26307 26326 26286 AND\n2 1 26286 26287 26224 XOR\n2 1 26295 26327 26285 AND\n2 1 26292 26325 26284 AND\n2 1 26284 26273 26263 XOR\n2 1 26284 26287 26239 XOR\n1 1 26239 26236 INV\n2 1 26284 26285 26235 XOR\n2 1 26285 26263 26223 XOR\n2 1 26296 26328 26283 AND\n2 1 26293 26334 26282 AND\n2 1 26300 26331 26281 AND\n2 1 26303 26335 26280 AND\n2 1 26280 26263 26229 XOR\n1 1 26229 26226 INV\n2 1 26294 26339 26279 AND\n2 1 26279 26283 26255 XOR\n2 1 26288 26279 26240 XOR\n1 1 26255 26233 INV\n2 1 26297 26332 26278 AND\n2 1 26286 26278 26242 XOR\n2 1 26307 26333 26277 AND\n2 1 26233 26277 26232 XOR\n2 1 26232 26270 26228 XOR\n2 1 26295 26338 26276 AND\n2 1 26276 26228 26231 XOR\n2 1 26292 26340 26275 AND\n2 1 26275 26276 26269 XOR\n2 1 26281 26269 26251 XOR\n",
"2 1 26282 26251 26252 XOR\n2 1 26290 26252 26256 XOR\n2 1 26291 26256 26261 XOR\n2 1 26273 26261 36268 XOR\n2 1 26242 26269 26238 XOR\n2 1 26270 26238 26241 XOR\n2 1 26240 26241 26344 XOR\n2 1 26233 26238 26237 XOR\n2 1 26236 26237 26343 XOR\n2 1 26261 26235 26342 XOR\n2 1 26251 26228 26227 XOR\n2 1 26226 26227 36266 XOR\n2 1 26289 26256 26225 XOR\n2 1 26224 26225 36267 XOR\n2 1 26252 26223 36269 XOR\n2 1 26296 26337 26274 AND\n2 1 26285 26274 26234 XOR\n1 1 26234 26230 INV\n2 1 26230 26231 26341 XOR\n2 1 36267 36266 9916 XOR\n2 1 36254 36267 10175 XOR\n2 1 36257 36269 10161 XOR\n2 1 10161 36253 9915 XOR\n2 1 10161 33155 9913 XOR\n2 1 36268 9953 10144 XOR\n2 1 9915 9916 10237 XOR\n1 1 26341 33081 INV\n2 1 33153 33081 10184 XOR\n1 1 26342 33082 INV\n1 1 26343 33083 INV\n1 1 26344 33084 INV\n2 1 9846 9879 9838 AND\n2 1 9838 9841 9793 XOR\n1 1 9793 9790 INV\n2 1 9838 9839 9789 XOR\n2 1 9815 9789 9896 XOR\n2 1 9838 9827 9817 XOR\n2 1 9839 9817 9777 XOR\n2 1 9834 9817 9783 XOR\n1 1 9783 9780 INV\n2 1 9780 9781 36208 XOR\n1 1 36208 9950 INV\n2 1 36209 9950 9949 XOR\n2 1 9806 9777 36211 XOR\n2 1 36211 36216 10155 XOR\n1 1 10155 10248 INV\n2 1 10248 36212 9948 XOR\n2 1 9948 9949 10223 XOR\n2 1 10248 36210 10074 XOR\n2 1 10155 33092 9946 XOR\n1 1 9896 32826 INV\n2 1 32826 36215 10200 XOR\n2 1 9790 9791 9897 XOR\n1 1 9897 36207 INV\n2 1 33091 9897 10077 XOR\n2 1 34122 34124 23869 XOR\n2 1 23946 23869 23872 XOR\n2 1 23869 23867 23829 XOR\n2 1 23866 23829 23951 XOR\n2 1 23869 34123 23828 XOR\n2 1 34118 23828 23958 XOR\n2 1 23958 34118 23944 AND\n2 1 23960 23951 23938 AND\n2 1 23938 23944 23895 XOR\n2 1 23895 23867 23882 XOR\n2 1 23890 23882 23934 XOR\n2 1 23938 23941 23891 XOR\n2 1 23871 23891 23845 XOR\n2 1 23845 23870 23935 XOR\n2 1 23939 23891 23885 XOR\n2 1 23942 23885 23841 XOR\n2 1 34119 23841 23929 XOR\n2 1 23872 23870 23876 XOR\n2 1 23876 23895 23844 XOR\n2 1 34123 23844 23887 XOR\n2 1 34125 23876 23881 XOR\n2 1 23890 23881 23937 XOR\n2 1 23937 23936 23933 AND\n2 1 23933 23935 23932 XOR\n2 1 23934 23932 23931 AND\n2 1 23931 23943 23836 XOR\n2 1 23836 23872 23832 XOR\n2 1 34123 23832 23831 XOR\n2 1 34125 23832 23835 XOR\n2 1 23931 23881 23833 XOR\n2 1 23933 23887 23928 XOR\n2 1 23928 23929 23927 AND\n2 1 23933 23927 23925 XOR\n2 1 23927 23885 23840 XOR\n2 1 23927 23944 23839 XOR\n2 1 23839 23941 23834 XOR\n2 1 23834 23835 23918 XOR\n2 1 23918 23950 23908 AND\n2 1 23918 23961 23899 AND\n2 1 23935 23925 23924 AND\n2 1 23927 23935 23926 XOR\n2 1 23926 34118 23912 AND\n2 1 23926 23958 23903 AND\n2 1 23924 23942 23894 XOR\n2 1 34119 23894 23877 XOR\n2 1 23877 23840 23923 XOR\n2 1 23923 23952 23913 AND\n2 1 23923 23954 23904 AND\n2 1 23894 23888 23916 XOR\n2 1 23916 23953 23914 AND\n2 1 23912 23914 23893 XOR\n2 1 23916 23957 23905 AND\n2 1 23924 23932 23922 XOR\n2 1 23931 23887 23930 XOR\n2 1 23930 23922 23921 AND\n2 1 23921 23890 23880 XOR\n2 1 23921 23945 23838 XOR\n2 1 23877 23838 23830 XOR\n2 1 23830 23831 23915 XOR\n2 1 23915 23948 23907 AND\n2 1 23907 23908 23858 XOR\n2 1 23915 23963 23898 AND\n2 1 23867 23830 23837 XOR\n2 1 23834 23837 23919 XOR\n2 1 23919 23951 23906 AND\n2 1 23880 23833 23917 XOR\n2 1 23917 23947 23911 AND\n2 1 23930 23949 23909 AND\n2 1 23917 23962 23902 AND\n2 1 23902 23906 23878 XOR\n1 1 23878 23856 INV\n2 1 23911 23902 23863 XOR\n2 1 23930 23956 23900 AND\n",
"2 1 23856 23900 23855 XOR\n2 1 23855 23893 23851 XOR\n2 1 23899 23851 23854 XOR\n2 1 23919 23960 23897 AND\n2 1 23908 23897 23857 XOR\n1 1 23857 23853 INV\n2 1 23853 23854 23964 XOR\n2 1 23898 23899 23892 XOR\n2 1 23904 23892 23874 XOR\n2 1 23874 23851 23850 XOR\n2 1 23905 23874 23875 XOR\n2 1 23913 23875 23879 XOR\n2 1 23912 23879 23848 XOR\n2 1 23914 23879 23884 XOR\n2 1 23884 23858 23965 XOR\n2 1 23880 23882 23920 XOR\n2 1 23920 23959 23910 AND\n2 1 23909 23910 23847 XOR\n2 1 23847 23848 36034 XOR\n2 1 23910 23911 23896 XOR\n2 1 23896 23884 36035 XOR\n2 1 28581 36035 9240 XOR\n2 1 23907 23896 23886 XOR\n2 1 23908 23886 23846 XOR\n2 1 23875 23846 36036 XOR\n2 1 36036 36051 9389 XOR\n2 1 9443 9389 9245 XOR\n2 1 23907 23910 23862 XOR\n1 1 23862 23859 INV\n2 1 23903 23886 23852 XOR\n1 1 23852 23849 INV\n2 1 23849 23850 36033 XOR\n2 1 36033 36038 9439 XOR\n2 1 23920 23955 23901 AND\n2 1 23909 23901 23865 XOR\n2 1 23865 23892 23861 XOR\n2 1 23856 23861 23860 XOR\n2 1 23893 23861 23864 XOR\n2 1 23863 23864 23967 XOR\n2 1 23859 23860 23966 XOR\n2 1 36034 36039 9432 XOR\n1 1 9432 9199 INV\n2 1 9199 9412 9222 XOR\n2 1 9459 9432 35951 XOR\n2 1 9239 9240 35937 XOR\n2 1 9439 9435 9200 XOR\n2 1 35937 1466 34219 XOR\n2 1 33129 9245 35932 XOR\n2 1 35932 1471 34214 XOR\n1 1 9389 9158 INV\n2 1 9158 33093 9156 XOR\n2 1 9158 36048 9159 XOR\n2 1 9161 36033 9160 XOR\n2 1 9159 9160 9462 XOR\n2 1 9462 9421 35935 XOR\n2 1 35935 1468 34217 XOR\n1 1 9439 9215 INV\n2 1 9215 9421 9224 XOR\n2 1 9215 36048 9213 XOR\n2 1 9213 9214 35950 XOR\n2 1 35950 1453 34232 XOR\n2 1 36035 36040 9424 XOR\n2 1 9458 9424 35952 XOR\n2 1 9424 9406 9221 XOR\n2 1 35952 1451 34234 XOR\n2 1 34232 34234 29280 XOR\n1 1 9424 9196 INV\n2 1 9389 36049 9162 XOR\n2 1 9196 9421 9194 XOR\n2 1 9194 9195 35960 XOR\n2 1 35951 1452 34233 XOR\n2 1 34233 34232 29160 XOR\n2 1 36044 9200 35958 XOR\n2 1 35958 1445 34240 XOR\n2 1 9199 9431 9197 XOR\n2 1 9197 9198 35959 XOR\n2 1 35959 1444 34241 XOR\n2 1 34241 34240 9634 XOR\n2 1 36040 36034 9163 XOR\n2 1 9162 9163 9461 XOR\n2 1 9461 9412 35936 XOR\n2 1 35936 1467 34218 XOR\n1 1 23966 33037 INV\n2 1 9168 33037 9243 XOR\n2 1 9242 9243 35934 XOR\n2 1 35934 1469 34216 XOR\n2 1 34217 34216 9494 XOR\n2 1 34216 34218 9614 XOR\n2 1 33037 36037 9446 XOR\n2 1 9446 9431 9226 XOR\n2 1 9446 9443 9204 XOR\n2 1 36033 9226 35942 XOR\n2 1 35942 1461 34224 XOR\n2 1 9460 9446 35949 XOR\n2 1 35949 1454 34231 XOR\n2 1 34231 34233 29183 XOR\n2 1 34232 29183 29185 XOR\n2 1 34231 34232 29200 XOR\n1 1 9204 9202 INV\n2 1 9202 9203 35957 XOR\n2 1 35957 1446 34239 XOR\n2 1 34239 34240 9674 XOR\n2 1 34239 34241 9657 XOR\n2 1 34240 9657 9659 XOR\n1 1 23967 33038 INV\n2 1 28583 33038 9157 XOR\n2 1 9156 9157 9463 XOR\n2 1 9463 9435 35933 XOR\n2 1 35933 1470 34215 XOR\n2 1 34215 34216 9534 XOR\n2 1 34215 34217 9517 XOR\n2 1 34216 9517 9519 XOR\n2 1 34219 9519 9598 XOR\n2 1 33038 33129 9447 XOR\n2 1 9447 9388 9216 XOR\n2 1 9447 9381 9205 XOR\n2 1 33165 9205 35956 XOR\n2 1 9447 9435 9228 XOR\n2 1 33093 9216 35948 XOR\n2 1 35948 1455 34230 XOR\n2 1 35956 1447 34238 XOR\n1 1 23964 33043 INV\n2 1 33043 36041 9417 XOR\n2 1 9417 33098 9211 XOR\n2 1 9211 9212 35953 XOR\n2 1 28582 33043 9235 XOR\n2 1 33043 9221 35945 XOR\n2 1 9417 9395 9220 XOR\n",
"2 1 35953 1450 34235 XOR\n2 1 34235 29185 29264 XOR\n2 1 9234 9235 9233 XOR\n1 1 9233 35938 INV\n2 1 35938 1465 34220 XOR\n2 1 34218 34220 9520 XOR\n2 1 9520 34219 9479 XOR\n2 1 34214 34220 9524 XOR\n2 1 9524 9519 9600 XOR\n2 1 34219 9524 9610 XOR\n2 1 34215 9610 9606 XOR\n2 1 9610 9606 9593 AND\n2 1 34214 9479 9609 XOR\n2 1 9609 34214 9595 AND\n2 1 9417 9412 9193 XOR\n2 1 34220 9519 9601 XOR\n1 1 23965 33044 INV\n2 1 36043 33044 9232 XOR\n2 1 33044 36042 9410 XOR\n2 1 9410 33099 9210 XOR\n2 1 9410 9406 9192 XOR\n2 1 33171 9192 35962 XOR\n1 1 9210 9208 INV\n2 1 9410 9381 9219 XOR\n2 1 36036 9219 35947 XOR\n2 1 35947 1456 34229 XOR\n2 1 34229 34224 27877 XOR\n2 1 9208 9209 35954 XOR\n2 1 35954 1449 34236 XOR\n2 1 34236 29185 29267 XOR\n2 1 34234 34236 29186 XOR\n2 1 34230 34236 29190 XOR\n2 1 29190 29185 29266 XOR\n2 1 34235 29190 29276 XOR\n2 1 34231 29276 29272 XOR\n2 1 29186 34235 29145 XOR\n2 1 34230 29145 29275 XOR\n2 1 29275 34230 29261 AND\n2 1 29276 29272 29259 AND\n2 1 35962 1441 34244 XOR\n2 1 34244 9659 9741 XOR\n2 1 9231 9232 35939 XOR\n2 1 35939 1464 34221 XOR\n2 1 34221 34215 9613 XOR\n2 1 34218 34221 9612 XOR\n2 1 9612 9534 9608 XOR\n2 1 9517 9612 9604 XOR\n2 1 34214 9604 9603 XOR\n2 1 34219 34221 9518 XOR\n2 1 9520 9518 9480 XOR\n2 1 9517 9480 9602 XOR\n2 1 9518 9524 9607 XOR\n2 1 9518 9614 9599 XOR\n2 1 9614 9599 9590 AND\n2 1 34221 34216 9611 XOR\n2 1 9611 9602 9589 AND\n2 1 9589 9595 9546 XOR\n2 1 9546 9518 9533 XOR\n2 1 9604 9608 9597 AND\n2 1 9607 9600 9592 AND\n2 1 9597 9520 9523 XOR\n2 1 9612 9601 9591 AND\n2 1 9591 9519 9521 XOR\n2 1 9523 9521 9527 XOR\n2 1 9527 9546 9495 XOR\n2 1 34219 9495 9538 XOR\n2 1 9590 9591 9493 XOR\n2 1 9493 9494 9540 XOR\n2 1 34221 9527 9532 XOR\n2 1 9613 9598 9594 AND\n2 1 9594 9518 9522 XOR\n2 1 9540 9522 9539 XOR\n2 1 9593 9539 9587 XOR\n2 1 9589 9592 9542 XOR\n2 1 9522 9542 9496 XOR\n2 1 9496 9521 9586 XOR\n2 1 9590 9542 9536 XOR\n2 1 9593 9536 9492 XOR\n2 1 34215 9492 9580 XOR\n2 1 9534 9607 9605 XOR\n2 1 9605 9603 9596 AND\n2 1 9590 9596 9541 XOR\n2 1 9541 9533 9585 XOR\n2 1 9541 9532 9588 XOR\n2 1 9588 9587 9584 AND\n2 1 9584 9538 9579 XOR\n2 1 9584 9586 9583 XOR\n2 1 9585 9583 9582 AND\n2 1 9582 9594 9487 XOR\n2 1 9487 9523 9483 XOR\n2 1 34221 9483 9486 XOR\n2 1 9582 9532 9484 XOR\n2 1 34219 9483 9482 XOR\n2 1 9582 9538 9581 XOR\n2 1 9581 9607 9551 AND\n2 1 9581 9600 9560 AND\n2 1 9579 9580 9578 AND\n2 1 9578 9536 9491 XOR\n2 1 9578 9595 9490 XOR\n2 1 9490 9592 9485 XOR\n2 1 9485 9486 9569 XOR\n2 1 9584 9578 9576 XOR\n2 1 9569 9601 9559 AND\n2 1 9586 9576 9575 AND\n2 1 9575 9593 9545 XOR\n2 1 34215 9545 9528 XOR\n2 1 9545 9539 9567 XOR\n2 1 9567 9608 9556 AND\n2 1 9567 9604 9565 AND\n2 1 9575 9583 9573 XOR\n2 1 9581 9573 9572 AND\n2 1 9572 9541 9531 XOR\n2 1 9531 9533 9571 XOR\n2 1 9572 9596 9489 XOR\n2 1 9528 9489 9481 XOR\n2 1 9481 9482 9566 XOR\n2 1 9571 9610 9561 AND\n2 1 9560 9561 9498 XOR\n2 1 9531 9484 9568 XOR\n2 1 9566 9599 9558 AND\n2 1 9558 9561 9513 XOR\n2 1 9558 9559 9509 XOR\n1 1 9513 9510 INV\n2 1 9571 9606 9552 AND\n2 1 9560 9552 9516 XOR\n2 1 9569 9612 9550 AND\n2 1 9566 9614 9549 AND\n2 1 9549 9550 9543 XOR\n",
"2 1 9516 9543 9512 XOR\n2 1 9528 9491 9574 XOR\n2 1 9574 9603 9564 AND\n2 1 9568 9613 9553 AND\n2 1 9518 9481 9488 XOR\n2 1 9485 9488 9570 XOR\n2 1 9570 9611 9548 AND\n2 1 9559 9548 9508 XOR\n1 1 9508 9504 INV\n2 1 9578 9586 9577 XOR\n2 1 9577 34214 9563 AND\n2 1 9563 9565 9544 XOR\n2 1 9544 9512 9515 XOR\n2 1 9577 9609 9554 AND\n2 1 9574 9605 9555 AND\n2 1 9555 9543 9525 XOR\n2 1 9556 9525 9526 XOR\n2 1 9564 9526 9530 XOR\n2 1 9565 9530 9535 XOR\n2 1 9535 9509 9616 XOR\n2 1 9563 9530 9499 XOR\n2 1 9498 9499 36218 XOR\n1 1 9616 32818 INV\n2 1 9568 9598 9562 AND\n2 1 9561 9562 9547 XOR\n2 1 9558 9547 9537 XOR\n2 1 9554 9537 9503 XOR\n1 1 9503 9500 INV\n2 1 9547 9535 36219 XOR\n2 1 9562 9553 9514 XOR\n2 1 9559 9537 9497 XOR\n2 1 9526 9497 36220 XOR\n2 1 36220 32818 10043 XOR\n2 1 35960 1443 34242 XOR\n2 1 34240 34242 9754 XOR\n2 1 34242 34244 9660 XOR\n2 1 9570 9602 9557 AND\n2 1 9553 9557 9529 XOR\n1 1 9529 9507 INV\n2 1 9507 9551 9506 XOR\n2 1 9507 9512 9511 XOR\n2 1 9510 9511 9617 XOR\n2 1 9506 9544 9502 XOR\n2 1 9525 9502 9501 XOR\n2 1 9500 9501 36217 XOR\n2 1 9550 9502 9505 XOR\n2 1 9504 9505 9615 XOR\n1 1 9617 32819 INV\n1 1 9615 32824 INV\n2 1 33044 9220 35946 XOR\n2 1 35946 1457 34228 XOR\n2 1 35945 1458 34227 XOR\n2 1 34227 34229 27784 XOR\n2 1 36036 36043 9384 XOR\n2 1 9395 9384 9191 XOR\n2 1 36047 9191 35963 XOR\n2 1 35963 1440 34245 XOR\n2 1 34245 34240 9751 XOR\n2 1 34245 34239 9753 XOR\n2 1 34242 34245 9752 XOR\n2 1 9752 9741 9731 AND\n2 1 9731 9659 9661 XOR\n2 1 9657 9752 9744 XOR\n2 1 34238 9744 9743 XOR\n2 1 9443 9384 9230 XOR\n2 1 33038 9230 35940 XOR\n2 1 35940 1463 34222 XOR\n2 1 34222 34228 27790 XOR\n2 1 27784 27790 27873 XOR\n2 1 34227 27790 27876 XOR\n2 1 9752 9674 9748 XOR\n2 1 9744 9748 9737 AND\n2 1 9737 9660 9663 XOR\n2 1 9663 9661 9667 XOR\n2 1 34245 9667 9672 XOR\n2 1 34238 34244 9664 XOR\n2 1 9664 9659 9740 XOR\n2 1 9514 9515 9618 XOR\n1 1 9618 32820 INV\n2 1 33170 9193 35961 XOR\n2 1 35961 1442 34243 XOR\n2 1 34243 9659 9738 XOR\n2 1 9753 9738 9734 AND\n2 1 9660 34243 9619 XOR\n2 1 34238 9619 9749 XOR\n2 1 9749 34238 9735 AND\n2 1 34243 34245 9658 XOR\n2 1 9660 9658 9620 XOR\n2 1 9658 9664 9747 XOR\n2 1 9658 9754 9739 XOR\n2 1 9754 9739 9730 AND\n2 1 9730 9731 9633 XOR\n2 1 9633 9634 9680 XOR\n2 1 9674 9747 9745 XOR\n2 1 9745 9743 9736 AND\n2 1 9734 9658 9662 XOR\n2 1 9680 9662 9679 XOR\n2 1 9657 9620 9742 XOR\n2 1 9751 9742 9729 AND\n2 1 9747 9740 9732 AND\n2 1 9729 9732 9682 XOR\n2 1 9662 9682 9636 XOR\n2 1 9636 9661 9726 XOR\n2 1 9730 9682 9676 XOR\n2 1 34243 9664 9750 XOR\n2 1 34239 9750 9746 XOR\n2 1 9750 9746 9733 AND\n2 1 9733 9676 9632 XOR\n2 1 34239 9632 9720 XOR\n2 1 9733 9679 9727 XOR\n2 1 9729 9735 9686 XOR\n2 1 9667 9686 9635 XOR\n2 1 34243 9635 9678 XOR\n2 1 9686 9658 9673 XOR\n2 1 9730 9736 9681 XOR\n2 1 9681 9672 9728 XOR\n2 1 9681 9673 9725 XOR\n2 1 9728 9727 9724 AND\n2 1 9724 9726 9723 XOR\n2 1 9724 9678 9719 XOR\n2 1 9725 9723 9722 AND\n2 1 9722 9678 9721 XOR\n2 1 9722 9734 9627 XOR\n2 1 9627 9663 9623 XOR\n2 1 34245 9623 9626 XOR\n2 1 9721 9740 9700 AND\n2 1 9721 9747 9691 AND\n2 1 9722 9672 9624 XOR\n",
"2 1 34243 9623 9622 XOR\n2 1 9719 9720 9718 AND\n2 1 9718 9676 9631 XOR\n2 1 9718 9726 9717 XOR\n2 1 9718 9735 9630 XOR\n2 1 9630 9732 9625 XOR\n2 1 9717 9749 9694 AND\n2 1 9724 9718 9716 XOR\n2 1 9717 34238 9703 AND\n2 1 9726 9716 9715 AND\n2 1 9715 9723 9713 XOR\n2 1 9625 9626 9709 XOR\n2 1 9709 9752 9690 AND\n2 1 9715 9733 9685 XOR\n2 1 34239 9685 9668 XOR\n2 1 9668 9631 9714 XOR\n2 1 9714 9745 9695 AND\n2 1 9714 9743 9704 AND\n2 1 9685 9679 9707 XOR\n2 1 9707 9748 9696 AND\n2 1 9721 9713 9712 AND\n2 1 9712 9736 9629 XOR\n2 1 9668 9629 9621 XOR\n2 1 9621 9622 9706 XOR\n2 1 9658 9621 9628 XOR\n2 1 9625 9628 9710 XOR\n2 1 9710 9742 9697 AND\n2 1 9710 9751 9688 AND\n2 1 9709 9741 9699 AND\n2 1 9699 9688 9648 XOR\n1 1 9648 9644 INV\n2 1 9707 9744 9705 AND\n2 1 9703 9705 9684 XOR\n2 1 9712 9681 9671 XOR\n2 1 9671 9624 9708 XOR\n2 1 9708 9753 9693 AND\n2 1 9693 9697 9669 XOR\n1 1 9669 9647 INV\n2 1 9671 9673 9711 XOR\n2 1 9711 9750 9701 AND\n2 1 9700 9701 9638 XOR\n2 1 9711 9746 9692 AND\n2 1 9700 9692 9656 XOR\n2 1 9708 9738 9702 AND\n2 1 9702 9693 9654 XOR\n2 1 9701 9702 9687 XOR\n2 1 9647 9691 9646 XOR\n2 1 9646 9684 9642 XOR\n2 1 9690 9642 9645 XOR\n2 1 9644 9645 9755 XOR\n1 1 9755 32828 INV\n2 1 9706 9739 9698 AND\n2 1 9698 9687 9677 XOR\n2 1 9694 9677 9643 XOR\n1 1 9643 9640 INV\n2 1 9698 9701 9653 XOR\n1 1 9653 9650 INV\n2 1 9698 9699 9649 XOR\n2 1 9699 9677 9637 XOR\n2 1 9706 9754 9689 AND\n2 1 9689 9690 9683 XOR\n2 1 9656 9683 9652 XOR\n2 1 9684 9652 9655 XOR\n2 1 9654 9655 9758 XOR\n2 1 9647 9652 9651 XOR\n2 1 9650 9651 9757 XOR\n1 1 9757 32822 INV\n1 1 9758 32823 INV\n2 1 9695 9683 9665 XOR\n2 1 9696 9665 9666 XOR\n2 1 9704 9666 9670 XOR\n2 1 9703 9670 9639 XOR\n2 1 9638 9639 36250 XOR\n2 1 9705 9670 9675 XOR\n2 1 9675 9649 9756 XOR\n2 1 9687 9675 36251 XOR\n2 1 9665 9642 9641 XOR\n2 1 9640 9641 36249 XOR\n2 1 9666 9637 36252 XOR\n2 1 36237 36252 10159 XOR\n2 1 10159 36250 9930 XOR\n1 1 10159 9926 INV\n2 1 9926 32823 9924 XOR\n2 1 9926 36249 9927 XOR\n1 1 9756 32821 INV\n1 1 9384 33230 INV\n2 1 33230 33037 9229 XOR\n2 1 33230 36051 9206 XOR\n2 1 33230 36035 9223 XOR\n2 1 9206 9207 35955 XOR\n2 1 35955 1448 34237 XOR\n2 1 34235 34237 29184 XOR\n2 1 29184 29280 29265 XOR\n2 1 34234 34237 29278 XOR\n2 1 29278 29200 29274 XOR\n2 1 29184 29190 29273 XOR\n2 1 29200 29273 29271 XOR\n2 1 29183 29278 29270 XOR\n2 1 34230 29270 29269 XOR\n2 1 29186 29184 29146 XOR\n2 1 29183 29146 29268 XOR\n2 1 34237 34231 29279 XOR\n2 1 34237 34232 29277 XOR\n2 1 29270 29274 29263 AND\n2 1 29263 29186 29189 XOR\n2 1 29271 29269 29262 AND\n2 1 29279 29264 29260 AND\n2 1 29260 29184 29188 XOR\n2 1 29273 29266 29258 AND\n2 1 29278 29267 29257 AND\n2 1 29257 29185 29187 XOR\n2 1 29189 29187 29193 XOR\n2 1 34237 29193 29198 XOR\n2 1 29280 29265 29256 AND\n2 1 29256 29262 29207 XOR\n2 1 29207 29198 29254 XOR\n2 1 29256 29257 29159 XOR\n2 1 29159 29160 29206 XOR\n2 1 29206 29188 29205 XOR\n2 1 29259 29205 29253 XOR\n2 1 29277 29268 29255 AND\n2 1 29255 29258 29208 XOR\n2 1 29255 29261 29212 XOR\n2 1 29212 29184 29199 XOR\n2 1 29207 29199 29251 XOR\n2 1 29256 29208 29202 XOR\n2 1 29188 29208 29162 XOR\n2 1 29162 29187 29252 XOR\n",
"2 1 29193 29212 29161 XOR\n2 1 34235 29161 29204 XOR\n2 1 29259 29202 29158 XOR\n2 1 34231 29158 29246 XOR\n2 1 29254 29253 29250 AND\n2 1 29250 29204 29245 XOR\n2 1 29250 29252 29249 XOR\n2 1 29251 29249 29248 AND\n2 1 29248 29204 29247 XOR\n2 1 29248 29260 29153 XOR\n2 1 29153 29189 29149 XOR\n2 1 34237 29149 29152 XOR\n2 1 29248 29198 29150 XOR\n2 1 34235 29149 29148 XOR\n2 1 29245 29246 29244 AND\n2 1 29244 29252 29243 XOR\n2 1 29250 29244 29242 XOR\n2 1 29244 29202 29157 XOR\n2 1 29244 29261 29156 XOR\n2 1 29156 29258 29151 XOR\n2 1 29151 29152 29235 XOR\n2 1 29252 29242 29241 AND\n2 1 29241 29249 29239 XOR\n2 1 29241 29259 29211 XOR\n2 1 29211 29205 29233 XOR\n2 1 34231 29211 29194 XOR\n2 1 29194 29157 29240 XOR\n2 1 29247 29239 29238 AND\n2 1 29238 29207 29197 XOR\n2 1 29197 29199 29237 XOR\n2 1 29238 29262 29155 XOR\n2 1 29194 29155 29147 XOR\n2 1 29184 29147 29154 XOR\n2 1 29151 29154 29236 XOR\n2 1 29197 29150 29234 XOR\n2 1 29147 29148 29232 XOR\n2 1 29233 29270 29231 AND\n2 1 29240 29269 29230 AND\n2 1 29243 34230 29229 AND\n2 1 29229 29231 29210 XOR\n2 1 29234 29264 29228 AND\n2 1 29237 29276 29227 AND\n2 1 29227 29228 29213 XOR\n2 1 29247 29266 29226 AND\n2 1 29226 29227 29164 XOR\n2 1 29235 29267 29225 AND\n2 1 29232 29265 29224 AND\n2 1 29224 29213 29203 XOR\n2 1 29224 29227 29179 XOR\n1 1 29179 29176 INV\n2 1 29224 29225 29175 XOR\n2 1 29225 29203 29163 XOR\n2 1 29236 29268 29223 AND\n2 1 29233 29274 29222 AND\n2 1 29240 29271 29221 AND\n2 1 29243 29275 29220 AND\n2 1 29220 29203 29169 XOR\n1 1 29169 29166 INV\n2 1 29234 29279 29219 AND\n2 1 29219 29223 29195 XOR\n2 1 29228 29219 29180 XOR\n1 1 29195 29173 INV\n2 1 29237 29272 29218 AND\n2 1 29226 29218 29182 XOR\n2 1 29247 29273 29217 AND\n2 1 29173 29217 29172 XOR\n2 1 29172 29210 29168 XOR\n2 1 29235 29278 29216 AND\n2 1 29216 29168 29171 XOR\n2 1 29232 29280 29215 AND\n2 1 29215 29216 29209 XOR\n2 1 29221 29209 29191 XOR\n2 1 29222 29191 29192 XOR\n2 1 29230 29192 29196 XOR\n2 1 29231 29196 29201 XOR\n2 1 29213 29201 36264 XOR\n2 1 29182 29209 29178 XOR\n2 1 29210 29178 29181 XOR\n2 1 29180 29181 29284 XOR\n2 1 29173 29178 29177 XOR\n2 1 29176 29177 29283 XOR\n2 1 29201 29175 29282 XOR\n2 1 29191 29168 29167 XOR\n2 1 29166 29167 36262 XOR\n2 1 36262 36266 10167 XOR\n2 1 29229 29196 29165 XOR\n2 1 29164 29165 36263 XOR\n2 1 29192 29163 36265 XOR\n2 1 36265 36269 10149 XOR\n2 1 29236 29277 29214 AND\n2 1 29225 29214 29174 XOR\n1 1 29174 29170 INV\n2 1 29170 29171 29281 XOR\n2 1 10167 33154 9956 XOR\n2 1 36264 36263 9955 XOR\n2 1 10184 36264 10118 XOR\n2 1 10149 36267 9954 XOR\n2 1 9954 9955 10221 XOR\n2 1 36264 36268 10166 XOR\n2 1 10175 10166 10146 XOR\n2 1 33230 36034 9225 XOR\n2 1 9224 9225 35943 XOR\n2 1 35943 1460 34225 XOR\n2 1 34225 34224 27760 XOR\n2 1 9222 9223 35944 XOR\n2 1 35944 1459 34226 XOR\n2 1 34226 34228 27786 XOR\n2 1 34226 34229 27878 XOR\n2 1 34224 34226 27880 XOR\n2 1 27784 27880 27865 XOR\n2 1 27786 27784 27746 XOR\n2 1 27786 34227 27745 XOR\n2 1 34222 27745 27875 XOR\n2 1 27875 34222 27861 AND\n2 1 27880 27865 27856 AND\n2 1 9228 9229 9227 XOR\n1 1 9227 35941 INV\n2 1 35941 1462 34223 XOR\n2 1 34223 34225 27783 XOR\n2 1 34224 27783 27785 XOR\n2 1 34228 27785 27867 XOR\n2 1 34227 27785 27864 XOR\n2 1 27790 27785 27866 XOR\n2 1 34223 27876 27872 XOR\n2 1 27783 27878 27870 XOR\n2 1 34222 27870 27869 XOR\n2 1 34223 34224 27800 XOR\n2 1 27800 27873 27871 XOR\n",
"2 1 27878 27800 27874 XOR\n2 1 27783 27746 27868 XOR\n2 1 34229 34223 27879 XOR\n2 1 27870 27874 27863 AND\n2 1 27863 27786 27789 XOR\n2 1 27871 27869 27862 AND\n2 1 27856 27862 27807 XOR\n2 1 27879 27864 27860 AND\n2 1 27860 27784 27788 XOR\n2 1 27876 27872 27859 AND\n2 1 27873 27866 27858 AND\n2 1 27878 27867 27857 AND\n2 1 27857 27785 27787 XOR\n2 1 27789 27787 27793 XOR\n2 1 34229 27793 27798 XOR\n2 1 27807 27798 27854 XOR\n2 1 27856 27857 27759 XOR\n2 1 27759 27760 27806 XOR\n2 1 27806 27788 27805 XOR\n2 1 27859 27805 27853 XOR\n2 1 27877 27868 27855 AND\n2 1 27855 27858 27808 XOR\n2 1 27855 27861 27812 XOR\n2 1 27812 27784 27799 XOR\n2 1 27807 27799 27851 XOR\n2 1 27856 27808 27802 XOR\n2 1 27788 27808 27762 XOR\n2 1 27762 27787 27852 XOR\n2 1 27793 27812 27761 XOR\n2 1 34227 27761 27804 XOR\n2 1 27859 27802 27758 XOR\n2 1 34223 27758 27846 XOR\n2 1 27854 27853 27850 AND\n2 1 27850 27804 27845 XOR\n2 1 27850 27852 27849 XOR\n2 1 27851 27849 27848 AND\n2 1 27848 27804 27847 XOR\n2 1 27848 27860 27753 XOR\n2 1 27753 27789 27749 XOR\n2 1 34229 27749 27752 XOR\n2 1 27848 27798 27750 XOR\n2 1 34227 27749 27748 XOR\n2 1 27845 27846 27844 AND\n2 1 27844 27852 27843 XOR\n2 1 27850 27844 27842 XOR\n2 1 27844 27802 27757 XOR\n2 1 27844 27861 27756 XOR\n2 1 27756 27858 27751 XOR\n2 1 27751 27752 27835 XOR\n2 1 27852 27842 27841 AND\n2 1 27841 27849 27839 XOR\n2 1 27841 27859 27811 XOR\n2 1 27811 27805 27833 XOR\n2 1 34223 27811 27794 XOR\n2 1 27794 27757 27840 XOR\n2 1 27847 27839 27838 AND\n2 1 27838 27807 27797 XOR\n2 1 27797 27799 27837 XOR\n2 1 27838 27862 27755 XOR\n2 1 27794 27755 27747 XOR\n2 1 27784 27747 27754 XOR\n2 1 27751 27754 27836 XOR\n2 1 27797 27750 27834 XOR\n2 1 27747 27748 27832 XOR\n2 1 27833 27870 27831 AND\n2 1 27840 27869 27830 AND\n2 1 27843 34222 27829 AND\n2 1 27829 27831 27810 XOR\n2 1 27834 27864 27828 AND\n2 1 27837 27876 27827 AND\n2 1 27827 27828 27813 XOR\n2 1 27847 27866 27826 AND\n2 1 27826 27827 27764 XOR\n2 1 27835 27867 27825 AND\n2 1 27832 27865 27824 AND\n2 1 27824 27813 27803 XOR\n2 1 27824 27827 27779 XOR\n1 1 27779 27776 INV\n2 1 27824 27825 27775 XOR\n2 1 27825 27803 27763 XOR\n2 1 27836 27868 27823 AND\n2 1 27833 27874 27822 AND\n2 1 27840 27871 27821 AND\n2 1 27843 27875 27820 AND\n2 1 27820 27803 27769 XOR\n1 1 27769 27766 INV\n2 1 27834 27879 27819 AND\n2 1 27819 27823 27795 XOR\n2 1 27828 27819 27780 XOR\n1 1 27795 27773 INV\n2 1 27837 27872 27818 AND\n2 1 27826 27818 27782 XOR\n2 1 27847 27873 27817 AND\n2 1 27773 27817 27772 XOR\n2 1 27772 27810 27768 XOR\n2 1 27835 27878 27816 AND\n2 1 27816 27768 27771 XOR\n2 1 27832 27880 27815 AND\n2 1 27815 27816 27809 XOR\n2 1 27821 27809 27791 XOR\n2 1 27822 27791 27792 XOR\n2 1 27830 27792 27796 XOR\n2 1 27831 27796 27801 XOR\n2 1 27813 27801 36203 XOR\n2 1 27782 27809 27778 XOR\n2 1 27810 27778 27781 XOR\n2 1 27780 27781 27884 XOR\n2 1 27773 27778 27777 XOR\n2 1 27776 27777 27883 XOR\n2 1 27801 27775 27882 XOR\n2 1 33090 27882 10007 XOR\n2 1 27791 27768 27767 XOR\n2 1 27766 27767 36201 XOR\n2 1 27829 27796 27765 XOR\n2 1 27764 27765 36202 XOR\n2 1 27792 27763 36206 XOR\n2 1 36206 36211 10157 XOR\n1 1 10157 10091 INV\n2 1 27836 27877 27814 AND\n2 1 27825 27814 27774 XOR\n1 1 27774 27770 INV\n2 1 27770 27771 27881 XOR\n1 1 27882 36205 INV\n1 1 27881 36204 INV\n2 1 36214 27881 10024 XOR\n2 1 10157 36214 9940 XOR\n2 1 36209 36202 9941 XOR\n2 1 9940 9941 10227 XOR\n",
"2 1 36210 36203 10085 XOR\n2 1 10091 36213 10090 XOR\n2 1 32826 27882 10081 XOR\n2 1 36201 36208 10195 XOR\n2 1 32825 27881 10083 XOR\n2 1 36213 36203 9904 XOR\n2 1 26622 36206 9987 XOR\n1 1 10195 10078 INV\n1 1 10149 10246 INV\n2 1 10246 33082 10140 XOR\n2 1 10246 36254 10109 XOR\n1 1 27884 33117 INV\n2 1 33117 32827 10196 XOR\n2 1 10196 10155 10079 XOR\n1 1 27883 33124 INV\n2 1 10091 33124 10095 XOR\n2 1 33124 36207 10197 XOR\n1 1 29282 33145 INV\n2 1 33145 33082 10172 XOR\n2 1 10184 10172 10142 XOR\n1 1 29283 33146 INV\n2 1 10246 33146 10112 XOR\n2 1 33146 33083 10179 XOR\n1 1 29284 33147 INV\n2 1 33147 33084 10199 XOR\n2 1 10199 10161 9958 XOR\n1 1 29281 33152 INV\n2 1 33145 33152 10105 XOR\n1 1 8895 33248 INV\n2 1 33248 32807 8883 XOR\n2 1 33248 35861 8878 XOR\n2 1 8877 8878 35774 XOR\n2 1 35774 532 34129 XOR\n2 1 34129 34128 28040 XOR\n2 1 33248 35852 8696 XOR\n2 1 8696 8697 8967 XOR\n2 1 8967 8911 35775 XOR\n2 1 35775 531 34130 XOR\n2 1 34130 34132 28066 XOR\n2 1 34130 34133 28158 XOR\n2 1 34128 34130 28160 XOR\n2 1 28064 28160 28145 XOR\n2 1 28066 28064 28026 XOR\n2 1 28066 34131 28025 XOR\n2 1 34126 28025 28155 XOR\n2 1 28155 34126 28141 AND\n2 1 28160 28145 28136 AND\n2 1 8882 8883 8881 XOR\n1 1 8881 35772 INV\n2 1 35772 534 34127 XOR\n2 1 34127 34129 28063 XOR\n2 1 34128 28063 28065 XOR\n2 1 34132 28065 28147 XOR\n2 1 34131 28065 28144 XOR\n2 1 28070 28065 28146 XOR\n2 1 34127 28156 28152 XOR\n2 1 28063 28158 28150 XOR\n2 1 34126 28150 28149 XOR\n2 1 34127 34128 28080 XOR\n2 1 28080 28153 28151 XOR\n2 1 28158 28080 28154 XOR\n2 1 28063 28026 28148 XOR\n2 1 34133 34127 28159 XOR\n2 1 28150 28154 28143 AND\n2 1 28143 28066 28069 XOR\n2 1 28151 28149 28142 AND\n2 1 28136 28142 28087 XOR\n2 1 28159 28144 28140 AND\n2 1 28140 28064 28068 XOR\n2 1 28156 28152 28139 AND\n2 1 28153 28146 28138 AND\n2 1 28158 28147 28137 AND\n2 1 28137 28065 28067 XOR\n2 1 28069 28067 28073 XOR\n2 1 34133 28073 28078 XOR\n2 1 28087 28078 28134 XOR\n2 1 28136 28137 28039 XOR\n2 1 28039 28040 28086 XOR\n2 1 28086 28068 28085 XOR\n2 1 28139 28085 28133 XOR\n2 1 28157 28148 28135 AND\n2 1 28135 28138 28088 XOR\n2 1 28135 28141 28092 XOR\n2 1 28092 28064 28079 XOR\n2 1 28087 28079 28131 XOR\n2 1 28136 28088 28082 XOR\n2 1 28068 28088 28042 XOR\n2 1 28042 28067 28132 XOR\n2 1 28073 28092 28041 XOR\n2 1 34131 28041 28084 XOR\n2 1 28139 28082 28038 XOR\n2 1 34127 28038 28126 XOR\n2 1 28134 28133 28130 AND\n2 1 28130 28084 28125 XOR\n2 1 28130 28132 28129 XOR\n2 1 28131 28129 28128 AND\n2 1 28128 28084 28127 XOR\n2 1 28128 28140 28033 XOR\n2 1 28033 28069 28029 XOR\n2 1 34133 28029 28032 XOR\n2 1 28128 28078 28030 XOR\n2 1 34131 28029 28028 XOR\n2 1 28125 28126 28124 AND\n2 1 28124 28132 28123 XOR\n2 1 28130 28124 28122 XOR\n2 1 28124 28082 28037 XOR\n2 1 28124 28141 28036 XOR\n2 1 28036 28138 28031 XOR\n2 1 28031 28032 28115 XOR\n2 1 28132 28122 28121 AND\n2 1 28121 28129 28119 XOR\n2 1 28121 28139 28091 XOR\n2 1 28091 28085 28113 XOR\n2 1 34127 28091 28074 XOR\n2 1 28074 28037 28120 XOR\n2 1 28127 28119 28118 AND\n2 1 28118 28087 28077 XOR\n2 1 28077 28079 28117 XOR\n2 1 28118 28142 28035 XOR\n2 1 28074 28035 28027 XOR\n2 1 28064 28027 28034 XOR\n2 1 28031 28034 28116 XOR\n2 1 28077 28030 28114 XOR\n2 1 28027 28028 28112 XOR\n2 1 28113 28150 28111 AND\n2 1 28120 28149 28110 AND\n2 1 28123 34126 28109 AND\n2 1 28109 28111 28090 XOR\n",
"2 1 28114 28144 28108 AND\n2 1 28117 28156 28107 AND\n2 1 28107 28108 28093 XOR\n2 1 28127 28146 28106 AND\n2 1 28106 28107 28044 XOR\n2 1 28115 28147 28105 AND\n2 1 28112 28145 28104 AND\n2 1 28104 28093 28083 XOR\n2 1 28104 28107 28059 XOR\n1 1 28059 28056 INV\n2 1 28104 28105 28055 XOR\n2 1 28105 28083 28043 XOR\n2 1 28116 28148 28103 AND\n2 1 28113 28154 28102 AND\n2 1 28120 28151 28101 AND\n2 1 28123 28155 28100 AND\n2 1 28100 28083 28049 XOR\n1 1 28049 28046 INV\n2 1 28114 28159 28099 AND\n2 1 28099 28103 28075 XOR\n2 1 28108 28099 28060 XOR\n1 1 28075 28053 INV\n2 1 28117 28152 28098 AND\n2 1 28106 28098 28062 XOR\n2 1 28127 28153 28097 AND\n2 1 28053 28097 28052 XOR\n2 1 28052 28090 28048 XOR\n2 1 28115 28158 28096 AND\n2 1 28096 28048 28051 XOR\n2 1 28112 28160 28095 AND\n2 1 28095 28096 28089 XOR\n2 1 28101 28089 28071 XOR\n2 1 28102 28071 28072 XOR\n2 1 28110 28072 28076 XOR\n2 1 28111 28076 28081 XOR\n2 1 28093 28081 36023 XOR\n2 1 36018 36023 9411 XOR\n2 1 28062 28089 28058 XOR\n2 1 28090 28058 28061 XOR\n2 1 28060 28061 28164 XOR\n2 1 28053 28058 28057 XOR\n2 1 28056 28057 28163 XOR\n2 1 28081 28055 28162 XOR\n2 1 28071 28048 28047 XOR\n2 1 28046 28047 36021 XOR\n2 1 36025 36021 9152 XOR\n2 1 28109 28076 28045 XOR\n2 1 28044 28045 36022 XOR\n2 1 28072 28043 36024 XOR\n2 1 36024 9291 35907 XOR\n2 1 28116 28157 28094 AND\n2 1 28105 28094 28054 XOR\n1 1 28054 28050 INV\n2 1 28050 28051 28161 XOR\n1 1 28163 36020 INV\n2 1 9411 9398 9276 XOR\n2 1 33166 9276 35913 XOR\n2 1 28163 33161 9138 XOR\n2 1 36023 36017 9144 XOR\n2 1 9143 9144 9469 XOR\n2 1 36024 36028 9390 XOR\n1 1 9390 9155 INV\n2 1 35913 1490 34195 XOR\n2 1 9137 9138 9471 XOR\n2 1 9469 9403 35904 XOR\n2 1 35904 1499 34186 XOR\n2 1 9155 36031 9153 XOR\n2 1 9390 36030 9151 XOR\n1 1 9411 9253 INV\n2 1 33168 36020 9422 XOR\n2 1 9422 9420 9260 XOR\n2 1 9422 9413 9282 XOR\n2 1 36016 9282 35910 XOR\n2 1 35910 1493 34192 XOR\n2 1 9252 36023 9267 XOR\n2 1 33180 28163 9270 XOR\n2 1 36021 33168 9297 XOR\n2 1 9296 9297 35902 XOR\n2 1 9260 9261 35925 XOR\n2 1 9471 9416 35901 XOR\n2 1 35901 1502 34183 XOR\n2 1 35925 1478 34207 XOR\n2 1 9390 32817 9149 XOR\n2 1 9151 9152 9465 XOR\n2 1 35902 1501 34184 XOR\n2 1 34183 34184 29340 XOR\n2 1 34184 34186 29420 XOR\n2 1 36017 36022 9415 XOR\n2 1 9415 9413 9257 XOR\n1 1 9415 9279 INV\n2 1 9257 9258 35927 XOR\n2 1 9279 9403 9277 XOR\n2 1 35927 1476 34209 XOR\n2 1 34207 34209 26383 XOR\n2 1 9465 9415 35919 XOR\n2 1 35919 1484 34201 XOR\n1 1 36022 9142 INV\n2 1 36026 9142 9154 XOR\n2 1 9142 36016 9141 XOR\n2 1 9153 9154 9464 XOR\n2 1 9464 9411 35920 XOR\n2 1 35920 1483 34202 XOR\n2 1 9140 9141 9470 XOR\n2 1 9470 9408 35903 XOR\n2 1 35903 1500 34185 XOR\n2 1 34183 34185 29323 XOR\n2 1 34184 29323 29325 XOR\n2 1 34185 34184 29300 XOR\n2 1 9253 9408 9250 XOR\n2 1 9250 9251 35928 XOR\n2 1 35928 1475 34210 XOR\n2 1 35907 1496 34189 XOR\n2 1 34186 34189 29418 XOR\n2 1 29418 29340 29414 XOR\n2 1 29323 29418 29410 XOR\n2 1 34189 34183 29419 XOR\n2 1 34189 34184 29417 XOR\n2 1 29410 29414 29403 AND\n2 1 36016 36021 9418 XOR\n2 1 9418 9416 9259 XOR\n1 1 9418 9271 INV\n2 1 9271 9408 9280 XOR\n2 1 9271 36029 9269 XOR\n2 1 9269 9270 35918 XOR\n2 1 35918 1485 34200 XOR\n2 1 34200 34202 23823 XOR\n2 1 34201 34200 23703 XOR\n2 1 36019 36024 9383 XOR\n",
"2 1 9383 32816 9246 XOR\n2 1 9420 9383 9286 XOR\n2 1 33161 9286 35908 XOR\n2 1 35908 1495 34190 XOR\n2 1 9246 9247 35931 XOR\n2 1 35931 1472 34213 XOR\n2 1 34213 34207 26479 XOR\n2 1 34210 34213 26478 XOR\n2 1 26383 26478 26470 XOR\n1 1 9383 9477 INV\n2 1 9477 36018 9278 XOR\n2 1 9277 9278 35912 XOR\n2 1 9477 36017 9281 XOR\n2 1 9280 9281 35911 XOR\n2 1 35912 1491 34194 XOR\n2 1 34192 34194 25500 XOR\n2 1 9477 33168 9285 XOR\n2 1 35911 1492 34193 XOR\n2 1 34193 34192 25380 XOR\n1 1 28162 33121 INV\n2 1 33121 33179 9400 XOR\n2 1 9400 9383 9263 XOR\n2 1 9400 9398 9248 XOR\n2 1 33167 9248 35930 XOR\n2 1 35930 1473 34212 XOR\n2 1 34210 34212 26386 XOR\n2 1 9400 32816 9292 XOR\n2 1 36032 9263 35923 XOR\n2 1 35923 1480 34205 XOR\n2 1 34205 34200 23820 XOR\n2 1 9292 9293 35906 XOR\n2 1 35906 1497 34188 XOR\n2 1 34188 29325 29407 XOR\n2 1 34186 34188 29326 XOR\n2 1 29403 29326 29329 XOR\n2 1 29418 29407 29397 AND\n2 1 29397 29325 29327 XOR\n2 1 29329 29327 29333 XOR\n2 1 34189 29333 29338 XOR\n2 1 9382 33121 9273 XOR\n2 1 9273 9274 35915 XOR\n2 1 35915 1488 34197 XOR\n2 1 34197 34192 25497 XOR\n2 1 34194 34197 25498 XOR\n2 1 34195 34197 25404 XOR\n1 1 28164 33122 INV\n2 1 33173 33122 9150 XOR\n2 1 33161 33122 9423 XOR\n2 1 9423 9416 9284 XOR\n2 1 9284 9285 9283 XOR\n1 1 9283 35909 INV\n2 1 35909 1494 34191 XOR\n2 1 34191 34192 25420 XOR\n2 1 34197 34191 25499 XOR\n2 1 34191 34193 25403 XOR\n2 1 34192 25403 25405 XOR\n2 1 25403 25498 25490 XOR\n2 1 25498 25420 25494 XOR\n2 1 25490 25494 25483 AND\n2 1 34190 25490 25489 XOR\n2 1 9423 9382 9262 XOR\n2 1 33173 9262 35924 XOR\n2 1 35924 1479 34206 XOR\n2 1 34206 26470 26469 XOR\n2 1 34206 34212 26390 XOR\n2 1 9149 9150 9466 XOR\n2 1 9466 9422 35917 XOR\n2 1 35917 1486 34199 XOR\n2 1 34199 34201 23726 XOR\n2 1 34199 34200 23743 XOR\n2 1 34205 34199 23822 XOR\n2 1 34200 23726 23728 XOR\n2 1 34195 25405 25484 XOR\n2 1 25499 25484 25480 AND\n2 1 25480 25404 25408 XOR\n2 1 9423 9390 9272 XOR\n2 1 32814 9272 35916 XOR\n2 1 35916 1487 34198 XOR\n2 1 33122 9298 35900 XOR\n2 1 35900 1503 34182 XOR\n2 1 34182 29410 29409 XOR\n2 1 34182 34188 29330 XOR\n2 1 29330 29325 29406 XOR\n2 1 34202 34205 23821 XOR\n2 1 23726 23821 23813 XOR\n2 1 34198 23813 23812 XOR\n1 1 28161 33128 INV\n2 1 33128 36018 9295 XOR\n2 1 9294 9295 35905 XOR\n2 1 35905 1498 34187 XOR\n2 1 34187 29325 29404 XOR\n2 1 34187 34189 29324 XOR\n2 1 29324 29420 29405 XOR\n2 1 29324 29330 29413 XOR\n2 1 29340 29413 29411 XOR\n2 1 34187 29330 29416 XOR\n2 1 34183 29416 29412 XOR\n2 1 29326 29324 29286 XOR\n2 1 29323 29286 29408 XOR\n2 1 29326 34187 29285 XOR\n2 1 34182 29285 29415 XOR\n2 1 29411 29409 29402 AND\n2 1 29415 34182 29401 AND\n2 1 29419 29404 29400 AND\n2 1 29400 29324 29328 XOR\n2 1 29416 29412 29399 AND\n2 1 29413 29406 29398 AND\n2 1 29420 29405 29396 AND\n2 1 29396 29402 29347 XOR\n2 1 29347 29338 29394 XOR\n2 1 29396 29397 29299 XOR\n2 1 29299 29300 29346 XOR\n2 1 29346 29328 29345 XOR\n2 1 29399 29345 29393 XOR\n2 1 29417 29408 29395 AND\n2 1 29395 29398 29348 XOR\n2 1 29395 29401 29352 XOR\n2 1 29352 29324 29339 XOR\n2 1 29347 29339 29391 XOR\n2 1 29396 29348 29342 XOR\n2 1 29328 29348 29302 XOR\n2 1 29302 29327 29392 XOR\n2 1 29333 29352 29301 XOR\n2 1 34187 29301 29344 XOR\n2 1 29399 29342 29298 XOR\n2 1 34183 29298 29386 XOR\n2 1 29394 29393 29390 AND\n2 1 29390 29344 29385 XOR\n",
"2 1 29390 29392 29389 XOR\n2 1 29391 29389 29388 AND\n2 1 29388 29344 29387 XOR\n2 1 29388 29400 29293 XOR\n2 1 29293 29329 29289 XOR\n2 1 34189 29289 29292 XOR\n2 1 29388 29338 29290 XOR\n2 1 34187 29289 29288 XOR\n2 1 29385 29386 29384 AND\n2 1 29384 29392 29383 XOR\n2 1 29390 29384 29382 XOR\n2 1 29384 29342 29297 XOR\n2 1 29384 29401 29296 XOR\n2 1 29296 29398 29291 XOR\n2 1 29291 29292 29375 XOR\n2 1 29392 29382 29381 AND\n2 1 29381 29389 29379 XOR\n2 1 29381 29399 29351 XOR\n2 1 29351 29345 29373 XOR\n2 1 34183 29351 29334 XOR\n2 1 29334 29297 29380 XOR\n2 1 29387 29379 29378 AND\n2 1 29378 29347 29337 XOR\n2 1 29337 29339 29377 XOR\n2 1 29378 29402 29295 XOR\n2 1 29334 29295 29287 XOR\n2 1 29324 29287 29294 XOR\n2 1 29291 29294 29376 XOR\n2 1 29337 29290 29374 XOR\n2 1 29287 29288 29372 XOR\n2 1 29373 29410 29371 AND\n2 1 29380 29409 29370 AND\n2 1 29383 34182 29369 AND\n2 1 29369 29371 29350 XOR\n2 1 29374 29404 29368 AND\n2 1 29377 29416 29367 AND\n2 1 29367 29368 29353 XOR\n2 1 29387 29406 29366 AND\n2 1 29366 29367 29304 XOR\n2 1 29375 29407 29365 AND\n2 1 29372 29405 29364 AND\n2 1 29364 29353 29343 XOR\n2 1 29364 29367 29319 XOR\n1 1 29319 29316 INV\n2 1 29364 29365 29315 XOR\n2 1 29365 29343 29303 XOR\n2 1 29376 29408 29363 AND\n2 1 29373 29414 29362 AND\n2 1 29380 29411 29361 AND\n2 1 29383 29415 29360 AND\n2 1 29360 29343 29309 XOR\n1 1 29309 29306 INV\n2 1 29374 29419 29359 AND\n2 1 29359 29363 29335 XOR\n2 1 29368 29359 29320 XOR\n1 1 29335 29313 INV\n2 1 29377 29412 29358 AND\n2 1 29366 29358 29322 XOR\n2 1 29387 29413 29357 AND\n2 1 29313 29357 29312 XOR\n2 1 29312 29350 29308 XOR\n2 1 29375 29418 29356 AND\n2 1 29356 29308 29311 XOR\n2 1 29372 29420 29355 AND\n2 1 29355 29356 29349 XOR\n2 1 29361 29349 29331 XOR\n2 1 29362 29331 29332 XOR\n2 1 29370 29332 29336 XOR\n2 1 29371 29336 29341 XOR\n2 1 29353 29341 36199 XOR\n2 1 10203 36199 10025 XOR\n1 1 10025 10023 INV\n2 1 29322 29349 29318 XOR\n2 1 29350 29318 29321 XOR\n2 1 29320 29321 29424 XOR\n2 1 29313 29318 29317 XOR\n2 1 29316 29317 29423 XOR\n2 1 29341 29315 29422 XOR\n2 1 29331 29308 29307 XOR\n2 1 29306 29307 36197 XOR\n2 1 36197 36201 9945 XOR\n2 1 10078 36197 10076 XOR\n2 1 29369 29336 29305 XOR\n2 1 29304 29305 36198 XOR\n2 1 29332 29303 36200 XOR\n2 1 36200 36216 10163 XOR\n2 1 10163 36198 9903 XOR\n1 1 10163 10059 INV\n2 1 10059 33091 10088 XOR\n2 1 9903 9904 10242 XOR\n2 1 29376 29417 29354 AND\n2 1 29365 29354 29314 XOR\n1 1 29314 29310 INV\n2 1 29310 29311 29421 XOR\n2 1 36199 36203 10211 XOR\n2 1 10227 10211 36089 XOR\n2 1 10211 10210 10075 XOR\n1 1 10075 10073 INV\n2 1 10073 10074 36097 XOR\n2 1 36097 1379 34306 XOR\n2 1 36198 36202 10220 XOR\n1 1 10220 10102 INV\n2 1 10220 10078 10089 XOR\n2 1 10089 10090 36088 XOR\n2 1 36088 1388 34297 XOR\n2 1 10102 10207 10100 XOR\n2 1 10023 10024 36074 XOR\n2 1 36074 1402 34283 XOR\n2 1 36089 1387 34298 XOR\n2 1 10211 10203 10099 XOR\n2 1 33121 33128 9265 XOR\n2 1 9264 9265 35922 XOR\n2 1 35922 1481 34204 XOR\n2 1 34202 34204 23729 XOR\n2 1 34204 23728 23810 XOR\n2 1 23821 23810 23800 AND\n2 1 23800 23728 23730 XOR\n2 1 10059 36202 10058 XOR\n2 1 33166 33128 9407 XOR\n2 1 9407 32815 9268 XOR\n1 1 9268 9266 INV\n2 1 9407 9401 9275 XOR\n2 1 33179 9275 35914 XOR\n2 1 35914 1489 34196 XOR\n2 1 34194 34196 25406 XOR\n2 1 25406 25404 25366 XOR\n2 1 25403 25366 25488 XOR\n2 1 25406 34195 25365 XOR\n",
"2 1 34190 25365 25495 XOR\n2 1 25495 34190 25481 AND\n2 1 25497 25488 25475 AND\n2 1 25475 25481 25432 XOR\n2 1 25432 25404 25419 XOR\n2 1 25483 25406 25409 XOR\n2 1 34190 34196 25410 XOR\n2 1 34195 25410 25496 XOR\n2 1 34191 25496 25492 XOR\n2 1 25496 25492 25479 AND\n2 1 25404 25410 25493 XOR\n2 1 25420 25493 25491 XOR\n2 1 25491 25489 25482 AND\n2 1 25410 25405 25486 XOR\n2 1 25493 25486 25478 AND\n2 1 25475 25478 25428 XOR\n2 1 25408 25428 25382 XOR\n2 1 34196 25405 25487 XOR\n2 1 25498 25487 25477 AND\n2 1 25477 25405 25407 XOR\n2 1 25409 25407 25413 XOR\n2 1 34197 25413 25418 XOR\n2 1 25382 25407 25472 XOR\n2 1 25413 25432 25381 XOR\n2 1 34195 25381 25424 XOR\n2 1 9407 9403 9249 XOR\n2 1 33178 9249 35929 XOR\n2 1 35929 1474 34211 XOR\n2 1 34211 34213 26384 XOR\n2 1 26386 26384 26346 XOR\n2 1 26383 26346 26468 XOR\n2 1 26384 26390 26473 XOR\n2 1 26386 34211 26345 XOR\n2 1 34206 26345 26475 XOR\n2 1 26475 34206 26461 AND\n2 1 34211 26390 26476 XOR\n2 1 34207 26476 26472 XOR\n2 1 26476 26472 26459 AND\n2 1 36200 36206 10156 XOR\n2 1 10200 10156 10069 XOR\n2 1 10156 36198 9944 XOR\n2 1 9944 9945 10225 XOR\n2 1 10225 10210 36080 XOR\n2 1 36080 1396 34289 XOR\n1 1 10156 10247 INV\n2 1 10247 33117 9942 XOR\n2 1 10247 36216 10080 XOR\n2 1 10080 10081 36092 XOR\n2 1 36092 1384 34301 XOR\n2 1 34298 34301 25918 XOR\n2 1 10247 36199 10101 XOR\n2 1 10100 10101 36081 XOR\n2 1 36081 1395 34290 XOR\n2 1 34198 34204 23733 XOR\n2 1 23733 23728 23809 XOR\n2 1 10076 10077 36095 XOR\n2 1 36095 1381 34304 XOR\n2 1 34304 34306 26200 XOR\n2 1 36197 36212 10198 XOR\n2 1 10198 10197 10092 XOR\n2 1 36201 10092 36087 XOR\n2 1 36087 1389 34296 XOR\n2 1 34297 34296 25800 XOR\n2 1 34296 34298 25920 XOR\n1 1 10198 10060 INV\n2 1 10060 33124 10129 XOR\n2 1 10210 10060 10057 XOR\n2 1 10057 10058 36072 XOR\n2 1 36072 1404 34281 XOR\n2 1 34301 34296 25917 XOR\n2 1 10196 10163 10148 XOR\n2 1 33092 10148 36069 XOR\n2 1 36069 1407 34278 XOR\n2 1 10223 10220 36096 XOR\n2 1 9266 9267 35921 XOR\n2 1 35921 1482 34203 XOR\n2 1 34203 23728 23807 XOR\n2 1 23729 34203 23688 XOR\n2 1 34198 23688 23818 XOR\n2 1 34203 23733 23819 XOR\n2 1 23818 34198 23804 AND\n2 1 23822 23807 23803 AND\n2 1 34203 34205 23727 XOR\n2 1 23727 23823 23808 XOR\n2 1 23803 23727 23731 XOR\n2 1 23727 23733 23816 XOR\n2 1 23816 23809 23801 AND\n2 1 23729 23727 23689 XOR\n2 1 23726 23689 23811 XOR\n2 1 23820 23811 23798 AND\n2 1 23823 23808 23799 AND\n2 1 23799 23800 23702 XOR\n2 1 23702 23703 23749 XOR\n2 1 23749 23731 23748 XOR\n2 1 23743 23816 23814 XOR\n2 1 23814 23812 23805 AND\n2 1 23799 23805 23750 XOR\n2 1 34199 23819 23815 XOR\n2 1 23819 23815 23802 AND\n2 1 23802 23748 23796 XOR\n2 1 23798 23801 23751 XOR\n2 1 23799 23751 23745 XOR\n2 1 23802 23745 23701 XOR\n2 1 34199 23701 23789 XOR\n2 1 23731 23751 23705 XOR\n2 1 23705 23730 23795 XOR\n2 1 23798 23804 23755 XOR\n2 1 23755 23727 23742 XOR\n2 1 23750 23742 23794 XOR\n1 1 29422 33149 INV\n2 1 10248 33149 9986 XOR\n2 1 9986 9987 36076 XOR\n2 1 36076 1400 34285 XOR\n2 1 34283 34285 10288 XOR\n2 1 33149 36205 10206 XOR\n2 1 10206 10203 10070 XOR\n2 1 32826 10070 36099 XOR\n2 1 10206 10155 10097 XOR\n2 1 36099 1377 34308 XOR\n2 1 34306 34308 26106 XOR\n2 1 36200 10097 36084 XOR\n2 1 36084 1392 34293 XOR\n2 1 34290 34293 25358 XOR\n2 1 10206 26622 10082 XOR\n2 1 10082 10083 36091 XOR\n2 1 36091 1385 34300 XOR\n2 1 34298 34300 25826 XOR\n1 1 29423 33150 INV\n",
"2 1 33150 32827 9947 XOR\n2 1 9946 9947 10224 XOR\n2 1 10224 10197 36094 XOR\n2 1 36094 1382 34303 XOR\n2 1 34303 34304 26120 XOR\n2 1 33150 9950 10130 XOR\n2 1 10129 10130 36079 XOR\n2 1 36079 1397 34288 XOR\n2 1 34288 34290 25360 XOR\n2 1 34293 34288 25357 XOR\n2 1 34289 34288 25240 XOR\n2 1 33150 33091 10218 XOR\n2 1 10218 10196 10094 XOR\n2 1 10094 10095 10093 XOR\n1 1 10093 36086 INV\n2 1 36086 1390 34295 XOR\n2 1 34295 34297 25823 XOR\n2 1 34301 34295 25919 XOR\n2 1 10218 10195 10071 XOR\n2 1 36212 10071 36071 XOR\n2 1 36071 1405 34280 XOR\n2 1 34285 34280 10381 XOR\n2 1 34281 34280 10264 XOR\n2 1 25823 25918 25910 XOR\n2 1 34296 25823 25825 XOR\n2 1 34300 25825 25907 XOR\n2 1 25918 25907 25897 AND\n2 1 25897 25825 25827 XOR\n2 1 34295 34296 25840 XOR\n2 1 25918 25840 25914 XOR\n1 1 29424 33151 INV\n2 1 9897 33151 9943 XOR\n2 1 33151 10079 36093 XOR\n2 1 36093 1383 34302 XOR\n2 1 34302 34308 26110 XOR\n2 1 9942 9943 10226 XOR\n2 1 10226 10218 36078 XOR\n2 1 36078 1398 34287 XOR\n2 1 34293 34287 25359 XOR\n2 1 34287 34288 25280 XOR\n2 1 25358 25280 25354 XOR\n2 1 34287 34289 25263 XOR\n2 1 34288 25263 25265 XOR\n2 1 25263 25358 25350 XOR\n2 1 25350 25354 25343 AND\n2 1 33151 33092 10219 XOR\n2 1 10219 10157 10096 XOR\n2 1 33117 10096 36085 XOR\n2 1 36085 1391 34294 XOR\n2 1 10219 10197 10087 XOR\n2 1 10087 10088 10086 XOR\n1 1 10086 36070 INV\n2 1 36070 1406 34279 XOR\n2 1 34279 34281 10287 XOR\n2 1 34279 34280 10304 XOR\n2 1 34285 34279 10383 XOR\n2 1 34294 25910 25909 XOR\n2 1 34294 34300 25830 XOR\n2 1 25830 25825 25906 XOR\n2 1 10219 10156 9970 XOR\n2 1 32827 9970 36077 XOR\n2 1 36077 1399 34286 XOR\n2 1 34286 25350 25349 XOR\n1 1 29421 33156 INV\n2 1 10200 33156 10006 XOR\n2 1 10006 10007 10005 XOR\n2 1 33156 36204 10208 XOR\n2 1 10208 10207 10072 XOR\n2 1 10208 33090 10084 XOR\n2 1 10084 10085 36090 XOR\n2 1 32825 10072 36098 XOR\n2 1 36098 1378 34307 XOR\n2 1 26106 34307 26065 XOR\n2 1 34302 26065 26195 XOR\n2 1 26195 34302 26181 AND\n2 1 34307 26110 26196 XOR\n2 1 34303 26196 26192 XOR\n2 1 26196 26192 26179 AND\n2 1 36090 1386 34299 XOR\n2 1 34299 25825 25904 XOR\n2 1 25919 25904 25900 AND\n2 1 34299 25830 25916 XOR\n2 1 10208 10200 10098 XOR\n2 1 33149 10098 36083 XOR\n2 1 36083 1393 34292 XOR\n2 1 34286 34292 25270 XOR\n2 1 25270 25265 25346 XOR\n2 1 34292 25265 25347 XOR\n2 1 25358 25347 25337 AND\n2 1 25337 25265 25267 XOR\n2 1 25826 34299 25785 XOR\n2 1 34294 25785 25915 XOR\n2 1 25915 34294 25901 AND\n2 1 34299 34301 25824 XOR\n2 1 25824 25830 25913 XOR\n2 1 25913 25906 25898 AND\n2 1 25826 25824 25786 XOR\n2 1 25823 25786 25908 XOR\n2 1 25917 25908 25895 AND\n2 1 25895 25898 25848 XOR\n2 1 25840 25913 25911 XOR\n2 1 25895 25901 25852 XOR\n2 1 25852 25824 25839 XOR\n2 1 33156 10099 36082 XOR\n2 1 36082 1394 34291 XOR\n2 1 34291 25270 25356 XOR\n2 1 34291 34293 25264 XOR\n2 1 25264 25270 25353 XOR\n2 1 25264 25360 25345 XOR\n2 1 25360 25345 25336 AND\n2 1 25336 25337 25239 XOR\n2 1 25239 25240 25286 XOR\n2 1 25353 25346 25338 AND\n2 1 25280 25353 25351 XOR\n2 1 25351 25349 25342 AND\n2 1 34287 25356 25352 XOR\n2 1 25356 25352 25339 AND\n2 1 25900 25824 25828 XOR\n2 1 25828 25848 25802 XOR\n2 1 25802 25827 25892 XOR\n1 1 10005 36075 INV\n2 1 36075 1401 34284 XOR\n2 1 25336 25342 25287 XOR\n2 1 34295 25916 25912 XOR\n2 1 25916 25912 25899 AND\n2 1 34291 25265 25344 XOR\n2 1 25359 25344 25340 AND\n2 1 25340 25264 25268 XOR\n",
"2 1 25286 25268 25285 XOR\n2 1 34278 34284 10294 XOR\n2 1 10288 10294 10377 XOR\n2 1 34283 10294 10380 XOR\n2 1 10304 10377 10375 XOR\n2 1 25824 25920 25905 XOR\n2 1 25920 25905 25896 AND\n2 1 25896 25848 25842 XOR\n2 1 25899 25842 25798 XOR\n2 1 34295 25798 25886 XOR\n2 1 34279 10380 10376 XOR\n2 1 10380 10376 10363 AND\n2 1 25911 25909 25902 AND\n2 1 25896 25902 25847 XOR\n2 1 25847 25839 25891 XOR\n2 1 36096 1380 34305 XOR\n2 1 34303 34305 26103 XOR\n2 1 34304 26103 26105 XOR\n2 1 26110 26105 26186 XOR\n2 1 34307 26105 26184 XOR\n2 1 34308 26105 26187 XOR\n2 1 34305 34304 26080 XOR\n2 1 36025 9259 35926 XOR\n2 1 35926 1477 34208 XOR\n2 1 34208 26383 26385 XOR\n2 1 34212 26385 26467 XOR\n2 1 34211 26385 26464 XOR\n2 1 26390 26385 26466 XOR\n2 1 26479 26464 26460 AND\n2 1 26478 26467 26457 AND\n2 1 26473 26466 26458 AND\n2 1 26457 26385 26387 XOR\n2 1 34213 34208 26477 XOR\n2 1 26477 26468 26455 AND\n2 1 26455 26458 26408 XOR\n2 1 26460 26384 26388 XOR\n2 1 26455 26461 26412 XOR\n2 1 26412 26384 26399 XOR\n2 1 34207 34208 26400 XOR\n2 1 26400 26473 26471 XOR\n2 1 26471 26469 26462 AND\n2 1 26478 26400 26474 XOR\n2 1 26470 26474 26463 AND\n2 1 26463 26386 26389 XOR\n2 1 26389 26387 26393 XOR\n2 1 34213 26393 26398 XOR\n2 1 26393 26412 26361 XOR\n2 1 34211 26361 26404 XOR\n2 1 34209 34208 26360 XOR\n2 1 34208 34210 26480 XOR\n2 1 26384 26480 26465 XOR\n2 1 26480 26465 26456 AND\n2 1 26456 26408 26402 XOR\n2 1 26459 26402 26358 XOR\n2 1 26456 26457 26359 XOR\n2 1 26359 26360 26406 XOR\n2 1 26406 26388 26405 XOR\n2 1 26459 26405 26453 XOR\n2 1 34207 26358 26446 XOR\n2 1 26456 26462 26407 XOR\n2 1 26407 26399 26451 XOR\n2 1 26407 26398 26454 XOR\n2 1 26454 26453 26450 AND\n2 1 26450 26404 26445 XOR\n2 1 26445 26446 26444 AND\n2 1 26444 26461 26356 XOR\n2 1 26450 26444 26442 XOR\n2 1 26356 26458 26351 XOR\n2 1 26444 26402 26357 XOR\n2 1 26388 26408 26362 XOR\n2 1 26362 26387 26452 XOR\n2 1 26452 26442 26441 AND\n2 1 26444 26452 26443 XOR\n2 1 26443 26475 26420 AND\n2 1 26443 34206 26429 AND\n2 1 26450 26452 26449 XOR\n2 1 26441 26449 26439 XOR\n2 1 26451 26449 26448 AND\n2 1 26448 26404 26447 XOR\n2 1 26447 26473 26417 AND\n2 1 26447 26439 26438 AND\n2 1 26438 26462 26355 XOR\n2 1 26448 26398 26350 XOR\n2 1 26447 26466 26426 AND\n2 1 26448 26460 26353 XOR\n2 1 26441 26459 26411 XOR\n2 1 26411 26405 26433 XOR\n2 1 26433 26470 26431 AND\n2 1 26433 26474 26422 AND\n2 1 26429 26431 26410 XOR\n2 1 34207 26411 26394 XOR\n2 1 26394 26355 26347 XOR\n2 1 26384 26347 26354 XOR\n2 1 26351 26354 26436 XOR\n2 1 26436 26468 26423 AND\n2 1 26436 26477 26414 AND\n2 1 26353 26389 26349 XOR\n2 1 34211 26349 26348 XOR\n2 1 26347 26348 26432 XOR\n2 1 26432 26465 26424 AND\n2 1 34213 26349 26352 XOR\n2 1 26432 26480 26415 AND\n2 1 26438 26407 26397 XOR\n2 1 26397 26399 26437 XOR\n2 1 26437 26472 26418 AND\n2 1 26426 26418 26382 XOR\n2 1 26397 26350 26434 XOR\n2 1 26434 26479 26419 AND\n2 1 26434 26464 26428 AND\n2 1 26428 26419 26380 XOR\n2 1 26437 26476 26427 AND\n2 1 26424 26427 26379 XOR\n1 1 26379 26376 INV\n2 1 26427 26428 26413 XOR\n2 1 26424 26413 26403 XOR\n2 1 26419 26423 26395 XOR\n1 1 26395 26373 INV\n2 1 26373 26417 26372 XOR\n2 1 26372 26410 26368 XOR\n2 1 26426 26427 26364 XOR\n2 1 26394 26357 26440 XOR\n2 1 26440 26471 26421 AND\n2 1 26420 26403 26369 XOR\n1 1 26369 26366 INV\n2 1 26351 26352 26435 XOR\n2 1 26435 26467 26425 AND\n2 1 26425 26414 26374 XOR\n1 1 26374 26370 INV\n",
"2 1 26424 26425 26375 XOR\n2 1 26425 26403 26363 XOR\n2 1 26435 26478 26416 AND\n2 1 26416 26368 26371 XOR\n2 1 26370 26371 26481 XOR\n2 1 26415 26416 26409 XOR\n2 1 26421 26409 26391 XOR\n2 1 26391 26368 26367 XOR\n2 1 26366 26367 36230 XOR\n2 1 26382 26409 26378 XOR\n2 1 26422 26391 26392 XOR\n2 1 26392 26363 36233 XOR\n2 1 36220 36233 10162 XOR\n1 1 10162 9907 INV\n2 1 26410 26378 26381 XOR\n2 1 26380 26381 26484 XOR\n2 1 26373 26378 26377 XOR\n2 1 26376 26377 26483 XOR\n2 1 9907 36230 9908 XOR\n1 1 26481 33085 INV\n2 1 33085 32824 10063 XOR\n1 1 26483 33087 INV\n1 1 26484 33088 INV\n2 1 9907 33088 9905 XOR\n2 1 26440 26469 26430 AND\n2 1 26430 26392 26396 XOR\n2 1 26429 26396 26365 XOR\n2 1 26431 26396 26401 XOR\n2 1 26364 26365 36231 XOR\n2 1 26413 26401 36232 XOR\n2 1 26401 26375 26482 XOR\n2 1 10162 36231 9911 XOR\n1 1 26482 33086 INV\n2 1 32818 33086 10171 XOR\n2 1 34280 10287 10289 XOR\n2 1 10294 10289 10370 XOR\n2 1 10377 10370 10362 AND\n2 1 34283 10289 10368 XOR\n2 1 10383 10368 10364 AND\n2 1 34284 10289 10371 XOR\n2 1 10364 10288 10292 XOR\n2 1 25896 25897 25799 XOR\n2 1 25799 25800 25846 XOR\n2 1 25846 25828 25845 XOR\n2 1 25899 25845 25893 XOR\n2 1 10242 10207 36073 XOR\n2 1 36073 1403 34282 XOR\n2 1 34280 34282 10384 XOR\n2 1 10288 10384 10369 XOR\n2 1 10384 10369 10360 AND\n2 1 34282 34284 10290 XOR\n2 1 10290 10288 10250 XOR\n2 1 10287 10250 10372 XOR\n2 1 10381 10372 10359 AND\n2 1 34282 34285 10382 XOR\n2 1 10287 10382 10374 XOR\n2 1 34278 10374 10373 XOR\n2 1 10375 10373 10366 AND\n2 1 10382 10371 10361 AND\n2 1 10361 10289 10291 XOR\n2 1 10360 10361 10263 XOR\n2 1 10263 10264 10310 XOR\n2 1 10310 10292 10309 XOR\n2 1 10363 10309 10357 XOR\n2 1 10382 10304 10378 XOR\n2 1 10374 10378 10367 AND\n2 1 10367 10290 10293 XOR\n2 1 10293 10291 10297 XOR\n2 1 34285 10297 10302 XOR\n2 1 10360 10366 10311 XOR\n2 1 10311 10302 10358 XOR\n2 1 10358 10357 10354 AND\n2 1 10359 10362 10312 XOR\n2 1 10292 10312 10266 XOR\n2 1 10266 10291 10356 XOR\n2 1 10354 10356 10353 XOR\n2 1 10360 10312 10306 XOR\n2 1 10363 10306 10262 XOR\n2 1 34279 10262 10350 XOR\n2 1 10290 34283 10249 XOR\n2 1 34278 10249 10379 XOR\n2 1 10379 34278 10365 AND\n2 1 10359 10365 10316 XOR\n2 1 10297 10316 10265 XOR\n2 1 34283 10265 10308 XOR\n2 1 10354 10308 10349 XOR\n2 1 10349 10350 10348 AND\n2 1 10348 10356 10347 XOR\n2 1 10347 10379 10324 AND\n2 1 10348 10365 10260 XOR\n2 1 10347 34278 10333 AND\n2 1 10260 10362 10255 XOR\n2 1 10348 10306 10261 XOR\n2 1 10354 10348 10346 XOR\n2 1 10356 10346 10345 AND\n2 1 10345 10353 10343 XOR\n2 1 10316 10288 10303 XOR\n2 1 10311 10303 10355 XOR\n2 1 10355 10353 10352 AND\n2 1 10352 10308 10351 XOR\n2 1 10352 10302 10254 XOR\n2 1 10351 10370 10330 AND\n2 1 10352 10364 10257 XOR\n2 1 10257 10293 10253 XOR\n2 1 34283 10253 10252 XOR\n2 1 10351 10377 10321 AND\n2 1 10351 10343 10342 AND\n2 1 10342 10366 10259 XOR\n2 1 34285 10253 10256 XOR\n2 1 10255 10256 10339 XOR\n2 1 10339 10382 10320 AND\n2 1 10339 10371 10329 AND\n2 1 10342 10311 10301 XOR\n2 1 10301 10303 10341 XOR\n2 1 10341 10380 10331 AND\n2 1 10341 10376 10322 AND\n2 1 10301 10254 10338 XOR\n2 1 10338 10368 10332 AND\n2 1 10330 10331 10268 XOR\n2 1 10330 10322 10286 XOR\n2 1 10338 10383 10323 AND\n2 1 10332 10323 10284 XOR\n2 1 10345 10363 10315 XOR\n2 1 10315 10309 10337 XOR\n2 1 10337 10374 10335 AND\n2 1 10337 10378 10326 AND\n2 1 10333 10335 10314 XOR\n2 1 34279 10315 10298 XOR\n",
"2 1 10298 10261 10344 XOR\n2 1 10344 10373 10334 AND\n2 1 10344 10375 10325 AND\n2 1 10298 10259 10251 XOR\n2 1 10288 10251 10258 XOR\n2 1 10251 10252 10336 XOR\n2 1 10336 10369 10328 AND\n2 1 10328 10331 10283 XOR\n1 1 10283 10280 INV\n2 1 10328 10329 10279 XOR\n2 1 10336 10384 10319 AND\n2 1 10255 10258 10340 XOR\n2 1 10340 10381 10318 AND\n2 1 10340 10372 10327 AND\n2 1 10329 10318 10278 XOR\n1 1 10278 10274 INV\n2 1 10319 10320 10313 XOR\n2 1 10325 10313 10295 XOR\n2 1 10286 10313 10282 XOR\n2 1 10314 10282 10285 XOR\n2 1 10284 10285 10388 XOR\n1 1 10388 32830 INV\n2 1 10326 10295 10296 XOR\n2 1 10323 10327 10299 XOR\n1 1 10299 10277 INV\n2 1 10277 10282 10281 XOR\n2 1 10277 10321 10276 XOR\n2 1 10276 10314 10272 XOR\n2 1 10320 10272 10275 XOR\n2 1 10274 10275 10385 XOR\n2 1 10280 10281 10387 XOR\n2 1 10295 10272 10271 XOR\n1 1 10387 32829 INV\n1 1 10385 32834 INV\n2 1 10331 10332 10317 XOR\n2 1 10328 10317 10307 XOR\n2 1 10324 10307 10273 XOR\n1 1 10273 10270 INV\n2 1 10270 10271 36454 XOR\n2 1 10329 10307 10267 XOR\n2 1 10296 10267 36458 XOR\n2 1 25339 25285 25333 XOR\n2 1 10334 10296 10300 XOR\n2 1 10335 10300 10305 XOR\n2 1 10317 10305 36456 XOR\n1 1 36456 11423 INV\n2 1 10305 10279 10386 XOR\n1 1 10386 36457 INV\n2 1 10333 10300 10269 XOR\n2 1 10268 10269 36455 XOR\n2 1 10386 32834 11597 XOR\n2 1 25910 25914 25903 AND\n2 1 25903 25826 25829 XOR\n2 1 25829 25827 25833 XOR\n2 1 34301 25833 25838 XOR\n2 1 25847 25838 25894 XOR\n2 1 25894 25893 25890 AND\n2 1 25890 25892 25889 XOR\n2 1 25891 25889 25888 AND\n2 1 25888 25900 25793 XOR\n2 1 25888 25838 25790 XOR\n2 1 25793 25829 25789 XOR\n2 1 34299 25789 25788 XOR\n2 1 34301 25789 25792 XOR\n2 1 25833 25852 25801 XOR\n2 1 34299 25801 25844 XOR\n2 1 25888 25844 25887 XOR\n2 1 25887 25906 25866 AND\n2 1 25887 25913 25857 AND\n2 1 25890 25844 25885 XOR\n2 1 25885 25886 25884 AND\n2 1 25890 25884 25882 XOR\n2 1 25892 25882 25881 AND\n2 1 25881 25899 25851 XOR\n2 1 25884 25842 25797 XOR\n2 1 34295 25851 25834 XOR\n2 1 25881 25889 25879 XOR\n2 1 25887 25879 25878 AND\n2 1 25878 25847 25837 XOR\n2 1 25837 25839 25877 XOR\n2 1 25877 25912 25858 AND\n2 1 25877 25916 25867 AND\n2 1 25866 25858 25822 XOR\n2 1 25851 25845 25873 XOR\n2 1 25873 25910 25871 AND\n2 1 25873 25914 25862 AND\n2 1 25834 25797 25880 XOR\n2 1 25880 25909 25870 AND\n2 1 25880 25911 25861 AND\n2 1 25837 25790 25874 XOR\n2 1 25874 25919 25859 AND\n2 1 25874 25904 25868 AND\n2 1 25884 25901 25796 XOR\n2 1 25868 25859 25820 XOR\n2 1 25867 25868 25853 XOR\n2 1 25884 25892 25883 XOR\n2 1 25883 25915 25860 AND\n2 1 25883 34294 25869 AND\n2 1 25869 25871 25850 XOR\n2 1 25796 25898 25791 XOR\n2 1 25791 25792 25875 XOR\n2 1 25875 25918 25856 AND\n2 1 25875 25907 25865 AND\n2 1 25878 25902 25795 XOR\n2 1 25866 25867 25804 XOR\n2 1 25834 25795 25787 XOR\n2 1 25824 25787 25794 XOR\n2 1 25791 25794 25876 XOR\n2 1 25876 25917 25854 AND\n2 1 25876 25908 25863 AND\n2 1 25865 25854 25814 XOR\n1 1 25814 25810 INV\n2 1 25859 25863 25835 XOR\n1 1 25835 25813 INV\n2 1 25787 25788 25872 XOR\n2 1 25872 25920 25855 AND\n2 1 25855 25856 25849 XOR\n2 1 25872 25905 25864 AND\n2 1 25861 25849 25831 XOR\n2 1 25864 25865 25815 XOR\n2 1 25864 25853 25843 XOR\n2 1 25865 25843 25803 XOR\n2 1 25864 25867 25819 XOR\n2 1 25822 25849 25818 XOR\n2 1 25813 25818 25817 XOR\n1 1 25819 25816 INV\n2 1 25816 25817 25923 XOR\n2 1 25813 25857 25812 XOR\n",
"2 1 25812 25850 25808 XOR\n2 1 25831 25808 25807 XOR\n2 1 25856 25808 25811 XOR\n2 1 25810 25811 25921 XOR\n2 1 25860 25843 25809 XOR\n1 1 25809 25806 INV\n2 1 25806 25807 36427 XOR\n2 1 25862 25831 25832 XOR\n2 1 25870 25832 25836 XOR\n2 1 25871 25836 25841 XOR\n2 1 25841 25815 25922 XOR\n2 1 25832 25803 36430 XOR\n2 1 25853 25841 36429 XOR\n1 1 36429 11490 INV\n2 1 25850 25818 25821 XOR\n2 1 25820 25821 25924 XOR\n1 1 25922 33069 INV\n2 1 36430 33069 11485 XOR\n1 1 25923 33070 INV\n1 1 25924 33071 INV\n1 1 25921 33076 INV\n2 1 25869 25836 25805 XOR\n2 1 25804 25805 36428 XOR\n2 1 23821 23743 23817 XOR\n2 1 23813 23817 23806 AND\n2 1 23806 23729 23732 XOR\n2 1 23732 23730 23736 XOR\n2 1 34205 23736 23741 XOR\n2 1 23736 23755 23704 XOR\n2 1 34203 23704 23747 XOR\n2 1 23750 23741 23797 XOR\n2 1 23797 23796 23793 AND\n2 1 23793 23747 23788 XOR\n2 1 23793 23795 23792 XOR\n2 1 23794 23792 23791 AND\n2 1 23791 23747 23790 XOR\n2 1 23790 23809 23769 AND\n2 1 23791 23803 23696 XOR\n2 1 23791 23741 23693 XOR\n2 1 23696 23732 23692 XOR\n2 1 23790 23816 23760 AND\n2 1 34205 23692 23695 XOR\n2 1 34203 23692 23691 XOR\n2 1 23788 23789 23787 AND\n2 1 23793 23787 23785 XOR\n2 1 23787 23795 23786 XOR\n2 1 23786 23818 23763 AND\n2 1 23795 23785 23784 AND\n2 1 23784 23792 23782 XOR\n2 1 23784 23802 23754 XOR\n2 1 23754 23748 23776 XOR\n2 1 23776 23817 23765 AND\n2 1 34199 23754 23737 XOR\n2 1 23776 23813 23774 AND\n2 1 23787 23745 23700 XOR\n2 1 23737 23700 23783 XOR\n2 1 23783 23814 23764 AND\n2 1 23783 23812 23773 AND\n2 1 23787 23804 23699 XOR\n2 1 23699 23801 23694 XOR\n2 1 23694 23695 23778 XOR\n2 1 23778 23810 23768 AND\n2 1 23778 23821 23759 AND\n2 1 23790 23782 23781 AND\n2 1 23781 23750 23740 XOR\n2 1 23740 23742 23780 XOR\n2 1 23740 23693 23777 XOR\n2 1 23777 23822 23762 AND\n2 1 23780 23815 23761 AND\n2 1 23769 23761 23725 XOR\n2 1 23777 23807 23771 AND\n2 1 23781 23805 23698 XOR\n2 1 23771 23762 23723 XOR\n2 1 23737 23698 23690 XOR\n2 1 23690 23691 23775 XOR\n2 1 23775 23808 23767 AND\n2 1 23767 23768 23718 XOR\n2 1 23775 23823 23758 AND\n2 1 23727 23690 23697 XOR\n2 1 23694 23697 23779 XOR\n2 1 23779 23811 23766 AND\n2 1 23762 23766 23738 XOR\n2 1 23779 23820 23757 AND\n2 1 23768 23757 23717 XOR\n1 1 23738 23716 INV\n1 1 23717 23713 INV\n2 1 23716 23760 23715 XOR\n2 1 23786 34198 23772 AND\n2 1 23772 23774 23753 XOR\n2 1 23715 23753 23711 XOR\n2 1 23759 23711 23714 XOR\n2 1 23713 23714 23824 XOR\n2 1 23780 23819 23770 AND\n2 1 23767 23770 23722 XOR\n1 1 23722 23719 INV\n2 1 23769 23770 23707 XOR\n2 1 23770 23771 23756 XOR\n2 1 23767 23756 23746 XOR\n2 1 23763 23746 23712 XOR\n1 1 23712 23709 INV\n2 1 23768 23746 23706 XOR\n2 1 23758 23759 23752 XOR\n2 1 23725 23752 23721 XOR\n2 1 23753 23721 23724 XOR\n2 1 23723 23724 23827 XOR\n2 1 23716 23721 23720 XOR\n2 1 23719 23720 23826 XOR\n1 1 23826 33033 INV\n1 1 23827 33034 INV\n2 1 33034 32823 10213 XOR\n2 1 10213 10159 10014 XOR\n1 1 23824 33039 INV\n2 1 33039 32828 10176 XOR\n2 1 10176 36251 10010 XOR\n1 1 10010 10008 INV\n2 1 33033 32822 10205 XOR\n2 1 23764 23752 23734 XOR\n2 1 23765 23734 23735 XOR\n2 1 23735 23706 36248 XOR\n2 1 23734 23711 23710 XOR\n2 1 23709 23710 36245 XOR\n2 1 36245 36249 10201 XOR\n1 1 10201 10013 INV\n2 1 23773 23735 23739 XOR\n2 1 23774 23739 23744 XOR\n2 1 23772 23739 23708 XOR\n2 1 23707 23708 36246 XOR\n2 1 23744 23718 23825 XOR\n",
"2 1 36248 36252 10151 XOR\n2 1 10151 32821 10000 XOR\n1 1 10151 9964 INV\n2 1 36246 36250 10191 XOR\n2 1 23756 23744 36247 XOR\n2 1 36247 36251 10182 XOR\n2 1 9964 36247 9963 XOR\n2 1 10013 32822 10011 XOR\n2 1 9964 33033 9972 XOR\n2 1 9964 36246 9967 XOR\n1 1 23825 33040 INV\n2 1 33040 32821 10165 XOR\n2 1 10165 32828 10003 XOR\n2 1 36211 10069 36100 XOR\n2 1 36100 1376 34309 XOR\n2 1 34307 34309 26104 XOR\n2 1 26104 26110 26193 XOR\n2 1 26104 26200 26185 XOR\n2 1 26106 26104 26066 XOR\n2 1 26103 26066 26188 XOR\n2 1 34309 34303 26199 XOR\n2 1 26199 26184 26180 AND\n2 1 26120 26193 26191 XOR\n2 1 34306 34309 26198 XOR\n2 1 26103 26198 26190 XOR\n2 1 34302 26190 26189 XOR\n2 1 26198 26120 26194 XOR\n2 1 26180 26104 26108 XOR\n2 1 26191 26189 26182 AND\n2 1 26193 26186 26178 AND\n2 1 26198 26187 26177 AND\n2 1 26177 26105 26107 XOR\n2 1 26200 26185 26176 AND\n2 1 26176 26177 26079 XOR\n2 1 26079 26080 26126 XOR\n2 1 26126 26108 26125 XOR\n2 1 26179 26125 26173 XOR\n2 1 26176 26182 26127 XOR\n2 1 26190 26194 26183 AND\n2 1 26183 26106 26109 XOR\n2 1 26109 26107 26113 XOR\n2 1 34309 26113 26118 XOR\n2 1 26127 26118 26174 XOR\n2 1 26174 26173 26170 AND\n2 1 34309 34304 26197 XOR\n2 1 26197 26188 26175 AND\n2 1 26175 26178 26128 XOR\n2 1 26108 26128 26082 XOR\n2 1 26082 26107 26172 XOR\n2 1 26170 26172 26169 XOR\n2 1 26176 26128 26122 XOR\n2 1 26179 26122 26078 XOR\n2 1 26175 26181 26132 XOR\n2 1 26132 26104 26119 XOR\n2 1 26127 26119 26171 XOR\n2 1 26113 26132 26081 XOR\n2 1 34307 26081 26124 XOR\n2 1 26170 26124 26165 XOR\n2 1 34303 26078 26166 XOR\n2 1 26171 26169 26168 AND\n2 1 26168 26124 26167 XOR\n2 1 26168 26180 26073 XOR\n2 1 26073 26109 26069 XOR\n2 1 34309 26069 26072 XOR\n2 1 26168 26118 26070 XOR\n2 1 34307 26069 26068 XOR\n2 1 26165 26166 26164 AND\n2 1 26164 26181 26076 XOR\n2 1 26076 26178 26071 XOR\n2 1 26164 26172 26163 XOR\n2 1 26071 26072 26155 XOR\n2 1 26164 26122 26077 XOR\n2 1 26170 26164 26162 XOR\n2 1 26155 26187 26145 AND\n2 1 26172 26162 26161 AND\n2 1 26161 26179 26131 XOR\n2 1 26131 26125 26153 XOR\n2 1 26161 26169 26159 XOR\n2 1 34303 26131 26114 XOR\n2 1 26114 26077 26160 XOR\n2 1 26160 26191 26141 AND\n2 1 26167 26159 26158 AND\n2 1 26158 26127 26117 XOR\n2 1 26117 26119 26157 XOR\n2 1 26158 26182 26075 XOR\n2 1 26114 26075 26067 XOR\n2 1 26104 26067 26074 XOR\n2 1 26071 26074 26156 XOR\n2 1 26117 26070 26154 XOR\n2 1 26067 26068 26152 XOR\n2 1 26152 26200 26135 AND\n2 1 26152 26185 26144 AND\n2 1 26144 26145 26095 XOR\n2 1 26153 26190 26151 AND\n2 1 26153 26194 26142 AND\n2 1 26154 26199 26139 AND\n2 1 26160 26189 26150 AND\n2 1 26163 34302 26149 AND\n2 1 26149 26151 26130 XOR\n2 1 26154 26184 26148 AND\n2 1 26148 26139 26100 XOR\n2 1 26155 26198 26136 AND\n2 1 26135 26136 26129 XOR\n2 1 26141 26129 26111 XOR\n2 1 26142 26111 26112 XOR\n2 1 26150 26112 26116 XOR\n2 1 26151 26116 26121 XOR\n2 1 26121 26095 26202 XOR\n2 1 26149 26116 26085 XOR\n1 1 26202 36416 INV\n2 1 26157 26192 26138 AND\n2 1 26157 26196 26147 AND\n2 1 26144 26147 26099 XOR\n1 1 26099 26096 INV\n2 1 26147 26148 26133 XOR\n2 1 26133 26121 36415 XOR\n2 1 26144 26133 26123 XOR\n2 1 26145 26123 26083 XOR\n2 1 26112 26083 36417 XOR\n2 1 26167 26186 26146 AND\n2 1 26146 26138 26102 XOR\n2 1 26102 26129 26098 XOR\n2 1 26130 26098 26101 XOR\n2 1 26100 26101 26204 XOR\n2 1 26146 26147 26084 XOR\n2 1 26084 26085 36414 XOR\n1 1 26204 33079 INV\n2 1 26156 26188 26143 AND\n",
"2 1 26139 26143 26115 XOR\n1 1 26115 26093 INV\n2 1 26093 26098 26097 XOR\n2 1 26096 26097 26203 XOR\n1 1 26203 33078 INV\n2 1 26163 26195 26140 AND\n2 1 26140 26123 26089 XOR\n1 1 26089 26086 INV\n2 1 26167 26193 26137 AND\n2 1 26093 26137 26092 XOR\n2 1 26092 26130 26088 XOR\n2 1 26136 26088 26091 XOR\n2 1 26111 26088 26087 XOR\n2 1 26086 26087 36413 XOR\n2 1 26156 26197 26134 AND\n2 1 26145 26134 26094 XOR\n1 1 26094 26090 INV\n2 1 26090 26091 26201 XOR\n1 1 26201 33077 INV\n2 1 25404 25500 25485 XOR\n2 1 25500 25485 25476 AND\n2 1 25476 25477 25379 XOR\n2 1 25379 25380 25426 XOR\n2 1 25426 25408 25425 XOR\n2 1 25476 25428 25422 XOR\n2 1 25479 25422 25378 XOR\n2 1 34191 25378 25466 XOR\n2 1 25476 25482 25427 XOR\n2 1 25427 25419 25471 XOR\n2 1 25479 25425 25473 XOR\n2 1 25427 25418 25474 XOR\n2 1 25474 25473 25470 AND\n2 1 25470 25472 25469 XOR\n2 1 25471 25469 25468 AND\n2 1 25468 25424 25467 XOR\n2 1 25468 25480 25373 XOR\n2 1 25373 25409 25369 XOR\n2 1 25470 25424 25465 XOR\n2 1 25465 25466 25464 AND\n2 1 25470 25464 25462 XOR\n2 1 25464 25422 25377 XOR\n2 1 25472 25462 25461 AND\n2 1 25461 25479 25431 XOR\n2 1 34191 25431 25414 XOR\n2 1 25414 25377 25460 XOR\n2 1 25461 25469 25459 XOR\n2 1 25467 25459 25458 AND\n2 1 25458 25427 25417 XOR\n2 1 25458 25482 25375 XOR\n2 1 25417 25419 25457 XOR\n2 1 25414 25375 25367 XOR\n2 1 25404 25367 25374 XOR\n2 1 25460 25489 25450 AND\n2 1 25460 25491 25441 AND\n2 1 25464 25481 25376 XOR\n2 1 25376 25478 25371 XOR\n2 1 25371 25374 25456 XOR\n2 1 25456 25497 25434 AND\n2 1 25457 25496 25447 AND\n2 1 25467 25486 25446 AND\n2 1 25446 25447 25384 XOR\n2 1 25456 25488 25443 AND\n2 1 25468 25418 25370 XOR\n2 1 25417 25370 25454 XOR\n2 1 25454 25484 25448 AND\n2 1 25447 25448 25433 XOR\n2 1 25467 25493 25437 AND\n2 1 34195 25369 25368 XOR\n2 1 25367 25368 25452 XOR\n2 1 25452 25485 25444 AND\n2 1 25444 25447 25399 XOR\n1 1 25399 25396 INV\n2 1 25444 25433 25423 XOR\n2 1 25457 25492 25438 AND\n2 1 25446 25438 25402 XOR\n2 1 25454 25499 25439 AND\n2 1 25439 25443 25415 XOR\n1 1 25415 25393 INV\n2 1 25393 25437 25392 XOR\n2 1 25448 25439 25400 XOR\n2 1 25452 25500 25435 AND\n2 1 34197 25369 25372 XOR\n2 1 25371 25372 25455 XOR\n2 1 25455 25487 25445 AND\n2 1 25445 25434 25394 XOR\n1 1 25394 25390 INV\n2 1 25445 25423 25383 XOR\n2 1 25455 25498 25436 AND\n2 1 25435 25436 25429 XOR\n2 1 25441 25429 25411 XOR\n2 1 25402 25429 25398 XOR\n2 1 25393 25398 25397 XOR\n2 1 25396 25397 25503 XOR\n2 1 25464 25472 25463 XOR\n2 1 25463 34190 25449 AND\n2 1 25463 25495 25440 AND\n2 1 25440 25423 25389 XOR\n1 1 25389 25386 INV\n2 1 25431 25425 25453 XOR\n2 1 25453 25490 25451 AND\n2 1 25449 25451 25430 XOR\n2 1 25392 25430 25388 XOR\n2 1 25411 25388 25387 XOR\n2 1 25386 25387 36258 XOR\n2 1 25436 25388 25391 XOR\n2 1 25390 25391 25501 XOR\n2 1 25430 25398 25401 XOR\n2 1 25400 25401 25504 XOR\n2 1 33083 36258 9957 XOR\n2 1 25453 25494 25442 AND\n2 1 25442 25411 25412 XOR\n2 1 25450 25412 25416 XOR\n2 1 25451 25416 25421 XOR\n2 1 25449 25416 25385 XOR\n2 1 25384 25385 36259 XOR\n2 1 25412 25383 36261 XOR\n2 1 36259 36263 10169 XOR\n2 1 10237 10169 36168 XOR\n2 1 36168 1308 34377 XOR\n2 1 25433 25421 36260 XOR\n2 1 10161 36260 10147 XOR\n2 1 10146 10147 36169 XOR\n2 1 36169 1307 34378 XOR\n2 1 36259 36258 9902 XOR\n2 1 36261 29562 10141 XOR\n2 1 10140 10141 36172 XOR\n2 1 36172 1304 34381 XOR\n2 1 36257 36261 10150 XOR\n",
"2 1 10150 36269 10115 XOR\n2 1 34378 34381 25778 XOR\n2 1 10169 10167 10108 XOR\n2 1 10108 10109 10107 XOR\n1 1 10107 36192 INV\n2 1 36192 1284 34401 XOR\n2 1 36259 9953 9952 XOR\n2 1 10172 10150 10103 XOR\n2 1 9956 9957 36167 XOR\n2 1 36167 1309 34376 XOR\n2 1 34381 34376 25777 XOR\n2 1 34377 34376 25660 XOR\n2 1 36255 36260 10215 XOR\n2 1 10215 10169 10120 XOR\n2 1 10221 10215 36193 XOR\n2 1 36193 1283 34402 XOR\n2 1 10215 10184 10131 XOR\n2 1 33152 10131 36178 XOR\n2 1 36178 1298 34387 XOR\n2 1 36253 36258 10189 XOR\n2 1 10189 10175 10134 XOR\n1 1 10134 10132 INV\n2 1 10189 36266 10122 XOR\n2 1 10189 10179 10110 XOR\n2 1 36262 10110 36191 XOR\n2 1 36191 1285 34400 XOR\n2 1 34401 34400 11244 XOR\n2 1 34400 34402 11364 XOR\n2 1 36265 10103 36196 XOR\n2 1 36196 1280 34405 XOR\n2 1 34402 34405 11362 XOR\n2 1 34405 34400 11361 XOR\n2 1 34376 34378 25780 XOR\n1 1 25501 33061 INV\n2 1 33061 36260 10119 XOR\n2 1 10118 10119 36186 XOR\n2 1 10172 33061 10127 XOR\n2 1 33061 33152 10174 XOR\n1 1 10174 10145 INV\n2 1 10145 33081 10143 XOR\n2 1 10174 10166 10106 XOR\n2 1 33153 10106 36194 XOR\n2 1 36194 1282 34403 XOR\n2 1 34403 34405 11268 XOR\n2 1 11268 11364 11349 XOR\n2 1 11364 11349 11340 AND\n2 1 10143 10144 36170 XOR\n2 1 36170 1306 34379 XOR\n2 1 34379 34381 25684 XOR\n2 1 10127 10128 10126 XOR\n1 1 10126 36179 INV\n2 1 36179 1297 34388 XOR\n2 1 36186 1290 34395 XOR\n2 1 25684 25780 25765 XOR\n2 1 25780 25765 25756 AND\n1 1 25503 33063 INV\n2 1 33084 33063 9914 XOR\n2 1 9913 9914 10238 XOR\n2 1 10238 10179 36166 XOR\n2 1 36166 1310 34375 XOR\n2 1 34381 34375 25779 XOR\n2 1 34375 34376 25700 XOR\n2 1 34375 34377 25683 XOR\n2 1 34376 25683 25685 XOR\n2 1 34379 25685 25764 XOR\n2 1 25779 25764 25760 AND\n2 1 25760 25684 25688 XOR\n2 1 25778 25700 25774 XOR\n2 1 25683 25778 25770 XOR\n2 1 25770 25774 25763 AND\n2 1 33146 33063 10123 XOR\n2 1 10122 10123 36183 XOR\n2 1 36183 1293 34392 XOR\n2 1 33154 33063 10204 XOR\n2 1 10204 10167 10135 XOR\n2 1 36253 10135 36175 XOR\n2 1 36175 1301 34384 XOR\n1 1 10204 10113 INV\n2 1 10113 10199 10111 XOR\n1 1 25504 33064 INV\n2 1 33147 33064 9900 XOR\n2 1 33064 9958 36165 XOR\n2 1 36165 1311 34374 XOR\n2 1 33155 33064 10212 XOR\n2 1 10212 10179 10137 XOR\n2 1 10212 10149 10114 XOR\n2 1 33147 10114 36189 XOR\n2 1 36189 1287 34398 XOR\n2 1 34374 25770 25769 XOR\n1 1 10150 10245 INV\n2 1 10245 36263 10133 XOR\n2 1 10245 33154 10138 XOR\n2 1 10137 10138 10136 XOR\n1 1 10136 36174 INV\n2 1 36174 1302 34383 XOR\n2 1 10132 10133 36176 XOR\n2 1 36176 1300 34385 XOR\n2 1 34385 34384 25100 XOR\n2 1 34383 34385 25123 XOR\n2 1 34384 25123 25125 XOR\n2 1 34388 25125 25207 XOR\n2 1 34387 25125 25204 XOR\n2 1 10245 36254 9951 XOR\n2 1 9951 9952 10222 XOR\n2 1 10222 10166 36177 XOR\n2 1 36177 1299 34386 XOR\n2 1 34386 34388 25126 XOR\n2 1 25126 34387 25085 XOR\n2 1 34383 34384 25140 XOR\n2 1 34384 34386 25220 XOR\n2 1 25444 25445 25395 XOR\n2 1 25421 25395 25502 XOR\n1 1 25502 33062 INV\n2 1 33145 33062 10116 XOR\n2 1 10115 10116 36188 XOR\n2 1 36188 1288 34397 XOR\n2 1 34397 34392 11221 XOR\n2 1 34395 34397 11128 XOR\n2 1 33062 10142 36171 XOR\n2 1 36171 1305 34380 XOR\n2 1 34374 34380 25690 XOR\n2 1 25690 25685 25766 XOR\n2 1 34378 34380 25686 XOR\n2 1 25763 25686 25689 XOR\n2 1 34380 25685 25767 XOR\n2 1 25686 34379 25645 XOR\n2 1 34374 25645 25775 XOR\n2 1 25684 25690 25773 XOR\n",
"2 1 25700 25773 25771 XOR\n2 1 25686 25684 25646 XOR\n2 1 25775 34374 25761 AND\n2 1 25683 25646 25768 XOR\n2 1 36256 33062 10214 XOR\n2 1 10214 33081 10104 XOR\n2 1 10214 10174 10117 XOR\n2 1 10104 10105 36195 XOR\n2 1 36195 1281 34404 XOR\n2 1 34402 34404 11270 XOR\n2 1 10214 10149 10125 XOR\n2 1 36257 10125 36180 XOR\n2 1 36180 1296 34389 XOR\n2 1 34386 34389 25218 XOR\n2 1 25218 25140 25214 XOR\n2 1 34387 34389 25124 XOR\n2 1 25126 25124 25086 XOR\n2 1 25124 25220 25205 XOR\n2 1 25220 25205 25196 AND\n2 1 25123 25218 25210 XOR\n2 1 25210 25214 25203 AND\n2 1 25203 25126 25129 XOR\n2 1 11270 34403 11229 XOR\n2 1 33082 10117 36187 XOR\n2 1 36187 1289 34396 XOR\n2 1 25123 25086 25208 XOR\n2 1 11270 11268 11230 XOR\n2 1 34398 11229 11359 XOR\n2 1 34398 34404 11274 XOR\n2 1 34403 11274 11360 XOR\n2 1 11268 11274 11357 XOR\n2 1 25218 25207 25197 AND\n2 1 25197 25125 25127 XOR\n2 1 25129 25127 25133 XOR\n2 1 25196 25197 25099 XOR\n2 1 25099 25100 25146 XOR\n2 1 34389 25133 25138 XOR\n2 1 34389 34383 25219 XOR\n2 1 25219 25204 25200 AND\n2 1 25200 25124 25128 XOR\n2 1 25146 25128 25145 XOR\n2 1 34389 34384 25217 XOR\n2 1 11359 34398 11345 AND\n2 1 25771 25769 25762 AND\n2 1 25756 25762 25707 XOR\n2 1 34379 25690 25776 XOR\n2 1 34375 25776 25772 XOR\n2 1 25776 25772 25759 AND\n2 1 25773 25766 25758 AND\n2 1 25217 25208 25195 AND\n2 1 10111 10112 36190 XOR\n2 1 36190 1286 34399 XOR\n2 1 34399 34401 11267 XOR\n2 1 34400 11267 11269 XOR\n2 1 11274 11269 11350 XOR\n2 1 11357 11350 11342 AND\n2 1 34405 34399 11363 XOR\n2 1 34404 11269 11351 XOR\n2 1 34403 11269 11348 XOR\n2 1 11363 11348 11344 AND\n2 1 34399 11360 11356 XOR\n2 1 11360 11356 11343 AND\n2 1 11267 11362 11354 XOR\n2 1 34398 11354 11353 XOR\n2 1 34399 34400 11284 XOR\n2 1 11362 11284 11358 XOR\n2 1 11284 11357 11355 XOR\n2 1 11355 11353 11346 AND\n2 1 11340 11346 11292 XOR\n2 1 11267 11230 11352 XOR\n2 1 11361 11352 11339 AND\n2 1 11339 11342 11293 XOR\n2 1 11340 11293 11286 XOR\n2 1 11343 11286 11242 XOR\n2 1 34399 11242 11330 XOR\n2 1 11354 11358 11347 AND\n2 1 11347 11270 11273 XOR\n2 1 11362 11351 11341 AND\n2 1 11340 11341 11243 XOR\n2 1 11243 11244 11290 XOR\n2 1 11339 11345 11297 XOR\n2 1 11297 11268 11283 XOR\n2 1 11292 11283 11335 XOR\n2 1 11344 11268 11272 XOR\n2 1 11272 11293 11246 XOR\n2 1 11290 11272 11289 XOR\n2 1 11343 11289 11337 XOR\n2 1 11341 11269 11271 XOR\n2 1 11246 11271 11336 XOR\n2 1 11273 11271 11277 XOR\n2 1 11277 11297 11245 XOR\n2 1 34403 11245 11288 XOR\n2 1 34405 11277 11282 XOR\n2 1 11292 11282 11338 XOR\n2 1 11338 11337 11334 AND\n2 1 11334 11288 11329 XOR\n2 1 11329 11330 11328 AND\n2 1 11328 11345 11240 XOR\n2 1 11240 11342 11235 XOR\n2 1 11334 11328 11327 XOR\n2 1 11336 11327 11326 AND\n2 1 11328 11286 11241 XOR\n2 1 11328 11336 11291 XOR\n2 1 11326 11343 11296 XOR\n2 1 34399 11296 11278 XOR\n2 1 11296 11289 11318 XOR\n2 1 11278 11241 11325 XOR\n2 1 11325 11353 11315 AND\n2 1 11325 11355 11306 AND\n2 1 11318 11358 11307 AND\n2 1 11318 11354 11316 AND\n2 1 11291 34398 11314 AND\n2 1 11314 11316 11295 XOR\n2 1 11334 11336 11333 XOR\n2 1 11326 11333 11324 XOR\n2 1 11335 11333 11332 AND\n2 1 11332 11288 11331 XOR\n2 1 11331 11350 11311 AND\n2 1 11331 11324 11323 AND\n2 1 11332 11282 11234 XOR\n2 1 11323 11346 11239 XOR\n2 1 11278 11239 11231 XOR\n2 1 11291 11359 11305 AND\n2 1 11331 11357 11302 AND\n2 1 11268 11231 11238 XOR\n2 1 11235 11238 11321 XOR\n2 1 11321 11352 11308 AND\n2 1 11323 11292 11281 XOR\n",
"2 1 11281 11234 11319 XOR\n2 1 11319 11348 11313 AND\n2 1 11319 11363 11304 AND\n2 1 11281 11283 11322 XOR\n2 1 11322 11360 11312 AND\n2 1 11304 11308 11279 XOR\n1 1 11279 11257 INV\n2 1 11257 11302 11256 XOR\n2 1 11256 11295 11252 XOR\n2 1 11313 11304 11264 XOR\n2 1 11311 11312 11248 XOR\n2 1 11322 11356 11303 AND\n2 1 11311 11303 11266 XOR\n2 1 11312 11313 11298 XOR\n2 1 11332 11344 11237 XOR\n2 1 11237 11273 11233 XOR\n2 1 34405 11233 11236 XOR\n2 1 34403 11233 11232 XOR\n2 1 11231 11232 11317 XOR\n2 1 11317 11364 11300 AND\n2 1 11317 11349 11309 AND\n2 1 11309 11312 11263 XOR\n1 1 11263 11260 INV\n2 1 11309 11298 11287 XOR\n2 1 11305 11287 11253 XOR\n1 1 11253 11250 INV\n2 1 11235 11236 11320 XOR\n2 1 11320 11362 11301 AND\n2 1 11300 11301 11294 XOR\n2 1 11266 11294 11262 XOR\n2 1 11257 11262 11261 XOR\n2 1 11260 11261 11367 XOR\n2 1 11306 11294 11275 XOR\n2 1 11307 11275 11276 XOR\n2 1 11301 11252 11255 XOR\n2 1 11275 11252 11251 XOR\n2 1 11250 11251 36467 XOR\n2 1 11295 11262 11265 XOR\n2 1 11264 11265 11368 XOR\n2 1 11315 11276 11280 XOR\n2 1 11314 11280 11249 XOR\n2 1 11248 11249 36468 XOR\n2 1 36455 36468 11644 XOR\n2 1 36468 36467 11386 XOR\n2 1 11316 11280 11285 XOR\n2 1 11298 11285 36469 XOR\n2 1 36469 11423 11613 XOR\n1 1 11367 32857 INV\n1 1 11368 32858 INV\n2 1 11320 11351 11310 AND\n2 1 11309 11310 11259 XOR\n2 1 11310 11287 11247 XOR\n2 1 11276 11247 36470 XOR\n2 1 36458 36470 11630 XOR\n2 1 11630 32830 11383 XOR\n2 1 11285 11259 11366 XOR\n1 1 11366 32856 INV\n2 1 11630 36454 11385 XOR\n2 1 11385 11386 11706 XOR\n2 1 10199 10150 10139 XOR\n2 1 33155 10139 36173 XOR\n2 1 36173 1303 34382 XOR\n2 1 34382 34388 25130 XOR\n2 1 34382 25210 25209 XOR\n2 1 25130 25125 25206 XOR\n2 1 25124 25130 25213 XOR\n2 1 25140 25213 25211 XOR\n2 1 25211 25209 25202 AND\n2 1 25196 25202 25147 XOR\n2 1 25147 25138 25194 XOR\n2 1 25213 25206 25198 AND\n2 1 25195 25198 25148 XOR\n2 1 25128 25148 25102 XOR\n2 1 25102 25127 25192 XOR\n2 1 34382 25085 25215 XOR\n2 1 25215 34382 25201 AND\n2 1 25195 25201 25152 XOR\n2 1 25152 25124 25139 XOR\n2 1 25147 25139 25191 XOR\n2 1 25133 25152 25101 XOR\n2 1 34387 25101 25144 XOR\n2 1 34387 25130 25216 XOR\n2 1 34383 25216 25212 XOR\n2 1 25216 25212 25199 AND\n2 1 25199 25145 25193 XOR\n2 1 25194 25193 25190 AND\n2 1 25190 25144 25185 XOR\n2 1 25190 25192 25189 XOR\n2 1 25191 25189 25188 AND\n2 1 25188 25144 25187 XOR\n2 1 25187 25213 25157 AND\n2 1 25188 25200 25093 XOR\n2 1 25093 25129 25089 XOR\n2 1 34389 25089 25092 XOR\n2 1 25188 25138 25090 XOR\n2 1 34387 25089 25088 XOR\n2 1 25187 25206 25166 AND\n2 1 25196 25148 25142 XOR\n2 1 25199 25142 25098 XOR\n2 1 34383 25098 25186 XOR\n2 1 25185 25186 25184 AND\n2 1 25184 25142 25097 XOR\n2 1 25184 25192 25183 XOR\n2 1 25183 34382 25169 AND\n2 1 25190 25184 25182 XOR\n2 1 25183 25215 25160 AND\n2 1 25192 25182 25181 AND\n2 1 25181 25199 25151 XOR\n2 1 34383 25151 25134 XOR\n2 1 25134 25097 25180 XOR\n2 1 25180 25209 25170 AND\n2 1 25151 25145 25173 XOR\n2 1 25181 25189 25179 XOR\n2 1 25173 25214 25162 AND\n2 1 25180 25211 25161 AND\n2 1 25187 25179 25178 AND\n2 1 25178 25202 25095 XOR\n2 1 25134 25095 25087 XOR\n2 1 25124 25087 25094 XOR\n2 1 25178 25147 25137 XOR\n2 1 25137 25139 25177 XOR\n2 1 25177 25216 25167 AND\n2 1 25166 25167 25104 XOR\n2 1 25177 25212 25158 AND\n2 1 25166 25158 25122 XOR\n2 1 25137 25090 25174 XOR\n2 1 25174 25219 25159 AND\n2 1 25174 25204 25168 AND\n",
"2 1 25184 25201 25096 XOR\n2 1 25168 25159 25120 XOR\n2 1 25096 25198 25091 XOR\n2 1 25091 25092 25175 XOR\n2 1 25175 25218 25156 AND\n2 1 25091 25094 25176 XOR\n2 1 25176 25208 25163 AND\n2 1 25159 25163 25135 XOR\n1 1 25135 25113 INV\n2 1 25113 25157 25112 XOR\n2 1 25176 25217 25154 AND\n2 1 25087 25088 25172 XOR\n2 1 25172 25205 25164 AND\n2 1 25172 25220 25155 AND\n2 1 25155 25156 25149 XOR\n2 1 25161 25149 25131 XOR\n2 1 25162 25131 25132 XOR\n2 1 25170 25132 25136 XOR\n2 1 25169 25136 25105 XOR\n2 1 25104 25105 36424 XOR\n1 1 36424 11380 INV\n2 1 36428 11380 11392 XOR\n2 1 25167 25168 25153 XOR\n2 1 25164 25153 25143 XOR\n2 1 25160 25143 25109 XOR\n1 1 25109 25106 INV\n2 1 25175 25207 25165 AND\n2 1 25165 25143 25103 XOR\n2 1 25165 25154 25114 XOR\n1 1 25114 25110 INV\n2 1 25132 25103 36426 XOR\n2 1 36426 36430 11629 XOR\n1 1 11629 11393 INV\n2 1 25164 25165 25115 XOR\n2 1 25173 25210 25171 AND\n2 1 25169 25171 25150 XOR\n2 1 25112 25150 25108 XOR\n2 1 25131 25108 25107 XOR\n2 1 25106 25107 36423 XOR\n2 1 36427 36423 11390 XOR\n2 1 25156 25108 25111 XOR\n2 1 25110 25111 25221 XOR\n1 1 25221 33058 INV\n2 1 25171 25136 25141 XOR\n2 1 25153 25141 36425 XOR\n2 1 11490 36425 11505 XOR\n2 1 25141 25115 25222 XOR\n1 1 25222 33059 INV\n2 1 33059 33069 11639 XOR\n2 1 33059 33058 11503 XOR\n2 1 25122 25149 25118 XOR\n2 1 25113 25118 25117 XOR\n2 1 25150 25118 25121 XOR\n2 1 25120 25121 25224 XOR\n1 1 25224 33060 INV\n2 1 33071 33060 11388 XOR\n2 1 25778 25767 25757 AND\n2 1 25756 25757 25659 XOR\n2 1 25659 25660 25706 XOR\n2 1 25706 25688 25705 XOR\n2 1 25757 25685 25687 XOR\n2 1 25689 25687 25693 XOR\n2 1 25759 25705 25753 XOR\n2 1 34381 25693 25698 XOR\n2 1 25707 25698 25754 XOR\n2 1 25754 25753 25750 AND\n2 1 25164 25167 25119 XOR\n1 1 25119 25116 INV\n2 1 25116 25117 25223 XOR\n2 1 33070 25223 11508 XOR\n1 1 25223 36422 INV\n2 1 25777 25768 25755 AND\n2 1 25755 25758 25708 XOR\n2 1 25756 25708 25702 XOR\n2 1 25759 25702 25658 XOR\n2 1 34375 25658 25746 XOR\n2 1 25688 25708 25662 XOR\n2 1 25662 25687 25752 XOR\n2 1 25750 25752 25749 XOR\n2 1 25755 25761 25712 XOR\n2 1 25693 25712 25661 XOR\n2 1 34379 25661 25704 XOR\n2 1 25750 25704 25745 XOR\n2 1 25712 25684 25699 XOR\n2 1 25707 25699 25751 XOR\n2 1 25745 25746 25744 AND\n2 1 25744 25752 25743 XOR\n2 1 25743 25775 25720 AND\n2 1 25743 34374 25729 AND\n2 1 25750 25744 25742 XOR\n2 1 25752 25742 25741 AND\n2 1 25741 25759 25711 XOR\n2 1 25741 25749 25739 XOR\n2 1 34375 25711 25694 XOR\n2 1 25711 25705 25733 XOR\n2 1 25733 25770 25731 AND\n2 1 25729 25731 25710 XOR\n2 1 25733 25774 25722 AND\n2 1 25744 25702 25657 XOR\n2 1 25694 25657 25740 XOR\n2 1 25740 25769 25730 AND\n2 1 25740 25771 25721 AND\n2 1 25744 25761 25656 XOR\n2 1 25656 25758 25651 XOR\n2 1 25751 25749 25748 AND\n2 1 25748 25704 25747 XOR\n2 1 25747 25773 25717 AND\n2 1 25748 25760 25653 XOR\n2 1 25747 25766 25726 AND\n2 1 25747 25739 25738 AND\n2 1 25738 25707 25697 XOR\n2 1 25697 25699 25737 XOR\n2 1 25737 25772 25718 AND\n2 1 25737 25776 25727 AND\n2 1 25748 25698 25650 XOR\n2 1 25697 25650 25734 XOR\n2 1 25734 25779 25719 AND\n2 1 25726 25718 25682 XOR\n2 1 25734 25764 25728 AND\n2 1 25728 25719 25680 XOR\n2 1 25727 25728 25713 XOR\n2 1 25653 25689 25649 XOR\n2 1 34381 25649 25652 XOR\n2 1 25651 25652 25735 XOR\n2 1 34379 25649 25648 XOR\n2 1 25735 25767 25725 AND\n2 1 25735 25778 25716 AND\n2 1 25726 25727 25664 XOR\n",
"2 1 25738 25762 25655 XOR\n2 1 25694 25655 25647 XOR\n2 1 25647 25648 25732 XOR\n2 1 25732 25780 25715 AND\n2 1 25732 25765 25724 AND\n2 1 25724 25727 25679 XOR\n2 1 25724 25713 25703 XOR\n1 1 25679 25676 INV\n2 1 25720 25703 25669 XOR\n2 1 25715 25716 25709 XOR\n2 1 25721 25709 25691 XOR\n1 1 25669 25666 INV\n2 1 25722 25691 25692 XOR\n2 1 25730 25692 25696 XOR\n2 1 25729 25696 25665 XOR\n2 1 25731 25696 25701 XOR\n2 1 25713 25701 36437 XOR\n2 1 25664 25665 36436 XOR\n2 1 25724 25725 25675 XOR\n2 1 25682 25709 25678 XOR\n2 1 25710 25678 25681 XOR\n2 1 25680 25681 25784 XOR\n2 1 25701 25675 25782 XOR\n2 1 25725 25703 25663 XOR\n2 1 25692 25663 36438 XOR\n1 1 25782 33065 INV\n1 1 25784 33067 INV\n2 1 25684 25647 25654 XOR\n2 1 25651 25654 25736 XOR\n2 1 25736 25768 25723 AND\n2 1 25736 25777 25714 AND\n2 1 25725 25714 25674 XOR\n2 1 25719 25723 25695 XOR\n1 1 25695 25673 INV\n2 1 25673 25717 25672 XOR\n2 1 25672 25710 25668 XOR\n2 1 25673 25678 25677 XOR\n2 1 25716 25668 25671 XOR\n2 1 25676 25677 25783 XOR\n2 1 25691 25668 25667 XOR\n2 1 25666 25667 36435 XOR\n1 1 25674 25670 INV\n2 1 25670 25671 25781 XOR\n1 1 25783 33066 INV\n1 1 25781 33072 INV\n2 1 36261 36265 10164 XOR\n2 1 10164 36268 10121 XOR\n2 1 10164 36262 9901 XOR\n2 1 9901 9902 10243 XOR\n2 1 10243 10175 36184 XOR\n2 1 10120 10121 36185 XOR\n2 1 36184 1292 34393 XOR\n2 1 34393 34392 11104 XOR\n2 1 10164 33083 9899 XOR\n2 1 9899 9900 10244 XOR\n2 1 10244 10204 36182 XOR\n2 1 36182 1294 34391 XOR\n2 1 34391 34393 11127 XOR\n2 1 34392 11127 11129 XOR\n2 1 34396 11129 11211 XOR\n2 1 34395 11129 11208 XOR\n2 1 34391 34392 11144 XOR\n2 1 34397 34391 11223 XOR\n2 1 11223 11208 11204 AND\n2 1 11204 11128 11132 XOR\n2 1 10212 10164 10124 XOR\n2 1 36185 1291 34394 XOR\n2 1 34392 34394 11224 XOR\n2 1 34394 34397 11222 XOR\n2 1 11222 11211 11201 AND\n2 1 11127 11222 11214 XOR\n2 1 11222 11144 11218 XOR\n2 1 11214 11218 11207 AND\n2 1 11201 11129 11131 XOR\n2 1 34394 34396 11130 XOR\n2 1 11130 11128 11090 XOR\n2 1 11127 11090 11212 XOR\n2 1 11221 11212 11199 AND\n2 1 11207 11130 11133 XOR\n2 1 11133 11131 11137 XOR\n2 1 34397 11137 11142 XOR\n2 1 11128 11224 11209 XOR\n2 1 11224 11209 11200 AND\n2 1 11200 11201 11103 XOR\n2 1 11103 11104 11150 XOR\n2 1 11150 11132 11149 XOR\n2 1 33084 10124 36181 XOR\n2 1 36181 1295 34390 XOR\n2 1 34390 11214 11213 XOR\n2 1 34390 34396 11134 XOR\n2 1 34395 11134 11220 XOR\n2 1 11128 11134 11217 XOR\n2 1 11144 11217 11215 XOR\n2 1 11134 11129 11210 XOR\n2 1 11217 11210 11202 AND\n2 1 34391 11220 11216 XOR\n2 1 11215 11213 11206 AND\n2 1 11220 11216 11203 AND\n2 1 11203 11149 11197 XOR\n2 1 11200 11206 11151 XOR\n2 1 11151 11142 11198 XOR\n2 1 11198 11197 11194 AND\n2 1 11199 11202 11152 XOR\n2 1 11132 11152 11106 XOR\n2 1 11106 11131 11196 XOR\n2 1 11194 11196 11193 XOR\n2 1 11200 11152 11146 XOR\n2 1 11203 11146 11102 XOR\n2 1 34391 11102 11190 XOR\n2 1 11130 34395 11089 XOR\n2 1 34390 11089 11219 XOR\n2 1 11219 34390 11205 AND\n2 1 11199 11205 11156 XOR\n2 1 11137 11156 11105 XOR\n2 1 11156 11128 11143 XOR\n2 1 11151 11143 11195 XOR\n2 1 11195 11193 11192 AND\n2 1 11192 11204 11097 XOR\n2 1 11097 11133 11093 XOR\n2 1 34395 11093 11092 XOR\n2 1 11192 11142 11094 XOR\n2 1 34395 11105 11148 XOR\n2 1 11194 11148 11189 XOR\n2 1 11189 11190 11188 AND\n2 1 11188 11205 11100 XOR\n2 1 11100 11202 11095 XOR\n2 1 11188 11196 11187 XOR\n2 1 11187 11219 11164 AND\n",
"2 1 11188 11146 11101 XOR\n2 1 11192 11148 11191 XOR\n2 1 11191 11210 11170 AND\n2 1 11191 11217 11161 AND\n2 1 11187 34390 11173 AND\n2 1 11194 11188 11186 XOR\n2 1 11196 11186 11185 AND\n2 1 11185 11203 11155 XOR\n2 1 11155 11149 11177 XOR\n2 1 11177 11218 11166 AND\n2 1 11185 11193 11183 XOR\n2 1 11191 11183 11182 AND\n2 1 11182 11206 11099 XOR\n2 1 11182 11151 11141 XOR\n2 1 11141 11094 11178 XOR\n2 1 11141 11143 11181 XOR\n2 1 11178 11223 11163 AND\n2 1 11178 11208 11172 AND\n2 1 11172 11163 11124 XOR\n2 1 11181 11220 11171 AND\n2 1 11171 11172 11157 XOR\n2 1 11181 11216 11162 AND\n2 1 11170 11162 11126 XOR\n2 1 11170 11171 11108 XOR\n2 1 34391 11155 11138 XOR\n2 1 11138 11099 11091 XOR\n2 1 11128 11091 11098 XOR\n2 1 11095 11098 11180 XOR\n2 1 11180 11212 11167 AND\n2 1 11163 11167 11139 XOR\n2 1 11091 11092 11176 XOR\n2 1 11176 11224 11159 AND\n2 1 11138 11101 11184 XOR\n2 1 11184 11213 11174 AND\n2 1 11184 11215 11165 AND\n2 1 11176 11209 11168 AND\n2 1 11168 11157 11147 XOR\n1 1 11139 11117 INV\n2 1 11164 11147 11113 XOR\n1 1 11113 11110 INV\n2 1 11180 11221 11158 AND\n2 1 11177 11214 11175 AND\n2 1 11168 11171 11123 XOR\n1 1 11123 11120 INV\n2 1 34397 11093 11096 XOR\n2 1 11095 11096 11179 XOR\n2 1 11179 11222 11160 AND\n2 1 11179 11211 11169 AND\n2 1 11168 11169 11119 XOR\n2 1 11159 11160 11153 XOR\n2 1 11165 11153 11135 XOR\n2 1 11166 11135 11136 XOR\n2 1 11174 11136 11140 XOR\n2 1 11175 11140 11145 XOR\n2 1 11173 11140 11109 XOR\n2 1 11108 11109 36410 XOR\n2 1 11126 11153 11122 XOR\n2 1 11117 11122 11121 XOR\n2 1 11145 11119 11226 XOR\n2 1 11169 11147 11107 XOR\n2 1 11136 11107 36412 XOR\n2 1 36412 36417 11624 XOR\n1 1 11624 11715 INV\n2 1 11624 33079 11416 XOR\n2 1 11157 11145 36411 XOR\n2 1 36411 36415 11676 XOR\n2 1 11715 36411 11543 XOR\n2 1 11715 36413 11418 XOR\n1 1 11226 32852 INV\n2 1 32852 36416 11669 XOR\n2 1 11117 11161 11116 XOR\n2 1 11120 11121 11227 XOR\n1 1 11227 36408 INV\n2 1 33078 11227 11546 XOR\n2 1 36410 36414 11679 XOR\n2 1 11173 11175 11154 XOR\n2 1 11116 11154 11112 XOR\n2 1 11160 11112 11115 XOR\n2 1 11135 11112 11111 XOR\n2 1 11110 11111 36409 XOR\n1 1 36409 11420 INV\n2 1 36410 11420 11419 XOR\n2 1 11418 11419 11692 XOR\n2 1 11154 11122 11125 XOR\n2 1 11124 11125 11228 XOR\n1 1 11228 32853 INV\n2 1 11169 11158 11118 XOR\n1 1 11118 11114 INV\n2 1 11114 11115 11225 XOR\n1 1 11225 32851 INV\n2 1 32851 33077 11672 XOR\n2 1 11321 11361 11299 AND\n2 1 11310 11299 11258 XOR\n1 1 11258 11254 INV\n2 1 11254 11255 11365 XOR\n1 1 11365 32855 INV\n2 1 32834 32855 11653 XOR\n2 1 34290 34292 25266 XOR\n2 1 25266 25264 25226 XOR\n2 1 25266 34291 25225 XOR\n2 1 34286 25225 25355 XOR\n2 1 25355 34286 25341 AND\n2 1 25263 25226 25348 XOR\n2 1 25343 25266 25269 XOR\n2 1 25269 25267 25273 XOR\n2 1 34293 25273 25278 XOR\n2 1 25357 25348 25335 AND\n2 1 25335 25341 25292 XOR\n2 1 25292 25264 25279 XOR\n2 1 25273 25292 25241 XOR\n2 1 34291 25241 25284 XOR\n2 1 25287 25279 25331 XOR\n2 1 25335 25338 25288 XOR\n2 1 25336 25288 25282 XOR\n2 1 25268 25288 25242 XOR\n2 1 25242 25267 25332 XOR\n2 1 25287 25278 25334 XOR\n2 1 25334 25333 25330 AND\n2 1 25330 25332 25329 XOR\n2 1 25330 25284 25325 XOR\n2 1 25331 25329 25328 AND\n2 1 25328 25340 25233 XOR\n2 1 25233 25269 25229 XOR\n2 1 34293 25229 25232 XOR\n2 1 25328 25278 25230 XOR\n2 1 34291 25229 25228 XOR\n2 1 25328 25284 25327 XOR\n2 1 25327 25353 25297 AND\n",
"2 1 25327 25346 25306 AND\n2 1 25339 25282 25238 XOR\n2 1 34287 25238 25326 XOR\n2 1 25325 25326 25324 AND\n2 1 25324 25341 25236 XOR\n2 1 25324 25282 25237 XOR\n2 1 25330 25324 25322 XOR\n2 1 25332 25322 25321 AND\n2 1 25321 25339 25291 XOR\n2 1 25291 25285 25313 XOR\n2 1 25313 25350 25311 AND\n2 1 34287 25291 25274 XOR\n2 1 25274 25237 25320 XOR\n2 1 25320 25349 25310 AND\n2 1 25324 25332 25323 XOR\n2 1 25323 34286 25309 AND\n2 1 25309 25311 25290 XOR\n2 1 25236 25338 25231 XOR\n2 1 25231 25232 25315 XOR\n2 1 25315 25358 25296 AND\n2 1 25315 25347 25305 AND\n2 1 25313 25354 25302 AND\n2 1 25320 25351 25301 AND\n2 1 25323 25355 25300 AND\n2 1 25321 25329 25319 XOR\n2 1 25327 25319 25318 AND\n2 1 25318 25342 25235 XOR\n2 1 25274 25235 25227 XOR\n2 1 25318 25287 25277 XOR\n2 1 25277 25279 25317 XOR\n2 1 25317 25356 25307 AND\n2 1 25306 25307 25244 XOR\n2 1 25317 25352 25298 AND\n2 1 25306 25298 25262 XOR\n2 1 25227 25228 25312 XOR\n2 1 25312 25360 25295 AND\n2 1 25264 25227 25234 XOR\n2 1 25231 25234 25316 XOR\n2 1 25316 25348 25303 AND\n2 1 25316 25357 25294 AND\n2 1 25305 25294 25254 XOR\n1 1 25254 25250 INV\n2 1 25277 25230 25314 XOR\n2 1 25314 25344 25308 AND\n2 1 25307 25308 25293 XOR\n2 1 25312 25345 25304 AND\n2 1 25304 25305 25255 XOR\n2 1 25295 25296 25289 XOR\n2 1 25301 25289 25271 XOR\n2 1 25302 25271 25272 XOR\n2 1 25310 25272 25276 XOR\n2 1 25311 25276 25281 XOR\n2 1 25293 25281 36442 XOR\n2 1 36442 36436 11401 XOR\n2 1 36437 36442 11663 XOR\n1 1 11663 11434 INV\n2 1 25309 25276 25245 XOR\n2 1 25244 25245 36441 XOR\n1 1 36441 11399 INV\n2 1 11399 36435 11398 XOR\n2 1 25281 25255 25362 XOR\n1 1 25362 36444 INV\n2 1 33065 36444 11649 XOR\n2 1 25362 33072 11473 XOR\n2 1 36436 36441 11671 XOR\n1 1 11671 11437 INV\n2 1 25262 25289 25258 XOR\n2 1 25290 25258 25261 XOR\n2 1 25304 25293 25283 XOR\n2 1 25300 25283 25249 XOR\n1 1 25249 25246 INV\n2 1 25305 25283 25243 XOR\n2 1 25272 25243 36445 XOR\n2 1 36445 33065 11470 XOR\n2 1 36438 36445 11623 XOR\n2 1 25304 25307 25259 XOR\n1 1 25259 25256 INV\n2 1 25314 25359 25299 AND\n2 1 25308 25299 25260 XOR\n2 1 25260 25261 25364 XOR\n2 1 25299 25303 25275 XOR\n1 1 25275 25253 INV\n2 1 25253 25297 25252 XOR\n2 1 25253 25258 25257 XOR\n2 1 25252 25290 25248 XOR\n2 1 25271 25248 25247 XOR\n2 1 25246 25247 36440 XOR\n1 1 36440 11406 INV\n2 1 25296 25248 25251 XOR\n2 1 11406 33066 11481 XOR\n2 1 36435 36440 11678 XOR\n1 1 11678 11453 INV\n1 1 25364 33057 INV\n2 1 33067 33057 11686 XOR\n2 1 25250 25251 25361 XOR\n2 1 25361 36437 11478 XOR\n1 1 25361 36443 INV\n2 1 33072 36443 11656 XOR\n2 1 25256 25257 25363 XOR\n1 1 25363 36439 INV\n2 1 25363 33067 11395 XOR\n2 1 33066 36439 11685 XOR\n1 1 11623 33234 INV\n2 1 33234 33066 11467 XOR\n2 1 33234 36436 11463 XOR\n2 1 33234 36437 11461 XOR\n1 1 9380 33249 INV\n2 1 33249 36062 9363 XOR\n2 1 33249 33041 9368 XOR\n2 1 9367 9368 9366 XOR\n1 1 9366 35973 INV\n2 1 35973 1430 34255 XOR\n2 1 34255 27736 27732 XOR\n2 1 34255 34256 27660 XOR\n2 1 34261 34255 27739 XOR\n2 1 27736 27732 27719 AND\n2 1 27660 27733 27731 XOR\n2 1 33249 36053 9183 XOR\n2 1 9183 9184 9452 XOR\n2 1 9452 9396 35976 XOR\n2 1 35976 1427 34258 XOR\n2 1 34258 34260 27646 XOR\n2 1 34258 34261 27738 XOR\n2 1 27738 27660 27734 XOR\n2 1 27646 27644 27606 XOR\n2 1 34256 34258 27740 XOR\n2 1 27644 27740 27725 XOR\n2 1 27740 27725 27716 AND\n",
"2 1 27646 34259 27605 XOR\n2 1 34254 27605 27735 XOR\n2 1 27735 34254 27721 AND\n2 1 9362 9363 35975 XOR\n2 1 35975 1428 34257 XOR\n2 1 34257 34256 27620 XOR\n2 1 34255 34257 27643 XOR\n2 1 27643 27606 27728 XOR\n2 1 27737 27728 27715 AND\n2 1 34256 27643 27645 XOR\n2 1 34260 27645 27727 XOR\n2 1 34259 27645 27724 XOR\n2 1 27643 27738 27730 XOR\n2 1 34254 27730 27729 XOR\n2 1 27731 27729 27722 AND\n2 1 27650 27645 27726 XOR\n2 1 27739 27724 27720 AND\n2 1 27720 27644 27648 XOR\n2 1 27716 27722 27667 XOR\n2 1 27715 27721 27672 XOR\n2 1 27672 27644 27659 XOR\n2 1 27733 27726 27718 AND\n2 1 27715 27718 27668 XOR\n2 1 27716 27668 27662 XOR\n2 1 27719 27662 27618 XOR\n2 1 34255 27618 27706 XOR\n2 1 27738 27727 27717 AND\n2 1 27717 27645 27647 XOR\n2 1 27716 27717 27619 XOR\n2 1 27619 27620 27666 XOR\n2 1 27666 27648 27665 XOR\n2 1 27719 27665 27713 XOR\n2 1 27667 27659 27711 XOR\n2 1 27648 27668 27622 XOR\n2 1 27622 27647 27712 XOR\n2 1 27730 27734 27723 AND\n2 1 27723 27646 27649 XOR\n2 1 27649 27647 27653 XOR\n2 1 27653 27672 27621 XOR\n2 1 34259 27621 27664 XOR\n2 1 34261 27653 27658 XOR\n2 1 27667 27658 27714 XOR\n2 1 27714 27713 27710 AND\n2 1 27710 27664 27705 XOR\n2 1 27705 27706 27704 AND\n2 1 27704 27712 27703 XOR\n2 1 27710 27704 27702 XOR\n2 1 27712 27702 27701 AND\n2 1 27704 27721 27616 XOR\n2 1 27704 27662 27617 XOR\n2 1 27701 27719 27671 XOR\n2 1 34255 27671 27654 XOR\n2 1 27654 27617 27700 XOR\n2 1 27671 27665 27693 XOR\n2 1 27693 27730 27691 AND\n2 1 27693 27734 27682 AND\n2 1 27703 34254 27689 AND\n2 1 27689 27691 27670 XOR\n2 1 27710 27712 27709 XOR\n2 1 27701 27709 27699 XOR\n2 1 27616 27718 27611 XOR\n2 1 27711 27709 27708 AND\n2 1 27708 27664 27707 XOR\n2 1 27708 27658 27610 XOR\n2 1 27707 27733 27677 AND\n2 1 27708 27720 27613 XOR\n2 1 27613 27649 27609 XOR\n2 1 34259 27609 27608 XOR\n2 1 27707 27726 27686 AND\n2 1 34261 27609 27612 XOR\n2 1 27707 27699 27698 AND\n2 1 27698 27667 27657 XOR\n2 1 27698 27722 27615 XOR\n2 1 27654 27615 27607 XOR\n2 1 27644 27607 27614 XOR\n2 1 27611 27614 27696 XOR\n2 1 27696 27737 27674 AND\n2 1 27696 27728 27683 AND\n2 1 27607 27608 27692 XOR\n2 1 27692 27740 27675 AND\n2 1 27692 27725 27684 AND\n2 1 27700 27731 27681 AND\n2 1 27657 27659 27697 XOR\n2 1 27697 27736 27687 AND\n2 1 27684 27687 27639 XOR\n2 1 27697 27732 27678 AND\n2 1 27686 27678 27642 XOR\n1 1 27639 27636 INV\n2 1 27611 27612 27695 XOR\n2 1 27695 27738 27676 AND\n2 1 27675 27676 27669 XOR\n2 1 27695 27727 27685 AND\n2 1 27681 27669 27651 XOR\n2 1 27682 27651 27652 XOR\n2 1 27685 27674 27634 XOR\n2 1 27684 27685 27635 XOR\n2 1 27642 27669 27638 XOR\n2 1 27670 27638 27641 XOR\n1 1 27634 27630 INV\n2 1 27686 27687 27624 XOR\n2 1 27657 27610 27694 XOR\n2 1 27694 27739 27679 AND\n2 1 27679 27683 27655 XOR\n1 1 27655 27633 INV\n2 1 27633 27677 27632 XOR\n2 1 27632 27670 27628 XOR\n2 1 27676 27628 27631 XOR\n2 1 27651 27628 27627 XOR\n2 1 27630 27631 27741 XOR\n2 1 27694 27724 27688 AND\n2 1 27633 27638 27637 XOR\n2 1 27636 27637 27743 XOR\n2 1 27743 32820 9906 XOR\n2 1 27688 27679 27640 XOR\n2 1 27640 27641 27744 XOR\n1 1 27743 36221 INV\n2 1 27687 27688 27673 XOR\n2 1 27684 27673 27663 XOR\n2 1 27685 27663 27623 XOR\n2 1 27652 27623 36225 XOR\n2 1 36220 36225 10153 XOR\n2 1 10153 33086 10015 XOR\n1 1 10153 10048 INV\n2 1 10048 36219 10047 XOR\n2 1 10048 32819 10055 XOR\n2 1 10048 36218 10051 XOR\n2 1 32819 36221 10192 XOR\n2 1 27700 27729 27690 AND\n",
"2 1 27690 27652 27656 XOR\n2 1 27689 27656 27625 XOR\n2 1 27624 27625 36223 XOR\n1 1 36223 9910 INV\n2 1 27691 27656 27661 XOR\n2 1 27673 27661 36224 XOR\n2 1 36224 36218 9912 XOR\n2 1 36219 36224 10181 XOR\n2 1 9910 36217 9909 XOR\n2 1 9908 9909 10240 XOR\n2 1 27661 27635 27742 XOR\n2 1 9911 9912 10239 XOR\n1 1 10181 10022 INV\n2 1 36218 36223 10185 XOR\n1 1 10185 10049 INV\n2 1 27703 27735 27680 AND\n2 1 27680 27663 27629 XOR\n1 1 27629 27626 INV\n2 1 27626 27627 36222 XOR\n2 1 36217 36222 10188 XOR\n1 1 10188 10040 INV\n2 1 10040 36230 10038 XOR\n2 1 36222 32819 10067 XOR\n1 1 27741 33118 INV\n2 1 33118 36219 10065 XOR\n2 1 32824 33118 10177 XOR\n2 1 10177 10171 10044 XOR\n2 1 10177 33085 10037 XOR\n1 1 10037 10035 INV\n1 1 27742 33119 INV\n2 1 33119 33118 10034 XOR\n1 1 27744 33120 INV\n2 1 32820 33120 10193 XOR\n2 1 9905 9906 10241 XOR\n1 1 9386 33250 INV\n2 1 33250 36015 9310 XOR\n2 1 33250 33127 9174 XOR\n2 1 9310 9311 35891 XOR\n2 1 33250 35998 9331 XOR\n2 1 35891 1512 34173 XOR\n2 1 9174 9175 9456 XOR\n2 1 9456 9448 35877 XOR\n2 1 35877 1526 34159 XOR\n2 1 34165 34159 28019 XOR\n2 1 34159 34161 27923 XOR\n2 1 34160 27923 27925 XOR\n2 1 27930 27925 28006 XOR\n2 1 28013 28006 27998 AND\n2 1 9330 9331 35880 XOR\n2 1 35880 1523 34162 XOR\n2 1 34162 34165 28018 XOR\n2 1 34171 34173 31284 XOR\n2 1 31284 31380 31365 XOR\n2 1 34170 34173 31378 XOR\n2 1 31378 31300 31374 XOR\n2 1 31284 31290 31373 XOR\n2 1 31300 31373 31371 XOR\n2 1 31283 31378 31370 XOR\n2 1 34166 31370 31369 XOR\n2 1 31286 31284 31246 XOR\n2 1 31283 31246 31368 XOR\n2 1 34173 34167 31379 XOR\n2 1 34173 34168 31377 XOR\n2 1 31370 31374 31363 AND\n2 1 31363 31286 31289 XOR\n2 1 31371 31369 31362 AND\n2 1 31379 31364 31360 AND\n2 1 31360 31284 31288 XOR\n2 1 31373 31366 31358 AND\n2 1 31378 31367 31357 AND\n2 1 31357 31285 31287 XOR\n2 1 31289 31287 31293 XOR\n2 1 34173 31293 31298 XOR\n2 1 31380 31365 31356 AND\n2 1 31356 31362 31307 XOR\n2 1 31307 31298 31354 XOR\n2 1 31356 31357 31259 XOR\n2 1 31259 31260 31306 XOR\n2 1 31306 31288 31305 XOR\n2 1 31359 31305 31353 XOR\n2 1 31377 31368 31355 AND\n2 1 31355 31358 31308 XOR\n2 1 31355 31361 31312 XOR\n2 1 31312 31284 31299 XOR\n2 1 31307 31299 31351 XOR\n2 1 31356 31308 31302 XOR\n2 1 31288 31308 31262 XOR\n2 1 31262 31287 31352 XOR\n2 1 31293 31312 31261 XOR\n2 1 34171 31261 31304 XOR\n2 1 31359 31302 31258 XOR\n2 1 34167 31258 31346 XOR\n2 1 31354 31353 31350 AND\n2 1 31350 31304 31345 XOR\n2 1 31350 31352 31349 XOR\n2 1 31351 31349 31348 AND\n2 1 31348 31304 31347 XOR\n2 1 31348 31360 31253 XOR\n2 1 31253 31289 31249 XOR\n2 1 34173 31249 31252 XOR\n2 1 31348 31298 31250 XOR\n2 1 34171 31249 31248 XOR\n2 1 31345 31346 31344 AND\n2 1 31344 31352 31343 XOR\n2 1 31350 31344 31342 XOR\n2 1 31344 31302 31257 XOR\n2 1 31344 31361 31256 XOR\n2 1 31256 31358 31251 XOR\n2 1 31251 31252 31335 XOR\n2 1 31352 31342 31341 AND\n2 1 31341 31349 31339 XOR\n2 1 31341 31359 31311 XOR\n2 1 31311 31305 31333 XOR\n2 1 34167 31311 31294 XOR\n2 1 31294 31257 31340 XOR\n2 1 31347 31339 31338 AND\n2 1 31338 31307 31297 XOR\n2 1 31297 31299 31337 XOR\n2 1 31338 31362 31255 XOR\n2 1 31294 31255 31247 XOR\n2 1 31284 31247 31254 XOR\n2 1 31251 31254 31336 XOR\n2 1 31297 31250 31334 XOR\n2 1 31247 31248 31332 XOR\n2 1 31333 31370 31331 AND\n2 1 31340 31369 31330 AND\n2 1 31343 34166 31329 AND\n2 1 31329 31331 31310 XOR\n",
"2 1 31334 31364 31328 AND\n2 1 31337 31376 31327 AND\n2 1 31327 31328 31313 XOR\n2 1 31347 31366 31326 AND\n2 1 31326 31327 31264 XOR\n2 1 31335 31367 31325 AND\n2 1 31332 31365 31324 AND\n2 1 31324 31313 31303 XOR\n2 1 31324 31327 31279 XOR\n1 1 31279 31276 INV\n2 1 31324 31325 31275 XOR\n2 1 31325 31303 31263 XOR\n2 1 31336 31368 31323 AND\n2 1 31333 31374 31322 AND\n2 1 31340 31371 31321 AND\n2 1 31343 31375 31320 AND\n2 1 31320 31303 31269 XOR\n1 1 31269 31266 INV\n2 1 31334 31379 31319 AND\n2 1 31319 31323 31295 XOR\n2 1 31328 31319 31280 XOR\n1 1 31295 31273 INV\n2 1 31337 31372 31318 AND\n2 1 31326 31318 31282 XOR\n2 1 31347 31373 31317 AND\n2 1 31273 31317 31272 XOR\n2 1 31272 31310 31268 XOR\n2 1 31335 31378 31316 AND\n2 1 31316 31268 31271 XOR\n2 1 31332 31380 31315 AND\n2 1 31315 31316 31309 XOR\n2 1 31321 31309 31291 XOR\n2 1 31322 31291 31292 XOR\n2 1 31330 31292 31296 XOR\n2 1 31331 31296 31301 XOR\n2 1 31313 31301 36228 XOR\n1 1 36228 10021 INV\n2 1 31282 31309 31278 XOR\n2 1 31310 31278 31281 XOR\n2 1 31280 31281 31384 XOR\n2 1 31273 31278 31277 XOR\n2 1 31276 31277 31383 XOR\n2 1 31301 31275 31382 XOR\n2 1 31291 31268 31267 XOR\n2 1 31266 31267 36226 XOR\n2 1 31329 31296 31265 XOR\n2 1 31264 31265 36227 XOR\n2 1 31292 31263 36229 XOR\n2 1 36229 36233 10152 XOR\n2 1 10193 10152 10031 XOR\n2 1 10171 10152 10061 XOR\n2 1 36225 36229 10160 XOR\n2 1 10160 33087 9917 XOR\n1 1 10160 9923 INV\n2 1 10160 36231 9919 XOR\n2 1 9923 36232 9921 XOR\n2 1 31336 31377 31314 AND\n2 1 31325 31314 31274 XOR\n1 1 31274 31270 INV\n2 1 31270 31271 31381 XOR\n2 1 34160 34162 28020 XOR\n2 1 27924 28020 28005 XOR\n2 1 34162 34164 27926 XOR\n2 1 34159 28016 28012 XOR\n2 1 28016 28012 27999 AND\n2 1 27923 28018 28010 XOR\n2 1 34158 28010 28009 XOR\n2 1 27926 27924 27886 XOR\n2 1 34159 34160 27940 XOR\n2 1 28018 27940 28014 XOR\n2 1 28010 28014 28003 AND\n2 1 28003 27926 27929 XOR\n2 1 27940 28013 28011 XOR\n2 1 28011 28009 28002 AND\n2 1 36225 10061 36108 XOR\n2 1 36108 1368 34317 XOR\n2 1 10193 10160 10041 XOR\n2 1 33088 10041 36117 XOR\n2 1 36117 1359 34326 XOR\n2 1 36228 36232 10173 XOR\n2 1 10177 10173 10018 XOR\n2 1 10239 10173 36105 XOR\n2 1 36105 1371 34314 XOR\n2 1 34314 34317 10522 XOR\n2 1 36227 36231 10178 XOR\n2 1 10240 10178 36104 XOR\n2 1 10022 10178 10019 XOR\n2 1 36104 1372 34313 XOR\n2 1 36226 36222 9920 XOR\n2 1 9919 9920 10235 XOR\n2 1 10235 10185 36120 XOR\n2 1 36120 1356 34329 XOR\n2 1 10152 33119 10042 XOR\n2 1 10042 10043 36116 XOR\n2 1 36116 1360 34325 XOR\n2 1 34164 27925 28007 XOR\n2 1 28018 28007 27997 AND\n2 1 28020 28005 27996 AND\n2 1 27996 27997 27899 XOR\n2 1 27899 27900 27946 XOR\n2 1 27996 28002 27947 XOR\n2 1 36226 36230 10183 XOR\n2 1 10183 33087 10066 XOR\n2 1 10066 10067 36103 XOR\n2 1 36103 1373 34312 XOR\n2 1 10192 10183 10052 XOR\n2 1 36217 10052 36111 XOR\n2 1 36111 1365 34320 XOR\n2 1 34325 34320 27597 XOR\n2 1 34313 34312 10404 XOR\n2 1 34317 34312 10521 XOR\n2 1 34312 34314 10524 XOR\n2 1 10185 10183 10026 XOR\n2 1 10152 36227 10027 XOR\n2 1 10026 10027 36128 XOR\n2 1 36128 1348 34337 XOR\n2 1 34163 27925 28004 XOR\n2 1 28019 28004 28000 AND\n2 1 28000 27924 27928 XOR\n2 1 27946 27928 27945 XOR\n2 1 27999 27945 27993 XOR\n2 1 10049 10173 10046 XOR\n2 1 10046 10047 36113 XOR\n2 1 36113 1363 34322 XOR\n2 1 34320 34322 27600 XOR\n2 1 34322 34325 27598 XOR\n2 1 27923 27886 28008 XOR\n2 1 28017 28008 27995 AND\n",
"2 1 27995 27998 27948 XOR\n2 1 27928 27948 27902 XOR\n2 1 27996 27948 27942 XOR\n2 1 27999 27942 27898 XOR\n2 1 34159 27898 27986 XOR\n2 1 27997 27925 27927 XOR\n2 1 27902 27927 27992 XOR\n2 1 27929 27927 27933 XOR\n2 1 34165 27933 27938 XOR\n2 1 27947 27938 27994 XOR\n2 1 27994 27993 27990 AND\n2 1 27990 27992 27989 XOR\n2 1 10021 36224 10036 XOR\n2 1 10035 10036 36122 XOR\n2 1 36122 1354 34331 XOR\n2 1 10152 10021 10020 XOR\n2 1 10019 10020 36129 XOR\n2 1 36129 1347 34338 XOR\n2 1 10040 10178 10050 XOR\n2 1 10050 10051 36112 XOR\n2 1 36112 1364 34321 XOR\n2 1 34321 34320 27480 XOR\n2 1 36227 9910 9922 XOR\n2 1 9921 9922 10234 XOR\n2 1 10234 10181 36121 XOR\n2 1 36121 1355 34330 XOR\n2 1 27926 34163 27885 XOR\n2 1 34158 27885 28015 XOR\n2 1 28015 34158 28001 AND\n2 1 27995 28001 27952 XOR\n2 1 27952 27924 27939 XOR\n2 1 27947 27939 27991 XOR\n2 1 27991 27989 27988 AND\n2 1 27988 27938 27890 XOR\n2 1 27933 27952 27901 XOR\n2 1 34163 27901 27944 XOR\n2 1 27988 27944 27987 XOR\n2 1 27987 28013 27957 AND\n2 1 27987 28006 27966 AND\n2 1 27990 27944 27985 XOR\n2 1 27985 27986 27984 AND\n2 1 27984 27992 27983 XOR\n2 1 27983 34158 27969 AND\n2 1 27983 28015 27960 AND\n2 1 27990 27984 27982 XOR\n2 1 27992 27982 27981 AND\n2 1 27984 27942 27897 XOR\n2 1 27981 27999 27951 XOR\n2 1 34159 27951 27934 XOR\n2 1 27934 27897 27980 XOR\n2 1 27980 28009 27970 AND\n2 1 27980 28011 27961 AND\n2 1 27951 27945 27973 XOR\n2 1 27973 28014 27962 AND\n2 1 27973 28010 27971 AND\n2 1 27969 27971 27950 XOR\n2 1 27988 28000 27893 XOR\n2 1 27893 27929 27889 XOR\n2 1 34165 27889 27892 XOR\n2 1 34163 27889 27888 XOR\n2 1 27984 28001 27896 XOR\n2 1 27896 27998 27891 XOR\n2 1 27891 27892 27975 XOR\n2 1 27975 28007 27965 AND\n2 1 27975 28018 27956 AND\n1 1 31383 33201 INV\n2 1 33201 27743 10039 XOR\n2 1 10152 33201 10030 XOR\n2 1 10038 10039 36119 XOR\n2 1 36119 1357 34328 XOR\n2 1 34329 34328 10544 XOR\n2 1 34328 34330 10664 XOR\n2 1 33201 33087 10186 XOR\n2 1 10241 10186 36102 XOR\n2 1 36102 1374 34311 XOR\n2 1 34317 34311 10523 XOR\n2 1 34311 34313 10427 XOR\n2 1 10427 10522 10514 XOR\n2 1 34312 10427 10429 XOR\n2 1 10188 10186 10028 XOR\n2 1 36226 10028 36127 XOR\n2 1 36127 1349 34336 XOR\n2 1 34336 34338 10804 XOR\n2 1 34337 34336 10684 XOR\n2 1 10193 10186 10054 XOR\n2 1 34311 34312 10444 XOR\n2 1 10522 10444 10518 XOR\n2 1 10514 10518 10507 AND\n2 1 10054 10055 10053 XOR\n1 1 10053 36110 INV\n2 1 36110 1366 34319 XOR\n2 1 34319 34321 27503 XOR\n2 1 34325 34319 27599 XOR\n2 1 34320 27503 27505 XOR\n2 1 27503 27598 27590 XOR\n2 1 34319 34320 27520 XOR\n2 1 27598 27520 27594 XOR\n2 1 27590 27594 27583 AND\n1 1 31384 33202 INV\n2 1 33202 10031 36125 XOR\n2 1 36125 1351 34334 XOR\n2 1 33202 33120 9918 XOR\n2 1 9917 9918 10236 XOR\n2 1 10236 10192 36118 XOR\n2 1 33202 33088 10190 XOR\n2 1 10190 10162 10068 XOR\n2 1 10192 10190 10029 XOR\n2 1 10190 10153 10056 XOR\n2 1 10029 10030 36126 XOR\n2 1 36126 1350 34335 XOR\n2 1 34335 34336 10724 XOR\n2 1 34335 34337 10707 XOR\n2 1 34336 10707 10709 XOR\n2 1 32820 10056 36109 XOR\n2 1 36109 1367 34318 XOR\n2 1 34318 27590 27589 XOR\n2 1 33120 10068 36101 XOR\n2 1 36101 1375 34310 XOR\n2 1 34310 10514 10513 XOR\n2 1 36118 1358 34327 XOR\n2 1 34327 34329 10567 XOR\n2 1 34328 10567 10569 XOR\n2 1 34331 10569 10648 XOR\n2 1 34327 34328 10584 XOR\n1 1 31381 33207 INV\n2 1 33207 33085 10168 XOR\n2 1 10168 36232 10064 XOR\n2 1 10064 10065 36106 XOR\n",
"2 1 36106 1370 34315 XOR\n2 1 34315 34317 10428 XOR\n2 1 10428 10524 10509 XOR\n2 1 34315 10429 10508 XOR\n2 1 33207 10018 36130 XOR\n2 1 36130 1346 34339 XOR\n2 1 34339 10709 10788 XOR\n2 1 10171 33207 10033 XOR\n2 1 10033 10034 36123 XOR\n2 1 36123 1353 34332 XOR\n2 1 34326 34332 10574 XOR\n2 1 34332 10569 10651 XOR\n2 1 34331 10574 10660 XOR\n2 1 34327 10660 10656 XOR\n2 1 10660 10656 10643 AND\n2 1 34330 34332 10570 XOR\n2 1 10570 34331 10529 XOR\n2 1 34326 10529 10659 XOR\n2 1 10659 34326 10645 AND\n2 1 10181 10168 10045 XOR\n2 1 32824 10045 36114 XOR\n2 1 36114 1362 34323 XOR\n2 1 34323 27505 27584 XOR\n2 1 34323 34325 27504 XOR\n2 1 27504 27600 27585 XOR\n2 1 27599 27584 27580 AND\n2 1 27600 27585 27576 AND\n2 1 27580 27504 27508 XOR\n2 1 10574 10569 10650 XOR\n2 1 10523 10508 10504 AND\n2 1 10504 10428 10432 XOR\n1 1 31382 33208 INV\n2 1 36229 33208 10016 XOR\n2 1 10015 10016 36132 XOR\n2 1 36132 1344 34341 XOR\n2 1 34338 34341 10802 XOR\n2 1 34341 34335 10803 XOR\n2 1 10803 10788 10784 AND\n2 1 10802 10724 10798 XOR\n2 1 10707 10802 10794 XOR\n2 1 34341 34336 10801 XOR\n2 1 34334 10794 10793 XOR\n2 1 10794 10798 10787 AND\n2 1 33208 10044 36115 XOR\n2 1 36115 1361 34324 XOR\n2 1 34324 27505 27587 XOR\n2 1 34318 34324 27510 XOR\n2 1 27504 27510 27593 XOR\n2 1 27510 27505 27586 XOR\n2 1 27598 27587 27577 AND\n2 1 27593 27586 27578 AND\n2 1 27577 27505 27507 XOR\n2 1 34322 34324 27506 XOR\n2 1 27506 34323 27465 XOR\n2 1 34318 27465 27595 XOR\n2 1 27595 34318 27581 AND\n2 1 27583 27506 27509 XOR\n2 1 27509 27507 27513 XOR\n2 1 34325 27513 27518 XOR\n2 1 27506 27504 27466 XOR\n2 1 27503 27466 27588 XOR\n2 1 27597 27588 27575 AND\n2 1 27575 27578 27528 XOR\n2 1 27576 27528 27522 XOR\n2 1 27575 27581 27532 XOR\n2 1 27532 27504 27519 XOR\n2 1 27520 27593 27591 XOR\n2 1 27591 27589 27582 AND\n2 1 27576 27582 27527 XOR\n2 1 27527 27518 27574 XOR\n2 1 27527 27519 27571 XOR\n2 1 27513 27532 27481 XOR\n2 1 34339 34341 10708 XOR\n2 1 10784 10708 10712 XOR\n2 1 10708 10804 10789 XOR\n2 1 10804 10789 10780 AND\n2 1 34323 27510 27596 XOR\n2 1 34319 27596 27592 XOR\n2 1 27596 27592 27579 AND\n2 1 27579 27522 27478 XOR\n2 1 34319 27478 27566 XOR\n2 1 34323 27481 27524 XOR\n2 1 33119 33208 10170 XOR\n2 1 10170 33086 10062 XOR\n2 1 10062 10063 36107 XOR\n2 1 36107 1369 34316 XOR\n2 1 34310 34316 10434 XOR\n2 1 10428 10434 10517 XOR\n2 1 10434 10429 10510 XOR\n2 1 10444 10517 10515 XOR\n2 1 10515 10513 10506 AND\n2 1 34314 34316 10430 XOR\n2 1 10430 10428 10390 XOR\n2 1 10427 10390 10512 XOR\n2 1 10521 10512 10499 AND\n2 1 10430 34315 10389 XOR\n2 1 34310 10389 10519 XOR\n2 1 34315 10434 10520 XOR\n2 1 34311 10520 10516 XOR\n2 1 10507 10430 10433 XOR\n2 1 10520 10516 10503 AND\n2 1 10517 10510 10502 AND\n2 1 10499 10502 10452 XOR\n2 1 10432 10452 10406 XOR\n2 1 34316 10429 10511 XOR\n2 1 10522 10511 10501 AND\n2 1 10501 10429 10431 XOR\n2 1 10433 10431 10437 XOR\n2 1 10406 10431 10496 XOR\n2 1 34317 10437 10442 XOR\n2 1 10170 10153 10032 XOR\n2 1 10170 10168 10017 XOR\n2 1 32818 10017 36131 XOR\n2 1 36131 1345 34340 XOR\n2 1 34338 34340 10710 XOR\n2 1 10787 10710 10713 XOR\n2 1 34334 34340 10714 XOR\n2 1 10714 10709 10790 XOR\n2 1 10708 10714 10797 XOR\n2 1 10710 34339 10669 XOR\n2 1 34334 10669 10799 XOR\n2 1 10710 10708 10670 XOR\n2 1 10707 10670 10792 XOR\n2 1 34339 10714 10800 XOR\n2 1 10724 10797 10795 XOR\n2 1 10795 10793 10786 AND\n2 1 34340 10709 10791 XOR\n2 1 10802 10791 10781 AND\n",
"2 1 10781 10709 10711 XOR\n2 1 10713 10711 10717 XOR\n2 1 34341 10717 10722 XOR\n2 1 10797 10790 10782 AND\n2 1 10780 10781 10683 XOR\n2 1 10799 34334 10785 AND\n2 1 36233 10032 36124 XOR\n2 1 36124 1352 34333 XOR\n2 1 34333 34327 10663 XOR\n2 1 10663 10648 10644 AND\n2 1 34331 34333 10568 XOR\n2 1 10570 10568 10530 XOR\n2 1 10568 10574 10657 XOR\n2 1 10644 10568 10572 XOR\n2 1 10584 10657 10655 XOR\n2 1 10567 10530 10652 XOR\n2 1 34333 34328 10661 XOR\n2 1 10661 10652 10639 AND\n2 1 34330 34333 10662 XOR\n2 1 10567 10662 10654 XOR\n2 1 34326 10654 10653 XOR\n2 1 10662 10651 10641 AND\n2 1 10641 10569 10571 XOR\n2 1 10655 10653 10646 AND\n2 1 10662 10584 10658 XOR\n2 1 10654 10658 10647 AND\n2 1 10647 10570 10573 XOR\n2 1 10573 10571 10577 XOR\n2 1 34333 10577 10582 XOR\n2 1 10801 10792 10779 AND\n2 1 10779 10782 10732 XOR\n2 1 10780 10732 10726 XOR\n2 1 10712 10732 10686 XOR\n2 1 10686 10711 10776 XOR\n2 1 10779 10785 10736 XOR\n2 1 10736 10708 10723 XOR\n2 1 10683 10684 10730 XOR\n2 1 10730 10712 10729 XOR\n2 1 10717 10736 10685 XOR\n2 1 10639 10645 10596 XOR\n2 1 10596 10568 10583 XOR\n2 1 10577 10596 10545 XOR\n2 1 10568 10664 10649 XOR\n2 1 10664 10649 10640 AND\n2 1 10640 10641 10543 XOR\n2 1 10543 10544 10590 XOR\n2 1 10590 10572 10589 XOR\n2 1 10643 10589 10637 XOR\n2 1 10519 34310 10505 AND\n2 1 10499 10505 10456 XOR\n2 1 10437 10456 10405 XOR\n2 1 34315 10405 10448 XOR\n2 1 10456 10428 10443 XOR\n2 1 10640 10646 10591 XOR\n2 1 10591 10582 10638 XOR\n2 1 10638 10637 10634 AND\n2 1 10591 10583 10635 XOR\n2 1 10780 10786 10731 XOR\n2 1 10731 10723 10775 XOR\n2 1 10731 10722 10778 XOR\n2 1 34331 10545 10588 XOR\n2 1 10634 10588 10629 XOR\n2 1 34339 10685 10728 XOR\n2 1 27508 27528 27482 XOR\n2 1 27482 27507 27572 XOR\n2 1 10657 10650 10642 AND\n2 1 10639 10642 10592 XOR\n2 1 10640 10592 10586 XOR\n2 1 10572 10592 10546 XOR\n2 1 10546 10571 10636 XOR\n2 1 10643 10586 10542 XOR\n2 1 34327 10542 10630 XOR\n2 1 10629 10630 10628 AND\n2 1 10628 10636 10627 XOR\n2 1 10628 10645 10540 XOR\n2 1 10627 34326 10613 AND\n2 1 10628 10586 10541 XOR\n2 1 10627 10659 10604 AND\n2 1 10540 10642 10535 XOR\n2 1 10634 10636 10633 XOR\n2 1 10635 10633 10632 AND\n2 1 10632 10588 10631 XOR\n2 1 10631 10657 10601 AND\n2 1 10632 10582 10534 XOR\n2 1 10631 10650 10610 AND\n2 1 10632 10644 10537 XOR\n2 1 10537 10573 10533 XOR\n2 1 34333 10533 10536 XOR\n2 1 10535 10536 10619 XOR\n2 1 10619 10662 10600 AND\n2 1 10619 10651 10609 AND\n2 1 34331 10533 10532 XOR\n2 1 27981 27989 27979 XOR\n2 1 27987 27979 27978 AND\n2 1 27978 27947 27937 XOR\n2 1 27937 27890 27974 XOR\n2 1 27937 27939 27977 XOR\n2 1 27974 28019 27959 AND\n2 1 27977 28012 27958 AND\n2 1 27977 28016 27967 AND\n2 1 27966 27967 27904 XOR\n2 1 27974 28004 27968 AND\n2 1 27978 28002 27895 XOR\n2 1 27967 27968 27953 XOR\n2 1 27968 27959 27920 XOR\n2 1 27966 27958 27922 XOR\n2 1 27934 27895 27887 XOR\n2 1 27887 27888 27972 XOR\n2 1 27972 28005 27964 AND\n2 1 27964 27953 27943 XOR\n2 1 27964 27967 27919 XOR\n2 1 27960 27943 27909 XOR\n1 1 27909 27906 INV\n2 1 27924 27887 27894 XOR\n2 1 27891 27894 27976 XOR\n2 1 27976 28008 27963 AND\n2 1 27959 27963 27935 XOR\n1 1 27935 27913 INV\n2 1 27913 27957 27912 XOR\n2 1 27965 27943 27903 XOR\n1 1 27919 27916 INV\n2 1 27972 28020 27955 AND\n2 1 27955 27956 27949 XOR\n2 1 27961 27949 27931 XOR\n2 1 27976 28017 27954 AND\n2 1 27962 27931 27932 XOR\n2 1 27970 27932 27936 XOR\n2 1 27971 27936 27941 XOR\n",
"2 1 27953 27941 36241 XOR\n2 1 36236 36241 10194 XOR\n1 1 10194 9965 INV\n2 1 9965 10191 9962 XOR\n2 1 36247 36241 9981 XOR\n2 1 27969 27936 27905 XOR\n2 1 27904 27905 36240 XOR\n1 1 36240 9929 INV\n2 1 9929 36234 9928 XOR\n2 1 9927 9928 10232 XOR\n2 1 36246 9929 9939 XOR\n2 1 10232 10191 36136 XOR\n2 1 36136 1340 34345 XOR\n2 1 36235 36240 10202 XOR\n1 1 10202 9968 INV\n2 1 9968 10182 9991 XOR\n2 1 9968 10201 9966 XOR\n2 1 9966 9967 36160 XOR\n2 1 9962 9963 36161 XOR\n2 1 36161 1315 34370 XOR\n2 1 10194 10176 9990 XOR\n2 1 33148 9990 36146 XOR\n2 1 36146 1330 34355 XOR\n2 1 27932 27903 36244 XOR\n2 1 36244 33141 10001 XOR\n2 1 10000 10001 36140 XOR\n2 1 36237 36244 10154 XOR\n2 1 10165 10154 9959 XOR\n2 1 36248 9959 36164 XOR\n2 1 36164 1312 34373 XOR\n2 1 10213 10154 9999 XOR\n2 1 33143 9999 36141 XOR\n2 1 36141 1335 34350 XOR\n2 1 36140 1336 34349 XOR\n2 1 34370 34373 26058 XOR\n2 1 36241 36235 9931 XOR\n2 1 9930 9931 10231 XOR\n2 1 10231 10182 36137 XOR\n2 1 36137 1339 34346 XOR\n2 1 34346 34349 10942 XOR\n2 1 36244 36248 10158 XOR\n2 1 10158 32822 9932 XOR\n1 1 10158 9937 INV\n2 1 9937 36251 9938 XOR\n2 1 9938 9939 10228 XOR\n2 1 9937 36250 9934 XOR\n2 1 10228 10194 36153 XOR\n2 1 36153 1323 34362 XOR\n2 1 27922 27949 27918 XOR\n2 1 27950 27918 27921 XOR\n2 1 27920 27921 28024 XOR\n2 1 27913 27918 27917 XOR\n2 1 27916 27917 28023 XOR\n1 1 28023 36238 INV\n2 1 33142 36238 10216 XOR\n2 1 10216 10201 9995 XOR\n2 1 36234 9995 36143 XOR\n2 1 36143 1333 34352 XOR\n2 1 10216 10213 9973 XOR\n1 1 9973 9971 INV\n2 1 9971 9972 36158 XOR\n2 1 36158 1318 34367 XOR\n2 1 34373 34367 26059 XOR\n2 1 28023 33143 9925 XOR\n2 1 9924 9925 10233 XOR\n2 1 10233 10205 36134 XOR\n2 1 36134 1342 34343 XOR\n2 1 34343 34345 10847 XOR\n2 1 10847 10942 10934 XOR\n2 1 27912 27950 27908 XOR\n2 1 27956 27908 27911 XOR\n2 1 27931 27908 27907 XOR\n2 1 27906 27907 36239 XOR\n1 1 36239 9936 INV\n2 1 36245 9936 9935 XOR\n2 1 9934 9935 10229 XOR\n2 1 10229 10202 36152 XOR\n2 1 36152 1324 34361 XOR\n2 1 36234 36239 10209 XOR\n1 1 10209 9984 INV\n2 1 9984 10191 9993 XOR\n2 1 9984 36249 9982 XOR\n2 1 10209 10205 9969 XOR\n2 1 36245 9969 36159 XOR\n2 1 36159 1317 34368 XOR\n2 1 34367 34368 25980 XOR\n2 1 34368 34370 26060 XOR\n2 1 34373 34368 26057 XOR\n2 1 26058 25980 26054 XOR\n2 1 27964 27965 27915 XOR\n2 1 27941 27915 28022 XOR\n1 1 28022 36243 INV\n2 1 33141 36243 10180 XOR\n2 1 10180 10151 9988 XOR\n2 1 33040 28022 9976 XOR\n2 1 10180 32821 9979 XOR\n2 1 10180 10176 9960 XOR\n2 1 33040 9960 36163 XOR\n2 1 36163 1313 34372 XOR\n2 1 34370 34372 25966 XOR\n2 1 36237 9988 36148 XOR\n2 1 36148 1328 34357 XOR\n2 1 34355 34357 27364 XOR\n2 1 28022 33148 10004 XOR\n2 1 10003 10004 10002 XOR\n1 1 10002 36139 INV\n2 1 36139 1337 34348 XOR\n2 1 34346 34348 10850 XOR\n1 1 9979 9977 INV\n2 1 34357 34352 27457 XOR\n1 1 28024 33123 INV\n2 1 33034 33123 9933 XOR\n2 1 9932 9933 10230 XOR\n2 1 33143 33123 10217 XOR\n2 1 10217 10205 9997 XOR\n2 1 33123 10014 36133 XOR\n2 1 36133 1343 34342 XOR\n2 1 10217 10151 9974 XOR\n2 1 33034 9974 36157 XOR\n2 1 36157 1319 34366 XOR\n2 1 10230 10216 36150 XOR\n2 1 36150 1326 34359 XOR\n2 1 34366 34372 25970 XOR\n2 1 34342 10934 10933 XOR\n2 1 10217 10158 9985 XOR\n2 1 32823 9985 36149 XOR\n2 1 36149 1327 34358 XOR\n2 1 34342 34348 10854 XOR\n",
"2 1 34359 34361 10987 XOR\n2 1 9936 33142 10012 XOR\n2 1 10011 10012 36135 XOR\n2 1 36135 1341 34344 XOR\n2 1 34343 34344 10864 XOR\n2 1 34344 34346 10944 XOR\n2 1 34344 10847 10849 XOR\n2 1 34349 34344 10941 XOR\n2 1 10942 10864 10938 XOR\n2 1 10854 10849 10930 XOR\n2 1 34345 34344 10824 XOR\n2 1 34348 10849 10931 XOR\n2 1 10942 10931 10921 AND\n2 1 10921 10849 10851 XOR\n2 1 36160 1316 34369 XOR\n2 1 34369 34368 25940 XOR\n2 1 34367 34369 25963 XOR\n2 1 34368 25963 25965 XOR\n2 1 25970 25965 26046 XOR\n2 1 25963 26058 26050 XOR\n2 1 34366 26050 26049 XOR\n2 1 26050 26054 26043 AND\n2 1 26043 25966 25969 XOR\n2 1 34372 25965 26047 XOR\n2 1 26058 26047 26037 AND\n2 1 26037 25965 25967 XOR\n2 1 25969 25967 25973 XOR\n2 1 34373 25973 25978 XOR\n2 1 27965 27954 27914 XOR\n1 1 27914 27910 INV\n2 1 27910 27911 28021 XOR\n1 1 28021 36242 INV\n2 1 33148 36242 10187 XOR\n2 1 10187 32828 9980 XOR\n2 1 10187 10165 9989 XOR\n2 1 28021 36236 10009 XOR\n2 1 10008 10009 36138 XOR\n2 1 36138 1338 34347 XOR\n2 1 34347 10849 10928 XOR\n2 1 34347 34349 10848 XOR\n2 1 10848 10944 10929 XOR\n2 1 10850 34347 10809 XOR\n2 1 34342 10809 10939 XOR\n2 1 10939 34342 10925 AND\n2 1 10848 10854 10937 XOR\n2 1 10937 10930 10922 AND\n2 1 10944 10929 10920 AND\n2 1 10920 10921 10823 XOR\n2 1 10823 10824 10870 XOR\n2 1 9980 9981 36154 XOR\n2 1 36154 1322 34363 XOR\n2 1 33141 9989 36147 XOR\n2 1 34347 10854 10940 XOR\n2 1 34343 10940 10936 XOR\n2 1 10940 10936 10923 AND\n2 1 10187 10182 9961 XOR\n2 1 33039 9961 36162 XOR\n2 1 36162 1314 34371 XOR\n2 1 25966 34371 25925 XOR\n2 1 34371 25970 26056 XOR\n2 1 34366 25925 26055 XOR\n2 1 26055 34366 26041 AND\n2 1 34367 26056 26052 XOR\n2 1 26056 26052 26039 AND\n2 1 34371 34373 25964 XOR\n2 1 25966 25964 25926 XOR\n2 1 25964 26060 26045 XOR\n2 1 25963 25926 26048 XOR\n2 1 25964 25970 26053 XOR\n2 1 26053 26046 26038 AND\n2 1 25980 26053 26051 XOR\n2 1 26051 26049 26042 AND\n2 1 26060 26045 26036 AND\n2 1 26036 26037 25939 XOR\n2 1 25939 25940 25986 XOR\n2 1 36147 1329 34356 XOR\n2 1 34350 34356 27370 XOR\n2 1 27364 27370 27453 XOR\n2 1 34355 27370 27456 XOR\n2 1 33039 28021 9978 XOR\n2 1 26057 26048 26035 AND\n2 1 26035 26041 25992 XOR\n2 1 25992 25964 25979 XOR\n2 1 26035 26038 25988 XOR\n2 1 26036 25988 25982 XOR\n2 1 26039 25982 25938 XOR\n2 1 34367 25938 26026 XOR\n2 1 10864 10937 10935 XOR\n2 1 9977 9978 36155 XOR\n2 1 36155 1321 34364 XOR\n2 1 34362 34364 10990 XOR\n2 1 10990 34363 10949 XOR\n2 1 34358 10949 11079 XOR\n2 1 11079 34358 11065 AND\n2 1 34358 34364 10994 XOR\n2 1 34363 10994 11080 XOR\n2 1 34359 11080 11076 XOR\n2 1 11080 11076 11063 AND\n2 1 34371 25965 26044 XOR\n2 1 26059 26044 26040 AND\n2 1 26040 25964 25968 XOR\n2 1 25986 25968 25985 XOR\n2 1 26039 25985 26033 XOR\n2 1 25968 25988 25942 XOR\n2 1 25942 25967 26032 XOR\n2 1 25973 25992 25941 XOR\n2 1 34371 25941 25984 XOR\n2 1 10935 10933 10926 AND\n2 1 10920 10926 10871 XOR\n2 1 26036 26042 25987 XOR\n2 1 25987 25978 26034 XOR\n2 1 26034 26033 26030 AND\n2 1 26030 26032 26029 XOR\n2 1 26030 25984 26025 XOR\n2 1 26025 26026 26024 AND\n2 1 26024 26041 25936 XOR\n2 1 26024 25982 25937 XOR\n2 1 25936 26038 25931 XOR\n2 1 26024 26032 26023 XOR\n2 1 26023 26055 26000 AND\n2 1 26023 34366 26009 AND\n2 1 26030 26024 26022 XOR\n2 1 26032 26022 26021 AND\n2 1 26021 26029 26019 XOR\n2 1 26021 26039 25991 XOR\n2 1 34367 25991 25974 XOR\n2 1 25991 25985 26013 XOR\n2 1 26013 26054 26002 AND\n",
"2 1 26013 26050 26011 AND\n2 1 26009 26011 25990 XOR\n2 1 25987 25979 26031 XOR\n2 1 26031 26029 26028 AND\n2 1 26028 25978 25930 XOR\n2 1 26028 25984 26027 XOR\n2 1 26027 26019 26018 AND\n2 1 26028 26040 25933 XOR\n2 1 25933 25969 25929 XOR\n2 1 34371 25929 25928 XOR\n2 1 26027 26053 25997 AND\n2 1 34373 25929 25932 XOR\n2 1 25931 25932 26015 XOR\n2 1 26015 26058 25996 AND\n2 1 26015 26047 26005 AND\n2 1 26018 25987 25977 XOR\n2 1 25977 25930 26014 XOR\n2 1 26014 26059 25999 AND\n2 1 26014 26044 26008 AND\n2 1 25977 25979 26017 XOR\n2 1 26017 26056 26007 AND\n2 1 26007 26008 25993 XOR\n2 1 26018 26042 25935 XOR\n2 1 26008 25999 25960 XOR\n2 1 26027 26046 26006 AND\n2 1 26006 26007 25944 XOR\n2 1 25974 25935 25927 XOR\n2 1 25927 25928 26012 XOR\n2 1 26012 26045 26004 AND\n2 1 26004 26007 25959 XOR\n1 1 25959 25956 INV\n2 1 26004 25993 25983 XOR\n2 1 26000 25983 25949 XOR\n1 1 25949 25946 INV\n2 1 26005 25983 25943 XOR\n2 1 26012 26060 25995 AND\n2 1 25995 25996 25989 XOR\n2 1 25964 25927 25934 XOR\n2 1 26004 26005 25955 XOR\n2 1 25931 25934 26016 XOR\n2 1 26016 26057 25994 AND\n2 1 26005 25994 25954 XOR\n1 1 25954 25950 INV\n2 1 26016 26048 26003 AND\n2 1 25999 26003 25975 XOR\n1 1 25975 25953 INV\n2 1 25953 25997 25952 XOR\n2 1 25952 25990 25948 XOR\n2 1 25996 25948 25951 XOR\n2 1 25950 25951 26061 XOR\n1 1 26061 33080 INV\n2 1 11656 33080 11449 XOR\n2 1 26017 26052 25998 AND\n2 1 26006 25998 25962 XOR\n2 1 25962 25989 25958 XOR\n2 1 25990 25958 25961 XOR\n2 1 25960 25961 26064 XOR\n2 1 25953 25958 25957 XOR\n2 1 25956 25957 26063 XOR\n1 1 26063 33074 INV\n1 1 26064 33075 INV\n2 1 25974 25937 26020 XOR\n2 1 26020 26051 26001 AND\n2 1 26020 26049 26010 AND\n2 1 26001 25989 25971 XOR\n2 1 26002 25971 25972 XOR\n2 1 26010 25972 25976 XOR\n2 1 25972 25943 36453 XOR\n2 1 33234 36453 11444 XOR\n2 1 36438 36453 11628 XOR\n1 1 11628 11396 INV\n2 1 11396 33075 11394 XOR\n2 1 11394 11395 11702 XOR\n2 1 25971 25948 25947 XOR\n2 1 25946 25947 36450 XOR\n2 1 26011 25976 25981 XOR\n2 1 25981 25955 26062 XOR\n2 1 25993 25981 36452 XOR\n2 1 11453 36450 11451 XOR\n2 1 26009 25976 25945 XOR\n2 1 25944 25945 36451 XOR\n2 1 11628 36451 11400 XOR\n2 1 11400 11401 11700 XOR\n1 1 26062 33073 INV\n2 1 11649 33073 11448 XOR\n1 1 11448 11446 INV\n2 1 11396 36450 11397 XOR\n2 1 11397 11398 11701 XOR\n2 1 34335 10800 10796 XOR\n2 1 10800 10796 10783 AND\n2 1 10783 10726 10682 XOR\n2 1 10783 10729 10777 XOR\n2 1 10778 10777 10774 AND\n2 1 10774 10728 10769 XOR\n2 1 10774 10776 10773 XOR\n2 1 10775 10773 10772 AND\n2 1 10772 10728 10771 XOR\n2 1 10771 10790 10750 AND\n2 1 10772 10722 10674 XOR\n2 1 34335 10682 10770 XOR\n2 1 10771 10797 10741 AND\n2 1 10772 10784 10677 XOR\n2 1 10677 10713 10673 XOR\n2 1 34339 10673 10672 XOR\n2 1 34341 10673 10676 XOR\n2 1 10769 10770 10768 AND\n2 1 10768 10785 10680 XOR\n2 1 10680 10782 10675 XOR\n2 1 10768 10776 10767 XOR\n2 1 10774 10768 10766 XOR\n2 1 10675 10676 10759 XOR\n2 1 10768 10726 10681 XOR\n2 1 10767 10799 10744 AND\n2 1 10759 10802 10740 AND\n2 1 10759 10791 10749 AND\n2 1 10776 10766 10765 AND\n2 1 10765 10773 10763 XOR\n2 1 10771 10763 10762 AND\n2 1 10762 10731 10721 XOR\n2 1 10721 10674 10758 XOR\n2 1 10758 10788 10752 AND\n2 1 10758 10803 10743 AND\n2 1 10721 10723 10761 XOR\n2 1 10761 10800 10751 AND\n2 1 10750 10751 10688 XOR\n2 1 10751 10752 10737 XOR\n2 1 10762 10786 10679 XOR\n2 1 10752 10743 10704 XOR\n",
"2 1 10765 10783 10735 XOR\n2 1 10735 10729 10757 XOR\n2 1 10757 10794 10755 AND\n2 1 34335 10735 10718 XOR\n2 1 10718 10681 10764 XOR\n2 1 10764 10793 10754 AND\n2 1 10761 10796 10742 AND\n2 1 10764 10795 10745 AND\n2 1 10718 10679 10671 XOR\n2 1 10671 10672 10756 XOR\n2 1 10756 10789 10748 AND\n2 1 10748 10751 10703 XOR\n2 1 10748 10737 10727 XOR\n2 1 10744 10727 10693 XOR\n1 1 10693 10690 INV\n2 1 10748 10749 10699 XOR\n1 1 10703 10700 INV\n2 1 10749 10727 10687 XOR\n2 1 10708 10671 10678 XOR\n2 1 10675 10678 10760 XOR\n2 1 10760 10792 10747 AND\n2 1 10743 10747 10719 XOR\n1 1 10719 10697 INV\n2 1 10760 10801 10738 AND\n2 1 10749 10738 10698 XOR\n1 1 10698 10694 INV\n2 1 10697 10741 10696 XOR\n2 1 10767 34334 10753 AND\n2 1 10753 10755 10734 XOR\n2 1 10696 10734 10692 XOR\n2 1 10740 10692 10695 XOR\n2 1 10694 10695 10805 XOR\n1 1 10805 32846 INV\n2 1 33076 32846 11637 XOR\n2 1 11639 11637 11486 XOR\n2 1 10757 10798 10746 AND\n2 1 10756 10804 10739 AND\n2 1 10739 10740 10733 XOR\n2 1 10750 10742 10706 XOR\n2 1 10706 10733 10702 XOR\n2 1 10734 10702 10705 XOR\n2 1 10704 10705 10808 XOR\n2 1 10697 10702 10701 XOR\n2 1 10700 10701 10807 XOR\n1 1 10807 32840 INV\n2 1 33070 32840 11655 XOR\n2 1 11629 32840 11387 XOR\n1 1 10808 32841 INV\n2 1 33071 32841 11659 XOR\n2 1 11387 11388 11705 XOR\n2 1 10745 10733 10715 XOR\n2 1 10746 10715 10716 XOR\n2 1 10716 10687 36434 XOR\n2 1 36430 36434 11621 XOR\n2 1 11621 33070 11499 XOR\n2 1 11621 33059 11511 XOR\n2 1 11621 11490 11489 XOR\n2 1 11621 36428 11496 XOR\n2 1 10715 10692 10691 XOR\n2 1 10690 10691 36431 XOR\n2 1 36427 36431 11652 XOR\n2 1 11652 32840 11535 XOR\n2 1 10634 10628 10626 XOR\n2 1 10636 10626 10625 AND\n2 1 10625 10633 10623 XOR\n2 1 10631 10623 10622 AND\n2 1 10622 10591 10581 XOR\n2 1 10581 10583 10621 XOR\n2 1 10622 10646 10539 XOR\n2 1 10621 10660 10611 AND\n2 1 10610 10611 10548 XOR\n2 1 10621 10656 10602 AND\n2 1 10610 10602 10566 XOR\n2 1 10581 10534 10618 XOR\n2 1 10618 10663 10603 AND\n2 1 10618 10648 10612 AND\n2 1 10611 10612 10597 XOR\n2 1 10612 10603 10564 XOR\n2 1 10524 10509 10500 AND\n2 1 10500 10501 10403 XOR\n2 1 10403 10404 10450 XOR\n2 1 10450 10432 10449 XOR\n2 1 10503 10449 10497 XOR\n2 1 10500 10452 10446 XOR\n2 1 10500 10506 10451 XOR\n2 1 10451 10443 10495 XOR\n2 1 10451 10442 10498 XOR\n2 1 10498 10497 10494 AND\n2 1 10494 10496 10493 XOR\n2 1 10495 10493 10492 AND\n2 1 10492 10504 10397 XOR\n2 1 10492 10442 10394 XOR\n2 1 10397 10433 10393 XOR\n2 1 34315 10393 10392 XOR\n2 1 34317 10393 10396 XOR\n2 1 10492 10448 10491 XOR\n2 1 10491 10510 10470 AND\n2 1 10491 10517 10461 AND\n2 1 10494 10448 10489 XOR\n2 1 10503 10446 10402 XOR\n2 1 34311 10402 10490 XOR\n2 1 10489 10490 10488 AND\n2 1 10488 10446 10401 XOR\n2 1 10494 10488 10486 XOR\n2 1 10488 10496 10487 XOR\n2 1 10488 10505 10400 XOR\n2 1 10496 10486 10485 AND\n2 1 10485 10493 10483 XOR\n2 1 10485 10503 10455 XOR\n2 1 10455 10449 10477 XOR\n2 1 10477 10518 10466 AND\n2 1 10400 10502 10395 XOR\n2 1 10395 10396 10479 XOR\n2 1 10479 10511 10469 AND\n2 1 10479 10522 10460 AND\n2 1 34311 10455 10438 XOR\n2 1 10438 10401 10484 XOR\n2 1 10484 10513 10474 AND\n2 1 10487 10519 10464 AND\n2 1 10484 10515 10465 AND\n2 1 10477 10514 10475 AND\n2 1 10491 10483 10482 AND\n2 1 10482 10451 10441 XOR\n2 1 10441 10394 10478 XOR\n2 1 10441 10443 10481 XOR\n2 1 10478 10508 10472 AND\n2 1 10481 10516 10462 AND\n2 1 10481 10520 10471 AND\n",
"2 1 10470 10471 10408 XOR\n2 1 10482 10506 10399 XOR\n2 1 10438 10399 10391 XOR\n2 1 10391 10392 10476 XOR\n2 1 10476 10524 10459 AND\n2 1 10478 10523 10463 AND\n2 1 10472 10463 10424 XOR\n2 1 10471 10472 10457 XOR\n2 1 10470 10462 10426 XOR\n2 1 10459 10460 10453 XOR\n2 1 10426 10453 10422 XOR\n2 1 10476 10509 10468 AND\n2 1 10468 10471 10423 XOR\n2 1 10468 10469 10419 XOR\n1 1 10423 10420 INV\n2 1 10465 10453 10435 XOR\n2 1 10466 10435 10436 XOR\n2 1 10474 10436 10440 XOR\n2 1 10468 10457 10447 XOR\n2 1 10464 10447 10413 XOR\n1 1 10413 10410 INV\n2 1 10428 10391 10398 XOR\n2 1 10395 10398 10480 XOR\n2 1 10480 10512 10467 AND\n2 1 10480 10521 10458 AND\n2 1 10469 10458 10418 XOR\n1 1 10418 10414 INV\n2 1 10463 10467 10439 XOR\n1 1 10439 10417 INV\n2 1 10417 10422 10421 XOR\n2 1 10420 10421 10527 XOR\n2 1 10417 10461 10416 XOR\n1 1 10527 32832 INV\n2 1 32832 32853 11417 XOR\n2 1 32832 11420 11599 XOR\n2 1 11416 11417 11693 XOR\n2 1 10487 34310 10473 AND\n2 1 10473 10440 10409 XOR\n2 1 10473 10475 10454 XOR\n2 1 10454 10422 10425 XOR\n2 1 10416 10454 10412 XOR\n2 1 10435 10412 10411 XOR\n2 1 10410 10411 36398 XOR\n2 1 36398 36413 11667 XOR\n1 1 11667 11529 INV\n2 1 11679 11529 11526 XOR\n2 1 10408 10409 36399 XOR\n2 1 10460 10412 10415 XOR\n2 1 10414 10415 10525 XOR\n1 1 10525 32838 INV\n2 1 11669 32838 11475 XOR\n2 1 10475 10440 10445 XOR\n2 1 10445 10419 10526 XOR\n2 1 10457 10445 36400 XOR\n2 1 11672 36400 11494 XOR\n1 1 11494 11492 INV\n1 1 10526 32831 INV\n2 1 11715 32831 11455 XOR\n2 1 32832 33078 11687 XOR\n2 1 10424 10425 10528 XOR\n1 1 10528 32833 INV\n2 1 11227 32833 11413 XOR\n2 1 32833 33079 11688 XOR\n2 1 10469 10447 10407 XOR\n2 1 10436 10407 36401 XOR\n2 1 36401 36417 11632 XOR\n1 1 11632 11528 INV\n2 1 11528 33078 11557 XOR\n2 1 11632 36399 11373 XOR\n2 1 33033 28023 9983 XOR\n2 1 9982 9983 36151 XOR\n2 1 36151 1325 34360 XOR\n2 1 34360 10987 10989 XOR\n2 1 34361 34360 10964 XOR\n2 1 10994 10989 11070 XOR\n2 1 34364 10989 11071 XOR\n2 1 34360 34362 11084 XOR\n2 1 34359 34360 11004 XOR\n2 1 34363 10989 11068 XOR\n2 1 10934 10938 10927 AND\n2 1 10927 10850 10853 XOR\n2 1 10853 10851 10857 XOR\n2 1 34349 10857 10862 XOR\n2 1 10871 10862 10918 XOR\n2 1 10850 10848 10810 XOR\n2 1 10847 10810 10932 XOR\n2 1 10941 10932 10919 AND\n2 1 10919 10922 10872 XOR\n2 1 10920 10872 10866 XOR\n2 1 10923 10866 10822 XOR\n2 1 34343 10822 10910 XOR\n2 1 10919 10925 10876 XOR\n2 1 10876 10848 10863 XOR\n2 1 10871 10863 10915 XOR\n2 1 10857 10876 10825 XOR\n2 1 34347 10825 10868 XOR\n1 1 10154 33235 INV\n2 1 33235 36252 9975 XOR\n2 1 33235 33142 9998 XOR\n2 1 33235 36235 9994 XOR\n2 1 9975 9976 36156 XOR\n2 1 36156 1320 34365 XOR\n2 1 34365 34359 11083 XOR\n2 1 11083 11068 11064 AND\n2 1 34362 34365 11082 XOR\n2 1 34363 34365 10988 XOR\n2 1 10988 10994 11077 XOR\n2 1 11077 11070 11062 AND\n2 1 11004 11077 11075 XOR\n2 1 11064 10988 10992 XOR\n2 1 10987 11082 11074 XOR\n2 1 34358 11074 11073 XOR\n2 1 11075 11073 11066 AND\n2 1 11082 11004 11078 XOR\n2 1 11074 11078 11067 AND\n2 1 11067 10990 10993 XOR\n2 1 10990 10988 10950 XOR\n2 1 10987 10950 11072 XOR\n2 1 10988 11084 11069 XOR\n2 1 11084 11069 11060 AND\n2 1 11060 11066 11011 XOR\n2 1 34365 34360 11081 XOR\n2 1 11081 11072 11059 AND\n2 1 11059 11065 11016 XOR\n2 1 11016 10988 11003 XOR\n2 1 11059 11062 11012 XOR\n2 1 11060 11012 11006 XOR\n2 1 11063 11006 10962 XOR\n",
"2 1 34359 10962 11050 XOR\n2 1 11011 11003 11055 XOR\n2 1 10992 11012 10966 XOR\n2 1 9997 9998 9996 XOR\n1 1 9996 36142 INV\n2 1 36142 1334 34351 XOR\n2 1 34351 27456 27452 XOR\n2 1 27456 27452 27439 AND\n2 1 34351 34352 27380 XOR\n2 1 27380 27453 27451 XOR\n2 1 11082 11071 11061 AND\n2 1 11061 10989 10991 XOR\n2 1 11060 11061 10963 XOR\n2 1 10966 10991 11056 XOR\n2 1 10963 10964 11010 XOR\n2 1 11010 10992 11009 XOR\n2 1 11063 11009 11057 XOR\n2 1 10993 10991 10997 XOR\n2 1 10997 11016 10965 XOR\n2 1 34363 10965 11008 XOR\n2 1 34365 10997 11002 XOR\n2 1 11011 11002 11058 XOR\n2 1 11058 11057 11054 AND\n2 1 11054 11056 11053 XOR\n2 1 11055 11053 11052 AND\n2 1 11054 11008 11049 XOR\n2 1 11049 11050 11048 AND\n2 1 11048 11056 11047 XOR\n2 1 11047 11079 11024 AND\n2 1 11054 11048 11046 XOR\n2 1 11056 11046 11045 AND\n2 1 11047 34358 11033 AND\n2 1 11045 11053 11043 XOR\n2 1 11052 11002 10954 XOR\n2 1 11048 11006 10961 XOR\n2 1 11052 11008 11051 XOR\n2 1 11051 11077 11021 AND\n2 1 11048 11065 10960 XOR\n2 1 10960 11062 10955 XOR\n2 1 11052 11064 10957 XOR\n2 1 11051 11070 11030 AND\n2 1 11051 11043 11042 AND\n2 1 11042 11011 11001 XOR\n2 1 11001 10954 11038 XOR\n2 1 11038 11068 11032 AND\n2 1 11042 11066 10959 XOR\n2 1 11001 11003 11041 XOR\n2 1 11041 11080 11031 AND\n2 1 11030 11031 10968 XOR\n2 1 11031 11032 11017 XOR\n2 1 11038 11083 11023 AND\n2 1 11032 11023 10984 XOR\n2 1 10957 10993 10953 XOR\n2 1 34365 10953 10956 XOR\n2 1 10955 10956 11039 XOR\n2 1 11039 11082 11020 AND\n2 1 11039 11071 11029 AND\n2 1 34363 10953 10952 XOR\n2 1 11045 11063 11015 XOR\n2 1 34359 11015 10998 XOR\n2 1 10998 10961 11044 XOR\n2 1 11044 11073 11034 AND\n2 1 11044 11075 11025 AND\n2 1 10998 10959 10951 XOR\n2 1 10988 10951 10958 XOR\n2 1 10955 10958 11040 XOR\n2 1 11040 11081 11018 AND\n2 1 11040 11072 11027 AND\n2 1 11029 11018 10978 XOR\n1 1 10978 10974 INV\n2 1 10951 10952 11036 XOR\n2 1 11036 11084 11019 AND\n2 1 11036 11069 11028 AND\n2 1 11028 11029 10979 XOR\n2 1 11028 11031 10983 XOR\n1 1 10983 10980 INV\n2 1 11028 11017 11007 XOR\n2 1 11029 11007 10967 XOR\n2 1 11024 11007 10973 XOR\n1 1 10973 10970 INV\n2 1 11023 11027 10999 XOR\n2 1 11015 11009 11037 XOR\n2 1 11037 11074 11035 AND\n2 1 11037 11078 11026 AND\n2 1 11033 11035 11014 XOR\n2 1 11019 11020 11013 XOR\n2 1 11025 11013 10995 XOR\n2 1 11026 10995 10996 XOR\n2 1 10996 10967 36466 XOR\n2 1 36466 36470 11618 XOR\n1 1 11618 11714 INV\n2 1 11714 36455 11578 XOR\n2 1 11034 10996 11000 XOR\n2 1 11033 11000 10969 XOR\n2 1 10968 10969 36464 XOR\n2 1 11035 11000 11005 XOR\n2 1 11017 11005 36465 XOR\n2 1 36465 36469 11635 XOR\n2 1 36465 36464 11425 XOR\n2 1 11644 11635 11615 XOR\n2 1 11005 10979 11086 XOR\n1 1 11086 32847 INV\n2 1 32847 32856 11641 XOR\n2 1 11653 11641 11611 XOR\n1 1 10999 10977 INV\n2 1 10977 11021 10976 XOR\n2 1 10976 11014 10972 XOR\n2 1 11020 10972 10975 XOR\n2 1 10974 10975 11085 XOR\n2 1 10995 10972 10971 XOR\n2 1 10970 10971 36463 XOR\n2 1 36463 36467 11636 XOR\n2 1 11636 32829 11426 XOR\n1 1 11085 32854 INV\n2 1 32847 32854 11574 XOR\n2 1 11041 11076 11022 AND\n2 1 11030 11022 10986 XOR\n2 1 10986 11013 10982 XOR\n2 1 11014 10982 10985 XOR\n2 1 10984 10985 11088 XOR\n1 1 11088 32849 INV\n2 1 32849 32858 11668 XOR\n2 1 11668 11630 11428 XOR\n2 1 10977 10982 10981 XOR\n2 1 10980 10981 11087 XOR\n1 1 11087 32848 INV\n2 1 11714 32848 11581 XOR\n2 1 11653 36465 11587 XOR\n",
"2 1 32848 32857 11648 XOR\n2 1 11714 32856 11609 XOR\n2 1 33235 36236 9992 XOR\n2 1 9991 9992 36145 XOR\n2 1 36145 1331 34354 XOR\n2 1 34354 34356 27366 XOR\n2 1 27366 27364 27326 XOR\n2 1 34352 34354 27460 XOR\n2 1 27364 27460 27445 XOR\n2 1 34354 34357 27458 XOR\n2 1 27458 27380 27454 XOR\n2 1 27366 34355 27325 XOR\n2 1 34350 27325 27455 XOR\n2 1 27455 34350 27441 AND\n2 1 27460 27445 27436 AND\n2 1 9993 9994 36144 XOR\n2 1 36144 1332 34353 XOR\n2 1 34353 34352 27340 XOR\n2 1 34351 34353 27363 XOR\n2 1 27363 27326 27448 XOR\n2 1 27457 27448 27435 AND\n2 1 27435 27441 27392 XOR\n2 1 27392 27364 27379 XOR\n2 1 34352 27363 27365 XOR\n2 1 27370 27365 27446 XOR\n2 1 27453 27446 27438 AND\n2 1 27435 27438 27388 XOR\n2 1 27436 27388 27382 XOR\n2 1 34355 27365 27444 XOR\n2 1 27439 27382 27338 XOR\n2 1 34356 27365 27447 XOR\n2 1 27458 27447 27437 AND\n2 1 27436 27437 27339 XOR\n2 1 27339 27340 27386 XOR\n2 1 27437 27365 27367 XOR\n2 1 27363 27458 27450 XOR\n2 1 27450 27454 27443 AND\n2 1 34350 27450 27449 XOR\n2 1 27443 27366 27369 XOR\n2 1 27369 27367 27373 XOR\n2 1 27451 27449 27442 AND\n2 1 27436 27442 27387 XOR\n2 1 27387 27379 27431 XOR\n2 1 27373 27392 27341 XOR\n2 1 34355 27341 27384 XOR\n2 1 34357 27373 27378 XOR\n2 1 27387 27378 27434 XOR\n2 1 34351 27338 27426 XOR\n2 1 34357 34351 27459 XOR\n2 1 27459 27444 27440 AND\n2 1 27440 27364 27368 XOR\n2 1 27368 27388 27342 XOR\n2 1 27386 27368 27385 XOR\n2 1 27342 27367 27432 XOR\n2 1 27439 27385 27433 XOR\n2 1 27434 27433 27430 AND\n2 1 27430 27384 27425 XOR\n2 1 27425 27426 27424 AND\n2 1 27424 27382 27337 XOR\n2 1 27430 27432 27429 XOR\n2 1 27431 27429 27428 AND\n2 1 27428 27384 27427 XOR\n2 1 27427 27446 27406 AND\n2 1 27430 27424 27422 XOR\n2 1 27432 27422 27421 AND\n2 1 27424 27441 27336 XOR\n2 1 27421 27439 27391 XOR\n2 1 27391 27385 27413 XOR\n2 1 27413 27454 27402 AND\n2 1 34351 27391 27374 XOR\n2 1 27374 27337 27420 XOR\n2 1 27420 27451 27401 AND\n2 1 27336 27438 27331 XOR\n2 1 27428 27440 27333 XOR\n2 1 27333 27369 27329 XOR\n2 1 34355 27329 27328 XOR\n2 1 34357 27329 27332 XOR\n2 1 27331 27332 27415 XOR\n2 1 27415 27447 27405 AND\n2 1 27415 27458 27396 AND\n2 1 27428 27378 27330 XOR\n2 1 27413 27450 27411 AND\n2 1 27424 27432 27423 XOR\n2 1 27423 27455 27400 AND\n2 1 27423 34350 27409 AND\n2 1 27409 27411 27390 XOR\n2 1 27420 27449 27410 AND\n2 1 27421 27429 27419 XOR\n2 1 27427 27419 27418 AND\n2 1 27418 27387 27377 XOR\n2 1 27377 27379 27417 XOR\n2 1 27417 27456 27407 AND\n2 1 27417 27452 27398 AND\n2 1 27406 27398 27362 XOR\n2 1 27406 27407 27344 XOR\n2 1 27418 27442 27335 XOR\n2 1 27374 27335 27327 XOR\n2 1 27327 27328 27412 XOR\n2 1 27364 27327 27334 XOR\n2 1 27412 27460 27395 AND\n2 1 27395 27396 27389 XOR\n2 1 27401 27389 27371 XOR\n2 1 27402 27371 27372 XOR\n2 1 27410 27372 27376 XOR\n2 1 27411 27376 27381 XOR\n2 1 27409 27376 27345 XOR\n2 1 27344 27345 36403 XOR\n2 1 36410 36403 11411 XOR\n2 1 11528 36403 11527 XOR\n2 1 11526 11527 36273 XOR\n2 1 36273 1276 34409 XOR\n2 1 36399 36403 11689 XOR\n2 1 11692 11689 36297 XOR\n2 1 36297 1252 34433 XOR\n2 1 27362 27389 27358 XOR\n2 1 27390 27358 27361 XOR\n1 1 11689 11571 INV\n2 1 11571 11676 11569 XOR\n2 1 27412 27445 27404 AND\n2 1 27404 27407 27359 XOR\n1 1 27359 27356 INV\n2 1 27404 27405 27355 XOR\n2 1 27381 27355 27462 XOR\n2 1 32852 27462 11550 XOR\n2 1 33077 27462 11476 XOR\n2 1 11475 11476 11474 XOR\n1 1 11474 36276 INV\n2 1 36276 1273 34412 XOR\n",
"1 1 27462 36406 INV\n2 1 32831 36406 11675 XOR\n2 1 11675 26202 11551 XOR\n2 1 11675 11672 11539 XOR\n2 1 32852 11539 36300 XOR\n2 1 36300 1249 34436 XOR\n2 1 11675 11624 11566 XOR\n2 1 36401 11566 36285 XOR\n2 1 36285 1264 34421 XOR\n2 1 27377 27330 27414 XOR\n2 1 27414 27444 27408 AND\n2 1 27414 27459 27399 AND\n2 1 27408 27399 27360 XOR\n2 1 27360 27361 27464 XOR\n2 1 27407 27408 27393 XOR\n2 1 27404 27393 27383 XOR\n2 1 27405 27383 27343 XOR\n2 1 27372 27343 36407 XOR\n2 1 36407 36412 11626 XOR\n2 1 36401 36407 11625 XOR\n1 1 11626 11560 INV\n2 1 11688 11626 11565 XOR\n2 1 11669 11625 11538 XOR\n2 1 11626 36415 11410 XOR\n2 1 26202 36407 11456 XOR\n2 1 36412 11538 36301 XOR\n2 1 36301 1248 34437 XOR\n2 1 11410 11411 11696 XOR\n2 1 11560 36414 11559 XOR\n2 1 11688 11625 11439 XOR\n2 1 32853 11439 36278 XOR\n2 1 36278 1271 34414 XOR\n2 1 11455 11456 36277 XOR\n2 1 27393 27381 36404 XOR\n2 1 36400 36404 11680 XOR\n2 1 11680 11679 11544 XOR\n2 1 11680 11672 11568 XOR\n1 1 11544 11542 INV\n2 1 11696 11680 36290 XOR\n2 1 36290 1259 34426 XOR\n2 1 36414 36404 11374 XOR\n2 1 11373 11374 11711 XOR\n2 1 11711 11676 36274 XOR\n2 1 36411 36404 11554 XOR\n2 1 11542 11543 36298 XOR\n2 1 36298 1251 34434 XOR\n2 1 34434 34436 2061 XOR\n2 1 34434 34437 2153 XOR\n2 1 32838 11568 36283 XOR\n2 1 36283 1266 34419 XOR\n2 1 34419 34421 1779 XOR\n2 1 36274 1275 34410 XOR\n2 1 34410 34412 1627 XOR\n1 1 27464 33110 INV\n2 1 33110 11565 36286 XOR\n2 1 36286 1263 34422 XOR\n2 1 33110 32853 11665 XOR\n2 1 11687 11665 11563 XOR\n2 1 11665 11624 11548 XOR\n2 1 32833 11548 36294 XOR\n2 1 36294 1255 34430 XOR\n2 1 34430 34436 2065 XOR\n2 1 27400 27383 27349 XOR\n1 1 27349 27346 INV\n2 1 36277 1272 34413 XOR\n2 1 34410 34413 1733 XOR\n2 1 11665 11632 11617 XOR\n2 1 33079 11617 36270 XOR\n2 1 36270 1279 34406 XOR\n2 1 34406 34412 1621 XOR\n2 1 27427 27453 27397 AND\n2 1 11625 36399 11414 XOR\n2 1 11618 36468 11424 XOR\n2 1 11424 11425 11690 XOR\n2 1 34349 34343 10943 XOR\n2 1 10943 10928 10924 AND\n2 1 10924 10848 10852 XOR\n2 1 10870 10852 10869 XOR\n2 1 10852 10872 10826 XOR\n2 1 10826 10851 10916 XOR\n2 1 10923 10869 10917 XOR\n2 1 10918 10917 10914 AND\n2 1 10914 10916 10913 XOR\n2 1 10914 10868 10909 XOR\n2 1 10909 10910 10908 AND\n2 1 10908 10866 10821 XOR\n2 1 10915 10913 10912 AND\n2 1 10912 10924 10817 XOR\n2 1 10817 10853 10813 XOR\n2 1 10908 10916 10907 XOR\n2 1 10907 34342 10893 AND\n2 1 10907 10939 10884 AND\n2 1 10908 10925 10820 XOR\n2 1 10820 10922 10815 XOR\n2 1 34349 10813 10816 XOR\n2 1 10815 10816 10899 XOR\n2 1 10899 10942 10880 AND\n2 1 10899 10931 10889 AND\n2 1 10912 10862 10814 XOR\n2 1 34347 10813 10812 XOR\n2 1 10914 10908 10906 XOR\n2 1 10916 10906 10905 AND\n2 1 10905 10913 10903 XOR\n2 1 10905 10923 10875 XOR\n2 1 34343 10875 10858 XOR\n2 1 10858 10821 10904 XOR\n2 1 10904 10933 10894 AND\n2 1 10904 10935 10885 AND\n2 1 10875 10869 10897 XOR\n2 1 10897 10934 10895 AND\n2 1 10893 10895 10874 XOR\n2 1 10897 10938 10886 AND\n2 1 10912 10868 10911 XOR\n2 1 10911 10930 10890 AND\n2 1 10911 10937 10881 AND\n2 1 10911 10903 10902 AND\n2 1 10902 10926 10819 XOR\n2 1 10858 10819 10811 XOR\n2 1 10811 10812 10896 XOR\n2 1 10896 10929 10888 AND\n2 1 10896 10944 10879 AND\n2 1 10888 10889 10839 XOR\n2 1 10848 10811 10818 XOR\n2 1 10902 10871 10861 XOR\n2 1 10861 10814 10898 XOR\n2 1 10898 10943 10883 AND\n2 1 10898 10928 10892 AND\n2 1 10892 10883 10844 XOR\n",
"2 1 10861 10863 10901 XOR\n2 1 10901 10940 10891 AND\n2 1 10890 10891 10828 XOR\n2 1 10888 10891 10843 XOR\n2 1 10901 10936 10882 AND\n2 1 10890 10882 10846 XOR\n2 1 10891 10892 10877 XOR\n2 1 10888 10877 10867 XOR\n2 1 10884 10867 10833 XOR\n1 1 10833 10830 INV\n1 1 10843 10840 INV\n2 1 10879 10880 10873 XOR\n2 1 10885 10873 10855 XOR\n2 1 10886 10855 10856 XOR\n2 1 10894 10856 10860 XOR\n2 1 10893 10860 10829 XOR\n2 1 10846 10873 10842 XOR\n2 1 10874 10842 10845 XOR\n2 1 10844 10845 10948 XOR\n1 1 10948 32845 INV\n2 1 32845 33060 11662 XOR\n2 1 11662 11621 11500 XOR\n2 1 11662 11655 11523 XOR\n2 1 33071 11500 36326 XOR\n2 1 36326 1223 34462 XOR\n2 1 10895 10860 10865 XOR\n2 1 10865 10839 10946 XOR\n2 1 10877 10865 36420 XOR\n2 1 36420 36425 11650 XOR\n2 1 33058 36420 11534 XOR\n2 1 11650 11637 11514 XOR\n1 1 10946 32843 INV\n2 1 32843 11486 36332 XOR\n2 1 10889 10867 10827 XOR\n2 1 10856 10827 36421 XOR\n2 1 36421 36426 11622 XOR\n2 1 11659 11622 11525 XOR\n1 1 11622 11517 INV\n2 1 11517 36420 11516 XOR\n2 1 11639 11622 11501 XOR\n2 1 36421 32843 11512 XOR\n2 1 32845 11525 36310 XOR\n2 1 36310 1239 34446 XOR\n2 1 10815 10818 10900 XOR\n2 1 10900 10932 10887 AND\n2 1 10900 10941 10878 AND\n2 1 10889 10878 10838 XOR\n1 1 10838 10834 INV\n2 1 10883 10887 10859 XOR\n1 1 10859 10837 INV\n2 1 10837 10881 10836 XOR\n2 1 10836 10874 10832 XOR\n2 1 10880 10832 10835 XOR\n2 1 10834 10835 10945 XOR\n2 1 10837 10842 10841 XOR\n2 1 10840 10841 10947 XOR\n2 1 10855 10832 10831 XOR\n2 1 10830 10831 36418 XOR\n2 1 36418 36423 11657 XOR\n1 1 11657 11509 INV\n2 1 11509 36431 11507 XOR\n2 1 11507 11508 36320 XOR\n2 1 36320 1229 34456 XOR\n2 1 11380 36418 11379 XOR\n2 1 11657 11655 11497 XOR\n2 1 36427 11497 36328 XOR\n2 1 36328 1221 34464 XOR\n1 1 10947 32844 INV\n2 1 36423 32844 11536 XOR\n2 1 11535 11536 36304 XOR\n2 1 36304 1245 34440 XOR\n1 1 10945 32850 INV\n2 1 32850 11514 36315 XOR\n2 1 32850 33058 11646 XOR\n2 1 36315 1234 34451 XOR\n2 1 11646 32846 11506 XOR\n1 1 11506 11504 INV\n2 1 11504 11505 36323 XOR\n2 1 36323 1226 34459 XOR\n2 1 32846 32850 11532 XOR\n2 1 32844 36422 11661 XOR\n2 1 11661 11659 11498 XOR\n2 1 11705 11661 36319 XOR\n2 1 11661 11652 11521 XOR\n2 1 36418 11521 36312 XOR\n2 1 36319 1230 34455 XOR\n2 1 34455 34456 2495 XOR\n2 1 11498 11499 36327 XOR\n2 1 36327 1222 34463 XOR\n2 1 34463 34464 2636 XOR\n2 1 36312 1237 34448 XOR\n2 1 25223 32845 11376 XOR\n2 1 36421 36434 11631 XOR\n1 1 11631 11377 INV\n2 1 11377 36431 11378 XOR\n2 1 11378 11379 11709 XOR\n2 1 11659 11631 11537 XOR\n2 1 33060 11537 36302 XOR\n2 1 36302 1247 34438 XOR\n2 1 11377 32841 11375 XOR\n2 1 11375 11376 11710 XOR\n2 1 11710 11655 36303 XOR\n2 1 36303 1246 34439 XOR\n2 1 34439 34440 2216 XOR\n1 1 11650 11491 INV\n2 1 11662 11629 11510 XOR\n2 1 32841 11510 36318 XOR\n2 1 36318 1231 34454 XOR\n2 1 10828 10829 36419 XOR\n2 1 11517 36419 11520 XOR\n2 1 36419 36424 11654 XOR\n2 1 36425 36419 11382 XOR\n2 1 11654 11652 11495 XOR\n2 1 11495 11496 36329 XOR\n2 1 36329 1220 34465 XOR\n2 1 34463 34465 2618 XOR\n2 1 34464 2618 2620 XOR\n2 1 34465 34464 2595 XOR\n2 1 11517 32844 11524 XOR\n2 1 11523 11524 11522 XOR\n1 1 11522 36311 INV\n2 1 36311 1238 34447 XOR\n2 1 34447 34448 2356 XOR\n2 1 11511 11512 36317 XOR\n2 1 36317 1232 34453 XOR\n2 1 34453 34447 2434 XOR\n2 1 34453 34448 2432 XOR\n2 1 34451 34453 2339 XOR\n",
"1 1 11654 11518 INV\n2 1 10625 10643 10595 XOR\n2 1 34327 10595 10578 XOR\n2 1 10578 10541 10624 XOR\n2 1 10624 10653 10614 AND\n2 1 10624 10655 10605 AND\n2 1 10578 10539 10531 XOR\n2 1 10531 10532 10616 XOR\n2 1 10616 10664 10599 AND\n2 1 10599 10600 10593 XOR\n2 1 10605 10593 10575 XOR\n2 1 10566 10593 10562 XOR\n2 1 10568 10531 10538 XOR\n2 1 10535 10538 10620 XOR\n2 1 10620 10652 10607 AND\n2 1 10603 10607 10579 XOR\n1 1 10579 10557 INV\n2 1 10557 10562 10561 XOR\n2 1 10557 10601 10556 XOR\n2 1 10616 10649 10608 AND\n2 1 10608 10609 10559 XOR\n2 1 10608 10611 10563 XOR\n1 1 10563 10560 INV\n2 1 10608 10597 10587 XOR\n2 1 10604 10587 10553 XOR\n1 1 10553 10550 INV\n2 1 10609 10587 10547 XOR\n2 1 10560 10561 10667 XOR\n1 1 10667 32836 INV\n2 1 32836 25363 11452 XOR\n2 1 11451 11452 36352 XOR\n2 1 36352 1197 34488 XOR\n2 1 32836 33074 11674 XOR\n2 1 11678 11674 11438 XOR\n2 1 11702 11674 36335 XOR\n2 1 11686 11674 11466 XOR\n2 1 11466 11467 11465 XOR\n1 1 11465 36343 INV\n2 1 36343 1206 34479 XOR\n2 1 36335 1214 34471 XOR\n2 1 10620 10661 10598 AND\n2 1 10609 10598 10558 XOR\n1 1 10558 10554 INV\n2 1 10595 10589 10617 XOR\n2 1 10617 10654 10615 AND\n2 1 10613 10615 10594 XOR\n2 1 10556 10594 10552 XOR\n2 1 10575 10552 10551 XOR\n2 1 10594 10562 10565 XOR\n2 1 10617 10658 10606 AND\n2 1 10606 10575 10576 XOR\n2 1 10614 10576 10580 XOR\n2 1 10576 10547 36449 XOR\n2 1 36445 36449 11627 XOR\n2 1 36449 36453 11620 XOR\n2 1 11620 33073 11469 XOR\n2 1 11469 11470 36341 XOR\n2 1 36341 1208 34477 XOR\n2 1 11627 33074 11402 XOR\n2 1 11686 11627 11454 XOR\n2 1 33075 11454 36350 XOR\n2 1 11686 11620 11443 XOR\n2 1 11649 11620 11457 XOR\n2 1 34477 34471 32633 XOR\n1 1 11627 11407 INV\n2 1 11407 36451 11404 XOR\n2 1 11407 36452 11408 XOR\n2 1 10615 10580 10585 XOR\n2 1 10585 10559 10666 XOR\n1 1 10666 32835 INV\n2 1 32835 25362 11445 XOR\n2 1 11444 11445 36357 XOR\n2 1 32835 33073 11634 XOR\n2 1 11634 11623 11429 XOR\n2 1 11634 33080 11472 XOR\n2 1 11472 11473 11471 XOR\n2 1 36449 11429 36365 XOR\n1 1 11471 36340 INV\n2 1 36340 1209 34476 XOR\n2 1 36357 1192 34493 XOR\n2 1 34493 34488 2991 XOR\n2 1 10600 10552 10555 XOR\n2 1 10554 10555 10665 XOR\n1 1 10665 32842 INV\n2 1 32842 33080 11645 XOR\n2 1 11649 11645 11430 XOR\n2 1 11645 36452 11479 XOR\n2 1 11663 11645 11459 XOR\n1 1 11479 11477 INV\n2 1 32842 25361 11447 XOR\n2 1 11477 11478 36339 XOR\n2 1 36339 1210 34475 XOR\n2 1 34475 34477 32539 XOR\n2 1 11446 11447 36356 XOR\n2 1 36356 1193 34492 XOR\n2 1 33072 11459 36347 XOR\n2 1 10550 10551 36446 XOR\n2 1 36446 11406 11405 XOR\n2 1 36446 11438 36360 XOR\n2 1 36360 1189 34496 XOR\n2 1 36446 36450 11670 XOR\n2 1 11685 11670 11464 XOR\n2 1 36435 11464 36344 XOR\n2 1 36344 1205 34480 XOR\n2 1 34479 34480 2775 XOR\n1 1 11670 11482 INV\n2 1 11482 33074 11480 XOR\n2 1 11480 11481 36336 XOR\n2 1 36336 1213 34472 XOR\n2 1 34471 34472 32555 XOR\n2 1 34477 34472 32631 XOR\n2 1 36350 1199 34486 XOR\n2 1 34486 34492 2904 XOR\n2 1 10597 10585 36448 XOR\n2 1 36448 36452 11651 XOR\n2 1 11700 11651 36338 XOR\n2 1 11656 11651 11431 XOR\n2 1 36338 1211 34474 XOR\n2 1 11437 11651 11460 XOR\n2 1 11460 11461 36346 XOR\n2 1 32842 11431 36363 XOR\n2 1 36448 36442 11450 XOR\n2 1 11449 11450 36355 XOR\n2 1 36355 1194 34491 XOR\n2 1 34491 34493 2898 XOR\n2 1 34491 2904 2990 XOR\n2 1 2898 2904 2987 XOR\n2 1 36346 1203 34482 XOR\n",
"2 1 34474 34476 32541 XOR\n2 1 34474 34477 32632 XOR\n2 1 32632 32555 32628 XOR\n2 1 34472 34474 32634 XOR\n2 1 32539 32634 32619 XOR\n2 1 32541 32539 32501 XOR\n2 1 32541 34475 32500 XOR\n2 1 32634 32619 32610 AND\n2 1 11437 11670 11435 XOR\n2 1 36365 1184 34501 XOR\n2 1 34501 34496 3131 XOR\n2 1 11404 11405 11698 XOR\n2 1 11698 11671 36353 XOR\n2 1 36353 1196 34489 XOR\n2 1 34489 34488 2874 XOR\n2 1 36363 1186 34499 XOR\n2 1 34499 34501 3038 XOR\n2 1 36347 1202 34483 XOR\n2 1 32835 11430 36364 XOR\n2 1 36364 1185 34500 XOR\n2 1 11656 11634 11458 XOR\n2 1 33065 11458 36348 XOR\n2 1 36348 1201 34484 XOR\n2 1 34482 34484 2761 XOR\n2 1 2761 34483 2720 XOR\n2 1 34480 34482 2854 XOR\n2 1 10564 10565 10668 XOR\n1 1 10668 32837 INV\n2 1 32837 33075 11682 XOR\n2 1 11682 11628 11483 XOR\n2 1 33057 11483 36334 XOR\n2 1 36334 1215 34470 XOR\n2 1 11685 11682 11442 XOR\n1 1 11442 11440 INV\n2 1 11682 11623 11468 XOR\n2 1 33067 11468 36342 XOR\n2 1 36342 1207 34478 XOR\n2 1 34478 34484 2765 XOR\n2 1 32837 33057 11403 XOR\n2 1 32837 11443 36358 XOR\n2 1 36358 1191 34494 XOR\n2 1 11402 11403 11699 XOR\n2 1 11699 11685 36351 XOR\n2 1 34470 34476 32545 XOR\n2 1 32539 32545 32627 XOR\n2 1 32555 32627 32625 XOR\n2 1 34475 32545 32630 XOR\n2 1 34471 32630 32626 XOR\n2 1 34470 32500 32629 XOR\n2 1 32629 34470 32615 AND\n2 1 32630 32626 32613 AND\n2 1 34478 2720 2849 XOR\n2 1 2849 34478 2835 AND\n2 1 36351 1198 34487 XOR\n2 1 34493 34487 2993 XOR\n2 1 34487 34488 2915 XOR\n2 1 34487 34489 2897 XOR\n2 1 34488 2897 2899 XOR\n2 1 34491 2899 2978 XOR\n2 1 34487 2990 2986 XOR\n2 1 2990 2986 2973 AND\n2 1 2993 2978 2974 AND\n2 1 2974 2898 2902 XOR\n2 1 2915 2987 2985 XOR\n2 1 34483 2765 2850 XOR\n2 1 34479 2850 2846 XOR\n2 1 2850 2846 2833 AND\n2 1 34492 2899 2981 XOR\n2 1 2904 2899 2980 XOR\n2 1 2987 2980 2972 AND\n2 1 34494 34500 3044 XOR\n2 1 3038 3044 3127 XOR\n2 1 34499 3044 3130 XOR\n2 1 10613 10580 10549 XOR\n2 1 10548 10549 36447 XOR\n2 1 36447 11399 11409 XOR\n2 1 11408 11409 11697 XOR\n2 1 36447 36451 11660 XOR\n2 1 11453 11660 11462 XOR\n2 1 11462 11463 36345 XOR\n2 1 36345 1204 34481 XOR\n2 1 34479 34481 2758 XOR\n2 1 34481 34480 2735 XOR\n2 1 11701 11660 36337 XOR\n2 1 36337 1212 34473 XOR\n2 1 34471 34473 32538 XOR\n2 1 34472 32538 32540 XOR\n2 1 34476 32540 32621 XOR\n2 1 34475 32540 32618 XOR\n2 1 32545 32540 32620 XOR\n2 1 32538 32632 32624 XOR\n2 1 34470 32624 32623 XOR\n2 1 34473 34472 32515 XOR\n2 1 32538 32501 32622 XOR\n2 1 32624 32628 32617 AND\n2 1 32617 32541 32544 XOR\n2 1 32625 32623 32616 AND\n2 1 32610 32616 32562 XOR\n2 1 32633 32618 32614 AND\n2 1 32614 32539 32543 XOR\n2 1 32627 32620 32612 AND\n2 1 32632 32621 32611 AND\n2 1 32611 32540 32542 XOR\n2 1 32544 32542 32548 XOR\n2 1 34477 32548 32553 XOR\n2 1 32562 32553 32608 XOR\n2 1 32610 32611 32514 XOR\n2 1 32514 32515 32561 XOR\n2 1 32561 32543 32560 XOR\n2 1 32613 32560 32607 XOR\n2 1 32631 32622 32609 AND\n2 1 32609 32612 32563 XOR\n2 1 32609 32615 32567 XOR\n2 1 32567 32539 32554 XOR\n2 1 32562 32554 32605 XOR\n2 1 32610 32563 32557 XOR\n2 1 32543 32563 32517 XOR\n2 1 32517 32542 32606 XOR\n2 1 32548 32567 32516 XOR\n2 1 34475 32516 32559 XOR\n2 1 32613 32557 32513 XOR\n2 1 34471 32513 32600 XOR\n2 1 32608 32607 32604 AND\n2 1 32604 32559 32599 XOR\n2 1 32604 32606 32603 XOR\n2 1 32603 32605 32602 AND\n2 1 32602 32559 32601 XOR\n2 1 32602 32614 32508 XOR\n",
"2 1 32508 32544 32504 XOR\n2 1 34477 32504 32507 XOR\n2 1 32602 32553 32505 XOR\n2 1 34475 32504 32503 XOR\n2 1 32599 32600 32598 AND\n2 1 32598 32606 32597 XOR\n2 1 32604 32598 32596 XOR\n2 1 32598 32557 32512 XOR\n2 1 32598 32615 32511 XOR\n2 1 32511 32612 32506 XOR\n2 1 32506 32507 32589 XOR\n2 1 32606 32596 32595 AND\n2 1 32595 32603 32593 XOR\n2 1 32595 32613 32566 XOR\n2 1 32566 32560 32587 XOR\n2 1 34471 32566 32549 XOR\n2 1 32549 32512 32594 XOR\n2 1 32601 32593 32592 AND\n2 1 32592 32562 32552 XOR\n2 1 32552 32554 32591 XOR\n2 1 32592 32616 32510 XOR\n2 1 32549 32510 32502 XOR\n2 1 32539 32502 32509 XOR\n2 1 32506 32509 32590 XOR\n2 1 32552 32505 32588 XOR\n2 1 32502 32503 32586 XOR\n2 1 32587 32624 32585 AND\n2 1 32594 32623 32584 AND\n2 1 32597 34470 32583 AND\n2 1 32583 32585 32565 XOR\n2 1 32588 32618 32582 AND\n2 1 32591 32630 32581 AND\n2 1 32601 32620 32580 AND\n2 1 32580 32581 32519 XOR\n2 1 32589 32621 32579 AND\n2 1 32586 32619 32578 AND\n2 1 32578 32581 32534 XOR\n1 1 32534 32531 INV\n2 1 32578 32579 32530 XOR\n2 1 32590 32622 32577 AND\n2 1 32587 32628 32576 AND\n2 1 32594 32625 32575 AND\n2 1 32597 32629 32574 AND\n2 1 32588 32633 32573 AND\n2 1 32573 32577 32550 XOR\n2 1 32582 32573 32535 XOR\n1 1 32550 32528 INV\n2 1 32591 32626 32572 AND\n2 1 32580 32572 32537 XOR\n2 1 32601 32627 32571 AND\n2 1 32528 32571 32527 XOR\n2 1 32527 32565 32523 XOR\n2 1 32589 32632 32570 AND\n2 1 32570 32523 32526 XOR\n2 1 32586 32634 32569 AND\n2 1 32569 32570 32564 XOR\n2 1 32575 32564 32546 XOR\n2 1 32576 32546 32547 XOR\n2 1 32584 32547 32551 XOR\n2 1 32585 32551 32556 XOR\n2 1 32537 32564 32533 XOR\n2 1 32565 32533 32536 XOR\n2 1 32535 32536 32638 XOR\n2 1 32528 32533 32532 XOR\n2 1 32531 32532 32637 XOR\n2 1 32556 32530 32636 XOR\n2 1 32546 32523 32522 XOR\n2 1 32583 32551 32520 XOR\n2 1 32519 32520 34601 XOR\n2 1 34601 1116 36826 XOR\n2 1 32590 32631 32568 AND\n2 1 32579 32568 32529 XOR\n1 1 32529 32525 INV\n2 1 32525 32526 32635 XOR\n1 1 32638 34598 INV\n2 1 34598 1119 36823 XOR\n1 1 32637 34599 INV\n2 1 34599 1118 36824 XOR\n1 1 32636 34604 INV\n2 1 34604 1113 36829 XOR\n1 1 32635 34603 INV\n2 1 11434 11660 11432 XOR\n2 1 32581 32582 32731 XOR\n2 1 32578 32731 32558 XOR\n2 1 32579 32558 32518 XOR\n2 1 32574 32558 32524 XOR\n1 1 32524 32521 INV\n2 1 32521 32522 34600 XOR\n2 1 32547 32518 34605 XOR\n2 1 34605 1112 36830 XOR\n2 1 32731 32556 34602 XOR\n2 1 34602 1115 36827 XOR\n2 1 34600 1117 36825 XOR\n2 1 11697 11663 36354 XOR\n2 1 36354 1195 34490 XOR\n2 1 34490 34493 2992 XOR\n2 1 2897 2992 2984 XOR\n2 1 34486 2984 2983 XOR\n2 1 2985 2983 2976 AND\n2 1 2992 2915 2988 XOR\n2 1 2984 2988 2977 AND\n2 1 34490 34492 2900 XOR\n2 1 2900 2898 2860 XOR\n2 1 2897 2860 2982 XOR\n2 1 2900 34491 2859 XOR\n2 1 34486 2859 2989 XOR\n2 1 2989 34486 2975 AND\n2 1 34488 34490 2994 XOR\n2 1 2898 2994 2979 XOR\n2 1 2977 2900 2903 XOR\n2 1 2991 2982 2969 AND\n2 1 2969 2972 2923 XOR\n2 1 2902 2923 2876 XOR\n2 1 34603 1114 36828 XOR\n2 1 2969 2975 2927 XOR\n2 1 2927 2898 2914 XOR\n2 1 34480 2758 2760 XOR\n2 1 34483 2760 2838 XOR\n2 1 2765 2760 2840 XOR\n2 1 34484 2760 2841 XOR\n2 1 2992 2981 2971 AND\n2 1 2971 2899 2901 XOR\n2 1 2876 2901 2966 XOR\n2 1 2903 2901 2907 XOR\n2 1 34493 2907 2913 XOR\n2 1 2907 2927 2875 XOR\n2 1 34491 2875 2919 XOR\n2 1 2994 2979 2970 AND\n",
"2 1 2970 2971 2873 XOR\n2 1 2970 2923 2917 XOR\n2 1 2973 2917 2872 XOR\n2 1 2873 2874 2921 XOR\n2 1 2970 2976 2922 XOR\n2 1 2922 2913 2968 XOR\n2 1 34487 2872 2960 XOR\n2 1 2922 2914 2965 XOR\n2 1 2921 2902 2920 XOR\n2 1 2973 2920 2967 XOR\n2 1 2968 2967 2964 AND\n2 1 2964 2966 2963 XOR\n2 1 2965 2963 2962 AND\n2 1 2962 2913 2864 XOR\n2 1 2962 2974 2867 XOR\n2 1 2867 2903 2863 XOR\n2 1 2964 2919 2959 XOR\n2 1 2959 2960 2958 AND\n2 1 2964 2958 2956 XOR\n2 1 2966 2956 2955 AND\n2 1 2958 2966 2957 XOR\n2 1 2955 2973 2926 XOR\n2 1 2958 2975 2870 XOR\n2 1 2955 2963 2953 XOR\n2 1 2958 2917 2871 XOR\n2 1 2957 34486 2943 AND\n2 1 34491 2863 2862 XOR\n2 1 2870 2972 2865 XOR\n2 1 2926 2920 2947 XOR\n2 1 2947 2984 2945 AND\n2 1 2947 2988 2936 AND\n2 1 34487 2926 2908 XOR\n2 1 2908 2871 2954 XOR\n2 1 2954 2985 2935 AND\n2 1 2954 2983 2944 AND\n2 1 2957 2989 2934 AND\n2 1 2943 2945 2925 XOR\n2 1 2962 2919 2961 XOR\n2 1 2961 2980 2940 AND\n2 1 2961 2987 2931 AND\n2 1 2961 2953 2952 AND\n2 1 2952 2922 2912 XOR\n2 1 2912 2864 2948 XOR\n2 1 2948 2978 2942 AND\n2 1 2948 2993 2933 AND\n2 1 2942 2933 2894 XOR\n2 1 2952 2976 2869 XOR\n2 1 2908 2869 2861 XOR\n2 1 2861 2862 2946 XOR\n2 1 2946 2994 2929 AND\n2 1 2898 2861 2868 XOR\n2 1 2946 2979 2938 AND\n2 1 2865 2868 2950 XOR\n2 1 2950 2982 2937 AND\n2 1 2950 2991 2928 AND\n2 1 2933 2937 2909 XOR\n1 1 2909 2887 INV\n2 1 2887 2931 2886 XOR\n2 1 2886 2925 2882 XOR\n2 1 2912 2914 2951 XOR\n2 1 2951 2986 2932 AND\n2 1 2940 2932 2896 XOR\n2 1 2951 2990 2941 AND\n2 1 2938 2941 2893 XOR\n1 1 2893 2890 INV\n2 1 2940 2941 2878 XOR\n2 1 2941 2942 2910 XOR\n2 1 2938 2910 2918 XOR\n2 1 2934 2918 2883 XOR\n1 1 2883 2880 INV\n2 1 34493 2863 2866 XOR\n2 1 2865 2866 2949 XOR\n2 1 2949 2981 2939 AND\n2 1 2939 2928 2888 XOR\n1 1 2888 2884 INV\n2 1 2938 2939 2889 XOR\n2 1 2939 2918 2877 XOR\n2 1 2949 2992 2930 AND\n2 1 2929 2930 2924 XOR\n2 1 2935 2924 2905 XOR\n2 1 2936 2905 2906 XOR\n2 1 2930 2882 2885 XOR\n2 1 2905 2882 2881 XOR\n2 1 2880 2881 34616 XOR\n2 1 34616 1037 36905 XOR\n2 1 2896 2924 2892 XOR\n2 1 2925 2892 2895 XOR\n2 1 2884 2885 2995 XOR\n1 1 2995 34619 INV\n2 1 34619 1034 36908 XOR\n2 1 2944 2906 2911 XOR\n2 1 2945 2911 2916 XOR\n2 1 2910 2916 34618 XOR\n2 1 2943 2911 2879 XOR\n2 1 2878 2879 34617 XOR\n2 1 34617 1036 36906 XOR\n2 1 2916 2889 2996 XOR\n1 1 2996 34620 INV\n2 1 34620 1033 36909 XOR\n2 1 2887 2892 2891 XOR\n2 1 2890 2891 2997 XOR\n1 1 2997 34615 INV\n2 1 34615 1038 36904 XOR\n2 1 2894 2895 2998 XOR\n1 1 2998 34614 INV\n2 1 34614 1039 36903 XOR\n2 1 34618 1035 36907 XOR\n2 1 2906 2877 34621 XOR\n2 1 34621 1032 36910 XOR\n2 1 27331 27334 27416 XOR\n2 1 27416 27448 27403 AND\n2 1 27416 27457 27394 AND\n2 1 27399 27403 27375 XOR\n1 1 27375 27353 INV\n2 1 27353 27397 27352 XOR\n2 1 27352 27390 27348 XOR\n2 1 27396 27348 27351 XOR\n2 1 27371 27348 27347 XOR\n2 1 27405 27394 27354 XOR\n2 1 27353 27358 27357 XOR\n2 1 27356 27357 27463 XOR\n1 1 27354 27350 INV\n2 1 27350 27351 27461 XOR\n1 1 27461 36405 INV\n2 1 32838 36405 11677 XOR\n2 1 32851 27461 11552 XOR\n2 1 36415 27461 11493 XOR\n2 1 11492 11493 36275 XOR\n",
"2 1 11551 11552 36292 XOR\n2 1 36292 1257 34428 XOR\n2 1 34422 34428 1925 XOR\n2 1 34426 34428 1921 XOR\n2 1 11677 11676 11541 XOR\n2 1 32851 11541 36299 XOR\n1 1 27463 33109 INV\n2 1 11560 33109 11564 XOR\n2 1 33109 36408 11666 XOR\n2 1 11693 11666 36295 XOR\n2 1 11688 11666 11556 XOR\n2 1 11667 11666 11561 XOR\n2 1 11556 11557 11555 XOR\n1 1 11555 36271 INV\n2 1 36271 1278 34407 XOR\n2 1 34407 34409 1630 XOR\n2 1 1630 1733 1725 XOR\n2 1 34406 1725 1724 XOR\n2 1 34413 34407 1734 XOR\n2 1 11563 11564 11562 XOR\n1 1 11562 36287 INV\n2 1 36287 1262 34423 XOR\n2 1 36295 1254 34431 XOR\n2 1 34437 34431 2154 XOR\n2 1 34431 34433 2058 XOR\n2 1 2058 2153 2145 XOR\n2 1 34430 2145 2144 XOR\n2 1 11529 33109 11598 XOR\n2 1 11598 11599 36280 XOR\n2 1 36280 1269 34416 XOR\n2 1 34421 34416 1872 XOR\n2 1 36275 1274 34411 XOR\n2 1 34411 1621 1731 XOR\n2 1 34407 1731 1727 XOR\n2 1 34411 34413 1629 XOR\n2 1 1629 1621 1728 XOR\n2 1 1627 34411 1668 XOR\n2 1 1731 1727 1714 AND\n2 1 1627 1629 1667 XOR\n2 1 1630 1667 1723 XOR\n2 1 11677 33077 11553 XOR\n2 1 11553 11554 36291 XOR\n2 1 36291 1258 34427 XOR\n2 1 34427 1925 2011 XOR\n2 1 34423 2011 2007 XOR\n2 1 2011 2007 1994 AND\n2 1 1921 34427 1880 XOR\n2 1 34422 1880 2010 XOR\n2 1 2010 34422 1996 AND\n2 1 11677 11669 11567 XOR\n2 1 32831 11567 36284 XOR\n2 1 36284 1265 34420 XOR\n2 1 34414 34420 1785 XOR\n2 1 34419 1785 1871 XOR\n2 1 1779 1785 1868 XOR\n2 1 27346 27347 36402 XOR\n2 1 36398 36402 11415 XOR\n2 1 11414 11415 11694 XOR\n2 1 36402 36409 11664 XOR\n1 1 11664 11547 INV\n2 1 11547 36398 11545 XOR\n2 1 11545 11546 36296 XOR\n2 1 36296 1253 34432 XOR\n2 1 34437 34432 2152 XOR\n2 1 34432 2058 2060 XOR\n2 1 34436 2060 2142 XOR\n2 1 2065 2060 2141 XOR\n2 1 34433 34432 2035 XOR\n2 1 34431 34432 2076 XOR\n2 1 2153 2076 2149 XOR\n2 1 2145 2149 2138 AND\n2 1 11694 11679 36281 XOR\n2 1 36281 1268 34417 XOR\n2 1 34417 34416 1755 XOR\n2 1 34432 34434 2155 XOR\n2 1 11689 11547 11558 XOR\n2 1 11558 11559 36289 XOR\n2 1 36289 1260 34425 XOR\n2 1 34423 34425 1918 XOR\n2 1 2153 2142 2132 AND\n2 1 2132 2060 2062 XOR\n2 1 36402 11561 36288 XOR\n2 1 36288 1261 34424 XOR\n2 1 34424 1918 1920 XOR\n2 1 1925 1920 2001 XOR\n2 1 34427 1920 1999 XOR\n2 1 34425 34424 1895 XOR\n2 1 34423 34424 1936 XOR\n2 1 34428 1920 2002 XOR\n2 1 34424 34426 2015 XOR\n2 1 34406 1668 1730 XOR\n2 1 1730 34406 1716 AND\n2 1 11687 11664 11540 XOR\n2 1 36413 11540 36272 XOR\n2 1 36272 1277 34408 XOR\n2 1 34408 34410 1735 XOR\n2 1 34408 1630 1628 XOR\n2 1 1629 1735 1720 XOR\n2 1 34409 34408 1653 XOR\n2 1 34411 1628 1719 XOR\n2 1 1735 1720 1711 AND\n2 1 34407 34408 1606 XOR\n2 1 1734 1719 1715 AND\n2 1 1733 1606 1729 XOR\n2 1 1725 1729 1718 AND\n2 1 1715 1629 1624 XOR\n2 1 1606 1728 1726 XOR\n2 1 1726 1724 1717 AND\n2 1 1711 1717 1615 XOR\n2 1 1718 1627 1622 XOR\n2 1 1621 1628 1721 XOR\n2 1 1728 1721 1713 AND\n2 1 34413 34408 1732 XOR\n2 1 1732 1723 1710 AND\n2 1 1710 1716 1619 XOR\n2 1 1619 1629 1607 XOR\n2 1 1615 1607 1706 XOR\n2 1 1710 1713 1623 XOR\n2 1 1624 1623 1651 XOR\n2 1 1711 1623 1604 XOR\n2 1 1714 1604 1655 XOR\n2 1 34407 1655 1701 XOR\n2 1 2138 2061 2064 XOR\n2 1 2064 2062 2068 XOR\n2 1 34437 2068 2074 XOR\n2 1 34412 1628 1722 XOR\n2 1 1733 1722 1712 AND\n2 1 1711 1712 1654 XOR\n",
"2 1 1654 1653 1600 XOR\n2 1 1600 1624 1601 XOR\n2 1 1714 1601 1708 XOR\n2 1 1712 1628 1626 XOR\n2 1 1651 1626 1707 XOR\n2 1 1622 1626 1617 XOR\n2 1 34413 1617 1608 XOR\n2 1 1617 1619 1652 XOR\n2 1 34411 1652 1602 XOR\n2 1 1615 1608 1709 XOR\n2 1 1709 1708 1705 AND\n2 1 1705 1707 1704 XOR\n2 1 1705 1602 1700 XOR\n2 1 1700 1701 1699 AND\n2 1 1699 1716 1657 XOR\n2 1 1705 1699 1697 XOR\n2 1 1707 1697 1696 AND\n2 1 1696 1704 1694 XOR\n2 1 1657 1713 1662 XOR\n2 1 1699 1604 1656 XOR\n2 1 1696 1714 1616 XOR\n2 1 34407 1616 1613 XOR\n2 1 1613 1656 1695 XOR\n2 1 1695 1724 1685 AND\n2 1 1706 1704 1703 AND\n2 1 1703 1608 1663 XOR\n2 1 1703 1602 1702 XOR\n2 1 1703 1715 1660 XOR\n2 1 1702 1728 1672 AND\n2 1 1695 1726 1676 AND\n2 1 1702 1694 1693 AND\n2 1 1693 1615 1609 XOR\n2 1 1609 1607 1692 XOR\n2 1 1692 1731 1682 AND\n2 1 1693 1717 1658 XOR\n2 1 1613 1658 1666 XOR\n2 1 1629 1666 1659 XOR\n2 1 1662 1659 1691 XOR\n2 1 1691 1732 1669 AND\n2 1 1691 1723 1678 AND\n2 1 1702 1721 1681 AND\n2 1 1681 1682 1649 XOR\n2 1 1616 1601 1688 XOR\n2 1 1688 1729 1677 AND\n2 1 1688 1725 1686 AND\n2 1 1692 1727 1673 AND\n2 1 1681 1673 1631 XOR\n2 1 1660 1622 1664 XOR\n2 1 34413 1664 1661 XOR\n2 1 1662 1661 1690 XOR\n2 1 1690 1733 1671 AND\n2 1 34411 1664 1665 XOR\n2 1 1666 1665 1687 XOR\n2 1 1687 1720 1679 AND\n2 1 1690 1722 1680 AND\n2 1 1679 1680 1638 XOR\n2 1 1687 1735 1670 AND\n2 1 1670 1671 1625 XOR\n2 1 1631 1625 1635 XOR\n2 1 1676 1625 1620 XOR\n2 1 1677 1620 1618 XOR\n2 1 1685 1618 1610 XOR\n2 1 1686 1610 1605 XOR\n2 1 1605 1638 1737 XOR\n1 1 1737 34540 INV\n2 1 34540 1049 36893 XOR\n2 1 1609 1663 1689 XOR\n2 1 1689 1719 1683 AND\n2 1 1689 1734 1674 AND\n2 1 1683 1674 1633 XOR\n2 1 1674 1678 1612 XOR\n1 1 1612 1640 INV\n2 1 1640 1635 1636 XOR\n2 1 1640 1672 1641 XOR\n2 1 1682 1683 1611 XOR\n2 1 1679 1611 1603 XOR\n2 1 1611 1605 34538 XOR\n2 1 34538 1051 36891 XOR\n2 1 1680 1603 1650 XOR\n2 1 1618 1650 34541 XOR\n2 1 34541 1048 36894 XOR\n2 1 1699 1707 1698 XOR\n2 1 1698 1730 1675 AND\n2 1 1675 1603 1644 XOR\n2 1 1680 1669 1639 XOR\n1 1 1639 1643 INV\n1 1 1644 1647 INV\n2 1 1698 34406 1684 AND\n2 1 1684 1610 1648 XOR\n2 1 1684 1686 1614 XOR\n2 1 1641 1614 1645 XOR\n2 1 1620 1645 1646 XOR\n2 1 1647 1646 34536 XOR\n2 1 34536 1053 36889 XOR\n2 1 1671 1645 1642 XOR\n2 1 1643 1642 1736 XOR\n1 1 1736 34539 INV\n2 1 34539 1050 36892 XOR\n2 1 1614 1635 1632 XOR\n2 1 1633 1632 1739 XOR\n1 1 1739 34534 INV\n2 1 34534 1055 36887 XOR\n2 1 1649 1648 34537 XOR\n2 1 34537 1052 36890 XOR\n2 1 1679 1682 1634 XOR\n1 1 1634 1637 INV\n2 1 1637 1636 1738 XOR\n1 1 1738 34535 INV\n2 1 34535 1054 36888 XOR\n2 1 36299 1250 34435 XOR\n2 1 34435 2060 2139 XOR\n2 1 2154 2139 2135 AND\n2 1 2061 34435 2020 XOR\n2 1 34430 2020 2150 XOR\n2 1 2150 34430 2136 AND\n2 1 34435 2065 2151 XOR\n2 1 34431 2151 2147 XOR\n2 1 34435 34437 2059 XOR\n2 1 2061 2059 2021 XOR\n2 1 2059 2155 2140 XOR\n2 1 2155 2140 2131 AND\n2 1 2059 2065 2148 XOR\n2 1 2148 2141 2133 AND\n2 1 2076 2148 2146 XOR\n2 1 2058 2021 2143 XOR\n2 1 2152 2143 2130 AND\n2 1 2130 2133 2084 XOR\n2 1 2131 2084 2078 XOR\n",
"2 1 2130 2136 2088 XOR\n2 1 2088 2059 2075 XOR\n2 1 2068 2088 2036 XOR\n2 1 34435 2036 2080 XOR\n2 1 2151 2147 2134 AND\n2 1 2134 2078 2033 XOR\n2 1 34431 2033 2121 XOR\n2 1 2146 2144 2137 AND\n2 1 2131 2137 2083 XOR\n2 1 2083 2074 2129 XOR\n2 1 2083 2075 2126 XOR\n2 1 2135 2059 2063 XOR\n2 1 2063 2084 2037 XOR\n2 1 2131 2132 2034 XOR\n2 1 2034 2035 2082 XOR\n2 1 2082 2063 2081 XOR\n2 1 2134 2081 2128 XOR\n2 1 2129 2128 2125 AND\n2 1 2125 2080 2120 XOR\n2 1 2120 2121 2119 AND\n2 1 2119 2136 2031 XOR\n2 1 2119 2078 2032 XOR\n2 1 2125 2119 2117 XOR\n2 1 2031 2133 2026 XOR\n2 1 2037 2062 2127 XOR\n2 1 2119 2127 2118 XOR\n2 1 2118 34430 2104 AND\n2 1 2125 2127 2124 XOR\n2 1 2127 2117 2116 AND\n2 1 2116 2124 2114 XOR\n2 1 2118 2150 2095 AND\n2 1 2126 2124 2123 AND\n2 1 2123 2080 2122 XOR\n2 1 2122 2114 2113 AND\n2 1 2122 2148 2092 AND\n2 1 2122 2141 2101 AND\n2 1 2123 2135 2028 XOR\n2 1 2028 2064 2024 XOR\n2 1 34435 2024 2023 XOR\n2 1 34437 2024 2027 XOR\n2 1 2113 2083 2073 XOR\n2 1 2073 2075 2112 XOR\n2 1 2112 2147 2093 AND\n2 1 2101 2093 2057 XOR\n2 1 2112 2151 2102 AND\n2 1 2101 2102 2039 XOR\n2 1 2026 2027 2110 XOR\n2 1 2110 2142 2100 AND\n2 1 2110 2153 2091 AND\n2 1 2123 2074 2025 XOR\n2 1 2073 2025 2109 XOR\n2 1 2109 2154 2094 AND\n2 1 2109 2139 2103 AND\n2 1 2103 2094 2055 XOR\n2 1 2102 2103 2071 XOR\n2 1 2116 2134 2087 XOR\n2 1 34431 2087 2069 XOR\n2 1 2069 2032 2115 XOR\n2 1 2115 2144 2105 AND\n2 1 2115 2146 2096 AND\n2 1 2087 2081 2108 XOR\n2 1 2108 2149 2097 AND\n2 1 2108 2145 2106 AND\n2 1 2104 2106 2086 XOR\n2 1 2113 2137 2030 XOR\n2 1 2069 2030 2022 XOR\n2 1 2059 2022 2029 XOR\n2 1 2026 2029 2111 XOR\n2 1 2111 2143 2098 AND\n2 1 2111 2152 2089 AND\n2 1 2094 2098 2070 XOR\n1 1 2070 2048 INV\n2 1 2048 2092 2047 XOR\n2 1 2047 2086 2043 XOR\n2 1 2091 2043 2046 XOR\n2 1 2100 2089 2049 XOR\n1 1 2049 2045 INV\n2 1 2045 2046 2156 XOR\n1 1 2156 34563 INV\n2 1 34563 1122 36820 XOR\n2 1 2022 2023 2107 XOR\n2 1 2107 2140 2099 AND\n2 1 2099 2071 2079 XOR\n2 1 2095 2079 2044 XOR\n1 1 2044 2041 INV\n2 1 2099 2100 2050 XOR\n2 1 2100 2079 2038 XOR\n2 1 2099 2102 2054 XOR\n1 1 2054 2051 INV\n2 1 2107 2155 2090 AND\n2 1 2090 2091 2085 XOR\n2 1 2057 2085 2053 XOR\n2 1 2048 2053 2052 XOR\n2 1 2051 2052 2158 XOR\n1 1 2158 34559 INV\n2 1 34559 1126 36816 XOR\n2 1 2086 2053 2056 XOR\n2 1 2055 2056 2159 XOR\n1 1 2159 34558 INV\n2 1 34558 1127 36815 XOR\n2 1 2096 2085 2066 XOR\n2 1 2066 2043 2042 XOR\n2 1 2097 2066 2067 XOR\n2 1 2067 2038 34565 XOR\n2 1 34565 1120 36822 XOR\n2 1 2105 2067 2072 XOR\n2 1 2106 2072 2077 XOR\n2 1 2071 2077 34562 XOR\n2 1 34562 1123 36819 XOR\n2 1 2104 2072 2040 XOR\n2 1 2039 2040 34561 XOR\n2 1 34561 1124 36818 XOR\n2 1 2041 2042 34560 XOR\n2 1 34560 1125 36817 XOR\n2 1 2077 2050 2157 XOR\n1 1 2157 34564 INV\n2 1 34564 1121 36821 XOR\n2 1 36438 11457 36349 XOR\n2 1 36349 1200 34485 XOR\n2 1 34482 34485 2852 XOR\n2 1 2758 2852 2844 XOR\n2 1 34485 34480 2851 XOR\n2 1 34483 34485 2759 XOR\n2 1 34485 34479 2853 XOR\n2 1 2853 2838 2834 AND\n2 1 2834 2759 2763 XOR\n2 1 2852 2841 2831 AND\n2 1 2831 2760 2762 XOR\n",
"2 1 2759 2765 2847 XOR\n2 1 2847 2840 2832 AND\n2 1 34478 2844 2843 XOR\n2 1 2852 2775 2848 XOR\n2 1 2759 2854 2839 XOR\n2 1 2854 2839 2830 AND\n2 1 2830 2831 2734 XOR\n2 1 2734 2735 2781 XOR\n2 1 2781 2763 2780 XOR\n2 1 2844 2848 2837 AND\n2 1 2837 2761 2764 XOR\n2 1 2764 2762 2768 XOR\n2 1 34485 2768 2773 XOR\n2 1 2775 2847 2845 XOR\n2 1 2845 2843 2836 AND\n2 1 2830 2836 2782 XOR\n2 1 2782 2773 2828 XOR\n2 1 2761 2759 2721 XOR\n2 1 2758 2721 2842 XOR\n2 1 2851 2842 2829 AND\n2 1 2829 2832 2783 XOR\n2 1 2763 2783 2737 XOR\n2 1 2737 2762 2826 XOR\n2 1 2830 2783 2777 XOR\n2 1 2833 2777 2733 XOR\n2 1 34479 2733 2820 XOR\n2 1 2829 2835 2787 XOR\n2 1 2787 2759 2774 XOR\n2 1 2782 2774 2825 XOR\n2 1 2768 2787 2736 XOR\n2 1 34483 2736 2779 XOR\n2 1 2833 2780 2827 XOR\n2 1 2828 2827 2824 AND\n2 1 2824 2779 2819 XOR\n2 1 2819 2820 2818 AND\n2 1 2818 2826 2817 XOR\n2 1 2817 34478 2803 AND\n2 1 2824 2818 2816 XOR\n2 1 2826 2816 2815 AND\n2 1 2815 2833 2786 XOR\n2 1 2786 2780 2807 XOR\n2 1 2807 2844 2805 AND\n2 1 2803 2805 2785 XOR\n2 1 2807 2848 2796 AND\n2 1 2818 2777 2732 XOR\n2 1 2817 2849 2794 AND\n2 1 34479 2786 2769 XOR\n2 1 2769 2732 2814 XOR\n2 1 2814 2845 2795 AND\n2 1 2814 2843 2804 AND\n2 1 2818 2835 2731 XOR\n2 1 2731 2832 2726 XOR\n2 1 2824 2826 2823 XOR\n2 1 2825 2823 2822 AND\n2 1 2822 2834 2728 XOR\n2 1 2728 2764 2724 XOR\n2 1 34485 2724 2727 XOR\n2 1 2726 2727 2809 XOR\n2 1 2809 2852 2790 AND\n2 1 34483 2724 2723 XOR\n2 1 2809 2841 2799 AND\n2 1 2822 2773 2725 XOR\n2 1 2815 2823 2813 XOR\n2 1 2822 2779 2821 XOR\n2 1 2821 2840 2800 AND\n2 1 2821 2813 2812 AND\n2 1 2812 2836 2730 XOR\n2 1 2812 2782 2772 XOR\n2 1 2772 2774 2811 XOR\n2 1 2811 2850 2801 AND\n2 1 2800 2801 2739 XOR\n2 1 2772 2725 2808 XOR\n2 1 2808 2853 2793 AND\n2 1 2808 2838 2802 AND\n2 1 2801 2802 32639 XOR\n2 1 2821 2847 2791 AND\n2 1 2811 2846 2792 AND\n2 1 2769 2730 2722 XOR\n2 1 2722 2723 2806 XOR\n2 1 2806 2854 2789 AND\n2 1 2806 2839 2798 AND\n2 1 2798 32639 2778 XOR\n2 1 2798 2799 2750 XOR\n2 1 2799 2778 2738 XOR\n2 1 2794 2778 2744 XOR\n1 1 2744 2741 INV\n2 1 2759 2722 2729 XOR\n2 1 2798 2801 2754 XOR\n1 1 2754 2751 INV\n2 1 2789 2790 2784 XOR\n2 1 2795 2784 2766 XOR\n2 1 2796 2766 2767 XOR\n2 1 2767 2738 34613 XOR\n2 1 34613 1136 36806 XOR\n2 1 2804 2767 2771 XOR\n2 1 2805 2771 2776 XOR\n2 1 2776 2750 2856 XOR\n2 1 2803 2771 2740 XOR\n2 1 2739 2740 34609 XOR\n2 1 34609 1140 36802 XOR\n1 1 2856 34612 INV\n2 1 34612 1137 36805 XOR\n2 1 32639 2776 34610 XOR\n2 1 34610 1139 36803 XOR\n2 1 2726 2729 2810 XOR\n2 1 2810 2842 2797 AND\n2 1 2793 2797 2770 XOR\n2 1 2810 2851 2788 AND\n2 1 2799 2788 2749 XOR\n1 1 2749 2745 INV\n1 1 2770 2748 INV\n2 1 2748 2791 2747 XOR\n2 1 2747 2785 2743 XOR\n2 1 2766 2743 2742 XOR\n2 1 2790 2743 2746 XOR\n2 1 2741 2742 34608 XOR\n2 1 2745 2746 2855 XOR\n1 1 2855 34611 INV\n2 1 34611 1138 36804 XOR\n2 1 2802 2793 2755 XOR\n2 1 2800 2792 2757 XOR\n2 1 2757 2784 2753 XOR\n2 1 2748 2753 2752 XOR\n2 1 2751 2752 2857 XOR\n1 1 2857 34607 INV\n2 1 34607 1142 36800 XOR\n2 1 2785 2753 2756 XOR\n2 1 2755 2756 2858 XOR\n",
"1 1 2858 34606 INV\n2 1 34606 1143 36799 XOR\n2 1 10754 10716 10720 XOR\n2 1 10755 10720 10725 XOR\n2 1 10725 10699 10806 XOR\n2 1 10753 10720 10689 XOR\n2 1 10688 10689 36432 XOR\n2 1 11631 36432 11381 XOR\n2 1 36428 36432 11647 XOR\n2 1 11509 11647 11519 XOR\n2 1 11709 11647 36305 XOR\n2 1 11491 11647 11488 XOR\n2 1 36305 1244 34441 XOR\n2 1 11629 36432 11389 XOR\n2 1 11389 11390 11704 XOR\n2 1 11704 11654 36321 XOR\n2 1 36321 1228 34457 XOR\n2 1 34439 34441 2198 XOR\n2 1 34441 34440 2175 XOR\n2 1 34440 2198 2200 XOR\n2 1 10737 10725 36433 XOR\n2 1 36429 36433 11642 XOR\n2 1 11646 11642 11487 XOR\n2 1 11381 11382 11708 XOR\n2 1 11708 11642 36306 XOR\n2 1 36306 1243 34442 XOR\n2 1 34440 34442 2295 XOR\n2 1 33076 11487 36331 XOR\n2 1 36331 1218 34467 XOR\n2 1 34455 34457 2478 XOR\n2 1 11637 36433 11533 XOR\n2 1 11533 11534 36307 XOR\n2 1 36307 1242 34443 XOR\n2 1 34443 2200 2279 XOR\n1 1 10806 32839 INV\n2 1 11622 32839 11484 XOR\n2 1 11484 11485 36333 XOR\n2 1 36333 1216 34469 XOR\n2 1 34469 34464 2712 XOR\n2 1 11639 32839 11531 XOR\n2 1 11531 11532 36308 XOR\n2 1 36308 1241 34444 XOR\n2 1 34444 2200 2282 XOR\n2 1 34438 34444 2205 XOR\n2 1 2205 2200 2281 XOR\n2 1 34443 2205 2291 XOR\n2 1 34442 34444 2201 XOR\n2 1 34439 2291 2287 XOR\n2 1 2291 2287 2274 AND\n2 1 2201 34443 2160 XOR\n2 1 34438 2160 2290 XOR\n2 1 2290 34438 2276 AND\n2 1 34457 34456 2455 XOR\n2 1 11393 36433 11391 XOR\n2 1 11518 11642 11515 XOR\n2 1 11515 11516 36314 XOR\n2 1 36314 1235 34450 XOR\n2 1 34448 34450 2435 XOR\n2 1 2339 2435 2420 XOR\n2 1 2435 2420 2411 AND\n2 1 34450 34453 2433 XOR\n2 1 2433 2356 2429 XOR\n2 1 11519 11520 36313 XOR\n2 1 36313 1236 34449 XOR\n2 1 34447 34449 2338 XOR\n2 1 2338 2433 2425 XOR\n2 1 34446 2425 2424 XOR\n2 1 2425 2429 2418 AND\n2 1 34448 2338 2340 XOR\n2 1 34451 2340 2419 XOR\n2 1 34449 34448 2315 XOR\n2 1 2434 2419 2415 AND\n2 1 2415 2339 2343 XOR\n2 1 34469 34463 2714 XOR\n2 1 32843 32839 11640 XOR\n2 1 11640 11621 11530 XOR\n2 1 36426 11530 36309 XOR\n2 1 11646 11640 11513 XOR\n2 1 11640 33076 11502 XOR\n2 1 11502 11503 36324 XOR\n2 1 36324 1225 34460 XOR\n2 1 34454 34460 2485 XOR\n2 1 34459 2485 2571 XOR\n2 1 34455 2571 2567 XOR\n2 1 33069 11513 36316 XOR\n2 1 36316 1233 34452 XOR\n2 1 34450 34452 2341 XOR\n2 1 34452 2340 2422 XOR\n2 1 2571 2567 2554 AND\n2 1 2341 34451 2300 XOR\n2 1 2418 2341 2344 XOR\n2 1 34446 34452 2345 XOR\n2 1 2345 2340 2421 XOR\n2 1 2339 2345 2428 XOR\n2 1 2428 2421 2413 AND\n2 1 34451 2345 2431 XOR\n2 1 34447 2431 2427 XOR\n2 1 2431 2427 2414 AND\n2 1 2356 2428 2426 XOR\n2 1 2341 2339 2301 XOR\n2 1 2338 2301 2423 XOR\n2 1 34446 2300 2430 XOR\n2 1 2430 34446 2416 AND\n2 1 2426 2424 2417 AND\n2 1 2411 2417 2363 XOR\n2 1 2433 2422 2412 AND\n2 1 2411 2412 2314 XOR\n2 1 2412 2340 2342 XOR\n2 1 2344 2342 2348 XOR\n2 1 34453 2348 2354 XOR\n2 1 2363 2354 2409 XOR\n2 1 2314 2315 2362 XOR\n2 1 2362 2343 2361 XOR\n2 1 2414 2361 2408 XOR\n2 1 2409 2408 2405 AND\n2 1 2432 2423 2410 AND\n2 1 2410 2416 2368 XOR\n2 1 2368 2339 2355 XOR\n2 1 2363 2355 2406 XOR\n2 1 2348 2368 2316 XOR\n2 1 34451 2316 2360 XOR\n2 1 2405 2360 2400 XOR\n2 1 2410 2413 2364 XOR\n2 1 2411 2364 2358 XOR\n2 1 2343 2364 2317 XOR\n2 1 2317 2342 2407 XOR\n2 1 2405 2407 2404 XOR\n2 1 2406 2404 2403 AND\n",
"2 1 2403 2360 2402 XOR\n2 1 2403 2415 2308 XOR\n2 1 2308 2344 2304 XOR\n2 1 34453 2304 2307 XOR\n2 1 2402 2421 2381 AND\n2 1 2403 2354 2305 XOR\n2 1 2414 2358 2313 XOR\n2 1 34447 2313 2401 XOR\n2 1 2400 2401 2399 AND\n2 1 2399 2358 2312 XOR\n2 1 2399 2407 2398 XOR\n2 1 2398 2430 2375 AND\n2 1 2405 2399 2397 XOR\n2 1 2407 2397 2396 AND\n2 1 2396 2414 2367 XOR\n2 1 2367 2361 2388 XOR\n2 1 2388 2429 2377 AND\n2 1 2388 2425 2386 AND\n2 1 34447 2367 2349 XOR\n2 1 2398 34446 2384 AND\n2 1 2384 2386 2366 XOR\n2 1 2396 2404 2394 XOR\n2 1 2402 2394 2393 AND\n2 1 2393 2363 2353 XOR\n2 1 2353 2355 2392 XOR\n2 1 2392 2427 2373 AND\n2 1 2381 2373 2337 XOR\n2 1 2392 2431 2382 AND\n2 1 2381 2382 2319 XOR\n2 1 2349 2312 2395 XOR\n2 1 2395 2424 2385 AND\n2 1 2399 2416 2311 XOR\n2 1 2311 2413 2306 XOR\n2 1 2306 2307 2390 XOR\n2 1 2390 2422 2380 AND\n2 1 2390 2433 2371 AND\n2 1 2393 2417 2310 XOR\n2 1 2349 2310 2302 XOR\n2 1 2339 2302 2309 XOR\n2 1 2306 2309 2391 XOR\n2 1 2391 2432 2369 AND\n2 1 2391 2423 2378 AND\n2 1 2380 2369 2329 XOR\n1 1 2329 2325 INV\n2 1 2353 2305 2389 XOR\n2 1 2389 2434 2374 AND\n2 1 2374 2378 2350 XOR\n2 1 2389 2419 2383 AND\n2 1 2383 2374 2335 XOR\n1 1 2350 2328 INV\n2 1 2382 2383 2351 XOR\n2 1 34451 2304 2303 XOR\n2 1 2302 2303 2387 XOR\n2 1 2387 2420 2379 AND\n2 1 2379 2380 2330 XOR\n2 1 2387 2435 2370 AND\n2 1 2379 2351 2359 XOR\n2 1 2375 2359 2324 XOR\n2 1 2380 2359 2318 XOR\n1 1 2324 2321 INV\n2 1 2379 2382 2334 XOR\n1 1 2334 2331 INV\n2 1 2370 2371 2365 XOR\n2 1 2337 2365 2333 XOR\n2 1 2366 2333 2336 XOR\n2 1 2335 2336 2439 XOR\n2 1 2328 2333 2332 XOR\n2 1 2331 2332 2438 XOR\n2 1 2395 2426 2376 AND\n2 1 2376 2365 2346 XOR\n2 1 2377 2346 2347 XOR\n2 1 2385 2347 2352 XOR\n2 1 2386 2352 2357 XOR\n2 1 2357 2330 2437 XOR\n2 1 2347 2318 34581 XOR\n2 1 2351 2357 34578 XOR\n2 1 34578 1043 36899 XOR\n2 1 2384 2352 2320 XOR\n2 1 2319 2320 34577 XOR\n2 1 34577 1044 36898 XOR\n1 1 2437 34580 INV\n2 1 34580 1041 36901 XOR\n2 1 34581 1040 36902 XOR\n1 1 2439 34574 INV\n2 1 36309 1240 34445 XOR\n2 1 34442 34445 2293 XOR\n2 1 2198 2293 2285 XOR\n2 1 34438 2285 2284 XOR\n2 1 2293 2216 2289 XOR\n2 1 34445 34439 2294 XOR\n2 1 34445 34440 2292 XOR\n2 1 2294 2279 2275 AND\n2 1 2293 2282 2272 AND\n2 1 34443 34445 2199 XOR\n2 1 2199 2205 2288 XOR\n2 1 2199 2295 2280 XOR\n2 1 2216 2288 2286 XOR\n2 1 2286 2284 2277 AND\n2 1 2272 2200 2202 XOR\n2 1 2275 2199 2203 XOR\n2 1 2201 2199 2161 XOR\n2 1 2198 2161 2283 XOR\n2 1 2292 2283 2270 AND\n2 1 2270 2276 2228 XOR\n2 1 2228 2199 2215 XOR\n2 1 2285 2289 2278 AND\n2 1 2278 2201 2204 XOR\n2 1 2204 2202 2208 XOR\n2 1 2208 2228 2176 XOR\n2 1 34443 2176 2220 XOR\n2 1 34445 2208 2214 XOR\n2 1 2288 2281 2273 AND\n2 1 2270 2273 2224 XOR\n2 1 2203 2224 2177 XOR\n2 1 2177 2202 2267 XOR\n2 1 2295 2280 2271 AND\n2 1 2271 2224 2218 XOR\n2 1 2271 2272 2174 XOR\n2 1 2174 2175 2222 XOR\n2 1 2222 2203 2221 XOR\n2 1 2274 2221 2268 XOR\n2 1 2274 2218 2173 XOR\n2 1 34439 2173 2261 XOR\n2 1 2271 2277 2223 XOR\n2 1 2223 2215 2266 XOR\n2 1 2223 2214 2269 XOR\n2 1 2269 2268 2265 AND\n2 1 2265 2267 2264 XOR\n",
"2 1 2266 2264 2263 AND\n2 1 2265 2220 2260 XOR\n2 1 2260 2261 2259 AND\n2 1 2259 2276 2171 XOR\n2 1 2259 2267 2258 XOR\n2 1 2265 2259 2257 XOR\n2 1 2171 2273 2166 XOR\n2 1 2267 2257 2256 AND\n2 1 2256 2274 2227 XOR\n2 1 2256 2264 2254 XOR\n2 1 34439 2227 2209 XOR\n2 1 2227 2221 2248 XOR\n2 1 2248 2285 2246 AND\n2 1 2263 2220 2262 XOR\n2 1 2262 2254 2253 AND\n2 1 2253 2223 2213 XOR\n2 1 2213 2215 2252 XOR\n2 1 2262 2281 2241 AND\n2 1 2263 2214 2165 XOR\n2 1 2248 2289 2237 AND\n2 1 2213 2165 2249 XOR\n2 1 2249 2294 2234 AND\n2 1 2263 2275 2168 XOR\n2 1 2252 2287 2233 AND\n2 1 2262 2288 2232 AND\n2 1 2241 2233 2197 XOR\n2 1 2259 2218 2172 XOR\n2 1 2209 2172 2255 XOR\n2 1 2255 2284 2245 AND\n2 1 2255 2286 2236 AND\n2 1 2253 2277 2170 XOR\n2 1 2209 2170 2162 XOR\n2 1 2199 2162 2169 XOR\n2 1 2166 2169 2251 XOR\n2 1 2251 2283 2238 AND\n2 1 2251 2292 2229 AND\n2 1 2234 2238 2210 XOR\n1 1 2210 2188 INV\n2 1 2188 2232 2187 XOR\n2 1 2168 2204 2164 XOR\n2 1 34445 2164 2167 XOR\n2 1 2166 2167 2250 XOR\n2 1 2250 2282 2240 AND\n2 1 2240 2229 2189 XOR\n1 1 2189 2185 INV\n2 1 34443 2164 2163 XOR\n2 1 2162 2163 2247 XOR\n2 1 2247 2280 2239 AND\n2 1 2239 2240 2190 XOR\n2 1 2247 2295 2230 AND\n2 1 2250 2293 2231 AND\n2 1 2230 2231 2225 XOR\n2 1 2236 2225 2206 XOR\n2 1 2237 2206 2207 XOR\n2 1 2245 2207 2212 XOR\n2 1 2246 2212 2217 XOR\n2 1 2217 2190 2297 XOR\n2 1 2197 2225 2193 XOR\n2 1 2188 2193 2192 XOR\n1 1 2297 34572 INV\n2 1 34572 1145 36797 XOR\n2 1 2252 2291 2242 AND\n2 1 2241 2242 2179 XOR\n2 1 2239 2242 2194 XOR\n1 1 2194 2191 INV\n2 1 2191 2192 2298 XOR\n1 1 2298 34567 INV\n2 1 2258 34438 2244 AND\n2 1 2244 2246 2226 XOR\n2 1 2226 2193 2196 XOR\n2 1 2244 2212 2180 XOR\n2 1 2179 2180 34569 XOR\n2 1 34569 1148 36794 XOR\n2 1 2187 2226 2183 XOR\n2 1 2206 2183 2182 XOR\n2 1 2231 2183 2186 XOR\n2 1 2185 2186 2296 XOR\n1 1 2296 34571 INV\n2 1 34571 1146 36796 XOR\n2 1 34567 1150 36792 XOR\n2 1 34467 34469 2619 XOR\n2 1 2402 2428 2372 AND\n2 1 2328 2372 2327 XOR\n2 1 2327 2366 2323 XOR\n2 1 2346 2323 2322 XOR\n2 1 2321 2322 34576 XOR\n2 1 34576 1045 36897 XOR\n2 1 2371 2323 2326 XOR\n2 1 2325 2326 2436 XOR\n1 1 2436 34579 INV\n2 1 34579 1042 36900 XOR\n2 1 11391 11392 11703 XOR\n2 1 11703 11650 36322 XOR\n2 1 36322 1227 34458 XOR\n2 1 34456 34458 2575 XOR\n2 1 34467 2620 2699 XOR\n2 1 2714 2699 2695 AND\n2 1 2695 2619 2623 XOR\n2 1 2249 2279 2243 AND\n2 1 2242 2243 2211 XOR\n2 1 2211 2217 34570 XOR\n2 1 2239 2211 2219 XOR\n2 1 2243 2234 2195 XOR\n2 1 2195 2196 2299 XOR\n1 1 2299 34566 INV\n2 1 2240 2219 2178 XOR\n2 1 2207 2178 34573 XOR\n2 1 34570 1147 36795 XOR\n2 1 34573 1144 36798 XOR\n2 1 34566 1151 36791 XOR\n2 1 34458 34460 2481 XOR\n2 1 2481 34459 2440 XOR\n2 1 34454 2440 2570 XOR\n2 1 2570 34454 2556 AND\n1 1 2438 34575 INV\n2 1 34575 1046 36896 XOR\n2 1 34574 1047 36895 XOR\n2 1 11488 11489 36330 XOR\n2 1 36330 1219 34466 XOR\n2 1 34464 34466 2715 XOR\n2 1 2619 2715 2700 XOR\n2 1 2715 2700 2691 AND\n2 1 34466 34469 2713 XOR\n2 1 2618 2713 2705 XOR\n2 1 34462 2705 2704 XOR\n2 1 2713 2636 2709 XOR\n2 1 2705 2709 2698 AND\n2 1 2258 2290 2235 AND\n",
"2 1 2235 2219 2184 XOR\n1 1 2184 2181 INV\n2 1 2181 2182 34568 XOR\n2 1 34568 1149 36793 XOR\n2 1 34456 2478 2480 XOR\n2 1 34460 2480 2562 XOR\n2 1 2485 2480 2561 XOR\n2 1 34459 2480 2559 XOR\n2 1 36332 1217 34468 XOR\n2 1 34468 2620 2702 XOR\n2 1 34466 34468 2621 XOR\n2 1 2621 2619 2581 XOR\n2 1 2713 2702 2692 AND\n2 1 2618 2581 2703 XOR\n2 1 2712 2703 2690 AND\n2 1 34462 34468 2625 XOR\n2 1 2619 2625 2708 XOR\n2 1 2625 2620 2701 XOR\n2 1 2708 2701 2693 AND\n2 1 2621 34467 2580 XOR\n2 1 34462 2580 2710 XOR\n2 1 2710 34462 2696 AND\n2 1 2690 2696 2648 XOR\n2 1 2648 2619 2635 XOR\n2 1 2692 2620 2622 XOR\n2 1 2691 2692 2594 XOR\n2 1 2594 2595 2642 XOR\n2 1 2642 2623 2641 XOR\n2 1 34467 2625 2711 XOR\n2 1 34463 2711 2707 XOR\n2 1 2711 2707 2694 AND\n2 1 2694 2641 2688 XOR\n2 1 2636 2708 2706 XOR\n2 1 2706 2704 2697 AND\n2 1 2690 2693 2644 XOR\n2 1 2623 2644 2597 XOR\n2 1 2597 2622 2687 XOR\n2 1 2698 2621 2624 XOR\n2 1 2624 2622 2628 XOR\n2 1 34469 2628 2634 XOR\n2 1 2628 2648 2596 XOR\n2 1 34467 2596 2640 XOR\n2 1 2691 2697 2643 XOR\n2 1 2643 2635 2686 XOR\n2 1 2643 2634 2689 XOR\n2 1 2689 2688 2685 AND\n2 1 2685 2687 2684 XOR\n2 1 2686 2684 2683 AND\n2 1 2685 2640 2680 XOR\n2 1 2683 2640 2682 XOR\n2 1 2682 2701 2661 AND\n2 1 2682 2708 2652 AND\n2 1 2683 2634 2585 XOR\n2 1 2683 2695 2588 XOR\n2 1 2588 2624 2584 XOR\n2 1 34467 2584 2583 XOR\n2 1 34469 2584 2587 XOR\n2 1 2691 2644 2638 XOR\n2 1 2694 2638 2593 XOR\n2 1 34463 2593 2681 XOR\n2 1 2680 2681 2679 AND\n2 1 2679 2638 2592 XOR\n2 1 2679 2696 2591 XOR\n2 1 2591 2693 2586 XOR\n2 1 2586 2587 2670 XOR\n2 1 2670 2702 2660 AND\n2 1 2670 2713 2651 AND\n2 1 2685 2679 2677 XOR\n2 1 2687 2677 2676 AND\n2 1 2676 2694 2647 XOR\n2 1 34463 2647 2629 XOR\n2 1 2629 2592 2675 XOR\n2 1 2675 2704 2665 AND\n2 1 2647 2641 2668 XOR\n2 1 2676 2684 2674 XOR\n2 1 2682 2674 2673 AND\n2 1 2673 2697 2590 XOR\n2 1 2629 2590 2582 XOR\n2 1 2619 2582 2589 XOR\n2 1 2582 2583 2667 XOR\n2 1 2667 2700 2659 AND\n2 1 2659 2660 2610 XOR\n2 1 2667 2715 2650 AND\n2 1 2650 2651 2645 XOR\n2 1 2675 2706 2656 AND\n2 1 2656 2645 2626 XOR\n2 1 2668 2709 2657 AND\n2 1 2657 2626 2627 XOR\n2 1 2673 2643 2633 XOR\n2 1 2633 2585 2669 XOR\n2 1 2669 2714 2654 AND\n2 1 2669 2699 2663 AND\n2 1 2663 2654 2615 XOR\n2 1 2633 2635 2672 XOR\n2 1 2672 2707 2653 AND\n2 1 2672 2711 2662 AND\n2 1 2662 2663 2631 XOR\n2 1 2659 2662 2614 XOR\n1 1 2614 2611 INV\n2 1 2659 2631 2639 XOR\n2 1 2660 2639 2598 XOR\n2 1 2627 2598 34597 XOR\n2 1 34597 1088 36854 XOR\n2 1 2661 2662 2599 XOR\n2 1 2586 2589 2671 XOR\n2 1 2671 2712 2649 AND\n2 1 2671 2703 2658 AND\n2 1 2654 2658 2630 XOR\n1 1 2630 2608 INV\n2 1 2608 2652 2607 XOR\n2 1 2660 2649 2609 XOR\n1 1 2609 2605 INV\n2 1 2668 2705 2666 AND\n2 1 2665 2627 2632 XOR\n2 1 2666 2632 2637 XOR\n2 1 2637 2610 2717 XOR\n2 1 2631 2637 34594 XOR\n2 1 34594 1091 36851 XOR\n1 1 2717 34596 INV\n2 1 34596 1089 36853 XOR\n2 1 2661 2653 2617 XOR\n2 1 2617 2645 2613 XOR\n2 1 2608 2613 2612 XOR\n2 1 2611 2612 2718 XOR\n1 1 2718 34591 INV\n2 1 34591 1094 36848 XOR\n2 1 2679 2687 2678 XOR\n2 1 2678 2710 2655 AND\n",
"2 1 2655 2639 2604 XOR\n1 1 2604 2601 INV\n2 1 2678 34462 2664 AND\n2 1 2664 2632 2600 XOR\n2 1 2664 2666 2646 XOR\n2 1 2607 2646 2603 XOR\n2 1 2651 2603 2606 XOR\n2 1 2599 2600 34593 XOR\n2 1 2605 2606 2716 XOR\n2 1 2646 2613 2616 XOR\n2 1 2615 2616 2719 XOR\n1 1 2719 34590 INV\n2 1 34590 1095 36847 XOR\n2 1 2626 2603 2602 XOR\n2 1 2601 2602 34592 XOR\n2 1 34592 1093 36849 XOR\n1 1 2716 34595 INV\n2 1 34593 1092 36850 XOR\n2 1 34595 1090 36852 XOR\n2 1 27576 27577 27479 XOR\n2 1 27479 27480 27526 XOR\n2 1 27526 27508 27525 XOR\n2 1 27579 27525 27573 XOR\n2 1 27574 27573 27570 AND\n2 1 27570 27524 27565 XOR\n2 1 27565 27566 27564 AND\n2 1 27564 27581 27476 XOR\n2 1 27476 27578 27471 XOR\n2 1 27564 27572 27563 XOR\n2 1 27563 27595 27540 AND\n2 1 27570 27564 27562 XOR\n2 1 27564 27522 27477 XOR\n2 1 27563 34318 27549 AND\n2 1 27572 27562 27561 AND\n2 1 27570 27572 27569 XOR\n2 1 27571 27569 27568 AND\n2 1 27568 27524 27567 XOR\n2 1 27567 27586 27546 AND\n2 1 27568 27518 27470 XOR\n2 1 27561 27569 27559 XOR\n2 1 27567 27559 27558 AND\n2 1 27558 27582 27475 XOR\n2 1 27558 27527 27517 XOR\n2 1 27517 27519 27557 XOR\n2 1 27557 27596 27547 AND\n2 1 27546 27547 27484 XOR\n2 1 27517 27470 27554 XOR\n2 1 27554 27584 27548 AND\n2 1 27554 27599 27539 AND\n2 1 27548 27539 27500 XOR\n2 1 27547 27548 27533 XOR\n2 1 27567 27593 27537 AND\n2 1 27557 27592 27538 AND\n2 1 27546 27538 27502 XOR\n2 1 27568 27580 27473 XOR\n2 1 27473 27509 27469 XOR\n2 1 34323 27469 27468 XOR\n2 1 34325 27469 27472 XOR\n2 1 27471 27472 27555 XOR\n2 1 27555 27587 27545 AND\n2 1 27555 27598 27536 AND\n2 1 27561 27579 27531 XOR\n2 1 27531 27525 27553 XOR\n2 1 27553 27594 27542 AND\n2 1 27553 27590 27551 AND\n2 1 27549 27551 27530 XOR\n2 1 34319 27531 27514 XOR\n2 1 27514 27477 27560 XOR\n2 1 27560 27589 27550 AND\n2 1 27560 27591 27541 AND\n2 1 27514 27475 27467 XOR\n2 1 27467 27468 27552 XOR\n2 1 27552 27585 27544 AND\n2 1 27552 27600 27535 AND\n2 1 27535 27536 27529 XOR\n2 1 27541 27529 27511 XOR\n2 1 27542 27511 27512 XOR\n2 1 27544 27547 27499 XOR\n1 1 27499 27496 INV\n2 1 27502 27529 27498 XOR\n2 1 27550 27512 27516 XOR\n2 1 27551 27516 27521 XOR\n2 1 27533 27521 36461 XOR\n2 1 36456 36461 11684 XOR\n2 1 11690 11684 36394 XOR\n2 1 27549 27516 27485 XOR\n2 1 27484 27485 36460 XOR\n2 1 36460 11423 11422 XOR\n2 1 11684 11653 11600 XOR\n2 1 11630 36461 11616 XOR\n2 1 11615 11616 36370 XOR\n2 1 36370 1179 34506 XOR\n2 1 36460 36464 11638 XOR\n2 1 11706 11638 36369 XOR\n2 1 36369 1180 34505 XOR\n2 1 11638 11636 11577 XOR\n2 1 11577 11578 11576 XOR\n1 1 11576 36393 INV\n2 1 36393 1156 34529 XOR\n2 1 11684 11638 11589 XOR\n2 1 32854 11600 36379 XOR\n2 1 36379 1170 34515 XOR\n2 1 36394 1155 34530 XOR\n2 1 27544 27545 27495 XOR\n2 1 27530 27498 27501 XOR\n2 1 27500 27501 27604 XOR\n1 1 27604 33116 INV\n2 1 32849 33116 11370 XOR\n2 1 32830 33116 11681 XOR\n2 1 33116 11428 36366 XOR\n2 1 11681 11648 11606 XOR\n2 1 11681 11618 11583 XOR\n2 1 32849 11583 36390 XOR\n2 1 36390 1159 34526 XOR\n2 1 27521 27495 27602 XOR\n1 1 27602 33114 INV\n2 1 33114 11611 36372 XOR\n2 1 36372 1177 34508 XOR\n2 1 34506 34508 3180 XOR\n2 1 32847 33114 11585 XOR\n2 1 36366 1183 34502 XOR\n2 1 34502 34508 3184 XOR\n2 1 36457 33114 11683 XOR\n2 1 11683 32855 11573 XOR\n2 1 11573 11574 36396 XOR\n2 1 36396 1153 34532 XOR\n2 1 34530 34532 3320 XOR\n2 1 34526 34532 3324 XOR\n",
"2 1 11683 11618 11594 XOR\n2 1 36458 11594 36381 XOR\n2 1 36381 1168 34517 XOR\n2 1 34515 34517 32400 XOR\n2 1 27544 27533 27523 XOR\n2 1 27545 27523 27483 XOR\n2 1 27540 27523 27489 XOR\n1 1 27489 27486 INV\n2 1 27512 27483 36462 XOR\n2 1 36462 10386 11610 XOR\n2 1 36462 36466 11633 XOR\n2 1 11681 11633 11593 XOR\n2 1 11633 32857 11369 XOR\n2 1 11369 11370 11713 XOR\n2 1 11633 36469 11590 XOR\n2 1 11589 11590 36386 XOR\n2 1 36386 1163 34522 XOR\n2 1 11609 11610 36373 XOR\n2 1 36373 1176 34509 XOR\n2 1 34506 34509 3272 XOR\n2 1 36458 36462 11619 XOR\n2 1 11641 11619 11572 XOR\n2 1 36466 11572 36397 XOR\n2 1 36397 1152 34533 XOR\n2 1 34530 34533 3411 XOR\n2 1 11619 36470 11584 XOR\n2 1 11584 11585 36389 XOR\n2 1 11668 11619 11608 XOR\n2 1 32830 11608 36374 XOR\n2 1 36374 1175 34510 XOR\n2 1 36389 1160 34525 XOR\n2 1 34522 34525 32215 XOR\n2 1 32858 11593 36382 XOR\n2 1 11633 36463 11371 XOR\n2 1 27504 27467 27474 XOR\n2 1 27471 27474 27556 XOR\n2 1 27556 27588 27543 AND\n2 1 27556 27597 27534 AND\n2 1 27545 27534 27494 XOR\n1 1 27494 27490 INV\n2 1 36382 1167 34518 XOR\n2 1 27539 27543 27515 XOR\n1 1 27515 27493 INV\n2 1 27493 27498 27497 XOR\n2 1 27496 27497 27603 XOR\n1 1 27603 33115 INV\n2 1 32829 33115 11673 XOR\n2 1 32858 33115 11384 XOR\n2 1 11383 11384 11707 XOR\n2 1 11713 11673 36383 XOR\n2 1 11673 11636 11604 XOR\n2 1 36454 11604 36376 XOR\n2 1 36376 1173 34512 XOR\n2 1 34517 34512 32492 XOR\n1 1 11673 11582 INV\n2 1 11582 11668 11580 XOR\n2 1 11580 11581 36391 XOR\n2 1 36391 1158 34527 XOR\n2 1 34533 34527 3412 XOR\n2 1 34527 34529 3317 XOR\n2 1 3317 3411 3403 XOR\n2 1 34526 3403 3402 XOR\n2 1 32848 33115 11592 XOR\n2 1 11707 11648 36367 XOR\n2 1 36367 1182 34503 XOR\n2 1 34509 34503 3273 XOR\n2 1 34503 34505 3177 XOR\n2 1 3177 3272 3264 XOR\n2 1 34502 3264 3263 XOR\n2 1 27493 27537 27492 XOR\n2 1 27492 27530 27488 XOR\n2 1 27536 27488 27491 XOR\n2 1 27490 27491 27601 XOR\n1 1 27601 33113 INV\n2 1 33113 36461 11588 XOR\n2 1 33113 32854 11643 XOR\n2 1 11643 11635 11575 XOR\n2 1 32834 11575 36395 XOR\n2 1 11641 33113 11596 XOR\n2 1 11596 11597 11595 XOR\n1 1 11643 11614 INV\n2 1 11614 32855 11612 XOR\n2 1 11612 11613 36371 XOR\n2 1 36395 1154 34531 XOR\n2 1 34531 3324 3409 XOR\n2 1 3320 34531 3279 XOR\n2 1 11587 11588 36387 XOR\n2 1 36387 1162 34523 XOR\n2 1 34523 34525 32122 XOR\n1 1 11595 36380 INV\n2 1 36380 1169 34516 XOR\n2 1 34510 34516 32406 XOR\n2 1 32400 32406 32488 XOR\n2 1 34515 32406 32491 XOR\n2 1 34527 3409 3405 XOR\n2 1 3409 3405 3392 AND\n2 1 36371 1178 34507 XOR\n2 1 34507 34509 3178 XOR\n2 1 34507 3184 3270 XOR\n2 1 3180 34507 3139 XOR\n2 1 3178 3184 3267 XOR\n2 1 3180 3178 3140 XOR\n2 1 34502 3139 3269 XOR\n2 1 3269 34502 3255 AND\n2 1 34531 34533 3318 XOR\n2 1 3320 3318 3280 XOR\n2 1 34526 3279 3408 XOR\n2 1 3408 34526 3394 AND\n2 1 34503 3270 3266 XOR\n2 1 3270 3266 3253 AND\n2 1 27511 27488 27487 XOR\n2 1 27486 27487 36459 XOR\n2 1 32857 36459 11427 XOR\n2 1 11426 11427 36368 XOR\n2 1 36460 36459 11372 XOR\n2 1 36368 1181 34504 XOR\n2 1 34503 34504 3195 XOR\n2 1 34504 3177 3179 XOR\n2 1 3195 3267 3265 XOR\n2 1 3265 3263 3256 AND\n2 1 34504 34506 3274 XOR\n2 1 3184 3179 3260 XOR\n2 1 3272 3195 3268 XOR\n2 1 3264 3268 3257 AND\n2 1 3257 3180 3183 XOR\n2 1 34509 34504 3271 XOR\n2 1 34508 3179 3261 XOR\n2 1 3272 3261 3251 AND\n",
"2 1 3251 3179 3181 XOR\n2 1 3183 3181 3187 XOR\n2 1 34509 3187 3193 XOR\n2 1 11371 11372 11712 XOR\n2 1 3178 3274 3259 XOR\n2 1 3274 3259 3250 AND\n2 1 3250 3251 3153 XOR\n2 1 3250 3256 3202 XOR\n2 1 3202 3193 3248 XOR\n2 1 34507 3179 3258 XOR\n2 1 3273 3258 3254 AND\n2 1 3254 3178 3182 XOR\n2 1 34505 34504 3154 XOR\n2 1 3153 3154 3201 XOR\n2 1 3201 3182 3200 XOR\n2 1 3253 3200 3247 XOR\n2 1 3248 3247 3244 AND\n2 1 3267 3260 3252 AND\n2 1 36454 36459 11658 XOR\n2 1 11658 36467 11591 XOR\n2 1 11658 11648 11579 XOR\n2 1 11658 11644 11603 XOR\n1 1 11603 11601 INV\n2 1 11591 11592 36384 XOR\n2 1 36384 1165 34520 XOR\n2 1 34520 34522 32217 XOR\n2 1 32122 32217 32202 XOR\n2 1 34525 34520 32214 XOR\n2 1 32217 32202 32193 AND\n2 1 3318 3324 3406 XOR\n2 1 3177 3140 3262 XOR\n2 1 3271 3262 3249 AND\n2 1 3249 3252 3203 XOR\n2 1 3182 3203 3156 XOR\n2 1 3250 3203 3197 XOR\n2 1 3249 3255 3207 XOR\n2 1 3207 3178 3194 XOR\n2 1 3187 3207 3155 XOR\n2 1 3156 3181 3246 XOR\n2 1 3244 3246 3243 XOR\n2 1 34507 3155 3199 XOR\n2 1 3244 3199 3239 XOR\n2 1 3253 3197 3152 XOR\n2 1 34503 3152 3240 XOR\n2 1 3239 3240 3238 AND\n2 1 3238 3197 3151 XOR\n2 1 3238 3246 3237 XOR\n2 1 3237 3269 3214 AND\n2 1 3237 34502 3223 AND\n2 1 3238 3255 3150 XOR\n2 1 3150 3252 3145 XOR\n2 1 11683 11643 11586 XOR\n2 1 32856 11586 36388 XOR\n2 1 36388 1161 34524 XOR\n2 1 34522 34524 32124 XOR\n2 1 34518 34524 32128 XOR\n2 1 32122 32128 32210 XOR\n2 1 34523 32128 32213 XOR\n2 1 32124 32122 32084 XOR\n2 1 32124 34523 32083 XOR\n2 1 34518 32083 32212 XOR\n2 1 32212 34518 32198 AND\n2 1 36383 1166 34519 XOR\n2 1 34519 32213 32209 XOR\n2 1 34519 34520 32138 XOR\n2 1 32215 32138 32211 XOR\n2 1 34525 34519 32216 XOR\n2 1 32213 32209 32196 AND\n2 1 32138 32210 32208 XOR\n2 1 3317 3280 3401 XOR\n2 1 36463 11579 36392 XOR\n2 1 36392 1157 34528 XOR\n2 1 34529 34528 3294 XOR\n2 1 34528 3317 3319 XOR\n2 1 34527 34528 3334 XOR\n2 1 3411 3334 3407 XOR\n2 1 3334 3406 3404 XOR\n2 1 3404 3402 3395 AND\n2 1 34533 34528 3410 XOR\n2 1 3403 3407 3396 AND\n2 1 3396 3320 3323 XOR\n2 1 34531 3319 3397 XOR\n2 1 3324 3319 3399 XOR\n2 1 3406 3399 3391 AND\n2 1 34532 3319 3400 XOR\n2 1 3411 3400 3390 AND\n2 1 3390 3319 3321 XOR\n2 1 3323 3321 3327 XOR\n2 1 34533 3327 3332 XOR\n2 1 3410 3401 3388 AND\n2 1 3388 3394 3346 XOR\n2 1 3327 3346 3295 XOR\n2 1 34531 3295 3338 XOR\n2 1 3346 3318 3333 XOR\n2 1 3388 3391 3342 XOR\n2 1 3412 3397 3393 AND\n2 1 3393 3318 3322 XOR\n2 1 3322 3342 3296 XOR\n2 1 3296 3321 3385 XOR\n2 1 3202 3194 3245 XOR\n2 1 3245 3243 3242 AND\n2 1 3242 3193 3144 XOR\n2 1 3242 3254 3147 XOR\n2 1 3242 3199 3241 XOR\n2 1 3241 3260 3220 AND\n2 1 3241 3267 3211 AND\n2 1 3147 3183 3143 XOR\n2 1 34507 3143 3142 XOR\n2 1 34509 3143 3146 XOR\n2 1 3145 3146 3229 XOR\n2 1 3229 3272 3210 AND\n2 1 3229 3261 3219 AND\n2 1 11712 11644 36385 XOR\n2 1 36385 1164 34521 XOR\n2 1 34521 34520 32098 XOR\n2 1 34519 34521 32121 XOR\n2 1 32121 32084 32205 XOR\n2 1 32214 32205 32192 AND\n2 1 32192 32198 32150 XOR\n2 1 32150 32122 32137 XOR\n2 1 32121 32215 32207 XOR\n2 1 32207 32211 32200 AND\n2 1 32200 32124 32127 XOR\n2 1 34518 32207 32206 XOR\n2 1 32208 32206 32199 AND\n2 1 32193 32199 32145 XOR\n2 1 32145 32137 32188 XOR\n2 1 34520 32121 32123 XOR\n",
"2 1 34523 32123 32201 XOR\n2 1 32216 32201 32197 AND\n2 1 32197 32122 32126 XOR\n2 1 34524 32123 32204 XOR\n2 1 32215 32204 32194 AND\n2 1 32193 32194 32097 XOR\n2 1 32194 32123 32125 XOR\n2 1 32097 32098 32144 XOR\n2 1 32128 32123 32203 XOR\n2 1 32210 32203 32195 AND\n2 1 32192 32195 32146 XOR\n2 1 32193 32146 32140 XOR\n2 1 32196 32140 32096 XOR\n2 1 34519 32096 32183 XOR\n2 1 32126 32146 32100 XOR\n2 1 32100 32125 32189 XOR\n2 1 32144 32126 32143 XOR\n2 1 32196 32143 32190 XOR\n2 1 32127 32125 32131 XOR\n2 1 32131 32150 32099 XOR\n2 1 34525 32131 32136 XOR\n2 1 32145 32136 32191 XOR\n2 1 32191 32190 32187 AND\n2 1 32187 32189 32186 XOR\n2 1 32188 32186 32185 AND\n2 1 32185 32136 32088 XOR\n2 1 32185 32197 32091 XOR\n2 1 32091 32127 32087 XOR\n2 1 34525 32087 32090 XOR\n2 1 34523 32087 32086 XOR\n2 1 34523 32099 32142 XOR\n2 1 32185 32142 32184 XOR\n2 1 32184 32203 32163 AND\n2 1 32184 32210 32154 AND\n2 1 32187 32142 32182 XOR\n2 1 32182 32183 32181 AND\n2 1 32181 32198 32094 XOR\n2 1 32094 32195 32089 XOR\n2 1 32187 32181 32179 XOR\n2 1 32189 32179 32178 AND\n2 1 32089 32090 32172 XOR\n2 1 32172 32215 32153 AND\n2 1 32172 32204 32162 AND\n2 1 32181 32189 32180 XOR\n2 1 32180 32212 32157 AND\n2 1 32178 32186 32176 XOR\n2 1 32184 32176 32175 AND\n2 1 32175 32145 32135 XOR\n2 1 32175 32199 32093 XOR\n2 1 32135 32137 32174 XOR\n2 1 32174 32213 32164 AND\n2 1 32163 32164 32102 XOR\n2 1 32174 32209 32155 AND\n2 1 32163 32155 32120 XOR\n2 1 32135 32088 32171 XOR\n2 1 32171 32201 32165 AND\n2 1 32164 32165 32728 XOR\n2 1 32171 32216 32156 AND\n2 1 32165 32156 32118 XOR\n2 1 32181 32140 32095 XOR\n2 1 32180 34518 32166 AND\n2 1 32178 32196 32149 XOR\n2 1 32149 32143 32170 XOR\n2 1 32170 32207 32168 AND\n2 1 32166 32168 32148 XOR\n2 1 32170 32211 32159 AND\n2 1 34519 32149 32132 XOR\n2 1 32132 32095 32177 XOR\n2 1 32177 32208 32158 AND\n2 1 32177 32206 32167 AND\n2 1 32132 32093 32085 XOR\n2 1 32085 32086 32169 XOR\n2 1 32169 32202 32161 AND\n2 1 32161 32162 32113 XOR\n2 1 32161 32728 32141 XOR\n2 1 32162 32141 32101 XOR\n2 1 32169 32217 32152 AND\n2 1 32152 32153 32147 XOR\n2 1 32157 32141 32107 XOR\n1 1 32107 32104 INV\n2 1 32120 32147 32116 XOR\n2 1 32158 32147 32129 XOR\n2 1 32159 32129 32130 XOR\n2 1 32167 32130 32134 XOR\n2 1 32130 32101 34653 XOR\n2 1 32168 32134 32139 XOR\n2 1 34653 1128 36814 XOR\n2 1 32148 32116 32119 XOR\n2 1 32118 32119 32221 XOR\n1 1 32221 34646 INV\n2 1 34646 1135 36807 XOR\n2 1 32728 32139 34650 XOR\n2 1 34650 1131 36811 XOR\n2 1 32161 32164 32117 XOR\n1 1 32117 32114 INV\n2 1 32122 32085 32092 XOR\n2 1 32089 32092 32173 XOR\n2 1 32173 32214 32151 AND\n2 1 32173 32205 32160 AND\n2 1 32156 32160 32133 XOR\n2 1 32162 32151 32112 XOR\n1 1 32112 32108 INV\n1 1 32133 32111 INV\n2 1 32111 32116 32115 XOR\n2 1 32111 32154 32110 XOR\n2 1 32110 32148 32106 XOR\n2 1 32129 32106 32105 XOR\n2 1 32104 32105 34648 XOR\n2 1 34648 1133 36809 XOR\n2 1 32114 32115 32220 XOR\n1 1 32220 34647 INV\n2 1 34647 1134 36808 XOR\n2 1 32153 32106 32109 XOR\n2 1 32108 32109 32218 XOR\n1 1 32218 34651 INV\n2 1 34651 1130 36812 XOR\n2 1 32166 32134 32103 XOR\n2 1 32139 32113 32219 XOR\n1 1 32219 34652 INV\n2 1 34652 1129 36813 XOR\n2 1 32102 32103 34649 XOR\n2 1 34649 1132 36810 XOR\n2 1 3244 3238 3236 XOR\n2 1 3246 3236 3235 AND\n2 1 3235 3243 3233 XOR\n2 1 3241 3233 3232 AND\n2 1 3232 3256 3149 XOR\n2 1 3232 3202 3192 XOR\n",
"2 1 3192 3144 3228 XOR\n2 1 3228 3273 3213 AND\n2 1 3192 3194 3231 XOR\n2 1 3231 3266 3212 AND\n2 1 3231 3270 3221 AND\n2 1 3220 3212 3176 XOR\n2 1 3235 3253 3206 XOR\n2 1 34503 3206 3188 XOR\n2 1 3188 3151 3234 XOR\n2 1 3234 3263 3224 AND\n2 1 3234 3265 3215 AND\n2 1 3206 3200 3227 XOR\n2 1 3227 3264 3225 AND\n2 1 3227 3268 3216 AND\n2 1 3228 3258 3222 AND\n2 1 3223 3225 3205 XOR\n2 1 3220 3221 3158 XOR\n2 1 3221 3222 3190 XOR\n2 1 3188 3149 3141 XOR\n2 1 3141 3142 3226 XOR\n2 1 3226 3259 3218 AND\n2 1 3218 3221 3173 XOR\n1 1 3173 3170 INV\n2 1 3218 3190 3198 XOR\n2 1 3214 3198 3163 XOR\n2 1 3219 3198 3157 XOR\n2 1 3226 3274 3209 AND\n2 1 3209 3210 3204 XOR\n2 1 3176 3204 3172 XOR\n2 1 3205 3172 3175 XOR\n2 1 3215 3204 3185 XOR\n2 1 3216 3185 3186 XOR\n2 1 3224 3186 3191 XOR\n2 1 3225 3191 3196 XOR\n2 1 3186 3157 34637 XOR\n2 1 3190 3196 34634 XOR\n2 1 34634 1083 36859 XOR\n1 1 3163 3160 INV\n2 1 3223 3191 3159 XOR\n2 1 34637 1080 36862 XOR\n2 1 3178 3141 3148 XOR\n2 1 3145 3148 3230 XOR\n2 1 3230 3262 3217 AND\n2 1 3230 3271 3208 AND\n2 1 3219 3208 3168 XOR\n1 1 3168 3164 INV\n2 1 3213 3217 3189 XOR\n1 1 3189 3167 INV\n2 1 3167 3172 3171 XOR\n2 1 3170 3171 3277 XOR\n1 1 3277 34631 INV\n2 1 34631 1086 36856 XOR\n2 1 3167 3211 3166 XOR\n2 1 3166 3205 3162 XOR\n2 1 3185 3162 3161 XOR\n2 1 3158 3159 34633 XOR\n2 1 34633 1084 36858 XOR\n2 1 3218 3219 3169 XOR\n2 1 3196 3169 3276 XOR\n2 1 3210 3162 3165 XOR\n2 1 3164 3165 3275 XOR\n1 1 3275 34635 INV\n2 1 34635 1082 36860 XOR\n1 1 3276 34636 INV\n2 1 34636 1081 36861 XOR\n2 1 3160 3161 34632 XOR\n2 1 34632 1085 36857 XOR\n2 1 3222 3213 3174 XOR\n2 1 3174 3175 3278 XOR\n1 1 3278 34630 INV\n2 1 34630 1087 36855 XOR\n2 1 36434 11501 36325 XOR\n2 1 36325 1224 34461 XOR\n2 1 34459 34461 2479 XOR\n2 1 34461 34455 2574 XOR\n2 1 34458 34461 2573 XOR\n2 1 2574 2559 2555 AND\n2 1 2573 2562 2552 AND\n2 1 2555 2479 2483 XOR\n2 1 2479 2575 2560 XOR\n2 1 2573 2495 2569 XOR\n2 1 2552 2480 2482 XOR\n2 1 34461 34456 2572 XOR\n2 1 2481 2479 2441 XOR\n2 1 2575 2560 2551 AND\n2 1 2551 2552 2454 XOR\n2 1 2454 2455 2501 XOR\n2 1 2501 2483 2500 XOR\n2 1 2554 2500 2548 XOR\n2 1 2479 2485 2568 XOR\n2 1 2495 2568 2566 XOR\n2 1 2478 2441 2563 XOR\n2 1 2572 2563 2550 AND\n2 1 2478 2573 2565 XOR\n2 1 2565 2569 2558 AND\n2 1 2558 2481 2484 XOR\n2 1 2484 2482 2488 XOR\n2 1 34461 2488 2493 XOR\n2 1 2568 2561 2553 AND\n2 1 2550 2553 2503 XOR\n2 1 2483 2503 2457 XOR\n2 1 2457 2482 2547 XOR\n2 1 2551 2503 2497 XOR\n2 1 2554 2497 2453 XOR\n2 1 34455 2453 2541 XOR\n2 1 34454 2565 2564 XOR\n2 1 2566 2564 2557 AND\n2 1 2551 2557 2502 XOR\n2 1 2502 2493 2549 XOR\n2 1 2549 2548 2545 AND\n2 1 2545 2547 2544 XOR\n2 1 2550 2556 2507 XOR\n2 1 2507 2479 2494 XOR\n2 1 2502 2494 2546 XOR\n2 1 2546 2544 2543 AND\n2 1 2543 2555 2448 XOR\n2 1 2448 2484 2444 XOR\n2 1 34459 2444 2443 XOR\n2 1 34461 2444 2447 XOR\n2 1 2543 2493 2445 XOR\n2 1 2488 2507 2456 XOR\n2 1 34459 2456 2499 XOR\n2 1 2545 2499 2540 XOR\n2 1 2540 2541 2539 AND\n2 1 2539 2556 2451 XOR\n2 1 2539 2497 2452 XOR\n2 1 2543 2499 2542 XOR\n2 1 2542 2561 2521 AND\n",
"2 1 2542 2568 2512 AND\n2 1 2451 2553 2446 XOR\n2 1 2446 2447 2530 XOR\n2 1 2530 2562 2520 AND\n2 1 2530 2573 2511 AND\n2 1 2539 2547 2538 XOR\n2 1 2538 34454 2524 AND\n2 1 2538 2570 2515 AND\n2 1 2545 2539 2537 XOR\n2 1 2547 2537 2536 AND\n2 1 2536 2544 2534 XOR\n2 1 2542 2534 2533 AND\n2 1 2533 2502 2492 XOR\n2 1 2492 2494 2532 XOR\n2 1 2492 2445 2529 XOR\n2 1 2532 2567 2513 AND\n2 1 2521 2513 2477 XOR\n2 1 2533 2557 2450 XOR\n2 1 2529 2574 2514 AND\n2 1 2536 2554 2506 XOR\n2 1 34455 2506 2489 XOR\n2 1 2489 2452 2535 XOR\n2 1 2535 2566 2516 AND\n2 1 2535 2564 2525 AND\n2 1 2489 2450 2442 XOR\n2 1 2479 2442 2449 XOR\n2 1 2442 2443 2527 XOR\n2 1 2527 2575 2510 AND\n2 1 2510 2511 2504 XOR\n2 1 2477 2504 2473 XOR\n2 1 2516 2504 2486 XOR\n2 1 2527 2560 2519 AND\n2 1 2519 2520 2470 XOR\n2 1 2446 2449 2531 XOR\n2 1 2531 2563 2518 AND\n2 1 2514 2518 2490 XOR\n1 1 2490 2468 INV\n2 1 2468 2473 2472 XOR\n2 1 2531 2572 2509 AND\n2 1 2520 2509 2469 XOR\n1 1 2469 2465 INV\n2 1 2468 2512 2467 XOR\n2 1 2529 2559 2523 AND\n2 1 2523 2514 2475 XOR\n2 1 2532 2571 2522 AND\n2 1 2519 2522 2474 XOR\n2 1 2522 2523 2508 XOR\n2 1 2519 2508 2498 XOR\n2 1 2515 2498 2464 XOR\n1 1 2464 2461 INV\n2 1 2520 2498 2458 XOR\n2 1 2521 2522 2459 XOR\n1 1 2474 2471 INV\n2 1 2471 2472 2578 XOR\n1 1 2578 34583 INV\n2 1 34583 1070 36872 XOR\n2 1 2506 2500 2528 XOR\n2 1 2528 2569 2517 AND\n2 1 2528 2565 2526 AND\n2 1 2524 2526 2505 XOR\n2 1 2467 2505 2463 XOR\n2 1 2511 2463 2466 XOR\n2 1 2465 2466 2576 XOR\n2 1 2505 2473 2476 XOR\n2 1 2475 2476 2579 XOR\n1 1 2579 34582 INV\n2 1 34582 1071 36871 XOR\n2 1 2486 2463 2462 XOR\n2 1 2461 2462 34584 XOR\n2 1 34584 1069 36873 XOR\n1 1 2576 34587 INV\n2 1 34587 1066 36876 XOR\n2 1 2517 2486 2487 XOR\n2 1 2525 2487 2491 XOR\n2 1 2524 2491 2460 XOR\n2 1 2526 2491 2496 XOR\n2 1 2496 2470 2577 XOR\n2 1 2459 2460 34585 XOR\n2 1 34585 1068 36874 XOR\n2 1 2487 2458 34589 XOR\n2 1 34589 1064 36878 XOR\n2 1 2508 2496 34586 XOR\n2 1 34586 1067 36875 XOR\n1 1 2577 34588 INV\n2 1 34588 1065 36877 XOR\n2 1 34608 1141 36801 XOR\n2 1 34528 34530 3413 XOR\n2 1 3318 3413 3398 XOR\n2 1 3413 3398 3389 AND\n2 1 3389 3390 3293 XOR\n2 1 3389 3342 3336 XOR\n2 1 3392 3336 3292 XOR\n2 1 34527 3292 3379 XOR\n2 1 3293 3294 3340 XOR\n2 1 3340 3322 3339 XOR\n2 1 3392 3339 3386 XOR\n2 1 3389 3395 3341 XOR\n2 1 3341 3333 3384 XOR\n2 1 3341 3332 3387 XOR\n2 1 3387 3386 3383 AND\n2 1 3383 3385 3382 XOR\n2 1 3383 3338 3378 XOR\n2 1 3378 3379 3377 AND\n2 1 3377 3385 3376 XOR\n2 1 3376 3408 3353 AND\n2 1 3384 3382 3381 AND\n2 1 3381 3332 3284 XOR\n2 1 3381 3338 3380 XOR\n2 1 3380 3406 3350 AND\n2 1 3380 3399 3359 AND\n2 1 3381 3393 3287 XOR\n2 1 3287 3323 3283 XOR\n2 1 34531 3283 3282 XOR\n2 1 34533 3283 3286 XOR\n2 1 3377 3336 3291 XOR\n2 1 3377 3394 3290 XOR\n2 1 3290 3391 3285 XOR\n2 1 3285 3286 3368 XOR\n2 1 3368 3411 3349 AND\n2 1 3368 3400 3358 AND\n2 1 3383 3377 3375 XOR\n2 1 3385 3375 3374 AND\n2 1 3374 3382 3372 XOR\n2 1 3380 3372 3371 AND\n2 1 3371 3341 3331 XOR\n2 1 3331 3333 3370 XOR\n2 1 3370 3405 3351 AND\n2 1 3359 3351 3316 XOR\n",
"2 1 3371 3395 3289 XOR\n2 1 3331 3284 3367 XOR\n2 1 3367 3397 3361 AND\n2 1 3367 3412 3352 AND\n2 1 3374 3392 3345 XOR\n2 1 3345 3339 3366 XOR\n2 1 3366 3407 3355 AND\n2 1 34527 3345 3328 XOR\n2 1 3328 3289 3281 XOR\n2 1 3281 3282 3365 XOR\n2 1 3365 3398 3357 AND\n2 1 3328 3291 3373 XOR\n2 1 3373 3404 3354 AND\n2 1 3318 3281 3288 XOR\n2 1 3285 3288 3369 XOR\n2 1 3369 3410 3347 AND\n2 1 3358 3347 3308 XOR\n1 1 3308 3304 INV\n2 1 3357 3358 3309 XOR\n2 1 3373 3402 3363 AND\n2 1 3361 3352 3314 XOR\n2 1 3369 3401 3356 AND\n2 1 3352 3356 3329 XOR\n1 1 3329 3307 INV\n2 1 3307 3350 3306 XOR\n2 1 3366 3403 3364 AND\n2 1 3365 3413 3348 AND\n2 1 3348 3349 3343 XOR\n2 1 3316 3343 3312 XOR\n2 1 3354 3343 3325 XOR\n2 1 3355 3325 3326 XOR\n2 1 3363 3326 3330 XOR\n2 1 3364 3330 3335 XOR\n2 1 3335 3309 3415 XOR\n1 1 3415 34660 INV\n2 1 34660 1025 36917 XOR\n2 1 3370 3409 3360 AND\n2 1 3359 3360 3298 XOR\n2 1 3357 3360 3313 XOR\n1 1 3313 3310 INV\n2 1 3360 3361 32640 XOR\n2 1 32640 3335 34658 XOR\n2 1 34658 1027 36915 XOR\n2 1 3357 32640 3337 XOR\n2 1 3353 3337 3303 XOR\n2 1 3358 3337 3297 XOR\n2 1 3326 3297 34661 XOR\n1 1 3303 3300 INV\n2 1 34661 1024 36918 XOR\n2 1 3307 3312 3311 XOR\n2 1 3310 3311 3416 XOR\n1 1 3416 34655 INV\n2 1 34655 1030 36912 XOR\n2 1 3376 34526 3362 AND\n2 1 3362 3364 3344 XOR\n2 1 3344 3312 3315 XOR\n2 1 3306 3344 3302 XOR\n2 1 3325 3302 3301 XOR\n2 1 3362 3330 3299 XOR\n2 1 3298 3299 34657 XOR\n2 1 34657 1028 36914 XOR\n2 1 3314 3315 3417 XOR\n1 1 3417 34654 INV\n2 1 3349 3302 3305 XOR\n2 1 3304 3305 3414 XOR\n1 1 3414 34659 INV\n2 1 34659 1026 36916 XOR\n2 1 34654 1031 36911 XOR\n2 1 3300 3301 34656 XOR\n2 1 34656 1029 36913 XOR\n1 1 11620 33251 INV\n2 1 33251 36447 11436 XOR\n2 1 11435 11436 36361 XOR\n2 1 36361 1188 34497 XOR\n2 1 33251 32836 11441 XOR\n2 1 11440 11441 36359 XOR\n2 1 34497 34496 3014 XOR\n2 1 36359 1190 34495 XOR\n2 1 34501 34495 3133 XOR\n2 1 34495 34496 3055 XOR\n2 1 34495 34497 3037 XOR\n2 1 3055 3127 3125 XOR\n2 1 34495 3130 3126 XOR\n2 1 34496 3037 3039 XOR\n2 1 3044 3039 3120 XOR\n2 1 34499 3039 3118 XOR\n2 1 3133 3118 3114 AND\n2 1 3114 3038 3042 XOR\n2 1 3130 3126 3113 AND\n2 1 34500 3039 3121 XOR\n2 1 33251 36448 11433 XOR\n2 1 3127 3120 3112 AND\n2 1 11432 11433 36362 XOR\n2 1 36362 1187 34498 XOR\n2 1 34496 34498 3134 XOR\n2 1 34498 34500 3040 XOR\n2 1 3040 34499 2999 XOR\n2 1 3040 3038 3000 XOR\n2 1 34498 34501 3132 XOR\n2 1 3037 3132 3124 XOR\n2 1 3132 3055 3128 XOR\n2 1 3132 3121 3111 AND\n2 1 3111 3039 3041 XOR\n2 1 3124 3128 3117 AND\n2 1 3117 3040 3043 XOR\n2 1 3043 3041 3047 XOR\n2 1 34501 3047 3053 XOR\n2 1 3037 3000 3122 XOR\n2 1 3131 3122 3109 AND\n2 1 3109 3112 3063 XOR\n2 1 34494 3124 3123 XOR\n2 1 3125 3123 3116 AND\n2 1 3042 3063 3016 XOR\n2 1 3016 3041 3106 XOR\n2 1 3038 3134 3119 XOR\n2 1 3134 3119 3110 AND\n2 1 3110 3111 3013 XOR\n2 1 3013 3014 3061 XOR\n2 1 3061 3042 3060 XOR\n2 1 3113 3060 3107 XOR\n2 1 3110 3063 3057 XOR\n2 1 3113 3057 3012 XOR\n2 1 34495 3012 3100 XOR\n2 1 34494 2999 3129 XOR\n2 1 3129 34494 3115 AND\n2 1 3109 3115 3067 XOR\n2 1 3067 3038 3054 XOR\n2 1 3047 3067 3015 XOR\n",
"2 1 34499 3015 3059 XOR\n2 1 3110 3116 3062 XOR\n2 1 3062 3053 3108 XOR\n2 1 3108 3107 3104 AND\n2 1 3104 3106 3103 XOR\n2 1 3104 3059 3099 XOR\n2 1 3099 3100 3098 AND\n2 1 3098 3115 3010 XOR\n2 1 3010 3112 3005 XOR\n2 1 3098 3106 3097 XOR\n2 1 3097 3129 3074 AND\n2 1 3098 3057 3011 XOR\n2 1 3097 34494 3083 AND\n2 1 3104 3098 3096 XOR\n2 1 3106 3096 3095 AND\n2 1 3095 3103 3093 XOR\n2 1 3095 3113 3066 XOR\n2 1 3066 3060 3087 XOR\n2 1 3087 3124 3085 AND\n2 1 3087 3128 3076 AND\n2 1 3083 3085 3065 XOR\n2 1 34495 3066 3048 XOR\n2 1 3048 3011 3094 XOR\n2 1 3094 3125 3075 AND\n2 1 3094 3123 3084 AND\n2 1 3062 3054 3105 XOR\n2 1 3105 3103 3102 AND\n2 1 3102 3059 3101 XOR\n2 1 3101 3127 3071 AND\n2 1 3101 3093 3092 AND\n2 1 3092 3116 3009 XOR\n2 1 3092 3062 3052 XOR\n2 1 3052 3054 3091 XOR\n2 1 3091 3126 3072 AND\n2 1 3101 3120 3080 AND\n2 1 3080 3072 3036 XOR\n2 1 3048 3009 3001 XOR\n2 1 3091 3130 3081 AND\n2 1 3080 3081 3018 XOR\n2 1 3102 3053 3004 XOR\n2 1 3052 3004 3088 XOR\n2 1 3088 3118 3082 AND\n2 1 3088 3133 3073 AND\n2 1 3102 3114 3007 XOR\n2 1 3007 3043 3003 XOR\n2 1 34501 3003 3006 XOR\n2 1 34499 3003 3002 XOR\n2 1 3001 3002 3086 XOR\n2 1 3086 3119 3078 AND\n2 1 3078 3081 3033 XOR\n1 1 3033 3030 INV\n2 1 3005 3006 3089 XOR\n2 1 3089 3121 3079 AND\n2 1 3089 3132 3070 AND\n2 1 3078 3079 3029 XOR\n2 1 3038 3001 3008 XOR\n2 1 3005 3008 3090 XOR\n2 1 3090 3131 3068 AND\n2 1 3079 3068 3028 XOR\n2 1 3090 3122 3077 AND\n2 1 3073 3077 3049 XOR\n1 1 3049 3027 INV\n2 1 3027 3071 3026 XOR\n2 1 3081 3082 3050 XOR\n2 1 3078 3050 3058 XOR\n2 1 3079 3058 3017 XOR\n2 1 3074 3058 3023 XOR\n1 1 3023 3020 INV\n2 1 3026 3065 3022 XOR\n2 1 3070 3022 3025 XOR\n1 1 3028 3024 INV\n2 1 3024 3025 3135 XOR\n2 1 3086 3134 3069 AND\n2 1 3069 3070 3064 XOR\n2 1 3036 3064 3032 XOR\n2 1 3065 3032 3035 XOR\n2 1 3027 3032 3031 XOR\n2 1 3030 3031 3137 XOR\n1 1 3137 34623 INV\n2 1 34623 1062 36880 XOR\n2 1 3075 3064 3045 XOR\n2 1 3076 3045 3046 XOR\n2 1 3045 3022 3021 XOR\n2 1 3020 3021 34624 XOR\n2 1 34624 1061 36881 XOR\n2 1 3046 3017 34629 XOR\n2 1 34629 1056 36886 XOR\n2 1 3084 3046 3051 XOR\n2 1 3083 3051 3019 XOR\n2 1 3018 3019 34625 XOR\n2 1 34625 1060 36882 XOR\n1 1 3135 34627 INV\n2 1 34627 1058 36884 XOR\n2 1 3082 3073 3034 XOR\n2 1 3034 3035 3138 XOR\n1 1 3138 34622 INV\n2 1 34622 1063 36879 XOR\n2 1 3085 3051 3056 XOR\n2 1 3056 3029 3136 XOR\n2 1 3050 3056 34626 XOR\n2 1 34626 1059 36883 XOR\n1 1 3136 34628 INV\n2 1 34628 1057 36885 XOR\n1 1 11619 33252 INV\n2 1 33252 36464 11602 XOR\n2 1 11601 11602 36377 XOR\n2 1 33252 32829 11607 XOR\n2 1 11606 11607 11605 XOR\n2 1 33252 36455 11421 XOR\n2 1 11421 11422 11691 XOR\n2 1 11691 11635 36378 XOR\n2 1 36378 1171 34514 XOR\n2 1 34514 34517 32493 XOR\n1 1 11605 36375 INV\n2 1 36375 1174 34511 XOR\n2 1 34511 34512 32416 XOR\n2 1 32416 32488 32486 XOR\n2 1 32493 32416 32489 XOR\n2 1 34511 32491 32487 XOR\n2 1 32491 32487 32474 AND\n2 1 34512 34514 32495 XOR\n2 1 32400 32495 32480 XOR\n2 1 32495 32480 32471 AND\n2 1 36377 1172 34513 XOR\n2 1 34513 34512 32376 XOR\n2 1 34511 34513 32399 XOR\n2 1 32399 32493 32485 XOR\n2 1 34510 32485 32484 XOR\n",
"2 1 32485 32489 32478 AND\n2 1 34512 32399 32401 XOR\n2 1 34516 32401 32482 XOR\n2 1 32406 32401 32481 XOR\n2 1 32488 32481 32473 AND\n2 1 32493 32482 32472 AND\n2 1 32472 32401 32403 XOR\n2 1 34515 32401 32479 XOR\n2 1 32486 32484 32477 AND\n2 1 32471 32477 32423 XOR\n2 1 34517 34511 32494 XOR\n2 1 34514 34516 32402 XOR\n2 1 32402 34515 32361 XOR\n2 1 32402 32400 32362 XOR\n2 1 32399 32362 32483 XOR\n2 1 32492 32483 32470 AND\n2 1 34510 32361 32490 XOR\n2 1 32478 32402 32405 XOR\n2 1 32490 34510 32476 AND\n2 1 32470 32476 32428 XOR\n2 1 32428 32400 32415 XOR\n2 1 32423 32415 32466 XOR\n2 1 32405 32403 32409 XOR\n2 1 32409 32428 32377 XOR\n2 1 34515 32377 32420 XOR\n2 1 34517 32409 32414 XOR\n2 1 32423 32414 32469 XOR\n2 1 32494 32479 32475 AND\n2 1 32475 32400 32404 XOR\n2 1 32470 32473 32424 XOR\n2 1 32404 32424 32378 XOR\n2 1 32378 32403 32467 XOR\n2 1 32471 32424 32418 XOR\n2 1 32474 32418 32374 XOR\n2 1 34511 32374 32461 XOR\n2 1 32471 32472 32375 XOR\n2 1 32375 32376 32422 XOR\n2 1 32422 32404 32421 XOR\n2 1 32474 32421 32468 XOR\n2 1 32469 32468 32465 AND\n2 1 32465 32420 32460 XOR\n2 1 32465 32467 32464 XOR\n2 1 32466 32464 32463 AND\n2 1 32463 32420 32462 XOR\n2 1 32462 32481 32441 AND\n2 1 32462 32488 32432 AND\n2 1 32463 32475 32369 XOR\n2 1 32460 32461 32459 AND\n2 1 32465 32459 32457 XOR\n2 1 32459 32476 32372 XOR\n2 1 32372 32473 32367 XOR\n2 1 32467 32457 32456 AND\n2 1 32456 32464 32454 XOR\n2 1 32462 32454 32453 AND\n2 1 32453 32477 32371 XOR\n2 1 32453 32423 32413 XOR\n2 1 32456 32474 32427 XOR\n2 1 32427 32421 32448 XOR\n2 1 34511 32427 32410 XOR\n2 1 32410 32371 32363 XOR\n2 1 32459 32418 32373 XOR\n2 1 32448 32485 32446 AND\n2 1 32413 32415 32452 XOR\n2 1 32452 32487 32433 AND\n2 1 32441 32433 32398 XOR\n2 1 32448 32489 32437 AND\n2 1 32400 32363 32370 XOR\n2 1 32367 32370 32451 XOR\n2 1 32451 32483 32438 AND\n2 1 32452 32491 32442 AND\n2 1 32441 32442 32380 XOR\n2 1 32459 32467 32458 XOR\n2 1 32458 34510 32444 AND\n2 1 32444 32446 32426 XOR\n2 1 32369 32405 32365 XOR\n2 1 34515 32365 32364 XOR\n2 1 32363 32364 32447 XOR\n2 1 32447 32480 32439 AND\n2 1 32439 32442 32395 XOR\n2 1 32447 32495 32430 AND\n1 1 32395 32392 INV\n2 1 32410 32373 32455 XOR\n2 1 32455 32486 32436 AND\n2 1 32455 32484 32445 AND\n2 1 34517 32365 32368 XOR\n2 1 32367 32368 32450 XOR\n2 1 32450 32493 32431 AND\n2 1 32451 32492 32429 AND\n2 1 32450 32482 32440 AND\n2 1 32440 32429 32390 XOR\n1 1 32390 32386 INV\n2 1 32463 32414 32366 XOR\n2 1 32413 32366 32449 XOR\n2 1 32449 32494 32434 AND\n2 1 32449 32479 32443 AND\n2 1 32443 32434 32396 XOR\n2 1 32434 32438 32411 XOR\n1 1 32411 32389 INV\n2 1 32389 32432 32388 XOR\n2 1 32388 32426 32384 XOR\n2 1 32431 32384 32387 XOR\n2 1 32386 32387 32496 XOR\n1 1 32496 34643 INV\n2 1 34643 1106 36836 XOR\n2 1 32430 32431 32425 XOR\n2 1 32436 32425 32407 XOR\n2 1 32407 32384 32383 XOR\n2 1 32398 32425 32394 XOR\n2 1 32389 32394 32393 XOR\n2 1 32392 32393 32498 XOR\n2 1 32426 32394 32397 XOR\n2 1 32396 32397 32499 XOR\n1 1 32499 34638 INV\n2 1 34638 1111 36831 XOR\n2 1 32437 32407 32408 XOR\n2 1 32445 32408 32412 XOR\n2 1 32444 32412 32381 XOR\n2 1 32380 32381 34641 XOR\n2 1 34641 1108 36834 XOR\n2 1 32442 32443 32730 XOR\n2 1 32439 32730 32419 XOR\n2 1 32440 32419 32379 XOR\n2 1 32408 32379 34645 XOR\n2 1 32458 32490 32435 AND\n2 1 32435 32419 32385 XOR\n1 1 32385 32382 INV\n2 1 32382 32383 34640 XOR\n2 1 34640 1109 36833 XOR\n",
"2 1 32446 32412 32417 XOR\n2 1 32730 32417 34642 XOR\n2 1 34642 1107 36835 XOR\n2 1 32439 32440 32391 XOR\n2 1 32417 32391 32497 XOR\n2 1 34645 1104 36838 XOR\n1 1 32498 34639 INV\n2 1 34639 1110 36832 XOR\n1 1 32497 34644 INV\n2 1 34644 1105 36837 XOR\n1 1 11625 33253 INV\n2 1 33253 36417 11549 XOR\n2 1 11549 11550 36293 XOR\n2 1 36293 1256 34429 XOR\n2 1 34426 34429 2013 XOR\n2 1 1918 2013 2005 XOR\n2 1 34422 2005 2004 XOR\n2 1 2013 1936 2009 XOR\n2 1 2005 2009 1998 AND\n2 1 1998 1921 1924 XOR\n2 1 34427 34429 1919 XOR\n2 1 1919 1925 2008 XOR\n2 1 1921 1919 1881 XOR\n2 1 2008 2001 1993 AND\n2 1 1919 2015 2000 XOR\n2 1 2015 2000 1991 AND\n2 1 1936 2008 2006 XOR\n2 1 2006 2004 1997 AND\n2 1 2013 2002 1992 AND\n2 1 1991 1992 1894 XOR\n2 1 1894 1895 1942 XOR\n2 1 34429 34424 2012 XOR\n2 1 1992 1920 1922 XOR\n2 1 1924 1922 1928 XOR\n2 1 34429 1928 1934 XOR\n2 1 34429 34423 2014 XOR\n2 1 2014 1999 1995 AND\n2 1 1995 1919 1923 XOR\n2 1 1942 1923 1941 XOR\n2 1 1994 1941 1988 XOR\n2 1 33253 33110 11412 XOR\n2 1 11412 11413 11695 XOR\n2 1 11695 11687 36279 XOR\n2 1 36279 1270 34415 XOR\n2 1 34415 34416 1796 XOR\n2 1 1796 1868 1866 XOR\n2 1 34415 34417 1778 XOR\n2 1 34416 1778 1780 XOR\n2 1 34420 1780 1862 XOR\n2 1 34419 1780 1859 XOR\n2 1 34421 34415 1874 XOR\n2 1 1874 1859 1855 AND\n2 1 34415 1871 1867 XOR\n2 1 1871 1867 1854 AND\n2 1 1855 1779 1783 XOR\n2 1 1785 1780 1861 XOR\n2 1 1868 1861 1853 AND\n2 1 1918 1881 2003 XOR\n2 1 2012 2003 1990 AND\n2 1 1990 1993 1944 XOR\n2 1 1923 1944 1897 XOR\n2 1 1897 1922 1987 XOR\n2 1 1991 1944 1938 XOR\n2 1 1994 1938 1893 XOR\n2 1 34423 1893 1981 XOR\n2 1 1990 1996 1948 XOR\n2 1 1928 1948 1896 XOR\n2 1 1948 1919 1935 XOR\n2 1 34427 1896 1940 XOR\n2 1 33253 36400 11570 XOR\n2 1 11569 11570 36282 XOR\n2 1 36282 1267 34418 XOR\n2 1 34418 34420 1781 XOR\n2 1 1781 1779 1741 XOR\n2 1 1781 34419 1740 XOR\n2 1 34414 1740 1870 XOR\n2 1 1870 34414 1856 AND\n2 1 34416 34418 1875 XOR\n2 1 1779 1875 1860 XOR\n2 1 1875 1860 1851 AND\n2 1 34418 34421 1873 XOR\n2 1 1873 1796 1869 XOR\n2 1 1778 1873 1865 XOR\n2 1 34414 1865 1864 XOR\n2 1 1865 1869 1858 AND\n2 1 1866 1864 1857 AND\n2 1 1851 1857 1803 XOR\n2 1 1873 1862 1852 AND\n2 1 1852 1780 1782 XOR\n2 1 1851 1852 1754 XOR\n2 1 1754 1755 1802 XOR\n2 1 1858 1781 1784 XOR\n2 1 1784 1782 1788 XOR\n2 1 34421 1788 1794 XOR\n2 1 1803 1794 1849 XOR\n2 1 1802 1783 1801 XOR\n2 1 1854 1801 1848 XOR\n2 1 1849 1848 1845 AND\n2 1 1991 1997 1943 XOR\n2 1 1943 1935 1986 XOR\n2 1 1943 1934 1989 XOR\n2 1 1989 1988 1985 AND\n2 1 1985 1987 1984 XOR\n2 1 1986 1984 1983 AND\n2 1 1983 1934 1885 XOR\n2 1 1983 1995 1888 XOR\n2 1 1888 1924 1884 XOR\n2 1 34429 1884 1887 XOR\n2 1 34427 1884 1883 XOR\n2 1 1983 1940 1982 XOR\n2 1 1985 1940 1980 XOR\n2 1 1982 2008 1952 AND\n2 1 1982 2001 1961 AND\n2 1 1980 1981 1979 AND\n2 1 1979 1938 1892 XOR\n2 1 1979 1987 1978 XOR\n2 1 1979 1996 1891 XOR\n2 1 1891 1993 1886 XOR\n2 1 1886 1887 1970 XOR\n2 1 1970 2002 1960 AND\n2 1 1970 2013 1951 AND\n2 1 1985 1979 1977 XOR\n2 1 1987 1977 1976 AND\n2 1 1976 1994 1947 XOR\n2 1 34423 1947 1929 XOR\n2 1 1929 1892 1975 XOR\n2 1 1975 2004 1965 AND\n2 1 1947 1941 1968 XOR\n",
"2 1 1968 2009 1957 AND\n2 1 1978 2010 1955 AND\n2 1 1978 34422 1964 AND\n2 1 1975 2006 1956 AND\n2 1 1976 1984 1974 XOR\n2 1 1982 1974 1973 AND\n2 1 1973 1997 1890 XOR\n2 1 1929 1890 1882 XOR\n2 1 1882 1883 1967 XOR\n2 1 1967 2015 1950 AND\n2 1 1967 2000 1959 AND\n2 1 1950 1951 1945 XOR\n2 1 1956 1945 1926 XOR\n2 1 1957 1926 1927 XOR\n2 1 1959 1960 1910 XOR\n2 1 1965 1927 1932 XOR\n2 1 1964 1932 1900 XOR\n2 1 1919 1882 1889 XOR\n2 1 1886 1889 1971 XOR\n2 1 1971 2003 1958 AND\n2 1 1971 2012 1949 AND\n2 1 1960 1949 1909 XOR\n1 1 1909 1905 INV\n2 1 1968 2005 1966 AND\n2 1 1966 1932 1937 XOR\n2 1 1937 1910 2017 XOR\n1 1 2017 34556 INV\n2 1 34556 1097 36845 XOR\n2 1 1964 1966 1946 XOR\n2 1 1973 1943 1933 XOR\n2 1 1933 1885 1969 XOR\n2 1 1969 1999 1963 AND\n2 1 1933 1935 1972 XOR\n2 1 1972 2007 1953 AND\n2 1 1961 1953 1917 XOR\n2 1 1972 2011 1962 AND\n2 1 1962 1963 1931 XOR\n2 1 1931 1937 34554 XOR\n2 1 1959 1931 1939 XOR\n2 1 1955 1939 1904 XOR\n2 1 1959 1962 1914 XOR\n2 1 1960 1939 1898 XOR\n2 1 34554 1099 36843 XOR\n2 1 1961 1962 1899 XOR\n2 1 1927 1898 34557 XOR\n2 1 1917 1945 1913 XOR\n2 1 1946 1913 1916 XOR\n1 1 1914 1911 INV\n2 1 1899 1900 34553 XOR\n2 1 34553 1100 36842 XOR\n1 1 1904 1901 INV\n2 1 34557 1096 36846 XOR\n2 1 1969 2014 1954 AND\n2 1 1963 1954 1915 XOR\n2 1 1954 1958 1930 XOR\n1 1 1930 1908 INV\n2 1 1908 1913 1912 XOR\n2 1 1908 1952 1907 XOR\n2 1 1907 1946 1903 XOR\n2 1 1951 1903 1906 XOR\n2 1 1926 1903 1902 XOR\n2 1 1901 1902 34552 XOR\n2 1 1905 1906 2016 XOR\n1 1 2016 34555 INV\n2 1 1911 1912 2018 XOR\n1 1 2018 34551 INV\n2 1 34551 1102 36840 XOR\n2 1 34555 1098 36844 XOR\n2 1 1915 1916 2019 XOR\n1 1 2019 34550 INV\n2 1 34550 1103 36839 XOR\n2 1 34552 1101 36841 XOR\n2 1 1778 1741 1863 XOR\n2 1 1872 1863 1850 AND\n2 1 1850 1856 1808 XOR\n2 1 1808 1779 1795 XOR\n2 1 1788 1808 1756 XOR\n2 1 1850 1853 1804 XOR\n2 1 1851 1804 1798 XOR\n2 1 1854 1798 1753 XOR\n2 1 34415 1753 1841 XOR\n2 1 1803 1795 1846 XOR\n2 1 1783 1804 1757 XOR\n2 1 1757 1782 1847 XOR\n2 1 1845 1847 1844 XOR\n2 1 1846 1844 1843 AND\n2 1 1843 1794 1745 XOR\n2 1 34419 1756 1800 XOR\n2 1 1845 1800 1840 XOR\n2 1 1843 1800 1842 XOR\n2 1 1842 1868 1812 AND\n2 1 1840 1841 1839 AND\n2 1 1839 1798 1752 XOR\n2 1 1839 1856 1751 XOR\n2 1 1751 1853 1746 XOR\n2 1 1845 1839 1837 XOR\n2 1 1847 1837 1836 AND\n2 1 1839 1847 1838 XOR\n2 1 1838 34414 1824 AND\n2 1 1838 1870 1815 AND\n2 1 1836 1854 1807 XOR\n2 1 1807 1801 1828 XOR\n2 1 1828 1865 1826 AND\n2 1 1824 1826 1806 XOR\n2 1 34415 1807 1789 XOR\n2 1 1789 1752 1835 XOR\n2 1 1835 1864 1825 AND\n2 1 1835 1866 1816 AND\n2 1 1828 1869 1817 AND\n2 1 1842 1861 1821 AND\n2 1 1836 1844 1834 XOR\n2 1 1842 1834 1833 AND\n2 1 1833 1857 1750 XOR\n2 1 1789 1750 1742 XOR\n2 1 1833 1803 1793 XOR\n2 1 1793 1795 1832 XOR\n2 1 1832 1867 1813 AND\n2 1 1821 1813 1777 XOR\n2 1 1779 1742 1749 XOR\n2 1 1746 1749 1831 XOR\n2 1 1831 1863 1818 AND\n2 1 1832 1871 1822 AND\n2 1 1821 1822 1759 XOR\n2 1 1831 1872 1809 AND\n2 1 1843 1855 1748 XOR\n2 1 1748 1784 1744 XOR\n2 1 34421 1744 1747 XOR\n2 1 1746 1747 1830 XOR\n",
"2 1 1830 1873 1811 AND\n2 1 1830 1862 1820 AND\n2 1 1820 1809 1769 XOR\n1 1 1769 1765 INV\n2 1 34419 1744 1743 XOR\n2 1 1742 1743 1827 XOR\n2 1 1827 1860 1819 AND\n2 1 1827 1875 1810 AND\n2 1 1810 1811 1805 XOR\n2 1 1777 1805 1773 XOR\n2 1 1806 1773 1776 XOR\n2 1 1819 1822 1774 XOR\n1 1 1774 1771 INV\n2 1 1819 1820 1770 XOR\n2 1 1816 1805 1786 XOR\n2 1 1817 1786 1787 XOR\n2 1 1825 1787 1792 XOR\n2 1 1826 1792 1797 XOR\n2 1 1824 1792 1760 XOR\n2 1 1759 1760 34545 XOR\n2 1 34545 1076 36866 XOR\n2 1 1797 1770 1877 XOR\n1 1 1877 34548 INV\n2 1 34548 1073 36869 XOR\n2 1 1793 1745 1829 XOR\n2 1 1829 1859 1823 AND\n2 1 1822 1823 1791 XOR\n2 1 1819 1791 1799 XOR\n2 1 1815 1799 1764 XOR\n2 1 1820 1799 1758 XOR\n1 1 1764 1761 INV\n2 1 1829 1874 1814 AND\n2 1 1814 1818 1790 XOR\n2 1 1823 1814 1775 XOR\n2 1 1775 1776 1879 XOR\n1 1 1879 34542 INV\n2 1 1787 1758 34549 XOR\n2 1 34549 1072 36870 XOR\n2 1 34542 1079 36863 XOR\n2 1 1791 1797 34546 XOR\n2 1 34546 1075 36867 XOR\n1 1 1790 1768 INV\n2 1 1768 1812 1767 XOR\n2 1 1767 1806 1763 XOR\n2 1 1811 1763 1766 XOR\n2 1 1786 1763 1762 XOR\n2 1 1761 1762 34544 XOR\n2 1 34544 1077 36865 XOR\n2 1 1765 1766 1876 XOR\n1 1 1876 34547 INV\n2 1 34547 1074 36868 XOR\n2 1 1768 1773 1772 XOR\n2 1 1771 1772 1878 XOR\n1 1 1878 34543 INV\n2 1 34543 1078 36864 XOR\n"]

end Verif.Data
