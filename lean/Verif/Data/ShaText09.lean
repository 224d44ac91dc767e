/-!
# Text of `data/circ/sha256.txt`, part 10 of 11

Generated by `tools/gen_circuits.py`.
-/

namespace Verif.Data

/-- Lines 110597-122884 of `data/circ/sha256.txt`, 128 per string. -/
def shaBlocks09 : List String := [
"2 1 63442 1411 63410 AND\n2 1 63410 1475 98105 XOR\n2 1 1411 1443 63378 XOR\n2 1 1091 103648 9583 XOR\n2 1 9583 9584 9582 AND\n2 1 9582 103648 103649 XOR\n2 1 90005 103649 9587 XOR\n2 1 103680 103649 1412 XOR\n2 1 1092 103649 9586 XOR\n2 1 63443 1412 63411 AND\n2 1 63411 1476 98106 XOR\n2 1 1412 1444 63379 XOR\n2 1 9586 9587 9585 AND\n2 1 9585 103649 103650 XOR\n2 1 1093 103650 9589 XOR\n2 1 90006 103650 9590 XOR\n2 1 9589 9590 9588 AND\n2 1 9588 103650 103651 XOR\n2 1 1094 103651 9592 XOR\n2 1 90007 103651 9593 XOR\n2 1 9592 9593 9591 AND\n2 1 9591 103651 103652 XOR\n2 1 103683 103652 1415 XOR\n2 1 103682 103651 1414 XOR\n2 1 63446 1415 63414 AND\n2 1 63445 1414 63413 AND\n2 1 63414 1479 98109 XOR\n2 1 63413 1478 98108 XOR\n2 1 1415 1447 63382 XOR\n2 1 1414 1446 63381 XOR\n2 1 103681 103650 1413 XOR\n2 1 63444 1413 63412 AND\n2 1 63412 1477 98107 XOR\n2 1 1413 1445 63380 XOR\n2 1 1095 103652 9595 XOR\n2 1 90008 103652 9596 XOR\n2 1 9595 9596 9594 AND\n2 1 9594 103652 103653 XOR\n2 1 1096 103653 9598 XOR\n2 1 103684 103653 1416 XOR\n2 1 63447 1416 63415 AND\n2 1 63415 1480 98110 XOR\n2 1 1416 1448 63383 XOR\n2 1 90009 103653 9599 XOR\n2 1 9598 9599 9597 AND\n2 1 9597 103653 103654 XOR\n2 1 1097 103654 9601 XOR\n2 1 1411 1416 61132 XOR\n2 1 1410 1415 61131 XOR\n2 1 1409 1414 61130 XOR\n2 1 1408 1413 61129 XOR\n2 1 50666 128276 128277 XOR\n2 1 77722 128277 50671 XOR\n2 1 79258 128277 50670 XOR\n2 1 128308 128277 75930 XOR\n2 1 75930 1545 112932 XOR\n2 1 112932 112901 94047 XOR\n2 1 75930 112901 23996 XOR\n2 1 23996 23997 23995 AND\n2 1 23995 112901 112902 XOR\n2 1 1546 112902 24000 XOR\n2 1 96095 94047 112870 XOR\n2 1 94047 112839 23907 XOR\n2 1 23906 23907 23905 AND\n2 1 23905 112839 112840 XOR\n2 1 96096 112840 23909 XOR\n2 1 75928 75930 80743 XOR\n2 1 80743 76103 128073 XOR\n2 1 112870 112839 92046 XOR\n2 1 92046 112818 23812 XOR\n2 1 23812 23813 23811 AND\n1 1 92046 23869 INV\n2 1 23869 112818 90010 XOR\n2 1 90010 83866 103747 XOR\n2 1 103747 103716 969 XOR\n2 1 969 1033 69688 XOR\n2 1 69688 69656 69624 AND\n2 1 69624 1033 85882 XOR\n2 1 969 1001 69560 XOR\n2 1 23811 112818 23815 XOR\n2 1 90010 103716 9691 XOR\n2 1 9691 9692 9690 AND\n2 1 9690 103716 103717 XOR\n2 1 83867 103717 9695 XOR\n2 1 90010 103654 9602 XOR\n2 1 9601 9602 9600 AND\n2 1 9600 103654 103655 XOR\n2 1 1098 103655 9604 XOR\n2 1 50670 50671 50669 AND\n2 1 50669 128277 128278 XOR\n2 1 128309 128278 75931 XOR\n2 1 75931 1546 112933 XOR\n2 1 77723 128278 50674 XOR\n2 1 112933 112902 94048 XOR\n2 1 75931 112902 23999 XOR\n2 1 23999 24000 23998 AND\n2 1 23998 112902 112903 XOR\n2 1 1547 112903 24003 XOR\n2 1 79259 128278 50673 XOR\n2 1 50673 50674 50672 AND\n2 1 50672 128278 128279 XOR\n2 1 128310 128279 75932 XOR\n2 1 75932 1547 112934 XOR\n2 1 112934 112903 94049 XOR\n2 1 79260 128279 50676 XOR\n2 1 77724 128279 50677 XOR\n2 1 50676 50677 50675 AND\n2 1 94048 112840 23910 XOR\n2 1 75932 112903 24002 XOR\n2 1 24002 24003 24001 AND\n2 1 96097 94049 112872 XOR\n2 1 50675 128279 128280 XOR\n2 1 79261 128280 50679 XOR\n2 1 77725 128280 50680 XOR\n2 1 50679 50680 50678 AND\n2 1 50678 128280 128281 XOR\n2 1 128312 128281 75934 XOR\n2 1 75934 1549 112936 XOR\n2 1 79262 128281 50682 XOR\n2 1 128311 128280 75933 XOR\n2 1 75933 1548 112935 XOR\n2 1 24001 112903 112904 XOR\n2 1 75933 112904 24005 XOR\n2 1 112935 112904 94050 XOR\n2 1 1548 112904 24006 XOR\n2 1 24005 24006 24004 AND\n2 1 24004 112904 112905 XOR\n2 1 112936 112905 94051 XOR\n",
"2 1 96099 94051 112874 XOR\n2 1 1549 112905 24009 XOR\n2 1 96098 94050 112873 XOR\n2 1 75934 112905 24008 XOR\n2 1 24008 24009 24007 AND\n2 1 24007 112905 112906 XOR\n2 1 1550 112906 24012 XOR\n2 1 77726 128281 50683 XOR\n2 1 50682 50683 50681 AND\n2 1 50681 128281 128282 XOR\n2 1 128313 128282 75935 XOR\n2 1 75935 1550 112937 XOR\n2 1 75935 112906 24011 XOR\n2 1 24011 24012 24010 AND\n2 1 24010 112906 112907 XOR\n2 1 1551 112907 24015 XOR\n2 1 112937 112906 94052 XOR\n2 1 96100 94052 112875 XOR\n2 1 79263 128282 50685 XOR\n2 1 77727 128282 50686 XOR\n2 1 50685 50686 50684 AND\n2 1 50684 128282 128283 XOR\n2 1 77728 128283 50689 XOR\n2 1 128314 128283 75936 XOR\n2 1 75936 1551 112938 XOR\n2 1 112938 112907 94053 XOR\n2 1 75936 112907 24014 XOR\n2 1 24014 24015 24013 AND\n2 1 24013 112907 112908 XOR\n2 1 1552 112908 24018 XOR\n2 1 96101 94053 112876 XOR\n2 1 79264 128283 50688 XOR\n2 1 50688 50689 50687 AND\n2 1 50687 128283 128284 XOR\n2 1 128315 128284 75937 XOR\n2 1 75937 1552 112939 XOR\n2 1 112939 112908 94054 XOR\n2 1 96102 94054 112877 XOR\n2 1 75937 112908 24017 XOR\n2 1 24017 24018 24016 AND\n2 1 24016 112908 112909 XOR\n2 1 1553 112909 24021 XOR\n2 1 77729 128284 50692 XOR\n2 1 79265 128284 50691 XOR\n2 1 50691 50692 50690 AND\n2 1 50690 128284 128285 XOR\n2 1 79266 128285 50694 XOR\n2 1 77730 128285 50695 XOR\n2 1 50694 50695 50693 AND\n2 1 50693 128285 128286 XOR\n2 1 77731 128286 50698 XOR\n2 1 128316 128285 75938 XOR\n2 1 75938 112909 24020 XOR\n2 1 24020 24021 24019 AND\n2 1 24019 112909 112910 XOR\n2 1 75938 1553 112940 XOR\n2 1 112940 112909 94055 XOR\n2 1 96103 94055 112878 XOR\n2 1 128317 128286 75939 XOR\n2 1 75939 1554 112941 XOR\n2 1 75939 112910 24023 XOR\n2 1 79267 128286 50697 XOR\n2 1 50697 50698 50696 AND\n2 1 50696 128286 128287 XOR\n2 1 79268 128287 50700 XOR\n2 1 128318 128287 75940 XOR\n2 1 75940 1555 112942 XOR\n2 1 77732 128287 50701 XOR\n2 1 50700 50701 50699 AND\n2 1 50699 128287 128288 XOR\n2 1 79269 128288 50703 XOR\n2 1 77733 128288 50704 XOR\n2 1 50703 50704 50702 AND\n2 1 50702 128288 128289 XOR\n2 1 77734 128289 50707 XOR\n2 1 79270 128289 50706 XOR\n2 1 50706 50707 50705 AND\n2 1 50705 128289 128290 XOR\n2 1 128321 128290 75943 XOR\n2 1 75943 1558 112945 XOR\n2 1 128319 128288 75941 XOR\n2 1 75941 1556 112943 XOR\n2 1 79271 128290 50709 XOR\n2 1 77735 128290 50710 XOR\n2 1 50709 50710 50708 AND\n2 1 50708 128290 128291 XOR\n2 1 79272 128291 50712 XOR\n2 1 128320 128289 75942 XOR\n2 1 75942 1557 112944 XOR\n2 1 128322 128291 75944 XOR\n2 1 75944 1559 112946 XOR\n2 1 1554 112910 24024 XOR\n2 1 24023 24024 24022 AND\n2 1 24022 112910 112911 XOR\n2 1 75940 112911 24026 XOR\n2 1 112942 112911 94057 XOR\n2 1 1555 112911 24027 XOR\n2 1 24026 24027 24025 AND\n2 1 96105 94057 112880 XOR\n2 1 24025 112911 112912 XOR\n2 1 75941 112912 24029 XOR\n2 1 112943 112912 94058 XOR\n2 1 96106 94058 112881 XOR\n2 1 1556 112912 24030 XOR\n2 1 24029 24030 24028 AND\n2 1 24028 112912 112913 XOR\n2 1 112944 112913 94059 XOR\n2 1 96107 94059 112882 XOR\n2 1 1557 112913 24033 XOR\n2 1 75942 112913 24032 XOR\n2 1 24032 24033 24031 AND\n2 1 24031 112913 112914 XOR\n2 1 112945 112914 94060 XOR\n2 1 96108 94060 112883 XOR\n2 1 75943 112914 24035 XOR\n2 1 77736 128291 50713 XOR\n2 1 50712 50713 50711 AND\n2 1 50711 128291 128292 XOR\n2 1 79273 128292 50715 XOR\n2 1 77737 128292 50716 XOR\n2 1 50715 50716 50714 AND\n2 1 128323 128292 75945 XOR\n2 1 75945 1560 112947 XOR\n2 1 50714 128292 128293 XOR\n2 1 128324 128293 75946 XOR\n2 1 79274 128293 50718 XOR\n2 1 77738 128293 50719 XOR\n2 1 50718 50719 50717 AND\n",
"2 1 75946 1561 112948 XOR\n2 1 50717 128293 128294 XOR\n2 1 128325 128294 75947 XOR\n2 1 75947 1562 112949 XOR\n2 1 77739 128294 50722 XOR\n2 1 79275 128294 50721 XOR\n2 1 50721 50722 50720 AND\n2 1 50720 128294 128295 XOR\n2 1 79276 128295 50724 XOR\n2 1 128326 128295 75948 XOR\n2 1 75948 1563 112950 XOR\n2 1 77740 128295 50725 XOR\n2 1 50724 50725 50723 AND\n2 1 50723 128295 128296 XOR\n2 1 77741 128296 50728 XOR\n2 1 79277 128296 50727 XOR\n2 1 128327 128296 75949 XOR\n2 1 75949 1564 112951 XOR\n2 1 50727 50728 50726 AND\n2 1 50726 128296 128297 XOR\n2 1 128328 128297 75950 XOR\n2 1 75950 1565 112952 XOR\n2 1 77742 128297 50731 XOR\n2 1 79278 128297 50730 XOR\n2 1 50730 50731 50729 AND\n2 1 50729 128297 128298 XOR\n2 1 128329 128298 75951 XOR\n2 1 75951 1566 112953 XOR\n2 1 79279 128298 50733 XOR\n2 1 77743 128298 50734 XOR\n2 1 50733 50734 50732 AND\n2 1 50732 128298 128299 XOR\n2 1 128330 128299 75952 XOR\n2 1 75952 1567 112954 XOR\n2 1 75937 75939 80752 XOR\n2 1 80752 76112 128082 XOR\n2 1 75936 75938 80751 XOR\n2 1 80751 76111 128081 XOR\n2 1 75935 75937 80750 XOR\n2 1 80750 76110 128080 XOR\n2 1 75934 75936 80749 XOR\n2 1 80749 76109 128079 XOR\n2 1 75933 75935 80748 XOR\n2 1 80748 76108 128078 XOR\n2 1 75932 75934 80747 XOR\n2 1 80747 76107 128077 XOR\n2 1 75931 75933 80746 XOR\n2 1 80746 76106 128076 XOR\n2 1 75930 75932 80745 XOR\n2 1 80745 76105 128075 XOR\n2 1 75929 75931 80744 XOR\n2 1 80744 76104 128074 XOR\n2 1 75952 75922 6302 XOR\n2 1 75951 75921 6301 XOR\n2 1 75950 75952 6300 XOR\n2 1 75949 75951 6299 XOR\n2 1 75948 75950 6298 XOR\n2 1 75947 75949 6297 XOR\n2 1 75946 75948 6296 XOR\n2 1 75945 75947 6295 XOR\n2 1 75944 75946 6294 XOR\n2 1 75943 75945 6293 XOR\n2 1 75942 75944 6292 XOR\n2 1 75941 75943 6291 XOR\n2 1 75940 75942 6290 XOR\n2 1 75939 75941 6289 XOR\n2 1 75938 75940 6288 XOR\n2 1 6309 75952 80742 XOR\n2 1 80742 76102 128072 XOR\n2 1 6308 75951 80741 XOR\n2 1 80741 76101 128071 XOR\n2 1 6307 75950 80740 XOR\n2 1 80740 76100 128070 XOR\n2 1 6306 75949 80739 XOR\n2 1 80739 76099 128069 XOR\n2 1 6305 75948 80738 XOR\n2 1 80738 76098 128068 XOR\n2 1 6304 75947 80737 XOR\n2 1 80737 76097 128067 XOR\n2 1 6303 75946 80736 XOR\n2 1 80736 76096 128066 XOR\n2 1 6302 75945 80735 XOR\n2 1 80735 76095 128065 XOR\n2 1 6301 75944 80734 XOR\n2 1 80734 76094 128064 XOR\n2 1 6300 75943 80733 XOR\n2 1 80733 76093 128063 XOR\n2 1 6299 75942 80732 XOR\n2 1 80732 76092 128062 XOR\n2 1 6298 75941 80731 XOR\n2 1 80731 76091 128061 XOR\n2 1 6297 75940 80730 XOR\n2 1 80730 76090 128060 XOR\n2 1 6296 75939 80729 XOR\n2 1 80729 76089 128059 XOR\n2 1 6295 75938 80728 XOR\n2 1 80728 76088 128058 XOR\n2 1 6294 75937 80727 XOR\n2 1 6293 75936 80726 XOR\n2 1 80726 76086 128056 XOR\n2 1 6292 75935 80725 XOR\n2 1 80725 76085 128055 XOR\n2 1 6291 75934 80724 XOR\n2 1 80724 76084 128054 XOR\n2 1 6290 75933 80723 XOR\n2 1 80723 76083 128053 XOR\n2 1 6289 75932 80722 XOR\n2 1 80722 76082 128052 XOR\n2 1 6288 75931 80721 XOR\n2 1 80721 76081 128021 AND\n2 1 128052 128021 79186 XOR\n2 1 76082 128021 50287 XOR\n2 1 80721 76081 79185 XOR\n2 1 80722 128021 50286 XOR\n2 1 50286 50287 50285 AND\n2 1 50285 128021 128022 XOR\n2 1 80723 128022 50289 XOR\n2 1 76083 128022 50290 XOR\n2 1 50289 50290 50288 AND\n2 1 50288 128022 128023 XOR\n2 1 80724 128023 50292 XOR\n2 1 128054 128023 79188 XOR\n2 1 128053 128022 79187 XOR\n2 1 76084 128023 50293 XOR\n2 1 50292 50293 50291 AND\n2 1 50291 128023 128024 XOR\n2 1 128055 128024 79189 XOR\n2 1 80725 128024 50295 XOR\n",
"2 1 76085 128024 50296 XOR\n2 1 50295 50296 50294 AND\n2 1 50294 128024 128025 XOR\n2 1 76086 128025 50299 XOR\n2 1 128056 128025 79190 XOR\n2 1 80726 128025 50298 XOR\n2 1 50298 50299 50297 AND\n2 1 50297 128025 128026 XOR\n2 1 76087 128026 50302 XOR\n2 1 80727 128026 50301 XOR\n2 1 50301 50302 50300 AND\n2 1 50300 128026 128027 XOR\n2 1 128058 128027 79192 XOR\n2 1 76088 128027 50305 XOR\n2 1 80728 128027 50304 XOR\n2 1 50304 50305 50303 AND\n2 1 50303 128027 128028 XOR\n2 1 128059 128028 79193 XOR\n2 1 76089 128028 50308 XOR\n2 1 80729 128028 50307 XOR\n2 1 50307 50308 50306 AND\n2 1 50306 128028 128029 XOR\n2 1 128060 128029 79194 XOR\n2 1 76090 128029 50311 XOR\n2 1 80730 128029 50310 XOR\n2 1 50310 50311 50309 AND\n2 1 50309 128029 128030 XOR\n2 1 128061 128030 79195 XOR\n2 1 80731 128030 50313 XOR\n2 1 76091 128030 50314 XOR\n2 1 50313 50314 50312 AND\n2 1 50312 128030 128031 XOR\n2 1 80732 128031 50316 XOR\n2 1 76092 128031 50317 XOR\n2 1 50316 50317 50315 AND\n2 1 128062 128031 79196 XOR\n2 1 50315 128031 128032 XOR\n2 1 128063 128032 79197 XOR\n2 1 80733 128032 50319 XOR\n2 1 76093 128032 50320 XOR\n2 1 50319 50320 50318 AND\n2 1 50318 128032 128033 XOR\n2 1 80734 128033 50322 XOR\n2 1 76094 128033 50323 XOR\n2 1 50322 50323 50321 AND\n2 1 50321 128033 128034 XOR\n2 1 128065 128034 79199 XOR\n2 1 128064 128033 79198 XOR\n2 1 80735 128034 50325 XOR\n2 1 112941 112910 94056 XOR\n2 1 96104 94056 112879 XOR\n2 1 96096 94048 112871 XOR\n2 1 112871 112840 92047 XOR\n2 1 92047 23815 90011 XOR\n2 1 90011 103717 9694 XOR\n2 1 90011 83867 103748 XOR\n2 1 103748 103717 970 XOR\n2 1 970 1002 69561 XOR\n2 1 970 1034 69689 XOR\n2 1 69689 69657 69625 AND\n2 1 69625 1034 85883 XOR\n2 1 90011 23815 23814 AND\n2 1 23814 23815 112819 XOR\n1 1 112819 23818 INV\n2 1 9694 9695 9693 AND\n2 1 9693 103717 103718 XOR\n2 1 83868 103718 9698 XOR\n2 1 1098 90011 103686 XOR\n2 1 103686 103655 1418 XOR\n2 1 63449 1418 63417 AND\n2 1 63417 1482 98112 XOR\n2 1 1418 1450 63385 XOR\n2 1 1413 1418 61134 XOR\n2 1 90011 103655 9605 XOR\n2 1 9604 9605 9603 AND\n2 1 9603 103655 103656 XOR\n2 1 1099 103656 9607 XOR\n2 1 23909 23910 23908 AND\n2 1 23908 112840 112841 XOR\n2 1 94049 112841 23913 XOR\n2 1 112872 112841 92048 XOR\n2 1 96097 112841 23912 XOR\n2 1 23912 23913 23911 AND\n2 1 23911 112841 112842 XOR\n2 1 112873 112842 92049 XOR\n2 1 94050 112842 23916 XOR\n2 1 96098 112842 23915 XOR\n2 1 23915 23916 23914 AND\n2 1 23914 112842 112843 XOR\n2 1 96099 112843 23918 XOR\n2 1 112874 112843 92050 XOR\n2 1 94051 112843 23919 XOR\n2 1 23918 23919 23917 AND\n2 1 23917 112843 112844 XOR\n2 1 96100 112844 23921 XOR\n2 1 112875 112844 92051 XOR\n2 1 92048 112819 23817 XOR\n2 1 23817 23818 23816 AND\n1 1 92048 23870 INV\n1 1 92050 23871 INV\n2 1 23816 112819 23820 XOR\n2 1 92049 23820 90013 XOR\n2 1 1100 90013 103688 XOR\n2 1 90013 83869 103750 XOR\n2 1 90013 23820 23819 AND\n2 1 23819 23820 112820 XOR\n2 1 23871 112820 90014 XOR\n2 1 90014 83870 103751 XOR\n2 1 92050 112820 23822 XOR\n1 1 112820 23823 INV\n2 1 23822 23823 23821 AND\n2 1 23821 112820 23825 XOR\n2 1 92051 23825 90015 XOR\n2 1 90015 83871 103752 XOR\n2 1 1102 90015 103690 XOR\n2 1 90015 23825 23824 AND\n2 1 23824 23825 112821 XOR\n1 1 112821 23828 INV\n2 1 1101 90014 103689 XOR\n2 1 23870 112819 90012 XOR\n2 1 90012 103656 9608 XOR\n2 1 90012 103718 9697 XOR\n2 1 90012 83868 103749 XOR\n2 1 1099 90012 103687 XOR\n2 1 103687 103656 1419 XOR\n2 1 63450 1419 63418 AND\n2 1 63418 1483 98113 XOR\n2 1 1419 1451 63386 XOR\n",
"2 1 9607 9608 9606 AND\n2 1 9606 103656 103657 XOR\n2 1 90013 103657 9611 XOR\n2 1 1100 103657 9610 XOR\n2 1 9610 9611 9609 AND\n2 1 103688 103657 1420 XOR\n2 1 63451 1420 63419 AND\n2 1 63419 1484 98114 XOR\n2 1 1420 1452 63387 XOR\n2 1 9609 103657 103658 XOR\n2 1 1101 103658 9613 XOR\n2 1 103689 103658 1421 XOR\n2 1 90014 103658 9614 XOR\n2 1 63452 1421 63420 AND\n2 1 63420 1485 98115 XOR\n2 1 1421 1453 63388 XOR\n2 1 9613 9614 9612 AND\n2 1 9612 103658 103659 XOR\n2 1 90015 103659 9617 XOR\n2 1 103690 103659 1422 XOR\n2 1 63453 1422 63421 AND\n2 1 63421 1486 98116 XOR\n2 1 1422 1454 63389 XOR\n2 1 1102 103659 9616 XOR\n2 1 9616 9617 9615 AND\n2 1 9615 103659 103660 XOR\n2 1 1103 103660 9619 XOR\n2 1 9697 9698 9696 AND\n2 1 9696 103718 103719 XOR\n2 1 103750 103719 972 XOR\n2 1 972 1036 69691 XOR\n2 1 69691 69659 69627 AND\n2 1 69627 1036 85885 XOR\n2 1 972 1004 69563 XOR\n2 1 90013 103719 9700 XOR\n2 1 961 972 67054 XOR\n2 1 83869 103719 9701 XOR\n2 1 9700 9701 9699 AND\n2 1 9699 103719 103720 XOR\n2 1 1416 1421 61105 XOR\n2 1 1415 1420 61104 XOR\n2 1 1414 1419 61103 XOR\n2 1 103749 103718 971 XOR\n2 1 971 1035 69690 XOR\n2 1 69690 69658 69626 AND\n2 1 69626 1035 85884 XOR\n2 1 971 1003 69562 XOR\n2 1 960 971 67053 XOR\n2 1 83870 103720 9704 XOR\n2 1 90014 103720 9703 XOR\n2 1 9703 9704 9702 AND\n2 1 103751 103720 973 XOR\n2 1 973 1037 69692 XOR\n2 1 69692 69660 69628 AND\n2 1 69628 1037 85886 XOR\n2 1 973 1005 69564 XOR\n2 1 962 973 67023 XOR\n2 1 94052 112844 23922 XOR\n2 1 23921 23922 23920 AND\n2 1 80727 76087 128057 XOR\n2 1 128057 128026 79191 XOR\n2 1 76095 128034 50326 XOR\n2 1 50325 50326 50324 AND\n2 1 50324 128034 128035 XOR\n2 1 80736 128035 50328 XOR\n2 1 128066 128035 79200 XOR\n2 1 76096 128035 50329 XOR\n2 1 50328 50329 50327 AND\n2 1 50327 128035 128036 XOR\n2 1 128067 128036 79201 XOR\n2 1 76097 128036 50332 XOR\n2 1 80737 128036 50331 XOR\n2 1 50331 50332 50330 AND\n2 1 50330 128036 128037 XOR\n2 1 76098 128037 50335 XOR\n2 1 128068 128037 79202 XOR\n2 1 80738 128037 50334 XOR\n2 1 50334 50335 50333 AND\n2 1 50333 128037 128038 XOR\n2 1 128069 128038 79203 XOR\n2 1 80739 128038 50337 XOR\n2 1 76099 128038 50338 XOR\n2 1 50337 50338 50336 AND\n2 1 50336 128038 128039 XOR\n2 1 76100 128039 50341 XOR\n2 1 80740 128039 50340 XOR\n2 1 50340 50341 50339 AND\n2 1 50339 128039 128040 XOR\n2 1 76101 128040 50344 XOR\n2 1 128071 128040 79205 XOR\n2 1 128070 128039 79204 XOR\n2 1 80741 128040 50343 XOR\n2 1 50343 50344 50342 AND\n2 1 50342 128040 128041 XOR\n2 1 80742 128041 50346 XOR\n2 1 128072 128041 79206 XOR\n2 1 76102 128041 50347 XOR\n2 1 50346 50347 50345 AND\n2 1 50345 128041 128042 XOR\n2 1 128073 128042 79207 XOR\n2 1 76103 128042 50350 XOR\n2 1 80743 128042 50349 XOR\n2 1 50349 50350 50348 AND\n2 1 50348 128042 128043 XOR\n2 1 80744 128043 50352 XOR\n2 1 128074 128043 79208 XOR\n2 1 76104 128043 50353 XOR\n2 1 50352 50353 50351 AND\n2 1 50351 128043 128044 XOR\n2 1 76105 128044 50356 XOR\n2 1 128075 128044 79209 XOR\n2 1 80745 128044 50355 XOR\n2 1 50355 50356 50354 AND\n2 1 50354 128044 128045 XOR\n2 1 128076 128045 79210 XOR\n2 1 80746 128045 50358 XOR\n2 1 76106 128045 50359 XOR\n2 1 50358 50359 50357 AND\n2 1 50357 128045 128046 XOR\n2 1 128077 128046 79211 XOR\n2 1 80747 128046 50361 XOR\n2 1 76107 128046 50362 XOR\n2 1 50361 50362 50360 AND\n2 1 50360 128046 128047 XOR\n2 1 128078 128047 79212 XOR\n2 1 80748 128047 50364 XOR\n2 1 76108 128047 50365 XOR\n2 1 50364 50365 50363 AND\n",
"2 1 50363 128047 128048 XOR\n2 1 128079 128048 79213 XOR\n2 1 80749 128048 50367 XOR\n2 1 76109 128048 50368 XOR\n2 1 50367 50368 50366 AND\n2 1 50366 128048 128049 XOR\n2 1 128080 128049 79214 XOR\n2 1 80750 128049 50370 XOR\n2 1 76110 128049 50371 XOR\n2 1 50370 50371 50369 AND\n2 1 50369 128049 128050 XOR\n2 1 128081 128050 79215 XOR\n2 1 76111 128050 50374 XOR\n2 1 80751 128050 50373 XOR\n2 1 50373 50374 50372 AND\n2 1 50372 128050 128051 XOR\n2 1 128082 128051 79216 XOR\n2 1 9702 103720 103721 XOR\n2 1 103752 103721 974 XOR\n2 1 974 1038 69693 XOR\n2 1 69693 69661 69629 AND\n2 1 69629 1038 85887 XOR\n2 1 974 1006 69565 XOR\n2 1 963 974 67024 XOR\n2 1 90015 103721 9706 XOR\n2 1 83871 103721 9707 XOR\n2 1 9706 9707 9705 AND\n2 1 9705 103721 103722 XOR\n2 1 83872 103722 9710 XOR\n2 1 23920 112844 112845 XOR\n2 1 96101 112845 23924 XOR\n2 1 94053 112845 23925 XOR\n2 1 23924 23925 23923 AND\n2 1 23923 112845 112846 XOR\n2 1 94054 112846 23928 XOR\n2 1 96102 112846 23927 XOR\n2 1 23927 23928 23926 AND\n2 1 112877 112846 92053 XOR\n2 1 23926 112846 112847 XOR\n2 1 112878 112847 92054 XOR\n2 1 94055 112847 23931 XOR\n2 1 112876 112845 92052 XOR\n2 1 92052 112821 23827 XOR\n2 1 23827 23828 23826 AND\n2 1 23826 112821 23830 XOR\n1 1 92052 23872 INV\n2 1 23872 112821 90016 XOR\n2 1 1103 90016 103691 XOR\n2 1 90016 83872 103753 XOR\n2 1 103753 103722 975 XOR\n2 1 975 1039 69694 XOR\n2 1 69694 69662 69630 AND\n2 1 69630 1039 85888 XOR\n2 1 975 1007 69566 XOR\n2 1 964 975 67025 XOR\n2 1 92053 23830 90017 XOR\n2 1 90017 23830 23829 AND\n2 1 23829 23830 23832 XOR\n2 1 103691 103660 1423 XOR\n2 1 63454 1423 63422 AND\n2 1 63422 1487 98117 XOR\n2 1 1423 1455 63390 XOR\n2 1 92054 23832 90018 XOR\n2 1 90018 23832 23831 AND\n2 1 23831 23832 23834 XOR\n2 1 90018 83874 103755 XOR\n2 1 1105 90018 103693 XOR\n2 1 90017 83873 103754 XOR\n2 1 90016 103722 9709 XOR\n2 1 9709 9710 9708 AND\n2 1 9708 103722 103723 XOR\n2 1 103754 103723 976 XOR\n2 1 976 1040 69695 XOR\n2 1 69695 69663 69631 AND\n2 1 69631 1040 85889 XOR\n2 1 976 1008 69567 XOR\n2 1 965 976 67026 XOR\n2 1 90017 103723 9712 XOR\n2 1 83873 103723 9713 XOR\n2 1 9712 9713 9711 AND\n2 1 9711 103723 103724 XOR\n2 1 103755 103724 977 XOR\n2 1 90018 103724 9715 XOR\n2 1 977 1041 69696 XOR\n2 1 69696 69664 69632 AND\n2 1 69632 1041 85890 XOR\n2 1 977 1009 69568 XOR\n2 1 83874 103724 9716 XOR\n2 1 966 977 67027 XOR\n2 1 90016 103660 9620 XOR\n2 1 9619 9620 9618 AND\n2 1 9618 103660 103661 XOR\n2 1 90017 103661 9623 XOR\n2 1 1104 103661 9622 XOR\n2 1 9622 9623 9621 AND\n2 1 9715 9716 9714 AND\n2 1 9714 103724 103725 XOR\n2 1 83875 103725 9719 XOR\n2 1 1418 1423 61107 XOR\n2 1 1104 90017 103692 XOR\n2 1 103692 103661 1424 XOR\n2 1 63455 1424 63423 AND\n2 1 63423 1488 98118 XOR\n2 1 1424 1456 63391 XOR\n2 1 1419 1424 61108 XOR\n2 1 9621 103661 103662 XOR\n2 1 90018 103662 9626 XOR\n2 1 103693 103662 1425 XOR\n2 1 1105 103662 9625 XOR\n2 1 9625 9626 9624 AND\n2 1 63456 1425 63424 AND\n2 1 63424 1489 98119 XOR\n2 1 1425 1457 63392 XOR\n2 1 9624 103662 103663 XOR\n2 1 1106 103663 9628 XOR\n2 1 1420 1425 61109 XOR\n2 1 96103 112847 23930 XOR\n2 1 23930 23931 23929 AND\n2 1 23929 112847 112848 XOR\n2 1 112879 112848 92055 XOR\n2 1 96104 112848 23933 XOR\n2 1 92055 23834 90019 XOR\n2 1 90019 103663 9629 XOR\n2 1 9628 9629 9627 AND\n2 1 9627 103663 103664 XOR\n2 1 1107 103664 9631 XOR\n2 1 90019 103725 9718 XOR\n2 1 9718 9719 9717 AND\n",
"2 1 9717 103725 103726 XOR\n2 1 83876 103726 9722 XOR\n2 1 1106 90019 103694 XOR\n2 1 103694 103663 1426 XOR\n2 1 63457 1426 63425 AND\n2 1 63425 1490 98120 XOR\n2 1 1426 1458 63393 XOR\n2 1 90019 83875 103756 XOR\n2 1 103756 103725 978 XOR\n2 1 978 1042 69697 XOR\n2 1 69697 69665 69633 AND\n2 1 69633 1042 85891 XOR\n2 1 978 1010 69569 XOR\n2 1 967 978 67028 XOR\n2 1 90019 23834 23833 AND\n2 1 23833 23834 112822 XOR\n1 1 112822 23837 INV\n2 1 1421 1426 61110 XOR\n2 1 61110 1408 100157 XOR\n2 1 100157 98109 112729 XOR\n2 1 94056 112848 23934 XOR\n2 1 23933 23934 23932 AND\n2 1 23932 112848 112849 XOR\n2 1 96105 112849 23936 XOR\n2 1 94057 112849 23937 XOR\n2 1 23936 23937 23935 AND\n2 1 23935 112849 112850 XOR\n2 1 96106 112850 23939 XOR\n2 1 112880 112849 92056 XOR\n1 1 92056 23873 INV\n2 1 23873 112822 90020 XOR\n2 1 90020 103726 9721 XOR\n2 1 90020 103664 9632 XOR\n2 1 9631 9632 9630 AND\n2 1 9630 103664 103665 XOR\n2 1 1107 90020 103695 XOR\n2 1 103695 103664 1427 XOR\n2 1 63458 1427 63426 AND\n2 1 63426 1491 98121 XOR\n2 1 1427 1459 63394 XOR\n2 1 92056 112822 23836 XOR\n2 1 23836 23837 23835 AND\n2 1 23835 112822 112823 XOR\n1 1 112823 23840 INV\n2 1 1108 103665 9634 XOR\n2 1 1422 1427 61111 XOR\n2 1 61129 1427 100176 XOR\n2 1 61111 1409 100158 XOR\n2 1 94058 112850 23940 XOR\n2 1 23939 23940 23938 AND\n2 1 23938 112850 112851 XOR\n2 1 96107 112851 23942 XOR\n2 1 94059 112851 23943 XOR\n2 1 23942 23943 23941 AND\n2 1 23941 112851 112852 XOR\n2 1 112883 112852 92059 XOR\n1 1 92059 23875 INV\n2 1 96108 112852 23945 XOR\n2 1 94060 112852 23946 XOR\n2 1 23945 23946 23944 AND\n2 1 23944 112852 112853 XOR\n2 1 96109 112853 23948 XOR\n2 1 100158 98110 112730 XOR\n2 1 9721 9722 9720 AND\n2 1 9720 103726 103727 XOR\n2 1 83877 103727 9725 XOR\n2 1 112882 112851 92058 XOR\n2 1 90020 83876 103757 XOR\n2 1 103757 103726 979 XOR\n2 1 979 1043 69698 XOR\n2 1 69698 69666 69634 AND\n2 1 69634 1043 85892 XOR\n2 1 979 1011 69570 XOR\n2 1 968 979 67029 XOR\n2 1 112881 112850 92057 XOR\n1 1 92057 23874 INV\n2 1 23874 112823 90021 XOR\n2 1 90021 83877 103758 XOR\n2 1 90021 103665 9635 XOR\n2 1 9634 9635 9633 AND\n2 1 9633 103665 103666 XOR\n2 1 92057 112823 23839 XOR\n2 1 23839 23840 23838 AND\n2 1 23838 112823 23842 XOR\n2 1 92058 23842 90022 XOR\n2 1 90022 83878 103759 XOR\n2 1 1109 90022 103697 XOR\n2 1 103697 103666 1429 XOR\n2 1 63460 1429 63428 AND\n2 1 63428 1493 98123 XOR\n2 1 1429 1461 63396 XOR\n2 1 90022 103666 9638 XOR\n2 1 1109 103666 9637 XOR\n2 1 9637 9638 9636 AND\n2 1 9636 103666 103667 XOR\n2 1 1110 103667 9640 XOR\n2 1 90021 103727 9724 XOR\n2 1 9724 9725 9723 AND\n2 1 1424 1429 61113 XOR\n2 1 61131 1429 100178 XOR\n2 1 61113 1411 100160 XOR\n2 1 100160 98112 112732 XOR\n2 1 9723 103727 103728 XOR\n2 1 103759 103728 981 XOR\n2 1 981 1045 69700 XOR\n2 1 69700 69668 69636 AND\n2 1 69636 1045 85894 XOR\n2 1 981 1013 69572 XOR\n2 1 981 960 67042 XOR\n2 1 970 981 67031 XOR\n2 1 67054 981 87952 XOR\n2 1 67042 969 87940 XOR\n2 1 87940 85892 112555 XOR\n2 1 90022 103728 9727 XOR\n2 1 90022 23842 23841 AND\n2 1 23841 23842 112824 XOR\n1 1 112824 23845 INV\n2 1 92059 112824 23844 XOR\n2 1 23844 23845 23843 AND\n2 1 23843 112824 112825 XOR\n1 1 112825 23848 INV\n2 1 23875 112824 90023 XOR\n2 1 90023 103667 9641 XOR\n2 1 90023 83879 103760 XOR\n2 1 1110 90023 103698 XOR\n2 1 103698 103667 1430 XOR\n2 1 63461 1430 63429 AND\n2 1 63429 1494 98124 XOR\n",
"2 1 1430 1462 63397 XOR\n2 1 9640 9641 9639 AND\n2 1 9639 103667 103668 XOR\n2 1 1111 103668 9643 XOR\n2 1 1425 1430 61114 XOR\n2 1 61132 1430 100179 XOR\n2 1 61114 1412 100161 XOR\n2 1 100161 98113 112733 XOR\n2 1 1108 90021 103696 XOR\n2 1 103696 103665 1428 XOR\n2 1 63459 1428 63427 AND\n2 1 63427 1492 98122 XOR\n2 1 1428 1460 63395 XOR\n2 1 1423 1428 61112 XOR\n2 1 61130 1428 100177 XOR\n2 1 61112 1410 100159 XOR\n2 1 83878 103728 9728 XOR\n2 1 9727 9728 9726 AND\n2 1 9726 103728 103729 XOR\n2 1 90023 103729 9730 XOR\n2 1 103760 103729 982 XOR\n2 1 982 1046 69701 XOR\n2 1 69701 69669 69637 AND\n2 1 69637 1046 85895 XOR\n2 1 982 1014 69573 XOR\n2 1 982 961 67043 XOR\n2 1 971 982 67032 XOR\n2 1 67043 970 87941 XOR\n2 1 67023 982 87921 XOR\n2 1 87921 85873 112506 AND\n2 1 85874 112506 23238 XOR\n2 1 87921 85873 83825 XOR\n2 1 83879 103729 9731 XOR\n2 1 9730 9731 9729 AND\n2 1 9729 103729 103730 XOR\n2 1 83880 103730 9734 XOR\n2 1 103758 103727 980 XOR\n2 1 980 1044 69699 XOR\n2 1 69699 69667 69635 AND\n2 1 69635 1044 85893 XOR\n2 1 980 1012 69571 XOR\n2 1 969 980 67030 XOR\n2 1 67053 980 87951 XOR\n2 1 87941 85893 112556 XOR\n2 1 1097 90010 103685 XOR\n2 1 103685 103654 1417 XOR\n2 1 63448 1417 63416 AND\n2 1 63416 1481 98111 XOR\n2 1 100159 98111 112731 XOR\n2 1 1417 1449 63384 XOR\n2 1 1412 1417 61133 XOR\n2 1 1417 1422 61106 XOR\n2 1 1558 112914 24036 XOR\n2 1 24035 24036 24034 AND\n2 1 24034 112914 112915 XOR\n2 1 112946 112915 94061 XOR\n2 1 96109 94061 112884 XOR\n2 1 94061 112853 23949 XOR\n2 1 112884 112853 92060 XOR\n2 1 92060 112825 23847 XOR\n2 1 23847 23848 23846 AND\n2 1 23948 23949 23947 AND\n2 1 23947 112853 112854 XOR\n2 1 96110 112854 23951 XOR\n1 1 92060 23876 INV\n2 1 23846 112825 23850 XOR\n2 1 75944 112915 24038 XOR\n2 1 1559 112915 24039 XOR\n2 1 24038 24039 24037 AND\n2 1 24037 112915 112916 XOR\n2 1 75945 112916 24041 XOR\n2 1 1560 112916 24042 XOR\n2 1 112947 112916 94062 XOR\n2 1 94062 112854 23952 XOR\n2 1 23951 23952 23950 AND\n2 1 23950 112854 112855 XOR\n2 1 96110 94062 112885 XOR\n2 1 112885 112854 92061 XOR\n2 1 92061 23850 90025 XOR\n2 1 90025 23850 23849 AND\n2 1 23849 23850 112826 XOR\n1 1 112826 23853 INV\n2 1 24041 24042 24040 AND\n2 1 24040 112916 112917 XOR\n2 1 112948 112917 94063 XOR\n2 1 96111 94063 112886 XOR\n2 1 112886 112855 92062 XOR\n1 1 92062 23877 INV\n2 1 23877 112826 90026 XOR\n2 1 1113 90026 103701 XOR\n2 1 90026 83882 103763 XOR\n2 1 75946 112917 24044 XOR\n2 1 92062 112826 23852 XOR\n2 1 23852 23853 23851 AND\n2 1 23851 112826 112827 XOR\n1 1 112827 23856 INV\n2 1 90025 83881 103762 XOR\n2 1 96111 112855 23954 XOR\n2 1 94063 112855 23955 XOR\n2 1 23954 23955 23953 AND\n2 1 23953 112855 112856 XOR\n2 1 96112 112856 23957 XOR\n2 1 1112 90025 103700 XOR\n2 1 23876 112825 90024 XOR\n2 1 90024 103730 9733 XOR\n2 1 90024 83880 103761 XOR\n2 1 103761 103730 983 XOR\n2 1 983 1047 69702 XOR\n2 1 69702 69670 69638 AND\n2 1 69638 1047 85896 XOR\n2 1 983 1015 69574 XOR\n2 1 983 962 67044 XOR\n2 1 972 983 67033 XOR\n2 1 67044 971 87942 XOR\n2 1 87942 85894 112557 XOR\n2 1 67033 960 87931 XOR\n2 1 67024 983 87922 XOR\n2 1 87922 112506 23237 XOR\n2 1 23237 23238 23236 AND\n2 1 23236 112506 112507 XOR\n2 1 87922 85874 112537 XOR\n2 1 9733 9734 9732 AND\n2 1 1111 90024 103699 XOR\n2 1 90024 103668 9644 XOR\n2 1 9643 9644 9642 AND\n2 1 103699 103668 1431 XOR\n2 1 63462 1431 63430 AND\n2 1 63430 1495 98125 XOR\n",
"2 1 1431 1463 63398 XOR\n2 1 9732 103730 103731 XOR\n2 1 83881 103731 9737 XOR\n2 1 103762 103731 984 XOR\n2 1 984 1048 69703 XOR\n2 1 69703 69671 69639 AND\n2 1 69639 1048 85897 XOR\n2 1 984 1016 69575 XOR\n2 1 984 963 67045 XOR\n2 1 973 984 67034 XOR\n2 1 67045 972 87943 XOR\n2 1 67034 961 87932 XOR\n2 1 67025 984 87923 XOR\n2 1 87923 85875 112538 XOR\n2 1 87943 85895 112558 XOR\n2 1 112538 112507 83827 XOR\n2 1 90025 103731 9736 XOR\n2 1 9736 9737 9735 AND\n2 1 9735 103731 103732 XOR\n2 1 83882 103732 9740 XOR\n2 1 103763 103732 985 XOR\n2 1 985 1049 69704 XOR\n2 1 69704 69672 69640 AND\n2 1 69640 1049 85898 XOR\n2 1 985 1017 69576 XOR\n2 1 985 964 67046 XOR\n2 1 974 985 67035 XOR\n2 1 67046 973 87944 XOR\n2 1 67035 962 87933 XOR\n2 1 87933 85885 112548 XOR\n2 1 67026 985 87924 XOR\n2 1 90026 103732 9739 XOR\n2 1 9739 9740 9738 AND\n2 1 9738 103732 103733 XOR\n2 1 112537 112506 83826 XOR\n2 1 87944 85896 112559 XOR\n2 1 85875 112507 23241 XOR\n2 1 1426 1431 61115 XOR\n2 1 61133 1431 100180 XOR\n2 1 61115 1413 100162 XOR\n2 1 100162 98114 112734 XOR\n2 1 87931 85883 112546 XOR\n2 1 9642 103668 103669 XOR\n2 1 103700 103669 1432 XOR\n2 1 1112 103669 9646 XOR\n2 1 63463 1432 63431 AND\n2 1 63431 1496 98126 XOR\n2 1 1432 1464 63399 XOR\n2 1 1427 1432 61116 XOR\n2 1 61134 1432 100181 XOR\n2 1 61116 1414 100163 XOR\n2 1 100163 98115 112735 XOR\n2 1 87924 85876 112539 XOR\n2 1 87932 85884 112547 XOR\n2 1 90025 103669 9647 XOR\n2 1 9646 9647 9645 AND\n2 1 9645 103669 103670 XOR\n2 1 103701 103670 1433 XOR\n2 1 1113 103670 9649 XOR\n2 1 63464 1433 63432 AND\n2 1 63432 1497 98127 XOR\n2 1 1433 1465 63400 XOR\n2 1 90026 103670 9650 XOR\n2 1 9649 9650 9648 AND\n2 1 1428 1433 61117 XOR\n2 1 61117 1415 100164 XOR\n2 1 100164 98116 112736 XOR\n2 1 61103 1433 100150 XOR\n2 1 100150 98102 96054 XOR\n2 1 100150 98102 112692 AND\n2 1 98103 112692 23618 XOR\n2 1 9648 103670 103671 XOR\n2 1 1114 103671 9652 XOR\n2 1 87923 112507 23240 XOR\n2 1 23240 23241 23239 AND\n2 1 23239 112507 112508 XOR\n2 1 85876 112508 23244 XOR\n2 1 87924 112508 23243 XOR\n2 1 23243 23244 23242 AND\n2 1 112539 112508 83828 XOR\n2 1 23242 112508 112509 XOR\n2 1 85877 112509 23247 XOR\n2 1 1561 112917 24045 XOR\n2 1 24044 24045 24043 AND\n2 1 24043 112917 112918 XOR\n2 1 1562 112918 24048 XOR\n2 1 75947 112918 24047 XOR\n2 1 24047 24048 24046 AND\n2 1 112949 112918 94064 XOR\n2 1 96112 94064 112887 XOR\n2 1 112887 112856 92063 XOR\n1 1 92063 23878 INV\n2 1 23878 112827 90027 XOR\n2 1 90027 103671 9653 XOR\n2 1 9652 9653 9651 AND\n2 1 9651 103671 103672 XOR\n2 1 90027 103733 9742 XOR\n2 1 1114 90027 103702 XOR\n2 1 103702 103671 1434 XOR\n2 1 63465 1434 63433 AND\n2 1 63433 1498 98128 XOR\n2 1 100176 98128 112748 XOR\n2 1 1434 1466 63401 XOR\n2 1 92063 112827 23855 XOR\n2 1 23855 23856 23854 AND\n2 1 23854 112827 112828 XOR\n1 1 112828 23859 INV\n2 1 1115 103672 9655 XOR\n2 1 90027 83883 103764 XOR\n2 1 103764 103733 986 XOR\n2 1 986 1050 69705 XOR\n2 1 69705 69673 69641 AND\n2 1 69641 1050 85899 XOR\n2 1 986 1018 69577 XOR\n2 1 986 965 67047 XOR\n2 1 975 986 67036 XOR\n2 1 67047 974 87945 XOR\n2 1 87945 85897 112560 XOR\n2 1 67036 963 87934 XOR\n2 1 87934 85886 112549 XOR\n2 1 67027 986 87925 XOR\n2 1 87925 112509 23246 XOR\n2 1 87925 85877 112540 XOR\n2 1 112540 112509 83829 XOR\n2 1 23246 23247 23245 AND\n2 1 23245 112509 112510 XOR\n2 1 85878 112510 23250 XOR\n2 1 94064 112856 23958 XOR\n",
"2 1 23957 23958 23956 AND\n2 1 23956 112856 112857 XOR\n2 1 96113 112857 23960 XOR\n2 1 1429 1434 61118 XOR\n2 1 61118 1416 100165 XOR\n2 1 100165 98117 112737 XOR\n2 1 61104 1434 100151 XOR\n2 1 100151 98103 112723 XOR\n2 1 112723 112692 96055 XOR\n2 1 100151 112692 23617 XOR\n2 1 24046 112918 112919 XOR\n2 1 75948 112919 24050 XOR\n2 1 112950 112919 94065 XOR\n2 1 94065 112857 23961 XOR\n2 1 23960 23961 23959 AND\n2 1 96113 94065 112888 XOR\n2 1 1563 112919 24051 XOR\n2 1 24050 24051 24049 AND\n2 1 24049 112919 112920 XOR\n2 1 75949 112920 24053 XOR\n2 1 112951 112920 94066 XOR\n2 1 96114 94066 112889 XOR\n2 1 112888 112857 92064 XOR\n1 1 92064 23879 INV\n2 1 92064 112828 23858 XOR\n2 1 23858 23859 23857 AND\n2 1 23857 112828 23861 XOR\n2 1 23879 112828 90028 XOR\n2 1 90028 103672 9656 XOR\n2 1 9655 9656 9654 AND\n2 1 9654 103672 103673 XOR\n2 1 1115 90028 103703 XOR\n2 1 103703 103672 1435 XOR\n2 1 1116 103673 9658 XOR\n2 1 63466 1435 63434 AND\n2 1 63434 1499 98129 XOR\n2 1 100177 98129 112749 XOR\n2 1 1435 1467 63402 XOR\n2 1 23959 112857 112858 XOR\n2 1 96114 112858 23963 XOR\n2 1 94066 112858 23964 XOR\n2 1 112889 112858 92065 XOR\n2 1 92065 23861 90029 XOR\n2 1 90029 23861 23860 AND\n2 1 23860 23861 23863 XOR\n2 1 90029 103673 9659 XOR\n2 1 1116 90029 103704 XOR\n2 1 103704 103673 1436 XOR\n2 1 90029 83885 103766 XOR\n2 1 63467 1436 63435 AND\n2 1 63435 1500 98130 XOR\n2 1 100178 98130 112750 XOR\n2 1 1436 1468 63403 XOR\n2 1 1436 1409 61125 XOR\n2 1 1435 1408 61124 XOR\n2 1 1431 1436 61120 XOR\n2 1 1430 1435 61119 XOR\n2 1 61125 1423 100172 XOR\n2 1 100172 98124 112744 XOR\n2 1 61124 1422 100171 XOR\n2 1 100171 98123 112743 XOR\n2 1 61120 1418 100167 XOR\n2 1 100167 98119 112739 XOR\n2 1 61119 1417 100166 XOR\n2 1 100166 98118 112738 XOR\n2 1 1564 112920 24054 XOR\n2 1 24053 24054 24052 AND\n2 1 24052 112920 112921 XOR\n2 1 112952 112921 94067 XOR\n2 1 75950 112921 24056 XOR\n2 1 96115 94067 112890 XOR\n2 1 1565 112921 24057 XOR\n2 1 24056 24057 24055 AND\n2 1 24055 112921 112922 XOR\n2 1 112953 112922 94068 XOR\n2 1 96116 94068 112891 XOR\n2 1 61106 1436 100153 XOR\n2 1 100153 98105 112725 XOR\n2 1 61105 1435 100152 XOR\n2 1 100152 98104 112724 XOR\n2 1 1566 112922 24060 XOR\n2 1 23963 23964 23962 AND\n2 1 23962 112858 112859 XOR\n2 1 112890 112859 92066 XOR\n2 1 92066 23863 90030 XOR\n2 1 90030 23863 23862 AND\n2 1 1117 90030 103705 XOR\n2 1 90030 83886 103767 XOR\n2 1 23862 23863 112829 XOR\n1 1 112829 23866 INV\n2 1 96115 112859 23966 XOR\n2 1 94067 112859 23967 XOR\n2 1 23966 23967 23965 AND\n2 1 23965 112859 112860 XOR\n2 1 96116 112860 23969 XOR\n2 1 94068 112860 23970 XOR\n2 1 23969 23970 23968 AND\n2 1 112891 112860 92067 XOR\n1 1 92067 23880 INV\n2 1 23880 112829 90031 XOR\n2 1 90031 83887 103768 XOR\n2 1 92067 112829 23865 XOR\n2 1 1118 90031 103706 XOR\n2 1 23968 112860 112861 XOR\n2 1 23865 23866 23864 AND\n2 1 23864 112829 112830 XOR\n2 1 23617 23618 23616 AND\n2 1 23616 112692 112693 XOR\n2 1 100152 112693 23620 XOR\n2 1 112724 112693 96056 XOR\n2 1 98104 112693 23621 XOR\n2 1 23620 23621 23619 AND\n2 1 23619 112693 112694 XOR\n2 1 98105 112694 23624 XOR\n2 1 112725 112694 96057 XOR\n2 1 100153 112694 23623 XOR\n2 1 23623 23624 23622 AND\n2 1 23622 112694 112695 XOR\n2 1 98106 112695 23627 XOR\n2 1 9658 9659 9657 AND\n2 1 9657 103673 103674 XOR\n2 1 1117 103674 9661 XOR\n2 1 103705 103674 1437 XOR\n2 1 63468 1437 63436 AND\n2 1 63436 1501 98131 XOR\n2 1 1437 1469 63404 XOR\n2 1 100179 98131 112751 XOR\n2 1 90030 103674 9662 XOR\n",
"2 1 9661 9662 9660 AND\n2 1 9660 103674 103675 XOR\n2 1 90031 103675 9665 XOR\n2 1 1118 103675 9664 XOR\n2 1 9664 9665 9663 AND\n2 1 9663 103675 103676 XOR\n2 1 103706 103675 1438 XOR\n2 1 63469 1438 63437 AND\n2 1 63437 1502 98132 XOR\n2 1 100180 98132 112752 XOR\n2 1 1438 1470 63405 XOR\n2 1 1438 1411 61127 XOR\n2 1 1437 1410 61126 XOR\n2 1 1433 1438 61122 XOR\n2 1 1432 1437 61121 XOR\n2 1 61127 1425 100174 XOR\n2 1 100174 98126 112746 XOR\n2 1 61126 1424 100173 XOR\n2 1 100173 98125 112745 XOR\n2 1 61122 1420 100169 XOR\n2 1 61121 1419 100168 XOR\n2 1 100168 98120 112740 XOR\n2 1 61108 1438 100155 XOR\n2 1 100155 98107 112727 XOR\n2 1 61107 1437 100154 XOR\n2 1 100154 112695 23626 XOR\n2 1 23626 23627 23625 AND\n2 1 23625 112695 112696 XOR\n2 1 98107 112696 23630 XOR\n2 1 100155 112696 23629 XOR\n2 1 112727 112696 96059 XOR\n2 1 23629 23630 23628 AND\n2 1 23628 112696 112697 XOR\n2 1 98108 112697 23633 XOR\n2 1 100154 98106 112726 XOR\n2 1 112726 112695 96058 XOR\n2 1 90028 83884 103765 XOR\n2 1 100169 98121 112741 XOR\n2 1 83883 103733 9743 XOR\n2 1 9742 9743 9741 AND\n2 1 9741 103733 103734 XOR\n2 1 90028 103734 9745 XOR\n2 1 83884 103734 9746 XOR\n2 1 103765 103734 987 XOR\n2 1 987 1051 69706 XOR\n2 1 69706 69674 69642 AND\n2 1 69642 1051 85900 XOR\n2 1 987 1019 69578 XOR\n2 1 987 966 67048 XOR\n2 1 976 987 67037 XOR\n2 1 67048 975 87946 XOR\n2 1 67037 964 87935 XOR\n2 1 67028 987 87926 XOR\n2 1 87926 112510 23249 XOR\n2 1 23249 23250 23248 AND\n2 1 87926 85878 112541 XOR\n2 1 112541 112510 83830 XOR\n2 1 23248 112510 112511 XOR\n2 1 9745 9746 9744 AND\n2 1 9744 103734 103735 XOR\n2 1 90029 103735 9748 XOR\n2 1 83885 103735 9749 XOR\n2 1 103766 103735 988 XOR\n2 1 988 1052 69707 XOR\n2 1 69707 69675 69643 AND\n2 1 69643 1052 85901 XOR\n2 1 988 1020 69579 XOR\n2 1 988 967 67049 XOR\n2 1 977 988 67038 XOR\n2 1 67049 976 87947 XOR\n2 1 67038 965 87936 XOR\n2 1 67029 988 87927 XOR\n2 1 87927 85879 112542 XOR\n2 1 112542 112511 83831 XOR\n2 1 9748 9749 9747 AND\n2 1 87936 85888 112551 XOR\n2 1 87947 85899 112562 XOR\n2 1 87935 85887 112550 XOR\n2 1 9747 103735 103736 XOR\n2 1 103767 103736 989 XOR\n2 1 989 1053 69708 XOR\n2 1 69708 69676 69644 AND\n2 1 69644 1053 85902 XOR\n2 1 989 1021 69580 XOR\n2 1 989 968 67050 XOR\n2 1 978 989 67039 XOR\n2 1 67050 977 87948 XOR\n2 1 67039 966 87937 XOR\n2 1 67030 989 87928 XOR\n2 1 87928 85880 112543 XOR\n2 1 83886 103736 9752 XOR\n2 1 85879 112511 23253 XOR\n2 1 87946 85898 112561 XOR\n2 1 87948 85900 112563 XOR\n2 1 87937 85889 112552 XOR\n2 1 90030 103736 9751 XOR\n2 1 9751 9752 9750 AND\n2 1 9750 103736 103737 XOR\n2 1 90031 103737 9754 XOR\n2 1 83887 103737 9755 XOR\n2 1 9754 9755 9753 AND\n2 1 9753 103737 103738 XOR\n2 1 103768 103737 990 XOR\n2 1 990 1054 69709 XOR\n2 1 69709 69677 69645 AND\n2 1 69645 1054 85903 XOR\n2 1 87951 85903 112566 XOR\n2 1 990 1022 69581 XOR\n2 1 990 969 67051 XOR\n2 1 979 990 67040 XOR\n2 1 67051 978 87949 XOR\n2 1 67040 967 87938 XOR\n2 1 87938 85890 112553 XOR\n2 1 67031 990 87929 XOR\n2 1 87929 85881 112544 XOR\n2 1 87949 85901 112564 XOR\n2 1 87927 112511 23252 XOR\n2 1 23252 23253 23251 AND\n2 1 23251 112511 112512 XOR\n2 1 85880 112512 23256 XOR\n2 1 87928 112512 23255 XOR\n2 1 23255 23256 23254 AND\n2 1 23254 112512 112513 XOR\n2 1 87929 112513 23258 XOR\n2 1 85881 112513 23259 XOR\n2 1 23258 23259 23257 AND\n2 1 112544 112513 83833 XOR\n2 1 23257 112513 112514 XOR\n",
"2 1 85882 112514 23262 XOR\n2 1 112543 112512 83832 XOR\n2 1 75951 112922 24059 XOR\n2 1 24059 24060 24058 AND\n2 1 24058 112922 112923 XOR\n2 1 112954 112923 94069 XOR\n2 1 96117 94069 112892 XOR\n2 1 112892 112861 92068 XOR\n2 1 92068 112830 90032 XOR\n2 1 1119 90032 103707 XOR\n2 1 103707 103676 1439 XOR\n2 1 63470 1439 63438 AND\n2 1 63438 1503 98133 XOR\n2 1 100181 98133 112753 XOR\n2 1 1439 1471 63406 XOR\n2 1 90032 83888 103769 XOR\n2 1 103769 103738 991 XOR\n2 1 991 1055 69710 XOR\n2 1 69710 69678 69646 AND\n2 1 69646 1055 85904 XOR\n2 1 991 1023 69582 XOR\n2 1 87952 85904 112567 XOR\n2 1 991 970 67052 XOR\n2 1 980 991 67041 XOR\n2 1 67052 979 87950 XOR\n2 1 67041 968 87939 XOR\n2 1 87939 85891 112554 XOR\n2 1 67032 991 87930 XOR\n2 1 87930 85882 112545 XOR\n2 1 112545 112514 83834 XOR\n2 1 1439 1412 61128 XOR\n2 1 1434 1439 61123 XOR\n2 1 61128 1426 100175 XOR\n2 1 100175 98127 112747 XOR\n2 1 61123 1421 100170 XOR\n2 1 100170 98122 112742 XOR\n2 1 61109 1439 100156 XOR\n2 1 100156 98108 112728 XOR\n2 1 112728 112697 96060 XOR\n2 1 100156 112697 23632 XOR\n2 1 23632 23633 23631 AND\n2 1 23631 112697 112698 XOR\n2 1 112729 112698 96061 XOR\n2 1 100157 112698 23635 XOR\n2 1 87950 85902 112565 XOR\n2 1 87930 112514 23261 XOR\n2 1 23261 23262 23260 AND\n2 1 23260 112514 112515 XOR\n2 1 87931 112515 23264 XOR\n2 1 112546 112515 83835 XOR\n2 1 85883 112515 23265 XOR\n2 1 23264 23265 23263 AND\n2 1 23263 112515 112516 XOR\n2 1 87932 112516 23267 XOR\n2 1 112547 112516 83836 XOR\n2 1 85884 112516 23268 XOR\n2 1 23267 23268 23266 AND\n2 1 23266 112516 112517 XOR\n2 1 85885 112517 23271 XOR\n2 1 87933 112517 23270 XOR\n2 1 23270 23271 23269 AND\n2 1 23269 112517 112518 XOR\n2 1 87934 112518 23273 XOR\n2 1 85886 112518 23274 XOR\n2 1 23273 23274 23272 AND\n2 1 23272 112518 112519 XOR\n2 1 85887 112519 23277 XOR\n2 1 112550 112519 83839 XOR\n2 1 87935 112519 23276 XOR\n2 1 112549 112518 83838 XOR\n2 1 112548 112517 83837 XOR\n2 1 23276 23277 23275 AND\n2 1 23275 112519 112520 XOR\n2 1 112551 112520 83840 XOR\n2 1 87936 112520 23279 XOR\n2 1 85888 112520 23280 XOR\n2 1 23279 23280 23278 AND\n2 1 23278 112520 112521 XOR\n2 1 85889 112521 23283 XOR\n2 1 87937 112521 23282 XOR\n2 1 23282 23283 23281 AND\n2 1 23281 112521 112522 XOR\n2 1 85890 112522 23286 XOR\n2 1 112553 112522 83842 XOR\n2 1 112552 112521 83841 XOR\n2 1 87938 112522 23285 XOR\n2 1 23285 23286 23284 AND\n2 1 23284 112522 112523 XOR\n2 1 112554 112523 83843 XOR\n2 1 85891 112523 23289 XOR\n2 1 87939 112523 23288 XOR\n2 1 23288 23289 23287 AND\n2 1 23287 112523 112524 XOR\n2 1 112555 112524 83844 XOR\n2 1 85892 112524 23292 XOR\n2 1 87940 112524 23291 XOR\n2 1 23291 23292 23290 AND\n2 1 23290 112524 112525 XOR\n2 1 112556 112525 83845 XOR\n2 1 87941 112525 23294 XOR\n2 1 85893 112525 23295 XOR\n2 1 23294 23295 23293 AND\n2 1 23293 112525 112526 XOR\n2 1 112557 112526 83846 XOR\n2 1 85894 112526 23298 XOR\n2 1 87942 112526 23297 XOR\n2 1 23297 23298 23296 AND\n2 1 23296 112526 112527 XOR\n2 1 87943 112527 23300 XOR\n2 1 85895 112527 23301 XOR\n2 1 112558 112527 83847 XOR\n2 1 98109 112698 23636 XOR\n2 1 23635 23636 23634 AND\n2 1 23634 112698 112699 XOR\n2 1 98110 112699 23639 XOR\n2 1 100158 112699 23638 XOR\n2 1 23638 23639 23637 AND\n2 1 23637 112699 112700 XOR\n2 1 98111 112700 23642 XOR\n2 1 100159 112700 23641 XOR\n2 1 23641 23642 23640 AND\n2 1 23640 112700 112701 XOR\n2 1 100160 112701 23644 XOR\n2 1 112732 112701 96064 XOR\n2 1 112731 112700 96063 XOR\n2 1 112730 112699 96062 XOR\n2 1 98112 112701 23645 XOR\n2 1 23644 23645 23643 AND\n",
"2 1 23643 112701 112702 XOR\n2 1 112733 112702 96065 XOR\n2 1 100161 112702 23647 XOR\n2 1 98113 112702 23648 XOR\n2 1 23647 23648 23646 AND\n2 1 23646 112702 112703 XOR\n2 1 112734 112703 96066 XOR\n2 1 98114 112703 23651 XOR\n2 1 100162 112703 23650 XOR\n2 1 23650 23651 23649 AND\n2 1 23649 112703 112704 XOR\n2 1 112735 112704 96067 XOR\n2 1 98115 112704 23654 XOR\n2 1 100163 112704 23653 XOR\n2 1 23653 23654 23652 AND\n2 1 23652 112704 112705 XOR\n2 1 98116 112705 23657 XOR\n2 1 100164 112705 23656 XOR\n2 1 112736 112705 96068 XOR\n2 1 23656 23657 23655 AND\n2 1 23655 112705 112706 XOR\n2 1 112737 112706 96069 XOR\n2 1 98117 112706 23660 XOR\n2 1 100165 112706 23659 XOR\n2 1 23659 23660 23658 AND\n2 1 23658 112706 112707 XOR\n2 1 112738 112707 96070 XOR\n2 1 98118 112707 23663 XOR\n2 1 100166 112707 23662 XOR\n2 1 23662 23663 23661 AND\n2 1 23661 112707 112708 XOR\n2 1 100167 112708 23665 XOR\n2 1 112739 112708 96071 XOR\n2 1 98119 112708 23666 XOR\n2 1 23665 23666 23664 AND\n2 1 23664 112708 112709 XOR\n2 1 112740 112709 96072 XOR\n2 1 98120 112709 23669 XOR\n2 1 100168 112709 23668 XOR\n2 1 23668 23669 23667 AND\n2 1 23667 112709 112710 XOR\n2 1 112741 112710 96073 XOR\n2 1 100169 112710 23671 XOR\n2 1 98121 112710 23672 XOR\n2 1 23671 23672 23670 AND\n2 1 23670 112710 112711 XOR\n2 1 100170 112711 23674 XOR\n2 1 98122 112711 23675 XOR\n2 1 112742 112711 96074 XOR\n2 1 23674 23675 23673 AND\n2 1 23673 112711 112712 XOR\n2 1 112743 112712 96075 XOR\n2 1 100171 112712 23677 XOR\n2 1 98123 112712 23678 XOR\n2 1 23677 23678 23676 AND\n2 1 23676 112712 112713 XOR\n2 1 100172 112713 23680 XOR\n2 1 98124 112713 23681 XOR\n2 1 23680 23681 23679 AND\n2 1 23679 112713 112714 XOR\n2 1 112745 112714 96077 XOR\n2 1 98125 112714 23684 XOR\n2 1 112744 112713 96076 XOR\n2 1 100173 112714 23683 XOR\n2 1 23683 23684 23682 AND\n2 1 23682 112714 112715 XOR\n2 1 98126 112715 23687 XOR\n2 1 100174 112715 23686 XOR\n2 1 112746 112715 96078 XOR\n2 1 23686 23687 23685 AND\n2 1 23685 112715 112716 XOR\n2 1 112747 112716 96079 XOR\n2 1 100175 112716 23689 XOR\n2 1 98127 112716 23690 XOR\n2 1 23689 23690 23688 AND\n2 1 23688 112716 112717 XOR\n2 1 112748 112717 96080 XOR\n2 1 98128 112717 23693 XOR\n2 1 100176 112717 23692 XOR\n2 1 23692 23693 23691 AND\n2 1 23691 112717 112718 XOR\n2 1 98129 112718 23696 XOR\n2 1 100177 112718 23695 XOR\n2 1 112749 112718 96081 XOR\n2 1 23695 23696 23694 AND\n2 1 23694 112718 112719 XOR\n2 1 98130 112719 23699 XOR\n2 1 100178 112719 23698 XOR\n2 1 23698 23699 23697 AND\n2 1 112750 112719 96082 XOR\n2 1 23697 112719 112720 XOR\n2 1 100179 112720 23701 XOR\n2 1 112751 112720 96083 XOR\n2 1 98131 112720 23702 XOR\n2 1 23701 23702 23700 AND\n2 1 23700 112720 112721 XOR\n2 1 112752 112721 96084 XOR\n2 1 100180 112721 23704 XOR\n2 1 98132 112721 23705 XOR\n2 1 23704 23705 23703 AND\n2 1 23703 112721 112722 XOR\n2 1 112753 112722 96085 XOR\n2 1 23300 23301 23299 AND\n2 1 23299 112527 112528 XOR\n2 1 85896 112528 23304 XOR\n2 1 112559 112528 83848 XOR\n2 1 87944 112528 23303 XOR\n2 1 23303 23304 23302 AND\n2 1 23302 112528 112529 XOR\n2 1 87945 112529 23306 XOR\n2 1 85897 112529 23307 XOR\n2 1 23306 23307 23305 AND\n2 1 23305 112529 112530 XOR\n2 1 112561 112530 83850 XOR\n2 1 85898 112530 23310 XOR\n2 1 87946 112530 23309 XOR\n2 1 23309 23310 23308 AND\n2 1 23308 112530 112531 XOR\n2 1 112560 112529 83849 XOR\n2 1 112562 112531 83851 XOR\n2 1 85899 112531 23313 XOR\n2 1 87947 112531 23312 XOR\n2 1 23312 23313 23311 AND\n2 1 23311 112531 112532 XOR\n2 1 87948 112532 23315 XOR\n2 1 85900 112532 23316 XOR\n2 1 112563 112532 83852 XOR\n2 1 23315 23316 23314 AND\n",
"2 1 23314 112532 112533 XOR\n2 1 87949 112533 23318 XOR\n2 1 85901 112533 23319 XOR\n2 1 23318 23319 23317 AND\n2 1 23317 112533 112534 XOR\n2 1 87950 112534 23321 XOR\n2 1 85902 112534 23322 XOR\n2 1 23321 23322 23320 AND\n2 1 23320 112534 112535 XOR\n2 1 87951 112535 23324 XOR\n2 1 85903 112535 23325 XOR\n2 1 112566 112535 83855 XOR\n2 1 112564 112533 83853 XOR\n2 1 23324 23325 23323 AND\n2 1 23323 112535 112536 XOR\n2 1 112567 112536 83856 XOR\n2 1 112565 112534 83854 XOR\n2 1 76375 76386 82320 XOR\n2 1 82320 76432 128206 XOR\n2 1 76374 76385 82319 XOR\n2 1 82319 76431 128205 XOR\n2 1 76373 76384 82318 XOR\n2 1 82318 76430 128204 XOR\n2 1 76372 76383 5038 XOR\n2 1 76371 76382 5037 XOR\n2 1 76370 76381 5036 XOR\n2 1 76369 76380 5035 XOR\n2 1 76400 76379 5034 XOR\n2 1 76399 76378 5033 XOR\n2 1 76398 76377 5032 XOR\n2 1 76397 76376 5031 XOR\n2 1 76396 76375 5030 XOR\n2 1 76395 76374 5029 XOR\n2 1 76394 76373 5028 XOR\n2 1 76393 76372 5027 XOR\n2 1 76392 76371 5026 XOR\n2 1 76391 76370 5025 XOR\n2 1 76390 76369 5024 XOR\n2 1 76389 76400 5023 XOR\n2 1 76388 76399 5022 XOR\n2 1 76387 76398 5021 XOR\n2 1 76386 76397 5020 XOR\n2 1 76385 76396 5019 XOR\n2 1 76384 76395 5018 XOR\n2 1 76383 76394 5017 XOR\n2 1 76382 76393 5016 XOR\n2 1 76381 76392 5015 XOR\n2 1 76380 76391 5014 XOR\n2 1 76379 76390 5013 XOR\n2 1 76378 76389 5012 XOR\n2 1 76377 76388 5011 XOR\n2 1 76376 76387 5010 XOR\n2 1 5038 76400 82317 XOR\n2 1 82317 76429 128203 XOR\n2 1 5037 76399 82316 XOR\n2 1 82316 76428 128202 XOR\n2 1 5036 76398 82315 XOR\n2 1 82315 76427 128201 XOR\n2 1 5035 76397 82314 XOR\n2 1 82314 76426 128200 XOR\n2 1 5034 76396 82313 XOR\n2 1 82313 76425 128199 XOR\n2 1 5033 76395 82312 XOR\n2 1 82312 76424 128198 XOR\n2 1 5032 76394 82311 XOR\n2 1 82311 76423 128197 XOR\n2 1 5031 76393 82310 XOR\n2 1 82310 76422 128196 XOR\n2 1 5030 76392 82309 XOR\n2 1 82309 76421 128195 XOR\n2 1 5029 76391 82308 XOR\n2 1 82308 76420 128194 XOR\n2 1 5028 76390 82307 XOR\n2 1 82307 76419 128193 XOR\n2 1 5027 76389 82306 XOR\n2 1 82306 76418 128192 XOR\n2 1 5026 76388 82305 XOR\n2 1 82305 76417 128191 XOR\n2 1 5025 76387 82304 XOR\n2 1 82304 76416 128190 XOR\n2 1 5024 76386 82303 XOR\n2 1 82303 76415 128189 XOR\n2 1 5023 76385 82302 XOR\n2 1 82302 76414 128188 XOR\n2 1 5022 76384 82301 XOR\n2 1 82301 76413 128187 XOR\n2 1 5021 76383 82300 XOR\n2 1 82300 76412 128186 XOR\n2 1 5020 76382 82299 XOR\n2 1 82299 76411 128185 XOR\n2 1 5019 76381 82298 XOR\n2 1 82298 76410 128184 XOR\n2 1 5018 76380 82297 XOR\n2 1 82297 76409 128183 XOR\n2 1 5017 76379 82296 XOR\n2 1 82296 76408 128182 XOR\n2 1 5016 76378 82295 XOR\n2 1 82295 76407 128181 XOR\n2 1 5015 76377 82294 XOR\n2 1 82294 76406 128180 XOR\n2 1 5014 76376 82293 XOR\n2 1 82293 76405 128179 XOR\n2 1 5013 76375 82292 XOR\n2 1 82292 76404 128178 XOR\n2 1 5012 76374 82291 XOR\n2 1 82291 76403 128177 XOR\n2 1 5011 76373 82290 XOR\n2 1 82290 76402 128176 XOR\n2 1 5010 76372 82289 XOR\n2 1 82289 76401 128145 AND\n2 1 82289 76401 77681 XOR\n2 1 79217 77681 75889 XOR\n2 1 75889 1504 94006 XOR\n2 1 96054 94006 112568 AND\n2 1 96055 112568 23437 XOR\n2 1 96054 94006 92006 XOR\n2 1 75889 1504 112630 AND\n2 1 1505 112630 23528 XOR\n2 1 79217 77681 128083 AND\n2 1 79218 128083 50376 XOR\n2 1 128176 128145 77682 XOR\n2 1 79218 77682 128114 XOR\n2 1 77682 128083 50377 XOR\n2 1 128114 128083 75890 XOR\n2 1 75890 112630 23527 XOR\n2 1 75890 1505 112661 XOR\n2 1 112661 112630 94007 XOR\n2 1 94007 112568 23438 XOR\n",
"2 1 23437 23438 23436 AND\n2 1 23436 112568 112569 XOR\n2 1 96056 112569 23440 XOR\n2 1 50376 50377 50375 AND\n2 1 50375 128083 128084 XOR\n2 1 79219 128084 50379 XOR\n2 1 96055 94007 112599 XOR\n2 1 112599 112568 92007 XOR\n1 1 92007 23419 INV\n2 1 23419 92006 89970 XOR\n2 1 1057 89970 103553 XOR\n2 1 89970 83826 103615 XOR\n2 1 92007 92006 23327 XOR\n2 1 23527 23528 23526 AND\n2 1 23526 112630 112631 XOR\n2 1 1506 112631 23531 XOR\n2 1 82290 128145 50466 XOR\n2 1 76402 128145 50467 XOR\n2 1 50466 50467 50465 AND\n2 1 50465 128145 128146 XOR\n2 1 82291 128146 50469 XOR\n2 1 128177 128146 77683 XOR\n2 1 77683 128084 50380 XOR\n2 1 50379 50380 50378 AND\n2 1 50378 128084 128085 XOR\n2 1 79219 77683 128115 XOR\n2 1 128115 128084 75891 XOR\n2 1 75891 112631 23530 XOR\n2 1 75891 1506 112662 XOR\n2 1 79220 128085 50382 XOR\n2 1 75889 75891 6281 XOR\n2 1 112662 112631 94008 XOR\n2 1 94008 112569 23441 XOR\n2 1 23440 23441 23439 AND\n2 1 23439 112569 112570 XOR\n2 1 96057 112570 23443 XOR\n2 1 96056 94008 112600 XOR\n2 1 112600 112569 92008 XOR\n1 1 92008 23420 INV\n2 1 76403 128146 50470 XOR\n2 1 50469 50470 50468 AND\n2 1 50468 128146 128147 XOR\n2 1 76404 128147 50473 XOR\n2 1 128178 128147 77684 XOR\n2 1 77684 128085 50383 XOR\n2 1 50382 50383 50381 AND\n2 1 50381 128085 128086 XOR\n2 1 79221 128086 50385 XOR\n2 1 79220 77684 128116 XOR\n2 1 128116 128085 75892 XOR\n2 1 75892 1507 112663 XOR\n2 1 75890 75892 6282 XOR\n2 1 82292 128147 50472 XOR\n2 1 50472 50473 50471 AND\n2 1 50471 128147 128148 XOR\n2 1 82293 128148 50475 XOR\n2 1 128179 128148 77685 XOR\n2 1 77685 128086 50386 XOR\n2 1 50385 50386 50384 AND\n2 1 50384 128086 128087 XOR\n2 1 79222 128087 50388 XOR\n2 1 79221 77685 128117 XOR\n2 1 128117 128086 75893 XOR\n2 1 75893 1508 112664 XOR\n2 1 75891 75893 6283 XOR\n2 1 76405 128148 50476 XOR\n2 1 50475 50476 50474 AND\n2 1 50474 128148 128149 XOR\n2 1 76406 128149 50479 XOR\n2 1 128180 128149 77686 XOR\n2 1 79222 77686 128118 XOR\n2 1 128118 128087 75894 XOR\n2 1 75894 1509 112665 XOR\n2 1 77686 128087 50389 XOR\n2 1 50388 50389 50387 AND\n2 1 75892 75894 6284 XOR\n2 1 50387 128087 128088 XOR\n2 1 79223 128088 50391 XOR\n2 1 82294 128149 50478 XOR\n2 1 50478 50479 50477 AND\n2 1 50477 128149 128150 XOR\n2 1 82295 128150 50481 XOR\n2 1 128181 128150 77687 XOR\n2 1 77687 128088 50392 XOR\n2 1 50391 50392 50390 AND\n2 1 50390 128088 128089 XOR\n2 1 79224 128089 50394 XOR\n2 1 79223 77687 128119 XOR\n2 1 128119 128088 75895 XOR\n2 1 75895 1510 112666 XOR\n2 1 75893 75895 6285 XOR\n2 1 76407 128150 50482 XOR\n2 1 50481 50482 50480 AND\n2 1 50480 128150 128151 XOR\n2 1 128182 128151 77688 XOR\n2 1 77688 128089 50395 XOR\n2 1 50394 50395 50393 AND\n2 1 50393 128089 128090 XOR\n2 1 79224 77688 128120 XOR\n2 1 128120 128089 75896 XOR\n2 1 75896 1511 112667 XOR\n2 1 79225 128090 50397 XOR\n2 1 76408 128151 50485 XOR\n2 1 75894 75896 6286 XOR\n2 1 82296 128151 50484 XOR\n2 1 50484 50485 50483 AND\n2 1 50483 128151 128152 XOR\n2 1 82297 128152 50487 XOR\n2 1 128183 128152 77689 XOR\n2 1 77689 128090 50398 XOR\n2 1 50397 50398 50396 AND\n2 1 50396 128090 128091 XOR\n2 1 79226 128091 50400 XOR\n2 1 79225 77689 128121 XOR\n2 1 128121 128090 75897 XOR\n2 1 75897 1512 112668 XOR\n2 1 75895 75897 6287 XOR\n2 1 76409 128152 50488 XOR\n2 1 50487 50488 50486 AND\n2 1 50486 128152 128153 XOR\n2 1 128184 128153 77690 XOR\n2 1 79226 77690 128122 XOR\n2 1 128122 128091 75898 XOR\n2 1 77690 128091 50401 XOR\n2 1 75898 1513 112669 XOR\n2 1 76410 128153 50491 XOR\n2 1 50400 50401 50399 AND\n2 1 50399 128091 128092 XOR\n",
"2 1 79227 128092 50403 XOR\n2 1 75896 75898 80711 XOR\n2 1 80711 76071 127887 XOR\n2 1 82298 128153 50490 XOR\n2 1 50490 50491 50489 AND\n2 1 50489 128153 128154 XOR\n2 1 82299 128154 50493 XOR\n2 1 128185 128154 77691 XOR\n2 1 79227 77691 128123 XOR\n2 1 128123 128092 75899 XOR\n2 1 75899 1514 112670 XOR\n2 1 75897 75899 80712 XOR\n2 1 80712 76072 127888 XOR\n2 1 76411 128154 50494 XOR\n2 1 50493 50494 50492 AND\n2 1 50492 128154 128155 XOR\n2 1 76412 128155 50497 XOR\n2 1 128186 128155 77692 XOR\n2 1 79228 77692 128124 XOR\n2 1 82300 128155 50496 XOR\n2 1 50496 50497 50495 AND\n2 1 50495 128155 128156 XOR\n2 1 82301 128156 50499 XOR\n2 1 128187 128156 77693 XOR\n2 1 79229 77693 128125 XOR\n2 1 76413 128156 50500 XOR\n2 1 50499 50500 50498 AND\n2 1 50498 128156 128157 XOR\n2 1 128188 128157 77694 XOR\n2 1 79230 77694 128126 XOR\n2 1 76414 128157 50503 XOR\n2 1 82302 128157 50502 XOR\n2 1 50502 50503 50501 AND\n2 1 50501 128157 128158 XOR\n2 1 82303 128158 50505 XOR\n2 1 76415 128158 50506 XOR\n2 1 50505 50506 50504 AND\n2 1 128189 128158 77695 XOR\n2 1 50504 128158 128159 XOR\n2 1 82304 128159 50508 XOR\n2 1 128190 128159 77696 XOR\n2 1 79232 77696 128128 XOR\n2 1 76416 128159 50509 XOR\n2 1 50508 50509 50507 AND\n2 1 50507 128159 128160 XOR\n2 1 128191 128160 77697 XOR\n2 1 76417 128160 50512 XOR\n2 1 82305 128160 50511 XOR\n2 1 50511 50512 50510 AND\n2 1 50510 128160 128161 XOR\n2 1 128192 128161 77698 XOR\n2 1 76418 128161 50515 XOR\n2 1 82306 128161 50514 XOR\n2 1 50514 50515 50513 AND\n2 1 50513 128161 128162 XOR\n2 1 128193 128162 77699 XOR\n2 1 79234 77698 128130 XOR\n2 1 82307 128162 50517 XOR\n2 1 76419 128162 50518 XOR\n2 1 50517 50518 50516 AND\n2 1 50516 128162 128163 XOR\n2 1 82308 128163 50520 XOR\n2 1 79231 77695 128127 XOR\n2 1 79233 77697 128129 XOR\n2 1 79235 77699 128131 XOR\n2 1 76420 128163 50521 XOR\n2 1 50520 50521 50519 AND\n2 1 50519 128163 128164 XOR\n2 1 82309 128164 50523 XOR\n2 1 128195 128164 77701 XOR\n2 1 79237 77701 128133 XOR\n2 1 76421 128164 50524 XOR\n2 1 50523 50524 50522 AND\n2 1 50522 128164 128165 XOR\n2 1 82310 128165 50526 XOR\n2 1 128196 128165 77702 XOR\n2 1 79238 77702 128134 XOR\n2 1 76422 128165 50527 XOR\n2 1 50526 50527 50525 AND\n2 1 50525 128165 128166 XOR\n2 1 128197 128166 77703 XOR\n2 1 76423 128166 50530 XOR\n2 1 82311 128166 50529 XOR\n2 1 79239 77703 128135 XOR\n2 1 50529 50530 50528 AND\n2 1 50528 128166 128167 XOR\n2 1 76424 128167 50533 XOR\n2 1 128198 128167 77704 XOR\n2 1 82312 128167 50532 XOR\n2 1 79240 77704 128136 XOR\n2 1 50532 50533 50531 AND\n2 1 50531 128167 128168 XOR\n2 1 82313 128168 50535 XOR\n2 1 128199 128168 77705 XOR\n2 1 79241 77705 128137 XOR\n2 1 76425 128168 50536 XOR\n2 1 50535 50536 50534 AND\n2 1 50534 128168 128169 XOR\n2 1 128200 128169 77706 XOR\n2 1 79242 77706 128138 XOR\n2 1 82314 128169 50538 XOR\n2 1 76426 128169 50539 XOR\n2 1 50538 50539 50537 AND\n2 1 50537 128169 128170 XOR\n2 1 128201 128170 77707 XOR\n2 1 82315 128170 50541 XOR\n2 1 79243 77707 128139 XOR\n2 1 76427 128170 50542 XOR\n2 1 50541 50542 50540 AND\n2 1 50540 128170 128171 XOR\n2 1 82316 128171 50544 XOR\n2 1 76428 128171 50545 XOR\n2 1 50544 50545 50543 AND\n2 1 50543 128171 128172 XOR\n2 1 128203 128172 77709 XOR\n2 1 79245 77709 128141 XOR\n2 1 82317 128172 50547 XOR\n2 1 76429 128172 50548 XOR\n2 1 50547 50548 50546 AND\n2 1 50546 128172 128173 XOR\n2 1 76430 128173 50551 XOR\n2 1 82318 128173 50550 XOR\n2 1 50550 50551 50549 AND\n2 1 50549 128173 128174 XOR\n2 1 76431 128174 50554 XOR\n2 1 128205 128174 77711 XOR\n2 1 79247 77711 128143 XOR\n2 1 82319 128174 50553 XOR\n",
"2 1 50553 50554 50552 AND\n2 1 128204 128173 77710 XOR\n2 1 79246 77710 128142 XOR\n2 1 128202 128171 77708 XOR\n2 1 79244 77708 128140 XOR\n2 1 77691 128092 50404 XOR\n2 1 50403 50404 50402 AND\n2 1 50402 128092 128093 XOR\n2 1 128124 128093 75900 XOR\n2 1 75900 1515 112671 XOR\n2 1 79228 128093 50406 XOR\n2 1 77692 128093 50407 XOR\n2 1 50406 50407 50405 AND\n2 1 50405 128093 128094 XOR\n2 1 77693 128094 50410 XOR\n2 1 128125 128094 75901 XOR\n2 1 75901 1516 112672 XOR\n2 1 79229 128094 50409 XOR\n2 1 50409 50410 50408 AND\n2 1 50408 128094 128095 XOR\n2 1 128126 128095 75902 XOR\n2 1 77694 128095 50413 XOR\n2 1 79230 128095 50412 XOR\n2 1 50412 50413 50411 AND\n2 1 50411 128095 128096 XOR\n2 1 77695 128096 50416 XOR\n2 1 79231 128096 50415 XOR\n2 1 75902 1517 112673 XOR\n2 1 50415 50416 50414 AND\n2 1 50414 128096 128097 XOR\n2 1 77696 128097 50419 XOR\n2 1 128128 128097 75904 XOR\n2 1 128127 128096 75903 XOR\n2 1 75903 1518 112674 XOR\n2 1 75904 1519 112675 XOR\n2 1 79232 128097 50418 XOR\n2 1 50418 50419 50417 AND\n2 1 50417 128097 128098 XOR\n2 1 128129 128098 75905 XOR\n2 1 77697 128098 50422 XOR\n2 1 79233 128098 50421 XOR\n2 1 50421 50422 50420 AND\n2 1 50420 128098 128099 XOR\n2 1 128130 128099 75906 XOR\n2 1 79234 128099 50424 XOR\n2 1 75905 1520 112676 XOR\n2 1 77698 128099 50425 XOR\n2 1 50424 50425 50423 AND\n2 1 50423 128099 128100 XOR\n2 1 128131 128100 75907 XOR\n2 1 77699 128100 50428 XOR\n2 1 79235 128100 50427 XOR\n2 1 75907 1522 112678 XOR\n2 1 75906 1521 112677 XOR\n2 1 75905 75907 80720 XOR\n2 1 80720 76080 127896 XOR\n2 1 75904 75906 80719 XOR\n2 1 80719 76079 127895 XOR\n2 1 75903 75905 80718 XOR\n2 1 80718 76078 127894 XOR\n2 1 75902 75904 80717 XOR\n2 1 80717 76077 127893 XOR\n2 1 75901 75903 80716 XOR\n2 1 80716 76076 127892 XOR\n2 1 75900 75902 80715 XOR\n2 1 80715 76075 127891 XOR\n2 1 75899 75901 80714 XOR\n2 1 80714 76074 127890 XOR\n2 1 75898 75900 80713 XOR\n2 1 80713 76073 127889 XOR\n2 1 23530 23531 23529 AND\n2 1 23529 112631 112632 XOR\n2 1 1507 112632 23534 XOR\n2 1 75892 112632 23533 XOR\n2 1 23533 23534 23532 AND\n2 1 112663 112632 94009 XOR\n2 1 96057 94009 112601 XOR\n2 1 94009 112570 23444 XOR\n2 1 23443 23444 23442 AND\n2 1 112601 112570 92009 XOR\n1 1 92009 23421 INV\n2 1 23442 112570 112571 XOR\n2 1 96058 112571 23446 XOR\n2 1 23532 112632 112633 XOR\n2 1 75893 112633 23536 XOR\n2 1 112664 112633 94010 XOR\n2 1 94010 112571 23447 XOR\n2 1 96058 94010 112602 XOR\n2 1 23446 23447 23445 AND\n2 1 23445 112571 112572 XOR\n2 1 96059 112572 23449 XOR\n2 1 112602 112571 92010 XOR\n2 1 1508 112633 23537 XOR\n2 1 23536 23537 23535 AND\n2 1 23535 112633 112634 XOR\n2 1 112665 112634 94011 XOR\n2 1 96059 94011 112603 XOR\n2 1 75894 112634 23539 XOR\n2 1 1509 112634 23540 XOR\n2 1 23539 23540 23538 AND\n2 1 23538 112634 112635 XOR\n2 1 112666 112635 94012 XOR\n2 1 96060 94012 112604 XOR\n2 1 75895 112635 23542 XOR\n2 1 1510 112635 23543 XOR\n2 1 23542 23543 23541 AND\n2 1 112603 112572 92011 XOR\n2 1 94011 112572 23450 XOR\n2 1 23449 23450 23448 AND\n2 1 23448 112572 112573 XOR\n2 1 112604 112573 92012 XOR\n1 1 92012 23422 INV\n2 1 94012 112573 23453 XOR\n2 1 96060 112573 23452 XOR\n2 1 23452 23453 23451 AND\n2 1 23451 112573 112574 XOR\n2 1 96061 112574 23455 XOR\n1 1 92006 89969 INV\n2 1 89969 83825 103584 AND\n2 1 83826 103584 9488 XOR\n2 1 89970 103584 9487 XOR\n2 1 9487 9488 9486 AND\n2 1 9486 103584 103585 XOR\n2 1 83827 103585 9491 XOR\n2 1 1056 89969 1376 XOR\n2 1 63375 1376 63343 AND\n2 1 63343 1440 98070 XOR\n2 1 1376 1408 63311 XOR\n",
"2 1 103615 103584 929 XOR\n2 1 929 993 69584 XOR\n2 1 69584 69552 69520 AND\n2 1 69520 993 85842 XOR\n2 1 929 961 69456 XOR\n2 1 89969 83825 928 XOR\n2 1 928 960 69455 XOR\n2 1 1056 89969 103522 AND\n2 1 89970 103522 9398 XOR\n2 1 1057 103522 9397 XOR\n2 1 9397 9398 9396 AND\n2 1 103553 103522 1377 XOR\n2 1 63376 1377 63344 AND\n2 1 63344 1441 98071 XOR\n2 1 1377 1409 63312 XOR\n2 1 9396 103522 103523 XOR\n2 1 1058 103523 9400 XOR\n2 1 928 992 69583 XOR\n2 1 69583 69551 69519 AND\n2 1 69519 992 85841 XOR\n2 1 23327 89969 23326 AND\n2 1 23326 92006 23402 XOR\n1 1 23402 23330 INV\n2 1 23420 23402 89971 XOR\n2 1 89971 103523 9401 XOR\n2 1 9400 9401 9399 AND\n2 1 1058 89971 103554 XOR\n2 1 103554 103523 1378 XOR\n2 1 89971 83827 103616 XOR\n2 1 103616 103585 930 XOR\n2 1 930 994 69585 XOR\n2 1 69585 69553 69521 AND\n2 1 69521 994 85843 XOR\n2 1 930 962 69457 XOR\n2 1 63377 1378 63345 AND\n2 1 63345 1442 98072 XOR\n2 1 1378 1410 63313 XOR\n2 1 9399 103523 103524 XOR\n2 1 1059 103524 9403 XOR\n2 1 92008 23402 23329 XOR\n2 1 23329 23330 23328 AND\n2 1 23328 23402 23403 XOR\n2 1 92009 23403 23332 XOR\n1 1 23403 23333 INV\n2 1 23332 23333 23331 AND\n2 1 23421 23403 89972 XOR\n2 1 1059 89972 103555 XOR\n2 1 103555 103524 1379 XOR\n2 1 89972 103524 9404 XOR\n2 1 63378 1379 63346 AND\n2 1 63346 1443 98073 XOR\n2 1 1379 1411 63314 XOR\n2 1 9403 9404 9402 AND\n2 1 9402 103524 103525 XOR\n2 1 1060 103525 9406 XOR\n2 1 89972 83828 103617 XOR\n2 1 23331 23403 23335 XOR\n2 1 92010 23335 89973 XOR\n2 1 89973 103525 9407 XOR\n2 1 89973 83829 103618 XOR\n2 1 9406 9407 9405 AND\n2 1 9405 103525 103526 XOR\n2 1 89973 23335 23334 AND\n2 1 1061 103526 9409 XOR\n2 1 1060 89973 103556 XOR\n2 1 103556 103525 1380 XOR\n2 1 63379 1380 63347 AND\n2 1 63347 1444 98074 XOR\n2 1 1380 1412 63315 XOR\n2 1 50427 50428 50426 AND\n2 1 50426 128100 128101 XOR\n2 1 79236 128101 50430 XOR\n2 1 89971 103585 9490 XOR\n2 1 9490 9491 9489 AND\n2 1 128194 128163 77700 XOR\n2 1 79236 77700 128132 XOR\n2 1 128132 128101 75908 XOR\n2 1 75908 1523 112679 XOR\n2 1 77700 128101 50431 XOR\n2 1 50430 50431 50429 AND\n2 1 50429 128101 128102 XOR\n2 1 77701 128102 50434 XOR\n2 1 79237 128102 50433 XOR\n2 1 50433 50434 50432 AND\n2 1 50432 128102 128103 XOR\n2 1 77702 128103 50437 XOR\n2 1 128134 128103 75910 XOR\n2 1 75910 1525 112681 XOR\n2 1 79238 128103 50436 XOR\n2 1 50436 50437 50435 AND\n2 1 50435 128103 128104 XOR\n2 1 79239 128104 50439 XOR\n2 1 128135 128104 75911 XOR\n2 1 77703 128104 50440 XOR\n2 1 50439 50440 50438 AND\n2 1 50438 128104 128105 XOR\n2 1 128136 128105 75912 XOR\n2 1 77704 128105 50443 XOR\n2 1 79240 128105 50442 XOR\n2 1 50442 50443 50441 AND\n2 1 50441 128105 128106 XOR\n2 1 128137 128106 75913 XOR\n2 1 77705 128106 50446 XOR\n2 1 79241 128106 50445 XOR\n2 1 50445 50446 50444 AND\n2 1 50444 128106 128107 XOR\n2 1 128138 128107 75914 XOR\n2 1 77706 128107 50449 XOR\n2 1 79242 128107 50448 XOR\n2 1 50448 50449 50447 AND\n2 1 50447 128107 128108 XOR\n2 1 77707 128108 50452 XOR\n2 1 79243 128108 50451 XOR\n2 1 50451 50452 50450 AND\n2 1 50450 128108 128109 XOR\n2 1 77708 128109 50455 XOR\n2 1 75914 1529 112685 XOR\n2 1 128139 128108 75915 XOR\n2 1 79244 128109 50454 XOR\n2 1 50454 50455 50453 AND\n2 1 50453 128109 128110 XOR\n2 1 128141 128110 75917 XOR\n2 1 75917 1532 112688 XOR\n2 1 79245 128110 50457 XOR\n2 1 128140 128109 75916 XOR\n2 1 75913 1528 112684 XOR\n2 1 75915 1530 112686 XOR\n2 1 128133 128102 75909 XOR\n",
"2 1 75909 1524 112680 XOR\n2 1 75916 1531 112687 XOR\n2 1 75912 1527 112683 XOR\n2 1 75911 1526 112682 XOR\n2 1 75915 75917 6275 XOR\n2 1 75914 75916 6274 XOR\n2 1 75913 75915 6273 XOR\n2 1 75912 75914 6272 XOR\n2 1 75911 75913 6271 XOR\n2 1 75910 75912 6270 XOR\n2 1 75909 75911 6269 XOR\n2 1 75908 75910 6268 XOR\n2 1 75907 75909 6267 XOR\n2 1 75906 75908 6266 XOR\n2 1 6284 75917 80707 XOR\n2 1 80707 76067 127883 XOR\n2 1 6283 75916 80706 XOR\n2 1 80706 76066 127882 XOR\n2 1 6282 75915 80705 XOR\n2 1 80705 76065 127881 XOR\n2 1 6281 75914 80704 XOR\n2 1 80704 76064 127880 XOR\n2 1 6275 75908 80698 XOR\n2 1 80698 76058 127874 XOR\n2 1 6274 75907 80697 XOR\n2 1 80697 76057 127873 XOR\n2 1 6273 75906 80696 XOR\n2 1 80696 76056 127872 XOR\n2 1 6272 75905 80695 XOR\n2 1 80695 76055 127871 XOR\n2 1 6271 75904 80694 XOR\n2 1 80694 76054 127870 XOR\n2 1 6270 75903 80693 XOR\n2 1 80693 76053 127869 XOR\n2 1 6269 75902 80692 XOR\n2 1 80692 76052 127868 XOR\n2 1 6268 75901 80691 XOR\n2 1 80691 76051 127867 XOR\n2 1 6267 75900 80690 XOR\n2 1 80690 76050 127866 XOR\n2 1 6266 75899 80689 XOR\n2 1 80689 76049 79153 XOR\n2 1 80689 76049 127835 AND\n2 1 127866 127835 79154 XOR\n2 1 80690 127835 50016 XOR\n2 1 76050 127835 50017 XOR\n2 1 77709 128110 50458 XOR\n2 1 50457 50458 50456 AND\n2 1 50456 128110 128111 XOR\n2 1 77710 128111 50461 XOR\n2 1 79246 128111 50460 XOR\n2 1 50460 50461 50459 AND\n2 1 50459 128111 128112 XOR\n2 1 128143 128112 75919 XOR\n2 1 75919 1534 112690 XOR\n2 1 77711 128112 50464 XOR\n2 1 79247 128112 50463 XOR\n2 1 50463 50464 50462 AND\n2 1 50462 128112 128113 XOR\n2 1 128142 128111 75918 XOR\n2 1 75918 1533 112689 XOR\n2 1 75919 75889 6279 XOR\n2 1 75917 75919 6277 XOR\n2 1 75916 75918 6276 XOR\n2 1 6286 75919 80709 XOR\n2 1 80709 76069 127885 XOR\n2 1 6285 75918 80708 XOR\n2 1 80708 76068 127884 XOR\n2 1 6279 75912 80702 XOR\n2 1 80702 76062 127878 XOR\n2 1 6277 75910 80700 XOR\n2 1 80700 76060 127876 XOR\n2 1 6276 75909 80699 XOR\n2 1 80699 76059 127875 XOR\n2 1 50016 50017 50015 AND\n2 1 50015 127835 127836 XOR\n2 1 80691 127836 50019 XOR\n2 1 127867 127836 79155 XOR\n2 1 76051 127836 50020 XOR\n2 1 50019 50020 50018 AND\n2 1 50018 127836 127837 XOR\n2 1 76052 127837 50023 XOR\n2 1 80692 127837 50022 XOR\n2 1 50022 50023 50021 AND\n2 1 50021 127837 127838 XOR\n2 1 127869 127838 79157 XOR\n2 1 76053 127838 50026 XOR\n2 1 80693 127838 50025 XOR\n2 1 50025 50026 50024 AND\n2 1 50024 127838 127839 XOR\n2 1 127870 127839 79158 XOR\n2 1 76054 127839 50029 XOR\n2 1 80694 127839 50028 XOR\n2 1 50028 50029 50027 AND\n2 1 50027 127839 127840 XOR\n2 1 76055 127840 50032 XOR\n2 1 127868 127837 79156 XOR\n2 1 80695 127840 50031 XOR\n2 1 50031 50032 50030 AND\n2 1 50030 127840 127841 XOR\n2 1 80696 127841 50034 XOR\n2 1 76056 127841 50035 XOR\n2 1 127872 127841 79160 XOR\n2 1 127871 127840 79159 XOR\n2 1 50034 50035 50033 AND\n2 1 50033 127841 127842 XOR\n2 1 127873 127842 79161 XOR\n2 1 80697 127842 50037 XOR\n2 1 76057 127842 50038 XOR\n2 1 50037 50038 50036 AND\n2 1 50036 127842 127843 XOR\n2 1 80698 127843 50040 XOR\n2 1 76058 127843 50041 XOR\n2 1 50040 50041 50039 AND\n2 1 127874 127843 79162 XOR\n2 1 50039 127843 127844 XOR\n2 1 127875 127844 79163 XOR\n2 1 80699 127844 50043 XOR\n2 1 76059 127844 50044 XOR\n2 1 50043 50044 50042 AND\n2 1 50042 127844 127845 XOR\n2 1 80700 127845 50046 XOR\n2 1 127876 127845 79164 XOR\n2 1 76060 127845 50047 XOR\n2 1 50046 50047 50045 AND\n2 1 50045 127845 127846 XOR\n2 1 76061 127846 50050 XOR\n2 1 50552 128174 128175 XOR\n",
"2 1 128206 128175 77712 XOR\n2 1 79248 77712 128144 XOR\n2 1 128144 128113 75920 XOR\n2 1 75920 75890 6280 XOR\n2 1 75918 75920 6278 XOR\n2 1 6287 75920 80710 XOR\n2 1 80710 76070 127886 XOR\n2 1 6280 75913 80703 XOR\n2 1 80703 76063 127879 XOR\n2 1 6278 75911 80701 XOR\n2 1 80701 127846 50049 XOR\n2 1 50049 50050 50048 AND\n2 1 50048 127846 127847 XOR\n2 1 76062 127847 50053 XOR\n2 1 127878 127847 79166 XOR\n2 1 80701 76061 127877 XOR\n2 1 127877 127846 79165 XOR\n2 1 80702 127847 50052 XOR\n2 1 50052 50053 50051 AND\n2 1 50051 127847 127848 XOR\n2 1 127879 127848 79167 XOR\n2 1 76063 127848 50056 XOR\n2 1 80703 127848 50055 XOR\n2 1 50055 50056 50054 AND\n2 1 50054 127848 127849 XOR\n2 1 80704 127849 50058 XOR\n2 1 127880 127849 79168 XOR\n2 1 76064 127849 50059 XOR\n2 1 50058 50059 50057 AND\n2 1 50057 127849 127850 XOR\n2 1 80705 127850 50061 XOR\n2 1 127881 127850 79169 XOR\n2 1 76065 127850 50062 XOR\n2 1 50061 50062 50060 AND\n2 1 50060 127850 127851 XOR\n2 1 76066 127851 50065 XOR\n2 1 127882 127851 79170 XOR\n2 1 80706 127851 50064 XOR\n2 1 50064 50065 50063 AND\n2 1 50063 127851 127852 XOR\n2 1 127883 127852 79171 XOR\n2 1 80707 127852 50067 XOR\n2 1 76067 127852 50068 XOR\n2 1 50067 50068 50066 AND\n2 1 50066 127852 127853 XOR\n2 1 127884 127853 79172 XOR\n2 1 76068 127853 50071 XOR\n2 1 80708 127853 50070 XOR\n2 1 50070 50071 50069 AND\n2 1 50069 127853 127854 XOR\n2 1 127885 127854 79173 XOR\n2 1 76069 127854 50074 XOR\n2 1 80709 127854 50073 XOR\n2 1 50073 50074 50072 AND\n2 1 50072 127854 127855 XOR\n2 1 127886 127855 79174 XOR\n2 1 76070 127855 50077 XOR\n2 1 80710 127855 50076 XOR\n2 1 50076 50077 50075 AND\n2 1 50075 127855 127856 XOR\n2 1 127887 127856 79175 XOR\n2 1 76071 127856 50080 XOR\n2 1 80711 127856 50079 XOR\n2 1 50079 50080 50078 AND\n2 1 50078 127856 127857 XOR\n2 1 127888 127857 79176 XOR\n2 1 76072 127857 50083 XOR\n2 1 80712 127857 50082 XOR\n2 1 50082 50083 50081 AND\n2 1 50081 127857 127858 XOR\n2 1 127889 127858 79177 XOR\n2 1 76073 127858 50086 XOR\n2 1 80713 127858 50085 XOR\n2 1 50085 50086 50084 AND\n2 1 50084 127858 127859 XOR\n2 1 127890 127859 79178 XOR\n2 1 76074 127859 50089 XOR\n2 1 80714 127859 50088 XOR\n2 1 50088 50089 50087 AND\n2 1 50087 127859 127860 XOR\n2 1 127891 127860 79179 XOR\n2 1 76075 127860 50092 XOR\n2 1 80715 127860 50091 XOR\n2 1 50091 50092 50090 AND\n2 1 50090 127860 127861 XOR\n2 1 127892 127861 79180 XOR\n2 1 76076 127861 50095 XOR\n2 1 80716 127861 50094 XOR\n2 1 50094 50095 50093 AND\n2 1 50093 127861 127862 XOR\n2 1 127893 127862 79181 XOR\n2 1 76077 127862 50098 XOR\n2 1 80717 127862 50097 XOR\n2 1 50097 50098 50096 AND\n2 1 50096 127862 127863 XOR\n2 1 127894 127863 79182 XOR\n2 1 76078 127863 50101 XOR\n2 1 80718 127863 50100 XOR\n2 1 50100 50101 50099 AND\n2 1 50099 127863 127864 XOR\n2 1 127895 127864 79183 XOR\n2 1 76079 127864 50104 XOR\n2 1 80719 127864 50103 XOR\n2 1 50103 50104 50102 AND\n2 1 50102 127864 127865 XOR\n2 1 127896 127865 79184 XOR\n2 1 9489 103585 103586 XOR\n2 1 103617 103586 931 XOR\n2 1 931 995 69586 XOR\n2 1 69586 69554 69522 AND\n2 1 69522 995 85844 XOR\n2 1 931 963 69458 XOR\n2 1 83828 103586 9494 XOR\n2 1 89972 103586 9493 XOR\n2 1 9493 9494 9492 AND\n2 1 9492 103586 103587 XOR\n2 1 83829 103587 9497 XOR\n2 1 103618 103587 932 XOR\n2 1 932 996 69587 XOR\n2 1 69587 69555 69523 AND\n2 1 69523 996 85845 XOR\n2 1 932 964 69459 XOR\n2 1 89973 103587 9496 XOR\n2 1 9496 9497 9495 AND\n2 1 9495 103587 103588 XOR\n2 1 83830 103588 9500 XOR\n2 1 75920 1535 112691 XOR\n2 1 23541 112635 112636 XOR\n",
"2 1 1511 112636 23546 XOR\n2 1 75896 112636 23545 XOR\n2 1 23545 23546 23544 AND\n2 1 23544 112636 112637 XOR\n2 1 1512 112637 23549 XOR\n2 1 112668 112637 94014 XOR\n2 1 96062 94014 112606 XOR\n2 1 75897 112637 23548 XOR\n2 1 23548 23549 23547 AND\n2 1 23547 112637 112638 XOR\n2 1 1513 112638 23552 XOR\n2 1 112669 112638 94015 XOR\n2 1 96063 94015 112607 XOR\n2 1 112667 112636 94013 XOR\n2 1 94013 112574 23456 XOR\n2 1 23455 23456 23454 AND\n2 1 23454 112574 112575 XOR\n2 1 94014 112575 23459 XOR\n2 1 96062 112575 23458 XOR\n2 1 96061 94013 112605 XOR\n2 1 23458 23459 23457 AND\n2 1 112605 112574 92013 XOR\n2 1 112606 112575 92014 XOR\n2 1 23457 112575 112576 XOR\n2 1 94015 112576 23462 XOR\n2 1 96063 112576 23461 XOR\n2 1 23461 23462 23460 AND\n2 1 112607 112576 92015 XOR\n1 1 92015 23423 INV\n2 1 23460 112576 112577 XOR\n2 1 96064 112577 23464 XOR\n2 1 75898 112638 23551 XOR\n2 1 23551 23552 23550 AND\n2 1 23550 112638 112639 XOR\n2 1 75899 112639 23554 XOR\n2 1 112670 112639 94016 XOR\n2 1 94016 112577 23465 XOR\n2 1 23464 23465 23463 AND\n2 1 1514 112639 23555 XOR\n2 1 23554 23555 23553 AND\n2 1 23553 112639 112640 XOR\n2 1 1515 112640 23558 XOR\n2 1 75900 112640 23557 XOR\n2 1 23463 112577 112578 XOR\n2 1 96065 112578 23467 XOR\n2 1 23557 23558 23556 AND\n2 1 23556 112640 112641 XOR\n2 1 75901 112641 23560 XOR\n2 1 112672 112641 94018 XOR\n2 1 96066 94018 112610 XOR\n2 1 1516 112641 23561 XOR\n2 1 23560 23561 23559 AND\n2 1 23559 112641 112642 XOR\n2 1 1517 112642 23564 XOR\n2 1 112673 112642 94019 XOR\n2 1 96067 94019 112611 XOR\n2 1 96064 94016 112608 XOR\n2 1 112608 112577 92016 XOR\n2 1 75902 112642 23563 XOR\n2 1 23563 23564 23562 AND\n2 1 23562 112642 112643 XOR\n2 1 75903 112643 23566 XOR\n2 1 1518 112643 23567 XOR\n2 1 23566 23567 23565 AND\n2 1 23565 112643 112644 XOR\n2 1 75904 112644 23569 XOR\n2 1 1519 112644 23570 XOR\n2 1 112675 112644 94021 XOR\n2 1 96069 94021 112613 XOR\n2 1 23569 23570 23568 AND\n2 1 23568 112644 112645 XOR\n2 1 1520 112645 23573 XOR\n2 1 112676 112645 94022 XOR\n2 1 96070 94022 112614 XOR\n2 1 75905 112645 23572 XOR\n2 1 23572 23573 23571 AND\n2 1 23571 112645 112646 XOR\n2 1 1521 112646 23576 XOR\n2 1 112677 112646 94023 XOR\n2 1 75906 112646 23575 XOR\n2 1 23575 23576 23574 AND\n2 1 23574 112646 112647 XOR\n2 1 75907 112647 23578 XOR\n2 1 112678 112647 94024 XOR\n2 1 96072 94024 112616 XOR\n2 1 96071 94023 112615 XOR\n2 1 1522 112647 23579 XOR\n2 1 23578 23579 23577 AND\n2 1 23577 112647 112648 XOR\n2 1 112679 112648 94025 XOR\n2 1 96073 94025 112617 XOR\n2 1 75908 112648 23581 XOR\n2 1 1523 112648 23582 XOR\n2 1 23581 23582 23580 AND\n2 1 23580 112648 112649 XOR\n2 1 75909 112649 23584 XOR\n2 1 112680 112649 94026 XOR\n2 1 1524 112649 23585 XOR\n2 1 23584 23585 23583 AND\n2 1 23583 112649 112650 XOR\n2 1 75910 112650 23587 XOR\n2 1 112681 112650 94027 XOR\n2 1 96075 94027 112619 XOR\n2 1 96074 94026 112618 XOR\n2 1 1525 112650 23588 XOR\n2 1 23587 23588 23586 AND\n2 1 23586 112650 112651 XOR\n2 1 112682 112651 94028 XOR\n2 1 1526 112651 23591 XOR\n2 1 75911 112651 23590 XOR\n2 1 23590 23591 23589 AND\n2 1 23589 112651 112652 XOR\n2 1 75912 112652 23593 XOR\n2 1 112683 112652 94029 XOR\n2 1 1527 112652 23594 XOR\n2 1 23593 23594 23592 AND\n2 1 23592 112652 112653 XOR\n2 1 1528 112653 23597 XOR\n2 1 75913 112653 23596 XOR\n2 1 112684 112653 94030 XOR\n2 1 23596 23597 23595 AND\n2 1 23595 112653 112654 XOR\n2 1 112685 112654 94031 XOR\n2 1 96079 94031 112623 XOR\n2 1 75914 112654 23599 XOR\n2 1 96076 94028 112620 XOR\n2 1 96077 94029 112621 XOR\n2 1 96078 94030 112622 XOR\n",
"2 1 1529 112654 23600 XOR\n2 1 23599 23600 23598 AND\n2 1 23598 112654 112655 XOR\n2 1 112686 112655 94032 XOR\n2 1 96080 94032 112624 XOR\n2 1 1530 112655 23603 XOR\n2 1 75915 112655 23602 XOR\n2 1 23602 23603 23601 AND\n2 1 23601 112655 112656 XOR\n2 1 75916 112656 23605 XOR\n2 1 1531 112656 23606 XOR\n2 1 23605 23606 23604 AND\n2 1 23604 112656 112657 XOR\n2 1 75917 112657 23608 XOR\n2 1 112688 112657 94034 XOR\n2 1 96082 94034 112626 XOR\n2 1 1532 112657 23609 XOR\n2 1 23608 23609 23607 AND\n2 1 23607 112657 112658 XOR\n2 1 1533 112658 23612 XOR\n2 1 75918 112658 23611 XOR\n2 1 23611 23612 23610 AND\n2 1 23610 112658 112659 XOR\n2 1 1534 112659 23615 XOR\n2 1 75919 112659 23614 XOR\n2 1 23614 23615 23613 AND\n2 1 112690 112659 94036 XOR\n2 1 96084 94036 112628 XOR\n2 1 112689 112658 94035 XOR\n2 1 96083 94035 112627 XOR\n2 1 23613 112659 112660 XOR\n2 1 112691 112660 94037 XOR\n2 1 96085 94037 112629 XOR\n2 1 112687 112656 94033 XOR\n2 1 96081 94033 112625 XOR\n2 1 112674 112643 94020 XOR\n2 1 96068 94020 112612 XOR\n2 1 112671 112640 94017 XOR\n2 1 96065 94017 112609 XOR\n2 1 112609 112578 92017 XOR\n2 1 94017 112578 23468 XOR\n2 1 23467 23468 23466 AND\n2 1 23466 112578 112579 XOR\n2 1 94018 112579 23471 XOR\n2 1 112610 112579 92018 XOR\n2 1 96066 112579 23470 XOR\n2 1 23470 23471 23469 AND\n2 1 23469 112579 112580 XOR\n2 1 94019 112580 23474 XOR\n2 1 96067 112580 23473 XOR\n2 1 23473 23474 23472 AND\n2 1 23472 112580 112581 XOR\n2 1 112612 112581 92020 XOR\n2 1 94020 112581 23477 XOR\n2 1 112611 112580 92019 XOR\n1 1 92020 23425 INV\n2 1 96068 112581 23476 XOR\n1 1 92017 23424 INV\n2 1 23476 23477 23475 AND\n2 1 23475 112581 112582 XOR\n2 1 112613 112582 92021 XOR\n2 1 94021 112582 23480 XOR\n2 1 96069 112582 23479 XOR\n2 1 23479 23480 23478 AND\n2 1 23478 112582 112583 XOR\n2 1 94022 112583 23483 XOR\n2 1 96070 112583 23482 XOR\n2 1 23482 23483 23481 AND\n2 1 23481 112583 112584 XOR\n2 1 112615 112584 92023 XOR\n1 1 92021 23426 INV\n2 1 94023 112584 23486 XOR\n2 1 96071 112584 23485 XOR\n2 1 23485 23486 23484 AND\n2 1 23484 112584 112585 XOR\n2 1 112616 112585 92024 XOR\n1 1 92024 23427 INV\n2 1 112614 112583 92022 XOR\n2 1 94024 112585 23489 XOR\n2 1 96072 112585 23488 XOR\n2 1 23488 23489 23487 AND\n2 1 23487 112585 112586 XOR\n2 1 94025 112586 23492 XOR\n2 1 112617 112586 92025 XOR\n1 1 92025 23428 INV\n2 1 96073 112586 23491 XOR\n2 1 23491 23492 23490 AND\n2 1 23490 112586 112587 XOR\n2 1 94026 112587 23495 XOR\n2 1 96074 112587 23494 XOR\n2 1 23494 23495 23493 AND\n2 1 23493 112587 112588 XOR\n2 1 112619 112588 92027 XOR\n2 1 112618 112587 92026 XOR\n1 1 92026 23429 INV\n2 1 94027 112588 23498 XOR\n2 1 96075 112588 23497 XOR\n2 1 23497 23498 23496 AND\n2 1 23496 112588 112589 XOR\n2 1 112620 112589 92028 XOR\n2 1 96076 112589 23500 XOR\n2 1 94028 112589 23501 XOR\n2 1 23500 23501 23499 AND\n2 1 23499 112589 112590 XOR\n2 1 112621 112590 92029 XOR\n2 1 96077 112590 23503 XOR\n2 1 94029 112590 23504 XOR\n2 1 23503 23504 23502 AND\n2 1 23502 112590 112591 XOR\n2 1 96078 112591 23506 XOR\n2 1 94030 112591 23507 XOR\n2 1 23506 23507 23505 AND\n2 1 23505 112591 112592 XOR\n2 1 112623 112592 92031 XOR\n1 1 92031 23432 INV\n2 1 96079 112592 23509 XOR\n2 1 112622 112591 92030 XOR\n2 1 94031 112592 23510 XOR\n2 1 23509 23510 23508 AND\n2 1 23508 112592 112593 XOR\n2 1 94032 112593 23513 XOR\n1 1 92030 23431 INV\n2 1 112624 112593 92032 XOR\n1 1 92029 23430 INV\n2 1 96080 112593 23512 XOR\n2 1 23512 23513 23511 AND\n2 1 23511 112593 112594 XOR\n2 1 96081 112594 23515 XOR\n",
"2 1 112625 112594 92033 XOR\n1 1 92033 23433 INV\n2 1 94033 112594 23516 XOR\n2 1 23515 23516 23514 AND\n2 1 23514 112594 112595 XOR\n2 1 112626 112595 92034 XOR\n1 1 92034 23434 INV\n2 1 96082 112595 23518 XOR\n2 1 94034 112595 23519 XOR\n2 1 23518 23519 23517 AND\n2 1 23517 112595 112596 XOR\n2 1 96083 112596 23521 XOR\n2 1 94035 112596 23522 XOR\n2 1 112627 112596 92035 XOR\n2 1 23521 23522 23520 AND\n2 1 23520 112596 112597 XOR\n2 1 96084 112597 23524 XOR\n2 1 112628 112597 92036 XOR\n1 1 92036 23435 INV\n2 1 94036 112597 23525 XOR\n2 1 23524 23525 23523 AND\n2 1 23523 112597 112598 XOR\n2 1 112629 112598 92037 XOR\n2 1 23334 23335 23337 XOR\n2 1 92011 23337 89974 XOR\n2 1 89974 23337 23336 AND\n2 1 23336 23337 23404 XOR\n2 1 92012 23404 23339 XOR\n2 1 23422 23404 89975 XOR\n2 1 89975 83831 103620 XOR\n2 1 1062 89975 103558 XOR\n1 1 23404 23340 INV\n2 1 23339 23340 23338 AND\n2 1 23338 23404 23342 XOR\n2 1 92013 23342 89976 XOR\n2 1 89976 23342 23341 AND\n2 1 23341 23342 23344 XOR\n2 1 92014 23344 89977 XOR\n2 1 89977 83833 103622 XOR\n2 1 1064 89977 103560 XOR\n2 1 89977 23344 23343 AND\n2 1 23343 23344 23405 XOR\n1 1 23405 23347 INV\n2 1 92015 23405 23346 XOR\n2 1 23423 23405 89978 XOR\n2 1 89978 83834 103623 XOR\n2 1 23346 23347 23345 AND\n2 1 23345 23405 23349 XOR\n2 1 1065 89978 103561 XOR\n2 1 92016 23349 89979 XOR\n2 1 89979 83835 103624 XOR\n2 1 89979 23349 23348 AND\n2 1 23348 23349 23406 XOR\n2 1 92017 23406 23351 XOR\n2 1 23424 23406 89980 XOR\n2 1 1067 89980 103563 XOR\n2 1 89980 83836 103625 XOR\n1 1 23406 23352 INV\n2 1 23351 23352 23350 AND\n2 1 23350 23406 23354 XOR\n2 1 92018 23354 89981 XOR\n2 1 89981 23354 23353 AND\n2 1 1068 89981 103564 XOR\n2 1 89981 83837 103626 XOR\n2 1 23353 23354 23356 XOR\n2 1 92019 23356 89982 XOR\n2 1 89982 23356 23355 AND\n2 1 89982 83838 103627 XOR\n2 1 1069 89982 103565 XOR\n2 1 23355 23356 23407 XOR\n2 1 23425 23407 89983 XOR\n2 1 89983 83839 103628 XOR\n1 1 23407 23359 INV\n2 1 1070 89983 103566 XOR\n2 1 1066 89979 103562 XOR\n2 1 92020 23407 23358 XOR\n2 1 23358 23359 23357 AND\n2 1 23357 23407 23408 XOR\n2 1 23426 23408 89984 XOR\n2 1 89984 83840 103629 XOR\n2 1 92021 23408 23361 XOR\n1 1 23408 23362 INV\n2 1 23361 23362 23360 AND\n2 1 23360 23408 23364 XOR\n2 1 92022 23364 89985 XOR\n2 1 1072 89985 103568 XOR\n2 1 89985 23364 23363 AND\n2 1 23363 23364 23366 XOR\n2 1 89985 83841 103630 XOR\n2 1 92023 23366 89986 XOR\n2 1 1073 89986 103569 XOR\n2 1 89986 83842 103631 XOR\n2 1 89986 23366 23365 AND\n2 1 23365 23366 23409 XOR\n1 1 23409 23369 INV\n2 1 92024 23409 23368 XOR\n2 1 23368 23369 23367 AND\n2 1 23367 23409 23410 XOR\n2 1 23428 23410 89988 XOR\n1 1 23410 23372 INV\n2 1 1075 89988 103571 XOR\n2 1 23427 23409 89987 XOR\n2 1 1074 89987 103570 XOR\n2 1 92025 23410 23371 XOR\n2 1 23371 23372 23370 AND\n2 1 23370 23410 23411 XOR\n2 1 92026 23411 23374 XOR\n1 1 23411 23375 INV\n2 1 23374 23375 23373 AND\n2 1 23373 23411 23377 XOR\n2 1 92027 23377 89990 XOR\n2 1 1077 89990 103573 XOR\n2 1 89990 23377 23376 AND\n2 1 23376 23377 23379 XOR\n2 1 92028 23379 89991 XOR\n2 1 1078 89991 103574 XOR\n2 1 23429 23411 89989 XOR\n2 1 1076 89989 103572 XOR\n2 1 1071 89984 103567 XOR\n2 1 89991 83847 103636 XOR\n2 1 89987 83843 103632 XOR\n2 1 89989 83845 103634 XOR\n2 1 89991 23379 23378 AND\n2 1 23378 23379 23412 XOR\n2 1 92029 23412 23381 XOR\n1 1 23412 23382 INV\n2 1 23430 23412 89992 XOR\n2 1 1079 89992 103575 XOR\n",
"2 1 89992 83848 103637 XOR\n2 1 89990 83846 103635 XOR\n2 1 89988 83844 103633 XOR\n2 1 23381 23382 23380 AND\n2 1 23380 23412 23413 XOR\n1 1 23413 23385 INV\n2 1 23431 23413 89993 XOR\n2 1 1080 89993 103576 XOR\n2 1 89993 83849 103638 XOR\n2 1 92030 23413 23384 XOR\n2 1 23384 23385 23383 AND\n2 1 23383 23413 23414 XOR\n2 1 92031 23414 23387 XOR\n2 1 23432 23414 89994 XOR\n2 1 89994 83850 103639 XOR\n2 1 1081 89994 103577 XOR\n1 1 23414 23388 INV\n2 1 23387 23388 23386 AND\n2 1 23386 23414 23390 XOR\n2 1 92032 23390 89995 XOR\n2 1 89995 83851 103640 XOR\n2 1 1082 89995 103578 XOR\n2 1 89995 23390 23389 AND\n2 1 23389 23390 23415 XOR\n2 1 92033 23415 23392 XOR\n1 1 23415 23393 INV\n2 1 23433 23415 89996 XOR\n2 1 1083 89996 103579 XOR\n2 1 89996 83852 103641 XOR\n2 1 23392 23393 23391 AND\n2 1 23391 23415 23416 XOR\n2 1 23434 23416 89997 XOR\n2 1 92034 23416 23395 XOR\n2 1 1084 89997 103580 XOR\n1 1 23416 23396 INV\n2 1 23395 23396 23394 AND\n2 1 23394 23416 23398 XOR\n2 1 92035 23398 89998 XOR\n2 1 89998 83854 103643 XOR\n2 1 89998 23398 23397 AND\n2 1 23397 23398 23417 XOR\n1 1 23417 23401 INV\n2 1 92036 23417 23400 XOR\n2 1 23400 23401 23399 AND\n2 1 23399 23417 23418 XOR\n2 1 23435 23417 89999 XOR\n2 1 1086 89999 103582 XOR\n2 1 89999 83855 103644 XOR\n2 1 92037 23418 90000 XOR\n2 1 90000 83856 103645 XOR\n2 1 1087 90000 103583 XOR\n2 1 1085 89998 103581 XOR\n2 1 89997 83853 103642 XOR\n2 1 1063 89976 103559 XOR\n2 1 89976 83832 103621 XOR\n2 1 1061 89974 103557 XOR\n2 1 89974 103526 9410 XOR\n2 1 9409 9410 9408 AND\n2 1 103557 103526 1381 XOR\n2 1 63380 1381 63348 AND\n2 1 63348 1445 98075 XOR\n2 1 1381 1413 63316 XOR\n2 1 1376 1381 61097 XOR\n2 1 9408 103526 103527 XOR\n2 1 1062 103527 9412 XOR\n2 1 89975 103527 9413 XOR\n2 1 9412 9413 9411 AND\n2 1 9411 103527 103528 XOR\n2 1 103559 103528 1383 XOR\n2 1 63382 1383 63350 AND\n2 1 63350 1447 98077 XOR\n2 1 1383 1415 63318 XOR\n2 1 89976 103528 9416 XOR\n2 1 1378 1383 61099 XOR\n2 1 103558 103527 1382 XOR\n2 1 63381 1382 63349 AND\n2 1 63349 1446 98076 XOR\n2 1 1382 1414 63317 XOR\n2 1 1377 1382 61098 XOR\n2 1 1063 103528 9415 XOR\n2 1 9415 9416 9414 AND\n2 1 9414 103528 103529 XOR\n2 1 1064 103529 9418 XOR\n2 1 89977 103529 9419 XOR\n2 1 9418 9419 9417 AND\n2 1 9417 103529 103530 XOR\n2 1 1065 103530 9421 XOR\n2 1 103561 103530 1385 XOR\n2 1 63384 1385 63352 AND\n2 1 63352 1449 98079 XOR\n2 1 1385 1417 63320 XOR\n2 1 89978 103530 9422 XOR\n2 1 9421 9422 9420 AND\n2 1 9420 103530 103531 XOR\n2 1 89979 103531 9425 XOR\n2 1 103562 103531 1386 XOR\n2 1 63385 1386 63353 AND\n2 1 63353 1450 98080 XOR\n2 1 1386 1418 63321 XOR\n2 1 1381 1386 61102 XOR\n2 1 1380 1385 61101 XOR\n2 1 103560 103529 1384 XOR\n2 1 63383 1384 63351 AND\n2 1 63351 1448 98078 XOR\n2 1 1384 1416 63319 XOR\n2 1 1379 1384 61100 XOR\n2 1 89974 103588 9499 XOR\n2 1 9499 9500 9498 AND\n2 1 9498 103588 103589 XOR\n2 1 89975 103589 9502 XOR\n2 1 83831 103589 9503 XOR\n2 1 9502 9503 9501 AND\n2 1 103620 103589 934 XOR\n2 1 934 998 69589 XOR\n2 1 69589 69557 69525 AND\n2 1 69525 998 85847 XOR\n2 1 934 966 69461 XOR\n2 1 9501 103589 103590 XOR\n2 1 103621 103590 935 XOR\n2 1 935 999 69590 XOR\n2 1 69590 69558 69526 AND\n2 1 69526 999 85848 XOR\n2 1 935 967 69462 XOR\n2 1 83832 103590 9506 XOR\n2 1 89976 103590 9505 XOR\n2 1 9505 9506 9504 AND\n2 1 9504 103590 103591 XOR\n2 1 103622 103591 936 XOR\n",
"2 1 936 1000 69591 XOR\n2 1 69591 69559 69527 AND\n2 1 69527 1000 85849 XOR\n2 1 936 968 69463 XOR\n2 1 89977 103591 9508 XOR\n2 1 83833 103591 9509 XOR\n2 1 9508 9509 9507 AND\n2 1 9507 103591 103592 XOR\n2 1 89978 103592 9511 XOR\n2 1 103623 103592 937 XOR\n2 1 937 1001 69592 XOR\n2 1 69592 69560 69528 AND\n2 1 69528 1001 85850 XOR\n2 1 937 969 69464 XOR\n2 1 83834 103592 9512 XOR\n2 1 9511 9512 9510 AND\n2 1 9510 103592 103593 XOR\n2 1 103624 103593 938 XOR\n2 1 938 1002 69593 XOR\n2 1 69593 69561 69529 AND\n2 1 69529 1002 85851 XOR\n2 1 938 970 69465 XOR\n2 1 83835 103593 9515 XOR\n2 1 89979 103593 9514 XOR\n2 1 9514 9515 9513 AND\n2 1 9513 103593 103594 XOR\n2 1 89980 103594 9517 XOR\n2 1 103625 103594 939 XOR\n2 1 939 1003 69594 XOR\n2 1 69594 69562 69530 AND\n2 1 69530 1003 85852 XOR\n2 1 939 971 69466 XOR\n2 1 928 939 67021 XOR\n2 1 83836 103594 9518 XOR\n2 1 9517 9518 9516 AND\n2 1 9516 103594 103595 XOR\n2 1 103626 103595 940 XOR\n2 1 940 1004 69595 XOR\n2 1 69595 69563 69531 AND\n2 1 69531 1004 85853 XOR\n2 1 940 972 69467 XOR\n2 1 929 940 67022 XOR\n2 1 89981 103595 9520 XOR\n2 1 83837 103595 9521 XOR\n2 1 9520 9521 9519 AND\n2 1 9519 103595 103596 XOR\n2 1 89982 103596 9523 XOR\n2 1 83838 103596 9524 XOR\n2 1 9523 9524 9522 AND\n2 1 103627 103596 941 XOR\n2 1 941 1005 69596 XOR\n2 1 69596 69564 69532 AND\n2 1 69532 1005 85854 XOR\n2 1 941 973 69468 XOR\n2 1 930 941 66991 XOR\n2 1 9522 103596 103597 XOR\n2 1 83839 103597 9527 XOR\n2 1 89983 103597 9526 XOR\n2 1 9526 9527 9525 AND\n2 1 9525 103597 103598 XOR\n2 1 83840 103598 9530 XOR\n2 1 103629 103598 943 XOR\n2 1 943 1007 69598 XOR\n2 1 69598 69566 69534 AND\n2 1 69534 1007 85856 XOR\n2 1 943 975 69470 XOR\n2 1 932 943 66993 XOR\n2 1 103628 103597 942 XOR\n2 1 942 1006 69597 XOR\n2 1 69597 69565 69533 AND\n2 1 69533 1006 85855 XOR\n2 1 942 974 69469 XOR\n2 1 931 942 66992 XOR\n2 1 89984 103598 9529 XOR\n2 1 89974 83830 103619 XOR\n2 1 103619 103588 933 XOR\n2 1 933 997 69588 XOR\n2 1 69588 69556 69524 AND\n2 1 69524 997 85846 XOR\n2 1 933 965 69460 XOR\n2 1 9529 9530 9528 AND\n2 1 9528 103598 103599 XOR\n2 1 103630 103599 944 XOR\n2 1 944 1008 69599 XOR\n2 1 69599 69567 69535 AND\n2 1 69535 1008 85857 XOR\n2 1 944 976 69471 XOR\n2 1 83841 103599 9533 XOR\n2 1 933 944 66994 XOR\n2 1 89985 103599 9532 XOR\n2 1 9532 9533 9531 AND\n2 1 9531 103599 103600 XOR\n2 1 83842 103600 9536 XOR\n2 1 89986 103600 9535 XOR\n2 1 9535 9536 9534 AND\n2 1 9534 103600 103601 XOR\n2 1 103632 103601 946 XOR\n2 1 946 1010 69601 XOR\n2 1 69601 69569 69537 AND\n2 1 69537 1010 85859 XOR\n2 1 946 978 69473 XOR\n2 1 89987 103601 9538 XOR\n2 1 935 946 66996 XOR\n2 1 83843 103601 9539 XOR\n2 1 9538 9539 9537 AND\n2 1 9537 103601 103602 XOR\n2 1 83844 103602 9542 XOR\n2 1 89988 103602 9541 XOR\n2 1 9541 9542 9540 AND\n2 1 103633 103602 947 XOR\n2 1 947 1011 69602 XOR\n2 1 69602 69570 69538 AND\n2 1 69538 1011 85860 XOR\n2 1 947 979 69474 XOR\n2 1 936 947 66997 XOR\n2 1 9540 103602 103603 XOR\n2 1 83845 103603 9545 XOR\n2 1 89989 103603 9544 XOR\n2 1 9544 9545 9543 AND\n2 1 9543 103603 103604 XOR\n2 1 89990 103604 9547 XOR\n2 1 83846 103604 9548 XOR\n2 1 9547 9548 9546 AND\n2 1 103635 103604 949 XOR\n2 1 949 1013 69604 XOR\n2 1 69604 69572 69540 AND\n2 1 69540 1013 85862 XOR\n2 1 949 981 69476 XOR\n",
"2 1 949 928 67010 XOR\n2 1 938 949 66999 XOR\n2 1 67022 949 87920 XOR\n2 1 67010 937 87908 XOR\n2 1 87908 85860 112307 XOR\n2 1 9546 103604 103605 XOR\n2 1 103636 103605 950 XOR\n2 1 950 1014 69605 XOR\n2 1 69605 69573 69541 AND\n2 1 69541 1014 85863 XOR\n2 1 950 982 69477 XOR\n2 1 950 929 67011 XOR\n2 1 939 950 67000 XOR\n2 1 67011 938 87909 XOR\n2 1 66991 950 87889 XOR\n2 1 83847 103605 9551 XOR\n2 1 89991 103605 9550 XOR\n2 1 9550 9551 9549 AND\n2 1 9549 103605 103606 XOR\n2 1 83848 103606 9554 XOR\n2 1 103637 103606 951 XOR\n2 1 951 1015 69606 XOR\n2 1 69606 69574 69542 AND\n2 1 69542 1015 85864 XOR\n2 1 951 983 69478 XOR\n2 1 951 930 67012 XOR\n2 1 940 951 67001 XOR\n2 1 67012 939 87910 XOR\n2 1 87910 85862 112309 XOR\n2 1 67001 928 87899 XOR\n2 1 66992 951 87890 XOR\n2 1 87889 85841 112258 AND\n2 1 87890 112258 22764 XOR\n2 1 87889 85841 83793 XOR\n2 1 87890 85842 112289 XOR\n2 1 87899 85851 112298 XOR\n2 1 89992 103606 9553 XOR\n2 1 9553 9554 9552 AND\n2 1 9552 103606 103607 XOR\n2 1 89993 103607 9556 XOR\n2 1 83849 103607 9557 XOR\n2 1 9556 9557 9555 AND\n2 1 9555 103607 103608 XOR\n2 1 103639 103608 953 XOR\n2 1 953 1017 69608 XOR\n2 1 69608 69576 69544 AND\n2 1 69544 1017 85866 XOR\n2 1 953 985 69480 XOR\n2 1 953 932 67014 XOR\n2 1 942 953 67003 XOR\n2 1 67014 941 87912 XOR\n2 1 87912 85864 112311 XOR\n2 1 67003 930 87901 XOR\n2 1 66994 953 87892 XOR\n2 1 89994 103608 9559 XOR\n2 1 83850 103608 9560 XOR\n2 1 9559 9560 9558 AND\n2 1 9558 103608 103609 XOR\n2 1 103640 103609 954 XOR\n2 1 954 1018 69609 XOR\n2 1 69609 69577 69545 AND\n2 1 69545 1018 85867 XOR\n2 1 954 986 69481 XOR\n2 1 954 933 67015 XOR\n2 1 943 954 67004 XOR\n2 1 67015 942 87913 XOR\n2 1 67004 931 87902 XOR\n2 1 83851 103609 9563 XOR\n2 1 89995 103609 9562 XOR\n2 1 9562 9563 9561 AND\n2 1 9561 103609 103610 XOR\n2 1 83852 103610 9566 XOR\n2 1 103641 103610 955 XOR\n2 1 955 1019 69610 XOR\n2 1 69610 69578 69546 AND\n2 1 69546 1019 85868 XOR\n2 1 955 987 69482 XOR\n2 1 955 934 67016 XOR\n2 1 944 955 67005 XOR\n2 1 67016 943 87914 XOR\n2 1 87914 85866 112313 XOR\n2 1 67005 932 87903 XOR\n2 1 66996 955 87894 XOR\n2 1 89996 103610 9565 XOR\n2 1 9565 9566 9564 AND\n2 1 9564 103610 103611 XOR\n2 1 103642 103611 956 XOR\n2 1 956 1020 69611 XOR\n2 1 69611 69579 69547 AND\n2 1 69547 1020 85869 XOR\n2 1 956 988 69483 XOR\n2 1 83853 103611 9569 XOR\n2 1 956 935 67017 XOR\n2 1 67017 944 87915 XOR\n2 1 66997 956 87895 XOR\n2 1 89997 103611 9568 XOR\n2 1 9568 9569 9567 AND\n2 1 9567 103611 103612 XOR\n2 1 89998 103612 9571 XOR\n2 1 103643 103612 957 XOR\n2 1 957 1021 69612 XOR\n2 1 69612 69580 69548 AND\n2 1 69548 1021 85870 XOR\n2 1 957 989 69484 XOR\n2 1 957 936 67018 XOR\n2 1 946 957 67007 XOR\n2 1 67007 934 87905 XOR\n2 1 83854 103612 9572 XOR\n2 1 9571 9572 9570 AND\n2 1 9570 103612 103613 XOR\n2 1 83855 103613 9575 XOR\n2 1 89999 103613 9574 XOR\n2 1 9574 9575 9573 AND\n2 1 9573 103613 103614 XOR\n2 1 103645 103614 959 XOR\n2 1 959 1023 69614 XOR\n2 1 69614 69582 69550 AND\n2 1 69550 1023 85872 XOR\n2 1 959 991 69486 XOR\n2 1 87920 85872 112319 XOR\n2 1 959 938 67020 XOR\n2 1 67020 947 87918 XOR\n2 1 87918 85870 112317 XOR\n2 1 67000 959 87898 XOR\n2 1 103644 103613 958 XOR\n2 1 958 1022 69613 XOR\n2 1 69613 69581 69549 AND\n2 1 69549 1022 85871 XOR\n",
"2 1 958 990 69485 XOR\n2 1 958 937 67019 XOR\n2 1 947 958 67008 XOR\n2 1 67019 946 87917 XOR\n2 1 67008 935 87906 XOR\n2 1 66999 958 87897 XOR\n2 1 87892 85844 112291 XOR\n2 1 87894 85846 112293 XOR\n2 1 87895 85847 112294 XOR\n2 1 87897 85849 112296 XOR\n2 1 87898 85850 112297 XOR\n2 1 87901 85853 112300 XOR\n2 1 87902 85854 112301 XOR\n2 1 87903 85855 112302 XOR\n2 1 87905 85857 112304 XOR\n2 1 103638 103607 952 XOR\n2 1 952 1016 69607 XOR\n2 1 69607 69575 69543 AND\n2 1 69543 1016 85865 XOR\n2 1 952 984 69479 XOR\n2 1 952 931 67013 XOR\n2 1 941 952 67002 XOR\n2 1 67013 940 87911 XOR\n2 1 67002 929 87900 XOR\n2 1 66993 952 87891 XOR\n2 1 87891 85843 112290 XOR\n2 1 87900 85852 112299 XOR\n2 1 103634 103603 948 XOR\n2 1 948 1012 69603 XOR\n2 1 69603 69571 69539 AND\n2 1 69539 1012 85861 XOR\n2 1 948 980 69475 XOR\n2 1 948 959 67009 XOR\n2 1 937 948 66998 XOR\n2 1 67021 948 87919 XOR\n2 1 67009 936 87907 XOR\n2 1 66998 957 87896 XOR\n2 1 87896 85848 112295 XOR\n2 1 1066 103531 9424 XOR\n2 1 9424 9425 9423 AND\n2 1 9423 103531 103532 XOR\n2 1 1067 103532 9427 XOR\n2 1 103563 103532 1387 XOR\n2 1 63386 1387 63354 AND\n2 1 63354 1451 98081 XOR\n2 1 1387 1419 63322 XOR\n2 1 1382 1387 61071 XOR\n2 1 89980 103532 9428 XOR\n2 1 9427 9428 9426 AND\n2 1 9426 103532 103533 XOR\n2 1 1068 103533 9430 XOR\n2 1 103564 103533 1388 XOR\n2 1 89981 103533 9431 XOR\n2 1 9430 9431 9429 AND\n2 1 9429 103533 103534 XOR\n2 1 89982 103534 9434 XOR\n2 1 1069 103534 9433 XOR\n2 1 9433 9434 9432 AND\n2 1 9432 103534 103535 XOR\n2 1 103566 103535 1390 XOR\n2 1 103565 103534 1389 XOR\n2 1 63389 1390 63357 AND\n2 1 63388 1389 63356 AND\n2 1 63387 1388 63355 AND\n2 1 63357 1454 98084 XOR\n2 1 63356 1453 98083 XOR\n2 1 63355 1452 98082 XOR\n2 1 1390 1422 63325 XOR\n2 1 1389 1421 63324 XOR\n2 1 1388 1420 63323 XOR\n2 1 89983 103535 9437 XOR\n2 1 1385 1390 61074 XOR\n2 1 1384 1389 61073 XOR\n2 1 1383 1388 61072 XOR\n2 1 1070 103535 9436 XOR\n2 1 9436 9437 9435 AND\n2 1 9435 103535 103536 XOR\n2 1 1071 103536 9439 XOR\n2 1 89984 103536 9440 XOR\n2 1 9439 9440 9438 AND\n2 1 9438 103536 103537 XOR\n2 1 89985 103537 9443 XOR\n2 1 1072 103537 9442 XOR\n2 1 9442 9443 9441 AND\n2 1 9441 103537 103538 XOR\n2 1 1073 103538 9445 XOR\n2 1 89986 103538 9446 XOR\n2 1 9445 9446 9444 AND\n2 1 103568 103537 1392 XOR\n2 1 63391 1392 63359 AND\n2 1 63359 1456 98086 XOR\n2 1 1392 1424 63327 XOR\n2 1 1387 1392 61076 XOR\n2 1 103569 103538 1393 XOR\n2 1 63392 1393 63360 AND\n2 1 63360 1457 98087 XOR\n2 1 1393 1425 63328 XOR\n2 1 1388 1393 61077 XOR\n2 1 103567 103536 1391 XOR\n2 1 63390 1391 63358 AND\n2 1 63358 1455 98085 XOR\n2 1 1391 1423 63326 XOR\n2 1 1386 1391 61075 XOR\n2 1 9444 103538 103539 XOR\n2 1 89987 103539 9449 XOR\n2 1 103570 103539 1394 XOR\n2 1 63393 1394 63361 AND\n2 1 63361 1458 98088 XOR\n2 1 1394 1426 63329 XOR\n2 1 1389 1394 61078 XOR\n2 1 61078 1376 100125 XOR\n2 1 100125 98077 112481 XOR\n2 1 103631 103600 945 XOR\n2 1 945 1009 69600 XOR\n2 1 69600 69568 69536 AND\n2 1 69536 1009 85858 XOR\n2 1 945 977 69472 XOR\n2 1 945 956 67006 XOR\n2 1 934 945 66995 XOR\n2 1 67018 945 87916 XOR\n2 1 67006 933 87904 XOR\n2 1 66995 954 87893 XOR\n2 1 87916 85868 112315 XOR\n2 1 87893 85845 112292 XOR\n2 1 87904 85856 112303 XOR\n2 1 87906 85858 112305 XOR\n2 1 1074 103539 9448 XOR\n2 1 9448 9449 9447 AND\n",
"2 1 9447 103539 103540 XOR\n2 1 103571 103540 1395 XOR\n2 1 89988 103540 9452 XOR\n2 1 1075 103540 9451 XOR\n2 1 9451 9452 9450 AND\n2 1 63394 1395 63362 AND\n2 1 63362 1459 98089 XOR\n2 1 1395 1427 63330 XOR\n2 1 1390 1395 61079 XOR\n2 1 61097 1395 100144 XOR\n2 1 61079 1377 100126 XOR\n2 1 100126 98078 112482 XOR\n2 1 9450 103540 103541 XOR\n2 1 103572 103541 1396 XOR\n2 1 1076 103541 9454 XOR\n2 1 89989 103541 9455 XOR\n2 1 9454 9455 9453 AND\n2 1 9453 103541 103542 XOR\n2 1 63395 1396 63363 AND\n2 1 63363 1460 98090 XOR\n2 1 1396 1428 63331 XOR\n2 1 89990 103542 9458 XOR\n2 1 103573 103542 1397 XOR\n2 1 63396 1397 63364 AND\n2 1 63364 1461 98091 XOR\n2 1 1397 1429 63332 XOR\n2 1 1392 1397 61081 XOR\n2 1 1391 1396 61080 XOR\n2 1 61099 1397 100146 XOR\n2 1 61098 1396 100145 XOR\n2 1 61081 1379 100128 XOR\n2 1 100128 98080 112484 XOR\n2 1 61080 1378 100127 XOR\n2 1 100127 98079 112483 XOR\n2 1 1077 103542 9457 XOR\n2 1 9457 9458 9456 AND\n2 1 9456 103542 103543 XOR\n2 1 1078 103543 9460 XOR\n2 1 89991 103543 9461 XOR\n2 1 9460 9461 9459 AND\n2 1 9459 103543 103544 XOR\n2 1 103575 103544 1399 XOR\n2 1 63398 1399 63366 AND\n2 1 63366 1463 98093 XOR\n2 1 1399 1431 63334 XOR\n2 1 1394 1399 61083 XOR\n2 1 61101 1399 100148 XOR\n2 1 61083 1381 100130 XOR\n2 1 100130 98082 112486 XOR\n2 1 103574 103543 1398 XOR\n2 1 63397 1398 63365 AND\n2 1 63365 1462 98092 XOR\n2 1 1398 1430 63333 XOR\n2 1 1393 1398 61082 XOR\n2 1 61100 1398 100147 XOR\n2 1 61082 1380 100129 XOR\n2 1 100129 98081 112485 XOR\n2 1 1079 103544 9463 XOR\n2 1 89992 103544 9464 XOR\n2 1 9463 9464 9462 AND\n2 1 9462 103544 103545 XOR\n2 1 1080 103545 9466 XOR\n2 1 89993 103545 9467 XOR\n2 1 9466 9467 9465 AND\n2 1 9465 103545 103546 XOR\n2 1 103577 103546 1401 XOR\n2 1 63400 1401 63368 AND\n2 1 63368 1465 98095 XOR\n2 1 1401 1433 63336 XOR\n2 1 103576 103545 1400 XOR\n2 1 63399 1400 63367 AND\n2 1 63367 1464 98094 XOR\n2 1 1400 1432 63335 XOR\n2 1 1396 1401 61085 XOR\n2 1 1395 1400 61084 XOR\n2 1 61102 1400 100149 XOR\n2 1 61085 1383 100132 XOR\n2 1 100132 98084 112488 XOR\n2 1 61084 1382 100131 XOR\n2 1 100131 98083 112487 XOR\n2 1 61071 1401 100118 XOR\n2 1 100118 98070 96022 XOR\n2 1 100118 98070 112444 AND\n2 1 98071 112444 23148 XOR\n2 1 1081 103546 9469 XOR\n2 1 89994 103546 9470 XOR\n2 1 9469 9470 9468 AND\n2 1 9468 103546 103547 XOR\n2 1 89995 103547 9473 XOR\n2 1 1082 103547 9472 XOR\n2 1 9472 9473 9471 AND\n2 1 9471 103547 103548 XOR\n2 1 103579 103548 1403 XOR\n2 1 1083 103548 9475 XOR\n2 1 89996 103548 9476 XOR\n2 1 9475 9476 9474 AND\n2 1 9474 103548 103549 XOR\n2 1 63402 1403 63370 AND\n2 1 63370 1467 98097 XOR\n2 1 100145 98097 112501 XOR\n2 1 1403 1435 63338 XOR\n2 1 1084 103549 9478 XOR\n2 1 1403 1376 61092 XOR\n2 1 1398 1403 61087 XOR\n2 1 61092 1390 100139 XOR\n2 1 100139 98091 112495 XOR\n2 1 61087 1385 100134 XOR\n2 1 100134 98086 112490 XOR\n2 1 61073 1403 100120 XOR\n2 1 100120 98072 112476 XOR\n2 1 103580 103549 1404 XOR\n2 1 63403 1404 63371 AND\n2 1 63371 1468 98098 XOR\n2 1 1404 1436 63339 XOR\n2 1 100146 98098 112502 XOR\n2 1 1404 1377 61093 XOR\n2 1 1399 1404 61088 XOR\n2 1 61093 1391 100140 XOR\n2 1 100140 98092 112496 XOR\n2 1 61088 1386 100135 XOR\n2 1 100135 98087 112491 XOR\n2 1 61074 1404 100121 XOR\n2 1 100121 98073 112477 XOR\n2 1 89997 103549 9479 XOR\n2 1 9478 9479 9477 AND\n2 1 9477 103549 103550 XOR\n2 1 89998 103550 9482 XOR\n2 1 1085 103550 9481 XOR\n",
"2 1 9481 9482 9480 AND\n2 1 9480 103550 103551 XOR\n2 1 103582 103551 1406 XOR\n2 1 63405 1406 63373 AND\n2 1 63373 1470 98100 XOR\n2 1 1406 1438 63341 XOR\n2 1 1406 1379 61095 XOR\n2 1 1401 1406 61090 XOR\n2 1 61095 1393 100142 XOR\n2 1 61090 1388 100137 XOR\n2 1 100137 98089 112493 XOR\n2 1 61076 1406 100123 XOR\n2 1 100123 98075 112479 XOR\n2 1 100142 98094 112498 XOR\n2 1 1086 103551 9484 XOR\n2 1 89999 103551 9485 XOR\n2 1 103578 103547 1402 XOR\n2 1 63401 1402 63369 AND\n2 1 63369 1466 98096 XOR\n2 1 100144 98096 112500 XOR\n2 1 1402 1434 63337 XOR\n2 1 1397 1402 61086 XOR\n2 1 61086 1384 100133 XOR\n2 1 61072 1402 100119 XOR\n2 1 100119 98071 112475 XOR\n2 1 112475 112444 96023 XOR\n2 1 100119 112444 23147 XOR\n2 1 23147 23148 23146 AND\n2 1 23146 112444 112445 XOR\n2 1 100120 112445 23150 XOR\n2 1 112476 112445 96024 XOR\n2 1 100133 98085 112489 XOR\n2 1 98072 112445 23151 XOR\n2 1 23150 23151 23149 AND\n2 1 23149 112445 112446 XOR\n2 1 100121 112446 23153 XOR\n2 1 98073 112446 23154 XOR\n2 1 112477 112446 96025 XOR\n2 1 23153 23154 23152 AND\n2 1 23152 112446 112447 XOR\n2 1 98074 112447 23157 XOR\n2 1 9484 9485 9483 AND\n2 1 9483 103551 103552 XOR\n2 1 103583 103552 1407 XOR\n2 1 63406 1407 63374 AND\n2 1 63374 1471 98101 XOR\n2 1 1407 1439 63342 XOR\n2 1 1407 1380 61096 XOR\n2 1 1402 1407 61091 XOR\n2 1 61096 1394 100143 XOR\n2 1 61091 1389 100138 XOR\n2 1 100138 98090 112494 XOR\n2 1 61077 1407 100124 XOR\n2 1 100124 98076 112480 XOR\n2 1 100149 98101 112505 XOR\n2 1 100148 98100 112504 XOR\n2 1 103581 103550 1405 XOR\n2 1 63404 1405 63372 AND\n2 1 63372 1469 98099 XOR\n2 1 100147 98099 112503 XOR\n2 1 1405 1437 63340 XOR\n2 1 1405 1378 61094 XOR\n2 1 1400 1405 61089 XOR\n2 1 61094 1392 100141 XOR\n2 1 100141 98093 112497 XOR\n2 1 61089 1387 100136 XOR\n2 1 100136 98088 112492 XOR\n2 1 61075 1405 100122 XOR\n2 1 100122 98074 112478 XOR\n2 1 112478 112447 96026 XOR\n2 1 100122 112447 23156 XOR\n2 1 23156 23157 23155 AND\n2 1 23155 112447 112448 XOR\n2 1 112479 112448 96027 XOR\n2 1 100123 112448 23159 XOR\n2 1 98075 112448 23160 XOR\n2 1 23159 23160 23158 AND\n2 1 23158 112448 112449 XOR\n2 1 98076 112449 23163 XOR\n2 1 100124 112449 23162 XOR\n2 1 112480 112449 96028 XOR\n2 1 23162 23163 23161 AND\n2 1 23161 112449 112450 XOR\n2 1 112481 112450 96029 XOR\n2 1 100125 112450 23165 XOR\n2 1 98077 112450 23166 XOR\n2 1 23165 23166 23164 AND\n2 1 23164 112450 112451 XOR\n2 1 98078 112451 23169 XOR\n2 1 112482 112451 96030 XOR\n2 1 100126 112451 23168 XOR\n2 1 23168 23169 23167 AND\n2 1 23167 112451 112452 XOR\n2 1 98079 112452 23172 XOR\n2 1 100127 112452 23171 XOR\n2 1 23171 23172 23170 AND\n2 1 112483 112452 96031 XOR\n2 1 23170 112452 112453 XOR\n2 1 98080 112453 23175 XOR\n2 1 112484 112453 96032 XOR\n2 1 100128 112453 23174 XOR\n2 1 23174 23175 23173 AND\n2 1 23173 112453 112454 XOR\n2 1 112485 112454 96033 XOR\n2 1 98081 112454 23178 XOR\n2 1 100129 112454 23177 XOR\n2 1 23177 23178 23176 AND\n2 1 23176 112454 112455 XOR\n2 1 98082 112455 23181 XOR\n2 1 100130 112455 23180 XOR\n2 1 23180 23181 23179 AND\n2 1 23179 112455 112456 XOR\n2 1 100131 112456 23183 XOR\n2 1 98083 112456 23184 XOR\n2 1 112487 112456 96035 XOR\n2 1 23183 23184 23182 AND\n2 1 23182 112456 112457 XOR\n2 1 98084 112457 23187 XOR\n2 1 112486 112455 96034 XOR\n2 1 112488 112457 96036 XOR\n2 1 100132 112457 23186 XOR\n2 1 23186 23187 23185 AND\n2 1 23185 112457 112458 XOR\n2 1 100133 112458 23189 XOR\n2 1 98085 112458 23190 XOR\n2 1 23189 23190 23188 AND\n2 1 23188 112458 112459 XOR\n2 1 100134 112459 23192 XOR\n",
"2 1 112490 112459 96038 XOR\n2 1 98086 112459 23193 XOR\n2 1 23192 23193 23191 AND\n2 1 23191 112459 112460 XOR\n2 1 98087 112460 23196 XOR\n2 1 112491 112460 96039 XOR\n2 1 112489 112458 96037 XOR\n2 1 100135 112460 23195 XOR\n2 1 23195 23196 23194 AND\n2 1 23194 112460 112461 XOR\n2 1 98088 112461 23199 XOR\n2 1 112492 112461 96040 XOR\n2 1 100136 112461 23198 XOR\n2 1 23198 23199 23197 AND\n2 1 23197 112461 112462 XOR\n2 1 112493 112462 96041 XOR\n2 1 100137 112462 23201 XOR\n2 1 98089 112462 23202 XOR\n2 1 23201 23202 23200 AND\n2 1 23200 112462 112463 XOR\n2 1 100138 112463 23204 XOR\n2 1 112494 112463 96042 XOR\n2 1 98090 112463 23205 XOR\n2 1 23204 23205 23203 AND\n2 1 23203 112463 112464 XOR\n2 1 98091 112464 23208 XOR\n2 1 112495 112464 96043 XOR\n2 1 100139 112464 23207 XOR\n2 1 23207 23208 23206 AND\n2 1 23206 112464 112465 XOR\n2 1 112496 112465 96044 XOR\n2 1 100140 112465 23210 XOR\n2 1 98092 112465 23211 XOR\n2 1 23210 23211 23209 AND\n2 1 23209 112465 112466 XOR\n2 1 100141 112466 23213 XOR\n2 1 112497 112466 96045 XOR\n2 1 98093 112466 23214 XOR\n2 1 23213 23214 23212 AND\n2 1 23212 112466 112467 XOR\n2 1 100142 112467 23216 XOR\n2 1 112498 112467 96046 XOR\n2 1 98094 112467 23217 XOR\n2 1 23216 23217 23215 AND\n2 1 23215 112467 112468 XOR\n2 1 98095 112468 23220 XOR\n2 1 100143 112468 23219 XOR\n2 1 23219 23220 23218 AND\n2 1 23218 112468 112469 XOR\n2 1 98096 112469 23223 XOR\n2 1 100144 112469 23222 XOR\n2 1 23222 23223 23221 AND\n2 1 23221 112469 112470 XOR\n2 1 98097 112470 23226 XOR\n2 1 112501 112470 96049 XOR\n2 1 112500 112469 96048 XOR\n2 1 100145 112470 23225 XOR\n2 1 23225 23226 23224 AND\n2 1 23224 112470 112471 XOR\n2 1 112502 112471 96050 XOR\n2 1 100146 112471 23228 XOR\n2 1 98098 112471 23229 XOR\n2 1 23228 23229 23227 AND\n2 1 23227 112471 112472 XOR\n2 1 100147 112472 23231 XOR\n2 1 98099 112472 23232 XOR\n2 1 23231 23232 23230 AND\n2 1 23230 112472 112473 XOR\n2 1 112504 112473 96052 XOR\n2 1 98100 112473 23235 XOR\n2 1 112503 112472 96051 XOR\n2 1 100148 112473 23234 XOR\n2 1 23234 23235 23233 AND\n2 1 23233 112473 112474 XOR\n2 1 112505 112474 96053 XOR\n2 1 100143 98095 112499 XOR\n2 1 112499 112468 96047 XOR\n2 1 76343 76354 82288 XOR\n2 1 82288 76400 128020 XOR\n2 1 76342 76353 82287 XOR\n2 1 82287 76399 128019 XOR\n2 1 76341 76352 82286 XOR\n2 1 82286 76398 128018 XOR\n2 1 76340 76351 5009 XOR\n2 1 76339 76350 5008 XOR\n2 1 76338 76349 5007 XOR\n2 1 76337 76348 5006 XOR\n2 1 76368 76347 5005 XOR\n2 1 76367 76346 5004 XOR\n2 1 76366 76345 5003 XOR\n2 1 76365 76344 5002 XOR\n2 1 76364 76343 5001 XOR\n2 1 76363 76342 5000 XOR\n2 1 76362 76341 4999 XOR\n2 1 76361 76340 4998 XOR\n2 1 76360 76339 4997 XOR\n2 1 76359 76338 4996 XOR\n2 1 76358 76337 4995 XOR\n2 1 76357 76368 4994 XOR\n2 1 76356 76367 4993 XOR\n2 1 76355 76366 4992 XOR\n2 1 76354 76365 4991 XOR\n2 1 76353 76364 4990 XOR\n2 1 76352 76363 4989 XOR\n2 1 76351 76362 4988 XOR\n2 1 76350 76361 4987 XOR\n2 1 76349 76360 4986 XOR\n2 1 76348 76359 4985 XOR\n2 1 76347 76358 4984 XOR\n2 1 76346 76357 4983 XOR\n2 1 76345 76356 4982 XOR\n2 1 76344 76355 4981 XOR\n2 1 5009 76368 82285 XOR\n2 1 82285 76397 128017 XOR\n2 1 5008 76367 82284 XOR\n2 1 82284 76396 128016 XOR\n2 1 5007 76366 82283 XOR\n2 1 82283 76395 128015 XOR\n2 1 5006 76365 82282 XOR\n2 1 82282 76394 128014 XOR\n2 1 5005 76364 82281 XOR\n2 1 82281 76393 128013 XOR\n2 1 5004 76363 82280 XOR\n2 1 82280 76392 128012 XOR\n2 1 5003 76362 82279 XOR\n2 1 82279 76391 128011 XOR\n2 1 5002 76361 82278 XOR\n2 1 82278 76390 128010 XOR\n",
"2 1 5001 76360 82277 XOR\n2 1 82277 76389 128009 XOR\n2 1 5000 76359 82276 XOR\n2 1 82276 76388 128008 XOR\n2 1 4999 76358 82275 XOR\n2 1 82275 76387 128007 XOR\n2 1 4998 76357 82274 XOR\n2 1 82274 76386 128006 XOR\n2 1 4997 76356 82273 XOR\n2 1 82273 76385 128005 XOR\n2 1 4996 76355 82272 XOR\n2 1 82272 76384 128004 XOR\n2 1 4995 76354 82271 XOR\n2 1 82271 76383 128003 XOR\n2 1 4994 76353 82270 XOR\n2 1 82270 76382 128002 XOR\n2 1 4993 76352 82269 XOR\n2 1 82269 76381 128001 XOR\n2 1 4992 76351 82268 XOR\n2 1 82268 76380 128000 XOR\n2 1 4991 76350 82267 XOR\n2 1 82267 76379 127999 XOR\n2 1 4990 76349 82266 XOR\n2 1 82266 76378 127998 XOR\n2 1 4989 76348 82265 XOR\n2 1 82265 76377 127997 XOR\n2 1 4988 76347 82264 XOR\n2 1 82264 76376 127996 XOR\n2 1 4987 76346 82263 XOR\n2 1 82263 76375 127995 XOR\n2 1 4986 76345 82262 XOR\n2 1 82262 76374 127994 XOR\n2 1 4985 76344 82261 XOR\n2 1 82261 76373 127993 XOR\n2 1 4984 76343 82260 XOR\n2 1 82260 76372 127992 XOR\n2 1 4983 76342 82259 XOR\n2 1 82259 76371 127991 XOR\n2 1 4982 76341 82258 XOR\n2 1 82258 76370 127990 XOR\n2 1 4981 76340 82257 XOR\n2 1 82257 76369 127959 AND\n2 1 76370 127959 50197 XOR\n2 1 82257 76369 77649 XOR\n2 1 79185 77649 127897 AND\n2 1 79185 77649 75857 XOR\n2 1 75857 1472 93974 XOR\n2 1 75857 1472 112382 AND\n2 1 1473 112382 23058 XOR\n2 1 79186 127897 50106 XOR\n2 1 127990 127959 77650 XOR\n2 1 79186 77650 127928 XOR\n2 1 77650 127897 50107 XOR\n2 1 50106 50107 50105 AND\n2 1 50105 127897 127898 XOR\n2 1 79187 127898 50109 XOR\n2 1 96022 93974 91974 XOR\n1 1 91974 89937 INV\n2 1 1024 89937 103398 AND\n2 1 1025 103398 9217 XOR\n2 1 89937 83793 896 XOR\n2 1 896 960 69487 XOR\n2 1 69487 69455 69423 AND\n2 1 69423 960 85809 XOR\n2 1 896 928 69359 XOR\n2 1 1024 89937 1344 XOR\n2 1 63311 1344 63279 AND\n2 1 63279 1408 98038 XOR\n2 1 1344 1376 63247 XOR\n2 1 127928 127897 75858 XOR\n2 1 75858 112382 23057 XOR\n2 1 23057 23058 23056 AND\n2 1 23056 112382 112383 XOR\n2 1 1474 112383 23061 XOR\n2 1 75858 1473 112413 XOR\n2 1 112413 112382 93975 XOR\n2 1 82258 127959 50196 XOR\n2 1 50196 50197 50195 AND\n2 1 50195 127959 127960 XOR\n2 1 127991 127960 77651 XOR\n2 1 77651 127898 50110 XOR\n2 1 79187 77651 127929 XOR\n2 1 50109 50110 50108 AND\n2 1 127929 127898 75859 XOR\n2 1 75859 1474 112414 XOR\n2 1 75859 112383 23060 XOR\n2 1 23060 23061 23059 AND\n2 1 23059 112383 112384 XOR\n2 1 1475 112384 23064 XOR\n2 1 82259 127960 50199 XOR\n2 1 76371 127960 50200 XOR\n2 1 50199 50200 50198 AND\n2 1 50198 127960 127961 XOR\n2 1 76372 127961 50203 XOR\n2 1 127992 127961 77652 XOR\n2 1 79188 77652 127930 XOR\n2 1 50108 127898 127899 XOR\n2 1 79188 127899 50112 XOR\n2 1 127930 127899 75860 XOR\n2 1 75860 1475 112415 XOR\n2 1 77652 127899 50113 XOR\n2 1 50112 50113 50111 AND\n2 1 112415 112384 93977 XOR\n2 1 75860 112384 23063 XOR\n2 1 23063 23064 23062 AND\n2 1 23062 112384 112385 XOR\n2 1 50111 127899 127900 XOR\n2 1 79189 127900 50115 XOR\n2 1 1476 112385 23067 XOR\n2 1 89937 83793 103460 AND\n2 1 75858 75860 6260 XOR\n2 1 75857 75859 6259 XOR\n2 1 82260 127961 50202 XOR\n2 1 50202 50203 50201 AND\n2 1 50201 127961 127962 XOR\n2 1 76373 127962 50206 XOR\n2 1 127993 127962 77653 XOR\n2 1 77653 127900 50116 XOR\n2 1 79189 77653 127931 XOR\n2 1 82261 127962 50205 XOR\n2 1 50205 50206 50204 AND\n2 1 50204 127962 127963 XOR\n2 1 127994 127963 77654 XOR\n2 1 79190 77654 127932 XOR\n2 1 82262 127963 50208 XOR\n2 1 76374 127963 50209 XOR\n2 1 50208 50209 50207 AND\n2 1 50207 127963 127964 XOR\n",
"2 1 127995 127964 77655 XOR\n2 1 79191 77655 127933 XOR\n2 1 127931 127900 75861 XOR\n2 1 75861 112385 23066 XOR\n2 1 23066 23067 23065 AND\n2 1 75861 1476 112416 XOR\n2 1 82263 127964 50211 XOR\n2 1 76375 127964 50212 XOR\n2 1 50211 50212 50210 AND\n2 1 50210 127964 127965 XOR\n2 1 76376 127965 50215 XOR\n2 1 127996 127965 77656 XOR\n2 1 79192 77656 127934 XOR\n2 1 82264 127965 50214 XOR\n2 1 50214 50215 50213 AND\n2 1 50213 127965 127966 XOR\n2 1 127997 127966 77657 XOR\n2 1 79193 77657 127935 XOR\n2 1 23065 112385 112386 XOR\n2 1 1477 112386 23070 XOR\n2 1 112416 112385 93978 XOR\n2 1 96026 93978 112354 XOR\n2 1 82265 127966 50217 XOR\n2 1 76377 127966 50218 XOR\n2 1 50217 50218 50216 AND\n2 1 50216 127966 127967 XOR\n2 1 82266 127967 50220 XOR\n2 1 76378 127967 50221 XOR\n2 1 50220 50221 50219 AND\n2 1 50219 127967 127968 XOR\n2 1 127999 127968 77659 XOR\n2 1 79195 77659 127937 XOR\n2 1 82267 127968 50223 XOR\n2 1 76379 127968 50224 XOR\n2 1 50223 50224 50222 AND\n2 1 50222 127968 127969 XOR\n2 1 82268 127969 50226 XOR\n2 1 128000 127969 77660 XOR\n2 1 79196 77660 127938 XOR\n2 1 76380 127969 50227 XOR\n2 1 50226 50227 50225 AND\n2 1 50225 127969 127970 XOR\n2 1 82269 127970 50229 XOR\n2 1 128001 127970 77661 XOR\n2 1 79197 77661 127939 XOR\n2 1 76381 127970 50230 XOR\n2 1 50229 50230 50228 AND\n2 1 50228 127970 127971 XOR\n2 1 82270 127971 50232 XOR\n2 1 128002 127971 77662 XOR\n2 1 79198 77662 127940 XOR\n2 1 75859 75861 6261 XOR\n2 1 127998 127967 77658 XOR\n2 1 79194 77658 127936 XOR\n2 1 112414 112383 93976 XOR\n2 1 96024 93976 112352 XOR\n2 1 50115 50116 50114 AND\n2 1 50114 127900 127901 XOR\n2 1 127932 127901 75862 XOR\n2 1 79190 127901 50118 XOR\n2 1 75862 112386 23069 XOR\n2 1 23069 23070 23068 AND\n2 1 23068 112386 112387 XOR\n2 1 75862 1477 112417 XOR\n2 1 1478 112387 23073 XOR\n2 1 77654 127901 50119 XOR\n2 1 50118 50119 50117 AND\n2 1 50117 127901 127902 XOR\n2 1 79191 127902 50121 XOR\n2 1 112417 112386 93979 XOR\n2 1 77655 127902 50122 XOR\n2 1 50121 50122 50120 AND\n2 1 75860 75862 6262 XOR\n2 1 127933 127902 75863 XOR\n2 1 75863 1478 112418 XOR\n2 1 112418 112387 93980 XOR\n2 1 96028 93980 112356 XOR\n2 1 75863 112387 23072 XOR\n2 1 23072 23073 23071 AND\n2 1 23071 112387 112388 XOR\n2 1 1479 112388 23076 XOR\n2 1 75861 75863 6263 XOR\n2 1 50120 127902 127903 XOR\n2 1 127934 127903 75864 XOR\n2 1 79192 127903 50124 XOR\n2 1 77656 127903 50125 XOR\n2 1 50124 50125 50123 AND\n2 1 50123 127903 127904 XOR\n2 1 127935 127904 75865 XOR\n2 1 75865 1480 112420 XOR\n2 1 79193 127904 50127 XOR\n2 1 77657 127904 50128 XOR\n2 1 50127 50128 50126 AND\n2 1 50126 127904 127905 XOR\n2 1 79194 127905 50130 XOR\n2 1 77658 127905 50131 XOR\n2 1 127936 127905 75866 XOR\n2 1 75864 1479 112419 XOR\n2 1 112419 112388 93981 XOR\n2 1 50130 50131 50129 AND\n2 1 50129 127905 127906 XOR\n2 1 127937 127906 75867 XOR\n2 1 75867 1482 112422 XOR\n2 1 79195 127906 50133 XOR\n2 1 77659 127906 50134 XOR\n2 1 50133 50134 50132 AND\n2 1 50132 127906 127907 XOR\n2 1 79196 127907 50136 XOR\n2 1 77660 127907 50137 XOR\n2 1 127938 127907 75868 XOR\n2 1 75868 1483 112423 XOR\n2 1 75866 1481 112421 XOR\n2 1 50136 50137 50135 AND\n2 1 50135 127907 127908 XOR\n2 1 79197 127908 50139 XOR\n2 1 77661 127908 50140 XOR\n2 1 50139 50140 50138 AND\n2 1 96029 93981 112357 XOR\n2 1 127939 127908 75869 XOR\n2 1 75869 1484 112424 XOR\n2 1 50138 127908 127909 XOR\n2 1 79198 127909 50142 XOR\n2 1 127940 127909 75870 XOR\n2 1 75870 1485 112425 XOR\n2 1 77662 127909 50143 XOR\n2 1 50142 50143 50141 AND\n2 1 50141 127909 127910 XOR\n2 1 79199 127910 50145 XOR\n",
"2 1 75864 112388 23075 XOR\n2 1 23075 23076 23074 AND\n2 1 23074 112388 112389 XOR\n2 1 112420 112389 93982 XOR\n2 1 75865 112389 23078 XOR\n2 1 96030 93982 112358 XOR\n2 1 1480 112389 23079 XOR\n2 1 23078 23079 23077 AND\n2 1 23077 112389 112390 XOR\n2 1 75866 112390 23081 XOR\n2 1 1481 112390 23082 XOR\n2 1 23081 23082 23080 AND\n2 1 23080 112390 112391 XOR\n2 1 112422 112391 93984 XOR\n2 1 96032 93984 112360 XOR\n2 1 112421 112390 93983 XOR\n2 1 96031 93983 112359 XOR\n2 1 1482 112391 23085 XOR\n2 1 75867 112391 23084 XOR\n2 1 23084 23085 23083 AND\n2 1 23083 112391 112392 XOR\n2 1 75868 112392 23087 XOR\n2 1 1483 112392 23088 XOR\n2 1 23087 23088 23086 AND\n2 1 23086 112392 112393 XOR\n2 1 112424 112393 93986 XOR\n2 1 112423 112392 93985 XOR\n2 1 96033 93985 112361 XOR\n2 1 96034 93986 112362 XOR\n2 1 1484 112393 23091 XOR\n2 1 75868 75870 80683 XOR\n2 1 80683 76043 127705 XOR\n2 1 75867 75869 80682 XOR\n2 1 80682 76042 127704 XOR\n2 1 75866 75868 80681 XOR\n2 1 80681 76041 127703 XOR\n2 1 75865 75867 80680 XOR\n2 1 80680 76040 127702 XOR\n2 1 75864 75866 80679 XOR\n2 1 80679 76039 127701 XOR\n2 1 75863 75865 6265 XOR\n2 1 75862 75864 6264 XOR\n2 1 76382 127971 50233 XOR\n2 1 50232 50233 50231 AND\n2 1 50231 127971 127972 XOR\n2 1 128003 127972 77663 XOR\n2 1 77663 127910 50146 XOR\n2 1 79199 77663 127941 XOR\n2 1 50145 50146 50144 AND\n2 1 127941 127910 75871 XOR\n2 1 50144 127910 127911 XOR\n2 1 79200 127911 50148 XOR\n2 1 76383 127972 50236 XOR\n2 1 82271 127972 50235 XOR\n2 1 50235 50236 50234 AND\n2 1 50234 127972 127973 XOR\n2 1 82272 127973 50238 XOR\n2 1 76384 127973 50239 XOR\n2 1 50238 50239 50237 AND\n2 1 50237 127973 127974 XOR\n2 1 128004 127973 77664 XOR\n2 1 77664 127911 50149 XOR\n2 1 50148 50149 50147 AND\n2 1 50147 127911 127912 XOR\n2 1 79201 127912 50151 XOR\n2 1 79200 77664 127942 XOR\n2 1 127942 127911 75872 XOR\n2 1 128005 127974 77665 XOR\n2 1 79201 77665 127943 XOR\n2 1 77665 127912 50152 XOR\n2 1 127943 127912 75873 XOR\n2 1 50151 50152 50150 AND\n2 1 50150 127912 127913 XOR\n2 1 79202 127913 50154 XOR\n2 1 82273 127974 50241 XOR\n2 1 76385 127974 50242 XOR\n2 1 50241 50242 50240 AND\n2 1 50240 127974 127975 XOR\n2 1 82274 127975 50244 XOR\n2 1 128006 127975 77666 XOR\n2 1 79202 77666 127944 XOR\n2 1 127944 127913 75874 XOR\n2 1 75874 1489 112429 XOR\n2 1 77666 127913 50155 XOR\n2 1 50154 50155 50153 AND\n2 1 50153 127913 127914 XOR\n2 1 79203 127914 50157 XOR\n2 1 76386 127975 50245 XOR\n2 1 50244 50245 50243 AND\n2 1 50243 127975 127976 XOR\n2 1 128007 127976 77667 XOR\n2 1 79203 77667 127945 XOR\n2 1 127945 127914 75875 XOR\n2 1 75875 1490 112430 XOR\n2 1 77667 127914 50158 XOR\n2 1 50157 50158 50156 AND\n2 1 50156 127914 127915 XOR\n2 1 79204 127915 50160 XOR\n2 1 82275 127976 50247 XOR\n2 1 76387 127976 50248 XOR\n2 1 50247 50248 50246 AND\n2 1 50246 127976 127977 XOR\n2 1 128008 127977 77668 XOR\n2 1 79204 77668 127946 XOR\n2 1 127946 127915 75876 XOR\n2 1 77668 127915 50161 XOR\n2 1 75876 1491 112431 XOR\n2 1 50160 50161 50159 AND\n2 1 50159 127915 127916 XOR\n2 1 79205 127916 50163 XOR\n2 1 76388 127977 50251 XOR\n2 1 82276 127977 50250 XOR\n2 1 50250 50251 50249 AND\n2 1 50249 127977 127978 XOR\n2 1 128009 127978 77669 XOR\n2 1 79205 77669 127947 XOR\n2 1 127947 127916 75877 XOR\n2 1 77669 127916 50164 XOR\n2 1 50163 50164 50162 AND\n2 1 75877 1492 112432 XOR\n2 1 76389 127978 50254 XOR\n2 1 82277 127978 50253 XOR\n2 1 50253 50254 50252 AND\n2 1 50252 127978 127979 XOR\n2 1 82278 127979 50256 XOR\n2 1 76390 127979 50257 XOR\n2 1 50256 50257 50255 AND\n2 1 128010 127979 77670 XOR\n",
"2 1 79206 77670 127948 XOR\n2 1 50255 127979 127980 XOR\n2 1 128011 127980 77671 XOR\n2 1 79207 77671 127949 XOR\n2 1 82279 127980 50259 XOR\n2 1 76391 127980 50260 XOR\n2 1 50259 50260 50258 AND\n2 1 75871 1486 112426 XOR\n2 1 75872 1487 112427 XOR\n2 1 75873 1488 112428 XOR\n2 1 75873 75875 80688 XOR\n2 1 80688 76048 127710 XOR\n2 1 75872 75874 80687 XOR\n2 1 80687 76047 127709 XOR\n2 1 75871 75873 80686 XOR\n2 1 80686 76046 127708 XOR\n2 1 75870 75872 80685 XOR\n2 1 80685 76045 127707 XOR\n2 1 75869 75871 80684 XOR\n2 1 80684 76044 127706 XOR\n2 1 75875 75877 6245 XOR\n2 1 75874 75876 6244 XOR\n2 1 6245 75868 80658 XOR\n2 1 80658 76018 127680 XOR\n2 1 6244 75867 80657 XOR\n2 1 80657 76017 127649 AND\n2 1 80658 127649 49746 XOR\n2 1 76018 127649 49747 XOR\n2 1 49746 49747 49745 AND\n2 1 80657 76017 79121 XOR\n2 1 49745 127649 127650 XOR\n2 1 76019 127650 49750 XOR\n2 1 127680 127649 79122 XOR\n2 1 50258 127980 127981 XOR\n2 1 128012 127981 77672 XOR\n2 1 79208 77672 127950 XOR\n2 1 82280 127981 50262 XOR\n2 1 76392 127981 50263 XOR\n2 1 50262 50263 50261 AND\n2 1 50261 127981 127982 XOR\n2 1 76393 127982 50266 XOR\n2 1 128013 127982 77673 XOR\n2 1 79209 77673 127951 XOR\n2 1 82281 127982 50265 XOR\n2 1 50265 50266 50264 AND\n2 1 50264 127982 127983 XOR\n2 1 128014 127983 77674 XOR\n2 1 79210 77674 127952 XOR\n2 1 82282 127983 50268 XOR\n2 1 76394 127983 50269 XOR\n2 1 50268 50269 50267 AND\n2 1 50267 127983 127984 XOR\n2 1 82283 127984 50271 XOR\n2 1 76395 127984 50272 XOR\n2 1 128015 127984 77675 XOR\n2 1 79211 77675 127953 XOR\n2 1 50271 50272 50270 AND\n2 1 50270 127984 127985 XOR\n2 1 76396 127985 50275 XOR\n2 1 128016 127985 77676 XOR\n2 1 79212 77676 127954 XOR\n2 1 50162 127916 127917 XOR\n2 1 79206 127917 50166 XOR\n2 1 77670 127917 50167 XOR\n2 1 50166 50167 50165 AND\n2 1 127948 127917 75878 XOR\n2 1 75878 1493 112433 XOR\n2 1 50165 127917 127918 XOR\n2 1 127949 127918 75879 XOR\n2 1 75879 1494 112434 XOR\n2 1 79207 127918 50169 XOR\n2 1 77671 127918 50170 XOR\n2 1 50169 50170 50168 AND\n2 1 50168 127918 127919 XOR\n2 1 79208 127919 50172 XOR\n2 1 77672 127919 50173 XOR\n2 1 50172 50173 50171 AND\n2 1 127950 127919 75880 XOR\n2 1 75880 1495 112435 XOR\n2 1 50171 127919 127920 XOR\n2 1 127951 127920 75881 XOR\n2 1 75881 1496 112436 XOR\n2 1 79209 127920 50175 XOR\n2 1 77673 127920 50176 XOR\n2 1 50175 50176 50174 AND\n2 1 50174 127920 127921 XOR\n2 1 127952 127921 75882 XOR\n2 1 77674 127921 50179 XOR\n2 1 75882 1497 112437 XOR\n2 1 79210 127921 50178 XOR\n2 1 50178 50179 50177 AND\n2 1 50177 127921 127922 XOR\n2 1 77675 127922 50182 XOR\n2 1 79211 127922 50181 XOR\n2 1 50181 50182 50180 AND\n2 1 50180 127922 127923 XOR\n2 1 79212 127923 50184 XOR\n2 1 77676 127923 50185 XOR\n2 1 50184 50185 50183 AND\n2 1 50183 127923 127924 XOR\n2 1 79213 127924 50187 XOR\n2 1 127954 127923 75884 XOR\n2 1 75884 1499 112439 XOR\n2 1 127953 127922 75883 XOR\n2 1 75883 1498 112438 XOR\n2 1 75882 75884 6252 XOR\n2 1 75881 75883 6251 XOR\n2 1 75880 75882 6250 XOR\n2 1 75879 75881 6249 XOR\n2 1 75878 75880 6248 XOR\n2 1 75877 75879 6247 XOR\n2 1 75876 75878 6246 XOR\n2 1 6261 75884 80674 XOR\n2 1 80674 76034 127696 XOR\n2 1 6260 75883 80673 XOR\n2 1 80673 76033 127695 XOR\n2 1 6259 75882 80672 XOR\n2 1 80672 76032 127694 XOR\n2 1 6252 75875 80665 XOR\n2 1 80665 76025 127687 XOR\n2 1 6251 75874 80664 XOR\n2 1 80664 76024 127686 XOR\n2 1 6250 75873 80663 XOR\n2 1 80663 76023 127685 XOR\n2 1 6249 75872 80662 XOR\n2 1 80662 76022 127684 XOR\n2 1 6248 75871 80661 XOR\n2 1 80661 76021 127683 XOR\n",
"2 1 6247 75870 80660 XOR\n2 1 80660 76020 127682 XOR\n2 1 6246 75869 80659 XOR\n2 1 80659 76019 127681 XOR\n2 1 127681 127650 79123 XOR\n2 1 80659 127650 49749 XOR\n2 1 49749 49750 49748 AND\n2 1 49748 127650 127651 XOR\n2 1 80660 127651 49752 XOR\n2 1 127682 127651 79124 XOR\n2 1 76020 127651 49753 XOR\n2 1 49752 49753 49751 AND\n2 1 49751 127651 127652 XOR\n2 1 76021 127652 49756 XOR\n2 1 80661 127652 49755 XOR\n2 1 49755 49756 49754 AND\n2 1 49754 127652 127653 XOR\n2 1 80662 127653 49758 XOR\n2 1 76022 127653 49759 XOR\n2 1 127684 127653 79126 XOR\n2 1 49758 49759 49757 AND\n2 1 49757 127653 127654 XOR\n2 1 127685 127654 79127 XOR\n2 1 80663 127654 49761 XOR\n2 1 76023 127654 49762 XOR\n2 1 49761 49762 49760 AND\n2 1 49760 127654 127655 XOR\n2 1 127686 127655 79128 XOR\n2 1 80664 127655 49764 XOR\n2 1 76024 127655 49765 XOR\n2 1 49764 49765 49763 AND\n2 1 49763 127655 127656 XOR\n2 1 80665 127656 49767 XOR\n2 1 76025 127656 49768 XOR\n2 1 49767 49768 49766 AND\n2 1 49766 127656 127657 XOR\n2 1 76026 127657 49771 XOR\n2 1 127687 127656 79129 XOR\n2 1 82284 127985 50274 XOR\n2 1 50274 50275 50273 AND\n2 1 50273 127985 127986 XOR\n2 1 76397 127986 50278 XOR\n2 1 128017 127986 77677 XOR\n2 1 79213 77677 127955 XOR\n2 1 127955 127924 75885 XOR\n2 1 77677 127924 50188 XOR\n2 1 75885 1500 112440 XOR\n2 1 50187 50188 50186 AND\n2 1 50186 127924 127925 XOR\n2 1 79214 127925 50190 XOR\n2 1 75883 75885 6253 XOR\n2 1 6262 75885 80675 XOR\n2 1 80675 76035 127697 XOR\n2 1 6253 75876 80666 XOR\n2 1 80666 127657 49770 XOR\n2 1 80666 76026 127688 XOR\n2 1 127688 127657 79130 XOR\n2 1 49770 49771 49769 AND\n2 1 49769 127657 127658 XOR\n2 1 76027 127658 49774 XOR\n2 1 127683 127652 79125 XOR\n2 1 82285 127986 50277 XOR\n2 1 50277 50278 50276 AND\n2 1 50276 127986 127987 XOR\n2 1 128018 127987 77678 XOR\n2 1 77678 127925 50191 XOR\n2 1 50190 50191 50189 AND\n2 1 50189 127925 127926 XOR\n2 1 79215 127926 50193 XOR\n2 1 82286 127987 50280 XOR\n2 1 76398 127987 50281 XOR\n2 1 50280 50281 50279 AND\n2 1 50279 127987 127988 XOR\n2 1 128019 127988 77679 XOR\n2 1 76399 127988 50284 XOR\n2 1 77679 127926 50194 XOR\n2 1 50193 50194 50192 AND\n2 1 50192 127926 127927 XOR\n2 1 82287 127988 50283 XOR\n2 1 50283 50284 50282 AND\n2 1 50282 127988 127989 XOR\n2 1 128020 127989 77680 XOR\n2 1 79214 77678 127956 XOR\n2 1 127956 127925 75886 XOR\n2 1 79215 77679 127957 XOR\n2 1 127957 127926 75887 XOR\n2 1 75887 1502 112442 XOR\n2 1 79216 77680 127958 XOR\n2 1 127958 127927 75888 XOR\n2 1 75888 1503 112443 XOR\n2 1 75886 1501 112441 XOR\n2 1 75888 75858 6258 XOR\n2 1 75887 75857 6257 XOR\n2 1 75886 75888 6256 XOR\n2 1 75885 75887 6255 XOR\n2 1 75884 75886 6254 XOR\n2 1 6265 75888 80678 XOR\n2 1 80678 76038 127700 XOR\n2 1 6264 75887 80677 XOR\n2 1 80677 76037 127699 XOR\n2 1 6263 75886 80676 XOR\n2 1 80676 76036 127698 XOR\n2 1 6258 75881 80671 XOR\n2 1 80671 76031 127693 XOR\n2 1 6257 75880 80670 XOR\n2 1 80670 76030 127692 XOR\n2 1 6256 75879 80669 XOR\n2 1 80669 76029 127691 XOR\n2 1 6255 75878 80668 XOR\n2 1 80668 76028 127690 XOR\n2 1 6254 75877 80667 XOR\n2 1 80667 76027 127689 XOR\n2 1 80667 127658 49773 XOR\n2 1 49773 49774 49772 AND\n2 1 49772 127658 127659 XOR\n2 1 76028 127659 49777 XOR\n2 1 127690 127659 79132 XOR\n2 1 80668 127659 49776 XOR\n2 1 49776 49777 49775 AND\n2 1 49775 127659 127660 XOR\n2 1 80669 127660 49779 XOR\n2 1 76029 127660 49780 XOR\n2 1 49779 49780 49778 AND\n2 1 49778 127660 127661 XOR\n2 1 127692 127661 79134 XOR\n2 1 76030 127661 49783 XOR\n2 1 127691 127660 79133 XOR\n2 1 80670 127661 49782 XOR\n",
"2 1 49782 49783 49781 AND\n2 1 49781 127661 127662 XOR\n2 1 76031 127662 49786 XOR\n2 1 80671 127662 49785 XOR\n2 1 49785 49786 49784 AND\n2 1 49784 127662 127663 XOR\n2 1 76032 127663 49789 XOR\n2 1 80672 127663 49788 XOR\n2 1 127694 127663 79136 XOR\n2 1 49788 49789 49787 AND\n2 1 49787 127663 127664 XOR\n2 1 76033 127664 49792 XOR\n2 1 80673 127664 49791 XOR\n2 1 49791 49792 49790 AND\n2 1 49790 127664 127665 XOR\n2 1 76034 127665 49795 XOR\n2 1 127696 127665 79138 XOR\n2 1 80674 127665 49794 XOR\n2 1 127695 127664 79137 XOR\n2 1 49794 49795 49793 AND\n2 1 49793 127665 127666 XOR\n2 1 80675 127666 49797 XOR\n2 1 76035 127666 49798 XOR\n2 1 49797 49798 49796 AND\n2 1 49796 127666 127667 XOR\n2 1 76036 127667 49801 XOR\n2 1 127698 127667 79140 XOR\n2 1 80676 127667 49800 XOR\n2 1 49800 49801 49799 AND\n2 1 49799 127667 127668 XOR\n2 1 127699 127668 79141 XOR\n2 1 80677 127668 49803 XOR\n2 1 76037 127668 49804 XOR\n2 1 49803 49804 49802 AND\n2 1 49802 127668 127669 XOR\n2 1 80678 127669 49806 XOR\n2 1 127700 127669 79142 XOR\n2 1 76038 127669 49807 XOR\n2 1 49806 49807 49805 AND\n2 1 49805 127669 127670 XOR\n2 1 80679 127670 49809 XOR\n2 1 76039 127670 49810 XOR\n2 1 49809 49810 49808 AND\n2 1 127701 127670 79143 XOR\n2 1 127697 127666 79139 XOR\n2 1 49808 127670 127671 XOR\n2 1 76040 127671 49813 XOR\n2 1 80680 127671 49812 XOR\n2 1 49812 49813 49811 AND\n2 1 49811 127671 127672 XOR\n2 1 127703 127672 79145 XOR\n2 1 80681 127672 49815 XOR\n2 1 127702 127671 79144 XOR\n2 1 76041 127672 49816 XOR\n2 1 49815 49816 49814 AND\n2 1 49814 127672 127673 XOR\n2 1 127704 127673 79146 XOR\n2 1 76042 127673 49819 XOR\n2 1 80682 127673 49818 XOR\n2 1 49818 49819 49817 AND\n2 1 49817 127673 127674 XOR\n2 1 127705 127674 79147 XOR\n2 1 76043 127674 49822 XOR\n2 1 80683 127674 49821 XOR\n2 1 49821 49822 49820 AND\n2 1 49820 127674 127675 XOR\n2 1 127706 127675 79148 XOR\n2 1 76044 127675 49825 XOR\n2 1 80684 127675 49824 XOR\n2 1 49824 49825 49823 AND\n2 1 49823 127675 127676 XOR\n2 1 127707 127676 79149 XOR\n2 1 76045 127676 49828 XOR\n2 1 80685 127676 49827 XOR\n2 1 49827 49828 49826 AND\n2 1 49826 127676 127677 XOR\n2 1 80686 127677 49830 XOR\n2 1 127708 127677 79150 XOR\n2 1 127693 127662 79135 XOR\n2 1 127689 127658 79131 XOR\n2 1 76046 127677 49831 XOR\n2 1 49830 49831 49829 AND\n2 1 49829 127677 127678 XOR\n2 1 127709 127678 79151 XOR\n2 1 76047 127678 49834 XOR\n2 1 80687 127678 49833 XOR\n2 1 49833 49834 49832 AND\n2 1 49832 127678 127679 XOR\n2 1 127710 127679 79152 XOR\n2 1 75869 112393 23090 XOR\n2 1 23090 23091 23089 AND\n2 1 23089 112393 112394 XOR\n2 1 1485 112394 23094 XOR\n2 1 112425 112394 93987 XOR\n2 1 96035 93987 112363 XOR\n2 1 75870 112394 23093 XOR\n2 1 23093 23094 23092 AND\n2 1 23092 112394 112395 XOR\n2 1 112426 112395 93988 XOR\n2 1 75871 112395 23096 XOR\n2 1 1486 112395 23097 XOR\n2 1 96036 93988 112364 XOR\n2 1 23096 23097 23095 AND\n2 1 23095 112395 112396 XOR\n2 1 1487 112396 23100 XOR\n2 1 75872 112396 23099 XOR\n2 1 23099 23100 23098 AND\n2 1 23098 112396 112397 XOR\n2 1 75873 112397 23102 XOR\n2 1 1488 112397 23103 XOR\n2 1 23102 23103 23101 AND\n2 1 112428 112397 93990 XOR\n2 1 96038 93990 112366 XOR\n2 1 23101 112397 112398 XOR\n2 1 75874 112398 23105 XOR\n2 1 1489 112398 23106 XOR\n2 1 112427 112396 93989 XOR\n2 1 96037 93989 112365 XOR\n2 1 112429 112398 93991 XOR\n2 1 96039 93991 112367 XOR\n2 1 23105 23106 23104 AND\n2 1 23104 112398 112399 XOR\n2 1 112430 112399 93992 XOR\n2 1 75875 112399 23108 XOR\n2 1 1490 112399 23109 XOR\n2 1 23108 23109 23107 AND\n2 1 96040 93992 112368 XOR\n2 1 23107 112399 112400 XOR\n",
"2 1 1491 112400 23112 XOR\n2 1 112431 112400 93993 XOR\n2 1 75876 112400 23111 XOR\n2 1 23111 23112 23110 AND\n2 1 23110 112400 112401 XOR\n2 1 75877 112401 23114 XOR\n2 1 112432 112401 93994 XOR\n2 1 96042 93994 112370 XOR\n2 1 1492 112401 23115 XOR\n2 1 23114 23115 23113 AND\n2 1 96041 93993 112369 XOR\n2 1 23113 112401 112402 XOR\n2 1 112433 112402 93995 XOR\n2 1 96043 93995 112371 XOR\n2 1 75878 112402 23117 XOR\n2 1 1493 112402 23118 XOR\n2 1 23117 23118 23116 AND\n2 1 23116 112402 112403 XOR\n2 1 75879 112403 23120 XOR\n2 1 1494 112403 23121 XOR\n2 1 112434 112403 93996 XOR\n2 1 96044 93996 112372 XOR\n2 1 23120 23121 23119 AND\n2 1 23119 112403 112404 XOR\n2 1 112435 112404 93997 XOR\n2 1 96045 93997 112373 XOR\n2 1 75880 112404 23123 XOR\n2 1 1495 112404 23124 XOR\n2 1 23123 23124 23122 AND\n2 1 23122 112404 112405 XOR\n2 1 75881 112405 23126 XOR\n2 1 1496 112405 23127 XOR\n2 1 112436 112405 93998 XOR\n2 1 96046 93998 112374 XOR\n2 1 23126 23127 23125 AND\n2 1 23125 112405 112406 XOR\n2 1 112437 112406 93999 XOR\n2 1 96047 93999 112375 XOR\n2 1 1497 112406 23130 XOR\n2 1 75882 112406 23129 XOR\n2 1 23129 23130 23128 AND\n2 1 23128 112406 112407 XOR\n2 1 112438 112407 94000 XOR\n2 1 1498 112407 23133 XOR\n2 1 96048 94000 112376 XOR\n2 1 75883 112407 23132 XOR\n2 1 23132 23133 23131 AND\n2 1 23131 112407 112408 XOR\n2 1 1499 112408 23136 XOR\n2 1 75884 112408 23135 XOR\n2 1 23135 23136 23134 AND\n2 1 23134 112408 112409 XOR\n2 1 112440 112409 94002 XOR\n2 1 96050 94002 112378 XOR\n2 1 1500 112409 23139 XOR\n2 1 75885 112409 23138 XOR\n2 1 23138 23139 23137 AND\n2 1 112439 112408 94001 XOR\n2 1 96049 94001 112377 XOR\n2 1 23137 112409 112410 XOR\n2 1 1501 112410 23142 XOR\n2 1 112441 112410 94003 XOR\n2 1 96051 94003 112379 XOR\n2 1 75886 112410 23141 XOR\n2 1 23141 23142 23140 AND\n2 1 23140 112410 112411 XOR\n2 1 112442 112411 94004 XOR\n2 1 96052 94004 112380 XOR\n2 1 75887 112411 23144 XOR\n2 1 1502 112411 23145 XOR\n2 1 23144 23145 23143 AND\n2 1 23143 112411 112412 XOR\n2 1 112443 112412 94005 XOR\n2 1 96053 94005 112381 XOR\n2 1 76311 76322 82256 XOR\n2 1 82256 76368 127834 XOR\n2 1 76310 76321 82255 XOR\n2 1 82255 76367 127833 XOR\n2 1 76309 76320 82254 XOR\n2 1 82254 76366 127832 XOR\n2 1 76308 76319 4980 XOR\n2 1 76307 76318 4979 XOR\n2 1 76306 76317 4978 XOR\n2 1 76305 76316 4977 XOR\n2 1 76336 76315 4976 XOR\n2 1 76335 76314 4975 XOR\n2 1 76334 76313 4974 XOR\n2 1 76333 76312 4973 XOR\n2 1 76332 76311 4972 XOR\n2 1 76331 76310 4971 XOR\n2 1 76330 76309 4970 XOR\n2 1 76329 76308 4969 XOR\n2 1 76328 76307 4968 XOR\n2 1 76327 76306 4967 XOR\n2 1 76326 76305 4966 XOR\n2 1 76325 76336 4965 XOR\n2 1 76324 76335 4964 XOR\n2 1 76323 76334 4963 XOR\n2 1 76322 76333 4962 XOR\n2 1 76321 76332 4961 XOR\n2 1 76320 76331 4960 XOR\n2 1 76319 76330 4959 XOR\n2 1 76318 76329 4958 XOR\n2 1 76317 76328 4957 XOR\n2 1 76316 76327 4956 XOR\n2 1 76315 76326 4955 XOR\n2 1 76314 76325 4954 XOR\n2 1 76313 76324 4953 XOR\n2 1 76312 76323 4952 XOR\n2 1 4980 76336 82253 XOR\n2 1 82253 76365 127831 XOR\n2 1 4979 76335 82252 XOR\n2 1 82252 76364 127830 XOR\n2 1 4978 76334 82251 XOR\n2 1 82251 76363 127829 XOR\n2 1 4977 76333 82250 XOR\n2 1 82250 76362 127828 XOR\n2 1 4976 76332 82249 XOR\n2 1 82249 76361 127827 XOR\n2 1 4975 76331 82248 XOR\n2 1 82248 76360 127826 XOR\n2 1 4974 76330 82247 XOR\n2 1 82247 76359 127825 XOR\n2 1 4973 76329 82246 XOR\n2 1 82246 76358 127824 XOR\n2 1 4972 76328 82245 XOR\n2 1 82245 76357 127823 XOR\n2 1 4971 76327 82244 XOR\n",
"2 1 82244 76356 127822 XOR\n2 1 4970 76326 82243 XOR\n2 1 82243 76355 127821 XOR\n2 1 4969 76325 82242 XOR\n2 1 82242 76354 127820 XOR\n2 1 4968 76324 82241 XOR\n2 1 82241 76353 127819 XOR\n2 1 4967 76323 82240 XOR\n2 1 82240 76352 127818 XOR\n2 1 4966 76322 82239 XOR\n2 1 82239 76351 127817 XOR\n2 1 4965 76321 82238 XOR\n2 1 82238 76350 127816 XOR\n2 1 4964 76320 82237 XOR\n2 1 82237 76349 127815 XOR\n2 1 4963 76319 82236 XOR\n2 1 82236 76348 127814 XOR\n2 1 4962 76318 82235 XOR\n2 1 82235 76347 127813 XOR\n2 1 4961 76317 82234 XOR\n2 1 82234 76346 127812 XOR\n2 1 4960 76316 82233 XOR\n2 1 82233 76345 127811 XOR\n2 1 4959 76315 82232 XOR\n2 1 82232 76344 127810 XOR\n2 1 4958 76314 82231 XOR\n2 1 82231 76343 127809 XOR\n2 1 4957 76313 82230 XOR\n2 1 82230 76342 127808 XOR\n2 1 4956 76312 82229 XOR\n2 1 82229 76341 127807 XOR\n2 1 4955 76311 82228 XOR\n2 1 82228 76340 127806 XOR\n2 1 4954 76310 82227 XOR\n2 1 82227 76339 127805 XOR\n2 1 4953 76309 82226 XOR\n2 1 82226 76338 127804 XOR\n2 1 4952 76308 82225 XOR\n2 1 82225 76337 127773 AND\n2 1 127804 127773 77618 XOR\n2 1 82226 127773 49926 XOR\n2 1 82225 76337 77617 XOR\n2 1 79153 77617 127711 AND\n2 1 77618 127711 49837 XOR\n2 1 79154 127711 49836 XOR\n2 1 79153 77617 75825 XOR\n2 1 75825 1440 93942 XOR\n2 1 49836 49837 49835 AND\n2 1 49835 127711 127712 XOR\n2 1 76338 127773 49927 XOR\n2 1 49926 49927 49925 AND\n2 1 49925 127773 127774 XOR\n2 1 127805 127774 77619 XOR\n2 1 77619 127712 49840 XOR\n2 1 82227 127774 49929 XOR\n2 1 76339 127774 49930 XOR\n2 1 49929 49930 49928 AND\n2 1 49928 127774 127775 XOR\n2 1 82228 127775 49932 XOR\n2 1 76340 127775 49933 XOR\n2 1 49932 49933 49931 AND\n2 1 49931 127775 127776 XOR\n2 1 76341 127776 49936 XOR\n2 1 127806 127775 77620 XOR\n2 1 79156 77620 127744 XOR\n2 1 79155 77619 127743 XOR\n2 1 127743 127712 75827 XOR\n2 1 75827 1442 112166 XOR\n2 1 79155 127712 49839 XOR\n2 1 49839 49840 49838 AND\n2 1 49838 127712 127713 XOR\n2 1 79156 127713 49842 XOR\n2 1 127744 127713 75828 XOR\n2 1 75825 75827 6237 XOR\n2 1 75825 1440 112134 AND\n2 1 1441 112134 22585 XOR\n2 1 75828 1443 112167 XOR\n2 1 77620 127713 49843 XOR\n2 1 49842 49843 49841 AND\n2 1 49841 127713 127714 XOR\n2 1 79157 127714 49845 XOR\n2 1 82229 127776 49935 XOR\n2 1 49935 49936 49934 AND\n2 1 49934 127776 127777 XOR\n2 1 82230 127777 49938 XOR\n2 1 76342 127777 49939 XOR\n2 1 49938 49939 49937 AND\n2 1 127808 127777 77622 XOR\n2 1 79158 77622 127746 XOR\n2 1 79154 77618 127742 XOR\n2 1 127742 127711 75826 XOR\n2 1 75826 75828 6238 XOR\n2 1 75826 1441 112165 XOR\n2 1 112165 112134 93943 XOR\n2 1 75826 112134 22584 XOR\n2 1 22584 22585 22583 AND\n2 1 22583 112134 112135 XOR\n2 1 75827 112135 22587 XOR\n2 1 112166 112135 93944 XOR\n2 1 1442 112135 22588 XOR\n2 1 22587 22588 22586 AND\n2 1 22586 112135 112136 XOR\n2 1 1443 112136 22591 XOR\n2 1 75828 112136 22590 XOR\n2 1 22590 22591 22589 AND\n2 1 22589 112136 112137 XOR\n2 1 1444 112137 22594 XOR\n2 1 112167 112136 93945 XOR\n2 1 49937 127777 127778 XOR\n2 1 76343 127778 49942 XOR\n2 1 127809 127778 77623 XOR\n2 1 82231 127778 49941 XOR\n2 1 49941 49942 49940 AND\n2 1 49940 127778 127779 XOR\n2 1 79159 77623 127747 XOR\n2 1 76344 127779 49945 XOR\n2 1 127810 127779 77624 XOR\n2 1 79160 77624 127748 XOR\n2 1 82232 127779 49944 XOR\n2 1 49944 49945 49943 AND\n2 1 49943 127779 127780 XOR\n2 1 82233 127780 49947 XOR\n2 1 76345 127780 49948 XOR\n2 1 49947 49948 49946 AND\n2 1 49946 127780 127781 XOR\n2 1 127812 127781 77626 XOR\n2 1 79162 77626 127750 XOR\n2 1 82234 127781 49950 XOR\n",
"2 1 76346 127781 49951 XOR\n2 1 49950 49951 49949 AND\n2 1 49949 127781 127782 XOR\n2 1 82235 127782 49953 XOR\n2 1 127813 127782 77627 XOR\n2 1 79163 77627 127751 XOR\n2 1 127811 127780 77625 XOR\n2 1 79161 77625 127749 XOR\n2 1 76347 127782 49954 XOR\n2 1 49953 49954 49952 AND\n2 1 49952 127782 127783 XOR\n2 1 82236 127783 49956 XOR\n2 1 76348 127783 49957 XOR\n2 1 49956 49957 49955 AND\n2 1 49955 127783 127784 XOR\n2 1 127815 127784 77629 XOR\n2 1 76349 127784 49960 XOR\n2 1 82237 127784 49959 XOR\n2 1 49959 49960 49958 AND\n2 1 49958 127784 127785 XOR\n2 1 76350 127785 49963 XOR\n2 1 82238 127785 49962 XOR\n2 1 127816 127785 77630 XOR\n2 1 79166 77630 127754 XOR\n2 1 49962 49963 49961 AND\n2 1 127814 127783 77628 XOR\n2 1 49961 127785 127786 XOR\n2 1 76351 127786 49966 XOR\n2 1 82239 127786 49965 XOR\n2 1 127817 127786 77631 XOR\n2 1 79167 77631 127755 XOR\n2 1 49965 49966 49964 AND\n2 1 79165 77629 127753 XOR\n2 1 49964 127786 127787 XOR\n2 1 127818 127787 77632 XOR\n2 1 76352 127787 49969 XOR\n2 1 82240 127787 49968 XOR\n2 1 79168 77632 127756 XOR\n2 1 79164 77628 127752 XOR\n2 1 49968 49969 49967 AND\n2 1 49967 127787 127788 XOR\n2 1 76353 127788 49972 XOR\n2 1 127819 127788 77633 XOR\n2 1 79169 77633 127757 XOR\n2 1 82241 127788 49971 XOR\n2 1 49971 49972 49970 AND\n2 1 49970 127788 127789 XOR\n2 1 82242 127789 49974 XOR\n2 1 76354 127789 49975 XOR\n2 1 49974 49975 49973 AND\n2 1 49973 127789 127790 XOR\n2 1 127821 127790 77635 XOR\n2 1 82243 127790 49977 XOR\n2 1 79171 77635 127759 XOR\n2 1 127820 127789 77634 XOR\n2 1 79170 77634 127758 XOR\n2 1 76355 127790 49978 XOR\n2 1 49977 49978 49976 AND\n2 1 49976 127790 127791 XOR\n2 1 127822 127791 77636 XOR\n2 1 76356 127791 49981 XOR\n2 1 82244 127791 49980 XOR\n2 1 49980 49981 49979 AND\n2 1 49979 127791 127792 XOR\n2 1 76357 127792 49984 XOR\n2 1 82245 127792 49983 XOR\n2 1 127823 127792 77637 XOR\n2 1 79172 77636 127760 XOR\n2 1 79173 77637 127761 XOR\n2 1 49983 49984 49982 AND\n2 1 49982 127792 127793 XOR\n2 1 127824 127793 77638 XOR\n2 1 79174 77638 127762 XOR\n2 1 82246 127793 49986 XOR\n2 1 76358 127793 49987 XOR\n2 1 49986 49987 49985 AND\n2 1 49985 127793 127794 XOR\n2 1 82247 127794 49989 XOR\n2 1 76359 127794 49990 XOR\n2 1 127825 127794 77639 XOR\n2 1 79175 77639 127763 XOR\n2 1 49989 49990 49988 AND\n2 1 49988 127794 127795 XOR\n2 1 76360 127795 49993 XOR\n2 1 127826 127795 77640 XOR\n2 1 82248 127795 49992 XOR\n2 1 49992 49993 49991 AND\n2 1 49991 127795 127796 XOR\n2 1 127827 127796 77641 XOR\n2 1 79176 77640 127764 XOR\n2 1 79177 77641 127765 XOR\n2 1 76361 127796 49996 XOR\n2 1 82249 127796 49995 XOR\n2 1 49995 49996 49994 AND\n2 1 49994 127796 127797 XOR\n2 1 82250 127797 49998 XOR\n2 1 76362 127797 49999 XOR\n2 1 49998 49999 49997 AND\n2 1 49997 127797 127798 XOR\n2 1 127829 127798 77643 XOR\n2 1 79179 77643 127767 XOR\n2 1 82251 127798 50001 XOR\n2 1 127828 127797 77642 XOR\n2 1 79178 77642 127766 XOR\n2 1 76363 127798 50002 XOR\n2 1 50001 50002 50000 AND\n2 1 50000 127798 127799 XOR\n2 1 76364 127799 50005 XOR\n2 1 82252 127799 50004 XOR\n2 1 127830 127799 77644 XOR\n2 1 79180 77644 127768 XOR\n2 1 50004 50005 50003 AND\n2 1 50003 127799 127800 XOR\n2 1 127831 127800 77645 XOR\n2 1 82253 127800 50007 XOR\n2 1 76365 127800 50008 XOR\n2 1 50007 50008 50006 AND\n2 1 50006 127800 127801 XOR\n2 1 127832 127801 77646 XOR\n2 1 79182 77646 127770 XOR\n2 1 79181 77645 127769 XOR\n2 1 82254 127801 50010 XOR\n2 1 76366 127801 50011 XOR\n2 1 50010 50011 50009 AND\n2 1 50009 127801 127802 XOR\n2 1 82255 127802 50013 XOR\n2 1 76367 127802 50014 XOR\n2 1 127833 127802 77647 XOR\n",
"2 1 79183 77647 127771 XOR\n2 1 50013 50014 50012 AND\n2 1 50012 127802 127803 XOR\n2 1 127834 127803 77648 XOR\n2 1 79184 77648 127772 XOR\n2 1 127807 127776 77621 XOR\n2 1 79157 77621 127745 XOR\n2 1 127745 127714 75829 XOR\n2 1 77621 127714 49846 XOR\n2 1 49845 49846 49844 AND\n2 1 49844 127714 127715 XOR\n2 1 127746 127715 75830 XOR\n2 1 77622 127715 49849 XOR\n2 1 75829 1444 112168 XOR\n2 1 79158 127715 49848 XOR\n2 1 49848 49849 49847 AND\n2 1 49847 127715 127716 XOR\n2 1 77623 127716 49852 XOR\n2 1 127747 127716 75831 XOR\n2 1 75831 1446 112170 XOR\n2 1 75829 75831 6241 XOR\n2 1 75828 75830 6240 XOR\n2 1 75827 75829 6239 XOR\n2 1 75830 1445 112169 XOR\n2 1 112168 112137 93946 XOR\n2 1 79159 127716 49851 XOR\n2 1 49851 49852 49850 AND\n2 1 49850 127716 127717 XOR\n2 1 77624 127717 49855 XOR\n2 1 127748 127717 75832 XOR\n2 1 79160 127717 49854 XOR\n2 1 49854 49855 49853 AND\n2 1 49853 127717 127718 XOR\n2 1 79161 127718 49857 XOR\n2 1 127749 127718 75833 XOR\n2 1 75833 1448 112172 XOR\n2 1 77625 127718 49858 XOR\n2 1 49857 49858 49856 AND\n2 1 49856 127718 127719 XOR\n2 1 79162 127719 49860 XOR\n2 1 127750 127719 75834 XOR\n2 1 77626 127719 49861 XOR\n2 1 49860 49861 49859 AND\n2 1 49859 127719 127720 XOR\n2 1 77627 127720 49864 XOR\n2 1 79163 127720 49863 XOR\n2 1 127751 127720 75835 XOR\n2 1 75835 1450 112174 XOR\n2 1 49863 49864 49862 AND\n2 1 49862 127720 127721 XOR\n2 1 77628 127721 49867 XOR\n2 1 127752 127721 75836 XOR\n2 1 79164 127721 49866 XOR\n2 1 49866 49867 49865 AND\n2 1 49865 127721 127722 XOR\n2 1 127753 127722 75837 XOR\n2 1 79165 127722 49869 XOR\n2 1 77629 127722 49870 XOR\n2 1 49869 49870 49868 AND\n2 1 49868 127722 127723 XOR\n2 1 77630 127723 49873 XOR\n2 1 79166 127723 49872 XOR\n2 1 49872 49873 49871 AND\n2 1 49871 127723 127724 XOR\n2 1 127755 127724 75839 XOR\n2 1 79167 127724 49875 XOR\n2 1 75837 1452 112176 XOR\n2 1 77631 127724 49876 XOR\n2 1 49875 49876 49874 AND\n2 1 49874 127724 127725 XOR\n2 1 127756 127725 75840 XOR\n2 1 79168 127725 49878 XOR\n2 1 77632 127725 49879 XOR\n2 1 127754 127723 75838 XOR\n2 1 49878 49879 49877 AND\n2 1 49877 127725 127726 XOR\n2 1 127757 127726 75841 XOR\n2 1 79169 127726 49881 XOR\n2 1 77633 127726 49882 XOR\n2 1 49881 49882 49880 AND\n2 1 49880 127726 127727 XOR\n2 1 127758 127727 75842 XOR\n2 1 79170 127727 49884 XOR\n2 1 75840 75842 80655 XOR\n2 1 80655 76015 127523 XOR\n2 1 75839 75841 80654 XOR\n2 1 80654 76014 127522 XOR\n2 1 75838 75840 80653 XOR\n2 1 80653 76013 127521 XOR\n2 1 75837 75839 80652 XOR\n2 1 80652 76012 127520 XOR\n2 1 75836 75838 80651 XOR\n2 1 80651 76011 127519 XOR\n2 1 75835 75837 80650 XOR\n2 1 80650 76010 127518 XOR\n2 1 75834 75836 80649 XOR\n2 1 80649 76009 127517 XOR\n2 1 75833 75835 80648 XOR\n2 1 80648 76008 127516 XOR\n2 1 75832 75834 80647 XOR\n2 1 80647 76007 127515 XOR\n2 1 75831 75833 6243 XOR\n2 1 75830 75832 6242 XOR\n2 1 75832 1447 112171 XOR\n2 1 75834 1449 112173 XOR\n2 1 75836 1451 112175 XOR\n2 1 75838 1453 112177 XOR\n2 1 75840 1455 112179 XOR\n2 1 75842 1457 112181 XOR\n2 1 75839 1454 112178 XOR\n2 1 75829 112137 22593 XOR\n2 1 22593 22594 22592 AND\n2 1 22592 112137 112138 XOR\n2 1 1445 112138 22597 XOR\n2 1 112169 112138 93947 XOR\n2 1 75830 112138 22596 XOR\n2 1 22596 22597 22595 AND\n2 1 22595 112138 112139 XOR\n2 1 112170 112139 93948 XOR\n2 1 1446 112139 22600 XOR\n2 1 75831 112139 22599 XOR\n2 1 22599 22600 22598 AND\n2 1 22598 112139 112140 XOR\n2 1 75832 112140 22602 XOR\n2 1 1447 112140 22603 XOR\n2 1 112171 112140 93949 XOR\n2 1 22602 22603 22601 AND\n2 1 22601 112140 112141 XOR\n",
"2 1 75833 112141 22605 XOR\n2 1 1448 112141 22606 XOR\n2 1 22605 22606 22604 AND\n2 1 22604 112141 112142 XOR\n2 1 112173 112142 93951 XOR\n2 1 75834 112142 22608 XOR\n2 1 1449 112142 22609 XOR\n2 1 22608 22609 22607 AND\n2 1 22607 112142 112143 XOR\n2 1 1450 112143 22612 XOR\n2 1 112174 112143 93952 XOR\n2 1 75835 112143 22611 XOR\n2 1 22611 22612 22610 AND\n2 1 22610 112143 112144 XOR\n2 1 75836 112144 22614 XOR\n2 1 112175 112144 93953 XOR\n2 1 1451 112144 22615 XOR\n2 1 22614 22615 22613 AND\n2 1 22613 112144 112145 XOR\n2 1 112176 112145 93954 XOR\n2 1 1452 112145 22618 XOR\n2 1 75837 112145 22617 XOR\n2 1 22617 22618 22616 AND\n2 1 22616 112145 112146 XOR\n2 1 112177 112146 93955 XOR\n2 1 1453 112146 22621 XOR\n2 1 75838 112146 22620 XOR\n2 1 22620 22621 22619 AND\n2 1 22619 112146 112147 XOR\n2 1 1454 112147 22624 XOR\n2 1 75839 112147 22623 XOR\n2 1 112178 112147 93956 XOR\n2 1 22623 22624 22622 AND\n2 1 22622 112147 112148 XOR\n2 1 112179 112148 93957 XOR\n2 1 1455 112148 22627 XOR\n2 1 75840 112148 22626 XOR\n2 1 112172 112141 93950 XOR\n2 1 22626 22627 22625 AND\n2 1 22625 112148 112149 XOR\n2 1 1456 112149 22630 XOR\n2 1 75841 112149 22629 XOR\n2 1 22629 22630 22628 AND\n2 1 22628 112149 112150 XOR\n2 1 112181 112150 93959 XOR\n2 1 1457 112150 22633 XOR\n2 1 75842 112150 22632 XOR\n2 1 22632 22633 22631 AND\n2 1 22631 112150 112151 XOR\n2 1 1458 112151 22636 XOR\n2 1 75841 1456 112180 XOR\n2 1 112180 112149 93958 XOR\n2 1 77634 127727 49885 XOR\n2 1 49884 49885 49883 AND\n2 1 49883 127727 127728 XOR\n2 1 127759 127728 75843 XOR\n2 1 75843 1458 112182 XOR\n2 1 79171 127728 49887 XOR\n2 1 112182 112151 93960 XOR\n2 1 75843 112151 22635 XOR\n2 1 22635 22636 22634 AND\n2 1 22634 112151 112152 XOR\n2 1 1459 112152 22639 XOR\n2 1 77635 127728 49888 XOR\n2 1 49887 49888 49886 AND\n2 1 49886 127728 127729 XOR\n2 1 77636 127729 49891 XOR\n2 1 127760 127729 75844 XOR\n2 1 79172 127729 49890 XOR\n2 1 49890 49891 49889 AND\n2 1 49889 127729 127730 XOR\n2 1 77637 127730 49894 XOR\n2 1 75844 112152 22638 XOR\n2 1 79173 127730 49893 XOR\n2 1 49893 49894 49892 AND\n2 1 49892 127730 127731 XOR\n2 1 79174 127731 49896 XOR\n2 1 127762 127731 75846 XOR\n2 1 77638 127731 49897 XOR\n2 1 49896 49897 49895 AND\n2 1 49895 127731 127732 XOR\n2 1 79175 127732 49899 XOR\n2 1 77639 127732 49900 XOR\n2 1 49899 49900 49898 AND\n2 1 49898 127732 127733 XOR\n2 1 127764 127733 75848 XOR\n2 1 77640 127733 49903 XOR\n2 1 79176 127733 49902 XOR\n2 1 49902 49903 49901 AND\n2 1 49901 127733 127734 XOR\n2 1 77641 127734 49906 XOR\n2 1 127765 127734 75849 XOR\n2 1 79177 127734 49905 XOR\n2 1 49905 49906 49904 AND\n2 1 49904 127734 127735 XOR\n2 1 127766 127735 75850 XOR\n2 1 75849 1464 112188 XOR\n2 1 127763 127732 75847 XOR\n2 1 75847 1462 112186 XOR\n2 1 77642 127735 49909 XOR\n2 1 22638 22639 22637 AND\n2 1 22637 112152 112153 XOR\n2 1 1460 112153 22642 XOR\n2 1 79178 127735 49908 XOR\n2 1 49908 49909 49907 AND\n2 1 49907 127735 127736 XOR\n2 1 127767 127736 75851 XOR\n2 1 79179 127736 49911 XOR\n2 1 75851 1466 112190 XOR\n2 1 77643 127736 49912 XOR\n2 1 49911 49912 49910 AND\n2 1 49910 127736 127737 XOR\n2 1 79180 127737 49914 XOR\n2 1 77644 127737 49915 XOR\n2 1 127768 127737 75852 XOR\n2 1 49914 49915 49913 AND\n2 1 49913 127737 127738 XOR\n2 1 79181 127738 49917 XOR\n2 1 77645 127738 49918 XOR\n2 1 49917 49918 49916 AND\n2 1 49916 127738 127739 XOR\n2 1 127770 127739 75854 XOR\n2 1 79182 127739 49920 XOR\n2 1 127769 127738 75853 XOR\n2 1 75853 1468 112192 XOR\n2 1 77646 127739 49921 XOR\n2 1 49920 49921 49919 AND\n2 1 127761 127730 75845 XOR\n",
"2 1 75845 1460 112184 XOR\n2 1 112184 112153 93962 XOR\n2 1 75841 75843 80656 XOR\n2 1 80656 76016 127524 XOR\n2 1 75852 75854 6232 XOR\n2 1 75851 75853 6231 XOR\n2 1 75850 75852 6230 XOR\n2 1 75849 75851 6229 XOR\n2 1 75848 75850 6228 XOR\n2 1 75847 75849 6227 XOR\n2 1 75846 75848 6226 XOR\n2 1 75845 75847 6225 XOR\n2 1 75844 75846 6224 XOR\n2 1 75843 75845 6223 XOR\n2 1 75842 75844 6222 XOR\n2 1 6241 75854 80644 XOR\n2 1 80644 76004 127512 XOR\n2 1 6240 75853 80643 XOR\n2 1 80643 76003 127511 XOR\n2 1 6239 75852 80642 XOR\n2 1 6238 75851 80641 XOR\n2 1 80641 76001 127509 XOR\n2 1 6237 75850 80640 XOR\n2 1 80640 76000 127508 XOR\n2 1 6232 75845 80635 XOR\n2 1 80635 75995 127503 XOR\n2 1 6231 75844 80634 XOR\n2 1 80634 75994 127502 XOR\n2 1 6230 75843 80633 XOR\n2 1 80633 75993 127501 XOR\n2 1 6229 75842 80632 XOR\n2 1 80632 75992 127500 XOR\n2 1 6228 75841 80631 XOR\n2 1 80631 75991 127499 XOR\n2 1 6227 75840 80630 XOR\n2 1 6226 75839 80629 XOR\n2 1 80629 75989 127497 XOR\n2 1 6225 75838 80628 XOR\n2 1 80628 75988 127496 XOR\n2 1 6224 75837 80627 XOR\n2 1 80627 75987 127495 XOR\n2 1 6223 75836 80626 XOR\n2 1 80626 75986 127494 XOR\n2 1 6222 75835 80625 XOR\n2 1 80625 75985 79089 XOR\n2 1 75844 1459 112183 XOR\n2 1 75846 1461 112185 XOR\n2 1 75848 1463 112187 XOR\n2 1 75850 1465 112189 XOR\n2 1 75852 1467 112191 XOR\n2 1 75854 1469 112193 XOR\n2 1 80630 75990 127498 XOR\n2 1 80625 75985 127463 AND\n2 1 127494 127463 79090 XOR\n2 1 75986 127463 49477 XOR\n2 1 80626 127463 49476 XOR\n2 1 49476 49477 49475 AND\n2 1 49475 127463 127464 XOR\n2 1 75987 127464 49480 XOR\n2 1 80627 127464 49479 XOR\n2 1 49479 49480 49478 AND\n2 1 49478 127464 127465 XOR\n2 1 80628 127465 49482 XOR\n2 1 75988 127465 49483 XOR\n2 1 49482 49483 49481 AND\n2 1 49481 127465 127466 XOR\n2 1 127497 127466 79093 XOR\n2 1 127496 127465 79092 XOR\n2 1 75989 127466 49486 XOR\n2 1 80629 127466 49485 XOR\n2 1 49485 49486 49484 AND\n2 1 49484 127466 127467 XOR\n2 1 80630 127467 49488 XOR\n2 1 127498 127467 79094 XOR\n2 1 75990 127467 49489 XOR\n2 1 49488 49489 49487 AND\n2 1 49487 127467 127468 XOR\n2 1 75991 127468 49492 XOR\n2 1 127499 127468 79095 XOR\n2 1 80631 127468 49491 XOR\n2 1 49919 127739 127740 XOR\n2 1 127771 127740 75855 XOR\n2 1 77647 127740 49924 XOR\n2 1 79183 127740 49923 XOR\n2 1 49923 49924 49922 AND\n2 1 49922 127740 127741 XOR\n2 1 127772 127741 75856 XOR\n2 1 75855 1470 112194 XOR\n2 1 75856 75826 6236 XOR\n2 1 75855 75825 6235 XOR\n2 1 75854 75856 6234 XOR\n2 1 75853 75855 6233 XOR\n2 1 6243 75856 80646 XOR\n2 1 80646 76006 127514 XOR\n2 1 6242 75855 80645 XOR\n2 1 80645 76005 127513 XOR\n2 1 6236 75849 80639 XOR\n2 1 80639 75999 127507 XOR\n2 1 6235 75848 80638 XOR\n2 1 80638 75998 127506 XOR\n2 1 6234 75847 80637 XOR\n2 1 80637 75997 127505 XOR\n2 1 6233 75846 80636 XOR\n2 1 80636 75996 127504 XOR\n2 1 75856 1471 112195 XOR\n2 1 80642 76002 127510 XOR\n2 1 127495 127464 79091 XOR\n2 1 49491 49492 49490 AND\n2 1 49490 127468 127469 XOR\n2 1 75992 127469 49495 XOR\n2 1 80632 127469 49494 XOR\n2 1 127500 127469 79096 XOR\n2 1 49494 49495 49493 AND\n2 1 49493 127469 127470 XOR\n2 1 75993 127470 49498 XOR\n2 1 80633 127470 49497 XOR\n2 1 49497 49498 49496 AND\n2 1 49496 127470 127471 XOR\n2 1 127502 127471 79098 XOR\n2 1 75994 127471 49501 XOR\n2 1 127501 127470 79097 XOR\n2 1 80634 127471 49500 XOR\n2 1 49500 49501 49499 AND\n2 1 49499 127471 127472 XOR\n2 1 75995 127472 49504 XOR\n2 1 127503 127472 79099 XOR\n2 1 80635 127472 49503 XOR\n2 1 49503 49504 49502 AND\n",
"2 1 49502 127472 127473 XOR\n2 1 127504 127473 79100 XOR\n2 1 75996 127473 49507 XOR\n2 1 80636 127473 49506 XOR\n2 1 49506 49507 49505 AND\n2 1 49505 127473 127474 XOR\n2 1 75997 127474 49510 XOR\n2 1 127505 127474 79101 XOR\n2 1 80637 127474 49509 XOR\n2 1 49509 49510 49508 AND\n2 1 49508 127474 127475 XOR\n2 1 80638 127475 49512 XOR\n2 1 127506 127475 79102 XOR\n2 1 75998 127475 49513 XOR\n2 1 49512 49513 49511 AND\n2 1 49511 127475 127476 XOR\n2 1 80639 127476 49515 XOR\n2 1 127507 127476 79103 XOR\n2 1 75999 127476 49516 XOR\n2 1 49515 49516 49514 AND\n2 1 49514 127476 127477 XOR\n2 1 76000 127477 49519 XOR\n2 1 127508 127477 79104 XOR\n2 1 80640 127477 49518 XOR\n2 1 49518 49519 49517 AND\n2 1 49517 127477 127478 XOR\n2 1 127509 127478 79105 XOR\n2 1 80641 127478 49521 XOR\n2 1 76001 127478 49522 XOR\n2 1 49521 49522 49520 AND\n2 1 49520 127478 127479 XOR\n2 1 80642 127479 49524 XOR\n2 1 76002 127479 49525 XOR\n2 1 49524 49525 49523 AND\n2 1 49523 127479 127480 XOR\n2 1 76003 127480 49528 XOR\n2 1 80643 127480 49527 XOR\n2 1 127511 127480 79107 XOR\n2 1 127510 127479 79106 XOR\n2 1 75845 112153 22641 XOR\n2 1 22641 22642 22640 AND\n2 1 22640 112153 112154 XOR\n2 1 1461 112154 22645 XOR\n2 1 75846 112154 22644 XOR\n2 1 22644 22645 22643 AND\n2 1 22643 112154 112155 XOR\n2 1 1462 112155 22648 XOR\n2 1 75847 112155 22647 XOR\n2 1 22647 22648 22646 AND\n2 1 22646 112155 112156 XOR\n2 1 112187 112156 93965 XOR\n2 1 75848 112156 22650 XOR\n2 1 1463 112156 22651 XOR\n2 1 112186 112155 93964 XOR\n2 1 112185 112154 93963 XOR\n2 1 22650 22651 22649 AND\n2 1 22649 112156 112157 XOR\n2 1 1464 112157 22654 XOR\n2 1 75849 112157 22653 XOR\n2 1 22653 22654 22652 AND\n2 1 112188 112157 93966 XOR\n2 1 22652 112157 112158 XOR\n2 1 112189 112158 93967 XOR\n2 1 1465 112158 22657 XOR\n2 1 75850 112158 22656 XOR\n2 1 22656 22657 22655 AND\n2 1 22655 112158 112159 XOR\n2 1 1466 112159 22660 XOR\n2 1 112190 112159 93968 XOR\n2 1 75851 112159 22659 XOR\n2 1 22659 22660 22658 AND\n2 1 22658 112159 112160 XOR\n2 1 1467 112160 22663 XOR\n2 1 75852 112160 22662 XOR\n2 1 22662 22663 22661 AND\n2 1 22661 112160 112161 XOR\n2 1 1468 112161 22666 XOR\n2 1 75853 112161 22665 XOR\n2 1 22665 22666 22664 AND\n2 1 22664 112161 112162 XOR\n2 1 112193 112162 93971 XOR\n2 1 112192 112161 93970 XOR\n2 1 1469 112162 22669 XOR\n2 1 75854 112162 22668 XOR\n2 1 22668 22669 22667 AND\n2 1 22667 112162 112163 XOR\n2 1 1470 112163 22672 XOR\n2 1 75855 112163 22671 XOR\n2 1 112194 112163 93972 XOR\n2 1 22671 22672 22670 AND\n2 1 22670 112163 112164 XOR\n2 1 112195 112164 93973 XOR\n2 1 112191 112160 93969 XOR\n2 1 112183 112152 93961 XOR\n2 1 49527 49528 49526 AND\n2 1 49526 127480 127481 XOR\n2 1 76004 127481 49531 XOR\n2 1 80644 127481 49530 XOR\n2 1 49530 49531 49529 AND\n2 1 49529 127481 127482 XOR\n2 1 80645 127482 49533 XOR\n2 1 127513 127482 79109 XOR\n2 1 76005 127482 49534 XOR\n2 1 49533 49534 49532 AND\n2 1 49532 127482 127483 XOR\n2 1 76006 127483 49537 XOR\n2 1 127514 127483 79110 XOR\n2 1 80646 127483 49536 XOR\n2 1 49536 49537 49535 AND\n2 1 49535 127483 127484 XOR\n2 1 127515 127484 79111 XOR\n2 1 80647 127484 49539 XOR\n2 1 76007 127484 49540 XOR\n2 1 49539 49540 49538 AND\n2 1 49538 127484 127485 XOR\n2 1 127516 127485 79112 XOR\n2 1 80648 127485 49542 XOR\n2 1 76008 127485 49543 XOR\n2 1 49542 49543 49541 AND\n2 1 49541 127485 127486 XOR\n2 1 76009 127486 49546 XOR\n2 1 127517 127486 79113 XOR\n2 1 80649 127486 49545 XOR\n2 1 49545 49546 49544 AND\n2 1 49544 127486 127487 XOR\n2 1 76010 127487 49549 XOR\n2 1 80650 127487 49548 XOR\n2 1 49548 49549 49547 AND\n",
"2 1 127518 127487 79114 XOR\n2 1 49547 127487 127488 XOR\n2 1 76011 127488 49552 XOR\n2 1 127519 127488 79115 XOR\n2 1 80651 127488 49551 XOR\n2 1 49551 49552 49550 AND\n2 1 49550 127488 127489 XOR\n2 1 127520 127489 79116 XOR\n2 1 80652 127489 49554 XOR\n2 1 76012 127489 49555 XOR\n2 1 49554 49555 49553 AND\n2 1 49553 127489 127490 XOR\n2 1 76013 127490 49558 XOR\n2 1 127521 127490 79117 XOR\n2 1 80653 127490 49557 XOR\n2 1 49557 49558 49556 AND\n2 1 49556 127490 127491 XOR\n2 1 80654 127491 49560 XOR\n2 1 127522 127491 79118 XOR\n2 1 76014 127491 49561 XOR\n2 1 49560 49561 49559 AND\n2 1 49559 127491 127492 XOR\n2 1 76015 127492 49564 XOR\n2 1 80655 127492 49563 XOR\n2 1 127523 127492 79119 XOR\n2 1 49563 49564 49562 AND\n2 1 49562 127492 127493 XOR\n2 1 127524 127493 79120 XOR\n2 1 127512 127481 79108 XOR\n2 1 76279 76290 82224 XOR\n2 1 82224 76336 127648 XOR\n2 1 76278 76289 82223 XOR\n2 1 82223 76335 127647 XOR\n2 1 76277 76288 82222 XOR\n2 1 82222 76334 127646 XOR\n2 1 76276 76287 4951 XOR\n2 1 76275 76286 4950 XOR\n2 1 76274 76285 4949 XOR\n2 1 76273 76284 4948 XOR\n2 1 76304 76283 4947 XOR\n2 1 76303 76282 4946 XOR\n2 1 76302 76281 4945 XOR\n2 1 76301 76280 4944 XOR\n2 1 76300 76279 4943 XOR\n2 1 76299 76278 4942 XOR\n2 1 76298 76277 4941 XOR\n2 1 76297 76276 4940 XOR\n2 1 76296 76275 4939 XOR\n2 1 76295 76274 4938 XOR\n2 1 76294 76273 4937 XOR\n2 1 76293 76304 4936 XOR\n2 1 76292 76303 4935 XOR\n2 1 76291 76302 4934 XOR\n2 1 76290 76301 4933 XOR\n2 1 76289 76300 4932 XOR\n2 1 76288 76299 4931 XOR\n2 1 76287 76298 4930 XOR\n2 1 76286 76297 4929 XOR\n2 1 76285 76296 4928 XOR\n2 1 76284 76295 4927 XOR\n2 1 76283 76294 4926 XOR\n2 1 76282 76293 4925 XOR\n2 1 76281 76292 4924 XOR\n2 1 76280 76291 4923 XOR\n2 1 4951 76304 82221 XOR\n2 1 82221 76333 127645 XOR\n2 1 4950 76303 82220 XOR\n2 1 82220 76332 127644 XOR\n2 1 4949 76302 82219 XOR\n2 1 82219 76331 127643 XOR\n2 1 4948 76301 82218 XOR\n2 1 82218 76330 127642 XOR\n2 1 4947 76300 82217 XOR\n2 1 82217 76329 127641 XOR\n2 1 4946 76299 82216 XOR\n2 1 82216 76328 127640 XOR\n2 1 4945 76298 82215 XOR\n2 1 82215 76327 127639 XOR\n2 1 4944 76297 82214 XOR\n2 1 82214 76326 127638 XOR\n2 1 4943 76296 82213 XOR\n2 1 82213 76325 127637 XOR\n2 1 4942 76295 82212 XOR\n2 1 82212 76324 127636 XOR\n2 1 4941 76294 82211 XOR\n2 1 82211 76323 127635 XOR\n2 1 4940 76293 82210 XOR\n2 1 82210 76322 127634 XOR\n2 1 4939 76292 82209 XOR\n2 1 82209 76321 127633 XOR\n2 1 4938 76291 82208 XOR\n2 1 82208 76320 127632 XOR\n2 1 4937 76290 82207 XOR\n2 1 82207 76319 127631 XOR\n2 1 4936 76289 82206 XOR\n2 1 82206 76318 127630 XOR\n2 1 4935 76288 82205 XOR\n2 1 82205 76317 127629 XOR\n2 1 4934 76287 82204 XOR\n2 1 82204 76316 127628 XOR\n2 1 4933 76286 82203 XOR\n2 1 82203 76315 127627 XOR\n2 1 4932 76285 82202 XOR\n2 1 82202 76314 127626 XOR\n2 1 4931 76284 82201 XOR\n2 1 82201 76313 127625 XOR\n2 1 4930 76283 82200 XOR\n2 1 82200 76312 127624 XOR\n2 1 4929 76282 82199 XOR\n2 1 82199 76311 127623 XOR\n2 1 4928 76281 82198 XOR\n2 1 82198 76310 127622 XOR\n2 1 4927 76280 82197 XOR\n2 1 82197 76309 127621 XOR\n2 1 4926 76279 82196 XOR\n2 1 82196 76308 127620 XOR\n2 1 4925 76278 82195 XOR\n2 1 82195 76307 127619 XOR\n2 1 4924 76277 82194 XOR\n2 1 82194 76306 127618 XOR\n2 1 4923 76276 82193 XOR\n2 1 82193 76305 127587 AND\n2 1 82194 127587 49656 XOR\n2 1 127618 127587 77586 XOR\n2 1 76306 127587 49657 XOR\n2 1 49656 49657 49655 AND\n2 1 49655 127587 127588 XOR\n2 1 76307 127588 49660 XOR\n",
"2 1 82195 127588 49659 XOR\n2 1 49659 49660 49658 AND\n2 1 49658 127588 127589 XOR\n2 1 127620 127589 77588 XOR\n2 1 76308 127589 49663 XOR\n2 1 79124 77588 127558 XOR\n2 1 127619 127588 77587 XOR\n2 1 79123 77587 127557 XOR\n2 1 82196 127589 49662 XOR\n2 1 49662 49663 49661 AND\n2 1 49661 127589 127590 XOR\n2 1 82197 127590 49665 XOR\n2 1 127621 127590 77589 XOR\n2 1 76309 127590 49666 XOR\n2 1 79125 77589 127559 XOR\n2 1 79122 77586 127556 XOR\n2 1 49665 49666 49664 AND\n2 1 49664 127590 127591 XOR\n2 1 76310 127591 49669 XOR\n2 1 82198 127591 49668 XOR\n2 1 127622 127591 77590 XOR\n2 1 79126 77590 127560 XOR\n2 1 82193 76305 77585 XOR\n2 1 79121 77585 75793 XOR\n2 1 75793 1408 93910 XOR\n2 1 79121 77585 127525 AND\n2 1 77586 127525 49567 XOR\n2 1 127556 127525 75794 XOR\n2 1 75794 1409 111917 XOR\n2 1 75793 1408 111886 AND\n2 1 1409 111886 22120 XOR\n2 1 111917 111886 93911 XOR\n2 1 79122 127525 49566 XOR\n2 1 49566 49567 49565 AND\n2 1 49565 127525 127526 XOR\n2 1 79123 127526 49569 XOR\n2 1 77587 127526 49570 XOR\n2 1 127557 127526 75795 XOR\n2 1 49569 49570 49568 AND\n2 1 49568 127526 127527 XOR\n2 1 77588 127527 49573 XOR\n2 1 79124 127527 49572 XOR\n2 1 49572 49573 49571 AND\n2 1 49571 127527 127528 XOR\n2 1 79125 127528 49575 XOR\n2 1 75795 1410 111918 XOR\n2 1 127559 127528 75797 XOR\n2 1 127558 127527 75796 XOR\n2 1 75796 1411 111919 XOR\n2 1 75797 1412 111920 XOR\n2 1 75795 75797 6217 XOR\n2 1 75794 75796 6216 XOR\n2 1 75793 75795 6215 XOR\n2 1 75794 111886 22119 XOR\n2 1 22119 22120 22118 AND\n2 1 22118 111886 111887 XOR\n2 1 111918 111887 93912 XOR\n2 1 75795 111887 22122 XOR\n2 1 1410 111887 22123 XOR\n2 1 22122 22123 22121 AND\n2 1 22121 111887 111888 XOR\n2 1 75796 111888 22125 XOR\n2 1 111919 111888 93913 XOR\n2 1 1411 111888 22126 XOR\n2 1 22125 22126 22124 AND\n2 1 22124 111888 111889 XOR\n2 1 1412 111889 22129 XOR\n2 1 75797 111889 22128 XOR\n2 1 22128 22129 22127 AND\n2 1 22127 111889 111890 XOR\n2 1 1413 111890 22132 XOR\n2 1 111920 111889 93914 XOR\n2 1 77589 127528 49576 XOR\n2 1 49575 49576 49574 AND\n2 1 49574 127528 127529 XOR\n2 1 79126 127529 49578 XOR\n2 1 77590 127529 49579 XOR\n2 1 127560 127529 75798 XOR\n2 1 75798 111890 22131 XOR\n2 1 75798 1413 111921 XOR\n2 1 111921 111890 93915 XOR\n2 1 22131 22132 22130 AND\n2 1 22130 111890 111891 XOR\n2 1 1414 111891 22135 XOR\n2 1 49578 49579 49577 AND\n2 1 49577 127529 127530 XOR\n2 1 75796 75798 6218 XOR\n2 1 79127 127530 49581 XOR\n2 1 49668 49669 49667 AND\n2 1 49667 127591 127592 XOR\n2 1 82199 127592 49671 XOR\n2 1 76311 127592 49672 XOR\n2 1 127623 127592 77591 XOR\n2 1 77591 127530 49582 XOR\n2 1 79127 77591 127561 XOR\n2 1 127561 127530 75799 XOR\n2 1 49671 49672 49670 AND\n2 1 49670 127592 127593 XOR\n2 1 76312 127593 49675 XOR\n2 1 127624 127593 77592 XOR\n2 1 79128 77592 127562 XOR\n2 1 82200 127593 49674 XOR\n2 1 75799 111891 22134 XOR\n2 1 22134 22135 22133 AND\n2 1 22133 111891 111892 XOR\n2 1 1415 111892 22138 XOR\n2 1 49674 49675 49673 AND\n2 1 49673 127593 127594 XOR\n2 1 127625 127594 77593 XOR\n2 1 79129 77593 127563 XOR\n2 1 82201 127594 49677 XOR\n2 1 49581 49582 49580 AND\n2 1 49580 127530 127531 XOR\n2 1 79128 127531 49584 XOR\n2 1 77592 127531 49585 XOR\n2 1 49584 49585 49583 AND\n2 1 127562 127531 75800 XOR\n2 1 75800 1415 111923 XOR\n2 1 111923 111892 93917 XOR\n2 1 49583 127531 127532 XOR\n2 1 127563 127532 75801 XOR\n2 1 75801 1416 111924 XOR\n2 1 79129 127532 49587 XOR\n2 1 77593 127532 49588 XOR\n2 1 49587 49588 49586 AND\n2 1 49586 127532 127533 XOR\n2 1 79130 127533 49590 XOR\n2 1 75800 111892 22137 XOR\n",
"2 1 22137 22138 22136 AND\n2 1 22136 111892 111893 XOR\n2 1 111924 111893 93918 XOR\n2 1 1416 111893 22141 XOR\n2 1 75801 111893 22140 XOR\n2 1 22140 22141 22139 AND\n2 1 22139 111893 111894 XOR\n2 1 1417 111894 22144 XOR\n2 1 75799 75801 6221 XOR\n2 1 75798 75800 6220 XOR\n2 1 75797 75799 6219 XOR\n2 1 76313 127594 49678 XOR\n2 1 49677 49678 49676 AND\n2 1 49676 127594 127595 XOR\n2 1 127626 127595 77594 XOR\n2 1 82202 127595 49680 XOR\n2 1 76314 127595 49681 XOR\n2 1 79130 77594 127564 XOR\n2 1 127564 127533 75802 XOR\n2 1 75802 1417 111925 XOR\n2 1 111925 111894 93919 XOR\n2 1 75802 111894 22143 XOR\n2 1 77594 127533 49591 XOR\n2 1 49590 49591 49589 AND\n2 1 49589 127533 127534 XOR\n2 1 79131 127534 49593 XOR\n2 1 22143 22144 22142 AND\n2 1 22142 111894 111895 XOR\n2 1 1418 111895 22147 XOR\n2 1 49680 49681 49679 AND\n2 1 49679 127595 127596 XOR\n2 1 82203 127596 49683 XOR\n2 1 127627 127596 77595 XOR\n2 1 76315 127596 49684 XOR\n2 1 77595 127534 49594 XOR\n2 1 49593 49594 49592 AND\n2 1 49683 49684 49682 AND\n2 1 49682 127596 127597 XOR\n2 1 82204 127597 49686 XOR\n2 1 127628 127597 77596 XOR\n2 1 79132 77596 127566 XOR\n2 1 49592 127534 127535 XOR\n2 1 79131 77595 127565 XOR\n2 1 127565 127534 75803 XOR\n2 1 75803 1418 111926 XOR\n2 1 111926 111895 93920 XOR\n2 1 75803 111895 22146 XOR\n2 1 22146 22147 22145 AND\n2 1 22145 111895 111896 XOR\n2 1 127566 127535 75804 XOR\n2 1 75804 1419 111927 XOR\n2 1 111927 111896 93921 XOR\n2 1 79132 127535 49596 XOR\n2 1 77596 127535 49597 XOR\n2 1 49596 49597 49595 AND\n2 1 49595 127535 127536 XOR\n2 1 79133 127536 49599 XOR\n2 1 1419 111896 22150 XOR\n2 1 75802 75804 80617 XOR\n2 1 80617 75977 127331 XOR\n2 1 75801 75803 80616 XOR\n2 1 80616 75976 127330 XOR\n2 1 75800 75802 80615 XOR\n2 1 80615 75975 127329 XOR\n2 1 75804 111896 22149 XOR\n2 1 22149 22150 22148 AND\n2 1 22148 111896 111897 XOR\n2 1 1420 111897 22153 XOR\n2 1 76316 127597 49687 XOR\n2 1 49686 49687 49685 AND\n2 1 49685 127597 127598 XOR\n2 1 76317 127598 49690 XOR\n2 1 82205 127598 49689 XOR\n2 1 127629 127598 77597 XOR\n2 1 77597 127536 49600 XOR\n2 1 79133 77597 127567 XOR\n2 1 49599 49600 49598 AND\n2 1 49598 127536 127537 XOR\n2 1 127567 127536 75805 XOR\n2 1 75805 111897 22152 XOR\n2 1 22152 22153 22151 AND\n2 1 22151 111897 111898 XOR\n2 1 1421 111898 22156 XOR\n2 1 75805 1420 111928 XOR\n2 1 111928 111897 93922 XOR\n2 1 75803 75805 80618 XOR\n2 1 80618 75978 127332 XOR\n2 1 49689 49690 49688 AND\n2 1 49688 127598 127599 XOR\n2 1 82206 127599 49692 XOR\n2 1 127630 127599 77598 XOR\n2 1 79134 77598 127568 XOR\n2 1 77598 127537 49603 XOR\n2 1 76318 127599 49693 XOR\n2 1 49692 49693 49691 AND\n2 1 49691 127599 127600 XOR\n2 1 82207 127600 49695 XOR\n2 1 127631 127600 77599 XOR\n2 1 76319 127600 49696 XOR\n2 1 79135 77599 127569 XOR\n2 1 49695 49696 49694 AND\n2 1 49694 127600 127601 XOR\n2 1 82208 127601 49698 XOR\n2 1 127632 127601 77600 XOR\n2 1 79136 77600 127570 XOR\n2 1 76320 127601 49699 XOR\n2 1 49698 49699 49697 AND\n2 1 49697 127601 127602 XOR\n2 1 127633 127602 77601 XOR\n2 1 79137 77601 127571 XOR\n2 1 82209 127602 49701 XOR\n2 1 127568 127537 75806 XOR\n2 1 75806 111898 22155 XOR\n2 1 22155 22156 22154 AND\n2 1 22154 111898 111899 XOR\n2 1 75806 1421 111929 XOR\n2 1 111929 111898 93923 XOR\n2 1 1422 111899 22159 XOR\n2 1 76321 127602 49702 XOR\n2 1 49701 49702 49700 AND\n2 1 49700 127602 127603 XOR\n2 1 127634 127603 77602 XOR\n2 1 79138 77602 127572 XOR\n2 1 76322 127603 49705 XOR\n2 1 82210 127603 49704 XOR\n2 1 49704 49705 49703 AND\n2 1 49703 127603 127604 XOR\n2 1 127635 127604 77603 XOR\n",
"2 1 79139 77603 127573 XOR\n2 1 76323 127604 49708 XOR\n2 1 82211 127604 49707 XOR\n2 1 49707 49708 49706 AND\n2 1 49706 127604 127605 XOR\n2 1 82212 127605 49710 XOR\n2 1 76324 127605 49711 XOR\n2 1 127636 127605 77604 XOR\n2 1 79140 77604 127574 XOR\n2 1 49710 49711 49709 AND\n2 1 49709 127605 127606 XOR\n2 1 127637 127606 77605 XOR\n2 1 79141 77605 127575 XOR\n2 1 82213 127606 49713 XOR\n2 1 76325 127606 49714 XOR\n2 1 49713 49714 49712 AND\n2 1 49712 127606 127607 XOR\n2 1 82214 127607 49716 XOR\n2 1 76326 127607 49717 XOR\n2 1 49716 49717 49715 AND\n2 1 127638 127607 77606 XOR\n2 1 79142 77606 127576 XOR\n2 1 75804 75806 80619 XOR\n2 1 80619 75979 127333 XOR\n2 1 49715 127607 127608 XOR\n2 1 127639 127608 77607 XOR\n2 1 79143 77607 127577 XOR\n2 1 82215 127608 49719 XOR\n2 1 76327 127608 49720 XOR\n2 1 49719 49720 49718 AND\n2 1 49718 127608 127609 XOR\n2 1 76328 127609 49723 XOR\n2 1 127640 127609 77608 XOR\n2 1 79144 77608 127578 XOR\n2 1 82216 127609 49722 XOR\n2 1 49722 49723 49721 AND\n2 1 49721 127609 127610 XOR\n2 1 76329 127610 49726 XOR\n2 1 127641 127610 77609 XOR\n2 1 79145 77609 127579 XOR\n2 1 79134 127537 49602 XOR\n2 1 49602 49603 49601 AND\n2 1 49601 127537 127538 XOR\n2 1 79135 127538 49605 XOR\n2 1 127569 127538 75807 XOR\n2 1 77599 127538 49606 XOR\n2 1 75807 111899 22158 XOR\n2 1 22158 22159 22157 AND\n2 1 22157 111899 111900 XOR\n2 1 1423 111900 22162 XOR\n2 1 49605 49606 49604 AND\n2 1 49604 127538 127539 XOR\n2 1 127570 127539 75808 XOR\n2 1 75808 1423 111931 XOR\n2 1 75808 111900 22161 XOR\n2 1 22161 22162 22160 AND\n2 1 79136 127539 49608 XOR\n2 1 77600 127539 49609 XOR\n2 1 49608 49609 49607 AND\n2 1 49607 127539 127540 XOR\n2 1 77601 127540 49612 XOR\n2 1 127571 127540 75809 XOR\n2 1 75809 1424 111932 XOR\n2 1 79137 127540 49611 XOR\n2 1 49611 49612 49610 AND\n2 1 49610 127540 127541 XOR\n2 1 127572 127541 75810 XOR\n2 1 75810 1425 111933 XOR\n2 1 79138 127541 49614 XOR\n2 1 77602 127541 49615 XOR\n2 1 49614 49615 49613 AND\n2 1 49613 127541 127542 XOR\n2 1 79139 127542 49617 XOR\n2 1 127573 127542 75811 XOR\n2 1 75811 1426 111934 XOR\n2 1 75807 1422 111930 XOR\n2 1 111930 111899 93924 XOR\n2 1 75809 75811 80624 XOR\n2 1 75808 75810 80623 XOR\n2 1 80623 75983 127337 XOR\n2 1 75807 75809 80622 XOR\n2 1 80622 75982 127336 XOR\n2 1 75806 75808 80621 XOR\n2 1 80621 75981 127335 XOR\n2 1 75805 75807 80620 XOR\n2 1 80620 75980 127334 XOR\n2 1 111931 111900 93925 XOR\n2 1 80624 75984 127338 XOR\n2 1 22160 111900 111901 XOR\n2 1 75809 111901 22164 XOR\n2 1 111932 111901 93926 XOR\n2 1 1424 111901 22165 XOR\n2 1 22164 22165 22163 AND\n2 1 22163 111901 111902 XOR\n2 1 111933 111902 93927 XOR\n2 1 75810 111902 22167 XOR\n2 1 1425 111902 22168 XOR\n2 1 22167 22168 22166 AND\n2 1 22166 111902 111903 XOR\n2 1 111934 111903 93928 XOR\n2 1 75811 111903 22170 XOR\n2 1 1426 111903 22171 XOR\n2 1 22170 22171 22169 AND\n2 1 22169 111903 111904 XOR\n2 1 1427 111904 22174 XOR\n2 1 77603 127542 49618 XOR\n2 1 49617 49618 49616 AND\n2 1 49616 127542 127543 XOR\n2 1 77604 127543 49621 XOR\n2 1 127574 127543 75812 XOR\n2 1 75812 1427 111935 XOR\n2 1 79140 127543 49620 XOR\n2 1 49620 49621 49619 AND\n2 1 49619 127543 127544 XOR\n2 1 79141 127544 49623 XOR\n2 1 77605 127544 49624 XOR\n2 1 49623 49624 49622 AND\n2 1 49622 127544 127545 XOR\n2 1 127576 127545 75814 XOR\n2 1 75814 1429 111937 XOR\n2 1 77606 127545 49627 XOR\n2 1 79142 127545 49626 XOR\n2 1 127575 127544 75813 XOR\n2 1 75813 1428 111936 XOR\n2 1 75812 75814 6202 XOR\n2 1 75811 75813 6201 XOR\n2 1 75810 75812 6200 XOR\n2 1 6202 75805 80595 XOR\n",
"2 1 80595 75955 127309 XOR\n2 1 6201 75804 80594 XOR\n2 1 80594 75954 127308 XOR\n2 1 6200 75803 80593 XOR\n2 1 80593 75953 127277 AND\n2 1 80593 75953 79057 XOR\n2 1 75954 127277 49207 XOR\n2 1 127308 127277 79058 XOR\n2 1 80594 127277 49206 XOR\n2 1 49206 49207 49205 AND\n2 1 49205 127277 127278 XOR\n2 1 127309 127278 79059 XOR\n2 1 75955 127278 49210 XOR\n2 1 111935 111904 93929 XOR\n2 1 75812 111904 22173 XOR\n2 1 22173 22174 22172 AND\n2 1 22172 111904 111905 XOR\n2 1 111936 111905 93930 XOR\n2 1 75813 111905 22176 XOR\n2 1 1428 111905 22177 XOR\n2 1 22176 22177 22175 AND\n2 1 22175 111905 111906 XOR\n2 1 111937 111906 93931 XOR\n2 1 75814 111906 22179 XOR\n2 1 1429 111906 22180 XOR\n2 1 22179 22180 22178 AND\n2 1 22178 111906 111907 XOR\n2 1 1430 111907 22183 XOR\n2 1 49626 49627 49625 AND\n2 1 49625 127545 127546 XOR\n2 1 77607 127546 49630 XOR\n2 1 79143 127546 49629 XOR\n2 1 49629 49630 49628 AND\n2 1 49628 127546 127547 XOR\n2 1 79144 127547 49632 XOR\n2 1 77608 127547 49633 XOR\n2 1 127578 127547 75816 XOR\n2 1 75816 1431 111939 XOR\n2 1 75814 75816 6204 XOR\n2 1 6204 75807 80597 XOR\n2 1 80597 75957 127311 XOR\n2 1 80595 127278 49209 XOR\n2 1 49209 49210 49208 AND\n2 1 49208 127278 127279 XOR\n2 1 75956 127279 49213 XOR\n2 1 127577 127546 75815 XOR\n2 1 75815 1430 111938 XOR\n2 1 75813 75815 6203 XOR\n2 1 6203 75806 80596 XOR\n2 1 80596 75956 127310 XOR\n2 1 80596 127279 49212 XOR\n2 1 49212 49213 49211 AND\n2 1 49211 127279 127280 XOR\n2 1 75957 127280 49216 XOR\n2 1 127311 127280 79061 XOR\n2 1 111938 111907 93932 XOR\n2 1 75815 111907 22182 XOR\n2 1 22182 22183 22181 AND\n2 1 22181 111907 111908 XOR\n2 1 75816 111908 22185 XOR\n2 1 111939 111908 93933 XOR\n2 1 1431 111908 22186 XOR\n2 1 22185 22186 22184 AND\n2 1 22184 111908 111909 XOR\n2 1 1432 111909 22189 XOR\n2 1 127310 127279 79060 XOR\n2 1 49632 49633 49631 AND\n2 1 49631 127547 127548 XOR\n2 1 79145 127548 49635 XOR\n2 1 77609 127548 49636 XOR\n2 1 127579 127548 75817 XOR\n2 1 75817 1432 111940 XOR\n2 1 111940 111909 93934 XOR\n2 1 75815 75817 6205 XOR\n2 1 6205 75808 80598 XOR\n2 1 80598 75958 127312 XOR\n2 1 75817 111909 22188 XOR\n2 1 22188 22189 22187 AND\n2 1 22187 111909 111910 XOR\n2 1 1433 111910 22192 XOR\n2 1 80597 127280 49215 XOR\n2 1 49215 49216 49214 AND\n2 1 49214 127280 127281 XOR\n2 1 80598 127281 49218 XOR\n2 1 75958 127281 49219 XOR\n2 1 49218 49219 49217 AND\n2 1 127312 127281 79062 XOR\n2 1 49217 127281 127282 XOR\n2 1 75959 127282 49222 XOR\n2 1 49635 49636 49634 AND\n2 1 49634 127548 127549 XOR\n2 1 79146 127549 49638 XOR\n2 1 82217 127610 49725 XOR\n2 1 49725 49726 49724 AND\n2 1 49724 127610 127611 XOR\n2 1 76330 127611 49729 XOR\n2 1 127642 127611 77610 XOR\n2 1 77610 127549 49639 XOR\n2 1 49638 49639 49637 AND\n2 1 49637 127549 127550 XOR\n2 1 79147 127550 49641 XOR\n2 1 82218 127611 49728 XOR\n2 1 49728 49729 49727 AND\n2 1 49727 127611 127612 XOR\n2 1 76331 127612 49732 XOR\n2 1 127643 127612 77611 XOR\n2 1 79147 77611 127581 XOR\n2 1 77611 127550 49642 XOR\n2 1 127581 127550 75819 XOR\n2 1 75819 1434 111942 XOR\n2 1 82219 127612 49731 XOR\n2 1 49731 49732 49730 AND\n2 1 49730 127612 127613 XOR\n2 1 82220 127613 49734 XOR\n2 1 127644 127613 77612 XOR\n2 1 79148 77612 127582 XOR\n2 1 76332 127613 49735 XOR\n2 1 49734 49735 49733 AND\n2 1 49733 127613 127614 XOR\n2 1 76333 127614 49738 XOR\n2 1 82221 127614 49737 XOR\n2 1 49737 49738 49736 AND\n2 1 49736 127614 127615 XOR\n2 1 76334 127615 49741 XOR\n2 1 127646 127615 77614 XOR\n2 1 79150 77614 127584 XOR\n2 1 49641 49642 49640 AND\n2 1 49640 127550 127551 XOR\n",
"2 1 77612 127551 49645 XOR\n2 1 79148 127551 49644 XOR\n2 1 127582 127551 75820 XOR\n2 1 75820 1435 111943 XOR\n2 1 82222 127615 49740 XOR\n2 1 49740 49741 49739 AND\n2 1 49739 127615 127616 XOR\n2 1 127647 127616 77615 XOR\n2 1 79151 77615 127585 XOR\n2 1 76335 127616 49744 XOR\n2 1 82223 127616 49743 XOR\n2 1 49743 49744 49742 AND\n2 1 49742 127616 127617 XOR\n2 1 127648 127617 77616 XOR\n2 1 79152 77616 127586 XOR\n2 1 127645 127614 77613 XOR\n2 1 79149 77613 127583 XOR\n2 1 75817 75819 6207 XOR\n2 1 6217 75820 80610 XOR\n2 1 80610 75970 127324 XOR\n2 1 6216 75819 80609 XOR\n2 1 80609 75969 127323 XOR\n2 1 6207 75810 80600 XOR\n2 1 80600 75960 127314 XOR\n2 1 79146 77610 127580 XOR\n2 1 49644 49645 49643 AND\n2 1 49643 127551 127552 XOR\n2 1 77613 127552 49648 XOR\n2 1 79149 127552 49647 XOR\n2 1 127583 127552 75821 XOR\n2 1 75821 1436 111944 XOR\n2 1 49647 49648 49646 AND\n2 1 49646 127552 127553 XOR\n2 1 79150 127553 49650 XOR\n2 1 127584 127553 75822 XOR\n2 1 75822 1437 111945 XOR\n2 1 77614 127553 49651 XOR\n2 1 49650 49651 49649 AND\n2 1 49649 127553 127554 XOR\n2 1 77615 127554 49654 XOR\n2 1 127585 127554 75823 XOR\n2 1 75823 1438 111946 XOR\n2 1 79151 127554 49653 XOR\n2 1 49653 49654 49652 AND\n2 1 49652 127554 127555 XOR\n2 1 127586 127555 75824 XOR\n2 1 75824 1439 111947 XOR\n2 1 75824 75794 6214 XOR\n2 1 75823 75793 6213 XOR\n2 1 75822 75824 6212 XOR\n2 1 75821 75823 6211 XOR\n2 1 75820 75822 6210 XOR\n2 1 75819 75821 6209 XOR\n2 1 6221 75824 80614 XOR\n2 1 80614 75974 127328 XOR\n2 1 6220 75823 80613 XOR\n2 1 80613 75973 127327 XOR\n2 1 6219 75822 80612 XOR\n2 1 80612 75972 127326 XOR\n2 1 6218 75821 80611 XOR\n2 1 80611 75971 127325 XOR\n2 1 6214 75817 80607 XOR\n2 1 80607 75967 127321 XOR\n2 1 6213 75816 80606 XOR\n2 1 80606 75966 127320 XOR\n2 1 6212 75815 80605 XOR\n2 1 80605 75965 127319 XOR\n2 1 6211 75814 80604 XOR\n2 1 80604 75964 127318 XOR\n2 1 6210 75813 80603 XOR\n2 1 80603 75963 127317 XOR\n2 1 6209 75812 80602 XOR\n2 1 80602 75962 127316 XOR\n2 1 127580 127549 75818 XOR\n2 1 75818 111910 22191 XOR\n2 1 75818 1433 111941 XOR\n2 1 75818 75820 6208 XOR\n2 1 75816 75818 6206 XOR\n2 1 6215 75818 80608 XOR\n2 1 80608 75968 127322 XOR\n2 1 6208 75811 80601 XOR\n2 1 6206 75809 80599 XOR\n2 1 80599 127282 49221 XOR\n2 1 49221 49222 49220 AND\n2 1 49220 127282 127283 XOR\n2 1 75960 127283 49225 XOR\n2 1 80600 127283 49224 XOR\n2 1 127314 127283 79064 XOR\n2 1 80599 75959 127313 XOR\n2 1 127313 127282 79063 XOR\n2 1 49224 49225 49223 AND\n2 1 49223 127283 127284 XOR\n2 1 75961 127284 49228 XOR\n2 1 111941 111910 93935 XOR\n2 1 22191 22192 22190 AND\n2 1 22190 111910 111911 XOR\n2 1 111942 111911 93936 XOR\n2 1 1434 111911 22195 XOR\n2 1 75819 111911 22194 XOR\n2 1 22194 22195 22193 AND\n2 1 22193 111911 111912 XOR\n2 1 75820 111912 22197 XOR\n2 1 111943 111912 93937 XOR\n2 1 1435 111912 22198 XOR\n2 1 22197 22198 22196 AND\n2 1 22196 111912 111913 XOR\n2 1 1436 111913 22201 XOR\n2 1 111944 111913 93938 XOR\n2 1 75821 111913 22200 XOR\n2 1 22200 22201 22199 AND\n2 1 22199 111913 111914 XOR\n2 1 75822 111914 22203 XOR\n2 1 111945 111914 93939 XOR\n2 1 1437 111914 22204 XOR\n2 1 22203 22204 22202 AND\n2 1 80601 75961 127315 XOR\n2 1 127315 127284 79065 XOR\n2 1 22202 111914 111915 XOR\n2 1 1438 111915 22207 XOR\n2 1 111946 111915 93940 XOR\n2 1 75823 111915 22206 XOR\n2 1 22206 22207 22205 AND\n2 1 22205 111915 111916 XOR\n2 1 111947 111916 93941 XOR\n2 1 80601 127284 49227 XOR\n2 1 49227 49228 49226 AND\n2 1 49226 127284 127285 XOR\n2 1 127316 127285 79066 XOR\n",
"2 1 80602 127285 49230 XOR\n2 1 75962 127285 49231 XOR\n2 1 49230 49231 49229 AND\n2 1 49229 127285 127286 XOR\n2 1 127317 127286 79067 XOR\n2 1 75963 127286 49234 XOR\n2 1 80603 127286 49233 XOR\n2 1 49233 49234 49232 AND\n2 1 49232 127286 127287 XOR\n2 1 127318 127287 79068 XOR\n2 1 80604 127287 49236 XOR\n2 1 75799 1414 111922 XOR\n2 1 111922 111891 93916 XOR\n2 1 75964 127287 49237 XOR\n2 1 49236 49237 49235 AND\n2 1 49235 127287 127288 XOR\n2 1 80605 127288 49239 XOR\n2 1 127319 127288 79069 XOR\n2 1 75965 127288 49240 XOR\n2 1 49239 49240 49238 AND\n2 1 49238 127288 127289 XOR\n2 1 127320 127289 79070 XOR\n2 1 75966 127289 49243 XOR\n2 1 80606 127289 49242 XOR\n2 1 49242 49243 49241 AND\n2 1 49241 127289 127290 XOR\n2 1 80607 127290 49245 XOR\n2 1 127321 127290 79071 XOR\n2 1 75967 127290 49246 XOR\n2 1 49245 49246 49244 AND\n2 1 49244 127290 127291 XOR\n2 1 127322 127291 79072 XOR\n2 1 75968 127291 49249 XOR\n2 1 80608 127291 49248 XOR\n2 1 49248 49249 49247 AND\n2 1 49247 127291 127292 XOR\n2 1 127323 127292 79073 XOR\n2 1 80609 127292 49251 XOR\n2 1 75969 127292 49252 XOR\n2 1 49251 49252 49250 AND\n2 1 49250 127292 127293 XOR\n2 1 75970 127293 49255 XOR\n2 1 80610 127293 49254 XOR\n2 1 127324 127293 79074 XOR\n2 1 49254 49255 49253 AND\n2 1 49253 127293 127294 XOR\n2 1 127325 127294 79075 XOR\n2 1 80611 127294 49257 XOR\n2 1 75971 127294 49258 XOR\n2 1 49257 49258 49256 AND\n2 1 49256 127294 127295 XOR\n2 1 127326 127295 79076 XOR\n2 1 80612 127295 49260 XOR\n2 1 75972 127295 49261 XOR\n2 1 49260 49261 49259 AND\n2 1 49259 127295 127296 XOR\n2 1 127327 127296 79077 XOR\n2 1 75973 127296 49264 XOR\n2 1 80613 127296 49263 XOR\n2 1 49263 49264 49262 AND\n2 1 49262 127296 127297 XOR\n2 1 80614 127297 49266 XOR\n2 1 127328 127297 79078 XOR\n2 1 75974 127297 49267 XOR\n2 1 49266 49267 49265 AND\n2 1 49265 127297 127298 XOR\n2 1 75975 127298 49270 XOR\n2 1 80615 127298 49269 XOR\n2 1 49269 49270 49268 AND\n2 1 49268 127298 127299 XOR\n2 1 80616 127299 49272 XOR\n2 1 75976 127299 49273 XOR\n2 1 49272 49273 49271 AND\n2 1 49271 127299 127300 XOR\n2 1 127331 127300 79081 XOR\n2 1 80617 127300 49275 XOR\n2 1 75977 127300 49276 XOR\n2 1 49275 49276 49274 AND\n2 1 49274 127300 127301 XOR\n2 1 127332 127301 79082 XOR\n2 1 75978 127301 49279 XOR\n2 1 80618 127301 49278 XOR\n2 1 127330 127299 79080 XOR\n2 1 49278 49279 49277 AND\n2 1 49277 127301 127302 XOR\n2 1 80619 127302 49281 XOR\n2 1 75979 127302 49282 XOR\n2 1 127333 127302 79083 XOR\n2 1 49281 49282 49280 AND\n2 1 49280 127302 127303 XOR\n2 1 75980 127303 49285 XOR\n2 1 80620 127303 49284 XOR\n2 1 49284 49285 49283 AND\n2 1 49283 127303 127304 XOR\n2 1 127335 127304 79085 XOR\n2 1 75981 127304 49288 XOR\n2 1 80621 127304 49287 XOR\n2 1 49287 49288 49286 AND\n2 1 49286 127304 127305 XOR\n2 1 127336 127305 79086 XOR\n2 1 127334 127303 79084 XOR\n2 1 75982 127305 49291 XOR\n2 1 80622 127305 49290 XOR\n2 1 49290 49291 49289 AND\n2 1 49289 127305 127306 XOR\n2 1 80623 127306 49293 XOR\n2 1 127337 127306 79087 XOR\n2 1 75983 127306 49294 XOR\n2 1 49293 49294 49292 AND\n2 1 49292 127306 127307 XOR\n2 1 127329 127298 79079 XOR\n2 1 127338 127307 79088 XOR\n2 1 76247 76258 82192 XOR\n2 1 82192 76304 127462 XOR\n2 1 76246 76257 82191 XOR\n2 1 82191 76303 127461 XOR\n2 1 76245 76256 82190 XOR\n2 1 82190 76302 127460 XOR\n2 1 76244 76255 4922 XOR\n2 1 76243 76254 4921 XOR\n2 1 76242 76253 4920 XOR\n2 1 76241 76252 4919 XOR\n2 1 76272 76251 4918 XOR\n2 1 76271 76250 4917 XOR\n2 1 76270 76249 4916 XOR\n2 1 76269 76248 4915 XOR\n2 1 76268 76247 4914 XOR\n2 1 76267 76246 4913 XOR\n",
"2 1 76266 76245 4912 XOR\n2 1 76265 76244 4911 XOR\n2 1 76264 76243 4910 XOR\n2 1 76263 76242 4909 XOR\n2 1 76262 76241 4908 XOR\n2 1 76261 76272 4907 XOR\n2 1 76260 76271 4906 XOR\n2 1 76259 76270 4905 XOR\n2 1 76258 76269 4904 XOR\n2 1 76257 76268 4903 XOR\n2 1 76256 76267 4902 XOR\n2 1 76255 76266 4901 XOR\n2 1 76254 76265 4900 XOR\n2 1 76253 76264 4899 XOR\n2 1 76252 76263 4898 XOR\n2 1 76251 76262 4897 XOR\n2 1 76250 76261 4896 XOR\n2 1 76249 76260 4895 XOR\n2 1 76248 76259 4894 XOR\n2 1 4922 76272 82189 XOR\n2 1 82189 76301 127459 XOR\n2 1 4921 76271 82188 XOR\n2 1 82188 76300 127458 XOR\n2 1 4920 76270 82187 XOR\n2 1 82187 76299 127457 XOR\n2 1 4919 76269 82186 XOR\n2 1 82186 76298 127456 XOR\n2 1 4918 76268 82185 XOR\n2 1 82185 76297 127455 XOR\n2 1 4917 76267 82184 XOR\n2 1 82184 76296 127454 XOR\n2 1 4916 76266 82183 XOR\n2 1 82183 76295 127453 XOR\n2 1 4915 76265 82182 XOR\n2 1 82182 76294 127452 XOR\n2 1 4914 76264 82181 XOR\n2 1 82181 76293 127451 XOR\n2 1 4913 76263 82180 XOR\n2 1 82180 76292 127450 XOR\n2 1 4912 76262 82179 XOR\n2 1 82179 76291 127449 XOR\n2 1 4911 76261 82178 XOR\n2 1 82178 76290 127448 XOR\n2 1 4910 76260 82177 XOR\n2 1 82177 76289 127447 XOR\n2 1 4909 76259 82176 XOR\n2 1 82176 76288 127446 XOR\n2 1 4908 76258 82175 XOR\n2 1 82175 76287 127445 XOR\n2 1 4907 76257 82174 XOR\n2 1 82174 76286 127444 XOR\n2 1 4906 76256 82173 XOR\n2 1 82173 76285 127443 XOR\n2 1 4905 76255 82172 XOR\n2 1 82172 76284 127442 XOR\n2 1 4904 76254 82171 XOR\n2 1 82171 76283 127441 XOR\n2 1 4903 76253 82170 XOR\n2 1 82170 76282 127440 XOR\n2 1 4902 76252 82169 XOR\n2 1 82169 76281 127439 XOR\n2 1 4901 76251 82168 XOR\n2 1 82168 76280 127438 XOR\n2 1 4900 76250 82167 XOR\n2 1 82167 76279 127437 XOR\n2 1 4899 76249 82166 XOR\n2 1 82166 76278 127436 XOR\n2 1 4898 76248 82165 XOR\n2 1 82165 76277 127435 XOR\n2 1 4897 76247 82164 XOR\n2 1 82164 76276 127434 XOR\n2 1 4896 76246 82163 XOR\n2 1 82163 76275 127433 XOR\n2 1 4895 76245 82162 XOR\n2 1 82162 76274 127432 XOR\n2 1 4894 76244 82161 XOR\n2 1 82161 76273 77553 XOR\n2 1 79089 77553 127339 AND\n2 1 79090 127339 49296 XOR\n2 1 79089 77553 75761 XOR\n2 1 75761 1376 93878 XOR\n2 1 75761 1376 111638 AND\n2 1 1377 111638 21650 XOR\n2 1 82161 76273 127401 AND\n2 1 82162 127401 49386 XOR\n2 1 76274 127401 49387 XOR\n2 1 127432 127401 77554 XOR\n2 1 49386 49387 49385 AND\n2 1 79090 77554 127370 XOR\n2 1 127370 127339 75762 XOR\n2 1 75762 1377 111669 XOR\n2 1 77554 127339 49297 XOR\n2 1 49296 49297 49295 AND\n2 1 49295 127339 127340 XOR\n2 1 79091 127340 49299 XOR\n2 1 111669 111638 93879 XOR\n2 1 75762 111638 21649 XOR\n2 1 21649 21650 21648 AND\n2 1 21648 111638 111639 XOR\n2 1 1378 111639 21653 XOR\n2 1 49385 127401 127402 XOR\n2 1 82163 127402 49389 XOR\n2 1 127433 127402 77555 XOR\n2 1 79091 77555 127371 XOR\n2 1 77555 127340 49300 XOR\n2 1 76275 127402 49390 XOR\n2 1 49389 49390 49388 AND\n2 1 49388 127402 127403 XOR\n2 1 127434 127403 77556 XOR\n2 1 79092 77556 127372 XOR\n2 1 82164 127403 49392 XOR\n2 1 49299 49300 49298 AND\n2 1 49298 127340 127341 XOR\n2 1 77556 127341 49303 XOR\n2 1 127372 127341 75764 XOR\n2 1 75764 1379 111671 XOR\n2 1 79092 127341 49302 XOR\n2 1 127371 127340 75763 XOR\n2 1 75763 1378 111670 XOR\n2 1 75762 75764 6194 XOR\n2 1 75761 75763 6193 XOR\n2 1 111670 111639 93880 XOR\n2 1 75763 111639 21652 XOR\n2 1 21652 21653 21651 AND\n2 1 21651 111639 111640 XOR\n2 1 111671 111640 93881 XOR\n2 1 75764 111640 21655 XOR\n2 1 1379 111640 21656 XOR\n",
"2 1 21655 21656 21654 AND\n2 1 21654 111640 111641 XOR\n2 1 1380 111641 21659 XOR\n2 1 49302 49303 49301 AND\n2 1 49301 127341 127342 XOR\n2 1 79093 127342 49305 XOR\n2 1 76276 127403 49393 XOR\n2 1 49392 49393 49391 AND\n2 1 49391 127403 127404 XOR\n2 1 127435 127404 77557 XOR\n2 1 79093 77557 127373 XOR\n2 1 82165 127404 49395 XOR\n2 1 127373 127342 75765 XOR\n2 1 76277 127404 49396 XOR\n2 1 77557 127342 49306 XOR\n2 1 49305 49306 49304 AND\n2 1 49304 127342 127343 XOR\n2 1 79094 127343 49308 XOR\n2 1 49395 49396 49394 AND\n2 1 49394 127404 127405 XOR\n2 1 82166 127405 49398 XOR\n2 1 127436 127405 77558 XOR\n2 1 79094 77558 127374 XOR\n2 1 127374 127343 75766 XOR\n2 1 75766 1381 111673 XOR\n2 1 76278 127405 49399 XOR\n2 1 49398 49399 49397 AND\n2 1 49397 127405 127406 XOR\n2 1 82167 127406 49401 XOR\n2 1 127437 127406 77559 XOR\n2 1 79095 77559 127375 XOR\n2 1 76279 127406 49402 XOR\n2 1 49401 49402 49400 AND\n2 1 49400 127406 127407 XOR\n2 1 76280 127407 49405 XOR\n2 1 127438 127407 77560 XOR\n2 1 79096 77560 127376 XOR\n2 1 77558 127343 49309 XOR\n2 1 49308 49309 49307 AND\n2 1 49307 127343 127344 XOR\n2 1 127375 127344 75767 XOR\n2 1 75767 1382 111674 XOR\n2 1 82168 127407 49404 XOR\n2 1 49404 49405 49403 AND\n2 1 49403 127407 127408 XOR\n2 1 127439 127408 77561 XOR\n2 1 79097 77561 127377 XOR\n2 1 76281 127408 49408 XOR\n2 1 82169 127408 49407 XOR\n2 1 49407 49408 49406 AND\n2 1 49406 127408 127409 XOR\n2 1 127440 127409 77562 XOR\n2 1 79098 77562 127378 XOR\n2 1 76282 127409 49411 XOR\n2 1 82170 127409 49410 XOR\n2 1 49410 49411 49409 AND\n2 1 49409 127409 127410 XOR\n2 1 127441 127410 77563 XOR\n2 1 79099 77563 127379 XOR\n2 1 76283 127410 49414 XOR\n2 1 82171 127410 49413 XOR\n2 1 75765 75767 6197 XOR\n2 1 75764 75766 6196 XOR\n2 1 75763 75765 6195 XOR\n2 1 75765 111641 21658 XOR\n2 1 21658 21659 21657 AND\n2 1 21657 111641 111642 XOR\n2 1 111673 111642 93883 XOR\n2 1 75766 111642 21661 XOR\n2 1 1381 111642 21662 XOR\n2 1 21661 21662 21660 AND\n2 1 21660 111642 111643 XOR\n2 1 1382 111643 21665 XOR\n2 1 75767 111643 21664 XOR\n2 1 21664 21665 21663 AND\n2 1 21663 111643 111644 XOR\n2 1 1383 111644 21668 XOR\n2 1 79095 127344 49311 XOR\n2 1 77559 127344 49312 XOR\n2 1 49311 49312 49310 AND\n2 1 49310 127344 127345 XOR\n2 1 79096 127345 49314 XOR\n2 1 127376 127345 75768 XOR\n2 1 75768 1383 111675 XOR\n2 1 77560 127345 49315 XOR\n2 1 75766 75768 6198 XOR\n2 1 111675 111644 93885 XOR\n2 1 49413 49414 49412 AND\n2 1 49412 127410 127411 XOR\n2 1 76284 127411 49417 XOR\n2 1 82172 127411 49416 XOR\n2 1 49416 49417 49415 AND\n2 1 127442 127411 77564 XOR\n2 1 79100 77564 127380 XOR\n2 1 49415 127411 127412 XOR\n2 1 82173 127412 49419 XOR\n2 1 127443 127412 77565 XOR\n2 1 79101 77565 127381 XOR\n2 1 76285 127412 49420 XOR\n2 1 49419 49420 49418 AND\n2 1 49418 127412 127413 XOR\n2 1 127444 127413 77566 XOR\n2 1 76286 127413 49423 XOR\n2 1 82174 127413 49422 XOR\n2 1 49422 49423 49421 AND\n2 1 49421 127413 127414 XOR\n2 1 127445 127414 77567 XOR\n2 1 82175 127414 49425 XOR\n2 1 76287 127414 49426 XOR\n2 1 49425 49426 49424 AND\n2 1 49424 127414 127415 XOR\n2 1 76288 127415 49429 XOR\n2 1 127446 127415 77568 XOR\n2 1 82176 127415 49428 XOR\n2 1 79102 77566 127382 XOR\n2 1 79104 77568 127384 XOR\n2 1 79103 77567 127383 XOR\n2 1 49428 49429 49427 AND\n2 1 49427 127415 127416 XOR\n2 1 127447 127416 77569 XOR\n2 1 79105 77569 127385 XOR\n2 1 76289 127416 49432 XOR\n2 1 82177 127416 49431 XOR\n2 1 49431 49432 49430 AND\n2 1 49430 127416 127417 XOR\n2 1 127448 127417 77570 XOR\n2 1 79106 77570 127386 XOR\n2 1 76290 127417 49435 XOR\n",
"2 1 82178 127417 49434 XOR\n2 1 49434 49435 49433 AND\n2 1 49433 127417 127418 XOR\n2 1 127449 127418 77571 XOR\n2 1 76291 127418 49438 XOR\n2 1 82179 127418 49437 XOR\n2 1 49437 49438 49436 AND\n2 1 79107 77571 127387 XOR\n2 1 49436 127418 127419 XOR\n2 1 127450 127419 77572 XOR\n2 1 82180 127419 49440 XOR\n2 1 79108 77572 127388 XOR\n2 1 76292 127419 49441 XOR\n2 1 49440 49441 49439 AND\n2 1 49439 127419 127420 XOR\n2 1 76293 127420 49444 XOR\n2 1 82181 127420 49443 XOR\n2 1 49443 49444 49442 AND\n2 1 49442 127420 127421 XOR\n2 1 82182 127421 49446 XOR\n2 1 76294 127421 49447 XOR\n2 1 49446 49447 49445 AND\n2 1 49445 127421 127422 XOR\n2 1 82183 127422 49449 XOR\n2 1 127453 127422 77575 XOR\n2 1 76295 127422 49450 XOR\n2 1 49449 49450 49448 AND\n2 1 127452 127421 77574 XOR\n2 1 79110 77574 127390 XOR\n2 1 127451 127420 77573 XOR\n2 1 79109 77573 127389 XOR\n2 1 79111 77575 127391 XOR\n2 1 49448 127422 127423 XOR\n2 1 76296 127423 49453 XOR\n2 1 82184 127423 49452 XOR\n2 1 127454 127423 77576 XOR\n2 1 79112 77576 127392 XOR\n2 1 49452 49453 49451 AND\n2 1 49451 127423 127424 XOR\n2 1 127455 127424 77577 XOR\n2 1 79113 77577 127393 XOR\n2 1 82185 127424 49455 XOR\n2 1 76297 127424 49456 XOR\n2 1 49455 49456 49454 AND\n2 1 49454 127424 127425 XOR\n2 1 82186 127425 49458 XOR\n2 1 127456 127425 77578 XOR\n2 1 79114 77578 127394 XOR\n2 1 76298 127425 49459 XOR\n2 1 49458 49459 49457 AND\n2 1 49457 127425 127426 XOR\n2 1 127457 127426 77579 XOR\n2 1 76299 127426 49462 XOR\n2 1 82187 127426 49461 XOR\n2 1 49461 49462 49460 AND\n2 1 49460 127426 127427 XOR\n2 1 82188 127427 49464 XOR\n2 1 76300 127427 49465 XOR\n2 1 49464 49465 49463 AND\n2 1 49463 127427 127428 XOR\n2 1 127459 127428 77581 XOR\n2 1 76301 127428 49468 XOR\n2 1 79117 77581 127397 XOR\n2 1 127458 127427 77580 XOR\n2 1 79116 77580 127396 XOR\n2 1 79115 77579 127395 XOR\n2 1 82189 127428 49467 XOR\n2 1 49467 49468 49466 AND\n2 1 49466 127428 127429 XOR\n2 1 127460 127429 77582 XOR\n2 1 82190 127429 49470 XOR\n2 1 76302 127429 49471 XOR\n2 1 49470 49471 49469 AND\n2 1 49469 127429 127430 XOR\n2 1 76303 127430 49474 XOR\n2 1 82191 127430 49473 XOR\n2 1 127461 127430 77583 XOR\n2 1 79119 77583 127399 XOR\n2 1 49473 49474 49472 AND\n2 1 49472 127430 127431 XOR\n2 1 127462 127431 77584 XOR\n2 1 79120 77584 127400 XOR\n2 1 79118 77582 127398 XOR\n2 1 75765 1380 111672 XOR\n2 1 111672 111641 93882 XOR\n2 1 75768 111644 21667 XOR\n2 1 21667 21668 21666 AND\n2 1 111674 111643 93884 XOR\n2 1 21666 111644 111645 XOR\n2 1 1384 111645 21671 XOR\n2 1 49314 49315 49313 AND\n2 1 49313 127345 127346 XOR\n2 1 79097 127346 49317 XOR\n2 1 77561 127346 49318 XOR\n2 1 49317 49318 49316 AND\n2 1 49316 127346 127347 XOR\n2 1 79098 127347 49320 XOR\n2 1 77562 127347 49321 XOR\n2 1 49320 49321 49319 AND\n2 1 49319 127347 127348 XOR\n2 1 77563 127348 49324 XOR\n2 1 127379 127348 75771 XOR\n2 1 79099 127348 49323 XOR\n2 1 75771 1386 111678 XOR\n2 1 49323 49324 49322 AND\n2 1 49322 127348 127349 XOR\n2 1 77564 127349 49327 XOR\n2 1 127380 127349 75772 XOR\n2 1 75772 1387 111679 XOR\n2 1 79100 127349 49326 XOR\n2 1 49326 49327 49325 AND\n2 1 49325 127349 127350 XOR\n2 1 79101 127350 49329 XOR\n2 1 77565 127350 49330 XOR\n2 1 49329 49330 49328 AND\n2 1 127378 127347 75770 XOR\n2 1 75770 1385 111677 XOR\n2 1 127381 127350 75773 XOR\n2 1 127377 127346 75769 XOR\n2 1 75769 1384 111676 XOR\n2 1 49328 127350 127351 XOR\n2 1 77566 127351 49333 XOR\n2 1 79102 127351 49332 XOR\n2 1 49332 49333 49331 AND\n2 1 49331 127351 127352 XOR\n2 1 79103 127352 49335 XOR\n2 1 77567 127352 49336 XOR\n2 1 49335 49336 49334 AND\n",
"2 1 127383 127352 75775 XOR\n2 1 75775 1390 111682 XOR\n2 1 127382 127351 75774 XOR\n2 1 75774 1389 111681 XOR\n2 1 49334 127352 127353 XOR\n2 1 127384 127353 75776 XOR\n2 1 79104 127353 49338 XOR\n2 1 75776 1391 111683 XOR\n2 1 77568 127353 49339 XOR\n2 1 49338 49339 49337 AND\n2 1 75774 75776 80589 XOR\n2 1 80589 75949 127149 XOR\n2 1 75773 75775 80588 XOR\n2 1 75772 75774 80587 XOR\n2 1 80587 75947 127147 XOR\n2 1 75771 75773 80586 XOR\n2 1 80586 75946 127146 XOR\n2 1 75770 75772 80585 XOR\n2 1 75769 75771 80584 XOR\n2 1 80584 75944 127144 XOR\n2 1 75768 75770 80583 XOR\n2 1 80583 75943 127143 XOR\n2 1 75767 75769 6199 XOR\n2 1 75769 111645 21670 XOR\n2 1 75773 1388 111680 XOR\n2 1 49337 127353 127354 XOR\n2 1 79105 127354 49341 XOR\n2 1 77569 127354 49342 XOR\n2 1 49341 49342 49340 AND\n2 1 127385 127354 75777 XOR\n2 1 75777 1392 111684 XOR\n2 1 75775 75777 80590 XOR\n2 1 80590 75950 127150 XOR\n2 1 49340 127354 127355 XOR\n2 1 79106 127355 49344 XOR\n2 1 77570 127355 49345 XOR\n2 1 49344 49345 49343 AND\n2 1 127386 127355 75778 XOR\n2 1 75778 1393 111685 XOR\n2 1 75776 75778 80591 XOR\n2 1 80591 75951 127151 XOR\n2 1 49343 127355 127356 XOR\n2 1 79107 127356 49347 XOR\n2 1 127387 127356 75779 XOR\n2 1 75779 1394 111686 XOR\n2 1 77571 127356 49348 XOR\n2 1 49347 49348 49346 AND\n2 1 49346 127356 127357 XOR\n2 1 79108 127357 49350 XOR\n2 1 127388 127357 75780 XOR\n2 1 75777 75779 80592 XOR\n2 1 80592 75952 127152 XOR\n2 1 75778 75780 6178 XOR\n2 1 6178 75771 80561 XOR\n2 1 80561 75921 127091 AND\n2 1 80561 75921 79025 XOR\n2 1 75922 127091 48937 XOR\n2 1 77572 127357 49351 XOR\n2 1 49350 49351 49349 AND\n2 1 49349 127357 127358 XOR\n2 1 127389 127358 75781 XOR\n2 1 75781 1396 111688 XOR\n2 1 77573 127358 49354 XOR\n2 1 75779 75781 6179 XOR\n2 1 6179 75772 80562 XOR\n2 1 80562 127091 48936 XOR\n2 1 48936 48937 48935 AND\n2 1 48935 127091 127092 XOR\n2 1 75923 127092 48940 XOR\n2 1 80562 75922 127122 XOR\n2 1 127122 127091 79026 XOR\n2 1 79109 127358 49353 XOR\n2 1 49353 49354 49352 AND\n2 1 49352 127358 127359 XOR\n2 1 127390 127359 75782 XOR\n2 1 75780 75782 6180 XOR\n2 1 6180 75773 80563 XOR\n2 1 80563 127092 48939 XOR\n2 1 48939 48940 48938 AND\n2 1 48938 127092 127093 XOR\n2 1 75924 127093 48943 XOR\n2 1 80563 75923 127123 XOR\n2 1 75782 1397 111689 XOR\n2 1 127123 127092 79027 XOR\n2 1 79110 127359 49356 XOR\n2 1 77574 127359 49357 XOR\n2 1 49356 49357 49355 AND\n2 1 49355 127359 127360 XOR\n2 1 127391 127360 75783 XOR\n2 1 75783 1398 111690 XOR\n2 1 75781 75783 6181 XOR\n2 1 6181 75774 80564 XOR\n2 1 80564 127093 48942 XOR\n2 1 48942 48943 48941 AND\n2 1 48941 127093 127094 XOR\n2 1 80564 75924 127124 XOR\n2 1 127124 127093 79028 XOR\n2 1 79111 127360 49359 XOR\n2 1 77575 127360 49360 XOR\n2 1 49359 49360 49358 AND\n2 1 49358 127360 127361 XOR\n2 1 127392 127361 75784 XOR\n2 1 75782 75784 6182 XOR\n2 1 6182 75775 80565 XOR\n2 1 80565 127094 48945 XOR\n2 1 80565 75925 127125 XOR\n2 1 127125 127094 79029 XOR\n2 1 75784 1399 111691 XOR\n2 1 79112 127361 49362 XOR\n2 1 77576 127361 49363 XOR\n2 1 49362 49363 49361 AND\n2 1 49361 127361 127362 XOR\n2 1 127393 127362 75785 XOR\n2 1 75785 1400 111692 XOR\n2 1 75783 75785 6183 XOR\n2 1 6183 75776 80566 XOR\n2 1 80566 75926 127126 XOR\n2 1 79113 127362 49365 XOR\n2 1 77577 127362 49366 XOR\n2 1 49365 49366 49364 AND\n2 1 49364 127362 127363 XOR\n2 1 127394 127363 75786 XOR\n2 1 75784 75786 6184 XOR\n2 1 6193 75786 80576 XOR\n2 1 80576 75936 127136 XOR\n2 1 6184 75777 80567 XOR\n2 1 80567 75927 127127 XOR\n2 1 75786 1401 111693 XOR\n",
"2 1 79114 127363 49368 XOR\n2 1 77578 127363 49369 XOR\n2 1 49368 49369 49367 AND\n2 1 49367 127363 127364 XOR\n2 1 127395 127364 75787 XOR\n2 1 75785 75787 6185 XOR\n2 1 6194 75787 80577 XOR\n2 1 80577 75937 127137 XOR\n2 1 6185 75778 80568 XOR\n2 1 80568 75928 127128 XOR\n2 1 79115 127364 49371 XOR\n2 1 77579 127364 49372 XOR\n2 1 49371 49372 49370 AND\n2 1 49370 127364 127365 XOR\n2 1 77580 127365 49375 XOR\n2 1 79116 127365 49374 XOR\n2 1 49374 49375 49373 AND\n2 1 49373 127365 127366 XOR\n2 1 79117 127366 49377 XOR\n2 1 127397 127366 75789 XOR\n2 1 75787 75789 6187 XOR\n2 1 6196 75789 80579 XOR\n2 1 80579 75939 127139 XOR\n2 1 6187 75780 80570 XOR\n2 1 80570 75930 127130 XOR\n2 1 75789 1404 111696 XOR\n2 1 77581 127366 49378 XOR\n2 1 49377 49378 49376 AND\n2 1 49376 127366 127367 XOR\n2 1 77582 127367 49381 XOR\n2 1 127398 127367 75790 XOR\n2 1 6197 75790 80580 XOR\n2 1 80580 75940 127140 XOR\n2 1 75790 1405 111697 XOR\n2 1 79118 127367 49380 XOR\n2 1 49380 49381 49379 AND\n2 1 49379 127367 127368 XOR\n2 1 79119 127368 49383 XOR\n2 1 127399 127368 75791 XOR\n2 1 75791 75761 6191 XOR\n2 1 75789 75791 6189 XOR\n2 1 6198 75791 80581 XOR\n2 1 80581 75941 127141 XOR\n2 1 6191 75784 80574 XOR\n2 1 80574 75934 127134 XOR\n2 1 6189 75782 80572 XOR\n2 1 80572 75932 127132 XOR\n2 1 75791 1406 111698 XOR\n2 1 77583 127368 49384 XOR\n2 1 49383 49384 49382 AND\n2 1 49382 127368 127369 XOR\n2 1 127400 127369 75792 XOR\n2 1 75792 75762 6192 XOR\n2 1 75790 75792 6190 XOR\n2 1 6199 75792 80582 XOR\n2 1 80582 75942 127142 XOR\n2 1 6192 75785 80575 XOR\n2 1 6190 75783 80573 XOR\n2 1 80573 75933 127133 XOR\n2 1 75792 1407 111699 XOR\n2 1 80575 75935 127135 XOR\n2 1 127396 127365 75788 XOR\n2 1 75788 75790 6188 XOR\n2 1 75786 75788 6186 XOR\n2 1 6195 75788 80578 XOR\n2 1 80578 75938 127138 XOR\n2 1 6188 75781 80571 XOR\n2 1 80571 75931 127131 XOR\n2 1 6186 75779 80569 XOR\n2 1 80569 75929 127129 XOR\n2 1 75788 1403 111695 XOR\n2 1 75925 127094 48946 XOR\n2 1 48945 48946 48944 AND\n2 1 48944 127094 127095 XOR\n2 1 127126 127095 79030 XOR\n2 1 75926 127095 48949 XOR\n2 1 80566 127095 48948 XOR\n2 1 48948 48949 48947 AND\n2 1 48947 127095 127096 XOR\n2 1 127127 127096 79031 XOR\n2 1 80567 127096 48951 XOR\n2 1 80588 75948 127148 XOR\n2 1 75927 127096 48952 XOR\n2 1 48951 48952 48950 AND\n2 1 48950 127096 127097 XOR\n2 1 80568 127097 48954 XOR\n2 1 75928 127097 48955 XOR\n2 1 48954 48955 48953 AND\n2 1 127128 127097 79032 XOR\n2 1 48953 127097 127098 XOR\n2 1 127129 127098 79033 XOR\n2 1 80569 127098 48957 XOR\n2 1 75929 127098 48958 XOR\n2 1 48957 48958 48956 AND\n2 1 48956 127098 127099 XOR\n2 1 80570 127099 48960 XOR\n2 1 127130 127099 79034 XOR\n2 1 75930 127099 48961 XOR\n2 1 48960 48961 48959 AND\n2 1 48959 127099 127100 XOR\n2 1 75931 127100 48964 XOR\n2 1 80571 127100 48963 XOR\n2 1 127131 127100 79035 XOR\n2 1 48963 48964 48962 AND\n2 1 48962 127100 127101 XOR\n2 1 75932 127101 48967 XOR\n2 1 127132 127101 79036 XOR\n2 1 80572 127101 48966 XOR\n2 1 48966 48967 48965 AND\n2 1 48965 127101 127102 XOR\n2 1 127133 127102 79037 XOR\n2 1 80573 127102 48969 XOR\n2 1 75933 127102 48970 XOR\n2 1 48969 48970 48968 AND\n2 1 48968 127102 127103 XOR\n2 1 80574 127103 48972 XOR\n2 1 75934 127103 48973 XOR\n2 1 48972 48973 48971 AND\n2 1 48971 127103 127104 XOR\n2 1 127135 127104 79039 XOR\n2 1 80575 127104 48975 XOR\n2 1 75935 127104 48976 XOR\n2 1 48975 48976 48974 AND\n2 1 48974 127104 127105 XOR\n2 1 127136 127105 79040 XOR\n2 1 80576 127105 48978 XOR\n2 1 75936 127105 48979 XOR\n2 1 48978 48979 48977 AND\n",
"2 1 48977 127105 127106 XOR\n2 1 127137 127106 79041 XOR\n2 1 127134 127103 79038 XOR\n2 1 80577 127106 48981 XOR\n2 1 75937 127106 48982 XOR\n2 1 48981 48982 48980 AND\n2 1 48980 127106 127107 XOR\n2 1 75938 127107 48985 XOR\n2 1 80578 127107 48984 XOR\n2 1 48984 48985 48983 AND\n2 1 48983 127107 127108 XOR\n2 1 127139 127108 79043 XOR\n2 1 75939 127108 48988 XOR\n2 1 80579 127108 48987 XOR\n2 1 48987 48988 48986 AND\n2 1 48986 127108 127109 XOR\n2 1 127140 127109 79044 XOR\n2 1 80580 127109 48990 XOR\n2 1 75940 127109 48991 XOR\n2 1 48990 48991 48989 AND\n2 1 48989 127109 127110 XOR\n2 1 127141 127110 79045 XOR\n2 1 80581 127110 48993 XOR\n2 1 75941 127110 48994 XOR\n2 1 48993 48994 48992 AND\n2 1 48992 127110 127111 XOR\n2 1 127142 127111 79046 XOR\n2 1 80582 127111 48996 XOR\n2 1 75942 127111 48997 XOR\n2 1 48996 48997 48995 AND\n2 1 48995 127111 127112 XOR\n2 1 127143 127112 79047 XOR\n2 1 80583 127112 48999 XOR\n2 1 75943 127112 49000 XOR\n2 1 48999 49000 48998 AND\n2 1 48998 127112 127113 XOR\n2 1 127144 127113 79048 XOR\n2 1 80584 127113 49002 XOR\n2 1 75944 127113 49003 XOR\n2 1 49002 49003 49001 AND\n2 1 49001 127113 127114 XOR\n2 1 80585 127114 49005 XOR\n2 1 75945 127114 49006 XOR\n2 1 49005 49006 49004 AND\n2 1 49004 127114 127115 XOR\n2 1 75946 127115 49009 XOR\n2 1 80586 127115 49008 XOR\n2 1 49008 49009 49007 AND\n2 1 49007 127115 127116 XOR\n2 1 80587 127116 49011 XOR\n2 1 75947 127116 49012 XOR\n2 1 127147 127116 79051 XOR\n2 1 49011 49012 49010 AND\n2 1 49010 127116 127117 XOR\n2 1 75948 127117 49015 XOR\n2 1 127148 127117 79052 XOR\n2 1 80588 127117 49014 XOR\n2 1 49014 49015 49013 AND\n2 1 127146 127115 79050 XOR\n2 1 49013 127117 127118 XOR\n2 1 75949 127118 49018 XOR\n2 1 80589 127118 49017 XOR\n2 1 49017 49018 49016 AND\n2 1 49016 127118 127119 XOR\n2 1 80590 127119 49020 XOR\n2 1 75950 127119 49021 XOR\n2 1 49020 49021 49019 AND\n2 1 49019 127119 127120 XOR\n2 1 80591 127120 49023 XOR\n2 1 127151 127120 79055 XOR\n2 1 127150 127119 79054 XOR\n2 1 75951 127120 49024 XOR\n2 1 49023 49024 49022 AND\n2 1 49022 127120 127121 XOR\n2 1 127152 127121 79056 XOR\n2 1 127149 127118 79053 XOR\n2 1 127138 127107 79042 XOR\n2 1 21670 21671 21669 AND\n2 1 21669 111645 111646 XOR\n2 1 111677 111646 93887 XOR\n2 1 1385 111646 21674 XOR\n2 1 75770 111646 21673 XOR\n2 1 21673 21674 21672 AND\n2 1 21672 111646 111647 XOR\n2 1 111678 111647 93888 XOR\n2 1 75771 111647 21676 XOR\n2 1 1386 111647 21677 XOR\n2 1 21676 21677 21675 AND\n2 1 21675 111647 111648 XOR\n2 1 111679 111648 93889 XOR\n2 1 1387 111648 21680 XOR\n2 1 75772 111648 21679 XOR\n2 1 21679 21680 21678 AND\n2 1 21678 111648 111649 XOR\n2 1 75773 111649 21682 XOR\n2 1 1388 111649 21683 XOR\n2 1 21682 21683 21681 AND\n2 1 21681 111649 111650 XOR\n2 1 75774 111650 21685 XOR\n2 1 111681 111650 93891 XOR\n2 1 1389 111650 21686 XOR\n2 1 21685 21686 21684 AND\n2 1 21684 111650 111651 XOR\n2 1 111682 111651 93892 XOR\n2 1 1390 111651 21689 XOR\n2 1 75775 111651 21688 XOR\n2 1 21688 21689 21687 AND\n2 1 21687 111651 111652 XOR\n2 1 75776 111652 21691 XOR\n2 1 111683 111652 93893 XOR\n2 1 1391 111652 21692 XOR\n2 1 21691 21692 21690 AND\n2 1 21690 111652 111653 XOR\n2 1 1392 111653 21695 XOR\n2 1 75777 111653 21694 XOR\n2 1 21694 21695 21693 AND\n2 1 21693 111653 111654 XOR\n2 1 1393 111654 21698 XOR\n2 1 111685 111654 93895 XOR\n2 1 111680 111649 93890 XOR\n2 1 111676 111645 93886 XOR\n2 1 75787 1402 111694 XOR\n2 1 75778 111654 21697 XOR\n2 1 21697 21698 21696 AND\n2 1 21696 111654 111655 XOR\n2 1 75779 111655 21700 XOR\n2 1 1394 111655 21701 XOR\n2 1 111686 111655 93896 XOR\n",
"2 1 21700 21701 21699 AND\n2 1 21699 111655 111656 XOR\n2 1 1395 111656 21704 XOR\n2 1 75780 111656 21703 XOR\n2 1 21703 21704 21702 AND\n2 1 21702 111656 111657 XOR\n2 1 75781 111657 21706 XOR\n2 1 111688 111657 93898 XOR\n2 1 1396 111657 21707 XOR\n2 1 21706 21707 21705 AND\n2 1 21705 111657 111658 XOR\n2 1 1397 111658 21710 XOR\n2 1 75782 111658 21709 XOR\n2 1 21709 21710 21708 AND\n2 1 21708 111658 111659 XOR\n2 1 1398 111659 21713 XOR\n2 1 75783 111659 21712 XOR\n2 1 21712 21713 21711 AND\n2 1 21711 111659 111660 XOR\n2 1 1399 111660 21716 XOR\n2 1 75784 111660 21715 XOR\n2 1 21715 21716 21714 AND\n2 1 21714 111660 111661 XOR\n2 1 1400 111661 21719 XOR\n2 1 75785 111661 21718 XOR\n2 1 111691 111660 93901 XOR\n2 1 111689 111658 93899 XOR\n2 1 111692 111661 93902 XOR\n2 1 111690 111659 93900 XOR\n2 1 21718 21719 21717 AND\n2 1 21717 111661 111662 XOR\n2 1 75786 111662 21721 XOR\n2 1 1401 111662 21722 XOR\n2 1 21721 21722 21720 AND\n2 1 21720 111662 111663 XOR\n2 1 1402 111663 21725 XOR\n2 1 75787 111663 21724 XOR\n2 1 111694 111663 93904 XOR\n2 1 111693 111662 93903 XOR\n2 1 21724 21725 21723 AND\n2 1 21723 111663 111664 XOR\n2 1 1403 111664 21728 XOR\n2 1 111695 111664 93905 XOR\n2 1 75788 111664 21727 XOR\n2 1 21727 21728 21726 AND\n2 1 21726 111664 111665 XOR\n2 1 75789 111665 21730 XOR\n2 1 111696 111665 93906 XOR\n2 1 1404 111665 21731 XOR\n2 1 21730 21731 21729 AND\n2 1 21729 111665 111666 XOR\n2 1 111697 111666 93907 XOR\n2 1 75790 111666 21733 XOR\n2 1 1405 111666 21734 XOR\n2 1 21733 21734 21732 AND\n2 1 21732 111666 111667 XOR\n2 1 111698 111667 93908 XOR\n2 1 1406 111667 21737 XOR\n2 1 75791 111667 21736 XOR\n2 1 21736 21737 21735 AND\n2 1 21735 111667 111668 XOR\n2 1 111699 111668 93909 XOR\n2 1 111684 111653 93894 XOR\n2 1 80585 75945 127145 XOR\n2 1 127145 127114 79049 XOR\n2 1 75780 1395 111687 XOR\n2 1 111687 111656 93897 XOR\n2 1 76215 76226 82160 XOR\n2 1 82160 76272 127276 XOR\n2 1 76214 76225 82159 XOR\n2 1 82159 76271 127275 XOR\n2 1 76213 76224 82158 XOR\n2 1 82158 76270 127274 XOR\n2 1 76212 76223 4893 XOR\n2 1 76211 76222 4892 XOR\n2 1 76210 76221 4891 XOR\n2 1 76209 76220 4890 XOR\n2 1 76240 76219 4889 XOR\n2 1 76239 76218 4888 XOR\n2 1 76238 76217 4887 XOR\n2 1 76237 76216 4886 XOR\n2 1 76236 76215 4885 XOR\n2 1 76235 76214 4884 XOR\n2 1 76234 76213 4883 XOR\n2 1 76233 76212 4882 XOR\n2 1 76232 76211 4881 XOR\n2 1 76231 76210 4880 XOR\n2 1 76230 76209 4879 XOR\n2 1 76229 76240 4878 XOR\n2 1 76228 76239 4877 XOR\n2 1 76227 76238 4876 XOR\n2 1 76226 76237 4875 XOR\n2 1 76225 76236 4874 XOR\n2 1 76224 76235 4873 XOR\n2 1 76223 76234 4872 XOR\n2 1 76222 76233 4871 XOR\n2 1 76221 76232 4870 XOR\n2 1 76220 76231 4869 XOR\n2 1 76219 76230 4868 XOR\n2 1 76218 76229 4867 XOR\n2 1 76217 76228 4866 XOR\n2 1 76216 76227 4865 XOR\n2 1 4893 76240 82157 XOR\n2 1 82157 76269 127273 XOR\n2 1 4892 76239 82156 XOR\n2 1 82156 76268 127272 XOR\n2 1 4891 76238 82155 XOR\n2 1 82155 76267 127271 XOR\n2 1 4890 76237 82154 XOR\n2 1 82154 76266 127270 XOR\n2 1 4889 76236 82153 XOR\n2 1 82153 76265 127269 XOR\n2 1 4888 76235 82152 XOR\n2 1 82152 76264 127268 XOR\n2 1 4887 76234 82151 XOR\n2 1 82151 76263 127267 XOR\n2 1 4886 76233 82150 XOR\n2 1 82150 76262 127266 XOR\n2 1 4885 76232 82149 XOR\n2 1 82149 76261 127265 XOR\n2 1 4884 76231 82148 XOR\n2 1 82148 76260 127264 XOR\n2 1 4883 76230 82147 XOR\n2 1 82147 76259 127263 XOR\n2 1 4882 76229 82146 XOR\n2 1 82146 76258 127262 XOR\n2 1 4881 76228 82145 XOR\n2 1 82145 76257 127261 XOR\n",
"2 1 4880 76227 82144 XOR\n2 1 82144 76256 127260 XOR\n2 1 4879 76226 82143 XOR\n2 1 82143 76255 127259 XOR\n2 1 4878 76225 82142 XOR\n2 1 82142 76254 127258 XOR\n2 1 4877 76224 82141 XOR\n2 1 82141 76253 127257 XOR\n2 1 4876 76223 82140 XOR\n2 1 82140 76252 127256 XOR\n2 1 4875 76222 82139 XOR\n2 1 82139 76251 127255 XOR\n2 1 4874 76221 82138 XOR\n2 1 82138 76250 127254 XOR\n2 1 4873 76220 82137 XOR\n2 1 82137 76249 127253 XOR\n2 1 4872 76219 82136 XOR\n2 1 82136 76248 127252 XOR\n2 1 4871 76218 82135 XOR\n2 1 82135 76247 127251 XOR\n2 1 4870 76217 82134 XOR\n2 1 82134 76246 127250 XOR\n2 1 4869 76216 82133 XOR\n2 1 82133 76245 127249 XOR\n2 1 4868 76215 82132 XOR\n2 1 82132 76244 127248 XOR\n2 1 4867 76214 82131 XOR\n2 1 82131 76243 127247 XOR\n2 1 4866 76213 82130 XOR\n2 1 82130 76242 127246 XOR\n2 1 4865 76212 82129 XOR\n2 1 82129 76241 127215 AND\n2 1 127246 127215 77522 XOR\n2 1 76242 127215 49117 XOR\n2 1 79058 77522 127184 XOR\n2 1 82130 127215 49116 XOR\n2 1 49116 49117 49115 AND\n2 1 49115 127215 127216 XOR\n2 1 76243 127216 49120 XOR\n2 1 127247 127216 77523 XOR\n2 1 79059 77523 127185 XOR\n2 1 82131 127216 49119 XOR\n2 1 49119 49120 49118 AND\n2 1 49118 127216 127217 XOR\n2 1 82132 127217 49122 XOR\n2 1 76244 127217 49123 XOR\n2 1 49122 49123 49121 AND\n2 1 49121 127217 127218 XOR\n2 1 127249 127218 77525 XOR\n2 1 79061 77525 127187 XOR\n2 1 76245 127218 49126 XOR\n2 1 82133 127218 49125 XOR\n2 1 49125 49126 49124 AND\n2 1 49124 127218 127219 XOR\n2 1 76246 127219 49129 XOR\n2 1 127250 127219 77526 XOR\n2 1 79062 77526 127188 XOR\n2 1 82134 127219 49128 XOR\n2 1 49128 49129 49127 AND\n2 1 49127 127219 127220 XOR\n2 1 127251 127220 77527 XOR\n2 1 79063 77527 127189 XOR\n2 1 127248 127217 77524 XOR\n2 1 79060 77524 127186 XOR\n2 1 76247 127220 49132 XOR\n2 1 82129 76241 77521 XOR\n2 1 79057 77521 75729 XOR\n2 1 79057 77521 127153 AND\n2 1 127184 127153 75730 XOR\n2 1 79058 127153 49026 XOR\n2 1 77522 127153 49027 XOR\n2 1 49026 49027 49025 AND\n2 1 49025 127153 127154 XOR\n2 1 127185 127154 75731 XOR\n2 1 79059 127154 49029 XOR\n2 1 77523 127154 49030 XOR\n2 1 49029 49030 49028 AND\n2 1 49028 127154 127155 XOR\n2 1 77524 127155 49033 XOR\n2 1 127186 127155 75732 XOR\n2 1 79060 127155 49032 XOR\n2 1 49032 49033 49031 AND\n2 1 49031 127155 127156 XOR\n2 1 127187 127156 75733 XOR\n2 1 77525 127156 49036 XOR\n2 1 75729 1344 111380 AND\n2 1 75730 111380 21215 XOR\n2 1 75731 75733 6173 XOR\n2 1 75730 75732 6172 XOR\n2 1 75729 75731 6171 XOR\n2 1 75729 1344 93846 XOR\n2 1 79061 127156 49035 XOR\n2 1 49035 49036 49034 AND\n2 1 49034 127156 127157 XOR\n2 1 79062 127157 49038 XOR\n2 1 77526 127157 49039 XOR\n2 1 49038 49039 49037 AND\n2 1 49037 127157 127158 XOR\n2 1 79063 127158 49041 XOR\n2 1 127189 127158 75735 XOR\n2 1 77527 127158 49042 XOR\n2 1 49041 49042 49040 AND\n2 1 49040 127158 127159 XOR\n2 1 79064 127159 49044 XOR\n2 1 75733 75735 6175 XOR\n2 1 127188 127157 75734 XOR\n2 1 75732 75734 6174 XOR\n2 1 82135 127220 49131 XOR\n2 1 49131 49132 49130 AND\n2 1 49130 127220 127221 XOR\n2 1 76248 127221 49135 XOR\n2 1 127252 127221 77528 XOR\n2 1 79064 77528 127190 XOR\n2 1 127190 127159 75736 XOR\n2 1 77528 127159 49045 XOR\n2 1 49044 49045 49043 AND\n2 1 49043 127159 127160 XOR\n2 1 82136 127221 49134 XOR\n2 1 49134 49135 49133 AND\n2 1 49133 127221 127222 XOR\n2 1 82137 127222 49137 XOR\n2 1 76249 127222 49138 XOR\n2 1 127253 127222 77529 XOR\n2 1 79065 77529 127191 XOR\n2 1 127191 127160 75737 XOR\n2 1 77529 127160 49048 XOR\n2 1 49137 49138 49136 AND\n2 1 49136 127222 127223 XOR\n",
"2 1 127254 127223 77530 XOR\n2 1 79066 77530 127192 XOR\n2 1 82138 127223 49140 XOR\n2 1 76250 127223 49141 XOR\n2 1 49140 49141 49139 AND\n2 1 49139 127223 127224 XOR\n2 1 82139 127224 49143 XOR\n2 1 76251 127224 49144 XOR\n2 1 49143 49144 49142 AND\n2 1 49142 127224 127225 XOR\n2 1 127256 127225 77532 XOR\n2 1 76252 127225 49147 XOR\n2 1 79068 77532 127194 XOR\n2 1 82140 127225 49146 XOR\n2 1 75735 75737 6177 XOR\n2 1 75734 75736 6176 XOR\n2 1 79065 127160 49047 XOR\n2 1 49047 49048 49046 AND\n2 1 49046 127160 127161 XOR\n2 1 77530 127161 49051 XOR\n2 1 79066 127161 49050 XOR\n2 1 49050 49051 49049 AND\n2 1 49049 127161 127162 XOR\n2 1 79067 127162 49053 XOR\n2 1 127192 127161 75738 XOR\n2 1 75736 75738 80551 XOR\n2 1 80551 75911 126957 XOR\n2 1 127255 127224 77531 XOR\n2 1 79067 77531 127193 XOR\n2 1 127193 127162 75739 XOR\n2 1 75737 75739 80552 XOR\n2 1 80552 75912 126958 XOR\n2 1 77531 127162 49054 XOR\n2 1 49053 49054 49052 AND\n2 1 49052 127162 127163 XOR\n2 1 127194 127163 75740 XOR\n2 1 77532 127163 49057 XOR\n2 1 79068 127163 49056 XOR\n2 1 49056 49057 49055 AND\n2 1 49055 127163 127164 XOR\n2 1 79069 127164 49059 XOR\n2 1 75738 75740 80553 XOR\n2 1 80553 75913 126959 XOR\n2 1 49146 49147 49145 AND\n2 1 49145 127225 127226 XOR\n2 1 76253 127226 49150 XOR\n2 1 127257 127226 77533 XOR\n2 1 77533 127164 49060 XOR\n2 1 49059 49060 49058 AND\n2 1 49058 127164 127165 XOR\n2 1 79070 127165 49062 XOR\n2 1 82141 127226 49149 XOR\n2 1 79069 77533 127195 XOR\n2 1 127195 127164 75741 XOR\n2 1 75739 75741 80554 XOR\n2 1 80554 75914 126960 XOR\n2 1 49149 49150 49148 AND\n2 1 49148 127226 127227 XOR\n2 1 127258 127227 77534 XOR\n2 1 77534 127165 49063 XOR\n2 1 49062 49063 49061 AND\n2 1 49061 127165 127166 XOR\n2 1 79070 77534 127196 XOR\n2 1 127196 127165 75742 XOR\n2 1 82142 127227 49152 XOR\n2 1 75740 75742 80555 XOR\n2 1 80555 75915 126961 XOR\n2 1 79071 127166 49065 XOR\n2 1 76254 127227 49153 XOR\n2 1 49152 49153 49151 AND\n2 1 49151 127227 127228 XOR\n2 1 76255 127228 49156 XOR\n2 1 127259 127228 77535 XOR\n2 1 82143 127228 49155 XOR\n2 1 49155 49156 49154 AND\n2 1 49154 127228 127229 XOR\n2 1 76256 127229 49159 XOR\n2 1 127260 127229 77536 XOR\n2 1 79072 77536 127198 XOR\n2 1 77535 127166 49066 XOR\n2 1 49065 49066 49064 AND\n2 1 49064 127166 127167 XOR\n2 1 79072 127167 49068 XOR\n2 1 127198 127167 75744 XOR\n2 1 82144 127229 49158 XOR\n2 1 49158 49159 49157 AND\n2 1 49157 127229 127230 XOR\n2 1 127261 127230 77537 XOR\n2 1 79073 77537 127199 XOR\n2 1 82145 127230 49161 XOR\n2 1 75742 75744 80557 XOR\n2 1 80557 75917 126963 XOR\n2 1 79071 77535 127197 XOR\n2 1 127197 127166 75743 XOR\n2 1 75741 75743 80556 XOR\n2 1 80556 75916 126962 XOR\n2 1 77536 127167 49069 XOR\n2 1 49068 49069 49067 AND\n2 1 49067 127167 127168 XOR\n2 1 79073 127168 49071 XOR\n2 1 127199 127168 75745 XOR\n2 1 77537 127168 49072 XOR\n2 1 49071 49072 49070 AND\n2 1 49070 127168 127169 XOR\n2 1 79074 127169 49074 XOR\n2 1 75743 75745 80558 XOR\n2 1 80558 75918 126964 XOR\n2 1 76257 127230 49162 XOR\n2 1 49161 49162 49160 AND\n2 1 49160 127230 127231 XOR\n2 1 127262 127231 77538 XOR\n2 1 77538 127169 49075 XOR\n2 1 79074 77538 127200 XOR\n2 1 127200 127169 75746 XOR\n2 1 76258 127231 49165 XOR\n2 1 49074 49075 49073 AND\n2 1 75744 75746 80559 XOR\n2 1 80559 75919 126965 XOR\n2 1 82146 127231 49164 XOR\n2 1 49164 49165 49163 AND\n2 1 49163 127231 127232 XOR\n2 1 127263 127232 77539 XOR\n2 1 79075 77539 127201 XOR\n2 1 82147 127232 49167 XOR\n2 1 76259 127232 49168 XOR\n2 1 49167 49168 49166 AND\n2 1 49166 127232 127233 XOR\n2 1 82148 127233 49170 XOR\n",
"2 1 127264 127233 77540 XOR\n2 1 79076 77540 127202 XOR\n2 1 76260 127233 49171 XOR\n2 1 49170 49171 49169 AND\n2 1 49169 127233 127234 XOR\n2 1 127265 127234 77541 XOR\n2 1 82149 127234 49173 XOR\n2 1 79077 77541 127203 XOR\n2 1 76261 127234 49174 XOR\n2 1 49173 49174 49172 AND\n2 1 49172 127234 127235 XOR\n2 1 82150 127235 49176 XOR\n2 1 127266 127235 77542 XOR\n2 1 76262 127235 49177 XOR\n2 1 49176 49177 49175 AND\n2 1 49175 127235 127236 XOR\n2 1 82151 127236 49179 XOR\n2 1 76263 127236 49180 XOR\n2 1 49179 49180 49178 AND\n2 1 49178 127236 127237 XOR\n2 1 82152 127237 49182 XOR\n2 1 76264 127237 49183 XOR\n2 1 49182 49183 49181 AND\n2 1 127268 127237 77544 XOR\n2 1 79080 77544 127206 XOR\n2 1 127267 127236 77543 XOR\n2 1 79079 77543 127205 XOR\n2 1 79078 77542 127204 XOR\n2 1 49181 127237 127238 XOR\n2 1 127269 127238 77545 XOR\n2 1 76265 127238 49186 XOR\n2 1 79081 77545 127207 XOR\n2 1 82153 127238 49185 XOR\n2 1 49185 49186 49184 AND\n2 1 49184 127238 127239 XOR\n2 1 127270 127239 77546 XOR\n2 1 79082 77546 127208 XOR\n2 1 76266 127239 49189 XOR\n2 1 82154 127239 49188 XOR\n2 1 49188 49189 49187 AND\n2 1 49187 127239 127240 XOR\n2 1 82155 127240 49191 XOR\n2 1 76267 127240 49192 XOR\n2 1 49191 49192 49190 AND\n2 1 49190 127240 127241 XOR\n2 1 76268 127241 49195 XOR\n2 1 82156 127241 49194 XOR\n2 1 49194 49195 49193 AND\n2 1 127271 127240 77547 XOR\n2 1 79083 77547 127209 XOR\n2 1 127272 127241 77548 XOR\n2 1 79084 77548 127210 XOR\n2 1 49193 127241 127242 XOR\n2 1 82157 127242 49197 XOR\n2 1 76269 127242 49198 XOR\n2 1 49197 49198 49196 AND\n2 1 49196 127242 127243 XOR\n2 1 127274 127243 77550 XOR\n2 1 79086 77550 127212 XOR\n2 1 82158 127243 49200 XOR\n2 1 127273 127242 77549 XOR\n2 1 79085 77549 127211 XOR\n2 1 76270 127243 49201 XOR\n2 1 49200 49201 49199 AND\n2 1 49199 127243 127244 XOR\n2 1 127275 127244 77551 XOR\n2 1 79087 77551 127213 XOR\n2 1 76271 127244 49204 XOR\n2 1 82159 127244 49203 XOR\n2 1 49203 49204 49202 AND\n2 1 49202 127244 127245 XOR\n2 1 127276 127245 77552 XOR\n2 1 79088 77552 127214 XOR\n2 1 49073 127169 127170 XOR\n2 1 79075 127170 49077 XOR\n2 1 127201 127170 75747 XOR\n2 1 77539 127170 49078 XOR\n2 1 49077 49078 49076 AND\n2 1 49076 127170 127171 XOR\n2 1 127202 127171 75748 XOR\n2 1 79076 127171 49080 XOR\n2 1 77540 127171 49081 XOR\n2 1 49080 49081 49079 AND\n2 1 49079 127171 127172 XOR\n2 1 79077 127172 49083 XOR\n2 1 77541 127172 49084 XOR\n2 1 127203 127172 75749 XOR\n2 1 49083 49084 49082 AND\n2 1 49082 127172 127173 XOR\n2 1 127204 127173 75750 XOR\n2 1 79078 127173 49086 XOR\n2 1 77542 127173 49087 XOR\n2 1 49086 49087 49085 AND\n2 1 75745 75747 80560 XOR\n2 1 80560 75920 126966 XOR\n2 1 75748 75750 6158 XOR\n2 1 75747 75749 6157 XOR\n2 1 75746 75748 6156 XOR\n2 1 6158 75741 80531 XOR\n2 1 80531 75891 126937 XOR\n2 1 6157 75740 80530 XOR\n2 1 80530 75890 126936 XOR\n2 1 6156 75739 80529 XOR\n2 1 80529 75889 126905 AND\n2 1 80530 126905 48666 XOR\n2 1 75890 126905 48667 XOR\n2 1 126936 126905 78994 XOR\n2 1 80529 75889 78993 XOR\n2 1 49085 127173 127174 XOR\n2 1 77543 127174 49090 XOR\n2 1 127205 127174 75751 XOR\n2 1 79079 127174 49089 XOR\n2 1 49089 49090 49088 AND\n2 1 49088 127174 127175 XOR\n2 1 79080 127175 49092 XOR\n2 1 127206 127175 75752 XOR\n2 1 77544 127175 49093 XOR\n2 1 49092 49093 49091 AND\n2 1 49091 127175 127176 XOR\n2 1 127207 127176 75753 XOR\n2 1 77545 127176 49096 XOR\n2 1 79081 127176 49095 XOR\n2 1 49095 49096 49094 AND\n2 1 49094 127176 127177 XOR\n2 1 127208 127177 75754 XOR\n2 1 79082 127177 49098 XOR\n2 1 77546 127177 49099 XOR\n2 1 49098 49099 49097 AND\n",
"2 1 49097 127177 127178 XOR\n2 1 79083 127178 49101 XOR\n2 1 127209 127178 75755 XOR\n2 1 77547 127178 49102 XOR\n2 1 49101 49102 49100 AND\n2 1 49100 127178 127179 XOR\n2 1 77548 127179 49105 XOR\n2 1 127210 127179 75756 XOR\n2 1 79084 127179 49104 XOR\n2 1 49104 49105 49103 AND\n2 1 49103 127179 127180 XOR\n2 1 79085 127180 49107 XOR\n2 1 127211 127180 75757 XOR\n2 1 77549 127180 49108 XOR\n2 1 49107 49108 49106 AND\n2 1 49106 127180 127181 XOR\n2 1 79086 127181 49110 XOR\n2 1 127212 127181 75758 XOR\n2 1 77550 127181 49111 XOR\n2 1 49110 49111 49109 AND\n2 1 49109 127181 127182 XOR\n2 1 79087 127182 49113 XOR\n2 1 127213 127182 75759 XOR\n2 1 77551 127182 49114 XOR\n2 1 49113 49114 49112 AND\n2 1 49112 127182 127183 XOR\n2 1 127214 127183 75760 XOR\n2 1 75760 75730 6170 XOR\n2 1 75759 75729 6169 XOR\n2 1 75758 75760 6168 XOR\n2 1 75757 75759 6167 XOR\n2 1 75756 75758 6166 XOR\n2 1 75755 75757 6165 XOR\n2 1 75754 75756 6164 XOR\n2 1 75753 75755 6163 XOR\n2 1 75752 75754 6162 XOR\n2 1 75751 75753 6161 XOR\n2 1 75750 75752 6160 XOR\n2 1 75749 75751 6159 XOR\n2 1 6177 75760 80550 XOR\n2 1 80550 75910 126956 XOR\n2 1 6176 75759 80549 XOR\n2 1 80549 75909 126955 XOR\n2 1 6175 75758 80548 XOR\n2 1 80548 75908 126954 XOR\n2 1 6174 75757 80547 XOR\n2 1 80547 75907 126953 XOR\n2 1 6173 75756 80546 XOR\n2 1 80546 75906 126952 XOR\n2 1 6172 75755 80545 XOR\n2 1 80545 75905 126951 XOR\n2 1 6171 75754 80544 XOR\n2 1 80544 75904 126950 XOR\n2 1 6170 75753 80543 XOR\n2 1 80543 75903 126949 XOR\n2 1 6169 75752 80542 XOR\n2 1 80542 75902 126948 XOR\n2 1 6168 75751 80541 XOR\n2 1 80541 75901 126947 XOR\n2 1 6167 75750 80540 XOR\n2 1 80540 75900 126946 XOR\n2 1 6166 75749 80539 XOR\n2 1 80539 75899 126945 XOR\n2 1 6165 75748 80538 XOR\n2 1 80538 75898 126944 XOR\n2 1 6164 75747 80537 XOR\n2 1 6163 75746 80536 XOR\n2 1 80536 75896 126942 XOR\n2 1 6162 75745 80535 XOR\n2 1 80535 75895 126941 XOR\n2 1 6161 75744 80534 XOR\n2 1 6160 75743 80533 XOR\n2 1 80533 75893 126939 XOR\n2 1 6159 75742 80532 XOR\n2 1 80532 75892 126938 XOR\n2 1 80537 75897 126943 XOR\n2 1 80534 75894 126940 XOR\n2 1 48666 48667 48665 AND\n2 1 48665 126905 126906 XOR\n2 1 126937 126906 78995 XOR\n2 1 75891 126906 48670 XOR\n2 1 80531 126906 48669 XOR\n2 1 48669 48670 48668 AND\n2 1 48668 126906 126907 XOR\n2 1 126938 126907 78996 XOR\n2 1 80532 126907 48672 XOR\n2 1 75892 126907 48673 XOR\n2 1 48672 48673 48671 AND\n2 1 48671 126907 126908 XOR\n2 1 126939 126908 78997 XOR\n2 1 80533 126908 48675 XOR\n2 1 75893 126908 48676 XOR\n2 1 48675 48676 48674 AND\n2 1 48674 126908 126909 XOR\n2 1 75894 126909 48679 XOR\n2 1 126940 126909 78998 XOR\n2 1 80534 126909 48678 XOR\n2 1 48678 48679 48677 AND\n2 1 48677 126909 126910 XOR\n2 1 80535 126910 48681 XOR\n2 1 75895 126910 48682 XOR\n2 1 48681 48682 48680 AND\n2 1 48680 126910 126911 XOR\n2 1 80536 126911 48684 XOR\n2 1 126942 126911 79000 XOR\n2 1 126941 126910 78999 XOR\n2 1 75896 126911 48685 XOR\n2 1 48684 48685 48683 AND\n2 1 48683 126911 126912 XOR\n2 1 80537 126912 48687 XOR\n2 1 126943 126912 79001 XOR\n2 1 75897 126912 48688 XOR\n2 1 48687 48688 48686 AND\n2 1 48686 126912 126913 XOR\n2 1 80538 126913 48690 XOR\n2 1 75898 126913 48691 XOR\n2 1 48690 48691 48689 AND\n2 1 48689 126913 126914 XOR\n2 1 80539 126914 48693 XOR\n2 1 126945 126914 79003 XOR\n2 1 75899 126914 48694 XOR\n2 1 48693 48694 48692 AND\n2 1 48692 126914 126915 XOR\n2 1 80540 126915 48696 XOR\n2 1 75900 126915 48697 XOR\n2 1 126946 126915 79004 XOR\n2 1 48696 48697 48695 AND\n2 1 48695 126915 126916 XOR\n",
"2 1 126947 126916 79005 XOR\n2 1 80541 126916 48699 XOR\n2 1 126944 126913 79002 XOR\n2 1 75901 126916 48700 XOR\n2 1 48699 48700 48698 AND\n2 1 48698 126916 126917 XOR\n2 1 80542 126917 48702 XOR\n2 1 75902 126917 48703 XOR\n2 1 48702 48703 48701 AND\n2 1 48701 126917 126918 XOR\n2 1 75903 126918 48706 XOR\n2 1 80543 126918 48705 XOR\n2 1 48705 48706 48704 AND\n2 1 48704 126918 126919 XOR\n2 1 126950 126919 79008 XOR\n2 1 80544 126919 48708 XOR\n2 1 126949 126918 79007 XOR\n2 1 75904 126919 48709 XOR\n2 1 48708 48709 48707 AND\n2 1 48707 126919 126920 XOR\n2 1 80545 126920 48711 XOR\n2 1 75905 126920 48712 XOR\n2 1 48711 48712 48710 AND\n2 1 48710 126920 126921 XOR\n2 1 126952 126921 79010 XOR\n2 1 80546 126921 48714 XOR\n2 1 126951 126920 79009 XOR\n2 1 75906 126921 48715 XOR\n2 1 48714 48715 48713 AND\n2 1 48713 126921 126922 XOR\n2 1 75907 126922 48718 XOR\n2 1 126953 126922 79011 XOR\n2 1 80547 126922 48717 XOR\n2 1 48717 48718 48716 AND\n2 1 48716 126922 126923 XOR\n2 1 126954 126923 79012 XOR\n2 1 75908 126923 48721 XOR\n2 1 80548 126923 48720 XOR\n2 1 48720 48721 48719 AND\n2 1 48719 126923 126924 XOR\n2 1 80549 126924 48723 XOR\n2 1 75909 126924 48724 XOR\n2 1 48723 48724 48722 AND\n2 1 126955 126924 79013 XOR\n2 1 48722 126924 126925 XOR\n2 1 126956 126925 79014 XOR\n2 1 75910 126925 48727 XOR\n2 1 80550 126925 48726 XOR\n2 1 48726 48727 48725 AND\n2 1 48725 126925 126926 XOR\n2 1 75911 126926 48730 XOR\n2 1 126957 126926 79015 XOR\n2 1 80551 126926 48729 XOR\n2 1 48729 48730 48728 AND\n2 1 48728 126926 126927 XOR\n2 1 126958 126927 79016 XOR\n2 1 80552 126927 48732 XOR\n2 1 126948 126917 79006 XOR\n2 1 75912 126927 48733 XOR\n2 1 48732 48733 48731 AND\n2 1 48731 126927 126928 XOR\n2 1 80553 126928 48735 XOR\n2 1 126959 126928 79017 XOR\n2 1 75913 126928 48736 XOR\n2 1 48735 48736 48734 AND\n2 1 48734 126928 126929 XOR\n2 1 75914 126929 48739 XOR\n2 1 126960 126929 79018 XOR\n2 1 80554 126929 48738 XOR\n2 1 48738 48739 48737 AND\n2 1 48737 126929 126930 XOR\n2 1 126961 126930 79019 XOR\n2 1 80555 126930 48741 XOR\n2 1 75915 126930 48742 XOR\n2 1 48741 48742 48740 AND\n2 1 48740 126930 126931 XOR\n2 1 126962 126931 79020 XOR\n2 1 75916 126931 48745 XOR\n2 1 80556 126931 48744 XOR\n2 1 48744 48745 48743 AND\n2 1 48743 126931 126932 XOR\n2 1 80557 126932 48747 XOR\n2 1 126963 126932 79021 XOR\n2 1 75917 126932 48748 XOR\n2 1 48747 48748 48746 AND\n2 1 48746 126932 126933 XOR\n2 1 80558 126933 48750 XOR\n2 1 75918 126933 48751 XOR\n2 1 48750 48751 48749 AND\n2 1 126964 126933 79022 XOR\n2 1 48749 126933 126934 XOR\n2 1 80559 126934 48753 XOR\n2 1 75919 126934 48754 XOR\n2 1 126965 126934 79023 XOR\n2 1 48753 48754 48752 AND\n2 1 48752 126934 126935 XOR\n2 1 126966 126935 79024 XOR\n2 1 76183 76194 82128 XOR\n2 1 82128 76240 127090 XOR\n2 1 76182 76193 82127 XOR\n2 1 82127 76239 127089 XOR\n2 1 76181 76192 82126 XOR\n2 1 82126 76238 127088 XOR\n2 1 76180 76191 4864 XOR\n2 1 76179 76190 4863 XOR\n2 1 76178 76189 4862 XOR\n2 1 76177 76188 4861 XOR\n2 1 76208 76187 4860 XOR\n2 1 76207 76186 4859 XOR\n2 1 76206 76185 4858 XOR\n2 1 76205 76184 4857 XOR\n2 1 76204 76183 4856 XOR\n2 1 76203 76182 4855 XOR\n2 1 76202 76181 4854 XOR\n2 1 76201 76180 4853 XOR\n2 1 76200 76179 4852 XOR\n2 1 76199 76178 4851 XOR\n2 1 76198 76177 4850 XOR\n2 1 76197 76208 4849 XOR\n2 1 76196 76207 4848 XOR\n2 1 76195 76206 4847 XOR\n2 1 76194 76205 4846 XOR\n2 1 76193 76204 4845 XOR\n2 1 76192 76203 4844 XOR\n2 1 76191 76202 4843 XOR\n2 1 76190 76201 4842 XOR\n2 1 76189 76200 4841 XOR\n2 1 76188 76199 4840 XOR\n",
"2 1 76187 76198 4839 XOR\n2 1 76186 76197 4838 XOR\n2 1 76185 76196 4837 XOR\n2 1 76184 76195 4836 XOR\n2 1 4864 76208 82125 XOR\n2 1 82125 76237 127087 XOR\n2 1 4863 76207 82124 XOR\n2 1 82124 76236 127086 XOR\n2 1 4862 76206 82123 XOR\n2 1 82123 76235 127085 XOR\n2 1 4861 76205 82122 XOR\n2 1 82122 76234 127084 XOR\n2 1 4860 76204 82121 XOR\n2 1 82121 76233 127083 XOR\n2 1 4859 76203 82120 XOR\n2 1 82120 76232 127082 XOR\n2 1 4858 76202 82119 XOR\n2 1 82119 76231 127081 XOR\n2 1 4857 76201 82118 XOR\n2 1 82118 76230 127080 XOR\n2 1 4856 76200 82117 XOR\n2 1 82117 76229 127079 XOR\n2 1 4855 76199 82116 XOR\n2 1 82116 76228 127078 XOR\n2 1 4854 76198 82115 XOR\n2 1 82115 76227 127077 XOR\n2 1 4853 76197 82114 XOR\n2 1 82114 76226 127076 XOR\n2 1 4852 76196 82113 XOR\n2 1 82113 76225 127075 XOR\n2 1 4851 76195 82112 XOR\n2 1 82112 76224 127074 XOR\n2 1 4850 76194 82111 XOR\n2 1 82111 76223 127073 XOR\n2 1 4849 76193 82110 XOR\n2 1 82110 76222 127072 XOR\n2 1 4848 76192 82109 XOR\n2 1 82109 76221 127071 XOR\n2 1 4847 76191 82108 XOR\n2 1 82108 76220 127070 XOR\n2 1 4846 76190 82107 XOR\n2 1 82107 76219 127069 XOR\n2 1 4845 76189 82106 XOR\n2 1 82106 76218 127068 XOR\n2 1 4844 76188 82105 XOR\n2 1 82105 76217 127067 XOR\n2 1 4843 76187 82104 XOR\n2 1 82104 76216 127066 XOR\n2 1 4842 76186 82103 XOR\n2 1 82103 76215 127065 XOR\n2 1 4841 76185 82102 XOR\n2 1 82102 76214 127064 XOR\n2 1 4840 76184 82101 XOR\n2 1 82101 76213 127063 XOR\n2 1 4839 76183 82100 XOR\n2 1 82100 76212 127062 XOR\n2 1 4838 76182 82099 XOR\n2 1 82099 76211 127061 XOR\n2 1 4837 76181 82098 XOR\n2 1 82098 76210 127060 XOR\n2 1 4836 76180 82097 XOR\n2 1 82097 76209 127029 AND\n2 1 76210 127029 48847 XOR\n2 1 127060 127029 77490 XOR\n2 1 79026 77490 126998 XOR\n2 1 82097 76209 77489 XOR\n2 1 79025 77489 126967 AND\n2 1 77490 126967 48757 XOR\n2 1 79026 126967 48756 XOR\n2 1 48756 48757 48755 AND\n2 1 48755 126967 126968 XOR\n2 1 79025 77489 75697 XOR\n2 1 126998 126967 75698 XOR\n2 1 79027 126968 48759 XOR\n2 1 82098 127029 48846 XOR\n2 1 48846 48847 48845 AND\n2 1 48845 127029 127030 XOR\n2 1 127061 127030 77491 XOR\n2 1 76211 127030 48850 XOR\n2 1 79027 77491 126999 XOR\n2 1 77491 126968 48760 XOR\n2 1 48759 48760 48758 AND\n2 1 48758 126968 126969 XOR\n2 1 79028 126969 48762 XOR\n2 1 82099 127030 48849 XOR\n2 1 48849 48850 48848 AND\n2 1 48848 127030 127031 XOR\n2 1 82100 127031 48852 XOR\n2 1 127062 127031 77492 XOR\n2 1 77492 126969 48763 XOR\n2 1 76212 127031 48853 XOR\n2 1 48852 48853 48851 AND\n2 1 48851 127031 127032 XOR\n2 1 127063 127032 77493 XOR\n2 1 82101 127032 48855 XOR\n2 1 76213 127032 48856 XOR\n2 1 48855 48856 48854 AND\n2 1 48854 127032 127033 XOR\n2 1 76214 127033 48859 XOR\n2 1 127064 127033 77494 XOR\n2 1 82102 127033 48858 XOR\n2 1 48858 48859 48857 AND\n2 1 48857 127033 127034 XOR\n2 1 82103 127034 48861 XOR\n2 1 76215 127034 48862 XOR\n2 1 48861 48862 48860 AND\n2 1 48762 48763 48761 AND\n2 1 48761 126969 126970 XOR\n2 1 79029 126970 48765 XOR\n2 1 77493 126970 48766 XOR\n2 1 48765 48766 48764 AND\n2 1 79030 77494 127002 XOR\n2 1 79029 77493 127001 XOR\n2 1 127001 126970 75701 XOR\n2 1 48860 127034 127035 XOR\n2 1 127066 127035 77496 XOR\n2 1 79032 77496 127004 XOR\n2 1 76216 127035 48865 XOR\n2 1 82104 127035 48864 XOR\n2 1 48864 48865 48863 AND\n2 1 48863 127035 127036 XOR\n2 1 82105 127036 48867 XOR\n2 1 127067 127036 77497 XOR\n2 1 79033 77497 127005 XOR\n2 1 76217 127036 48868 XOR\n2 1 48867 48868 48866 AND\n2 1 48866 127036 127037 XOR\n2 1 127068 127037 77498 XOR\n",
"2 1 82106 127037 48870 XOR\n2 1 76218 127037 48871 XOR\n2 1 48870 48871 48869 AND\n2 1 48869 127037 127038 XOR\n2 1 127069 127038 77499 XOR\n2 1 79035 77499 127007 XOR\n2 1 82107 127038 48873 XOR\n2 1 76219 127038 48874 XOR\n2 1 48873 48874 48872 AND\n2 1 48872 127038 127039 XOR\n2 1 82108 127039 48876 XOR\n2 1 127070 127039 77500 XOR\n2 1 79036 77500 127008 XOR\n2 1 76220 127039 48877 XOR\n2 1 48876 48877 48875 AND\n2 1 48875 127039 127040 XOR\n2 1 76221 127040 48880 XOR\n2 1 127071 127040 77501 XOR\n2 1 79037 77501 127009 XOR\n2 1 82109 127040 48879 XOR\n2 1 48879 48880 48878 AND\n2 1 48878 127040 127041 XOR\n2 1 82110 127041 48882 XOR\n2 1 127072 127041 77502 XOR\n2 1 76222 127041 48883 XOR\n2 1 48882 48883 48881 AND\n2 1 48881 127041 127042 XOR\n2 1 127073 127042 77503 XOR\n2 1 79039 77503 127011 XOR\n2 1 82111 127042 48885 XOR\n2 1 76223 127042 48886 XOR\n2 1 48885 48886 48884 AND\n2 1 48884 127042 127043 XOR\n2 1 82112 127043 48888 XOR\n2 1 127074 127043 77504 XOR\n2 1 79040 77504 127012 XOR\n2 1 76224 127043 48889 XOR\n2 1 48888 48889 48887 AND\n2 1 48887 127043 127044 XOR\n2 1 76225 127044 48892 XOR\n2 1 127075 127044 77505 XOR\n2 1 79041 77505 127013 XOR\n2 1 82113 127044 48891 XOR\n2 1 48891 48892 48890 AND\n2 1 48890 127044 127045 XOR\n2 1 82114 127045 48894 XOR\n2 1 76226 127045 48895 XOR\n2 1 48894 48895 48893 AND\n2 1 48893 127045 127046 XOR\n2 1 76227 127046 48898 XOR\n2 1 127077 127046 77507 XOR\n2 1 79043 77507 127015 XOR\n2 1 82115 127046 48897 XOR\n2 1 48897 48898 48896 AND\n2 1 48896 127046 127047 XOR\n2 1 127078 127047 77508 XOR\n2 1 79044 77508 127016 XOR\n2 1 76228 127047 48901 XOR\n2 1 82116 127047 48900 XOR\n2 1 48900 48901 48899 AND\n2 1 48899 127047 127048 XOR\n2 1 82117 127048 48903 XOR\n2 1 127076 127045 77506 XOR\n2 1 79042 77506 127014 XOR\n2 1 76229 127048 48904 XOR\n2 1 48903 48904 48902 AND\n2 1 48902 127048 127049 XOR\n2 1 76230 127049 48907 XOR\n2 1 82118 127049 48906 XOR\n2 1 48906 48907 48905 AND\n2 1 48905 127049 127050 XOR\n2 1 127081 127050 77511 XOR\n2 1 79047 77511 127019 XOR\n2 1 76231 127050 48910 XOR\n2 1 82119 127050 48909 XOR\n2 1 48909 48910 48908 AND\n2 1 48908 127050 127051 XOR\n2 1 82120 127051 48912 XOR\n2 1 127082 127051 77512 XOR\n2 1 79048 77512 127020 XOR\n2 1 76232 127051 48913 XOR\n2 1 48912 48913 48911 AND\n2 1 48911 127051 127052 XOR\n2 1 127083 127052 77513 XOR\n2 1 79049 77513 127021 XOR\n2 1 76233 127052 48916 XOR\n2 1 127080 127049 77510 XOR\n2 1 79046 77510 127018 XOR\n2 1 82121 127052 48915 XOR\n2 1 48915 48916 48914 AND\n2 1 48914 127052 127053 XOR\n2 1 127084 127053 77514 XOR\n2 1 76234 127053 48919 XOR\n2 1 79050 77514 127022 XOR\n2 1 82122 127053 48918 XOR\n2 1 48918 48919 48917 AND\n2 1 48917 127053 127054 XOR\n2 1 82123 127054 48921 XOR\n2 1 76235 127054 48922 XOR\n2 1 48921 48922 48920 AND\n2 1 127085 127054 77515 XOR\n2 1 79051 77515 127023 XOR\n2 1 48920 127054 127055 XOR\n2 1 82124 127055 48924 XOR\n2 1 127086 127055 77516 XOR\n2 1 79052 77516 127024 XOR\n2 1 76236 127055 48925 XOR\n2 1 48924 48925 48923 AND\n2 1 48923 127055 127056 XOR\n2 1 82125 127056 48927 XOR\n2 1 76237 127056 48928 XOR\n2 1 48927 48928 48926 AND\n2 1 48926 127056 127057 XOR\n2 1 127088 127057 77518 XOR\n2 1 82126 127057 48930 XOR\n2 1 76238 127057 48931 XOR\n2 1 79054 77518 127026 XOR\n2 1 127087 127056 77517 XOR\n2 1 79053 77517 127025 XOR\n2 1 127065 127034 77495 XOR\n2 1 79031 77495 127003 XOR\n2 1 127079 127048 77509 XOR\n2 1 79045 77509 127017 XOR\n2 1 48764 126970 126971 XOR\n2 1 79030 126971 48768 XOR\n2 1 77494 126971 48769 XOR\n2 1 48768 48769 48767 AND\n2 1 48767 126971 126972 XOR\n",
"2 1 127003 126972 75703 XOR\n2 1 79031 126972 48771 XOR\n2 1 77495 126972 48772 XOR\n2 1 48771 48772 48770 AND\n2 1 48770 126972 126973 XOR\n2 1 127004 126973 75704 XOR\n2 1 77496 126973 48775 XOR\n2 1 79032 126973 48774 XOR\n2 1 48774 48775 48773 AND\n2 1 48773 126973 126974 XOR\n2 1 79033 126974 48777 XOR\n2 1 127005 126974 75705 XOR\n2 1 77497 126974 48778 XOR\n2 1 48777 48778 48776 AND\n2 1 48776 126974 126975 XOR\n2 1 79034 126975 48780 XOR\n2 1 77498 126975 48781 XOR\n2 1 48780 48781 48779 AND\n2 1 48779 126975 126976 XOR\n2 1 127007 126976 75707 XOR\n2 1 79035 126976 48783 XOR\n2 1 75705 75707 80520 XOR\n2 1 80520 75880 126772 XOR\n2 1 75703 75705 6155 XOR\n2 1 75701 75703 6153 XOR\n2 1 77499 126976 48784 XOR\n2 1 48783 48784 48782 AND\n2 1 48782 126976 126977 XOR\n2 1 79036 126977 48786 XOR\n2 1 77500 126977 48787 XOR\n2 1 48786 48787 48785 AND\n2 1 48785 126977 126978 XOR\n2 1 77501 126978 48790 XOR\n2 1 79037 126978 48789 XOR\n2 1 127009 126978 75709 XOR\n2 1 48789 48790 48788 AND\n2 1 127008 126977 75708 XOR\n2 1 75707 75709 80522 XOR\n2 1 80522 75882 126774 XOR\n2 1 48788 126978 126979 XOR\n2 1 77502 126979 48793 XOR\n2 1 79038 126979 48792 XOR\n2 1 48792 48793 48791 AND\n2 1 48791 126979 126980 XOR\n2 1 79039 126980 48795 XOR\n2 1 127011 126980 75711 XOR\n2 1 75709 75711 80524 XOR\n2 1 80524 75884 126776 XOR\n2 1 77503 126980 48796 XOR\n2 1 48795 48796 48794 AND\n2 1 48794 126980 126981 XOR\n2 1 127012 126981 75712 XOR\n2 1 79040 126981 48798 XOR\n2 1 77504 126981 48799 XOR\n2 1 127002 126971 75702 XOR\n2 1 75702 75704 6154 XOR\n2 1 48930 48931 48929 AND\n2 1 79028 77492 127000 XOR\n2 1 127000 126969 75700 XOR\n2 1 75700 75702 6152 XOR\n2 1 75698 75700 6150 XOR\n2 1 126999 126968 75699 XOR\n2 1 75699 75701 6151 XOR\n2 1 75697 75699 6149 XOR\n2 1 79034 77498 127006 XOR\n2 1 127006 126975 75706 XOR\n2 1 75706 75708 80521 XOR\n2 1 80521 75881 126773 XOR\n2 1 75704 75706 80519 XOR\n2 1 80519 75879 126771 XOR\n2 1 48929 127057 127058 XOR\n2 1 82127 127058 48933 XOR\n2 1 127089 127058 77519 XOR\n2 1 79055 77519 127027 XOR\n2 1 76239 127058 48934 XOR\n2 1 48933 48934 48932 AND\n2 1 48932 127058 127059 XOR\n2 1 127090 127059 77520 XOR\n2 1 79056 77520 127028 XOR\n2 1 79038 77502 127010 XOR\n2 1 127010 126979 75710 XOR\n2 1 75710 75712 80525 XOR\n2 1 80525 75885 126777 XOR\n2 1 75708 75710 80523 XOR\n2 1 80523 75883 126775 XOR\n2 1 48798 48799 48797 AND\n2 1 48797 126981 126982 XOR\n2 1 79041 126982 48801 XOR\n2 1 77505 126982 48802 XOR\n2 1 127013 126982 75713 XOR\n2 1 75711 75713 80526 XOR\n2 1 80526 75886 126778 XOR\n2 1 48801 48802 48800 AND\n2 1 48800 126982 126983 XOR\n2 1 127014 126983 75714 XOR\n2 1 79042 126983 48804 XOR\n2 1 75712 75714 80527 XOR\n2 1 80527 75887 126779 XOR\n2 1 77506 126983 48805 XOR\n2 1 48804 48805 48803 AND\n2 1 48803 126983 126984 XOR\n2 1 79043 126984 48807 XOR\n2 1 127015 126984 75715 XOR\n2 1 77507 126984 48808 XOR\n2 1 48807 48808 48806 AND\n2 1 48806 126984 126985 XOR\n2 1 77508 126985 48811 XOR\n2 1 79044 126985 48810 XOR\n2 1 48810 48811 48809 AND\n2 1 48809 126985 126986 XOR\n2 1 127017 126986 75717 XOR\n2 1 77509 126986 48814 XOR\n2 1 79045 126986 48813 XOR\n2 1 48813 48814 48812 AND\n2 1 48812 126986 126987 XOR\n2 1 127018 126987 75718 XOR\n2 1 77510 126987 48817 XOR\n2 1 79046 126987 48816 XOR\n2 1 48816 48817 48815 AND\n2 1 48815 126987 126988 XOR\n2 1 127019 126988 75719 XOR\n2 1 79047 126988 48819 XOR\n2 1 77511 126988 48820 XOR\n2 1 48819 48820 48818 AND\n2 1 48818 126988 126989 XOR\n2 1 79048 126989 48822 XOR\n2 1 77512 126989 48823 XOR\n2 1 48822 48823 48821 AND\n",
"2 1 127020 126989 75720 XOR\n2 1 48821 126989 126990 XOR\n2 1 77513 126990 48826 XOR\n2 1 79049 126990 48825 XOR\n2 1 127021 126990 75721 XOR\n2 1 48825 48826 48824 AND\n2 1 48824 126990 126991 XOR\n2 1 79050 126991 48828 XOR\n2 1 77514 126991 48829 XOR\n2 1 48828 48829 48827 AND\n2 1 48827 126991 126992 XOR\n2 1 79051 126992 48831 XOR\n2 1 127022 126991 75722 XOR\n2 1 127023 126992 75723 XOR\n2 1 127016 126985 75716 XOR\n2 1 75713 75715 80528 XOR\n2 1 80528 75888 126780 XOR\n2 1 75721 75723 6141 XOR\n2 1 75720 75722 6140 XOR\n2 1 75719 75721 6139 XOR\n2 1 75718 75720 6138 XOR\n2 1 75717 75719 6137 XOR\n2 1 75716 75718 6136 XOR\n2 1 75715 75717 6135 XOR\n2 1 75714 75716 6134 XOR\n2 1 6150 75723 80513 XOR\n2 1 80513 75873 126765 XOR\n2 1 6149 75722 80512 XOR\n2 1 80512 75872 126764 XOR\n2 1 6141 75714 80504 XOR\n2 1 80504 75864 126756 XOR\n2 1 6140 75713 80503 XOR\n2 1 80503 75863 126755 XOR\n2 1 6139 75712 80502 XOR\n2 1 80502 75862 126754 XOR\n2 1 6138 75711 80501 XOR\n2 1 80501 75861 126753 XOR\n2 1 6137 75710 80500 XOR\n2 1 80500 75860 126752 XOR\n2 1 6136 75709 80499 XOR\n2 1 80499 75859 126751 XOR\n2 1 6135 75708 80498 XOR\n2 1 80498 75858 126750 XOR\n2 1 6134 75707 80497 XOR\n2 1 80497 75857 78961 XOR\n2 1 80497 75857 126719 AND\n2 1 126750 126719 78962 XOR\n2 1 80498 126719 48396 XOR\n2 1 75858 126719 48397 XOR\n2 1 48396 48397 48395 AND\n2 1 48395 126719 126720 XOR\n2 1 75859 126720 48400 XOR\n2 1 126751 126720 78963 XOR\n2 1 80499 126720 48399 XOR\n2 1 48399 48400 48398 AND\n2 1 48398 126720 126721 XOR\n2 1 75860 126721 48403 XOR\n2 1 80500 126721 48402 XOR\n2 1 48402 48403 48401 AND\n2 1 48401 126721 126722 XOR\n2 1 126753 126722 78965 XOR\n2 1 75861 126722 48406 XOR\n2 1 80501 126722 48405 XOR\n2 1 48405 48406 48404 AND\n2 1 48404 126722 126723 XOR\n2 1 80502 126723 48408 XOR\n2 1 126754 126723 78966 XOR\n2 1 75862 126723 48409 XOR\n2 1 48408 48409 48407 AND\n2 1 48407 126723 126724 XOR\n2 1 75863 126724 48412 XOR\n2 1 80503 126724 48411 XOR\n2 1 48411 48412 48410 AND\n2 1 48410 126724 126725 XOR\n2 1 75864 126725 48415 XOR\n2 1 80504 126725 48414 XOR\n2 1 126756 126725 78968 XOR\n2 1 48414 48415 48413 AND\n2 1 48413 126725 126726 XOR\n2 1 75865 126726 48418 XOR\n2 1 126755 126724 78967 XOR\n2 1 126752 126721 78964 XOR\n2 1 77515 126992 48832 XOR\n2 1 48831 48832 48830 AND\n2 1 48830 126992 126993 XOR\n2 1 79052 126993 48834 XOR\n2 1 127024 126993 75724 XOR\n2 1 77516 126993 48835 XOR\n2 1 48834 48835 48833 AND\n2 1 75722 75724 6142 XOR\n2 1 6151 75724 80514 XOR\n2 1 80514 75874 126766 XOR\n2 1 6142 75715 80505 XOR\n2 1 80505 126726 48417 XOR\n2 1 80505 75865 126757 XOR\n2 1 126757 126726 78969 XOR\n2 1 48417 48418 48416 AND\n2 1 48416 126726 126727 XOR\n2 1 75866 126727 48421 XOR\n2 1 48833 126993 126994 XOR\n2 1 77517 126994 48838 XOR\n2 1 127025 126994 75725 XOR\n2 1 79053 126994 48837 XOR\n2 1 48837 48838 48836 AND\n2 1 48836 126994 126995 XOR\n2 1 127026 126995 75726 XOR\n2 1 77518 126995 48841 XOR\n2 1 75724 75726 6144 XOR\n2 1 75723 75725 6143 XOR\n2 1 6153 75726 80516 XOR\n2 1 80516 75876 126768 XOR\n2 1 6152 75725 80515 XOR\n2 1 80515 75875 126767 XOR\n2 1 6144 75717 80507 XOR\n2 1 80507 75867 126759 XOR\n2 1 6143 75716 80506 XOR\n2 1 80506 75866 126758 XOR\n2 1 80506 126727 48420 XOR\n2 1 48420 48421 48419 AND\n2 1 48419 126727 126728 XOR\n2 1 126759 126728 78971 XOR\n2 1 80507 126728 48423 XOR\n2 1 126758 126727 78970 XOR\n2 1 79054 126995 48840 XOR\n2 1 48840 48841 48839 AND\n2 1 48839 126995 126996 XOR\n2 1 77519 126996 48844 XOR\n2 1 79055 126996 48843 XOR\n",
"2 1 48843 48844 48842 AND\n2 1 48842 126996 126997 XOR\n2 1 127028 126997 75728 XOR\n2 1 127027 126996 75727 XOR\n2 1 75728 75698 6148 XOR\n2 1 75727 75697 6147 XOR\n2 1 75726 75728 6146 XOR\n2 1 75725 75727 6145 XOR\n2 1 6155 75728 80518 XOR\n2 1 6154 75727 80517 XOR\n2 1 80517 75877 126769 XOR\n2 1 6148 75721 80511 XOR\n2 1 80511 75871 126763 XOR\n2 1 6147 75720 80510 XOR\n2 1 80510 75870 126762 XOR\n2 1 6146 75719 80509 XOR\n2 1 80509 75869 126761 XOR\n2 1 6145 75718 80508 XOR\n2 1 80508 75868 126760 XOR\n2 1 80518 75878 126770 XOR\n2 1 75867 126728 48424 XOR\n2 1 48423 48424 48422 AND\n2 1 48422 126728 126729 XOR\n2 1 126760 126729 78972 XOR\n2 1 80508 126729 48426 XOR\n2 1 75868 126729 48427 XOR\n2 1 48426 48427 48425 AND\n2 1 48425 126729 126730 XOR\n2 1 75869 126730 48430 XOR\n2 1 80509 126730 48429 XOR\n2 1 48429 48430 48428 AND\n2 1 48428 126730 126731 XOR\n2 1 75870 126731 48433 XOR\n2 1 80510 126731 48432 XOR\n2 1 48432 48433 48431 AND\n2 1 126762 126731 78974 XOR\n2 1 48431 126731 126732 XOR\n2 1 75871 126732 48436 XOR\n2 1 80511 126732 48435 XOR\n2 1 48435 48436 48434 AND\n2 1 48434 126732 126733 XOR\n2 1 126764 126733 78976 XOR\n2 1 75872 126733 48439 XOR\n2 1 80512 126733 48438 XOR\n2 1 48438 48439 48437 AND\n2 1 48437 126733 126734 XOR\n2 1 75873 126734 48442 XOR\n2 1 126765 126734 78977 XOR\n2 1 80513 126734 48441 XOR\n2 1 126763 126732 78975 XOR\n2 1 48441 48442 48440 AND\n2 1 48440 126734 126735 XOR\n2 1 126766 126735 78978 XOR\n2 1 80514 126735 48444 XOR\n2 1 75874 126735 48445 XOR\n2 1 48444 48445 48443 AND\n2 1 48443 126735 126736 XOR\n2 1 80515 126736 48447 XOR\n2 1 75875 126736 48448 XOR\n2 1 48447 48448 48446 AND\n2 1 126767 126736 78979 XOR\n2 1 48446 126736 126737 XOR\n2 1 126768 126737 78980 XOR\n2 1 75876 126737 48451 XOR\n2 1 80516 126737 48450 XOR\n2 1 48450 48451 48449 AND\n2 1 48449 126737 126738 XOR\n2 1 80517 126738 48453 XOR\n2 1 126769 126738 78981 XOR\n2 1 75877 126738 48454 XOR\n2 1 48453 48454 48452 AND\n2 1 48452 126738 126739 XOR\n2 1 126770 126739 78982 XOR\n2 1 80518 126739 48456 XOR\n2 1 75878 126739 48457 XOR\n2 1 48456 48457 48455 AND\n2 1 48455 126739 126740 XOR\n2 1 126771 126740 78983 XOR\n2 1 80519 126740 48459 XOR\n2 1 75879 126740 48460 XOR\n2 1 48459 48460 48458 AND\n2 1 48458 126740 126741 XOR\n2 1 126772 126741 78984 XOR\n2 1 80520 126741 48462 XOR\n2 1 75880 126741 48463 XOR\n2 1 48462 48463 48461 AND\n2 1 48461 126741 126742 XOR\n2 1 126773 126742 78985 XOR\n2 1 75881 126742 48466 XOR\n2 1 80521 126742 48465 XOR\n2 1 48465 48466 48464 AND\n2 1 48464 126742 126743 XOR\n2 1 126774 126743 78986 XOR\n2 1 75882 126743 48469 XOR\n2 1 80522 126743 48468 XOR\n2 1 48468 48469 48467 AND\n2 1 48467 126743 126744 XOR\n2 1 75883 126744 48472 XOR\n2 1 80523 126744 48471 XOR\n2 1 126775 126744 78987 XOR\n2 1 48471 48472 48470 AND\n2 1 48470 126744 126745 XOR\n2 1 126776 126745 78988 XOR\n2 1 75884 126745 48475 XOR\n2 1 80524 126745 48474 XOR\n2 1 48474 48475 48473 AND\n2 1 48473 126745 126746 XOR\n2 1 80525 126746 48477 XOR\n2 1 126777 126746 78989 XOR\n2 1 75885 126746 48478 XOR\n2 1 48477 48478 48476 AND\n2 1 48476 126746 126747 XOR\n2 1 126778 126747 78990 XOR\n2 1 75886 126747 48481 XOR\n2 1 80526 126747 48480 XOR\n2 1 48480 48481 48479 AND\n2 1 48479 126747 126748 XOR\n2 1 80527 126748 48483 XOR\n2 1 75887 126748 48484 XOR\n2 1 48483 48484 48482 AND\n2 1 48482 126748 126749 XOR\n2 1 126780 126749 78992 XOR\n2 1 126779 126748 78991 XOR\n2 1 126761 126730 78973 XOR\n2 1 76151 76162 82096 XOR\n2 1 82096 76208 126904 XOR\n2 1 76150 76161 82095 XOR\n2 1 82095 76207 126903 XOR\n",
"2 1 76149 76160 82094 XOR\n2 1 82094 76206 126902 XOR\n2 1 76148 76159 4835 XOR\n2 1 76147 76158 4834 XOR\n2 1 76146 76157 4833 XOR\n2 1 76145 76156 4832 XOR\n2 1 76176 76155 4831 XOR\n2 1 76175 76154 4830 XOR\n2 1 76174 76153 4829 XOR\n2 1 76173 76152 4828 XOR\n2 1 76172 76151 4827 XOR\n2 1 76171 76150 4826 XOR\n2 1 76170 76149 4825 XOR\n2 1 76169 76148 4824 XOR\n2 1 76168 76147 4823 XOR\n2 1 76167 76146 4822 XOR\n2 1 76166 76145 4821 XOR\n2 1 76165 76176 4820 XOR\n2 1 76164 76175 4819 XOR\n2 1 76163 76174 4818 XOR\n2 1 76162 76173 4817 XOR\n2 1 76161 76172 4816 XOR\n2 1 76160 76171 4815 XOR\n2 1 76159 76170 4814 XOR\n2 1 76158 76169 4813 XOR\n2 1 76157 76168 4812 XOR\n2 1 76156 76167 4811 XOR\n2 1 76155 76166 4810 XOR\n2 1 76154 76165 4809 XOR\n2 1 76153 76164 4808 XOR\n2 1 76152 76163 4807 XOR\n2 1 4835 76176 82093 XOR\n2 1 82093 76205 126901 XOR\n2 1 4834 76175 82092 XOR\n2 1 82092 76204 126900 XOR\n2 1 4833 76174 82091 XOR\n2 1 82091 76203 126899 XOR\n2 1 4832 76173 82090 XOR\n2 1 82090 76202 126898 XOR\n2 1 4831 76172 82089 XOR\n2 1 82089 76201 126897 XOR\n2 1 4830 76171 82088 XOR\n2 1 82088 76200 126896 XOR\n2 1 4829 76170 82087 XOR\n2 1 82087 76199 126895 XOR\n2 1 4828 76169 82086 XOR\n2 1 82086 76198 126894 XOR\n2 1 4827 76168 82085 XOR\n2 1 82085 76197 126893 XOR\n2 1 4826 76167 82084 XOR\n2 1 82084 76196 126892 XOR\n2 1 4825 76166 82083 XOR\n2 1 82083 76195 126891 XOR\n2 1 4824 76165 82082 XOR\n2 1 82082 76194 126890 XOR\n2 1 4823 76164 82081 XOR\n2 1 82081 76193 126889 XOR\n2 1 4822 76163 82080 XOR\n2 1 82080 76192 126888 XOR\n2 1 4821 76162 82079 XOR\n2 1 82079 76191 126887 XOR\n2 1 4820 76161 82078 XOR\n2 1 82078 76190 126886 XOR\n2 1 4819 76160 82077 XOR\n2 1 82077 76189 126885 XOR\n2 1 4818 76159 82076 XOR\n2 1 82076 76188 126884 XOR\n2 1 4817 76158 82075 XOR\n2 1 82075 76187 126883 XOR\n2 1 4816 76157 82074 XOR\n2 1 82074 76186 126882 XOR\n2 1 4815 76156 82073 XOR\n2 1 82073 76185 126881 XOR\n2 1 4814 76155 82072 XOR\n2 1 82072 76184 126880 XOR\n2 1 4813 76154 82071 XOR\n2 1 82071 76183 126879 XOR\n2 1 4812 76153 82070 XOR\n2 1 82070 76182 126878 XOR\n2 1 4811 76152 82069 XOR\n2 1 82069 76181 126877 XOR\n2 1 4810 76151 82068 XOR\n2 1 82068 76180 126876 XOR\n2 1 4809 76150 82067 XOR\n2 1 82067 76179 126875 XOR\n2 1 4808 76149 82066 XOR\n2 1 82066 76178 126874 XOR\n2 1 4807 76148 82065 XOR\n2 1 82065 76177 126843 AND\n2 1 82065 76177 77457 XOR\n2 1 78993 77457 126781 AND\n2 1 78994 126781 48486 XOR\n2 1 78993 77457 75665 XOR\n2 1 126874 126843 77458 XOR\n2 1 77458 126781 48487 XOR\n2 1 48486 48487 48485 AND\n2 1 48485 126781 126782 XOR\n2 1 78995 126782 48489 XOR\n2 1 78994 77458 126812 XOR\n2 1 126812 126781 75666 XOR\n2 1 76178 126843 48577 XOR\n2 1 82066 126843 48576 XOR\n2 1 48576 48577 48575 AND\n2 1 48575 126843 126844 XOR\n2 1 82067 126844 48579 XOR\n2 1 76179 126844 48580 XOR\n2 1 48579 48580 48578 AND\n2 1 48578 126844 126845 XOR\n2 1 126876 126845 77460 XOR\n2 1 78996 77460 126814 XOR\n2 1 76180 126845 48583 XOR\n2 1 82068 126845 48582 XOR\n2 1 48582 48583 48581 AND\n2 1 48581 126845 126846 XOR\n2 1 82069 126846 48585 XOR\n2 1 76181 126846 48586 XOR\n2 1 48585 48586 48584 AND\n2 1 48584 126846 126847 XOR\n2 1 126878 126847 77462 XOR\n2 1 78998 77462 126816 XOR\n2 1 76182 126847 48589 XOR\n2 1 82070 126847 48588 XOR\n2 1 48588 48589 48587 AND\n2 1 48587 126847 126848 XOR\n2 1 76183 126848 48592 XOR\n2 1 126879 126848 77463 XOR\n2 1 78999 77463 126817 XOR\n2 1 126877 126846 77461 XOR\n",
"2 1 78997 77461 126815 XOR\n2 1 126875 126844 77459 XOR\n2 1 77459 126782 48490 XOR\n2 1 48489 48490 48488 AND\n2 1 48488 126782 126783 XOR\n2 1 126814 126783 75668 XOR\n2 1 77460 126783 48493 XOR\n2 1 78996 126783 48492 XOR\n2 1 48492 48493 48491 AND\n2 1 48491 126783 126784 XOR\n2 1 126815 126784 75669 XOR\n2 1 78997 126784 48495 XOR\n2 1 77461 126784 48496 XOR\n2 1 78995 77459 126813 XOR\n2 1 126813 126782 75667 XOR\n2 1 48495 48496 48494 AND\n2 1 48494 126784 126785 XOR\n2 1 126816 126785 75670 XOR\n2 1 78998 126785 48498 XOR\n2 1 77462 126785 48499 XOR\n2 1 48498 48499 48497 AND\n2 1 48497 126785 126786 XOR\n2 1 126817 126786 75671 XOR\n2 1 78999 126786 48501 XOR\n2 1 77463 126786 48502 XOR\n2 1 48501 48502 48500 AND\n2 1 48500 126786 126787 XOR\n2 1 79000 126787 48504 XOR\n2 1 75669 75671 6131 XOR\n2 1 75668 75670 6130 XOR\n2 1 75667 75669 6129 XOR\n2 1 75666 75668 6128 XOR\n2 1 75665 75667 6127 XOR\n2 1 82071 126848 48591 XOR\n2 1 48591 48592 48590 AND\n2 1 48590 126848 126849 XOR\n2 1 82072 126849 48594 XOR\n2 1 126880 126849 77464 XOR\n2 1 77464 126787 48505 XOR\n2 1 79000 77464 126818 XOR\n2 1 126818 126787 75672 XOR\n2 1 75670 75672 6132 XOR\n2 1 76184 126849 48595 XOR\n2 1 48594 48595 48593 AND\n2 1 48593 126849 126850 XOR\n2 1 76185 126850 48598 XOR\n2 1 126881 126850 77465 XOR\n2 1 79001 77465 126819 XOR\n2 1 82073 126850 48597 XOR\n2 1 48597 48598 48596 AND\n2 1 48596 126850 126851 XOR\n2 1 82074 126851 48600 XOR\n2 1 126882 126851 77466 XOR\n2 1 79002 77466 126820 XOR\n2 1 76186 126851 48601 XOR\n2 1 48600 48601 48599 AND\n2 1 48599 126851 126852 XOR\n2 1 76187 126852 48604 XOR\n2 1 126883 126852 77467 XOR\n2 1 79003 77467 126821 XOR\n2 1 82075 126852 48603 XOR\n2 1 48603 48604 48602 AND\n2 1 48602 126852 126853 XOR\n2 1 82076 126853 48606 XOR\n2 1 126884 126853 77468 XOR\n2 1 79004 77468 126822 XOR\n2 1 76188 126853 48607 XOR\n2 1 48606 48607 48605 AND\n2 1 48605 126853 126854 XOR\n2 1 76189 126854 48610 XOR\n2 1 126885 126854 77469 XOR\n2 1 79005 77469 126823 XOR\n2 1 82077 126854 48609 XOR\n2 1 48609 48610 48608 AND\n2 1 48608 126854 126855 XOR\n2 1 82078 126855 48612 XOR\n2 1 126886 126855 77470 XOR\n2 1 79006 77470 126824 XOR\n2 1 76190 126855 48613 XOR\n2 1 48612 48613 48611 AND\n2 1 48611 126855 126856 XOR\n2 1 76191 126856 48616 XOR\n2 1 126887 126856 77471 XOR\n2 1 79007 77471 126825 XOR\n2 1 82079 126856 48615 XOR\n2 1 48615 48616 48614 AND\n2 1 48614 126856 126857 XOR\n2 1 126888 126857 77472 XOR\n2 1 82080 126857 48618 XOR\n2 1 79008 77472 126826 XOR\n2 1 76192 126857 48619 XOR\n2 1 48618 48619 48617 AND\n2 1 48617 126857 126858 XOR\n2 1 76193 126858 48622 XOR\n2 1 126889 126858 77473 XOR\n2 1 79009 77473 126827 XOR\n2 1 82081 126858 48621 XOR\n2 1 48621 48622 48620 AND\n2 1 48620 126858 126859 XOR\n2 1 82082 126859 48624 XOR\n2 1 126890 126859 77474 XOR\n2 1 79010 77474 126828 XOR\n2 1 76194 126859 48625 XOR\n2 1 48624 48625 48623 AND\n2 1 48623 126859 126860 XOR\n2 1 82083 126860 48627 XOR\n2 1 126891 126860 77475 XOR\n2 1 79011 77475 126829 XOR\n2 1 76195 126860 48628 XOR\n2 1 48627 48628 48626 AND\n2 1 48626 126860 126861 XOR\n2 1 82084 126861 48630 XOR\n2 1 76196 126861 48631 XOR\n2 1 48630 48631 48629 AND\n2 1 48629 126861 126862 XOR\n2 1 126893 126862 77477 XOR\n2 1 82085 126862 48633 XOR\n2 1 76197 126862 48634 XOR\n2 1 48633 48634 48632 AND\n2 1 48632 126862 126863 XOR\n2 1 82086 126863 48636 XOR\n2 1 76198 126863 48637 XOR\n2 1 48636 48637 48635 AND\n2 1 48635 126863 126864 XOR\n2 1 126895 126864 77479 XOR\n2 1 76199 126864 48640 XOR\n2 1 126894 126863 77478 XOR\n2 1 79014 77478 126832 XOR\n",
"2 1 126892 126861 77476 XOR\n2 1 79012 77476 126830 XOR\n2 1 79013 77477 126831 XOR\n2 1 82087 126864 48639 XOR\n2 1 48639 48640 48638 AND\n2 1 48638 126864 126865 XOR\n2 1 82088 126865 48642 XOR\n2 1 76200 126865 48643 XOR\n2 1 126896 126865 77480 XOR\n2 1 48642 48643 48641 AND\n2 1 48641 126865 126866 XOR\n2 1 76201 126866 48646 XOR\n2 1 126897 126866 77481 XOR\n2 1 79017 77481 126835 XOR\n2 1 82089 126866 48645 XOR\n2 1 48645 48646 48644 AND\n2 1 48644 126866 126867 XOR\n2 1 82090 126867 48648 XOR\n2 1 76202 126867 48649 XOR\n2 1 48648 48649 48647 AND\n2 1 48647 126867 126868 XOR\n2 1 76203 126868 48652 XOR\n2 1 126899 126868 77483 XOR\n2 1 79019 77483 126837 XOR\n2 1 126898 126867 77482 XOR\n2 1 79018 77482 126836 XOR\n2 1 79016 77480 126834 XOR\n2 1 82091 126868 48651 XOR\n2 1 48651 48652 48650 AND\n2 1 48650 126868 126869 XOR\n2 1 126900 126869 77484 XOR\n2 1 79020 77484 126838 XOR\n2 1 82092 126869 48654 XOR\n2 1 76204 126869 48655 XOR\n2 1 48654 48655 48653 AND\n2 1 48653 126869 126870 XOR\n2 1 126901 126870 77485 XOR\n2 1 76205 126870 48658 XOR\n2 1 82093 126870 48657 XOR\n2 1 48657 48658 48656 AND\n2 1 48656 126870 126871 XOR\n2 1 126902 126871 77486 XOR\n2 1 79022 77486 126840 XOR\n2 1 82094 126871 48660 XOR\n2 1 76206 126871 48661 XOR\n2 1 48660 48661 48659 AND\n2 1 48659 126871 126872 XOR\n2 1 82095 126872 48663 XOR\n2 1 126903 126872 77487 XOR\n2 1 79023 77487 126841 XOR\n2 1 76207 126872 48664 XOR\n2 1 48663 48664 48662 AND\n2 1 48662 126872 126873 XOR\n2 1 126904 126873 77488 XOR\n2 1 79024 77488 126842 XOR\n2 1 79021 77485 126839 XOR\n2 1 79015 77479 126833 XOR\n2 1 48504 48505 48503 AND\n2 1 48503 126787 126788 XOR\n2 1 77465 126788 48508 XOR\n2 1 79001 126788 48507 XOR\n2 1 126819 126788 75673 XOR\n2 1 48507 48508 48506 AND\n2 1 48506 126788 126789 XOR\n2 1 77466 126789 48511 XOR\n2 1 126820 126789 75674 XOR\n2 1 79002 126789 48510 XOR\n2 1 48510 48511 48509 AND\n2 1 48509 126789 126790 XOR\n2 1 79003 126790 48513 XOR\n2 1 77467 126790 48514 XOR\n2 1 126821 126790 75675 XOR\n2 1 48513 48514 48512 AND\n2 1 48512 126790 126791 XOR\n2 1 77468 126791 48517 XOR\n2 1 126822 126791 75676 XOR\n2 1 79004 126791 48516 XOR\n2 1 48516 48517 48515 AND\n2 1 48515 126791 126792 XOR\n2 1 79005 126792 48519 XOR\n2 1 77469 126792 48520 XOR\n2 1 48519 48520 48518 AND\n2 1 126823 126792 75677 XOR\n2 1 48518 126792 126793 XOR\n2 1 79006 126793 48522 XOR\n2 1 77470 126793 48523 XOR\n2 1 48522 48523 48521 AND\n2 1 126824 126793 75678 XOR\n2 1 75676 75678 80491 XOR\n2 1 80491 75851 126589 XOR\n2 1 75675 75677 80490 XOR\n2 1 80490 75850 126588 XOR\n2 1 75674 75676 80489 XOR\n2 1 80489 75849 126587 XOR\n2 1 75673 75675 80488 XOR\n2 1 80488 75848 126586 XOR\n2 1 75672 75674 80487 XOR\n2 1 80487 75847 126585 XOR\n2 1 75671 75673 6133 XOR\n2 1 48521 126793 126794 XOR\n2 1 77471 126794 48526 XOR\n2 1 126825 126794 75679 XOR\n2 1 79007 126794 48525 XOR\n2 1 75677 75679 80492 XOR\n2 1 80492 75852 126590 XOR\n2 1 48525 48526 48524 AND\n2 1 48524 126794 126795 XOR\n2 1 126826 126795 75680 XOR\n2 1 79008 126795 48528 XOR\n2 1 75678 75680 80493 XOR\n2 1 80493 75853 126591 XOR\n2 1 77472 126795 48529 XOR\n2 1 48528 48529 48527 AND\n2 1 48527 126795 126796 XOR\n2 1 126827 126796 75681 XOR\n2 1 79009 126796 48531 XOR\n2 1 77473 126796 48532 XOR\n2 1 48531 48532 48530 AND\n2 1 48530 126796 126797 XOR\n2 1 126828 126797 75682 XOR\n2 1 79010 126797 48534 XOR\n2 1 75680 75682 80495 XOR\n2 1 80495 75855 126593 XOR\n2 1 75679 75681 80494 XOR\n2 1 80494 75854 126592 XOR\n2 1 77474 126797 48535 XOR\n2 1 48534 48535 48533 AND\n2 1 48533 126797 126798 XOR\n",
"2 1 126829 126798 75683 XOR\n2 1 77475 126798 48538 XOR\n2 1 79011 126798 48537 XOR\n2 1 48537 48538 48536 AND\n2 1 48536 126798 126799 XOR\n2 1 77476 126799 48541 XOR\n2 1 126830 126799 75684 XOR\n2 1 79012 126799 48540 XOR\n2 1 48540 48541 48539 AND\n2 1 48539 126799 126800 XOR\n2 1 79013 126800 48543 XOR\n2 1 75681 75683 80496 XOR\n2 1 80496 75856 126594 XOR\n2 1 75682 75684 6112 XOR\n2 1 6112 75675 80465 XOR\n2 1 80465 75825 126533 AND\n2 1 75826 126533 48127 XOR\n2 1 80465 75825 78929 XOR\n2 1 126831 126800 75685 XOR\n2 1 75683 75685 6113 XOR\n2 1 6113 75676 80466 XOR\n2 1 80466 75826 126564 XOR\n2 1 126564 126533 78930 XOR\n2 1 80466 126533 48126 XOR\n2 1 48126 48127 48125 AND\n2 1 48125 126533 126534 XOR\n2 1 75827 126534 48130 XOR\n2 1 77477 126800 48544 XOR\n2 1 48543 48544 48542 AND\n2 1 48542 126800 126801 XOR\n2 1 79014 126801 48546 XOR\n2 1 77478 126801 48547 XOR\n2 1 48546 48547 48545 AND\n2 1 48545 126801 126802 XOR\n2 1 126833 126802 75687 XOR\n2 1 77479 126802 48550 XOR\n2 1 126832 126801 75686 XOR\n2 1 79015 126802 48549 XOR\n2 1 75685 75687 6115 XOR\n2 1 75684 75686 6114 XOR\n2 1 6115 75678 80468 XOR\n2 1 6114 75677 80467 XOR\n2 1 80467 75827 126565 XOR\n2 1 126565 126534 78931 XOR\n2 1 80467 126534 48129 XOR\n2 1 48129 48130 48128 AND\n2 1 48128 126534 126535 XOR\n2 1 80468 126535 48132 XOR\n2 1 75828 126535 48133 XOR\n2 1 48132 48133 48131 AND\n2 1 48131 126535 126536 XOR\n2 1 75829 126536 48136 XOR\n2 1 80468 75828 126566 XOR\n2 1 126566 126535 78932 XOR\n2 1 48549 48550 48548 AND\n2 1 48548 126802 126803 XOR\n2 1 79016 126803 48552 XOR\n2 1 126834 126803 75688 XOR\n2 1 77480 126803 48553 XOR\n2 1 48552 48553 48551 AND\n2 1 48551 126803 126804 XOR\n2 1 126835 126804 75689 XOR\n2 1 77481 126804 48556 XOR\n2 1 79017 126804 48555 XOR\n2 1 48555 48556 48554 AND\n2 1 48554 126804 126805 XOR\n2 1 126836 126805 75690 XOR\n2 1 79018 126805 48558 XOR\n2 1 77482 126805 48559 XOR\n2 1 48558 48559 48557 AND\n2 1 75688 75690 6118 XOR\n2 1 75687 75689 6117 XOR\n2 1 75686 75688 6116 XOR\n2 1 6127 75690 80480 XOR\n2 1 80480 75840 126578 XOR\n2 1 6118 75681 80471 XOR\n2 1 80471 75831 126569 XOR\n2 1 6117 75680 80470 XOR\n2 1 80470 75830 126568 XOR\n2 1 6116 75679 80469 XOR\n2 1 80469 75829 126567 XOR\n2 1 126567 126536 78933 XOR\n2 1 80469 126536 48135 XOR\n2 1 48135 48136 48134 AND\n2 1 48134 126536 126537 XOR\n2 1 80470 126537 48138 XOR\n2 1 126568 126537 78934 XOR\n2 1 75830 126537 48139 XOR\n2 1 48138 48139 48137 AND\n2 1 48137 126537 126538 XOR\n2 1 75831 126538 48142 XOR\n2 1 126569 126538 78935 XOR\n2 1 80471 126538 48141 XOR\n2 1 48141 48142 48140 AND\n2 1 48140 126538 126539 XOR\n2 1 75832 126539 48145 XOR\n2 1 48557 126805 126806 XOR\n2 1 79019 126806 48561 XOR\n2 1 77483 126806 48562 XOR\n2 1 48561 48562 48560 AND\n2 1 48560 126806 126807 XOR\n2 1 126838 126807 75692 XOR\n2 1 77484 126807 48565 XOR\n2 1 75690 75692 6120 XOR\n2 1 6129 75692 80482 XOR\n2 1 6120 75683 80473 XOR\n2 1 80473 75833 126571 XOR\n2 1 79020 126807 48564 XOR\n2 1 48564 48565 48563 AND\n2 1 48563 126807 126808 XOR\n2 1 79021 126808 48567 XOR\n2 1 77485 126808 48568 XOR\n2 1 48567 48568 48566 AND\n2 1 48566 126808 126809 XOR\n2 1 126840 126809 75694 XOR\n2 1 77486 126809 48571 XOR\n2 1 75692 75694 6122 XOR\n2 1 6131 75694 80484 XOR\n2 1 80484 75844 126582 XOR\n2 1 6122 75685 80475 XOR\n2 1 80475 75835 126573 XOR\n2 1 79022 126809 48570 XOR\n2 1 48570 48571 48569 AND\n2 1 48569 126809 126810 XOR\n2 1 126841 126810 75695 XOR\n2 1 79023 126810 48573 XOR\n2 1 77487 126810 48574 XOR\n2 1 48573 48574 48572 AND\n",
"2 1 48572 126810 126811 XOR\n2 1 126842 126811 75696 XOR\n2 1 75696 75666 6126 XOR\n2 1 75695 75665 6125 XOR\n2 1 75694 75696 6124 XOR\n2 1 6133 75696 80486 XOR\n2 1 80486 75846 126584 XOR\n2 1 6132 75695 80485 XOR\n2 1 80485 75845 126583 XOR\n2 1 6126 75689 80479 XOR\n2 1 80479 75839 126577 XOR\n2 1 6125 75688 80478 XOR\n2 1 80478 75838 126576 XOR\n2 1 6124 75687 80477 XOR\n2 1 80477 75837 126575 XOR\n2 1 126839 126808 75693 XOR\n2 1 75693 75695 6123 XOR\n2 1 6130 75693 80483 XOR\n2 1 80483 75843 126581 XOR\n2 1 6123 75686 80476 XOR\n2 1 80476 75836 126574 XOR\n2 1 126837 126806 75691 XOR\n2 1 75691 75693 6121 XOR\n2 1 75689 75691 6119 XOR\n2 1 6128 75691 80481 XOR\n2 1 80481 75841 126579 XOR\n2 1 6121 75684 80474 XOR\n2 1 80474 75834 126572 XOR\n2 1 6119 75682 80472 XOR\n2 1 80472 75832 126570 XOR\n2 1 126570 126539 78936 XOR\n2 1 80472 126539 48144 XOR\n2 1 48144 48145 48143 AND\n2 1 48143 126539 126540 XOR\n2 1 75833 126540 48148 XOR\n2 1 80473 126540 48147 XOR\n2 1 126571 126540 78937 XOR\n2 1 80482 75842 126580 XOR\n2 1 48147 48148 48146 AND\n2 1 48146 126540 126541 XOR\n2 1 80474 126541 48150 XOR\n2 1 126572 126541 78938 XOR\n2 1 75834 126541 48151 XOR\n2 1 48150 48151 48149 AND\n2 1 48149 126541 126542 XOR\n2 1 75835 126542 48154 XOR\n2 1 80475 126542 48153 XOR\n2 1 48153 48154 48152 AND\n2 1 48152 126542 126543 XOR\n2 1 80476 126543 48156 XOR\n2 1 126574 126543 78940 XOR\n2 1 75836 126543 48157 XOR\n2 1 48156 48157 48155 AND\n2 1 48155 126543 126544 XOR\n2 1 75837 126544 48160 XOR\n2 1 126573 126542 78939 XOR\n2 1 80477 126544 48159 XOR\n2 1 48159 48160 48158 AND\n2 1 48158 126544 126545 XOR\n2 1 80478 126545 48162 XOR\n2 1 75838 126545 48163 XOR\n2 1 48162 48163 48161 AND\n2 1 48161 126545 126546 XOR\n2 1 80479 126546 48165 XOR\n2 1 126577 126546 78943 XOR\n2 1 75839 126546 48166 XOR\n2 1 48165 48166 48164 AND\n2 1 48164 126546 126547 XOR\n2 1 80480 126547 48168 XOR\n2 1 126578 126547 78944 XOR\n2 1 126576 126545 78942 XOR\n2 1 75840 126547 48169 XOR\n2 1 48168 48169 48167 AND\n2 1 48167 126547 126548 XOR\n2 1 126579 126548 78945 XOR\n2 1 75841 126548 48172 XOR\n2 1 80481 126548 48171 XOR\n2 1 48171 48172 48170 AND\n2 1 48170 126548 126549 XOR\n2 1 126580 126549 78946 XOR\n2 1 80482 126549 48174 XOR\n2 1 75842 126549 48175 XOR\n2 1 48174 48175 48173 AND\n2 1 48173 126549 126550 XOR\n2 1 126581 126550 78947 XOR\n2 1 80483 126550 48177 XOR\n2 1 75843 126550 48178 XOR\n2 1 48177 48178 48176 AND\n2 1 48176 126550 126551 XOR\n2 1 126582 126551 78948 XOR\n2 1 75844 126551 48181 XOR\n2 1 80484 126551 48180 XOR\n2 1 48180 48181 48179 AND\n2 1 48179 126551 126552 XOR\n2 1 80485 126552 48183 XOR\n2 1 126583 126552 78949 XOR\n2 1 75845 126552 48184 XOR\n2 1 48183 48184 48182 AND\n2 1 48182 126552 126553 XOR\n2 1 126584 126553 78950 XOR\n2 1 75846 126553 48187 XOR\n2 1 80486 126553 48186 XOR\n2 1 48186 48187 48185 AND\n2 1 48185 126553 126554 XOR\n2 1 80487 126554 48189 XOR\n2 1 126585 126554 78951 XOR\n2 1 75847 126554 48190 XOR\n2 1 48189 48190 48188 AND\n2 1 48188 126554 126555 XOR\n2 1 126586 126555 78952 XOR\n2 1 80488 126555 48192 XOR\n2 1 75848 126555 48193 XOR\n2 1 48192 48193 48191 AND\n2 1 48191 126555 126556 XOR\n2 1 126587 126556 78953 XOR\n2 1 80489 126556 48195 XOR\n2 1 75849 126556 48196 XOR\n2 1 48195 48196 48194 AND\n2 1 48194 126556 126557 XOR\n2 1 75850 126557 48199 XOR\n2 1 80490 126557 48198 XOR\n2 1 126588 126557 78954 XOR\n2 1 48198 48199 48197 AND\n2 1 48197 126557 126558 XOR\n2 1 80491 126558 48201 XOR\n2 1 126589 126558 78955 XOR\n2 1 75851 126558 48202 XOR\n2 1 48201 48202 48200 AND\n",
"2 1 48200 126558 126559 XOR\n2 1 126590 126559 78956 XOR\n2 1 75852 126559 48205 XOR\n2 1 80492 126559 48204 XOR\n2 1 48204 48205 48203 AND\n2 1 48203 126559 126560 XOR\n2 1 80493 126560 48207 XOR\n2 1 126591 126560 78957 XOR\n2 1 75853 126560 48208 XOR\n2 1 48207 48208 48206 AND\n2 1 48206 126560 126561 XOR\n2 1 80494 126561 48210 XOR\n2 1 126592 126561 78958 XOR\n2 1 75854 126561 48211 XOR\n2 1 48210 48211 48209 AND\n2 1 48209 126561 126562 XOR\n2 1 75855 126562 48214 XOR\n2 1 80495 126562 48213 XOR\n2 1 48213 48214 48212 AND\n2 1 126593 126562 78959 XOR\n2 1 48212 126562 126563 XOR\n2 1 126594 126563 78960 XOR\n2 1 126575 126544 78941 XOR\n2 1 76119 76130 82064 XOR\n2 1 82064 76176 126718 XOR\n2 1 76118 76129 82063 XOR\n2 1 82063 76175 126717 XOR\n2 1 76117 76128 82062 XOR\n2 1 82062 76174 126716 XOR\n2 1 76116 76127 4806 XOR\n2 1 76115 76126 4805 XOR\n2 1 76114 76125 4804 XOR\n2 1 76113 76124 4803 XOR\n2 1 76144 76123 4802 XOR\n2 1 76143 76122 4801 XOR\n2 1 76142 76121 4800 XOR\n2 1 76141 76120 4799 XOR\n2 1 76140 76119 4798 XOR\n2 1 76139 76118 4797 XOR\n2 1 76138 76117 4796 XOR\n2 1 76137 76116 4795 XOR\n2 1 76136 76115 4794 XOR\n2 1 76135 76114 4793 XOR\n2 1 76134 76113 4792 XOR\n2 1 76133 76144 4791 XOR\n2 1 76132 76143 4790 XOR\n2 1 76131 76142 4789 XOR\n2 1 76130 76141 4788 XOR\n2 1 76129 76140 4787 XOR\n2 1 76128 76139 4786 XOR\n2 1 76127 76138 4785 XOR\n2 1 76126 76137 4784 XOR\n2 1 76125 76136 4783 XOR\n2 1 76124 76135 4782 XOR\n2 1 76123 76134 4781 XOR\n2 1 76122 76133 4780 XOR\n2 1 76121 76132 4779 XOR\n2 1 76120 76131 4778 XOR\n2 1 4806 76144 82061 XOR\n2 1 82061 76173 126715 XOR\n2 1 4805 76143 82060 XOR\n2 1 82060 76172 126714 XOR\n2 1 4804 76142 82059 XOR\n2 1 82059 76171 126713 XOR\n2 1 4803 76141 82058 XOR\n2 1 82058 76170 126712 XOR\n2 1 4802 76140 82057 XOR\n2 1 82057 76169 126711 XOR\n2 1 4801 76139 82056 XOR\n2 1 82056 76168 126710 XOR\n2 1 4800 76138 82055 XOR\n2 1 82055 76167 126709 XOR\n2 1 4799 76137 82054 XOR\n2 1 82054 76166 126708 XOR\n2 1 4798 76136 82053 XOR\n2 1 82053 76165 126707 XOR\n2 1 4797 76135 82052 XOR\n2 1 82052 76164 126706 XOR\n2 1 4796 76134 82051 XOR\n2 1 82051 76163 126705 XOR\n2 1 4795 76133 82050 XOR\n2 1 82050 76162 126704 XOR\n2 1 4794 76132 82049 XOR\n2 1 82049 76161 126703 XOR\n2 1 4793 76131 82048 XOR\n2 1 82048 76160 126702 XOR\n2 1 4792 76130 82047 XOR\n2 1 82047 76159 126701 XOR\n2 1 4791 76129 82046 XOR\n2 1 82046 76158 126700 XOR\n2 1 4790 76128 82045 XOR\n2 1 82045 76157 126699 XOR\n2 1 4789 76127 82044 XOR\n2 1 82044 76156 126698 XOR\n2 1 4788 76126 82043 XOR\n2 1 82043 76155 126697 XOR\n2 1 4787 76125 82042 XOR\n2 1 82042 76154 126696 XOR\n2 1 4786 76124 82041 XOR\n2 1 82041 76153 126695 XOR\n2 1 4785 76123 82040 XOR\n2 1 82040 76152 126694 XOR\n2 1 4784 76122 82039 XOR\n2 1 82039 76151 126693 XOR\n2 1 4783 76121 82038 XOR\n2 1 82038 76150 126692 XOR\n2 1 4782 76120 82037 XOR\n2 1 82037 76149 126691 XOR\n2 1 4781 76119 82036 XOR\n2 1 82036 76148 126690 XOR\n2 1 4780 76118 82035 XOR\n2 1 82035 76147 126689 XOR\n2 1 4779 76117 82034 XOR\n2 1 82034 76146 126688 XOR\n2 1 4778 76116 82033 XOR\n2 1 82033 76145 126657 AND\n2 1 82034 126657 48306 XOR\n2 1 126688 126657 77426 XOR\n2 1 78962 77426 126626 XOR\n2 1 82033 76145 77425 XOR\n2 1 78961 77425 75633 XOR\n2 1 78961 77425 126595 AND\n2 1 126626 126595 75634 XOR\n2 1 78962 126595 48216 XOR\n2 1 77426 126595 48217 XOR\n2 1 48216 48217 48215 AND\n2 1 48215 126595 126596 XOR\n2 1 78963 126596 48219 XOR\n",
"2 1 76146 126657 48307 XOR\n2 1 48306 48307 48305 AND\n2 1 48305 126657 126658 XOR\n2 1 126689 126658 77427 XOR\n2 1 78963 77427 126627 XOR\n2 1 77427 126596 48220 XOR\n2 1 76147 126658 48310 XOR\n2 1 82035 126658 48309 XOR\n2 1 48309 48310 48308 AND\n2 1 126627 126596 75635 XOR\n2 1 48219 48220 48218 AND\n2 1 48218 126596 126597 XOR\n2 1 78964 126597 48222 XOR\n2 1 48308 126658 126659 XOR\n2 1 82036 126659 48312 XOR\n2 1 76148 126659 48313 XOR\n2 1 48312 48313 48311 AND\n2 1 126690 126659 77428 XOR\n2 1 48311 126659 126660 XOR\n2 1 126691 126660 77429 XOR\n2 1 76149 126660 48316 XOR\n2 1 82037 126660 48315 XOR\n2 1 78965 77429 126629 XOR\n2 1 77428 126597 48223 XOR\n2 1 48222 48223 48221 AND\n2 1 48221 126597 126598 XOR\n2 1 78965 126598 48225 XOR\n2 1 77429 126598 48226 XOR\n2 1 48225 48226 48224 AND\n2 1 48224 126598 126599 XOR\n2 1 78966 126599 48228 XOR\n2 1 126629 126598 75637 XOR\n2 1 48315 48316 48314 AND\n2 1 48314 126660 126661 XOR\n2 1 82038 126661 48318 XOR\n2 1 76150 126661 48319 XOR\n2 1 48318 48319 48317 AND\n2 1 48317 126661 126662 XOR\n2 1 126693 126662 77431 XOR\n2 1 76151 126662 48322 XOR\n2 1 78967 77431 126631 XOR\n2 1 82039 126662 48321 XOR\n2 1 48321 48322 48320 AND\n2 1 48320 126662 126663 XOR\n2 1 76152 126663 48325 XOR\n2 1 82040 126663 48324 XOR\n2 1 48324 48325 48323 AND\n2 1 126694 126663 77432 XOR\n2 1 48323 126663 126664 XOR\n2 1 82041 126664 48327 XOR\n2 1 126695 126664 77433 XOR\n2 1 76153 126664 48328 XOR\n2 1 48327 48328 48326 AND\n2 1 48326 126664 126665 XOR\n2 1 76154 126665 48331 XOR\n2 1 126696 126665 77434 XOR\n2 1 82042 126665 48330 XOR\n2 1 48330 48331 48329 AND\n2 1 48329 126665 126666 XOR\n2 1 82043 126666 48333 XOR\n2 1 126697 126666 77435 XOR\n2 1 76155 126666 48334 XOR\n2 1 48333 48334 48332 AND\n2 1 48332 126666 126667 XOR\n2 1 82044 126667 48336 XOR\n2 1 76156 126667 48337 XOR\n2 1 48336 48337 48335 AND\n2 1 48335 126667 126668 XOR\n2 1 76157 126668 48340 XOR\n2 1 82045 126668 48339 XOR\n2 1 48339 48340 48338 AND\n2 1 48338 126668 126669 XOR\n2 1 76158 126669 48343 XOR\n2 1 126698 126667 77436 XOR\n2 1 78972 77436 126636 XOR\n2 1 78970 77434 126634 XOR\n2 1 78968 77432 126632 XOR\n2 1 126692 126661 77430 XOR\n2 1 77430 126599 48229 XOR\n2 1 78966 77430 126630 XOR\n2 1 126630 126599 75638 XOR\n2 1 48228 48229 48227 AND\n2 1 48227 126599 126600 XOR\n2 1 77431 126600 48232 XOR\n2 1 126631 126600 75639 XOR\n2 1 126700 126669 77438 XOR\n2 1 78974 77438 126638 XOR\n2 1 78967 126600 48231 XOR\n2 1 48231 48232 48230 AND\n2 1 48230 126600 126601 XOR\n2 1 126632 126601 75640 XOR\n2 1 78968 126601 48234 XOR\n2 1 77432 126601 48235 XOR\n2 1 48234 48235 48233 AND\n2 1 48233 126601 126602 XOR\n2 1 78969 126602 48237 XOR\n2 1 77433 126602 48238 XOR\n2 1 48237 48238 48236 AND\n2 1 48236 126602 126603 XOR\n2 1 126634 126603 75642 XOR\n2 1 78970 126603 48240 XOR\n2 1 77434 126603 48241 XOR\n2 1 48240 48241 48239 AND\n2 1 48239 126603 126604 XOR\n2 1 78971 126604 48243 XOR\n2 1 77435 126604 48244 XOR\n2 1 48243 48244 48242 AND\n2 1 48242 126604 126605 XOR\n2 1 126636 126605 75644 XOR\n2 1 78972 126605 48246 XOR\n2 1 77436 126605 48247 XOR\n2 1 48246 48247 48245 AND\n2 1 48245 126605 126606 XOR\n2 1 78973 126606 48249 XOR\n2 1 78964 77428 126628 XOR\n2 1 126628 126597 75636 XOR\n2 1 78969 77433 126633 XOR\n2 1 126633 126602 75641 XOR\n2 1 126699 126668 77437 XOR\n2 1 78973 77437 126637 XOR\n2 1 126637 126606 75645 XOR\n2 1 77437 126606 48250 XOR\n2 1 48249 48250 48248 AND\n2 1 48248 126606 126607 XOR\n2 1 77438 126607 48253 XOR\n2 1 126638 126607 75646 XOR\n2 1 78974 126607 48252 XOR\n2 1 48252 48253 48251 AND\n",
"2 1 48251 126607 126608 XOR\n2 1 78975 126608 48255 XOR\n2 1 78971 77435 126635 XOR\n2 1 126635 126604 75643 XOR\n2 1 82046 126669 48342 XOR\n2 1 48342 48343 48341 AND\n2 1 48341 126669 126670 XOR\n2 1 126701 126670 77439 XOR\n2 1 82047 126670 48345 XOR\n2 1 78975 77439 126639 XOR\n2 1 76159 126670 48346 XOR\n2 1 126639 126608 75647 XOR\n2 1 77439 126608 48256 XOR\n2 1 48255 48256 48254 AND\n2 1 48254 126608 126609 XOR\n2 1 78976 126609 48258 XOR\n2 1 48345 48346 48344 AND\n2 1 48344 126670 126671 XOR\n2 1 126702 126671 77440 XOR\n2 1 77440 126609 48259 XOR\n2 1 76160 126671 48349 XOR\n2 1 78976 77440 126640 XOR\n2 1 126640 126609 75648 XOR\n2 1 82048 126671 48348 XOR\n2 1 48348 48349 48347 AND\n2 1 48258 48259 48257 AND\n2 1 48257 126609 126610 XOR\n2 1 78977 126610 48261 XOR\n2 1 48347 126671 126672 XOR\n2 1 126703 126672 77441 XOR\n2 1 78977 77441 126641 XOR\n2 1 76161 126672 48352 XOR\n2 1 126641 126610 75649 XOR\n2 1 77441 126610 48262 XOR\n2 1 48261 48262 48260 AND\n2 1 48260 126610 126611 XOR\n2 1 78978 126611 48264 XOR\n2 1 82049 126672 48351 XOR\n2 1 48351 48352 48350 AND\n2 1 48350 126672 126673 XOR\n2 1 82050 126673 48354 XOR\n2 1 126704 126673 77442 XOR\n2 1 78978 77442 126642 XOR\n2 1 126642 126611 75650 XOR\n2 1 77442 126611 48265 XOR\n2 1 48264 48265 48263 AND\n2 1 48263 126611 126612 XOR\n2 1 78979 126612 48267 XOR\n2 1 76162 126673 48355 XOR\n2 1 48354 48355 48353 AND\n2 1 48353 126673 126674 XOR\n2 1 76163 126674 48358 XOR\n2 1 126705 126674 77443 XOR\n2 1 77443 126612 48268 XOR\n2 1 48267 48268 48266 AND\n2 1 48266 126612 126613 XOR\n2 1 78980 126613 48270 XOR\n2 1 82051 126674 48357 XOR\n2 1 48357 48358 48356 AND\n2 1 48356 126674 126675 XOR\n2 1 82052 126675 48360 XOR\n2 1 76164 126675 48361 XOR\n2 1 48360 48361 48359 AND\n2 1 126706 126675 77444 XOR\n2 1 77444 126613 48271 XOR\n2 1 48270 48271 48269 AND\n2 1 78980 77444 126644 XOR\n2 1 48359 126675 126676 XOR\n2 1 76165 126676 48364 XOR\n2 1 126707 126676 77445 XOR\n2 1 78981 77445 126645 XOR\n2 1 82053 126676 48363 XOR\n2 1 48363 48364 48362 AND\n2 1 48362 126676 126677 XOR\n2 1 82054 126677 48366 XOR\n2 1 76166 126677 48367 XOR\n2 1 126708 126677 77446 XOR\n2 1 78982 77446 126646 XOR\n2 1 48366 48367 48365 AND\n2 1 48365 126677 126678 XOR\n2 1 76167 126678 48370 XOR\n2 1 82055 126678 48369 XOR\n2 1 48369 48370 48368 AND\n2 1 126709 126678 77447 XOR\n2 1 48368 126678 126679 XOR\n2 1 76168 126679 48373 XOR\n2 1 82056 126679 48372 XOR\n2 1 126710 126679 77448 XOR\n2 1 78983 77447 126647 XOR\n2 1 78984 77448 126648 XOR\n2 1 48372 48373 48371 AND\n2 1 48371 126679 126680 XOR\n2 1 126711 126680 77449 XOR\n2 1 76169 126680 48376 XOR\n2 1 82057 126680 48375 XOR\n2 1 48375 48376 48374 AND\n2 1 48374 126680 126681 XOR\n2 1 76170 126681 48379 XOR\n2 1 82058 126681 48378 XOR\n2 1 48378 48379 48377 AND\n2 1 48377 126681 126682 XOR\n2 1 126713 126682 77451 XOR\n2 1 76171 126682 48382 XOR\n2 1 126712 126681 77450 XOR\n2 1 78986 77450 126650 XOR\n2 1 82059 126682 48381 XOR\n2 1 48381 48382 48380 AND\n2 1 48380 126682 126683 XOR\n2 1 82060 126683 48384 XOR\n2 1 76172 126683 48385 XOR\n2 1 48384 48385 48383 AND\n2 1 126714 126683 77452 XOR\n2 1 48269 126613 126614 XOR\n2 1 78981 126614 48273 XOR\n2 1 126645 126614 75653 XOR\n2 1 77445 126614 48274 XOR\n2 1 48273 48274 48272 AND\n2 1 48272 126614 126615 XOR\n2 1 77446 126615 48277 XOR\n2 1 126646 126615 75654 XOR\n2 1 78982 126615 48276 XOR\n2 1 78979 77443 126643 XOR\n2 1 126643 126612 75651 XOR\n2 1 78987 77451 126651 XOR\n2 1 78985 77449 126649 XOR\n2 1 48276 48277 48275 AND\n2 1 48275 126615 126616 XOR\n2 1 126647 126616 75655 XOR\n",
"2 1 77447 126616 48280 XOR\n2 1 78983 126616 48279 XOR\n2 1 48279 48280 48278 AND\n2 1 48278 126616 126617 XOR\n2 1 77448 126617 48283 XOR\n2 1 126648 126617 75656 XOR\n2 1 78984 126617 48282 XOR\n2 1 48282 48283 48281 AND\n2 1 48281 126617 126618 XOR\n2 1 126649 126618 75657 XOR\n2 1 78985 126618 48285 XOR\n2 1 48383 126683 126684 XOR\n2 1 76173 126684 48388 XOR\n2 1 126715 126684 77453 XOR\n2 1 82061 126684 48387 XOR\n2 1 48387 48388 48386 AND\n2 1 48386 126684 126685 XOR\n2 1 76174 126685 48391 XOR\n2 1 126716 126685 77454 XOR\n2 1 78990 77454 126654 XOR\n2 1 78989 77453 126653 XOR\n2 1 77449 126618 48286 XOR\n2 1 48285 48286 48284 AND\n2 1 48284 126618 126619 XOR\n2 1 78986 126619 48288 XOR\n2 1 77450 126619 48289 XOR\n2 1 126650 126619 75658 XOR\n2 1 48288 48289 48287 AND\n2 1 48287 126619 126620 XOR\n2 1 77451 126620 48292 XOR\n2 1 78987 126620 48291 XOR\n2 1 48291 48292 48290 AND\n2 1 48290 126620 126621 XOR\n2 1 77452 126621 48295 XOR\n2 1 78988 126621 48294 XOR\n2 1 48294 48295 48293 AND\n2 1 48293 126621 126622 XOR\n2 1 78989 126622 48297 XOR\n2 1 77453 126622 48298 XOR\n2 1 48297 48298 48296 AND\n2 1 48296 126622 126623 XOR\n2 1 77454 126623 48301 XOR\n2 1 78990 126623 48300 XOR\n2 1 48300 48301 48299 AND\n2 1 48299 126623 126624 XOR\n2 1 126653 126622 75661 XOR\n2 1 78991 126624 48303 XOR\n2 1 126651 126620 75659 XOR\n2 1 126654 126623 75662 XOR\n2 1 82062 126685 48390 XOR\n2 1 48390 48391 48389 AND\n2 1 48389 126685 126686 XOR\n2 1 82063 126686 48393 XOR\n2 1 76175 126686 48394 XOR\n2 1 48393 48394 48392 AND\n2 1 48392 126686 126687 XOR\n2 1 126718 126687 77456 XOR\n2 1 78992 77456 126656 XOR\n2 1 126717 126686 77455 XOR\n2 1 77455 126624 48304 XOR\n2 1 48303 48304 48302 AND\n2 1 48302 126624 126625 XOR\n2 1 126656 126625 75664 XOR\n2 1 78991 77455 126655 XOR\n2 1 126655 126624 75663 XOR\n2 1 126644 126613 75652 XOR\n2 1 78988 77452 126652 XOR\n2 1 126652 126621 75660 XOR\n2 1 76087 76098 82032 XOR\n2 1 82032 76144 126532 XOR\n2 1 76086 76097 82031 XOR\n2 1 82031 76143 126531 XOR\n2 1 76085 76096 82030 XOR\n2 1 82030 76142 126530 XOR\n2 1 76084 76095 4777 XOR\n2 1 76083 76094 4776 XOR\n2 1 76082 76093 4775 XOR\n2 1 76081 76092 4774 XOR\n2 1 76112 76091 4773 XOR\n2 1 76111 76090 4772 XOR\n2 1 76110 76089 4771 XOR\n2 1 76109 76088 4770 XOR\n2 1 76108 76087 4769 XOR\n2 1 76107 76086 4768 XOR\n2 1 76106 76085 4767 XOR\n2 1 76105 76084 4766 XOR\n2 1 76104 76083 4765 XOR\n2 1 76103 76082 4764 XOR\n2 1 76102 76081 4763 XOR\n2 1 76101 76112 4762 XOR\n2 1 76100 76111 4761 XOR\n2 1 76099 76110 4760 XOR\n2 1 76098 76109 4759 XOR\n2 1 76097 76108 4758 XOR\n2 1 76096 76107 4757 XOR\n2 1 76095 76106 4756 XOR\n2 1 76094 76105 4755 XOR\n2 1 76093 76104 4754 XOR\n2 1 76092 76103 4753 XOR\n2 1 76091 76102 4752 XOR\n2 1 76090 76101 4751 XOR\n2 1 76089 76100 4750 XOR\n2 1 76088 76099 4749 XOR\n2 1 4777 76112 82029 XOR\n2 1 82029 76141 126529 XOR\n2 1 4776 76111 82028 XOR\n2 1 82028 76140 126528 XOR\n2 1 4775 76110 82027 XOR\n2 1 82027 76139 126527 XOR\n2 1 4774 76109 82026 XOR\n2 1 82026 76138 126526 XOR\n2 1 4773 76108 82025 XOR\n2 1 82025 76137 126525 XOR\n2 1 4772 76107 82024 XOR\n2 1 82024 76136 126524 XOR\n2 1 4771 76106 82023 XOR\n2 1 82023 76135 126523 XOR\n2 1 4770 76105 82022 XOR\n2 1 82022 76134 126522 XOR\n2 1 4769 76104 82021 XOR\n2 1 82021 76133 126521 XOR\n2 1 4768 76103 82020 XOR\n2 1 82020 76132 126520 XOR\n2 1 4767 76102 82019 XOR\n2 1 82019 76131 126519 XOR\n2 1 4766 76101 82018 XOR\n2 1 82018 76130 126518 XOR\n2 1 4765 76100 82017 XOR\n",
"2 1 82017 76129 126517 XOR\n2 1 4764 76099 82016 XOR\n2 1 82016 76128 126516 XOR\n2 1 4763 76098 82015 XOR\n2 1 82015 76127 126515 XOR\n2 1 4762 76097 82014 XOR\n2 1 82014 76126 126514 XOR\n2 1 4761 76096 82013 XOR\n2 1 82013 76125 126513 XOR\n2 1 4760 76095 82012 XOR\n2 1 82012 76124 126512 XOR\n2 1 4759 76094 82011 XOR\n2 1 82011 76123 126511 XOR\n2 1 4758 76093 82010 XOR\n2 1 82010 76122 126510 XOR\n2 1 4757 76092 82009 XOR\n2 1 82009 76121 126509 XOR\n2 1 4756 76091 82008 XOR\n2 1 82008 76120 126508 XOR\n2 1 4755 76090 82007 XOR\n2 1 82007 76119 126507 XOR\n2 1 4754 76089 82006 XOR\n2 1 82006 76118 126506 XOR\n2 1 4753 76088 82005 XOR\n2 1 82005 76117 126505 XOR\n2 1 4752 76087 82004 XOR\n2 1 82004 76116 126504 XOR\n2 1 4751 76086 82003 XOR\n2 1 82003 76115 126503 XOR\n2 1 4750 76085 82002 XOR\n2 1 82002 76114 126502 XOR\n2 1 4749 76084 82001 XOR\n2 1 82001 76113 77393 XOR\n2 1 78929 77393 75601 XOR\n2 1 82001 76113 126471 AND\n2 1 82002 126471 48036 XOR\n2 1 76114 126471 48037 XOR\n2 1 48036 48037 48035 AND\n2 1 48035 126471 126472 XOR\n2 1 76115 126472 48040 XOR\n2 1 82003 126472 48039 XOR\n2 1 48039 48040 48038 AND\n2 1 48038 126472 126473 XOR\n2 1 76116 126473 48043 XOR\n2 1 126503 126472 77395 XOR\n2 1 78931 77395 126441 XOR\n2 1 78929 77393 126409 AND\n2 1 78930 126409 47946 XOR\n2 1 82004 126473 48042 XOR\n2 1 48042 48043 48041 AND\n2 1 48041 126473 126474 XOR\n2 1 82005 126474 48045 XOR\n2 1 76117 126474 48046 XOR\n2 1 126505 126474 77397 XOR\n2 1 78933 77397 126443 XOR\n2 1 48045 48046 48044 AND\n2 1 48044 126474 126475 XOR\n2 1 126506 126475 77398 XOR\n2 1 78934 77398 126444 XOR\n2 1 76118 126475 48049 XOR\n2 1 126502 126471 77394 XOR\n2 1 77394 126409 47947 XOR\n2 1 47946 47947 47945 AND\n2 1 78930 77394 126440 XOR\n2 1 126440 126409 75602 XOR\n2 1 47945 126409 126410 XOR\n2 1 78931 126410 47949 XOR\n2 1 126441 126410 75603 XOR\n2 1 77395 126410 47950 XOR\n2 1 47949 47950 47948 AND\n2 1 47948 126410 126411 XOR\n2 1 78932 126411 47952 XOR\n2 1 82006 126475 48048 XOR\n2 1 48048 48049 48047 AND\n2 1 48047 126475 126476 XOR\n2 1 82007 126476 48051 XOR\n2 1 76119 126476 48052 XOR\n2 1 126507 126476 77399 XOR\n2 1 78935 77399 126445 XOR\n2 1 48051 48052 48050 AND\n2 1 48050 126476 126477 XOR\n2 1 82008 126477 48054 XOR\n2 1 76120 126477 48055 XOR\n2 1 126508 126477 77400 XOR\n2 1 78936 77400 126446 XOR\n2 1 48054 48055 48053 AND\n2 1 48053 126477 126478 XOR\n2 1 126509 126478 77401 XOR\n2 1 78937 77401 126447 XOR\n2 1 82009 126478 48057 XOR\n2 1 76121 126478 48058 XOR\n2 1 48057 48058 48056 AND\n2 1 48056 126478 126479 XOR\n2 1 76122 126479 48061 XOR\n2 1 126510 126479 77402 XOR\n2 1 78938 77402 126448 XOR\n2 1 82010 126479 48060 XOR\n2 1 48060 48061 48059 AND\n2 1 48059 126479 126480 XOR\n2 1 82011 126480 48063 XOR\n2 1 126511 126480 77403 XOR\n2 1 78939 77403 126449 XOR\n2 1 76123 126480 48064 XOR\n2 1 48063 48064 48062 AND\n2 1 48062 126480 126481 XOR\n2 1 76124 126481 48067 XOR\n2 1 82012 126481 48066 XOR\n2 1 48066 48067 48065 AND\n2 1 126512 126481 77404 XOR\n2 1 78940 77404 126450 XOR\n2 1 48065 126481 126482 XOR\n2 1 76125 126482 48070 XOR\n2 1 126513 126482 77405 XOR\n2 1 78941 77405 126451 XOR\n2 1 82013 126482 48069 XOR\n2 1 48069 48070 48068 AND\n2 1 48068 126482 126483 XOR\n2 1 76126 126483 48073 XOR\n2 1 82014 126483 48072 XOR\n2 1 48072 48073 48071 AND\n2 1 48071 126483 126484 XOR\n2 1 126515 126484 77407 XOR\n2 1 78943 77407 126453 XOR\n2 1 126514 126483 77406 XOR\n2 1 78942 77406 126452 XOR\n2 1 76127 126484 48076 XOR\n2 1 82015 126484 48075 XOR\n2 1 48075 48076 48074 AND\n",
"2 1 48074 126484 126485 XOR\n2 1 82016 126485 48078 XOR\n2 1 76128 126485 48079 XOR\n2 1 48078 48079 48077 AND\n2 1 48077 126485 126486 XOR\n2 1 76129 126486 48082 XOR\n2 1 126516 126485 77408 XOR\n2 1 78944 77408 126454 XOR\n2 1 82017 126486 48081 XOR\n2 1 48081 48082 48080 AND\n2 1 48080 126486 126487 XOR\n2 1 126518 126487 77410 XOR\n2 1 82018 126487 48084 XOR\n2 1 76130 126487 48085 XOR\n2 1 48084 48085 48083 AND\n2 1 78946 77410 126456 XOR\n2 1 48083 126487 126488 XOR\n2 1 126519 126488 77411 XOR\n2 1 78947 77411 126457 XOR\n2 1 76131 126488 48088 XOR\n2 1 126517 126486 77409 XOR\n2 1 78945 77409 126455 XOR\n2 1 82019 126488 48087 XOR\n2 1 48087 48088 48086 AND\n2 1 48086 126488 126489 XOR\n2 1 76132 126489 48091 XOR\n2 1 126520 126489 77412 XOR\n2 1 78948 77412 126458 XOR\n2 1 82020 126489 48090 XOR\n2 1 48090 48091 48089 AND\n2 1 48089 126489 126490 XOR\n2 1 82021 126490 48093 XOR\n2 1 76133 126490 48094 XOR\n2 1 126521 126490 77413 XOR\n2 1 78949 77413 126459 XOR\n2 1 48093 48094 48092 AND\n2 1 48092 126490 126491 XOR\n2 1 82022 126491 48096 XOR\n2 1 76134 126491 48097 XOR\n2 1 48096 48097 48095 AND\n2 1 48095 126491 126492 XOR\n2 1 82023 126492 48099 XOR\n2 1 126523 126492 77415 XOR\n2 1 78951 77415 126461 XOR\n2 1 76135 126492 48100 XOR\n2 1 48099 48100 48098 AND\n2 1 48098 126492 126493 XOR\n2 1 126524 126493 77416 XOR\n2 1 82024 126493 48102 XOR\n2 1 76136 126493 48103 XOR\n2 1 48102 48103 48101 AND\n2 1 48101 126493 126494 XOR\n2 1 126525 126494 77417 XOR\n2 1 78952 77416 126462 XOR\n2 1 78953 77417 126463 XOR\n2 1 126522 126491 77414 XOR\n2 1 78950 77414 126460 XOR\n2 1 76137 126494 48106 XOR\n2 1 82025 126494 48105 XOR\n2 1 48105 48106 48104 AND\n2 1 48104 126494 126495 XOR\n2 1 76138 126495 48109 XOR\n2 1 82026 126495 48108 XOR\n2 1 48108 48109 48107 AND\n2 1 126526 126495 77418 XOR\n2 1 78954 77418 126464 XOR\n2 1 48107 126495 126496 XOR\n2 1 126527 126496 77419 XOR\n2 1 82027 126496 48111 XOR\n2 1 78955 77419 126465 XOR\n2 1 76139 126496 48112 XOR\n2 1 48111 48112 48110 AND\n2 1 48110 126496 126497 XOR\n2 1 76140 126497 48115 XOR\n2 1 126528 126497 77420 XOR\n2 1 78956 77420 126466 XOR\n2 1 82028 126497 48114 XOR\n2 1 48114 48115 48113 AND\n2 1 48113 126497 126498 XOR\n2 1 76141 126498 48118 XOR\n2 1 126529 126498 77421 XOR\n2 1 78957 77421 126467 XOR\n2 1 82029 126498 48117 XOR\n2 1 48117 48118 48116 AND\n2 1 48116 126498 126499 XOR\n2 1 82030 126499 48120 XOR\n2 1 126530 126499 77422 XOR\n2 1 78958 77422 126468 XOR\n2 1 76142 126499 48121 XOR\n2 1 48120 48121 48119 AND\n2 1 48119 126499 126500 XOR\n2 1 126531 126500 77423 XOR\n2 1 76143 126500 48124 XOR\n2 1 82031 126500 48123 XOR\n2 1 48123 48124 48122 AND\n2 1 48122 126500 126501 XOR\n2 1 78959 77423 126469 XOR\n2 1 126532 126501 77424 XOR\n2 1 78960 77424 126470 XOR\n2 1 126504 126473 77396 XOR\n2 1 78932 77396 126442 XOR\n2 1 77396 126411 47953 XOR\n2 1 47952 47953 47951 AND\n2 1 47951 126411 126412 XOR\n2 1 77397 126412 47956 XOR\n2 1 78933 126412 47955 XOR\n2 1 126443 126412 75605 XOR\n2 1 126442 126411 75604 XOR\n2 1 47955 47956 47954 AND\n2 1 47954 126412 126413 XOR\n2 1 78934 126413 47958 XOR\n2 1 126444 126413 75606 XOR\n2 1 77398 126413 47959 XOR\n2 1 47958 47959 47957 AND\n2 1 47957 126413 126414 XOR\n2 1 78935 126414 47961 XOR\n2 1 77399 126414 47962 XOR\n2 1 126445 126414 75607 XOR\n2 1 47961 47962 47960 AND\n2 1 47960 126414 126415 XOR\n2 1 126446 126415 75608 XOR\n2 1 77400 126415 47965 XOR\n2 1 78936 126415 47964 XOR\n2 1 47964 47965 47963 AND\n2 1 47963 126415 126416 XOR\n2 1 126447 126416 75609 XOR\n2 1 77401 126416 47968 XOR\n2 1 78937 126416 47967 XOR\n",
"2 1 47967 47968 47966 AND\n2 1 47966 126416 126417 XOR\n2 1 126448 126417 75610 XOR\n2 1 78938 126417 47970 XOR\n2 1 77402 126417 47971 XOR\n2 1 47970 47971 47969 AND\n2 1 47969 126417 126418 XOR\n2 1 126449 126418 75611 XOR\n2 1 77403 126418 47974 XOR\n2 1 78939 126418 47973 XOR\n2 1 47973 47974 47972 AND\n2 1 47972 126418 126419 XOR\n2 1 126450 126419 75612 XOR\n2 1 77404 126419 47977 XOR\n2 1 78940 126419 47976 XOR\n2 1 47976 47977 47975 AND\n2 1 47975 126419 126420 XOR\n2 1 126451 126420 75613 XOR\n2 1 77405 126420 47980 XOR\n2 1 78941 126420 47979 XOR\n2 1 47979 47980 47978 AND\n2 1 47978 126420 126421 XOR\n2 1 78942 126421 47982 XOR\n2 1 126452 126421 75614 XOR\n2 1 77406 126421 47983 XOR\n2 1 47982 47983 47981 AND\n2 1 47981 126421 126422 XOR\n2 1 77407 126422 47986 XOR\n2 1 78943 126422 47985 XOR\n2 1 47985 47986 47984 AND\n2 1 47984 126422 126423 XOR\n2 1 126454 126423 75616 XOR\n2 1 77408 126423 47989 XOR\n2 1 78944 126423 47988 XOR\n2 1 47988 47989 47987 AND\n2 1 47987 126423 126424 XOR\n2 1 78945 126424 47991 XOR\n2 1 77409 126424 47992 XOR\n2 1 47991 47992 47990 AND\n2 1 47990 126424 126425 XOR\n2 1 126456 126425 75618 XOR\n2 1 78946 126425 47994 XOR\n2 1 77410 126425 47995 XOR\n2 1 47994 47995 47993 AND\n2 1 47993 126425 126426 XOR\n2 1 126457 126426 75619 XOR\n2 1 78947 126426 47997 XOR\n2 1 77411 126426 47998 XOR\n2 1 47997 47998 47996 AND\n2 1 47996 126426 126427 XOR\n2 1 126458 126427 75620 XOR\n2 1 78948 126427 48000 XOR\n2 1 126455 126424 75617 XOR\n2 1 77412 126427 48001 XOR\n2 1 48000 48001 47999 AND\n2 1 47999 126427 126428 XOR\n2 1 126459 126428 75621 XOR\n2 1 78949 126428 48003 XOR\n2 1 77413 126428 48004 XOR\n2 1 48003 48004 48002 AND\n2 1 48002 126428 126429 XOR\n2 1 126460 126429 75622 XOR\n2 1 78950 126429 48006 XOR\n2 1 77414 126429 48007 XOR\n2 1 48006 48007 48005 AND\n2 1 48005 126429 126430 XOR\n2 1 126461 126430 75623 XOR\n2 1 78951 126430 48009 XOR\n2 1 77415 126430 48010 XOR\n2 1 48009 48010 48008 AND\n2 1 48008 126430 126431 XOR\n2 1 126462 126431 75624 XOR\n2 1 78952 126431 48012 XOR\n2 1 77416 126431 48013 XOR\n2 1 48012 48013 48011 AND\n2 1 48011 126431 126432 XOR\n2 1 126463 126432 75625 XOR\n2 1 78953 126432 48015 XOR\n2 1 77417 126432 48016 XOR\n2 1 48015 48016 48014 AND\n2 1 48014 126432 126433 XOR\n2 1 126464 126433 75626 XOR\n2 1 78954 126433 48018 XOR\n2 1 77418 126433 48019 XOR\n2 1 48018 48019 48017 AND\n2 1 48017 126433 126434 XOR\n2 1 126465 126434 75627 XOR\n2 1 78955 126434 48021 XOR\n2 1 77419 126434 48022 XOR\n2 1 48021 48022 48020 AND\n2 1 48020 126434 126435 XOR\n2 1 126466 126435 75628 XOR\n2 1 77420 126435 48025 XOR\n2 1 78956 126435 48024 XOR\n2 1 48024 48025 48023 AND\n2 1 48023 126435 126436 XOR\n2 1 126467 126436 75629 XOR\n2 1 78957 126436 48027 XOR\n2 1 126453 126422 75615 XOR\n2 1 77421 126436 48028 XOR\n2 1 48027 48028 48026 AND\n2 1 48026 126436 126437 XOR\n2 1 78958 126437 48030 XOR\n2 1 126468 126437 75630 XOR\n2 1 77422 126437 48031 XOR\n2 1 48030 48031 48029 AND\n2 1 48029 126437 126438 XOR\n2 1 126469 126438 75631 XOR\n2 1 78959 126438 48033 XOR\n2 1 77423 126438 48034 XOR\n2 1 48033 48034 48032 AND\n2 1 48032 126438 126439 XOR\n2 1 126470 126439 75632 XOR\n2 1 87907 85859 112306 XOR\n2 1 87909 85861 112308 XOR\n2 1 87911 85863 112310 XOR\n2 1 87913 85865 112312 XOR\n2 1 87915 85867 112314 XOR\n2 1 87917 85869 112316 XOR\n2 1 87919 85871 112318 XOR\n2 1 112289 112258 83794 XOR\n2 1 83794 103460 9308 XOR\n2 1 85842 112258 22765 XOR\n2 1 22764 22765 22763 AND\n2 1 22763 112258 112259 XOR\n2 1 112290 112259 83795 XOR\n2 1 87891 112259 22767 XOR\n2 1 85843 112259 22768 XOR\n",
"2 1 22767 22768 22766 AND\n2 1 22766 112259 112260 XOR\n2 1 112291 112260 83796 XOR\n2 1 87892 112260 22770 XOR\n2 1 85844 112260 22771 XOR\n2 1 22770 22771 22769 AND\n2 1 22769 112260 112261 XOR\n2 1 112292 112261 83797 XOR\n2 1 87893 112261 22773 XOR\n2 1 85845 112261 22774 XOR\n2 1 22773 22774 22772 AND\n2 1 22772 112261 112262 XOR\n2 1 112293 112262 83798 XOR\n2 1 87894 112262 22776 XOR\n2 1 85846 112262 22777 XOR\n2 1 22776 22777 22775 AND\n2 1 22775 112262 112263 XOR\n2 1 85847 112263 22780 XOR\n2 1 112294 112263 83799 XOR\n2 1 87895 112263 22779 XOR\n2 1 22779 22780 22778 AND\n2 1 22778 112263 112264 XOR\n2 1 87896 112264 22782 XOR\n2 1 112295 112264 83800 XOR\n2 1 85848 112264 22783 XOR\n2 1 22782 22783 22781 AND\n2 1 22781 112264 112265 XOR\n2 1 85849 112265 22786 XOR\n2 1 112296 112265 83801 XOR\n2 1 87897 112265 22785 XOR\n2 1 22785 22786 22784 AND\n2 1 22784 112265 112266 XOR\n2 1 87898 112266 22788 XOR\n2 1 112297 112266 83802 XOR\n2 1 85850 112266 22789 XOR\n2 1 22788 22789 22787 AND\n2 1 22787 112266 112267 XOR\n2 1 112298 112267 83803 XOR\n2 1 85851 112267 22792 XOR\n2 1 87899 112267 22791 XOR\n2 1 22791 22792 22790 AND\n2 1 22790 112267 112268 XOR\n2 1 87900 112268 22794 XOR\n2 1 112299 112268 83804 XOR\n2 1 85852 112268 22795 XOR\n2 1 22794 22795 22793 AND\n2 1 22793 112268 112269 XOR\n2 1 112300 112269 83805 XOR\n2 1 85853 112269 22798 XOR\n2 1 87901 112269 22797 XOR\n2 1 22797 22798 22796 AND\n2 1 22796 112269 112270 XOR\n2 1 87902 112270 22800 XOR\n2 1 112301 112270 83806 XOR\n2 1 85854 112270 22801 XOR\n2 1 22800 22801 22799 AND\n2 1 22799 112270 112271 XOR\n2 1 112302 112271 83807 XOR\n2 1 85855 112271 22804 XOR\n2 1 87903 112271 22803 XOR\n2 1 22803 22804 22802 AND\n2 1 22802 112271 112272 XOR\n2 1 85856 112272 22807 XOR\n2 1 87904 112272 22806 XOR\n2 1 22806 22807 22805 AND\n2 1 22805 112272 112273 XOR\n2 1 85857 112273 22810 XOR\n2 1 87905 112273 22809 XOR\n2 1 22809 22810 22808 AND\n2 1 22808 112273 112274 XOR\n2 1 85858 112274 22813 XOR\n2 1 87906 112274 22812 XOR\n2 1 22812 22813 22811 AND\n2 1 22811 112274 112275 XOR\n2 1 112306 112275 83811 XOR\n2 1 85859 112275 22816 XOR\n2 1 87907 112275 22815 XOR\n2 1 22815 22816 22814 AND\n2 1 22814 112275 112276 XOR\n2 1 112307 112276 83812 XOR\n2 1 85860 112276 22819 XOR\n2 1 87908 112276 22818 XOR\n2 1 22818 22819 22817 AND\n2 1 22817 112276 112277 XOR\n2 1 112308 112277 83813 XOR\n2 1 85861 112277 22822 XOR\n2 1 112305 112274 83810 XOR\n2 1 112304 112273 83809 XOR\n2 1 87909 112277 22821 XOR\n2 1 22821 22822 22820 AND\n2 1 22820 112277 112278 XOR\n2 1 85862 112278 22825 XOR\n2 1 112309 112278 83814 XOR\n2 1 87910 112278 22824 XOR\n2 1 22824 22825 22823 AND\n2 1 22823 112278 112279 XOR\n2 1 87911 112279 22827 XOR\n2 1 112310 112279 83815 XOR\n2 1 85863 112279 22828 XOR\n2 1 22827 22828 22826 AND\n2 1 22826 112279 112280 XOR\n2 1 87912 112280 22830 XOR\n2 1 85864 112280 22831 XOR\n2 1 112311 112280 83816 XOR\n2 1 22830 22831 22829 AND\n2 1 22829 112280 112281 XOR\n2 1 85865 112281 22834 XOR\n2 1 87913 112281 22833 XOR\n2 1 22833 22834 22832 AND\n2 1 22832 112281 112282 XOR\n2 1 112313 112282 83818 XOR\n2 1 85866 112282 22837 XOR\n2 1 87914 112282 22836 XOR\n2 1 22836 22837 22835 AND\n2 1 112312 112281 83817 XOR\n2 1 22835 112282 112283 XOR\n2 1 85867 112283 22840 XOR\n2 1 112314 112283 83819 XOR\n2 1 87915 112283 22839 XOR\n2 1 22839 22840 22838 AND\n2 1 22838 112283 112284 XOR\n2 1 85868 112284 22843 XOR\n2 1 87916 112284 22842 XOR\n2 1 112315 112284 83820 XOR\n2 1 22842 22843 22841 AND\n2 1 22841 112284 112285 XOR\n2 1 112316 112285 83821 XOR\n2 1 87917 112285 22845 XOR\n",
"2 1 85869 112285 22846 XOR\n2 1 22845 22846 22844 AND\n2 1 22844 112285 112286 XOR\n2 1 87918 112286 22848 XOR\n2 1 112317 112286 83822 XOR\n2 1 85870 112286 22849 XOR\n2 1 22848 22849 22847 AND\n2 1 22847 112286 112287 XOR\n2 1 87919 112287 22851 XOR\n2 1 85871 112287 22852 XOR\n2 1 112318 112287 83823 XOR\n2 1 22851 22852 22850 AND\n2 1 22850 112287 112288 XOR\n2 1 112319 112288 83824 XOR\n2 1 112303 112272 83808 XOR\n2 1 96022 93974 112320 AND\n2 1 96023 112320 22967 XOR\n2 1 93975 112320 22968 XOR\n2 1 22967 22968 22966 AND\n2 1 22966 112320 112321 XOR\n2 1 96024 112321 22970 XOR\n2 1 93976 112321 22971 XOR\n2 1 22970 22971 22969 AND\n2 1 22969 112321 112322 XOR\n2 1 96025 112322 22973 XOR\n2 1 112352 112321 91976 XOR\n2 1 93977 112322 22974 XOR\n2 1 22973 22974 22972 AND\n2 1 22972 112322 112323 XOR\n2 1 96026 112323 22976 XOR\n2 1 93978 112323 22977 XOR\n2 1 22976 22977 22975 AND\n2 1 22975 112323 112324 XOR\n2 1 96027 112324 22979 XOR\n2 1 93979 112324 22980 XOR\n2 1 22979 22980 22978 AND\n2 1 22978 112324 112325 XOR\n2 1 112356 112325 91980 XOR\n1 1 91980 22951 INV\n2 1 96028 112325 22982 XOR\n2 1 112354 112323 91978 XOR\n1 1 91978 22949 INV\n2 1 93980 112325 22983 XOR\n2 1 22982 22983 22981 AND\n2 1 22981 112325 112326 XOR\n2 1 93981 112326 22986 XOR\n2 1 112357 112326 91981 XOR\n1 1 91981 22952 INV\n2 1 96029 112326 22985 XOR\n2 1 22985 22986 22984 AND\n2 1 22984 112326 112327 XOR\n2 1 112358 112327 91982 XOR\n1 1 91982 22953 INV\n2 1 96030 112327 22988 XOR\n2 1 93982 112327 22989 XOR\n2 1 22988 22989 22987 AND\n2 1 22987 112327 112328 XOR\n2 1 96031 112328 22991 XOR\n2 1 112359 112328 91983 XOR\n1 1 91983 22954 INV\n2 1 93983 112328 22992 XOR\n2 1 22991 22992 22990 AND\n2 1 22990 112328 112329 XOR\n2 1 93984 112329 22995 XOR\n2 1 96032 112329 22994 XOR\n2 1 22994 22995 22993 AND\n2 1 112360 112329 91984 XOR\n1 1 91984 22955 INV\n2 1 22993 112329 112330 XOR\n2 1 112361 112330 91985 XOR\n1 1 91985 22956 INV\n2 1 96033 112330 22997 XOR\n2 1 93985 112330 22998 XOR\n2 1 22997 22998 22996 AND\n2 1 22996 112330 112331 XOR\n2 1 96034 112331 23000 XOR\n2 1 93986 112331 23001 XOR\n2 1 112362 112331 91986 XOR\n2 1 23000 23001 22999 AND\n2 1 22999 112331 112332 XOR\n2 1 93987 112332 23004 XOR\n2 1 96035 112332 23003 XOR\n2 1 112363 112332 91987 XOR\n1 1 91987 22957 INV\n2 1 23003 23004 23002 AND\n2 1 23002 112332 112333 XOR\n2 1 112364 112333 91988 XOR\n1 1 91988 22958 INV\n2 1 93988 112333 23007 XOR\n2 1 96036 112333 23006 XOR\n2 1 23006 23007 23005 AND\n2 1 23005 112333 112334 XOR\n2 1 96037 112334 23009 XOR\n2 1 112365 112334 91989 XOR\n2 1 93989 112334 23010 XOR\n2 1 23009 23010 23008 AND\n2 1 23008 112334 112335 XOR\n2 1 93990 112335 23013 XOR\n2 1 96038 112335 23012 XOR\n2 1 23012 23013 23011 AND\n2 1 23011 112335 112336 XOR\n2 1 93991 112336 23016 XOR\n2 1 112367 112336 91991 XOR\n1 1 91991 22959 INV\n2 1 112366 112335 91990 XOR\n2 1 96039 112336 23015 XOR\n2 1 23015 23016 23014 AND\n2 1 23014 112336 112337 XOR\n2 1 112368 112337 91992 XOR\n2 1 96040 112337 23018 XOR\n2 1 93992 112337 23019 XOR\n1 1 91992 22960 INV\n2 1 23018 23019 23017 AND\n2 1 23017 112337 112338 XOR\n2 1 93993 112338 23022 XOR\n2 1 112369 112338 91993 XOR\n1 1 91993 22961 INV\n2 1 96041 112338 23021 XOR\n2 1 23021 23022 23020 AND\n2 1 23020 112338 112339 XOR\n2 1 93994 112339 23025 XOR\n2 1 96042 112339 23024 XOR\n2 1 112370 112339 91994 XOR\n2 1 23024 23025 23023 AND\n2 1 23023 112339 112340 XOR\n2 1 112371 112340 91995 XOR\n2 1 93995 112340 23028 XOR\n1 1 91995 22962 INV\n",
"2 1 96043 112340 23027 XOR\n2 1 23027 23028 23026 AND\n2 1 23026 112340 112341 XOR\n2 1 93996 112341 23031 XOR\n2 1 96044 112341 23030 XOR\n2 1 23030 23031 23029 AND\n2 1 23029 112341 112342 XOR\n2 1 96045 112342 23033 XOR\n2 1 112373 112342 91997 XOR\n2 1 112372 112341 91996 XOR\n2 1 93997 112342 23034 XOR\n2 1 23033 23034 23032 AND\n2 1 23032 112342 112343 XOR\n2 1 112374 112343 91998 XOR\n2 1 93998 112343 23037 XOR\n2 1 96046 112343 23036 XOR\n2 1 23036 23037 23035 AND\n2 1 23035 112343 112344 XOR\n2 1 96047 112344 23039 XOR\n2 1 93999 112344 23040 XOR\n2 1 23039 23040 23038 AND\n2 1 112375 112344 91999 XOR\n2 1 23038 112344 112345 XOR\n2 1 96048 112345 23042 XOR\n2 1 112376 112345 92000 XOR\n2 1 94000 112345 23043 XOR\n2 1 23042 23043 23041 AND\n2 1 23041 112345 112346 XOR\n2 1 112377 112346 92001 XOR\n1 1 92001 22963 INV\n2 1 96049 112346 23045 XOR\n2 1 94001 112346 23046 XOR\n2 1 23045 23046 23044 AND\n2 1 23044 112346 112347 XOR\n2 1 94002 112347 23049 XOR\n2 1 96050 112347 23048 XOR\n2 1 23048 23049 23047 AND\n2 1 23047 112347 112348 XOR\n2 1 94003 112348 23052 XOR\n2 1 96051 112348 23051 XOR\n2 1 112379 112348 92003 XOR\n1 1 92003 22964 INV\n2 1 23051 23052 23050 AND\n2 1 23050 112348 112349 XOR\n2 1 112380 112349 92004 XOR\n2 1 96052 112349 23054 XOR\n2 1 94004 112349 23055 XOR\n2 1 23054 23055 23053 AND\n2 1 23053 112349 112350 XOR\n2 1 112381 112350 92005 XOR\n1 1 92004 22965 INV\n2 1 112378 112347 92002 XOR\n2 1 96023 93975 112351 XOR\n2 1 112351 112320 91975 XOR\n1 1 91975 22948 INV\n2 1 91975 91974 22854 XOR\n2 1 22854 89937 22853 AND\n2 1 22853 91974 22856 XOR\n2 1 91976 22856 89939 XOR\n2 1 89939 83795 103492 XOR\n2 1 1026 89939 103430 XOR\n2 1 89939 22856 22855 AND\n2 1 22855 22856 22858 XOR\n2 1 22948 91974 89938 XOR\n2 1 89938 103460 9307 XOR\n2 1 89938 103398 9218 XOR\n2 1 9217 9218 9216 AND\n2 1 9216 103398 103399 XOR\n2 1 103430 103399 1346 XOR\n2 1 89939 103399 9221 XOR\n2 1 63313 1346 63281 AND\n2 1 63281 1410 98040 XOR\n2 1 1346 1378 63249 XOR\n2 1 89938 83794 103491 XOR\n2 1 75731 1346 111412 XOR\n2 1 1026 103399 9220 XOR\n2 1 9220 9221 9219 AND\n2 1 9219 103399 103400 XOR\n2 1 1027 103400 9223 XOR\n2 1 1025 89938 103429 XOR\n2 1 103429 103398 1345 XOR\n2 1 75730 1345 111411 XOR\n2 1 63312 1345 63280 AND\n2 1 63280 1409 98039 XOR\n2 1 1345 1377 63248 XOR\n2 1 111411 111380 93847 XOR\n2 1 1345 111380 21216 XOR\n2 1 21215 21216 21214 AND\n2 1 21214 111380 111381 XOR\n2 1 1346 111381 21219 XOR\n2 1 111412 111381 93848 XOR\n2 1 75731 111381 21218 XOR\n2 1 21218 21219 21217 AND\n2 1 21217 111381 111382 XOR\n2 1 75732 111382 21221 XOR\n2 1 103491 103460 897 XOR\n2 1 897 961 69488 XOR\n2 1 69488 69456 69424 AND\n2 1 69424 961 85810 XOR\n2 1 897 929 69360 XOR\n2 1 9307 9308 9306 AND\n2 1 9306 103460 103461 XOR\n2 1 103492 103461 898 XOR\n2 1 89939 103461 9310 XOR\n2 1 898 962 69489 XOR\n2 1 69489 69457 69425 AND\n2 1 69425 962 85811 XOR\n2 1 898 930 69361 XOR\n2 1 83795 103461 9311 XOR\n2 1 9310 9311 9309 AND\n2 1 9309 103461 103462 XOR\n2 1 83796 103462 9314 XOR\n2 1 96025 93977 112353 XOR\n2 1 112353 112322 91977 XOR\n2 1 91977 22858 89940 XOR\n2 1 89940 103400 9224 XOR\n2 1 89940 83796 103493 XOR\n2 1 1027 89940 103431 XOR\n2 1 103431 103400 1347 XOR\n2 1 1347 1379 63250 XOR\n2 1 75732 1347 111413 XOR\n2 1 1347 111382 21222 XOR\n2 1 21221 21222 21220 AND\n2 1 111413 111382 93849 XOR\n2 1 21220 111382 111383 XOR\n2 1 75733 111383 21224 XOR\n2 1 63314 1347 63282 AND\n2 1 63282 1411 98041 XOR\n",
"2 1 89940 103462 9313 XOR\n2 1 9313 9314 9312 AND\n2 1 103493 103462 899 XOR\n2 1 9312 103462 103463 XOR\n2 1 89940 22858 22857 AND\n2 1 22857 22858 22930 XOR\n1 1 22930 22861 INV\n2 1 91978 22930 22860 XOR\n2 1 22860 22861 22859 AND\n2 1 22859 22930 22931 XOR\n1 1 22931 22864 INV\n2 1 22949 22930 89941 XOR\n2 1 89941 83797 103494 XOR\n2 1 103494 103463 900 XOR\n2 1 900 964 69491 XOR\n2 1 69491 69459 69427 AND\n2 1 69427 964 85813 XOR\n2 1 89941 103463 9316 XOR\n2 1 9223 9224 9222 AND\n2 1 9222 103400 103401 XOR\n2 1 1028 103401 9226 XOR\n2 1 89941 103401 9227 XOR\n2 1 9226 9227 9225 AND\n2 1 9225 103401 103402 XOR\n2 1 1029 103402 9229 XOR\n2 1 900 932 69363 XOR\n2 1 899 931 69362 XOR\n2 1 83797 103463 9317 XOR\n2 1 9316 9317 9315 AND\n2 1 9315 103463 103464 XOR\n2 1 83798 103464 9320 XOR\n2 1 1028 89941 103432 XOR\n2 1 103432 103401 1348 XOR\n2 1 63315 1348 63283 AND\n2 1 63283 1412 98042 XOR\n2 1 1348 1380 63251 XOR\n2 1 1348 111383 21225 XOR\n2 1 21224 21225 21223 AND\n2 1 21223 111383 111384 XOR\n2 1 75734 111384 21227 XOR\n2 1 75733 1348 111414 XOR\n2 1 111414 111383 93850 XOR\n2 1 899 963 69490 XOR\n2 1 69490 69458 69426 AND\n2 1 69426 963 85812 XOR\n2 1 96027 93979 112355 XOR\n2 1 112355 112324 91979 XOR\n2 1 91979 22931 22863 XOR\n2 1 22863 22864 22862 AND\n2 1 22862 22931 22932 XOR\n1 1 22932 22867 INV\n2 1 22951 22932 89943 XOR\n2 1 91980 22932 22866 XOR\n2 1 22866 22867 22865 AND\n2 1 22865 22932 22933 XOR\n2 1 22952 22933 89944 XOR\n2 1 1031 89944 103435 XOR\n2 1 91981 22933 22869 XOR\n2 1 89943 83799 103496 XOR\n2 1 1030 89943 103434 XOR\n1 1 22933 22870 INV\n2 1 22869 22870 22868 AND\n2 1 22868 22933 22934 XOR\n1 1 22934 22873 INV\n2 1 22953 22934 89945 XOR\n2 1 1032 89945 103436 XOR\n2 1 91982 22934 22872 XOR\n2 1 22872 22873 22871 AND\n2 1 22871 22934 22935 XOR\n1 1 22935 22876 INV\n2 1 22954 22935 89946 XOR\n2 1 1033 89946 103437 XOR\n2 1 91983 22935 22875 XOR\n2 1 22875 22876 22874 AND\n2 1 22874 22935 22936 XOR\n2 1 91984 22936 22878 XOR\n1 1 22936 22879 INV\n2 1 89946 83802 103499 XOR\n2 1 89945 83801 103498 XOR\n1 1 91979 22950 INV\n2 1 22950 22931 89942 XOR\n2 1 89942 103402 9230 XOR\n2 1 9229 9230 9228 AND\n2 1 9228 103402 103403 XOR\n2 1 103434 103403 1350 XOR\n2 1 63317 1350 63285 AND\n2 1 63285 1414 98044 XOR\n2 1 1350 1382 63253 XOR\n2 1 1030 103403 9232 XOR\n2 1 89943 103403 9233 XOR\n2 1 9232 9233 9231 AND\n2 1 9231 103403 103404 XOR\n2 1 103435 103404 1351 XOR\n2 1 75736 1351 111417 XOR\n2 1 63318 1351 63286 AND\n2 1 63286 1415 98045 XOR\n2 1 1351 1383 63254 XOR\n2 1 1031 103404 9235 XOR\n2 1 89944 103404 9236 XOR\n2 1 9235 9236 9234 AND\n2 1 9234 103404 103405 XOR\n2 1 103436 103405 1352 XOR\n2 1 63319 1352 63287 AND\n2 1 63287 1416 98046 XOR\n2 1 1352 1384 63255 XOR\n2 1 1032 103405 9238 XOR\n2 1 89945 103405 9239 XOR\n2 1 9238 9239 9237 AND\n2 1 9237 103405 103406 XOR\n2 1 103437 103406 1353 XOR\n2 1 63320 1353 63288 AND\n2 1 63288 1417 98047 XOR\n2 1 1353 1385 63256 XOR\n2 1 1033 103406 9241 XOR\n2 1 89946 103406 9242 XOR\n2 1 9241 9242 9240 AND\n2 1 9240 103406 103407 XOR\n2 1 1034 103407 9244 XOR\n2 1 89942 103464 9319 XOR\n2 1 75738 1353 111419 XOR\n2 1 89942 83798 103495 XOR\n2 1 1029 89942 103433 XOR\n2 1 103433 103402 1349 XOR\n2 1 1349 111384 21228 XOR\n2 1 63316 1349 63284 AND\n2 1 63284 1413 98043 XOR\n2 1 1349 1381 63252 XOR\n2 1 21227 21228 21226 AND\n",
"2 1 75734 1349 111415 XOR\n2 1 111415 111384 93851 XOR\n2 1 21226 111384 111385 XOR\n2 1 75735 111385 21230 XOR\n2 1 1350 111385 21231 XOR\n2 1 1348 1353 61069 XOR\n2 1 1347 1352 61068 XOR\n2 1 1346 1351 61067 XOR\n2 1 1345 1350 61066 XOR\n2 1 1344 1349 61065 XOR\n2 1 21230 21231 21229 AND\n2 1 21229 111385 111386 XOR\n2 1 111417 111386 93853 XOR\n2 1 1351 111386 21234 XOR\n2 1 9319 9320 9318 AND\n2 1 9318 103464 103465 XOR\n2 1 103496 103465 902 XOR\n2 1 83799 103465 9323 XOR\n2 1 902 966 69493 XOR\n2 1 69493 69461 69429 AND\n2 1 902 934 69365 XOR\n2 1 75735 1350 111416 XOR\n2 1 111416 111385 93852 XOR\n2 1 75737 1352 111418 XOR\n2 1 103495 103464 901 XOR\n2 1 901 965 69492 XOR\n2 1 69492 69460 69428 AND\n2 1 69428 965 85814 XOR\n2 1 901 933 69364 XOR\n2 1 69429 966 85815 XOR\n2 1 89944 83800 103497 XOR\n2 1 89943 103465 9322 XOR\n2 1 9322 9323 9321 AND\n2 1 9321 103465 103466 XOR\n2 1 83800 103466 9326 XOR\n2 1 103497 103466 903 XOR\n2 1 903 967 69494 XOR\n2 1 69494 69462 69430 AND\n2 1 69430 967 85816 XOR\n2 1 903 935 69366 XOR\n2 1 89944 103466 9325 XOR\n2 1 9325 9326 9324 AND\n2 1 9324 103466 103467 XOR\n2 1 89945 103467 9328 XOR\n2 1 83801 103467 9329 XOR\n2 1 9328 9329 9327 AND\n2 1 9327 103467 103468 XOR\n2 1 103499 103468 905 XOR\n2 1 905 937 69368 XOR\n2 1 905 969 69496 XOR\n2 1 69496 69464 69432 AND\n2 1 69432 969 85818 XOR\n2 1 83802 103468 9332 XOR\n2 1 89946 103468 9331 XOR\n2 1 9331 9332 9330 AND\n2 1 9330 103468 103469 XOR\n2 1 83803 103469 9335 XOR\n2 1 103498 103467 904 XOR\n2 1 904 968 69495 XOR\n2 1 69495 69463 69431 AND\n2 1 69431 968 85817 XOR\n2 1 904 936 69367 XOR\n2 1 75736 111386 21233 XOR\n2 1 21233 21234 21232 AND\n2 1 21232 111386 111387 XOR\n2 1 75737 111387 21236 XOR\n2 1 111418 111387 93854 XOR\n2 1 1352 111387 21237 XOR\n2 1 21236 21237 21235 AND\n2 1 21235 111387 111388 XOR\n2 1 75738 111388 21239 XOR\n2 1 111419 111388 93855 XOR\n2 1 1353 111388 21240 XOR\n2 1 21239 21240 21238 AND\n2 1 21238 111388 111389 XOR\n2 1 75739 111389 21242 XOR\n2 1 22955 22936 89947 XOR\n2 1 89947 83803 103500 XOR\n2 1 89947 103407 9245 XOR\n2 1 9244 9245 9243 AND\n2 1 9243 103407 103408 XOR\n2 1 1035 103408 9247 XOR\n2 1 103500 103469 906 XOR\n2 1 906 970 69497 XOR\n2 1 69497 69465 69433 AND\n2 1 69433 970 85819 XOR\n2 1 906 938 69369 XOR\n2 1 89947 103469 9334 XOR\n2 1 9334 9335 9333 AND\n2 1 9333 103469 103470 XOR\n2 1 83804 103470 9338 XOR\n2 1 1034 89947 103438 XOR\n2 1 103438 103407 1354 XOR\n2 1 63321 1354 63289 AND\n2 1 63289 1418 98048 XOR\n2 1 1354 1386 63257 XOR\n2 1 1349 1354 61070 XOR\n2 1 1354 111389 21243 XOR\n2 1 21242 21243 21241 AND\n2 1 21241 111389 111390 XOR\n2 1 75740 111390 21245 XOR\n2 1 75739 1354 111420 XOR\n2 1 111420 111389 93856 XOR\n2 1 22878 22879 22877 AND\n2 1 22877 22936 22937 XOR\n1 1 22937 22882 INV\n2 1 22956 22937 89948 XOR\n2 1 1035 89948 103439 XOR\n2 1 103439 103408 1355 XOR\n2 1 1355 111390 21246 XOR\n2 1 75740 1355 111421 XOR\n2 1 63322 1355 63290 AND\n2 1 63290 1419 98049 XOR\n2 1 1355 1387 63258 XOR\n2 1 89948 103470 9337 XOR\n2 1 9337 9338 9336 AND\n2 1 111421 111390 93857 XOR\n2 1 21245 21246 21244 AND\n2 1 21244 111390 111391 XOR\n2 1 1350 1355 61039 XOR\n2 1 75741 111391 21248 XOR\n2 1 9336 103470 103471 XOR\n2 1 83805 103471 9341 XOR\n2 1 89948 83804 103501 XOR\n2 1 103501 103470 907 XOR\n2 1 907 971 69498 XOR\n2 1 69498 69466 69434 AND\n2 1 69434 971 85820 XOR\n",
"2 1 89948 103408 9248 XOR\n2 1 9247 9248 9246 AND\n2 1 9246 103408 103409 XOR\n2 1 1036 103409 9250 XOR\n2 1 896 907 66989 XOR\n2 1 907 939 69370 XOR\n2 1 91985 22937 22881 XOR\n2 1 22881 22882 22880 AND\n2 1 22880 22937 22884 XOR\n2 1 91986 22884 89949 XOR\n2 1 89949 103409 9251 XOR\n2 1 9250 9251 9249 AND\n2 1 1036 89949 103440 XOR\n2 1 103440 103409 1356 XOR\n2 1 75741 1356 111422 XOR\n2 1 111422 111391 93858 XOR\n2 1 63323 1356 63291 AND\n2 1 63291 1420 98050 XOR\n2 1 1356 1388 63259 XOR\n2 1 1356 111391 21249 XOR\n2 1 21248 21249 21247 AND\n2 1 21247 111391 111392 XOR\n2 1 75742 111392 21251 XOR\n2 1 1351 1356 61040 XOR\n2 1 9249 103409 103410 XOR\n2 1 1037 103410 9253 XOR\n2 1 89949 83805 103502 XOR\n2 1 103502 103471 908 XOR\n2 1 908 972 69499 XOR\n2 1 69499 69467 69435 AND\n2 1 908 940 69371 XOR\n2 1 69435 972 85821 XOR\n2 1 897 908 66990 XOR\n2 1 89949 103471 9340 XOR\n2 1 9340 9341 9339 AND\n2 1 9339 103471 103472 XOR\n2 1 83806 103472 9344 XOR\n2 1 89949 22884 22883 AND\n2 1 22883 22884 22938 XOR\n1 1 22938 22887 INV\n2 1 22957 22938 89950 XOR\n2 1 89950 83806 103503 XOR\n2 1 89950 103410 9254 XOR\n2 1 9253 9254 9252 AND\n2 1 9252 103410 103411 XOR\n2 1 1038 103411 9256 XOR\n2 1 1037 89950 103441 XOR\n2 1 103441 103410 1357 XOR\n2 1 1357 111392 21252 XOR\n2 1 63324 1357 63292 AND\n2 1 63292 1421 98051 XOR\n2 1 1357 1389 63260 XOR\n2 1 21251 21252 21250 AND\n2 1 1352 1357 61041 XOR\n2 1 21250 111392 111393 XOR\n2 1 75743 111393 21254 XOR\n2 1 89950 103472 9343 XOR\n2 1 9343 9344 9342 AND\n2 1 9342 103472 103473 XOR\n2 1 83807 103473 9347 XOR\n2 1 75742 1357 111423 XOR\n2 1 111423 111392 93859 XOR\n2 1 103503 103472 909 XOR\n2 1 909 973 69500 XOR\n2 1 898 909 66959 XOR\n2 1 909 941 69372 XOR\n2 1 69500 69468 69436 AND\n2 1 69436 973 85822 XOR\n2 1 91987 22938 22886 XOR\n2 1 22886 22887 22885 AND\n2 1 22885 22938 22939 XOR\n1 1 22939 22890 INV\n2 1 22958 22939 89951 XOR\n2 1 89951 103473 9346 XOR\n2 1 9346 9347 9345 AND\n2 1 89951 83807 103504 XOR\n2 1 1038 89951 103442 XOR\n2 1 103442 103411 1358 XOR\n2 1 63325 1358 63293 AND\n2 1 63293 1422 98052 XOR\n2 1 1358 1390 63261 XOR\n2 1 89951 103411 9257 XOR\n2 1 9256 9257 9255 AND\n2 1 9255 103411 103412 XOR\n2 1 1039 103412 9259 XOR\n2 1 103504 103473 910 XOR\n2 1 899 910 66960 XOR\n2 1 910 942 69373 XOR\n2 1 9345 103473 103474 XOR\n2 1 910 974 69501 XOR\n2 1 69501 69469 69437 AND\n2 1 69437 974 85823 XOR\n2 1 83808 103474 9350 XOR\n2 1 1353 1358 61042 XOR\n2 1 75743 1358 111424 XOR\n2 1 111424 111393 93860 XOR\n2 1 1358 111393 21255 XOR\n2 1 21254 21255 21253 AND\n2 1 21253 111393 111394 XOR\n2 1 75744 111394 21257 XOR\n2 1 91988 22939 22889 XOR\n2 1 22889 22890 22888 AND\n2 1 22888 22939 22892 XOR\n2 1 91989 22892 89952 XOR\n2 1 89952 83808 103505 XOR\n2 1 103505 103474 911 XOR\n2 1 911 975 69502 XOR\n2 1 911 943 69374 XOR\n2 1 1039 89952 103443 XOR\n2 1 103443 103412 1359 XOR\n2 1 1359 111394 21258 XOR\n2 1 21257 21258 21256 AND\n2 1 75744 1359 111425 XOR\n2 1 63326 1359 63294 AND\n2 1 63294 1423 98053 XOR\n2 1 1359 1391 63262 XOR\n2 1 1354 1359 61043 XOR\n2 1 21256 111394 111395 XOR\n2 1 111425 111394 93861 XOR\n2 1 75745 111395 21260 XOR\n2 1 900 911 66961 XOR\n2 1 69502 69470 69438 AND\n2 1 69438 975 85824 XOR\n2 1 89952 103412 9260 XOR\n2 1 9259 9260 9258 AND\n2 1 9258 103412 103413 XOR\n2 1 1040 103413 9262 XOR\n2 1 89952 103474 9349 XOR\n",
"2 1 9349 9350 9348 AND\n2 1 9348 103474 103475 XOR\n2 1 83809 103475 9353 XOR\n2 1 89952 22892 22891 AND\n2 1 22891 22892 22894 XOR\n2 1 91990 22894 89953 XOR\n2 1 89953 103413 9263 XOR\n2 1 9262 9263 9261 AND\n2 1 1040 89953 103444 XOR\n2 1 103444 103413 1360 XOR\n2 1 63327 1360 63295 AND\n2 1 63295 1424 98054 XOR\n2 1 1360 1392 63263 XOR\n2 1 75745 1360 111426 XOR\n2 1 111426 111395 93862 XOR\n2 1 1355 1360 61044 XOR\n2 1 9261 103413 103414 XOR\n2 1 1041 103414 9265 XOR\n2 1 1360 111395 21261 XOR\n2 1 21260 21261 21259 AND\n2 1 21259 111395 111396 XOR\n2 1 75746 111396 21263 XOR\n2 1 89953 103475 9352 XOR\n2 1 9352 9353 9351 AND\n2 1 9351 103475 103476 XOR\n2 1 83810 103476 9356 XOR\n2 1 89953 83809 103506 XOR\n2 1 103506 103475 912 XOR\n2 1 901 912 66962 XOR\n2 1 912 944 69375 XOR\n2 1 912 976 69503 XOR\n2 1 69503 69471 69439 AND\n2 1 69439 976 85825 XOR\n2 1 89953 22894 22893 AND\n2 1 22893 22894 22940 XOR\n1 1 22940 22897 INV\n2 1 22959 22940 89954 XOR\n2 1 89954 83810 103507 XOR\n2 1 89954 103414 9266 XOR\n2 1 9265 9266 9264 AND\n2 1 9264 103414 103415 XOR\n2 1 1042 103415 9268 XOR\n2 1 103507 103476 913 XOR\n2 1 913 945 69376 XOR\n2 1 902 913 66963 XOR\n2 1 89954 103476 9355 XOR\n2 1 9355 9356 9354 AND\n2 1 9354 103476 103477 XOR\n2 1 913 977 69504 XOR\n2 1 69504 69472 69440 AND\n2 1 69440 977 85826 XOR\n2 1 83811 103477 9359 XOR\n2 1 1041 89954 103445 XOR\n2 1 103445 103414 1361 XOR\n2 1 63328 1361 63296 AND\n2 1 63296 1425 98055 XOR\n2 1 1361 1393 63264 XOR\n2 1 1356 1361 61045 XOR\n2 1 1361 111396 21264 XOR\n2 1 21263 21264 21262 AND\n2 1 21262 111396 111397 XOR\n2 1 75747 111397 21266 XOR\n2 1 75746 1361 111427 XOR\n2 1 111427 111396 93863 XOR\n2 1 91991 22940 22896 XOR\n2 1 22896 22897 22895 AND\n2 1 22895 22940 22941 XOR\n1 1 22941 22900 INV\n2 1 22960 22941 89955 XOR\n2 1 89955 83811 103508 XOR\n2 1 89955 103415 9269 XOR\n2 1 9268 9269 9267 AND\n2 1 9267 103415 103416 XOR\n2 1 1043 103416 9271 XOR\n2 1 103508 103477 914 XOR\n2 1 903 914 66964 XOR\n2 1 914 978 69505 XOR\n2 1 914 946 69377 XOR\n2 1 69505 69473 69441 AND\n2 1 69441 978 85827 XOR\n2 1 89955 103477 9358 XOR\n2 1 9358 9359 9357 AND\n2 1 9357 103477 103478 XOR\n2 1 83812 103478 9362 XOR\n2 1 1042 89955 103446 XOR\n2 1 103446 103415 1362 XOR\n2 1 75747 1362 111428 XOR\n2 1 63329 1362 63297 AND\n2 1 63297 1426 98056 XOR\n2 1 1362 1394 63265 XOR\n2 1 1357 1362 61046 XOR\n2 1 61046 1344 100093 XOR\n2 1 100093 98045 112233 XOR\n2 1 111428 111397 93864 XOR\n2 1 1362 111397 21267 XOR\n2 1 21266 21267 21265 AND\n2 1 21265 111397 111398 XOR\n2 1 75748 111398 21269 XOR\n2 1 91992 22941 22899 XOR\n2 1 22899 22900 22898 AND\n2 1 22898 22941 22942 XOR\n1 1 22942 22903 INV\n2 1 22961 22942 89956 XOR\n2 1 89956 83812 103509 XOR\n2 1 103509 103478 915 XOR\n2 1 904 915 66965 XOR\n2 1 915 947 69378 XOR\n2 1 89956 103416 9272 XOR\n2 1 9271 9272 9270 AND\n2 1 9270 103416 103417 XOR\n2 1 89956 103478 9361 XOR\n2 1 9361 9362 9360 AND\n2 1 9360 103478 103479 XOR\n2 1 83813 103479 9365 XOR\n2 1 915 979 69506 XOR\n2 1 69506 69474 69442 AND\n2 1 69442 979 85828 XOR\n2 1 1044 103417 9274 XOR\n2 1 1043 89956 103447 XOR\n2 1 103447 103416 1363 XOR\n2 1 63330 1363 63298 AND\n2 1 63298 1427 98057 XOR\n2 1 1363 1395 63266 XOR\n2 1 75748 1363 111429 XOR\n2 1 1358 1363 61047 XOR\n2 1 61065 1363 100112 XOR\n2 1 61047 1345 100094 XOR\n2 1 1363 111398 21270 XOR\n",
"2 1 100094 98046 112234 XOR\n2 1 21269 21270 21268 AND\n2 1 21268 111398 111399 XOR\n2 1 75749 111399 21272 XOR\n2 1 111429 111398 93865 XOR\n2 1 91993 22942 22902 XOR\n2 1 22902 22903 22901 AND\n2 1 22901 22942 22905 XOR\n2 1 91994 22905 89957 XOR\n2 1 89957 103479 9364 XOR\n2 1 1044 89957 103448 XOR\n2 1 103448 103417 1364 XOR\n2 1 63331 1364 63299 AND\n2 1 63299 1428 98058 XOR\n2 1 1364 1396 63267 XOR\n2 1 9364 9365 9363 AND\n2 1 1359 1364 61048 XOR\n2 1 61066 1364 100113 XOR\n2 1 61048 1346 100095 XOR\n2 1 100095 98047 112235 XOR\n2 1 1364 111399 21273 XOR\n2 1 21272 21273 21271 AND\n2 1 21271 111399 111400 XOR\n2 1 75750 111400 21275 XOR\n2 1 89957 83813 103510 XOR\n2 1 103510 103479 916 XOR\n2 1 905 916 66966 XOR\n2 1 916 948 69379 XOR\n2 1 66989 916 87887 XOR\n2 1 916 980 69507 XOR\n2 1 69507 69475 69443 AND\n2 1 69443 980 85829 XOR\n2 1 75749 1364 111430 XOR\n2 1 111430 111399 93866 XOR\n2 1 9363 103479 103480 XOR\n2 1 83814 103480 9368 XOR\n2 1 89957 103417 9275 XOR\n2 1 9274 9275 9273 AND\n2 1 9273 103417 103418 XOR\n2 1 1045 103418 9277 XOR\n2 1 89957 22905 22904 AND\n2 1 22904 22905 22943 XOR\n1 1 22943 22908 INV\n2 1 22962 22943 89958 XOR\n2 1 89958 103480 9367 XOR\n2 1 9367 9368 9366 AND\n2 1 9366 103480 103481 XOR\n2 1 83815 103481 9371 XOR\n2 1 89958 103418 9278 XOR\n2 1 9277 9278 9276 AND\n2 1 9276 103418 103419 XOR\n2 1 1046 103419 9280 XOR\n2 1 89958 83814 103511 XOR\n2 1 103511 103480 917 XOR\n2 1 906 917 66967 XOR\n2 1 66990 917 87888 XOR\n2 1 917 949 69380 XOR\n2 1 917 981 69508 XOR\n2 1 69508 69476 69444 AND\n2 1 69444 981 85830 XOR\n2 1 917 896 66978 XOR\n2 1 66978 905 87876 XOR\n2 1 87876 85828 112059 XOR\n2 1 1045 89958 103449 XOR\n2 1 103449 103418 1365 XOR\n2 1 75750 1365 111431 XOR\n2 1 63332 1365 63300 AND\n2 1 63300 1429 98059 XOR\n2 1 1365 1397 63268 XOR\n2 1 1360 1365 61049 XOR\n2 1 61067 1365 100114 XOR\n2 1 61049 1347 100096 XOR\n2 1 100096 98048 112236 XOR\n2 1 1365 111400 21276 XOR\n2 1 21275 21276 21274 AND\n2 1 21274 111400 111401 XOR\n2 1 75751 111401 21278 XOR\n2 1 111431 111400 93867 XOR\n2 1 91995 22943 22907 XOR\n2 1 22907 22908 22906 AND\n2 1 22906 22943 22910 XOR\n2 1 91996 22910 89959 XOR\n2 1 1046 89959 103450 XOR\n2 1 103450 103419 1366 XOR\n2 1 63333 1366 63301 AND\n2 1 63301 1430 98060 XOR\n2 1 1366 1398 63269 XOR\n2 1 89959 103419 9281 XOR\n2 1 9280 9281 9279 AND\n2 1 1366 111401 21279 XOR\n2 1 21278 21279 21277 AND\n2 1 9279 103419 103420 XOR\n2 1 89959 103481 9370 XOR\n2 1 1361 1366 61050 XOR\n2 1 61068 1366 100115 XOR\n2 1 61050 1348 100097 XOR\n2 1 100097 98049 112237 XOR\n2 1 1047 103420 9283 XOR\n2 1 75751 1366 111432 XOR\n2 1 9370 9371 9369 AND\n2 1 9369 103481 103482 XOR\n2 1 83816 103482 9374 XOR\n2 1 21277 111401 111402 XOR\n2 1 75752 111402 21281 XOR\n2 1 111432 111401 93868 XOR\n2 1 89959 83815 103512 XOR\n2 1 103512 103481 918 XOR\n2 1 918 897 66979 XOR\n2 1 907 918 66968 XOR\n2 1 918 982 69509 XOR\n2 1 66979 906 87877 XOR\n2 1 87877 85829 112060 XOR\n2 1 918 950 69381 XOR\n2 1 69509 69477 69445 AND\n2 1 69445 982 85831 XOR\n2 1 66959 918 87857 XOR\n2 1 87857 85809 83761 XOR\n2 1 87857 85809 112010 AND\n2 1 85810 112010 22300 XOR\n2 1 89959 22910 22909 AND\n2 1 22909 22910 22912 XOR\n2 1 91997 22912 89960 XOR\n2 1 89960 83816 103513 XOR\n2 1 103513 103482 919 XOR\n2 1 908 919 66969 XOR\n2 1 919 983 69510 XOR\n2 1 919 898 66980 XOR\n2 1 919 951 69382 XOR\n",
"2 1 69510 69478 69446 AND\n2 1 89960 103420 9284 XOR\n2 1 66969 896 87867 XOR\n2 1 9283 9284 9282 AND\n2 1 9282 103420 103421 XOR\n2 1 1048 103421 9286 XOR\n2 1 89960 103482 9373 XOR\n2 1 9373 9374 9372 AND\n2 1 9372 103482 103483 XOR\n2 1 83817 103483 9377 XOR\n2 1 69446 983 85832 XOR\n2 1 66980 907 87878 XOR\n2 1 87867 85819 112050 XOR\n2 1 87878 85830 112061 XOR\n2 1 66960 919 87858 XOR\n2 1 87858 85810 112041 XOR\n2 1 112041 112010 83762 XOR\n2 1 87858 112010 22299 XOR\n2 1 22299 22300 22298 AND\n2 1 22298 112010 112011 XOR\n2 1 85811 112011 22303 XOR\n2 1 1047 89960 103451 XOR\n2 1 103451 103420 1367 XOR\n2 1 63334 1367 63302 AND\n2 1 63302 1431 98061 XOR\n2 1 1367 1399 63270 XOR\n2 1 1362 1367 61051 XOR\n2 1 61069 1367 100116 XOR\n2 1 61051 1349 100098 XOR\n2 1 100098 98050 112238 XOR\n2 1 75752 1367 111433 XOR\n2 1 111433 111402 93869 XOR\n2 1 1367 111402 21282 XOR\n2 1 21281 21282 21280 AND\n2 1 21280 111402 111403 XOR\n2 1 75753 111403 21284 XOR\n2 1 89960 22912 22911 AND\n2 1 22911 22912 22914 XOR\n2 1 91998 22914 89961 XOR\n2 1 89961 103483 9376 XOR\n2 1 89961 83817 103514 XOR\n2 1 1048 89961 103452 XOR\n2 1 9376 9377 9375 AND\n2 1 9375 103483 103484 XOR\n2 1 103452 103421 1368 XOR\n2 1 63335 1368 63303 AND\n2 1 63303 1432 98062 XOR\n2 1 1368 1400 63271 XOR\n2 1 1368 111403 21285 XOR\n2 1 21284 21285 21283 AND\n2 1 21283 111403 111404 XOR\n2 1 75754 111404 21287 XOR\n2 1 75753 1368 111434 XOR\n2 1 111434 111403 93870 XOR\n2 1 1363 1368 61052 XOR\n2 1 61070 1368 100117 XOR\n2 1 61052 1350 100099 XOR\n2 1 103514 103483 920 XOR\n2 1 909 920 66970 XOR\n2 1 66970 897 87868 XOR\n2 1 920 984 69511 XOR\n2 1 66961 920 87859 XOR\n2 1 920 952 69383 XOR\n2 1 69511 69479 69447 AND\n2 1 87859 112011 22302 XOR\n2 1 69447 984 85833 XOR\n2 1 87859 85811 112042 XOR\n2 1 87868 85820 112051 XOR\n2 1 112042 112011 83763 XOR\n2 1 22302 22303 22301 AND\n2 1 22301 112011 112012 XOR\n2 1 85812 112012 22306 XOR\n2 1 83818 103484 9380 XOR\n2 1 920 899 66981 XOR\n2 1 66981 908 87879 XOR\n2 1 87879 85831 112062 XOR\n2 1 100099 98051 112239 XOR\n2 1 89961 103421 9287 XOR\n2 1 9286 9287 9285 AND\n2 1 9285 103421 103422 XOR\n2 1 1049 103422 9289 XOR\n2 1 89961 22914 22913 AND\n2 1 22913 22914 22916 XOR\n2 1 91999 22916 89962 XOR\n2 1 89962 103422 9290 XOR\n2 1 9289 9290 9288 AND\n2 1 9288 103422 103423 XOR\n2 1 89962 83818 103515 XOR\n2 1 103515 103484 921 XOR\n2 1 921 953 69384 XOR\n2 1 910 921 66971 XOR\n2 1 1050 103423 9292 XOR\n2 1 921 900 66982 XOR\n2 1 66982 909 87880 XOR\n2 1 66971 898 87869 XOR\n2 1 87869 85821 112052 XOR\n2 1 87880 85832 112063 XOR\n2 1 921 985 69512 XOR\n2 1 69512 69480 69448 AND\n2 1 69448 985 85834 XOR\n2 1 66962 921 87860 XOR\n2 1 87860 85812 112043 XOR\n2 1 112043 112012 83764 XOR\n2 1 87860 112012 22305 XOR\n2 1 22305 22306 22304 AND\n2 1 22304 112012 112013 XOR\n2 1 85813 112013 22309 XOR\n2 1 1049 89962 103453 XOR\n2 1 103453 103422 1369 XOR\n2 1 75754 1369 111435 XOR\n2 1 63336 1369 63304 AND\n2 1 63304 1433 98063 XOR\n2 1 1369 1401 63272 XOR\n2 1 111435 111404 93871 XOR\n2 1 1369 111404 21288 XOR\n2 1 21287 21288 21286 AND\n2 1 21286 111404 111405 XOR\n2 1 75755 111405 21290 XOR\n2 1 1364 1369 61053 XOR\n2 1 61053 1351 100100 XOR\n2 1 61039 1369 100086 XOR\n2 1 100086 98038 95990 XOR\n2 1 95990 93942 112072 AND\n2 1 100086 98038 112196 AND\n2 1 95990 93942 89905 XOR\n2 1 89905 83761 864 XOR\n2 1 992 89905 103274 AND\n2 1 89905 83761 103336 AND\n",
"2 1 864 928 69391 XOR\n2 1 69391 69359 69327 AND\n2 1 69327 928 85777 XOR\n2 1 992 89905 1312 XOR\n2 1 75697 1312 111123 AND\n2 1 63247 1312 63215 AND\n2 1 63215 1376 98006 XOR\n2 1 1312 1344 63183 XOR\n2 1 83762 103336 9128 XOR\n2 1 864 896 69263 XOR\n2 1 93943 112072 22495 XOR\n2 1 75697 1312 93814 XOR\n2 1 98039 112196 22675 XOR\n2 1 100100 98052 112240 XOR\n2 1 75698 111123 20785 XOR\n2 1 993 103274 9037 XOR\n2 1 89962 103484 9379 XOR\n2 1 9379 9380 9378 AND\n2 1 9378 103484 103485 XOR\n2 1 83819 103485 9383 XOR\n2 1 89962 22916 22915 AND\n2 1 22915 22916 22918 XOR\n2 1 92000 22918 89963 XOR\n2 1 89963 83819 103516 XOR\n2 1 89963 103423 9293 XOR\n2 1 9292 9293 9291 AND\n2 1 9291 103423 103424 XOR\n2 1 103516 103485 922 XOR\n2 1 922 954 69385 XOR\n2 1 922 986 69513 XOR\n2 1 69513 69481 69449 AND\n2 1 69449 986 85835 XOR\n2 1 911 922 66972 XOR\n2 1 66972 899 87870 XOR\n2 1 66963 922 87861 XOR\n2 1 87861 112013 22308 XOR\n2 1 87861 85813 112044 XOR\n2 1 87870 85822 112053 XOR\n2 1 1051 103424 9295 XOR\n2 1 112044 112013 83765 XOR\n2 1 22308 22309 22307 AND\n2 1 22307 112013 112014 XOR\n2 1 85814 112014 22312 XOR\n2 1 922 901 66983 XOR\n2 1 66983 910 87881 XOR\n2 1 87881 85833 112064 XOR\n2 1 89963 103485 9382 XOR\n2 1 9382 9383 9381 AND\n2 1 9381 103485 103486 XOR\n2 1 83820 103486 9386 XOR\n2 1 1050 89963 103454 XOR\n2 1 103454 103423 1370 XOR\n2 1 1370 1402 63273 XOR\n2 1 63337 1370 63305 AND\n2 1 63305 1434 98064 XOR\n2 1 100112 98064 112252 XOR\n2 1 1365 1370 61054 XOR\n2 1 61054 1352 100101 XOR\n2 1 100101 98053 112241 XOR\n2 1 61040 1370 100087 XOR\n2 1 100087 112196 22674 XOR\n2 1 22674 22675 22673 AND\n2 1 22673 112196 112197 XOR\n2 1 98040 112197 22678 XOR\n2 1 100087 98039 112227 XOR\n2 1 112227 112196 95991 XOR\n2 1 95991 112072 22494 XOR\n2 1 22494 22495 22493 AND\n2 1 22493 112072 112073 XOR\n2 1 93944 112073 22498 XOR\n2 1 95991 93943 112103 XOR\n2 1 112103 112072 91943 XOR\n1 1 91943 89906 INV\n2 1 89906 83762 103367 XOR\n2 1 103367 103336 865 XOR\n2 1 865 929 69392 XOR\n2 1 69392 69360 69328 AND\n2 1 69328 929 85778 XOR\n2 1 89906 103336 9127 XOR\n2 1 9127 9128 9126 AND\n2 1 9126 103336 103337 XOR\n2 1 83763 103337 9131 XOR\n2 1 865 897 69264 XOR\n2 1 89906 103274 9038 XOR\n2 1 9037 9038 9036 AND\n2 1 9036 103274 103275 XOR\n2 1 994 103275 9040 XOR\n2 1 993 89906 103305 XOR\n2 1 103305 103274 1313 XOR\n2 1 63248 1313 63216 AND\n2 1 63216 1377 98007 XOR\n2 1 1313 1345 63184 XOR\n2 1 75698 1313 111154 XOR\n2 1 111154 111123 93815 XOR\n2 1 1313 111123 20786 XOR\n2 1 20785 20786 20784 AND\n2 1 20784 111123 111124 XOR\n2 1 75699 111124 20788 XOR\n2 1 75755 1370 111436 XOR\n2 1 111436 111405 93872 XOR\n2 1 1370 111405 21291 XOR\n2 1 21290 21291 21289 AND\n2 1 21289 111405 111406 XOR\n2 1 75756 111406 21293 XOR\n2 1 89963 22918 22917 AND\n2 1 22917 22918 22944 XOR\n2 1 22963 22944 89964 XOR\n2 1 89964 83820 103517 XOR\n2 1 1051 89964 103455 XOR\n2 1 89964 103424 9296 XOR\n2 1 9295 9296 9294 AND\n2 1 9294 103424 103425 XOR\n2 1 1052 103425 9298 XOR\n2 1 103517 103486 923 XOR\n2 1 923 955 69386 XOR\n2 1 912 923 66973 XOR\n2 1 923 987 69514 XOR\n2 1 69514 69482 69450 AND\n2 1 923 902 66984 XOR\n2 1 66984 911 87882 XOR\n2 1 103455 103424 1371 XOR\n2 1 75756 1371 111437 XOR\n2 1 63338 1371 63306 AND\n2 1 63306 1435 98065 XOR\n2 1 1371 1403 63274 XOR\n2 1 1371 1344 61060 XOR\n2 1 1366 1371 61055 XOR\n2 1 61060 1358 100107 XOR\n",
"2 1 61055 1353 100102 XOR\n2 1 61041 1371 100088 XOR\n2 1 100088 98040 112228 XOR\n2 1 100102 98054 112242 XOR\n2 1 69450 987 85836 XOR\n1 1 22944 22921 INV\n2 1 111437 111406 93873 XOR\n2 1 1371 111406 21294 XOR\n2 1 21293 21294 21292 AND\n2 1 21292 111406 111407 XOR\n2 1 75757 111407 21296 XOR\n2 1 87882 85834 112065 XOR\n2 1 100107 98059 112247 XOR\n2 1 100113 98065 112253 XOR\n2 1 112228 112197 95992 XOR\n2 1 95992 112073 22497 XOR\n2 1 22497 22498 22496 AND\n2 1 22496 112073 112074 XOR\n2 1 93945 112074 22501 XOR\n2 1 95992 93944 112104 XOR\n2 1 100088 112197 22677 XOR\n2 1 22677 22678 22676 AND\n2 1 22676 112197 112198 XOR\n2 1 98041 112198 22681 XOR\n2 1 89964 103486 9385 XOR\n2 1 9385 9386 9384 AND\n2 1 9384 103486 103487 XOR\n2 1 66973 900 87871 XOR\n2 1 87871 85823 112054 XOR\n2 1 66964 923 87862 XOR\n2 1 87862 85814 112045 XOR\n2 1 112045 112014 83766 XOR\n2 1 87862 112014 22311 XOR\n2 1 22311 22312 22310 AND\n2 1 22310 112014 112015 XOR\n2 1 85815 112015 22315 XOR\n2 1 83821 103487 9389 XOR\n2 1 112104 112073 91944 XOR\n2 1 91944 91943 22389 XOR\n2 1 22389 89906 22388 AND\n1 1 91944 22477 INV\n2 1 22477 91943 89907 XOR\n2 1 89907 103337 9130 XOR\n2 1 89907 103275 9041 XOR\n2 1 9040 9041 9039 AND\n2 1 9039 103275 103276 XOR\n2 1 995 103276 9043 XOR\n2 1 89907 83763 103368 XOR\n2 1 103368 103337 866 XOR\n2 1 866 898 69265 XOR\n2 1 866 930 69393 XOR\n2 1 69393 69361 69329 AND\n2 1 69329 930 85779 XOR\n2 1 9130 9131 9129 AND\n2 1 9129 103337 103338 XOR\n2 1 83764 103338 9134 XOR\n2 1 994 89907 103306 XOR\n2 1 103306 103275 1314 XOR\n2 1 63249 1314 63217 AND\n2 1 63217 1378 98008 XOR\n2 1 1314 1346 63185 XOR\n2 1 1314 111124 20789 XOR\n2 1 20788 20789 20787 AND\n2 1 20787 111124 111125 XOR\n2 1 75700 111125 20791 XOR\n2 1 75699 1314 111155 XOR\n2 1 111155 111124 93816 XOR\n2 1 22388 91943 22461 XOR\n1 1 22461 22392 INV\n2 1 92001 22944 22920 XOR\n2 1 22920 22921 22919 AND\n2 1 22919 22944 22923 XOR\n2 1 92002 22923 89965 XOR\n2 1 89965 103425 9299 XOR\n2 1 9298 9299 9297 AND\n2 1 9297 103425 103426 XOR\n2 1 1052 89965 103456 XOR\n2 1 89965 103487 9388 XOR\n2 1 9388 9389 9387 AND\n2 1 9387 103487 103488 XOR\n2 1 1053 103426 9301 XOR\n2 1 103456 103425 1372 XOR\n2 1 75757 1372 111438 XOR\n2 1 111438 111407 93874 XOR\n2 1 63339 1372 63307 AND\n2 1 63307 1436 98066 XOR\n2 1 1372 1404 63275 XOR\n2 1 1372 1345 61061 XOR\n2 1 1367 1372 61056 XOR\n2 1 61061 1359 100108 XOR\n2 1 61056 1354 100103 XOR\n2 1 100103 98055 112243 XOR\n2 1 61042 1372 100089 XOR\n2 1 100089 98041 112229 XOR\n2 1 1372 111407 21297 XOR\n2 1 21296 21297 21295 AND\n2 1 21295 111407 111408 XOR\n2 1 75758 111408 21299 XOR\n2 1 100108 98060 112248 XOR\n2 1 100114 98066 112254 XOR\n2 1 112229 112198 95993 XOR\n2 1 95993 93945 112105 XOR\n2 1 112105 112074 91945 XOR\n1 1 91945 22478 INV\n2 1 22478 22461 89908 XOR\n2 1 89908 83764 103369 XOR\n2 1 103369 103338 867 XOR\n2 1 867 931 69394 XOR\n2 1 995 89908 103307 XOR\n2 1 103307 103276 1315 XOR\n2 1 63250 1315 63218 AND\n2 1 63218 1379 98009 XOR\n2 1 1315 1347 63186 XOR\n2 1 75700 1315 111156 XOR\n2 1 111156 111125 93817 XOR\n2 1 69394 69362 69330 AND\n2 1 69330 931 85780 XOR\n2 1 95993 112074 22500 XOR\n2 1 91945 22461 22391 XOR\n2 1 22391 22392 22390 AND\n2 1 22390 22461 22394 XOR\n2 1 867 899 69266 XOR\n2 1 22500 22501 22499 AND\n2 1 22499 112074 112075 XOR\n2 1 93946 112075 22504 XOR\n2 1 89908 103338 9133 XOR\n2 1 9133 9134 9132 AND\n2 1 9132 103338 103339 XOR\n",
"2 1 100089 112198 22680 XOR\n2 1 22680 22681 22679 AND\n2 1 22679 112198 112199 XOR\n2 1 98042 112199 22684 XOR\n2 1 1315 111125 20792 XOR\n2 1 20791 20792 20790 AND\n2 1 20790 111125 111126 XOR\n2 1 83822 103488 9392 XOR\n2 1 83765 103339 9137 XOR\n2 1 89908 103276 9044 XOR\n2 1 75701 111126 20794 XOR\n2 1 9043 9044 9042 AND\n2 1 9042 103276 103277 XOR\n2 1 996 103277 9046 XOR\n2 1 89965 83821 103518 XOR\n2 1 103518 103487 924 XOR\n2 1 66965 924 87863 XOR\n2 1 87863 112015 22314 XOR\n2 1 87863 85815 112046 XOR\n2 1 112046 112015 83767 XOR\n2 1 22314 22315 22313 AND\n2 1 22313 112015 112016 XOR\n2 1 85816 112016 22318 XOR\n2 1 924 956 69387 XOR\n2 1 913 924 66974 XOR\n2 1 924 988 69515 XOR\n2 1 69515 69483 69451 AND\n2 1 69451 988 85837 XOR\n2 1 66974 901 87872 XOR\n2 1 87872 85824 112055 XOR\n2 1 924 903 66985 XOR\n2 1 66985 912 87883 XOR\n2 1 87883 85835 112066 XOR\n2 1 89965 22923 22922 AND\n2 1 22922 22923 22945 XOR\n2 1 22964 22945 89966 XOR\n2 1 89966 103488 9391 XOR\n2 1 9391 9392 9390 AND\n2 1 9390 103488 103489 XOR\n2 1 1053 89966 103457 XOR\n2 1 103457 103426 1373 XOR\n2 1 63340 1373 63308 AND\n2 1 63308 1437 98067 XOR\n2 1 1373 1405 63276 XOR\n2 1 1373 1346 61062 XOR\n2 1 1368 1373 61057 XOR\n2 1 61062 1360 100109 XOR\n2 1 61057 1355 100104 XOR\n2 1 100104 98056 112244 XOR\n2 1 61043 1373 100090 XOR\n2 1 100090 98042 112230 XOR\n1 1 22945 22926 INV\n2 1 83823 103489 9395 XOR\n2 1 75758 1373 111439 XOR\n2 1 89966 83822 103519 XOR\n2 1 103519 103488 925 XOR\n2 1 925 989 69516 XOR\n2 1 925 904 66986 XOR\n2 1 66986 913 87884 XOR\n2 1 925 957 69388 XOR\n2 1 69516 69484 69452 AND\n2 1 69452 989 85838 XOR\n2 1 111439 111408 93875 XOR\n2 1 1373 111408 21300 XOR\n2 1 21299 21300 21298 AND\n2 1 21298 111408 111409 XOR\n2 1 75759 111409 21302 XOR\n2 1 87884 85836 112067 XOR\n2 1 100109 98061 112249 XOR\n2 1 100115 98067 112255 XOR\n2 1 112230 112199 95994 XOR\n2 1 95994 93946 112106 XOR\n2 1 112106 112075 91946 XOR\n2 1 95994 112075 22503 XOR\n2 1 22503 22504 22502 AND\n2 1 100090 112199 22683 XOR\n2 1 22683 22684 22682 AND\n2 1 22682 112199 112200 XOR\n2 1 98043 112200 22687 XOR\n2 1 89966 103426 9302 XOR\n2 1 9301 9302 9300 AND\n2 1 9300 103426 103427 XOR\n2 1 1054 103427 9304 XOR\n2 1 914 925 66975 XOR\n2 1 66975 902 87873 XOR\n2 1 87873 85825 112056 XOR\n2 1 66966 925 87864 XOR\n2 1 87864 85816 112047 XOR\n2 1 112047 112016 83768 XOR\n2 1 87864 112016 22317 XOR\n2 1 22317 22318 22316 AND\n2 1 22316 112016 112017 XOR\n2 1 85817 112017 22321 XOR\n2 1 91946 22394 89909 XOR\n2 1 89909 22394 22393 AND\n2 1 22393 22394 22462 XOR\n1 1 22462 22397 INV\n2 1 996 89909 103308 XOR\n2 1 89909 103339 9136 XOR\n2 1 9136 9137 9135 AND\n2 1 9135 103339 103340 XOR\n2 1 83766 103340 9140 XOR\n2 1 103308 103277 1316 XOR\n2 1 63251 1316 63219 AND\n2 1 63219 1380 98010 XOR\n2 1 1316 1348 63187 XOR\n2 1 89909 103277 9047 XOR\n2 1 9046 9047 9045 AND\n2 1 89909 83765 103370 XOR\n2 1 75701 1316 111157 XOR\n2 1 103370 103339 868 XOR\n2 1 868 900 69267 XOR\n2 1 868 932 69395 XOR\n2 1 69395 69363 69331 AND\n2 1 69331 932 85781 XOR\n2 1 1316 111126 20795 XOR\n2 1 20794 20795 20793 AND\n2 1 20793 111126 111127 XOR\n2 1 75702 111127 20797 XOR\n2 1 22502 112075 112076 XOR\n2 1 93947 112076 22507 XOR\n2 1 9045 103277 103278 XOR\n2 1 997 103278 9049 XOR\n2 1 111157 111126 93818 XOR\n2 1 92003 22945 22925 XOR\n2 1 22925 22926 22924 AND\n2 1 22924 22945 22946 XOR\n2 1 22965 22946 89967 XOR\n",
"2 1 89967 103427 9305 XOR\n2 1 9304 9305 9303 AND\n2 1 9303 103427 103428 XOR\n2 1 89967 103489 9394 XOR\n2 1 89967 83823 103520 XOR\n2 1 1054 89967 103458 XOR\n2 1 103458 103427 1374 XOR\n2 1 63341 1374 63309 AND\n2 1 63309 1438 98068 XOR\n2 1 1374 1406 63277 XOR\n2 1 1374 1347 61063 XOR\n2 1 1369 1374 61058 XOR\n2 1 61063 1361 100110 XOR\n2 1 61058 1356 100105 XOR\n2 1 61044 1374 100091 XOR\n2 1 100091 98043 112231 XOR\n1 1 22946 22929 INV\n2 1 9394 9395 9393 AND\n2 1 9393 103489 103490 XOR\n2 1 75759 1374 111440 XOR\n2 1 111440 111409 93876 XOR\n2 1 1374 111409 21303 XOR\n2 1 21302 21303 21301 AND\n2 1 21301 111409 111410 XOR\n2 1 100105 98057 112245 XOR\n2 1 100110 98062 112250 XOR\n2 1 100116 98068 112256 XOR\n2 1 112231 112200 95995 XOR\n2 1 95995 93947 112107 XOR\n2 1 112107 112076 91947 XOR\n1 1 91947 22479 INV\n2 1 22479 22462 89910 XOR\n2 1 997 89910 103309 XOR\n2 1 89910 103278 9050 XOR\n2 1 89910 103340 9139 XOR\n2 1 9139 9140 9138 AND\n2 1 95995 112076 22506 XOR\n2 1 22506 22507 22505 AND\n2 1 9138 103340 103341 XOR\n2 1 22505 112076 112077 XOR\n2 1 93948 112077 22510 XOR\n2 1 103309 103278 1317 XOR\n2 1 63252 1317 63220 AND\n2 1 63220 1381 98011 XOR\n2 1 1317 1349 63188 XOR\n2 1 1317 111127 20798 XOR\n2 1 20797 20798 20796 AND\n2 1 20796 111127 111128 XOR\n2 1 75703 111128 20800 XOR\n2 1 75702 1317 111158 XOR\n2 1 1312 1317 61033 XOR\n2 1 89910 83766 103371 XOR\n2 1 103371 103340 869 XOR\n2 1 869 933 69396 XOR\n2 1 69396 69364 69332 AND\n2 1 69332 933 85782 XOR\n2 1 869 901 69268 XOR\n2 1 111158 111127 93819 XOR\n2 1 91947 22462 22396 XOR\n2 1 22396 22397 22395 AND\n2 1 22395 22462 22463 XOR\n1 1 22463 22400 INV\n2 1 100091 112200 22686 XOR\n2 1 22686 22687 22685 AND\n2 1 22685 112200 112201 XOR\n2 1 98044 112201 22690 XOR\n2 1 83767 103341 9143 XOR\n2 1 9049 9050 9048 AND\n2 1 9048 103278 103279 XOR\n2 1 998 103279 9052 XOR\n2 1 103520 103489 926 XOR\n2 1 926 958 69389 XOR\n2 1 926 990 69517 XOR\n2 1 69517 69485 69453 AND\n2 1 69453 990 85839 XOR\n2 1 915 926 66976 XOR\n2 1 926 905 66987 XOR\n2 1 66987 914 87885 XOR\n2 1 87885 85837 112068 XOR\n2 1 66967 926 87865 XOR\n2 1 87865 112017 22320 XOR\n2 1 66976 903 87874 XOR\n2 1 87865 85817 112048 XOR\n2 1 87874 85826 112057 XOR\n2 1 112048 112017 83769 XOR\n2 1 22320 22321 22319 AND\n2 1 22319 112017 112018 XOR\n2 1 85818 112018 22324 XOR\n2 1 87887 85839 112070 XOR\n2 1 92004 22946 22928 XOR\n2 1 22928 22929 22927 AND\n2 1 22927 22946 22947 XOR\n2 1 92005 22947 89968 XOR\n2 1 89968 83824 103521 XOR\n2 1 103521 103490 927 XOR\n2 1 927 991 69518 XOR\n2 1 927 959 69390 XOR\n2 1 69518 69486 69454 AND\n2 1 1055 89968 103459 XOR\n2 1 103459 103428 1375 XOR\n2 1 75760 1375 111441 XOR\n2 1 63342 1375 63310 AND\n2 1 63310 1439 98069 XOR\n2 1 1375 1407 63278 XOR\n2 1 1375 1348 61064 XOR\n2 1 1370 1375 61059 XOR\n2 1 61064 1362 100111 XOR\n2 1 61059 1357 100106 XOR\n2 1 61045 1375 100092 XOR\n2 1 100092 98044 112232 XOR\n2 1 69454 991 85840 XOR\n2 1 111441 111410 93877 XOR\n2 1 66968 927 87866 XOR\n2 1 87866 85818 112049 XOR\n2 1 112049 112018 83770 XOR\n2 1 87888 85840 112071 XOR\n2 1 87866 112018 22323 XOR\n2 1 22323 22324 22322 AND\n2 1 22322 112018 112019 XOR\n2 1 87867 112019 22326 XOR\n2 1 85819 112019 22327 XOR\n2 1 22326 22327 22325 AND\n2 1 22325 112019 112020 XOR\n2 1 112051 112020 83772 XOR\n2 1 85820 112020 22330 XOR\n2 1 87868 112020 22329 XOR\n2 1 22329 22330 22328 AND\n2 1 112050 112019 83771 XOR\n",
"2 1 100106 98058 112246 XOR\n2 1 100111 98063 112251 XOR\n2 1 100117 98069 112257 XOR\n2 1 112232 112201 95996 XOR\n2 1 95996 93948 112108 XOR\n2 1 112108 112077 91948 XOR\n1 1 91948 22480 INV\n2 1 91948 22463 22399 XOR\n2 1 22480 22463 89911 XOR\n2 1 998 89911 103310 XOR\n2 1 89911 103341 9142 XOR\n2 1 89911 103279 9053 XOR\n2 1 9052 9053 9051 AND\n2 1 103310 103279 1318 XOR\n2 1 63253 1318 63221 AND\n2 1 63221 1382 98012 XOR\n2 1 1318 1350 63189 XOR\n2 1 1318 111128 20801 XOR\n2 1 9142 9143 9141 AND\n2 1 20800 20801 20799 AND\n2 1 20799 111128 111129 XOR\n2 1 75704 111129 20803 XOR\n2 1 9051 103279 103280 XOR\n2 1 999 103280 9055 XOR\n2 1 1313 1318 61034 XOR\n2 1 9141 103341 103342 XOR\n2 1 83768 103342 9146 XOR\n2 1 75703 1318 111159 XOR\n2 1 111159 111128 93820 XOR\n2 1 100092 112201 22689 XOR\n2 1 22689 22690 22688 AND\n2 1 22688 112201 112202 XOR\n2 1 112233 112202 95997 XOR\n2 1 95997 93949 112109 XOR\n2 1 100093 112202 22692 XOR\n2 1 98045 112202 22693 XOR\n2 1 22692 22693 22691 AND\n2 1 22691 112202 112203 XOR\n2 1 112234 112203 95998 XOR\n2 1 95998 93950 112110 XOR\n2 1 100094 112203 22695 XOR\n2 1 98046 112203 22696 XOR\n2 1 22695 22696 22694 AND\n2 1 22694 112203 112204 XOR\n2 1 112235 112204 95999 XOR\n2 1 95999 93951 112111 XOR\n2 1 100095 112204 22698 XOR\n2 1 98047 112204 22699 XOR\n2 1 22698 22699 22697 AND\n2 1 22697 112204 112205 XOR\n2 1 112236 112205 96000 XOR\n2 1 96000 93952 112112 XOR\n2 1 100096 112205 22701 XOR\n2 1 98048 112205 22702 XOR\n2 1 22701 22702 22700 AND\n2 1 22700 112205 112206 XOR\n2 1 112237 112206 96001 XOR\n2 1 96001 93953 112113 XOR\n2 1 100097 112206 22704 XOR\n2 1 98049 112206 22705 XOR\n2 1 22704 22705 22703 AND\n2 1 22703 112206 112207 XOR\n2 1 112238 112207 96002 XOR\n2 1 96002 93954 112114 XOR\n2 1 100098 112207 22707 XOR\n2 1 98050 112207 22708 XOR\n2 1 22707 22708 22706 AND\n2 1 22706 112207 112208 XOR\n2 1 112239 112208 96003 XOR\n2 1 96003 93955 112115 XOR\n2 1 100099 112208 22710 XOR\n2 1 98051 112208 22711 XOR\n2 1 22710 22711 22709 AND\n2 1 22709 112208 112209 XOR\n2 1 112240 112209 96004 XOR\n2 1 96004 93956 112116 XOR\n2 1 100100 112209 22713 XOR\n2 1 98052 112209 22714 XOR\n2 1 22713 22714 22712 AND\n2 1 22712 112209 112210 XOR\n2 1 112241 112210 96005 XOR\n2 1 96005 93957 112117 XOR\n2 1 100101 112210 22716 XOR\n2 1 98053 112210 22717 XOR\n2 1 22716 22717 22715 AND\n2 1 22715 112210 112211 XOR\n2 1 112242 112211 96006 XOR\n2 1 100102 112211 22719 XOR\n2 1 98054 112211 22720 XOR\n2 1 22719 22720 22718 AND\n2 1 22718 112211 112212 XOR\n2 1 112243 112212 96007 XOR\n2 1 96007 93959 112119 XOR\n2 1 100103 112212 22722 XOR\n2 1 98055 112212 22723 XOR\n2 1 22722 22723 22721 AND\n2 1 22721 112212 112213 XOR\n2 1 112244 112213 96008 XOR\n2 1 96008 93960 112120 XOR\n2 1 100104 112213 22725 XOR\n2 1 98056 112213 22726 XOR\n2 1 22725 22726 22724 AND\n2 1 22724 112213 112214 XOR\n2 1 112245 112214 96009 XOR\n2 1 100105 112214 22728 XOR\n2 1 98057 112214 22729 XOR\n2 1 22728 22729 22727 AND\n2 1 22727 112214 112215 XOR\n2 1 112246 112215 96010 XOR\n2 1 96010 93962 112122 XOR\n2 1 100106 112215 22731 XOR\n2 1 98058 112215 22732 XOR\n2 1 22731 22732 22730 AND\n2 1 22730 112215 112216 XOR\n2 1 112247 112216 96011 XOR\n2 1 96011 93963 112123 XOR\n2 1 100107 112216 22734 XOR\n2 1 98059 112216 22735 XOR\n2 1 22734 22735 22733 AND\n2 1 22733 112216 112217 XOR\n2 1 112248 112217 96012 XOR\n2 1 96012 93964 112124 XOR\n2 1 100108 112217 22737 XOR\n2 1 98060 112217 22738 XOR\n2 1 22737 22738 22736 AND\n2 1 22736 112217 112218 XOR\n2 1 112249 112218 96013 XOR\n2 1 96013 93965 112125 XOR\n",
"2 1 100109 112218 22740 XOR\n2 1 98061 112218 22741 XOR\n2 1 22740 22741 22739 AND\n2 1 22739 112218 112219 XOR\n2 1 112250 112219 96014 XOR\n2 1 100110 112219 22743 XOR\n2 1 98062 112219 22744 XOR\n2 1 22743 22744 22742 AND\n2 1 22742 112219 112220 XOR\n2 1 112251 112220 96015 XOR\n2 1 96015 93967 112127 XOR\n2 1 100111 112220 22746 XOR\n2 1 98063 112220 22747 XOR\n2 1 22746 22747 22745 AND\n2 1 22745 112220 112221 XOR\n2 1 112252 112221 96016 XOR\n2 1 96016 93968 112128 XOR\n2 1 100112 112221 22749 XOR\n2 1 98064 112221 22750 XOR\n2 1 22749 22750 22748 AND\n2 1 22748 112221 112222 XOR\n2 1 112253 112222 96017 XOR\n2 1 96017 93969 112129 XOR\n2 1 100113 112222 22752 XOR\n2 1 98065 112222 22753 XOR\n2 1 22752 22753 22751 AND\n2 1 22751 112222 112223 XOR\n2 1 112254 112223 96018 XOR\n2 1 96018 93970 112130 XOR\n2 1 100114 112223 22755 XOR\n2 1 98066 112223 22756 XOR\n2 1 22755 22756 22754 AND\n2 1 22754 112223 112224 XOR\n2 1 112255 112224 96019 XOR\n2 1 96019 93971 112131 XOR\n2 1 100115 112224 22758 XOR\n2 1 98067 112224 22759 XOR\n2 1 22758 22759 22757 AND\n2 1 22757 112224 112225 XOR\n2 1 112256 112225 96020 XOR\n2 1 100116 112225 22761 XOR\n2 1 98068 112225 22762 XOR\n2 1 22761 22762 22760 AND\n2 1 22760 112225 112226 XOR\n2 1 112257 112226 96021 XOR\n2 1 96021 93973 112133 XOR\n2 1 22328 112020 112021 XOR\n2 1 85821 112021 22333 XOR\n2 1 96020 93972 112132 XOR\n2 1 96006 93958 112118 XOR\n2 1 89911 83767 103372 XOR\n2 1 103372 103341 870 XOR\n2 1 870 934 69397 XOR\n2 1 69397 69365 69333 AND\n2 1 69333 934 85783 XOR\n2 1 870 902 69269 XOR\n2 1 927 906 66988 XOR\n2 1 66988 915 87886 XOR\n2 1 87886 85838 112069 XOR\n2 1 916 927 66977 XOR\n2 1 66977 904 87875 XOR\n2 1 87875 85827 112058 XOR\n2 1 87869 112021 22332 XOR\n2 1 22332 22333 22331 AND\n2 1 22331 112021 112022 XOR\n2 1 112053 112022 83774 XOR\n2 1 85822 112022 22336 XOR\n2 1 87870 112022 22335 XOR\n2 1 22335 22336 22334 AND\n2 1 22334 112022 112023 XOR\n2 1 112054 112023 83775 XOR\n2 1 85823 112023 22339 XOR\n2 1 87871 112023 22338 XOR\n2 1 22338 22339 22337 AND\n2 1 22337 112023 112024 XOR\n2 1 112055 112024 83776 XOR\n2 1 87872 112024 22341 XOR\n2 1 85824 112024 22342 XOR\n2 1 22341 22342 22340 AND\n2 1 22340 112024 112025 XOR\n2 1 112056 112025 83777 XOR\n2 1 87873 112025 22344 XOR\n2 1 85825 112025 22345 XOR\n2 1 22344 22345 22343 AND\n2 1 96014 93966 112126 XOR\n2 1 22343 112025 112026 XOR\n2 1 112057 112026 83778 XOR\n2 1 87874 112026 22347 XOR\n2 1 96009 93961 112121 XOR\n2 1 95996 112077 22509 XOR\n2 1 22509 22510 22508 AND\n2 1 22508 112077 112078 XOR\n2 1 93949 112078 22513 XOR\n2 1 95997 112078 22512 XOR\n2 1 22512 22513 22511 AND\n2 1 22511 112078 112079 XOR\n2 1 93950 112079 22516 XOR\n2 1 112110 112079 91950 XOR\n2 1 95998 112079 22515 XOR\n2 1 22515 22516 22514 AND\n2 1 22514 112079 112080 XOR\n2 1 95999 112080 22518 XOR\n2 1 93951 112080 22519 XOR\n2 1 22518 22519 22517 AND\n2 1 22517 112080 112081 XOR\n2 1 96000 112081 22521 XOR\n2 1 93952 112081 22522 XOR\n2 1 112111 112080 91951 XOR\n1 1 91951 22482 INV\n2 1 22521 22522 22520 AND\n2 1 112112 112081 91952 XOR\n2 1 112109 112078 91949 XOR\n1 1 91949 22481 INV\n2 1 22520 112081 112082 XOR\n2 1 96001 112082 22524 XOR\n2 1 93953 112082 22525 XOR\n2 1 22524 22525 22523 AND\n2 1 22523 112082 112083 XOR\n2 1 96002 112083 22527 XOR\n2 1 112114 112083 91954 XOR\n2 1 93954 112083 22528 XOR\n2 1 22527 22528 22526 AND\n2 1 22526 112083 112084 XOR\n2 1 112115 112084 91955 XOR\n2 1 93955 112084 22531 XOR\n2 1 96003 112084 22530 XOR\n2 1 22530 22531 22529 AND\n2 1 22529 112084 112085 XOR\n",
"2 1 93956 112085 22534 XOR\n2 1 96004 112085 22533 XOR\n2 1 22533 22534 22532 AND\n2 1 22532 112085 112086 XOR\n2 1 93957 112086 22537 XOR\n2 1 112116 112085 91956 XOR\n2 1 112117 112086 91957 XOR\n1 1 91957 22483 INV\n2 1 96005 112086 22536 XOR\n2 1 22536 22537 22535 AND\n2 1 22535 112086 112087 XOR\n2 1 93958 112087 22540 XOR\n2 1 112118 112087 91958 XOR\n1 1 91958 22484 INV\n2 1 96006 112087 22539 XOR\n2 1 22539 22540 22538 AND\n2 1 22538 112087 112088 XOR\n2 1 93959 112088 22543 XOR\n2 1 112119 112088 91959 XOR\n1 1 91959 22485 INV\n2 1 96007 112088 22542 XOR\n2 1 22542 22543 22541 AND\n2 1 22541 112088 112089 XOR\n2 1 93960 112089 22546 XOR\n2 1 112120 112089 91960 XOR\n1 1 91960 22486 INV\n2 1 96008 112089 22545 XOR\n2 1 22545 22546 22544 AND\n2 1 22544 112089 112090 XOR\n2 1 112121 112090 91961 XOR\n1 1 91961 22487 INV\n2 1 93961 112090 22549 XOR\n2 1 96009 112090 22548 XOR\n2 1 22548 22549 22547 AND\n2 1 22547 112090 112091 XOR\n2 1 93962 112091 22552 XOR\n2 1 112122 112091 91962 XOR\n2 1 96010 112091 22551 XOR\n2 1 22551 22552 22550 AND\n2 1 22550 112091 112092 XOR\n2 1 96011 112092 22554 XOR\n2 1 112123 112092 91963 XOR\n2 1 93963 112092 22555 XOR\n2 1 22554 22555 22553 AND\n2 1 22553 112092 112093 XOR\n2 1 93964 112093 22558 XOR\n2 1 96012 112093 22557 XOR\n2 1 22557 22558 22556 AND\n2 1 22556 112093 112094 XOR\n2 1 96013 112094 22560 XOR\n2 1 112124 112093 91964 XOR\n2 1 112125 112094 91965 XOR\n1 1 91965 22488 INV\n2 1 93965 112094 22561 XOR\n2 1 22560 22561 22559 AND\n2 1 22559 112094 112095 XOR\n2 1 96014 112095 22563 XOR\n2 1 93966 112095 22564 XOR\n2 1 22563 22564 22562 AND\n2 1 22562 112095 112096 XOR\n2 1 112127 112096 91967 XOR\n2 1 96015 112096 22566 XOR\n2 1 93967 112096 22567 XOR\n2 1 22566 22567 22565 AND\n2 1 22565 112096 112097 XOR\n2 1 112128 112097 91968 XOR\n1 1 91968 22489 INV\n2 1 96016 112097 22569 XOR\n2 1 93968 112097 22570 XOR\n2 1 22569 22570 22568 AND\n2 1 22568 112097 112098 XOR\n2 1 112129 112098 91969 XOR\n2 1 96017 112098 22572 XOR\n2 1 93969 112098 22573 XOR\n2 1 22572 22573 22571 AND\n2 1 22571 112098 112099 XOR\n2 1 112130 112099 91970 XOR\n1 1 91970 22490 INV\n2 1 96018 112099 22575 XOR\n2 1 93970 112099 22576 XOR\n2 1 22575 22576 22574 AND\n2 1 22574 112099 112100 XOR\n2 1 112131 112100 91971 XOR\n2 1 96019 112100 22578 XOR\n2 1 93971 112100 22579 XOR\n2 1 22578 22579 22577 AND\n2 1 22577 112100 112101 XOR\n2 1 96020 112101 22581 XOR\n2 1 112132 112101 91972 XOR\n1 1 91972 22492 INV\n2 1 93972 112101 22582 XOR\n2 1 22581 22582 22580 AND\n2 1 22580 112101 112102 XOR\n2 1 112133 112102 91973 XOR\n1 1 91971 22491 INV\n2 1 112126 112095 91966 XOR\n2 1 85826 112026 22348 XOR\n2 1 22347 22348 22346 AND\n2 1 22346 112026 112027 XOR\n2 1 87875 112027 22350 XOR\n2 1 85827 112027 22351 XOR\n2 1 22350 22351 22349 AND\n2 1 112058 112027 83779 XOR\n2 1 22349 112027 112028 XOR\n2 1 112059 112028 83780 XOR\n2 1 87876 112028 22353 XOR\n2 1 85828 112028 22354 XOR\n2 1 22353 22354 22352 AND\n2 1 22352 112028 112029 XOR\n2 1 87877 112029 22356 XOR\n2 1 85829 112029 22357 XOR\n2 1 112060 112029 83781 XOR\n2 1 22356 22357 22355 AND\n2 1 22355 112029 112030 XOR\n2 1 112061 112030 83782 XOR\n2 1 87878 112030 22359 XOR\n2 1 85830 112030 22360 XOR\n2 1 22359 22360 22358 AND\n2 1 22358 112030 112031 XOR\n2 1 85831 112031 22363 XOR\n2 1 87879 112031 22362 XOR\n2 1 22362 22363 22361 AND\n2 1 22361 112031 112032 XOR\n2 1 112063 112032 83784 XOR\n2 1 85832 112032 22366 XOR\n2 1 87880 112032 22365 XOR\n2 1 22365 22366 22364 AND\n2 1 22364 112032 112033 XOR\n",
"2 1 87881 112033 22368 XOR\n2 1 112064 112033 83785 XOR\n2 1 85833 112033 22369 XOR\n2 1 22368 22369 22367 AND\n2 1 112062 112031 83783 XOR\n2 1 22367 112033 112034 XOR\n2 1 87882 112034 22371 XOR\n2 1 112065 112034 83786 XOR\n2 1 85834 112034 22372 XOR\n2 1 22371 22372 22370 AND\n2 1 22370 112034 112035 XOR\n2 1 85835 112035 22375 XOR\n2 1 112066 112035 83787 XOR\n2 1 87883 112035 22374 XOR\n2 1 22374 22375 22373 AND\n2 1 22373 112035 112036 XOR\n2 1 85836 112036 22378 XOR\n2 1 112067 112036 83788 XOR\n2 1 87884 112036 22377 XOR\n2 1 22377 22378 22376 AND\n2 1 22376 112036 112037 XOR\n2 1 112068 112037 83789 XOR\n2 1 87885 112037 22380 XOR\n2 1 85837 112037 22381 XOR\n2 1 22380 22381 22379 AND\n2 1 22379 112037 112038 XOR\n2 1 85838 112038 22384 XOR\n2 1 87886 112038 22383 XOR\n2 1 22383 22384 22382 AND\n2 1 112069 112038 83790 XOR\n2 1 22382 112038 112039 XOR\n2 1 85839 112039 22387 XOR\n2 1 112070 112039 83791 XOR\n2 1 87887 112039 22386 XOR\n2 1 22386 22387 22385 AND\n2 1 22385 112039 112040 XOR\n2 1 112071 112040 83792 XOR\n2 1 22399 22400 22398 AND\n2 1 22398 22463 22464 XOR\n1 1 22464 22403 INV\n2 1 91949 22464 22402 XOR\n2 1 22402 22403 22401 AND\n2 1 22401 22464 22405 XOR\n2 1 91950 22405 89913 XOR\n2 1 1000 89913 103312 XOR\n2 1 89913 83769 103374 XOR\n2 1 89913 22405 22404 AND\n2 1 22404 22405 22465 XOR\n1 1 22465 22408 INV\n2 1 22482 22465 89914 XOR\n2 1 89914 83770 103375 XOR\n2 1 91951 22465 22407 XOR\n2 1 22407 22408 22406 AND\n2 1 22406 22465 22410 XOR\n2 1 91952 22410 89915 XOR\n2 1 1002 89915 103314 XOR\n2 1 89915 83771 103376 XOR\n2 1 89915 22410 22409 AND\n2 1 22409 22410 22412 XOR\n2 1 1001 89914 103313 XOR\n2 1 22481 22464 89912 XOR\n2 1 89912 83768 103373 XOR\n2 1 999 89912 103311 XOR\n2 1 103311 103280 1319 XOR\n2 1 63254 1319 63222 AND\n2 1 63222 1383 98013 XOR\n2 1 1319 1351 63190 XOR\n2 1 1319 111129 20804 XOR\n2 1 1314 1319 61035 XOR\n2 1 89912 103342 9145 XOR\n2 1 9145 9146 9144 AND\n2 1 89912 103280 9056 XOR\n2 1 9055 9056 9054 AND\n2 1 9054 103280 103281 XOR\n2 1 1000 103281 9058 XOR\n2 1 89913 103281 9059 XOR\n2 1 9058 9059 9057 AND\n2 1 9057 103281 103282 XOR\n2 1 89914 103282 9062 XOR\n2 1 1001 103282 9061 XOR\n2 1 103313 103282 1321 XOR\n2 1 63256 1321 63224 AND\n2 1 63224 1385 98015 XOR\n2 1 1321 1353 63192 XOR\n2 1 1316 1321 61037 XOR\n2 1 103312 103281 1320 XOR\n2 1 63255 1320 63223 AND\n2 1 63223 1384 98014 XOR\n2 1 1320 1352 63191 XOR\n2 1 1315 1320 61036 XOR\n2 1 75706 1321 111162 XOR\n2 1 75705 1320 111161 XOR\n2 1 9061 9062 9060 AND\n2 1 9060 103282 103283 XOR\n2 1 89915 103283 9065 XOR\n2 1 1002 103283 9064 XOR\n2 1 103314 103283 1322 XOR\n2 1 63257 1322 63225 AND\n2 1 63225 1386 98016 XOR\n2 1 1322 1354 63193 XOR\n2 1 1317 1322 61038 XOR\n2 1 75707 1322 111163 XOR\n2 1 9064 9065 9063 AND\n2 1 9063 103283 103284 XOR\n2 1 1003 103284 9067 XOR\n2 1 103373 103342 871 XOR\n2 1 871 935 69398 XOR\n2 1 69398 69366 69334 AND\n2 1 69334 935 85784 XOR\n2 1 871 903 69270 XOR\n2 1 9144 103342 103343 XOR\n2 1 83769 103343 9149 XOR\n2 1 103374 103343 872 XOR\n2 1 872 904 69271 XOR\n2 1 872 936 69399 XOR\n2 1 69399 69367 69335 AND\n2 1 69335 936 85785 XOR\n2 1 89913 103343 9148 XOR\n2 1 9148 9149 9147 AND\n2 1 9147 103343 103344 XOR\n2 1 103375 103344 873 XOR\n2 1 873 937 69400 XOR\n2 1 69400 69368 69336 AND\n2 1 69336 937 85786 XOR\n2 1 873 905 69272 XOR\n2 1 89914 103344 9151 XOR\n2 1 83770 103344 9152 XOR\n2 1 9151 9152 9150 AND\n"]

end Verif.Data
