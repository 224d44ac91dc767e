/-!
# Text of `data/circ/sha256.txt`, part 6 of 11

Generated by `tools/gen_circuits.py`.
-/

namespace Verif.Data

/-- Lines 61445-73732 of `data/circ/sha256.txt`, 128 per string. -/
def shaBlocks05 : List String := [
"2 1 56582 132328 132329 XOR\n2 1 132360 132329 79952 XOR\n2 1 79952 78416 132236 XOR\n2 1 132236 132205 76624 XOR\n2 1 76614 3253 118278 XOR\n2 1 76606 3245 118270 XOR\n2 1 76597 3236 118261 XOR\n2 1 76615 3254 118279 XOR\n2 1 76607 3246 118271 XOR\n2 1 76598 3237 118262 XOR\n2 1 76616 3255 118280 XOR\n2 1 76608 3247 118272 XOR\n2 1 76599 3238 118263 XOR\n2 1 76617 3256 118281 XOR\n2 1 76609 3248 118273 XOR\n2 1 76600 3239 118264 XOR\n2 1 76594 3233 118258 XOR\n2 1 76593 3232 118227 AND\n2 1 76596 3235 118260 XOR\n2 1 76602 3241 118266 XOR\n2 1 76601 3240 118265 XOR\n2 1 76612 3251 118276 XOR\n2 1 76610 3249 118274 XOR\n2 1 76613 3252 118277 XOR\n2 1 76618 3257 118282 XOR\n2 1 76619 3258 118283 XOR\n2 1 76620 3259 118284 XOR\n2 1 76621 3260 118285 XOR\n2 1 76622 3261 118286 XOR\n2 1 76623 3262 118287 XOR\n2 1 76624 3263 118288 XOR\n2 1 118258 118227 94711 XOR\n2 1 76594 118227 33425 XOR\n2 1 3233 118227 33426 XOR\n2 1 33425 33426 33424 AND\n2 1 33424 118227 118228 XOR\n2 1 118259 118228 94712 XOR\n2 1 76595 118228 33428 XOR\n2 1 3234 118228 33429 XOR\n2 1 33428 33429 33427 AND\n2 1 33427 118228 118229 XOR\n2 1 118260 118229 94713 XOR\n2 1 76596 118229 33431 XOR\n2 1 3235 118229 33432 XOR\n2 1 33431 33432 33430 AND\n2 1 33430 118229 118230 XOR\n2 1 118261 118230 94714 XOR\n2 1 76597 118230 33434 XOR\n2 1 3236 118230 33435 XOR\n2 1 33434 33435 33433 AND\n2 1 33433 118230 118231 XOR\n2 1 118262 118231 94715 XOR\n2 1 76598 118231 33437 XOR\n2 1 3237 118231 33438 XOR\n2 1 33437 33438 33436 AND\n2 1 33436 118231 118232 XOR\n2 1 118263 118232 94716 XOR\n2 1 3238 118232 33441 XOR\n2 1 76599 118232 33440 XOR\n2 1 33440 33441 33439 AND\n2 1 33439 118232 118233 XOR\n2 1 76600 118233 33443 XOR\n2 1 3239 118233 33444 XOR\n2 1 33443 33444 33442 AND\n2 1 33442 118233 118234 XOR\n2 1 76601 118234 33446 XOR\n2 1 118265 118234 94718 XOR\n2 1 3240 118234 33447 XOR\n2 1 33446 33447 33445 AND\n2 1 33445 118234 118235 XOR\n2 1 118266 118235 94719 XOR\n2 1 3241 118235 33450 XOR\n2 1 76602 118235 33449 XOR\n2 1 33449 33450 33448 AND\n2 1 33448 118235 118236 XOR\n2 1 76603 118236 33452 XOR\n2 1 118267 118236 94720 XOR\n2 1 3242 118236 33453 XOR\n2 1 33452 33453 33451 AND\n2 1 33451 118236 118237 XOR\n2 1 118268 118237 94721 XOR\n2 1 3243 118237 33456 XOR\n2 1 76604 118237 33455 XOR\n2 1 33455 33456 33454 AND\n2 1 33454 118237 118238 XOR\n2 1 76605 118238 33458 XOR\n2 1 118269 118238 94722 XOR\n2 1 3244 118238 33459 XOR\n2 1 33458 33459 33457 AND\n2 1 33457 118238 118239 XOR\n2 1 118270 118239 94723 XOR\n2 1 3245 118239 33462 XOR\n2 1 76606 118239 33461 XOR\n2 1 33461 33462 33460 AND\n2 1 33460 118239 118240 XOR\n2 1 76607 118240 33464 XOR\n2 1 118271 118240 94724 XOR\n2 1 3246 118240 33465 XOR\n2 1 33464 33465 33463 AND\n2 1 33463 118240 118241 XOR\n2 1 118272 118241 94725 XOR\n2 1 3247 118241 33468 XOR\n2 1 76608 118241 33467 XOR\n2 1 33467 33468 33466 AND\n2 1 33466 118241 118242 XOR\n2 1 76609 118242 33470 XOR\n2 1 118273 118242 94726 XOR\n2 1 3248 118242 33471 XOR\n2 1 33470 33471 33469 AND\n2 1 33469 118242 118243 XOR\n2 1 118274 118243 94727 XOR\n2 1 76610 118243 33473 XOR\n2 1 118264 118233 94717 XOR\n2 1 3249 118243 33474 XOR\n2 1 33473 33474 33472 AND\n2 1 33472 118243 118244 XOR\n2 1 118275 118244 94728 XOR\n2 1 76611 118244 33476 XOR\n2 1 3250 118244 33477 XOR\n2 1 33476 33477 33475 AND\n2 1 33475 118244 118245 XOR\n2 1 118276 118245 94729 XOR\n2 1 3251 118245 33480 XOR\n2 1 76612 118245 33479 XOR\n2 1 33479 33480 33478 AND\n2 1 33478 118245 118246 XOR\n2 1 118277 118246 94730 XOR\n2 1 3252 118246 33483 XOR\n",
"2 1 76613 118246 33482 XOR\n2 1 33482 33483 33481 AND\n2 1 33481 118246 118247 XOR\n2 1 3253 118247 33486 XOR\n2 1 76614 118247 33485 XOR\n2 1 33485 33486 33484 AND\n2 1 33484 118247 118248 XOR\n2 1 3254 118248 33489 XOR\n2 1 76615 118248 33488 XOR\n2 1 118279 118248 94732 XOR\n2 1 33488 33489 33487 AND\n2 1 33487 118248 118249 XOR\n2 1 118280 118249 94733 XOR\n2 1 3255 118249 33492 XOR\n2 1 76616 118249 33491 XOR\n2 1 33491 33492 33490 AND\n2 1 33490 118249 118250 XOR\n2 1 118278 118247 94731 XOR\n2 1 118281 118250 94734 XOR\n2 1 3256 118250 33495 XOR\n2 1 76617 118250 33494 XOR\n2 1 33494 33495 33493 AND\n2 1 33493 118250 118251 XOR\n2 1 3257 118251 33498 XOR\n2 1 76618 118251 33497 XOR\n2 1 33497 33498 33496 AND\n2 1 33496 118251 118252 XOR\n2 1 3258 118252 33501 XOR\n2 1 76619 118252 33500 XOR\n2 1 33500 33501 33499 AND\n2 1 33499 118252 118253 XOR\n2 1 76620 118253 33503 XOR\n2 1 118282 118251 94735 XOR\n2 1 3259 118253 33504 XOR\n2 1 33503 33504 33502 AND\n2 1 33502 118253 118254 XOR\n2 1 3260 118254 33507 XOR\n2 1 76621 118254 33506 XOR\n2 1 118285 118254 94738 XOR\n2 1 33506 33507 33505 AND\n2 1 33505 118254 118255 XOR\n2 1 3261 118255 33510 XOR\n2 1 76622 118255 33509 XOR\n2 1 118286 118255 94739 XOR\n2 1 33509 33510 33508 AND\n2 1 33508 118255 118256 XOR\n2 1 76623 118256 33512 XOR\n2 1 3262 118256 33513 XOR\n2 1 33512 33513 33511 AND\n2 1 33511 118256 118257 XOR\n2 1 118288 118257 94741 XOR\n2 1 118287 118256 94740 XOR\n2 1 118283 118252 94736 XOR\n2 1 118284 118253 94737 XOR\n2 1 76609 76611 81424 XOR\n2 1 81424 76784 131988 XOR\n2 1 76608 76610 81423 XOR\n2 1 81423 76783 131987 XOR\n2 1 76607 76609 81422 XOR\n2 1 81422 76782 131986 XOR\n2 1 76606 76608 81421 XOR\n2 1 81421 76781 131985 XOR\n2 1 76605 76607 81420 XOR\n2 1 81420 76780 131984 XOR\n2 1 76604 76606 81419 XOR\n2 1 81419 76779 131983 XOR\n2 1 76603 76605 81418 XOR\n2 1 81418 76778 131982 XOR\n2 1 76602 76604 81417 XOR\n2 1 81417 76777 131981 XOR\n2 1 76601 76603 81416 XOR\n2 1 81416 76776 131980 XOR\n2 1 76600 76602 81415 XOR\n2 1 81415 76775 131979 XOR\n2 1 76599 76601 6771 XOR\n2 1 76598 76600 6770 XOR\n2 1 76597 76599 6769 XOR\n2 1 76596 76598 6768 XOR\n2 1 76595 76597 6767 XOR\n2 1 76594 76596 6766 XOR\n2 1 76593 76595 6765 XOR\n2 1 76624 76594 6764 XOR\n2 1 76623 76593 6763 XOR\n2 1 76622 76624 6762 XOR\n2 1 76621 76623 6761 XOR\n2 1 76620 76622 6760 XOR\n2 1 76619 76621 6759 XOR\n2 1 76618 76620 6758 XOR\n2 1 76617 76619 6757 XOR\n2 1 76616 76618 6756 XOR\n2 1 76615 76617 6755 XOR\n2 1 76614 76616 6754 XOR\n2 1 76613 76615 6753 XOR\n2 1 76612 76614 6752 XOR\n2 1 76611 76613 6751 XOR\n2 1 76610 76612 6750 XOR\n2 1 6771 76624 81414 XOR\n2 1 81414 76774 131978 XOR\n2 1 6770 76623 81413 XOR\n2 1 81413 76773 131977 XOR\n2 1 6769 76622 81412 XOR\n2 1 81412 76772 131976 XOR\n2 1 6768 76621 81411 XOR\n2 1 81411 76771 131975 XOR\n2 1 6767 76620 81410 XOR\n2 1 81410 76770 131974 XOR\n2 1 6766 76619 81409 XOR\n2 1 81409 76769 131973 XOR\n2 1 6765 76618 81408 XOR\n2 1 81408 76768 131972 XOR\n2 1 6764 76617 81407 XOR\n2 1 81407 76767 131971 XOR\n2 1 6763 76616 81406 XOR\n2 1 81406 76766 131970 XOR\n2 1 6762 76615 81405 XOR\n2 1 81405 76765 131969 XOR\n2 1 6761 76614 81404 XOR\n2 1 81404 76764 131968 XOR\n2 1 6760 76613 81403 XOR\n2 1 81403 76763 131967 XOR\n2 1 6759 76612 81402 XOR\n2 1 81402 76762 131966 XOR\n2 1 6758 76611 81401 XOR\n2 1 81401 76761 131965 XOR\n2 1 6757 76610 81400 XOR\n2 1 81400 76760 131964 XOR\n2 1 6756 76609 81399 XOR\n2 1 81399 76759 131963 XOR\n",
"2 1 6755 76608 81398 XOR\n2 1 81398 76758 131962 XOR\n2 1 6754 76607 81397 XOR\n2 1 81397 76757 131961 XOR\n2 1 6753 76606 81396 XOR\n2 1 81396 76756 131960 XOR\n2 1 6752 76605 81395 XOR\n2 1 81395 76755 131959 XOR\n2 1 6751 76604 81394 XOR\n2 1 81394 76754 131958 XOR\n2 1 6750 76603 81393 XOR\n2 1 81393 76753 131927 AND\n2 1 81393 76753 79857 XOR\n2 1 79857 78321 131803 AND\n2 1 79857 78321 76529 XOR\n2 1 78322 131803 55777 XOR\n2 1 131958 131927 79858 XOR\n2 1 79858 78322 131834 XOR\n2 1 131834 131803 76530 XOR\n2 1 79858 131803 55776 XOR\n2 1 55776 55777 55775 AND\n2 1 55775 131803 131804 XOR\n2 1 78323 131804 55780 XOR\n2 1 81394 131927 55956 XOR\n2 1 76754 131927 55957 XOR\n2 1 55956 55957 55955 AND\n2 1 55955 131927 131928 XOR\n2 1 131959 131928 79859 XOR\n2 1 79859 78323 131835 XOR\n2 1 131835 131804 76531 XOR\n2 1 79859 131804 55779 XOR\n2 1 55779 55780 55778 AND\n2 1 55778 131804 131805 XOR\n2 1 78324 131805 55783 XOR\n2 1 81395 131928 55959 XOR\n2 1 76755 131928 55960 XOR\n2 1 55959 55960 55958 AND\n2 1 55958 131928 131929 XOR\n2 1 131960 131929 79860 XOR\n2 1 79860 78324 131836 XOR\n2 1 131836 131805 76532 XOR\n2 1 79860 131805 55782 XOR\n2 1 55782 55783 55781 AND\n2 1 55781 131805 131806 XOR\n2 1 78325 131806 55786 XOR\n2 1 81396 131929 55962 XOR\n2 1 76756 131929 55963 XOR\n2 1 55962 55963 55961 AND\n2 1 55961 131929 131930 XOR\n2 1 131961 131930 79861 XOR\n2 1 79861 78325 131837 XOR\n2 1 131837 131806 76533 XOR\n2 1 79861 131806 55785 XOR\n2 1 55785 55786 55784 AND\n2 1 55784 131806 131807 XOR\n2 1 78326 131807 55789 XOR\n2 1 81397 131930 55965 XOR\n2 1 76757 131930 55966 XOR\n2 1 55965 55966 55964 AND\n2 1 55964 131930 131931 XOR\n2 1 131962 131931 79862 XOR\n2 1 79862 78326 131838 XOR\n2 1 131838 131807 76534 XOR\n2 1 79862 131807 55788 XOR\n2 1 55788 55789 55787 AND\n2 1 55787 131807 131808 XOR\n2 1 78327 131808 55792 XOR\n2 1 81398 131931 55968 XOR\n2 1 76758 131931 55969 XOR\n2 1 55968 55969 55967 AND\n2 1 55967 131931 131932 XOR\n2 1 131963 131932 79863 XOR\n2 1 79863 78327 131839 XOR\n2 1 131839 131808 76535 XOR\n2 1 79863 131808 55791 XOR\n2 1 55791 55792 55790 AND\n2 1 55790 131808 131809 XOR\n2 1 78328 131809 55795 XOR\n2 1 81399 131932 55971 XOR\n2 1 76759 131932 55972 XOR\n2 1 55971 55972 55970 AND\n2 1 55970 131932 131933 XOR\n2 1 131964 131933 79864 XOR\n2 1 79864 78328 131840 XOR\n2 1 131840 131809 76536 XOR\n2 1 79864 131809 55794 XOR\n2 1 55794 55795 55793 AND\n2 1 55793 131809 131810 XOR\n2 1 78329 131810 55798 XOR\n2 1 81400 131933 55974 XOR\n2 1 76760 131933 55975 XOR\n2 1 55974 55975 55973 AND\n2 1 55973 131933 131934 XOR\n2 1 131965 131934 79865 XOR\n2 1 79865 78329 131841 XOR\n2 1 131841 131810 76537 XOR\n2 1 79865 131810 55797 XOR\n2 1 55797 55798 55796 AND\n2 1 55796 131810 131811 XOR\n2 1 78330 131811 55801 XOR\n2 1 81401 131934 55977 XOR\n2 1 76761 131934 55978 XOR\n2 1 55977 55978 55976 AND\n2 1 55976 131934 131935 XOR\n2 1 131966 131935 79866 XOR\n2 1 79866 78330 131842 XOR\n2 1 131842 131811 76538 XOR\n2 1 79866 131811 55800 XOR\n2 1 55800 55801 55799 AND\n2 1 55799 131811 131812 XOR\n2 1 78331 131812 55804 XOR\n2 1 81402 131935 55980 XOR\n2 1 76762 131935 55981 XOR\n2 1 55980 55981 55979 AND\n2 1 55979 131935 131936 XOR\n2 1 131967 131936 79867 XOR\n2 1 79867 78331 131843 XOR\n2 1 131843 131812 76539 XOR\n2 1 79867 131812 55803 XOR\n2 1 55803 55804 55802 AND\n2 1 55802 131812 131813 XOR\n2 1 78332 131813 55807 XOR\n2 1 81403 131936 55983 XOR\n2 1 76763 131936 55984 XOR\n2 1 55983 55984 55982 AND\n2 1 55982 131936 131937 XOR\n2 1 131968 131937 79868 XOR\n2 1 79868 78332 131844 XOR\n",
"2 1 131844 131813 76540 XOR\n2 1 79868 131813 55806 XOR\n2 1 55806 55807 55805 AND\n2 1 55805 131813 131814 XOR\n2 1 78333 131814 55810 XOR\n2 1 81404 131937 55986 XOR\n2 1 76764 131937 55987 XOR\n2 1 55986 55987 55985 AND\n2 1 55985 131937 131938 XOR\n2 1 131969 131938 79869 XOR\n2 1 79869 78333 131845 XOR\n2 1 131845 131814 76541 XOR\n2 1 79869 131814 55809 XOR\n2 1 55809 55810 55808 AND\n2 1 55808 131814 131815 XOR\n2 1 78334 131815 55813 XOR\n2 1 81405 131938 55989 XOR\n2 1 76765 131938 55990 XOR\n2 1 55989 55990 55988 AND\n2 1 55988 131938 131939 XOR\n2 1 131970 131939 79870 XOR\n2 1 79870 78334 131846 XOR\n2 1 131846 131815 76542 XOR\n2 1 79870 131815 55812 XOR\n2 1 55812 55813 55811 AND\n2 1 55811 131815 131816 XOR\n2 1 78335 131816 55816 XOR\n2 1 81406 131939 55992 XOR\n2 1 76766 131939 55993 XOR\n2 1 55992 55993 55991 AND\n2 1 55991 131939 131940 XOR\n2 1 131971 131940 79871 XOR\n2 1 79871 78335 131847 XOR\n2 1 131847 131816 76543 XOR\n2 1 79871 131816 55815 XOR\n2 1 55815 55816 55814 AND\n2 1 55814 131816 131817 XOR\n2 1 78336 131817 55819 XOR\n2 1 81407 131940 55995 XOR\n2 1 76767 131940 55996 XOR\n2 1 55995 55996 55994 AND\n2 1 55994 131940 131941 XOR\n2 1 131972 131941 79872 XOR\n2 1 79872 78336 131848 XOR\n2 1 131848 131817 76544 XOR\n2 1 79872 131817 55818 XOR\n2 1 55818 55819 55817 AND\n2 1 55817 131817 131818 XOR\n2 1 78337 131818 55822 XOR\n2 1 81408 131941 55998 XOR\n2 1 76768 131941 55999 XOR\n2 1 55998 55999 55997 AND\n2 1 55997 131941 131942 XOR\n2 1 131973 131942 79873 XOR\n2 1 79873 78337 131849 XOR\n2 1 131849 131818 76545 XOR\n2 1 79873 131818 55821 XOR\n2 1 55821 55822 55820 AND\n2 1 55820 131818 131819 XOR\n2 1 78338 131819 55825 XOR\n2 1 81409 131942 56001 XOR\n2 1 76769 131942 56002 XOR\n2 1 56001 56002 56000 AND\n2 1 56000 131942 131943 XOR\n2 1 131974 131943 79874 XOR\n2 1 79874 78338 131850 XOR\n2 1 131850 131819 76546 XOR\n2 1 79874 131819 55824 XOR\n2 1 55824 55825 55823 AND\n2 1 55823 131819 131820 XOR\n2 1 78339 131820 55828 XOR\n2 1 81410 131943 56004 XOR\n2 1 76770 131943 56005 XOR\n2 1 56004 56005 56003 AND\n2 1 56003 131943 131944 XOR\n2 1 131975 131944 79875 XOR\n2 1 79875 78339 131851 XOR\n2 1 131851 131820 76547 XOR\n2 1 79875 131820 55827 XOR\n2 1 55827 55828 55826 AND\n2 1 55826 131820 131821 XOR\n2 1 78340 131821 55831 XOR\n2 1 81411 131944 56007 XOR\n2 1 76771 131944 56008 XOR\n2 1 56007 56008 56006 AND\n2 1 56006 131944 131945 XOR\n2 1 131976 131945 79876 XOR\n2 1 79876 78340 131852 XOR\n2 1 131852 131821 76548 XOR\n2 1 79876 131821 55830 XOR\n2 1 55830 55831 55829 AND\n2 1 55829 131821 131822 XOR\n2 1 78341 131822 55834 XOR\n2 1 81412 131945 56010 XOR\n2 1 76772 131945 56011 XOR\n2 1 56010 56011 56009 AND\n2 1 56009 131945 131946 XOR\n2 1 131977 131946 79877 XOR\n2 1 79877 78341 131853 XOR\n2 1 131853 131822 76549 XOR\n2 1 79877 131822 55833 XOR\n2 1 55833 55834 55832 AND\n2 1 55832 131822 131823 XOR\n2 1 78342 131823 55837 XOR\n2 1 81413 131946 56013 XOR\n2 1 76773 131946 56014 XOR\n2 1 56013 56014 56012 AND\n2 1 56012 131946 131947 XOR\n2 1 131978 131947 79878 XOR\n2 1 79878 78342 131854 XOR\n2 1 131854 131823 76550 XOR\n2 1 79878 131823 55836 XOR\n2 1 55836 55837 55835 AND\n2 1 55835 131823 131824 XOR\n2 1 78343 131824 55840 XOR\n2 1 81414 131947 56016 XOR\n2 1 76774 131947 56017 XOR\n2 1 56016 56017 56015 AND\n2 1 56015 131947 131948 XOR\n2 1 131979 131948 79879 XOR\n2 1 79879 78343 131855 XOR\n2 1 131855 131824 76551 XOR\n2 1 79879 131824 55839 XOR\n2 1 55839 55840 55838 AND\n2 1 55838 131824 131825 XOR\n2 1 78344 131825 55843 XOR\n2 1 81415 131948 56019 XOR\n2 1 76775 131948 56020 XOR\n",
"2 1 56019 56020 56018 AND\n2 1 56018 131948 131949 XOR\n2 1 131980 131949 79880 XOR\n2 1 79880 78344 131856 XOR\n2 1 131856 131825 76552 XOR\n2 1 79880 131825 55842 XOR\n2 1 55842 55843 55841 AND\n2 1 55841 131825 131826 XOR\n2 1 78345 131826 55846 XOR\n2 1 81416 131949 56022 XOR\n2 1 76776 131949 56023 XOR\n2 1 56022 56023 56021 AND\n2 1 56021 131949 131950 XOR\n2 1 131981 131950 79881 XOR\n2 1 79881 78345 131857 XOR\n2 1 131857 131826 76553 XOR\n2 1 79881 131826 55845 XOR\n2 1 55845 55846 55844 AND\n2 1 55844 131826 131827 XOR\n2 1 78346 131827 55849 XOR\n2 1 81417 131950 56025 XOR\n2 1 76777 131950 56026 XOR\n2 1 56025 56026 56024 AND\n2 1 56024 131950 131951 XOR\n2 1 131982 131951 79882 XOR\n2 1 79882 78346 131858 XOR\n2 1 131858 131827 76554 XOR\n2 1 79882 131827 55848 XOR\n2 1 55848 55849 55847 AND\n2 1 55847 131827 131828 XOR\n2 1 78347 131828 55852 XOR\n2 1 81418 131951 56028 XOR\n2 1 76778 131951 56029 XOR\n2 1 56028 56029 56027 AND\n2 1 56027 131951 131952 XOR\n2 1 131983 131952 79883 XOR\n2 1 79883 78347 131859 XOR\n2 1 131859 131828 76555 XOR\n2 1 79883 131828 55851 XOR\n2 1 55851 55852 55850 AND\n2 1 55850 131828 131829 XOR\n2 1 78348 131829 55855 XOR\n2 1 81419 131952 56031 XOR\n2 1 76779 131952 56032 XOR\n2 1 56031 56032 56030 AND\n2 1 56030 131952 131953 XOR\n2 1 131984 131953 79884 XOR\n2 1 79884 78348 131860 XOR\n2 1 131860 131829 76556 XOR\n2 1 79884 131829 55854 XOR\n2 1 55854 55855 55853 AND\n2 1 55853 131829 131830 XOR\n2 1 78349 131830 55858 XOR\n2 1 81420 131953 56034 XOR\n2 1 76780 131953 56035 XOR\n2 1 56034 56035 56033 AND\n2 1 56033 131953 131954 XOR\n2 1 131985 131954 79885 XOR\n2 1 79885 78349 131861 XOR\n2 1 131861 131830 76557 XOR\n2 1 79885 131830 55857 XOR\n2 1 55857 55858 55856 AND\n2 1 55856 131830 131831 XOR\n2 1 78350 131831 55861 XOR\n2 1 81421 131954 56037 XOR\n2 1 76781 131954 56038 XOR\n2 1 56037 56038 56036 AND\n2 1 56036 131954 131955 XOR\n2 1 131986 131955 79886 XOR\n2 1 79886 78350 131862 XOR\n2 1 131862 131831 76558 XOR\n2 1 79886 131831 55860 XOR\n2 1 55860 55861 55859 AND\n2 1 55859 131831 131832 XOR\n2 1 78351 131832 55864 XOR\n2 1 81422 131955 56040 XOR\n2 1 76782 131955 56041 XOR\n2 1 56040 56041 56039 AND\n2 1 56039 131955 131956 XOR\n2 1 131987 131956 79887 XOR\n2 1 79887 78351 131863 XOR\n2 1 131863 131832 76559 XOR\n2 1 79887 131832 55863 XOR\n2 1 55863 55864 55862 AND\n2 1 55862 131832 131833 XOR\n2 1 81423 131956 56043 XOR\n2 1 76783 131956 56044 XOR\n2 1 56043 56044 56042 AND\n2 1 56042 131956 131957 XOR\n2 1 131988 131957 79888 XOR\n2 1 79888 78352 131864 XOR\n2 1 131864 131833 76560 XOR\n2 1 76529 2656 94646 XOR\n2 1 76537 2664 117754 XOR\n2 1 76548 2675 117765 XOR\n2 1 76535 2662 117752 XOR\n2 1 76531 2658 117748 XOR\n2 1 76529 2656 117716 AND\n2 1 76538 2665 117755 XOR\n2 1 76544 2671 117761 XOR\n2 1 76545 2672 117762 XOR\n2 1 76541 2668 117758 XOR\n2 1 76534 2661 117751 XOR\n2 1 76551 2678 117768 XOR\n2 1 76552 2679 117769 XOR\n2 1 76554 2681 117771 XOR\n2 1 76555 2682 117772 XOR\n2 1 76542 2669 117759 XOR\n2 1 2657 117716 32530 XOR\n2 1 76530 117716 32529 XOR\n2 1 32529 32530 32528 AND\n2 1 32528 117716 117717 XOR\n2 1 76553 2680 117770 XOR\n2 1 117748 117717 94648 XOR\n2 1 76530 2657 117747 XOR\n2 1 117747 117716 94647 XOR\n2 1 76540 2667 117757 XOR\n2 1 76536 2663 117753 XOR\n2 1 76532 2659 117749 XOR\n2 1 76533 2660 117750 XOR\n2 1 76539 2666 117756 XOR\n2 1 76549 2676 117766 XOR\n2 1 76550 2677 117767 XOR\n2 1 76543 2670 117760 XOR\n2 1 76546 2673 117763 XOR\n2 1 76547 2674 117764 XOR\n2 1 76557 2684 117774 XOR\n2 1 76559 2686 117776 XOR\n",
"2 1 76556 2683 117773 XOR\n2 1 76560 2687 117777 XOR\n2 1 76558 2685 117775 XOR\n2 1 2658 117717 32533 XOR\n2 1 76531 117717 32532 XOR\n2 1 32532 32533 32531 AND\n2 1 32531 117717 117718 XOR\n2 1 2659 117718 32536 XOR\n2 1 76532 117718 32535 XOR\n2 1 32535 32536 32534 AND\n2 1 32534 117718 117719 XOR\n2 1 117750 117719 94650 XOR\n2 1 2660 117719 32539 XOR\n2 1 117749 117718 94649 XOR\n2 1 76533 117719 32538 XOR\n2 1 32538 32539 32537 AND\n2 1 32537 117719 117720 XOR\n2 1 76534 117720 32541 XOR\n2 1 117751 117720 94651 XOR\n2 1 2661 117720 32542 XOR\n2 1 32541 32542 32540 AND\n2 1 32540 117720 117721 XOR\n2 1 2662 117721 32545 XOR\n2 1 117752 117721 94652 XOR\n2 1 76535 117721 32544 XOR\n2 1 32544 32545 32543 AND\n2 1 32543 117721 117722 XOR\n2 1 2663 117722 32548 XOR\n2 1 117753 117722 94653 XOR\n2 1 76536 117722 32547 XOR\n2 1 32547 32548 32546 AND\n2 1 32546 117722 117723 XOR\n2 1 76537 117723 32550 XOR\n2 1 2664 117723 32551 XOR\n2 1 117754 117723 94654 XOR\n2 1 32550 32551 32549 AND\n2 1 32549 117723 117724 XOR\n2 1 76538 117724 32553 XOR\n2 1 2665 117724 32554 XOR\n2 1 32553 32554 32552 AND\n2 1 117755 117724 94655 XOR\n2 1 32552 117724 117725 XOR\n2 1 117756 117725 94656 XOR\n2 1 76539 117725 32556 XOR\n2 1 2666 117725 32557 XOR\n2 1 32556 32557 32555 AND\n2 1 32555 117725 117726 XOR\n2 1 76540 117726 32559 XOR\n2 1 117757 117726 94657 XOR\n2 1 2667 117726 32560 XOR\n2 1 32559 32560 32558 AND\n2 1 32558 117726 117727 XOR\n2 1 117758 117727 94658 XOR\n2 1 2668 117727 32563 XOR\n2 1 76541 117727 32562 XOR\n2 1 32562 32563 32561 AND\n2 1 32561 117727 117728 XOR\n2 1 117759 117728 94659 XOR\n2 1 2669 117728 32566 XOR\n2 1 76542 117728 32565 XOR\n2 1 32565 32566 32564 AND\n2 1 32564 117728 117729 XOR\n2 1 2670 117729 32569 XOR\n2 1 76543 117729 32568 XOR\n2 1 32568 32569 32567 AND\n2 1 32567 117729 117730 XOR\n2 1 117761 117730 94661 XOR\n2 1 2671 117730 32572 XOR\n2 1 117760 117729 94660 XOR\n2 1 76544 117730 32571 XOR\n2 1 32571 32572 32570 AND\n2 1 32570 117730 117731 XOR\n2 1 76545 117731 32574 XOR\n2 1 117762 117731 94662 XOR\n2 1 2672 117731 32575 XOR\n2 1 32574 32575 32573 AND\n2 1 32573 117731 117732 XOR\n2 1 2673 117732 32578 XOR\n2 1 117763 117732 94663 XOR\n2 1 76546 117732 32577 XOR\n2 1 32577 32578 32576 AND\n2 1 32576 117732 117733 XOR\n2 1 117764 117733 94664 XOR\n2 1 76547 117733 32580 XOR\n2 1 2674 117733 32581 XOR\n2 1 32580 32581 32579 AND\n2 1 32579 117733 117734 XOR\n2 1 117765 117734 94665 XOR\n2 1 76548 117734 32583 XOR\n2 1 2675 117734 32584 XOR\n2 1 32583 32584 32582 AND\n2 1 32582 117734 117735 XOR\n2 1 117766 117735 94666 XOR\n2 1 76549 117735 32586 XOR\n2 1 2676 117735 32587 XOR\n2 1 32586 32587 32585 AND\n2 1 32585 117735 117736 XOR\n2 1 117767 117736 94667 XOR\n2 1 76550 117736 32589 XOR\n2 1 2677 117736 32590 XOR\n2 1 32589 32590 32588 AND\n2 1 32588 117736 117737 XOR\n2 1 117768 117737 94668 XOR\n2 1 76551 117737 32592 XOR\n2 1 2678 117737 32593 XOR\n2 1 32592 32593 32591 AND\n2 1 32591 117737 117738 XOR\n2 1 117769 117738 94669 XOR\n2 1 76552 117738 32595 XOR\n2 1 2679 117738 32596 XOR\n2 1 32595 32596 32594 AND\n2 1 32594 117738 117739 XOR\n2 1 117770 117739 94670 XOR\n2 1 76553 117739 32598 XOR\n2 1 2680 117739 32599 XOR\n2 1 32598 32599 32597 AND\n2 1 32597 117739 117740 XOR\n2 1 76554 117740 32601 XOR\n2 1 117771 117740 94671 XOR\n2 1 2681 117740 32602 XOR\n2 1 32601 32602 32600 AND\n2 1 32600 117740 117741 XOR\n2 1 2682 117741 32605 XOR\n2 1 117772 117741 94672 XOR\n2 1 76555 117741 32604 XOR\n2 1 32604 32605 32603 AND\n2 1 32603 117741 117742 XOR\n2 1 76556 117742 32607 XOR\n",
"2 1 117773 117742 94673 XOR\n2 1 2683 117742 32608 XOR\n2 1 32607 32608 32606 AND\n2 1 32606 117742 117743 XOR\n2 1 76557 117743 32610 XOR\n2 1 2684 117743 32611 XOR\n2 1 117774 117743 94674 XOR\n2 1 32610 32611 32609 AND\n2 1 32609 117743 117744 XOR\n2 1 76558 117744 32613 XOR\n2 1 117775 117744 94675 XOR\n2 1 2685 117744 32614 XOR\n2 1 32613 32614 32612 AND\n2 1 32612 117744 117745 XOR\n2 1 2686 117745 32617 XOR\n2 1 117776 117745 94676 XOR\n2 1 76559 117745 32616 XOR\n2 1 32616 32617 32615 AND\n2 1 32615 117745 117746 XOR\n2 1 117777 117746 94677 XOR\n2 1 76545 76547 81360 XOR\n2 1 81360 76720 131616 XOR\n2 1 76544 76546 81359 XOR\n2 1 81359 76719 131615 XOR\n2 1 76543 76545 81358 XOR\n2 1 81358 76718 131614 XOR\n2 1 76542 76544 81357 XOR\n2 1 81357 76717 131613 XOR\n2 1 76541 76543 81356 XOR\n2 1 81356 76716 131612 XOR\n2 1 76540 76542 81355 XOR\n2 1 81355 76715 131611 XOR\n2 1 76539 76541 81354 XOR\n2 1 81354 76714 131610 XOR\n2 1 76538 76540 81353 XOR\n2 1 81353 76713 131609 XOR\n2 1 76537 76539 81352 XOR\n2 1 81352 76712 131608 XOR\n2 1 76536 76538 81351 XOR\n2 1 81351 76711 131607 XOR\n2 1 76535 76537 6727 XOR\n2 1 76534 76536 6726 XOR\n2 1 76533 76535 6725 XOR\n2 1 76532 76534 6724 XOR\n2 1 76531 76533 6723 XOR\n2 1 76530 76532 6722 XOR\n2 1 76529 76531 6721 XOR\n2 1 76560 76530 6720 XOR\n2 1 76559 76529 6719 XOR\n2 1 76558 76560 6718 XOR\n2 1 76557 76559 6717 XOR\n2 1 76556 76558 6716 XOR\n2 1 76555 76557 6715 XOR\n2 1 76554 76556 6714 XOR\n2 1 76553 76555 6713 XOR\n2 1 76552 76554 6712 XOR\n2 1 76551 76553 6711 XOR\n2 1 76550 76552 6710 XOR\n2 1 76549 76551 6709 XOR\n2 1 76548 76550 6708 XOR\n2 1 76547 76549 6707 XOR\n2 1 76546 76548 6706 XOR\n2 1 6727 76560 81350 XOR\n2 1 81350 76710 131606 XOR\n2 1 6726 76559 81349 XOR\n2 1 81349 76709 131605 XOR\n2 1 6725 76558 81348 XOR\n2 1 81348 76708 131604 XOR\n2 1 6724 76557 81347 XOR\n2 1 81347 76707 131603 XOR\n2 1 6723 76556 81346 XOR\n2 1 81346 76706 131602 XOR\n2 1 6722 76555 81345 XOR\n2 1 81345 76705 131601 XOR\n2 1 6721 76554 81344 XOR\n2 1 81344 76704 131600 XOR\n2 1 6720 76553 81343 XOR\n2 1 81343 76703 131599 XOR\n2 1 6719 76552 81342 XOR\n2 1 81342 76702 131598 XOR\n2 1 6718 76551 81341 XOR\n2 1 81341 76701 131597 XOR\n2 1 6717 76550 81340 XOR\n2 1 81340 76700 131596 XOR\n2 1 6716 76549 81339 XOR\n2 1 81339 76699 131595 XOR\n2 1 6715 76548 81338 XOR\n2 1 81338 76698 131594 XOR\n2 1 6714 76547 81337 XOR\n2 1 81337 76697 131593 XOR\n2 1 6713 76546 81336 XOR\n2 1 81336 76696 131592 XOR\n2 1 6712 76545 81335 XOR\n2 1 81335 76695 131591 XOR\n2 1 6711 76544 81334 XOR\n2 1 81334 76694 131590 XOR\n2 1 6710 76543 81333 XOR\n2 1 81333 76693 131589 XOR\n2 1 6709 76542 81332 XOR\n2 1 81332 76692 131588 XOR\n2 1 6708 76541 81331 XOR\n2 1 81331 76691 131587 XOR\n2 1 6707 76540 81330 XOR\n2 1 81330 76690 131586 XOR\n2 1 6706 76539 81329 XOR\n2 1 81329 76689 131555 AND\n2 1 81329 76689 79793 XOR\n2 1 79793 78257 131431 AND\n2 1 79793 78257 76465 XOR\n2 1 78258 131431 55237 XOR\n2 1 131586 131555 79794 XOR\n2 1 79794 78258 131462 XOR\n2 1 131462 131431 76466 XOR\n2 1 79794 131431 55236 XOR\n2 1 55236 55237 55235 AND\n2 1 55235 131431 131432 XOR\n2 1 78259 131432 55240 XOR\n2 1 81330 131555 55416 XOR\n2 1 76690 131555 55417 XOR\n2 1 55416 55417 55415 AND\n2 1 55415 131555 131556 XOR\n2 1 131587 131556 79795 XOR\n2 1 79795 78259 131463 XOR\n2 1 131463 131432 76467 XOR\n2 1 79795 131432 55239 XOR\n2 1 55239 55240 55238 AND\n2 1 55238 131432 131433 XOR\n2 1 78260 131433 55243 XOR\n",
"2 1 81331 131556 55419 XOR\n2 1 76691 131556 55420 XOR\n2 1 55419 55420 55418 AND\n2 1 55418 131556 131557 XOR\n2 1 131588 131557 79796 XOR\n2 1 79796 78260 131464 XOR\n2 1 131464 131433 76468 XOR\n2 1 79796 131433 55242 XOR\n2 1 55242 55243 55241 AND\n2 1 55241 131433 131434 XOR\n2 1 78261 131434 55246 XOR\n2 1 81332 131557 55422 XOR\n2 1 76692 131557 55423 XOR\n2 1 55422 55423 55421 AND\n2 1 55421 131557 131558 XOR\n2 1 131589 131558 79797 XOR\n2 1 79797 78261 131465 XOR\n2 1 131465 131434 76469 XOR\n2 1 79797 131434 55245 XOR\n2 1 55245 55246 55244 AND\n2 1 55244 131434 131435 XOR\n2 1 78262 131435 55249 XOR\n2 1 81333 131558 55425 XOR\n2 1 76693 131558 55426 XOR\n2 1 55425 55426 55424 AND\n2 1 55424 131558 131559 XOR\n2 1 131590 131559 79798 XOR\n2 1 79798 78262 131466 XOR\n2 1 131466 131435 76470 XOR\n2 1 79798 131435 55248 XOR\n2 1 55248 55249 55247 AND\n2 1 55247 131435 131436 XOR\n2 1 78263 131436 55252 XOR\n2 1 81334 131559 55428 XOR\n2 1 76694 131559 55429 XOR\n2 1 55428 55429 55427 AND\n2 1 55427 131559 131560 XOR\n2 1 131591 131560 79799 XOR\n2 1 79799 78263 131467 XOR\n2 1 131467 131436 76471 XOR\n2 1 79799 131436 55251 XOR\n2 1 55251 55252 55250 AND\n2 1 55250 131436 131437 XOR\n2 1 78264 131437 55255 XOR\n2 1 81335 131560 55431 XOR\n2 1 76695 131560 55432 XOR\n2 1 55431 55432 55430 AND\n2 1 55430 131560 131561 XOR\n2 1 131592 131561 79800 XOR\n2 1 79800 78264 131468 XOR\n2 1 131468 131437 76472 XOR\n2 1 79800 131437 55254 XOR\n2 1 55254 55255 55253 AND\n2 1 55253 131437 131438 XOR\n2 1 78265 131438 55258 XOR\n2 1 81336 131561 55434 XOR\n2 1 76696 131561 55435 XOR\n2 1 55434 55435 55433 AND\n2 1 55433 131561 131562 XOR\n2 1 131593 131562 79801 XOR\n2 1 79801 78265 131469 XOR\n2 1 131469 131438 76473 XOR\n2 1 79801 131438 55257 XOR\n2 1 55257 55258 55256 AND\n2 1 55256 131438 131439 XOR\n2 1 78266 131439 55261 XOR\n2 1 81337 131562 55437 XOR\n2 1 76697 131562 55438 XOR\n2 1 55437 55438 55436 AND\n2 1 55436 131562 131563 XOR\n2 1 131594 131563 79802 XOR\n2 1 79802 78266 131470 XOR\n2 1 131470 131439 76474 XOR\n2 1 79802 131439 55260 XOR\n2 1 55260 55261 55259 AND\n2 1 55259 131439 131440 XOR\n2 1 78267 131440 55264 XOR\n2 1 81338 131563 55440 XOR\n2 1 76698 131563 55441 XOR\n2 1 55440 55441 55439 AND\n2 1 55439 131563 131564 XOR\n2 1 131595 131564 79803 XOR\n2 1 79803 78267 131471 XOR\n2 1 131471 131440 76475 XOR\n2 1 79803 131440 55263 XOR\n2 1 55263 55264 55262 AND\n2 1 55262 131440 131441 XOR\n2 1 78268 131441 55267 XOR\n2 1 81339 131564 55443 XOR\n2 1 76699 131564 55444 XOR\n2 1 55443 55444 55442 AND\n2 1 55442 131564 131565 XOR\n2 1 131596 131565 79804 XOR\n2 1 79804 78268 131472 XOR\n2 1 131472 131441 76476 XOR\n2 1 79804 131441 55266 XOR\n2 1 55266 55267 55265 AND\n2 1 55265 131441 131442 XOR\n2 1 78269 131442 55270 XOR\n2 1 81340 131565 55446 XOR\n2 1 76700 131565 55447 XOR\n2 1 55446 55447 55445 AND\n2 1 55445 131565 131566 XOR\n2 1 131597 131566 79805 XOR\n2 1 79805 78269 131473 XOR\n2 1 131473 131442 76477 XOR\n2 1 79805 131442 55269 XOR\n2 1 55269 55270 55268 AND\n2 1 55268 131442 131443 XOR\n2 1 78270 131443 55273 XOR\n2 1 81341 131566 55449 XOR\n2 1 76701 131566 55450 XOR\n2 1 55449 55450 55448 AND\n2 1 55448 131566 131567 XOR\n2 1 131598 131567 79806 XOR\n2 1 79806 78270 131474 XOR\n2 1 131474 131443 76478 XOR\n2 1 79806 131443 55272 XOR\n2 1 55272 55273 55271 AND\n2 1 55271 131443 131444 XOR\n2 1 78271 131444 55276 XOR\n2 1 81342 131567 55452 XOR\n2 1 76702 131567 55453 XOR\n2 1 55452 55453 55451 AND\n2 1 55451 131567 131568 XOR\n2 1 131599 131568 79807 XOR\n2 1 79807 78271 131475 XOR\n2 1 131475 131444 76479 XOR\n",
"2 1 79807 131444 55275 XOR\n2 1 55275 55276 55274 AND\n2 1 55274 131444 131445 XOR\n2 1 78272 131445 55279 XOR\n2 1 81343 131568 55455 XOR\n2 1 76703 131568 55456 XOR\n2 1 55455 55456 55454 AND\n2 1 55454 131568 131569 XOR\n2 1 131600 131569 79808 XOR\n2 1 79808 78272 131476 XOR\n2 1 131476 131445 76480 XOR\n2 1 79808 131445 55278 XOR\n2 1 55278 55279 55277 AND\n2 1 55277 131445 131446 XOR\n2 1 78273 131446 55282 XOR\n2 1 81344 131569 55458 XOR\n2 1 76704 131569 55459 XOR\n2 1 55458 55459 55457 AND\n2 1 55457 131569 131570 XOR\n2 1 131601 131570 79809 XOR\n2 1 79809 78273 131477 XOR\n2 1 131477 131446 76481 XOR\n2 1 79809 131446 55281 XOR\n2 1 55281 55282 55280 AND\n2 1 55280 131446 131447 XOR\n2 1 78274 131447 55285 XOR\n2 1 81345 131570 55461 XOR\n2 1 76705 131570 55462 XOR\n2 1 55461 55462 55460 AND\n2 1 55460 131570 131571 XOR\n2 1 131602 131571 79810 XOR\n2 1 79810 78274 131478 XOR\n2 1 131478 131447 76482 XOR\n2 1 79810 131447 55284 XOR\n2 1 55284 55285 55283 AND\n2 1 55283 131447 131448 XOR\n2 1 78275 131448 55288 XOR\n2 1 81346 131571 55464 XOR\n2 1 76706 131571 55465 XOR\n2 1 55464 55465 55463 AND\n2 1 55463 131571 131572 XOR\n2 1 131603 131572 79811 XOR\n2 1 79811 78275 131479 XOR\n2 1 131479 131448 76483 XOR\n2 1 79811 131448 55287 XOR\n2 1 55287 55288 55286 AND\n2 1 55286 131448 131449 XOR\n2 1 78276 131449 55291 XOR\n2 1 81347 131572 55467 XOR\n2 1 76707 131572 55468 XOR\n2 1 55467 55468 55466 AND\n2 1 55466 131572 131573 XOR\n2 1 131604 131573 79812 XOR\n2 1 79812 78276 131480 XOR\n2 1 131480 131449 76484 XOR\n2 1 79812 131449 55290 XOR\n2 1 55290 55291 55289 AND\n2 1 55289 131449 131450 XOR\n2 1 78277 131450 55294 XOR\n2 1 81348 131573 55470 XOR\n2 1 76708 131573 55471 XOR\n2 1 55470 55471 55469 AND\n2 1 55469 131573 131574 XOR\n2 1 131605 131574 79813 XOR\n2 1 79813 78277 131481 XOR\n2 1 131481 131450 76485 XOR\n2 1 79813 131450 55293 XOR\n2 1 55293 55294 55292 AND\n2 1 55292 131450 131451 XOR\n2 1 78278 131451 55297 XOR\n2 1 81349 131574 55473 XOR\n2 1 76709 131574 55474 XOR\n2 1 55473 55474 55472 AND\n2 1 55472 131574 131575 XOR\n2 1 131606 131575 79814 XOR\n2 1 79814 78278 131482 XOR\n2 1 131482 131451 76486 XOR\n2 1 79814 131451 55296 XOR\n2 1 55296 55297 55295 AND\n2 1 55295 131451 131452 XOR\n2 1 78279 131452 55300 XOR\n2 1 81350 131575 55476 XOR\n2 1 76710 131575 55477 XOR\n2 1 55476 55477 55475 AND\n2 1 55475 131575 131576 XOR\n2 1 131607 131576 79815 XOR\n2 1 79815 78279 131483 XOR\n2 1 131483 131452 76487 XOR\n2 1 79815 131452 55299 XOR\n2 1 55299 55300 55298 AND\n2 1 55298 131452 131453 XOR\n2 1 78280 131453 55303 XOR\n2 1 81351 131576 55479 XOR\n2 1 76711 131576 55480 XOR\n2 1 55479 55480 55478 AND\n2 1 55478 131576 131577 XOR\n2 1 131608 131577 79816 XOR\n2 1 79816 78280 131484 XOR\n2 1 131484 131453 76488 XOR\n2 1 79816 131453 55302 XOR\n2 1 55302 55303 55301 AND\n2 1 55301 131453 131454 XOR\n2 1 78281 131454 55306 XOR\n2 1 81352 131577 55482 XOR\n2 1 76712 131577 55483 XOR\n2 1 55482 55483 55481 AND\n2 1 55481 131577 131578 XOR\n2 1 131609 131578 79817 XOR\n2 1 79817 78281 131485 XOR\n2 1 131485 131454 76489 XOR\n2 1 79817 131454 55305 XOR\n2 1 55305 55306 55304 AND\n2 1 55304 131454 131455 XOR\n2 1 78282 131455 55309 XOR\n2 1 81353 131578 55485 XOR\n2 1 76713 131578 55486 XOR\n2 1 55485 55486 55484 AND\n2 1 55484 131578 131579 XOR\n2 1 131610 131579 79818 XOR\n2 1 79818 78282 131486 XOR\n2 1 131486 131455 76490 XOR\n2 1 79818 131455 55308 XOR\n2 1 55308 55309 55307 AND\n2 1 55307 131455 131456 XOR\n2 1 78283 131456 55312 XOR\n2 1 81354 131579 55488 XOR\n2 1 76714 131579 55489 XOR\n2 1 55488 55489 55487 AND\n",
"2 1 55487 131579 131580 XOR\n2 1 131611 131580 79819 XOR\n2 1 79819 78283 131487 XOR\n2 1 131487 131456 76491 XOR\n2 1 79819 131456 55311 XOR\n2 1 55311 55312 55310 AND\n2 1 55310 131456 131457 XOR\n2 1 78284 131457 55315 XOR\n2 1 81355 131580 55491 XOR\n2 1 76715 131580 55492 XOR\n2 1 55491 55492 55490 AND\n2 1 55490 131580 131581 XOR\n2 1 131612 131581 79820 XOR\n2 1 79820 78284 131488 XOR\n2 1 131488 131457 76492 XOR\n2 1 79820 131457 55314 XOR\n2 1 55314 55315 55313 AND\n2 1 55313 131457 131458 XOR\n2 1 78285 131458 55318 XOR\n2 1 81356 131581 55494 XOR\n2 1 76716 131581 55495 XOR\n2 1 55494 55495 55493 AND\n2 1 55493 131581 131582 XOR\n2 1 131613 131582 79821 XOR\n2 1 79821 78285 131489 XOR\n2 1 131489 131458 76493 XOR\n2 1 79821 131458 55317 XOR\n2 1 55317 55318 55316 AND\n2 1 55316 131458 131459 XOR\n2 1 78286 131459 55321 XOR\n2 1 81357 131582 55497 XOR\n2 1 76717 131582 55498 XOR\n2 1 55497 55498 55496 AND\n2 1 55496 131582 131583 XOR\n2 1 131614 131583 79822 XOR\n2 1 79822 78286 131490 XOR\n2 1 131490 131459 76494 XOR\n2 1 79822 131459 55320 XOR\n2 1 55320 55321 55319 AND\n2 1 55319 131459 131460 XOR\n2 1 78287 131460 55324 XOR\n2 1 81358 131583 55500 XOR\n2 1 76718 131583 55501 XOR\n2 1 55500 55501 55499 AND\n2 1 55499 131583 131584 XOR\n2 1 131615 131584 79823 XOR\n2 1 79823 78287 131491 XOR\n2 1 131491 131460 76495 XOR\n2 1 79823 131460 55323 XOR\n2 1 55323 55324 55322 AND\n2 1 55322 131460 131461 XOR\n2 1 81359 131584 55503 XOR\n2 1 76719 131584 55504 XOR\n2 1 55503 55504 55502 AND\n2 1 55502 131584 131585 XOR\n2 1 131616 131585 79824 XOR\n2 1 79824 78288 131492 XOR\n2 1 131492 131461 76496 XOR\n2 1 76481 76483 81296 XOR\n2 1 76480 76482 81295 XOR\n2 1 76479 76481 81294 XOR\n2 1 76478 76480 81293 XOR\n2 1 76477 76479 81292 XOR\n2 1 76476 76478 81291 XOR\n2 1 76475 76477 81290 XOR\n2 1 76474 76476 81289 XOR\n2 1 76473 76475 81288 XOR\n2 1 76472 76474 81287 XOR\n2 1 76471 76473 6683 XOR\n2 1 76470 76472 6682 XOR\n2 1 76469 76471 6681 XOR\n2 1 76468 76470 6680 XOR\n2 1 76467 76469 6679 XOR\n2 1 76466 76468 6678 XOR\n2 1 76465 76467 6677 XOR\n2 1 76496 76466 6676 XOR\n2 1 76495 76465 6675 XOR\n2 1 76494 76496 6674 XOR\n2 1 76493 76495 6673 XOR\n2 1 76492 76494 6672 XOR\n2 1 76491 76493 6671 XOR\n2 1 76490 76492 6670 XOR\n2 1 76489 76491 6669 XOR\n2 1 76488 76490 6668 XOR\n2 1 76487 76489 6667 XOR\n2 1 76486 76488 6666 XOR\n2 1 76485 76487 6665 XOR\n2 1 76484 76486 6664 XOR\n2 1 76483 76485 6663 XOR\n2 1 76482 76484 6662 XOR\n2 1 6683 76496 81286 XOR\n2 1 6682 76495 81285 XOR\n2 1 6681 76494 81284 XOR\n2 1 6680 76493 81283 XOR\n2 1 6679 76492 81282 XOR\n2 1 6678 76491 81281 XOR\n2 1 6677 76490 81280 XOR\n2 1 6676 76489 81279 XOR\n2 1 6675 76488 81278 XOR\n2 1 6674 76487 81277 XOR\n2 1 6673 76486 81276 XOR\n2 1 6672 76485 81275 XOR\n2 1 6671 76484 81274 XOR\n2 1 6670 76483 81273 XOR\n2 1 6669 76482 81272 XOR\n2 1 6668 76481 81271 XOR\n2 1 6667 76480 81270 XOR\n2 1 6666 76479 81269 XOR\n2 1 6665 76478 81268 XOR\n2 1 6664 76477 81267 XOR\n2 1 6663 76476 81266 XOR\n2 1 6662 76475 81265 XOR\n2 1 77111 77122 83056 XOR\n2 1 83056 31 132484 XOR\n2 1 77110 77121 83055 XOR\n2 1 83055 30 132483 XOR\n2 1 77109 77120 83054 XOR\n2 1 83054 29 132482 XOR\n2 1 77108 77119 5705 XOR\n2 1 77107 77118 5704 XOR\n2 1 77106 77117 5703 XOR\n2 1 77105 77116 5702 XOR\n2 1 77136 77115 5701 XOR\n2 1 77135 77114 5700 XOR\n2 1 77134 77113 5699 XOR\n2 1 77133 77112 5698 XOR\n2 1 77132 77111 5697 XOR\n2 1 77131 77110 5696 XOR\n",
"2 1 77130 77109 5695 XOR\n2 1 77129 77108 5694 XOR\n2 1 77128 77107 5693 XOR\n2 1 77127 77106 5692 XOR\n2 1 77126 77105 5691 XOR\n2 1 77125 77136 5690 XOR\n2 1 77124 77135 5689 XOR\n2 1 77123 77134 5688 XOR\n2 1 77122 77133 5687 XOR\n2 1 77121 77132 5686 XOR\n2 1 77120 77131 5685 XOR\n2 1 77119 77130 5684 XOR\n2 1 77118 77129 5683 XOR\n2 1 77117 77128 5682 XOR\n2 1 77116 77127 5681 XOR\n2 1 77115 77126 5680 XOR\n2 1 77114 77125 5679 XOR\n2 1 77113 77124 5678 XOR\n2 1 77112 77123 5677 XOR\n2 1 5705 77136 83053 XOR\n2 1 83053 28 132481 XOR\n2 1 5704 77135 83052 XOR\n2 1 83052 27 132480 XOR\n2 1 5703 77134 83051 XOR\n2 1 83051 26 132479 XOR\n2 1 5702 77133 83050 XOR\n2 1 83050 25 132478 XOR\n2 1 5701 77132 83049 XOR\n2 1 83049 24 132477 XOR\n2 1 5700 77131 83048 XOR\n2 1 83048 23 132476 XOR\n2 1 5699 77130 83047 XOR\n2 1 83047 22 132475 XOR\n2 1 5698 77129 83046 XOR\n2 1 83046 21 132474 XOR\n2 1 5697 77128 83045 XOR\n2 1 83045 20 132473 XOR\n2 1 5696 77127 83044 XOR\n2 1 83044 19 132472 XOR\n2 1 5695 77126 83043 XOR\n2 1 83043 18 132471 XOR\n2 1 5694 77125 83042 XOR\n2 1 83042 17 132470 XOR\n2 1 5693 77124 83041 XOR\n2 1 83041 16 132469 XOR\n2 1 5692 77123 83040 XOR\n2 1 83040 15 132468 XOR\n2 1 5691 77122 83039 XOR\n2 1 83039 14 132467 XOR\n2 1 5690 77121 83038 XOR\n2 1 83038 13 132466 XOR\n2 1 5689 77120 83037 XOR\n2 1 83037 12 132465 XOR\n2 1 5688 77119 83036 XOR\n2 1 83036 11 132464 XOR\n2 1 5687 77118 83035 XOR\n2 1 83035 10 132463 XOR\n2 1 5686 77117 83034 XOR\n2 1 83034 9 132462 XOR\n2 1 5685 77116 83033 XOR\n2 1 83033 8 132461 XOR\n2 1 5684 77115 83032 XOR\n2 1 83032 7 132460 XOR\n2 1 5683 77114 83031 XOR\n2 1 83031 6 132459 XOR\n2 1 5682 77113 83030 XOR\n2 1 83030 5 132458 XOR\n2 1 5681 77112 83029 XOR\n2 1 83029 4 132457 XOR\n2 1 5680 77111 83028 XOR\n2 1 83028 3 132456 XOR\n2 1 5679 77110 83027 XOR\n2 1 83027 2 132455 XOR\n2 1 5678 77109 83026 XOR\n2 1 83026 1 132454 XOR\n2 1 5677 77108 83025 XOR\n2 1 83025 0 132423 AND\n2 1 83025 0 78417 XOR\n2 1 79953 78417 132361 AND\n2 1 79953 78417 76625 XOR\n2 1 81265 76625 131183 AND\n2 1 81265 76625 79729 XOR\n2 1 81266 131183 54876 XOR\n2 1 79954 132361 56586 XOR\n2 1 132454 132423 78418 XOR\n2 1 79954 78418 132392 XOR\n2 1 132392 132361 76626 XOR\n2 1 76626 3265 118506 XOR\n2 1 81266 76626 131214 XOR\n2 1 131214 131183 79730 XOR\n2 1 76626 131183 54877 XOR\n2 1 54876 54877 54875 AND\n2 1 54875 131183 131184 XOR\n2 1 81267 131184 54879 XOR\n2 1 78418 132361 56587 XOR\n2 1 56586 56587 56585 AND\n2 1 56585 132361 132362 XOR\n2 1 79955 132362 56589 XOR\n2 1 83026 132423 56676 XOR\n2 1 1 132423 56677 XOR\n2 1 56676 56677 56675 AND\n2 1 56675 132423 132424 XOR\n2 1 132455 132424 78419 XOR\n2 1 79955 78419 132393 XOR\n2 1 132393 132362 76627 XOR\n2 1 81267 76627 131215 XOR\n2 1 131215 131184 79731 XOR\n2 1 76627 131184 54880 XOR\n2 1 54879 54880 54878 AND\n2 1 54878 131184 131185 XOR\n2 1 81268 131185 54882 XOR\n2 1 78419 132362 56590 XOR\n2 1 56589 56590 56588 AND\n2 1 56588 132362 132363 XOR\n2 1 79956 132363 56592 XOR\n2 1 83027 132424 56679 XOR\n2 1 2 132424 56680 XOR\n2 1 56679 56680 56678 AND\n2 1 56678 132424 132425 XOR\n2 1 132456 132425 78420 XOR\n2 1 79956 78420 132394 XOR\n2 1 132394 132363 76628 XOR\n2 1 81268 76628 131216 XOR\n2 1 131216 131185 79732 XOR\n2 1 76628 131185 54883 XOR\n2 1 54882 54883 54881 AND\n2 1 54881 131185 131186 XOR\n2 1 81269 131186 54885 XOR\n",
"2 1 78420 132363 56593 XOR\n2 1 56592 56593 56591 AND\n2 1 56591 132363 132364 XOR\n2 1 79957 132364 56595 XOR\n2 1 83028 132425 56682 XOR\n2 1 3 132425 56683 XOR\n2 1 56682 56683 56681 AND\n2 1 56681 132425 132426 XOR\n2 1 132457 132426 78421 XOR\n2 1 79957 78421 132395 XOR\n2 1 132395 132364 76629 XOR\n2 1 76629 3268 118509 XOR\n2 1 81269 76629 131217 XOR\n2 1 131217 131186 79733 XOR\n2 1 76629 131186 54886 XOR\n2 1 54885 54886 54884 AND\n2 1 54884 131186 131187 XOR\n2 1 81270 131187 54888 XOR\n2 1 78421 132364 56596 XOR\n2 1 56595 56596 56594 AND\n2 1 56594 132364 132365 XOR\n2 1 79958 132365 56598 XOR\n2 1 83029 132426 56685 XOR\n2 1 4 132426 56686 XOR\n2 1 56685 56686 56684 AND\n2 1 56684 132426 132427 XOR\n2 1 132458 132427 78422 XOR\n2 1 79958 78422 132396 XOR\n2 1 132396 132365 76630 XOR\n2 1 76630 3269 118510 XOR\n2 1 81270 76630 131218 XOR\n2 1 131218 131187 79734 XOR\n2 1 76630 131187 54889 XOR\n2 1 54888 54889 54887 AND\n2 1 54887 131187 131188 XOR\n2 1 81271 131188 54891 XOR\n2 1 78422 132365 56599 XOR\n2 1 56598 56599 56597 AND\n2 1 56597 132365 132366 XOR\n2 1 79959 132366 56601 XOR\n2 1 83030 132427 56688 XOR\n2 1 5 132427 56689 XOR\n2 1 56688 56689 56687 AND\n2 1 56687 132427 132428 XOR\n2 1 132459 132428 78423 XOR\n2 1 79959 78423 132397 XOR\n2 1 132397 132366 76631 XOR\n2 1 81271 76631 131219 XOR\n2 1 131219 131188 79735 XOR\n2 1 76631 131188 54892 XOR\n2 1 54891 54892 54890 AND\n2 1 54890 131188 131189 XOR\n2 1 81272 131189 54894 XOR\n2 1 78423 132366 56602 XOR\n2 1 56601 56602 56600 AND\n2 1 56600 132366 132367 XOR\n2 1 79960 132367 56604 XOR\n2 1 83031 132428 56691 XOR\n2 1 6 132428 56692 XOR\n2 1 56691 56692 56690 AND\n2 1 56690 132428 132429 XOR\n2 1 132460 132429 78424 XOR\n2 1 79960 78424 132398 XOR\n2 1 132398 132367 76632 XOR\n2 1 76632 3271 118512 XOR\n2 1 81272 76632 131220 XOR\n2 1 131220 131189 79736 XOR\n2 1 76632 131189 54895 XOR\n2 1 54894 54895 54893 AND\n2 1 54893 131189 131190 XOR\n2 1 81273 131190 54897 XOR\n2 1 78424 132367 56605 XOR\n2 1 56604 56605 56603 AND\n2 1 56603 132367 132368 XOR\n2 1 79961 132368 56607 XOR\n2 1 83032 132429 56694 XOR\n2 1 7 132429 56695 XOR\n2 1 56694 56695 56693 AND\n2 1 56693 132429 132430 XOR\n2 1 132461 132430 78425 XOR\n2 1 79961 78425 132399 XOR\n2 1 132399 132368 76633 XOR\n2 1 76633 3272 118513 XOR\n2 1 81273 76633 131221 XOR\n2 1 131221 131190 79737 XOR\n2 1 76633 131190 54898 XOR\n2 1 54897 54898 54896 AND\n2 1 54896 131190 131191 XOR\n2 1 81274 131191 54900 XOR\n2 1 78425 132368 56608 XOR\n2 1 56607 56608 56606 AND\n2 1 56606 132368 132369 XOR\n2 1 79962 132369 56610 XOR\n2 1 83033 132430 56697 XOR\n2 1 8 132430 56698 XOR\n2 1 56697 56698 56696 AND\n2 1 56696 132430 132431 XOR\n2 1 132462 132431 78426 XOR\n2 1 79962 78426 132400 XOR\n2 1 132400 132369 76634 XOR\n2 1 76634 3273 118514 XOR\n2 1 81274 76634 131222 XOR\n2 1 131222 131191 79738 XOR\n2 1 76634 131191 54901 XOR\n2 1 54900 54901 54899 AND\n2 1 54899 131191 131192 XOR\n2 1 81275 131192 54903 XOR\n2 1 78426 132369 56611 XOR\n2 1 56610 56611 56609 AND\n2 1 56609 132369 132370 XOR\n2 1 79963 132370 56613 XOR\n2 1 83034 132431 56700 XOR\n2 1 9 132431 56701 XOR\n2 1 56700 56701 56699 AND\n2 1 56699 132431 132432 XOR\n2 1 132463 132432 78427 XOR\n2 1 79963 78427 132401 XOR\n2 1 132401 132370 76635 XOR\n2 1 76635 3274 118515 XOR\n2 1 81275 76635 131223 XOR\n2 1 131223 131192 79739 XOR\n2 1 76635 131192 54904 XOR\n2 1 54903 54904 54902 AND\n2 1 54902 131192 131193 XOR\n2 1 81276 131193 54906 XOR\n2 1 78427 132370 56614 XOR\n2 1 56613 56614 56612 AND\n2 1 56612 132370 132371 XOR\n",
"2 1 79964 132371 56616 XOR\n2 1 83035 132432 56703 XOR\n2 1 10 132432 56704 XOR\n2 1 56703 56704 56702 AND\n2 1 56702 132432 132433 XOR\n2 1 132464 132433 78428 XOR\n2 1 79964 78428 132402 XOR\n2 1 132402 132371 76636 XOR\n2 1 76636 3275 118516 XOR\n2 1 81276 76636 131224 XOR\n2 1 131224 131193 79740 XOR\n2 1 76636 131193 54907 XOR\n2 1 54906 54907 54905 AND\n2 1 54905 131193 131194 XOR\n2 1 81277 131194 54909 XOR\n2 1 78428 132371 56617 XOR\n2 1 56616 56617 56615 AND\n2 1 56615 132371 132372 XOR\n2 1 79965 132372 56619 XOR\n2 1 83036 132433 56706 XOR\n2 1 11 132433 56707 XOR\n2 1 56706 56707 56705 AND\n2 1 56705 132433 132434 XOR\n2 1 132465 132434 78429 XOR\n2 1 79965 78429 132403 XOR\n2 1 132403 132372 76637 XOR\n2 1 76637 3276 118517 XOR\n2 1 81277 76637 131225 XOR\n2 1 131225 131194 79741 XOR\n2 1 76637 131194 54910 XOR\n2 1 54909 54910 54908 AND\n2 1 54908 131194 131195 XOR\n2 1 81278 131195 54912 XOR\n2 1 78429 132372 56620 XOR\n2 1 56619 56620 56618 AND\n2 1 56618 132372 132373 XOR\n2 1 79966 132373 56622 XOR\n2 1 83037 132434 56709 XOR\n2 1 12 132434 56710 XOR\n2 1 56709 56710 56708 AND\n2 1 56708 132434 132435 XOR\n2 1 132466 132435 78430 XOR\n2 1 79966 78430 132404 XOR\n2 1 132404 132373 76638 XOR\n2 1 76638 3277 118518 XOR\n2 1 81278 76638 131226 XOR\n2 1 131226 131195 79742 XOR\n2 1 76638 131195 54913 XOR\n2 1 54912 54913 54911 AND\n2 1 54911 131195 131196 XOR\n2 1 81279 131196 54915 XOR\n2 1 78430 132373 56623 XOR\n2 1 56622 56623 56621 AND\n2 1 56621 132373 132374 XOR\n2 1 79967 132374 56625 XOR\n2 1 83038 132435 56712 XOR\n2 1 13 132435 56713 XOR\n2 1 56712 56713 56711 AND\n2 1 56711 132435 132436 XOR\n2 1 132467 132436 78431 XOR\n2 1 79967 78431 132405 XOR\n2 1 132405 132374 76639 XOR\n2 1 76639 3278 118519 XOR\n2 1 81279 76639 131227 XOR\n2 1 131227 131196 79743 XOR\n2 1 76639 131196 54916 XOR\n2 1 54915 54916 54914 AND\n2 1 54914 131196 131197 XOR\n2 1 81280 131197 54918 XOR\n2 1 78431 132374 56626 XOR\n2 1 56625 56626 56624 AND\n2 1 56624 132374 132375 XOR\n2 1 79968 132375 56628 XOR\n2 1 83039 132436 56715 XOR\n2 1 14 132436 56716 XOR\n2 1 56715 56716 56714 AND\n2 1 56714 132436 132437 XOR\n2 1 132468 132437 78432 XOR\n2 1 79968 78432 132406 XOR\n2 1 132406 132375 76640 XOR\n2 1 76640 3279 118520 XOR\n2 1 81280 76640 131228 XOR\n2 1 131228 131197 79744 XOR\n2 1 76640 131197 54919 XOR\n2 1 54918 54919 54917 AND\n2 1 54917 131197 131198 XOR\n2 1 81281 131198 54921 XOR\n2 1 78432 132375 56629 XOR\n2 1 56628 56629 56627 AND\n2 1 56627 132375 132376 XOR\n2 1 79969 132376 56631 XOR\n2 1 83040 132437 56718 XOR\n2 1 15 132437 56719 XOR\n2 1 56718 56719 56717 AND\n2 1 56717 132437 132438 XOR\n2 1 132469 132438 78433 XOR\n2 1 79969 78433 132407 XOR\n2 1 132407 132376 76641 XOR\n2 1 81281 76641 131229 XOR\n2 1 131229 131198 79745 XOR\n2 1 76641 131198 54922 XOR\n2 1 54921 54922 54920 AND\n2 1 54920 131198 131199 XOR\n2 1 81282 131199 54924 XOR\n2 1 78433 132376 56632 XOR\n2 1 56631 56632 56630 AND\n2 1 56630 132376 132377 XOR\n2 1 79970 132377 56634 XOR\n2 1 83041 132438 56721 XOR\n2 1 16 132438 56722 XOR\n2 1 56721 56722 56720 AND\n2 1 56720 132438 132439 XOR\n2 1 132470 132439 78434 XOR\n2 1 79970 78434 132408 XOR\n2 1 132408 132377 76642 XOR\n2 1 81282 76642 131230 XOR\n2 1 131230 131199 79746 XOR\n2 1 76642 131199 54925 XOR\n2 1 54924 54925 54923 AND\n2 1 54923 131199 131200 XOR\n2 1 81283 131200 54927 XOR\n2 1 78434 132377 56635 XOR\n2 1 56634 56635 56633 AND\n2 1 56633 132377 132378 XOR\n2 1 79971 132378 56637 XOR\n2 1 83042 132439 56724 XOR\n2 1 17 132439 56725 XOR\n2 1 56724 56725 56723 AND\n",
"2 1 56723 132439 132440 XOR\n2 1 132471 132440 78435 XOR\n2 1 79971 78435 132409 XOR\n2 1 132409 132378 76643 XOR\n2 1 81283 76643 131231 XOR\n2 1 131231 131200 79747 XOR\n2 1 76643 131200 54928 XOR\n2 1 54927 54928 54926 AND\n2 1 54926 131200 131201 XOR\n2 1 81284 131201 54930 XOR\n2 1 78435 132378 56638 XOR\n2 1 56637 56638 56636 AND\n2 1 56636 132378 132379 XOR\n2 1 79972 132379 56640 XOR\n2 1 83043 132440 56727 XOR\n2 1 18 132440 56728 XOR\n2 1 56727 56728 56726 AND\n2 1 56726 132440 132441 XOR\n2 1 132472 132441 78436 XOR\n2 1 79972 78436 132410 XOR\n2 1 132410 132379 76644 XOR\n2 1 81284 76644 131232 XOR\n2 1 131232 131201 79748 XOR\n2 1 76644 131201 54931 XOR\n2 1 54930 54931 54929 AND\n2 1 54929 131201 131202 XOR\n2 1 81285 131202 54933 XOR\n2 1 78436 132379 56641 XOR\n2 1 56640 56641 56639 AND\n2 1 56639 132379 132380 XOR\n2 1 79973 132380 56643 XOR\n2 1 83044 132441 56730 XOR\n2 1 19 132441 56731 XOR\n2 1 56730 56731 56729 AND\n2 1 56729 132441 132442 XOR\n2 1 132473 132442 78437 XOR\n2 1 79973 78437 132411 XOR\n2 1 132411 132380 76645 XOR\n2 1 81285 76645 131233 XOR\n2 1 131233 131202 79749 XOR\n2 1 76645 131202 54934 XOR\n2 1 54933 54934 54932 AND\n2 1 54932 131202 131203 XOR\n2 1 81286 131203 54936 XOR\n2 1 78437 132380 56644 XOR\n2 1 56643 56644 56642 AND\n2 1 56642 132380 132381 XOR\n2 1 79974 132381 56646 XOR\n2 1 83045 132442 56733 XOR\n2 1 20 132442 56734 XOR\n2 1 56733 56734 56732 AND\n2 1 56732 132442 132443 XOR\n2 1 132474 132443 78438 XOR\n2 1 79974 78438 132412 XOR\n2 1 132412 132381 76646 XOR\n2 1 81286 76646 131234 XOR\n2 1 131234 131203 79750 XOR\n2 1 76646 131203 54937 XOR\n2 1 54936 54937 54935 AND\n2 1 54935 131203 131204 XOR\n2 1 81287 131204 54939 XOR\n2 1 78438 132381 56647 XOR\n2 1 56646 56647 56645 AND\n2 1 56645 132381 132382 XOR\n2 1 79975 132382 56649 XOR\n2 1 83046 132443 56736 XOR\n2 1 21 132443 56737 XOR\n2 1 56736 56737 56735 AND\n2 1 56735 132443 132444 XOR\n2 1 132475 132444 78439 XOR\n2 1 79975 78439 132413 XOR\n2 1 132413 132382 76647 XOR\n2 1 81287 76647 131235 XOR\n2 1 131235 131204 79751 XOR\n2 1 76647 131204 54940 XOR\n2 1 54939 54940 54938 AND\n2 1 54938 131204 131205 XOR\n2 1 81288 131205 54942 XOR\n2 1 78439 132382 56650 XOR\n2 1 56649 56650 56648 AND\n2 1 56648 132382 132383 XOR\n2 1 79976 132383 56652 XOR\n2 1 83047 132444 56739 XOR\n2 1 22 132444 56740 XOR\n2 1 56739 56740 56738 AND\n2 1 56738 132444 132445 XOR\n2 1 132476 132445 78440 XOR\n2 1 79976 78440 132414 XOR\n2 1 132414 132383 76648 XOR\n2 1 81288 76648 131236 XOR\n2 1 131236 131205 79752 XOR\n2 1 76648 131205 54943 XOR\n2 1 54942 54943 54941 AND\n2 1 54941 131205 131206 XOR\n2 1 81289 131206 54945 XOR\n2 1 78440 132383 56653 XOR\n2 1 56652 56653 56651 AND\n2 1 56651 132383 132384 XOR\n2 1 79977 132384 56655 XOR\n2 1 83048 132445 56742 XOR\n2 1 23 132445 56743 XOR\n2 1 56742 56743 56741 AND\n2 1 56741 132445 132446 XOR\n2 1 132477 132446 78441 XOR\n2 1 79977 78441 132415 XOR\n2 1 132415 132384 76649 XOR\n2 1 81289 76649 131237 XOR\n2 1 131237 131206 79753 XOR\n2 1 76649 131206 54946 XOR\n2 1 54945 54946 54944 AND\n2 1 54944 131206 131207 XOR\n2 1 81290 131207 54948 XOR\n2 1 78441 132384 56656 XOR\n2 1 56655 56656 56654 AND\n2 1 56654 132384 132385 XOR\n2 1 79978 132385 56658 XOR\n2 1 83049 132446 56745 XOR\n2 1 24 132446 56746 XOR\n2 1 56745 56746 56744 AND\n2 1 56744 132446 132447 XOR\n2 1 132478 132447 78442 XOR\n2 1 79978 78442 132416 XOR\n2 1 132416 132385 76650 XOR\n2 1 81290 76650 131238 XOR\n2 1 131238 131207 79754 XOR\n2 1 76650 131207 54949 XOR\n2 1 54948 54949 54947 AND\n2 1 54947 131207 131208 XOR\n",
"2 1 81291 131208 54951 XOR\n2 1 78442 132385 56659 XOR\n2 1 56658 56659 56657 AND\n2 1 56657 132385 132386 XOR\n2 1 79979 132386 56661 XOR\n2 1 83050 132447 56748 XOR\n2 1 25 132447 56749 XOR\n2 1 56748 56749 56747 AND\n2 1 56747 132447 132448 XOR\n2 1 132479 132448 78443 XOR\n2 1 79979 78443 132417 XOR\n2 1 132417 132386 76651 XOR\n2 1 81291 76651 131239 XOR\n2 1 131239 131208 79755 XOR\n2 1 76651 131208 54952 XOR\n2 1 54951 54952 54950 AND\n2 1 54950 131208 131209 XOR\n2 1 81292 131209 54954 XOR\n2 1 78443 132386 56662 XOR\n2 1 56661 56662 56660 AND\n2 1 56660 132386 132387 XOR\n2 1 79980 132387 56664 XOR\n2 1 83051 132448 56751 XOR\n2 1 26 132448 56752 XOR\n2 1 56751 56752 56750 AND\n2 1 56750 132448 132449 XOR\n2 1 132480 132449 78444 XOR\n2 1 79980 78444 132418 XOR\n2 1 132418 132387 76652 XOR\n2 1 81292 76652 131240 XOR\n2 1 131240 131209 79756 XOR\n2 1 76652 131209 54955 XOR\n2 1 54954 54955 54953 AND\n2 1 54953 131209 131210 XOR\n2 1 81293 131210 54957 XOR\n2 1 78444 132387 56665 XOR\n2 1 56664 56665 56663 AND\n2 1 56663 132387 132388 XOR\n2 1 79981 132388 56667 XOR\n2 1 83052 132449 56754 XOR\n2 1 27 132449 56755 XOR\n2 1 56754 56755 56753 AND\n2 1 56753 132449 132450 XOR\n2 1 132481 132450 78445 XOR\n2 1 79981 78445 132419 XOR\n2 1 132419 132388 76653 XOR\n2 1 76653 3292 118533 XOR\n2 1 81293 76653 131241 XOR\n2 1 131241 131210 79757 XOR\n2 1 76653 131210 54958 XOR\n2 1 54957 54958 54956 AND\n2 1 54956 131210 131211 XOR\n2 1 81294 131211 54960 XOR\n2 1 78445 132388 56668 XOR\n2 1 56667 56668 56666 AND\n2 1 56666 132388 132389 XOR\n2 1 79982 132389 56670 XOR\n2 1 83053 132450 56757 XOR\n2 1 28 132450 56758 XOR\n2 1 56757 56758 56756 AND\n2 1 56756 132450 132451 XOR\n2 1 132482 132451 78446 XOR\n2 1 79982 78446 132420 XOR\n2 1 132420 132389 76654 XOR\n2 1 81294 76654 131242 XOR\n2 1 131242 131211 79758 XOR\n2 1 76654 131211 54961 XOR\n2 1 54960 54961 54959 AND\n2 1 54959 131211 131212 XOR\n2 1 81295 131212 54963 XOR\n2 1 78446 132389 56671 XOR\n2 1 56670 56671 56669 AND\n2 1 56669 132389 132390 XOR\n2 1 79983 132390 56673 XOR\n2 1 83054 132451 56760 XOR\n2 1 29 132451 56761 XOR\n2 1 56760 56761 56759 AND\n2 1 56759 132451 132452 XOR\n2 1 132483 132452 78447 XOR\n2 1 79983 78447 132421 XOR\n2 1 132421 132390 76655 XOR\n2 1 76655 3294 118535 XOR\n2 1 81295 76655 131243 XOR\n2 1 131243 131212 79759 XOR\n2 1 76655 131212 54964 XOR\n2 1 54963 54964 54962 AND\n2 1 54962 131212 131213 XOR\n2 1 78447 132390 56674 XOR\n2 1 56673 56674 56672 AND\n2 1 56672 132390 132391 XOR\n2 1 83055 132452 56763 XOR\n2 1 30 132452 56764 XOR\n2 1 56763 56764 56762 AND\n2 1 56762 132452 132453 XOR\n2 1 132484 132453 78448 XOR\n2 1 79984 78448 132422 XOR\n2 1 132422 132391 76656 XOR\n2 1 81296 76656 131244 XOR\n2 1 131244 131213 79760 XOR\n2 1 76650 3289 118530 XOR\n2 1 76643 3282 118523 XOR\n2 1 76642 3281 118522 XOR\n2 1 76641 3280 118521 XOR\n2 1 76651 3290 118531 XOR\n2 1 76644 3283 118524 XOR\n2 1 76648 3287 118528 XOR\n2 1 76647 3286 118527 XOR\n2 1 76645 3284 118525 XOR\n2 1 76646 3285 118526 XOR\n2 1 76649 3288 118529 XOR\n2 1 76625 3264 118475 AND\n2 1 118506 118475 94743 XOR\n2 1 76626 118475 33880 XOR\n2 1 76656 3295 118536 XOR\n2 1 76654 3293 118534 XOR\n2 1 76625 3264 94742 XOR\n2 1 96790 94742 92717 XOR\n2 1 3265 118475 33881 XOR\n2 1 33880 33881 33879 AND\n2 1 33879 118475 118476 XOR\n2 1 76627 118476 33883 XOR\n2 1 76627 3266 118507 XOR\n2 1 118507 118476 94744 XOR\n2 1 96792 94744 118445 XOR\n2 1 76628 3267 118508 XOR\n2 1 76652 3291 118532 XOR\n2 1 76631 3270 118511 XOR\n2 1 3266 118476 33884 XOR\n",
"2 1 33883 33884 33882 AND\n2 1 33882 118476 118477 XOR\n2 1 76628 118477 33886 XOR\n2 1 3267 118477 33887 XOR\n2 1 118508 118477 94745 XOR\n2 1 33886 33887 33885 AND\n2 1 33885 118477 118478 XOR\n2 1 118509 118478 94746 XOR\n2 1 3268 118478 33890 XOR\n2 1 76629 118478 33889 XOR\n2 1 33889 33890 33888 AND\n2 1 33888 118478 118479 XOR\n2 1 118510 118479 94747 XOR\n2 1 96794 94746 118447 XOR\n2 1 3269 118479 33893 XOR\n2 1 76630 118479 33892 XOR\n2 1 33892 33893 33891 AND\n2 1 33891 118479 118480 XOR\n2 1 118511 118480 94748 XOR\n2 1 96796 94748 118449 XOR\n2 1 76631 118480 33895 XOR\n2 1 3270 118480 33896 XOR\n2 1 33895 33896 33894 AND\n2 1 33894 118480 118481 XOR\n2 1 76632 118481 33898 XOR\n2 1 3271 118481 33899 XOR\n2 1 118512 118481 94749 XOR\n2 1 96797 94749 118450 XOR\n2 1 33898 33899 33897 AND\n2 1 33897 118481 118482 XOR\n2 1 3272 118482 33902 XOR\n2 1 76633 118482 33901 XOR\n2 1 118513 118482 94750 XOR\n2 1 96798 94750 118451 XOR\n2 1 33901 33902 33900 AND\n2 1 33900 118482 118483 XOR\n2 1 3273 118483 33905 XOR\n2 1 118514 118483 94751 XOR\n2 1 96799 94751 118452 XOR\n2 1 76634 118483 33904 XOR\n2 1 33904 33905 33903 AND\n2 1 33903 118483 118484 XOR\n2 1 118515 118484 94752 XOR\n2 1 3274 118484 33908 XOR\n2 1 76635 118484 33907 XOR\n2 1 33907 33908 33906 AND\n2 1 33906 118484 118485 XOR\n2 1 118516 118485 94753 XOR\n2 1 96801 94753 118454 XOR\n2 1 3275 118485 33911 XOR\n2 1 76636 118485 33910 XOR\n2 1 33910 33911 33909 AND\n2 1 33909 118485 118486 XOR\n2 1 76637 118486 33913 XOR\n2 1 118517 118486 94754 XOR\n2 1 96800 94752 118453 XOR\n2 1 96802 94754 118455 XOR\n2 1 3276 118486 33914 XOR\n2 1 33913 33914 33912 AND\n2 1 33912 118486 118487 XOR\n2 1 118518 118487 94755 XOR\n2 1 96803 94755 118456 XOR\n2 1 3277 118487 33917 XOR\n2 1 76638 118487 33916 XOR\n2 1 33916 33917 33915 AND\n2 1 33915 118487 118488 XOR\n2 1 3278 118488 33920 XOR\n2 1 118519 118488 94756 XOR\n2 1 96804 94756 118457 XOR\n2 1 76639 118488 33919 XOR\n2 1 33919 33920 33918 AND\n2 1 33918 118488 118489 XOR\n2 1 118520 118489 94757 XOR\n2 1 3279 118489 33923 XOR\n2 1 96805 94757 118458 XOR\n2 1 76640 118489 33922 XOR\n2 1 33922 33923 33921 AND\n2 1 33921 118489 118490 XOR\n2 1 3280 118490 33926 XOR\n2 1 76641 118490 33925 XOR\n2 1 33925 33926 33924 AND\n2 1 118521 118490 94758 XOR\n2 1 96806 94758 118459 XOR\n2 1 33924 118490 118491 XOR\n2 1 118522 118491 94759 XOR\n2 1 3281 118491 33929 XOR\n2 1 76642 118491 33928 XOR\n2 1 33928 33929 33927 AND\n2 1 33927 118491 118492 XOR\n2 1 76643 118492 33931 XOR\n2 1 118523 118492 94760 XOR\n2 1 96808 94760 118461 XOR\n2 1 3282 118492 33932 XOR\n2 1 33931 33932 33930 AND\n2 1 33930 118492 118493 XOR\n2 1 3283 118493 33935 XOR\n2 1 76644 118493 33934 XOR\n2 1 33934 33935 33933 AND\n2 1 33933 118493 118494 XOR\n2 1 118525 118494 94762 XOR\n2 1 96810 94762 118463 XOR\n2 1 3284 118494 33938 XOR\n2 1 76645 118494 33937 XOR\n2 1 33937 33938 33936 AND\n2 1 33936 118494 118495 XOR\n2 1 118526 118495 94763 XOR\n2 1 96811 94763 118464 XOR\n2 1 76646 118495 33940 XOR\n2 1 96807 94759 118460 XOR\n2 1 118524 118493 94761 XOR\n2 1 96809 94761 118462 XOR\n2 1 3285 118495 33941 XOR\n2 1 33940 33941 33939 AND\n2 1 33939 118495 118496 XOR\n2 1 118527 118496 94764 XOR\n2 1 96812 94764 118465 XOR\n2 1 3286 118496 33944 XOR\n2 1 76647 118496 33943 XOR\n2 1 33943 33944 33942 AND\n2 1 33942 118496 118497 XOR\n2 1 118528 118497 94765 XOR\n2 1 96813 94765 118466 XOR\n2 1 3287 118497 33947 XOR\n2 1 76648 118497 33946 XOR\n2 1 33946 33947 33945 AND\n2 1 33945 118497 118498 XOR\n2 1 76649 118498 33949 XOR\n2 1 118529 118498 94766 XOR\n",
"2 1 96814 94766 118467 XOR\n2 1 3288 118498 33950 XOR\n2 1 33949 33950 33948 AND\n2 1 33948 118498 118499 XOR\n2 1 76650 118499 33952 XOR\n2 1 118530 118499 94767 XOR\n2 1 96815 94767 118468 XOR\n2 1 3289 118499 33953 XOR\n2 1 33952 33953 33951 AND\n2 1 33951 118499 118500 XOR\n2 1 76651 118500 33955 XOR\n2 1 118531 118500 94768 XOR\n2 1 96816 94768 118469 XOR\n2 1 3290 118500 33956 XOR\n2 1 33955 33956 33954 AND\n2 1 33954 118500 118501 XOR\n2 1 118532 118501 94769 XOR\n2 1 96817 94769 118470 XOR\n2 1 3291 118501 33959 XOR\n2 1 76652 118501 33958 XOR\n2 1 33958 33959 33957 AND\n2 1 33957 118501 118502 XOR\n2 1 76653 118502 33961 XOR\n2 1 3292 118502 33962 XOR\n2 1 33961 33962 33960 AND\n2 1 118533 118502 94770 XOR\n2 1 96818 94770 118471 XOR\n2 1 33960 118502 118503 XOR\n2 1 118534 118503 94771 XOR\n2 1 76654 118503 33964 XOR\n2 1 3293 118503 33965 XOR\n2 1 33964 33965 33963 AND\n2 1 33963 118503 118504 XOR\n2 1 76655 118504 33967 XOR\n2 1 3294 118504 33968 XOR\n2 1 118535 118504 94772 XOR\n2 1 96820 94772 118473 XOR\n2 1 33967 33968 33966 AND\n2 1 33966 118504 118505 XOR\n2 1 96819 94771 118472 XOR\n2 1 118536 118505 94773 XOR\n2 1 96821 94773 118474 XOR\n2 1 96790 94742 118413 AND\n2 1 96791 118413 33790 XOR\n2 1 94743 118413 33791 XOR\n2 1 33790 33791 33789 AND\n2 1 33789 118413 118414 XOR\n2 1 94744 118414 33794 XOR\n2 1 118445 118414 92719 XOR\n2 1 96792 118414 33793 XOR\n2 1 33793 33794 33792 AND\n2 1 33792 118414 118415 XOR\n2 1 96793 118415 33796 XOR\n2 1 94745 118415 33797 XOR\n2 1 33796 33797 33795 AND\n2 1 33795 118415 118416 XOR\n2 1 118447 118416 92721 XOR\n2 1 96794 118416 33799 XOR\n2 1 94746 118416 33800 XOR\n2 1 33799 33800 33798 AND\n2 1 33798 118416 118417 XOR\n2 1 94747 118417 33803 XOR\n2 1 96795 118417 33802 XOR\n2 1 33802 33803 33801 AND\n2 1 33801 118417 118418 XOR\n2 1 118449 118418 92723 XOR\n1 1 92723 33780 INV\n2 1 96796 118418 33805 XOR\n2 1 94748 118418 33806 XOR\n2 1 33805 33806 33804 AND\n2 1 33804 118418 118419 XOR\n2 1 94749 118419 33809 XOR\n2 1 118450 118419 92724 XOR\n2 1 96797 118419 33808 XOR\n2 1 33808 33809 33807 AND\n2 1 33807 118419 118420 XOR\n2 1 118451 118420 92725 XOR\n1 1 92725 33781 INV\n2 1 96798 118420 33811 XOR\n2 1 94750 118420 33812 XOR\n2 1 33811 33812 33810 AND\n2 1 33810 118420 118421 XOR\n2 1 94751 118421 33815 XOR\n2 1 96799 118421 33814 XOR\n2 1 33814 33815 33813 AND\n2 1 33813 118421 118422 XOR\n2 1 118452 118421 92726 XOR\n2 1 118453 118422 92727 XOR\n2 1 96800 118422 33817 XOR\n2 1 94752 118422 33818 XOR\n2 1 33817 33818 33816 AND\n2 1 33816 118422 118423 XOR\n2 1 94753 118423 33821 XOR\n2 1 96801 118423 33820 XOR\n2 1 118454 118423 92728 XOR\n2 1 33820 33821 33819 AND\n2 1 33819 118423 118424 XOR\n2 1 118455 118424 92729 XOR\n2 1 96802 118424 33823 XOR\n2 1 94754 118424 33824 XOR\n2 1 33823 33824 33822 AND\n2 1 33822 118424 118425 XOR\n2 1 118456 118425 92730 XOR\n1 1 92730 33783 INV\n2 1 94755 118425 33827 XOR\n2 1 96803 118425 33826 XOR\n2 1 33826 33827 33825 AND\n2 1 33825 118425 118426 XOR\n2 1 118457 118426 92731 XOR\n2 1 94756 118426 33830 XOR\n2 1 96804 118426 33829 XOR\n2 1 33829 33830 33828 AND\n2 1 33828 118426 118427 XOR\n2 1 96805 118427 33832 XOR\n2 1 118458 118427 92732 XOR\n2 1 94757 118427 33833 XOR\n2 1 33832 33833 33831 AND\n2 1 33831 118427 118428 XOR\n2 1 96806 118428 33835 XOR\n2 1 94758 118428 33836 XOR\n2 1 33835 33836 33834 AND\n2 1 33834 118428 118429 XOR\n2 1 118460 118429 92734 XOR\n2 1 96807 118429 33838 XOR\n2 1 94759 118429 33839 XOR\n2 1 33838 33839 33837 AND\n2 1 33837 118429 118430 XOR\n2 1 94760 118430 33842 XOR\n",
"2 1 96808 118430 33841 XOR\n2 1 118461 118430 92735 XOR\n2 1 118459 118428 92733 XOR\n2 1 33841 33842 33840 AND\n2 1 33840 118430 118431 XOR\n2 1 118462 118431 92736 XOR\n2 1 96809 118431 33844 XOR\n2 1 94761 118431 33845 XOR\n2 1 33844 33845 33843 AND\n2 1 33843 118431 118432 XOR\n2 1 118463 118432 92737 XOR\n2 1 96810 118432 33847 XOR\n1 1 92736 33785 INV\n2 1 94762 118432 33848 XOR\n2 1 33847 33848 33846 AND\n2 1 33846 118432 118433 XOR\n2 1 118464 118433 92738 XOR\n1 1 92738 33786 INV\n2 1 96811 118433 33850 XOR\n2 1 94763 118433 33851 XOR\n2 1 33850 33851 33849 AND\n2 1 33849 118433 118434 XOR\n2 1 96812 118434 33853 XOR\n2 1 94764 118434 33854 XOR\n2 1 118465 118434 92739 XOR\n2 1 33853 33854 33852 AND\n2 1 33852 118434 118435 XOR\n2 1 94765 118435 33857 XOR\n2 1 96813 118435 33856 XOR\n2 1 33856 33857 33855 AND\n2 1 33855 118435 118436 XOR\n2 1 118467 118436 92741 XOR\n2 1 94766 118436 33860 XOR\n2 1 96814 118436 33859 XOR\n2 1 33859 33860 33858 AND\n2 1 33858 118436 118437 XOR\n2 1 96815 118437 33862 XOR\n2 1 118468 118437 92742 XOR\n2 1 118466 118435 92740 XOR\n2 1 94767 118437 33863 XOR\n2 1 33862 33863 33861 AND\n2 1 33861 118437 118438 XOR\n2 1 96816 118438 33865 XOR\n2 1 94768 118438 33866 XOR\n2 1 33865 33866 33864 AND\n2 1 33864 118438 118439 XOR\n2 1 118470 118439 92744 XOR\n2 1 94769 118439 33869 XOR\n2 1 96817 118439 33868 XOR\n2 1 33868 33869 33867 AND\n2 1 33867 118439 118440 XOR\n2 1 118471 118440 92745 XOR\n1 1 92745 33788 INV\n2 1 94770 118440 33872 XOR\n2 1 96818 118440 33871 XOR\n2 1 33871 33872 33870 AND\n2 1 33870 118440 118441 XOR\n2 1 96819 118441 33874 XOR\n2 1 118472 118441 92746 XOR\n2 1 94771 118441 33875 XOR\n2 1 33874 33875 33873 AND\n2 1 33873 118441 118442 XOR\n2 1 96820 118442 33877 XOR\n2 1 94772 118442 33878 XOR\n2 1 33877 33878 33876 AND\n2 1 33876 118442 118443 XOR\n2 1 118474 118443 92748 XOR\n2 1 118473 118442 92747 XOR\n2 1 118469 118438 92743 XOR\n2 1 96791 94743 118444 XOR\n2 1 118444 118413 92718 XOR\n2 1 92718 92717 33695 XOR\n1 1 92718 33777 INV\n2 1 33777 92717 90706 XOR\n2 1 2753 90706 106405 XOR\n2 1 90706 84562 106467 XOR\n2 1 96793 94745 118446 XOR\n2 1 118446 118415 92720 XOR\n2 1 96795 94747 118448 XOR\n2 1 118448 118417 92722 XOR\n1 1 92717 90705 INV\n2 1 2752 90705 106374 AND\n2 1 106405 106374 2625 XOR\n2 1 2752 90705 2624 XOR\n2 1 2753 106374 13537 XOR\n2 1 90706 106374 13538 XOR\n2 1 13537 13538 13536 AND\n2 1 13536 106374 106375 XOR\n2 1 2754 106375 13540 XOR\n2 1 90705 84561 106436 AND\n2 1 106467 106436 2113 XOR\n2 1 90705 84561 2112 XOR\n2 1 84562 106436 13628 XOR\n2 1 90706 106436 13627 XOR\n2 1 13627 13628 13626 AND\n2 1 13626 106436 106437 XOR\n2 1 84563 106437 13631 XOR\n2 1 2113 2689 71792 XOR\n2 1 2112 2688 71791 XOR\n2 1 71792 71760 71728 AND\n2 1 71791 71759 71727 AND\n2 1 71728 2689 86578 XOR\n2 1 71727 2688 86577 XOR\n2 1 2113 2145 71664 XOR\n2 1 2112 2144 71663 XOR\n2 1 64848 2625 64816 AND\n2 1 64847 2624 64815 AND\n2 1 64816 3201 98807 XOR\n2 1 64815 3200 98806 XOR\n2 1 2625 2657 64784 XOR\n2 1 2624 2656 64783 XOR\n1 1 92722 33779 INV\n1 1 92719 33778 INV\n1 1 92728 33782 INV\n1 1 92733 33784 INV\n1 1 92743 33787 INV\n2 1 33695 90705 33694 AND\n2 1 33694 92717 33765 XOR\n2 1 92719 33765 33697 XOR\n1 1 33765 33698 INV\n2 1 33697 33698 33696 AND\n2 1 33696 33765 33700 XOR\n2 1 33778 33765 90707 XOR\n2 1 2754 90707 106406 XOR\n2 1 106406 106375 2626 XOR\n2 1 90707 106375 13541 XOR\n2 1 13540 13541 13539 AND\n2 1 13539 106375 106376 XOR\n",
"2 1 90707 106437 13630 XOR\n2 1 2755 106376 13543 XOR\n2 1 13630 13631 13629 AND\n2 1 13629 106437 106438 XOR\n2 1 84564 106438 13634 XOR\n2 1 90707 84563 106468 XOR\n2 1 106468 106437 2114 XOR\n2 1 2114 2690 71793 XOR\n2 1 71793 71761 71729 AND\n2 1 71729 2690 86579 XOR\n2 1 2114 2146 71665 XOR\n2 1 64849 2626 64817 AND\n2 1 64817 3202 98808 XOR\n2 1 2626 2658 64785 XOR\n2 1 92720 33700 90708 XOR\n2 1 90708 33700 33699 AND\n2 1 33699 33700 33702 XOR\n2 1 92721 33702 90709 XOR\n2 1 90709 84565 106470 XOR\n2 1 90709 33702 33701 AND\n2 1 33701 33702 33766 XOR\n2 1 33779 33766 90710 XOR\n2 1 2757 90710 106409 XOR\n2 1 90710 84566 106471 XOR\n2 1 92722 33766 33704 XOR\n1 1 33766 33705 INV\n2 1 33704 33705 33703 AND\n2 1 33703 33766 33767 XOR\n2 1 33780 33767 90711 XOR\n2 1 90711 84567 106472 XOR\n2 1 2758 90711 106410 XOR\n2 1 92723 33767 33707 XOR\n1 1 33767 33708 INV\n2 1 33707 33708 33706 AND\n2 1 33706 33767 33710 XOR\n2 1 92724 33710 90712 XOR\n2 1 90712 84568 106473 XOR\n2 1 2759 90712 106411 XOR\n2 1 90712 33710 33709 AND\n2 1 33709 33710 33768 XOR\n2 1 92725 33768 33712 XOR\n2 1 33781 33768 90713 XOR\n2 1 90713 84569 106474 XOR\n2 1 2760 90713 106412 XOR\n1 1 33768 33713 INV\n2 1 33712 33713 33711 AND\n2 1 33711 33768 33715 XOR\n2 1 92726 33715 90714 XOR\n2 1 2761 90714 106413 XOR\n2 1 90714 84570 106475 XOR\n2 1 90714 33715 33714 AND\n2 1 33714 33715 33717 XOR\n2 1 92727 33717 90715 XOR\n2 1 90715 33717 33716 AND\n2 1 90715 84571 106476 XOR\n2 1 2762 90715 106414 XOR\n2 1 33716 33717 33769 XOR\n2 1 33782 33769 90716 XOR\n2 1 90716 84572 106477 XOR\n2 1 2763 90716 106415 XOR\n1 1 33769 33720 INV\n2 1 92728 33769 33719 XOR\n2 1 33719 33720 33718 AND\n2 1 33718 33769 33722 XOR\n2 1 92729 33722 90717 XOR\n2 1 2764 90717 106416 XOR\n2 1 90717 84573 106478 XOR\n2 1 90717 33722 33721 AND\n2 1 33721 33722 33770 XOR\n2 1 33783 33770 90718 XOR\n2 1 90718 84574 106479 XOR\n2 1 2765 90718 106417 XOR\n2 1 92730 33770 33724 XOR\n1 1 33770 33725 INV\n2 1 33724 33725 33723 AND\n2 1 33723 33770 33727 XOR\n2 1 92731 33727 90719 XOR\n2 1 2766 90719 106418 XOR\n2 1 90719 84575 106480 XOR\n2 1 90719 33727 33726 AND\n2 1 33726 33727 33729 XOR\n2 1 92732 33729 90720 XOR\n2 1 2767 90720 106419 XOR\n2 1 90720 84576 106481 XOR\n2 1 90720 33729 33728 AND\n2 1 33728 33729 33771 XOR\n1 1 33771 33732 INV\n2 1 33784 33771 90721 XOR\n2 1 90721 84577 106482 XOR\n2 1 2768 90721 106420 XOR\n2 1 92733 33771 33731 XOR\n2 1 33731 33732 33730 AND\n2 1 33730 33771 33734 XOR\n2 1 92734 33734 90722 XOR\n2 1 2769 90722 106421 XOR\n2 1 90722 84578 106483 XOR\n2 1 90722 33734 33733 AND\n2 1 33733 33734 33736 XOR\n2 1 92735 33736 90723 XOR\n2 1 2770 90723 106422 XOR\n2 1 90723 84579 106484 XOR\n2 1 90723 33736 33735 AND\n2 1 33735 33736 33772 XOR\n2 1 33785 33772 90724 XOR\n2 1 90724 84580 106485 XOR\n2 1 2771 90724 106423 XOR\n2 1 92736 33772 33738 XOR\n1 1 33772 33739 INV\n2 1 33738 33739 33737 AND\n2 1 33737 33772 33741 XOR\n2 1 92737 33741 90725 XOR\n2 1 2772 90725 106424 XOR\n2 1 90725 84581 106486 XOR\n2 1 90725 33741 33740 AND\n2 1 33740 33741 33773 XOR\n2 1 33786 33773 90726 XOR\n2 1 90726 84582 106487 XOR\n2 1 2773 90726 106425 XOR\n2 1 92738 33773 33743 XOR\n1 1 33773 33744 INV\n2 1 33743 33744 33742 AND\n2 1 33742 33773 33746 XOR\n2 1 92739 33746 90727 XOR\n2 1 2774 90727 106426 XOR\n2 1 90727 84583 106488 XOR\n2 1 90727 33746 33745 AND\n2 1 33745 33746 33748 XOR\n2 1 92740 33748 90728 XOR\n",
"2 1 90728 84584 106489 XOR\n2 1 2775 90728 106427 XOR\n2 1 90728 33748 33747 AND\n2 1 33747 33748 33750 XOR\n2 1 92741 33750 90729 XOR\n2 1 90729 84585 106490 XOR\n2 1 2776 90729 106428 XOR\n2 1 90729 33750 33749 AND\n2 1 33749 33750 33752 XOR\n2 1 92742 33752 90730 XOR\n2 1 90730 84586 106491 XOR\n2 1 2777 90730 106429 XOR\n2 1 90730 33752 33751 AND\n2 1 33751 33752 33774 XOR\n2 1 33787 33774 90731 XOR\n2 1 2778 90731 106430 XOR\n2 1 90731 84587 106492 XOR\n2 1 92743 33774 33754 XOR\n1 1 33774 33755 INV\n2 1 33754 33755 33753 AND\n2 1 33753 33774 33757 XOR\n2 1 92744 33757 90732 XOR\n2 1 90732 84588 106493 XOR\n2 1 2779 90732 106431 XOR\n2 1 90732 33757 33756 AND\n2 1 33756 33757 33775 XOR\n1 1 33775 33760 INV\n2 1 33788 33775 90733 XOR\n2 1 2780 90733 106432 XOR\n2 1 90733 84589 106494 XOR\n2 1 92745 33775 33759 XOR\n2 1 33759 33760 33758 AND\n2 1 33758 33775 33762 XOR\n2 1 92746 33762 90734 XOR\n2 1 90734 84590 106495 XOR\n2 1 2781 90734 106433 XOR\n2 1 90734 33762 33761 AND\n2 1 33761 33762 33764 XOR\n2 1 92747 33764 90735 XOR\n2 1 90735 84591 106496 XOR\n2 1 2782 90735 106434 XOR\n2 1 90735 33764 33763 AND\n2 1 33763 33764 33776 XOR\n2 1 92748 33776 90736 XOR\n2 1 2783 90736 106435 XOR\n2 1 90736 84592 106497 XOR\n2 1 2756 90709 106408 XOR\n2 1 90708 106438 13633 XOR\n2 1 13633 13634 13632 AND\n2 1 13632 106438 106439 XOR\n2 1 106470 106439 2116 XOR\n2 1 84565 106439 13637 XOR\n2 1 90709 106439 13636 XOR\n2 1 13636 13637 13635 AND\n2 1 13635 106439 106440 XOR\n2 1 106471 106440 2117 XOR\n2 1 2755 90708 106407 XOR\n2 1 84566 106440 13640 XOR\n2 1 90710 106440 13639 XOR\n2 1 13639 13640 13638 AND\n2 1 13638 106440 106441 XOR\n2 1 106472 106441 2118 XOR\n2 1 106407 106376 2627 XOR\n2 1 84567 106441 13643 XOR\n2 1 90711 106441 13642 XOR\n2 1 13642 13643 13641 AND\n2 1 13641 106441 106442 XOR\n2 1 106473 106442 2119 XOR\n2 1 90708 106376 13544 XOR\n2 1 13543 13544 13542 AND\n2 1 13542 106376 106377 XOR\n2 1 106408 106377 2628 XOR\n2 1 90712 106442 13645 XOR\n2 1 84568 106442 13646 XOR\n2 1 13645 13646 13644 AND\n2 1 13644 106442 106443 XOR\n2 1 90709 106377 13547 XOR\n2 1 2756 106377 13546 XOR\n2 1 13546 13547 13545 AND\n2 1 13545 106377 106378 XOR\n2 1 90710 106378 13550 XOR\n2 1 2757 106378 13549 XOR\n2 1 13549 13550 13548 AND\n2 1 13548 106378 106379 XOR\n2 1 90711 106379 13553 XOR\n2 1 2758 106379 13552 XOR\n2 1 106410 106379 2630 XOR\n2 1 13552 13553 13551 AND\n2 1 13551 106379 106380 XOR\n2 1 106411 106380 2631 XOR\n2 1 2759 106380 13555 XOR\n2 1 90712 106380 13556 XOR\n2 1 13555 13556 13554 AND\n2 1 13554 106380 106381 XOR\n2 1 106412 106381 2632 XOR\n2 1 90713 106381 13559 XOR\n2 1 2760 106381 13558 XOR\n2 1 13558 13559 13557 AND\n2 1 13557 106381 106382 XOR\n2 1 106413 106382 2633 XOR\n2 1 90714 106382 13562 XOR\n2 1 2761 106382 13561 XOR\n2 1 13561 13562 13560 AND\n2 1 13560 106382 106383 XOR\n2 1 106414 106383 2634 XOR\n2 1 2762 106383 13564 XOR\n2 1 106409 106378 2629 XOR\n2 1 90715 106383 13565 XOR\n2 1 13564 13565 13563 AND\n2 1 13563 106383 106384 XOR\n2 1 90716 106384 13568 XOR\n2 1 106415 106384 2635 XOR\n2 1 2763 106384 13567 XOR\n2 1 13567 13568 13566 AND\n2 1 13566 106384 106385 XOR\n2 1 2764 106385 13570 XOR\n2 1 90717 106385 13571 XOR\n2 1 13570 13571 13569 AND\n2 1 13569 106385 106386 XOR\n2 1 106417 106386 2637 XOR\n2 1 2765 106386 13573 XOR\n2 1 90718 106386 13574 XOR\n2 1 13573 13574 13572 AND\n2 1 13572 106386 106387 XOR\n2 1 106418 106387 2638 XOR\n2 1 2766 106387 13576 XOR\n2 1 90719 106387 13577 XOR\n2 1 13576 13577 13575 AND\n",
"2 1 13575 106387 106388 XOR\n2 1 106419 106388 2639 XOR\n2 1 2767 106388 13579 XOR\n2 1 90720 106388 13580 XOR\n2 1 13579 13580 13578 AND\n2 1 13578 106388 106389 XOR\n2 1 106420 106389 2640 XOR\n2 1 106416 106385 2636 XOR\n2 1 90721 106389 13583 XOR\n2 1 2768 106389 13582 XOR\n2 1 13582 13583 13581 AND\n2 1 13581 106389 106390 XOR\n2 1 106421 106390 2641 XOR\n2 1 90722 106390 13586 XOR\n2 1 2769 106390 13585 XOR\n2 1 13585 13586 13584 AND\n2 1 13584 106390 106391 XOR\n2 1 90723 106391 13589 XOR\n2 1 2770 106391 13588 XOR\n2 1 13588 13589 13587 AND\n2 1 106422 106391 2642 XOR\n2 1 13587 106391 106392 XOR\n2 1 90724 106392 13592 XOR\n2 1 106423 106392 2643 XOR\n2 1 2771 106392 13591 XOR\n2 1 13591 13592 13590 AND\n2 1 13590 106392 106393 XOR\n2 1 2772 106393 13594 XOR\n2 1 90725 106393 13595 XOR\n2 1 13594 13595 13593 AND\n2 1 13593 106393 106394 XOR\n2 1 106425 106394 2645 XOR\n2 1 106424 106393 2644 XOR\n2 1 2773 106394 13597 XOR\n2 1 90726 106394 13598 XOR\n2 1 13597 13598 13596 AND\n2 1 13596 106394 106395 XOR\n2 1 106426 106395 2646 XOR\n2 1 90727 106395 13601 XOR\n2 1 2774 106395 13600 XOR\n2 1 13600 13601 13599 AND\n2 1 13599 106395 106396 XOR\n2 1 106427 106396 2647 XOR\n2 1 90728 106396 13604 XOR\n2 1 2775 106396 13603 XOR\n2 1 13603 13604 13602 AND\n2 1 13602 106396 106397 XOR\n2 1 106428 106397 2648 XOR\n2 1 90729 106397 13607 XOR\n2 1 2776 106397 13606 XOR\n2 1 13606 13607 13605 AND\n2 1 13605 106397 106398 XOR\n2 1 2777 106398 13609 XOR\n2 1 90730 106398 13610 XOR\n2 1 13609 13610 13608 AND\n2 1 13608 106398 106399 XOR\n2 1 106430 106399 2650 XOR\n2 1 90731 106399 13613 XOR\n2 1 2778 106399 13612 XOR\n2 1 13612 13613 13611 AND\n2 1 13611 106399 106400 XOR\n2 1 106431 106400 2651 XOR\n2 1 2779 106400 13615 XOR\n2 1 90732 106400 13616 XOR\n2 1 13615 13616 13614 AND\n2 1 13614 106400 106401 XOR\n2 1 106432 106401 2652 XOR\n2 1 2780 106401 13618 XOR\n2 1 90733 106401 13619 XOR\n2 1 13618 13619 13617 AND\n2 1 13617 106401 106402 XOR\n2 1 106433 106402 2653 XOR\n2 1 90734 106402 13622 XOR\n2 1 2781 106402 13621 XOR\n2 1 13621 13622 13620 AND\n2 1 13620 106402 106403 XOR\n2 1 106434 106403 2654 XOR\n2 1 90735 106403 13625 XOR\n2 1 2782 106403 13624 XOR\n2 1 13624 13625 13623 AND\n2 1 13623 106403 106404 XOR\n2 1 106435 106404 2655 XOR\n2 1 106429 106398 2649 XOR\n2 1 90708 84564 106469 XOR\n2 1 106469 106438 2115 XOR\n2 1 90713 106443 13648 XOR\n2 1 106474 106443 2120 XOR\n2 1 84569 106443 13649 XOR\n2 1 13648 13649 13647 AND\n2 1 13647 106443 106444 XOR\n2 1 84570 106444 13652 XOR\n2 1 90714 106444 13651 XOR\n2 1 13651 13652 13650 AND\n2 1 106475 106444 2121 XOR\n2 1 13650 106444 106445 XOR\n2 1 84571 106445 13655 XOR\n2 1 90715 106445 13654 XOR\n2 1 106476 106445 2122 XOR\n2 1 13654 13655 13653 AND\n2 1 13653 106445 106446 XOR\n2 1 106477 106446 2123 XOR\n2 1 84572 106446 13658 XOR\n2 1 90716 106446 13657 XOR\n2 1 13657 13658 13656 AND\n2 1 13656 106446 106447 XOR\n2 1 106478 106447 2124 XOR\n2 1 84573 106447 13661 XOR\n2 1 90717 106447 13660 XOR\n2 1 13660 13661 13659 AND\n2 1 13659 106447 106448 XOR\n2 1 106479 106448 2125 XOR\n2 1 84574 106448 13664 XOR\n2 1 90718 106448 13663 XOR\n2 1 13663 13664 13662 AND\n2 1 13662 106448 106449 XOR\n2 1 106480 106449 2126 XOR\n2 1 90719 106449 13666 XOR\n2 1 84575 106449 13667 XOR\n2 1 13666 13667 13665 AND\n2 1 13665 106449 106450 XOR\n2 1 84576 106450 13670 XOR\n2 1 106481 106450 2127 XOR\n2 1 90720 106450 13669 XOR\n2 1 13669 13670 13668 AND\n2 1 13668 106450 106451 XOR\n2 1 84577 106451 13673 XOR\n2 1 90721 106451 13672 XOR\n2 1 13672 13673 13671 AND\n",
"2 1 13671 106451 106452 XOR\n2 1 90722 106452 13675 XOR\n2 1 106483 106452 2129 XOR\n2 1 84578 106452 13676 XOR\n2 1 13675 13676 13674 AND\n2 1 13674 106452 106453 XOR\n2 1 106484 106453 2130 XOR\n2 1 90723 106453 13678 XOR\n2 1 84579 106453 13679 XOR\n2 1 13678 13679 13677 AND\n2 1 13677 106453 106454 XOR\n2 1 106485 106454 2131 XOR\n2 1 90724 106454 13681 XOR\n2 1 84580 106454 13682 XOR\n2 1 13681 13682 13680 AND\n2 1 13680 106454 106455 XOR\n2 1 90725 106455 13684 XOR\n2 1 106486 106455 2132 XOR\n2 1 106482 106451 2128 XOR\n2 1 84581 106455 13685 XOR\n2 1 13684 13685 13683 AND\n2 1 13683 106455 106456 XOR\n2 1 106487 106456 2133 XOR\n2 1 90726 106456 13687 XOR\n2 1 84582 106456 13688 XOR\n2 1 13687 13688 13686 AND\n2 1 13686 106456 106457 XOR\n2 1 90727 106457 13690 XOR\n2 1 84583 106457 13691 XOR\n2 1 106488 106457 2134 XOR\n2 1 13690 13691 13689 AND\n2 1 13689 106457 106458 XOR\n2 1 90728 106458 13693 XOR\n2 1 84584 106458 13694 XOR\n2 1 13693 13694 13692 AND\n2 1 106489 106458 2135 XOR\n2 1 13692 106458 106459 XOR\n2 1 106490 106459 2136 XOR\n2 1 84585 106459 13697 XOR\n2 1 90729 106459 13696 XOR\n2 1 13696 13697 13695 AND\n2 1 13695 106459 106460 XOR\n2 1 106491 106460 2137 XOR\n2 1 90730 106460 13699 XOR\n2 1 84586 106460 13700 XOR\n2 1 13699 13700 13698 AND\n2 1 13698 106460 106461 XOR\n2 1 106492 106461 2138 XOR\n2 1 90731 106461 13702 XOR\n2 1 84587 106461 13703 XOR\n2 1 13702 13703 13701 AND\n2 1 13701 106461 106462 XOR\n2 1 106493 106462 2139 XOR\n2 1 84588 106462 13706 XOR\n2 1 90732 106462 13705 XOR\n2 1 13705 13706 13704 AND\n2 1 13704 106462 106463 XOR\n2 1 106494 106463 2140 XOR\n2 1 84589 106463 13709 XOR\n2 1 90733 106463 13708 XOR\n2 1 13708 13709 13707 AND\n2 1 13707 106463 106464 XOR\n2 1 84590 106464 13712 XOR\n2 1 90734 106464 13711 XOR\n2 1 13711 13712 13710 AND\n2 1 106495 106464 2141 XOR\n2 1 13710 106464 106465 XOR\n2 1 106496 106465 2142 XOR\n2 1 90735 106465 13714 XOR\n2 1 84591 106465 13715 XOR\n2 1 13714 13715 13713 AND\n2 1 13713 106465 106466 XOR\n2 1 106497 106466 2143 XOR\n2 1 2143 2719 71822 XOR\n2 1 2142 2718 71821 XOR\n2 1 2141 2717 71820 XOR\n2 1 2140 2716 71819 XOR\n2 1 2139 2715 71818 XOR\n2 1 2138 2714 71817 XOR\n2 1 2137 2713 71816 XOR\n2 1 2136 2712 71815 XOR\n2 1 2135 2711 71814 XOR\n2 1 2134 2710 71813 XOR\n2 1 2133 2709 71812 XOR\n2 1 2132 2708 71811 XOR\n2 1 2131 2707 71810 XOR\n2 1 2130 2706 71809 XOR\n2 1 2129 2705 71808 XOR\n2 1 2128 2704 71807 XOR\n2 1 2127 2703 71806 XOR\n2 1 2126 2702 71805 XOR\n2 1 2125 2701 71804 XOR\n2 1 2124 2700 71803 XOR\n2 1 2123 2699 71802 XOR\n2 1 2122 2698 71801 XOR\n2 1 2121 2697 71800 XOR\n2 1 2120 2696 71799 XOR\n2 1 2119 2695 71798 XOR\n2 1 2118 2694 71797 XOR\n2 1 2117 2693 71796 XOR\n2 1 2116 2692 71795 XOR\n2 1 2115 2691 71794 XOR\n2 1 71822 71790 71758 AND\n2 1 71821 71789 71757 AND\n2 1 71820 71788 71756 AND\n2 1 71819 71787 71755 AND\n2 1 71818 71786 71754 AND\n2 1 71817 71785 71753 AND\n2 1 71816 71784 71752 AND\n2 1 71815 71783 71751 AND\n2 1 71814 71782 71750 AND\n2 1 71813 71781 71749 AND\n2 1 71812 71780 71748 AND\n2 1 71811 71779 71747 AND\n2 1 71810 71778 71746 AND\n2 1 71809 71777 71745 AND\n2 1 71808 71776 71744 AND\n2 1 71807 71775 71743 AND\n2 1 71806 71774 71742 AND\n2 1 71805 71773 71741 AND\n2 1 71804 71772 71740 AND\n2 1 71803 71771 71739 AND\n2 1 71802 71770 71738 AND\n2 1 71801 71769 71737 AND\n2 1 71800 71768 71736 AND\n2 1 71799 71767 71735 AND\n2 1 71798 71766 71734 AND\n2 1 71797 71765 71733 AND\n",
"2 1 71796 71764 71732 AND\n2 1 71795 71763 71731 AND\n2 1 71794 71762 71730 AND\n2 1 71758 2719 86608 XOR\n2 1 71757 2718 86607 XOR\n2 1 71756 2717 86606 XOR\n2 1 71755 2716 86605 XOR\n2 1 71754 2715 86604 XOR\n2 1 71753 2714 86603 XOR\n2 1 71752 2713 86602 XOR\n2 1 71751 2712 86601 XOR\n2 1 71750 2711 86600 XOR\n2 1 71749 2710 86599 XOR\n2 1 71748 2709 86598 XOR\n2 1 71747 2708 86597 XOR\n2 1 71746 2707 86596 XOR\n2 1 71745 2706 86595 XOR\n2 1 71744 2705 86594 XOR\n2 1 71743 2704 86593 XOR\n2 1 71742 2703 86592 XOR\n2 1 71741 2702 86591 XOR\n2 1 71740 2701 86590 XOR\n2 1 71739 2700 86589 XOR\n2 1 71738 2699 86588 XOR\n2 1 71737 2698 86587 XOR\n2 1 71736 2697 86586 XOR\n2 1 71735 2696 86585 XOR\n2 1 71734 2695 86584 XOR\n2 1 71733 2694 86583 XOR\n2 1 71732 2693 86582 XOR\n2 1 71731 2692 86581 XOR\n2 1 71730 2691 86580 XOR\n2 1 2143 2175 71694 XOR\n2 1 2142 2174 71693 XOR\n2 1 2141 2173 71692 XOR\n2 1 2140 2172 71691 XOR\n2 1 2139 2171 71690 XOR\n2 1 2138 2170 71689 XOR\n2 1 2137 2169 71688 XOR\n2 1 2136 2168 71687 XOR\n2 1 2135 2167 71686 XOR\n2 1 2134 2166 71685 XOR\n2 1 2133 2165 71684 XOR\n2 1 2132 2164 71683 XOR\n2 1 2131 2163 71682 XOR\n2 1 2130 2162 71681 XOR\n2 1 2129 2161 71680 XOR\n2 1 2128 2160 71679 XOR\n2 1 2127 2159 71678 XOR\n2 1 2126 2158 71677 XOR\n2 1 2125 2157 71676 XOR\n2 1 2124 2156 71675 XOR\n2 1 2123 2155 71674 XOR\n2 1 2122 2154 71673 XOR\n2 1 2121 2153 71672 XOR\n2 1 2120 2152 71671 XOR\n2 1 2119 2151 71670 XOR\n2 1 2118 2150 71669 XOR\n2 1 2117 2149 71668 XOR\n2 1 2116 2148 71667 XOR\n2 1 2115 2147 71666 XOR\n2 1 2113 2124 67758 XOR\n2 1 2112 2123 67757 XOR\n2 1 2143 2122 67756 XOR\n2 1 2142 2121 67755 XOR\n2 1 2141 2120 67754 XOR\n2 1 2140 2119 67753 XOR\n2 1 2139 2118 67752 XOR\n2 1 2138 2117 67751 XOR\n2 1 2137 2116 67750 XOR\n2 1 2136 2115 67749 XOR\n2 1 2135 2114 67748 XOR\n2 1 2134 2113 67747 XOR\n2 1 2133 2112 67746 XOR\n2 1 2132 2143 67745 XOR\n2 1 2131 2142 67744 XOR\n2 1 2130 2141 67743 XOR\n2 1 2129 2140 67742 XOR\n2 1 2128 2139 67741 XOR\n2 1 2127 2138 67740 XOR\n2 1 2126 2137 67739 XOR\n2 1 2125 2136 67738 XOR\n2 1 2124 2135 67737 XOR\n2 1 2123 2134 67736 XOR\n2 1 2122 2133 67735 XOR\n2 1 2121 2132 67734 XOR\n2 1 2120 2131 67733 XOR\n2 1 2119 2130 67732 XOR\n2 1 2118 2129 67731 XOR\n2 1 2117 2128 67730 XOR\n2 1 2116 2127 67729 XOR\n2 1 2115 2126 67728 XOR\n2 1 2114 2125 67727 XOR\n2 1 67758 2133 88656 XOR\n2 1 88656 86608 118149 XOR\n2 1 67757 2132 88655 XOR\n2 1 88655 86607 118148 XOR\n2 1 67756 2131 88654 XOR\n2 1 88654 86606 118147 XOR\n2 1 67755 2130 88653 XOR\n2 1 88653 86605 118146 XOR\n2 1 67754 2129 88652 XOR\n2 1 88652 86604 118145 XOR\n2 1 67753 2128 88651 XOR\n2 1 88651 86603 118144 XOR\n2 1 67752 2127 88650 XOR\n2 1 88650 86602 118143 XOR\n2 1 67751 2126 88649 XOR\n2 1 88649 86601 118142 XOR\n2 1 67750 2125 88648 XOR\n2 1 88648 86600 118141 XOR\n2 1 67749 2124 88647 XOR\n2 1 67748 2123 88646 XOR\n2 1 88646 86598 118139 XOR\n2 1 67747 2122 88645 XOR\n2 1 88645 86597 118138 XOR\n2 1 67746 2121 88644 XOR\n2 1 88644 86596 118137 XOR\n2 1 67745 2120 88643 XOR\n2 1 88643 86595 118136 XOR\n2 1 67744 2119 88642 XOR\n2 1 88642 86594 118135 XOR\n2 1 67743 2118 88641 XOR\n2 1 88641 86593 118134 XOR\n2 1 67742 2117 88640 XOR\n2 1 88640 86592 118133 XOR\n2 1 67741 2116 88639 XOR\n2 1 88639 86591 118132 XOR\n",
"2 1 67740 2115 88638 XOR\n2 1 88638 86590 118131 XOR\n2 1 67739 2114 88637 XOR\n2 1 88637 86589 118130 XOR\n2 1 67738 2113 88636 XOR\n2 1 88636 86588 118129 XOR\n2 1 67737 2112 88635 XOR\n2 1 88635 86587 118128 XOR\n2 1 67736 2143 88634 XOR\n2 1 88634 86586 118127 XOR\n2 1 67735 2142 88633 XOR\n2 1 88633 86585 118126 XOR\n2 1 67734 2141 88632 XOR\n2 1 88632 86584 118125 XOR\n2 1 67733 2140 88631 XOR\n2 1 67732 2139 88630 XOR\n2 1 88630 86582 118123 XOR\n2 1 67731 2138 88629 XOR\n2 1 88629 86581 118122 XOR\n2 1 67730 2137 88628 XOR\n2 1 88628 86580 118121 XOR\n2 1 67729 2136 88627 XOR\n2 1 88627 86579 118120 XOR\n2 1 67728 2135 88626 XOR\n2 1 88626 86578 118119 XOR\n2 1 67727 2134 88625 XOR\n2 1 88625 86577 118088 AND\n2 1 86578 118088 33159 XOR\n2 1 88625 86577 84529 XOR\n2 1 118119 118088 84530 XOR\n2 1 88631 86583 118124 XOR\n2 1 88626 118088 33158 XOR\n2 1 33158 33159 33157 AND\n2 1 33157 118088 118089 XOR\n2 1 118120 118089 84531 XOR\n2 1 88627 118089 33161 XOR\n2 1 86579 118089 33162 XOR\n2 1 33161 33162 33160 AND\n2 1 33160 118089 118090 XOR\n2 1 86580 118090 33165 XOR\n2 1 118121 118090 84532 XOR\n2 1 88628 118090 33164 XOR\n2 1 33164 33165 33163 AND\n2 1 33163 118090 118091 XOR\n2 1 86581 118091 33168 XOR\n2 1 118122 118091 84533 XOR\n2 1 64878 2655 64846 AND\n2 1 64877 2654 64845 AND\n2 1 64876 2653 64844 AND\n2 1 64875 2652 64843 AND\n2 1 64874 2651 64842 AND\n2 1 64873 2650 64841 AND\n2 1 64872 2649 64840 AND\n2 1 64871 2648 64839 AND\n2 1 64870 2647 64838 AND\n2 1 64869 2646 64837 AND\n2 1 64868 2645 64836 AND\n2 1 64867 2644 64835 AND\n2 1 64866 2643 64834 AND\n2 1 64865 2642 64833 AND\n2 1 64864 2641 64832 AND\n2 1 64863 2640 64831 AND\n2 1 64862 2639 64830 AND\n2 1 64861 2638 64829 AND\n2 1 64860 2637 64828 AND\n2 1 64859 2636 64827 AND\n2 1 64858 2635 64826 AND\n2 1 64857 2634 64825 AND\n2 1 64856 2633 64824 AND\n2 1 64855 2632 64823 AND\n2 1 64854 2631 64822 AND\n2 1 64853 2630 64821 AND\n2 1 64852 2629 64820 AND\n2 1 64851 2628 64819 AND\n2 1 64850 2627 64818 AND\n2 1 64846 3231 98837 XOR\n2 1 64845 3230 98836 XOR\n2 1 64844 3229 98835 XOR\n2 1 64843 3228 98834 XOR\n2 1 64842 3227 98833 XOR\n2 1 64841 3226 98832 XOR\n2 1 64840 3225 98831 XOR\n2 1 64839 3224 98830 XOR\n2 1 64838 3223 98829 XOR\n2 1 64837 3222 98828 XOR\n2 1 64836 3221 98827 XOR\n2 1 64835 3220 98826 XOR\n2 1 64834 3219 98825 XOR\n2 1 64833 3218 98824 XOR\n2 1 64832 3217 98823 XOR\n2 1 64831 3216 98822 XOR\n2 1 64830 3215 98821 XOR\n2 1 64829 3214 98820 XOR\n2 1 64828 3213 98819 XOR\n2 1 64827 3212 98818 XOR\n2 1 64826 3211 98817 XOR\n2 1 64825 3210 98816 XOR\n2 1 64824 3209 98815 XOR\n2 1 64823 3208 98814 XOR\n2 1 64822 3207 98813 XOR\n2 1 64821 3206 98812 XOR\n2 1 64820 3205 98811 XOR\n2 1 64819 3204 98810 XOR\n2 1 64818 3203 98809 XOR\n2 1 2655 2687 64814 XOR\n2 1 2654 2686 64813 XOR\n2 1 2653 2685 64812 XOR\n2 1 2652 2684 64811 XOR\n2 1 2651 2683 64810 XOR\n2 1 2650 2682 64809 XOR\n2 1 2649 2681 64808 XOR\n2 1 2648 2680 64807 XOR\n2 1 2647 2679 64806 XOR\n2 1 2646 2678 64805 XOR\n2 1 2645 2677 64804 XOR\n2 1 2644 2676 64803 XOR\n2 1 2643 2675 64802 XOR\n2 1 2642 2674 64801 XOR\n2 1 2641 2673 64800 XOR\n2 1 2640 2672 64799 XOR\n2 1 2639 2671 64798 XOR\n2 1 2638 2670 64797 XOR\n2 1 2637 2669 64796 XOR\n2 1 2636 2668 64795 XOR\n2 1 2635 2667 64794 XOR\n2 1 2634 2666 64793 XOR\n2 1 2633 2665 64792 XOR\n2 1 2632 2664 64791 XOR\n",
"2 1 2631 2663 64790 XOR\n2 1 2630 2662 64789 XOR\n2 1 2629 2661 64788 XOR\n2 1 2628 2660 64787 XOR\n2 1 2627 2659 64786 XOR\n2 1 88647 86599 118140 XOR\n2 1 88629 118091 33167 XOR\n2 1 33167 33168 33166 AND\n2 1 33166 118091 118092 XOR\n2 1 118123 118092 84534 XOR\n2 1 88630 118092 33170 XOR\n2 1 86582 118092 33171 XOR\n2 1 33170 33171 33169 AND\n2 1 33169 118092 118093 XOR\n2 1 118124 118093 84535 XOR\n2 1 86583 118093 33174 XOR\n2 1 88631 118093 33173 XOR\n2 1 33173 33174 33172 AND\n2 1 33172 118093 118094 XOR\n2 1 86584 118094 33177 XOR\n2 1 88632 118094 33176 XOR\n2 1 33176 33177 33175 AND\n2 1 33175 118094 118095 XOR\n2 1 118126 118095 84537 XOR\n2 1 86585 118095 33180 XOR\n2 1 88633 118095 33179 XOR\n2 1 33179 33180 33178 AND\n2 1 33178 118095 118096 XOR\n2 1 88634 118096 33182 XOR\n2 1 118127 118096 84538 XOR\n2 1 118125 118094 84536 XOR\n2 1 86586 118096 33183 XOR\n2 1 33182 33183 33181 AND\n2 1 33181 118096 118097 XOR\n2 1 88635 118097 33185 XOR\n2 1 86587 118097 33186 XOR\n2 1 33185 33186 33184 AND\n2 1 118128 118097 84539 XOR\n2 1 2629 2634 61838 XOR\n2 1 2628 2633 61837 XOR\n2 1 2627 2632 61836 XOR\n2 1 2626 2631 61835 XOR\n2 1 2625 2630 61834 XOR\n2 1 2624 2629 61833 XOR\n2 1 2655 2628 61832 XOR\n2 1 2654 2627 61831 XOR\n2 1 2653 2626 61830 XOR\n2 1 2652 2625 61829 XOR\n2 1 2651 2624 61828 XOR\n2 1 2650 2655 61827 XOR\n2 1 2649 2654 61826 XOR\n2 1 2648 2653 61825 XOR\n2 1 2647 2652 61824 XOR\n2 1 2646 2651 61823 XOR\n2 1 2645 2650 61822 XOR\n2 1 2644 2649 61821 XOR\n2 1 2643 2648 61820 XOR\n2 1 2642 2647 61819 XOR\n2 1 2641 2646 61818 XOR\n2 1 2640 2645 61817 XOR\n2 1 2639 2644 61816 XOR\n2 1 2638 2643 61815 XOR\n2 1 2637 2642 61814 XOR\n2 1 2636 2641 61813 XOR\n2 1 2635 2640 61812 XOR\n2 1 2634 2639 61811 XOR\n2 1 2633 2638 61810 XOR\n2 1 2632 2637 61809 XOR\n2 1 2631 2636 61808 XOR\n2 1 2630 2635 61807 XOR\n2 1 61838 2648 100885 XOR\n2 1 100885 98837 118350 XOR\n2 1 61837 2647 100884 XOR\n2 1 100884 98836 118349 XOR\n2 1 61836 2646 100883 XOR\n2 1 100883 98835 118348 XOR\n2 1 61835 2645 100882 XOR\n2 1 100882 98834 118347 XOR\n2 1 61834 2644 100881 XOR\n2 1 100881 98833 118346 XOR\n2 1 61833 2643 100880 XOR\n2 1 100880 98832 118345 XOR\n2 1 61832 2642 100879 XOR\n2 1 100879 98831 118344 XOR\n2 1 61831 2641 100878 XOR\n2 1 100878 98830 118343 XOR\n2 1 61830 2640 100877 XOR\n2 1 100877 98829 118342 XOR\n2 1 61829 2639 100876 XOR\n2 1 100876 98828 118341 XOR\n2 1 61828 2638 100875 XOR\n2 1 100875 98827 118340 XOR\n2 1 61827 2637 100874 XOR\n2 1 100874 98826 118339 XOR\n2 1 61826 2636 100873 XOR\n2 1 100873 98825 118338 XOR\n2 1 61825 2635 100872 XOR\n2 1 100872 98824 118337 XOR\n2 1 61824 2634 100871 XOR\n2 1 100871 98823 118336 XOR\n2 1 61823 2633 100870 XOR\n2 1 100870 98822 118335 XOR\n2 1 61822 2632 100869 XOR\n2 1 100869 98821 118334 XOR\n2 1 61821 2631 100868 XOR\n2 1 100868 98820 118333 XOR\n2 1 61820 2630 100867 XOR\n2 1 100867 98819 118332 XOR\n2 1 61819 2629 100866 XOR\n2 1 100866 98818 118331 XOR\n2 1 61818 2628 100865 XOR\n2 1 100865 98817 118330 XOR\n2 1 61817 2627 100864 XOR\n2 1 100864 98816 118329 XOR\n2 1 61816 2626 100863 XOR\n2 1 100863 98815 118328 XOR\n2 1 61815 2625 100862 XOR\n2 1 100862 98814 118327 XOR\n2 1 61814 2624 100861 XOR\n2 1 100861 98813 118326 XOR\n2 1 61813 2655 100860 XOR\n2 1 100860 98812 118325 XOR\n2 1 61812 2654 100859 XOR\n2 1 100859 98811 118324 XOR\n2 1 61811 2653 100858 XOR\n2 1 100858 98810 118323 XOR\n2 1 61810 2652 100857 XOR\n2 1 100857 98809 118322 XOR\n",
"2 1 61809 2651 100856 XOR\n2 1 100856 98808 118321 XOR\n2 1 61808 2650 100855 XOR\n2 1 100855 98807 118320 XOR\n2 1 61807 2649 100854 XOR\n2 1 100854 98806 118289 AND\n2 1 100855 118289 33515 XOR\n2 1 100854 98806 96758 XOR\n2 1 96758 94710 118165 AND\n2 1 96758 94710 92685 XOR\n1 1 92685 90673 INV\n2 1 2720 90673 2592 XOR\n2 1 76465 2592 94582 XOR\n2 1 2720 90673 106250 AND\n2 1 2721 106250 13357 XOR\n2 1 90673 84529 106312 AND\n2 1 84530 106312 13448 XOR\n2 1 90673 84529 2080 XOR\n2 1 76465 2592 117220 AND\n2 1 94711 118165 33336 XOR\n2 1 118320 118289 96759 XOR\n2 1 96759 94711 118196 XOR\n2 1 118196 118165 92686 XOR\n2 1 92686 92685 90674 XOR\n2 1 90674 106312 13447 XOR\n2 1 2721 90674 106281 XOR\n2 1 106281 106250 2593 XOR\n2 1 90674 106250 13358 XOR\n2 1 13357 13358 13356 AND\n2 1 13356 106250 106251 XOR\n2 1 13447 13448 13446 AND\n2 1 13446 106312 106313 XOR\n2 1 84531 106313 13451 XOR\n2 1 2722 106251 13360 XOR\n2 1 76466 2593 117251 XOR\n2 1 90674 84530 106343 XOR\n2 1 106343 106312 2081 XOR\n2 1 90674 92685 33247 AND\n2 1 33247 92685 118150 XOR\n1 1 118150 33250 INV\n2 1 96759 118165 33335 XOR\n2 1 33335 33336 33334 AND\n2 1 33334 118165 118166 XOR\n2 1 94712 118166 33339 XOR\n2 1 2081 2145 71696 XOR\n2 1 2080 2144 71695 XOR\n2 1 71696 71664 71632 AND\n2 1 71695 71663 71631 AND\n2 1 71632 2145 86546 XOR\n2 1 71631 2144 86545 XOR\n2 1 2081 2113 71568 XOR\n2 1 2080 2112 71567 XOR\n2 1 64784 2593 64752 AND\n2 1 64783 2592 64751 AND\n2 1 64752 2657 98775 XOR\n2 1 64751 2656 98774 XOR\n2 1 2593 2625 64720 XOR\n2 1 2592 2624 64719 XOR\n2 1 98807 118289 33516 XOR\n2 1 33515 33516 33514 AND\n2 1 33514 118289 118290 XOR\n2 1 98808 118290 33519 XOR\n2 1 100856 118290 33518 XOR\n2 1 33518 33519 33517 AND\n2 1 33517 118290 118291 XOR\n2 1 118322 118291 96761 XOR\n2 1 96761 94713 118198 XOR\n2 1 98809 118291 33522 XOR\n2 1 118321 118290 96760 XOR\n2 1 96760 94712 118197 XOR\n2 1 118197 118166 92687 XOR\n1 1 92687 33320 INV\n2 1 92687 118150 33249 XOR\n2 1 33249 33250 33248 AND\n2 1 33320 118150 90675 XOR\n2 1 90675 106313 13450 XOR\n2 1 13450 13451 13449 AND\n2 1 13449 106313 106314 XOR\n2 1 84532 106314 13454 XOR\n2 1 90675 84531 106344 XOR\n2 1 106344 106313 2082 XOR\n2 1 2722 90675 106282 XOR\n2 1 106282 106251 2594 XOR\n2 1 76467 2594 117252 XOR\n2 1 90675 106251 13361 XOR\n2 1 13360 13361 13359 AND\n2 1 13359 106251 106252 XOR\n2 1 2723 106252 13363 XOR\n2 1 33248 118150 33252 XOR\n2 1 96760 118166 33338 XOR\n2 1 33338 33339 33337 AND\n2 1 33337 118166 118167 XOR\n2 1 96761 118167 33341 XOR\n2 1 94713 118167 33342 XOR\n2 1 33341 33342 33340 AND\n2 1 33340 118167 118168 XOR\n2 1 2082 2146 71697 XOR\n2 1 71697 71665 71633 AND\n2 1 71633 2146 86547 XOR\n2 1 2082 2114 71569 XOR\n2 1 118198 118167 92688 XOR\n2 1 92688 33252 90676 XOR\n2 1 90676 84532 106345 XOR\n2 1 106345 106314 2083 XOR\n2 1 2723 90676 106283 XOR\n2 1 90676 106252 13364 XOR\n2 1 106283 106252 2595 XOR\n2 1 13363 13364 13362 AND\n2 1 13362 106252 106253 XOR\n2 1 2724 106253 13366 XOR\n2 1 76468 2595 117253 XOR\n2 1 90676 106314 13453 XOR\n2 1 13453 13454 13452 AND\n2 1 13452 106314 106315 XOR\n2 1 84533 106315 13457 XOR\n2 1 90676 33252 33251 AND\n2 1 33251 33252 33254 XOR\n2 1 2083 2147 71698 XOR\n2 1 71698 71666 71634 AND\n2 1 71634 2147 86548 XOR\n2 1 2083 2115 71570 XOR\n2 1 94714 118168 33345 XOR\n2 1 64786 2595 64754 AND\n2 1 64785 2594 64753 AND\n2 1 64754 2659 98777 XOR\n2 1 64753 2658 98776 XOR\n2 1 2595 2627 64722 XOR\n2 1 2594 2626 64721 XOR\n",
"2 1 100857 118291 33521 XOR\n2 1 33521 33522 33520 AND\n2 1 33520 118291 118292 XOR\n2 1 100858 118292 33524 XOR\n2 1 98810 118292 33525 XOR\n2 1 33524 33525 33523 AND\n2 1 33523 118292 118293 XOR\n2 1 118324 118293 96763 XOR\n2 1 100859 118293 33527 XOR\n2 1 98811 118293 33528 XOR\n2 1 33527 33528 33526 AND\n2 1 33526 118293 118294 XOR\n2 1 118325 118294 96764 XOR\n2 1 100860 118294 33530 XOR\n2 1 98812 118294 33531 XOR\n2 1 33530 33531 33529 AND\n2 1 33529 118294 118295 XOR\n2 1 98813 118295 33534 XOR\n2 1 118326 118295 96765 XOR\n2 1 100861 118295 33533 XOR\n2 1 33533 33534 33532 AND\n2 1 33532 118295 118296 XOR\n2 1 118327 118296 96766 XOR\n2 1 96763 94715 118200 XOR\n2 1 96764 94716 118201 XOR\n2 1 96765 94717 118202 XOR\n2 1 96766 94718 118203 XOR\n2 1 98814 118296 33537 XOR\n2 1 100862 118296 33536 XOR\n2 1 33536 33537 33535 AND\n2 1 33535 118296 118297 XOR\n2 1 118328 118297 96767 XOR\n2 1 96767 94719 118204 XOR\n2 1 98815 118297 33540 XOR\n2 1 100863 118297 33539 XOR\n2 1 33539 33540 33538 AND\n2 1 33538 118297 118298 XOR\n2 1 118329 118298 96768 XOR\n2 1 96768 94720 118205 XOR\n2 1 98816 118298 33543 XOR\n2 1 100864 118298 33542 XOR\n2 1 33542 33543 33541 AND\n2 1 33541 118298 118299 XOR\n2 1 118330 118299 96769 XOR\n2 1 96769 94721 118206 XOR\n2 1 118323 118292 96762 XOR\n2 1 96762 94714 118199 XOR\n2 1 98817 118299 33546 XOR\n2 1 100865 118299 33545 XOR\n2 1 33545 33546 33544 AND\n2 1 33544 118299 118300 XOR\n2 1 118331 118300 96770 XOR\n2 1 96770 94722 118207 XOR\n2 1 96762 118168 33344 XOR\n2 1 33344 33345 33343 AND\n2 1 118199 118168 92689 XOR\n2 1 92689 33254 90677 XOR\n2 1 90677 84533 106346 XOR\n2 1 106346 106315 2084 XOR\n2 1 90677 106315 13456 XOR\n2 1 13456 13457 13455 AND\n2 1 13455 106315 106316 XOR\n2 1 84534 106316 13460 XOR\n2 1 2724 90677 106284 XOR\n2 1 106284 106253 2596 XOR\n2 1 76469 2596 117254 XOR\n2 1 90677 106253 13367 XOR\n2 1 13366 13367 13365 AND\n2 1 13365 106253 106254 XOR\n2 1 2725 106254 13369 XOR\n2 1 90677 33254 33253 AND\n2 1 33253 33254 33256 XOR\n2 1 2084 2148 71699 XOR\n2 1 71699 71667 71635 AND\n2 1 71635 2148 86549 XOR\n2 1 2084 2116 71571 XOR\n2 1 33343 118168 118169 XOR\n2 1 118200 118169 92690 XOR\n2 1 92690 33256 90678 XOR\n2 1 90678 84534 106347 XOR\n2 1 106347 106316 2085 XOR\n2 1 90678 106316 13459 XOR\n2 1 13459 13460 13458 AND\n2 1 13458 106316 106317 XOR\n2 1 2725 90678 106285 XOR\n2 1 106285 106254 2597 XOR\n2 1 84535 106317 13463 XOR\n2 1 76470 2597 117255 XOR\n2 1 90678 106254 13370 XOR\n2 1 13369 13370 13368 AND\n2 1 13368 106254 106255 XOR\n2 1 2726 106255 13372 XOR\n2 1 90678 33256 33255 AND\n2 1 33255 33256 33258 XOR\n2 1 96763 118169 33347 XOR\n2 1 2085 2149 71700 XOR\n2 1 71700 71668 71636 AND\n2 1 71636 2149 86550 XOR\n2 1 2085 2117 71572 XOR\n2 1 94715 118169 33348 XOR\n2 1 33347 33348 33346 AND\n2 1 33346 118169 118170 XOR\n2 1 94716 118170 33351 XOR\n2 1 118201 118170 92691 XOR\n2 1 92691 33258 90679 XOR\n2 1 90679 106255 13373 XOR\n2 1 13372 13373 13371 AND\n2 1 13371 106255 106256 XOR\n2 1 2727 106256 13375 XOR\n2 1 90679 106317 13462 XOR\n2 1 13462 13463 13461 AND\n2 1 13461 106317 106318 XOR\n2 1 84536 106318 13466 XOR\n2 1 2726 90679 106286 XOR\n2 1 106286 106255 2598 XOR\n2 1 76471 2598 117256 XOR\n2 1 90679 84535 106348 XOR\n2 1 106348 106317 2086 XOR\n2 1 90679 33258 33257 AND\n2 1 33257 33258 118151 XOR\n1 1 118151 33261 INV\n2 1 2086 2150 71701 XOR\n2 1 71701 71669 71637 AND\n2 1 71637 2150 86551 XOR\n2 1 2086 2118 71573 XOR\n2 1 96764 118170 33350 XOR\n2 1 33350 33351 33349 AND\n2 1 33349 118170 118171 XOR\n",
"2 1 118202 118171 92692 XOR\n1 1 92692 33321 INV\n2 1 33321 118151 90680 XOR\n2 1 90680 84536 106349 XOR\n2 1 90680 106256 13376 XOR\n2 1 13375 13376 13374 AND\n2 1 13374 106256 106257 XOR\n2 1 2728 106257 13378 XOR\n2 1 2727 90680 106287 XOR\n2 1 106287 106256 2599 XOR\n2 1 106349 106318 2087 XOR\n2 1 90680 106318 13465 XOR\n2 1 13465 13466 13464 AND\n2 1 13464 106318 106319 XOR\n2 1 84537 106319 13469 XOR\n2 1 76472 2599 117257 XOR\n2 1 92692 118151 33260 XOR\n2 1 33260 33261 33259 AND\n2 1 33259 118151 33263 XOR\n2 1 2087 2151 71702 XOR\n2 1 71702 71670 71638 AND\n2 1 71638 2151 86552 XOR\n2 1 2087 2119 71574 XOR\n2 1 96765 118171 33353 XOR\n2 1 94717 118171 33354 XOR\n2 1 33353 33354 33352 AND\n2 1 33352 118171 118172 XOR\n2 1 96766 118172 33356 XOR\n2 1 94718 118172 33357 XOR\n2 1 118203 118172 92693 XOR\n2 1 92693 33263 90681 XOR\n2 1 90681 106319 13468 XOR\n2 1 13468 13469 13467 AND\n2 1 13467 106319 106320 XOR\n2 1 84538 106320 13472 XOR\n2 1 90681 106257 13379 XOR\n2 1 13378 13379 13377 AND\n2 1 13377 106257 106258 XOR\n2 1 2728 90681 106288 XOR\n2 1 106288 106257 2600 XOR\n2 1 2729 106258 13381 XOR\n2 1 90681 84537 106350 XOR\n2 1 106350 106319 2088 XOR\n2 1 90681 33263 33262 AND\n2 1 33262 33263 118152 XOR\n1 1 118152 33266 INV\n2 1 2088 2152 71703 XOR\n2 1 71703 71671 71639 AND\n2 1 71639 2152 86553 XOR\n2 1 2088 2120 71575 XOR\n2 1 33356 33357 33355 AND\n2 1 33355 118172 118173 XOR\n2 1 118204 118173 92694 XOR\n1 1 92694 33322 INV\n2 1 33322 118152 90682 XOR\n2 1 90682 84538 106351 XOR\n2 1 106351 106320 2089 XOR\n2 1 90682 106320 13471 XOR\n2 1 13471 13472 13470 AND\n2 1 13470 106320 106321 XOR\n2 1 84539 106321 13475 XOR\n2 1 2729 90682 106289 XOR\n2 1 106289 106258 2601 XOR\n2 1 90682 106258 13382 XOR\n2 1 13381 13382 13380 AND\n2 1 13380 106258 106259 XOR\n2 1 2730 106259 13384 XOR\n2 1 76474 2601 117259 XOR\n2 1 92694 118152 33265 XOR\n2 1 33265 33266 33264 AND\n2 1 33264 118152 33268 XOR\n2 1 2089 2153 71704 XOR\n2 1 71704 71672 71640 AND\n2 1 71640 2153 86554 XOR\n2 1 2089 2121 71576 XOR\n2 1 94719 118173 33360 XOR\n2 1 96767 118173 33359 XOR\n2 1 33359 33360 33358 AND\n2 1 33358 118173 118174 XOR\n2 1 96768 118174 33362 XOR\n2 1 94720 118174 33363 XOR\n2 1 33362 33363 33361 AND\n2 1 118205 118174 92695 XOR\n2 1 92695 33268 90683 XOR\n2 1 90683 106321 13474 XOR\n2 1 13474 13475 13473 AND\n2 1 13473 106321 106322 XOR\n2 1 2730 90683 106290 XOR\n2 1 90683 106259 13385 XOR\n2 1 106290 106259 2602 XOR\n2 1 13384 13385 13383 AND\n2 1 13383 106259 106260 XOR\n2 1 2731 106260 13387 XOR\n2 1 76475 2602 117260 XOR\n2 1 90683 84539 106352 XOR\n2 1 106352 106321 2090 XOR\n2 1 90683 33268 33267 AND\n2 1 33267 33268 118153 XOR\n1 1 118153 33271 INV\n2 1 2090 2154 71705 XOR\n2 1 71705 71673 71641 AND\n2 1 71641 2154 86555 XOR\n2 1 2090 2122 71577 XOR\n2 1 33361 118174 118175 XOR\n2 1 118206 118175 92696 XOR\n2 1 92696 118153 33270 XOR\n2 1 33270 33271 33269 AND\n2 1 33269 118153 33273 XOR\n2 1 94721 118175 33366 XOR\n2 1 96769 118175 33365 XOR\n2 1 33365 33366 33364 AND\n2 1 33364 118175 118176 XOR\n2 1 96770 118176 33368 XOR\n2 1 94722 118176 33369 XOR\n2 1 33368 33369 33367 AND\n2 1 33367 118176 118177 XOR\n2 1 94723 118177 33372 XOR\n2 1 118207 118176 92697 XOR\n2 1 92697 33273 90685 XOR\n2 1 2732 90685 106292 XOR\n2 1 90685 33273 33272 AND\n2 1 33272 33273 33275 XOR\n2 1 76473 2600 117258 XOR\n2 1 100866 118300 33548 XOR\n2 1 98818 118300 33549 XOR\n2 1 33548 33549 33547 AND\n2 1 33547 118300 118301 XOR\n2 1 118332 118301 96771 XOR\n",
"2 1 96771 94723 118208 XOR\n2 1 96771 118177 33371 XOR\n2 1 33371 33372 33370 AND\n2 1 118208 118177 92698 XOR\n2 1 92698 33275 90686 XOR\n2 1 2733 90686 106293 XOR\n2 1 90686 33275 33274 AND\n2 1 33274 33275 33277 XOR\n2 1 33370 118177 118178 XOR\n2 1 94724 118178 33375 XOR\n2 1 100867 118301 33551 XOR\n2 1 98819 118301 33552 XOR\n2 1 33551 33552 33550 AND\n2 1 33550 118301 118302 XOR\n2 1 118333 118302 96772 XOR\n2 1 96772 94724 118209 XOR\n2 1 96772 118178 33374 XOR\n2 1 33374 33375 33373 AND\n2 1 33373 118178 118179 XOR\n2 1 94725 118179 33378 XOR\n2 1 118209 118178 92699 XOR\n2 1 92699 33277 90687 XOR\n2 1 2734 90687 106294 XOR\n2 1 90687 33277 33276 AND\n2 1 33276 33277 33279 XOR\n2 1 100868 118302 33554 XOR\n2 1 98820 118302 33555 XOR\n2 1 33554 33555 33553 AND\n2 1 33553 118302 118303 XOR\n2 1 118334 118303 96773 XOR\n2 1 96773 118179 33377 XOR\n2 1 96773 94725 118210 XOR\n2 1 33377 33378 33376 AND\n2 1 33376 118179 118180 XOR\n2 1 118210 118179 92700 XOR\n2 1 92700 33279 90688 XOR\n2 1 2735 90688 106295 XOR\n2 1 90688 33279 33278 AND\n2 1 33278 33279 118154 XOR\n1 1 118154 33282 INV\n2 1 94726 118180 33381 XOR\n2 1 100869 118303 33557 XOR\n2 1 98821 118303 33558 XOR\n2 1 33557 33558 33556 AND\n2 1 33556 118303 118304 XOR\n2 1 118335 118304 96774 XOR\n2 1 96774 94726 118211 XOR\n2 1 118211 118180 92701 XOR\n1 1 92701 33324 INV\n2 1 33324 118154 90689 XOR\n2 1 2736 90689 106296 XOR\n2 1 92701 118154 33281 XOR\n2 1 33281 33282 33280 AND\n2 1 33280 118154 118155 XOR\n1 1 118155 33285 INV\n2 1 96774 118180 33380 XOR\n2 1 33380 33381 33379 AND\n2 1 33379 118180 118181 XOR\n2 1 94727 118181 33384 XOR\n2 1 100870 118304 33560 XOR\n2 1 98822 118304 33561 XOR\n2 1 33560 33561 33559 AND\n2 1 33559 118304 118305 XOR\n2 1 118336 118305 96775 XOR\n2 1 96775 94727 118212 XOR\n2 1 118212 118181 92702 XOR\n1 1 92702 33325 INV\n2 1 33325 118155 90690 XOR\n2 1 2737 90690 106297 XOR\n2 1 92702 118155 33284 XOR\n2 1 33284 33285 33283 AND\n2 1 33283 118155 118156 XOR\n1 1 118156 33288 INV\n2 1 96775 118181 33383 XOR\n2 1 33383 33384 33382 AND\n2 1 33382 118181 118182 XOR\n2 1 94728 118182 33387 XOR\n2 1 100871 118305 33563 XOR\n2 1 98823 118305 33564 XOR\n2 1 33563 33564 33562 AND\n2 1 33562 118305 118306 XOR\n2 1 118337 118306 96776 XOR\n2 1 96776 94728 118213 XOR\n2 1 118213 118182 92703 XOR\n1 1 92703 33326 INV\n2 1 92703 118156 33287 XOR\n2 1 33287 33288 33286 AND\n2 1 33326 118156 90691 XOR\n2 1 2738 90691 106298 XOR\n2 1 33286 118156 33290 XOR\n2 1 96776 118182 33386 XOR\n2 1 33386 33387 33385 AND\n2 1 33385 118182 118183 XOR\n2 1 94729 118183 33390 XOR\n2 1 100872 118306 33566 XOR\n2 1 98824 118306 33567 XOR\n2 1 33566 33567 33565 AND\n2 1 33565 118306 118307 XOR\n2 1 118338 118307 96777 XOR\n2 1 96777 118183 33389 XOR\n2 1 33389 33390 33388 AND\n2 1 33388 118183 118184 XOR\n2 1 96777 94729 118214 XOR\n2 1 118214 118183 92704 XOR\n2 1 92704 33290 90692 XOR\n2 1 2739 90692 106299 XOR\n2 1 90692 33290 33289 AND\n2 1 33289 33290 118157 XOR\n1 1 118157 33293 INV\n2 1 94730 118184 33393 XOR\n2 1 100873 118307 33569 XOR\n2 1 98825 118307 33570 XOR\n2 1 33569 33570 33568 AND\n2 1 33568 118307 118308 XOR\n2 1 118339 118308 96778 XOR\n2 1 96778 118184 33392 XOR\n2 1 96778 94730 118215 XOR\n2 1 118215 118184 92705 XOR\n1 1 92705 33327 INV\n2 1 33327 118157 90693 XOR\n2 1 2740 90693 106300 XOR\n2 1 92705 118157 33292 XOR\n2 1 33292 33293 33291 AND\n2 1 33291 118157 118158 XOR\n1 1 118158 33296 INV\n2 1 33392 33393 33391 AND\n2 1 33391 118184 118185 XOR\n2 1 94731 118185 33396 XOR\n",
"2 1 100874 118308 33572 XOR\n2 1 98826 118308 33573 XOR\n2 1 33572 33573 33571 AND\n2 1 33571 118308 118309 XOR\n2 1 118340 118309 96779 XOR\n2 1 96779 118185 33395 XOR\n2 1 33395 33396 33394 AND\n2 1 96779 94731 118216 XOR\n2 1 118216 118185 92706 XOR\n1 1 92706 33328 INV\n2 1 33328 118158 90694 XOR\n2 1 2741 90694 106301 XOR\n2 1 92706 118158 33295 XOR\n2 1 33295 33296 33294 AND\n2 1 33294 118158 33298 XOR\n2 1 33394 118185 118186 XOR\n2 1 94732 118186 33399 XOR\n2 1 100875 118309 33575 XOR\n2 1 98827 118309 33576 XOR\n2 1 33575 33576 33574 AND\n2 1 33574 118309 118310 XOR\n2 1 118341 118310 96780 XOR\n2 1 96780 118186 33398 XOR\n2 1 96780 94732 118217 XOR\n2 1 118217 118186 92707 XOR\n2 1 92707 33298 90695 XOR\n2 1 2742 90695 106302 XOR\n2 1 90695 33298 33297 AND\n2 1 33297 33298 118159 XOR\n1 1 118159 33301 INV\n2 1 33398 33399 33397 AND\n2 1 33397 118186 118187 XOR\n2 1 94733 118187 33402 XOR\n2 1 100876 118310 33578 XOR\n2 1 98828 118310 33579 XOR\n2 1 33578 33579 33577 AND\n2 1 33577 118310 118311 XOR\n2 1 118342 118311 96781 XOR\n2 1 96781 118187 33401 XOR\n2 1 33401 33402 33400 AND\n2 1 33400 118187 118188 XOR\n2 1 96781 94733 118218 XOR\n2 1 118218 118187 92708 XOR\n1 1 92708 33329 INV\n2 1 92708 118159 33300 XOR\n2 1 33300 33301 33299 AND\n2 1 33329 118159 90696 XOR\n2 1 2743 90696 106303 XOR\n2 1 33299 118159 118160 XOR\n1 1 118160 33304 INV\n2 1 94734 118188 33405 XOR\n2 1 100877 118311 33581 XOR\n2 1 98829 118311 33582 XOR\n2 1 33581 33582 33580 AND\n2 1 33580 118311 118312 XOR\n2 1 118343 118312 96782 XOR\n2 1 96782 118188 33404 XOR\n2 1 96782 94734 118219 XOR\n2 1 33404 33405 33403 AND\n2 1 33403 118188 118189 XOR\n2 1 118219 118188 92709 XOR\n1 1 92709 33330 INV\n2 1 33330 118160 90697 XOR\n2 1 2744 90697 106304 XOR\n2 1 92709 118160 33303 XOR\n2 1 33303 33304 33302 AND\n2 1 33302 118160 118161 XOR\n1 1 118161 33307 INV\n2 1 94735 118189 33408 XOR\n2 1 100878 118312 33584 XOR\n2 1 98830 118312 33585 XOR\n2 1 33584 33585 33583 AND\n2 1 33583 118312 118313 XOR\n2 1 118344 118313 96783 XOR\n2 1 96783 94735 118220 XOR\n2 1 118220 118189 92710 XOR\n1 1 92710 33331 INV\n2 1 33331 118161 90698 XOR\n2 1 2745 90698 106305 XOR\n2 1 92710 118161 33306 XOR\n2 1 33306 33307 33305 AND\n2 1 33305 118161 118162 XOR\n1 1 118162 33310 INV\n2 1 96783 118189 33407 XOR\n2 1 33407 33408 33406 AND\n2 1 33406 118189 118190 XOR\n2 1 94736 118190 33411 XOR\n2 1 100879 118313 33587 XOR\n2 1 98831 118313 33588 XOR\n2 1 33587 33588 33586 AND\n2 1 33586 118313 118314 XOR\n2 1 118345 118314 96784 XOR\n2 1 96784 118190 33410 XOR\n2 1 33410 33411 33409 AND\n2 1 33409 118190 118191 XOR\n2 1 94737 118191 33414 XOR\n2 1 96784 94736 118221 XOR\n2 1 118221 118190 92711 XOR\n1 1 92711 33332 INV\n2 1 33332 118162 90699 XOR\n2 1 2746 90699 106306 XOR\n2 1 92711 118162 33309 XOR\n2 1 33309 33310 33308 AND\n2 1 33308 118162 33312 XOR\n2 1 100880 118314 33590 XOR\n2 1 98832 118314 33591 XOR\n2 1 33590 33591 33589 AND\n2 1 33589 118314 118315 XOR\n2 1 118346 118315 96785 XOR\n2 1 96785 94737 118222 XOR\n2 1 118222 118191 92712 XOR\n2 1 92712 33312 90700 XOR\n2 1 2747 90700 106307 XOR\n2 1 90700 33312 33311 AND\n2 1 33311 33312 33314 XOR\n2 1 96785 118191 33413 XOR\n2 1 33413 33414 33412 AND\n2 1 33412 118191 118192 XOR\n2 1 94738 118192 33417 XOR\n2 1 100881 118315 33593 XOR\n2 1 98833 118315 33594 XOR\n2 1 33593 33594 33592 AND\n2 1 33592 118315 118316 XOR\n2 1 118347 118316 96786 XOR\n2 1 96786 118192 33416 XOR\n2 1 96786 94738 118223 XOR\n2 1 118223 118192 92713 XOR\n2 1 92713 33314 90701 XOR\n",
"2 1 90701 33314 33313 AND\n2 1 2748 90701 106308 XOR\n2 1 33313 33314 118163 XOR\n1 1 118163 33317 INV\n2 1 33416 33417 33415 AND\n2 1 33415 118192 118193 XOR\n2 1 94739 118193 33420 XOR\n2 1 100882 118316 33596 XOR\n2 1 98834 118316 33597 XOR\n2 1 33596 33597 33595 AND\n2 1 33595 118316 118317 XOR\n2 1 118348 118317 96787 XOR\n2 1 96787 94739 118224 XOR\n2 1 118224 118193 92714 XOR\n1 1 92714 33333 INV\n2 1 33333 118163 90702 XOR\n2 1 2749 90702 106309 XOR\n2 1 92714 118163 33316 XOR\n2 1 33316 33317 33315 AND\n2 1 33315 118163 33319 XOR\n2 1 96787 118193 33419 XOR\n2 1 33419 33420 33418 AND\n2 1 33418 118193 118194 XOR\n2 1 94740 118194 33423 XOR\n2 1 100883 118317 33599 XOR\n2 1 98835 118317 33600 XOR\n2 1 33599 33600 33598 AND\n2 1 33598 118317 118318 XOR\n2 1 100884 118318 33602 XOR\n2 1 98836 118318 33603 XOR\n2 1 118349 118318 96788 XOR\n2 1 96788 118194 33422 XOR\n2 1 33422 33423 33421 AND\n2 1 33421 118194 118195 XOR\n2 1 96788 94740 118225 XOR\n2 1 118225 118194 92715 XOR\n2 1 92715 33319 90703 XOR\n2 1 2750 90703 106310 XOR\n2 1 90703 33319 33318 AND\n2 1 33318 33319 118164 XOR\n2 1 64793 2602 64761 AND\n2 1 64792 2601 64760 AND\n2 1 64791 2600 64759 AND\n2 1 64790 2599 64758 AND\n2 1 64789 2598 64757 AND\n2 1 64788 2597 64756 AND\n2 1 64787 2596 64755 AND\n2 1 64761 2666 98784 XOR\n2 1 64760 2665 98783 XOR\n2 1 64759 2664 98782 XOR\n2 1 64758 2663 98781 XOR\n2 1 64757 2662 98780 XOR\n2 1 64756 2661 98779 XOR\n2 1 64755 2660 98778 XOR\n2 1 2602 2634 64729 XOR\n2 1 2601 2633 64728 XOR\n2 1 2600 2632 64727 XOR\n2 1 2599 2631 64726 XOR\n2 1 2598 2630 64725 XOR\n2 1 2597 2629 64724 XOR\n2 1 2596 2628 64723 XOR\n2 1 33602 33603 33601 AND\n2 1 33601 118318 118319 XOR\n2 1 118350 118319 96789 XOR\n2 1 96789 94741 118226 XOR\n2 1 118226 118195 92716 XOR\n2 1 92716 118164 90704 XOR\n2 1 2751 90704 106311 XOR\n2 1 117251 117220 94583 XOR\n2 1 76466 117220 31608 XOR\n2 1 2593 117220 31609 XOR\n2 1 31608 31609 31607 AND\n2 1 31607 117220 117221 XOR\n2 1 117252 117221 94584 XOR\n2 1 76467 117221 31611 XOR\n2 1 2594 117221 31612 XOR\n2 1 31611 31612 31610 AND\n2 1 31610 117221 117222 XOR\n2 1 117253 117222 94585 XOR\n2 1 76468 117222 31614 XOR\n2 1 2595 117222 31615 XOR\n2 1 31614 31615 31613 AND\n2 1 31613 117222 117223 XOR\n2 1 76469 117223 31617 XOR\n2 1 117254 117223 94586 XOR\n2 1 2596 117223 31618 XOR\n2 1 31617 31618 31616 AND\n2 1 31616 117223 117224 XOR\n2 1 2597 117224 31621 XOR\n2 1 117255 117224 94587 XOR\n2 1 76470 117224 31620 XOR\n2 1 31620 31621 31619 AND\n2 1 31619 117224 117225 XOR\n2 1 117256 117225 94588 XOR\n2 1 76471 117225 31623 XOR\n2 1 2598 117225 31624 XOR\n2 1 31623 31624 31622 AND\n2 1 31622 117225 117226 XOR\n2 1 2599 117226 31627 XOR\n2 1 117257 117226 94589 XOR\n2 1 76472 117226 31626 XOR\n2 1 31626 31627 31625 AND\n2 1 31625 117226 117227 XOR\n2 1 76473 117227 31629 XOR\n2 1 117258 117227 94590 XOR\n2 1 2600 117227 31630 XOR\n2 1 31629 31630 31628 AND\n2 1 31628 117227 117228 XOR\n2 1 2601 117228 31633 XOR\n2 1 117259 117228 94591 XOR\n2 1 76474 117228 31632 XOR\n2 1 31632 31633 31631 AND\n2 1 31631 117228 117229 XOR\n2 1 76475 117229 31635 XOR\n2 1 117260 117229 94592 XOR\n2 1 2602 117229 31636 XOR\n2 1 31635 31636 31634 AND\n2 1 31634 117229 117230 XOR\n2 1 76476 117230 31638 XOR\n2 1 2597 2602 61806 XOR\n2 1 2596 2601 61805 XOR\n2 1 2595 2600 61804 XOR\n2 1 2594 2599 61803 XOR\n2 1 2593 2598 61802 XOR\n2 1 2592 2597 61801 XOR\n2 1 33184 118097 118098 XOR\n2 1 88636 118098 33188 XOR\n2 1 118129 118098 84540 XOR\n",
"2 1 84540 106322 13478 XOR\n2 1 86588 118098 33189 XOR\n2 1 33188 33189 33187 AND\n2 1 33187 118098 118099 XOR\n2 1 118130 118099 84541 XOR\n2 1 90685 84541 106354 XOR\n2 1 86589 118099 33192 XOR\n2 1 88637 118099 33191 XOR\n2 1 33191 33192 33190 AND\n2 1 33190 118099 118100 XOR\n2 1 86590 118100 33195 XOR\n2 1 88638 118100 33194 XOR\n2 1 33194 33195 33193 AND\n2 1 33193 118100 118101 XOR\n2 1 118132 118101 84543 XOR\n2 1 90687 84543 106356 XOR\n2 1 86591 118101 33198 XOR\n2 1 88639 118101 33197 XOR\n2 1 33197 33198 33196 AND\n2 1 33196 118101 118102 XOR\n2 1 118133 118102 84544 XOR\n2 1 90688 84544 106357 XOR\n2 1 86592 118102 33201 XOR\n1 1 92696 33323 INV\n2 1 33323 118153 90684 XOR\n2 1 90684 106260 13388 XOR\n2 1 13387 13388 13386 AND\n2 1 90684 84540 106353 XOR\n2 1 106353 106322 2091 XOR\n2 1 90684 106322 13477 XOR\n2 1 13477 13478 13476 AND\n2 1 13476 106322 106323 XOR\n2 1 13386 106260 106261 XOR\n2 1 2732 106261 13390 XOR\n2 1 90685 106261 13391 XOR\n2 1 13390 13391 13389 AND\n2 1 13389 106261 106262 XOR\n2 1 2733 106262 13393 XOR\n2 1 106292 106261 2604 XOR\n2 1 106293 106262 2605 XOR\n2 1 90686 106262 13394 XOR\n2 1 13393 13394 13392 AND\n2 1 13392 106262 106263 XOR\n2 1 106294 106263 2606 XOR\n2 1 2734 106263 13396 XOR\n2 1 90687 106263 13397 XOR\n2 1 13396 13397 13395 AND\n2 1 13395 106263 106264 XOR\n2 1 2735 106264 13399 XOR\n2 1 106295 106264 2607 XOR\n2 1 106354 106323 2092 XOR\n2 1 2731 90684 106291 XOR\n2 1 106291 106260 2603 XOR\n2 1 90688 106264 13400 XOR\n2 1 13399 13400 13398 AND\n2 1 13398 106264 106265 XOR\n2 1 106296 106265 2608 XOR\n2 1 84541 106323 13481 XOR\n2 1 90685 106323 13480 XOR\n2 1 13480 13481 13479 AND\n2 1 13479 106323 106324 XOR\n2 1 2736 106265 13402 XOR\n2 1 90689 106265 13403 XOR\n2 1 13402 13403 13401 AND\n2 1 13401 106265 106266 XOR\n2 1 2737 106266 13405 XOR\n2 1 90690 106266 13406 XOR\n2 1 106297 106266 2609 XOR\n2 1 13405 13406 13404 AND\n2 1 13404 106266 106267 XOR\n2 1 90691 106267 13409 XOR\n2 1 2738 106267 13408 XOR\n2 1 13408 13409 13407 AND\n2 1 106298 106267 2610 XOR\n2 1 13407 106267 106268 XOR\n2 1 106299 106268 2611 XOR\n2 1 2739 106268 13411 XOR\n2 1 90692 106268 13412 XOR\n2 1 13411 13412 13410 AND\n2 1 13410 106268 106269 XOR\n2 1 106300 106269 2612 XOR\n2 1 76485 2612 117270 XOR\n2 1 2740 106269 13414 XOR\n2 1 90693 106269 13415 XOR\n2 1 13414 13415 13413 AND\n2 1 13413 106269 106270 XOR\n2 1 106301 106270 2613 XOR\n2 1 76486 2613 117271 XOR\n2 1 2741 106270 13417 XOR\n2 1 90694 106270 13418 XOR\n2 1 13417 13418 13416 AND\n2 1 13416 106270 106271 XOR\n2 1 106302 106271 2614 XOR\n2 1 90695 106271 13421 XOR\n2 1 2742 106271 13420 XOR\n2 1 13420 13421 13419 AND\n2 1 13419 106271 106272 XOR\n2 1 106303 106272 2615 XOR\n2 1 90696 106272 13424 XOR\n2 1 2743 106272 13423 XOR\n2 1 13423 13424 13422 AND\n2 1 13422 106272 106273 XOR\n2 1 90697 106273 13427 XOR\n2 1 2744 106273 13426 XOR\n2 1 13426 13427 13425 AND\n2 1 106304 106273 2616 XOR\n2 1 13425 106273 106274 XOR\n2 1 90698 106274 13430 XOR\n2 1 106305 106274 2617 XOR\n2 1 2745 106274 13429 XOR\n2 1 13429 13430 13428 AND\n2 1 13428 106274 106275 XOR\n2 1 90699 106275 13433 XOR\n2 1 2746 106275 13432 XOR\n2 1 13432 13433 13431 AND\n2 1 13431 106275 106276 XOR\n2 1 106307 106276 2619 XOR\n2 1 106306 106275 2618 XOR\n2 1 76492 2619 117277 XOR\n2 1 2747 106276 13435 XOR\n2 1 90700 106276 13436 XOR\n2 1 13435 13436 13434 AND\n2 1 13434 106276 106277 XOR\n2 1 106308 106277 2620 XOR\n2 1 76493 2620 117278 XOR\n2 1 90701 106277 13439 XOR\n2 1 2748 106277 13438 XOR\n2 1 13438 13439 13437 AND\n",
"2 1 13437 106277 106278 XOR\n2 1 106309 106278 2621 XOR\n2 1 90702 106278 13442 XOR\n2 1 2749 106278 13441 XOR\n2 1 13441 13442 13440 AND\n2 1 13440 106278 106279 XOR\n2 1 106310 106279 2622 XOR\n2 1 90703 106279 13445 XOR\n2 1 2750 106279 13444 XOR\n2 1 13444 13445 13443 AND\n2 1 13443 106279 106280 XOR\n2 1 106311 106280 2623 XOR\n2 1 90686 106324 13483 XOR\n2 1 76488 2615 117273 XOR\n2 1 76490 2617 117275 XOR\n2 1 76478 2605 117263 XOR\n2 1 76477 2604 117262 XOR\n2 1 76480 2607 117265 XOR\n2 1 76483 2610 117268 XOR\n2 1 76482 2609 117267 XOR\n2 1 76476 2603 117261 XOR\n2 1 76479 2606 117264 XOR\n2 1 76481 2608 117266 XOR\n2 1 2603 117230 31639 XOR\n2 1 31638 31639 31637 AND\n2 1 2092 2156 71707 XOR\n2 1 2091 2155 71706 XOR\n2 1 71707 71675 71643 AND\n2 1 71706 71674 71642 AND\n2 1 71643 2156 86557 XOR\n2 1 71642 2155 86556 XOR\n2 1 2092 2124 71579 XOR\n2 1 2091 2123 71578 XOR\n2 1 76489 2616 117274 XOR\n2 1 76484 2611 117269 XOR\n2 1 2081 2092 67726 XOR\n2 1 2080 2091 67725 XOR\n2 1 31637 117230 117231 XOR\n2 1 76477 117231 31641 XOR\n2 1 117262 117231 94594 XOR\n2 1 64814 2623 64782 AND\n2 1 64813 2622 64781 AND\n2 1 64812 2621 64780 AND\n2 1 64811 2620 64779 AND\n2 1 64810 2619 64778 AND\n2 1 64809 2618 64777 AND\n2 1 64808 2617 64776 AND\n2 1 64807 2616 64775 AND\n2 1 64806 2615 64774 AND\n2 1 64805 2614 64773 AND\n2 1 64804 2613 64772 AND\n2 1 64803 2612 64771 AND\n2 1 64802 2611 64770 AND\n2 1 64801 2610 64769 AND\n2 1 64800 2609 64768 AND\n2 1 64799 2608 64767 AND\n2 1 64798 2607 64766 AND\n2 1 64797 2606 64765 AND\n2 1 64796 2605 64764 AND\n2 1 64795 2604 64763 AND\n2 1 64794 2603 64762 AND\n2 1 64782 2687 98805 XOR\n2 1 64781 2686 98804 XOR\n2 1 64780 2685 98803 XOR\n2 1 64779 2684 98802 XOR\n2 1 64778 2683 98801 XOR\n2 1 64777 2682 98800 XOR\n2 1 64776 2681 98799 XOR\n2 1 64775 2680 98798 XOR\n2 1 64774 2679 98797 XOR\n2 1 64773 2678 98796 XOR\n2 1 64772 2677 98795 XOR\n2 1 64771 2676 98794 XOR\n2 1 64770 2675 98793 XOR\n2 1 64769 2674 98792 XOR\n2 1 64768 2673 98791 XOR\n2 1 64767 2672 98790 XOR\n2 1 64766 2671 98789 XOR\n2 1 64765 2670 98788 XOR\n2 1 64764 2669 98787 XOR\n2 1 64763 2668 98786 XOR\n2 1 64762 2667 98785 XOR\n2 1 2623 2655 64750 XOR\n2 1 2622 2654 64749 XOR\n2 1 2621 2653 64748 XOR\n2 1 2620 2652 64747 XOR\n2 1 2619 2651 64746 XOR\n2 1 2618 2650 64745 XOR\n2 1 2617 2649 64744 XOR\n2 1 2616 2648 64743 XOR\n2 1 2615 2647 64742 XOR\n2 1 2614 2646 64741 XOR\n2 1 2613 2645 64740 XOR\n2 1 2612 2644 64739 XOR\n2 1 2611 2643 64738 XOR\n2 1 2610 2642 64737 XOR\n2 1 2609 2641 64736 XOR\n2 1 2608 2640 64735 XOR\n2 1 2607 2639 64734 XOR\n2 1 2606 2638 64733 XOR\n2 1 2605 2637 64732 XOR\n2 1 2604 2636 64731 XOR\n2 1 2603 2635 64730 XOR\n2 1 76487 2614 117272 XOR\n2 1 76491 2618 117276 XOR\n2 1 76494 2621 117279 XOR\n2 1 76495 2622 117280 XOR\n2 1 76496 2623 117281 XOR\n2 1 117261 117230 94593 XOR\n2 1 2604 117231 31642 XOR\n2 1 31641 31642 31640 AND\n2 1 31640 117231 117232 XOR\n2 1 2605 117232 31645 XOR\n2 1 117263 117232 94595 XOR\n2 1 76478 117232 31644 XOR\n2 1 31644 31645 31643 AND\n2 1 31643 117232 117233 XOR\n2 1 117264 117233 94596 XOR\n2 1 76479 117233 31647 XOR\n2 1 2606 117233 31648 XOR\n2 1 31647 31648 31646 AND\n2 1 31646 117233 117234 XOR\n2 1 2607 117234 31651 XOR\n2 1 117265 117234 94597 XOR\n2 1 2623 2596 61800 XOR\n2 1 2622 2595 61799 XOR\n2 1 2621 2594 61798 XOR\n2 1 2620 2593 61797 XOR\n",
"2 1 2619 2592 61796 XOR\n2 1 2618 2623 61795 XOR\n2 1 2617 2622 61794 XOR\n2 1 2616 2621 61793 XOR\n2 1 2615 2620 61792 XOR\n2 1 2614 2619 61791 XOR\n2 1 2613 2618 61790 XOR\n2 1 2612 2617 61789 XOR\n2 1 2611 2616 61788 XOR\n2 1 2610 2615 61787 XOR\n2 1 2609 2614 61786 XOR\n2 1 2608 2613 61785 XOR\n2 1 2607 2612 61784 XOR\n2 1 2606 2611 61783 XOR\n2 1 2605 2610 61782 XOR\n2 1 2604 2609 61781 XOR\n2 1 2603 2608 61780 XOR\n2 1 2602 2607 61779 XOR\n2 1 2601 2606 61778 XOR\n2 1 2600 2605 61777 XOR\n2 1 2599 2604 61776 XOR\n2 1 2598 2603 61775 XOR\n2 1 61806 2616 100853 XOR\n2 1 100853 98805 118087 XOR\n2 1 61805 2615 100852 XOR\n2 1 100852 98804 118086 XOR\n2 1 61804 2614 100851 XOR\n2 1 100851 98803 118085 XOR\n2 1 61803 2613 100850 XOR\n2 1 100850 98802 118084 XOR\n2 1 61802 2612 100849 XOR\n2 1 100849 98801 118083 XOR\n2 1 61801 2611 100848 XOR\n2 1 100848 98800 118082 XOR\n2 1 61800 2610 100847 XOR\n2 1 100847 98799 118081 XOR\n2 1 61799 2609 100846 XOR\n2 1 100846 98798 118080 XOR\n2 1 61798 2608 100845 XOR\n2 1 100845 98797 118079 XOR\n2 1 61797 2607 100844 XOR\n2 1 100844 98796 118078 XOR\n2 1 61796 2606 100843 XOR\n2 1 100843 98795 118077 XOR\n2 1 61795 2605 100842 XOR\n2 1 100842 98794 118076 XOR\n2 1 61794 2604 100841 XOR\n2 1 100841 98793 118075 XOR\n2 1 61793 2603 100840 XOR\n2 1 100840 98792 118074 XOR\n2 1 61792 2602 100839 XOR\n2 1 100839 98791 118073 XOR\n2 1 61791 2601 100838 XOR\n2 1 100838 98790 118072 XOR\n2 1 61790 2600 100837 XOR\n2 1 100837 98789 118071 XOR\n2 1 61789 2599 100836 XOR\n2 1 100836 98788 118070 XOR\n2 1 61788 2598 100835 XOR\n2 1 100835 98787 118069 XOR\n2 1 61787 2597 100834 XOR\n2 1 100834 98786 118068 XOR\n2 1 61786 2596 100833 XOR\n2 1 100833 98785 118067 XOR\n2 1 61785 2595 100832 XOR\n2 1 100832 98784 118066 XOR\n2 1 61784 2594 100831 XOR\n2 1 100831 98783 118065 XOR\n2 1 61783 2593 100830 XOR\n2 1 100830 98782 118064 XOR\n2 1 61782 2592 100829 XOR\n2 1 100829 98781 118063 XOR\n2 1 61781 2623 100828 XOR\n2 1 100828 98780 118062 XOR\n2 1 61780 2622 100827 XOR\n2 1 100827 98779 118061 XOR\n2 1 61779 2621 100826 XOR\n2 1 100826 98778 118060 XOR\n2 1 61778 2620 100825 XOR\n2 1 100825 98777 118059 XOR\n2 1 61777 2619 100824 XOR\n2 1 100824 98776 118058 XOR\n2 1 61776 2618 100823 XOR\n2 1 100823 98775 118057 XOR\n2 1 61775 2617 100822 XOR\n2 1 100822 98774 118026 AND\n2 1 118057 118026 96727 XOR\n2 1 100822 98774 96726 XOR\n2 1 98775 118026 33069 XOR\n2 1 100823 118026 33068 XOR\n2 1 33068 33069 33067 AND\n2 1 33067 118026 118027 XOR\n2 1 118058 118027 96728 XOR\n2 1 98776 118027 33072 XOR\n2 1 100824 118027 33071 XOR\n2 1 33071 33072 33070 AND\n2 1 33070 118027 118028 XOR\n2 1 118059 118028 96729 XOR\n2 1 98777 118028 33075 XOR\n2 1 100825 118028 33074 XOR\n2 1 33074 33075 33073 AND\n2 1 33073 118028 118029 XOR\n2 1 98778 118029 33078 XOR\n2 1 100826 118029 33077 XOR\n2 1 33077 33078 33076 AND\n2 1 33076 118029 118030 XOR\n2 1 118061 118030 96731 XOR\n2 1 98779 118030 33081 XOR\n2 1 100827 118030 33080 XOR\n2 1 33080 33081 33079 AND\n2 1 33079 118030 118031 XOR\n2 1 98780 118031 33084 XOR\n2 1 118062 118031 96732 XOR\n2 1 118060 118029 96730 XOR\n2 1 76480 117234 31650 XOR\n2 1 31650 31651 31649 AND\n2 1 31649 117234 117235 XOR\n2 1 76481 117235 31653 XOR\n2 1 117266 117235 94598 XOR\n2 1 2608 117235 31654 XOR\n2 1 31653 31654 31652 AND\n2 1 31652 117235 117236 XOR\n2 1 2609 117236 31657 XOR\n2 1 117267 117236 94599 XOR\n2 1 76482 117236 31656 XOR\n2 1 31656 31657 31655 AND\n2 1 31655 117236 117237 XOR\n2 1 76483 117237 31659 XOR\n",
"2 1 117268 117237 94600 XOR\n2 1 2610 117237 31660 XOR\n2 1 31659 31660 31658 AND\n2 1 31658 117237 117238 XOR\n2 1 117269 117238 94601 XOR\n2 1 76484 117238 31662 XOR\n2 1 2611 117238 31663 XOR\n2 1 31662 31663 31661 AND\n2 1 31661 117238 117239 XOR\n2 1 117270 117239 94602 XOR\n2 1 76485 117239 31665 XOR\n2 1 2612 117239 31666 XOR\n2 1 31665 31666 31664 AND\n2 1 31664 117239 117240 XOR\n2 1 117271 117240 94603 XOR\n2 1 76486 117240 31668 XOR\n2 1 2613 117240 31669 XOR\n2 1 31668 31669 31667 AND\n2 1 31667 117240 117241 XOR\n2 1 117272 117241 94604 XOR\n2 1 76487 117241 31671 XOR\n2 1 2614 117241 31672 XOR\n2 1 31671 31672 31670 AND\n2 1 31670 117241 117242 XOR\n2 1 117273 117242 94605 XOR\n2 1 76488 117242 31674 XOR\n2 1 2615 117242 31675 XOR\n2 1 31674 31675 31673 AND\n2 1 31673 117242 117243 XOR\n2 1 76489 117243 31677 XOR\n2 1 117274 117243 94606 XOR\n2 1 2616 117243 31678 XOR\n2 1 31677 31678 31676 AND\n2 1 31676 117243 117244 XOR\n2 1 2617 117244 31681 XOR\n2 1 117275 117244 94607 XOR\n2 1 76490 117244 31680 XOR\n2 1 31680 31681 31679 AND\n2 1 31679 117244 117245 XOR\n2 1 76491 117245 31683 XOR\n2 1 117276 117245 94608 XOR\n2 1 2618 117245 31684 XOR\n2 1 31683 31684 31682 AND\n2 1 31682 117245 117246 XOR\n2 1 2619 117246 31687 XOR\n2 1 117277 117246 94609 XOR\n2 1 76492 117246 31686 XOR\n2 1 31686 31687 31685 AND\n2 1 31685 117246 117247 XOR\n2 1 76493 117247 31689 XOR\n2 1 117278 117247 94610 XOR\n2 1 2620 117247 31690 XOR\n2 1 31689 31690 31688 AND\n2 1 31688 117247 117248 XOR\n2 1 2621 117248 31693 XOR\n2 1 117279 117248 94611 XOR\n2 1 76494 117248 31692 XOR\n2 1 31692 31693 31691 AND\n2 1 31691 117248 117249 XOR\n2 1 76495 117249 31695 XOR\n2 1 117280 117249 94612 XOR\n2 1 2622 117249 31696 XOR\n2 1 31695 31696 31694 AND\n2 1 31694 117249 117250 XOR\n2 1 117281 117250 94613 XOR\n2 1 88640 118102 33200 XOR\n2 1 33200 33201 33199 AND\n2 1 33199 118102 118103 XOR\n2 1 88641 118103 33203 XOR\n2 1 86593 118103 33204 XOR\n2 1 33203 33204 33202 AND\n2 1 33202 118103 118104 XOR\n2 1 118135 118104 84546 XOR\n2 1 90690 84546 106359 XOR\n2 1 86594 118104 33207 XOR\n2 1 88642 118104 33206 XOR\n2 1 33206 33207 33205 AND\n2 1 33205 118104 118105 XOR\n2 1 86595 118105 33210 XOR\n2 1 88643 118105 33209 XOR\n2 1 118136 118105 84547 XOR\n2 1 90691 84547 106360 XOR\n2 1 33209 33210 33208 AND\n2 1 118134 118103 84545 XOR\n2 1 90689 84545 106358 XOR\n2 1 33208 118105 118106 XOR\n2 1 86596 118106 33213 XOR\n2 1 88644 118106 33212 XOR\n2 1 33212 33213 33211 AND\n2 1 33211 118106 118107 XOR\n2 1 118138 118107 84549 XOR\n2 1 90693 84549 106362 XOR\n2 1 86597 118107 33216 XOR\n2 1 88645 118107 33215 XOR\n2 1 33215 33216 33214 AND\n2 1 33214 118107 118108 XOR\n2 1 86598 118108 33219 XOR\n2 1 88646 118108 33218 XOR\n2 1 33218 33219 33217 AND\n2 1 33217 118108 118109 XOR\n2 1 88647 118109 33221 XOR\n2 1 86599 118109 33222 XOR\n2 1 33221 33222 33220 AND\n2 1 118139 118108 84550 XOR\n2 1 90694 84550 106363 XOR\n2 1 118137 118106 84548 XOR\n2 1 90692 84548 106361 XOR\n2 1 33220 118109 118110 XOR\n2 1 118141 118110 84552 XOR\n2 1 90696 84552 106365 XOR\n2 1 86600 118110 33225 XOR\n2 1 88648 118110 33224 XOR\n2 1 118140 118109 84551 XOR\n2 1 90695 84551 106364 XOR\n2 1 33224 33225 33223 AND\n2 1 33223 118110 118111 XOR\n2 1 86601 118111 33228 XOR\n2 1 118142 118111 84553 XOR\n2 1 90697 84553 106366 XOR\n2 1 100828 118031 33083 XOR\n2 1 33083 33084 33082 AND\n2 1 33082 118031 118032 XOR\n2 1 100829 118032 33086 XOR\n2 1 118063 118032 96733 XOR\n2 1 98781 118032 33087 XOR\n2 1 33086 33087 33085 AND\n2 1 33085 118032 118033 XOR\n2 1 118064 118033 96734 XOR\n",
"2 1 100830 118033 33089 XOR\n2 1 98782 118033 33090 XOR\n2 1 33089 33090 33088 AND\n2 1 33088 118033 118034 XOR\n2 1 98783 118034 33093 XOR\n2 1 118065 118034 96735 XOR\n2 1 100831 118034 33092 XOR\n2 1 33092 33093 33091 AND\n2 1 33091 118034 118035 XOR\n2 1 118066 118035 96736 XOR\n2 1 98784 118035 33096 XOR\n2 1 100832 118035 33095 XOR\n2 1 33095 33096 33094 AND\n2 1 33094 118035 118036 XOR\n2 1 118067 118036 96737 XOR\n2 1 100833 118036 33098 XOR\n2 1 98785 118036 33099 XOR\n2 1 33098 33099 33097 AND\n2 1 33097 118036 118037 XOR\n2 1 118068 118037 96738 XOR\n2 1 98786 118037 33102 XOR\n2 1 100834 118037 33101 XOR\n2 1 33101 33102 33100 AND\n2 1 33100 118037 118038 XOR\n2 1 100835 118038 33104 XOR\n2 1 98787 118038 33105 XOR\n2 1 33104 33105 33103 AND\n2 1 33103 118038 118039 XOR\n2 1 118070 118039 96740 XOR\n2 1 98788 118039 33108 XOR\n2 1 100836 118039 33107 XOR\n2 1 33107 33108 33106 AND\n2 1 33106 118039 118040 XOR\n2 1 118071 118040 96741 XOR\n2 1 98789 118040 33111 XOR\n2 1 100837 118040 33110 XOR\n2 1 33110 33111 33109 AND\n2 1 33109 118040 118041 XOR\n2 1 98790 118041 33114 XOR\n2 1 100838 118041 33113 XOR\n2 1 33113 33114 33112 AND\n2 1 118072 118041 96742 XOR\n2 1 33112 118041 118042 XOR\n2 1 100839 118042 33116 XOR\n2 1 98791 118042 33117 XOR\n2 1 33116 33117 33115 AND\n2 1 118069 118038 96739 XOR\n2 1 33115 118042 118043 XOR\n2 1 118074 118043 96744 XOR\n2 1 98792 118043 33120 XOR\n2 1 100840 118043 33119 XOR\n2 1 33119 33120 33118 AND\n2 1 33118 118043 118044 XOR\n2 1 100841 118044 33122 XOR\n2 1 98793 118044 33123 XOR\n2 1 33122 33123 33121 AND\n2 1 33121 118044 118045 XOR\n2 1 98794 118045 33126 XOR\n2 1 118076 118045 96746 XOR\n2 1 100842 118045 33125 XOR\n2 1 33125 33126 33124 AND\n2 1 33124 118045 118046 XOR\n2 1 118077 118046 96747 XOR\n2 1 100843 118046 33128 XOR\n2 1 98795 118046 33129 XOR\n2 1 33128 33129 33127 AND\n2 1 33127 118046 118047 XOR\n2 1 100844 118047 33131 XOR\n2 1 118078 118047 96748 XOR\n2 1 98796 118047 33132 XOR\n2 1 33131 33132 33130 AND\n2 1 33130 118047 118048 XOR\n2 1 98797 118048 33135 XOR\n2 1 118079 118048 96749 XOR\n2 1 100845 118048 33134 XOR\n2 1 33134 33135 33133 AND\n2 1 33133 118048 118049 XOR\n2 1 98798 118049 33138 XOR\n2 1 100846 118049 33137 XOR\n2 1 33137 33138 33136 AND\n2 1 33136 118049 118050 XOR\n2 1 118081 118050 96751 XOR\n2 1 100847 118050 33140 XOR\n2 1 98799 118050 33141 XOR\n2 1 33140 33141 33139 AND\n2 1 33139 118050 118051 XOR\n2 1 98800 118051 33144 XOR\n2 1 100848 118051 33143 XOR\n2 1 33143 33144 33142 AND\n2 1 33142 118051 118052 XOR\n2 1 118083 118052 96753 XOR\n2 1 98801 118052 33147 XOR\n2 1 100849 118052 33146 XOR\n2 1 33146 33147 33145 AND\n2 1 33145 118052 118053 XOR\n2 1 118084 118053 96754 XOR\n2 1 98802 118053 33150 XOR\n2 1 100850 118053 33149 XOR\n2 1 33149 33150 33148 AND\n2 1 33148 118053 118054 XOR\n2 1 98803 118054 33153 XOR\n2 1 118085 118054 96755 XOR\n2 1 100851 118054 33152 XOR\n2 1 33152 33153 33151 AND\n2 1 33151 118054 118055 XOR\n2 1 100852 118055 33155 XOR\n2 1 98804 118055 33156 XOR\n2 1 33155 33156 33154 AND\n2 1 33154 118055 118056 XOR\n2 1 118087 118056 96757 XOR\n2 1 118082 118051 96752 XOR\n2 1 118086 118055 96756 XOR\n2 1 118080 118049 96750 XOR\n2 1 118075 118044 96745 XOR\n2 1 118073 118042 96743 XOR\n2 1 88649 118111 33227 XOR\n2 1 33227 33228 33226 AND\n2 1 118131 118100 84542 XOR\n2 1 90686 84542 106355 XOR\n2 1 106355 106324 2093 XOR\n2 1 84542 106324 13484 XOR\n2 1 13483 13484 13482 AND\n2 1 13482 106324 106325 XOR\n2 1 84543 106325 13487 XOR\n2 1 90687 106325 13486 XOR\n2 1 13486 13487 13485 AND\n2 1 106356 106325 2094 XOR\n2 1 13485 106325 106326 XOR\n",
"2 1 106357 106326 2095 XOR\n2 1 84544 106326 13490 XOR\n2 1 90688 106326 13489 XOR\n2 1 13489 13490 13488 AND\n2 1 13488 106326 106327 XOR\n2 1 106358 106327 2096 XOR\n2 1 84545 106327 13493 XOR\n2 1 90689 106327 13492 XOR\n2 1 13492 13493 13491 AND\n2 1 13491 106327 106328 XOR\n2 1 106359 106328 2097 XOR\n2 1 90690 106328 13495 XOR\n2 1 84546 106328 13496 XOR\n2 1 13495 13496 13494 AND\n2 1 13494 106328 106329 XOR\n2 1 106360 106329 2098 XOR\n2 1 84547 106329 13499 XOR\n2 1 90691 106329 13498 XOR\n2 1 13498 13499 13497 AND\n2 1 13497 106329 106330 XOR\n2 1 106361 106330 2099 XOR\n2 1 84548 106330 13502 XOR\n2 1 90692 106330 13501 XOR\n2 1 13501 13502 13500 AND\n2 1 13500 106330 106331 XOR\n2 1 106362 106331 2100 XOR\n2 1 84549 106331 13505 XOR\n2 1 90693 106331 13504 XOR\n2 1 13504 13505 13503 AND\n2 1 13503 106331 106332 XOR\n2 1 90694 106332 13507 XOR\n2 1 84550 106332 13508 XOR\n2 1 13507 13508 13506 AND\n2 1 13506 106332 106333 XOR\n2 1 84551 106333 13511 XOR\n2 1 90695 106333 13510 XOR\n2 1 13510 13511 13509 AND\n2 1 106364 106333 2102 XOR\n2 1 13509 106333 106334 XOR\n2 1 106365 106334 2103 XOR\n2 1 90696 106334 13513 XOR\n2 1 84552 106334 13514 XOR\n2 1 13513 13514 13512 AND\n2 1 13512 106334 106335 XOR\n2 1 106366 106335 2104 XOR\n2 1 90697 106335 13516 XOR\n2 1 84553 106335 13517 XOR\n2 1 13516 13517 13515 AND\n2 1 13515 106335 106336 XOR\n2 1 90698 106336 13519 XOR\n2 1 106363 106332 2101 XOR\n2 1 2104 2168 71719 XOR\n2 1 2103 2167 71718 XOR\n2 1 2102 2166 71717 XOR\n2 1 2101 2165 71716 XOR\n2 1 2100 2164 71715 XOR\n2 1 2099 2163 71714 XOR\n2 1 2098 2162 71713 XOR\n2 1 2097 2161 71712 XOR\n2 1 2096 2160 71711 XOR\n2 1 2095 2159 71710 XOR\n2 1 2094 2158 71709 XOR\n2 1 2093 2157 71708 XOR\n2 1 71719 71687 71655 AND\n2 1 71718 71686 71654 AND\n2 1 71717 71685 71653 AND\n2 1 71716 71684 71652 AND\n2 1 71715 71683 71651 AND\n2 1 71714 71682 71650 AND\n2 1 71713 71681 71649 AND\n2 1 71712 71680 71648 AND\n2 1 71711 71679 71647 AND\n2 1 71710 71678 71646 AND\n2 1 71709 71677 71645 AND\n2 1 71708 71676 71644 AND\n2 1 71655 2168 86569 XOR\n2 1 71654 2167 86568 XOR\n2 1 71653 2166 86567 XOR\n2 1 71652 2165 86566 XOR\n2 1 71651 2164 86565 XOR\n2 1 71650 2163 86564 XOR\n2 1 71649 2162 86563 XOR\n2 1 71648 2161 86562 XOR\n2 1 71647 2160 86561 XOR\n2 1 71646 2159 86560 XOR\n2 1 71645 2158 86559 XOR\n2 1 71644 2157 86558 XOR\n2 1 2104 2136 71591 XOR\n2 1 2103 2135 71590 XOR\n2 1 2102 2134 71589 XOR\n2 1 2101 2133 71588 XOR\n2 1 2100 2132 71587 XOR\n2 1 2099 2131 71586 XOR\n2 1 2098 2130 71585 XOR\n2 1 2097 2129 71584 XOR\n2 1 2096 2128 71583 XOR\n2 1 2095 2127 71582 XOR\n2 1 2094 2126 71581 XOR\n2 1 2093 2125 71580 XOR\n2 1 2104 2083 67717 XOR\n2 1 2103 2082 67716 XOR\n2 1 2102 2081 67715 XOR\n2 1 2101 2080 67714 XOR\n2 1 2093 2104 67706 XOR\n2 1 2092 2103 67705 XOR\n2 1 2091 2102 67704 XOR\n2 1 2090 2101 67703 XOR\n2 1 2089 2100 67702 XOR\n2 1 2088 2099 67701 XOR\n2 1 2087 2098 67700 XOR\n2 1 2086 2097 67699 XOR\n2 1 2085 2096 67698 XOR\n2 1 2084 2095 67697 XOR\n2 1 2083 2094 67696 XOR\n2 1 2082 2093 67695 XOR\n2 1 67726 2101 88624 XOR\n2 1 67725 2100 88623 XOR\n2 1 67717 2092 88615 XOR\n2 1 67716 2091 88614 XOR\n2 1 67715 2090 88613 XOR\n2 1 67714 2089 88612 XOR\n2 1 67706 2081 88604 XOR\n2 1 88604 86556 117881 XOR\n2 1 67705 2080 88603 XOR\n2 1 67697 2104 88595 XOR\n2 1 67696 2103 88594 XOR\n2 1 88594 86546 117871 XOR\n2 1 67695 2102 88593 XOR\n",
"2 1 88593 86545 117840 AND\n2 1 88593 86545 84497 XOR\n2 1 88595 86547 117872 XOR\n2 1 88603 86555 117880 XOR\n2 1 88612 86564 117889 XOR\n2 1 88613 86565 117890 XOR\n2 1 88614 86566 117891 XOR\n2 1 88615 86567 117892 XOR\n2 1 117871 117840 84498 XOR\n2 1 88594 117840 32709 XOR\n2 1 86546 117840 32710 XOR\n2 1 32709 32710 32708 AND\n2 1 32708 117840 117841 XOR\n2 1 86547 117841 32713 XOR\n2 1 117872 117841 84499 XOR\n2 1 88595 117841 32712 XOR\n2 1 32712 32713 32711 AND\n2 1 32711 117841 117842 XOR\n2 1 86548 117842 32716 XOR\n2 1 33226 118111 118112 XOR\n2 1 118143 118112 84554 XOR\n2 1 84554 106336 13520 XOR\n2 1 13519 13520 13518 AND\n2 1 13518 106336 106337 XOR\n2 1 90698 84554 106367 XOR\n2 1 106367 106336 2105 XOR\n2 1 90699 106337 13522 XOR\n2 1 88650 118112 33230 XOR\n2 1 86602 118112 33231 XOR\n2 1 33230 33231 33229 AND\n2 1 33229 118112 118113 XOR\n2 1 88651 118113 33233 XOR\n2 1 118144 118113 84555 XOR\n2 1 90699 84555 106368 XOR\n2 1 106368 106337 2106 XOR\n2 1 84555 106337 13523 XOR\n2 1 13522 13523 13521 AND\n2 1 13521 106337 106338 XOR\n2 1 90700 106338 13525 XOR\n2 1 86603 118113 33234 XOR\n2 1 33233 33234 33232 AND\n2 1 33232 118113 118114 XOR\n2 1 118145 118114 84556 XOR\n2 1 90700 84556 106369 XOR\n2 1 106369 106338 2107 XOR\n2 1 84556 106338 13526 XOR\n2 1 13525 13526 13524 AND\n2 1 13524 106338 106339 XOR\n2 1 90701 106339 13528 XOR\n2 1 2107 2171 71722 XOR\n2 1 2106 2170 71721 XOR\n2 1 2105 2169 71720 XOR\n2 1 71722 71690 71658 AND\n2 1 71721 71689 71657 AND\n2 1 71720 71688 71656 AND\n2 1 71658 2171 86572 XOR\n2 1 71657 2170 86571 XOR\n2 1 71656 2169 86570 XOR\n2 1 2107 2139 71594 XOR\n2 1 2106 2138 71593 XOR\n2 1 2105 2137 71592 XOR\n2 1 2107 2086 67720 XOR\n2 1 2106 2085 67719 XOR\n2 1 2105 2084 67718 XOR\n2 1 2096 2107 67709 XOR\n2 1 2095 2106 67708 XOR\n2 1 2094 2105 67707 XOR\n2 1 67720 2095 88618 XOR\n2 1 67719 2094 88617 XOR\n2 1 67718 2093 88616 XOR\n2 1 67709 2084 88607 XOR\n2 1 67708 2083 88606 XOR\n2 1 88606 86558 117883 XOR\n2 1 67707 2082 88605 XOR\n2 1 67700 2107 88598 XOR\n2 1 88598 86550 117875 XOR\n2 1 67699 2106 88597 XOR\n2 1 67698 2105 88596 XOR\n2 1 88596 117842 32715 XOR\n2 1 88596 86548 117873 XOR\n2 1 88652 118114 33236 XOR\n2 1 88597 86549 117874 XOR\n2 1 88605 86557 117882 XOR\n2 1 88607 86559 117884 XOR\n2 1 88616 86568 117893 XOR\n2 1 88617 86569 117894 XOR\n2 1 88618 86570 117895 XOR\n2 1 117873 117842 84500 XOR\n2 1 32715 32716 32714 AND\n2 1 32714 117842 117843 XOR\n2 1 86549 117843 32719 XOR\n2 1 117874 117843 84501 XOR\n2 1 88597 117843 32718 XOR\n2 1 32718 32719 32717 AND\n2 1 32717 117843 117844 XOR\n2 1 88598 117844 32721 XOR\n2 1 117875 117844 84502 XOR\n2 1 86550 117844 32722 XOR\n2 1 32721 32722 32720 AND\n2 1 32720 117844 117845 XOR\n2 1 86551 117845 32725 XOR\n2 1 86604 118114 33237 XOR\n2 1 33236 33237 33235 AND\n2 1 33235 118114 118115 XOR\n2 1 86605 118115 33240 XOR\n2 1 88653 118115 33239 XOR\n2 1 33239 33240 33238 AND\n2 1 33238 118115 118116 XOR\n2 1 118147 118116 84558 XOR\n2 1 90702 84558 106371 XOR\n2 1 88654 118116 33242 XOR\n2 1 86606 118116 33243 XOR\n2 1 33242 33243 33241 AND\n2 1 33241 118116 118117 XOR\n2 1 86607 118117 33246 XOR\n2 1 88655 118117 33245 XOR\n2 1 33245 33246 33244 AND\n2 1 33244 118117 118118 XOR\n2 1 118149 118118 84560 XOR\n2 1 90704 84560 106373 XOR\n2 1 118148 118117 84559 XOR\n2 1 90703 84559 106372 XOR\n2 1 118146 118115 84557 XOR\n2 1 84557 106339 13529 XOR\n2 1 13528 13529 13527 AND\n2 1 13527 106339 106340 XOR\n2 1 90702 106340 13531 XOR\n2 1 84558 106340 13532 XOR\n",
"2 1 13531 13532 13530 AND\n2 1 13530 106340 106341 XOR\n2 1 90703 106341 13534 XOR\n2 1 84559 106341 13535 XOR\n2 1 13534 13535 13533 AND\n2 1 106371 106340 2109 XOR\n2 1 106372 106341 2110 XOR\n2 1 13533 106341 106342 XOR\n2 1 106373 106342 2111 XOR\n2 1 90701 84557 106370 XOR\n2 1 106370 106339 2108 XOR\n2 1 2111 2175 71726 XOR\n2 1 2110 2174 71725 XOR\n2 1 2109 2173 71724 XOR\n2 1 2108 2172 71723 XOR\n2 1 71726 71694 71662 AND\n2 1 71725 71693 71661 AND\n2 1 71724 71692 71660 AND\n2 1 71723 71691 71659 AND\n2 1 71662 2175 86576 XOR\n2 1 71661 2174 86575 XOR\n2 1 71660 2173 86574 XOR\n2 1 71659 2172 86573 XOR\n2 1 2111 2143 71598 XOR\n2 1 2110 2142 71597 XOR\n2 1 2109 2141 71596 XOR\n2 1 2108 2140 71595 XOR\n2 1 2111 2090 67724 XOR\n2 1 2110 2089 67723 XOR\n2 1 2109 2088 67722 XOR\n2 1 2108 2087 67721 XOR\n2 1 2100 2111 67713 XOR\n2 1 2099 2110 67712 XOR\n2 1 2098 2109 67711 XOR\n2 1 2097 2108 67710 XOR\n2 1 67724 2099 88622 XOR\n2 1 67723 2098 88621 XOR\n2 1 67722 2097 88620 XOR\n2 1 67721 2096 88619 XOR\n2 1 67713 2088 88611 XOR\n2 1 67712 2087 88610 XOR\n2 1 88610 86562 117887 XOR\n2 1 67711 2086 88609 XOR\n2 1 67710 2085 88608 XOR\n2 1 88608 86560 117885 XOR\n2 1 67704 2111 88602 XOR\n2 1 88602 86554 117879 XOR\n2 1 67703 2110 88601 XOR\n2 1 67702 2109 88600 XOR\n2 1 88600 86552 117877 XOR\n2 1 67701 2108 88599 XOR\n2 1 88599 86551 117876 XOR\n2 1 117876 117845 84503 XOR\n2 1 88601 86553 117878 XOR\n2 1 88609 86561 117886 XOR\n2 1 88611 86563 117888 XOR\n2 1 88619 86571 117896 XOR\n2 1 88620 86572 117897 XOR\n2 1 88621 86573 117898 XOR\n2 1 88622 86574 117899 XOR\n2 1 88623 86575 117900 XOR\n2 1 88624 86576 117901 XOR\n2 1 88599 117845 32724 XOR\n2 1 32724 32725 32723 AND\n2 1 32723 117845 117846 XOR\n2 1 88600 117846 32727 XOR\n2 1 117877 117846 84504 XOR\n2 1 86552 117846 32728 XOR\n2 1 32727 32728 32726 AND\n2 1 32726 117846 117847 XOR\n2 1 86553 117847 32731 XOR\n2 1 117878 117847 84505 XOR\n2 1 88601 117847 32730 XOR\n2 1 32730 32731 32729 AND\n2 1 32729 117847 117848 XOR\n2 1 88602 117848 32733 XOR\n2 1 117879 117848 84506 XOR\n2 1 86554 117848 32734 XOR\n2 1 32733 32734 32732 AND\n2 1 32732 117848 117849 XOR\n2 1 86555 117849 32737 XOR\n2 1 117880 117849 84507 XOR\n2 1 88603 117849 32736 XOR\n2 1 32736 32737 32735 AND\n2 1 32735 117849 117850 XOR\n2 1 88604 117850 32739 XOR\n2 1 86556 117850 32740 XOR\n2 1 32739 32740 32738 AND\n2 1 32738 117850 117851 XOR\n2 1 117882 117851 84509 XOR\n2 1 88605 117851 32742 XOR\n2 1 117881 117850 84508 XOR\n2 1 86557 117851 32743 XOR\n2 1 32742 32743 32741 AND\n2 1 32741 117851 117852 XOR\n2 1 117883 117852 84510 XOR\n2 1 88606 117852 32745 XOR\n2 1 86558 117852 32746 XOR\n2 1 32745 32746 32744 AND\n2 1 32744 117852 117853 XOR\n2 1 117884 117853 84511 XOR\n2 1 88607 117853 32748 XOR\n2 1 86559 117853 32749 XOR\n2 1 32748 32749 32747 AND\n2 1 32747 117853 117854 XOR\n2 1 117885 117854 84512 XOR\n2 1 86560 117854 32752 XOR\n2 1 88608 117854 32751 XOR\n2 1 32751 32752 32750 AND\n2 1 32750 117854 117855 XOR\n2 1 88609 117855 32754 XOR\n2 1 86561 117855 32755 XOR\n2 1 32754 32755 32753 AND\n2 1 32753 117855 117856 XOR\n2 1 86562 117856 32758 XOR\n2 1 88610 117856 32757 XOR\n2 1 117887 117856 84514 XOR\n2 1 32757 32758 32756 AND\n2 1 32756 117856 117857 XOR\n2 1 117888 117857 84515 XOR\n2 1 88611 117857 32760 XOR\n2 1 86563 117857 32761 XOR\n2 1 32760 32761 32759 AND\n2 1 32759 117857 117858 XOR\n2 1 88612 117858 32763 XOR\n2 1 117889 117858 84516 XOR\n2 1 86564 117858 32764 XOR\n2 1 32763 32764 32762 AND\n",
"2 1 32762 117858 117859 XOR\n2 1 117890 117859 84517 XOR\n2 1 86565 117859 32767 XOR\n2 1 88613 117859 32766 XOR\n2 1 32766 32767 32765 AND\n2 1 32765 117859 117860 XOR\n2 1 86566 117860 32770 XOR\n2 1 117891 117860 84518 XOR\n2 1 88614 117860 32769 XOR\n2 1 32769 32770 32768 AND\n2 1 32768 117860 117861 XOR\n2 1 117892 117861 84519 XOR\n2 1 88615 117861 32772 XOR\n2 1 86567 117861 32773 XOR\n2 1 32772 32773 32771 AND\n2 1 32771 117861 117862 XOR\n2 1 86568 117862 32776 XOR\n2 1 117893 117862 84520 XOR\n2 1 88616 117862 32775 XOR\n2 1 32775 32776 32774 AND\n2 1 32774 117862 117863 XOR\n2 1 117894 117863 84521 XOR\n2 1 88617 117863 32778 XOR\n2 1 86569 117863 32779 XOR\n2 1 32778 32779 32777 AND\n2 1 32777 117863 117864 XOR\n2 1 86570 117864 32782 XOR\n2 1 117895 117864 84522 XOR\n2 1 88618 117864 32781 XOR\n2 1 32781 32782 32780 AND\n2 1 32780 117864 117865 XOR\n2 1 117896 117865 84523 XOR\n2 1 86571 117865 32785 XOR\n2 1 88619 117865 32784 XOR\n2 1 32784 32785 32783 AND\n2 1 32783 117865 117866 XOR\n2 1 86572 117866 32788 XOR\n2 1 117897 117866 84524 XOR\n2 1 88620 117866 32787 XOR\n2 1 32787 32788 32786 AND\n2 1 32786 117866 117867 XOR\n2 1 86573 117867 32791 XOR\n2 1 117898 117867 84525 XOR\n2 1 88621 117867 32790 XOR\n2 1 32790 32791 32789 AND\n2 1 32789 117867 117868 XOR\n2 1 117899 117868 84526 XOR\n2 1 86574 117868 32794 XOR\n2 1 88622 117868 32793 XOR\n2 1 32793 32794 32792 AND\n2 1 32792 117868 117869 XOR\n2 1 117900 117869 84527 XOR\n2 1 88623 117869 32796 XOR\n2 1 86575 117869 32797 XOR\n2 1 32796 32797 32795 AND\n2 1 32795 117869 117870 XOR\n2 1 117901 117870 84528 XOR\n2 1 117886 117855 84513 XOR\n2 1 76641 76643 81456 XOR\n2 1 81456 76816 132174 XOR\n2 1 76640 76642 81455 XOR\n2 1 81455 76815 132173 XOR\n2 1 76639 76641 81454 XOR\n2 1 81454 76814 132172 XOR\n2 1 76638 76640 81453 XOR\n2 1 81453 76813 132171 XOR\n2 1 76637 76639 81452 XOR\n2 1 81452 76812 132170 XOR\n2 1 76636 76638 81451 XOR\n2 1 81451 76811 132169 XOR\n2 1 76635 76637 81450 XOR\n2 1 81450 76810 132168 XOR\n2 1 76634 76636 81449 XOR\n2 1 81449 76809 132167 XOR\n2 1 76633 76635 81448 XOR\n2 1 81448 76808 132166 XOR\n2 1 76632 76634 81447 XOR\n2 1 81447 76807 132165 XOR\n2 1 76631 76633 6793 XOR\n2 1 76630 76632 6792 XOR\n2 1 76629 76631 6791 XOR\n2 1 76628 76630 6790 XOR\n2 1 76627 76629 6789 XOR\n2 1 76626 76628 6788 XOR\n2 1 76625 76627 6787 XOR\n2 1 76656 76626 6786 XOR\n2 1 76655 76625 6785 XOR\n2 1 76654 76656 6784 XOR\n2 1 76653 76655 6783 XOR\n2 1 76652 76654 6782 XOR\n2 1 76651 76653 6781 XOR\n2 1 76650 76652 6780 XOR\n2 1 76649 76651 6779 XOR\n2 1 76648 76650 6778 XOR\n2 1 76647 76649 6777 XOR\n2 1 76646 76648 6776 XOR\n2 1 76645 76647 6775 XOR\n2 1 76644 76646 6774 XOR\n2 1 76643 76645 6773 XOR\n2 1 76642 76644 6772 XOR\n2 1 6793 76656 81446 XOR\n2 1 81446 76806 132164 XOR\n2 1 6792 76655 81445 XOR\n2 1 81445 76805 132163 XOR\n2 1 6791 76654 81444 XOR\n2 1 81444 76804 132162 XOR\n2 1 6790 76653 81443 XOR\n2 1 81443 76803 132161 XOR\n2 1 6789 76652 81442 XOR\n2 1 81442 76802 132160 XOR\n2 1 6788 76651 81441 XOR\n2 1 81441 76801 132159 XOR\n2 1 6787 76650 81440 XOR\n2 1 81440 76800 132158 XOR\n2 1 6786 76649 81439 XOR\n2 1 81439 76799 132157 XOR\n2 1 6785 76648 81438 XOR\n2 1 81438 76798 132156 XOR\n2 1 6784 76647 81437 XOR\n2 1 81437 76797 132155 XOR\n2 1 6783 76646 81436 XOR\n2 1 81436 76796 132154 XOR\n2 1 6782 76645 81435 XOR\n2 1 81435 76795 132153 XOR\n2 1 6781 76644 81434 XOR\n2 1 81434 76794 132152 XOR\n2 1 6780 76643 81433 XOR\n2 1 81433 76793 132151 XOR\n",
"2 1 6779 76642 81432 XOR\n2 1 81432 76792 132150 XOR\n2 1 6778 76641 81431 XOR\n2 1 81431 76791 132149 XOR\n2 1 6777 76640 81430 XOR\n2 1 81430 76790 132148 XOR\n2 1 6776 76639 81429 XOR\n2 1 81429 76789 132147 XOR\n2 1 6775 76638 81428 XOR\n2 1 81428 76788 132146 XOR\n2 1 6774 76637 81427 XOR\n2 1 81427 76787 132145 XOR\n2 1 6773 76636 81426 XOR\n2 1 81426 76786 132144 XOR\n2 1 6772 76635 81425 XOR\n2 1 81425 76785 132113 AND\n2 1 81425 76785 79889 XOR\n2 1 132144 132113 79890 XOR\n2 1 81426 132113 56226 XOR\n2 1 76786 132113 56227 XOR\n2 1 56226 56227 56225 AND\n2 1 56225 132113 132114 XOR\n2 1 132145 132114 79891 XOR\n2 1 81427 132114 56229 XOR\n2 1 76787 132114 56230 XOR\n2 1 56229 56230 56228 AND\n2 1 56228 132114 132115 XOR\n2 1 132146 132115 79892 XOR\n2 1 81428 132115 56232 XOR\n2 1 76788 132115 56233 XOR\n2 1 56232 56233 56231 AND\n2 1 56231 132115 132116 XOR\n2 1 132147 132116 79893 XOR\n2 1 81429 132116 56235 XOR\n2 1 76789 132116 56236 XOR\n2 1 56235 56236 56234 AND\n2 1 56234 132116 132117 XOR\n2 1 132148 132117 79894 XOR\n2 1 81430 132117 56238 XOR\n2 1 76790 132117 56239 XOR\n2 1 56238 56239 56237 AND\n2 1 56237 132117 132118 XOR\n2 1 132149 132118 79895 XOR\n2 1 81431 132118 56241 XOR\n2 1 76791 132118 56242 XOR\n2 1 56241 56242 56240 AND\n2 1 56240 132118 132119 XOR\n2 1 132150 132119 79896 XOR\n2 1 81432 132119 56244 XOR\n2 1 76792 132119 56245 XOR\n2 1 56244 56245 56243 AND\n2 1 56243 132119 132120 XOR\n2 1 132151 132120 79897 XOR\n2 1 81433 132120 56247 XOR\n2 1 76793 132120 56248 XOR\n2 1 56247 56248 56246 AND\n2 1 56246 132120 132121 XOR\n2 1 132152 132121 79898 XOR\n2 1 81434 132121 56250 XOR\n2 1 76794 132121 56251 XOR\n2 1 56250 56251 56249 AND\n2 1 56249 132121 132122 XOR\n2 1 132153 132122 79899 XOR\n2 1 81435 132122 56253 XOR\n2 1 76795 132122 56254 XOR\n2 1 56253 56254 56252 AND\n2 1 56252 132122 132123 XOR\n2 1 132154 132123 79900 XOR\n2 1 81436 132123 56256 XOR\n2 1 76796 132123 56257 XOR\n2 1 56256 56257 56255 AND\n2 1 56255 132123 132124 XOR\n2 1 132155 132124 79901 XOR\n2 1 81437 132124 56259 XOR\n2 1 76797 132124 56260 XOR\n2 1 56259 56260 56258 AND\n2 1 56258 132124 132125 XOR\n2 1 132156 132125 79902 XOR\n2 1 81438 132125 56262 XOR\n2 1 76798 132125 56263 XOR\n2 1 56262 56263 56261 AND\n2 1 56261 132125 132126 XOR\n2 1 132157 132126 79903 XOR\n2 1 81439 132126 56265 XOR\n2 1 76799 132126 56266 XOR\n2 1 56265 56266 56264 AND\n2 1 56264 132126 132127 XOR\n2 1 132158 132127 79904 XOR\n2 1 81440 132127 56268 XOR\n2 1 76800 132127 56269 XOR\n2 1 56268 56269 56267 AND\n2 1 56267 132127 132128 XOR\n2 1 132159 132128 79905 XOR\n2 1 81441 132128 56271 XOR\n2 1 76801 132128 56272 XOR\n2 1 56271 56272 56270 AND\n2 1 56270 132128 132129 XOR\n2 1 132160 132129 79906 XOR\n2 1 81442 132129 56274 XOR\n2 1 76802 132129 56275 XOR\n2 1 56274 56275 56273 AND\n2 1 56273 132129 132130 XOR\n2 1 132161 132130 79907 XOR\n2 1 81443 132130 56277 XOR\n2 1 76803 132130 56278 XOR\n2 1 56277 56278 56276 AND\n2 1 56276 132130 132131 XOR\n2 1 132162 132131 79908 XOR\n2 1 81444 132131 56280 XOR\n2 1 76804 132131 56281 XOR\n2 1 56280 56281 56279 AND\n2 1 56279 132131 132132 XOR\n2 1 132163 132132 79909 XOR\n2 1 81445 132132 56283 XOR\n2 1 76805 132132 56284 XOR\n2 1 56283 56284 56282 AND\n2 1 56282 132132 132133 XOR\n2 1 132164 132133 79910 XOR\n2 1 81446 132133 56286 XOR\n2 1 76806 132133 56287 XOR\n2 1 56286 56287 56285 AND\n2 1 56285 132133 132134 XOR\n2 1 132165 132134 79911 XOR\n2 1 81447 132134 56289 XOR\n2 1 76807 132134 56290 XOR\n2 1 56289 56290 56288 AND\n2 1 56288 132134 132135 XOR\n2 1 132166 132135 79912 XOR\n",
"2 1 81448 132135 56292 XOR\n2 1 76808 132135 56293 XOR\n2 1 56292 56293 56291 AND\n2 1 56291 132135 132136 XOR\n2 1 132167 132136 79913 XOR\n2 1 81449 132136 56295 XOR\n2 1 76809 132136 56296 XOR\n2 1 56295 56296 56294 AND\n2 1 56294 132136 132137 XOR\n2 1 132168 132137 79914 XOR\n2 1 81450 132137 56298 XOR\n2 1 76810 132137 56299 XOR\n2 1 56298 56299 56297 AND\n2 1 56297 132137 132138 XOR\n2 1 132169 132138 79915 XOR\n2 1 81451 132138 56301 XOR\n2 1 76811 132138 56302 XOR\n2 1 56301 56302 56300 AND\n2 1 56300 132138 132139 XOR\n2 1 132170 132139 79916 XOR\n2 1 81452 132139 56304 XOR\n2 1 76812 132139 56305 XOR\n2 1 56304 56305 56303 AND\n2 1 56303 132139 132140 XOR\n2 1 132171 132140 79917 XOR\n2 1 81453 132140 56307 XOR\n2 1 76813 132140 56308 XOR\n2 1 56307 56308 56306 AND\n2 1 56306 132140 132141 XOR\n2 1 132172 132141 79918 XOR\n2 1 81454 132141 56310 XOR\n2 1 76814 132141 56311 XOR\n2 1 56310 56311 56309 AND\n2 1 56309 132141 132142 XOR\n2 1 132173 132142 79919 XOR\n2 1 81455 132142 56313 XOR\n2 1 76815 132142 56314 XOR\n2 1 56313 56314 56312 AND\n2 1 56312 132142 132143 XOR\n2 1 132174 132143 79920 XOR\n2 1 77047 77058 82992 XOR\n2 1 82992 77104 132112 XOR\n2 1 77046 77057 82991 XOR\n2 1 82991 77103 132111 XOR\n2 1 77045 77056 82990 XOR\n2 1 82990 77102 132110 XOR\n2 1 77044 77055 5647 XOR\n2 1 77043 77054 5646 XOR\n2 1 77042 77053 5645 XOR\n2 1 77041 77052 5644 XOR\n2 1 77072 77051 5643 XOR\n2 1 77071 77050 5642 XOR\n2 1 77070 77049 5641 XOR\n2 1 77069 77048 5640 XOR\n2 1 77068 77047 5639 XOR\n2 1 77067 77046 5638 XOR\n2 1 77066 77045 5637 XOR\n2 1 77065 77044 5636 XOR\n2 1 77064 77043 5635 XOR\n2 1 77063 77042 5634 XOR\n2 1 77062 77041 5633 XOR\n2 1 77061 77072 5632 XOR\n2 1 77060 77071 5631 XOR\n2 1 77059 77070 5630 XOR\n2 1 77058 77069 5629 XOR\n2 1 77057 77068 5628 XOR\n2 1 77056 77067 5627 XOR\n2 1 77055 77066 5626 XOR\n2 1 77054 77065 5625 XOR\n2 1 77053 77064 5624 XOR\n2 1 77052 77063 5623 XOR\n2 1 77051 77062 5622 XOR\n2 1 77050 77061 5621 XOR\n2 1 77049 77060 5620 XOR\n2 1 77048 77059 5619 XOR\n2 1 5647 77072 82989 XOR\n2 1 82989 77101 132109 XOR\n2 1 5646 77071 82988 XOR\n2 1 82988 77100 132108 XOR\n2 1 5645 77070 82987 XOR\n2 1 82987 77099 132107 XOR\n2 1 5644 77069 82986 XOR\n2 1 82986 77098 132106 XOR\n2 1 5643 77068 82985 XOR\n2 1 82985 77097 132105 XOR\n2 1 5642 77067 82984 XOR\n2 1 82984 77096 132104 XOR\n2 1 5641 77066 82983 XOR\n2 1 82983 77095 132103 XOR\n2 1 5640 77065 82982 XOR\n2 1 82982 77094 132102 XOR\n2 1 5639 77064 82981 XOR\n2 1 82981 77093 132101 XOR\n2 1 5638 77063 82980 XOR\n2 1 82980 77092 132100 XOR\n2 1 5637 77062 82979 XOR\n2 1 82979 77091 132099 XOR\n2 1 5636 77061 82978 XOR\n2 1 82978 77090 132098 XOR\n2 1 5635 77060 82977 XOR\n2 1 82977 77089 132097 XOR\n2 1 5634 77059 82976 XOR\n2 1 82976 77088 132096 XOR\n2 1 5633 77058 82975 XOR\n2 1 82975 77087 132095 XOR\n2 1 5632 77057 82974 XOR\n2 1 82974 77086 132094 XOR\n2 1 5631 77056 82973 XOR\n2 1 82973 77085 132093 XOR\n2 1 5630 77055 82972 XOR\n2 1 82972 77084 132092 XOR\n2 1 5629 77054 82971 XOR\n2 1 82971 77083 132091 XOR\n2 1 5628 77053 82970 XOR\n2 1 82970 77082 132090 XOR\n2 1 5627 77052 82969 XOR\n2 1 82969 77081 132089 XOR\n2 1 5626 77051 82968 XOR\n2 1 82968 77080 132088 XOR\n2 1 5625 77050 82967 XOR\n2 1 82967 77079 132087 XOR\n2 1 5624 77049 82966 XOR\n2 1 82966 77078 132086 XOR\n2 1 5623 77048 82965 XOR\n2 1 82965 77077 132085 XOR\n2 1 5622 77047 82964 XOR\n2 1 82964 77076 132084 XOR\n2 1 5621 77046 82963 XOR\n",
"2 1 82963 77075 132083 XOR\n2 1 5620 77045 82962 XOR\n2 1 82962 77074 132082 XOR\n2 1 5619 77044 82961 XOR\n2 1 82961 77073 132051 AND\n2 1 82961 77073 78353 XOR\n2 1 79889 78353 131989 AND\n2 1 79889 78353 76561 XOR\n2 1 79890 131989 56046 XOR\n2 1 132082 132051 78354 XOR\n2 1 79890 78354 132020 XOR\n2 1 132020 131989 76562 XOR\n2 1 78354 131989 56047 XOR\n2 1 56046 56047 56045 AND\n2 1 56045 131989 131990 XOR\n2 1 79891 131990 56049 XOR\n2 1 82962 132051 56136 XOR\n2 1 77074 132051 56137 XOR\n2 1 56136 56137 56135 AND\n2 1 56135 132051 132052 XOR\n2 1 132083 132052 78355 XOR\n2 1 79891 78355 132021 XOR\n2 1 132021 131990 76563 XOR\n2 1 78355 131990 56050 XOR\n2 1 56049 56050 56048 AND\n2 1 56048 131990 131991 XOR\n2 1 79892 131991 56052 XOR\n2 1 82963 132052 56139 XOR\n2 1 77075 132052 56140 XOR\n2 1 56139 56140 56138 AND\n2 1 56138 132052 132053 XOR\n2 1 132084 132053 78356 XOR\n2 1 79892 78356 132022 XOR\n2 1 132022 131991 76564 XOR\n2 1 78356 131991 56053 XOR\n2 1 56052 56053 56051 AND\n2 1 56051 131991 131992 XOR\n2 1 79893 131992 56055 XOR\n2 1 82964 132053 56142 XOR\n2 1 77076 132053 56143 XOR\n2 1 56142 56143 56141 AND\n2 1 56141 132053 132054 XOR\n2 1 132085 132054 78357 XOR\n2 1 79893 78357 132023 XOR\n2 1 132023 131992 76565 XOR\n2 1 78357 131992 56056 XOR\n2 1 56055 56056 56054 AND\n2 1 56054 131992 131993 XOR\n2 1 79894 131993 56058 XOR\n2 1 82965 132054 56145 XOR\n2 1 77077 132054 56146 XOR\n2 1 56145 56146 56144 AND\n2 1 56144 132054 132055 XOR\n2 1 132086 132055 78358 XOR\n2 1 79894 78358 132024 XOR\n2 1 132024 131993 76566 XOR\n2 1 78358 131993 56059 XOR\n2 1 56058 56059 56057 AND\n2 1 56057 131993 131994 XOR\n2 1 79895 131994 56061 XOR\n2 1 82966 132055 56148 XOR\n2 1 77078 132055 56149 XOR\n2 1 56148 56149 56147 AND\n2 1 56147 132055 132056 XOR\n2 1 132087 132056 78359 XOR\n2 1 79895 78359 132025 XOR\n2 1 132025 131994 76567 XOR\n2 1 78359 131994 56062 XOR\n2 1 56061 56062 56060 AND\n2 1 56060 131994 131995 XOR\n2 1 79896 131995 56064 XOR\n2 1 82967 132056 56151 XOR\n2 1 77079 132056 56152 XOR\n2 1 56151 56152 56150 AND\n2 1 56150 132056 132057 XOR\n2 1 132088 132057 78360 XOR\n2 1 79896 78360 132026 XOR\n2 1 132026 131995 76568 XOR\n2 1 78360 131995 56065 XOR\n2 1 56064 56065 56063 AND\n2 1 56063 131995 131996 XOR\n2 1 79897 131996 56067 XOR\n2 1 82968 132057 56154 XOR\n2 1 77080 132057 56155 XOR\n2 1 56154 56155 56153 AND\n2 1 56153 132057 132058 XOR\n2 1 132089 132058 78361 XOR\n2 1 79897 78361 132027 XOR\n2 1 132027 131996 76569 XOR\n2 1 76569 3208 118002 XOR\n2 1 78361 131996 56068 XOR\n2 1 56067 56068 56066 AND\n2 1 56066 131996 131997 XOR\n2 1 79898 131997 56070 XOR\n2 1 82969 132058 56157 XOR\n2 1 77081 132058 56158 XOR\n2 1 56157 56158 56156 AND\n2 1 56156 132058 132059 XOR\n2 1 132090 132059 78362 XOR\n2 1 79898 78362 132028 XOR\n2 1 132028 131997 76570 XOR\n2 1 78362 131997 56071 XOR\n2 1 56070 56071 56069 AND\n2 1 56069 131997 131998 XOR\n2 1 79899 131998 56073 XOR\n2 1 82970 132059 56160 XOR\n2 1 77082 132059 56161 XOR\n2 1 56160 56161 56159 AND\n2 1 56159 132059 132060 XOR\n2 1 132091 132060 78363 XOR\n2 1 79899 78363 132029 XOR\n2 1 132029 131998 76571 XOR\n2 1 78363 131998 56074 XOR\n2 1 56073 56074 56072 AND\n2 1 56072 131998 131999 XOR\n2 1 79900 131999 56076 XOR\n2 1 82971 132060 56163 XOR\n2 1 77083 132060 56164 XOR\n2 1 56163 56164 56162 AND\n2 1 56162 132060 132061 XOR\n2 1 132092 132061 78364 XOR\n2 1 79900 78364 132030 XOR\n2 1 132030 131999 76572 XOR\n2 1 76572 3211 118005 XOR\n2 1 78364 131999 56077 XOR\n2 1 56076 56077 56075 AND\n2 1 56075 131999 132000 XOR\n2 1 79901 132000 56079 XOR\n",
"2 1 82972 132061 56166 XOR\n2 1 77084 132061 56167 XOR\n2 1 56166 56167 56165 AND\n2 1 56165 132061 132062 XOR\n2 1 132093 132062 78365 XOR\n2 1 79901 78365 132031 XOR\n2 1 132031 132000 76573 XOR\n2 1 76573 3212 118006 XOR\n2 1 78365 132000 56080 XOR\n2 1 56079 56080 56078 AND\n2 1 56078 132000 132001 XOR\n2 1 79902 132001 56082 XOR\n2 1 82973 132062 56169 XOR\n2 1 77085 132062 56170 XOR\n2 1 56169 56170 56168 AND\n2 1 56168 132062 132063 XOR\n2 1 132094 132063 78366 XOR\n2 1 79902 78366 132032 XOR\n2 1 132032 132001 76574 XOR\n2 1 76574 3213 118007 XOR\n2 1 78366 132001 56083 XOR\n2 1 56082 56083 56081 AND\n2 1 56081 132001 132002 XOR\n2 1 79903 132002 56085 XOR\n2 1 82974 132063 56172 XOR\n2 1 77086 132063 56173 XOR\n2 1 56172 56173 56171 AND\n2 1 56171 132063 132064 XOR\n2 1 132095 132064 78367 XOR\n2 1 79903 78367 132033 XOR\n2 1 132033 132002 76575 XOR\n2 1 76575 3214 118008 XOR\n2 1 78367 132002 56086 XOR\n2 1 56085 56086 56084 AND\n2 1 56084 132002 132003 XOR\n2 1 79904 132003 56088 XOR\n2 1 82975 132064 56175 XOR\n2 1 77087 132064 56176 XOR\n2 1 56175 56176 56174 AND\n2 1 56174 132064 132065 XOR\n2 1 132096 132065 78368 XOR\n2 1 79904 78368 132034 XOR\n2 1 132034 132003 76576 XOR\n2 1 76576 3215 118009 XOR\n2 1 78368 132003 56089 XOR\n2 1 56088 56089 56087 AND\n2 1 56087 132003 132004 XOR\n2 1 79905 132004 56091 XOR\n2 1 82976 132065 56178 XOR\n2 1 77088 132065 56179 XOR\n2 1 56178 56179 56177 AND\n2 1 56177 132065 132066 XOR\n2 1 132097 132066 78369 XOR\n2 1 79905 78369 132035 XOR\n2 1 132035 132004 76577 XOR\n2 1 76577 3216 118010 XOR\n2 1 78369 132004 56092 XOR\n2 1 56091 56092 56090 AND\n2 1 56090 132004 132005 XOR\n2 1 79906 132005 56094 XOR\n2 1 82977 132066 56181 XOR\n2 1 77089 132066 56182 XOR\n2 1 56181 56182 56180 AND\n2 1 56180 132066 132067 XOR\n2 1 132098 132067 78370 XOR\n2 1 79906 78370 132036 XOR\n2 1 132036 132005 76578 XOR\n2 1 78370 132005 56095 XOR\n2 1 56094 56095 56093 AND\n2 1 56093 132005 132006 XOR\n2 1 79907 132006 56097 XOR\n2 1 82978 132067 56184 XOR\n2 1 77090 132067 56185 XOR\n2 1 56184 56185 56183 AND\n2 1 56183 132067 132068 XOR\n2 1 132099 132068 78371 XOR\n2 1 79907 78371 132037 XOR\n2 1 132037 132006 76579 XOR\n2 1 78371 132006 56098 XOR\n2 1 56097 56098 56096 AND\n2 1 56096 132006 132007 XOR\n2 1 79908 132007 56100 XOR\n2 1 82979 132068 56187 XOR\n2 1 77091 132068 56188 XOR\n2 1 56187 56188 56186 AND\n2 1 56186 132068 132069 XOR\n2 1 132100 132069 78372 XOR\n2 1 79908 78372 132038 XOR\n2 1 132038 132007 76580 XOR\n2 1 78372 132007 56101 XOR\n2 1 56100 56101 56099 AND\n2 1 56099 132007 132008 XOR\n2 1 79909 132008 56103 XOR\n2 1 82980 132069 56190 XOR\n2 1 77092 132069 56191 XOR\n2 1 56190 56191 56189 AND\n2 1 56189 132069 132070 XOR\n2 1 132101 132070 78373 XOR\n2 1 79909 78373 132039 XOR\n2 1 132039 132008 76581 XOR\n2 1 78373 132008 56104 XOR\n2 1 56103 56104 56102 AND\n2 1 56102 132008 132009 XOR\n2 1 79910 132009 56106 XOR\n2 1 82981 132070 56193 XOR\n2 1 77093 132070 56194 XOR\n2 1 56193 56194 56192 AND\n2 1 56192 132070 132071 XOR\n2 1 132102 132071 78374 XOR\n2 1 79910 78374 132040 XOR\n2 1 132040 132009 76582 XOR\n2 1 78374 132009 56107 XOR\n2 1 56106 56107 56105 AND\n2 1 56105 132009 132010 XOR\n2 1 79911 132010 56109 XOR\n2 1 82982 132071 56196 XOR\n2 1 77094 132071 56197 XOR\n2 1 56196 56197 56195 AND\n2 1 56195 132071 132072 XOR\n2 1 132103 132072 78375 XOR\n2 1 79911 78375 132041 XOR\n2 1 132041 132010 76583 XOR\n2 1 78375 132010 56110 XOR\n2 1 56109 56110 56108 AND\n2 1 56108 132010 132011 XOR\n2 1 79912 132011 56112 XOR\n2 1 82983 132072 56199 XOR\n2 1 77095 132072 56200 XOR\n",
"2 1 56199 56200 56198 AND\n2 1 56198 132072 132073 XOR\n2 1 132104 132073 78376 XOR\n2 1 79912 78376 132042 XOR\n2 1 132042 132011 76584 XOR\n2 1 78376 132011 56113 XOR\n2 1 56112 56113 56111 AND\n2 1 56111 132011 132012 XOR\n2 1 79913 132012 56115 XOR\n2 1 82984 132073 56202 XOR\n2 1 77096 132073 56203 XOR\n2 1 56202 56203 56201 AND\n2 1 56201 132073 132074 XOR\n2 1 132105 132074 78377 XOR\n2 1 79913 78377 132043 XOR\n2 1 132043 132012 76585 XOR\n2 1 78377 132012 56116 XOR\n2 1 56115 56116 56114 AND\n2 1 56114 132012 132013 XOR\n2 1 79914 132013 56118 XOR\n2 1 82985 132074 56205 XOR\n2 1 77097 132074 56206 XOR\n2 1 56205 56206 56204 AND\n2 1 56204 132074 132075 XOR\n2 1 132106 132075 78378 XOR\n2 1 79914 78378 132044 XOR\n2 1 132044 132013 76586 XOR\n2 1 78378 132013 56119 XOR\n2 1 56118 56119 56117 AND\n2 1 56117 132013 132014 XOR\n2 1 79915 132014 56121 XOR\n2 1 82986 132075 56208 XOR\n2 1 77098 132075 56209 XOR\n2 1 56208 56209 56207 AND\n2 1 56207 132075 132076 XOR\n2 1 132107 132076 78379 XOR\n2 1 79915 78379 132045 XOR\n2 1 132045 132014 76587 XOR\n2 1 78379 132014 56122 XOR\n2 1 56121 56122 56120 AND\n2 1 56120 132014 132015 XOR\n2 1 79916 132015 56124 XOR\n2 1 82987 132076 56211 XOR\n2 1 77099 132076 56212 XOR\n2 1 56211 56212 56210 AND\n2 1 56210 132076 132077 XOR\n2 1 132108 132077 78380 XOR\n2 1 79916 78380 132046 XOR\n2 1 132046 132015 76588 XOR\n2 1 78380 132015 56125 XOR\n2 1 56124 56125 56123 AND\n2 1 56123 132015 132016 XOR\n2 1 79917 132016 56127 XOR\n2 1 82988 132077 56214 XOR\n2 1 77100 132077 56215 XOR\n2 1 56214 56215 56213 AND\n2 1 56213 132077 132078 XOR\n2 1 132109 132078 78381 XOR\n2 1 79917 78381 132047 XOR\n2 1 132047 132016 76589 XOR\n2 1 78381 132016 56128 XOR\n2 1 56127 56128 56126 AND\n2 1 56126 132016 132017 XOR\n2 1 79918 132017 56130 XOR\n2 1 82989 132078 56217 XOR\n2 1 77101 132078 56218 XOR\n2 1 56217 56218 56216 AND\n2 1 56216 132078 132079 XOR\n2 1 132110 132079 78382 XOR\n2 1 79918 78382 132048 XOR\n2 1 132048 132017 76590 XOR\n2 1 78382 132017 56131 XOR\n2 1 56130 56131 56129 AND\n2 1 56129 132017 132018 XOR\n2 1 79919 132018 56133 XOR\n2 1 82990 132079 56220 XOR\n2 1 77102 132079 56221 XOR\n2 1 56220 56221 56219 AND\n2 1 56219 132079 132080 XOR\n2 1 132111 132080 78383 XOR\n2 1 79919 78383 132049 XOR\n2 1 132049 132018 76591 XOR\n2 1 78383 132018 56134 XOR\n2 1 56133 56134 56132 AND\n2 1 56132 132018 132019 XOR\n2 1 82991 132080 56223 XOR\n2 1 77103 132080 56224 XOR\n2 1 56223 56224 56222 AND\n2 1 56222 132080 132081 XOR\n2 1 132112 132081 78384 XOR\n2 1 79920 78384 132050 XOR\n2 1 132050 132019 76592 XOR\n2 1 76561 3200 117964 AND\n2 1 76561 3200 94678 XOR\n2 1 76562 3201 117995 XOR\n2 1 76563 3202 117996 XOR\n2 1 117995 117964 94679 XOR\n2 1 76562 117964 32978 XOR\n2 1 76571 3210 118004 XOR\n2 1 76587 3226 118020 XOR\n2 1 96726 94678 117902 AND\n2 1 76580 3219 118013 XOR\n2 1 76579 3218 118012 XOR\n2 1 76578 3217 118011 XOR\n2 1 76588 3227 118021 XOR\n2 1 76581 3220 118014 XOR\n2 1 96726 94678 90641 XOR\n2 1 90641 84497 106188 AND\n2 1 90641 84497 2048 XOR\n2 1 84498 106188 13268 XOR\n2 1 96727 94679 117933 XOR\n2 1 117933 117902 90642 XOR\n2 1 90642 84498 106219 XOR\n2 1 106219 106188 2049 XOR\n2 1 90642 106188 13267 XOR\n2 1 13267 13268 13266 AND\n2 1 13266 106188 106189 XOR\n2 1 84499 106189 13271 XOR\n2 1 96727 117902 32888 XOR\n2 1 94679 117902 32889 XOR\n2 1 32888 32889 32887 AND\n2 1 32887 117902 117903 XOR\n2 1 96728 117903 32891 XOR\n2 1 76585 3224 118018 XOR\n2 1 76584 3223 118017 XOR\n2 1 76582 3221 118015 XOR\n2 1 76583 3222 118016 XOR\n2 1 76586 3225 118019 XOR\n",
"2 1 76568 3207 118001 XOR\n2 1 76592 3231 118025 XOR\n2 1 76591 3230 118024 XOR\n2 1 76590 3229 118023 XOR\n2 1 76567 3206 118000 XOR\n2 1 2049 2113 71600 XOR\n2 1 2048 2112 71599 XOR\n2 1 71600 71568 71536 AND\n2 1 71599 71567 71535 AND\n2 1 71536 2113 86514 XOR\n2 1 71535 2112 86513 XOR\n2 1 2049 2081 71472 XOR\n2 1 2048 2080 71471 XOR\n2 1 76589 3228 118022 XOR\n2 1 76566 3205 117999 XOR\n2 1 76565 3204 117998 XOR\n2 1 2688 90641 106126 AND\n2 1 2689 106126 13177 XOR\n2 1 2688 90641 2560 XOR\n2 1 64719 2560 64687 AND\n2 1 64687 2624 98742 XOR\n2 1 2560 2592 64655 XOR\n2 1 2689 90642 106157 XOR\n2 1 106157 106126 2561 XOR\n2 1 64720 2561 64688 AND\n2 1 64688 2625 98743 XOR\n2 1 2561 2593 64656 XOR\n2 1 90642 106126 13178 XOR\n2 1 13177 13178 13176 AND\n2 1 13176 106126 106127 XOR\n2 1 2690 106127 13180 XOR\n2 1 76570 3209 118003 XOR\n2 1 76564 3203 117997 XOR\n2 1 3201 117964 32979 XOR\n2 1 32978 32979 32977 AND\n2 1 32977 117964 117965 XOR\n2 1 117996 117965 94680 XOR\n2 1 94680 117903 32892 XOR\n2 1 96728 94680 117934 XOR\n2 1 117934 117903 90643 XOR\n2 1 90643 84499 106220 XOR\n2 1 106220 106189 2050 XOR\n2 1 90643 106189 13270 XOR\n2 1 13270 13271 13269 AND\n2 1 13269 106189 106190 XOR\n2 1 84500 106190 13274 XOR\n2 1 90643 106127 13181 XOR\n2 1 13180 13181 13179 AND\n2 1 32891 32892 32890 AND\n2 1 32890 117903 117904 XOR\n2 1 2050 2114 71601 XOR\n2 1 71601 71569 71537 AND\n2 1 71537 2114 86515 XOR\n2 1 2050 2082 71473 XOR\n2 1 2690 90643 106158 XOR\n2 1 106158 106127 2562 XOR\n2 1 64721 2562 64689 AND\n2 1 64689 2626 98744 XOR\n2 1 2562 2594 64657 XOR\n2 1 13179 106127 106128 XOR\n2 1 2691 106128 13183 XOR\n2 1 3202 117965 32982 XOR\n2 1 96729 117904 32894 XOR\n2 1 76563 117965 32981 XOR\n2 1 32981 32982 32980 AND\n2 1 32980 117965 117966 XOR\n2 1 76564 117966 32984 XOR\n2 1 3203 117966 32985 XOR\n2 1 32984 32985 32983 AND\n2 1 117997 117966 94681 XOR\n2 1 94681 117904 32895 XOR\n2 1 96729 94681 117935 XOR\n2 1 117935 117904 92656 XOR\n1 1 92656 90644 INV\n2 1 90644 106190 13273 XOR\n2 1 13273 13274 13272 AND\n2 1 13272 106190 106191 XOR\n2 1 84501 106191 13277 XOR\n2 1 90644 84500 106221 XOR\n2 1 106221 106190 2051 XOR\n2 1 32894 32895 32893 AND\n2 1 2051 2115 71602 XOR\n2 1 71602 71570 71538 AND\n2 1 71538 2115 86516 XOR\n2 1 2051 2083 71474 XOR\n2 1 32893 117904 117905 XOR\n2 1 96730 117905 32897 XOR\n2 1 32983 117966 117967 XOR\n2 1 117998 117967 94682 XOR\n2 1 94682 117905 32898 XOR\n2 1 32897 32898 32896 AND\n2 1 32896 117905 117906 XOR\n2 1 96731 117906 32900 XOR\n2 1 3204 117967 32988 XOR\n2 1 76565 117967 32987 XOR\n2 1 32987 32988 32986 AND\n2 1 32986 117967 117968 XOR\n2 1 117999 117968 94683 XOR\n2 1 94683 117906 32901 XOR\n2 1 96731 94683 117937 XOR\n2 1 96730 94682 117936 XOR\n2 1 117936 117905 92657 XOR\n1 1 92657 32875 INV\n2 1 32875 92656 90645 XOR\n2 1 90645 84501 106222 XOR\n2 1 106222 106191 2052 XOR\n2 1 90645 106191 13276 XOR\n2 1 13276 13277 13275 AND\n2 1 13275 106191 106192 XOR\n2 1 84502 106192 13280 XOR\n2 1 92657 92656 32799 XOR\n2 1 32799 90644 32798 AND\n2 1 32798 92656 32863 XOR\n1 1 32863 32802 INV\n2 1 3205 117968 32991 XOR\n2 1 76566 117968 32990 XOR\n2 1 32990 32991 32989 AND\n2 1 32989 117968 117969 XOR\n2 1 76567 117969 32993 XOR\n2 1 118000 117969 94684 XOR\n2 1 96732 94684 117938 XOR\n2 1 2052 2116 71603 XOR\n2 1 71603 71571 71539 AND\n2 1 71539 2116 86517 XOR\n2 1 2052 2084 71475 XOR\n2 1 3206 117969 32994 XOR\n2 1 32993 32994 32992 AND\n2 1 32992 117969 117970 XOR\n",
"2 1 3207 117970 32997 XOR\n2 1 76568 117970 32996 XOR\n2 1 32996 32997 32995 AND\n2 1 32995 117970 117971 XOR\n2 1 76569 117971 32999 XOR\n2 1 118002 117971 94686 XOR\n2 1 96734 94686 117940 XOR\n2 1 2691 90644 106159 XOR\n2 1 2692 90645 106160 XOR\n2 1 106159 106128 2563 XOR\n2 1 64722 2563 64690 AND\n2 1 64690 2627 98745 XOR\n2 1 2563 2595 64658 XOR\n2 1 90644 106128 13184 XOR\n2 1 13183 13184 13182 AND\n2 1 13182 106128 106129 XOR\n2 1 90645 106129 13187 XOR\n2 1 106160 106129 2564 XOR\n2 1 64723 2564 64691 AND\n2 1 64691 2628 98746 XOR\n2 1 2564 2596 64659 XOR\n2 1 2692 106129 13186 XOR\n2 1 13186 13187 13185 AND\n2 1 13185 106129 106130 XOR\n2 1 2693 106130 13189 XOR\n2 1 3208 117971 33000 XOR\n2 1 32999 33000 32998 AND\n2 1 32998 117971 117972 XOR\n2 1 118003 117972 94687 XOR\n2 1 96735 94687 117941 XOR\n2 1 3209 117972 33003 XOR\n2 1 32900 32901 32899 AND\n2 1 32899 117906 117907 XOR\n2 1 96732 117907 32903 XOR\n2 1 117938 117907 92659 XOR\n2 1 94684 117907 32904 XOR\n2 1 32903 32904 32902 AND\n2 1 32902 117907 117908 XOR\n2 1 96733 117908 32906 XOR\n2 1 117937 117906 92658 XOR\n1 1 92658 32876 INV\n2 1 32876 32863 90646 XOR\n2 1 90646 84502 106223 XOR\n2 1 90646 106192 13279 XOR\n2 1 13279 13280 13278 AND\n2 1 106223 106192 2053 XOR\n2 1 13278 106192 106193 XOR\n2 1 84503 106193 13283 XOR\n2 1 92658 32863 32801 XOR\n2 1 32801 32802 32800 AND\n2 1 32800 32863 32804 XOR\n2 1 92659 32804 90647 XOR\n2 1 90647 106193 13282 XOR\n2 1 90647 84503 106224 XOR\n2 1 13282 13283 13281 AND\n2 1 106224 106193 2054 XOR\n2 1 13281 106193 106194 XOR\n2 1 84504 106194 13286 XOR\n2 1 90647 32804 32803 AND\n2 1 32803 32804 32806 XOR\n2 1 2054 2118 71605 XOR\n2 1 2053 2117 71604 XOR\n2 1 71605 71573 71541 AND\n2 1 71604 71572 71540 AND\n2 1 71541 2118 86519 XOR\n2 1 71540 2117 86518 XOR\n2 1 2054 2086 71477 XOR\n2 1 2053 2085 71476 XOR\n2 1 2693 90646 106161 XOR\n2 1 2694 90647 106162 XOR\n2 1 106161 106130 2565 XOR\n2 1 64724 2565 64692 AND\n2 1 64692 2629 98747 XOR\n2 1 2565 2597 64660 XOR\n2 1 90646 106130 13190 XOR\n2 1 13189 13190 13188 AND\n2 1 13188 106130 106131 XOR\n2 1 90647 106131 13193 XOR\n2 1 106162 106131 2566 XOR\n2 1 64725 2566 64693 AND\n2 1 64693 2630 98748 XOR\n2 1 2566 2598 64661 XOR\n2 1 2694 106131 13192 XOR\n2 1 13192 13193 13191 AND\n2 1 13191 106131 106132 XOR\n2 1 2695 106132 13195 XOR\n2 1 2561 2566 61770 XOR\n2 1 2560 2565 61769 XOR\n2 1 118001 117970 94685 XOR\n2 1 96733 94685 117939 XOR\n2 1 117939 117908 92660 XOR\n2 1 94685 117908 32907 XOR\n2 1 32906 32907 32905 AND\n2 1 32905 117908 117909 XOR\n2 1 117940 117909 92661 XOR\n1 1 92661 32877 INV\n2 1 96734 117909 32909 XOR\n2 1 94686 117909 32910 XOR\n2 1 32909 32910 32908 AND\n2 1 32908 117909 117910 XOR\n2 1 96735 117910 32912 XOR\n2 1 94687 117910 32913 XOR\n2 1 117941 117910 92662 XOR\n2 1 32912 32913 32911 AND\n2 1 32911 117910 117911 XOR\n2 1 96736 117911 32915 XOR\n2 1 92660 32806 90648 XOR\n2 1 90648 84504 106225 XOR\n2 1 106225 106194 2055 XOR\n2 1 90648 106194 13285 XOR\n2 1 13285 13286 13284 AND\n2 1 13284 106194 106195 XOR\n2 1 2055 2119 71606 XOR\n2 1 71606 71574 71542 AND\n2 1 71542 2119 86520 XOR\n2 1 2055 2087 71478 XOR\n2 1 84505 106195 13289 XOR\n2 1 90648 32806 32805 AND\n2 1 32805 32806 32864 XOR\n2 1 92661 32864 32808 XOR\n2 1 32877 32864 90649 XOR\n2 1 90649 106195 13288 XOR\n2 1 13288 13289 13287 AND\n2 1 13287 106195 106196 XOR\n2 1 90649 84505 106226 XOR\n2 1 106226 106195 2056 XOR\n2 1 84506 106196 13292 XOR\n1 1 32864 32809 INV\n",
"2 1 32808 32809 32807 AND\n2 1 32807 32864 32811 XOR\n2 1 92662 32811 90650 XOR\n2 1 90650 106196 13291 XOR\n2 1 13291 13292 13290 AND\n2 1 13290 106196 106197 XOR\n2 1 84507 106197 13295 XOR\n2 1 90650 84506 106227 XOR\n2 1 106227 106196 2057 XOR\n2 1 2057 2121 71608 XOR\n2 1 2056 2120 71607 XOR\n2 1 71608 71576 71544 AND\n2 1 71607 71575 71543 AND\n2 1 71544 2121 86522 XOR\n2 1 71543 2120 86521 XOR\n2 1 2057 2089 71480 XOR\n2 1 2056 2088 71479 XOR\n2 1 90650 32811 32810 AND\n2 1 32810 32811 32813 XOR\n2 1 2695 90648 106163 XOR\n2 1 2696 90649 106164 XOR\n2 1 2697 90650 106165 XOR\n2 1 106163 106132 2567 XOR\n2 1 64726 2567 64694 AND\n2 1 64694 2631 98749 XOR\n2 1 2567 2599 64662 XOR\n2 1 90648 106132 13196 XOR\n2 1 13195 13196 13194 AND\n2 1 13194 106132 106133 XOR\n2 1 90649 106133 13199 XOR\n2 1 106164 106133 2568 XOR\n2 1 64727 2568 64695 AND\n2 1 64695 2632 98750 XOR\n2 1 2568 2600 64663 XOR\n2 1 2696 106133 13198 XOR\n2 1 13198 13199 13197 AND\n2 1 13197 106133 106134 XOR\n2 1 2697 106134 13201 XOR\n2 1 106165 106134 2569 XOR\n2 1 64728 2569 64696 AND\n2 1 64696 2633 98751 XOR\n2 1 2569 2601 64664 XOR\n2 1 90650 106134 13202 XOR\n2 1 13201 13202 13200 AND\n2 1 13200 106134 106135 XOR\n2 1 2698 106135 13204 XOR\n2 1 2564 2569 61773 XOR\n2 1 2563 2568 61772 XOR\n2 1 2562 2567 61771 XOR\n2 1 76570 117972 33002 XOR\n2 1 33002 33003 33001 AND\n2 1 33001 117972 117973 XOR\n2 1 76571 117973 33005 XOR\n2 1 3210 117973 33006 XOR\n2 1 33005 33006 33004 AND\n2 1 33004 117973 117974 XOR\n2 1 118005 117974 94689 XOR\n2 1 96737 94689 117943 XOR\n2 1 118004 117973 94688 XOR\n2 1 96736 94688 117942 XOR\n2 1 117942 117911 92663 XOR\n2 1 94688 117911 32916 XOR\n2 1 32915 32916 32914 AND\n2 1 32914 117911 117912 XOR\n2 1 117943 117912 92664 XOR\n2 1 96737 117912 32918 XOR\n2 1 94689 117912 32919 XOR\n2 1 32918 32919 32917 AND\n2 1 32917 117912 117913 XOR\n2 1 96738 117913 32921 XOR\n2 1 3211 117974 33009 XOR\n2 1 76572 117974 33008 XOR\n2 1 33008 33009 33007 AND\n2 1 33007 117974 117975 XOR\n2 1 118006 117975 94690 XOR\n2 1 96738 94690 117944 XOR\n2 1 94690 117913 32922 XOR\n2 1 32921 32922 32920 AND\n2 1 3212 117975 33012 XOR\n2 1 76573 117975 33011 XOR\n2 1 33011 33012 33010 AND\n2 1 33010 117975 117976 XOR\n2 1 118007 117976 94691 XOR\n2 1 96739 94691 117945 XOR\n2 1 32920 117913 117914 XOR\n2 1 96739 117914 32924 XOR\n2 1 94691 117914 32925 XOR\n2 1 32924 32925 32923 AND\n2 1 117945 117914 92666 XOR\n1 1 92666 32878 INV\n2 1 92663 32813 90651 XOR\n2 1 90651 106135 13205 XOR\n2 1 13204 13205 13203 AND\n2 1 90651 84507 106228 XOR\n2 1 106228 106197 2058 XOR\n2 1 90651 106197 13294 XOR\n2 1 13294 13295 13293 AND\n2 1 2058 2122 71609 XOR\n2 1 71609 71577 71545 AND\n2 1 71545 2122 86523 XOR\n2 1 2058 2090 71481 XOR\n2 1 13293 106197 106198 XOR\n2 1 84508 106198 13298 XOR\n2 1 76574 117976 33014 XOR\n2 1 90651 32813 32812 AND\n2 1 32923 117914 117915 XOR\n2 1 96740 117915 32927 XOR\n2 1 3213 117976 33015 XOR\n2 1 33014 33015 33013 AND\n2 1 33013 117976 117977 XOR\n2 1 76575 117977 33017 XOR\n2 1 3214 117977 33018 XOR\n2 1 33017 33018 33016 AND\n2 1 118008 117977 94692 XOR\n2 1 96740 94692 117946 XOR\n2 1 117946 117915 92667 XOR\n2 1 94692 117915 32928 XOR\n2 1 32927 32928 32926 AND\n2 1 32926 117915 117916 XOR\n2 1 96741 117916 32930 XOR\n2 1 2698 90651 106166 XOR\n2 1 106166 106135 2570 XOR\n2 1 64729 2570 64697 AND\n2 1 64697 2634 98752 XOR\n2 1 2570 2602 64665 XOR\n2 1 13203 106135 106136 XOR\n2 1 2699 106136 13207 XOR\n2 1 32812 32813 32815 XOR\n",
"2 1 92664 32815 90652 XOR\n2 1 90652 32815 32814 AND\n2 1 90652 84508 106229 XOR\n2 1 106229 106198 2059 XOR\n2 1 90652 106198 13297 XOR\n2 1 13297 13298 13296 AND\n2 1 13296 106198 106199 XOR\n2 1 84509 106199 13301 XOR\n2 1 2059 2123 71610 XOR\n2 1 71610 71578 71546 AND\n2 1 71546 2123 86524 XOR\n2 1 2059 2091 71482 XOR\n2 1 2048 2059 67693 XOR\n2 1 32814 32815 32817 XOR\n2 1 2699 90652 106167 XOR\n2 1 106167 106136 2571 XOR\n2 1 64730 2571 64698 AND\n2 1 64698 2635 98753 XOR\n2 1 2571 2603 64666 XOR\n2 1 90652 106136 13208 XOR\n2 1 13207 13208 13206 AND\n2 1 13206 106136 106137 XOR\n2 1 2700 106137 13210 XOR\n2 1 117944 117913 92665 XOR\n2 1 92665 32817 90653 XOR\n2 1 90653 32817 32816 AND\n2 1 32816 32817 32865 XOR\n2 1 90653 84509 106230 XOR\n2 1 90653 106137 13211 XOR\n2 1 13210 13211 13209 AND\n2 1 106230 106199 2060 XOR\n2 1 90653 106199 13300 XOR\n2 1 13300 13301 13299 AND\n2 1 13299 106199 106200 XOR\n2 1 84510 106200 13304 XOR\n1 1 32865 32820 INV\n2 1 32878 32865 90654 XOR\n2 1 90654 106200 13303 XOR\n2 1 90654 84510 106231 XOR\n2 1 13303 13304 13302 AND\n2 1 13302 106200 106201 XOR\n2 1 84511 106201 13307 XOR\n2 1 106231 106200 2061 XOR\n2 1 92666 32865 32819 XOR\n2 1 32819 32820 32818 AND\n2 1 32818 32865 32822 XOR\n2 1 92667 32822 90655 XOR\n2 1 90655 32822 32821 AND\n2 1 90655 106201 13306 XOR\n2 1 13306 13307 13305 AND\n2 1 13305 106201 106202 XOR\n2 1 84512 106202 13310 XOR\n2 1 90655 84511 106232 XOR\n2 1 106232 106201 2062 XOR\n2 1 32821 32822 32824 XOR\n2 1 2062 2126 71613 XOR\n2 1 2061 2125 71612 XOR\n2 1 2060 2124 71611 XOR\n2 1 71613 71581 71549 AND\n2 1 71612 71580 71548 AND\n2 1 71611 71579 71547 AND\n2 1 71549 2126 86527 XOR\n2 1 71548 2125 86526 XOR\n2 1 71547 2124 86525 XOR\n2 1 2062 2094 71485 XOR\n2 1 2061 2093 71484 XOR\n2 1 2060 2092 71483 XOR\n2 1 2049 2060 67694 XOR\n2 1 2051 2062 67664 XOR\n2 1 2050 2061 67663 XOR\n2 1 2700 90653 106168 XOR\n2 1 106168 106137 2572 XOR\n2 1 64731 2572 64699 AND\n2 1 64699 2636 98754 XOR\n2 1 2572 2604 64667 XOR\n2 1 2701 90654 106169 XOR\n2 1 2702 90655 106170 XOR\n2 1 13209 106137 106138 XOR\n2 1 2701 106138 13213 XOR\n2 1 90654 106138 13214 XOR\n2 1 13213 13214 13212 AND\n2 1 13212 106138 106139 XOR\n2 1 106170 106139 2574 XOR\n2 1 2702 106139 13216 XOR\n2 1 90655 106139 13217 XOR\n2 1 13216 13217 13215 AND\n2 1 13215 106139 106140 XOR\n2 1 106169 106138 2573 XOR\n2 1 2703 106140 13219 XOR\n2 1 64733 2574 64701 AND\n2 1 64732 2573 64700 AND\n2 1 64701 2638 98756 XOR\n2 1 64700 2637 98755 XOR\n2 1 2574 2606 64669 XOR\n2 1 2573 2605 64668 XOR\n2 1 2565 2570 61774 XOR\n2 1 2569 2574 61746 XOR\n2 1 2568 2573 61745 XOR\n2 1 2567 2572 61744 XOR\n2 1 2566 2571 61743 XOR\n2 1 33016 117977 117978 XOR\n2 1 118009 117978 94693 XOR\n2 1 96741 94693 117947 XOR\n2 1 117947 117916 92668 XOR\n2 1 92668 32824 90656 XOR\n2 1 90656 32824 32823 AND\n2 1 32823 32824 32866 XOR\n1 1 32866 32827 INV\n2 1 90656 106202 13309 XOR\n2 1 13309 13310 13308 AND\n2 1 13308 106202 106203 XOR\n2 1 84513 106203 13313 XOR\n2 1 90656 106140 13220 XOR\n2 1 90656 84512 106233 XOR\n2 1 106233 106202 2063 XOR\n2 1 13219 13220 13218 AND\n2 1 13218 106140 106141 XOR\n2 1 2704 106141 13222 XOR\n2 1 94693 117916 32931 XOR\n2 1 32930 32931 32929 AND\n2 1 32929 117916 117917 XOR\n2 1 96742 117917 32933 XOR\n2 1 2063 2127 71614 XOR\n2 1 71614 71582 71550 AND\n2 1 71550 2127 86528 XOR\n2 1 2063 2095 71486 XOR\n2 1 2052 2063 67665 XOR\n2 1 2703 90656 106171 XOR\n",
"2 1 106171 106140 2575 XOR\n2 1 64734 2575 64702 AND\n2 1 64702 2639 98757 XOR\n2 1 2575 2607 64670 XOR\n2 1 2570 2575 61747 XOR\n2 1 3215 117978 33021 XOR\n2 1 76576 117978 33020 XOR\n2 1 33020 33021 33019 AND\n2 1 33019 117978 117979 XOR\n2 1 3216 117979 33024 XOR\n2 1 76577 117979 33023 XOR\n2 1 33023 33024 33022 AND\n2 1 33022 117979 117980 XOR\n2 1 118011 117980 94695 XOR\n2 1 96743 94695 117949 XOR\n2 1 3217 117980 33027 XOR\n2 1 76578 117980 33026 XOR\n2 1 33026 33027 33025 AND\n2 1 33025 117980 117981 XOR\n2 1 118012 117981 94696 XOR\n2 1 3218 117981 33030 XOR\n2 1 76579 117981 33029 XOR\n2 1 33029 33030 33028 AND\n2 1 33028 117981 117982 XOR\n2 1 118013 117982 94697 XOR\n2 1 3219 117982 33033 XOR\n2 1 76580 117982 33032 XOR\n2 1 33032 33033 33031 AND\n2 1 33031 117982 117983 XOR\n2 1 3220 117983 33036 XOR\n2 1 118014 117983 94698 XOR\n2 1 76581 117983 33035 XOR\n2 1 33035 33036 33034 AND\n2 1 33034 117983 117984 XOR\n2 1 3221 117984 33039 XOR\n2 1 76582 117984 33038 XOR\n2 1 33038 33039 33037 AND\n2 1 33037 117984 117985 XOR\n2 1 76583 117985 33041 XOR\n2 1 3222 117985 33042 XOR\n2 1 118016 117985 94700 XOR\n2 1 96748 94700 117954 XOR\n2 1 118015 117984 94699 XOR\n2 1 96747 94699 117953 XOR\n2 1 96745 94697 117951 XOR\n2 1 96744 94696 117950 XOR\n2 1 33041 33042 33040 AND\n2 1 33040 117985 117986 XOR\n2 1 118017 117986 94701 XOR\n2 1 3223 117986 33045 XOR\n2 1 76584 117986 33044 XOR\n2 1 96749 94701 117955 XOR\n2 1 33044 33045 33043 AND\n2 1 33043 117986 117987 XOR\n2 1 118018 117987 94702 XOR\n2 1 76585 117987 33047 XOR\n2 1 3224 117987 33048 XOR\n2 1 33047 33048 33046 AND\n2 1 33046 117987 117988 XOR\n2 1 96750 94702 117956 XOR\n2 1 118019 117988 94703 XOR\n2 1 96751 94703 117957 XOR\n2 1 76586 117988 33050 XOR\n2 1 3225 117988 33051 XOR\n2 1 33050 33051 33049 AND\n2 1 33049 117988 117989 XOR\n2 1 3226 117989 33054 XOR\n2 1 118020 117989 94704 XOR\n2 1 96752 94704 117958 XOR\n2 1 76587 117989 33053 XOR\n2 1 33053 33054 33052 AND\n2 1 33052 117989 117990 XOR\n2 1 3227 117990 33057 XOR\n2 1 118021 117990 94705 XOR\n2 1 96753 94705 117959 XOR\n2 1 76588 117990 33056 XOR\n2 1 33056 33057 33055 AND\n2 1 33055 117990 117991 XOR\n2 1 3228 117991 33060 XOR\n2 1 76589 117991 33059 XOR\n2 1 33059 33060 33058 AND\n2 1 33058 117991 117992 XOR\n2 1 3229 117992 33063 XOR\n2 1 118023 117992 94707 XOR\n2 1 76590 117992 33062 XOR\n2 1 96755 94707 117961 XOR\n2 1 118022 117991 94706 XOR\n2 1 96754 94706 117960 XOR\n2 1 33062 33063 33061 AND\n2 1 33061 117992 117993 XOR\n2 1 118024 117993 94708 XOR\n2 1 3230 117993 33066 XOR\n2 1 76591 117993 33065 XOR\n2 1 33065 33066 33064 AND\n2 1 96756 94708 117962 XOR\n2 1 33064 117993 117994 XOR\n2 1 118025 117994 94709 XOR\n2 1 96757 94709 117963 XOR\n2 1 96746 94698 117952 XOR\n2 1 118010 117979 94694 XOR\n2 1 94694 117917 32934 XOR\n2 1 96742 94694 117948 XOR\n2 1 32933 32934 32932 AND\n2 1 117948 117917 92669 XOR\n1 1 92669 32879 INV\n2 1 92669 32866 32826 XOR\n2 1 32932 117917 117918 XOR\n2 1 117949 117918 92670 XOR\n2 1 96743 117918 32936 XOR\n2 1 94695 117918 32937 XOR\n2 1 32936 32937 32935 AND\n2 1 32935 117918 117919 XOR\n2 1 96744 117919 32939 XOR\n2 1 117950 117919 92671 XOR\n2 1 94696 117919 32940 XOR\n2 1 32939 32940 32938 AND\n2 1 32938 117919 117920 XOR\n2 1 96745 117920 32942 XOR\n1 1 92670 32880 INV\n2 1 117951 117920 92672 XOR\n1 1 92672 32881 INV\n2 1 32879 32866 90657 XOR\n2 1 90657 106141 13223 XOR\n2 1 13222 13223 13221 AND\n2 1 13221 106141 106142 XOR\n2 1 2705 106142 13225 XOR\n2 1 90657 106203 13312 XOR\n2 1 13312 13313 13311 AND\n",
"2 1 13311 106203 106204 XOR\n2 1 84514 106204 13316 XOR\n2 1 90657 84513 106234 XOR\n2 1 106234 106203 2064 XOR\n2 1 2064 2128 71615 XOR\n2 1 71615 71583 71551 AND\n2 1 71551 2128 86529 XOR\n2 1 2064 2096 71487 XOR\n2 1 2053 2064 67666 XOR\n2 1 32826 32827 32825 AND\n2 1 32825 32866 32867 XOR\n2 1 32880 32867 90658 XOR\n2 1 90658 106142 13226 XOR\n2 1 13225 13226 13224 AND\n2 1 13224 106142 106143 XOR\n2 1 2706 106143 13228 XOR\n2 1 90658 106204 13315 XOR\n2 1 13315 13316 13314 AND\n2 1 13314 106204 106205 XOR\n2 1 90658 84514 106235 XOR\n2 1 106235 106204 2065 XOR\n2 1 84515 106205 13319 XOR\n2 1 92670 32867 32829 XOR\n2 1 2065 2129 71616 XOR\n2 1 71616 71584 71552 AND\n2 1 71552 2129 86530 XOR\n2 1 2065 2097 71488 XOR\n2 1 2054 2065 67667 XOR\n1 1 32867 32830 INV\n2 1 32829 32830 32828 AND\n2 1 32828 32867 32832 XOR\n2 1 94697 117920 32943 XOR\n2 1 32942 32943 32941 AND\n2 1 32941 117920 117921 XOR\n2 1 117952 117921 92673 XOR\n2 1 94698 117921 32946 XOR\n2 1 96746 117921 32945 XOR\n2 1 32945 32946 32944 AND\n2 1 32944 117921 117922 XOR\n2 1 117953 117922 92674 XOR\n1 1 92673 32882 INV\n2 1 96747 117922 32948 XOR\n2 1 94699 117922 32949 XOR\n2 1 32948 32949 32947 AND\n2 1 32947 117922 117923 XOR\n2 1 96748 117923 32951 XOR\n2 1 117954 117923 92675 XOR\n2 1 94700 117923 32952 XOR\n2 1 32951 32952 32950 AND\n2 1 32950 117923 117924 XOR\n2 1 94701 117924 32955 XOR\n2 1 117955 117924 92676 XOR\n2 1 96749 117924 32954 XOR\n2 1 32954 32955 32953 AND\n2 1 32953 117924 117925 XOR\n2 1 94702 117925 32958 XOR\n2 1 96750 117925 32957 XOR\n2 1 32957 32958 32956 AND\n2 1 32956 117925 117926 XOR\n2 1 117957 117926 92678 XOR\n2 1 117956 117925 92677 XOR\n2 1 96751 117926 32960 XOR\n1 1 92678 32883 INV\n2 1 92671 32832 90659 XOR\n2 1 90659 106205 13318 XOR\n2 1 13318 13319 13317 AND\n2 1 13317 106205 106206 XOR\n2 1 84516 106206 13322 XOR\n2 1 90659 84515 106236 XOR\n2 1 106236 106205 2066 XOR\n2 1 2066 2130 71617 XOR\n2 1 71617 71585 71553 AND\n2 1 71553 2130 86531 XOR\n2 1 2066 2098 71489 XOR\n2 1 2055 2066 67668 XOR\n2 1 90659 106143 13229 XOR\n2 1 13228 13229 13227 AND\n2 1 13227 106143 106144 XOR\n2 1 2707 106144 13231 XOR\n2 1 94703 117926 32961 XOR\n2 1 32960 32961 32959 AND\n2 1 32959 117926 117927 XOR\n2 1 94704 117927 32964 XOR\n2 1 96752 117927 32963 XOR\n2 1 32963 32964 32962 AND\n2 1 32962 117927 117928 XOR\n2 1 117959 117928 92680 XOR\n2 1 96753 117928 32966 XOR\n2 1 94705 117928 32967 XOR\n2 1 32966 32967 32965 AND\n2 1 32965 117928 117929 XOR\n2 1 117960 117929 92681 XOR\n2 1 96754 117929 32969 XOR\n1 1 92680 32885 INV\n2 1 94706 117929 32970 XOR\n2 1 32969 32970 32968 AND\n2 1 32968 117929 117930 XOR\n2 1 94707 117930 32973 XOR\n2 1 117961 117930 92682 XOR\n1 1 92682 32886 INV\n2 1 96755 117930 32972 XOR\n2 1 32972 32973 32971 AND\n2 1 32971 117930 117931 XOR\n2 1 96756 117931 32975 XOR\n2 1 117962 117931 92683 XOR\n2 1 94708 117931 32976 XOR\n2 1 117958 117927 92679 XOR\n1 1 92679 32884 INV\n2 1 32975 32976 32974 AND\n2 1 32974 117931 117932 XOR\n2 1 117963 117932 92684 XOR\n2 1 90659 32832 32831 AND\n2 1 32831 32832 32868 XOR\n1 1 32868 32835 INV\n2 1 32881 32868 90660 XOR\n2 1 90660 106144 13232 XOR\n2 1 13231 13232 13230 AND\n2 1 13230 106144 106145 XOR\n2 1 2708 106145 13234 XOR\n2 1 90660 84516 106237 XOR\n2 1 106237 106206 2067 XOR\n2 1 90660 106206 13321 XOR\n2 1 13321 13322 13320 AND\n2 1 13320 106206 106207 XOR\n2 1 84517 106207 13325 XOR\n2 1 2067 2131 71618 XOR\n2 1 71618 71586 71554 AND\n2 1 71554 2131 86532 XOR\n",
"2 1 2067 2099 71490 XOR\n2 1 2056 2067 67669 XOR\n2 1 92672 32868 32834 XOR\n2 1 32834 32835 32833 AND\n2 1 32833 32868 32869 XOR\n2 1 92673 32869 32837 XOR\n1 1 32869 32838 INV\n2 1 32837 32838 32836 AND\n2 1 32836 32869 32840 XOR\n2 1 32882 32869 90661 XOR\n2 1 90661 106207 13324 XOR\n2 1 13324 13325 13323 AND\n2 1 13323 106207 106208 XOR\n2 1 90661 106145 13235 XOR\n2 1 13234 13235 13233 AND\n2 1 13233 106145 106146 XOR\n2 1 2709 106146 13237 XOR\n2 1 90661 84517 106238 XOR\n2 1 106238 106207 2068 XOR\n2 1 92674 32840 90662 XOR\n2 1 90662 84518 106239 XOR\n2 1 106239 106208 2069 XOR\n2 1 90662 106208 13327 XOR\n2 1 90662 106146 13238 XOR\n2 1 13237 13238 13236 AND\n2 1 13236 106146 106147 XOR\n2 1 2710 106147 13240 XOR\n2 1 90662 32840 32839 AND\n2 1 32839 32840 32842 XOR\n2 1 92675 32842 90663 XOR\n2 1 90663 84519 106240 XOR\n2 1 90663 106147 13241 XOR\n2 1 13240 13241 13239 AND\n2 1 13239 106147 106148 XOR\n2 1 2711 106148 13243 XOR\n2 1 90663 32842 32841 AND\n2 1 32841 32842 32844 XOR\n2 1 92676 32844 90664 XOR\n2 1 90664 84520 106241 XOR\n2 1 90664 106148 13244 XOR\n2 1 13243 13244 13242 AND\n2 1 13242 106148 106149 XOR\n2 1 2712 106149 13246 XOR\n2 1 90664 32844 32843 AND\n2 1 32843 32844 32846 XOR\n2 1 84518 106208 13328 XOR\n2 1 13327 13328 13326 AND\n2 1 13326 106208 106209 XOR\n2 1 84519 106209 13331 XOR\n2 1 90663 106209 13330 XOR\n2 1 13330 13331 13329 AND\n2 1 106240 106209 2070 XOR\n2 1 13329 106209 106210 XOR\n2 1 106241 106210 2071 XOR\n2 1 84520 106210 13334 XOR\n2 1 90664 106210 13333 XOR\n2 1 13333 13334 13332 AND\n2 1 13332 106210 106211 XOR\n2 1 84521 106211 13337 XOR\n2 1 2071 2135 71622 XOR\n2 1 2070 2134 71621 XOR\n2 1 2069 2133 71620 XOR\n2 1 2068 2132 71619 XOR\n2 1 71622 71590 71558 AND\n2 1 71621 71589 71557 AND\n2 1 71620 71588 71556 AND\n2 1 71619 71587 71555 AND\n2 1 71558 2135 86536 XOR\n2 1 71557 2134 86535 XOR\n2 1 71556 2133 86534 XOR\n2 1 71555 2132 86533 XOR\n2 1 2071 2103 71494 XOR\n2 1 2070 2102 71493 XOR\n2 1 2069 2101 71492 XOR\n2 1 2068 2100 71491 XOR\n2 1 2071 2050 67684 XOR\n2 1 2070 2049 67683 XOR\n2 1 2069 2048 67682 XOR\n2 1 2060 2071 67673 XOR\n2 1 2059 2070 67672 XOR\n2 1 2058 2069 67671 XOR\n2 1 2057 2068 67670 XOR\n2 1 67694 2069 88592 XOR\n2 1 67693 2068 88591 XOR\n2 1 67684 2059 88582 XOR\n2 1 67683 2058 88581 XOR\n2 1 67682 2057 88580 XOR\n2 1 88580 86532 117641 XOR\n2 1 67673 2048 88571 XOR\n2 1 67664 2071 88562 XOR\n2 1 67663 2070 88561 XOR\n2 1 88561 86513 117592 AND\n2 1 88562 117592 32243 XOR\n2 1 86514 117592 32244 XOR\n2 1 32243 32244 32242 AND\n2 1 88561 86513 84465 XOR\n2 1 88562 86514 117623 XOR\n2 1 88571 86523 117632 XOR\n2 1 88581 86533 117642 XOR\n2 1 88582 86534 117643 XOR\n2 1 117623 117592 84466 XOR\n2 1 32242 117592 117593 XOR\n2 1 86515 117593 32247 XOR\n2 1 92677 32846 90665 XOR\n2 1 90665 106211 13336 XOR\n2 1 13336 13337 13335 AND\n2 1 13335 106211 106212 XOR\n2 1 84522 106212 13340 XOR\n2 1 90665 84521 106242 XOR\n2 1 106242 106211 2072 XOR\n2 1 2061 2072 67674 XOR\n2 1 67674 2049 88572 XOR\n2 1 67665 2072 88563 XOR\n2 1 88563 86515 117624 XOR\n2 1 88572 86524 117633 XOR\n2 1 2072 2136 71623 XOR\n2 1 71623 71591 71559 AND\n2 1 71559 2136 86537 XOR\n2 1 2072 2051 67685 XOR\n2 1 67685 2060 88583 XOR\n2 1 88583 86535 117644 XOR\n2 1 2072 2104 71495 XOR\n2 1 117624 117593 84467 XOR\n2 1 90665 106149 13247 XOR\n2 1 88563 117593 32246 XOR\n2 1 32246 32247 32245 AND\n2 1 32245 117593 117594 XOR\n2 1 86516 117594 32250 XOR\n",
"2 1 13246 13247 13245 AND\n2 1 13245 106149 106150 XOR\n2 1 2713 106150 13249 XOR\n2 1 90665 32846 32845 AND\n2 1 32845 32846 32870 XOR\n2 1 32883 32870 90666 XOR\n2 1 90666 106150 13250 XOR\n2 1 13249 13250 13248 AND\n2 1 13248 106150 106151 XOR\n2 1 2714 106151 13252 XOR\n2 1 90666 84522 106243 XOR\n2 1 106243 106212 2073 XOR\n2 1 90666 106212 13339 XOR\n2 1 13339 13340 13338 AND\n2 1 13338 106212 106213 XOR\n2 1 84523 106213 13343 XOR\n1 1 32870 32849 INV\n2 1 92678 32870 32848 XOR\n2 1 32848 32849 32847 AND\n2 1 32847 32870 32871 XOR\n2 1 92679 32871 32851 XOR\n1 1 32871 32852 INV\n2 1 32851 32852 32850 AND\n2 1 32850 32871 32872 XOR\n1 1 32872 32855 INV\n2 1 32884 32871 90667 XOR\n2 1 90667 106151 13253 XOR\n2 1 13252 13253 13251 AND\n2 1 13251 106151 106152 XOR\n2 1 90667 84523 106244 XOR\n2 1 90667 106213 13342 XOR\n2 1 2715 106152 13255 XOR\n2 1 106244 106213 2074 XOR\n2 1 13342 13343 13341 AND\n2 1 13341 106213 106214 XOR\n2 1 84524 106214 13346 XOR\n2 1 2074 2138 71625 XOR\n2 1 2073 2137 71624 XOR\n2 1 71625 71593 71561 AND\n2 1 71624 71592 71560 AND\n2 1 71561 2138 86539 XOR\n2 1 71560 2137 86538 XOR\n2 1 2074 2106 71497 XOR\n2 1 2073 2105 71496 XOR\n2 1 2074 2053 67687 XOR\n2 1 2073 2052 67686 XOR\n2 1 2063 2074 67676 XOR\n2 1 2062 2073 67675 XOR\n2 1 67687 2062 88585 XOR\n2 1 67686 2061 88584 XOR\n2 1 67676 2051 88574 XOR\n2 1 67675 2050 88573 XOR\n2 1 67667 2074 88565 XOR\n2 1 67666 2073 88564 XOR\n2 1 88564 117594 32249 XOR\n2 1 32249 32250 32248 AND\n2 1 32248 117594 117595 XOR\n2 1 88564 86516 117625 XOR\n2 1 88565 86517 117626 XOR\n2 1 88573 86525 117634 XOR\n2 1 88574 86526 117635 XOR\n2 1 88584 86536 117645 XOR\n2 1 88585 86537 117646 XOR\n2 1 117625 117594 84468 XOR\n2 1 88565 117595 32252 XOR\n2 1 117626 117595 84469 XOR\n2 1 86517 117595 32253 XOR\n2 1 32252 32253 32251 AND\n2 1 32251 117595 117596 XOR\n2 1 86518 117596 32256 XOR\n2 1 2704 90657 106172 XOR\n2 1 106172 106141 2576 XOR\n2 1 64735 2576 64703 AND\n2 1 64703 2640 98758 XOR\n2 1 2576 2608 64671 XOR\n2 1 2705 90658 106173 XOR\n2 1 106173 106142 2577 XOR\n2 1 64736 2577 64704 AND\n2 1 64704 2641 98759 XOR\n2 1 2577 2609 64672 XOR\n2 1 2706 90659 106174 XOR\n2 1 106174 106143 2578 XOR\n2 1 64737 2578 64705 AND\n2 1 64705 2642 98760 XOR\n2 1 2578 2610 64673 XOR\n2 1 2707 90660 106175 XOR\n2 1 106175 106144 2579 XOR\n2 1 64738 2579 64706 AND\n2 1 64706 2643 98761 XOR\n2 1 2579 2611 64674 XOR\n2 1 2708 90661 106176 XOR\n2 1 106176 106145 2580 XOR\n2 1 64739 2580 64707 AND\n2 1 64707 2644 98762 XOR\n2 1 2580 2612 64675 XOR\n2 1 2709 90662 106177 XOR\n2 1 106177 106146 2581 XOR\n2 1 64740 2581 64708 AND\n2 1 64708 2645 98763 XOR\n2 1 2581 2613 64676 XOR\n2 1 2710 90663 106178 XOR\n2 1 106178 106147 2582 XOR\n2 1 64741 2582 64709 AND\n2 1 64709 2646 98764 XOR\n2 1 2582 2614 64677 XOR\n2 1 2711 90664 106179 XOR\n2 1 106179 106148 2583 XOR\n2 1 64742 2583 64710 AND\n2 1 64710 2647 98765 XOR\n2 1 2583 2615 64678 XOR\n2 1 2712 90665 106180 XOR\n2 1 106180 106149 2584 XOR\n2 1 64743 2584 64711 AND\n2 1 64711 2648 98766 XOR\n2 1 2584 2616 64679 XOR\n2 1 2713 90666 106181 XOR\n2 1 106181 106150 2585 XOR\n2 1 64744 2585 64712 AND\n2 1 64712 2649 98767 XOR\n2 1 2585 2617 64680 XOR\n2 1 2714 90667 106182 XOR\n2 1 106182 106151 2586 XOR\n2 1 64745 2586 64713 AND\n2 1 64713 2650 98768 XOR\n2 1 2586 2618 64681 XOR\n2 1 32885 32872 90668 XOR\n2 1 90668 84524 106245 XOR\n2 1 90668 106214 13345 XOR\n",
"2 1 13345 13346 13344 AND\n2 1 13344 106214 106215 XOR\n2 1 84525 106215 13349 XOR\n2 1 106245 106214 2075 XOR\n2 1 90668 106152 13256 XOR\n2 1 13255 13256 13254 AND\n2 1 13254 106152 106153 XOR\n2 1 2715 90668 106183 XOR\n2 1 106183 106152 2587 XOR\n2 1 2716 106153 13258 XOR\n2 1 2075 2139 71626 XOR\n2 1 71626 71594 71562 AND\n2 1 71562 2139 86540 XOR\n2 1 2075 2107 71498 XOR\n2 1 2075 2054 67688 XOR\n2 1 2064 2075 67677 XOR\n2 1 67688 2063 88586 XOR\n2 1 88586 86538 117647 XOR\n2 1 67677 2052 88575 XOR\n2 1 67668 2075 88566 XOR\n2 1 88566 117596 32255 XOR\n2 1 32255 32256 32254 AND\n2 1 32254 117596 117597 XOR\n2 1 86519 117597 32259 XOR\n2 1 88566 86518 117627 XOR\n2 1 117627 117596 84470 XOR\n2 1 88575 86527 117636 XOR\n2 1 64746 2587 64714 AND\n2 1 64714 2651 98769 XOR\n2 1 2587 2619 64682 XOR\n2 1 92680 32872 32854 XOR\n2 1 32854 32855 32853 AND\n2 1 32853 32872 32857 XOR\n2 1 2587 2560 61764 XOR\n2 1 2582 2587 61759 XOR\n2 1 2581 2586 61758 XOR\n2 1 2580 2585 61757 XOR\n2 1 2579 2584 61756 XOR\n2 1 2578 2583 61755 XOR\n2 1 2577 2582 61754 XOR\n2 1 2576 2581 61753 XOR\n2 1 2575 2580 61752 XOR\n2 1 2574 2579 61751 XOR\n2 1 2573 2578 61750 XOR\n2 1 2572 2577 61749 XOR\n2 1 2571 2576 61748 XOR\n2 1 61774 2584 100821 XOR\n2 1 61773 2583 100820 XOR\n2 1 61772 2582 100819 XOR\n2 1 61771 2581 100818 XOR\n2 1 61770 2580 100817 XOR\n2 1 100817 98769 117835 XOR\n2 1 61769 2579 100816 XOR\n2 1 100816 98768 117834 XOR\n2 1 61764 2574 100811 XOR\n2 1 100811 98763 117829 XOR\n2 1 61759 2569 100806 XOR\n2 1 100806 98758 117824 XOR\n2 1 61758 2568 100805 XOR\n2 1 100805 98757 117823 XOR\n2 1 61757 2567 100804 XOR\n2 1 100804 98756 117822 XOR\n2 1 61756 2566 100803 XOR\n2 1 100803 98755 117821 XOR\n2 1 61755 2565 100802 XOR\n2 1 100802 98754 117820 XOR\n2 1 61754 2564 100801 XOR\n2 1 100801 98753 117819 XOR\n2 1 61753 2563 100800 XOR\n2 1 100800 98752 117818 XOR\n2 1 61752 2562 100799 XOR\n2 1 100799 98751 117817 XOR\n2 1 61751 2561 100798 XOR\n2 1 100798 98750 117816 XOR\n2 1 61750 2560 100797 XOR\n2 1 100797 98749 117815 XOR\n2 1 61745 2587 100792 XOR\n2 1 100792 98744 117810 XOR\n2 1 61744 2586 100791 XOR\n2 1 100791 98743 117809 XOR\n2 1 61743 2585 100790 XOR\n2 1 100790 98742 117778 AND\n2 1 100791 117778 32619 XOR\n2 1 117809 117778 96695 XOR\n2 1 96695 94647 117685 XOR\n2 1 98743 117778 32620 XOR\n2 1 32619 32620 32618 AND\n2 1 32618 117778 117779 XOR\n2 1 100792 117779 32622 XOR\n2 1 117810 117779 96696 XOR\n2 1 98744 117779 32623 XOR\n2 1 32622 32623 32621 AND\n2 1 32621 117779 117780 XOR\n2 1 98745 117780 32626 XOR\n2 1 96696 94648 117686 XOR\n2 1 100790 98742 96694 XOR\n2 1 96694 94646 117654 AND\n2 1 117685 117654 90610 XOR\n2 1 90610 84466 106095 XOR\n2 1 94647 117654 32440 XOR\n2 1 2145 90610 106033 XOR\n2 1 96695 117654 32439 XOR\n2 1 32439 32440 32438 AND\n2 1 32438 117654 117655 XOR\n2 1 94648 117655 32443 XOR\n2 1 117686 117655 92626 XOR\n2 1 96696 117655 32442 XOR\n2 1 32442 32443 32441 AND\n2 1 32441 117655 117656 XOR\n1 1 92626 90611 INV\n2 1 90611 84467 106096 XOR\n2 1 2146 90611 106034 XOR\n2 1 96694 94646 90609 XOR\n2 1 90609 84465 2016 XOR\n2 1 90609 84465 106064 AND\n2 1 90610 106064 13087 XOR\n2 1 106095 106064 2017 XOR\n2 1 84466 106064 13088 XOR\n2 1 13087 13088 13086 AND\n2 1 13086 106064 106065 XOR\n2 1 90611 106065 13090 XOR\n2 1 106096 106065 2018 XOR\n2 1 84467 106065 13091 XOR\n2 1 13090 13091 13089 AND\n2 1 13089 106065 106066 XOR\n2 1 84468 106066 13094 XOR\n2 1 2144 90609 106002 AND\n2 1 2144 90609 2528 XOR\n",
"2 1 2018 2082 71505 XOR\n2 1 2017 2081 71504 XOR\n2 1 2016 2080 71503 XOR\n2 1 71505 71473 71441 AND\n2 1 71504 71472 71440 AND\n2 1 71503 71471 71439 AND\n2 1 71441 2082 86483 XOR\n2 1 71440 2081 86482 XOR\n2 1 71439 2080 86481 XOR\n2 1 2018 2050 71377 XOR\n2 1 2017 2049 71376 XOR\n2 1 2016 2048 71375 XOR\n2 1 106033 106002 2529 XOR\n2 1 2145 106002 12997 XOR\n2 1 90610 106002 12998 XOR\n2 1 12997 12998 12996 AND\n2 1 12996 106002 106003 XOR\n2 1 106034 106003 2530 XOR\n2 1 2146 106003 13000 XOR\n2 1 90611 106003 13001 XOR\n2 1 13000 13001 12999 AND\n2 1 12999 106003 106004 XOR\n2 1 2147 106004 13003 XOR\n2 1 64657 2530 64625 AND\n2 1 64656 2529 64624 AND\n2 1 64655 2528 64623 AND\n2 1 64625 2594 98712 XOR\n2 1 64624 2593 98711 XOR\n2 1 64623 2592 98710 XOR\n2 1 2530 2562 64593 XOR\n2 1 2529 2561 64592 XOR\n2 1 2528 2560 64591 XOR\n2 1 94649 117656 32446 XOR\n2 1 92681 32857 90669 XOR\n2 1 90669 32857 32856 AND\n2 1 90669 84525 106246 XOR\n2 1 106246 106215 2076 XOR\n2 1 90669 106215 13348 XOR\n2 1 13348 13349 13347 AND\n2 1 13347 106215 106216 XOR\n2 1 84526 106216 13352 XOR\n2 1 90669 106153 13259 XOR\n2 1 13258 13259 13257 AND\n2 1 13257 106153 106154 XOR\n2 1 2717 106154 13261 XOR\n2 1 2076 2140 71627 XOR\n2 1 71627 71595 71563 AND\n2 1 71563 2140 86541 XOR\n2 1 2076 2108 71499 XOR\n2 1 2076 2055 67689 XOR\n2 1 2065 2076 67678 XOR\n2 1 67689 2064 88587 XOR\n2 1 88587 86539 117648 XOR\n2 1 67678 2053 88576 XOR\n2 1 67669 2076 88567 XOR\n2 1 88567 86519 117628 XOR\n2 1 88576 86528 117637 XOR\n2 1 117628 117597 84471 XOR\n2 1 88567 117597 32258 XOR\n2 1 32258 32259 32257 AND\n2 1 32257 117597 117598 XOR\n2 1 86520 117598 32262 XOR\n2 1 2716 90669 106184 XOR\n2 1 106184 106153 2588 XOR\n2 1 64747 2588 64715 AND\n2 1 64715 2652 98770 XOR\n2 1 2588 2620 64683 XOR\n2 1 100818 98770 117836 XOR\n2 1 2588 2561 61765 XOR\n2 1 2583 2588 61760 XOR\n2 1 61765 2575 100812 XOR\n2 1 100812 98764 117830 XOR\n2 1 61760 2570 100807 XOR\n2 1 100807 98759 117825 XOR\n2 1 61746 2588 100793 XOR\n2 1 100793 98745 117811 XOR\n2 1 100793 117780 32625 XOR\n2 1 117811 117780 96697 XOR\n2 1 96697 117656 32445 XOR\n2 1 96697 94649 117687 XOR\n2 1 32625 32626 32624 AND\n2 1 32624 117780 117781 XOR\n2 1 98746 117781 32629 XOR\n2 1 32445 32446 32444 AND\n2 1 32444 117656 117657 XOR\n2 1 94650 117657 32449 XOR\n2 1 117687 117656 92627 XOR\n1 1 92627 32421 INV\n2 1 32421 92626 90612 XOR\n2 1 90612 84468 106097 XOR\n2 1 90612 106066 13093 XOR\n2 1 13093 13094 13092 AND\n2 1 106097 106066 2019 XOR\n2 1 13092 106066 106067 XOR\n2 1 84469 106067 13097 XOR\n2 1 2147 90612 106035 XOR\n2 1 2019 2083 71506 XOR\n2 1 71506 71474 71442 AND\n2 1 71442 2083 86484 XOR\n2 1 2019 2051 71378 XOR\n2 1 106035 106004 2531 XOR\n2 1 90612 106004 13004 XOR\n2 1 13003 13004 13002 AND\n2 1 13002 106004 106005 XOR\n2 1 2148 106005 13006 XOR\n2 1 64658 2531 64626 AND\n2 1 64626 2595 98713 XOR\n2 1 2531 2563 64594 XOR\n2 1 92627 92626 32333 XOR\n2 1 32333 90611 32332 AND\n2 1 32332 92626 32404 XOR\n1 1 32404 32336 INV\n2 1 32856 32857 32873 XOR\n1 1 32873 32860 INV\n2 1 32886 32873 90670 XOR\n2 1 90670 106154 13262 XOR\n2 1 90670 84526 106247 XOR\n2 1 106247 106216 2077 XOR\n2 1 90670 106216 13351 XOR\n2 1 13351 13352 13350 AND\n2 1 13350 106216 106217 XOR\n2 1 92682 32873 32859 XOR\n2 1 32859 32860 32858 AND\n2 1 32858 32873 32862 XOR\n2 1 84527 106217 13355 XOR\n2 1 13261 13262 13260 AND\n2 1 13260 106154 106155 XOR\n2 1 2718 106155 13264 XOR\n",
"2 1 2717 90670 106185 XOR\n2 1 106185 106154 2589 XOR\n2 1 92683 32862 90671 XOR\n2 1 90671 106217 13354 XOR\n2 1 90671 84527 106248 XOR\n2 1 90671 106155 13265 XOR\n2 1 13264 13265 13263 AND\n2 1 13263 106155 106156 XOR\n2 1 13354 13355 13353 AND\n2 1 13353 106217 106218 XOR\n2 1 106248 106217 2078 XOR\n2 1 90671 32862 32861 AND\n2 1 32861 32862 32874 XOR\n2 1 92684 32874 90672 XOR\n2 1 90672 84528 106249 XOR\n2 1 106249 106218 2079 XOR\n2 1 2719 90672 106187 XOR\n2 1 106187 106156 2591 XOR\n2 1 2079 2143 71630 XOR\n2 1 2078 2142 71629 XOR\n2 1 2077 2141 71628 XOR\n2 1 71630 71598 71566 AND\n2 1 71629 71597 71565 AND\n2 1 71628 71596 71564 AND\n2 1 71566 2143 86544 XOR\n2 1 71565 2142 86543 XOR\n2 1 71564 2141 86542 XOR\n2 1 2079 2111 71502 XOR\n2 1 2078 2110 71501 XOR\n2 1 2077 2109 71500 XOR\n2 1 2079 2058 67692 XOR\n2 1 2078 2057 67691 XOR\n2 1 2077 2056 67690 XOR\n2 1 2068 2079 67681 XOR\n2 1 2067 2078 67680 XOR\n2 1 2066 2077 67679 XOR\n2 1 67692 2067 88590 XOR\n2 1 67691 2066 88589 XOR\n2 1 88589 86541 117650 XOR\n2 1 67690 2065 88588 XOR\n2 1 88588 86540 117649 XOR\n2 1 67681 2056 88579 XOR\n2 1 88579 86531 117640 XOR\n2 1 67680 2055 88578 XOR\n2 1 88578 86530 117639 XOR\n2 1 67679 2054 88577 XOR\n2 1 88577 86529 117638 XOR\n2 1 67672 2079 88570 XOR\n2 1 67671 2078 88569 XOR\n2 1 67670 2077 88568 XOR\n2 1 88568 86520 117629 XOR\n2 1 117629 117598 84472 XOR\n2 1 88569 86521 117630 XOR\n2 1 88570 86522 117631 XOR\n2 1 88592 86544 117653 XOR\n2 1 88590 86542 117651 XOR\n2 1 88591 86543 117652 XOR\n2 1 88568 117598 32261 XOR\n2 1 32261 32262 32260 AND\n2 1 32260 117598 117599 XOR\n2 1 88569 117599 32264 XOR\n2 1 86521 117599 32265 XOR\n2 1 117630 117599 84473 XOR\n2 1 32264 32265 32263 AND\n2 1 32263 117599 117600 XOR\n2 1 117631 117600 84474 XOR\n2 1 86522 117600 32268 XOR\n2 1 88570 117600 32267 XOR\n2 1 32267 32268 32266 AND\n2 1 32266 117600 117601 XOR\n2 1 88571 117601 32270 XOR\n2 1 86523 117601 32271 XOR\n2 1 32270 32271 32269 AND\n2 1 117632 117601 84475 XOR\n2 1 32269 117601 117602 XOR\n2 1 117633 117602 84476 XOR\n2 1 88572 117602 32273 XOR\n2 1 86524 117602 32274 XOR\n2 1 32273 32274 32272 AND\n2 1 32272 117602 117603 XOR\n2 1 117634 117603 84477 XOR\n2 1 88573 117603 32276 XOR\n2 1 86525 117603 32277 XOR\n2 1 32276 32277 32275 AND\n2 1 32275 117603 117604 XOR\n2 1 117635 117604 84478 XOR\n2 1 88574 117604 32279 XOR\n2 1 86526 117604 32280 XOR\n2 1 32279 32280 32278 AND\n2 1 32278 117604 117605 XOR\n2 1 117636 117605 84479 XOR\n2 1 88575 117605 32282 XOR\n2 1 86527 117605 32283 XOR\n2 1 32282 32283 32281 AND\n2 1 32281 117605 117606 XOR\n2 1 117637 117606 84480 XOR\n2 1 88576 117606 32285 XOR\n2 1 86528 117606 32286 XOR\n2 1 32285 32286 32284 AND\n2 1 32284 117606 117607 XOR\n2 1 117638 117607 84481 XOR\n2 1 88577 117607 32288 XOR\n2 1 86529 117607 32289 XOR\n2 1 32288 32289 32287 AND\n2 1 32287 117607 117608 XOR\n2 1 117639 117608 84482 XOR\n2 1 88578 117608 32291 XOR\n2 1 86530 117608 32292 XOR\n2 1 32291 32292 32290 AND\n2 1 32290 117608 117609 XOR\n2 1 117640 117609 84483 XOR\n2 1 88579 117609 32294 XOR\n2 1 86531 117609 32295 XOR\n2 1 32294 32295 32293 AND\n2 1 32293 117609 117610 XOR\n2 1 117641 117610 84484 XOR\n2 1 88580 117610 32297 XOR\n2 1 86532 117610 32298 XOR\n2 1 32297 32298 32296 AND\n2 1 32296 117610 117611 XOR\n2 1 117642 117611 84485 XOR\n2 1 88581 117611 32300 XOR\n2 1 86533 117611 32301 XOR\n2 1 32300 32301 32299 AND\n2 1 32299 117611 117612 XOR\n2 1 117643 117612 84486 XOR\n2 1 88582 117612 32303 XOR\n2 1 86534 117612 32304 XOR\n",
"2 1 32303 32304 32302 AND\n2 1 32302 117612 117613 XOR\n2 1 117644 117613 84487 XOR\n2 1 88583 117613 32306 XOR\n2 1 86535 117613 32307 XOR\n2 1 32306 32307 32305 AND\n2 1 32305 117613 117614 XOR\n2 1 117645 117614 84488 XOR\n2 1 88584 117614 32309 XOR\n2 1 86536 117614 32310 XOR\n2 1 32309 32310 32308 AND\n2 1 32308 117614 117615 XOR\n2 1 117646 117615 84489 XOR\n2 1 88585 117615 32312 XOR\n2 1 86537 117615 32313 XOR\n2 1 32312 32313 32311 AND\n2 1 32311 117615 117616 XOR\n2 1 117647 117616 84490 XOR\n2 1 88586 117616 32315 XOR\n2 1 86538 117616 32316 XOR\n2 1 32315 32316 32314 AND\n2 1 32314 117616 117617 XOR\n2 1 117648 117617 84491 XOR\n2 1 88587 117617 32318 XOR\n2 1 86539 117617 32319 XOR\n2 1 32318 32319 32317 AND\n2 1 32317 117617 117618 XOR\n2 1 117649 117618 84492 XOR\n2 1 88588 117618 32321 XOR\n2 1 86540 117618 32322 XOR\n2 1 32321 32322 32320 AND\n2 1 32320 117618 117619 XOR\n2 1 117650 117619 84493 XOR\n2 1 88589 117619 32324 XOR\n2 1 86541 117619 32325 XOR\n2 1 32324 32325 32323 AND\n2 1 32323 117619 117620 XOR\n2 1 117651 117620 84494 XOR\n2 1 88590 117620 32327 XOR\n2 1 86542 117620 32328 XOR\n2 1 32327 32328 32326 AND\n2 1 32326 117620 117621 XOR\n2 1 117652 117621 84495 XOR\n2 1 64750 2591 64718 AND\n2 1 64748 2589 64716 AND\n2 1 64718 2655 98773 XOR\n2 1 100821 98773 117839 XOR\n2 1 64716 2653 98771 XOR\n2 1 100819 98771 117837 XOR\n2 1 2591 2623 64686 XOR\n2 1 2589 2621 64684 XOR\n2 1 2718 90671 106186 XOR\n2 1 106186 106155 2590 XOR\n2 1 64749 2590 64717 AND\n2 1 64717 2654 98772 XOR\n2 1 100820 98772 117838 XOR\n2 1 2590 2622 64685 XOR\n2 1 86543 117621 32331 XOR\n2 1 88591 117621 32330 XOR\n2 1 32330 32331 32329 AND\n2 1 32329 117621 117622 XOR\n2 1 117653 117622 84496 XOR\n2 1 2591 2564 61768 XOR\n2 1 2590 2563 61767 XOR\n2 1 2589 2562 61766 XOR\n2 1 2586 2591 61763 XOR\n2 1 2585 2590 61762 XOR\n2 1 2584 2589 61761 XOR\n2 1 61768 2578 100815 XOR\n2 1 100815 98767 117833 XOR\n2 1 61767 2577 100814 XOR\n2 1 100814 98766 117832 XOR\n2 1 61766 2576 100813 XOR\n2 1 100813 98765 117831 XOR\n2 1 61763 2573 100810 XOR\n2 1 100810 98762 117828 XOR\n2 1 61762 2572 100809 XOR\n2 1 100809 98761 117827 XOR\n2 1 61761 2571 100808 XOR\n2 1 100808 98760 117826 XOR\n2 1 61749 2591 100796 XOR\n2 1 100796 98748 117814 XOR\n2 1 61748 2590 100795 XOR\n2 1 100795 98747 117813 XOR\n2 1 61747 2589 100794 XOR\n2 1 100794 117781 32628 XOR\n2 1 32628 32629 32627 AND\n2 1 32627 117781 117782 XOR\n2 1 100795 117782 32631 XOR\n2 1 117813 117782 96699 XOR\n2 1 96699 94651 117689 XOR\n2 1 98747 117782 32632 XOR\n2 1 32631 32632 32630 AND\n2 1 32630 117782 117783 XOR\n2 1 98748 117783 32635 XOR\n2 1 117814 117783 96700 XOR\n2 1 96700 94652 117690 XOR\n2 1 100794 98746 117812 XOR\n2 1 117812 117781 96698 XOR\n2 1 96698 94650 117688 XOR\n2 1 117688 117657 92628 XOR\n2 1 96698 117657 32448 XOR\n2 1 32448 32449 32447 AND\n2 1 32447 117657 117658 XOR\n2 1 94651 117658 32452 XOR\n2 1 92628 32404 32335 XOR\n2 1 32335 32336 32334 AND\n2 1 32334 32404 32405 XOR\n1 1 32405 32339 INV\n2 1 117689 117658 92629 XOR\n2 1 96699 117658 32451 XOR\n2 1 32451 32452 32450 AND\n2 1 32450 117658 117659 XOR\n2 1 96700 117659 32454 XOR\n2 1 94652 117659 32455 XOR\n2 1 32454 32455 32453 AND\n2 1 32453 117659 117660 XOR\n2 1 94653 117660 32458 XOR\n2 1 117690 117659 92630 XOR\n1 1 92630 32424 INV\n1 1 92629 32423 INV\n2 1 32423 32405 90614 XOR\n2 1 90614 84470 106099 XOR\n2 1 2149 90614 106037 XOR\n1 1 92628 32422 INV\n2 1 32422 32404 90613 XOR\n2 1 90613 106005 13007 XOR\n2 1 90613 84469 106098 XOR\n",
"2 1 90613 106067 13096 XOR\n2 1 13096 13097 13095 AND\n2 1 106098 106067 2020 XOR\n2 1 13095 106067 106068 XOR\n2 1 90614 106068 13099 XOR\n2 1 106099 106068 2021 XOR\n2 1 84470 106068 13100 XOR\n2 1 13099 13100 13098 AND\n2 1 13098 106068 106069 XOR\n2 1 84471 106069 13103 XOR\n2 1 2148 90613 106036 XOR\n2 1 2021 2085 71508 XOR\n2 1 2020 2084 71507 XOR\n2 1 71508 71476 71444 AND\n2 1 71507 71475 71443 AND\n2 1 71444 2085 86486 XOR\n2 1 71443 2084 86485 XOR\n2 1 2021 2053 71380 XOR\n2 1 2020 2052 71379 XOR\n2 1 106036 106005 2532 XOR\n2 1 13006 13007 13005 AND\n2 1 13005 106005 106006 XOR\n2 1 2149 106006 13009 XOR\n2 1 106037 106006 2533 XOR\n2 1 90614 106006 13010 XOR\n2 1 13009 13010 13008 AND\n2 1 13008 106006 106007 XOR\n2 1 2150 106007 13012 XOR\n2 1 64660 2533 64628 AND\n2 1 64659 2532 64627 AND\n2 1 64628 2597 98715 XOR\n2 1 64627 2596 98714 XOR\n2 1 2533 2565 64596 XOR\n2 1 2532 2564 64595 XOR\n2 1 92629 32405 32338 XOR\n2 1 32338 32339 32337 AND\n2 1 32337 32405 32406 XOR\n2 1 92630 32406 32341 XOR\n1 1 32406 32342 INV\n2 1 32424 32406 90615 XOR\n2 1 90615 106007 13013 XOR\n2 1 13012 13013 13011 AND\n2 1 90615 84471 106100 XOR\n2 1 90615 106069 13102 XOR\n2 1 13102 13103 13101 AND\n2 1 106100 106069 2022 XOR\n2 1 13101 106069 106070 XOR\n2 1 84472 106070 13106 XOR\n2 1 2150 90615 106038 XOR\n2 1 106038 106007 2534 XOR\n2 1 2022 2086 71509 XOR\n2 1 71509 71477 71445 AND\n2 1 71445 2086 86487 XOR\n2 1 2022 2054 71381 XOR\n2 1 13011 106007 106008 XOR\n2 1 2151 106008 13015 XOR\n2 1 64661 2534 64629 AND\n2 1 64629 2598 98716 XOR\n2 1 2534 2566 64597 XOR\n2 1 32341 32342 32340 AND\n2 1 32340 32406 32407 XOR\n1 1 32407 32345 INV\n2 1 100796 117783 32634 XOR\n2 1 2529 2534 61738 XOR\n2 1 2528 2533 61737 XOR\n2 1 32634 32635 32633 AND\n2 1 32633 117783 117784 XOR\n2 1 117815 117784 96701 XOR\n2 1 98749 117784 32638 XOR\n2 1 96701 94653 117691 XOR\n2 1 117691 117660 92631 XOR\n2 1 92631 32407 32344 XOR\n2 1 32344 32345 32343 AND\n2 1 32343 32407 32408 XOR\n1 1 32408 32348 INV\n1 1 92631 32425 INV\n2 1 32425 32407 90616 XOR\n2 1 90616 84472 106101 XOR\n2 1 90616 106070 13105 XOR\n2 1 13105 13106 13104 AND\n2 1 106101 106070 2023 XOR\n2 1 13104 106070 106071 XOR\n2 1 84473 106071 13109 XOR\n2 1 2151 90616 106039 XOR\n2 1 2023 2087 71510 XOR\n2 1 71510 71478 71446 AND\n2 1 71446 2087 86488 XOR\n2 1 2023 2055 71382 XOR\n2 1 106039 106008 2535 XOR\n2 1 90616 106008 13016 XOR\n2 1 13015 13016 13014 AND\n2 1 13014 106008 106009 XOR\n2 1 2152 106009 13018 XOR\n2 1 64662 2535 64630 AND\n2 1 64630 2599 98717 XOR\n2 1 2535 2567 64598 XOR\n2 1 96701 117660 32457 XOR\n2 1 32457 32458 32456 AND\n2 1 32456 117660 117661 XOR\n2 1 94654 117661 32461 XOR\n2 1 2530 2535 61739 XOR\n2 1 100797 117784 32637 XOR\n2 1 32637 32638 32636 AND\n2 1 32636 117784 117785 XOR\n2 1 117816 117785 96702 XOR\n2 1 96702 117661 32460 XOR\n2 1 32460 32461 32459 AND\n2 1 32459 117661 117662 XOR\n2 1 94655 117662 32464 XOR\n2 1 96702 94654 117692 XOR\n2 1 117692 117661 92632 XOR\n2 1 92632 32408 32347 XOR\n1 1 92632 32426 INV\n2 1 98750 117785 32641 XOR\n2 1 32347 32348 32346 AND\n2 1 32346 32408 32350 XOR\n2 1 32426 32408 90617 XOR\n2 1 90617 106009 13019 XOR\n2 1 13018 13019 13017 AND\n2 1 90617 84473 106102 XOR\n2 1 90617 106071 13108 XOR\n2 1 13108 13109 13107 AND\n2 1 106102 106071 2024 XOR\n2 1 13107 106071 106072 XOR\n2 1 84474 106072 13112 XOR\n2 1 2152 90617 106040 XOR\n2 1 106040 106009 2536 XOR\n2 1 2024 2088 71511 XOR\n",
"2 1 71511 71479 71447 AND\n2 1 71447 2088 86489 XOR\n2 1 2024 2056 71383 XOR\n2 1 13017 106009 106010 XOR\n2 1 2153 106010 13021 XOR\n2 1 64663 2536 64631 AND\n2 1 64631 2600 98718 XOR\n2 1 2536 2568 64599 XOR\n2 1 100798 117785 32640 XOR\n2 1 32640 32641 32639 AND\n2 1 32639 117785 117786 XOR\n2 1 100799 117786 32643 XOR\n2 1 98751 117786 32644 XOR\n2 1 32643 32644 32642 AND\n2 1 32642 117786 117787 XOR\n2 1 117817 117786 96703 XOR\n2 1 100800 117787 32646 XOR\n2 1 117818 117787 96704 XOR\n2 1 96704 94656 117694 XOR\n2 1 96703 117662 32463 XOR\n2 1 32463 32464 32462 AND\n2 1 32462 117662 117663 XOR\n2 1 94656 117663 32467 XOR\n2 1 96704 117663 32466 XOR\n2 1 96703 94655 117693 XOR\n2 1 117693 117662 92633 XOR\n2 1 117694 117663 92634 XOR\n1 1 92634 32427 INV\n2 1 32466 32467 32465 AND\n2 1 32465 117663 117664 XOR\n2 1 98752 117787 32647 XOR\n2 1 32646 32647 32645 AND\n2 1 32645 117787 117788 XOR\n2 1 100801 117788 32649 XOR\n2 1 117819 117788 96705 XOR\n2 1 96705 117664 32469 XOR\n2 1 96705 94657 117695 XOR\n2 1 117695 117664 92635 XOR\n1 1 92635 32428 INV\n2 1 98753 117788 32650 XOR\n2 1 32649 32650 32648 AND\n2 1 32648 117788 117789 XOR\n2 1 98754 117789 32653 XOR\n2 1 100802 117789 32652 XOR\n2 1 32652 32653 32651 AND\n2 1 117820 117789 96706 XOR\n2 1 96706 94658 117696 XOR\n2 1 92633 32350 90618 XOR\n2 1 90618 32350 32349 AND\n2 1 32349 32350 32409 XOR\n2 1 32427 32409 90619 XOR\n2 1 90619 84475 106104 XOR\n1 1 32409 32353 INV\n2 1 2154 90619 106042 XOR\n2 1 90618 84474 106103 XOR\n2 1 90618 106072 13111 XOR\n2 1 13111 13112 13110 AND\n2 1 106103 106072 2025 XOR\n2 1 13110 106072 106073 XOR\n2 1 90619 106073 13114 XOR\n2 1 106104 106073 2026 XOR\n2 1 84475 106073 13115 XOR\n2 1 13114 13115 13113 AND\n2 1 13113 106073 106074 XOR\n2 1 2153 90618 106041 XOR\n2 1 2026 2090 71513 XOR\n2 1 2025 2089 71512 XOR\n2 1 71513 71481 71449 AND\n2 1 71512 71480 71448 AND\n2 1 71449 2090 86491 XOR\n2 1 71448 2089 86490 XOR\n2 1 2026 2058 71385 XOR\n2 1 2025 2057 71384 XOR\n2 1 106041 106010 2537 XOR\n2 1 90618 106010 13022 XOR\n2 1 13021 13022 13020 AND\n2 1 13020 106010 106011 XOR\n2 1 90619 106011 13025 XOR\n2 1 106042 106011 2538 XOR\n2 1 2154 106011 13024 XOR\n2 1 13024 13025 13023 AND\n2 1 13023 106011 106012 XOR\n2 1 2155 106012 13027 XOR\n2 1 84476 106074 13118 XOR\n2 1 64665 2538 64633 AND\n2 1 64664 2537 64632 AND\n2 1 64633 2602 98720 XOR\n2 1 64632 2601 98719 XOR\n2 1 2538 2570 64601 XOR\n2 1 2537 2569 64600 XOR\n2 1 92634 32409 32352 XOR\n2 1 32352 32353 32351 AND\n2 1 32351 32409 32410 XOR\n2 1 32428 32410 90620 XOR\n2 1 90620 84476 106105 XOR\n2 1 2155 90620 106043 XOR\n2 1 92635 32410 32355 XOR\n2 1 106043 106012 2539 XOR\n2 1 90620 106012 13028 XOR\n2 1 13027 13028 13026 AND\n2 1 13026 106012 106013 XOR\n2 1 2156 106013 13030 XOR\n2 1 106105 106074 2027 XOR\n2 1 2027 2091 71514 XOR\n2 1 71514 71482 71450 AND\n2 1 71450 2091 86492 XOR\n2 1 2027 2059 71386 XOR\n2 1 2016 2027 67661 XOR\n2 1 90620 106074 13117 XOR\n2 1 13117 13118 13116 AND\n2 1 13116 106074 106075 XOR\n2 1 84477 106075 13121 XOR\n2 1 64666 2539 64634 AND\n2 1 64634 2603 98721 XOR\n2 1 2539 2571 64602 XOR\n1 1 32410 32356 INV\n2 1 32355 32356 32354 AND\n2 1 32354 32410 32358 XOR\n2 1 94657 117664 32470 XOR\n2 1 32469 32470 32468 AND\n2 1 32468 117664 117665 XOR\n2 1 96706 117665 32472 XOR\n2 1 94658 117665 32473 XOR\n2 1 32472 32473 32471 AND\n2 1 117696 117665 92636 XOR\n2 1 92636 32358 90621 XOR\n2 1 90621 84477 106106 XOR\n2 1 2156 90621 106044 XOR\n",
"2 1 106044 106013 2540 XOR\n2 1 90621 106013 13031 XOR\n2 1 13030 13031 13029 AND\n2 1 13029 106013 106014 XOR\n2 1 2157 106014 13033 XOR\n2 1 90621 32358 32357 AND\n2 1 32357 32358 32411 XOR\n2 1 106106 106075 2028 XOR\n2 1 2028 2092 71515 XOR\n2 1 71515 71483 71451 AND\n2 1 71451 2092 86493 XOR\n2 1 2028 2060 71387 XOR\n2 1 2017 2028 67662 XOR\n2 1 90621 106075 13120 XOR\n2 1 13120 13121 13119 AND\n2 1 13119 106075 106076 XOR\n2 1 84478 106076 13124 XOR\n2 1 64667 2540 64635 AND\n2 1 64635 2604 98722 XOR\n2 1 2540 2572 64603 XOR\n1 1 32411 32361 INV\n2 1 32471 117665 117666 XOR\n2 1 94659 117666 32476 XOR\n2 1 32651 117789 117790 XOR\n2 1 100803 117790 32655 XOR\n2 1 117821 117790 96707 XOR\n2 1 96707 117666 32475 XOR\n2 1 32475 32476 32474 AND\n2 1 32474 117666 117667 XOR\n2 1 94660 117667 32479 XOR\n2 1 96707 94659 117697 XOR\n2 1 117697 117666 92637 XOR\n2 1 92637 32411 32360 XOR\n1 1 92637 32429 INV\n2 1 32360 32361 32359 AND\n2 1 32359 32411 32412 XOR\n1 1 32412 32364 INV\n2 1 32429 32411 90622 XOR\n2 1 90622 84478 106107 XOR\n2 1 2157 90622 106045 XOR\n2 1 106045 106014 2541 XOR\n2 1 90622 106014 13034 XOR\n2 1 13033 13034 13032 AND\n2 1 13032 106014 106015 XOR\n2 1 2158 106015 13036 XOR\n2 1 106107 106076 2029 XOR\n2 1 2029 2093 71516 XOR\n2 1 71516 71484 71452 AND\n2 1 71452 2093 86494 XOR\n2 1 2029 2061 71388 XOR\n2 1 2018 2029 67631 XOR\n2 1 90622 106076 13123 XOR\n2 1 13123 13124 13122 AND\n2 1 13122 106076 106077 XOR\n2 1 84479 106077 13127 XOR\n2 1 64668 2541 64636 AND\n2 1 64636 2605 98723 XOR\n2 1 2541 2573 64604 XOR\n2 1 2533 2538 61742 XOR\n2 1 2532 2537 61741 XOR\n2 1 2531 2536 61740 XOR\n2 1 2536 2541 61713 XOR\n2 1 2535 2540 61712 XOR\n2 1 2534 2539 61711 XOR\n2 1 98755 117790 32656 XOR\n2 1 32655 32656 32654 AND\n2 1 32654 117790 117791 XOR\n2 1 117822 117791 96708 XOR\n2 1 96708 94660 117698 XOR\n2 1 98756 117791 32659 XOR\n2 1 100804 117791 32658 XOR\n2 1 32658 32659 32657 AND\n2 1 32657 117791 117792 XOR\n2 1 117823 117792 96709 XOR\n2 1 96709 94661 117699 XOR\n2 1 117698 117667 92638 XOR\n2 1 92638 32412 32363 XOR\n2 1 32363 32364 32362 AND\n2 1 32362 32412 32366 XOR\n1 1 92638 32430 INV\n2 1 96708 117667 32478 XOR\n2 1 32478 32479 32477 AND\n2 1 32477 117667 117668 XOR\n2 1 94661 117668 32482 XOR\n2 1 117699 117668 92639 XOR\n2 1 96709 117668 32481 XOR\n2 1 32481 32482 32480 AND\n2 1 32480 117668 117669 XOR\n2 1 94662 117669 32485 XOR\n2 1 32430 32412 90623 XOR\n2 1 90623 106015 13037 XOR\n2 1 13036 13037 13035 AND\n2 1 90623 84479 106108 XOR\n2 1 2158 90623 106046 XOR\n2 1 106046 106015 2542 XOR\n2 1 13035 106015 106016 XOR\n2 1 2159 106016 13039 XOR\n2 1 106108 106077 2030 XOR\n2 1 2030 2094 71517 XOR\n2 1 71517 71485 71453 AND\n2 1 71453 2094 86495 XOR\n2 1 2030 2062 71389 XOR\n2 1 2019 2030 67632 XOR\n2 1 90623 106077 13126 XOR\n2 1 13126 13127 13125 AND\n2 1 13125 106077 106078 XOR\n2 1 84480 106078 13130 XOR\n2 1 64669 2542 64637 AND\n2 1 64637 2606 98724 XOR\n2 1 2542 2574 64605 XOR\n2 1 92639 32366 90624 XOR\n2 1 90624 84480 106109 XOR\n2 1 2159 90624 106047 XOR\n2 1 106109 106078 2031 XOR\n2 1 2031 2095 71518 XOR\n2 1 71518 71486 71454 AND\n2 1 71454 2095 86496 XOR\n2 1 2031 2063 71390 XOR\n2 1 2020 2031 67633 XOR\n2 1 90624 106078 13129 XOR\n2 1 106047 106016 2543 XOR\n2 1 13129 13130 13128 AND\n2 1 13128 106078 106079 XOR\n2 1 84481 106079 13133 XOR\n2 1 64670 2543 64638 AND\n2 1 90624 106016 13040 XOR\n2 1 64638 2607 98725 XOR\n2 1 13039 13040 13038 AND\n",
"2 1 2543 2575 64606 XOR\n2 1 13038 106016 106017 XOR\n2 1 2160 106017 13042 XOR\n2 1 90624 32366 32365 AND\n2 1 32365 32366 32368 XOR\n2 1 100805 117792 32661 XOR\n2 1 98757 117792 32662 XOR\n2 1 32661 32662 32660 AND\n2 1 32660 117792 117793 XOR\n2 1 117824 117793 96710 XOR\n2 1 96710 117669 32484 XOR\n2 1 96710 94662 117700 XOR\n2 1 98758 117793 32665 XOR\n2 1 32484 32485 32483 AND\n2 1 32483 117669 117670 XOR\n2 1 94663 117670 32488 XOR\n2 1 117700 117669 92640 XOR\n2 1 92640 32368 90625 XOR\n2 1 90625 84481 106110 XOR\n2 1 2160 90625 106048 XOR\n2 1 106048 106017 2544 XOR\n2 1 90625 106017 13043 XOR\n2 1 13042 13043 13041 AND\n2 1 90625 32368 32367 AND\n2 1 32367 32368 32370 XOR\n2 1 13041 106017 106018 XOR\n2 1 2161 106018 13045 XOR\n2 1 106110 106079 2032 XOR\n2 1 2032 2096 71519 XOR\n2 1 71519 71487 71455 AND\n2 1 71455 2096 86497 XOR\n2 1 2032 2064 71391 XOR\n2 1 2021 2032 67634 XOR\n2 1 90625 106079 13132 XOR\n2 1 13132 13133 13131 AND\n2 1 13131 106079 106080 XOR\n2 1 84482 106080 13136 XOR\n2 1 64671 2544 64639 AND\n2 1 64639 2608 98726 XOR\n2 1 2544 2576 64607 XOR\n2 1 100806 117793 32664 XOR\n2 1 32664 32665 32663 AND\n2 1 32663 117793 117794 XOR\n2 1 100807 117794 32667 XOR\n2 1 117825 117794 96711 XOR\n2 1 96711 117670 32487 XOR\n2 1 32487 32488 32486 AND\n2 1 96711 94663 117701 XOR\n2 1 117701 117670 92641 XOR\n2 1 32486 117670 117671 XOR\n2 1 94664 117671 32491 XOR\n2 1 92641 32370 90626 XOR\n2 1 90626 84482 106111 XOR\n2 1 2161 90626 106049 XOR\n2 1 106049 106018 2545 XOR\n2 1 90626 106018 13046 XOR\n2 1 13045 13046 13044 AND\n2 1 13044 106018 106019 XOR\n2 1 2162 106019 13048 XOR\n2 1 90626 32370 32369 AND\n2 1 32369 32370 32413 XOR\n1 1 32413 32373 INV\n2 1 106111 106080 2033 XOR\n2 1 2033 2097 71520 XOR\n2 1 71520 71488 71456 AND\n2 1 71456 2097 86498 XOR\n2 1 2033 2065 71392 XOR\n2 1 2022 2033 67635 XOR\n2 1 90626 106080 13135 XOR\n2 1 13135 13136 13134 AND\n2 1 13134 106080 106081 XOR\n2 1 84483 106081 13139 XOR\n2 1 98759 117794 32668 XOR\n2 1 32667 32668 32666 AND\n2 1 32666 117794 117795 XOR\n2 1 117826 117795 96712 XOR\n2 1 96712 94664 117702 XOR\n2 1 117702 117671 92642 XOR\n2 1 92642 32413 32372 XOR\n2 1 96712 117671 32490 XOR\n2 1 32490 32491 32489 AND\n2 1 32489 117671 117672 XOR\n2 1 94665 117672 32494 XOR\n2 1 100808 117795 32670 XOR\n2 1 98760 117795 32671 XOR\n2 1 32670 32671 32669 AND\n2 1 32669 117795 117796 XOR\n2 1 98761 117796 32674 XOR\n2 1 100809 117796 32673 XOR\n2 1 32673 32674 32672 AND\n2 1 32672 117796 117797 XOR\n2 1 100810 117797 32676 XOR\n2 1 117828 117797 96714 XOR\n2 1 64672 2545 64640 AND\n2 1 64640 2609 98727 XOR\n2 1 2545 2577 64608 XOR\n2 1 117827 117796 96713 XOR\n2 1 96713 117672 32493 XOR\n2 1 96713 94665 117703 XOR\n2 1 117703 117672 92643 XOR\n2 1 32493 32494 32492 AND\n2 1 32492 117672 117673 XOR\n2 1 94666 117673 32497 XOR\n2 1 96714 117673 32496 XOR\n2 1 32496 32497 32495 AND\n2 1 32495 117673 117674 XOR\n2 1 94667 117674 32500 XOR\n1 1 92642 32431 INV\n1 1 92643 32432 INV\n2 1 32372 32373 32371 AND\n2 1 32371 32413 32414 XOR\n2 1 92643 32414 32375 XOR\n1 1 32414 32376 INV\n2 1 32375 32376 32374 AND\n2 1 32374 32414 32378 XOR\n2 1 32431 32413 90627 XOR\n2 1 90627 106019 13049 XOR\n2 1 13048 13049 13047 AND\n2 1 13047 106019 106020 XOR\n2 1 2163 106020 13051 XOR\n2 1 90627 84483 106112 XOR\n2 1 2162 90627 106050 XOR\n2 1 106050 106019 2546 XOR\n2 1 106112 106081 2034 XOR\n2 1 2034 2098 71521 XOR\n2 1 71521 71489 71457 AND\n2 1 71457 2098 86499 XOR\n2 1 2034 2066 71393 XOR\n",
"2 1 2023 2034 67636 XOR\n2 1 90627 106081 13138 XOR\n2 1 13138 13139 13137 AND\n2 1 13137 106081 106082 XOR\n2 1 84484 106082 13142 XOR\n2 1 64673 2546 64641 AND\n2 1 64641 2610 98728 XOR\n2 1 2546 2578 64609 XOR\n2 1 32432 32414 90628 XOR\n2 1 90628 106020 13052 XOR\n2 1 13051 13052 13050 AND\n2 1 13050 106020 106021 XOR\n2 1 2164 106021 13054 XOR\n2 1 90628 84484 106113 XOR\n2 1 2163 90628 106051 XOR\n2 1 106051 106020 2547 XOR\n2 1 106113 106082 2035 XOR\n2 1 2035 2099 71522 XOR\n2 1 71522 71490 71458 AND\n2 1 71458 2099 86500 XOR\n2 1 2035 2067 71394 XOR\n2 1 2024 2035 67637 XOR\n2 1 90628 106082 13141 XOR\n2 1 13141 13142 13140 AND\n2 1 13140 106082 106083 XOR\n2 1 84485 106083 13145 XOR\n2 1 64674 2547 64642 AND\n2 1 64642 2611 98729 XOR\n2 1 2547 2579 64610 XOR\n2 1 96714 94666 117704 XOR\n2 1 117704 117673 92644 XOR\n2 1 92644 32378 90629 XOR\n2 1 90629 84485 106114 XOR\n2 1 2164 90629 106052 XOR\n2 1 106052 106021 2548 XOR\n2 1 106114 106083 2036 XOR\n2 1 2036 2100 71523 XOR\n2 1 71523 71491 71459 AND\n2 1 71459 2100 86501 XOR\n2 1 2036 2068 71395 XOR\n2 1 2025 2036 67638 XOR\n2 1 67661 2036 88559 XOR\n2 1 90629 106083 13144 XOR\n2 1 13144 13145 13143 AND\n2 1 13143 106083 106084 XOR\n2 1 84486 106084 13148 XOR\n2 1 64675 2548 64643 AND\n2 1 64643 2612 98730 XOR\n2 1 2548 2580 64611 XOR\n2 1 90629 106021 13055 XOR\n2 1 13054 13055 13053 AND\n2 1 13053 106021 106022 XOR\n2 1 2165 106022 13057 XOR\n2 1 90629 32378 32377 AND\n2 1 32377 32378 32415 XOR\n1 1 32415 32381 INV\n2 1 98762 117797 32677 XOR\n2 1 32676 32677 32675 AND\n2 1 32675 117797 117798 XOR\n2 1 98763 117798 32680 XOR\n2 1 117829 117798 96715 XOR\n2 1 96715 117674 32499 XOR\n2 1 32499 32500 32498 AND\n2 1 32498 117674 117675 XOR\n2 1 94668 117675 32503 XOR\n2 1 96715 94667 117705 XOR\n2 1 117705 117674 92645 XOR\n2 1 92645 32415 32380 XOR\n2 1 32380 32381 32379 AND\n2 1 32379 32415 32383 XOR\n1 1 92645 32433 INV\n2 1 32433 32415 90630 XOR\n2 1 90630 106022 13058 XOR\n2 1 13057 13058 13056 AND\n2 1 13056 106022 106023 XOR\n2 1 2166 106023 13060 XOR\n2 1 90630 84486 106115 XOR\n2 1 2165 90630 106053 XOR\n2 1 106053 106022 2549 XOR\n2 1 106115 106084 2037 XOR\n2 1 2037 2101 71524 XOR\n2 1 71524 71492 71460 AND\n2 1 71460 2101 86502 XOR\n2 1 2037 2069 71396 XOR\n2 1 2037 2016 67650 XOR\n2 1 2026 2037 67639 XOR\n2 1 67662 2037 88560 XOR\n2 1 67650 2025 88548 XOR\n2 1 88548 86500 117393 XOR\n2 1 90630 106084 13147 XOR\n2 1 13147 13148 13146 AND\n2 1 13146 106084 106085 XOR\n2 1 84487 106085 13151 XOR\n2 1 64676 2549 64644 AND\n2 1 64644 2613 98731 XOR\n2 1 2549 2581 64612 XOR\n2 1 100811 117798 32679 XOR\n2 1 2544 2549 61721 XOR\n2 1 2543 2548 61720 XOR\n2 1 2542 2547 61719 XOR\n2 1 2541 2546 61718 XOR\n2 1 2540 2545 61717 XOR\n2 1 2539 2544 61716 XOR\n2 1 2538 2543 61715 XOR\n2 1 2537 2542 61714 XOR\n2 1 61739 2549 100786 XOR\n2 1 61738 2548 100785 XOR\n2 1 61737 2547 100784 XOR\n2 1 61721 2531 100768 XOR\n2 1 100768 98720 117570 XOR\n2 1 61720 2530 100767 XOR\n2 1 100767 98719 117569 XOR\n2 1 61719 2529 100766 XOR\n2 1 100766 98718 117568 XOR\n2 1 61718 2528 100765 XOR\n2 1 100765 98717 117567 XOR\n2 1 32679 32680 32678 AND\n2 1 32678 117798 117799 XOR\n2 1 117830 117799 96716 XOR\n2 1 96716 94668 117706 XOR\n2 1 100812 117799 32682 XOR\n2 1 98764 117799 32683 XOR\n2 1 32682 32683 32681 AND\n2 1 32681 117799 117800 XOR\n2 1 117831 117800 96717 XOR\n2 1 96717 94669 117707 XOR\n2 1 100813 117800 32685 XOR\n2 1 98765 117800 32686 XOR\n",
"2 1 32685 32686 32684 AND\n2 1 32684 117800 117801 XOR\n2 1 100814 117801 32688 XOR\n2 1 98766 117801 32689 XOR\n2 1 32688 32689 32687 AND\n2 1 32687 117801 117802 XOR\n2 1 98767 117802 32692 XOR\n2 1 117832 117801 96718 XOR\n2 1 96718 94670 117708 XOR\n2 1 100815 117802 32691 XOR\n2 1 32691 32692 32690 AND\n2 1 32690 117802 117803 XOR\n2 1 117834 117803 96720 XOR\n2 1 98768 117803 32695 XOR\n2 1 100816 117803 32694 XOR\n2 1 117833 117802 96719 XOR\n2 1 32694 32695 32693 AND\n2 1 32693 117803 117804 XOR\n2 1 117835 117804 96721 XOR\n2 1 100817 117804 32697 XOR\n2 1 98769 117804 32698 XOR\n2 1 32697 32698 32696 AND\n2 1 32696 117804 117805 XOR\n2 1 100818 117805 32700 XOR\n2 1 96719 94671 117709 XOR\n2 1 96720 94672 117710 XOR\n2 1 96721 94673 117711 XOR\n2 1 98770 117805 32701 XOR\n2 1 32700 32701 32699 AND\n2 1 32699 117805 117806 XOR\n2 1 117837 117806 96723 XOR\n2 1 98771 117806 32704 XOR\n2 1 117706 117675 92646 XOR\n2 1 96723 94675 117713 XOR\n2 1 96716 117675 32502 XOR\n2 1 32502 32503 32501 AND\n2 1 32501 117675 117676 XOR\n2 1 117707 117676 92647 XOR\n2 1 92646 32383 90631 XOR\n2 1 90631 106023 13061 XOR\n2 1 13060 13061 13059 AND\n2 1 13059 106023 106024 XOR\n2 1 2167 106024 13063 XOR\n2 1 90631 84487 106116 XOR\n2 1 2166 90631 106054 XOR\n2 1 106054 106023 2550 XOR\n2 1 90631 32383 32382 AND\n2 1 32382 32383 32385 XOR\n2 1 96717 117676 32505 XOR\n2 1 94669 117676 32506 XOR\n2 1 32505 32506 32504 AND\n2 1 32504 117676 117677 XOR\n2 1 117708 117677 92648 XOR\n2 1 94670 117677 32509 XOR\n1 1 92648 32434 INV\n2 1 96718 117677 32508 XOR\n2 1 32508 32509 32507 AND\n2 1 32507 117677 117678 XOR\n2 1 96719 117678 32511 XOR\n2 1 117709 117678 92649 XOR\n2 1 94671 117678 32512 XOR\n2 1 32511 32512 32510 AND\n2 1 32510 117678 117679 XOR\n2 1 117710 117679 92650 XOR\n2 1 96720 117679 32514 XOR\n2 1 94672 117679 32515 XOR\n2 1 32514 32515 32513 AND\n2 1 106116 106085 2038 XOR\n2 1 2038 2102 71525 XOR\n2 1 71525 71493 71461 AND\n2 1 71461 2102 86503 XOR\n2 1 2038 2070 71397 XOR\n2 1 2038 2017 67651 XOR\n2 1 2027 2038 67640 XOR\n2 1 67651 2026 88549 XOR\n2 1 88549 86501 117394 XOR\n2 1 67631 2038 88529 XOR\n2 1 88529 86481 84433 XOR\n2 1 88529 86481 117344 AND\n2 1 86482 117344 31789 XOR\n2 1 90631 106085 13150 XOR\n2 1 13150 13151 13149 AND\n2 1 13149 106085 106086 XOR\n2 1 84488 106086 13154 XOR\n2 1 64677 2550 64645 AND\n2 1 64645 2614 98732 XOR\n2 1 2550 2582 64613 XOR\n1 1 92650 32435 INV\n2 1 92647 32385 90632 XOR\n2 1 90632 106086 13153 XOR\n2 1 90632 106024 13064 XOR\n2 1 13153 13154 13152 AND\n2 1 13152 106086 106087 XOR\n2 1 84489 106087 13157 XOR\n2 1 13063 13064 13062 AND\n2 1 13062 106024 106025 XOR\n2 1 2168 106025 13066 XOR\n2 1 90632 84488 106117 XOR\n2 1 106117 106086 2039 XOR\n2 1 67632 2039 88530 XOR\n2 1 88530 86482 117375 XOR\n2 1 117375 117344 84434 XOR\n2 1 88530 117344 31788 XOR\n2 1 31788 31789 31787 AND\n2 1 31787 117344 117345 XOR\n2 1 86483 117345 31792 XOR\n2 1 2039 2103 71526 XOR\n2 1 71526 71494 71462 AND\n2 1 71462 2103 86504 XOR\n2 1 2039 2071 71398 XOR\n2 1 2039 2018 67652 XOR\n2 1 2028 2039 67641 XOR\n2 1 67641 2016 88539 XOR\n2 1 88539 86491 117384 XOR\n2 1 67652 2027 88550 XOR\n2 1 88550 86502 117395 XOR\n2 1 2167 90632 106055 XOR\n2 1 106055 106024 2551 XOR\n2 1 2551 2583 64614 XOR\n2 1 64678 2551 64646 AND\n2 1 64646 2615 98733 XOR\n2 1 90632 32385 32384 AND\n2 1 32384 32385 32416 XOR\n2 1 32434 32416 90633 XOR\n2 1 90633 106025 13067 XOR\n2 1 13066 13067 13065 AND\n2 1 13065 106025 106026 XOR\n2 1 2169 106026 13069 XOR\n",
"2 1 90633 84489 106118 XOR\n2 1 92648 32416 32387 XOR\n2 1 2168 90633 106056 XOR\n2 1 106056 106025 2552 XOR\n2 1 106118 106087 2040 XOR\n2 1 2040 2104 71527 XOR\n2 1 71527 71495 71463 AND\n2 1 71463 2104 86505 XOR\n2 1 2040 2072 71399 XOR\n2 1 2040 2019 67653 XOR\n2 1 2029 2040 67642 XOR\n2 1 67653 2028 88551 XOR\n2 1 88551 86503 117396 XOR\n2 1 67642 2017 88540 XOR\n2 1 67633 2040 88531 XOR\n2 1 88531 86483 117376 XOR\n2 1 117376 117345 84435 XOR\n2 1 88531 117345 31791 XOR\n2 1 31791 31792 31790 AND\n2 1 31790 117345 117346 XOR\n2 1 86484 117346 31795 XOR\n2 1 90633 106087 13156 XOR\n2 1 13156 13157 13155 AND\n2 1 13155 106087 106088 XOR\n2 1 84490 106088 13160 XOR\n2 1 64679 2552 64647 AND\n2 1 64647 2616 98734 XOR\n2 1 2552 2584 64615 XOR\n1 1 32416 32388 INV\n2 1 32387 32388 32386 AND\n2 1 32386 32416 32390 XOR\n2 1 92649 32390 90634 XOR\n2 1 90634 84490 106119 XOR\n2 1 2169 90634 106057 XOR\n2 1 106057 106026 2553 XOR\n2 1 90634 106026 13070 XOR\n2 1 13069 13070 13068 AND\n2 1 13068 106026 106027 XOR\n2 1 2170 106027 13072 XOR\n2 1 90634 32390 32389 AND\n2 1 32389 32390 32417 XOR\n1 1 32417 32393 INV\n2 1 32435 32417 90635 XOR\n2 1 90635 106027 13073 XOR\n2 1 13072 13073 13071 AND\n2 1 13071 106027 106028 XOR\n2 1 2171 106028 13075 XOR\n2 1 90635 84491 106120 XOR\n2 1 2170 90635 106058 XOR\n2 1 106058 106027 2554 XOR\n2 1 106119 106088 2041 XOR\n2 1 2041 2105 71528 XOR\n2 1 71528 71496 71464 AND\n2 1 71464 2105 86506 XOR\n2 1 2041 2073 71400 XOR\n2 1 2041 2020 67654 XOR\n2 1 2030 2041 67643 XOR\n2 1 67654 2029 88552 XOR\n2 1 88552 86504 117397 XOR\n2 1 67643 2018 88541 XOR\n2 1 67634 2041 88532 XOR\n2 1 88532 86484 117377 XOR\n2 1 117377 117346 84436 XOR\n2 1 90634 106088 13159 XOR\n2 1 13159 13160 13158 AND\n2 1 13158 106088 106089 XOR\n2 1 106120 106089 2042 XOR\n2 1 2042 2106 71529 XOR\n2 1 71529 71497 71465 AND\n2 1 71465 2106 86507 XOR\n2 1 2042 2074 71401 XOR\n2 1 2042 2021 67655 XOR\n2 1 2031 2042 67644 XOR\n2 1 67655 2030 88553 XOR\n2 1 88553 86505 117398 XOR\n2 1 67644 2019 88542 XOR\n2 1 67635 2042 88533 XOR\n2 1 88533 86485 117378 XOR\n2 1 90635 106089 13162 XOR\n2 1 84491 106089 13163 XOR\n2 1 13162 13163 13161 AND\n2 1 13161 106089 106090 XOR\n2 1 84492 106090 13166 XOR\n2 1 64681 2554 64649 AND\n2 1 64680 2553 64648 AND\n2 1 64649 2618 98736 XOR\n2 1 64648 2617 98735 XOR\n2 1 2554 2586 64617 XOR\n2 1 2553 2585 64616 XOR\n2 1 88542 86494 117387 XOR\n2 1 88541 86493 117386 XOR\n2 1 92650 32417 32392 XOR\n2 1 32392 32393 32391 AND\n2 1 32391 32417 32418 XOR\n1 1 32418 32396 INV\n2 1 32513 117679 117680 XOR\n2 1 117711 117680 92651 XOR\n2 1 92651 32418 32395 XOR\n2 1 32395 32396 32394 AND\n2 1 32394 32418 32398 XOR\n1 1 92651 32436 INV\n2 1 96721 117680 32517 XOR\n2 1 94673 117680 32518 XOR\n2 1 32517 32518 32516 AND\n2 1 32516 117680 117681 XOR\n2 1 94674 117681 32521 XOR\n2 1 32436 32418 90636 XOR\n2 1 90636 106028 13076 XOR\n2 1 13075 13076 13074 AND\n2 1 13074 106028 106029 XOR\n2 1 2172 106029 13078 XOR\n2 1 90636 84492 106121 XOR\n2 1 2171 90636 106059 XOR\n2 1 106059 106028 2555 XOR\n2 1 106121 106090 2043 XOR\n2 1 2043 2107 71530 XOR\n2 1 71530 71498 71466 AND\n2 1 71466 2107 86508 XOR\n2 1 2043 2075 71402 XOR\n2 1 2043 2022 67656 XOR\n2 1 2032 2043 67645 XOR\n2 1 67656 2031 88554 XOR\n2 1 67645 2020 88543 XOR\n2 1 88543 86495 117388 XOR\n2 1 67636 2043 88534 XOR\n2 1 88534 86486 117379 XOR\n2 1 90636 106090 13165 XOR\n2 1 13165 13166 13164 AND\n",
"2 1 13164 106090 106091 XOR\n2 1 84493 106091 13169 XOR\n2 1 88554 86506 117399 XOR\n2 1 64682 2555 64650 AND\n2 1 64650 2619 98737 XOR\n2 1 100785 98737 117587 XOR\n2 1 2555 2587 64618 XOR\n2 1 88532 117346 31794 XOR\n2 1 31794 31795 31793 AND\n2 1 31793 117346 117347 XOR\n2 1 117378 117347 84437 XOR\n2 1 88533 117347 31797 XOR\n2 1 86485 117347 31798 XOR\n2 1 31797 31798 31796 AND\n2 1 31796 117347 117348 XOR\n2 1 117379 117348 84438 XOR\n2 1 86486 117348 31801 XOR\n2 1 88534 117348 31800 XOR\n2 1 31800 31801 31799 AND\n2 1 31799 117348 117349 XOR\n2 1 86487 117349 31804 XOR\n2 1 88540 86492 117385 XOR\n2 1 100784 98736 117586 XOR\n2 1 117836 117805 96722 XOR\n2 1 96722 94674 117712 XOR\n2 1 117712 117681 92652 XOR\n2 1 92652 32398 90637 XOR\n2 1 90637 84493 106122 XOR\n2 1 90637 106029 13079 XOR\n2 1 13078 13079 13077 AND\n2 1 13077 106029 106030 XOR\n2 1 2173 106030 13081 XOR\n2 1 90637 32398 32397 AND\n2 1 32397 32398 32400 XOR\n2 1 2172 90637 106060 XOR\n2 1 106060 106029 2556 XOR\n2 1 96722 117681 32520 XOR\n2 1 32520 32521 32519 AND\n2 1 32519 117681 117682 XOR\n2 1 96723 117682 32523 XOR\n2 1 94675 117682 32524 XOR\n2 1 32523 32524 32522 AND\n2 1 32522 117682 117683 XOR\n2 1 117713 117682 92653 XOR\n2 1 94676 117683 32527 XOR\n2 1 92653 32400 90638 XOR\n2 1 90638 106030 13082 XOR\n2 1 13081 13082 13080 AND\n2 1 13080 106030 106031 XOR\n2 1 2174 106031 13084 XOR\n2 1 90638 84494 106123 XOR\n2 1 2173 90638 106061 XOR\n2 1 106061 106030 2557 XOR\n2 1 90638 32400 32399 AND\n2 1 32399 32400 32419 XOR\n1 1 32419 32403 INV\n2 1 106122 106091 2044 XOR\n2 1 2044 2108 71531 XOR\n2 1 71531 71499 71467 AND\n2 1 71467 2108 86509 XOR\n2 1 2044 2076 71403 XOR\n2 1 2044 2023 67657 XOR\n2 1 2033 2044 67646 XOR\n2 1 67657 2032 88555 XOR\n2 1 88555 86507 117400 XOR\n2 1 67646 2021 88544 XOR\n2 1 67637 2044 88535 XOR\n2 1 88535 117349 31803 XOR\n2 1 31803 31804 31802 AND\n2 1 88535 86487 117380 XOR\n2 1 90637 106091 13168 XOR\n2 1 13168 13169 13167 AND\n2 1 13167 106091 106092 XOR\n2 1 106123 106092 2045 XOR\n2 1 2045 2109 71532 XOR\n2 1 71532 71500 71468 AND\n2 1 71468 2109 86510 XOR\n2 1 2045 2077 71404 XOR\n2 1 2045 2024 67658 XOR\n2 1 2034 2045 67647 XOR\n2 1 67658 2033 88556 XOR\n2 1 88556 86508 117401 XOR\n2 1 67647 2022 88545 XOR\n2 1 88545 86497 117390 XOR\n2 1 67638 2045 88536 XOR\n2 1 88536 86488 117381 XOR\n2 1 90638 106092 13171 XOR\n2 1 84494 106092 13172 XOR\n2 1 13171 13172 13170 AND\n2 1 13170 106092 106093 XOR\n2 1 64684 2557 64652 AND\n2 1 64683 2556 64651 AND\n2 1 64652 2621 98739 XOR\n2 1 64651 2620 98738 XOR\n2 1 100786 98738 117588 XOR\n2 1 2557 2589 64620 XOR\n2 1 2556 2588 64619 XOR\n2 1 84495 106093 13175 XOR\n2 1 117380 117349 84439 XOR\n2 1 88544 86496 117389 XOR\n2 1 31802 117349 117350 XOR\n2 1 117381 117350 84440 XOR\n2 1 86488 117350 31807 XOR\n2 1 88536 117350 31806 XOR\n2 1 31806 31807 31805 AND\n2 1 31805 117350 117351 XOR\n2 1 86489 117351 31810 XOR\n2 1 100819 117806 32703 XOR\n2 1 32703 32704 32702 AND\n2 1 32702 117806 117807 XOR\n2 1 117838 117807 96724 XOR\n2 1 96724 117683 32526 XOR\n2 1 32526 32527 32525 AND\n2 1 32525 117683 117684 XOR\n2 1 100820 117807 32706 XOR\n2 1 98772 117807 32707 XOR\n2 1 32706 32707 32705 AND\n2 1 32705 117807 117808 XOR\n2 1 96724 94676 117714 XOR\n2 1 117714 117683 92654 XOR\n2 1 92654 32419 32402 XOR\n2 1 32402 32403 32401 AND\n2 1 32401 32419 32420 XOR\n1 1 92654 32437 INV\n2 1 32437 32419 90639 XOR\n2 1 90639 106031 13085 XOR\n2 1 13084 13085 13083 AND\n2 1 13083 106031 106032 XOR\n",
"2 1 90639 84495 106124 XOR\n2 1 2174 90639 106062 XOR\n2 1 106062 106031 2558 XOR\n2 1 106124 106093 2046 XOR\n2 1 2046 2110 71533 XOR\n2 1 71533 71501 71469 AND\n2 1 71469 2110 86511 XOR\n2 1 88559 86511 117404 XOR\n2 1 2046 2078 71405 XOR\n2 1 2046 2025 67659 XOR\n2 1 2035 2046 67648 XOR\n2 1 67659 2034 88557 XOR\n2 1 88557 86509 117402 XOR\n2 1 67648 2023 88546 XOR\n2 1 88546 86498 117391 XOR\n2 1 67639 2046 88537 XOR\n2 1 88537 86489 117382 XOR\n2 1 117382 117351 84441 XOR\n2 1 88537 117351 31809 XOR\n2 1 31809 31810 31808 AND\n2 1 31808 117351 117352 XOR\n2 1 86490 117352 31813 XOR\n2 1 64685 2558 64653 AND\n2 1 64653 2622 98740 XOR\n2 1 2558 2590 64621 XOR\n2 1 90639 106093 13174 XOR\n2 1 13174 13175 13173 AND\n2 1 13173 106093 106094 XOR\n2 1 2558 2531 61735 XOR\n2 1 2557 2530 61734 XOR\n2 1 2556 2529 61733 XOR\n2 1 2555 2528 61732 XOR\n2 1 2553 2558 61730 XOR\n2 1 2552 2557 61729 XOR\n2 1 2551 2556 61728 XOR\n2 1 2550 2555 61727 XOR\n2 1 2549 2554 61726 XOR\n2 1 2548 2553 61725 XOR\n2 1 2547 2552 61724 XOR\n2 1 2546 2551 61723 XOR\n2 1 2545 2550 61722 XOR\n2 1 61742 2552 100789 XOR\n2 1 61741 2551 100788 XOR\n2 1 100788 98740 117590 XOR\n2 1 61740 2550 100787 XOR\n2 1 100787 98739 117589 XOR\n2 1 61735 2545 100782 XOR\n2 1 100782 98734 117584 XOR\n2 1 61734 2544 100781 XOR\n2 1 100781 98733 117583 XOR\n2 1 61733 2543 100780 XOR\n2 1 100780 98732 117582 XOR\n2 1 61732 2542 100779 XOR\n2 1 100779 98731 117581 XOR\n2 1 61730 2540 100777 XOR\n2 1 100777 98729 117579 XOR\n2 1 61729 2539 100776 XOR\n2 1 100776 98728 117578 XOR\n2 1 61728 2538 100775 XOR\n2 1 100775 98727 117577 XOR\n2 1 61727 2537 100774 XOR\n2 1 100774 98726 117576 XOR\n2 1 61726 2536 100773 XOR\n2 1 100773 98725 117575 XOR\n2 1 61725 2535 100772 XOR\n2 1 100772 98724 117574 XOR\n2 1 61724 2534 100771 XOR\n2 1 100771 98723 117573 XOR\n2 1 61723 2533 100770 XOR\n2 1 100770 98722 117572 XOR\n2 1 61722 2532 100769 XOR\n2 1 100769 98721 117571 XOR\n2 1 61716 2558 100763 XOR\n2 1 100763 98715 117565 XOR\n2 1 61715 2557 100762 XOR\n2 1 100762 98714 117564 XOR\n2 1 61714 2556 100761 XOR\n2 1 100761 98713 117563 XOR\n2 1 61713 2555 100760 XOR\n2 1 100760 98712 117562 XOR\n2 1 61712 2554 100759 XOR\n2 1 100759 98711 117561 XOR\n2 1 61711 2553 100758 XOR\n2 1 100758 98710 117530 AND\n2 1 100758 98710 96662 XOR\n2 1 117561 117530 96663 XOR\n2 1 98711 117530 32154 XOR\n2 1 100759 117530 32153 XOR\n2 1 32153 32154 32152 AND\n2 1 32152 117530 117531 XOR\n2 1 117562 117531 96664 XOR\n2 1 98712 117531 32157 XOR\n2 1 100760 117531 32156 XOR\n2 1 32156 32157 32155 AND\n2 1 32155 117531 117532 XOR\n2 1 98713 117532 32160 XOR\n2 1 100761 117532 32159 XOR\n2 1 32159 32160 32158 AND\n2 1 32158 117532 117533 XOR\n2 1 98714 117533 32163 XOR\n2 1 100762 117533 32162 XOR\n2 1 32162 32163 32161 AND\n2 1 32161 117533 117534 XOR\n2 1 98715 117534 32166 XOR\n2 1 117564 117533 96666 XOR\n2 1 100763 117534 32165 XOR\n2 1 32165 32166 32164 AND\n2 1 32164 117534 117535 XOR\n2 1 98716 117535 32169 XOR\n2 1 117563 117532 96665 XOR\n2 1 117565 117534 96667 XOR\n2 1 117839 117808 96725 XOR\n2 1 96725 94677 117715 XOR\n2 1 117715 117684 92655 XOR\n2 1 92655 32420 90640 XOR\n2 1 90640 84496 106125 XOR\n2 1 2175 90640 106063 XOR\n2 1 106063 106032 2559 XOR\n2 1 64686 2559 64654 AND\n2 1 64654 2623 98741 XOR\n2 1 100789 98741 117591 XOR\n2 1 2559 2591 64622 XOR\n2 1 106125 106094 2047 XOR\n2 1 2047 2111 71534 XOR\n2 1 71534 71502 71470 AND\n2 1 71470 2111 86512 XOR\n2 1 88560 86512 117405 XOR\n2 1 2047 2079 71406 XOR\n",
"2 1 2047 2026 67660 XOR\n2 1 2036 2047 67649 XOR\n2 1 67660 2035 88558 XOR\n2 1 88558 86510 117403 XOR\n2 1 67649 2024 88547 XOR\n2 1 88547 86499 117392 XOR\n2 1 67640 2047 88538 XOR\n2 1 88538 117352 31812 XOR\n2 1 31812 31813 31811 AND\n2 1 31811 117352 117353 XOR\n2 1 86491 117353 31816 XOR\n2 1 117384 117353 84443 XOR\n2 1 88539 117353 31815 XOR\n2 1 31815 31816 31814 AND\n2 1 31814 117353 117354 XOR\n2 1 117385 117354 84444 XOR\n2 1 88540 117354 31818 XOR\n2 1 86492 117354 31819 XOR\n2 1 31818 31819 31817 AND\n2 1 31817 117354 117355 XOR\n2 1 88541 117355 31821 XOR\n2 1 117386 117355 84445 XOR\n2 1 86493 117355 31822 XOR\n2 1 31821 31822 31820 AND\n2 1 31820 117355 117356 XOR\n2 1 86494 117356 31825 XOR\n2 1 88542 117356 31824 XOR\n2 1 31824 31825 31823 AND\n2 1 31823 117356 117357 XOR\n2 1 117388 117357 84447 XOR\n2 1 86495 117357 31828 XOR\n2 1 88543 117357 31827 XOR\n2 1 31827 31828 31826 AND\n2 1 31826 117357 117358 XOR\n2 1 117389 117358 84448 XOR\n2 1 86496 117358 31831 XOR\n2 1 88544 117358 31830 XOR\n2 1 31830 31831 31829 AND\n2 1 31829 117358 117359 XOR\n2 1 88545 117359 31833 XOR\n2 1 117390 117359 84449 XOR\n2 1 117387 117356 84446 XOR\n2 1 86497 117359 31834 XOR\n2 1 31833 31834 31832 AND\n2 1 31832 117359 117360 XOR\n2 1 117391 117360 84450 XOR\n2 1 88546 117360 31836 XOR\n2 1 86498 117360 31837 XOR\n2 1 31836 31837 31835 AND\n2 1 31835 117360 117361 XOR\n2 1 86499 117361 31840 XOR\n2 1 117392 117361 84451 XOR\n2 1 88547 117361 31839 XOR\n2 1 31839 31840 31838 AND\n2 1 31838 117361 117362 XOR\n2 1 117393 117362 84452 XOR\n2 1 86500 117362 31843 XOR\n2 1 88538 86490 117383 XOR\n2 1 117383 117352 84442 XOR\n2 1 88548 117362 31842 XOR\n2 1 31842 31843 31841 AND\n2 1 31841 117362 117363 XOR\n2 1 86501 117363 31846 XOR\n2 1 88549 117363 31845 XOR\n2 1 31845 31846 31844 AND\n2 1 31844 117363 117364 XOR\n2 1 117395 117364 84454 XOR\n2 1 117394 117363 84453 XOR\n2 1 86502 117364 31849 XOR\n2 1 88550 117364 31848 XOR\n2 1 31848 31849 31847 AND\n2 1 31847 117364 117365 XOR\n2 1 117396 117365 84455 XOR\n2 1 86503 117365 31852 XOR\n2 1 88551 117365 31851 XOR\n2 1 31851 31852 31850 AND\n2 1 31850 117365 117366 XOR\n2 1 86504 117366 31855 XOR\n2 1 88552 117366 31854 XOR\n2 1 31854 31855 31853 AND\n2 1 31853 117366 117367 XOR\n2 1 117398 117367 84457 XOR\n2 1 117397 117366 84456 XOR\n2 1 88553 117367 31857 XOR\n2 1 86505 117367 31858 XOR\n2 1 31857 31858 31856 AND\n2 1 31856 117367 117368 XOR\n2 1 88554 117368 31860 XOR\n2 1 117399 117368 84458 XOR\n2 1 86506 117368 31861 XOR\n2 1 31860 31861 31859 AND\n2 1 31859 117368 117369 XOR\n2 1 88555 117369 31863 XOR\n2 1 117400 117369 84459 XOR\n2 1 86507 117369 31864 XOR\n2 1 31863 31864 31862 AND\n2 1 31862 117369 117370 XOR\n2 1 117401 117370 84460 XOR\n2 1 88556 117370 31866 XOR\n2 1 86508 117370 31867 XOR\n2 1 31866 31867 31865 AND\n2 1 31865 117370 117371 XOR\n2 1 117402 117371 84461 XOR\n2 1 88557 117371 31869 XOR\n2 1 86509 117371 31870 XOR\n2 1 31869 31870 31868 AND\n2 1 31868 117371 117372 XOR\n2 1 88558 117372 31872 XOR\n2 1 117403 117372 84462 XOR\n2 1 86510 117372 31873 XOR\n2 1 31872 31873 31871 AND\n2 1 31871 117372 117373 XOR\n2 1 86511 117373 31876 XOR\n2 1 88559 117373 31875 XOR\n2 1 31875 31876 31874 AND\n2 1 117404 117373 84463 XOR\n2 1 31874 117373 117374 XOR\n2 1 117405 117374 84464 XOR\n2 1 2559 2532 61736 XOR\n2 1 2554 2559 61731 XOR\n2 1 61736 2546 100783 XOR\n2 1 100783 98735 117585 XOR\n2 1 61731 2541 100778 XOR\n2 1 100778 98730 117580 XOR\n2 1 61717 2559 100764 XOR\n2 1 100764 117535 32168 XOR\n2 1 32168 32169 32167 AND\n2 1 32167 117535 117536 XOR\n",
"2 1 100764 98716 117566 XOR\n2 1 117566 117535 96668 XOR\n2 1 100765 117536 32171 XOR\n2 1 117567 117536 96669 XOR\n2 1 98717 117536 32172 XOR\n2 1 32171 32172 32170 AND\n2 1 32170 117536 117537 XOR\n2 1 117568 117537 96670 XOR\n2 1 100766 117537 32174 XOR\n2 1 98718 117537 32175 XOR\n2 1 32174 32175 32173 AND\n2 1 32173 117537 117538 XOR\n2 1 117569 117538 96671 XOR\n2 1 98719 117538 32178 XOR\n2 1 100767 117538 32177 XOR\n2 1 32177 32178 32176 AND\n2 1 32176 117538 117539 XOR\n2 1 100768 117539 32180 XOR\n2 1 117570 117539 96672 XOR\n2 1 98720 117539 32181 XOR\n2 1 32180 32181 32179 AND\n2 1 32179 117539 117540 XOR\n2 1 98721 117540 32184 XOR\n2 1 117571 117540 96673 XOR\n2 1 100769 117540 32183 XOR\n2 1 32183 32184 32182 AND\n2 1 32182 117540 117541 XOR\n2 1 117572 117541 96674 XOR\n2 1 100770 117541 32186 XOR\n2 1 98722 117541 32187 XOR\n2 1 32186 32187 32185 AND\n2 1 32185 117541 117542 XOR\n2 1 98723 117542 32190 XOR\n2 1 117573 117542 96675 XOR\n2 1 100771 117542 32189 XOR\n2 1 32189 32190 32188 AND\n2 1 32188 117542 117543 XOR\n2 1 117574 117543 96676 XOR\n2 1 98724 117543 32193 XOR\n2 1 100772 117543 32192 XOR\n2 1 32192 32193 32191 AND\n2 1 32191 117543 117544 XOR\n2 1 98725 117544 32196 XOR\n2 1 117575 117544 96677 XOR\n2 1 100773 117544 32195 XOR\n2 1 32195 32196 32194 AND\n2 1 32194 117544 117545 XOR\n2 1 98726 117545 32199 XOR\n2 1 100774 117545 32198 XOR\n2 1 32198 32199 32197 AND\n2 1 32197 117545 117546 XOR\n2 1 117577 117546 96679 XOR\n2 1 100775 117546 32201 XOR\n2 1 98727 117546 32202 XOR\n2 1 32201 32202 32200 AND\n2 1 32200 117546 117547 XOR\n2 1 98728 117547 32205 XOR\n2 1 117578 117547 96680 XOR\n2 1 100776 117547 32204 XOR\n2 1 32204 32205 32203 AND\n2 1 32203 117547 117548 XOR\n2 1 117579 117548 96681 XOR\n2 1 100777 117548 32207 XOR\n2 1 117576 117545 96678 XOR\n2 1 98729 117548 32208 XOR\n2 1 32207 32208 32206 AND\n2 1 32206 117548 117549 XOR\n2 1 117580 117549 96682 XOR\n2 1 100778 117549 32210 XOR\n2 1 98730 117549 32211 XOR\n2 1 32210 32211 32209 AND\n2 1 32209 117549 117550 XOR\n2 1 117581 117550 96683 XOR\n2 1 100779 117550 32213 XOR\n2 1 98731 117550 32214 XOR\n2 1 32213 32214 32212 AND\n2 1 32212 117550 117551 XOR\n2 1 100780 117551 32216 XOR\n2 1 117582 117551 96684 XOR\n2 1 98732 117551 32217 XOR\n2 1 32216 32217 32215 AND\n2 1 32215 117551 117552 XOR\n2 1 100781 117552 32219 XOR\n2 1 117583 117552 96685 XOR\n2 1 98733 117552 32220 XOR\n2 1 32219 32220 32218 AND\n2 1 32218 117552 117553 XOR\n2 1 100782 117553 32222 XOR\n2 1 117584 117553 96686 XOR\n2 1 98734 117553 32223 XOR\n2 1 32222 32223 32221 AND\n2 1 32221 117553 117554 XOR\n2 1 100783 117554 32225 XOR\n2 1 117585 117554 96687 XOR\n2 1 98735 117554 32226 XOR\n2 1 32225 32226 32224 AND\n2 1 32224 117554 117555 XOR\n2 1 100784 117555 32228 XOR\n2 1 117586 117555 96688 XOR\n2 1 98736 117555 32229 XOR\n2 1 32228 32229 32227 AND\n2 1 32227 117555 117556 XOR\n2 1 100785 117556 32231 XOR\n2 1 98737 117556 32232 XOR\n2 1 32231 32232 32230 AND\n2 1 117587 117556 96689 XOR\n2 1 32230 117556 117557 XOR\n2 1 117588 117557 96690 XOR\n2 1 100786 117557 32234 XOR\n2 1 98738 117557 32235 XOR\n2 1 32234 32235 32233 AND\n2 1 32233 117557 117558 XOR\n2 1 117589 117558 96691 XOR\n2 1 100787 117558 32237 XOR\n2 1 98739 117558 32238 XOR\n2 1 32237 32238 32236 AND\n2 1 32236 117558 117559 XOR\n2 1 117590 117559 96692 XOR\n2 1 100788 117559 32240 XOR\n2 1 98740 117559 32241 XOR\n2 1 32240 32241 32239 AND\n2 1 32239 117559 117560 XOR\n2 1 117591 117560 96693 XOR\n2 1 76577 76579 81392 XOR\n2 1 81392 76752 131802 XOR\n2 1 76576 76578 81391 XOR\n2 1 81391 76751 131801 XOR\n2 1 76575 76577 81390 XOR\n",
"2 1 81390 76750 131800 XOR\n2 1 76574 76576 81389 XOR\n2 1 81389 76749 131799 XOR\n2 1 76573 76575 81388 XOR\n2 1 81388 76748 131798 XOR\n2 1 76572 76574 81387 XOR\n2 1 81387 76747 131797 XOR\n2 1 76571 76573 81386 XOR\n2 1 81386 76746 131796 XOR\n2 1 76570 76572 81385 XOR\n2 1 81385 76745 131795 XOR\n2 1 76569 76571 81384 XOR\n2 1 81384 76744 131794 XOR\n2 1 76568 76570 81383 XOR\n2 1 81383 76743 131793 XOR\n2 1 76567 76569 6749 XOR\n2 1 76566 76568 6748 XOR\n2 1 76565 76567 6747 XOR\n2 1 76564 76566 6746 XOR\n2 1 76563 76565 6745 XOR\n2 1 76562 76564 6744 XOR\n2 1 76561 76563 6743 XOR\n2 1 76592 76562 6742 XOR\n2 1 76591 76561 6741 XOR\n2 1 76590 76592 6740 XOR\n2 1 76589 76591 6739 XOR\n2 1 76588 76590 6738 XOR\n2 1 76587 76589 6737 XOR\n2 1 76586 76588 6736 XOR\n2 1 76585 76587 6735 XOR\n2 1 76584 76586 6734 XOR\n2 1 76583 76585 6733 XOR\n2 1 76582 76584 6732 XOR\n2 1 76581 76583 6731 XOR\n2 1 76580 76582 6730 XOR\n2 1 76579 76581 6729 XOR\n2 1 76578 76580 6728 XOR\n2 1 6749 76592 81382 XOR\n2 1 81382 76742 131792 XOR\n2 1 6748 76591 81381 XOR\n2 1 81381 76741 131791 XOR\n2 1 6747 76590 81380 XOR\n2 1 81380 76740 131790 XOR\n2 1 6746 76589 81379 XOR\n2 1 81379 76739 131789 XOR\n2 1 6745 76588 81378 XOR\n2 1 81378 76738 131788 XOR\n2 1 6744 76587 81377 XOR\n2 1 81377 76737 131787 XOR\n2 1 6743 76586 81376 XOR\n2 1 81376 76736 131786 XOR\n2 1 6742 76585 81375 XOR\n2 1 81375 76735 131785 XOR\n2 1 6741 76584 81374 XOR\n2 1 81374 76734 131784 XOR\n2 1 6740 76583 81373 XOR\n2 1 81373 76733 131783 XOR\n2 1 6739 76582 81372 XOR\n2 1 81372 76732 131782 XOR\n2 1 6738 76581 81371 XOR\n2 1 81371 76731 131781 XOR\n2 1 6737 76580 81370 XOR\n2 1 81370 76730 131780 XOR\n2 1 6736 76579 81369 XOR\n2 1 81369 76729 131779 XOR\n2 1 6735 76578 81368 XOR\n2 1 81368 76728 131778 XOR\n2 1 6734 76577 81367 XOR\n2 1 81367 76727 131777 XOR\n2 1 6733 76576 81366 XOR\n2 1 81366 76726 131776 XOR\n2 1 6732 76575 81365 XOR\n2 1 81365 76725 131775 XOR\n2 1 6731 76574 81364 XOR\n2 1 81364 76724 131774 XOR\n2 1 6730 76573 81363 XOR\n2 1 81363 76723 131773 XOR\n2 1 6729 76572 81362 XOR\n2 1 81362 76722 131772 XOR\n2 1 6728 76571 81361 XOR\n2 1 81361 76721 131741 AND\n2 1 81361 76721 79825 XOR\n2 1 131772 131741 79826 XOR\n2 1 81362 131741 55686 XOR\n2 1 76722 131741 55687 XOR\n2 1 55686 55687 55685 AND\n2 1 55685 131741 131742 XOR\n2 1 131773 131742 79827 XOR\n2 1 81363 131742 55689 XOR\n2 1 76723 131742 55690 XOR\n2 1 55689 55690 55688 AND\n2 1 55688 131742 131743 XOR\n2 1 131774 131743 79828 XOR\n2 1 81364 131743 55692 XOR\n2 1 76724 131743 55693 XOR\n2 1 55692 55693 55691 AND\n2 1 55691 131743 131744 XOR\n2 1 131775 131744 79829 XOR\n2 1 81365 131744 55695 XOR\n2 1 76725 131744 55696 XOR\n2 1 55695 55696 55694 AND\n2 1 55694 131744 131745 XOR\n2 1 131776 131745 79830 XOR\n2 1 81366 131745 55698 XOR\n2 1 76726 131745 55699 XOR\n2 1 55698 55699 55697 AND\n2 1 55697 131745 131746 XOR\n2 1 131777 131746 79831 XOR\n2 1 81367 131746 55701 XOR\n2 1 76727 131746 55702 XOR\n2 1 55701 55702 55700 AND\n2 1 55700 131746 131747 XOR\n2 1 131778 131747 79832 XOR\n2 1 81368 131747 55704 XOR\n2 1 76728 131747 55705 XOR\n2 1 55704 55705 55703 AND\n2 1 55703 131747 131748 XOR\n2 1 131779 131748 79833 XOR\n2 1 81369 131748 55707 XOR\n2 1 76729 131748 55708 XOR\n2 1 55707 55708 55706 AND\n2 1 55706 131748 131749 XOR\n2 1 131780 131749 79834 XOR\n2 1 81370 131749 55710 XOR\n2 1 76730 131749 55711 XOR\n2 1 55710 55711 55709 AND\n2 1 55709 131749 131750 XOR\n2 1 131781 131750 79835 XOR\n",
"2 1 81371 131750 55713 XOR\n2 1 76731 131750 55714 XOR\n2 1 55713 55714 55712 AND\n2 1 55712 131750 131751 XOR\n2 1 131782 131751 79836 XOR\n2 1 81372 131751 55716 XOR\n2 1 76732 131751 55717 XOR\n2 1 55716 55717 55715 AND\n2 1 55715 131751 131752 XOR\n2 1 131783 131752 79837 XOR\n2 1 81373 131752 55719 XOR\n2 1 76733 131752 55720 XOR\n2 1 55719 55720 55718 AND\n2 1 55718 131752 131753 XOR\n2 1 131784 131753 79838 XOR\n2 1 81374 131753 55722 XOR\n2 1 76734 131753 55723 XOR\n2 1 55722 55723 55721 AND\n2 1 55721 131753 131754 XOR\n2 1 131785 131754 79839 XOR\n2 1 81375 131754 55725 XOR\n2 1 76735 131754 55726 XOR\n2 1 55725 55726 55724 AND\n2 1 55724 131754 131755 XOR\n2 1 131786 131755 79840 XOR\n2 1 81376 131755 55728 XOR\n2 1 76736 131755 55729 XOR\n2 1 55728 55729 55727 AND\n2 1 55727 131755 131756 XOR\n2 1 131787 131756 79841 XOR\n2 1 81377 131756 55731 XOR\n2 1 76737 131756 55732 XOR\n2 1 55731 55732 55730 AND\n2 1 55730 131756 131757 XOR\n2 1 131788 131757 79842 XOR\n2 1 81378 131757 55734 XOR\n2 1 76738 131757 55735 XOR\n2 1 55734 55735 55733 AND\n2 1 55733 131757 131758 XOR\n2 1 131789 131758 79843 XOR\n2 1 81379 131758 55737 XOR\n2 1 76739 131758 55738 XOR\n2 1 55737 55738 55736 AND\n2 1 55736 131758 131759 XOR\n2 1 131790 131759 79844 XOR\n2 1 81380 131759 55740 XOR\n2 1 76740 131759 55741 XOR\n2 1 55740 55741 55739 AND\n2 1 55739 131759 131760 XOR\n2 1 131791 131760 79845 XOR\n2 1 81381 131760 55743 XOR\n2 1 76741 131760 55744 XOR\n2 1 55743 55744 55742 AND\n2 1 55742 131760 131761 XOR\n2 1 131792 131761 79846 XOR\n2 1 81382 131761 55746 XOR\n2 1 76742 131761 55747 XOR\n2 1 55746 55747 55745 AND\n2 1 55745 131761 131762 XOR\n2 1 131793 131762 79847 XOR\n2 1 81383 131762 55749 XOR\n2 1 76743 131762 55750 XOR\n2 1 55749 55750 55748 AND\n2 1 55748 131762 131763 XOR\n2 1 131794 131763 79848 XOR\n2 1 81384 131763 55752 XOR\n2 1 76744 131763 55753 XOR\n2 1 55752 55753 55751 AND\n2 1 55751 131763 131764 XOR\n2 1 131795 131764 79849 XOR\n2 1 81385 131764 55755 XOR\n2 1 76745 131764 55756 XOR\n2 1 55755 55756 55754 AND\n2 1 55754 131764 131765 XOR\n2 1 131796 131765 79850 XOR\n2 1 81386 131765 55758 XOR\n2 1 76746 131765 55759 XOR\n2 1 55758 55759 55757 AND\n2 1 55757 131765 131766 XOR\n2 1 131797 131766 79851 XOR\n2 1 81387 131766 55761 XOR\n2 1 76747 131766 55762 XOR\n2 1 55761 55762 55760 AND\n2 1 55760 131766 131767 XOR\n2 1 131798 131767 79852 XOR\n2 1 81388 131767 55764 XOR\n2 1 76748 131767 55765 XOR\n2 1 55764 55765 55763 AND\n2 1 55763 131767 131768 XOR\n2 1 131799 131768 79853 XOR\n2 1 81389 131768 55767 XOR\n2 1 76749 131768 55768 XOR\n2 1 55767 55768 55766 AND\n2 1 55766 131768 131769 XOR\n2 1 131800 131769 79854 XOR\n2 1 81390 131769 55770 XOR\n2 1 76750 131769 55771 XOR\n2 1 55770 55771 55769 AND\n2 1 55769 131769 131770 XOR\n2 1 131801 131770 79855 XOR\n2 1 81391 131770 55773 XOR\n2 1 76751 131770 55774 XOR\n2 1 55773 55774 55772 AND\n2 1 55772 131770 131771 XOR\n2 1 131802 131771 79856 XOR\n2 1 76983 76994 82928 XOR\n2 1 82928 77040 131740 XOR\n2 1 76982 76993 82927 XOR\n2 1 82927 77039 131739 XOR\n2 1 76981 76992 82926 XOR\n2 1 82926 77038 131738 XOR\n2 1 76980 76991 5589 XOR\n2 1 76979 76990 5588 XOR\n2 1 76978 76989 5587 XOR\n2 1 76977 76988 5586 XOR\n2 1 77008 76987 5585 XOR\n2 1 77007 76986 5584 XOR\n2 1 77006 76985 5583 XOR\n2 1 77005 76984 5582 XOR\n2 1 77004 76983 5581 XOR\n2 1 77003 76982 5580 XOR\n2 1 77002 76981 5579 XOR\n2 1 77001 76980 5578 XOR\n2 1 77000 76979 5577 XOR\n2 1 76999 76978 5576 XOR\n2 1 76998 76977 5575 XOR\n2 1 76997 77008 5574 XOR\n2 1 76996 77007 5573 XOR\n",
"2 1 76995 77006 5572 XOR\n2 1 76994 77005 5571 XOR\n2 1 76993 77004 5570 XOR\n2 1 76992 77003 5569 XOR\n2 1 76991 77002 5568 XOR\n2 1 76990 77001 5567 XOR\n2 1 76989 77000 5566 XOR\n2 1 76988 76999 5565 XOR\n2 1 76987 76998 5564 XOR\n2 1 76986 76997 5563 XOR\n2 1 76985 76996 5562 XOR\n2 1 76984 76995 5561 XOR\n2 1 5589 77008 82925 XOR\n2 1 82925 77037 131737 XOR\n2 1 5588 77007 82924 XOR\n2 1 82924 77036 131736 XOR\n2 1 5587 77006 82923 XOR\n2 1 82923 77035 131735 XOR\n2 1 5586 77005 82922 XOR\n2 1 82922 77034 131734 XOR\n2 1 5585 77004 82921 XOR\n2 1 82921 77033 131733 XOR\n2 1 5584 77003 82920 XOR\n2 1 82920 77032 131732 XOR\n2 1 5583 77002 82919 XOR\n2 1 82919 77031 131731 XOR\n2 1 5582 77001 82918 XOR\n2 1 82918 77030 131730 XOR\n2 1 5581 77000 82917 XOR\n2 1 82917 77029 131729 XOR\n2 1 5580 76999 82916 XOR\n2 1 82916 77028 131728 XOR\n2 1 5579 76998 82915 XOR\n2 1 82915 77027 131727 XOR\n2 1 5578 76997 82914 XOR\n2 1 82914 77026 131726 XOR\n2 1 5577 76996 82913 XOR\n2 1 82913 77025 131725 XOR\n2 1 5576 76995 82912 XOR\n2 1 82912 77024 131724 XOR\n2 1 5575 76994 82911 XOR\n2 1 82911 77023 131723 XOR\n2 1 5574 76993 82910 XOR\n2 1 82910 77022 131722 XOR\n2 1 5573 76992 82909 XOR\n2 1 82909 77021 131721 XOR\n2 1 5572 76991 82908 XOR\n2 1 82908 77020 131720 XOR\n2 1 5571 76990 82907 XOR\n2 1 82907 77019 131719 XOR\n2 1 5570 76989 82906 XOR\n2 1 82906 77018 131718 XOR\n2 1 5569 76988 82905 XOR\n2 1 82905 77017 131717 XOR\n2 1 5568 76987 82904 XOR\n2 1 82904 77016 131716 XOR\n2 1 5567 76986 82903 XOR\n2 1 82903 77015 131715 XOR\n2 1 5566 76985 82902 XOR\n2 1 82902 77014 131714 XOR\n2 1 5565 76984 82901 XOR\n2 1 82901 77013 131713 XOR\n2 1 5564 76983 82900 XOR\n2 1 82900 77012 131712 XOR\n2 1 5563 76982 82899 XOR\n2 1 82899 77011 131711 XOR\n2 1 5562 76981 82898 XOR\n2 1 82898 77010 131710 XOR\n2 1 5561 76980 82897 XOR\n2 1 82897 77009 131679 AND\n2 1 82897 77009 78289 XOR\n2 1 79825 78289 131617 AND\n2 1 79825 78289 76497 XOR\n2 1 79826 131617 55506 XOR\n2 1 131710 131679 78290 XOR\n2 1 79826 78290 131648 XOR\n2 1 131648 131617 76498 XOR\n2 1 78290 131617 55507 XOR\n2 1 55506 55507 55505 AND\n2 1 55505 131617 131618 XOR\n2 1 79827 131618 55509 XOR\n2 1 82898 131679 55596 XOR\n2 1 77010 131679 55597 XOR\n2 1 55596 55597 55595 AND\n2 1 55595 131679 131680 XOR\n2 1 131711 131680 78291 XOR\n2 1 79827 78291 131649 XOR\n2 1 131649 131618 76499 XOR\n2 1 78291 131618 55510 XOR\n2 1 55509 55510 55508 AND\n2 1 55508 131618 131619 XOR\n2 1 79828 131619 55512 XOR\n2 1 82899 131680 55599 XOR\n2 1 77011 131680 55600 XOR\n2 1 55599 55600 55598 AND\n2 1 55598 131680 131681 XOR\n2 1 131712 131681 78292 XOR\n2 1 79828 78292 131650 XOR\n2 1 131650 131619 76500 XOR\n2 1 78292 131619 55513 XOR\n2 1 55512 55513 55511 AND\n2 1 55511 131619 131620 XOR\n2 1 79829 131620 55515 XOR\n2 1 82900 131681 55602 XOR\n2 1 77012 131681 55603 XOR\n2 1 55602 55603 55601 AND\n2 1 55601 131681 131682 XOR\n2 1 131713 131682 78293 XOR\n2 1 79829 78293 131651 XOR\n2 1 131651 131620 76501 XOR\n2 1 78293 131620 55516 XOR\n2 1 55515 55516 55514 AND\n2 1 55514 131620 131621 XOR\n2 1 79830 131621 55518 XOR\n2 1 82901 131682 55605 XOR\n2 1 77013 131682 55606 XOR\n2 1 55605 55606 55604 AND\n2 1 55604 131682 131683 XOR\n2 1 131714 131683 78294 XOR\n2 1 79830 78294 131652 XOR\n2 1 131652 131621 76502 XOR\n2 1 78294 131621 55519 XOR\n2 1 55518 55519 55517 AND\n2 1 55517 131621 131622 XOR\n2 1 79831 131622 55521 XOR\n2 1 82902 131683 55608 XOR\n2 1 77014 131683 55609 XOR\n2 1 55608 55609 55607 AND\n",
"2 1 55607 131683 131684 XOR\n2 1 131715 131684 78295 XOR\n2 1 79831 78295 131653 XOR\n2 1 131653 131622 76503 XOR\n2 1 78295 131622 55522 XOR\n2 1 55521 55522 55520 AND\n2 1 55520 131622 131623 XOR\n2 1 79832 131623 55524 XOR\n2 1 82903 131684 55611 XOR\n2 1 77015 131684 55612 XOR\n2 1 55611 55612 55610 AND\n2 1 55610 131684 131685 XOR\n2 1 131716 131685 78296 XOR\n2 1 79832 78296 131654 XOR\n2 1 131654 131623 76504 XOR\n2 1 78296 131623 55525 XOR\n2 1 55524 55525 55523 AND\n2 1 55523 131623 131624 XOR\n2 1 79833 131624 55527 XOR\n2 1 82904 131685 55614 XOR\n2 1 77016 131685 55615 XOR\n2 1 55614 55615 55613 AND\n2 1 55613 131685 131686 XOR\n2 1 131717 131686 78297 XOR\n2 1 79833 78297 131655 XOR\n2 1 131655 131624 76505 XOR\n2 1 78297 131624 55528 XOR\n2 1 55527 55528 55526 AND\n2 1 55526 131624 131625 XOR\n2 1 79834 131625 55530 XOR\n2 1 82905 131686 55617 XOR\n2 1 77017 131686 55618 XOR\n2 1 55617 55618 55616 AND\n2 1 55616 131686 131687 XOR\n2 1 131718 131687 78298 XOR\n2 1 79834 78298 131656 XOR\n2 1 131656 131625 76506 XOR\n2 1 78298 131625 55531 XOR\n2 1 55530 55531 55529 AND\n2 1 55529 131625 131626 XOR\n2 1 79835 131626 55533 XOR\n2 1 82906 131687 55620 XOR\n2 1 77018 131687 55621 XOR\n2 1 55620 55621 55619 AND\n2 1 55619 131687 131688 XOR\n2 1 131719 131688 78299 XOR\n2 1 79835 78299 131657 XOR\n2 1 131657 131626 76507 XOR\n2 1 78299 131626 55534 XOR\n2 1 55533 55534 55532 AND\n2 1 55532 131626 131627 XOR\n2 1 79836 131627 55536 XOR\n2 1 82907 131688 55623 XOR\n2 1 77019 131688 55624 XOR\n2 1 55623 55624 55622 AND\n2 1 55622 131688 131689 XOR\n2 1 131720 131689 78300 XOR\n2 1 79836 78300 131658 XOR\n2 1 131658 131627 76508 XOR\n2 1 78300 131627 55537 XOR\n2 1 55536 55537 55535 AND\n2 1 55535 131627 131628 XOR\n2 1 79837 131628 55539 XOR\n2 1 82908 131689 55626 XOR\n2 1 77020 131689 55627 XOR\n2 1 55626 55627 55625 AND\n2 1 55625 131689 131690 XOR\n2 1 131721 131690 78301 XOR\n2 1 79837 78301 131659 XOR\n2 1 131659 131628 76509 XOR\n2 1 78301 131628 55540 XOR\n2 1 55539 55540 55538 AND\n2 1 55538 131628 131629 XOR\n2 1 79838 131629 55542 XOR\n2 1 82909 131690 55629 XOR\n2 1 77021 131690 55630 XOR\n2 1 55629 55630 55628 AND\n2 1 55628 131690 131691 XOR\n2 1 131722 131691 78302 XOR\n2 1 79838 78302 131660 XOR\n2 1 131660 131629 76510 XOR\n2 1 78302 131629 55543 XOR\n2 1 55542 55543 55541 AND\n2 1 55541 131629 131630 XOR\n2 1 79839 131630 55545 XOR\n2 1 82910 131691 55632 XOR\n2 1 77022 131691 55633 XOR\n2 1 55632 55633 55631 AND\n2 1 55631 131691 131692 XOR\n2 1 131723 131692 78303 XOR\n2 1 79839 78303 131661 XOR\n2 1 131661 131630 76511 XOR\n2 1 78303 131630 55546 XOR\n2 1 55545 55546 55544 AND\n2 1 55544 131630 131631 XOR\n2 1 79840 131631 55548 XOR\n2 1 82911 131692 55635 XOR\n2 1 77023 131692 55636 XOR\n2 1 55635 55636 55634 AND\n2 1 55634 131692 131693 XOR\n2 1 131724 131693 78304 XOR\n2 1 79840 78304 131662 XOR\n2 1 131662 131631 76512 XOR\n2 1 78304 131631 55549 XOR\n2 1 55548 55549 55547 AND\n2 1 55547 131631 131632 XOR\n2 1 79841 131632 55551 XOR\n2 1 82912 131693 55638 XOR\n2 1 77024 131693 55639 XOR\n2 1 55638 55639 55637 AND\n2 1 55637 131693 131694 XOR\n2 1 131725 131694 78305 XOR\n2 1 79841 78305 131663 XOR\n2 1 131663 131632 76513 XOR\n2 1 78305 131632 55552 XOR\n2 1 55551 55552 55550 AND\n2 1 55550 131632 131633 XOR\n2 1 79842 131633 55554 XOR\n2 1 82913 131694 55641 XOR\n2 1 77025 131694 55642 XOR\n2 1 55641 55642 55640 AND\n2 1 55640 131694 131695 XOR\n2 1 131726 131695 78306 XOR\n2 1 79842 78306 131664 XOR\n2 1 131664 131633 76514 XOR\n2 1 78306 131633 55555 XOR\n2 1 55554 55555 55553 AND\n2 1 55553 131633 131634 XOR\n",
"2 1 79843 131634 55557 XOR\n2 1 82914 131695 55644 XOR\n2 1 77026 131695 55645 XOR\n2 1 55644 55645 55643 AND\n2 1 55643 131695 131696 XOR\n2 1 131727 131696 78307 XOR\n2 1 79843 78307 131665 XOR\n2 1 131665 131634 76515 XOR\n2 1 76515 2642 117516 XOR\n2 1 78307 131634 55558 XOR\n2 1 55557 55558 55556 AND\n2 1 55556 131634 131635 XOR\n2 1 79844 131635 55560 XOR\n2 1 82915 131696 55647 XOR\n2 1 77027 131696 55648 XOR\n2 1 55647 55648 55646 AND\n2 1 55646 131696 131697 XOR\n2 1 131728 131697 78308 XOR\n2 1 79844 78308 131666 XOR\n2 1 131666 131635 76516 XOR\n2 1 78308 131635 55561 XOR\n2 1 55560 55561 55559 AND\n2 1 55559 131635 131636 XOR\n2 1 79845 131636 55563 XOR\n2 1 82916 131697 55650 XOR\n2 1 77028 131697 55651 XOR\n2 1 55650 55651 55649 AND\n2 1 55649 131697 131698 XOR\n2 1 131729 131698 78309 XOR\n2 1 79845 78309 131667 XOR\n2 1 131667 131636 76517 XOR\n2 1 78309 131636 55564 XOR\n2 1 55563 55564 55562 AND\n2 1 55562 131636 131637 XOR\n2 1 79846 131637 55566 XOR\n2 1 82917 131698 55653 XOR\n2 1 77029 131698 55654 XOR\n2 1 55653 55654 55652 AND\n2 1 55652 131698 131699 XOR\n2 1 131730 131699 78310 XOR\n2 1 79846 78310 131668 XOR\n2 1 131668 131637 76518 XOR\n2 1 76518 2645 117519 XOR\n2 1 78310 131637 55567 XOR\n2 1 55566 55567 55565 AND\n2 1 55565 131637 131638 XOR\n2 1 79847 131638 55569 XOR\n2 1 82918 131699 55656 XOR\n2 1 77030 131699 55657 XOR\n2 1 55656 55657 55655 AND\n2 1 55655 131699 131700 XOR\n2 1 131731 131700 78311 XOR\n2 1 79847 78311 131669 XOR\n2 1 131669 131638 76519 XOR\n2 1 76519 2646 117520 XOR\n2 1 78311 131638 55570 XOR\n2 1 55569 55570 55568 AND\n2 1 55568 131638 131639 XOR\n2 1 79848 131639 55572 XOR\n2 1 82919 131700 55659 XOR\n2 1 77031 131700 55660 XOR\n2 1 55659 55660 55658 AND\n2 1 55658 131700 131701 XOR\n2 1 131732 131701 78312 XOR\n2 1 79848 78312 131670 XOR\n2 1 131670 131639 76520 XOR\n2 1 76520 2647 117521 XOR\n2 1 78312 131639 55573 XOR\n2 1 55572 55573 55571 AND\n2 1 55571 131639 131640 XOR\n2 1 79849 131640 55575 XOR\n2 1 82920 131701 55662 XOR\n2 1 77032 131701 55663 XOR\n2 1 55662 55663 55661 AND\n2 1 55661 131701 131702 XOR\n2 1 131733 131702 78313 XOR\n2 1 79849 78313 131671 XOR\n2 1 131671 131640 76521 XOR\n2 1 76521 2648 117522 XOR\n2 1 78313 131640 55576 XOR\n2 1 55575 55576 55574 AND\n2 1 55574 131640 131641 XOR\n2 1 79850 131641 55578 XOR\n2 1 82921 131702 55665 XOR\n2 1 77033 131702 55666 XOR\n2 1 55665 55666 55664 AND\n2 1 55664 131702 131703 XOR\n2 1 131734 131703 78314 XOR\n2 1 79850 78314 131672 XOR\n2 1 131672 131641 76522 XOR\n2 1 76522 2649 117523 XOR\n2 1 78314 131641 55579 XOR\n2 1 55578 55579 55577 AND\n2 1 55577 131641 131642 XOR\n2 1 79851 131642 55581 XOR\n2 1 82922 131703 55668 XOR\n2 1 77034 131703 55669 XOR\n2 1 55668 55669 55667 AND\n2 1 55667 131703 131704 XOR\n2 1 131735 131704 78315 XOR\n2 1 79851 78315 131673 XOR\n2 1 131673 131642 76523 XOR\n2 1 76523 2650 117524 XOR\n2 1 78315 131642 55582 XOR\n2 1 55581 55582 55580 AND\n2 1 55580 131642 131643 XOR\n2 1 79852 131643 55584 XOR\n2 1 82923 131704 55671 XOR\n2 1 77035 131704 55672 XOR\n2 1 55671 55672 55670 AND\n2 1 55670 131704 131705 XOR\n2 1 131736 131705 78316 XOR\n2 1 79852 78316 131674 XOR\n2 1 131674 131643 76524 XOR\n2 1 78316 131643 55585 XOR\n2 1 55584 55585 55583 AND\n2 1 55583 131643 131644 XOR\n2 1 79853 131644 55587 XOR\n2 1 82924 131705 55674 XOR\n2 1 77036 131705 55675 XOR\n2 1 55674 55675 55673 AND\n2 1 55673 131705 131706 XOR\n2 1 131737 131706 78317 XOR\n2 1 79853 78317 131675 XOR\n2 1 131675 131644 76525 XOR\n2 1 78317 131644 55588 XOR\n2 1 55587 55588 55586 AND\n2 1 55586 131644 131645 XOR\n",
"2 1 79854 131645 55590 XOR\n2 1 82925 131706 55677 XOR\n2 1 77037 131706 55678 XOR\n2 1 55677 55678 55676 AND\n2 1 55676 131706 131707 XOR\n2 1 131738 131707 78318 XOR\n2 1 79854 78318 131676 XOR\n2 1 131676 131645 76526 XOR\n2 1 78318 131645 55591 XOR\n2 1 55590 55591 55589 AND\n2 1 55589 131645 131646 XOR\n2 1 79855 131646 55593 XOR\n2 1 82926 131707 55680 XOR\n2 1 77038 131707 55681 XOR\n2 1 55680 55681 55679 AND\n2 1 55679 131707 131708 XOR\n2 1 131739 131708 78319 XOR\n2 1 79855 78319 131677 XOR\n2 1 131677 131646 76527 XOR\n2 1 78319 131646 55594 XOR\n2 1 55593 55594 55592 AND\n2 1 55592 131646 131647 XOR\n2 1 82927 131708 55683 XOR\n2 1 77039 131708 55684 XOR\n2 1 55683 55684 55682 AND\n2 1 55682 131708 131709 XOR\n2 1 131740 131709 78320 XOR\n2 1 79856 78320 131678 XOR\n2 1 131678 131647 76528 XOR\n2 1 76504 2631 117505 XOR\n2 1 76513 2640 117514 XOR\n2 1 76499 2626 117500 XOR\n2 1 76500 2627 117501 XOR\n2 1 76526 2653 117527 XOR\n2 1 76525 2652 117526 XOR\n2 1 76524 2651 117525 XOR\n2 1 76527 2654 117528 XOR\n2 1 76497 2624 94614 XOR\n2 1 76497 2624 117468 AND\n2 1 2625 117468 32064 XOR\n2 1 76498 2625 117499 XOR\n2 1 76528 2655 117529 XOR\n2 1 117499 117468 94615 XOR\n2 1 96663 94615 117437 XOR\n2 1 76498 117468 32063 XOR\n2 1 32063 32064 32062 AND\n2 1 32062 117468 117469 XOR\n2 1 117500 117469 94616 XOR\n2 1 96664 94616 117438 XOR\n2 1 76512 2639 117513 XOR\n2 1 76511 2638 117512 XOR\n2 1 76510 2637 117511 XOR\n2 1 76506 2633 117507 XOR\n2 1 2626 117469 32067 XOR\n2 1 76503 2630 117504 XOR\n2 1 76509 2636 117510 XOR\n2 1 76508 2635 117509 XOR\n2 1 76499 117469 32066 XOR\n2 1 76507 2634 117508 XOR\n2 1 76516 2643 117517 XOR\n2 1 76502 2629 117503 XOR\n2 1 76501 2628 117502 XOR\n2 1 76517 2644 117518 XOR\n2 1 96662 94614 92594 XOR\n1 1 92594 90577 INV\n2 1 2112 90577 2496 XOR\n2 1 90577 84433 1984 XOR\n2 1 90577 84433 105940 AND\n2 1 84434 105940 12908 XOR\n2 1 1984 2048 71407 XOR\n2 1 71407 71375 71343 AND\n2 1 71343 2048 86449 XOR\n2 1 1984 2016 71279 XOR\n2 1 2112 90577 105878 AND\n2 1 2113 105878 12817 XOR\n2 1 64591 2496 64559 AND\n2 1 64559 2560 98678 XOR\n2 1 2496 2528 64527 XOR\n2 1 96662 94614 117406 AND\n2 1 94615 117406 31974 XOR\n2 1 117437 117406 92595 XOR\n1 1 92595 31960 INV\n2 1 92595 92594 31878 XOR\n2 1 31878 90577 31877 AND\n2 1 31960 92594 90578 XOR\n2 1 2113 90578 105909 XOR\n2 1 105909 105878 2497 XOR\n2 1 90578 105878 12818 XOR\n2 1 12817 12818 12816 AND\n2 1 12816 105878 105879 XOR\n2 1 2114 105879 12820 XOR\n2 1 90578 105940 12907 XOR\n2 1 90578 84434 105971 XOR\n2 1 105971 105940 1985 XOR\n2 1 12907 12908 12906 AND\n2 1 12906 105940 105941 XOR\n2 1 84435 105941 12911 XOR\n2 1 31877 92594 31880 XOR\n2 1 96663 117406 31973 XOR\n2 1 1985 2049 71408 XOR\n2 1 71408 71376 71344 AND\n2 1 71344 2049 86450 XOR\n2 1 1985 2017 71280 XOR\n2 1 31973 31974 31972 AND\n2 1 31972 117406 117407 XOR\n2 1 96664 117407 31976 XOR\n2 1 117438 117407 92596 XOR\n2 1 94616 117407 31977 XOR\n2 1 31976 31977 31975 AND\n2 1 31975 117407 117408 XOR\n2 1 92596 31880 90579 XOR\n2 1 90579 105941 12910 XOR\n2 1 2114 90579 105910 XOR\n2 1 105910 105879 2498 XOR\n2 1 90579 105879 12821 XOR\n2 1 12820 12821 12819 AND\n2 1 12819 105879 105880 XOR\n2 1 90579 84435 105972 XOR\n2 1 105972 105941 1986 XOR\n2 1 2115 105880 12823 XOR\n2 1 96665 117408 31979 XOR\n2 1 1986 2050 71409 XOR\n2 1 12910 12911 12909 AND\n2 1 12909 105941 105942 XOR\n2 1 84436 105942 12914 XOR\n2 1 71409 71377 71345 AND\n2 1 71345 2050 86451 XOR\n2 1 1986 2018 71281 XOR\n",
"2 1 90579 31880 31879 AND\n2 1 31879 31880 31882 XOR\n2 1 64593 2498 64561 AND\n2 1 64592 2497 64560 AND\n2 1 64561 2562 98680 XOR\n2 1 64560 2561 98679 XOR\n2 1 2498 2530 64529 XOR\n2 1 2497 2529 64528 XOR\n2 1 32066 32067 32065 AND\n2 1 32065 117469 117470 XOR\n2 1 2627 117470 32070 XOR\n2 1 76500 117470 32069 XOR\n2 1 32069 32070 32068 AND\n2 1 117501 117470 94617 XOR\n2 1 96665 94617 117439 XOR\n2 1 117439 117408 92597 XOR\n2 1 94617 117408 31980 XOR\n2 1 31979 31980 31978 AND\n2 1 31978 117408 117409 XOR\n2 1 96666 117409 31982 XOR\n2 1 32068 117470 117471 XOR\n2 1 76501 117471 32072 XOR\n2 1 117502 117471 94618 XOR\n2 1 96666 94618 117440 XOR\n2 1 94618 117409 31983 XOR\n2 1 31982 31983 31981 AND\n2 1 31981 117409 117410 XOR\n2 1 117440 117409 92598 XOR\n2 1 96667 117410 31985 XOR\n1 1 92598 31961 INV\n2 1 2628 117471 32073 XOR\n2 1 32072 32073 32071 AND\n2 1 32071 117471 117472 XOR\n2 1 76502 117472 32075 XOR\n2 1 2629 117472 32076 XOR\n2 1 32075 32076 32074 AND\n2 1 32074 117472 117473 XOR\n2 1 117504 117473 94620 XOR\n2 1 96668 94620 117442 XOR\n2 1 2630 117473 32079 XOR\n2 1 76503 117473 32078 XOR\n2 1 32078 32079 32077 AND\n2 1 32077 117473 117474 XOR\n2 1 117505 117474 94621 XOR\n2 1 96669 94621 117443 XOR\n2 1 2631 117474 32082 XOR\n2 1 76504 117474 32081 XOR\n2 1 32081 32082 32080 AND\n2 1 32080 117474 117475 XOR\n2 1 76505 117475 32084 XOR\n2 1 2632 117475 32085 XOR\n2 1 32084 32085 32083 AND\n2 1 32083 117475 117476 XOR\n2 1 117507 117476 94623 XOR\n2 1 96671 94623 117445 XOR\n2 1 76506 117476 32087 XOR\n2 1 2633 117476 32088 XOR\n2 1 32087 32088 32086 AND\n2 1 32086 117476 117477 XOR\n2 1 76507 117477 32090 XOR\n2 1 2634 117477 32091 XOR\n2 1 32090 32091 32089 AND\n2 1 32089 117477 117478 XOR\n2 1 76508 117478 32093 XOR\n2 1 117509 117478 94625 XOR\n2 1 96673 94625 117447 XOR\n2 1 2635 117478 32094 XOR\n2 1 32093 32094 32092 AND\n2 1 32092 117478 117479 XOR\n2 1 117510 117479 94626 XOR\n2 1 76509 117479 32096 XOR\n2 1 2636 117479 32097 XOR\n2 1 32096 32097 32095 AND\n2 1 32095 117479 117480 XOR\n2 1 117511 117480 94627 XOR\n2 1 76510 117480 32099 XOR\n2 1 2637 117480 32100 XOR\n2 1 32099 32100 32098 AND\n2 1 32098 117480 117481 XOR\n2 1 96674 94626 117448 XOR\n2 1 96675 94627 117449 XOR\n2 1 76511 117481 32102 XOR\n2 1 117512 117481 94628 XOR\n2 1 96676 94628 117450 XOR\n2 1 2638 117481 32103 XOR\n2 1 32102 32103 32101 AND\n2 1 32101 117481 117482 XOR\n2 1 117513 117482 94629 XOR\n2 1 96677 94629 117451 XOR\n2 1 2639 117482 32106 XOR\n2 1 117508 117477 94624 XOR\n2 1 96672 94624 117446 XOR\n2 1 76512 117482 32105 XOR\n2 1 32105 32106 32104 AND\n2 1 32104 117482 117483 XOR\n2 1 117514 117483 94630 XOR\n2 1 96678 94630 117452 XOR\n2 1 76513 117483 32108 XOR\n2 1 2640 117483 32109 XOR\n2 1 92597 31882 90580 XOR\n2 1 90580 31882 31881 AND\n2 1 2115 90580 105911 XOR\n2 1 105911 105880 2499 XOR\n2 1 90580 84436 105973 XOR\n2 1 90580 105880 12824 XOR\n2 1 12823 12824 12822 AND\n2 1 12822 105880 105881 XOR\n2 1 2116 105881 12826 XOR\n2 1 90580 105942 12913 XOR\n2 1 12913 12914 12912 AND\n2 1 12912 105942 105943 XOR\n2 1 84437 105943 12917 XOR\n2 1 105973 105942 1987 XOR\n2 1 1987 2051 71410 XOR\n2 1 71410 71378 71346 AND\n2 1 71346 2051 86452 XOR\n2 1 1987 2019 71282 XOR\n2 1 64594 2499 64562 AND\n2 1 64562 2563 98681 XOR\n2 1 2499 2531 64530 XOR\n2 1 32108 32109 32107 AND\n2 1 32107 117483 117484 XOR\n2 1 76514 117484 32111 XOR\n2 1 2641 117484 32112 XOR\n2 1 32111 32112 32110 AND\n2 1 32110 117484 117485 XOR\n2 1 76515 117485 32114 XOR\n2 1 2642 117485 32115 XOR\n",
"2 1 117516 117485 94632 XOR\n2 1 96680 94632 117454 XOR\n2 1 32114 32115 32113 AND\n2 1 32113 117485 117486 XOR\n2 1 117517 117486 94633 XOR\n2 1 76516 117486 32117 XOR\n2 1 2643 117486 32118 XOR\n2 1 32117 32118 32116 AND\n2 1 32116 117486 117487 XOR\n2 1 117518 117487 94634 XOR\n2 1 96682 94634 117456 XOR\n2 1 76517 117487 32120 XOR\n2 1 2644 117487 32121 XOR\n2 1 32120 32121 32119 AND\n2 1 32119 117487 117488 XOR\n2 1 76518 117488 32123 XOR\n2 1 2645 117488 32124 XOR\n2 1 117519 117488 94635 XOR\n2 1 32123 32124 32122 AND\n2 1 32122 117488 117489 XOR\n2 1 96683 94635 117457 XOR\n2 1 117520 117489 94636 XOR\n2 1 96684 94636 117458 XOR\n2 1 96681 94633 117455 XOR\n2 1 2646 117489 32127 XOR\n2 1 76519 117489 32126 XOR\n2 1 32126 32127 32125 AND\n2 1 32125 117489 117490 XOR\n2 1 76520 117490 32129 XOR\n2 1 2647 117490 32130 XOR\n2 1 32129 32130 32128 AND\n2 1 32128 117490 117491 XOR\n2 1 2648 117491 32133 XOR\n2 1 76521 117491 32132 XOR\n2 1 32132 32133 32131 AND\n2 1 32131 117491 117492 XOR\n2 1 2649 117492 32136 XOR\n2 1 76522 117492 32135 XOR\n2 1 32135 32136 32134 AND\n2 1 32134 117492 117493 XOR\n2 1 117524 117493 94640 XOR\n2 1 2650 117493 32139 XOR\n2 1 76523 117493 32138 XOR\n2 1 32138 32139 32137 AND\n2 1 32137 117493 117494 XOR\n2 1 76524 117494 32141 XOR\n2 1 117525 117494 94641 XOR\n2 1 117523 117492 94639 XOR\n2 1 96687 94639 117461 XOR\n2 1 2651 117494 32142 XOR\n2 1 32141 32142 32140 AND\n2 1 32140 117494 117495 XOR\n2 1 2652 117495 32145 XOR\n2 1 117526 117495 94642 XOR\n2 1 76525 117495 32144 XOR\n2 1 32144 32145 32143 AND\n2 1 32143 117495 117496 XOR\n2 1 2653 117496 32148 XOR\n2 1 76526 117496 32147 XOR\n2 1 32147 32148 32146 AND\n2 1 32146 117496 117497 XOR\n2 1 117528 117497 94644 XOR\n2 1 76527 117497 32150 XOR\n2 1 2654 117497 32151 XOR\n2 1 32150 32151 32149 AND\n2 1 32149 117497 117498 XOR\n2 1 117529 117498 94645 XOR\n2 1 96692 94644 117466 XOR\n2 1 96689 94641 117463 XOR\n2 1 96690 94642 117464 XOR\n2 1 96688 94640 117462 XOR\n2 1 117527 117496 94643 XOR\n2 1 96691 94643 117465 XOR\n2 1 96693 94645 117467 XOR\n2 1 117522 117491 94638 XOR\n2 1 96686 94638 117460 XOR\n2 1 76514 2641 117515 XOR\n2 1 117515 117484 94631 XOR\n2 1 96679 94631 117453 XOR\n2 1 76505 2632 117506 XOR\n2 1 117506 117475 94622 XOR\n2 1 96670 94622 117444 XOR\n2 1 31881 31882 31948 XOR\n2 1 92598 31948 31884 XOR\n2 1 31961 31948 90581 XOR\n2 1 2116 90581 105912 XOR\n2 1 90581 105943 12916 XOR\n2 1 12916 12917 12915 AND\n2 1 12915 105943 105944 XOR\n2 1 90581 84437 105974 XOR\n2 1 90581 105881 12827 XOR\n2 1 84438 105944 12920 XOR\n2 1 12826 12827 12825 AND\n2 1 12825 105881 105882 XOR\n2 1 105912 105881 2500 XOR\n2 1 105974 105943 1988 XOR\n2 1 1988 2052 71411 XOR\n2 1 71411 71379 71347 AND\n2 1 71347 2052 86453 XOR\n2 1 1988 2020 71283 XOR\n1 1 31948 31885 INV\n2 1 31884 31885 31883 AND\n2 1 31883 31948 31887 XOR\n2 1 64595 2500 64563 AND\n2 1 64563 2564 98682 XOR\n2 1 2500 2532 64531 XOR\n2 1 2117 105882 12829 XOR\n2 1 117521 117490 94637 XOR\n2 1 96685 94637 117459 XOR\n2 1 117503 117472 94619 XOR\n2 1 96667 94619 117441 XOR\n2 1 117441 117410 92599 XOR\n2 1 94619 117410 31986 XOR\n2 1 31985 31986 31984 AND\n2 1 31984 117410 117411 XOR\n2 1 117442 117411 92600 XOR\n2 1 96668 117411 31988 XOR\n2 1 92599 31887 90582 XOR\n2 1 90582 31887 31886 AND\n2 1 31886 31887 31889 XOR\n2 1 92600 31889 90583 XOR\n2 1 2118 90583 105914 XOR\n2 1 90583 31889 31888 AND\n2 1 31888 31889 31891 XOR\n2 1 90582 105882 12830 XOR\n2 1 2117 90582 105913 XOR\n2 1 12829 12830 12828 AND\n2 1 12828 105882 105883 XOR\n",
"2 1 90582 105944 12919 XOR\n2 1 12919 12920 12918 AND\n2 1 12918 105944 105945 XOR\n2 1 105913 105882 2501 XOR\n2 1 84439 105945 12923 XOR\n2 1 90583 105945 12922 XOR\n2 1 12922 12923 12921 AND\n2 1 12921 105945 105946 XOR\n2 1 84440 105946 12926 XOR\n2 1 2118 105883 12832 XOR\n2 1 105914 105883 2502 XOR\n2 1 90583 105883 12833 XOR\n2 1 12832 12833 12831 AND\n2 1 12831 105883 105884 XOR\n2 1 2119 105884 12835 XOR\n2 1 90582 84438 105975 XOR\n2 1 105975 105944 1989 XOR\n2 1 1989 2053 71412 XOR\n2 1 71412 71380 71348 AND\n2 1 71348 2053 86454 XOR\n2 1 1989 2021 71284 XOR\n2 1 64597 2502 64565 AND\n2 1 64596 2501 64564 AND\n2 1 64565 2566 98684 XOR\n2 1 64564 2565 98683 XOR\n2 1 2502 2534 64533 XOR\n2 1 2501 2533 64532 XOR\n2 1 94620 117411 31989 XOR\n2 1 31988 31989 31987 AND\n2 1 31987 117411 117412 XOR\n2 1 94621 117412 31992 XOR\n2 1 96669 117412 31991 XOR\n2 1 31991 31992 31990 AND\n2 1 117443 117412 92601 XOR\n2 1 92601 31891 90584 XOR\n2 1 90584 105946 12925 XOR\n2 1 12925 12926 12924 AND\n2 1 12924 105946 105947 XOR\n2 1 2119 90584 105915 XOR\n2 1 90584 31891 31890 AND\n2 1 31890 31891 31949 XOR\n2 1 105915 105884 2503 XOR\n2 1 90584 105884 12836 XOR\n2 1 12835 12836 12834 AND\n2 1 12834 105884 105885 XOR\n2 1 2120 105885 12838 XOR\n2 1 84441 105947 12929 XOR\n2 1 90584 84440 105977 XOR\n2 1 105977 105946 1991 XOR\n2 1 1991 2055 71414 XOR\n2 1 71414 71382 71350 AND\n2 1 71350 2055 86456 XOR\n2 1 1991 2023 71286 XOR\n1 1 31949 31894 INV\n2 1 64598 2503 64566 AND\n2 1 64566 2567 98685 XOR\n2 1 2503 2535 64534 XOR\n2 1 31990 117412 117413 XOR\n2 1 96670 117413 31994 XOR\n2 1 94622 117413 31995 XOR\n2 1 31994 31995 31993 AND\n2 1 117444 117413 92602 XOR\n2 1 92602 31949 31893 XOR\n2 1 31893 31894 31892 AND\n2 1 31892 31949 31896 XOR\n2 1 31993 117413 117414 XOR\n2 1 117445 117414 92603 XOR\n2 1 94623 117414 31998 XOR\n2 1 96671 117414 31997 XOR\n2 1 31997 31998 31996 AND\n2 1 31996 117414 117415 XOR\n2 1 117446 117415 92604 XOR\n1 1 92604 31963 INV\n2 1 92603 31896 90586 XOR\n2 1 2121 90586 105917 XOR\n2 1 90586 84442 105979 XOR\n2 1 90586 31896 31895 AND\n2 1 31895 31896 31950 XOR\n2 1 92604 31950 31898 XOR\n2 1 31963 31950 90587 XOR\n2 1 2122 90587 105918 XOR\n2 1 94624 117415 32001 XOR\n2 1 96672 117415 32000 XOR\n2 1 32000 32001 31999 AND\n2 1 31999 117415 117416 XOR\n2 1 96673 117416 32003 XOR\n2 1 117447 117416 92605 XOR\n1 1 92605 31964 INV\n1 1 92602 31962 INV\n2 1 31962 31949 90585 XOR\n2 1 90585 105885 12839 XOR\n2 1 12838 12839 12837 AND\n2 1 12837 105885 105886 XOR\n2 1 105917 105886 2505 XOR\n2 1 2121 105886 12841 XOR\n2 1 2120 90585 105916 XOR\n2 1 105916 105885 2504 XOR\n2 1 90586 105886 12842 XOR\n2 1 12841 12842 12840 AND\n2 1 12840 105886 105887 XOR\n2 1 105918 105887 2506 XOR\n2 1 2122 105887 12844 XOR\n2 1 90587 105887 12845 XOR\n2 1 12844 12845 12843 AND\n2 1 12843 105887 105888 XOR\n2 1 2123 105888 12847 XOR\n2 1 90585 84441 105978 XOR\n2 1 105978 105947 1992 XOR\n2 1 1992 2056 71415 XOR\n2 1 71415 71383 71351 AND\n2 1 71351 2056 86457 XOR\n2 1 1992 2024 71287 XOR\n1 1 31950 31899 INV\n2 1 31898 31899 31897 AND\n2 1 64601 2506 64569 AND\n2 1 64600 2505 64568 AND\n2 1 64599 2504 64567 AND\n2 1 64569 2570 98688 XOR\n2 1 64568 2569 98687 XOR\n2 1 64567 2568 98686 XOR\n2 1 2506 2538 64537 XOR\n2 1 2505 2537 64536 XOR\n2 1 2504 2536 64535 XOR\n2 1 31897 31950 31951 XOR\n2 1 92605 31951 31901 XOR\n1 1 31951 31902 INV\n2 1 31901 31902 31900 AND\n2 1 31964 31951 90588 XOR\n",
"2 1 2123 90588 105919 XOR\n2 1 90588 105888 12848 XOR\n2 1 105919 105888 2507 XOR\n2 1 12847 12848 12846 AND\n2 1 12846 105888 105889 XOR\n2 1 2124 105889 12850 XOR\n2 1 90588 84444 105981 XOR\n2 1 31900 31951 31904 XOR\n2 1 64602 2507 64570 AND\n2 1 64570 2571 98689 XOR\n2 1 2507 2539 64538 XOR\n2 1 94625 117416 32004 XOR\n2 1 32003 32004 32002 AND\n2 1 32002 117416 117417 XOR\n2 1 117448 117417 92606 XOR\n2 1 96674 117417 32006 XOR\n2 1 90587 84443 105980 XOR\n2 1 92606 31904 90589 XOR\n2 1 90589 31904 31903 AND\n2 1 31903 31904 31906 XOR\n2 1 2124 90589 105920 XOR\n2 1 105920 105889 2508 XOR\n2 1 90589 105889 12851 XOR\n2 1 90589 84445 105982 XOR\n2 1 12850 12851 12849 AND\n2 1 12849 105889 105890 XOR\n2 1 2125 105890 12853 XOR\n2 1 64603 2508 64571 AND\n2 1 64571 2572 98690 XOR\n2 1 2508 2540 64539 XOR\n2 1 94626 117417 32007 XOR\n2 1 32006 32007 32005 AND\n2 1 32005 117417 117418 XOR\n2 1 96675 117418 32009 XOR\n2 1 117449 117418 92607 XOR\n2 1 92607 31906 90590 XOR\n2 1 90590 31906 31905 AND\n2 1 31905 31906 31908 XOR\n2 1 2125 90590 105921 XOR\n2 1 105921 105890 2509 XOR\n2 1 90590 105890 12854 XOR\n2 1 12853 12854 12852 AND\n2 1 12852 105890 105891 XOR\n2 1 2126 105891 12856 XOR\n2 1 90590 84446 105983 XOR\n2 1 64604 2509 64572 AND\n2 1 64572 2573 98691 XOR\n2 1 2509 2541 64540 XOR\n2 1 94627 117418 32010 XOR\n2 1 32009 32010 32008 AND\n2 1 32008 117418 117419 XOR\n2 1 96676 117419 32012 XOR\n2 1 94628 117419 32013 XOR\n2 1 32012 32013 32011 AND\n2 1 32011 117419 117420 XOR\n2 1 117451 117420 92609 XOR\n2 1 96677 117420 32015 XOR\n2 1 94629 117420 32016 XOR\n2 1 32015 32016 32014 AND\n2 1 32014 117420 117421 XOR\n2 1 117452 117421 92610 XOR\n2 1 96678 117421 32018 XOR\n2 1 94630 117421 32019 XOR\n2 1 32018 32019 32017 AND\n2 1 32017 117421 117422 XOR\n2 1 96679 117422 32021 XOR\n2 1 117453 117422 92611 XOR\n2 1 94631 117422 32022 XOR\n2 1 32021 32022 32020 AND\n2 1 32020 117422 117423 XOR\n2 1 117454 117423 92612 XOR\n2 1 94632 117423 32025 XOR\n2 1 96680 117423 32024 XOR\n2 1 32024 32025 32023 AND\n2 1 32023 117423 117424 XOR\n2 1 96681 117424 32027 XOR\n2 1 117455 117424 92613 XOR\n1 1 92613 31965 INV\n2 1 117450 117419 92608 XOR\n2 1 92608 31908 90591 XOR\n2 1 90591 31908 31907 AND\n2 1 90591 105891 12857 XOR\n2 1 2126 90591 105922 XOR\n2 1 105922 105891 2510 XOR\n2 1 12856 12857 12855 AND\n2 1 12855 105891 105892 XOR\n2 1 2127 105892 12859 XOR\n2 1 90591 84447 105984 XOR\n2 1 31907 31908 31910 XOR\n2 1 92609 31910 90592 XOR\n2 1 90592 31910 31909 AND\n2 1 31909 31910 31912 XOR\n2 1 90592 105892 12860 XOR\n2 1 12859 12860 12858 AND\n2 1 12858 105892 105893 XOR\n2 1 2128 105893 12862 XOR\n2 1 2127 90592 105923 XOR\n2 1 105923 105892 2511 XOR\n2 1 92610 31912 90593 XOR\n2 1 2128 90593 105924 XOR\n2 1 105924 105893 2512 XOR\n2 1 90593 105893 12863 XOR\n2 1 12862 12863 12861 AND\n2 1 12861 105893 105894 XOR\n2 1 2129 105894 12865 XOR\n2 1 90593 31912 31911 AND\n2 1 31911 31912 31914 XOR\n2 1 92611 31914 90594 XOR\n2 1 90594 31914 31913 AND\n2 1 90594 84450 105987 XOR\n2 1 2129 90594 105925 XOR\n2 1 105925 105894 2513 XOR\n2 1 90594 105894 12866 XOR\n2 1 12865 12866 12864 AND\n2 1 12864 105894 105895 XOR\n2 1 2130 105895 12868 XOR\n2 1 31913 31914 31916 XOR\n2 1 90592 84448 105985 XOR\n2 1 90593 84449 105986 XOR\n2 1 92612 31916 90595 XOR\n2 1 90595 84451 105988 XOR\n2 1 2130 90595 105926 XOR\n2 1 105926 105895 2514 XOR\n2 1 90595 31916 31915 AND\n2 1 31915 31916 31952 XOR\n1 1 31952 31919 INV\n2 1 92613 31952 31918 XOR\n2 1 31965 31952 90596 XOR\n",
"2 1 90596 84452 105989 XOR\n2 1 2131 90596 105927 XOR\n2 1 31918 31919 31917 AND\n2 1 31917 31952 31953 XOR\n1 1 31953 31922 INV\n2 1 64609 2514 64577 AND\n2 1 64608 2513 64576 AND\n2 1 64607 2512 64575 AND\n2 1 64606 2511 64574 AND\n2 1 64605 2510 64573 AND\n2 1 64577 2578 98696 XOR\n2 1 64576 2577 98695 XOR\n2 1 64575 2576 98694 XOR\n2 1 64574 2575 98693 XOR\n2 1 64573 2574 98692 XOR\n2 1 2514 2546 64545 XOR\n2 1 2513 2545 64544 XOR\n2 1 2512 2544 64543 XOR\n2 1 2511 2543 64542 XOR\n2 1 2510 2542 64541 XOR\n2 1 90595 105895 12869 XOR\n2 1 12868 12869 12867 AND\n2 1 12867 105895 105896 XOR\n2 1 2131 105896 12871 XOR\n2 1 105927 105896 2515 XOR\n2 1 90596 105896 12872 XOR\n2 1 12871 12872 12870 AND\n2 1 12870 105896 105897 XOR\n2 1 2132 105897 12874 XOR\n2 1 64610 2515 64578 AND\n2 1 64578 2579 98697 XOR\n2 1 2515 2547 64546 XOR\n2 1 94633 117424 32028 XOR\n2 1 32027 32028 32026 AND\n2 1 32026 117424 117425 XOR\n2 1 117456 117425 92614 XOR\n1 1 92614 31966 INV\n2 1 96682 117425 32030 XOR\n2 1 94634 117425 32031 XOR\n2 1 32030 32031 32029 AND\n2 1 32029 117425 117426 XOR\n2 1 94635 117426 32034 XOR\n2 1 117457 117426 92615 XOR\n1 1 92615 31967 INV\n2 1 96683 117426 32033 XOR\n2 1 32033 32034 32032 AND\n2 1 32032 117426 117427 XOR\n2 1 96684 117427 32036 XOR\n2 1 117458 117427 92616 XOR\n2 1 94636 117427 32037 XOR\n2 1 32036 32037 32035 AND\n2 1 32035 117427 117428 XOR\n2 1 117459 117428 92617 XOR\n2 1 96685 117428 32039 XOR\n2 1 94637 117428 32040 XOR\n2 1 32039 32040 32038 AND\n2 1 32038 117428 117429 XOR\n2 1 94638 117429 32043 XOR\n2 1 117460 117429 92618 XOR\n1 1 92618 31968 INV\n2 1 96686 117429 32042 XOR\n2 1 32042 32043 32041 AND\n2 1 32041 117429 117430 XOR\n2 1 117461 117430 92619 XOR\n1 1 92619 31969 INV\n2 1 96687 117430 32045 XOR\n2 1 94639 117430 32046 XOR\n2 1 32045 32046 32044 AND\n2 1 32044 117430 117431 XOR\n2 1 94640 117431 32049 XOR\n2 1 96688 117431 32048 XOR\n2 1 32048 32049 32047 AND\n2 1 32047 117431 117432 XOR\n2 1 94641 117432 32052 XOR\n2 1 117462 117431 92620 XOR\n2 1 117463 117432 92621 XOR\n2 1 96689 117432 32051 XOR\n2 1 32051 32052 32050 AND\n2 1 32050 117432 117433 XOR\n2 1 94642 117433 32055 XOR\n2 1 96690 117433 32054 XOR\n2 1 117464 117433 92622 XOR\n1 1 92622 31970 INV\n2 1 32054 32055 32053 AND\n2 1 32053 117433 117434 XOR\n2 1 96691 117434 32057 XOR\n2 1 117465 117434 92623 XOR\n2 1 94643 117434 32058 XOR\n2 1 32057 32058 32056 AND\n2 1 32056 117434 117435 XOR\n2 1 117466 117435 92624 XOR\n2 1 96692 117435 32060 XOR\n1 1 92624 31971 INV\n2 1 94644 117435 32061 XOR\n2 1 32060 32061 32059 AND\n2 1 32059 117435 117436 XOR\n2 1 117467 117436 92625 XOR\n2 1 92614 31953 31921 XOR\n2 1 31921 31922 31920 AND\n2 1 31920 31953 31954 XOR\n1 1 31954 31925 INV\n2 1 92615 31954 31924 XOR\n2 1 31924 31925 31923 AND\n2 1 31923 31954 31927 XOR\n2 1 31967 31954 90598 XOR\n2 1 90598 84454 105991 XOR\n2 1 2133 90598 105929 XOR\n2 1 92616 31927 90599 XOR\n2 1 90599 31927 31926 AND\n2 1 31926 31927 31929 XOR\n2 1 90599 84455 105992 XOR\n2 1 2134 90599 105930 XOR\n2 1 92617 31929 90600 XOR\n2 1 90600 31929 31928 AND\n2 1 31928 31929 31955 XOR\n1 1 31955 31932 INV\n2 1 31968 31955 90601 XOR\n2 1 2136 90601 105932 XOR\n2 1 90601 84457 105994 XOR\n2 1 92618 31955 31931 XOR\n2 1 31931 31932 31930 AND\n2 1 31930 31955 31956 XOR\n2 1 31969 31956 90602 XOR\n2 1 2137 90602 105933 XOR\n2 1 90602 84458 105995 XOR\n1 1 31956 31935 INV\n2 1 92619 31956 31934 XOR\n2 1 31934 31935 31933 AND\n",
"2 1 31933 31956 31937 XOR\n2 1 92620 31937 90603 XOR\n2 1 2138 90603 105934 XOR\n2 1 90603 31937 31936 AND\n2 1 90603 84459 105996 XOR\n2 1 31936 31937 31939 XOR\n2 1 92621 31939 90604 XOR\n2 1 90604 31939 31938 AND\n2 1 31938 31939 31957 XOR\n1 1 31957 31942 INV\n2 1 92622 31957 31941 XOR\n2 1 31941 31942 31940 AND\n2 1 31940 31957 31944 XOR\n2 1 92623 31944 90606 XOR\n2 1 90606 31944 31943 AND\n2 1 31943 31944 31958 XOR\n1 1 31958 31947 INV\n2 1 31971 31958 90607 XOR\n2 1 90607 84463 106000 XOR\n2 1 2142 90607 105938 XOR\n2 1 90606 84462 105999 XOR\n2 1 2141 90606 105937 XOR\n2 1 31970 31957 90605 XOR\n2 1 2140 90605 105936 XOR\n2 1 90605 84461 105998 XOR\n2 1 90604 84460 105997 XOR\n2 1 92624 31958 31946 XOR\n2 1 31946 31947 31945 AND\n2 1 31945 31958 31959 XOR\n2 1 92625 31959 90608 XOR\n2 1 90608 84464 106001 XOR\n2 1 2143 90608 105939 XOR\n2 1 2139 90604 105935 XOR\n2 1 90600 84456 105993 XOR\n2 1 2135 90600 105931 XOR\n2 1 31966 31953 90597 XOR\n2 1 90597 105897 12875 XOR\n2 1 12874 12875 12873 AND\n2 1 12873 105897 105898 XOR\n2 1 105929 105898 2517 XOR\n2 1 90597 84453 105990 XOR\n2 1 90598 105898 12878 XOR\n2 1 2133 105898 12877 XOR\n2 1 12877 12878 12876 AND\n2 1 64612 2517 64580 AND\n2 1 64580 2581 98699 XOR\n2 1 12876 105898 105899 XOR\n2 1 90599 105899 12881 XOR\n2 1 2134 105899 12880 XOR\n2 1 12880 12881 12879 AND\n2 1 12879 105899 105900 XOR\n2 1 105931 105900 2519 XOR\n2 1 2135 105900 12883 XOR\n2 1 90600 105900 12884 XOR\n2 1 12883 12884 12882 AND\n2 1 12882 105900 105901 XOR\n2 1 2136 105901 12886 XOR\n2 1 105932 105901 2520 XOR\n2 1 90601 105901 12887 XOR\n2 1 12886 12887 12885 AND\n2 1 12885 105901 105902 XOR\n2 1 2137 105902 12889 XOR\n2 1 105933 105902 2521 XOR\n2 1 90602 105902 12890 XOR\n2 1 12889 12890 12888 AND\n2 1 12888 105902 105903 XOR\n2 1 105934 105903 2522 XOR\n2 1 2138 105903 12892 XOR\n2 1 90603 105903 12893 XOR\n2 1 12892 12893 12891 AND\n2 1 12891 105903 105904 XOR\n2 1 105935 105904 2523 XOR\n2 1 90604 105904 12896 XOR\n2 1 2139 105904 12895 XOR\n2 1 12895 12896 12894 AND\n2 1 12894 105904 105905 XOR\n2 1 2140 105905 12898 XOR\n2 1 105936 105905 2524 XOR\n2 1 105930 105899 2518 XOR\n2 1 90605 105905 12899 XOR\n2 1 12898 12899 12897 AND\n2 1 64619 2524 64587 AND\n2 1 64618 2523 64586 AND\n2 1 64617 2522 64585 AND\n2 1 64616 2521 64584 AND\n2 1 64615 2520 64583 AND\n2 1 64614 2519 64582 AND\n2 1 64613 2518 64581 AND\n2 1 64587 2588 98706 XOR\n2 1 64586 2587 98705 XOR\n2 1 64585 2586 98704 XOR\n2 1 64584 2585 98703 XOR\n2 1 64583 2584 98702 XOR\n2 1 64582 2583 98701 XOR\n2 1 64581 2582 98700 XOR\n2 1 12897 105905 105906 XOR\n2 1 90606 105906 12902 XOR\n2 1 2141 105906 12901 XOR\n2 1 12901 12902 12900 AND\n2 1 105937 105906 2525 XOR\n2 1 64620 2525 64588 AND\n2 1 64588 2589 98707 XOR\n2 1 2525 2557 64556 XOR\n2 1 2524 2556 64555 XOR\n2 1 2523 2555 64554 XOR\n2 1 2522 2554 64553 XOR\n2 1 2521 2553 64552 XOR\n2 1 2520 2552 64551 XOR\n2 1 2519 2551 64550 XOR\n2 1 2518 2550 64549 XOR\n2 1 2517 2549 64548 XOR\n2 1 12900 105906 105907 XOR\n2 1 105938 105907 2526 XOR\n2 1 2142 105907 12904 XOR\n2 1 90607 105907 12905 XOR\n2 1 12904 12905 12903 AND\n2 1 12903 105907 105908 XOR\n2 1 105939 105908 2527 XOR\n2 1 64622 2527 64590 AND\n2 1 64621 2526 64589 AND\n2 1 64590 2591 98709 XOR\n2 1 64589 2590 98708 XOR\n2 1 2527 2559 64558 XOR\n2 1 2526 2558 64557 XOR\n2 1 2132 90597 105928 XOR\n2 1 105928 105897 2516 XOR\n2 1 64611 2516 64579 AND\n2 1 64579 2580 98698 XOR\n",
"2 1 2516 2548 64547 XOR\n2 1 90585 105947 12928 XOR\n2 1 12928 12929 12927 AND\n2 1 12927 105947 105948 XOR\n2 1 90586 105948 12931 XOR\n2 1 84442 105948 12932 XOR\n2 1 12931 12932 12930 AND\n2 1 12930 105948 105949 XOR\n2 1 105980 105949 1994 XOR\n2 1 90587 105949 12934 XOR\n2 1 84443 105949 12935 XOR\n2 1 12934 12935 12933 AND\n2 1 12933 105949 105950 XOR\n2 1 105981 105950 1995 XOR\n2 1 90588 105950 12937 XOR\n2 1 84444 105950 12938 XOR\n2 1 12937 12938 12936 AND\n2 1 12936 105950 105951 XOR\n2 1 105982 105951 1996 XOR\n2 1 90589 105951 12940 XOR\n2 1 84445 105951 12941 XOR\n2 1 12940 12941 12939 AND\n2 1 12939 105951 105952 XOR\n2 1 105983 105952 1997 XOR\n2 1 90590 105952 12943 XOR\n2 1 84446 105952 12944 XOR\n2 1 12943 12944 12942 AND\n2 1 12942 105952 105953 XOR\n2 1 105984 105953 1998 XOR\n2 1 90591 105953 12946 XOR\n2 1 84447 105953 12947 XOR\n2 1 12946 12947 12945 AND\n2 1 12945 105953 105954 XOR\n2 1 105985 105954 1999 XOR\n2 1 90592 105954 12949 XOR\n2 1 84448 105954 12950 XOR\n2 1 12949 12950 12948 AND\n2 1 12948 105954 105955 XOR\n2 1 105986 105955 2000 XOR\n2 1 90593 105955 12952 XOR\n2 1 84449 105955 12953 XOR\n2 1 12952 12953 12951 AND\n2 1 12951 105955 105956 XOR\n2 1 105987 105956 2001 XOR\n2 1 90594 105956 12955 XOR\n2 1 84450 105956 12956 XOR\n2 1 12955 12956 12954 AND\n2 1 12954 105956 105957 XOR\n2 1 105988 105957 2002 XOR\n2 1 90595 105957 12958 XOR\n2 1 84451 105957 12959 XOR\n2 1 12958 12959 12957 AND\n2 1 12957 105957 105958 XOR\n2 1 105989 105958 2003 XOR\n2 1 90596 105958 12961 XOR\n2 1 84452 105958 12962 XOR\n2 1 12961 12962 12960 AND\n2 1 12960 105958 105959 XOR\n2 1 105990 105959 2004 XOR\n2 1 90597 105959 12964 XOR\n2 1 84453 105959 12965 XOR\n2 1 12964 12965 12963 AND\n2 1 12963 105959 105960 XOR\n2 1 105991 105960 2005 XOR\n2 1 90598 105960 12967 XOR\n2 1 84454 105960 12968 XOR\n2 1 12967 12968 12966 AND\n2 1 12966 105960 105961 XOR\n2 1 105992 105961 2006 XOR\n2 1 90599 105961 12970 XOR\n2 1 84455 105961 12971 XOR\n2 1 12970 12971 12969 AND\n2 1 12969 105961 105962 XOR\n2 1 105993 105962 2007 XOR\n2 1 90600 105962 12973 XOR\n2 1 84456 105962 12974 XOR\n2 1 12973 12974 12972 AND\n2 1 12972 105962 105963 XOR\n2 1 105994 105963 2008 XOR\n2 1 90601 105963 12976 XOR\n2 1 84457 105963 12977 XOR\n2 1 12976 12977 12975 AND\n2 1 12975 105963 105964 XOR\n2 1 105995 105964 2009 XOR\n2 1 90602 105964 12979 XOR\n2 1 84458 105964 12980 XOR\n2 1 12979 12980 12978 AND\n2 1 12978 105964 105965 XOR\n2 1 105996 105965 2010 XOR\n2 1 90603 105965 12982 XOR\n2 1 84459 105965 12983 XOR\n2 1 12982 12983 12981 AND\n2 1 12981 105965 105966 XOR\n2 1 105997 105966 2011 XOR\n2 1 90604 105966 12985 XOR\n2 1 84460 105966 12986 XOR\n2 1 12985 12986 12984 AND\n2 1 12984 105966 105967 XOR\n2 1 105998 105967 2012 XOR\n2 1 90605 105967 12988 XOR\n2 1 84461 105967 12989 XOR\n2 1 12988 12989 12987 AND\n2 1 12987 105967 105968 XOR\n2 1 105999 105968 2013 XOR\n2 1 90606 105968 12991 XOR\n2 1 84462 105968 12992 XOR\n2 1 12991 12992 12990 AND\n2 1 12990 105968 105969 XOR\n2 1 106000 105969 2014 XOR\n2 1 90607 105969 12994 XOR\n2 1 84463 105969 12995 XOR\n2 1 12994 12995 12993 AND\n2 1 12993 105969 105970 XOR\n2 1 106001 105970 2015 XOR\n2 1 2015 2079 71438 XOR\n2 1 2014 2078 71437 XOR\n2 1 2013 2077 71436 XOR\n2 1 2012 2076 71435 XOR\n2 1 2011 2075 71434 XOR\n2 1 2010 2074 71433 XOR\n2 1 2009 2073 71432 XOR\n2 1 2008 2072 71431 XOR\n2 1 2007 2071 71430 XOR\n2 1 2006 2070 71429 XOR\n2 1 2005 2069 71428 XOR\n2 1 2004 2068 71427 XOR\n2 1 2003 2067 71426 XOR\n2 1 2002 2066 71425 XOR\n",
"2 1 2001 2065 71424 XOR\n2 1 2000 2064 71423 XOR\n2 1 1999 2063 71422 XOR\n2 1 1998 2062 71421 XOR\n2 1 1997 2061 71420 XOR\n2 1 1996 2060 71419 XOR\n2 1 1995 2059 71418 XOR\n2 1 1994 2058 71417 XOR\n2 1 71438 71406 71374 AND\n2 1 71437 71405 71373 AND\n2 1 71436 71404 71372 AND\n2 1 71435 71403 71371 AND\n2 1 71434 71402 71370 AND\n2 1 71433 71401 71369 AND\n2 1 71432 71400 71368 AND\n2 1 71431 71399 71367 AND\n2 1 71430 71398 71366 AND\n2 1 71429 71397 71365 AND\n2 1 71428 71396 71364 AND\n2 1 71427 71395 71363 AND\n2 1 71426 71394 71362 AND\n2 1 71425 71393 71361 AND\n2 1 71424 71392 71360 AND\n2 1 71423 71391 71359 AND\n2 1 71422 71390 71358 AND\n2 1 71421 71389 71357 AND\n2 1 71420 71388 71356 AND\n2 1 71419 71387 71355 AND\n2 1 71418 71386 71354 AND\n2 1 71417 71385 71353 AND\n2 1 71374 2079 86480 XOR\n2 1 71373 2078 86479 XOR\n2 1 71372 2077 86478 XOR\n2 1 71371 2076 86477 XOR\n2 1 71370 2075 86476 XOR\n2 1 71369 2074 86475 XOR\n2 1 71368 2073 86474 XOR\n2 1 71367 2072 86473 XOR\n2 1 71366 2071 86472 XOR\n2 1 71365 2070 86471 XOR\n2 1 71364 2069 86470 XOR\n2 1 71363 2068 86469 XOR\n2 1 71362 2067 86468 XOR\n2 1 71361 2066 86467 XOR\n2 1 71360 2065 86466 XOR\n2 1 71359 2064 86465 XOR\n2 1 71358 2063 86464 XOR\n2 1 71357 2062 86463 XOR\n2 1 71356 2061 86462 XOR\n2 1 71355 2060 86461 XOR\n2 1 71354 2059 86460 XOR\n2 1 71353 2058 86459 XOR\n2 1 2015 2047 71310 XOR\n2 1 2014 2046 71309 XOR\n2 1 2013 2045 71308 XOR\n2 1 2012 2044 71307 XOR\n2 1 2011 2043 71306 XOR\n2 1 2010 2042 71305 XOR\n2 1 2009 2041 71304 XOR\n2 1 2008 2040 71303 XOR\n2 1 2007 2039 71302 XOR\n2 1 2006 2038 71301 XOR\n2 1 2005 2037 71300 XOR\n2 1 2004 2036 71299 XOR\n2 1 2003 2035 71298 XOR\n2 1 2002 2034 71297 XOR\n2 1 2001 2033 71296 XOR\n2 1 2000 2032 71295 XOR\n2 1 1999 2031 71294 XOR\n2 1 1998 2030 71293 XOR\n2 1 1997 2029 71292 XOR\n2 1 1996 2028 71291 XOR\n2 1 1995 2027 71290 XOR\n2 1 1994 2026 71289 XOR\n2 1 1985 1996 67630 XOR\n2 1 1984 1995 67629 XOR\n2 1 2015 1994 67628 XOR\n2 1 2013 1992 67626 XOR\n2 1 2012 1991 67625 XOR\n2 1 2010 1989 67623 XOR\n2 1 2009 1988 67622 XOR\n2 1 2008 1987 67621 XOR\n2 1 2007 1986 67620 XOR\n2 1 2006 1985 67619 XOR\n2 1 2005 1984 67618 XOR\n2 1 2004 2015 67617 XOR\n2 1 2003 2014 67616 XOR\n2 1 2002 2013 67615 XOR\n2 1 2001 2012 67614 XOR\n2 1 2000 2011 67613 XOR\n2 1 1999 2010 67612 XOR\n2 1 1998 2009 67611 XOR\n2 1 1997 2008 67610 XOR\n2 1 1996 2007 67609 XOR\n2 1 1995 2006 67608 XOR\n2 1 1994 2005 67607 XOR\n2 1 1992 2003 67605 XOR\n2 1 1991 2002 67604 XOR\n2 1 1989 2000 67602 XOR\n2 1 1988 1999 67601 XOR\n2 1 1987 1998 67600 XOR\n2 1 1986 1997 67599 XOR\n2 1 67630 2005 88528 XOR\n2 1 88528 86480 117143 XOR\n2 1 67629 2004 88527 XOR\n2 1 88527 86479 117142 XOR\n2 1 67628 2003 88526 XOR\n2 1 88526 86478 117141 XOR\n2 1 67626 2001 88524 XOR\n2 1 88524 86476 117139 XOR\n2 1 67625 2000 88523 XOR\n2 1 88523 86475 117138 XOR\n2 1 67623 1998 88521 XOR\n2 1 88521 86473 117136 XOR\n2 1 67622 1997 88520 XOR\n2 1 88520 86472 117135 XOR\n2 1 67621 1996 88519 XOR\n2 1 88519 86471 117134 XOR\n2 1 67620 1995 88518 XOR\n2 1 88518 86470 117133 XOR\n2 1 67619 1994 88517 XOR\n2 1 88517 86469 117132 XOR\n2 1 67617 1992 88515 XOR\n2 1 88515 86467 117130 XOR\n2 1 67616 1991 88514 XOR\n2 1 88514 86466 117129 XOR\n2 1 67614 1989 88512 XOR\n2 1 88512 86464 117127 XOR\n",
"2 1 67613 1988 88511 XOR\n2 1 88511 86463 117126 XOR\n2 1 67612 1987 88510 XOR\n2 1 88510 86462 117125 XOR\n2 1 67611 1986 88509 XOR\n2 1 88509 86461 117124 XOR\n2 1 67610 1985 88508 XOR\n2 1 88508 86460 117123 XOR\n2 1 67609 1984 88507 XOR\n2 1 88507 86459 117122 XOR\n2 1 67608 2015 88506 XOR\n2 1 67607 2014 88505 XOR\n2 1 88505 86457 117120 XOR\n2 1 67605 2012 88503 XOR\n2 1 67604 2011 88502 XOR\n2 1 67602 2009 88500 XOR\n2 1 67601 2008 88499 XOR\n2 1 88499 86451 117114 XOR\n2 1 67600 2007 88498 XOR\n2 1 88498 86450 117113 XOR\n2 1 67599 2006 88497 XOR\n2 1 88497 86449 117082 AND\n2 1 117113 117082 84402 XOR\n2 1 88498 117082 31347 XOR\n2 1 86450 117082 31348 XOR\n2 1 31347 31348 31346 AND\n2 1 31346 117082 117083 XOR\n2 1 117114 117083 84403 XOR\n2 1 88499 117083 31350 XOR\n2 1 86451 117083 31351 XOR\n2 1 31350 31351 31349 AND\n2 1 31349 117083 117084 XOR\n2 1 88500 117084 31353 XOR\n2 1 86452 117084 31354 XOR\n2 1 31353 31354 31352 AND\n2 1 31352 117084 117085 XOR\n2 1 88497 86449 84401 XOR\n2 1 86453 117085 31357 XOR\n2 1 88502 86454 117117 XOR\n2 1 88500 86452 117115 XOR\n2 1 117115 117084 84404 XOR\n2 1 105979 105948 1993 XOR\n2 1 1993 2057 71416 XOR\n2 1 71416 71384 71352 AND\n2 1 71352 2057 86458 XOR\n2 1 88506 86458 117121 XOR\n2 1 1993 2025 71288 XOR\n2 1 2014 1993 67627 XOR\n2 1 1993 2004 67606 XOR\n2 1 67627 2002 88525 XOR\n2 1 88525 86477 117140 XOR\n2 1 67618 1993 88516 XOR\n2 1 88516 86468 117131 XOR\n2 1 67606 2013 88504 XOR\n2 1 88504 86456 117119 XOR\n2 1 2501 2506 61710 XOR\n2 1 2500 2505 61709 XOR\n2 1 2499 2504 61708 XOR\n2 1 2498 2503 61707 XOR\n2 1 2497 2502 61706 XOR\n2 1 2496 2501 61705 XOR\n2 1 2527 2500 61704 XOR\n2 1 2526 2499 61703 XOR\n2 1 2525 2498 61702 XOR\n2 1 2524 2497 61701 XOR\n2 1 2523 2496 61700 XOR\n2 1 2522 2527 61699 XOR\n2 1 2521 2526 61698 XOR\n2 1 2520 2525 61697 XOR\n2 1 2519 2524 61696 XOR\n2 1 2518 2523 61695 XOR\n2 1 2517 2522 61694 XOR\n2 1 2516 2521 61693 XOR\n2 1 2515 2520 61692 XOR\n2 1 2514 2519 61691 XOR\n2 1 2513 2518 61690 XOR\n2 1 2512 2517 61689 XOR\n2 1 2511 2516 61688 XOR\n2 1 2510 2515 61687 XOR\n2 1 2509 2514 61686 XOR\n2 1 2508 2513 61685 XOR\n2 1 2507 2512 61684 XOR\n2 1 2506 2511 61683 XOR\n2 1 2505 2510 61682 XOR\n2 1 2504 2509 61681 XOR\n2 1 2503 2508 61680 XOR\n2 1 2502 2507 61679 XOR\n2 1 61710 2520 100757 XOR\n2 1 100757 98709 117343 XOR\n2 1 61709 2519 100756 XOR\n2 1 100756 98708 117342 XOR\n2 1 61708 2518 100755 XOR\n2 1 100755 98707 117341 XOR\n2 1 61707 2517 100754 XOR\n2 1 100754 98706 117340 XOR\n2 1 61706 2516 100753 XOR\n2 1 100753 98705 117339 XOR\n2 1 61705 2515 100752 XOR\n2 1 100752 98704 117338 XOR\n2 1 61704 2514 100751 XOR\n2 1 100751 98703 117337 XOR\n2 1 61703 2513 100750 XOR\n2 1 100750 98702 117336 XOR\n2 1 61702 2512 100749 XOR\n2 1 100749 98701 117335 XOR\n2 1 61701 2511 100748 XOR\n2 1 100748 98700 117334 XOR\n2 1 61700 2510 100747 XOR\n2 1 100747 98699 117333 XOR\n2 1 61699 2509 100746 XOR\n2 1 100746 98698 117332 XOR\n2 1 61698 2508 100745 XOR\n2 1 100745 98697 117331 XOR\n2 1 61697 2507 100744 XOR\n2 1 100744 98696 117330 XOR\n2 1 61696 2506 100743 XOR\n2 1 100743 98695 117329 XOR\n2 1 61695 2505 100742 XOR\n2 1 100742 98694 117328 XOR\n2 1 61694 2504 100741 XOR\n2 1 100741 98693 117327 XOR\n2 1 61693 2503 100740 XOR\n2 1 100740 98692 117326 XOR\n2 1 61692 2502 100739 XOR\n2 1 100739 98691 117325 XOR\n2 1 61691 2501 100738 XOR\n2 1 100738 98690 117324 XOR\n2 1 61690 2500 100737 XOR\n",
"2 1 100737 98689 117323 XOR\n2 1 61689 2499 100736 XOR\n2 1 100736 98688 117322 XOR\n2 1 61688 2498 100735 XOR\n2 1 100735 98687 117321 XOR\n2 1 61687 2497 100734 XOR\n2 1 100734 98686 117320 XOR\n2 1 61686 2496 100733 XOR\n2 1 100733 98685 117319 XOR\n2 1 61685 2527 100732 XOR\n2 1 100732 98684 117318 XOR\n2 1 61684 2526 100731 XOR\n2 1 61683 2525 100730 XOR\n2 1 100730 98682 117316 XOR\n2 1 61682 2524 100729 XOR\n2 1 61681 2523 100728 XOR\n2 1 100728 98680 117314 XOR\n2 1 61680 2522 100727 XOR\n2 1 61679 2521 100726 XOR\n2 1 100726 98678 96630 XOR\n2 1 96630 94582 117158 AND\n2 1 96630 94582 90545 XOR\n2 1 90545 84401 105816 AND\n2 1 2080 90545 2464 XOR\n2 1 2080 90545 105754 AND\n2 1 2081 105754 12637 XOR\n2 1 84402 105816 12728 XOR\n2 1 94583 117158 31519 XOR\n2 1 90545 84401 1952 XOR\n2 1 1952 2016 71311 XOR\n2 1 71311 71279 71247 AND\n2 1 71247 2016 86417 XOR\n2 1 1952 1984 71183 XOR\n2 1 64527 2464 64495 AND\n2 1 64495 2528 98646 XOR\n2 1 2464 2496 64463 XOR\n2 1 100726 98678 117282 AND\n2 1 98679 117282 31699 XOR\n2 1 100727 117282 31698 XOR\n2 1 31698 31699 31697 AND\n2 1 31697 117282 117283 XOR\n2 1 100728 117283 31701 XOR\n2 1 98680 117283 31702 XOR\n2 1 117314 117283 96632 XOR\n2 1 96632 94584 117190 XOR\n2 1 31701 31702 31700 AND\n2 1 31700 117283 117284 XOR\n2 1 98681 117284 31705 XOR\n2 1 100729 117284 31704 XOR\n2 1 31704 31705 31703 AND\n2 1 31703 117284 117285 XOR\n2 1 117316 117285 96634 XOR\n2 1 100730 117285 31707 XOR\n2 1 98682 117285 31708 XOR\n2 1 31707 31708 31706 AND\n2 1 31706 117285 117286 XOR\n2 1 100731 117286 31710 XOR\n2 1 98683 117286 31711 XOR\n2 1 31710 31711 31709 AND\n2 1 31709 117286 117287 XOR\n2 1 117318 117287 96636 XOR\n2 1 96634 94586 117192 XOR\n2 1 96636 94588 117194 XOR\n2 1 98684 117287 31714 XOR\n2 1 100732 117287 31713 XOR\n2 1 31713 31714 31712 AND\n2 1 31712 117287 117288 XOR\n2 1 98685 117288 31717 XOR\n2 1 117319 117288 96637 XOR\n2 1 100733 117288 31716 XOR\n2 1 31716 31717 31715 AND\n2 1 31715 117288 117289 XOR\n2 1 100734 117289 31719 XOR\n2 1 117320 117289 96638 XOR\n2 1 96638 94590 117196 XOR\n2 1 96637 94589 117195 XOR\n2 1 98686 117289 31720 XOR\n2 1 31719 31720 31718 AND\n2 1 31718 117289 117290 XOR\n2 1 98687 117290 31723 XOR\n2 1 100735 117290 31722 XOR\n2 1 31722 31723 31721 AND\n2 1 31721 117290 117291 XOR\n2 1 98688 117291 31726 XOR\n2 1 100736 117291 31725 XOR\n2 1 31725 31726 31724 AND\n2 1 117322 117291 96640 XOR\n2 1 31724 117291 117292 XOR\n2 1 117323 117292 96641 XOR\n2 1 96641 94593 117199 XOR\n2 1 98689 117292 31729 XOR\n2 1 100737 117292 31728 XOR\n2 1 31728 31729 31727 AND\n2 1 31727 117292 117293 XOR\n2 1 98690 117293 31732 XOR\n2 1 117324 117293 96642 XOR\n2 1 96642 94594 117200 XOR\n2 1 96640 94592 117198 XOR\n2 1 100738 117293 31731 XOR\n2 1 31731 31732 31730 AND\n2 1 31730 117293 117294 XOR\n2 1 117325 117294 96643 XOR\n2 1 96643 94595 117201 XOR\n2 1 100739 117294 31734 XOR\n2 1 98691 117294 31735 XOR\n2 1 31734 31735 31733 AND\n2 1 31733 117294 117295 XOR\n2 1 100740 117295 31737 XOR\n2 1 117326 117295 96644 XOR\n2 1 98692 117295 31738 XOR\n2 1 31737 31738 31736 AND\n2 1 31736 117295 117296 XOR\n2 1 98693 117296 31741 XOR\n2 1 117327 117296 96645 XOR\n2 1 96645 94597 117203 XOR\n2 1 100741 117296 31740 XOR\n2 1 31740 31741 31739 AND\n2 1 31739 117296 117297 XOR\n2 1 117328 117297 96646 XOR\n2 1 96646 94598 117204 XOR\n2 1 100742 117297 31743 XOR\n2 1 98694 117297 31744 XOR\n2 1 31743 31744 31742 AND\n2 1 31742 117297 117298 XOR\n2 1 100743 117298 31746 XOR\n2 1 98695 117298 31747 XOR\n2 1 31746 31747 31745 AND\n2 1 31745 117298 117299 XOR\n",
"2 1 100744 117299 31749 XOR\n2 1 117330 117299 96648 XOR\n2 1 96648 94600 117206 XOR\n2 1 98696 117299 31750 XOR\n2 1 31749 31750 31748 AND\n2 1 31748 117299 117300 XOR\n2 1 98697 117300 31753 XOR\n2 1 117331 117300 96649 XOR\n2 1 96649 94601 117207 XOR\n2 1 117329 117298 96647 XOR\n2 1 96647 94599 117205 XOR\n2 1 100745 117300 31752 XOR\n2 1 31752 31753 31751 AND\n2 1 31751 117300 117301 XOR\n2 1 98698 117301 31756 XOR\n2 1 117332 117301 96650 XOR\n2 1 96650 94602 117208 XOR\n2 1 100746 117301 31755 XOR\n2 1 31755 31756 31754 AND\n2 1 31754 117301 117302 XOR\n2 1 100747 117302 31758 XOR\n2 1 117333 117302 96651 XOR\n2 1 96651 94603 117209 XOR\n2 1 98699 117302 31759 XOR\n2 1 31758 31759 31757 AND\n2 1 31757 117302 117303 XOR\n2 1 98700 117303 31762 XOR\n2 1 100748 117303 31761 XOR\n2 1 31761 31762 31760 AND\n2 1 31760 117303 117304 XOR\n2 1 100749 117304 31764 XOR\n2 1 117335 117304 96653 XOR\n2 1 96653 94605 117211 XOR\n2 1 98701 117304 31765 XOR\n2 1 31764 31765 31763 AND\n2 1 31763 117304 117305 XOR\n2 1 117336 117305 96654 XOR\n2 1 96654 94606 117212 XOR\n2 1 100750 117305 31767 XOR\n2 1 98702 117305 31768 XOR\n2 1 31767 31768 31766 AND\n2 1 31766 117305 117306 XOR\n2 1 98703 117306 31771 XOR\n2 1 117337 117306 96655 XOR\n2 1 96655 94607 117213 XOR\n2 1 100751 117306 31770 XOR\n2 1 31770 31771 31769 AND\n2 1 31769 117306 117307 XOR\n2 1 117338 117307 96656 XOR\n2 1 96656 94608 117214 XOR\n2 1 117334 117303 96652 XOR\n2 1 96652 94604 117210 XOR\n2 1 98704 117307 31774 XOR\n2 1 100752 117307 31773 XOR\n2 1 31773 31774 31772 AND\n2 1 31772 117307 117308 XOR\n2 1 98705 117308 31777 XOR\n2 1 100753 117308 31776 XOR\n2 1 117339 117308 96657 XOR\n2 1 96657 94609 117215 XOR\n2 1 31776 31777 31775 AND\n2 1 31775 117308 117309 XOR\n2 1 98706 117309 31780 XOR\n2 1 117340 117309 96658 XOR\n2 1 96658 94610 117216 XOR\n2 1 100754 117309 31779 XOR\n2 1 31779 31780 31778 AND\n2 1 31778 117309 117310 XOR\n2 1 98707 117310 31783 XOR\n2 1 117341 117310 96659 XOR\n2 1 100755 117310 31782 XOR\n2 1 31782 31783 31781 AND\n2 1 31781 117310 117311 XOR\n2 1 100756 117311 31785 XOR\n2 1 117342 117311 96660 XOR\n2 1 96660 94612 117218 XOR\n2 1 98708 117311 31786 XOR\n2 1 31785 31786 31784 AND\n2 1 31784 117311 117312 XOR\n2 1 117343 117312 96661 XOR\n2 1 96661 94613 117219 XOR\n2 1 96659 94611 117217 XOR\n2 1 117321 117290 96639 XOR\n2 1 96639 94591 117197 XOR\n2 1 96644 94596 117202 XOR\n2 1 100727 98679 117313 XOR\n2 1 117313 117282 96631 XOR\n2 1 96631 117158 31518 XOR\n2 1 31518 31519 31517 AND\n2 1 31517 117158 117159 XOR\n2 1 117190 117159 92564 XOR\n1 1 92564 90547 INV\n2 1 2082 90547 105786 XOR\n2 1 90547 84403 105848 XOR\n2 1 96632 117159 31521 XOR\n2 1 96631 94583 117189 XOR\n2 1 117189 117158 90546 XOR\n2 1 2081 90546 105785 XOR\n2 1 105785 105754 2465 XOR\n2 1 90546 105754 12638 XOR\n2 1 12637 12638 12636 AND\n2 1 12636 105754 105755 XOR\n2 1 90547 105755 12641 XOR\n2 1 105786 105755 2466 XOR\n2 1 2082 105755 12640 XOR\n2 1 12640 12641 12639 AND\n2 1 12639 105755 105756 XOR\n2 1 90546 84402 105847 XOR\n2 1 105847 105816 1953 XOR\n2 1 2083 105756 12643 XOR\n2 1 1953 2017 71312 XOR\n2 1 71312 71280 71248 AND\n2 1 71248 2017 86418 XOR\n2 1 1953 1985 71184 XOR\n2 1 90546 105816 12727 XOR\n2 1 12727 12728 12726 AND\n2 1 12726 105816 105817 XOR\n2 1 90547 105817 12730 XOR\n2 1 84403 105817 12731 XOR\n2 1 12730 12731 12729 AND\n2 1 12729 105817 105818 XOR\n2 1 84404 105818 12734 XOR\n2 1 105848 105817 1954 XOR\n2 1 1954 2018 71313 XOR\n2 1 71313 71281 71249 AND\n2 1 71249 2018 86419 XOR\n2 1 1954 1986 71185 XOR\n2 1 64529 2466 64497 AND\n",
"2 1 64528 2465 64496 AND\n2 1 64497 2530 98648 XOR\n2 1 64496 2529 98647 XOR\n2 1 2466 2498 64465 XOR\n2 1 2465 2497 64464 XOR\n2 1 94584 117159 31522 XOR\n2 1 31521 31522 31520 AND\n2 1 31520 117159 117160 XOR\n2 1 94585 117160 31525 XOR\n2 1 100729 98681 117315 XOR\n2 1 117315 117284 96633 XOR\n2 1 96633 94585 117191 XOR\n2 1 117191 117160 92565 XOR\n2 1 92565 92564 90548 XOR\n2 1 90548 84404 105849 XOR\n2 1 2083 90548 105787 XOR\n2 1 105787 105756 2467 XOR\n2 1 90548 92564 31436 AND\n2 1 31436 92564 117144 XOR\n1 1 117144 31439 INV\n2 1 90548 105818 12733 XOR\n2 1 105849 105818 1955 XOR\n2 1 12733 12734 12732 AND\n2 1 12732 105818 105819 XOR\n2 1 1955 2019 71314 XOR\n2 1 71314 71282 71250 AND\n2 1 71250 2019 86420 XOR\n2 1 1955 1987 71186 XOR\n2 1 90548 105756 12644 XOR\n2 1 12643 12644 12642 AND\n2 1 12642 105756 105757 XOR\n2 1 2084 105757 12646 XOR\n2 1 64530 2467 64498 AND\n2 1 64498 2531 98649 XOR\n2 1 2467 2499 64466 XOR\n2 1 96633 117160 31524 XOR\n2 1 31524 31525 31523 AND\n2 1 31523 117160 117161 XOR\n2 1 117192 117161 92566 XOR\n2 1 92566 117144 31438 XOR\n2 1 31438 31439 31437 AND\n2 1 31437 117144 31441 XOR\n1 1 92566 31504 INV\n2 1 31504 117144 90549 XOR\n2 1 2084 90549 105788 XOR\n2 1 90549 105757 12647 XOR\n2 1 12646 12647 12645 AND\n2 1 12645 105757 105758 XOR\n2 1 2085 105758 12649 XOR\n2 1 105788 105757 2468 XOR\n2 1 90549 105819 12736 XOR\n2 1 64531 2468 64499 AND\n2 1 64499 2532 98650 XOR\n2 1 2468 2500 64467 XOR\n2 1 96634 117161 31527 XOR\n2 1 94586 117161 31528 XOR\n2 1 31527 31528 31526 AND\n2 1 31526 117161 117162 XOR\n2 1 94587 117162 31531 XOR\n2 1 100731 98683 117317 XOR\n2 1 117317 117286 96635 XOR\n2 1 96635 94587 117193 XOR\n2 1 117193 117162 92567 XOR\n2 1 92567 31441 90550 XOR\n2 1 90550 105758 12650 XOR\n2 1 12649 12650 12648 AND\n2 1 12648 105758 105759 XOR\n2 1 2086 105759 12652 XOR\n2 1 2085 90550 105789 XOR\n2 1 105789 105758 2469 XOR\n2 1 90550 31441 31440 AND\n2 1 31440 31441 117145 XOR\n2 1 64532 2469 64500 AND\n2 1 64500 2533 98651 XOR\n2 1 2469 2501 64468 XOR\n1 1 117145 31444 INV\n2 1 96635 117162 31530 XOR\n2 1 31530 31531 31529 AND\n2 1 31529 117162 117163 XOR\n2 1 117194 117163 92568 XOR\n1 1 92568 31505 INV\n2 1 31505 117145 90551 XOR\n2 1 2086 90551 105790 XOR\n2 1 92568 117145 31443 XOR\n2 1 31443 31444 31442 AND\n2 1 31442 117145 31446 XOR\n2 1 105790 105759 2470 XOR\n2 1 64533 2470 64501 AND\n2 1 64501 2534 98652 XOR\n2 1 2470 2502 64469 XOR\n2 1 96636 117163 31533 XOR\n2 1 94588 117163 31534 XOR\n2 1 31533 31534 31532 AND\n2 1 31532 117163 117164 XOR\n2 1 117195 117164 92569 XOR\n2 1 92569 31446 90552 XOR\n2 1 90552 31446 31445 AND\n2 1 31445 31446 117146 XOR\n1 1 117146 31449 INV\n2 1 2087 90552 105791 XOR\n2 1 96637 117164 31536 XOR\n2 1 94589 117164 31537 XOR\n2 1 31536 31537 31535 AND\n2 1 31535 117164 117165 XOR\n2 1 117196 117165 92570 XOR\n1 1 92570 31506 INV\n2 1 31506 117146 90553 XOR\n2 1 2088 90553 105792 XOR\n2 1 92570 117146 31448 XOR\n2 1 31448 31449 31447 AND\n2 1 31447 117146 117147 XOR\n1 1 117147 31452 INV\n2 1 96638 117165 31539 XOR\n2 1 94590 117165 31540 XOR\n2 1 31539 31540 31538 AND\n2 1 31538 117165 117166 XOR\n2 1 94591 117166 31543 XOR\n2 1 117197 117166 92571 XOR\n2 1 92571 117147 31451 XOR\n2 1 31451 31452 31450 AND\n2 1 31450 117147 31454 XOR\n1 1 92571 31507 INV\n2 1 31507 117147 90554 XOR\n2 1 2089 90554 105793 XOR\n2 1 96639 117166 31542 XOR\n2 1 31542 31543 31541 AND\n2 1 31541 117166 117167 XOR\n2 1 96640 117167 31545 XOR\n",
"2 1 117198 117167 92572 XOR\n2 1 92572 31454 90555 XOR\n2 1 2090 90555 105794 XOR\n2 1 90555 31454 31453 AND\n2 1 31453 31454 31456 XOR\n2 1 94592 117167 31546 XOR\n2 1 31545 31546 31544 AND\n2 1 31544 117167 117168 XOR\n2 1 117199 117168 92573 XOR\n2 1 94593 117168 31549 XOR\n2 1 92573 31456 90556 XOR\n2 1 90556 31456 31455 AND\n2 1 31455 31456 117148 XOR\n1 1 117148 31459 INV\n2 1 2091 90556 105795 XOR\n2 1 96641 117168 31548 XOR\n2 1 31548 31549 31547 AND\n2 1 31547 117168 117169 XOR\n2 1 96642 117169 31551 XOR\n2 1 117200 117169 92574 XOR\n1 1 92574 31508 INV\n2 1 31508 117148 90557 XOR\n2 1 2092 90557 105796 XOR\n2 1 92574 117148 31458 XOR\n2 1 31458 31459 31457 AND\n2 1 31457 117148 117149 XOR\n1 1 117149 31462 INV\n2 1 94594 117169 31552 XOR\n2 1 31551 31552 31550 AND\n2 1 31550 117169 117170 XOR\n2 1 94595 117170 31555 XOR\n2 1 117201 117170 92575 XOR\n1 1 92575 31509 INV\n2 1 92575 117149 31461 XOR\n2 1 31461 31462 31460 AND\n2 1 31460 117149 117150 XOR\n1 1 117150 31465 INV\n2 1 31509 117149 90558 XOR\n2 1 2093 90558 105797 XOR\n2 1 96643 117170 31554 XOR\n2 1 31554 31555 31553 AND\n2 1 31553 117170 117171 XOR\n2 1 96644 117171 31557 XOR\n2 1 117202 117171 92576 XOR\n1 1 92576 31510 INV\n2 1 92576 117150 31464 XOR\n2 1 31510 117150 90559 XOR\n2 1 2094 90559 105798 XOR\n2 1 31464 31465 31463 AND\n2 1 31463 117150 31467 XOR\n2 1 94596 117171 31558 XOR\n2 1 31557 31558 31556 AND\n2 1 31556 117171 117172 XOR\n2 1 94597 117172 31561 XOR\n2 1 117203 117172 92577 XOR\n2 1 92577 31467 90560 XOR\n2 1 2095 90560 105799 XOR\n2 1 90560 31467 31466 AND\n2 1 31466 31467 31469 XOR\n2 1 96645 117172 31560 XOR\n2 1 31560 31561 31559 AND\n2 1 31559 117172 117173 XOR\n2 1 96646 117173 31563 XOR\n2 1 117204 117173 92578 XOR\n2 1 92578 31469 90561 XOR\n2 1 2096 90561 105800 XOR\n2 1 90561 31469 31468 AND\n2 1 31468 31469 117151 XOR\n1 1 117151 31472 INV\n2 1 94598 117173 31564 XOR\n2 1 31563 31564 31562 AND\n2 1 31562 117173 117174 XOR\n2 1 94599 117174 31567 XOR\n2 1 117205 117174 92579 XOR\n2 1 92579 117151 31471 XOR\n1 1 92579 31511 INV\n2 1 31511 117151 90562 XOR\n2 1 2097 90562 105801 XOR\n2 1 31471 31472 31470 AND\n2 1 31470 117151 31474 XOR\n2 1 96647 117174 31566 XOR\n2 1 31566 31567 31565 AND\n2 1 31565 117174 117175 XOR\n2 1 96648 117175 31569 XOR\n2 1 117206 117175 92580 XOR\n2 1 92580 31474 90563 XOR\n2 1 90563 31474 31473 AND\n2 1 31473 31474 117152 XOR\n1 1 117152 31477 INV\n2 1 2098 90563 105802 XOR\n2 1 94600 117175 31570 XOR\n2 1 31569 31570 31568 AND\n2 1 31568 117175 117176 XOR\n2 1 117207 117176 92581 XOR\n2 1 94601 117176 31573 XOR\n2 1 92581 117152 31476 XOR\n1 1 92581 31512 INV\n2 1 31512 117152 90564 XOR\n2 1 2099 90564 105803 XOR\n2 1 31476 31477 31475 AND\n2 1 31475 117152 31479 XOR\n2 1 96649 117176 31572 XOR\n2 1 31572 31573 31571 AND\n2 1 31571 117176 117177 XOR\n2 1 96650 117177 31575 XOR\n2 1 117208 117177 92582 XOR\n2 1 92582 31479 90565 XOR\n2 1 2100 90565 105804 XOR\n2 1 90565 31479 31478 AND\n2 1 31478 31479 31481 XOR\n2 1 94602 117177 31576 XOR\n2 1 31575 31576 31574 AND\n2 1 31574 117177 117178 XOR\n2 1 94603 117178 31579 XOR\n2 1 117209 117178 92583 XOR\n2 1 92583 31481 90566 XOR\n2 1 2101 90566 105805 XOR\n2 1 90566 31481 31480 AND\n2 1 31480 31481 31483 XOR\n2 1 96651 117178 31578 XOR\n2 1 31578 31579 31577 AND\n2 1 31577 117178 117179 XOR\n2 1 94604 117179 31582 XOR\n2 1 117210 117179 92584 XOR\n2 1 92584 31483 90567 XOR\n2 1 2102 90567 105806 XOR\n2 1 96652 117179 31581 XOR\n2 1 31581 31582 31580 AND\n",
"2 1 31580 117179 117180 XOR\n2 1 117211 117180 92585 XOR\n2 1 96653 117180 31584 XOR\n2 1 90567 31483 31482 AND\n2 1 31482 31483 31485 XOR\n2 1 92585 31485 90568 XOR\n2 1 90568 31485 31484 AND\n2 1 31484 31485 117153 XOR\n1 1 117153 31488 INV\n2 1 2103 90568 105807 XOR\n2 1 94605 117180 31585 XOR\n2 1 31584 31585 31583 AND\n2 1 31583 117180 117181 XOR\n2 1 96654 117181 31587 XOR\n2 1 94606 117181 31588 XOR\n2 1 31587 31588 31586 AND\n2 1 31586 117181 117182 XOR\n2 1 96655 117182 31590 XOR\n2 1 117213 117182 92587 XOR\n2 1 94607 117182 31591 XOR\n2 1 31590 31591 31589 AND\n2 1 31589 117182 117183 XOR\n2 1 117214 117183 92588 XOR\n2 1 94608 117183 31594 XOR\n2 1 96656 117183 31593 XOR\n2 1 31593 31594 31592 AND\n2 1 31592 117183 117184 XOR\n2 1 117215 117184 92589 XOR\n2 1 94609 117184 31597 XOR\n2 1 96657 117184 31596 XOR\n2 1 31596 31597 31595 AND\n2 1 31595 117184 117185 XOR\n2 1 96658 117185 31599 XOR\n2 1 117216 117185 92590 XOR\n2 1 94610 117185 31600 XOR\n2 1 31599 31600 31598 AND\n2 1 31598 117185 117186 XOR\n2 1 96659 117186 31602 XOR\n2 1 117217 117186 92591 XOR\n1 1 92591 31515 INV\n2 1 117212 117181 92586 XOR\n1 1 92586 31513 INV\n2 1 92586 117153 31487 XOR\n2 1 31487 31488 31486 AND\n2 1 31486 117153 31490 XOR\n2 1 92587 31490 90570 XOR\n2 1 2105 90570 105809 XOR\n2 1 90570 31490 31489 AND\n2 1 31489 31490 117154 XOR\n2 1 92588 117154 31492 XOR\n1 1 117154 31493 INV\n2 1 31513 117153 90569 XOR\n2 1 2104 90569 105808 XOR\n2 1 31492 31493 31491 AND\n2 1 31491 117154 31495 XOR\n2 1 92589 31495 90572 XOR\n2 1 90572 31495 31494 AND\n2 1 31494 31495 31497 XOR\n2 1 92590 31497 90573 XOR\n2 1 90573 31497 31496 AND\n2 1 31496 31497 117155 XOR\n2 1 31515 117155 90574 XOR\n1 1 117155 31500 INV\n2 1 92591 117155 31499 XOR\n2 1 31499 31500 31498 AND\n2 1 31498 117155 117156 XOR\n2 1 2109 90574 105813 XOR\n1 1 117156 31503 INV\n2 1 2108 90573 105812 XOR\n2 1 2107 90572 105811 XOR\n1 1 92588 31514 INV\n2 1 31514 117154 90571 XOR\n2 1 2106 90571 105810 XOR\n2 1 94611 117186 31603 XOR\n2 1 31602 31603 31601 AND\n2 1 31601 117186 117187 XOR\n2 1 96660 117187 31605 XOR\n2 1 117218 117187 92592 XOR\n2 1 92592 117156 31502 XOR\n1 1 92592 31516 INV\n2 1 31516 117156 90575 XOR\n2 1 2110 90575 105814 XOR\n2 1 31502 31503 31501 AND\n2 1 31501 117156 117157 XOR\n2 1 94612 117187 31606 XOR\n2 1 31605 31606 31604 AND\n2 1 31604 117187 117188 XOR\n2 1 117219 117188 92593 XOR\n2 1 92593 117157 90576 XOR\n2 1 2111 90576 105815 XOR\n2 1 90551 105759 12653 XOR\n2 1 12652 12653 12651 AND\n2 1 12651 105759 105760 XOR\n2 1 2087 105760 12655 XOR\n2 1 105791 105760 2471 XOR\n2 1 90552 105760 12656 XOR\n2 1 12655 12656 12654 AND\n2 1 12654 105760 105761 XOR\n2 1 105792 105761 2472 XOR\n2 1 2088 105761 12658 XOR\n2 1 90553 105761 12659 XOR\n2 1 12658 12659 12657 AND\n2 1 12657 105761 105762 XOR\n2 1 2089 105762 12661 XOR\n2 1 90554 105762 12662 XOR\n2 1 105793 105762 2473 XOR\n2 1 12661 12662 12660 AND\n2 1 12660 105762 105763 XOR\n2 1 105794 105763 2474 XOR\n2 1 90555 105763 12665 XOR\n2 1 2090 105763 12664 XOR\n2 1 12664 12665 12663 AND\n2 1 12663 105763 105764 XOR\n2 1 90556 105764 12668 XOR\n2 1 105795 105764 2475 XOR\n2 1 64538 2475 64506 AND\n2 1 64537 2474 64505 AND\n2 1 64536 2473 64504 AND\n2 1 64535 2472 64503 AND\n2 1 64534 2471 64502 AND\n2 1 64506 2539 98657 XOR\n2 1 64505 2538 98656 XOR\n2 1 64504 2537 98655 XOR\n2 1 64503 2536 98654 XOR\n2 1 64502 2535 98653 XOR\n2 1 2475 2507 64474 XOR\n2 1 2474 2506 64473 XOR\n2 1 2473 2505 64472 XOR\n",
"2 1 2472 2504 64471 XOR\n2 1 2471 2503 64470 XOR\n2 1 2469 2474 61678 XOR\n2 1 2468 2473 61677 XOR\n2 1 2467 2472 61676 XOR\n2 1 2466 2471 61675 XOR\n2 1 2465 2470 61674 XOR\n2 1 2464 2469 61673 XOR\n2 1 2470 2475 61647 XOR\n2 1 76513 76515 81328 XOR\n2 1 81328 76688 131430 XOR\n2 1 76512 76514 81327 XOR\n2 1 81327 76687 131429 XOR\n2 1 76511 76513 81326 XOR\n2 1 81326 76686 131428 XOR\n2 1 76510 76512 81325 XOR\n2 1 81325 76685 131427 XOR\n2 1 76509 76511 81324 XOR\n2 1 81324 76684 131426 XOR\n2 1 76508 76510 81323 XOR\n2 1 81323 76683 131425 XOR\n2 1 76507 76509 81322 XOR\n2 1 81322 76682 131424 XOR\n2 1 76506 76508 81321 XOR\n2 1 81321 76681 131423 XOR\n2 1 76505 76507 81320 XOR\n2 1 81320 76680 131422 XOR\n2 1 76504 76506 81319 XOR\n2 1 81319 76679 131421 XOR\n2 1 76503 76505 6705 XOR\n2 1 76502 76504 6704 XOR\n2 1 76501 76503 6703 XOR\n2 1 76500 76502 6702 XOR\n2 1 76499 76501 6701 XOR\n2 1 76498 76500 6700 XOR\n2 1 76497 76499 6699 XOR\n2 1 76528 76498 6698 XOR\n2 1 76527 76497 6697 XOR\n2 1 76526 76528 6696 XOR\n2 1 76525 76527 6695 XOR\n2 1 76524 76526 6694 XOR\n2 1 76523 76525 6693 XOR\n2 1 76522 76524 6692 XOR\n2 1 76521 76523 6691 XOR\n2 1 76520 76522 6690 XOR\n2 1 76519 76521 6689 XOR\n2 1 76518 76520 6688 XOR\n2 1 76517 76519 6687 XOR\n2 1 76516 76518 6686 XOR\n2 1 76515 76517 6685 XOR\n2 1 76514 76516 6684 XOR\n2 1 6705 76528 81318 XOR\n2 1 81318 76678 131420 XOR\n2 1 6704 76527 81317 XOR\n2 1 81317 76677 131419 XOR\n2 1 6703 76526 81316 XOR\n2 1 81316 76676 131418 XOR\n2 1 6702 76525 81315 XOR\n2 1 81315 76675 131417 XOR\n2 1 6701 76524 81314 XOR\n2 1 81314 76674 131416 XOR\n2 1 6700 76523 81313 XOR\n2 1 81313 76673 131415 XOR\n2 1 6699 76522 81312 XOR\n2 1 81312 76672 131414 XOR\n2 1 6698 76521 81311 XOR\n2 1 81311 76671 131413 XOR\n2 1 6697 76520 81310 XOR\n2 1 81310 76670 131412 XOR\n2 1 6696 76519 81309 XOR\n2 1 81309 76669 131411 XOR\n2 1 6695 76518 81308 XOR\n2 1 81308 76668 131410 XOR\n2 1 6694 76517 81307 XOR\n2 1 81307 76667 131409 XOR\n2 1 6693 76516 81306 XOR\n2 1 81306 76666 131408 XOR\n2 1 6692 76515 81305 XOR\n2 1 81305 76665 131407 XOR\n2 1 6691 76514 81304 XOR\n2 1 81304 76664 131406 XOR\n2 1 6690 76513 81303 XOR\n2 1 81303 76663 131405 XOR\n2 1 6689 76512 81302 XOR\n2 1 81302 76662 131404 XOR\n2 1 6688 76511 81301 XOR\n2 1 81301 76661 131403 XOR\n2 1 6687 76510 81300 XOR\n2 1 81300 76660 131402 XOR\n2 1 6686 76509 81299 XOR\n2 1 81299 76659 131401 XOR\n2 1 6685 76508 81298 XOR\n2 1 81298 76658 131400 XOR\n2 1 6684 76507 81297 XOR\n2 1 81297 76657 131369 AND\n2 1 81297 76657 79761 XOR\n2 1 131400 131369 79762 XOR\n2 1 81298 131369 55146 XOR\n2 1 76658 131369 55147 XOR\n2 1 55146 55147 55145 AND\n2 1 55145 131369 131370 XOR\n2 1 131401 131370 79763 XOR\n2 1 81299 131370 55149 XOR\n2 1 76659 131370 55150 XOR\n2 1 55149 55150 55148 AND\n2 1 55148 131370 131371 XOR\n2 1 131402 131371 79764 XOR\n2 1 81300 131371 55152 XOR\n2 1 76660 131371 55153 XOR\n2 1 55152 55153 55151 AND\n2 1 55151 131371 131372 XOR\n2 1 131403 131372 79765 XOR\n2 1 81301 131372 55155 XOR\n2 1 76661 131372 55156 XOR\n2 1 55155 55156 55154 AND\n2 1 55154 131372 131373 XOR\n2 1 131404 131373 79766 XOR\n2 1 81302 131373 55158 XOR\n2 1 76662 131373 55159 XOR\n2 1 55158 55159 55157 AND\n2 1 55157 131373 131374 XOR\n2 1 131405 131374 79767 XOR\n2 1 81303 131374 55161 XOR\n2 1 76663 131374 55162 XOR\n2 1 55161 55162 55160 AND\n2 1 55160 131374 131375 XOR\n2 1 131406 131375 79768 XOR\n2 1 81304 131375 55164 XOR\n",
"2 1 76664 131375 55165 XOR\n2 1 55164 55165 55163 AND\n2 1 55163 131375 131376 XOR\n2 1 131407 131376 79769 XOR\n2 1 81305 131376 55167 XOR\n2 1 76665 131376 55168 XOR\n2 1 55167 55168 55166 AND\n2 1 55166 131376 131377 XOR\n2 1 131408 131377 79770 XOR\n2 1 81306 131377 55170 XOR\n2 1 76666 131377 55171 XOR\n2 1 55170 55171 55169 AND\n2 1 55169 131377 131378 XOR\n2 1 131409 131378 79771 XOR\n2 1 81307 131378 55173 XOR\n2 1 76667 131378 55174 XOR\n2 1 55173 55174 55172 AND\n2 1 55172 131378 131379 XOR\n2 1 131410 131379 79772 XOR\n2 1 81308 131379 55176 XOR\n2 1 76668 131379 55177 XOR\n2 1 55176 55177 55175 AND\n2 1 55175 131379 131380 XOR\n2 1 131411 131380 79773 XOR\n2 1 81309 131380 55179 XOR\n2 1 76669 131380 55180 XOR\n2 1 55179 55180 55178 AND\n2 1 55178 131380 131381 XOR\n2 1 131412 131381 79774 XOR\n2 1 81310 131381 55182 XOR\n2 1 76670 131381 55183 XOR\n2 1 55182 55183 55181 AND\n2 1 55181 131381 131382 XOR\n2 1 131413 131382 79775 XOR\n2 1 81311 131382 55185 XOR\n2 1 76671 131382 55186 XOR\n2 1 55185 55186 55184 AND\n2 1 55184 131382 131383 XOR\n2 1 131414 131383 79776 XOR\n2 1 81312 131383 55188 XOR\n2 1 76672 131383 55189 XOR\n2 1 55188 55189 55187 AND\n2 1 55187 131383 131384 XOR\n2 1 131415 131384 79777 XOR\n2 1 81313 131384 55191 XOR\n2 1 76673 131384 55192 XOR\n2 1 55191 55192 55190 AND\n2 1 55190 131384 131385 XOR\n2 1 131416 131385 79778 XOR\n2 1 81314 131385 55194 XOR\n2 1 76674 131385 55195 XOR\n2 1 55194 55195 55193 AND\n2 1 55193 131385 131386 XOR\n2 1 131417 131386 79779 XOR\n2 1 81315 131386 55197 XOR\n2 1 76675 131386 55198 XOR\n2 1 55197 55198 55196 AND\n2 1 55196 131386 131387 XOR\n2 1 131418 131387 79780 XOR\n2 1 81316 131387 55200 XOR\n2 1 76676 131387 55201 XOR\n2 1 55200 55201 55199 AND\n2 1 55199 131387 131388 XOR\n2 1 131419 131388 79781 XOR\n2 1 81317 131388 55203 XOR\n2 1 76677 131388 55204 XOR\n2 1 55203 55204 55202 AND\n2 1 55202 131388 131389 XOR\n2 1 131420 131389 79782 XOR\n2 1 81318 131389 55206 XOR\n2 1 76678 131389 55207 XOR\n2 1 55206 55207 55205 AND\n2 1 55205 131389 131390 XOR\n2 1 131421 131390 79783 XOR\n2 1 81319 131390 55209 XOR\n2 1 76679 131390 55210 XOR\n2 1 55209 55210 55208 AND\n2 1 55208 131390 131391 XOR\n2 1 131422 131391 79784 XOR\n2 1 81320 131391 55212 XOR\n2 1 76680 131391 55213 XOR\n2 1 55212 55213 55211 AND\n2 1 55211 131391 131392 XOR\n2 1 131423 131392 79785 XOR\n2 1 81321 131392 55215 XOR\n2 1 76681 131392 55216 XOR\n2 1 55215 55216 55214 AND\n2 1 55214 131392 131393 XOR\n2 1 131424 131393 79786 XOR\n2 1 81322 131393 55218 XOR\n2 1 76682 131393 55219 XOR\n2 1 55218 55219 55217 AND\n2 1 55217 131393 131394 XOR\n2 1 131425 131394 79787 XOR\n2 1 81323 131394 55221 XOR\n2 1 76683 131394 55222 XOR\n2 1 55221 55222 55220 AND\n2 1 55220 131394 131395 XOR\n2 1 131426 131395 79788 XOR\n2 1 81324 131395 55224 XOR\n2 1 76684 131395 55225 XOR\n2 1 55224 55225 55223 AND\n2 1 55223 131395 131396 XOR\n2 1 131427 131396 79789 XOR\n2 1 81325 131396 55227 XOR\n2 1 76685 131396 55228 XOR\n2 1 55227 55228 55226 AND\n2 1 55226 131396 131397 XOR\n2 1 131428 131397 79790 XOR\n2 1 81326 131397 55230 XOR\n2 1 76686 131397 55231 XOR\n2 1 55230 55231 55229 AND\n2 1 55229 131397 131398 XOR\n2 1 131429 131398 79791 XOR\n2 1 81327 131398 55233 XOR\n2 1 76687 131398 55234 XOR\n2 1 55233 55234 55232 AND\n2 1 55232 131398 131399 XOR\n2 1 131430 131399 79792 XOR\n2 1 90583 84439 105976 XOR\n2 1 105976 105945 1990 XOR\n2 1 1990 2054 71413 XOR\n2 1 71413 71381 71349 AND\n2 1 71349 2054 86455 XOR\n2 1 1990 2022 71285 XOR\n2 1 2011 1990 67624 XOR\n2 1 1990 2001 67603 XOR\n2 1 67624 1999 88522 XOR\n",
"2 1 67615 1990 88513 XOR\n2 1 67603 2010 88501 XOR\n2 1 88501 117085 31356 XOR\n2 1 31356 31357 31355 AND\n2 1 31355 117085 117086 XOR\n2 1 88501 86453 117116 XOR\n2 1 117116 117085 84405 XOR\n2 1 90549 84405 105850 XOR\n2 1 117117 117086 84406 XOR\n2 1 90550 84406 105851 XOR\n2 1 88502 117086 31359 XOR\n2 1 86454 117086 31360 XOR\n2 1 31359 31360 31358 AND\n2 1 31358 117086 117087 XOR\n2 1 88503 117087 31362 XOR\n2 1 86455 117087 31363 XOR\n2 1 31362 31363 31361 AND\n2 1 31361 117087 117088 XOR\n2 1 117119 117088 84408 XOR\n2 1 90552 84408 105853 XOR\n2 1 86456 117088 31366 XOR\n2 1 105850 105819 1956 XOR\n2 1 1956 2020 71315 XOR\n2 1 71315 71283 71251 AND\n2 1 71251 2020 86421 XOR\n2 1 1956 1988 71187 XOR\n2 1 84405 105819 12737 XOR\n2 1 12736 12737 12735 AND\n2 1 12735 105819 105820 XOR\n2 1 84406 105820 12740 XOR\n2 1 90550 105820 12739 XOR\n2 1 12739 12740 12738 AND\n2 1 12738 105820 105821 XOR\n2 1 90551 105821 12742 XOR\n2 1 105851 105820 1957 XOR\n2 1 1957 2021 71316 XOR\n2 1 71316 71284 71252 AND\n2 1 71252 2021 86422 XOR\n2 1 1957 1989 71188 XOR\n2 1 88513 86465 117128 XOR\n2 1 88522 86474 117137 XOR\n2 1 88504 117088 31365 XOR\n2 1 31365 31366 31364 AND\n2 1 31364 117088 117089 XOR\n2 1 88505 117089 31368 XOR\n2 1 117120 117089 84409 XOR\n2 1 90553 84409 105854 XOR\n2 1 86457 117089 31369 XOR\n2 1 31368 31369 31367 AND\n2 1 31367 117089 117090 XOR\n2 1 117121 117090 84410 XOR\n2 1 90554 84410 105855 XOR\n2 1 88506 117090 31371 XOR\n2 1 88503 86455 117118 XOR\n2 1 117118 117087 84407 XOR\n2 1 90551 84407 105852 XOR\n2 1 105852 105821 1958 XOR\n2 1 84407 105821 12743 XOR\n2 1 12742 12743 12741 AND\n2 1 12741 105821 105822 XOR\n2 1 84408 105822 12746 XOR\n2 1 105853 105822 1959 XOR\n2 1 90552 105822 12745 XOR\n2 1 12745 12746 12744 AND\n2 1 12744 105822 105823 XOR\n2 1 105854 105823 1960 XOR\n2 1 84409 105823 12749 XOR\n2 1 1960 2024 71319 XOR\n2 1 1959 2023 71318 XOR\n2 1 1958 2022 71317 XOR\n2 1 71319 71287 71255 AND\n2 1 71318 71286 71254 AND\n2 1 71317 71285 71253 AND\n2 1 71255 2024 86425 XOR\n2 1 71254 2023 86424 XOR\n2 1 71253 2022 86423 XOR\n2 1 1960 1992 71191 XOR\n2 1 1959 1991 71190 XOR\n2 1 1958 1990 71189 XOR\n2 1 90553 105823 12748 XOR\n2 1 12748 12749 12747 AND\n2 1 12747 105823 105824 XOR\n2 1 90554 105824 12751 XOR\n2 1 105855 105824 1961 XOR\n2 1 1961 2025 71320 XOR\n2 1 71320 71288 71256 AND\n2 1 71256 2025 86426 XOR\n2 1 1961 1993 71192 XOR\n2 1 84410 105824 12752 XOR\n2 1 12751 12752 12750 AND\n2 1 12750 105824 105825 XOR\n2 1 90555 105825 12754 XOR\n2 1 86458 117090 31372 XOR\n2 1 31371 31372 31370 AND\n2 1 31370 117090 117091 XOR\n2 1 88507 117091 31374 XOR\n2 1 117122 117091 84411 XOR\n2 1 90555 84411 105856 XOR\n2 1 105856 105825 1962 XOR\n2 1 84411 105825 12755 XOR\n2 1 12754 12755 12753 AND\n2 1 12753 105825 105826 XOR\n2 1 90556 105826 12757 XOR\n2 1 86459 117091 31375 XOR\n2 1 31374 31375 31373 AND\n2 1 1962 2026 71321 XOR\n2 1 71321 71289 71257 AND\n2 1 71257 2026 86427 XOR\n2 1 1962 1994 71193 XOR\n2 1 31373 117091 117092 XOR\n2 1 86460 117092 31378 XOR\n2 1 117123 117092 84412 XOR\n2 1 84412 105826 12758 XOR\n2 1 90556 84412 105857 XOR\n2 1 88508 117092 31377 XOR\n2 1 31377 31378 31376 AND\n2 1 31376 117092 117093 XOR\n2 1 117124 117093 84413 XOR\n2 1 105857 105826 1963 XOR\n2 1 1963 2027 71322 XOR\n2 1 71322 71290 71258 AND\n2 1 71258 2027 86428 XOR\n2 1 1963 1995 71194 XOR\n2 1 12757 12758 12756 AND\n2 1 12756 105826 105827 XOR\n2 1 84413 105827 12761 XOR\n2 1 90557 105827 12760 XOR\n2 1 12760 12761 12759 AND\n",
"2 1 12759 105827 105828 XOR\n2 1 90558 105828 12763 XOR\n2 1 1952 1963 67597 XOR\n2 1 90557 84413 105858 XOR\n2 1 105858 105827 1964 XOR\n2 1 1964 2028 71323 XOR\n2 1 71323 71291 71259 AND\n2 1 71259 2028 86429 XOR\n2 1 1964 1996 71195 XOR\n2 1 1953 1964 67598 XOR\n2 1 86461 117093 31381 XOR\n2 1 88509 117093 31380 XOR\n2 1 31380 31381 31379 AND\n2 1 31379 117093 117094 XOR\n2 1 88510 117094 31383 XOR\n2 1 86462 117094 31384 XOR\n2 1 31383 31384 31382 AND\n2 1 31382 117094 117095 XOR\n2 1 117126 117095 84415 XOR\n2 1 88511 117095 31386 XOR\n2 1 86463 117095 31387 XOR\n2 1 31386 31387 31385 AND\n2 1 31385 117095 117096 XOR\n2 1 86464 117096 31390 XOR\n2 1 88512 117096 31389 XOR\n2 1 31389 31390 31388 AND\n2 1 31388 117096 117097 XOR\n2 1 117127 117096 84416 XOR\n2 1 90560 84416 105861 XOR\n2 1 90559 84415 105860 XOR\n2 1 117125 117094 84414 XOR\n2 1 84414 105828 12764 XOR\n2 1 12763 12764 12762 AND\n2 1 12762 105828 105829 XOR\n2 1 84415 105829 12767 XOR\n2 1 105860 105829 1966 XOR\n2 1 90559 105829 12766 XOR\n2 1 12766 12767 12765 AND\n2 1 12765 105829 105830 XOR\n2 1 105861 105830 1967 XOR\n2 1 1967 2031 71326 XOR\n2 1 1966 2030 71325 XOR\n2 1 71326 71294 71262 AND\n2 1 71325 71293 71261 AND\n2 1 71262 2031 86432 XOR\n2 1 71261 2030 86431 XOR\n2 1 1967 1999 71198 XOR\n2 1 1966 1998 71197 XOR\n2 1 90560 105830 12769 XOR\n2 1 90558 84414 105859 XOR\n2 1 105859 105828 1965 XOR\n2 1 1965 2029 71324 XOR\n2 1 71324 71292 71260 AND\n2 1 71260 2029 86430 XOR\n2 1 1965 1997 71196 XOR\n2 1 1956 1967 67569 XOR\n2 1 1955 1966 67568 XOR\n2 1 1954 1965 67567 XOR\n2 1 117128 117097 84417 XOR\n2 1 90561 84417 105862 XOR\n2 1 84416 105830 12770 XOR\n2 1 12769 12770 12768 AND\n2 1 12768 105830 105831 XOR\n2 1 105862 105831 1968 XOR\n2 1 84417 105831 12773 XOR\n2 1 1968 2032 71327 XOR\n2 1 71327 71295 71263 AND\n2 1 71263 2032 86433 XOR\n2 1 1968 2000 71199 XOR\n2 1 1957 1968 67570 XOR\n2 1 90561 105831 12772 XOR\n2 1 12772 12773 12771 AND\n2 1 12771 105831 105832 XOR\n2 1 90562 105832 12775 XOR\n2 1 88513 117097 31392 XOR\n2 1 86465 117097 31393 XOR\n2 1 31392 31393 31391 AND\n2 1 31391 117097 117098 XOR\n2 1 88514 117098 31395 XOR\n2 1 86466 117098 31396 XOR\n2 1 31395 31396 31394 AND\n2 1 31394 117098 117099 XOR\n2 1 86467 117099 31399 XOR\n2 1 117129 117098 84418 XOR\n2 1 84418 105832 12776 XOR\n2 1 12775 12776 12774 AND\n2 1 12774 105832 105833 XOR\n2 1 90563 105833 12778 XOR\n2 1 90562 84418 105863 XOR\n2 1 105863 105832 1969 XOR\n2 1 1969 2033 71328 XOR\n2 1 71328 71296 71264 AND\n2 1 71264 2033 86434 XOR\n2 1 1969 2001 71200 XOR\n2 1 1958 1969 67571 XOR\n2 1 117130 117099 84419 XOR\n2 1 90563 84419 105864 XOR\n2 1 84419 105833 12779 XOR\n2 1 12778 12779 12777 AND\n2 1 12777 105833 105834 XOR\n2 1 90564 105834 12781 XOR\n2 1 105864 105833 1970 XOR\n2 1 1970 2034 71329 XOR\n2 1 71329 71297 71265 AND\n2 1 71265 2034 86435 XOR\n2 1 1970 2002 71201 XOR\n2 1 1959 1970 67572 XOR\n2 1 88515 117099 31398 XOR\n2 1 31398 31399 31397 AND\n2 1 31397 117099 117100 XOR\n2 1 88516 117100 31401 XOR\n2 1 86468 117100 31402 XOR\n2 1 31401 31402 31400 AND\n2 1 31400 117100 117101 XOR\n2 1 117132 117101 84421 XOR\n2 1 90565 84421 105866 XOR\n2 1 88517 117101 31404 XOR\n2 1 86469 117101 31405 XOR\n2 1 31404 31405 31403 AND\n2 1 31403 117101 117102 XOR\n2 1 86470 117102 31408 XOR\n2 1 117133 117102 84422 XOR\n2 1 90566 84422 105867 XOR\n2 1 88518 117102 31407 XOR\n2 1 31407 31408 31406 AND\n2 1 31406 117102 117103 XOR\n2 1 117134 117103 84423 XOR\n2 1 90567 84423 105868 XOR\n",
"2 1 88519 117103 31410 XOR\n2 1 86471 117103 31411 XOR\n2 1 31410 31411 31409 AND\n2 1 31409 117103 117104 XOR\n2 1 117135 117104 84424 XOR\n2 1 90568 84424 105869 XOR\n2 1 117131 117100 84420 XOR\n2 1 90564 84420 105865 XOR\n2 1 84420 105834 12782 XOR\n2 1 12781 12782 12780 AND\n2 1 12780 105834 105835 XOR\n2 1 105866 105835 1972 XOR\n2 1 105865 105834 1971 XOR\n2 1 90565 105835 12784 XOR\n2 1 84421 105835 12785 XOR\n2 1 12784 12785 12783 AND\n2 1 12783 105835 105836 XOR\n2 1 90566 105836 12787 XOR\n2 1 84422 105836 12788 XOR\n2 1 105867 105836 1973 XOR\n2 1 12787 12788 12786 AND\n2 1 12786 105836 105837 XOR\n2 1 105868 105837 1974 XOR\n2 1 90567 105837 12790 XOR\n2 1 1974 2038 71333 XOR\n2 1 1973 2037 71332 XOR\n2 1 1972 2036 71331 XOR\n2 1 1971 2035 71330 XOR\n2 1 71333 71301 71269 AND\n2 1 71332 71300 71268 AND\n2 1 71331 71299 71267 AND\n2 1 71330 71298 71266 AND\n2 1 71269 2038 86439 XOR\n2 1 71268 2037 86438 XOR\n2 1 71267 2036 86437 XOR\n2 1 71266 2035 86436 XOR\n2 1 1974 2006 71205 XOR\n2 1 1973 2005 71204 XOR\n2 1 1972 2004 71203 XOR\n2 1 1971 2003 71202 XOR\n2 1 88520 117104 31413 XOR\n2 1 86472 117104 31414 XOR\n2 1 31413 31414 31412 AND\n2 1 31412 117104 117105 XOR\n2 1 117136 117105 84425 XOR\n2 1 90569 84425 105870 XOR\n2 1 88521 117105 31416 XOR\n2 1 86473 117105 31417 XOR\n2 1 31416 31417 31415 AND\n2 1 31415 117105 117106 XOR\n2 1 117137 117106 84426 XOR\n2 1 90570 84426 105871 XOR\n2 1 88522 117106 31419 XOR\n2 1 86474 117106 31420 XOR\n2 1 31419 31420 31418 AND\n2 1 31418 117106 117107 XOR\n2 1 86475 117107 31423 XOR\n2 1 117138 117107 84427 XOR\n2 1 90571 84427 105872 XOR\n2 1 88523 117107 31422 XOR\n2 1 31422 31423 31421 AND\n2 1 31421 117107 117108 XOR\n2 1 88524 117108 31425 XOR\n2 1 117139 117108 84428 XOR\n2 1 90572 84428 105873 XOR\n2 1 86476 117108 31426 XOR\n2 1 31425 31426 31424 AND\n2 1 31424 117108 117109 XOR\n2 1 117140 117109 84429 XOR\n2 1 90573 84429 105874 XOR\n2 1 86477 117109 31429 XOR\n2 1 88525 117109 31428 XOR\n2 1 31428 31429 31427 AND\n2 1 31427 117109 117110 XOR\n2 1 86478 117110 31432 XOR\n2 1 117141 117110 84430 XOR\n2 1 90574 84430 105875 XOR\n2 1 88526 117110 31431 XOR\n2 1 31431 31432 31430 AND\n2 1 31430 117110 117111 XOR\n2 1 88527 117111 31434 XOR\n2 1 117142 117111 84431 XOR\n2 1 90575 84431 105876 XOR\n2 1 86479 117111 31435 XOR\n2 1 31434 31435 31433 AND\n2 1 31433 117111 117112 XOR\n2 1 117143 117112 84432 XOR\n2 1 90576 84432 105877 XOR\n2 1 1974 1953 67587 XOR\n2 1 1973 1952 67586 XOR\n2 1 1963 1974 67576 XOR\n2 1 1962 1973 67575 XOR\n2 1 1961 1972 67574 XOR\n2 1 1960 1971 67573 XOR\n2 1 67598 1973 88496 XOR\n2 1 67597 1972 88495 XOR\n2 1 67587 1962 88485 XOR\n2 1 88485 86437 116884 XOR\n2 1 67586 1961 88484 XOR\n2 1 88484 86436 116883 XOR\n2 1 67567 1974 88465 XOR\n2 1 88465 86417 116834 AND\n2 1 88465 86417 84369 XOR\n2 1 86418 116834 30881 XOR\n2 1 84423 105837 12791 XOR\n2 1 12790 12791 12789 AND\n2 1 12789 105837 105838 XOR\n2 1 90568 105838 12793 XOR\n2 1 84424 105838 12794 XOR\n2 1 12793 12794 12792 AND\n2 1 105869 105838 1975 XOR\n2 1 1975 2039 71334 XOR\n2 1 71334 71302 71270 AND\n2 1 71270 2039 86440 XOR\n2 1 1975 2007 71206 XOR\n2 1 1975 1954 67588 XOR\n2 1 1964 1975 67577 XOR\n2 1 67588 1963 88486 XOR\n2 1 88486 86438 116885 XOR\n2 1 67577 1952 88475 XOR\n2 1 88475 86427 116874 XOR\n2 1 67568 1975 88466 XOR\n2 1 88466 86418 116865 XOR\n2 1 116865 116834 84370 XOR\n2 1 12792 105838 105839 XOR\n2 1 84425 105839 12797 XOR\n2 1 105870 105839 1976 XOR\n2 1 1976 2040 71335 XOR\n",
"2 1 71335 71303 71271 AND\n2 1 71271 2040 86441 XOR\n2 1 1976 2008 71207 XOR\n2 1 1976 1955 67589 XOR\n2 1 1965 1976 67578 XOR\n2 1 67589 1964 88487 XOR\n2 1 88487 86439 116886 XOR\n2 1 67578 1953 88476 XOR\n2 1 88476 86428 116875 XOR\n2 1 67569 1976 88467 XOR\n2 1 88467 86419 116866 XOR\n2 1 90569 105839 12796 XOR\n2 1 12796 12797 12795 AND\n2 1 12795 105839 105840 XOR\n2 1 84426 105840 12800 XOR\n2 1 90570 105840 12799 XOR\n2 1 105871 105840 1977 XOR\n2 1 12799 12800 12798 AND\n2 1 12798 105840 105841 XOR\n2 1 105872 105841 1978 XOR\n2 1 84427 105841 12803 XOR\n2 1 90571 105841 12802 XOR\n2 1 12802 12803 12801 AND\n2 1 12801 105841 105842 XOR\n2 1 105873 105842 1979 XOR\n2 1 84428 105842 12806 XOR\n2 1 90572 105842 12805 XOR\n2 1 12805 12806 12804 AND\n2 1 12804 105842 105843 XOR\n2 1 90573 105843 12808 XOR\n2 1 105874 105843 1980 XOR\n2 1 1980 2044 71339 XOR\n2 1 1979 2043 71338 XOR\n2 1 1978 2042 71337 XOR\n2 1 1977 2041 71336 XOR\n2 1 71339 71307 71275 AND\n2 1 71338 71306 71274 AND\n2 1 71337 71305 71273 AND\n2 1 71336 71304 71272 AND\n2 1 71275 2044 86445 XOR\n2 1 71274 2043 86444 XOR\n2 1 71273 2042 86443 XOR\n2 1 71272 2041 86442 XOR\n2 1 1980 2012 71211 XOR\n2 1 1979 2011 71210 XOR\n2 1 1978 2010 71209 XOR\n2 1 1977 2009 71208 XOR\n2 1 1980 1959 67593 XOR\n2 1 1979 1958 67592 XOR\n2 1 1978 1957 67591 XOR\n2 1 1977 1956 67590 XOR\n2 1 1969 1980 67582 XOR\n2 1 1968 1979 67581 XOR\n2 1 1967 1978 67580 XOR\n2 1 1966 1977 67579 XOR\n2 1 67593 1968 88491 XOR\n2 1 88491 86443 116890 XOR\n2 1 67592 1967 88490 XOR\n2 1 88490 86442 116889 XOR\n2 1 67591 1966 88489 XOR\n2 1 88489 86441 116888 XOR\n2 1 67590 1965 88488 XOR\n2 1 88488 86440 116887 XOR\n2 1 67582 1957 88480 XOR\n2 1 88480 86432 116879 XOR\n2 1 67581 1956 88479 XOR\n2 1 88479 86431 116878 XOR\n2 1 67580 1955 88478 XOR\n2 1 88478 86430 116877 XOR\n2 1 67579 1954 88477 XOR\n2 1 88477 86429 116876 XOR\n2 1 67573 1980 88471 XOR\n2 1 88471 86423 116870 XOR\n2 1 67572 1979 88470 XOR\n2 1 88470 86422 116869 XOR\n2 1 67571 1978 88469 XOR\n2 1 67570 1977 88468 XOR\n2 1 84429 105843 12809 XOR\n2 1 12808 12809 12807 AND\n2 1 12807 105843 105844 XOR\n2 1 84430 105844 12812 XOR\n2 1 105875 105844 1981 XOR\n2 1 90574 105844 12811 XOR\n2 1 1981 2045 71340 XOR\n2 1 71340 71308 71276 AND\n2 1 71276 2045 86446 XOR\n2 1 1981 2013 71212 XOR\n2 1 1981 1960 67594 XOR\n2 1 1970 1981 67583 XOR\n2 1 67594 1969 88492 XOR\n2 1 88492 86444 116891 XOR\n2 1 67583 1958 88481 XOR\n2 1 88481 86433 116880 XOR\n2 1 67574 1981 88472 XOR\n2 1 88472 86424 116871 XOR\n2 1 12811 12812 12810 AND\n2 1 12810 105844 105845 XOR\n2 1 105876 105845 1982 XOR\n2 1 84431 105845 12815 XOR\n2 1 90575 105845 12814 XOR\n2 1 12814 12815 12813 AND\n2 1 12813 105845 105846 XOR\n2 1 105877 105846 1983 XOR\n2 1 1983 2047 71342 XOR\n2 1 1982 2046 71341 XOR\n2 1 71342 71310 71278 AND\n2 1 71341 71309 71277 AND\n2 1 71278 2047 86448 XOR\n2 1 88496 86448 116895 XOR\n2 1 71277 2046 86447 XOR\n2 1 88495 86447 116894 XOR\n2 1 1983 2015 71214 XOR\n2 1 1982 2014 71213 XOR\n2 1 1983 1962 67596 XOR\n2 1 1982 1961 67595 XOR\n2 1 1972 1983 67585 XOR\n2 1 1971 1982 67584 XOR\n2 1 67596 1971 88494 XOR\n2 1 88494 86446 116893 XOR\n2 1 67595 1970 88493 XOR\n2 1 88493 86445 116892 XOR\n2 1 67585 1960 88483 XOR\n2 1 88483 86435 116882 XOR\n2 1 67584 1959 88482 XOR\n2 1 88482 86434 116881 XOR\n2 1 67576 1983 88474 XOR\n2 1 88474 86426 116873 XOR\n2 1 67575 1982 88473 XOR\n",
"2 1 88473 86425 116872 XOR\n2 1 88469 86421 116868 XOR\n2 1 88468 86420 116867 XOR\n2 1 88466 116834 30880 XOR\n2 1 30880 30881 30879 AND\n2 1 30879 116834 116835 XOR\n2 1 88467 116835 30883 XOR\n2 1 116866 116835 84371 XOR\n2 1 86419 116835 30884 XOR\n2 1 30883 30884 30882 AND\n2 1 30882 116835 116836 XOR\n2 1 116867 116836 84372 XOR\n2 1 86420 116836 30887 XOR\n2 1 88468 116836 30886 XOR\n2 1 30886 30887 30885 AND\n2 1 30885 116836 116837 XOR\n2 1 116868 116837 84373 XOR\n2 1 86421 116837 30890 XOR\n2 1 88469 116837 30889 XOR\n2 1 30889 30890 30888 AND\n2 1 30888 116837 116838 XOR\n2 1 86422 116838 30893 XOR\n2 1 88470 116838 30892 XOR\n2 1 30892 30893 30891 AND\n2 1 116869 116838 84374 XOR\n2 1 30891 116838 116839 XOR\n2 1 86423 116839 30896 XOR\n2 1 116870 116839 84375 XOR\n2 1 88471 116839 30895 XOR\n2 1 30895 30896 30894 AND\n2 1 30894 116839 116840 XOR\n2 1 116871 116840 84376 XOR\n2 1 86424 116840 30899 XOR\n2 1 88472 116840 30898 XOR\n2 1 30898 30899 30897 AND\n2 1 30897 116840 116841 XOR\n2 1 116872 116841 84377 XOR\n2 1 88473 116841 30901 XOR\n2 1 86425 116841 30902 XOR\n2 1 30901 30902 30900 AND\n2 1 30900 116841 116842 XOR\n2 1 116873 116842 84378 XOR\n2 1 86426 116842 30905 XOR\n2 1 88474 116842 30904 XOR\n2 1 30904 30905 30903 AND\n2 1 30903 116842 116843 XOR\n2 1 116874 116843 84379 XOR\n2 1 86427 116843 30908 XOR\n2 1 88475 116843 30907 XOR\n2 1 30907 30908 30906 AND\n2 1 30906 116843 116844 XOR\n2 1 86428 116844 30911 XOR\n2 1 88476 116844 30910 XOR\n2 1 30910 30911 30909 AND\n2 1 116875 116844 84380 XOR\n2 1 30909 116844 116845 XOR\n2 1 86429 116845 30914 XOR\n2 1 116876 116845 84381 XOR\n2 1 88477 116845 30913 XOR\n2 1 30913 30914 30912 AND\n2 1 30912 116845 116846 XOR\n2 1 116877 116846 84382 XOR\n2 1 86430 116846 30917 XOR\n2 1 88478 116846 30916 XOR\n2 1 30916 30917 30915 AND\n2 1 30915 116846 116847 XOR\n2 1 116878 116847 84383 XOR\n2 1 88479 116847 30919 XOR\n2 1 86431 116847 30920 XOR\n2 1 30919 30920 30918 AND\n2 1 30918 116847 116848 XOR\n2 1 116879 116848 84384 XOR\n2 1 86432 116848 30923 XOR\n2 1 88480 116848 30922 XOR\n2 1 30922 30923 30921 AND\n2 1 30921 116848 116849 XOR\n2 1 116880 116849 84385 XOR\n2 1 86433 116849 30926 XOR\n2 1 88481 116849 30925 XOR\n2 1 30925 30926 30924 AND\n2 1 30924 116849 116850 XOR\n2 1 86434 116850 30929 XOR\n2 1 88482 116850 30928 XOR\n2 1 30928 30929 30927 AND\n2 1 116881 116850 84386 XOR\n2 1 30927 116850 116851 XOR\n2 1 116882 116851 84387 XOR\n2 1 86435 116851 30932 XOR\n2 1 88483 116851 30931 XOR\n2 1 30931 30932 30930 AND\n2 1 30930 116851 116852 XOR\n2 1 86436 116852 30935 XOR\n2 1 116883 116852 84388 XOR\n2 1 88484 116852 30934 XOR\n2 1 30934 30935 30933 AND\n2 1 30933 116852 116853 XOR\n2 1 86437 116853 30938 XOR\n2 1 88485 116853 30937 XOR\n2 1 30937 30938 30936 AND\n2 1 116884 116853 84389 XOR\n2 1 30936 116853 116854 XOR\n2 1 116885 116854 84390 XOR\n2 1 86438 116854 30941 XOR\n2 1 88486 116854 30940 XOR\n2 1 30940 30941 30939 AND\n2 1 30939 116854 116855 XOR\n2 1 116886 116855 84391 XOR\n2 1 86439 116855 30944 XOR\n2 1 88487 116855 30943 XOR\n2 1 30943 30944 30942 AND\n2 1 30942 116855 116856 XOR\n2 1 86440 116856 30947 XOR\n2 1 88488 116856 30946 XOR\n2 1 30946 30947 30945 AND\n2 1 116887 116856 84392 XOR\n2 1 30945 116856 116857 XOR\n2 1 86441 116857 30950 XOR\n2 1 116888 116857 84393 XOR\n2 1 88489 116857 30949 XOR\n2 1 30949 30950 30948 AND\n2 1 30948 116857 116858 XOR\n2 1 116889 116858 84394 XOR\n2 1 86442 116858 30953 XOR\n2 1 88490 116858 30952 XOR\n2 1 30952 30953 30951 AND\n2 1 30951 116858 116859 XOR\n2 1 116890 116859 84395 XOR\n2 1 88491 116859 30955 XOR\n",
"2 1 86443 116859 30956 XOR\n2 1 30955 30956 30954 AND\n2 1 30954 116859 116860 XOR\n2 1 116891 116860 84396 XOR\n2 1 86444 116860 30959 XOR\n2 1 88492 116860 30958 XOR\n2 1 30958 30959 30957 AND\n2 1 30957 116860 116861 XOR\n2 1 116892 116861 84397 XOR\n2 1 88493 116861 30961 XOR\n2 1 86445 116861 30962 XOR\n2 1 30961 30962 30960 AND\n2 1 30960 116861 116862 XOR\n2 1 88494 116862 30964 XOR\n2 1 86446 116862 30965 XOR\n2 1 116893 116862 84398 XOR\n2 1 30964 30965 30963 AND\n2 1 30963 116862 116863 XOR\n2 1 88495 116863 30967 XOR\n2 1 86447 116863 30968 XOR\n2 1 30967 30968 30966 AND\n2 1 116894 116863 84399 XOR\n2 1 30966 116863 116864 XOR\n2 1 116895 116864 84400 XOR\n2 1 2091 105764 12667 XOR\n2 1 12667 12668 12666 AND\n2 1 12666 105764 105765 XOR\n2 1 105796 105765 2476 XOR\n2 1 2092 105765 12670 XOR\n2 1 90557 105765 12671 XOR\n2 1 12670 12671 12669 AND\n2 1 12669 105765 105766 XOR\n2 1 90558 105766 12674 XOR\n2 1 105797 105766 2477 XOR\n2 1 64540 2477 64508 AND\n2 1 64539 2476 64507 AND\n2 1 64508 2541 98659 XOR\n2 1 64507 2540 98658 XOR\n2 1 2477 2509 64476 XOR\n2 1 2476 2508 64475 XOR\n2 1 2093 105766 12673 XOR\n2 1 12673 12674 12672 AND\n2 1 12672 105766 105767 XOR\n2 1 2094 105767 12676 XOR\n2 1 105798 105767 2478 XOR\n2 1 90559 105767 12677 XOR\n2 1 12676 12677 12675 AND\n2 1 12675 105767 105768 XOR\n2 1 105799 105768 2479 XOR\n2 1 2095 105768 12679 XOR\n2 1 90560 105768 12680 XOR\n2 1 12679 12680 12678 AND\n2 1 12678 105768 105769 XOR\n2 1 2096 105769 12682 XOR\n2 1 90561 105769 12683 XOR\n2 1 105800 105769 2480 XOR\n2 1 12682 12683 12681 AND\n2 1 12681 105769 105770 XOR\n2 1 105801 105770 2481 XOR\n2 1 2097 105770 12685 XOR\n2 1 90562 105770 12686 XOR\n2 1 12685 12686 12684 AND\n2 1 12684 105770 105771 XOR\n2 1 2098 105771 12688 XOR\n2 1 105802 105771 2482 XOR\n2 1 90563 105771 12689 XOR\n2 1 12688 12689 12687 AND\n2 1 12687 105771 105772 XOR\n2 1 105803 105772 2483 XOR\n2 1 2099 105772 12691 XOR\n2 1 90564 105772 12692 XOR\n2 1 12691 12692 12690 AND\n2 1 12690 105772 105773 XOR\n2 1 105804 105773 2484 XOR\n2 1 2100 105773 12694 XOR\n2 1 90565 105773 12695 XOR\n2 1 12694 12695 12693 AND\n2 1 12693 105773 105774 XOR\n2 1 2101 105774 12697 XOR\n2 1 105805 105774 2485 XOR\n2 1 90566 105774 12698 XOR\n2 1 12697 12698 12696 AND\n2 1 12696 105774 105775 XOR\n2 1 105806 105775 2486 XOR\n2 1 2102 105775 12700 XOR\n2 1 90567 105775 12701 XOR\n2 1 12700 12701 12699 AND\n2 1 12699 105775 105776 XOR\n2 1 2103 105776 12703 XOR\n2 1 90568 105776 12704 XOR\n2 1 105807 105776 2487 XOR\n2 1 12703 12704 12702 AND\n2 1 12702 105776 105777 XOR\n2 1 105808 105777 2488 XOR\n2 1 90569 105777 12707 XOR\n2 1 2104 105777 12706 XOR\n2 1 12706 12707 12705 AND\n2 1 12705 105777 105778 XOR\n2 1 2105 105778 12709 XOR\n2 1 90570 105778 12710 XOR\n2 1 12709 12710 12708 AND\n2 1 12708 105778 105779 XOR\n2 1 90571 105779 12713 XOR\n2 1 105810 105779 2490 XOR\n2 1 2106 105779 12712 XOR\n2 1 12712 12713 12711 AND\n2 1 12711 105779 105780 XOR\n2 1 105811 105780 2491 XOR\n2 1 90572 105780 12716 XOR\n2 1 64554 2491 64522 AND\n2 1 64553 2490 64521 AND\n2 1 64551 2488 64519 AND\n2 1 64550 2487 64518 AND\n2 1 64549 2486 64517 AND\n2 1 64548 2485 64516 AND\n2 1 64547 2484 64515 AND\n2 1 64546 2483 64514 AND\n2 1 64545 2482 64513 AND\n2 1 64544 2481 64512 AND\n2 1 64543 2480 64511 AND\n2 1 64542 2479 64510 AND\n2 1 64541 2478 64509 AND\n2 1 64522 2555 98673 XOR\n2 1 64521 2554 98672 XOR\n2 1 64519 2552 98670 XOR\n2 1 64518 2551 98669 XOR\n2 1 64517 2550 98668 XOR\n2 1 64516 2549 98667 XOR\n"]

end Verif.Data
