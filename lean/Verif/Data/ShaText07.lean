/-!
# Text of `data/circ/sha256.txt`, part 8 of 11

Generated by `tools/gen_circuits.py`.
-/

namespace Verif.Data

/-- Lines 86021-98308 of `data/circ/sha256.txt`, 128 per string. -/
def shaBlocks07 : List String := [
"2 1 96449 115638 28841 XOR\n2 1 115669 115638 92384 XOR\n2 1 94401 115638 28842 XOR\n2 1 28841 28842 28840 AND\n2 1 28840 115638 115639 XOR\n2 1 115670 115639 92385 XOR\n2 1 94402 115639 28845 XOR\n2 1 96450 115639 28844 XOR\n2 1 28844 28845 28843 AND\n2 1 28843 115639 115640 XOR\n2 1 115671 115640 92386 XOR\n2 1 94403 115640 28848 XOR\n2 1 96451 115640 28847 XOR\n2 1 28847 28848 28846 AND\n2 1 28846 115640 115641 XOR\n2 1 96452 115641 28850 XOR\n2 1 115672 115641 92387 XOR\n2 1 94404 115641 28851 XOR\n2 1 28850 28851 28849 AND\n2 1 28849 115641 115642 XOR\n2 1 96453 115642 28853 XOR\n1 1 92384 28801 INV\n2 1 2414 115703 28941 XOR\n2 1 28940 28941 28939 AND\n2 1 28939 115703 115704 XOR\n2 1 2415 115704 28944 XOR\n2 1 76288 115704 28943 XOR\n2 1 28943 28944 28942 AND\n2 1 28942 115704 115705 XOR\n2 1 2416 115705 28947 XOR\n2 1 115735 115704 94405 XOR\n2 1 96453 94405 115673 XOR\n2 1 94405 115642 28854 XOR\n2 1 115673 115642 92388 XOR\n2 1 28853 28854 28852 AND\n2 1 28852 115642 115643 XOR\n2 1 96454 115643 28856 XOR\n1 1 92388 28802 INV\n2 1 115736 115705 94406 XOR\n2 1 96454 94406 115674 XOR\n2 1 94406 115643 28857 XOR\n2 1 28856 28857 28855 AND\n2 1 115674 115643 92389 XOR\n2 1 28855 115643 115644 XOR\n2 1 96455 115644 28859 XOR\n1 1 92389 28803 INV\n2 1 76289 115705 28946 XOR\n2 1 28946 28947 28945 AND\n2 1 28945 115705 115706 XOR\n2 1 115737 115706 94407 XOR\n2 1 96455 94407 115675 XOR\n2 1 115675 115644 92390 XOR\n2 1 94407 115644 28860 XOR\n2 1 28859 28860 28858 AND\n2 1 28858 115644 115645 XOR\n2 1 76290 115706 28949 XOR\n1 1 92390 28804 INV\n2 1 2417 115706 28950 XOR\n2 1 28949 28950 28948 AND\n2 1 28948 115706 115707 XOR\n2 1 115738 115707 94408 XOR\n2 1 96456 94408 115676 XOR\n2 1 115676 115645 92391 XOR\n2 1 76291 115707 28952 XOR\n2 1 94408 115645 28863 XOR\n2 1 2418 115707 28953 XOR\n2 1 28952 28953 28951 AND\n2 1 28951 115707 115708 XOR\n2 1 2419 115708 28956 XOR\n2 1 115739 115708 94409 XOR\n2 1 96457 94409 115677 XOR\n2 1 76292 115708 28955 XOR\n2 1 28955 28956 28954 AND\n2 1 28954 115708 115709 XOR\n2 1 115740 115709 94410 XOR\n2 1 96458 94410 115678 XOR\n2 1 76293 115709 28958 XOR\n2 1 96456 115645 28862 XOR\n2 1 28862 28863 28861 AND\n2 1 28861 115645 115646 XOR\n2 1 96457 115646 28865 XOR\n2 1 115677 115646 92392 XOR\n1 1 92392 28805 INV\n2 1 94409 115646 28866 XOR\n2 1 28865 28866 28864 AND\n2 1 28864 115646 115647 XOR\n2 1 94410 115647 28869 XOR\n2 1 115678 115647 92393 XOR\n2 1 96458 115647 28868 XOR\n2 1 28868 28869 28867 AND\n2 1 28867 115647 115648 XOR\n2 1 96459 115648 28871 XOR\n2 1 2420 115709 28959 XOR\n2 1 28958 28959 28957 AND\n2 1 28957 115709 115710 XOR\n2 1 76294 115710 28961 XOR\n2 1 115741 115710 94411 XOR\n2 1 96459 94411 115679 XOR\n2 1 2421 115710 28962 XOR\n2 1 28961 28962 28960 AND\n2 1 28960 115710 115711 XOR\n2 1 2422 115711 28965 XOR\n2 1 76295 115711 28964 XOR\n2 1 28964 28965 28963 AND\n2 1 28963 115711 115712 XOR\n2 1 115743 115712 94413 XOR\n2 1 96461 94413 115681 XOR\n2 1 2423 115712 28968 XOR\n2 1 76296 115712 28967 XOR\n2 1 28967 28968 28966 AND\n2 1 28966 115712 115713 XOR\n2 1 115744 115713 94414 XOR\n2 1 96462 94414 115682 XOR\n2 1 76297 115713 28970 XOR\n2 1 2424 115713 28971 XOR\n2 1 28970 28971 28969 AND\n2 1 28969 115713 115714 XOR\n2 1 76298 115714 28973 XOR\n2 1 2425 115714 28974 XOR\n2 1 115745 115714 94415 XOR\n2 1 96463 94415 115683 XOR\n2 1 28973 28974 28972 AND\n2 1 28972 115714 115715 XOR\n2 1 115746 115715 94416 XOR\n2 1 96464 94416 115684 XOR\n2 1 76299 115715 28976 XOR\n2 1 2426 115715 28977 XOR\n2 1 28976 28977 28975 AND\n",
"2 1 28975 115715 115716 XOR\n2 1 115747 115716 94417 XOR\n2 1 96465 94417 115685 XOR\n2 1 76300 115716 28979 XOR\n2 1 115679 115648 92394 XOR\n2 1 94411 115648 28872 XOR\n2 1 28871 28872 28870 AND\n2 1 28870 115648 115649 XOR\n2 1 96460 115649 28874 XOR\n2 1 115742 115711 94412 XOR\n2 1 96460 94412 115680 XOR\n2 1 115680 115649 92395 XOR\n1 1 92395 28806 INV\n2 1 94412 115649 28875 XOR\n2 1 28874 28875 28873 AND\n2 1 28873 115649 115650 XOR\n2 1 115681 115650 92396 XOR\n2 1 96461 115650 28877 XOR\n2 1 94413 115650 28878 XOR\n2 1 28877 28878 28876 AND\n2 1 28876 115650 115651 XOR\n2 1 115682 115651 92397 XOR\n2 1 96462 115651 28880 XOR\n2 1 94414 115651 28881 XOR\n2 1 28880 28881 28879 AND\n2 1 28879 115651 115652 XOR\n2 1 115683 115652 92398 XOR\n1 1 92398 28807 INV\n2 1 96463 115652 28883 XOR\n2 1 94415 115652 28884 XOR\n2 1 28883 28884 28882 AND\n2 1 28882 115652 115653 XOR\n2 1 94416 115653 28887 XOR\n2 1 115684 115653 92399 XOR\n2 1 96464 115653 28886 XOR\n2 1 28886 28887 28885 AND\n2 1 28885 115653 115654 XOR\n2 1 96465 115654 28889 XOR\n2 1 115685 115654 92400 XOR\n2 1 94417 115654 28890 XOR\n2 1 28889 28890 28888 AND\n2 1 28888 115654 115655 XOR\n2 1 96466 115655 28892 XOR\n2 1 2427 115716 28980 XOR\n2 1 28979 28980 28978 AND\n2 1 28978 115716 115717 XOR\n2 1 2428 115717 28983 XOR\n2 1 76301 115717 28982 XOR\n2 1 115748 115717 94418 XOR\n2 1 96466 94418 115686 XOR\n2 1 94418 115655 28893 XOR\n2 1 28892 28893 28891 AND\n2 1 115686 115655 92401 XOR\n2 1 28891 115655 115656 XOR\n2 1 96467 115656 28895 XOR\n2 1 28982 28983 28981 AND\n2 1 28981 115717 115718 XOR\n2 1 115749 115718 94419 XOR\n2 1 96467 94419 115687 XOR\n2 1 2429 115718 28986 XOR\n2 1 76302 115718 28985 XOR\n2 1 28985 28986 28984 AND\n2 1 28984 115718 115719 XOR\n2 1 115750 115719 94420 XOR\n2 1 96468 94420 115688 XOR\n2 1 2430 115719 28989 XOR\n2 1 76303 115719 28988 XOR\n2 1 28988 28989 28987 AND\n2 1 28987 115719 115720 XOR\n2 1 115751 115720 94421 XOR\n2 1 96469 94421 115689 XOR\n2 1 115687 115656 92402 XOR\n2 1 94419 115656 28896 XOR\n2 1 28895 28896 28894 AND\n2 1 28894 115656 115657 XOR\n2 1 94420 115657 28899 XOR\n2 1 115688 115657 92403 XOR\n1 1 92403 28808 INV\n2 1 96468 115657 28898 XOR\n2 1 28898 28899 28897 AND\n2 1 28897 115657 115658 XOR\n2 1 115689 115658 92404 XOR\n1 1 92404 28809 INV\n2 1 92380 28728 90360 XOR\n2 1 90360 84216 105109 XOR\n2 1 1895 90360 105047 XOR\n2 1 105047 105016 2279 XOR\n2 1 64150 2279 64118 AND\n2 1 2274 2279 61483 XOR\n2 1 64118 2343 98461 XOR\n2 1 2279 2311 64086 XOR\n2 1 90360 105016 11576 XOR\n2 1 11575 11576 11574 AND\n2 1 11574 105016 105017 XOR\n2 1 1896 105017 11578 XOR\n2 1 90360 28728 28727 AND\n2 1 28727 28728 28786 XOR\n1 1 28786 28731 INV\n2 1 28799 28786 90361 XOR\n2 1 1896 90361 105048 XOR\n2 1 105048 105017 2280 XOR\n2 1 90361 105017 11579 XOR\n2 1 11578 11579 11577 AND\n2 1 11577 105017 105018 XOR\n2 1 1897 105018 11581 XOR\n2 1 90361 84217 105110 XOR\n2 1 64151 2280 64119 AND\n2 1 64119 2344 98462 XOR\n2 1 2280 2312 64087 XOR\n2 1 2275 2280 61484 XOR\n2 1 92381 28786 28730 XOR\n2 1 28730 28731 28729 AND\n2 1 28729 28786 28787 XOR\n1 1 28787 28734 INV\n2 1 28800 28787 90362 XOR\n2 1 1897 90362 105049 XOR\n2 1 105049 105018 2281 XOR\n2 1 90362 105018 11582 XOR\n2 1 11581 11582 11580 AND\n2 1 11580 105018 105019 XOR\n2 1 1898 105019 11584 XOR\n2 1 64152 2281 64120 AND\n2 1 64120 2345 98463 XOR\n2 1 2281 2313 64088 XOR\n2 1 90362 84218 105111 XOR\n2 1 2276 2281 61485 XOR\n2 1 92382 28787 28733 XOR\n2 1 28733 28734 28732 AND\n",
"2 1 28732 28787 28736 XOR\n2 1 92383 28736 90363 XOR\n2 1 90363 105019 11585 XOR\n2 1 11584 11585 11583 AND\n2 1 11583 105019 105020 XOR\n2 1 1899 105020 11587 XOR\n2 1 90363 84219 105112 XOR\n2 1 1898 90363 105050 XOR\n2 1 105050 105019 2282 XOR\n2 1 2282 2314 64089 XOR\n2 1 2277 2282 61486 XOR\n2 1 64153 2282 64121 AND\n2 1 64121 2346 98464 XOR\n2 1 90363 28736 28735 AND\n2 1 28735 28736 28788 XOR\n1 1 28788 28739 INV\n2 1 28801 28788 90364 XOR\n2 1 1899 90364 105051 XOR\n2 1 105051 105020 2283 XOR\n2 1 90364 105020 11588 XOR\n2 1 11587 11588 11586 AND\n2 1 11586 105020 105021 XOR\n2 1 1900 105021 11590 XOR\n2 1 64154 2283 64122 AND\n2 1 64122 2347 98465 XOR\n2 1 2283 2315 64090 XOR\n2 1 90364 84220 105113 XOR\n2 1 2278 2283 61455 XOR\n2 1 92384 28788 28738 XOR\n2 1 28738 28739 28737 AND\n2 1 28737 28788 28741 XOR\n2 1 92385 28741 90365 XOR\n2 1 90365 105021 11591 XOR\n2 1 11590 11591 11589 AND\n2 1 11589 105021 105022 XOR\n2 1 1901 105022 11593 XOR\n2 1 90365 84221 105114 XOR\n2 1 1900 90365 105052 XOR\n2 1 105052 105021 2284 XOR\n2 1 2284 2316 64091 XOR\n2 1 2279 2284 61456 XOR\n2 1 64155 2284 64123 AND\n2 1 64123 2348 98466 XOR\n2 1 90365 28741 28740 AND\n2 1 28740 28741 28743 XOR\n2 1 92386 28743 90366 XOR\n2 1 90366 105022 11594 XOR\n2 1 11593 11594 11592 AND\n2 1 11592 105022 105023 XOR\n2 1 1902 105023 11596 XOR\n2 1 90366 84222 105115 XOR\n2 1 1901 90366 105053 XOR\n2 1 105053 105022 2285 XOR\n2 1 2285 2317 64092 XOR\n2 1 2280 2285 61457 XOR\n2 1 64156 2285 64124 AND\n2 1 64124 2349 98467 XOR\n2 1 90366 28743 28742 AND\n2 1 28742 28743 28745 XOR\n2 1 92387 28745 90367 XOR\n2 1 90367 105023 11597 XOR\n2 1 11596 11597 11595 AND\n2 1 11595 105023 105024 XOR\n2 1 90367 84223 105116 XOR\n2 1 1903 105024 11599 XOR\n2 1 1902 90367 105054 XOR\n2 1 105054 105023 2286 XOR\n2 1 2286 2318 64093 XOR\n2 1 2281 2286 61458 XOR\n2 1 64157 2286 64125 AND\n2 1 64125 2350 98468 XOR\n2 1 90367 28745 28744 AND\n2 1 28744 28745 28789 XOR\n1 1 28789 28748 INV\n2 1 28802 28789 90368 XOR\n2 1 1903 90368 105055 XOR\n2 1 105055 105024 2287 XOR\n2 1 90368 84224 105117 XOR\n2 1 64158 2287 64126 AND\n2 1 64126 2351 98469 XOR\n2 1 2287 2319 64094 XOR\n2 1 90368 105024 11600 XOR\n2 1 11599 11600 11598 AND\n2 1 11598 105024 105025 XOR\n2 1 1904 105025 11602 XOR\n2 1 2282 2287 61459 XOR\n2 1 92388 28789 28747 XOR\n2 1 28747 28748 28746 AND\n2 1 28746 28789 28790 XOR\n1 1 28790 28751 INV\n2 1 28803 28790 90369 XOR\n2 1 1904 90369 105056 XOR\n2 1 105056 105025 2288 XOR\n2 1 64159 2288 64127 AND\n2 1 64127 2352 98470 XOR\n2 1 2288 2320 64095 XOR\n2 1 90369 105025 11603 XOR\n2 1 11602 11603 11601 AND\n2 1 11601 105025 105026 XOR\n2 1 1905 105026 11605 XOR\n2 1 2283 2288 61460 XOR\n2 1 92389 28790 28750 XOR\n2 1 28750 28751 28749 AND\n2 1 28749 28790 28791 XOR\n1 1 28791 28754 INV\n2 1 28804 28791 90370 XOR\n2 1 90370 84226 105119 XOR\n2 1 1905 90370 105057 XOR\n2 1 105057 105026 2289 XOR\n2 1 64160 2289 64128 AND\n2 1 64128 2353 98471 XOR\n2 1 2289 2321 64096 XOR\n2 1 90370 105026 11606 XOR\n2 1 11605 11606 11604 AND\n2 1 11604 105026 105027 XOR\n2 1 1906 105027 11608 XOR\n2 1 2284 2289 61461 XOR\n2 1 92390 28791 28753 XOR\n2 1 28753 28754 28752 AND\n2 1 28752 28791 28756 XOR\n2 1 92391 28756 90371 XOR\n2 1 90371 84227 105120 XOR\n2 1 90371 105027 11609 XOR\n2 1 11608 11609 11607 AND\n2 1 11607 105027 105028 XOR\n2 1 1907 105028 11611 XOR\n2 1 1906 90371 105058 XOR\n2 1 105058 105027 2290 XOR\n",
"2 1 2290 2322 64097 XOR\n2 1 2285 2290 61462 XOR\n2 1 61462 2272 100509 XOR\n2 1 100509 98461 115541 XOR\n2 1 64161 2290 64129 AND\n2 1 64129 2354 98472 XOR\n2 1 90371 28756 28755 AND\n2 1 28755 28756 28792 XOR\n1 1 28792 28759 INV\n2 1 28805 28792 90372 XOR\n2 1 90372 84228 105121 XOR\n2 1 1907 90372 105059 XOR\n2 1 105059 105028 2291 XOR\n2 1 64162 2291 64130 AND\n2 1 64130 2355 98473 XOR\n2 1 2291 2323 64098 XOR\n2 1 90372 105028 11612 XOR\n2 1 11611 11612 11610 AND\n2 1 11610 105028 105029 XOR\n2 1 1908 105029 11614 XOR\n2 1 2286 2291 61463 XOR\n2 1 61481 2291 100528 XOR\n2 1 61463 2273 100510 XOR\n2 1 100510 98462 115542 XOR\n2 1 92392 28792 28758 XOR\n2 1 28758 28759 28757 AND\n2 1 28757 28792 28761 XOR\n2 1 92393 28761 90373 XOR\n2 1 1908 90373 105060 XOR\n2 1 105060 105029 2292 XOR\n2 1 64163 2292 64131 AND\n2 1 64131 2356 98474 XOR\n2 1 2292 2324 64099 XOR\n2 1 90373 105029 11615 XOR\n2 1 11614 11615 11613 AND\n2 1 11613 105029 105030 XOR\n2 1 1909 105030 11617 XOR\n2 1 2287 2292 61464 XOR\n2 1 61482 2292 100529 XOR\n2 1 61464 2274 100511 XOR\n2 1 100511 98463 115543 XOR\n2 1 90373 84229 105122 XOR\n2 1 90373 28761 28760 AND\n2 1 28760 28761 28763 XOR\n2 1 92394 28763 90374 XOR\n2 1 90374 84230 105123 XOR\n2 1 1909 90374 105061 XOR\n2 1 105061 105030 2293 XOR\n2 1 64164 2293 64132 AND\n2 1 64132 2357 98475 XOR\n2 1 2293 2325 64100 XOR\n2 1 2288 2293 61465 XOR\n2 1 61483 2293 100530 XOR\n2 1 61465 2275 100512 XOR\n2 1 100512 98464 115544 XOR\n2 1 90374 105030 11618 XOR\n2 1 11617 11618 11616 AND\n2 1 11616 105030 105031 XOR\n2 1 1910 105031 11620 XOR\n2 1 90374 28763 28762 AND\n2 1 28762 28763 28793 XOR\n1 1 28793 28766 INV\n2 1 28806 28793 90375 XOR\n2 1 90375 84231 105124 XOR\n2 1 1910 90375 105062 XOR\n2 1 105062 105031 2294 XOR\n2 1 64165 2294 64133 AND\n2 1 64133 2358 98476 XOR\n2 1 2294 2326 64101 XOR\n2 1 90375 105031 11621 XOR\n2 1 11620 11621 11619 AND\n2 1 11619 105031 105032 XOR\n2 1 1911 105032 11623 XOR\n2 1 2289 2294 61466 XOR\n2 1 61484 2294 100531 XOR\n2 1 61466 2276 100513 XOR\n2 1 100513 98465 115545 XOR\n2 1 92395 28793 28765 XOR\n2 1 28765 28766 28764 AND\n2 1 28764 28793 28768 XOR\n2 1 92396 28768 90376 XOR\n2 1 90376 105032 11624 XOR\n2 1 11623 11624 11622 AND\n2 1 1911 90376 105063 XOR\n2 1 105063 105032 2295 XOR\n2 1 64166 2295 64134 AND\n2 1 64134 2359 98477 XOR\n2 1 2295 2327 64102 XOR\n2 1 11622 105032 105033 XOR\n2 1 1912 105033 11626 XOR\n2 1 2290 2295 61467 XOR\n2 1 61485 2295 100532 XOR\n2 1 61467 2277 100514 XOR\n2 1 100514 98466 115546 XOR\n2 1 90376 84232 105125 XOR\n2 1 90376 28768 28767 AND\n2 1 28767 28768 28770 XOR\n2 1 92397 28770 90377 XOR\n2 1 1912 90377 105064 XOR\n2 1 105064 105033 2296 XOR\n2 1 64167 2296 64135 AND\n2 1 64135 2360 98478 XOR\n2 1 2296 2328 64103 XOR\n2 1 90377 105033 11627 XOR\n2 1 11626 11627 11625 AND\n2 1 11625 105033 105034 XOR\n2 1 1913 105034 11629 XOR\n2 1 2291 2296 61468 XOR\n2 1 61486 2296 100533 XOR\n2 1 61468 2278 100515 XOR\n2 1 100515 98467 115547 XOR\n2 1 90377 84233 105126 XOR\n2 1 90377 28770 28769 AND\n2 1 28769 28770 28794 XOR\n2 1 28807 28794 90378 XOR\n2 1 90378 84234 105127 XOR\n2 1 1913 90378 105065 XOR\n2 1 90378 105034 11630 XOR\n2 1 11629 11630 11628 AND\n2 1 105065 105034 2297 XOR\n2 1 64168 2297 64136 AND\n2 1 64136 2361 98479 XOR\n2 1 2297 2329 64104 XOR\n2 1 11628 105034 105035 XOR\n2 1 1914 105035 11632 XOR\n1 1 28794 28773 INV\n2 1 2292 2297 61469 XOR\n2 1 61469 2279 100516 XOR\n",
"2 1 100516 98468 115548 XOR\n2 1 61455 2297 100502 XOR\n2 1 100502 98454 115504 AND\n2 1 100502 98454 96406 XOR\n2 1 98455 115504 28544 XOR\n2 1 92398 28794 28772 XOR\n2 1 28772 28773 28771 AND\n2 1 28771 28794 28775 XOR\n2 1 92399 28775 90379 XOR\n2 1 90379 84235 105128 XOR\n2 1 1914 90379 105066 XOR\n2 1 105066 105035 2298 XOR\n2 1 64169 2298 64137 AND\n2 1 64137 2362 98480 XOR\n2 1 2298 2330 64105 XOR\n2 1 90379 105035 11633 XOR\n2 1 11632 11633 11631 AND\n2 1 11631 105035 105036 XOR\n2 1 1915 105036 11635 XOR\n2 1 100528 98480 115560 XOR\n2 1 2293 2298 61470 XOR\n2 1 61470 2280 100517 XOR\n2 1 100517 98469 115549 XOR\n2 1 61456 2298 100503 XOR\n2 1 100503 98455 115535 XOR\n2 1 115535 115504 96407 XOR\n2 1 100503 115504 28543 XOR\n2 1 28543 28544 28542 AND\n2 1 28542 115504 115505 XOR\n2 1 98456 115505 28547 XOR\n2 1 90379 28775 28774 AND\n2 1 28774 28775 28777 XOR\n2 1 92400 28777 90380 XOR\n2 1 90380 28777 28776 AND\n2 1 28776 28777 28779 XOR\n2 1 92401 28779 90381 XOR\n2 1 90381 84237 105130 XOR\n2 1 90381 28779 28778 AND\n2 1 28778 28779 28781 XOR\n2 1 92402 28781 90382 XOR\n2 1 90382 28781 28780 AND\n2 1 28780 28781 28795 XOR\n2 1 28808 28795 90383 XOR\n2 1 92403 28795 28783 XOR\n2 1 90380 105036 11636 XOR\n2 1 90382 84238 105131 XOR\n2 1 90380 84236 105129 XOR\n2 1 1915 90380 105067 XOR\n2 1 1916 90381 105068 XOR\n2 1 1917 90382 105069 XOR\n2 1 1918 90383 105070 XOR\n2 1 11635 11636 11634 AND\n2 1 105067 105036 2299 XOR\n2 1 64170 2299 64138 AND\n2 1 64138 2363 98481 XOR\n2 1 100529 98481 115561 XOR\n2 1 2299 2331 64106 XOR\n2 1 11634 105036 105037 XOR\n2 1 1916 105037 11638 XOR\n2 1 105068 105037 2300 XOR\n2 1 64171 2300 64139 AND\n2 1 64139 2364 98482 XOR\n2 1 2300 2332 64107 XOR\n2 1 90381 105037 11639 XOR\n2 1 11638 11639 11637 AND\n2 1 11637 105037 105038 XOR\n2 1 105069 105038 2301 XOR\n2 1 90382 105038 11642 XOR\n2 1 64172 2301 64140 AND\n2 1 64140 2365 98483 XOR\n2 1 100531 98483 115563 XOR\n2 1 2301 2333 64108 XOR\n2 1 1917 105038 11641 XOR\n2 1 11641 11642 11640 AND\n2 1 11640 105038 105039 XOR\n2 1 105070 105039 2302 XOR\n2 1 64173 2302 64141 AND\n2 1 64141 2366 98484 XOR\n2 1 100532 98484 115564 XOR\n2 1 2302 2334 64109 XOR\n2 1 90383 105039 11645 XOR\n1 1 28795 28784 INV\n2 1 28783 28784 28782 AND\n2 1 28782 28795 28796 XOR\n2 1 28809 28796 90384 XOR\n2 1 1919 90384 105071 XOR\n2 1 100530 98482 115562 XOR\n2 1 1918 105039 11644 XOR\n2 1 11644 11645 11643 AND\n2 1 11643 105039 105040 XOR\n2 1 105071 105040 2303 XOR\n2 1 64174 2303 64142 AND\n2 1 64142 2367 98485 XOR\n2 1 100533 98485 115565 XOR\n2 1 2303 2335 64110 XOR\n2 1 2303 2276 61480 XOR\n2 1 2302 2275 61479 XOR\n2 1 2301 2274 61478 XOR\n2 1 2300 2273 61477 XOR\n2 1 2299 2272 61476 XOR\n2 1 2298 2303 61475 XOR\n2 1 2297 2302 61474 XOR\n2 1 2296 2301 61473 XOR\n2 1 2295 2300 61472 XOR\n2 1 2294 2299 61471 XOR\n2 1 61480 2290 100527 XOR\n2 1 100527 98479 115559 XOR\n2 1 61479 2289 100526 XOR\n2 1 100526 98478 115558 XOR\n2 1 61478 2288 100525 XOR\n2 1 100525 98477 115557 XOR\n2 1 61477 2287 100524 XOR\n2 1 100524 98476 115556 XOR\n2 1 61476 2286 100523 XOR\n2 1 100523 98475 115555 XOR\n2 1 61475 2285 100522 XOR\n2 1 100522 98474 115554 XOR\n2 1 61474 2284 100521 XOR\n2 1 100521 98473 115553 XOR\n2 1 61473 2283 100520 XOR\n2 1 100520 98472 115552 XOR\n2 1 61472 2282 100519 XOR\n2 1 100519 98471 115551 XOR\n2 1 61471 2281 100518 XOR\n2 1 100518 98470 115550 XOR\n2 1 61461 2303 100508 XOR\n2 1 100508 98460 115540 XOR\n2 1 61460 2302 100507 XOR\n",
"2 1 100507 98459 115539 XOR\n2 1 61459 2301 100506 XOR\n2 1 100506 98458 115538 XOR\n2 1 61458 2300 100505 XOR\n2 1 100505 98457 115537 XOR\n2 1 61457 2299 100504 XOR\n2 1 100504 115505 28546 XOR\n2 1 28546 28547 28545 AND\n2 1 28545 115505 115506 XOR\n2 1 98457 115506 28550 XOR\n2 1 115537 115506 96409 XOR\n2 1 100505 115506 28549 XOR\n2 1 28549 28550 28548 AND\n2 1 28548 115506 115507 XOR\n2 1 98458 115507 28553 XOR\n2 1 115538 115507 96410 XOR\n2 1 100506 115507 28552 XOR\n2 1 28552 28553 28551 AND\n2 1 28551 115507 115508 XOR\n2 1 115539 115508 96411 XOR\n2 1 98459 115508 28556 XOR\n2 1 100507 115508 28555 XOR\n2 1 28555 28556 28554 AND\n2 1 28554 115508 115509 XOR\n2 1 98460 115509 28559 XOR\n2 1 115540 115509 96412 XOR\n2 1 100508 115509 28558 XOR\n2 1 28558 28559 28557 AND\n2 1 28557 115509 115510 XOR\n2 1 115541 115510 96413 XOR\n2 1 100509 115510 28561 XOR\n2 1 98461 115510 28562 XOR\n2 1 28561 28562 28560 AND\n2 1 28560 115510 115511 XOR\n2 1 100510 115511 28564 XOR\n2 1 115542 115511 96414 XOR\n2 1 98462 115511 28565 XOR\n2 1 28564 28565 28563 AND\n2 1 28563 115511 115512 XOR\n2 1 115543 115512 96415 XOR\n2 1 98463 115512 28568 XOR\n2 1 100511 115512 28567 XOR\n2 1 28567 28568 28566 AND\n2 1 28566 115512 115513 XOR\n2 1 98464 115513 28571 XOR\n2 1 100512 115513 28570 XOR\n2 1 28570 28571 28569 AND\n2 1 28569 115513 115514 XOR\n2 1 100513 115514 28573 XOR\n2 1 98465 115514 28574 XOR\n2 1 28573 28574 28572 AND\n2 1 28572 115514 115515 XOR\n2 1 100514 115515 28576 XOR\n2 1 115546 115515 96418 XOR\n2 1 98466 115515 28577 XOR\n2 1 28576 28577 28575 AND\n2 1 28575 115515 115516 XOR\n2 1 115547 115516 96419 XOR\n2 1 100515 115516 28579 XOR\n2 1 115545 115514 96417 XOR\n2 1 98467 115516 28580 XOR\n2 1 28579 28580 28578 AND\n2 1 28578 115516 115517 XOR\n2 1 100516 115517 28582 XOR\n2 1 98468 115517 28583 XOR\n2 1 115548 115517 96420 XOR\n2 1 100504 98456 115536 XOR\n2 1 115536 115505 96408 XOR\n2 1 115544 115513 96416 XOR\n2 1 28582 28583 28581 AND\n2 1 28581 115517 115518 XOR\n2 1 100517 115518 28585 XOR\n2 1 98469 115518 28586 XOR\n2 1 115549 115518 96421 XOR\n2 1 28585 28586 28584 AND\n2 1 28584 115518 115519 XOR\n2 1 115550 115519 96422 XOR\n2 1 100518 115519 28588 XOR\n2 1 98470 115519 28589 XOR\n2 1 28588 28589 28587 AND\n2 1 28587 115519 115520 XOR\n2 1 100519 115520 28591 XOR\n2 1 98471 115520 28592 XOR\n2 1 28591 28592 28590 AND\n2 1 28590 115520 115521 XOR\n2 1 115552 115521 96424 XOR\n2 1 115551 115520 96423 XOR\n2 1 100520 115521 28594 XOR\n2 1 98472 115521 28595 XOR\n2 1 28594 28595 28593 AND\n2 1 28593 115521 115522 XOR\n2 1 100521 115522 28597 XOR\n2 1 115553 115522 96425 XOR\n2 1 98473 115522 28598 XOR\n2 1 28597 28598 28596 AND\n2 1 28596 115522 115523 XOR\n2 1 100522 115523 28600 XOR\n2 1 115554 115523 96426 XOR\n2 1 98474 115523 28601 XOR\n2 1 28600 28601 28599 AND\n2 1 28599 115523 115524 XOR\n2 1 100523 115524 28603 XOR\n2 1 115555 115524 96427 XOR\n2 1 98475 115524 28604 XOR\n2 1 28603 28604 28602 AND\n2 1 28602 115524 115525 XOR\n2 1 98476 115525 28607 XOR\n2 1 115556 115525 96428 XOR\n2 1 100524 115525 28606 XOR\n2 1 28606 28607 28605 AND\n2 1 28605 115525 115526 XOR\n2 1 115557 115526 96429 XOR\n2 1 100525 115526 28609 XOR\n2 1 98477 115526 28610 XOR\n2 1 28609 28610 28608 AND\n2 1 28608 115526 115527 XOR\n2 1 100526 115527 28612 XOR\n2 1 98478 115527 28613 XOR\n2 1 115558 115527 96430 XOR\n2 1 28612 28613 28611 AND\n2 1 28611 115527 115528 XOR\n2 1 115559 115528 96431 XOR\n2 1 100527 115528 28615 XOR\n2 1 98479 115528 28616 XOR\n2 1 28615 28616 28614 AND\n2 1 28614 115528 115529 XOR\n2 1 100528 115529 28618 XOR\n2 1 115560 115529 96432 XOR\n",
"2 1 98480 115529 28619 XOR\n2 1 28618 28619 28617 AND\n2 1 28617 115529 115530 XOR\n2 1 100529 115530 28621 XOR\n2 1 115561 115530 96433 XOR\n2 1 98481 115530 28622 XOR\n2 1 28621 28622 28620 AND\n2 1 28620 115530 115531 XOR\n2 1 98482 115531 28625 XOR\n2 1 100530 115531 28624 XOR\n2 1 115562 115531 96434 XOR\n2 1 28624 28625 28623 AND\n2 1 28623 115531 115532 XOR\n2 1 100531 115532 28627 XOR\n2 1 115563 115532 96435 XOR\n2 1 98483 115532 28628 XOR\n2 1 28627 28628 28626 AND\n2 1 28626 115532 115533 XOR\n2 1 98484 115533 28631 XOR\n2 1 100532 115533 28630 XOR\n2 1 28630 28631 28629 AND\n2 1 28629 115533 115534 XOR\n2 1 115565 115534 96437 XOR\n2 1 115564 115533 96436 XOR\n2 1 90369 84225 105118 XOR\n2 1 90383 84239 105132 XOR\n2 1 90384 84240 105133 XOR\n2 1 84214 105076 11660 XOR\n2 1 90358 105076 11659 XOR\n2 1 11659 11660 11658 AND\n2 1 11658 105076 105077 XOR\n2 1 90359 105077 11662 XOR\n2 1 84215 105077 11663 XOR\n2 1 11662 11663 11661 AND\n2 1 11661 105077 105078 XOR\n2 1 105109 105078 1767 XOR\n2 1 84216 105078 11666 XOR\n2 1 1767 1831 70742 XOR\n2 1 70742 70710 70678 AND\n2 1 70678 1831 86232 XOR\n2 1 1767 1799 70614 XOR\n2 1 90360 105078 11665 XOR\n2 1 11665 11666 11664 AND\n2 1 11664 105078 105079 XOR\n2 1 105110 105079 1768 XOR\n2 1 90361 105079 11668 XOR\n2 1 84217 105079 11669 XOR\n2 1 11668 11669 11667 AND\n2 1 11667 105079 105080 XOR\n2 1 1768 1832 70743 XOR\n2 1 70743 70711 70679 AND\n2 1 70679 1832 86233 XOR\n2 1 1768 1800 70615 XOR\n2 1 84218 105080 11672 XOR\n2 1 90362 105080 11671 XOR\n2 1 11671 11672 11670 AND\n2 1 11670 105080 105081 XOR\n2 1 105112 105081 1770 XOR\n2 1 1770 1834 70745 XOR\n2 1 70745 70713 70681 AND\n2 1 70681 1834 86235 XOR\n2 1 1770 1802 70617 XOR\n2 1 105111 105080 1769 XOR\n2 1 1769 1833 70744 XOR\n2 1 70744 70712 70680 AND\n2 1 70680 1833 86234 XOR\n2 1 1769 1801 70616 XOR\n2 1 84219 105081 11675 XOR\n2 1 90363 105081 11674 XOR\n2 1 11674 11675 11673 AND\n2 1 11673 105081 105082 XOR\n2 1 105113 105082 1771 XOR\n2 1 1771 1835 70746 XOR\n2 1 70746 70714 70682 AND\n2 1 70682 1835 86236 XOR\n2 1 1771 1803 70618 XOR\n2 1 1760 1771 67405 XOR\n2 1 84220 105082 11678 XOR\n2 1 90364 105082 11677 XOR\n2 1 11677 11678 11676 AND\n2 1 11676 105082 105083 XOR\n2 1 90365 105083 11680 XOR\n2 1 105114 105083 1772 XOR\n2 1 84221 105083 11681 XOR\n2 1 11680 11681 11679 AND\n2 1 1772 1836 70747 XOR\n2 1 70747 70715 70683 AND\n2 1 70683 1836 86237 XOR\n2 1 1772 1804 70619 XOR\n2 1 1761 1772 67406 XOR\n2 1 11679 105083 105084 XOR\n2 1 105115 105084 1773 XOR\n2 1 90366 105084 11683 XOR\n2 1 1773 1837 70748 XOR\n2 1 70748 70716 70684 AND\n2 1 70684 1837 86238 XOR\n2 1 1773 1805 70620 XOR\n2 1 1762 1773 67375 XOR\n2 1 84222 105084 11684 XOR\n2 1 11683 11684 11682 AND\n2 1 11682 105084 105085 XOR\n2 1 105116 105085 1774 XOR\n2 1 90367 105085 11686 XOR\n2 1 84223 105085 11687 XOR\n2 1 11686 11687 11685 AND\n2 1 1774 1838 70749 XOR\n2 1 70749 70717 70685 AND\n2 1 70685 1838 86239 XOR\n2 1 1774 1806 70621 XOR\n2 1 1763 1774 67376 XOR\n2 1 11685 105085 105086 XOR\n2 1 90368 105086 11689 XOR\n2 1 105117 105086 1775 XOR\n2 1 1775 1839 70750 XOR\n2 1 70750 70718 70686 AND\n2 1 70686 1839 86240 XOR\n2 1 1775 1807 70622 XOR\n2 1 84224 105086 11690 XOR\n2 1 11689 11690 11688 AND\n2 1 11688 105086 105087 XOR\n2 1 84225 105087 11693 XOR\n2 1 105118 105087 1776 XOR\n2 1 1776 1840 70751 XOR\n2 1 70751 70719 70687 AND\n2 1 70687 1840 86241 XOR\n2 1 1776 1808 70623 XOR\n2 1 90369 105087 11692 XOR\n2 1 11692 11693 11691 AND\n",
"2 1 11691 105087 105088 XOR\n2 1 1765 1776 67378 XOR\n2 1 1764 1775 67377 XOR\n2 1 84226 105088 11696 XOR\n2 1 105119 105088 1777 XOR\n2 1 1777 1841 70752 XOR\n2 1 70752 70720 70688 AND\n2 1 70688 1841 86242 XOR\n2 1 1777 1809 70624 XOR\n2 1 90370 105088 11695 XOR\n2 1 11695 11696 11694 AND\n2 1 11694 105088 105089 XOR\n2 1 105120 105089 1778 XOR\n2 1 1778 1842 70753 XOR\n2 1 70753 70721 70689 AND\n2 1 70689 1842 86243 XOR\n2 1 1778 1810 70625 XOR\n2 1 1767 1778 67380 XOR\n2 1 90371 105089 11698 XOR\n2 1 105108 105077 1766 XOR\n2 1 1766 1830 70741 XOR\n2 1 70741 70709 70677 AND\n2 1 70677 1830 86231 XOR\n2 1 1766 1798 70613 XOR\n2 1 1766 1777 67379 XOR\n2 1 84227 105089 11699 XOR\n2 1 11698 11699 11697 AND\n2 1 11697 105089 105090 XOR\n2 1 105121 105090 1779 XOR\n2 1 1779 1843 70754 XOR\n2 1 70754 70722 70690 AND\n2 1 70690 1843 86244 XOR\n2 1 1779 1811 70626 XOR\n2 1 84228 105090 11702 XOR\n2 1 1768 1779 67381 XOR\n2 1 90372 105090 11701 XOR\n2 1 11701 11702 11700 AND\n2 1 11700 105090 105091 XOR\n2 1 90373 105091 11704 XOR\n2 1 105122 105091 1780 XOR\n2 1 1780 1844 70755 XOR\n2 1 70755 70723 70691 AND\n2 1 70691 1844 86245 XOR\n2 1 1780 1812 70627 XOR\n2 1 1769 1780 67382 XOR\n2 1 67405 1780 88303 XOR\n2 1 84229 105091 11705 XOR\n2 1 11704 11705 11703 AND\n2 1 11703 105091 105092 XOR\n2 1 90374 105092 11707 XOR\n2 1 84230 105092 11708 XOR\n2 1 11707 11708 11706 AND\n2 1 105123 105092 1781 XOR\n2 1 1781 1845 70756 XOR\n2 1 70756 70724 70692 AND\n2 1 70692 1845 86246 XOR\n2 1 1781 1813 70628 XOR\n2 1 1781 1760 67394 XOR\n2 1 1770 1781 67383 XOR\n2 1 67406 1781 88304 XOR\n2 1 67394 1769 88292 XOR\n2 1 88292 86244 115367 XOR\n2 1 11706 105092 105093 XOR\n2 1 90375 105093 11710 XOR\n2 1 105124 105093 1782 XOR\n2 1 1782 1846 70757 XOR\n2 1 70757 70725 70693 AND\n2 1 70693 1846 86247 XOR\n2 1 1782 1814 70629 XOR\n2 1 84231 105093 11711 XOR\n2 1 11710 11711 11709 AND\n2 1 11709 105093 105094 XOR\n2 1 90376 105094 11713 XOR\n2 1 84232 105094 11714 XOR\n2 1 11713 11714 11712 AND\n2 1 11712 105094 105095 XOR\n2 1 84233 105095 11717 XOR\n2 1 1782 1761 67395 XOR\n2 1 1771 1782 67384 XOR\n2 1 67395 1770 88293 XOR\n2 1 88293 86245 115368 XOR\n2 1 67375 1782 88273 XOR\n2 1 105126 105095 1784 XOR\n2 1 1784 1848 70759 XOR\n2 1 70759 70727 70695 AND\n2 1 70695 1848 86249 XOR\n2 1 1784 1816 70631 XOR\n2 1 1784 1763 67397 XOR\n2 1 1773 1784 67386 XOR\n2 1 67397 1772 88295 XOR\n2 1 67386 1761 88284 XOR\n2 1 88284 86236 115359 XOR\n2 1 67377 1784 88275 XOR\n2 1 88275 86227 115350 XOR\n2 1 88295 86247 115370 XOR\n2 1 90377 105095 11716 XOR\n2 1 11716 11717 11715 AND\n2 1 11715 105095 105096 XOR\n2 1 84234 105096 11720 XOR\n2 1 105127 105096 1785 XOR\n2 1 1785 1849 70760 XOR\n2 1 70760 70728 70696 AND\n2 1 70696 1849 86250 XOR\n2 1 1785 1817 70632 XOR\n2 1 1785 1764 67398 XOR\n2 1 1774 1785 67387 XOR\n2 1 67398 1773 88296 XOR\n2 1 67387 1762 88285 XOR\n2 1 88285 86237 115360 XOR\n2 1 67378 1785 88276 XOR\n2 1 88276 86228 115351 XOR\n2 1 90378 105096 11719 XOR\n2 1 11719 11720 11718 AND\n2 1 11718 105096 105097 XOR\n2 1 90379 105097 11722 XOR\n2 1 84235 105097 11723 XOR\n2 1 11722 11723 11721 AND\n2 1 11721 105097 105098 XOR\n2 1 84236 105098 11726 XOR\n2 1 105129 105098 1787 XOR\n2 1 1787 1851 70762 XOR\n2 1 70762 70730 70698 AND\n2 1 70698 1851 86252 XOR\n2 1 1787 1819 70634 XOR\n2 1 1787 1766 67400 XOR\n2 1 1776 1787 67389 XOR\n2 1 67400 1775 88298 XOR\n2 1 88298 86250 115373 XOR\n",
"2 1 67389 1764 88287 XOR\n2 1 67380 1787 88278 XOR\n2 1 88278 86230 115353 XOR\n2 1 105125 105094 1783 XOR\n2 1 1783 1847 70758 XOR\n2 1 70758 70726 70694 AND\n2 1 70694 1847 86248 XOR\n2 1 88296 86248 115371 XOR\n2 1 1783 1815 70630 XOR\n2 1 1783 1762 67396 XOR\n2 1 1772 1783 67385 XOR\n2 1 67396 1771 88294 XOR\n2 1 88294 86246 115369 XOR\n2 1 67385 1760 88283 XOR\n2 1 88283 86235 115358 XOR\n2 1 67376 1783 88274 XOR\n2 1 88274 86226 115349 XOR\n2 1 88273 86225 115318 AND\n2 1 86226 115318 28172 XOR\n2 1 88274 115318 28171 XOR\n2 1 28171 28172 28170 AND\n2 1 28170 115318 115319 XOR\n2 1 115350 115319 84179 XOR\n2 1 88275 115319 28174 XOR\n2 1 86227 115319 28175 XOR\n2 1 88287 86239 115362 XOR\n2 1 88273 86225 84177 XOR\n2 1 28174 28175 28173 AND\n2 1 28173 115319 115320 XOR\n2 1 88276 115320 28177 XOR\n2 1 115351 115320 84180 XOR\n2 1 86228 115320 28178 XOR\n2 1 28177 28178 28176 AND\n2 1 28176 115320 115321 XOR\n2 1 86229 115321 28181 XOR\n2 1 115349 115318 84178 XOR\n2 1 90380 105098 11725 XOR\n2 1 11725 11726 11724 AND\n2 1 11724 105098 105099 XOR\n2 1 105130 105099 1788 XOR\n2 1 90381 105099 11728 XOR\n2 1 84237 105099 11729 XOR\n2 1 11728 11729 11727 AND\n2 1 1788 1852 70763 XOR\n2 1 70763 70731 70699 AND\n2 1 70699 1852 86253 XOR\n2 1 1788 1820 70635 XOR\n2 1 1788 1767 67401 XOR\n2 1 1777 1788 67390 XOR\n2 1 67401 1776 88299 XOR\n2 1 67390 1765 88288 XOR\n2 1 88288 86240 115363 XOR\n2 1 67381 1788 88279 XOR\n2 1 11727 105099 105100 XOR\n2 1 90382 105100 11731 XOR\n2 1 105131 105100 1789 XOR\n2 1 1789 1853 70764 XOR\n2 1 70764 70732 70700 AND\n2 1 70700 1853 86254 XOR\n2 1 1789 1821 70636 XOR\n2 1 1789 1768 67402 XOR\n2 1 1778 1789 67391 XOR\n2 1 67402 1777 88300 XOR\n2 1 88300 86252 115375 XOR\n2 1 67391 1766 88289 XOR\n2 1 88289 86241 115364 XOR\n2 1 67382 1789 88280 XOR\n2 1 88279 86231 115354 XOR\n2 1 84238 105100 11732 XOR\n2 1 11731 11732 11730 AND\n2 1 11730 105100 105101 XOR\n2 1 105132 105101 1790 XOR\n2 1 1790 1854 70765 XOR\n2 1 70765 70733 70701 AND\n2 1 70701 1854 86255 XOR\n2 1 88303 86255 115378 XOR\n2 1 1790 1822 70637 XOR\n2 1 90383 105101 11734 XOR\n2 1 84239 105101 11735 XOR\n2 1 11734 11735 11733 AND\n2 1 1790 1769 67403 XOR\n2 1 1779 1790 67392 XOR\n2 1 67403 1778 88301 XOR\n2 1 88301 86253 115376 XOR\n2 1 67392 1767 88290 XOR\n2 1 88290 86242 115365 XOR\n2 1 67383 1790 88281 XOR\n2 1 88281 86233 115356 XOR\n2 1 11733 105101 105102 XOR\n2 1 105133 105102 1791 XOR\n2 1 1791 1855 70766 XOR\n2 1 70766 70734 70702 AND\n2 1 70702 1855 86256 XOR\n2 1 1791 1823 70638 XOR\n2 1 1791 1770 67404 XOR\n2 1 1780 1791 67393 XOR\n2 1 67404 1779 88302 XOR\n2 1 67393 1768 88291 XOR\n2 1 88291 86243 115366 XOR\n2 1 67384 1791 88282 XOR\n2 1 88282 86234 115357 XOR\n2 1 88280 86232 115355 XOR\n2 1 88304 86256 115379 XOR\n2 1 88302 86254 115377 XOR\n2 1 105128 105097 1786 XOR\n2 1 1786 1850 70761 XOR\n2 1 70761 70729 70697 AND\n2 1 70697 1850 86251 XOR\n2 1 1786 1818 70633 XOR\n2 1 88299 86251 115374 XOR\n2 1 1786 1765 67399 XOR\n2 1 1775 1786 67388 XOR\n2 1 67399 1774 88297 XOR\n2 1 88297 86249 115372 XOR\n2 1 67388 1763 88286 XOR\n2 1 88286 86238 115361 XOR\n2 1 67379 1786 88277 XOR\n2 1 88277 86229 115352 XOR\n2 1 115352 115321 84181 XOR\n2 1 88277 115321 28180 XOR\n2 1 28180 28181 28179 AND\n2 1 28179 115321 115322 XOR\n2 1 88278 115322 28183 XOR\n2 1 86230 115322 28184 XOR\n2 1 115353 115322 84182 XOR\n2 1 28183 28184 28182 AND\n2 1 28182 115322 115323 XOR\n2 1 86231 115323 28187 XOR\n",
"2 1 115354 115323 84183 XOR\n2 1 88279 115323 28186 XOR\n2 1 28186 28187 28185 AND\n2 1 28185 115323 115324 XOR\n2 1 86232 115324 28190 XOR\n2 1 115355 115324 84184 XOR\n2 1 88280 115324 28189 XOR\n2 1 28189 28190 28188 AND\n2 1 28188 115324 115325 XOR\n2 1 115356 115325 84185 XOR\n2 1 88281 115325 28192 XOR\n2 1 86233 115325 28193 XOR\n2 1 28192 28193 28191 AND\n2 1 28191 115325 115326 XOR\n2 1 86234 115326 28196 XOR\n2 1 88282 115326 28195 XOR\n2 1 28195 28196 28194 AND\n2 1 28194 115326 115327 XOR\n2 1 115358 115327 84187 XOR\n2 1 86235 115327 28199 XOR\n2 1 115357 115326 84186 XOR\n2 1 88283 115327 28198 XOR\n2 1 28198 28199 28197 AND\n2 1 28197 115327 115328 XOR\n2 1 115359 115328 84188 XOR\n2 1 86236 115328 28202 XOR\n2 1 88284 115328 28201 XOR\n2 1 28201 28202 28200 AND\n2 1 28200 115328 115329 XOR\n2 1 88285 115329 28204 XOR\n2 1 115360 115329 84189 XOR\n2 1 86237 115329 28205 XOR\n2 1 28204 28205 28203 AND\n2 1 28203 115329 115330 XOR\n2 1 115361 115330 84190 XOR\n2 1 86238 115330 28208 XOR\n2 1 88286 115330 28207 XOR\n2 1 28207 28208 28206 AND\n2 1 28206 115330 115331 XOR\n2 1 86239 115331 28211 XOR\n2 1 88287 115331 28210 XOR\n2 1 28210 28211 28209 AND\n2 1 28209 115331 115332 XOR\n2 1 88288 115332 28213 XOR\n2 1 115363 115332 84192 XOR\n2 1 86240 115332 28214 XOR\n2 1 28213 28214 28212 AND\n2 1 28212 115332 115333 XOR\n2 1 86241 115333 28217 XOR\n2 1 88289 115333 28216 XOR\n2 1 28216 28217 28215 AND\n2 1 28215 115333 115334 XOR\n2 1 115365 115334 84194 XOR\n2 1 86242 115334 28220 XOR\n2 1 88290 115334 28219 XOR\n2 1 28219 28220 28218 AND\n2 1 28218 115334 115335 XOR\n2 1 88291 115335 28222 XOR\n2 1 115366 115335 84195 XOR\n2 1 86243 115335 28223 XOR\n2 1 115364 115333 84193 XOR\n2 1 28222 28223 28221 AND\n2 1 28221 115335 115336 XOR\n2 1 115367 115336 84196 XOR\n2 1 86244 115336 28226 XOR\n2 1 88292 115336 28225 XOR\n2 1 28225 28226 28224 AND\n2 1 28224 115336 115337 XOR\n2 1 115368 115337 84197 XOR\n2 1 86245 115337 28229 XOR\n2 1 88293 115337 28228 XOR\n2 1 28228 28229 28227 AND\n2 1 28227 115337 115338 XOR\n2 1 86246 115338 28232 XOR\n2 1 115369 115338 84198 XOR\n2 1 88294 115338 28231 XOR\n2 1 28231 28232 28230 AND\n2 1 28230 115338 115339 XOR\n2 1 115370 115339 84199 XOR\n2 1 88295 115339 28234 XOR\n2 1 86247 115339 28235 XOR\n2 1 28234 28235 28233 AND\n2 1 28233 115339 115340 XOR\n2 1 88296 115340 28237 XOR\n2 1 115371 115340 84200 XOR\n2 1 86248 115340 28238 XOR\n2 1 28237 28238 28236 AND\n2 1 28236 115340 115341 XOR\n2 1 88297 115341 28240 XOR\n2 1 115372 115341 84201 XOR\n2 1 86249 115341 28241 XOR\n2 1 28240 28241 28239 AND\n2 1 28239 115341 115342 XOR\n2 1 115373 115342 84202 XOR\n2 1 86250 115342 28244 XOR\n2 1 88298 115342 28243 XOR\n2 1 28243 28244 28242 AND\n2 1 28242 115342 115343 XOR\n2 1 88299 115343 28246 XOR\n2 1 86251 115343 28247 XOR\n2 1 28246 28247 28245 AND\n2 1 28245 115343 115344 XOR\n2 1 88300 115344 28249 XOR\n2 1 115375 115344 84204 XOR\n2 1 86252 115344 28250 XOR\n2 1 28249 28250 28248 AND\n2 1 28248 115344 115345 XOR\n2 1 115374 115343 84203 XOR\n2 1 88301 115345 28252 XOR\n2 1 86253 115345 28253 XOR\n2 1 28252 28253 28251 AND\n2 1 28251 115345 115346 XOR\n2 1 86254 115346 28256 XOR\n2 1 88302 115346 28255 XOR\n2 1 28255 28256 28254 AND\n2 1 28254 115346 115347 XOR\n2 1 115378 115347 84207 XOR\n2 1 86255 115347 28259 XOR\n2 1 88303 115347 28258 XOR\n2 1 28258 28259 28257 AND\n2 1 28257 115347 115348 XOR\n2 1 115379 115348 84208 XOR\n2 1 115377 115346 84206 XOR\n2 1 115376 115345 84205 XOR\n2 1 115362 115331 84191 XOR\n2 1 76289 76291 81104 XOR\n2 1 81104 76464 130128 XOR\n2 1 76288 76290 81103 XOR\n",
"2 1 81103 76463 130127 XOR\n2 1 76287 76289 81102 XOR\n2 1 81102 76462 130126 XOR\n2 1 76286 76288 81101 XOR\n2 1 81101 76461 130125 XOR\n2 1 76285 76287 81100 XOR\n2 1 81100 76460 130124 XOR\n2 1 76284 76286 81099 XOR\n2 1 81099 76459 130123 XOR\n2 1 76283 76285 81098 XOR\n2 1 81098 76458 130122 XOR\n2 1 76282 76284 81097 XOR\n2 1 81097 76457 130121 XOR\n2 1 76281 76283 81096 XOR\n2 1 81096 76456 130120 XOR\n2 1 76280 76282 81095 XOR\n2 1 81095 76455 130119 XOR\n2 1 76279 76281 6551 XOR\n2 1 76278 76280 6550 XOR\n2 1 76277 76279 6549 XOR\n2 1 76276 76278 6548 XOR\n2 1 76275 76277 6547 XOR\n2 1 76274 76276 6546 XOR\n2 1 76273 76275 6545 XOR\n2 1 76304 76274 6544 XOR\n2 1 76303 76273 6543 XOR\n2 1 76302 76304 6542 XOR\n2 1 76301 76303 6541 XOR\n2 1 76300 76302 6540 XOR\n2 1 76299 76301 6539 XOR\n2 1 76298 76300 6538 XOR\n2 1 76297 76299 6537 XOR\n2 1 76296 76298 6536 XOR\n2 1 76295 76297 6535 XOR\n2 1 76294 76296 6534 XOR\n2 1 76293 76295 6533 XOR\n2 1 76292 76294 6532 XOR\n2 1 76291 76293 6531 XOR\n2 1 76290 76292 6530 XOR\n2 1 6551 76304 81094 XOR\n2 1 81094 76454 130118 XOR\n2 1 6550 76303 81093 XOR\n2 1 81093 76453 130117 XOR\n2 1 6549 76302 81092 XOR\n2 1 81092 76452 130116 XOR\n2 1 6548 76301 81091 XOR\n2 1 81091 76451 130115 XOR\n2 1 6547 76300 81090 XOR\n2 1 81090 76450 130114 XOR\n2 1 6546 76299 81089 XOR\n2 1 81089 76449 130113 XOR\n2 1 6545 76298 81088 XOR\n2 1 81088 76448 130112 XOR\n2 1 6544 76297 81087 XOR\n2 1 81087 76447 130111 XOR\n2 1 6543 76296 81086 XOR\n2 1 81086 76446 130110 XOR\n2 1 6542 76295 81085 XOR\n2 1 81085 76445 130109 XOR\n2 1 6541 76294 81084 XOR\n2 1 81084 76444 130108 XOR\n2 1 6540 76293 81083 XOR\n2 1 81083 76443 130107 XOR\n2 1 6539 76292 81082 XOR\n2 1 81082 76442 130106 XOR\n2 1 6538 76291 81081 XOR\n2 1 81081 76441 130105 XOR\n2 1 6537 76290 81080 XOR\n2 1 81080 76440 130104 XOR\n2 1 6536 76289 81079 XOR\n2 1 81079 76439 130103 XOR\n2 1 6535 76288 81078 XOR\n2 1 81078 76438 130102 XOR\n2 1 6534 76287 81077 XOR\n2 1 81077 76437 130101 XOR\n2 1 6533 76286 81076 XOR\n2 1 81076 76436 130100 XOR\n2 1 6532 76285 81075 XOR\n2 1 81075 76435 130099 XOR\n2 1 6531 76284 81074 XOR\n2 1 81074 76434 130098 XOR\n2 1 6530 76283 81073 XOR\n2 1 81073 76433 130067 AND\n2 1 81073 76433 79537 XOR\n2 1 130098 130067 79538 XOR\n2 1 81074 130067 53256 XOR\n2 1 76434 130067 53257 XOR\n2 1 53256 53257 53255 AND\n2 1 53255 130067 130068 XOR\n2 1 130099 130068 79539 XOR\n2 1 81075 130068 53259 XOR\n2 1 76435 130068 53260 XOR\n2 1 53259 53260 53258 AND\n2 1 53258 130068 130069 XOR\n2 1 130100 130069 79540 XOR\n2 1 81076 130069 53262 XOR\n2 1 76436 130069 53263 XOR\n2 1 53262 53263 53261 AND\n2 1 53261 130069 130070 XOR\n2 1 130101 130070 79541 XOR\n2 1 81077 130070 53265 XOR\n2 1 76437 130070 53266 XOR\n2 1 53265 53266 53264 AND\n2 1 53264 130070 130071 XOR\n2 1 130102 130071 79542 XOR\n2 1 81078 130071 53268 XOR\n2 1 76438 130071 53269 XOR\n2 1 53268 53269 53267 AND\n2 1 53267 130071 130072 XOR\n2 1 130103 130072 79543 XOR\n2 1 81079 130072 53271 XOR\n2 1 76439 130072 53272 XOR\n2 1 53271 53272 53270 AND\n2 1 53270 130072 130073 XOR\n2 1 130104 130073 79544 XOR\n2 1 81080 130073 53274 XOR\n2 1 76440 130073 53275 XOR\n2 1 53274 53275 53273 AND\n2 1 53273 130073 130074 XOR\n2 1 130105 130074 79545 XOR\n2 1 81081 130074 53277 XOR\n2 1 76441 130074 53278 XOR\n2 1 53277 53278 53276 AND\n2 1 53276 130074 130075 XOR\n2 1 130106 130075 79546 XOR\n2 1 81082 130075 53280 XOR\n2 1 76442 130075 53281 XOR\n2 1 53280 53281 53279 AND\n",
"2 1 53279 130075 130076 XOR\n2 1 130107 130076 79547 XOR\n2 1 81083 130076 53283 XOR\n2 1 76443 130076 53284 XOR\n2 1 53283 53284 53282 AND\n2 1 53282 130076 130077 XOR\n2 1 130108 130077 79548 XOR\n2 1 81084 130077 53286 XOR\n2 1 76444 130077 53287 XOR\n2 1 53286 53287 53285 AND\n2 1 53285 130077 130078 XOR\n2 1 130109 130078 79549 XOR\n2 1 81085 130078 53289 XOR\n2 1 76445 130078 53290 XOR\n2 1 53289 53290 53288 AND\n2 1 53288 130078 130079 XOR\n2 1 130110 130079 79550 XOR\n2 1 81086 130079 53292 XOR\n2 1 76446 130079 53293 XOR\n2 1 53292 53293 53291 AND\n2 1 53291 130079 130080 XOR\n2 1 130111 130080 79551 XOR\n2 1 81087 130080 53295 XOR\n2 1 76447 130080 53296 XOR\n2 1 53295 53296 53294 AND\n2 1 53294 130080 130081 XOR\n2 1 130112 130081 79552 XOR\n2 1 81088 130081 53298 XOR\n2 1 76448 130081 53299 XOR\n2 1 53298 53299 53297 AND\n2 1 53297 130081 130082 XOR\n2 1 130113 130082 79553 XOR\n2 1 81089 130082 53301 XOR\n2 1 76449 130082 53302 XOR\n2 1 53301 53302 53300 AND\n2 1 53300 130082 130083 XOR\n2 1 130114 130083 79554 XOR\n2 1 81090 130083 53304 XOR\n2 1 76450 130083 53305 XOR\n2 1 53304 53305 53303 AND\n2 1 53303 130083 130084 XOR\n2 1 130115 130084 79555 XOR\n2 1 81091 130084 53307 XOR\n2 1 76451 130084 53308 XOR\n2 1 53307 53308 53306 AND\n2 1 53306 130084 130085 XOR\n2 1 130116 130085 79556 XOR\n2 1 81092 130085 53310 XOR\n2 1 76452 130085 53311 XOR\n2 1 53310 53311 53309 AND\n2 1 53309 130085 130086 XOR\n2 1 130117 130086 79557 XOR\n2 1 81093 130086 53313 XOR\n2 1 76453 130086 53314 XOR\n2 1 53313 53314 53312 AND\n2 1 53312 130086 130087 XOR\n2 1 130118 130087 79558 XOR\n2 1 81094 130087 53316 XOR\n2 1 76454 130087 53317 XOR\n2 1 53316 53317 53315 AND\n2 1 53315 130087 130088 XOR\n2 1 130119 130088 79559 XOR\n2 1 81095 130088 53319 XOR\n2 1 76455 130088 53320 XOR\n2 1 53319 53320 53318 AND\n2 1 53318 130088 130089 XOR\n2 1 130120 130089 79560 XOR\n2 1 81096 130089 53322 XOR\n2 1 76456 130089 53323 XOR\n2 1 53322 53323 53321 AND\n2 1 53321 130089 130090 XOR\n2 1 130121 130090 79561 XOR\n2 1 81097 130090 53325 XOR\n2 1 76457 130090 53326 XOR\n2 1 53325 53326 53324 AND\n2 1 53324 130090 130091 XOR\n2 1 130122 130091 79562 XOR\n2 1 81098 130091 53328 XOR\n2 1 76458 130091 53329 XOR\n2 1 53328 53329 53327 AND\n2 1 53327 130091 130092 XOR\n2 1 130123 130092 79563 XOR\n2 1 81099 130092 53331 XOR\n2 1 76459 130092 53332 XOR\n2 1 53331 53332 53330 AND\n2 1 53330 130092 130093 XOR\n2 1 130124 130093 79564 XOR\n2 1 81100 130093 53334 XOR\n2 1 76460 130093 53335 XOR\n2 1 53334 53335 53333 AND\n2 1 53333 130093 130094 XOR\n2 1 130125 130094 79565 XOR\n2 1 81101 130094 53337 XOR\n2 1 76461 130094 53338 XOR\n2 1 53337 53338 53336 AND\n2 1 53336 130094 130095 XOR\n2 1 130126 130095 79566 XOR\n2 1 81102 130095 53340 XOR\n2 1 76462 130095 53341 XOR\n2 1 53340 53341 53339 AND\n2 1 53339 130095 130096 XOR\n2 1 130127 130096 79567 XOR\n2 1 81103 130096 53343 XOR\n2 1 76463 130096 53344 XOR\n2 1 53343 53344 53342 AND\n2 1 53342 130096 130097 XOR\n2 1 130128 130097 79568 XOR\n2 1 76727 76738 82672 XOR\n2 1 82672 76784 130252 XOR\n2 1 76726 76737 82671 XOR\n2 1 82671 76783 130251 XOR\n2 1 76725 76736 82670 XOR\n2 1 82670 76782 130250 XOR\n2 1 76724 76735 5357 XOR\n2 1 76723 76734 5356 XOR\n2 1 76722 76733 5355 XOR\n2 1 76721 76732 5354 XOR\n2 1 76752 76731 5353 XOR\n2 1 76751 76730 5352 XOR\n2 1 76750 76729 5351 XOR\n2 1 76749 76728 5350 XOR\n2 1 76748 76727 5349 XOR\n2 1 76747 76726 5348 XOR\n2 1 76746 76725 5347 XOR\n2 1 76745 76724 5346 XOR\n2 1 76744 76723 5345 XOR\n2 1 76743 76722 5344 XOR\n2 1 76742 76721 5343 XOR\n",
"2 1 76741 76752 5342 XOR\n2 1 76740 76751 5341 XOR\n2 1 76739 76750 5340 XOR\n2 1 76738 76749 5339 XOR\n2 1 76737 76748 5338 XOR\n2 1 76736 76747 5337 XOR\n2 1 76735 76746 5336 XOR\n2 1 76734 76745 5335 XOR\n2 1 76733 76744 5334 XOR\n2 1 76732 76743 5333 XOR\n2 1 76731 76742 5332 XOR\n2 1 76730 76741 5331 XOR\n2 1 76729 76740 5330 XOR\n2 1 76728 76739 5329 XOR\n2 1 5357 76752 82669 XOR\n2 1 82669 76781 130249 XOR\n2 1 5356 76751 82668 XOR\n2 1 82668 76780 130248 XOR\n2 1 5355 76750 82667 XOR\n2 1 82667 76779 130247 XOR\n2 1 5354 76749 82666 XOR\n2 1 82666 76778 130246 XOR\n2 1 5353 76748 82665 XOR\n2 1 82665 76777 130245 XOR\n2 1 5352 76747 82664 XOR\n2 1 82664 76776 130244 XOR\n2 1 5351 76746 82663 XOR\n2 1 82663 76775 130243 XOR\n2 1 5350 76745 82662 XOR\n2 1 82662 76774 130242 XOR\n2 1 5349 76744 82661 XOR\n2 1 82661 76773 130241 XOR\n2 1 5348 76743 82660 XOR\n2 1 82660 76772 130240 XOR\n2 1 5347 76742 82659 XOR\n2 1 82659 76771 130239 XOR\n2 1 5346 76741 82658 XOR\n2 1 82658 76770 130238 XOR\n2 1 5345 76740 82657 XOR\n2 1 82657 76769 130237 XOR\n2 1 5344 76739 82656 XOR\n2 1 82656 76768 130236 XOR\n2 1 5343 76738 82655 XOR\n2 1 82655 76767 130235 XOR\n2 1 5342 76737 82654 XOR\n2 1 82654 76766 130234 XOR\n2 1 5341 76736 82653 XOR\n2 1 82653 76765 130233 XOR\n2 1 5340 76735 82652 XOR\n2 1 82652 76764 130232 XOR\n2 1 5339 76734 82651 XOR\n2 1 82651 76763 130231 XOR\n2 1 5338 76733 82650 XOR\n2 1 82650 76762 130230 XOR\n2 1 5337 76732 82649 XOR\n2 1 82649 76761 130229 XOR\n2 1 5336 76731 82648 XOR\n2 1 82648 76760 130228 XOR\n2 1 5335 76730 82647 XOR\n2 1 82647 76759 130227 XOR\n2 1 5334 76729 82646 XOR\n2 1 82646 76758 130226 XOR\n2 1 5333 76728 82645 XOR\n2 1 82645 76757 130225 XOR\n2 1 5332 76727 82644 XOR\n2 1 82644 76756 130224 XOR\n2 1 5331 76726 82643 XOR\n2 1 82643 76755 130223 XOR\n2 1 5330 76725 82642 XOR\n2 1 82642 76754 130222 XOR\n2 1 5329 76724 82641 XOR\n2 1 82641 76753 130191 AND\n2 1 82641 76753 78033 XOR\n2 1 79569 78033 130129 AND\n2 1 79569 78033 76241 XOR\n2 1 79570 130129 53346 XOR\n2 1 130222 130191 78034 XOR\n2 1 79570 78034 130160 XOR\n2 1 130160 130129 76242 XOR\n2 1 78034 130129 53347 XOR\n2 1 53346 53347 53345 AND\n2 1 53345 130129 130130 XOR\n2 1 79571 130130 53349 XOR\n2 1 82642 130191 53436 XOR\n2 1 76754 130191 53437 XOR\n2 1 53436 53437 53435 AND\n2 1 53435 130191 130192 XOR\n2 1 130223 130192 78035 XOR\n2 1 79571 78035 130161 XOR\n2 1 130161 130130 76243 XOR\n2 1 78035 130130 53350 XOR\n2 1 53349 53350 53348 AND\n2 1 53348 130130 130131 XOR\n2 1 79572 130131 53352 XOR\n2 1 82643 130192 53439 XOR\n2 1 76755 130192 53440 XOR\n2 1 53439 53440 53438 AND\n2 1 53438 130192 130193 XOR\n2 1 130224 130193 78036 XOR\n2 1 79572 78036 130162 XOR\n2 1 130162 130131 76244 XOR\n2 1 78036 130131 53353 XOR\n2 1 53352 53353 53351 AND\n2 1 53351 130131 130132 XOR\n2 1 79573 130132 53355 XOR\n2 1 82644 130193 53442 XOR\n2 1 76756 130193 53443 XOR\n2 1 53442 53443 53441 AND\n2 1 53441 130193 130194 XOR\n2 1 130225 130194 78037 XOR\n2 1 79573 78037 130163 XOR\n2 1 130163 130132 76245 XOR\n2 1 78037 130132 53356 XOR\n2 1 53355 53356 53354 AND\n2 1 53354 130132 130133 XOR\n2 1 79574 130133 53358 XOR\n2 1 82645 130194 53445 XOR\n2 1 76757 130194 53446 XOR\n2 1 53445 53446 53444 AND\n2 1 53444 130194 130195 XOR\n2 1 130226 130195 78038 XOR\n2 1 79574 78038 130164 XOR\n2 1 130164 130133 76246 XOR\n2 1 78038 130133 53359 XOR\n2 1 53358 53359 53357 AND\n2 1 53357 130133 130134 XOR\n2 1 79575 130134 53361 XOR\n2 1 82646 130195 53448 XOR\n",
"2 1 76758 130195 53449 XOR\n2 1 53448 53449 53447 AND\n2 1 53447 130195 130196 XOR\n2 1 130227 130196 78039 XOR\n2 1 79575 78039 130165 XOR\n2 1 130165 130134 76247 XOR\n2 1 78039 130134 53362 XOR\n2 1 53361 53362 53360 AND\n2 1 53360 130134 130135 XOR\n2 1 79576 130135 53364 XOR\n2 1 82647 130196 53451 XOR\n2 1 76759 130196 53452 XOR\n2 1 53451 53452 53450 AND\n2 1 53450 130196 130197 XOR\n2 1 130228 130197 78040 XOR\n2 1 79576 78040 130166 XOR\n2 1 130166 130135 76248 XOR\n2 1 78040 130135 53365 XOR\n2 1 53364 53365 53363 AND\n2 1 53363 130135 130136 XOR\n2 1 79577 130136 53367 XOR\n2 1 82648 130197 53454 XOR\n2 1 76760 130197 53455 XOR\n2 1 53454 53455 53453 AND\n2 1 53453 130197 130198 XOR\n2 1 130229 130198 78041 XOR\n2 1 79577 78041 130167 XOR\n2 1 130167 130136 76249 XOR\n2 1 78041 130136 53368 XOR\n2 1 53367 53368 53366 AND\n2 1 53366 130136 130137 XOR\n2 1 79578 130137 53370 XOR\n2 1 82649 130198 53457 XOR\n2 1 76761 130198 53458 XOR\n2 1 53457 53458 53456 AND\n2 1 53456 130198 130199 XOR\n2 1 130230 130199 78042 XOR\n2 1 79578 78042 130168 XOR\n2 1 130168 130137 76250 XOR\n2 1 78042 130137 53371 XOR\n2 1 53370 53371 53369 AND\n2 1 53369 130137 130138 XOR\n2 1 79579 130138 53373 XOR\n2 1 82650 130199 53460 XOR\n2 1 76762 130199 53461 XOR\n2 1 53460 53461 53459 AND\n2 1 53459 130199 130200 XOR\n2 1 130231 130200 78043 XOR\n2 1 79579 78043 130169 XOR\n2 1 130169 130138 76251 XOR\n2 1 78043 130138 53374 XOR\n2 1 53373 53374 53372 AND\n2 1 53372 130138 130139 XOR\n2 1 79580 130139 53376 XOR\n2 1 82651 130200 53463 XOR\n2 1 76763 130200 53464 XOR\n2 1 53463 53464 53462 AND\n2 1 53462 130200 130201 XOR\n2 1 130232 130201 78044 XOR\n2 1 79580 78044 130170 XOR\n2 1 130170 130139 76252 XOR\n2 1 78044 130139 53377 XOR\n2 1 53376 53377 53375 AND\n2 1 53375 130139 130140 XOR\n2 1 79581 130140 53379 XOR\n2 1 82652 130201 53466 XOR\n2 1 76764 130201 53467 XOR\n2 1 53466 53467 53465 AND\n2 1 53465 130201 130202 XOR\n2 1 130233 130202 78045 XOR\n2 1 79581 78045 130171 XOR\n2 1 130171 130140 76253 XOR\n2 1 78045 130140 53380 XOR\n2 1 53379 53380 53378 AND\n2 1 53378 130140 130141 XOR\n2 1 79582 130141 53382 XOR\n2 1 82653 130202 53469 XOR\n2 1 76765 130202 53470 XOR\n2 1 53469 53470 53468 AND\n2 1 53468 130202 130203 XOR\n2 1 130234 130203 78046 XOR\n2 1 79582 78046 130172 XOR\n2 1 130172 130141 76254 XOR\n2 1 78046 130141 53383 XOR\n2 1 53382 53383 53381 AND\n2 1 53381 130141 130142 XOR\n2 1 79583 130142 53385 XOR\n2 1 82654 130203 53472 XOR\n2 1 76766 130203 53473 XOR\n2 1 53472 53473 53471 AND\n2 1 53471 130203 130204 XOR\n2 1 130235 130204 78047 XOR\n2 1 79583 78047 130173 XOR\n2 1 130173 130142 76255 XOR\n2 1 78047 130142 53386 XOR\n2 1 53385 53386 53384 AND\n2 1 53384 130142 130143 XOR\n2 1 79584 130143 53388 XOR\n2 1 82655 130204 53475 XOR\n2 1 76767 130204 53476 XOR\n2 1 53475 53476 53474 AND\n2 1 53474 130204 130205 XOR\n2 1 130236 130205 78048 XOR\n2 1 79584 78048 130174 XOR\n2 1 130174 130143 76256 XOR\n2 1 78048 130143 53389 XOR\n2 1 53388 53389 53387 AND\n2 1 53387 130143 130144 XOR\n2 1 79585 130144 53391 XOR\n2 1 82656 130205 53478 XOR\n2 1 76768 130205 53479 XOR\n2 1 53478 53479 53477 AND\n2 1 53477 130205 130206 XOR\n2 1 130237 130206 78049 XOR\n2 1 79585 78049 130175 XOR\n2 1 130175 130144 76257 XOR\n2 1 78049 130144 53392 XOR\n2 1 53391 53392 53390 AND\n2 1 53390 130144 130145 XOR\n2 1 79586 130145 53394 XOR\n2 1 82657 130206 53481 XOR\n2 1 76769 130206 53482 XOR\n2 1 53481 53482 53480 AND\n2 1 53480 130206 130207 XOR\n2 1 130238 130207 78050 XOR\n2 1 79586 78050 130176 XOR\n2 1 130176 130145 76258 XOR\n2 1 78050 130145 53395 XOR\n",
"2 1 53394 53395 53393 AND\n2 1 53393 130145 130146 XOR\n2 1 79587 130146 53397 XOR\n2 1 82658 130207 53484 XOR\n2 1 76770 130207 53485 XOR\n2 1 53484 53485 53483 AND\n2 1 53483 130207 130208 XOR\n2 1 130239 130208 78051 XOR\n2 1 79587 78051 130177 XOR\n2 1 130177 130146 76259 XOR\n2 1 78051 130146 53398 XOR\n2 1 53397 53398 53396 AND\n2 1 53396 130146 130147 XOR\n2 1 79588 130147 53400 XOR\n2 1 82659 130208 53487 XOR\n2 1 76771 130208 53488 XOR\n2 1 53487 53488 53486 AND\n2 1 53486 130208 130209 XOR\n2 1 130240 130209 78052 XOR\n2 1 79588 78052 130178 XOR\n2 1 130178 130147 76260 XOR\n2 1 78052 130147 53401 XOR\n2 1 53400 53401 53399 AND\n2 1 53399 130147 130148 XOR\n2 1 79589 130148 53403 XOR\n2 1 82660 130209 53490 XOR\n2 1 76772 130209 53491 XOR\n2 1 53490 53491 53489 AND\n2 1 53489 130209 130210 XOR\n2 1 130241 130210 78053 XOR\n2 1 79589 78053 130179 XOR\n2 1 130179 130148 76261 XOR\n2 1 78053 130148 53404 XOR\n2 1 53403 53404 53402 AND\n2 1 53402 130148 130149 XOR\n2 1 79590 130149 53406 XOR\n2 1 82661 130210 53493 XOR\n2 1 76773 130210 53494 XOR\n2 1 53493 53494 53492 AND\n2 1 53492 130210 130211 XOR\n2 1 130242 130211 78054 XOR\n2 1 79590 78054 130180 XOR\n2 1 130180 130149 76262 XOR\n2 1 78054 130149 53407 XOR\n2 1 53406 53407 53405 AND\n2 1 53405 130149 130150 XOR\n2 1 79591 130150 53409 XOR\n2 1 82662 130211 53496 XOR\n2 1 76774 130211 53497 XOR\n2 1 53496 53497 53495 AND\n2 1 53495 130211 130212 XOR\n2 1 130243 130212 78055 XOR\n2 1 79591 78055 130181 XOR\n2 1 130181 130150 76263 XOR\n2 1 78055 130150 53410 XOR\n2 1 53409 53410 53408 AND\n2 1 53408 130150 130151 XOR\n2 1 79592 130151 53412 XOR\n2 1 82663 130212 53499 XOR\n2 1 76775 130212 53500 XOR\n2 1 53499 53500 53498 AND\n2 1 53498 130212 130213 XOR\n2 1 130244 130213 78056 XOR\n2 1 79592 78056 130182 XOR\n2 1 130182 130151 76264 XOR\n2 1 78056 130151 53413 XOR\n2 1 53412 53413 53411 AND\n2 1 53411 130151 130152 XOR\n2 1 79593 130152 53415 XOR\n2 1 82664 130213 53502 XOR\n2 1 76776 130213 53503 XOR\n2 1 53502 53503 53501 AND\n2 1 53501 130213 130214 XOR\n2 1 130245 130214 78057 XOR\n2 1 79593 78057 130183 XOR\n2 1 130183 130152 76265 XOR\n2 1 78057 130152 53416 XOR\n2 1 53415 53416 53414 AND\n2 1 53414 130152 130153 XOR\n2 1 79594 130153 53418 XOR\n2 1 82665 130214 53505 XOR\n2 1 76777 130214 53506 XOR\n2 1 53505 53506 53504 AND\n2 1 53504 130214 130215 XOR\n2 1 130246 130215 78058 XOR\n2 1 79594 78058 130184 XOR\n2 1 130184 130153 76266 XOR\n2 1 78058 130153 53419 XOR\n2 1 53418 53419 53417 AND\n2 1 53417 130153 130154 XOR\n2 1 79595 130154 53421 XOR\n2 1 82666 130215 53508 XOR\n2 1 76778 130215 53509 XOR\n2 1 53508 53509 53507 AND\n2 1 53507 130215 130216 XOR\n2 1 130247 130216 78059 XOR\n2 1 79595 78059 130185 XOR\n2 1 130185 130154 76267 XOR\n2 1 78059 130154 53422 XOR\n2 1 53421 53422 53420 AND\n2 1 53420 130154 130155 XOR\n2 1 79596 130155 53424 XOR\n2 1 82667 130216 53511 XOR\n2 1 76779 130216 53512 XOR\n2 1 53511 53512 53510 AND\n2 1 53510 130216 130217 XOR\n2 1 130248 130217 78060 XOR\n2 1 79596 78060 130186 XOR\n2 1 130186 130155 76268 XOR\n2 1 78060 130155 53425 XOR\n2 1 53424 53425 53423 AND\n2 1 53423 130155 130156 XOR\n2 1 79597 130156 53427 XOR\n2 1 82668 130217 53514 XOR\n2 1 76780 130217 53515 XOR\n2 1 53514 53515 53513 AND\n2 1 53513 130217 130218 XOR\n2 1 130249 130218 78061 XOR\n2 1 79597 78061 130187 XOR\n2 1 130187 130156 76269 XOR\n2 1 78061 130156 53428 XOR\n2 1 53427 53428 53426 AND\n2 1 53426 130156 130157 XOR\n2 1 79598 130157 53430 XOR\n2 1 82669 130218 53517 XOR\n2 1 76781 130218 53518 XOR\n2 1 53517 53518 53516 AND\n2 1 53516 130218 130219 XOR\n",
"2 1 130250 130219 78062 XOR\n2 1 79598 78062 130188 XOR\n2 1 130188 130157 76270 XOR\n2 1 78062 130157 53431 XOR\n2 1 53430 53431 53429 AND\n2 1 53429 130157 130158 XOR\n2 1 79599 130158 53433 XOR\n2 1 82670 130219 53520 XOR\n2 1 76782 130219 53521 XOR\n2 1 53520 53521 53519 AND\n2 1 53519 130219 130220 XOR\n2 1 130251 130220 78063 XOR\n2 1 79599 78063 130189 XOR\n2 1 130189 130158 76271 XOR\n2 1 78063 130158 53434 XOR\n2 1 53433 53434 53432 AND\n2 1 53432 130158 130159 XOR\n2 1 82671 130220 53523 XOR\n2 1 76783 130220 53524 XOR\n2 1 53523 53524 53522 AND\n2 1 53522 130220 130221 XOR\n2 1 130252 130221 78064 XOR\n2 1 79600 78064 130190 XOR\n2 1 130190 130159 76272 XOR\n2 1 76268 2395 115499 XOR\n2 1 76247 2374 115478 XOR\n2 1 76267 2394 115498 XOR\n2 1 76271 2398 115502 XOR\n2 1 76248 2375 115479 XOR\n2 1 76258 2385 115489 XOR\n2 1 76256 2383 115487 XOR\n2 1 76259 2386 115490 XOR\n2 1 76266 2393 115497 XOR\n2 1 76263 2390 115494 XOR\n2 1 76257 2384 115488 XOR\n2 1 76264 2391 115495 XOR\n2 1 76265 2392 115496 XOR\n2 1 76262 2389 115493 XOR\n2 1 76270 2397 115501 XOR\n2 1 76241 2368 94358 XOR\n2 1 96406 94358 115380 AND\n2 1 96406 94358 92345 XOR\n2 1 96407 115380 28363 XOR\n2 1 76269 2396 115500 XOR\n2 1 76243 2370 115474 XOR\n2 1 76246 2373 115477 XOR\n2 1 76260 2387 115491 XOR\n2 1 76254 2381 115485 XOR\n2 1 76242 2369 115473 XOR\n2 1 76241 2368 115442 AND\n2 1 2369 115442 28454 XOR\n2 1 76242 115442 28453 XOR\n2 1 115473 115442 94359 XOR\n2 1 96407 94359 115411 XOR\n2 1 115411 115380 92346 XOR\n2 1 94359 115380 28364 XOR\n2 1 28363 28364 28362 AND\n2 1 28362 115380 115381 XOR\n2 1 96408 115381 28366 XOR\n2 1 92346 92345 28261 XOR\n2 1 28453 28454 28452 AND\n2 1 76245 2372 115476 XOR\n2 1 76250 2377 115481 XOR\n2 1 76253 2380 115484 XOR\n2 1 76261 2388 115492 XOR\n2 1 76255 2382 115486 XOR\n2 1 76251 2378 115482 XOR\n1 1 92345 90321 INV\n2 1 1856 90321 2240 XOR\n2 1 90321 84177 104948 AND\n2 1 84178 104948 11468 XOR\n2 1 90321 84177 1728 XOR\n2 1 1728 1792 70639 XOR\n2 1 70639 70607 70575 AND\n2 1 70575 1792 86193 XOR\n2 1 1728 1760 70511 XOR\n2 1 1856 90321 104886 AND\n2 1 1857 104886 11377 XOR\n2 1 28261 90321 28260 AND\n2 1 28260 92345 28263 XOR\n1 1 92346 28347 INV\n2 1 28347 92345 90322 XOR\n2 1 1857 90322 104917 XOR\n2 1 104917 104886 2241 XOR\n2 1 90322 104886 11378 XOR\n2 1 11377 11378 11376 AND\n2 1 11376 104886 104887 XOR\n2 1 1858 104887 11380 XOR\n2 1 90322 84178 104979 XOR\n2 1 90322 104948 11467 XOR\n2 1 11467 11468 11466 AND\n2 1 11466 104948 104949 XOR\n2 1 84179 104949 11471 XOR\n2 1 104979 104948 1729 XOR\n2 1 1729 1793 70640 XOR\n2 1 70640 70608 70576 AND\n2 1 70576 1793 86194 XOR\n2 1 1729 1761 70512 XOR\n2 1 76249 2376 115480 XOR\n2 1 28452 115442 115443 XOR\n2 1 76243 115443 28456 XOR\n2 1 2370 115443 28457 XOR\n2 1 115474 115443 94360 XOR\n2 1 96408 94360 115412 XOR\n2 1 115412 115381 92347 XOR\n2 1 94360 115381 28367 XOR\n2 1 28366 28367 28365 AND\n2 1 28365 115381 115382 XOR\n2 1 96409 115382 28369 XOR\n2 1 92347 28263 90323 XOR\n2 1 90323 28263 28262 AND\n2 1 28262 28263 28265 XOR\n2 1 1858 90323 104918 XOR\n2 1 104918 104887 2242 XOR\n2 1 90323 104887 11381 XOR\n2 1 11380 11381 11379 AND\n2 1 11379 104887 104888 XOR\n2 1 1859 104888 11383 XOR\n2 1 90323 84179 104980 XOR\n2 1 104980 104949 1730 XOR\n2 1 1730 1794 70641 XOR\n2 1 70641 70609 70577 AND\n2 1 70577 1794 86195 XOR\n2 1 1730 1762 70513 XOR\n2 1 90323 104949 11470 XOR\n2 1 11470 11471 11469 AND\n2 1 11469 104949 104950 XOR\n2 1 84180 104950 11474 XOR\n",
"2 1 76252 2379 115483 XOR\n2 1 28456 28457 28455 AND\n2 1 28455 115443 115444 XOR\n2 1 76244 115444 28459 XOR\n2 1 2371 115444 28460 XOR\n2 1 28459 28460 28458 AND\n2 1 28458 115444 115445 XOR\n2 1 2372 115445 28463 XOR\n2 1 76245 115445 28462 XOR\n2 1 115476 115445 94362 XOR\n2 1 96410 94362 115414 XOR\n2 1 28462 28463 28461 AND\n2 1 28461 115445 115446 XOR\n2 1 115477 115446 94363 XOR\n2 1 76246 115446 28465 XOR\n2 1 96411 94363 115415 XOR\n2 1 2373 115446 28466 XOR\n2 1 28465 28466 28464 AND\n2 1 28464 115446 115447 XOR\n2 1 115478 115447 94364 XOR\n2 1 96412 94364 115416 XOR\n2 1 76247 115447 28468 XOR\n2 1 2374 115447 28469 XOR\n2 1 28468 28469 28467 AND\n2 1 28467 115447 115448 XOR\n2 1 76248 115448 28471 XOR\n2 1 2375 115448 28472 XOR\n2 1 115479 115448 94365 XOR\n2 1 96413 94365 115417 XOR\n2 1 28471 28472 28470 AND\n2 1 28470 115448 115449 XOR\n2 1 115480 115449 94366 XOR\n2 1 96414 94366 115418 XOR\n2 1 76249 115449 28474 XOR\n2 1 2376 115449 28475 XOR\n2 1 28474 28475 28473 AND\n2 1 28473 115449 115450 XOR\n2 1 76250 115450 28477 XOR\n2 1 2377 115450 28478 XOR\n2 1 115481 115450 94367 XOR\n2 1 96415 94367 115419 XOR\n2 1 28477 28478 28476 AND\n2 1 28476 115450 115451 XOR\n2 1 115482 115451 94368 XOR\n2 1 96416 94368 115420 XOR\n2 1 76251 115451 28480 XOR\n2 1 2378 115451 28481 XOR\n2 1 28480 28481 28479 AND\n2 1 28479 115451 115452 XOR\n2 1 76252 115452 28483 XOR\n2 1 2379 115452 28484 XOR\n2 1 115483 115452 94369 XOR\n2 1 96417 94369 115421 XOR\n2 1 28483 28484 28482 AND\n2 1 28482 115452 115453 XOR\n2 1 115484 115453 94370 XOR\n2 1 96418 94370 115422 XOR\n2 1 76253 115453 28486 XOR\n2 1 2380 115453 28487 XOR\n2 1 28486 28487 28485 AND\n2 1 28485 115453 115454 XOR\n2 1 76254 115454 28489 XOR\n2 1 2381 115454 28490 XOR\n2 1 115485 115454 94371 XOR\n2 1 96419 94371 115423 XOR\n2 1 28489 28490 28488 AND\n2 1 28488 115454 115455 XOR\n2 1 115486 115455 94372 XOR\n2 1 96420 94372 115424 XOR\n2 1 76255 115455 28492 XOR\n2 1 2382 115455 28493 XOR\n2 1 28492 28493 28491 AND\n2 1 28491 115455 115456 XOR\n2 1 76256 115456 28495 XOR\n2 1 2383 115456 28496 XOR\n2 1 115487 115456 94373 XOR\n2 1 96421 94373 115425 XOR\n2 1 28495 28496 28494 AND\n2 1 28494 115456 115457 XOR\n2 1 115488 115457 94374 XOR\n2 1 96422 94374 115426 XOR\n2 1 76257 115457 28498 XOR\n2 1 2384 115457 28499 XOR\n2 1 28498 28499 28497 AND\n2 1 28497 115457 115458 XOR\n2 1 76258 115458 28501 XOR\n2 1 2385 115458 28502 XOR\n2 1 115489 115458 94375 XOR\n2 1 96423 94375 115427 XOR\n2 1 28501 28502 28500 AND\n2 1 28500 115458 115459 XOR\n2 1 115490 115459 94376 XOR\n2 1 96424 94376 115428 XOR\n2 1 76259 115459 28504 XOR\n2 1 2386 115459 28505 XOR\n2 1 28504 28505 28503 AND\n2 1 28503 115459 115460 XOR\n2 1 2387 115460 28508 XOR\n2 1 115491 115460 94377 XOR\n2 1 96425 94377 115429 XOR\n2 1 76260 115460 28507 XOR\n2 1 28507 28508 28506 AND\n2 1 28506 115460 115461 XOR\n2 1 115492 115461 94378 XOR\n2 1 96426 94378 115430 XOR\n2 1 76261 115461 28510 XOR\n2 1 2388 115461 28511 XOR\n2 1 28510 28511 28509 AND\n2 1 28509 115461 115462 XOR\n2 1 115493 115462 94379 XOR\n2 1 96427 94379 115431 XOR\n2 1 76262 115462 28513 XOR\n2 1 2389 115462 28514 XOR\n2 1 64081 2242 64049 AND\n2 1 64080 2241 64048 AND\n2 1 64079 2240 64047 AND\n2 1 64049 2306 98424 XOR\n2 1 64048 2305 98423 XOR\n2 1 64047 2304 98422 XOR\n2 1 2242 2274 64017 XOR\n2 1 2241 2273 64016 XOR\n2 1 2240 2272 64015 XOR\n2 1 76272 2399 115503 XOR\n2 1 28513 28514 28512 AND\n2 1 28512 115462 115463 XOR\n2 1 76263 115463 28516 XOR\n2 1 2390 115463 28517 XOR\n2 1 115494 115463 94380 XOR\n",
"2 1 96428 94380 115432 XOR\n2 1 28516 28517 28515 AND\n2 1 28515 115463 115464 XOR\n2 1 115495 115464 94381 XOR\n2 1 96429 94381 115433 XOR\n2 1 76264 115464 28519 XOR\n2 1 2391 115464 28520 XOR\n2 1 28519 28520 28518 AND\n2 1 28518 115464 115465 XOR\n2 1 115496 115465 94382 XOR\n2 1 96430 94382 115434 XOR\n2 1 76265 115465 28522 XOR\n2 1 2392 115465 28523 XOR\n2 1 28522 28523 28521 AND\n2 1 28521 115465 115466 XOR\n2 1 76266 115466 28525 XOR\n2 1 115497 115466 94383 XOR\n2 1 96431 94383 115435 XOR\n2 1 2393 115466 28526 XOR\n2 1 28525 28526 28524 AND\n2 1 28524 115466 115467 XOR\n2 1 115498 115467 94384 XOR\n2 1 96432 94384 115436 XOR\n2 1 76267 115467 28528 XOR\n2 1 2394 115467 28529 XOR\n2 1 28528 28529 28527 AND\n2 1 28527 115467 115468 XOR\n2 1 2395 115468 28532 XOR\n2 1 115499 115468 94385 XOR\n2 1 96433 94385 115437 XOR\n2 1 76268 115468 28531 XOR\n2 1 28531 28532 28530 AND\n2 1 28530 115468 115469 XOR\n2 1 76269 115469 28534 XOR\n2 1 115500 115469 94386 XOR\n2 1 96434 94386 115438 XOR\n2 1 2396 115469 28535 XOR\n2 1 28534 28535 28533 AND\n2 1 28533 115469 115470 XOR\n2 1 2397 115470 28538 XOR\n2 1 76270 115470 28537 XOR\n2 1 28537 28538 28536 AND\n2 1 28536 115470 115471 XOR\n2 1 76271 115471 28540 XOR\n2 1 2398 115471 28541 XOR\n2 1 28540 28541 28539 AND\n2 1 115502 115471 94388 XOR\n2 1 96436 94388 115440 XOR\n2 1 28539 115471 115472 XOR\n2 1 115503 115472 94389 XOR\n2 1 96437 94389 115441 XOR\n2 1 115501 115470 94387 XOR\n2 1 96435 94387 115439 XOR\n2 1 76244 2371 115475 XOR\n2 1 115475 115444 94361 XOR\n2 1 96409 94361 115413 XOR\n2 1 115413 115382 92348 XOR\n2 1 92348 28265 90324 XOR\n2 1 90324 28265 28264 AND\n2 1 28264 28265 28267 XOR\n2 1 1859 90324 104919 XOR\n2 1 104919 104888 2243 XOR\n2 1 90324 104888 11384 XOR\n2 1 11383 11384 11382 AND\n2 1 11382 104888 104889 XOR\n2 1 1860 104889 11386 XOR\n2 1 94361 115382 28370 XOR\n2 1 28369 28370 28368 AND\n2 1 28368 115382 115383 XOR\n2 1 115414 115383 92349 XOR\n2 1 92349 28267 90325 XOR\n2 1 90325 28267 28266 AND\n2 1 28266 28267 28333 XOR\n1 1 28333 28270 INV\n2 1 1860 90325 104920 XOR\n2 1 104920 104889 2244 XOR\n2 1 90325 104889 11387 XOR\n2 1 11386 11387 11385 AND\n2 1 11385 104889 104890 XOR\n2 1 1861 104890 11389 XOR\n2 1 96410 115383 28372 XOR\n2 1 94362 115383 28373 XOR\n2 1 28372 28373 28371 AND\n2 1 28371 115383 115384 XOR\n2 1 115415 115384 92350 XOR\n2 1 92350 28333 28269 XOR\n2 1 96411 115384 28375 XOR\n2 1 94363 115384 28376 XOR\n2 1 28375 28376 28374 AND\n2 1 28374 115384 115385 XOR\n2 1 115416 115385 92351 XOR\n2 1 96412 115385 28378 XOR\n2 1 94364 115385 28379 XOR\n2 1 28378 28379 28377 AND\n2 1 28377 115385 115386 XOR\n2 1 115417 115386 92352 XOR\n2 1 96413 115386 28381 XOR\n2 1 94365 115386 28382 XOR\n2 1 28381 28382 28380 AND\n2 1 28380 115386 115387 XOR\n2 1 115418 115387 92353 XOR\n1 1 92353 28350 INV\n2 1 96414 115387 28384 XOR\n2 1 94366 115387 28385 XOR\n2 1 28384 28385 28383 AND\n2 1 28383 115387 115388 XOR\n2 1 115419 115388 92354 XOR\n2 1 96415 115388 28387 XOR\n2 1 94367 115388 28388 XOR\n2 1 28387 28388 28386 AND\n2 1 28386 115388 115389 XOR\n2 1 115420 115389 92355 XOR\n2 1 96416 115389 28390 XOR\n2 1 94368 115389 28391 XOR\n2 1 28390 28391 28389 AND\n2 1 28389 115389 115390 XOR\n2 1 115421 115390 92356 XOR\n2 1 96417 115390 28393 XOR\n2 1 94369 115390 28394 XOR\n2 1 28393 28394 28392 AND\n2 1 28392 115390 115391 XOR\n2 1 115422 115391 92357 XOR\n1 1 92357 28351 INV\n2 1 90325 84181 104982 XOR\n2 1 90324 84180 104981 XOR\n2 1 96418 115391 28396 XOR\n2 1 94370 115391 28397 XOR\n2 1 28396 28397 28395 AND\n",
"2 1 28395 115391 115392 XOR\n2 1 115423 115392 92358 XOR\n2 1 96419 115392 28399 XOR\n2 1 94371 115392 28400 XOR\n2 1 28399 28400 28398 AND\n2 1 28398 115392 115393 XOR\n2 1 115424 115393 92359 XOR\n1 1 92359 28352 INV\n2 1 96420 115393 28402 XOR\n2 1 94372 115393 28403 XOR\n2 1 28402 28403 28401 AND\n2 1 28401 115393 115394 XOR\n2 1 115425 115394 92360 XOR\n2 1 96421 115394 28405 XOR\n2 1 94373 115394 28406 XOR\n2 1 28405 28406 28404 AND\n2 1 28404 115394 115395 XOR\n2 1 115426 115395 92361 XOR\n2 1 96422 115395 28408 XOR\n2 1 94374 115395 28409 XOR\n2 1 28408 28409 28407 AND\n2 1 28407 115395 115396 XOR\n2 1 115427 115396 92362 XOR\n2 1 96423 115396 28411 XOR\n2 1 94375 115396 28412 XOR\n2 1 28411 28412 28410 AND\n2 1 28410 115396 115397 XOR\n2 1 115428 115397 92363 XOR\n1 1 92363 28353 INV\n2 1 96424 115397 28414 XOR\n2 1 94376 115397 28415 XOR\n2 1 28414 28415 28413 AND\n2 1 28413 115397 115398 XOR\n2 1 96425 115398 28417 XOR\n2 1 115429 115398 92364 XOR\n1 1 92364 28354 INV\n2 1 94377 115398 28418 XOR\n2 1 28417 28418 28416 AND\n2 1 28416 115398 115399 XOR\n2 1 115430 115399 92365 XOR\n2 1 96426 115399 28420 XOR\n2 1 94378 115399 28421 XOR\n1 1 92352 28349 INV\n1 1 92350 28348 INV\n2 1 28348 28333 90326 XOR\n2 1 1861 90326 104921 XOR\n2 1 104921 104890 2245 XOR\n2 1 90326 104890 11390 XOR\n2 1 11389 11390 11388 AND\n2 1 11388 104890 104891 XOR\n2 1 1862 104891 11392 XOR\n2 1 90326 84182 104983 XOR\n2 1 28420 28421 28419 AND\n2 1 28419 115399 115400 XOR\n2 1 115431 115400 92366 XOR\n1 1 92366 28355 INV\n2 1 94379 115400 28424 XOR\n2 1 96427 115400 28423 XOR\n2 1 104981 104950 1731 XOR\n2 1 1731 1795 70642 XOR\n2 1 70642 70610 70578 AND\n2 1 70578 1795 86196 XOR\n2 1 1731 1763 70514 XOR\n2 1 90324 104950 11473 XOR\n2 1 11473 11474 11472 AND\n2 1 11472 104950 104951 XOR\n2 1 104982 104951 1732 XOR\n2 1 90325 104951 11476 XOR\n2 1 84181 104951 11477 XOR\n2 1 1732 1796 70643 XOR\n2 1 70643 70611 70579 AND\n2 1 70579 1796 86197 XOR\n2 1 1732 1764 70515 XOR\n2 1 11476 11477 11475 AND\n2 1 28269 28270 28268 AND\n2 1 28268 28333 28272 XOR\n2 1 92351 28272 90327 XOR\n2 1 90327 28272 28271 AND\n2 1 28271 28272 28334 XOR\n2 1 92352 28334 28274 XOR\n2 1 28349 28334 90328 XOR\n2 1 1862 90327 104922 XOR\n2 1 1863 90328 104923 XOR\n2 1 104922 104891 2246 XOR\n2 1 90327 104891 11393 XOR\n2 1 11392 11393 11391 AND\n2 1 11391 104891 104892 XOR\n2 1 104923 104892 2247 XOR\n2 1 1863 104892 11395 XOR\n2 1 90328 104892 11396 XOR\n2 1 11395 11396 11394 AND\n2 1 11394 104892 104893 XOR\n2 1 1864 104893 11398 XOR\n2 1 90327 84183 104984 XOR\n2 1 90328 84184 104985 XOR\n1 1 28334 28275 INV\n2 1 28274 28275 28273 AND\n2 1 28273 28334 28335 XOR\n1 1 28335 28278 INV\n2 1 28350 28335 90329 XOR\n2 1 1864 90329 104924 XOR\n2 1 104924 104893 2248 XOR\n2 1 90329 104893 11399 XOR\n2 1 11398 11399 11397 AND\n2 1 11397 104893 104894 XOR\n2 1 1865 104894 11401 XOR\n2 1 90329 84185 104986 XOR\n2 1 28423 28424 28422 AND\n2 1 28422 115400 115401 XOR\n2 1 115432 115401 92367 XOR\n1 1 92367 28356 INV\n2 1 96428 115401 28426 XOR\n2 1 94380 115401 28427 XOR\n2 1 28426 28427 28425 AND\n2 1 28425 115401 115402 XOR\n2 1 96429 115402 28429 XOR\n2 1 115433 115402 92368 XOR\n2 1 94381 115402 28430 XOR\n2 1 28429 28430 28428 AND\n2 1 28428 115402 115403 XOR\n2 1 115434 115403 92369 XOR\n1 1 92369 28357 INV\n2 1 96430 115403 28432 XOR\n2 1 94382 115403 28433 XOR\n2 1 28432 28433 28431 AND\n2 1 28431 115403 115404 XOR\n2 1 115435 115404 92370 XOR\n1 1 92370 28358 INV\n",
"2 1 94383 115404 28436 XOR\n2 1 96431 115404 28435 XOR\n2 1 28435 28436 28434 AND\n2 1 28434 115404 115405 XOR\n2 1 96432 115405 28438 XOR\n2 1 94384 115405 28439 XOR\n2 1 115436 115405 92371 XOR\n1 1 92371 28359 INV\n2 1 64087 2248 64055 AND\n2 1 64086 2247 64054 AND\n2 1 64085 2246 64053 AND\n2 1 64084 2245 64052 AND\n2 1 64083 2244 64051 AND\n2 1 64082 2243 64050 AND\n2 1 64055 2312 98430 XOR\n2 1 64054 2311 98429 XOR\n2 1 64053 2310 98428 XOR\n2 1 64052 2309 98427 XOR\n2 1 64051 2308 98426 XOR\n2 1 64050 2307 98425 XOR\n2 1 2248 2280 64023 XOR\n2 1 2247 2279 64022 XOR\n2 1 2246 2278 64021 XOR\n2 1 2245 2277 64020 XOR\n2 1 2244 2276 64019 XOR\n2 1 2243 2275 64018 XOR\n2 1 11475 104951 104952 XOR\n2 1 84182 104952 11480 XOR\n2 1 104983 104952 1733 XOR\n2 1 90326 104952 11479 XOR\n2 1 11479 11480 11478 AND\n2 1 11478 104952 104953 XOR\n2 1 104984 104953 1734 XOR\n2 1 90327 104953 11482 XOR\n2 1 84183 104953 11483 XOR\n2 1 11482 11483 11481 AND\n2 1 11481 104953 104954 XOR\n2 1 104985 104954 1735 XOR\n2 1 90328 104954 11485 XOR\n2 1 1735 1799 70646 XOR\n2 1 1734 1798 70645 XOR\n2 1 1733 1797 70644 XOR\n2 1 70646 70614 70582 AND\n2 1 70645 70613 70581 AND\n2 1 70644 70612 70580 AND\n2 1 70582 1799 86200 XOR\n2 1 70581 1798 86199 XOR\n2 1 70580 1797 86198 XOR\n2 1 1735 1767 70518 XOR\n2 1 1734 1766 70517 XOR\n2 1 1733 1765 70516 XOR\n2 1 84184 104954 11486 XOR\n2 1 11485 11486 11484 AND\n2 1 11484 104954 104955 XOR\n2 1 104986 104955 1736 XOR\n2 1 1736 1800 70647 XOR\n2 1 70647 70615 70583 AND\n2 1 70583 1800 86201 XOR\n2 1 1736 1768 70519 XOR\n2 1 90329 104955 11488 XOR\n2 1 84185 104955 11489 XOR\n2 1 11488 11489 11487 AND\n2 1 11487 104955 104956 XOR\n2 1 84186 104956 11492 XOR\n2 1 92353 28335 28277 XOR\n2 1 28277 28278 28276 AND\n2 1 28276 28335 28280 XOR\n2 1 92354 28280 90330 XOR\n2 1 90330 28280 28279 AND\n2 1 28279 28280 28282 XOR\n2 1 1865 90330 104925 XOR\n2 1 104925 104894 2249 XOR\n2 1 90330 104894 11402 XOR\n2 1 11401 11402 11400 AND\n2 1 11400 104894 104895 XOR\n2 1 1866 104895 11404 XOR\n2 1 90330 84186 104987 XOR\n2 1 104987 104956 1737 XOR\n2 1 1737 1801 70648 XOR\n2 1 70648 70616 70584 AND\n2 1 70584 1801 86202 XOR\n2 1 1737 1769 70520 XOR\n2 1 90330 104956 11491 XOR\n2 1 11491 11492 11490 AND\n2 1 11490 104956 104957 XOR\n2 1 84187 104957 11495 XOR\n2 1 64088 2249 64056 AND\n2 1 64056 2313 98431 XOR\n2 1 2249 2281 64024 XOR\n2 1 92355 28282 90331 XOR\n2 1 90331 84187 104988 XOR\n2 1 104988 104957 1738 XOR\n2 1 1738 1802 70649 XOR\n2 1 70649 70617 70585 AND\n2 1 70585 1802 86203 XOR\n2 1 1738 1770 70521 XOR\n2 1 90331 104957 11494 XOR\n2 1 1866 90331 104926 XOR\n2 1 11494 11495 11493 AND\n2 1 11493 104957 104958 XOR\n2 1 84188 104958 11498 XOR\n2 1 104926 104895 2250 XOR\n2 1 64089 2250 64057 AND\n2 1 64057 2314 98432 XOR\n2 1 90331 104895 11405 XOR\n2 1 2250 2282 64025 XOR\n2 1 11404 11405 11403 AND\n2 1 11403 104895 104896 XOR\n2 1 1867 104896 11407 XOR\n2 1 90331 28282 28281 AND\n2 1 28281 28282 28284 XOR\n2 1 92356 28284 90332 XOR\n2 1 90332 28284 28283 AND\n2 1 28283 28284 28336 XOR\n2 1 28351 28336 90333 XOR\n2 1 1868 90333 104928 XOR\n2 1 90333 84189 104990 XOR\n1 1 28336 28287 INV\n2 1 92357 28336 28286 XOR\n2 1 28286 28287 28285 AND\n2 1 28285 28336 28289 XOR\n2 1 92358 28289 90334 XOR\n2 1 1869 90334 104929 XOR\n2 1 90334 84190 104991 XOR\n2 1 90334 28289 28288 AND\n2 1 28288 28289 28337 XOR\n2 1 92359 28337 28291 XOR\n1 1 28337 28292 INV\n",
"2 1 28291 28292 28290 AND\n2 1 28290 28337 28294 XOR\n2 1 92360 28294 90336 XOR\n2 1 1871 90336 104931 XOR\n2 1 90336 84192 104993 XOR\n2 1 90336 28294 28293 AND\n2 1 28293 28294 28296 XOR\n2 1 92361 28296 90337 XOR\n2 1 90337 28296 28295 AND\n2 1 1872 90337 104932 XOR\n2 1 90337 84193 104994 XOR\n2 1 28352 28337 90335 XOR\n2 1 90335 84191 104992 XOR\n2 1 1870 90335 104930 XOR\n2 1 1867 90332 104927 XOR\n2 1 104927 104896 2251 XOR\n2 1 90332 104896 11408 XOR\n2 1 11407 11408 11406 AND\n2 1 11406 104896 104897 XOR\n2 1 104928 104897 2252 XOR\n2 1 1868 104897 11410 XOR\n2 1 90333 104897 11411 XOR\n2 1 11410 11411 11409 AND\n2 1 11409 104897 104898 XOR\n2 1 104929 104898 2253 XOR\n2 1 1869 104898 11413 XOR\n2 1 90334 104898 11414 XOR\n2 1 11413 11414 11412 AND\n2 1 11412 104898 104899 XOR\n2 1 104930 104899 2254 XOR\n2 1 1870 104899 11416 XOR\n2 1 90335 104899 11417 XOR\n2 1 11416 11417 11415 AND\n2 1 11415 104899 104900 XOR\n2 1 104931 104900 2255 XOR\n2 1 1871 104900 11419 XOR\n2 1 90336 104900 11420 XOR\n2 1 11419 11420 11418 AND\n2 1 11418 104900 104901 XOR\n2 1 104932 104901 2256 XOR\n2 1 1872 104901 11422 XOR\n2 1 90337 104901 11423 XOR\n2 1 11422 11423 11421 AND\n2 1 11421 104901 104902 XOR\n2 1 1873 104902 11425 XOR\n2 1 90332 84188 104989 XOR\n2 1 104989 104958 1739 XOR\n2 1 1739 1803 70650 XOR\n2 1 70650 70618 70586 AND\n2 1 70586 1803 86204 XOR\n2 1 1739 1771 70522 XOR\n2 1 1728 1739 67373 XOR\n2 1 64095 2256 64063 AND\n2 1 64094 2255 64062 AND\n2 1 64093 2254 64061 AND\n2 1 64092 2253 64060 AND\n2 1 64091 2252 64059 AND\n2 1 64090 2251 64058 AND\n2 1 64063 2320 98438 XOR\n2 1 64062 2319 98437 XOR\n2 1 64061 2318 98436 XOR\n2 1 64060 2317 98435 XOR\n2 1 64059 2316 98434 XOR\n2 1 64058 2315 98433 XOR\n2 1 2256 2288 64031 XOR\n2 1 2255 2287 64030 XOR\n2 1 2254 2286 64029 XOR\n2 1 2253 2285 64028 XOR\n2 1 2252 2284 64027 XOR\n2 1 2251 2283 64026 XOR\n2 1 90332 104958 11497 XOR\n2 1 11497 11498 11496 AND\n2 1 11496 104958 104959 XOR\n2 1 104990 104959 1740 XOR\n2 1 90333 104959 11500 XOR\n2 1 1740 1804 70651 XOR\n2 1 70651 70619 70587 AND\n2 1 70587 1804 86205 XOR\n2 1 1740 1772 70523 XOR\n2 1 84189 104959 11501 XOR\n2 1 11500 11501 11499 AND\n2 1 11499 104959 104960 XOR\n2 1 104991 104960 1741 XOR\n2 1 1741 1805 70652 XOR\n2 1 70652 70620 70588 AND\n2 1 70588 1805 86206 XOR\n2 1 1741 1773 70524 XOR\n2 1 90334 104960 11503 XOR\n2 1 1729 1740 67374 XOR\n2 1 1730 1741 67343 XOR\n2 1 84190 104960 11504 XOR\n2 1 11503 11504 11502 AND\n2 1 11502 104960 104961 XOR\n2 1 90335 104961 11506 XOR\n2 1 84191 104961 11507 XOR\n2 1 11506 11507 11505 AND\n2 1 11505 104961 104962 XOR\n2 1 90336 104962 11509 XOR\n2 1 84192 104962 11510 XOR\n2 1 11509 11510 11508 AND\n2 1 11508 104962 104963 XOR\n2 1 104994 104963 1744 XOR\n2 1 90337 104963 11512 XOR\n2 1 1744 1808 70655 XOR\n2 1 70655 70623 70591 AND\n2 1 70591 1808 86209 XOR\n2 1 1744 1776 70527 XOR\n2 1 104993 104962 1743 XOR\n2 1 1743 1807 70654 XOR\n2 1 70654 70622 70590 AND\n2 1 70590 1807 86208 XOR\n2 1 1743 1775 70526 XOR\n2 1 84193 104963 11513 XOR\n2 1 11512 11513 11511 AND\n2 1 11511 104963 104964 XOR\n2 1 1733 1744 67346 XOR\n2 1 1732 1743 67345 XOR\n2 1 84194 104964 11516 XOR\n2 1 104992 104961 1742 XOR\n2 1 1742 1806 70653 XOR\n2 1 70653 70621 70589 AND\n2 1 70589 1806 86207 XOR\n2 1 1742 1774 70525 XOR\n2 1 1731 1742 67344 XOR\n2 1 28295 28296 28298 XOR\n2 1 92362 28298 90338 XOR\n2 1 1873 90338 104933 XOR\n2 1 104933 104902 2257 XOR\n",
"2 1 90338 104902 11426 XOR\n2 1 11425 11426 11424 AND\n2 1 11424 104902 104903 XOR\n2 1 1874 104903 11428 XOR\n2 1 90338 84194 104995 XOR\n2 1 104995 104964 1745 XOR\n2 1 1745 1809 70656 XOR\n2 1 70656 70624 70592 AND\n2 1 70592 1809 86210 XOR\n2 1 1745 1777 70528 XOR\n2 1 90338 104964 11515 XOR\n2 1 11515 11516 11514 AND\n2 1 11514 104964 104965 XOR\n2 1 84195 104965 11519 XOR\n2 1 1734 1745 67347 XOR\n2 1 64096 2257 64064 AND\n2 1 64064 2321 98439 XOR\n2 1 2257 2289 64032 XOR\n2 1 90338 28298 28297 AND\n2 1 28297 28298 28338 XOR\n1 1 28338 28301 INV\n2 1 28353 28338 90339 XOR\n2 1 1874 90339 104934 XOR\n2 1 104934 104903 2258 XOR\n2 1 90339 104903 11429 XOR\n2 1 11428 11429 11427 AND\n2 1 11427 104903 104904 XOR\n2 1 1875 104904 11431 XOR\n2 1 90339 84195 104996 XOR\n2 1 104996 104965 1746 XOR\n2 1 90339 104965 11518 XOR\n2 1 1746 1810 70657 XOR\n2 1 70657 70625 70593 AND\n2 1 70593 1810 86211 XOR\n2 1 1746 1778 70529 XOR\n2 1 92363 28338 28300 XOR\n2 1 28300 28301 28299 AND\n2 1 28299 28338 28339 XOR\n1 1 28339 28304 INV\n2 1 92364 28339 28303 XOR\n2 1 28303 28304 28302 AND\n2 1 28302 28339 28306 XOR\n2 1 92365 28306 90341 XOR\n2 1 90341 28306 28305 AND\n2 1 28305 28306 28340 XOR\n2 1 92366 28340 28308 XOR\n2 1 28355 28340 90342 XOR\n2 1 1877 90342 104937 XOR\n1 1 28340 28309 INV\n2 1 28308 28309 28307 AND\n2 1 28307 28340 28341 XOR\n2 1 92367 28341 28311 XOR\n1 1 28341 28312 INV\n2 1 28311 28312 28310 AND\n2 1 28310 28341 28314 XOR\n2 1 28356 28341 90343 XOR\n2 1 1878 90343 104938 XOR\n2 1 90343 84199 105000 XOR\n2 1 90341 84197 104998 XOR\n2 1 1876 90341 104936 XOR\n2 1 90342 84198 104999 XOR\n2 1 28354 28339 90340 XOR\n2 1 1875 90340 104935 XOR\n2 1 104935 104904 2259 XOR\n2 1 90340 104904 11432 XOR\n2 1 11431 11432 11430 AND\n2 1 11430 104904 104905 XOR\n2 1 104936 104905 2260 XOR\n2 1 1876 104905 11434 XOR\n2 1 90341 104905 11435 XOR\n2 1 11434 11435 11433 AND\n2 1 11433 104905 104906 XOR\n2 1 104937 104906 2261 XOR\n2 1 1877 104906 11437 XOR\n2 1 90342 104906 11438 XOR\n2 1 11437 11438 11436 AND\n2 1 11436 104906 104907 XOR\n2 1 104938 104907 2262 XOR\n2 1 1878 104907 11440 XOR\n2 1 90343 104907 11441 XOR\n2 1 11440 11441 11439 AND\n2 1 11439 104907 104908 XOR\n2 1 1879 104908 11443 XOR\n2 1 90340 84196 104997 XOR\n2 1 11518 11519 11517 AND\n2 1 11517 104965 104966 XOR\n2 1 104997 104966 1747 XOR\n2 1 1747 1811 70658 XOR\n2 1 70658 70626 70594 AND\n2 1 70594 1811 86212 XOR\n2 1 1747 1779 70530 XOR\n2 1 90340 104966 11521 XOR\n2 1 84196 104966 11522 XOR\n2 1 11521 11522 11520 AND\n2 1 11520 104966 104967 XOR\n2 1 90341 104967 11524 XOR\n2 1 104998 104967 1748 XOR\n2 1 1748 1812 70659 XOR\n2 1 70659 70627 70595 AND\n2 1 70595 1812 86213 XOR\n2 1 1748 1780 70531 XOR\n2 1 1737 1748 67350 XOR\n2 1 1736 1747 67349 XOR\n2 1 1735 1746 67348 XOR\n2 1 67373 1748 88271 XOR\n2 1 84197 104967 11525 XOR\n2 1 11524 11525 11523 AND\n2 1 11523 104967 104968 XOR\n2 1 84198 104968 11528 XOR\n2 1 104999 104968 1749 XOR\n2 1 1749 1813 70660 XOR\n2 1 70660 70628 70596 AND\n2 1 70596 1813 86214 XOR\n2 1 1749 1781 70532 XOR\n2 1 1749 1728 67362 XOR\n2 1 1738 1749 67351 XOR\n2 1 67374 1749 88272 XOR\n2 1 67362 1737 88260 XOR\n2 1 88260 86212 115106 XOR\n2 1 90342 104968 11527 XOR\n2 1 11527 11528 11526 AND\n2 1 11526 104968 104969 XOR\n2 1 84199 104969 11531 XOR\n2 1 105000 104969 1750 XOR\n2 1 90343 104969 11530 XOR\n2 1 11530 11531 11529 AND\n2 1 11529 104969 104970 XOR\n2 1 84200 104970 11534 XOR\n",
"2 1 1750 1814 70661 XOR\n2 1 70661 70629 70597 AND\n2 1 70597 1814 86215 XOR\n2 1 1750 1782 70533 XOR\n2 1 1750 1729 67363 XOR\n2 1 1739 1750 67352 XOR\n2 1 67363 1738 88261 XOR\n2 1 88261 86213 115107 XOR\n2 1 67343 1750 88241 XOR\n2 1 88241 86193 115057 AND\n2 1 88241 86193 84145 XOR\n2 1 86194 115057 27728 XOR\n2 1 92368 28314 90344 XOR\n2 1 1879 90344 104939 XOR\n2 1 104939 104908 2263 XOR\n2 1 90344 104970 11533 XOR\n2 1 90344 84200 105001 XOR\n2 1 105001 104970 1751 XOR\n2 1 1751 1730 67364 XOR\n2 1 1740 1751 67353 XOR\n2 1 67364 1739 88262 XOR\n2 1 88262 86214 115108 XOR\n2 1 1751 1783 70534 XOR\n2 1 67353 1728 88251 XOR\n2 1 88251 86203 115097 XOR\n2 1 67344 1751 88242 XOR\n2 1 88242 86194 115088 XOR\n2 1 11533 11534 11532 AND\n2 1 11532 104970 104971 XOR\n2 1 84201 104971 11537 XOR\n2 1 115088 115057 84146 XOR\n2 1 88242 115057 27727 XOR\n2 1 1751 1815 70662 XOR\n2 1 70662 70630 70598 AND\n2 1 70598 1815 86216 XOR\n2 1 27727 27728 27726 AND\n2 1 27726 115057 115058 XOR\n2 1 86195 115058 27731 XOR\n2 1 90344 104908 11444 XOR\n2 1 11443 11444 11442 AND\n2 1 11442 104908 104909 XOR\n2 1 1880 104909 11446 XOR\n2 1 90344 28314 28313 AND\n2 1 28313 28314 28342 XOR\n1 1 28342 28317 INV\n2 1 92369 28342 28316 XOR\n2 1 28316 28317 28315 AND\n2 1 64102 2263 64070 AND\n2 1 64101 2262 64069 AND\n2 1 64100 2261 64068 AND\n2 1 64099 2260 64067 AND\n2 1 64098 2259 64066 AND\n2 1 64097 2258 64065 AND\n2 1 64070 2327 98445 XOR\n2 1 64069 2326 98444 XOR\n2 1 64068 2325 98443 XOR\n2 1 64067 2324 98442 XOR\n2 1 64066 2323 98441 XOR\n2 1 64065 2322 98440 XOR\n2 1 2263 2295 64038 XOR\n2 1 2262 2294 64037 XOR\n2 1 2261 2293 64036 XOR\n2 1 2260 2292 64035 XOR\n2 1 2259 2291 64034 XOR\n2 1 2258 2290 64033 XOR\n2 1 28357 28342 90345 XOR\n2 1 90345 84201 105002 XOR\n2 1 1880 90345 104940 XOR\n2 1 105002 104971 1752 XOR\n2 1 90345 104971 11536 XOR\n2 1 11536 11537 11535 AND\n2 1 11535 104971 104972 XOR\n2 1 1752 1816 70663 XOR\n2 1 70663 70631 70599 AND\n2 1 70599 1816 86217 XOR\n2 1 1752 1784 70535 XOR\n2 1 104940 104909 2264 XOR\n2 1 90345 104909 11447 XOR\n2 1 11446 11447 11445 AND\n2 1 11445 104909 104910 XOR\n2 1 1881 104910 11449 XOR\n2 1 84202 104972 11540 XOR\n2 1 1752 1731 67365 XOR\n2 1 1741 1752 67354 XOR\n2 1 67365 1740 88263 XOR\n2 1 88263 86215 115109 XOR\n2 1 67354 1729 88252 XOR\n2 1 88252 86204 115098 XOR\n2 1 67345 1752 88243 XOR\n2 1 88243 86195 115089 XOR\n2 1 115089 115058 84147 XOR\n2 1 88243 115058 27730 XOR\n2 1 27730 27731 27729 AND\n2 1 27729 115058 115059 XOR\n2 1 86196 115059 27734 XOR\n2 1 64103 2264 64071 AND\n2 1 64071 2328 98446 XOR\n2 1 2264 2296 64039 XOR\n2 1 28315 28342 28343 XOR\n1 1 28343 28320 INV\n2 1 92370 28343 28319 XOR\n2 1 28358 28343 90346 XOR\n2 1 1881 90346 104941 XOR\n2 1 104941 104910 2265 XOR\n2 1 90346 104910 11450 XOR\n2 1 11449 11450 11448 AND\n2 1 11448 104910 104911 XOR\n2 1 90346 84202 105003 XOR\n2 1 105003 104972 1753 XOR\n2 1 1753 1817 70664 XOR\n2 1 70664 70632 70600 AND\n2 1 70600 1817 86218 XOR\n2 1 1753 1785 70536 XOR\n2 1 1882 104911 11452 XOR\n2 1 90346 104972 11539 XOR\n2 1 11539 11540 11538 AND\n2 1 11538 104972 104973 XOR\n2 1 84203 104973 11543 XOR\n2 1 1753 1732 67366 XOR\n2 1 1742 1753 67355 XOR\n2 1 67366 1741 88264 XOR\n2 1 88264 86216 115110 XOR\n2 1 67355 1730 88253 XOR\n2 1 88253 86205 115099 XOR\n2 1 67346 1753 88244 XOR\n2 1 88244 86196 115090 XOR\n2 1 115090 115059 84148 XOR\n2 1 88244 115059 27733 XOR\n",
"2 1 27733 27734 27732 AND\n2 1 27732 115059 115060 XOR\n2 1 86197 115060 27737 XOR\n2 1 64104 2265 64072 AND\n2 1 64072 2329 98447 XOR\n2 1 2265 2297 64040 XOR\n2 1 28319 28320 28318 AND\n2 1 28318 28343 28344 XOR\n1 1 28344 28323 INV\n2 1 92371 28344 28322 XOR\n2 1 28359 28344 90347 XOR\n2 1 1882 90347 104942 XOR\n2 1 104942 104911 2266 XOR\n2 1 90347 104911 11453 XOR\n2 1 11452 11453 11451 AND\n2 1 11451 104911 104912 XOR\n2 1 1883 104912 11455 XOR\n2 1 28322 28323 28321 AND\n2 1 28321 28344 28325 XOR\n2 1 90347 104973 11542 XOR\n2 1 11542 11543 11541 AND\n2 1 11541 104973 104974 XOR\n2 1 84204 104974 11546 XOR\n2 1 64105 2266 64073 AND\n2 1 64073 2330 98448 XOR\n2 1 2266 2298 64041 XOR\n2 1 90347 84203 105004 XOR\n2 1 105004 104973 1754 XOR\n2 1 1754 1818 70665 XOR\n2 1 70665 70633 70601 AND\n2 1 70601 1818 86219 XOR\n2 1 1754 1786 70537 XOR\n2 1 1754 1733 67367 XOR\n2 1 1743 1754 67356 XOR\n2 1 67367 1742 88265 XOR\n2 1 88265 86217 115111 XOR\n2 1 67356 1731 88254 XOR\n2 1 88254 86206 115100 XOR\n2 1 67347 1754 88245 XOR\n2 1 88245 115060 27736 XOR\n2 1 88245 86197 115091 XOR\n2 1 115091 115060 84149 XOR\n2 1 27736 27737 27735 AND\n2 1 27735 115060 115061 XOR\n2 1 86198 115061 27740 XOR\n2 1 28438 28439 28437 AND\n2 1 28437 115405 115406 XOR\n2 1 115437 115406 92372 XOR\n2 1 92372 28325 90348 XOR\n2 1 1883 90348 104943 XOR\n2 1 90348 28325 28324 AND\n2 1 90348 104912 11456 XOR\n2 1 11455 11456 11454 AND\n2 1 104943 104912 2267 XOR\n2 1 11454 104912 104913 XOR\n2 1 90348 84204 105005 XOR\n2 1 105005 104974 1755 XOR\n2 1 1755 1819 70666 XOR\n2 1 70666 70634 70602 AND\n2 1 70602 1819 86220 XOR\n2 1 1755 1787 70538 XOR\n2 1 94385 115406 28442 XOR\n2 1 28324 28325 28327 XOR\n2 1 1755 1734 67368 XOR\n2 1 1744 1755 67357 XOR\n2 1 67368 1743 88266 XOR\n2 1 88266 86218 115112 XOR\n2 1 67357 1732 88255 XOR\n2 1 88255 86207 115101 XOR\n2 1 67348 1755 88246 XOR\n2 1 88246 86198 115092 XOR\n2 1 115092 115061 84150 XOR\n2 1 88246 115061 27739 XOR\n2 1 27739 27740 27738 AND\n2 1 27738 115061 115062 XOR\n2 1 86199 115062 27743 XOR\n2 1 90348 104974 11545 XOR\n2 1 11545 11546 11544 AND\n2 1 11544 104974 104975 XOR\n2 1 84205 104975 11549 XOR\n2 1 96433 115406 28441 XOR\n2 1 28441 28442 28440 AND\n2 1 28440 115406 115407 XOR\n2 1 96434 115407 28444 XOR\n2 1 94386 115407 28445 XOR\n2 1 28444 28445 28443 AND\n2 1 28443 115407 115408 XOR\n2 1 115439 115408 92374 XOR\n2 1 94387 115408 28448 XOR\n2 1 96435 115408 28447 XOR\n2 1 28447 28448 28446 AND\n2 1 28446 115408 115409 XOR\n2 1 96436 115409 28450 XOR\n2 1 94388 115409 28451 XOR\n2 1 28450 28451 28449 AND\n2 1 28449 115409 115410 XOR\n2 1 115441 115410 92376 XOR\n1 1 92376 28361 INV\n2 1 115440 115409 92375 XOR\n1 1 92375 28360 INV\n2 1 115438 115407 92373 XOR\n2 1 92373 28327 90349 XOR\n2 1 90349 28327 28326 AND\n2 1 28326 28327 28329 XOR\n2 1 1884 90349 104944 XOR\n2 1 92374 28329 90350 XOR\n2 1 1885 90350 104945 XOR\n2 1 90350 28329 28328 AND\n2 1 28328 28329 28345 XOR\n1 1 28345 28332 INV\n2 1 92375 28345 28331 XOR\n2 1 28331 28332 28330 AND\n2 1 28360 28345 90351 XOR\n2 1 1886 90351 104946 XOR\n2 1 90349 104975 11548 XOR\n2 1 104944 104913 2268 XOR\n2 1 90349 104913 11459 XOR\n2 1 90350 84206 105007 XOR\n2 1 28330 28345 28346 XOR\n2 1 28361 28346 90352 XOR\n2 1 1887 90352 104947 XOR\n2 1 90352 84208 105009 XOR\n2 1 90351 84207 105008 XOR\n2 1 11548 11549 11547 AND\n2 1 11547 104975 104976 XOR\n2 1 105007 104976 1757 XOR\n2 1 1757 1821 70668 XOR\n2 1 70668 70636 70604 AND\n",
"2 1 70604 1821 86222 XOR\n2 1 1757 1789 70540 XOR\n2 1 90350 104976 11551 XOR\n2 1 84206 104976 11552 XOR\n2 1 11551 11552 11550 AND\n2 1 11550 104976 104977 XOR\n2 1 105008 104977 1758 XOR\n2 1 1758 1822 70669 XOR\n2 1 70669 70637 70605 AND\n2 1 70605 1822 86223 XOR\n2 1 1758 1790 70541 XOR\n2 1 88271 86223 115117 XOR\n2 1 1758 1737 67371 XOR\n2 1 1757 1736 67370 XOR\n2 1 1747 1758 67360 XOR\n2 1 1746 1757 67359 XOR\n2 1 67371 1746 88269 XOR\n2 1 67370 1745 88268 XOR\n2 1 88268 86220 115114 XOR\n2 1 67360 1735 88258 XOR\n2 1 88258 86210 115104 XOR\n2 1 67359 1734 88257 XOR\n2 1 88257 86209 115103 XOR\n2 1 67351 1758 88249 XOR\n2 1 88249 86201 115095 XOR\n2 1 67350 1757 88248 XOR\n2 1 88248 86200 115094 XOR\n2 1 90351 104977 11554 XOR\n2 1 90349 84205 105006 XOR\n2 1 105006 104975 1756 XOR\n2 1 1756 1820 70667 XOR\n2 1 70667 70635 70603 AND\n2 1 70603 1820 86221 XOR\n2 1 1756 1788 70539 XOR\n2 1 88269 86221 115115 XOR\n2 1 1756 1735 67369 XOR\n2 1 1745 1756 67358 XOR\n2 1 67369 1744 88267 XOR\n2 1 88267 86219 115113 XOR\n2 1 67358 1733 88256 XOR\n2 1 88256 86208 115102 XOR\n2 1 67349 1756 88247 XOR\n2 1 88247 115062 27742 XOR\n2 1 88247 86199 115093 XOR\n2 1 115093 115062 84151 XOR\n2 1 27742 27743 27741 AND\n2 1 27741 115062 115063 XOR\n2 1 115094 115063 84152 XOR\n2 1 86200 115063 27746 XOR\n2 1 88248 115063 27745 XOR\n2 1 27745 27746 27744 AND\n2 1 27744 115063 115064 XOR\n2 1 88249 115064 27748 XOR\n2 1 115095 115064 84153 XOR\n2 1 86201 115064 27749 XOR\n2 1 27748 27749 27747 AND\n2 1 27747 115064 115065 XOR\n2 1 86202 115065 27752 XOR\n2 1 64107 2268 64075 AND\n2 1 64106 2267 64074 AND\n2 1 64075 2332 98450 XOR\n2 1 64074 2331 98449 XOR\n2 1 2268 2300 64043 XOR\n2 1 2267 2299 64042 XOR\n2 1 1884 104913 11458 XOR\n2 1 11458 11459 11457 AND\n2 1 11457 104913 104914 XOR\n2 1 1885 104914 11461 XOR\n2 1 90350 104914 11462 XOR\n2 1 11461 11462 11460 AND\n2 1 11460 104914 104915 XOR\n2 1 104946 104915 2270 XOR\n2 1 90351 104915 11465 XOR\n2 1 1886 104915 11464 XOR\n2 1 11464 11465 11463 AND\n2 1 11463 104915 104916 XOR\n2 1 104947 104916 2271 XOR\n2 1 104945 104914 2269 XOR\n2 1 64110 2271 64078 AND\n2 1 64109 2270 64077 AND\n2 1 64108 2269 64076 AND\n2 1 64078 2335 98453 XOR\n2 1 64077 2334 98452 XOR\n2 1 64076 2333 98451 XOR\n2 1 2271 2303 64046 XOR\n2 1 2270 2302 64045 XOR\n2 1 2269 2301 64044 XOR\n2 1 84207 104977 11555 XOR\n2 1 11554 11555 11553 AND\n2 1 11553 104977 104978 XOR\n2 1 105009 104978 1759 XOR\n2 1 1759 1823 70670 XOR\n2 1 70670 70638 70606 AND\n2 1 70606 1823 86224 XOR\n2 1 1759 1791 70542 XOR\n2 1 88272 86224 115118 XOR\n2 1 1759 1738 67372 XOR\n2 1 1748 1759 67361 XOR\n2 1 67372 1747 88270 XOR\n2 1 88270 86222 115116 XOR\n2 1 67361 1736 88259 XOR\n2 1 88259 86211 115105 XOR\n2 1 67352 1759 88250 XOR\n2 1 88250 86202 115096 XOR\n2 1 115096 115065 84154 XOR\n2 1 88250 115065 27751 XOR\n2 1 27751 27752 27750 AND\n2 1 27750 115065 115066 XOR\n2 1 88251 115066 27754 XOR\n2 1 115097 115066 84155 XOR\n2 1 86203 115066 27755 XOR\n2 1 27754 27755 27753 AND\n2 1 27753 115066 115067 XOR\n2 1 115098 115067 84156 XOR\n2 1 86204 115067 27758 XOR\n2 1 88252 115067 27757 XOR\n2 1 27757 27758 27756 AND\n2 1 27756 115067 115068 XOR\n2 1 88253 115068 27760 XOR\n2 1 115099 115068 84157 XOR\n2 1 86205 115068 27761 XOR\n2 1 27760 27761 27759 AND\n2 1 27759 115068 115069 XOR\n2 1 115100 115069 84158 XOR\n2 1 86206 115069 27764 XOR\n2 1 88254 115069 27763 XOR\n2 1 27763 27764 27762 AND\n2 1 27762 115069 115070 XOR\n",
"2 1 88255 115070 27766 XOR\n2 1 115101 115070 84159 XOR\n2 1 86207 115070 27767 XOR\n2 1 27766 27767 27765 AND\n2 1 27765 115070 115071 XOR\n2 1 86208 115071 27770 XOR\n2 1 115102 115071 84160 XOR\n2 1 88256 115071 27769 XOR\n2 1 27769 27770 27768 AND\n2 1 27768 115071 115072 XOR\n2 1 86209 115072 27773 XOR\n2 1 88257 115072 27772 XOR\n2 1 27772 27773 27771 AND\n2 1 27771 115072 115073 XOR\n2 1 88258 115073 27775 XOR\n2 1 86210 115073 27776 XOR\n2 1 27775 27776 27774 AND\n2 1 27774 115073 115074 XOR\n2 1 115105 115074 84163 XOR\n2 1 88259 115074 27778 XOR\n2 1 115104 115073 84162 XOR\n2 1 86211 115074 27779 XOR\n2 1 27778 27779 27777 AND\n2 1 27777 115074 115075 XOR\n2 1 86212 115075 27782 XOR\n2 1 115106 115075 84164 XOR\n2 1 88260 115075 27781 XOR\n2 1 27781 27782 27780 AND\n2 1 27780 115075 115076 XOR\n2 1 88261 115076 27784 XOR\n2 1 115107 115076 84165 XOR\n2 1 86213 115076 27785 XOR\n2 1 27784 27785 27783 AND\n2 1 27783 115076 115077 XOR\n2 1 86214 115077 27788 XOR\n2 1 88262 115077 27787 XOR\n2 1 27787 27788 27786 AND\n2 1 115108 115077 84166 XOR\n2 1 27786 115077 115078 XOR\n2 1 88263 115078 27790 XOR\n2 1 86215 115078 27791 XOR\n2 1 27790 27791 27789 AND\n2 1 27789 115078 115079 XOR\n2 1 115110 115079 84168 XOR\n2 1 88264 115079 27793 XOR\n2 1 86216 115079 27794 XOR\n2 1 27793 27794 27792 AND\n2 1 27792 115079 115080 XOR\n2 1 115111 115080 84169 XOR\n2 1 88265 115080 27796 XOR\n2 1 86217 115080 27797 XOR\n2 1 27796 27797 27795 AND\n2 1 27795 115080 115081 XOR\n2 1 115112 115081 84170 XOR\n2 1 86218 115081 27800 XOR\n2 1 88266 115081 27799 XOR\n2 1 27799 27800 27798 AND\n2 1 27798 115081 115082 XOR\n2 1 88267 115082 27802 XOR\n2 1 86219 115082 27803 XOR\n2 1 27802 27803 27801 AND\n2 1 27801 115082 115083 XOR\n2 1 115114 115083 84172 XOR\n2 1 88268 115083 27805 XOR\n2 1 115113 115082 84171 XOR\n2 1 86220 115083 27806 XOR\n2 1 27805 27806 27804 AND\n2 1 27804 115083 115084 XOR\n2 1 86221 115084 27809 XOR\n2 1 115115 115084 84173 XOR\n2 1 88269 115084 27808 XOR\n2 1 27808 27809 27807 AND\n2 1 27807 115084 115085 XOR\n2 1 88270 115085 27811 XOR\n2 1 115116 115085 84174 XOR\n2 1 86222 115085 27812 XOR\n2 1 27811 27812 27810 AND\n2 1 27810 115085 115086 XOR\n2 1 86223 115086 27815 XOR\n2 1 88271 115086 27814 XOR\n2 1 27814 27815 27813 AND\n2 1 115117 115086 84175 XOR\n2 1 27813 115086 115087 XOR\n2 1 115118 115087 84176 XOR\n2 1 115109 115078 84167 XOR\n2 1 115103 115072 84161 XOR\n2 1 2245 2250 61454 XOR\n2 1 2244 2249 61453 XOR\n2 1 2243 2248 61452 XOR\n2 1 2242 2247 61451 XOR\n2 1 2241 2246 61450 XOR\n2 1 2240 2245 61449 XOR\n2 1 2271 2244 61448 XOR\n2 1 2270 2243 61447 XOR\n2 1 2269 2242 61446 XOR\n2 1 2268 2241 61445 XOR\n2 1 2267 2240 61444 XOR\n2 1 2266 2271 61443 XOR\n2 1 2265 2270 61442 XOR\n2 1 2264 2269 61441 XOR\n2 1 2263 2268 61440 XOR\n2 1 2262 2267 61439 XOR\n2 1 2261 2266 61438 XOR\n2 1 2260 2265 61437 XOR\n2 1 2259 2264 61436 XOR\n2 1 2258 2263 61435 XOR\n2 1 2257 2262 61434 XOR\n2 1 2256 2261 61433 XOR\n2 1 2255 2260 61432 XOR\n2 1 2254 2259 61431 XOR\n2 1 2253 2258 61430 XOR\n2 1 2252 2257 61429 XOR\n2 1 2251 2256 61428 XOR\n2 1 2250 2255 61427 XOR\n2 1 2249 2254 61426 XOR\n2 1 2248 2253 61425 XOR\n2 1 2247 2252 61424 XOR\n2 1 2246 2251 61423 XOR\n2 1 61454 2264 100501 XOR\n2 1 100501 98453 115317 XOR\n2 1 61453 2263 100500 XOR\n2 1 100500 98452 115316 XOR\n2 1 61452 2262 100499 XOR\n2 1 61451 2261 100498 XOR\n2 1 61450 2260 100497 XOR\n2 1 100497 98449 115313 XOR\n2 1 61449 2259 100496 XOR\n2 1 61448 2258 100495 XOR\n",
"2 1 100495 98447 115311 XOR\n2 1 61447 2257 100494 XOR\n2 1 100494 98446 115310 XOR\n2 1 61446 2256 100493 XOR\n2 1 100493 98445 115309 XOR\n2 1 61445 2255 100492 XOR\n2 1 100492 98444 115308 XOR\n2 1 61444 2254 100491 XOR\n2 1 100491 98443 115307 XOR\n2 1 61443 2253 100490 XOR\n2 1 100490 98442 115306 XOR\n2 1 61442 2252 100489 XOR\n2 1 100489 98441 115305 XOR\n2 1 61441 2251 100488 XOR\n2 1 100488 98440 115304 XOR\n2 1 61440 2250 100487 XOR\n2 1 100487 98439 115303 XOR\n2 1 61439 2249 100486 XOR\n2 1 100486 98438 115302 XOR\n2 1 61438 2248 100485 XOR\n2 1 100485 98437 115301 XOR\n2 1 61437 2247 100484 XOR\n2 1 100484 98436 115300 XOR\n2 1 61436 2246 100483 XOR\n2 1 100483 98435 115299 XOR\n2 1 61435 2245 100482 XOR\n2 1 100482 98434 115298 XOR\n2 1 61434 2244 100481 XOR\n2 1 100481 98433 115297 XOR\n2 1 61433 2243 100480 XOR\n2 1 100480 98432 115296 XOR\n2 1 61432 2242 100479 XOR\n2 1 100479 98431 115295 XOR\n2 1 61431 2241 100478 XOR\n2 1 100478 98430 115294 XOR\n2 1 61430 2240 100477 XOR\n2 1 100477 98429 115293 XOR\n2 1 61429 2271 100476 XOR\n2 1 100476 98428 115292 XOR\n2 1 61428 2270 100475 XOR\n2 1 100475 98427 115291 XOR\n2 1 61427 2269 100474 XOR\n2 1 100474 98426 115290 XOR\n2 1 61426 2268 100473 XOR\n2 1 100473 98425 115289 XOR\n2 1 61425 2267 100472 XOR\n2 1 100472 98424 115288 XOR\n2 1 61424 2266 100471 XOR\n2 1 100471 98423 115287 XOR\n2 1 61423 2265 100470 XOR\n2 1 100470 98422 115256 AND\n2 1 115287 115256 96375 XOR\n2 1 100470 98422 96374 XOR\n2 1 100471 115256 28081 XOR\n2 1 100498 98450 115314 XOR\n2 1 100496 98448 115312 XOR\n2 1 98423 115256 28082 XOR\n2 1 28081 28082 28080 AND\n2 1 28080 115256 115257 XOR\n2 1 115288 115257 96376 XOR\n2 1 98424 115257 28085 XOR\n2 1 100472 115257 28084 XOR\n2 1 28084 28085 28083 AND\n2 1 28083 115257 115258 XOR\n2 1 98425 115258 28088 XOR\n2 1 100473 115258 28087 XOR\n2 1 115289 115258 96377 XOR\n2 1 28087 28088 28086 AND\n2 1 28086 115258 115259 XOR\n2 1 115290 115259 96378 XOR\n2 1 100474 115259 28090 XOR\n2 1 98426 115259 28091 XOR\n2 1 28090 28091 28089 AND\n2 1 28089 115259 115260 XOR\n2 1 115291 115260 96379 XOR\n2 1 100475 115260 28093 XOR\n2 1 98427 115260 28094 XOR\n2 1 28093 28094 28092 AND\n2 1 28092 115260 115261 XOR\n2 1 98428 115261 28097 XOR\n2 1 100499 98451 115315 XOR\n2 1 115292 115261 96380 XOR\n2 1 100476 115261 28096 XOR\n2 1 28096 28097 28095 AND\n2 1 28095 115261 115262 XOR\n2 1 115293 115262 96381 XOR\n2 1 100477 115262 28099 XOR\n2 1 98429 115262 28100 XOR\n2 1 28099 28100 28098 AND\n2 1 28098 115262 115263 XOR\n2 1 98430 115263 28103 XOR\n2 1 100478 115263 28102 XOR\n2 1 28102 28103 28101 AND\n2 1 28101 115263 115264 XOR\n2 1 100479 115264 28105 XOR\n2 1 115295 115264 96383 XOR\n2 1 115294 115263 96382 XOR\n2 1 98431 115264 28106 XOR\n2 1 28105 28106 28104 AND\n2 1 28104 115264 115265 XOR\n2 1 98432 115265 28109 XOR\n2 1 100480 115265 28108 XOR\n2 1 28108 28109 28107 AND\n2 1 28107 115265 115266 XOR\n2 1 115296 115265 96384 XOR\n2 1 115297 115266 96385 XOR\n2 1 100481 115266 28111 XOR\n2 1 98433 115266 28112 XOR\n2 1 28111 28112 28110 AND\n2 1 28110 115266 115267 XOR\n2 1 115298 115267 96386 XOR\n2 1 98434 115267 28115 XOR\n2 1 100482 115267 28114 XOR\n2 1 28114 28115 28113 AND\n2 1 28113 115267 115268 XOR\n2 1 100483 115268 28117 XOR\n2 1 98435 115268 28118 XOR\n2 1 28117 28118 28116 AND\n2 1 28116 115268 115269 XOR\n2 1 115300 115269 96388 XOR\n2 1 100484 115269 28120 XOR\n2 1 98436 115269 28121 XOR\n2 1 28120 28121 28119 AND\n2 1 28119 115269 115270 XOR\n2 1 115301 115270 96389 XOR\n2 1 98437 115270 28124 XOR\n2 1 100485 115270 28123 XOR\n2 1 28123 28124 28122 AND\n",
"2 1 28122 115270 115271 XOR\n2 1 100486 115271 28126 XOR\n2 1 98438 115271 28127 XOR\n2 1 28126 28127 28125 AND\n2 1 28125 115271 115272 XOR\n2 1 115303 115272 96391 XOR\n2 1 100487 115272 28129 XOR\n2 1 98439 115272 28130 XOR\n2 1 115299 115268 96387 XOR\n2 1 28129 28130 28128 AND\n2 1 28128 115272 115273 XOR\n2 1 115304 115273 96392 XOR\n2 1 98440 115273 28133 XOR\n2 1 100488 115273 28132 XOR\n2 1 28132 28133 28131 AND\n2 1 28131 115273 115274 XOR\n2 1 98441 115274 28136 XOR\n2 1 100489 115274 28135 XOR\n2 1 28135 28136 28134 AND\n2 1 28134 115274 115275 XOR\n2 1 115306 115275 96394 XOR\n2 1 98442 115275 28139 XOR\n2 1 100490 115275 28138 XOR\n2 1 115302 115271 96390 XOR\n2 1 28138 28139 28137 AND\n2 1 28137 115275 115276 XOR\n2 1 115307 115276 96395 XOR\n2 1 98443 115276 28142 XOR\n2 1 100491 115276 28141 XOR\n2 1 28141 28142 28140 AND\n2 1 28140 115276 115277 XOR\n2 1 115308 115277 96396 XOR\n2 1 98444 115277 28145 XOR\n2 1 100492 115277 28144 XOR\n2 1 28144 28145 28143 AND\n2 1 28143 115277 115278 XOR\n2 1 115309 115278 96397 XOR\n2 1 100493 115278 28147 XOR\n2 1 98445 115278 28148 XOR\n2 1 115305 115274 96393 XOR\n2 1 28147 28148 28146 AND\n2 1 28146 115278 115279 XOR\n2 1 98446 115279 28151 XOR\n2 1 115310 115279 96398 XOR\n2 1 100494 115279 28150 XOR\n2 1 28150 28151 28149 AND\n2 1 28149 115279 115280 XOR\n2 1 98447 115280 28154 XOR\n2 1 100495 115280 28153 XOR\n2 1 28153 28154 28152 AND\n2 1 115311 115280 96399 XOR\n2 1 28152 115280 115281 XOR\n2 1 115312 115281 96400 XOR\n2 1 98448 115281 28157 XOR\n2 1 100496 115281 28156 XOR\n2 1 28156 28157 28155 AND\n2 1 28155 115281 115282 XOR\n2 1 98449 115282 28160 XOR\n2 1 100497 115282 28159 XOR\n2 1 28159 28160 28158 AND\n2 1 28158 115282 115283 XOR\n2 1 98450 115283 28163 XOR\n2 1 100498 115283 28162 XOR\n2 1 28162 28163 28161 AND\n2 1 28161 115283 115284 XOR\n2 1 98451 115284 28166 XOR\n2 1 115315 115284 96403 XOR\n2 1 115313 115282 96401 XOR\n2 1 100499 115284 28165 XOR\n2 1 28165 28166 28164 AND\n2 1 28164 115284 115285 XOR\n2 1 115316 115285 96404 XOR\n2 1 100500 115285 28168 XOR\n2 1 115314 115283 96402 XOR\n2 1 98452 115285 28169 XOR\n2 1 28168 28169 28167 AND\n2 1 28167 115285 115286 XOR\n2 1 115317 115286 96405 XOR\n2 1 76257 76259 81072 XOR\n2 1 81072 76432 129942 XOR\n2 1 76256 76258 81071 XOR\n2 1 81071 76431 129941 XOR\n2 1 76255 76257 81070 XOR\n2 1 81070 76430 129940 XOR\n2 1 76254 76256 81069 XOR\n2 1 81069 76429 129939 XOR\n2 1 76253 76255 81068 XOR\n2 1 81068 76428 129938 XOR\n2 1 76252 76254 81067 XOR\n2 1 81067 76427 129937 XOR\n2 1 76251 76253 81066 XOR\n2 1 81066 76426 129936 XOR\n2 1 76250 76252 81065 XOR\n2 1 81065 76425 129935 XOR\n2 1 76249 76251 81064 XOR\n2 1 81064 76424 129934 XOR\n2 1 76248 76250 81063 XOR\n2 1 81063 76423 129933 XOR\n2 1 76247 76249 6529 XOR\n2 1 76246 76248 6528 XOR\n2 1 76245 76247 6527 XOR\n2 1 76244 76246 6526 XOR\n2 1 76243 76245 6525 XOR\n2 1 76242 76244 6524 XOR\n2 1 76241 76243 6523 XOR\n2 1 76272 76242 6522 XOR\n2 1 76271 76241 6521 XOR\n2 1 76270 76272 6520 XOR\n2 1 76269 76271 6519 XOR\n2 1 76268 76270 6518 XOR\n2 1 76267 76269 6517 XOR\n2 1 76266 76268 6516 XOR\n2 1 76265 76267 6515 XOR\n2 1 76264 76266 6514 XOR\n2 1 76263 76265 6513 XOR\n2 1 76262 76264 6512 XOR\n2 1 76261 76263 6511 XOR\n2 1 76260 76262 6510 XOR\n2 1 76259 76261 6509 XOR\n2 1 76258 76260 6508 XOR\n2 1 6529 76272 81062 XOR\n2 1 81062 76422 129932 XOR\n2 1 6528 76271 81061 XOR\n2 1 81061 76421 129931 XOR\n2 1 6527 76270 81060 XOR\n2 1 81060 76420 129930 XOR\n2 1 6526 76269 81059 XOR\n2 1 81059 76419 129929 XOR\n",
"2 1 6525 76268 81058 XOR\n2 1 81058 76418 129928 XOR\n2 1 6524 76267 81057 XOR\n2 1 81057 76417 129927 XOR\n2 1 6523 76266 81056 XOR\n2 1 81056 76416 129926 XOR\n2 1 6522 76265 81055 XOR\n2 1 81055 76415 129925 XOR\n2 1 6521 76264 81054 XOR\n2 1 81054 76414 129924 XOR\n2 1 6520 76263 81053 XOR\n2 1 81053 76413 129923 XOR\n2 1 6519 76262 81052 XOR\n2 1 81052 76412 129922 XOR\n2 1 6518 76261 81051 XOR\n2 1 81051 76411 129921 XOR\n2 1 6517 76260 81050 XOR\n2 1 81050 76410 129920 XOR\n2 1 6516 76259 81049 XOR\n2 1 81049 76409 129919 XOR\n2 1 6515 76258 81048 XOR\n2 1 81048 76408 129918 XOR\n2 1 6514 76257 81047 XOR\n2 1 81047 76407 129917 XOR\n2 1 6513 76256 81046 XOR\n2 1 81046 76406 129916 XOR\n2 1 6512 76255 81045 XOR\n2 1 81045 76405 129915 XOR\n2 1 6511 76254 81044 XOR\n2 1 81044 76404 129914 XOR\n2 1 6510 76253 81043 XOR\n2 1 81043 76403 129913 XOR\n2 1 6509 76252 81042 XOR\n2 1 81042 76402 129912 XOR\n2 1 6508 76251 81041 XOR\n2 1 81041 76401 129881 AND\n2 1 81041 76401 79505 XOR\n2 1 129912 129881 79506 XOR\n2 1 81042 129881 52986 XOR\n2 1 76402 129881 52987 XOR\n2 1 52986 52987 52985 AND\n2 1 52985 129881 129882 XOR\n2 1 129913 129882 79507 XOR\n2 1 81043 129882 52989 XOR\n2 1 76403 129882 52990 XOR\n2 1 52989 52990 52988 AND\n2 1 52988 129882 129883 XOR\n2 1 129914 129883 79508 XOR\n2 1 81044 129883 52992 XOR\n2 1 76404 129883 52993 XOR\n2 1 52992 52993 52991 AND\n2 1 52991 129883 129884 XOR\n2 1 129915 129884 79509 XOR\n2 1 81045 129884 52995 XOR\n2 1 76405 129884 52996 XOR\n2 1 52995 52996 52994 AND\n2 1 52994 129884 129885 XOR\n2 1 129916 129885 79510 XOR\n2 1 81046 129885 52998 XOR\n2 1 76406 129885 52999 XOR\n2 1 52998 52999 52997 AND\n2 1 52997 129885 129886 XOR\n2 1 129917 129886 79511 XOR\n2 1 81047 129886 53001 XOR\n2 1 76407 129886 53002 XOR\n2 1 53001 53002 53000 AND\n2 1 53000 129886 129887 XOR\n2 1 129918 129887 79512 XOR\n2 1 81048 129887 53004 XOR\n2 1 76408 129887 53005 XOR\n2 1 53004 53005 53003 AND\n2 1 53003 129887 129888 XOR\n2 1 129919 129888 79513 XOR\n2 1 81049 129888 53007 XOR\n2 1 76409 129888 53008 XOR\n2 1 53007 53008 53006 AND\n2 1 53006 129888 129889 XOR\n2 1 129920 129889 79514 XOR\n2 1 81050 129889 53010 XOR\n2 1 76410 129889 53011 XOR\n2 1 53010 53011 53009 AND\n2 1 53009 129889 129890 XOR\n2 1 129921 129890 79515 XOR\n2 1 81051 129890 53013 XOR\n2 1 76411 129890 53014 XOR\n2 1 53013 53014 53012 AND\n2 1 53012 129890 129891 XOR\n2 1 129922 129891 79516 XOR\n2 1 81052 129891 53016 XOR\n2 1 76412 129891 53017 XOR\n2 1 53016 53017 53015 AND\n2 1 53015 129891 129892 XOR\n2 1 129923 129892 79517 XOR\n2 1 81053 129892 53019 XOR\n2 1 76413 129892 53020 XOR\n2 1 53019 53020 53018 AND\n2 1 53018 129892 129893 XOR\n2 1 129924 129893 79518 XOR\n2 1 81054 129893 53022 XOR\n2 1 76414 129893 53023 XOR\n2 1 53022 53023 53021 AND\n2 1 53021 129893 129894 XOR\n2 1 129925 129894 79519 XOR\n2 1 81055 129894 53025 XOR\n2 1 76415 129894 53026 XOR\n2 1 53025 53026 53024 AND\n2 1 53024 129894 129895 XOR\n2 1 129926 129895 79520 XOR\n2 1 81056 129895 53028 XOR\n2 1 76416 129895 53029 XOR\n2 1 53028 53029 53027 AND\n2 1 53027 129895 129896 XOR\n2 1 129927 129896 79521 XOR\n2 1 81057 129896 53031 XOR\n2 1 76417 129896 53032 XOR\n2 1 53031 53032 53030 AND\n2 1 53030 129896 129897 XOR\n2 1 129928 129897 79522 XOR\n2 1 81058 129897 53034 XOR\n2 1 76418 129897 53035 XOR\n2 1 53034 53035 53033 AND\n2 1 53033 129897 129898 XOR\n2 1 129929 129898 79523 XOR\n2 1 81059 129898 53037 XOR\n2 1 76419 129898 53038 XOR\n2 1 53037 53038 53036 AND\n2 1 53036 129898 129899 XOR\n2 1 129930 129899 79524 XOR\n",
"2 1 81060 129899 53040 XOR\n2 1 76420 129899 53041 XOR\n2 1 53040 53041 53039 AND\n2 1 53039 129899 129900 XOR\n2 1 129931 129900 79525 XOR\n2 1 81061 129900 53043 XOR\n2 1 76421 129900 53044 XOR\n2 1 53043 53044 53042 AND\n2 1 53042 129900 129901 XOR\n2 1 129932 129901 79526 XOR\n2 1 81062 129901 53046 XOR\n2 1 76422 129901 53047 XOR\n2 1 53046 53047 53045 AND\n2 1 53045 129901 129902 XOR\n2 1 129933 129902 79527 XOR\n2 1 81063 129902 53049 XOR\n2 1 76423 129902 53050 XOR\n2 1 53049 53050 53048 AND\n2 1 53048 129902 129903 XOR\n2 1 129934 129903 79528 XOR\n2 1 81064 129903 53052 XOR\n2 1 76424 129903 53053 XOR\n2 1 53052 53053 53051 AND\n2 1 53051 129903 129904 XOR\n2 1 129935 129904 79529 XOR\n2 1 81065 129904 53055 XOR\n2 1 76425 129904 53056 XOR\n2 1 53055 53056 53054 AND\n2 1 53054 129904 129905 XOR\n2 1 129936 129905 79530 XOR\n2 1 81066 129905 53058 XOR\n2 1 76426 129905 53059 XOR\n2 1 53058 53059 53057 AND\n2 1 53057 129905 129906 XOR\n2 1 129937 129906 79531 XOR\n2 1 81067 129906 53061 XOR\n2 1 76427 129906 53062 XOR\n2 1 53061 53062 53060 AND\n2 1 53060 129906 129907 XOR\n2 1 129938 129907 79532 XOR\n2 1 81068 129907 53064 XOR\n2 1 76428 129907 53065 XOR\n2 1 53064 53065 53063 AND\n2 1 53063 129907 129908 XOR\n2 1 129939 129908 79533 XOR\n2 1 81069 129908 53067 XOR\n2 1 76429 129908 53068 XOR\n2 1 53067 53068 53066 AND\n2 1 53066 129908 129909 XOR\n2 1 129940 129909 79534 XOR\n2 1 81070 129909 53070 XOR\n2 1 76430 129909 53071 XOR\n2 1 53070 53071 53069 AND\n2 1 53069 129909 129910 XOR\n2 1 129941 129910 79535 XOR\n2 1 81071 129910 53073 XOR\n2 1 76431 129910 53074 XOR\n2 1 53073 53074 53072 AND\n2 1 53072 129910 129911 XOR\n2 1 129942 129911 79536 XOR\n2 1 76695 76706 82640 XOR\n2 1 82640 76752 130066 XOR\n2 1 76694 76705 82639 XOR\n2 1 82639 76751 130065 XOR\n2 1 76693 76704 82638 XOR\n2 1 82638 76750 130064 XOR\n2 1 76692 76703 5328 XOR\n2 1 76691 76702 5327 XOR\n2 1 76690 76701 5326 XOR\n2 1 76689 76700 5325 XOR\n2 1 76720 76699 5324 XOR\n2 1 76719 76698 5323 XOR\n2 1 76718 76697 5322 XOR\n2 1 76717 76696 5321 XOR\n2 1 76716 76695 5320 XOR\n2 1 76715 76694 5319 XOR\n2 1 76714 76693 5318 XOR\n2 1 76713 76692 5317 XOR\n2 1 76712 76691 5316 XOR\n2 1 76711 76690 5315 XOR\n2 1 76710 76689 5314 XOR\n2 1 76709 76720 5313 XOR\n2 1 76708 76719 5312 XOR\n2 1 76707 76718 5311 XOR\n2 1 76706 76717 5310 XOR\n2 1 76705 76716 5309 XOR\n2 1 76704 76715 5308 XOR\n2 1 76703 76714 5307 XOR\n2 1 76702 76713 5306 XOR\n2 1 76701 76712 5305 XOR\n2 1 76700 76711 5304 XOR\n2 1 76699 76710 5303 XOR\n2 1 76698 76709 5302 XOR\n2 1 76697 76708 5301 XOR\n2 1 76696 76707 5300 XOR\n2 1 5328 76720 82637 XOR\n2 1 82637 76749 130063 XOR\n2 1 5327 76719 82636 XOR\n2 1 82636 76748 130062 XOR\n2 1 5326 76718 82635 XOR\n2 1 82635 76747 130061 XOR\n2 1 5325 76717 82634 XOR\n2 1 82634 76746 130060 XOR\n2 1 5324 76716 82633 XOR\n2 1 82633 76745 130059 XOR\n2 1 5323 76715 82632 XOR\n2 1 82632 76744 130058 XOR\n2 1 5322 76714 82631 XOR\n2 1 82631 76743 130057 XOR\n2 1 5321 76713 82630 XOR\n2 1 82630 76742 130056 XOR\n2 1 5320 76712 82629 XOR\n2 1 82629 76741 130055 XOR\n2 1 5319 76711 82628 XOR\n2 1 82628 76740 130054 XOR\n2 1 5318 76710 82627 XOR\n2 1 82627 76739 130053 XOR\n2 1 5317 76709 82626 XOR\n2 1 82626 76738 130052 XOR\n2 1 5316 76708 82625 XOR\n2 1 82625 76737 130051 XOR\n2 1 5315 76707 82624 XOR\n2 1 82624 76736 130050 XOR\n2 1 5314 76706 82623 XOR\n2 1 82623 76735 130049 XOR\n2 1 5313 76705 82622 XOR\n2 1 82622 76734 130048 XOR\n2 1 5312 76704 82621 XOR\n",
"2 1 82621 76733 130047 XOR\n2 1 5311 76703 82620 XOR\n2 1 82620 76732 130046 XOR\n2 1 5310 76702 82619 XOR\n2 1 82619 76731 130045 XOR\n2 1 5309 76701 82618 XOR\n2 1 82618 76730 130044 XOR\n2 1 5308 76700 82617 XOR\n2 1 82617 76729 130043 XOR\n2 1 5307 76699 82616 XOR\n2 1 82616 76728 130042 XOR\n2 1 5306 76698 82615 XOR\n2 1 82615 76727 130041 XOR\n2 1 5305 76697 82614 XOR\n2 1 82614 76726 130040 XOR\n2 1 5304 76696 82613 XOR\n2 1 82613 76725 130039 XOR\n2 1 5303 76695 82612 XOR\n2 1 82612 76724 130038 XOR\n2 1 5302 76694 82611 XOR\n2 1 82611 76723 130037 XOR\n2 1 5301 76693 82610 XOR\n2 1 82610 76722 130036 XOR\n2 1 5300 76692 82609 XOR\n2 1 82609 76721 130005 AND\n2 1 82609 76721 78001 XOR\n2 1 79537 78001 129943 AND\n2 1 79537 78001 76209 XOR\n2 1 79538 129943 53076 XOR\n2 1 130036 130005 78002 XOR\n2 1 79538 78002 129974 XOR\n2 1 129974 129943 76210 XOR\n2 1 78002 129943 53077 XOR\n2 1 53076 53077 53075 AND\n2 1 53075 129943 129944 XOR\n2 1 79539 129944 53079 XOR\n2 1 82610 130005 53166 XOR\n2 1 76722 130005 53167 XOR\n2 1 53166 53167 53165 AND\n2 1 53165 130005 130006 XOR\n2 1 130037 130006 78003 XOR\n2 1 79539 78003 129975 XOR\n2 1 129975 129944 76211 XOR\n2 1 78003 129944 53080 XOR\n2 1 53079 53080 53078 AND\n2 1 53078 129944 129945 XOR\n2 1 79540 129945 53082 XOR\n2 1 82611 130006 53169 XOR\n2 1 76723 130006 53170 XOR\n2 1 53169 53170 53168 AND\n2 1 53168 130006 130007 XOR\n2 1 130038 130007 78004 XOR\n2 1 79540 78004 129976 XOR\n2 1 129976 129945 76212 XOR\n2 1 78004 129945 53083 XOR\n2 1 53082 53083 53081 AND\n2 1 53081 129945 129946 XOR\n2 1 79541 129946 53085 XOR\n2 1 82612 130007 53172 XOR\n2 1 76724 130007 53173 XOR\n2 1 53172 53173 53171 AND\n2 1 53171 130007 130008 XOR\n2 1 130039 130008 78005 XOR\n2 1 79541 78005 129977 XOR\n2 1 129977 129946 76213 XOR\n2 1 78005 129946 53086 XOR\n2 1 53085 53086 53084 AND\n2 1 53084 129946 129947 XOR\n2 1 79542 129947 53088 XOR\n2 1 82613 130008 53175 XOR\n2 1 76725 130008 53176 XOR\n2 1 53175 53176 53174 AND\n2 1 53174 130008 130009 XOR\n2 1 130040 130009 78006 XOR\n2 1 79542 78006 129978 XOR\n2 1 129978 129947 76214 XOR\n2 1 78006 129947 53089 XOR\n2 1 53088 53089 53087 AND\n2 1 53087 129947 129948 XOR\n2 1 79543 129948 53091 XOR\n2 1 82614 130009 53178 XOR\n2 1 76726 130009 53179 XOR\n2 1 53178 53179 53177 AND\n2 1 53177 130009 130010 XOR\n2 1 130041 130010 78007 XOR\n2 1 79543 78007 129979 XOR\n2 1 129979 129948 76215 XOR\n2 1 78007 129948 53092 XOR\n2 1 53091 53092 53090 AND\n2 1 53090 129948 129949 XOR\n2 1 79544 129949 53094 XOR\n2 1 82615 130010 53181 XOR\n2 1 76727 130010 53182 XOR\n2 1 53181 53182 53180 AND\n2 1 53180 130010 130011 XOR\n2 1 130042 130011 78008 XOR\n2 1 79544 78008 129980 XOR\n2 1 129980 129949 76216 XOR\n2 1 78008 129949 53095 XOR\n2 1 53094 53095 53093 AND\n2 1 53093 129949 129950 XOR\n2 1 79545 129950 53097 XOR\n2 1 82616 130011 53184 XOR\n2 1 76728 130011 53185 XOR\n2 1 53184 53185 53183 AND\n2 1 53183 130011 130012 XOR\n2 1 130043 130012 78009 XOR\n2 1 79545 78009 129981 XOR\n2 1 129981 129950 76217 XOR\n2 1 78009 129950 53098 XOR\n2 1 53097 53098 53096 AND\n2 1 53096 129950 129951 XOR\n2 1 79546 129951 53100 XOR\n2 1 82617 130012 53187 XOR\n2 1 76729 130012 53188 XOR\n2 1 53187 53188 53186 AND\n2 1 53186 130012 130013 XOR\n2 1 130044 130013 78010 XOR\n2 1 79546 78010 129982 XOR\n2 1 129982 129951 76218 XOR\n2 1 78010 129951 53101 XOR\n2 1 53100 53101 53099 AND\n2 1 53099 129951 129952 XOR\n2 1 79547 129952 53103 XOR\n2 1 82618 130013 53190 XOR\n2 1 76730 130013 53191 XOR\n2 1 53190 53191 53189 AND\n2 1 53189 130013 130014 XOR\n",
"2 1 130045 130014 78011 XOR\n2 1 79547 78011 129983 XOR\n2 1 129983 129952 76219 XOR\n2 1 78011 129952 53104 XOR\n2 1 53103 53104 53102 AND\n2 1 53102 129952 129953 XOR\n2 1 79548 129953 53106 XOR\n2 1 82619 130014 53193 XOR\n2 1 76731 130014 53194 XOR\n2 1 53193 53194 53192 AND\n2 1 53192 130014 130015 XOR\n2 1 130046 130015 78012 XOR\n2 1 79548 78012 129984 XOR\n2 1 129984 129953 76220 XOR\n2 1 78012 129953 53107 XOR\n2 1 53106 53107 53105 AND\n2 1 53105 129953 129954 XOR\n2 1 79549 129954 53109 XOR\n2 1 82620 130015 53196 XOR\n2 1 76732 130015 53197 XOR\n2 1 53196 53197 53195 AND\n2 1 53195 130015 130016 XOR\n2 1 130047 130016 78013 XOR\n2 1 79549 78013 129985 XOR\n2 1 129985 129954 76221 XOR\n2 1 78013 129954 53110 XOR\n2 1 53109 53110 53108 AND\n2 1 53108 129954 129955 XOR\n2 1 79550 129955 53112 XOR\n2 1 82621 130016 53199 XOR\n2 1 76733 130016 53200 XOR\n2 1 53199 53200 53198 AND\n2 1 53198 130016 130017 XOR\n2 1 130048 130017 78014 XOR\n2 1 79550 78014 129986 XOR\n2 1 129986 129955 76222 XOR\n2 1 78014 129955 53113 XOR\n2 1 53112 53113 53111 AND\n2 1 53111 129955 129956 XOR\n2 1 79551 129956 53115 XOR\n2 1 82622 130017 53202 XOR\n2 1 76734 130017 53203 XOR\n2 1 53202 53203 53201 AND\n2 1 53201 130017 130018 XOR\n2 1 130049 130018 78015 XOR\n2 1 79551 78015 129987 XOR\n2 1 129987 129956 76223 XOR\n2 1 78015 129956 53116 XOR\n2 1 53115 53116 53114 AND\n2 1 53114 129956 129957 XOR\n2 1 79552 129957 53118 XOR\n2 1 82623 130018 53205 XOR\n2 1 76735 130018 53206 XOR\n2 1 53205 53206 53204 AND\n2 1 53204 130018 130019 XOR\n2 1 130050 130019 78016 XOR\n2 1 79552 78016 129988 XOR\n2 1 129988 129957 76224 XOR\n2 1 78016 129957 53119 XOR\n2 1 53118 53119 53117 AND\n2 1 53117 129957 129958 XOR\n2 1 79553 129958 53121 XOR\n2 1 82624 130019 53208 XOR\n2 1 76736 130019 53209 XOR\n2 1 53208 53209 53207 AND\n2 1 53207 130019 130020 XOR\n2 1 130051 130020 78017 XOR\n2 1 79553 78017 129989 XOR\n2 1 129989 129958 76225 XOR\n2 1 78017 129958 53122 XOR\n2 1 53121 53122 53120 AND\n2 1 53120 129958 129959 XOR\n2 1 79554 129959 53124 XOR\n2 1 82625 130020 53211 XOR\n2 1 76737 130020 53212 XOR\n2 1 53211 53212 53210 AND\n2 1 53210 130020 130021 XOR\n2 1 130052 130021 78018 XOR\n2 1 79554 78018 129990 XOR\n2 1 129990 129959 76226 XOR\n2 1 78018 129959 53125 XOR\n2 1 53124 53125 53123 AND\n2 1 53123 129959 129960 XOR\n2 1 79555 129960 53127 XOR\n2 1 82626 130021 53214 XOR\n2 1 76738 130021 53215 XOR\n2 1 53214 53215 53213 AND\n2 1 53213 130021 130022 XOR\n2 1 130053 130022 78019 XOR\n2 1 79555 78019 129991 XOR\n2 1 129991 129960 76227 XOR\n2 1 78019 129960 53128 XOR\n2 1 53127 53128 53126 AND\n2 1 53126 129960 129961 XOR\n2 1 79556 129961 53130 XOR\n2 1 82627 130022 53217 XOR\n2 1 76739 130022 53218 XOR\n2 1 53217 53218 53216 AND\n2 1 53216 130022 130023 XOR\n2 1 130054 130023 78020 XOR\n2 1 79556 78020 129992 XOR\n2 1 129992 129961 76228 XOR\n2 1 78020 129961 53131 XOR\n2 1 53130 53131 53129 AND\n2 1 53129 129961 129962 XOR\n2 1 79557 129962 53133 XOR\n2 1 82628 130023 53220 XOR\n2 1 76740 130023 53221 XOR\n2 1 53220 53221 53219 AND\n2 1 53219 130023 130024 XOR\n2 1 130055 130024 78021 XOR\n2 1 79557 78021 129993 XOR\n2 1 129993 129962 76229 XOR\n2 1 78021 129962 53134 XOR\n2 1 53133 53134 53132 AND\n2 1 53132 129962 129963 XOR\n2 1 79558 129963 53136 XOR\n2 1 82629 130024 53223 XOR\n2 1 76741 130024 53224 XOR\n2 1 53223 53224 53222 AND\n2 1 53222 130024 130025 XOR\n2 1 130056 130025 78022 XOR\n2 1 79558 78022 129994 XOR\n2 1 129994 129963 76230 XOR\n2 1 78022 129963 53137 XOR\n2 1 53136 53137 53135 AND\n2 1 53135 129963 129964 XOR\n2 1 79559 129964 53139 XOR\n",
"2 1 82630 130025 53226 XOR\n2 1 76742 130025 53227 XOR\n2 1 53226 53227 53225 AND\n2 1 53225 130025 130026 XOR\n2 1 130057 130026 78023 XOR\n2 1 79559 78023 129995 XOR\n2 1 129995 129964 76231 XOR\n2 1 78023 129964 53140 XOR\n2 1 53139 53140 53138 AND\n2 1 53138 129964 129965 XOR\n2 1 79560 129965 53142 XOR\n2 1 82631 130026 53229 XOR\n2 1 76743 130026 53230 XOR\n2 1 53229 53230 53228 AND\n2 1 53228 130026 130027 XOR\n2 1 130058 130027 78024 XOR\n2 1 79560 78024 129996 XOR\n2 1 129996 129965 76232 XOR\n2 1 78024 129965 53143 XOR\n2 1 53142 53143 53141 AND\n2 1 53141 129965 129966 XOR\n2 1 79561 129966 53145 XOR\n2 1 82632 130027 53232 XOR\n2 1 76744 130027 53233 XOR\n2 1 53232 53233 53231 AND\n2 1 53231 130027 130028 XOR\n2 1 130059 130028 78025 XOR\n2 1 79561 78025 129997 XOR\n2 1 129997 129966 76233 XOR\n2 1 78025 129966 53146 XOR\n2 1 53145 53146 53144 AND\n2 1 53144 129966 129967 XOR\n2 1 79562 129967 53148 XOR\n2 1 82633 130028 53235 XOR\n2 1 76745 130028 53236 XOR\n2 1 53235 53236 53234 AND\n2 1 53234 130028 130029 XOR\n2 1 130060 130029 78026 XOR\n2 1 79562 78026 129998 XOR\n2 1 129998 129967 76234 XOR\n2 1 78026 129967 53149 XOR\n2 1 53148 53149 53147 AND\n2 1 53147 129967 129968 XOR\n2 1 79563 129968 53151 XOR\n2 1 82634 130029 53238 XOR\n2 1 76746 130029 53239 XOR\n2 1 53238 53239 53237 AND\n2 1 53237 130029 130030 XOR\n2 1 130061 130030 78027 XOR\n2 1 79563 78027 129999 XOR\n2 1 129999 129968 76235 XOR\n2 1 78027 129968 53152 XOR\n2 1 53151 53152 53150 AND\n2 1 53150 129968 129969 XOR\n2 1 79564 129969 53154 XOR\n2 1 82635 130030 53241 XOR\n2 1 76747 130030 53242 XOR\n2 1 53241 53242 53240 AND\n2 1 53240 130030 130031 XOR\n2 1 130062 130031 78028 XOR\n2 1 79564 78028 130000 XOR\n2 1 130000 129969 76236 XOR\n2 1 78028 129969 53155 XOR\n2 1 53154 53155 53153 AND\n2 1 53153 129969 129970 XOR\n2 1 79565 129970 53157 XOR\n2 1 82636 130031 53244 XOR\n2 1 76748 130031 53245 XOR\n2 1 53244 53245 53243 AND\n2 1 53243 130031 130032 XOR\n2 1 130063 130032 78029 XOR\n2 1 79565 78029 130001 XOR\n2 1 130001 129970 76237 XOR\n2 1 78029 129970 53158 XOR\n2 1 53157 53158 53156 AND\n2 1 53156 129970 129971 XOR\n2 1 79566 129971 53160 XOR\n2 1 82637 130032 53247 XOR\n2 1 76749 130032 53248 XOR\n2 1 53247 53248 53246 AND\n2 1 53246 130032 130033 XOR\n2 1 130064 130033 78030 XOR\n2 1 79566 78030 130002 XOR\n2 1 130002 129971 76238 XOR\n2 1 78030 129971 53161 XOR\n2 1 53160 53161 53159 AND\n2 1 53159 129971 129972 XOR\n2 1 79567 129972 53163 XOR\n2 1 82638 130033 53250 XOR\n2 1 76750 130033 53251 XOR\n2 1 53250 53251 53249 AND\n2 1 53249 130033 130034 XOR\n2 1 130065 130034 78031 XOR\n2 1 79567 78031 130003 XOR\n2 1 130003 129972 76239 XOR\n2 1 78031 129972 53164 XOR\n2 1 53163 53164 53162 AND\n2 1 53162 129972 129973 XOR\n2 1 82639 130034 53253 XOR\n2 1 76751 130034 53254 XOR\n2 1 53253 53254 53252 AND\n2 1 53252 130034 130035 XOR\n2 1 130066 130035 78032 XOR\n2 1 79568 78032 130004 XOR\n2 1 130004 129973 76240 XOR\n2 1 76209 2336 115194 AND\n2 1 76209 2336 94326 XOR\n2 1 96374 94326 92313 XOR\n1 1 92313 90289 INV\n2 1 90289 84145 104824 AND\n2 1 90289 84145 1696 XOR\n2 1 1824 90289 104762 AND\n2 1 1825 104762 11197 XOR\n2 1 1696 1760 70543 XOR\n2 1 70543 70511 70479 AND\n2 1 70479 1760 86161 XOR\n2 1 1696 1728 70415 XOR\n2 1 1824 90289 2208 XOR\n2 1 76210 2337 115225 XOR\n2 1 76211 2338 115226 XOR\n2 1 76212 2339 115227 XOR\n2 1 76213 2340 115228 XOR\n2 1 76214 2341 115229 XOR\n2 1 76215 2342 115230 XOR\n2 1 76216 2343 115231 XOR\n2 1 76217 2344 115232 XOR\n2 1 76218 2345 115233 XOR\n2 1 76219 2346 115234 XOR\n",
"2 1 76220 2347 115235 XOR\n2 1 76221 2348 115236 XOR\n2 1 76222 2349 115237 XOR\n2 1 76223 2350 115238 XOR\n2 1 76224 2351 115239 XOR\n2 1 76225 2352 115240 XOR\n2 1 76226 2353 115241 XOR\n2 1 76227 2354 115242 XOR\n2 1 76228 2355 115243 XOR\n2 1 76229 2356 115244 XOR\n2 1 76230 2357 115245 XOR\n2 1 76231 2358 115246 XOR\n2 1 76232 2359 115247 XOR\n2 1 76233 2360 115248 XOR\n2 1 76234 2361 115249 XOR\n2 1 84146 104824 11288 XOR\n2 1 64015 2208 63983 AND\n2 1 63983 2272 98390 XOR\n2 1 2208 2240 63951 XOR\n2 1 96374 94326 115132 AND\n2 1 96375 115132 27901 XOR\n2 1 76235 2362 115250 XOR\n2 1 76236 2363 115251 XOR\n2 1 76237 2364 115252 XOR\n2 1 76238 2365 115253 XOR\n2 1 76239 2366 115254 XOR\n2 1 76240 2367 115255 XOR\n2 1 115225 115194 94327 XOR\n2 1 96375 94327 115163 XOR\n2 1 115163 115132 92314 XOR\n2 1 92314 92313 90290 XOR\n2 1 90290 104824 11287 XOR\n2 1 11287 11288 11286 AND\n2 1 11286 104824 104825 XOR\n2 1 84147 104825 11291 XOR\n2 1 1825 90290 104793 XOR\n2 1 104793 104762 2209 XOR\n2 1 90290 84146 104855 XOR\n2 1 104855 104824 1697 XOR\n2 1 90290 92313 27816 AND\n2 1 27816 92313 27818 XOR\n2 1 1697 1761 70544 XOR\n2 1 70544 70512 70480 AND\n2 1 70480 1761 86162 XOR\n2 1 1697 1729 70416 XOR\n2 1 90290 104762 11198 XOR\n2 1 64016 2209 63984 AND\n2 1 63984 2273 98391 XOR\n2 1 2209 2241 63952 XOR\n2 1 94327 115132 27902 XOR\n2 1 27901 27902 27900 AND\n2 1 27900 115132 115133 XOR\n2 1 96376 115133 27904 XOR\n2 1 76210 115194 27991 XOR\n2 1 2337 115194 27992 XOR\n2 1 27991 27992 27990 AND\n2 1 27990 115194 115195 XOR\n2 1 115226 115195 94328 XOR\n2 1 94328 115133 27905 XOR\n2 1 96376 94328 115164 XOR\n2 1 115164 115133 92315 XOR\n2 1 92315 27818 90291 XOR\n2 1 90291 27818 27817 AND\n2 1 27817 27818 115119 XOR\n1 1 115119 27821 INV\n2 1 90291 104825 11290 XOR\n2 1 90291 84147 104856 XOR\n2 1 11290 11291 11289 AND\n2 1 11289 104825 104826 XOR\n2 1 84148 104826 11294 XOR\n2 1 104856 104825 1698 XOR\n2 1 1698 1762 70545 XOR\n2 1 70545 70513 70481 AND\n2 1 70481 1762 86163 XOR\n2 1 1698 1730 70417 XOR\n2 1 27904 27905 27903 AND\n2 1 27903 115133 115134 XOR\n2 1 96377 115134 27907 XOR\n2 1 76211 115195 27994 XOR\n2 1 2338 115195 27995 XOR\n2 1 27994 27995 27993 AND\n2 1 27993 115195 115196 XOR\n2 1 115227 115196 94329 XOR\n2 1 94329 115134 27908 XOR\n2 1 27907 27908 27906 AND\n2 1 96377 94329 115165 XOR\n2 1 115165 115134 92316 XOR\n2 1 92316 115119 27820 XOR\n2 1 27820 27821 27819 AND\n2 1 27819 115119 115120 XOR\n1 1 115120 27824 INV\n1 1 92316 27887 INV\n2 1 27887 115119 90292 XOR\n2 1 90292 104826 11293 XOR\n2 1 11293 11294 11292 AND\n2 1 1827 90292 104795 XOR\n2 1 90292 84148 104857 XOR\n2 1 104857 104826 1699 XOR\n2 1 1699 1763 70546 XOR\n2 1 70546 70514 70482 AND\n2 1 70482 1763 86164 XOR\n2 1 1699 1731 70418 XOR\n2 1 27906 115134 115135 XOR\n2 1 96378 115135 27910 XOR\n2 1 76212 115196 27997 XOR\n2 1 2339 115196 27998 XOR\n2 1 27997 27998 27996 AND\n2 1 27996 115196 115197 XOR\n2 1 115228 115197 94330 XOR\n2 1 96378 94330 115166 XOR\n2 1 115166 115135 92317 XOR\n1 1 92317 27888 INV\n2 1 27888 115120 90293 XOR\n2 1 92317 115120 27823 XOR\n2 1 27823 27824 27822 AND\n2 1 27822 115120 27826 XOR\n2 1 1828 90293 104796 XOR\n2 1 90293 84149 104858 XOR\n2 1 94330 115135 27911 XOR\n2 1 27910 27911 27909 AND\n2 1 27909 115135 115136 XOR\n2 1 96379 115136 27913 XOR\n2 1 76213 115197 28000 XOR\n2 1 2340 115197 28001 XOR\n2 1 28000 28001 27999 AND\n2 1 27999 115197 115198 XOR\n2 1 115229 115198 94331 XOR\n2 1 94331 115136 27914 XOR\n",
"2 1 96379 94331 115167 XOR\n2 1 27913 27914 27912 AND\n2 1 27912 115136 115137 XOR\n2 1 96380 115137 27916 XOR\n2 1 115167 115136 92318 XOR\n2 1 92318 27826 90294 XOR\n2 1 90294 27826 27825 AND\n2 1 27825 27826 27828 XOR\n2 1 90294 84150 104859 XOR\n2 1 1829 90294 104797 XOR\n2 1 76214 115198 28003 XOR\n2 1 2341 115198 28004 XOR\n2 1 28003 28004 28002 AND\n2 1 28002 115198 115199 XOR\n2 1 2342 115199 28007 XOR\n2 1 115230 115199 94332 XOR\n2 1 96380 94332 115168 XOR\n2 1 115168 115137 92319 XOR\n2 1 92319 27828 90295 XOR\n2 1 90295 27828 27827 AND\n2 1 27827 27828 27830 XOR\n2 1 1830 90295 104798 XOR\n2 1 90295 84151 104860 XOR\n2 1 94332 115137 27917 XOR\n2 1 27916 27917 27915 AND\n2 1 27915 115137 115138 XOR\n2 1 96381 115138 27919 XOR\n2 1 76215 115199 28006 XOR\n2 1 28006 28007 28005 AND\n2 1 28005 115199 115200 XOR\n2 1 76216 115200 28009 XOR\n2 1 115231 115200 94333 XOR\n2 1 96381 94333 115169 XOR\n2 1 115169 115138 92320 XOR\n2 1 92320 27830 90296 XOR\n2 1 90296 27830 27829 AND\n2 1 27829 27830 27832 XOR\n2 1 90296 84152 104861 XOR\n2 1 1831 90296 104799 XOR\n2 1 94333 115138 27920 XOR\n2 1 27919 27920 27918 AND\n2 1 27918 115138 115139 XOR\n2 1 96382 115139 27922 XOR\n2 1 2343 115200 28010 XOR\n2 1 28009 28010 28008 AND\n2 1 28008 115200 115201 XOR\n2 1 2344 115201 28013 XOR\n2 1 115232 115201 94334 XOR\n2 1 94334 115139 27923 XOR\n2 1 27922 27923 27921 AND\n2 1 96382 94334 115170 XOR\n2 1 27921 115139 115140 XOR\n2 1 115170 115139 92321 XOR\n2 1 92321 27832 90297 XOR\n2 1 90297 84153 104862 XOR\n2 1 90297 27832 27831 AND\n2 1 27831 27832 27834 XOR\n2 1 1832 90297 104800 XOR\n2 1 96383 115140 27925 XOR\n2 1 76217 115201 28012 XOR\n2 1 28012 28013 28011 AND\n2 1 28011 115201 115202 XOR\n2 1 76218 115202 28015 XOR\n2 1 115233 115202 94335 XOR\n2 1 94335 115140 27926 XOR\n2 1 96383 94335 115171 XOR\n2 1 115171 115140 92322 XOR\n2 1 92322 27834 90298 XOR\n2 1 90298 27834 27833 AND\n2 1 90298 84154 104863 XOR\n2 1 27833 27834 27836 XOR\n2 1 1833 90298 104801 XOR\n2 1 27925 27926 27924 AND\n2 1 27924 115140 115141 XOR\n2 1 96384 115141 27928 XOR\n2 1 2345 115202 28016 XOR\n2 1 28015 28016 28014 AND\n2 1 28014 115202 115203 XOR\n2 1 115234 115203 94336 XOR\n2 1 2346 115203 28019 XOR\n2 1 94336 115141 27929 XOR\n2 1 96384 94336 115172 XOR\n2 1 115172 115141 92323 XOR\n2 1 92323 27836 90299 XOR\n2 1 1834 90299 104802 XOR\n2 1 90299 27836 27835 AND\n2 1 27835 27836 115121 XOR\n1 1 115121 27839 INV\n2 1 90299 84155 104864 XOR\n2 1 76219 115203 28018 XOR\n2 1 28018 28019 28017 AND\n2 1 28017 115203 115204 XOR\n2 1 76220 115204 28021 XOR\n2 1 115235 115204 94337 XOR\n2 1 96385 94337 115173 XOR\n2 1 2347 115204 28022 XOR\n2 1 28021 28022 28020 AND\n2 1 28020 115204 115205 XOR\n2 1 2348 115205 28025 XOR\n2 1 115236 115205 94338 XOR\n2 1 96386 94338 115174 XOR\n2 1 76221 115205 28024 XOR\n2 1 28024 28025 28023 AND\n2 1 28023 115205 115206 XOR\n2 1 76222 115206 28027 XOR\n2 1 115237 115206 94339 XOR\n2 1 96387 94339 115175 XOR\n2 1 2349 115206 28028 XOR\n2 1 28027 28028 28026 AND\n2 1 28026 115206 115207 XOR\n2 1 2350 115207 28031 XOR\n2 1 115238 115207 94340 XOR\n2 1 96388 94340 115176 XOR\n2 1 76223 115207 28030 XOR\n2 1 28030 28031 28029 AND\n2 1 28029 115207 115208 XOR\n2 1 76224 115208 28033 XOR\n2 1 115239 115208 94341 XOR\n2 1 96389 94341 115177 XOR\n2 1 2351 115208 28034 XOR\n2 1 28033 28034 28032 AND\n2 1 28032 115208 115209 XOR\n2 1 115240 115209 94342 XOR\n2 1 2352 115209 28037 XOR\n2 1 96390 94342 115178 XOR\n2 1 76225 115209 28036 XOR\n2 1 28036 28037 28035 AND\n2 1 28035 115209 115210 XOR\n",
"2 1 76226 115210 28039 XOR\n2 1 115241 115210 94343 XOR\n2 1 96391 94343 115179 XOR\n2 1 2353 115210 28040 XOR\n2 1 28039 28040 28038 AND\n2 1 28038 115210 115211 XOR\n2 1 2354 115211 28043 XOR\n2 1 115242 115211 94344 XOR\n2 1 96392 94344 115180 XOR\n2 1 76227 115211 28042 XOR\n2 1 28042 28043 28041 AND\n2 1 28041 115211 115212 XOR\n2 1 2355 115212 28046 XOR\n2 1 115243 115212 94345 XOR\n2 1 76228 115212 28045 XOR\n2 1 28045 28046 28044 AND\n2 1 28044 115212 115213 XOR\n2 1 115244 115213 94346 XOR\n2 1 96394 94346 115182 XOR\n2 1 96393 94345 115181 XOR\n2 1 2356 115213 28049 XOR\n2 1 76229 115213 28048 XOR\n2 1 28048 28049 28047 AND\n2 1 28047 115213 115214 XOR\n2 1 76230 115214 28051 XOR\n2 1 2357 115214 28052 XOR\n2 1 28051 28052 28050 AND\n2 1 28050 115214 115215 XOR\n2 1 115246 115215 94348 XOR\n2 1 96396 94348 115184 XOR\n2 1 76231 115215 28054 XOR\n2 1 2358 115215 28055 XOR\n2 1 28054 28055 28053 AND\n2 1 28053 115215 115216 XOR\n2 1 76232 115216 28057 XOR\n2 1 2359 115216 28058 XOR\n2 1 28057 28058 28056 AND\n2 1 28056 115216 115217 XOR\n2 1 2360 115217 28061 XOR\n2 1 76233 115217 28060 XOR\n2 1 115248 115217 94350 XOR\n2 1 115247 115216 94349 XOR\n2 1 96397 94349 115185 XOR\n2 1 28060 28061 28059 AND\n2 1 28059 115217 115218 XOR\n2 1 2361 115218 28064 XOR\n2 1 115249 115218 94351 XOR\n2 1 96398 94350 115186 XOR\n2 1 96399 94351 115187 XOR\n2 1 76234 115218 28063 XOR\n2 1 28063 28064 28062 AND\n2 1 28062 115218 115219 XOR\n2 1 115250 115219 94352 XOR\n2 1 2362 115219 28067 XOR\n2 1 76235 115219 28066 XOR\n2 1 28066 28067 28065 AND\n2 1 28065 115219 115220 XOR\n2 1 2363 115220 28070 XOR\n2 1 76236 115220 28069 XOR\n2 1 28069 28070 28068 AND\n2 1 28068 115220 115221 XOR\n2 1 76237 115221 28072 XOR\n2 1 115252 115221 94354 XOR\n2 1 96402 94354 115190 XOR\n2 1 115251 115220 94353 XOR\n2 1 96400 94352 115188 XOR\n2 1 2364 115221 28073 XOR\n2 1 28072 28073 28071 AND\n2 1 28071 115221 115222 XOR\n2 1 115253 115222 94355 XOR\n2 1 2365 115222 28076 XOR\n2 1 76238 115222 28075 XOR\n2 1 28075 28076 28074 AND\n2 1 28074 115222 115223 XOR\n2 1 115254 115223 94356 XOR\n2 1 96404 94356 115192 XOR\n2 1 115245 115214 94347 XOR\n2 1 96395 94347 115183 XOR\n2 1 76239 115223 28078 XOR\n2 1 96403 94355 115191 XOR\n2 1 96401 94353 115189 XOR\n2 1 1826 90291 104794 XOR\n2 1 27928 27929 27927 AND\n2 1 27927 115141 115142 XOR\n2 1 96385 115142 27931 XOR\n2 1 94337 115142 27932 XOR\n2 1 115173 115142 92324 XOR\n1 1 92324 27889 INV\n2 1 27889 115121 90300 XOR\n2 1 1835 90300 104803 XOR\n2 1 92324 115121 27838 XOR\n2 1 27838 27839 27837 AND\n2 1 27837 115121 27841 XOR\n2 1 90300 84156 104865 XOR\n2 1 27931 27932 27930 AND\n2 1 27930 115142 115143 XOR\n2 1 94338 115143 27935 XOR\n2 1 96386 115143 27934 XOR\n2 1 115174 115143 92325 XOR\n2 1 92325 27841 90301 XOR\n2 1 1836 90301 104804 XOR\n2 1 90301 27841 27840 AND\n2 1 27840 27841 115122 XOR\n1 1 115122 27844 INV\n2 1 27934 27935 27933 AND\n2 1 27933 115143 115144 XOR\n2 1 115175 115144 92326 XOR\n1 1 92326 27890 INV\n2 1 27890 115122 90302 XOR\n2 1 1837 90302 104805 XOR\n2 1 92326 115122 27843 XOR\n2 1 27843 27844 27842 AND\n2 1 27842 115122 115123 XOR\n1 1 115123 27847 INV\n2 1 96387 115144 27937 XOR\n2 1 94339 115144 27938 XOR\n2 1 27937 27938 27936 AND\n2 1 27936 115144 115145 XOR\n2 1 115176 115145 92327 XOR\n1 1 92327 27891 INV\n2 1 27891 115123 90303 XOR\n2 1 1838 90303 104806 XOR\n2 1 92327 115123 27846 XOR\n2 1 27846 27847 27845 AND\n2 1 27845 115123 115124 XOR\n1 1 115124 27850 INV\n2 1 90303 84159 104868 XOR\n2 1 90302 84158 104867 XOR\n",
"2 1 90301 84157 104866 XOR\n2 1 96388 115145 27940 XOR\n2 1 94340 115145 27941 XOR\n2 1 27940 27941 27939 AND\n2 1 27939 115145 115146 XOR\n2 1 115177 115146 92328 XOR\n1 1 92328 27892 INV\n2 1 96389 115146 27943 XOR\n2 1 94341 115146 27944 XOR\n2 1 27943 27944 27942 AND\n2 1 27942 115146 115147 XOR\n2 1 94342 115147 27947 XOR\n2 1 115178 115147 92329 XOR\n2 1 96390 115147 27946 XOR\n2 1 27946 27947 27945 AND\n2 1 27945 115147 115148 XOR\n2 1 94343 115148 27950 XOR\n2 1 115179 115148 92330 XOR\n1 1 92330 27893 INV\n2 1 96391 115148 27949 XOR\n2 1 27892 115124 90304 XOR\n2 1 1839 90304 104807 XOR\n2 1 92328 115124 27849 XOR\n2 1 27849 27850 27848 AND\n2 1 27848 115124 27852 XOR\n2 1 90304 84160 104869 XOR\n2 1 92329 27852 90305 XOR\n2 1 1840 90305 104808 XOR\n2 1 90305 27852 27851 AND\n2 1 27851 27852 115125 XOR\n1 1 115125 27855 INV\n2 1 27893 115125 90306 XOR\n2 1 90306 84162 104871 XOR\n2 1 1841 90306 104809 XOR\n2 1 90305 84161 104870 XOR\n2 1 92330 115125 27854 XOR\n2 1 27854 27855 27853 AND\n2 1 27853 115125 27857 XOR\n2 1 27949 27950 27948 AND\n2 1 27948 115148 115149 XOR\n2 1 96392 115149 27952 XOR\n2 1 115180 115149 92331 XOR\n2 1 94344 115149 27953 XOR\n2 1 27952 27953 27951 AND\n2 1 92331 27857 90307 XOR\n2 1 1842 90307 104810 XOR\n2 1 90307 84163 104872 XOR\n2 1 90307 27857 27856 AND\n2 1 27856 27857 27859 XOR\n2 1 27951 115149 115150 XOR\n2 1 96393 115150 27955 XOR\n2 1 115181 115150 92332 XOR\n2 1 94345 115150 27956 XOR\n2 1 27955 27956 27954 AND\n2 1 27954 115150 115151 XOR\n2 1 115182 115151 92333 XOR\n1 1 92333 27894 INV\n2 1 94346 115151 27959 XOR\n2 1 96394 115151 27958 XOR\n2 1 27958 27959 27957 AND\n2 1 27957 115151 115152 XOR\n2 1 115183 115152 92334 XOR\n2 1 94347 115152 27962 XOR\n2 1 96395 115152 27961 XOR\n2 1 27961 27962 27960 AND\n2 1 92332 27859 90308 XOR\n2 1 1843 90308 104811 XOR\n2 1 90308 84164 104873 XOR\n2 1 90308 27859 27858 AND\n2 1 27858 27859 115126 XOR\n1 1 115126 27862 INV\n2 1 27894 115126 90309 XOR\n2 1 1844 90309 104812 XOR\n2 1 90309 84165 104874 XOR\n2 1 92333 115126 27861 XOR\n2 1 27861 27862 27860 AND\n2 1 27860 115126 27864 XOR\n2 1 92334 27864 90310 XOR\n2 1 1845 90310 104813 XOR\n2 1 90310 84166 104875 XOR\n2 1 90310 27864 27863 AND\n2 1 27863 27864 27866 XOR\n2 1 27960 115152 115153 XOR\n2 1 94348 115153 27965 XOR\n2 1 115184 115153 92335 XOR\n2 1 92335 27866 90311 XOR\n2 1 1846 90311 104814 XOR\n2 1 90311 27866 27865 AND\n2 1 27865 27866 115127 XOR\n1 1 115127 27869 INV\n2 1 96396 115153 27964 XOR\n2 1 27964 27965 27963 AND\n2 1 27963 115153 115154 XOR\n2 1 94349 115154 27968 XOR\n2 1 96397 115154 27967 XOR\n2 1 27967 27968 27966 AND\n2 1 27966 115154 115155 XOR\n2 1 96398 115155 27970 XOR\n2 1 115186 115155 92337 XOR\n1 1 92337 27896 INV\n2 1 94350 115155 27971 XOR\n2 1 27970 27971 27969 AND\n2 1 27969 115155 115156 XOR\n2 1 94351 115156 27974 XOR\n2 1 115187 115156 92338 XOR\n2 1 96399 115156 27973 XOR\n2 1 27973 27974 27972 AND\n2 1 27972 115156 115157 XOR\n2 1 94352 115157 27977 XOR\n2 1 115188 115157 92339 XOR\n2 1 96400 115157 27976 XOR\n2 1 27976 27977 27975 AND\n2 1 27975 115157 115158 XOR\n2 1 115189 115158 92340 XOR\n2 1 96401 115158 27979 XOR\n2 1 94353 115158 27980 XOR\n2 1 27979 27980 27978 AND\n2 1 27978 115158 115159 XOR\n2 1 115190 115159 92341 XOR\n1 1 92341 27897 INV\n2 1 96402 115159 27982 XOR\n2 1 94354 115159 27983 XOR\n2 1 27982 27983 27981 AND\n2 1 27981 115159 115160 XOR\n2 1 115191 115160 92342 XOR\n2 1 96403 115160 27985 XOR\n2 1 94355 115160 27986 XOR\n2 1 27985 27986 27984 AND\n",
"2 1 27984 115160 115161 XOR\n2 1 115192 115161 92343 XOR\n1 1 92343 27898 INV\n2 1 96404 115161 27988 XOR\n2 1 94356 115161 27989 XOR\n2 1 27988 27989 27987 AND\n2 1 27987 115161 115162 XOR\n2 1 115185 115154 92336 XOR\n1 1 92336 27895 INV\n2 1 92336 115127 27868 XOR\n2 1 27868 27869 27867 AND\n2 1 27867 115127 115128 XOR\n1 1 115128 27872 INV\n2 1 27895 115127 90312 XOR\n2 1 1847 90312 104815 XOR\n2 1 90312 84168 104877 XOR\n2 1 92337 115128 27871 XOR\n2 1 27871 27872 27870 AND\n2 1 27896 115128 90313 XOR\n2 1 1848 90313 104816 XOR\n2 1 90313 84169 104878 XOR\n2 1 27870 115128 27874 XOR\n2 1 92338 27874 90314 XOR\n2 1 90314 27874 27873 AND\n2 1 27873 27874 27876 XOR\n2 1 90314 84170 104879 XOR\n2 1 1849 90314 104817 XOR\n2 1 92339 27876 90315 XOR\n2 1 90315 27876 27875 AND\n2 1 90315 84171 104880 XOR\n2 1 1850 90315 104818 XOR\n2 1 27875 27876 27878 XOR\n2 1 92340 27878 90316 XOR\n2 1 1851 90316 104819 XOR\n2 1 90316 84172 104881 XOR\n2 1 90316 27878 27877 AND\n2 1 27877 27878 115129 XOR\n1 1 115129 27881 INV\n2 1 92341 115129 27880 XOR\n2 1 27897 115129 90317 XOR\n2 1 90317 84173 104882 XOR\n2 1 1852 90317 104820 XOR\n2 1 27880 27881 27879 AND\n2 1 27879 115129 27883 XOR\n2 1 92342 27883 90318 XOR\n2 1 1853 90318 104821 XOR\n2 1 90318 84174 104883 XOR\n2 1 90318 27883 27882 AND\n2 1 27882 27883 115130 XOR\n1 1 115130 27886 INV\n2 1 27898 115130 90319 XOR\n2 1 90319 84175 104884 XOR\n2 1 1854 90319 104822 XOR\n2 1 92343 115130 27885 XOR\n2 1 27885 27886 27884 AND\n2 1 27884 115130 115131 XOR\n2 1 90311 84167 104876 XOR\n2 1 2366 115223 28079 XOR\n2 1 28078 28079 28077 AND\n2 1 28077 115223 115224 XOR\n2 1 115255 115224 94357 XOR\n2 1 96405 94357 115193 XOR\n2 1 115193 115162 92344 XOR\n1 1 92344 27899 INV\n2 1 27899 115131 90320 XOR\n2 1 90320 84176 104885 XOR\n2 1 1855 90320 104823 XOR\n2 1 76225 76227 81040 XOR\n2 1 81040 76400 129756 XOR\n2 1 76224 76226 81039 XOR\n2 1 81039 76399 129755 XOR\n2 1 76223 76225 81038 XOR\n2 1 81038 76398 129754 XOR\n2 1 76222 76224 81037 XOR\n2 1 81037 76397 129753 XOR\n2 1 76221 76223 81036 XOR\n2 1 81036 76396 129752 XOR\n2 1 76220 76222 81035 XOR\n2 1 81035 76395 129751 XOR\n2 1 76219 76221 81034 XOR\n2 1 81034 76394 129750 XOR\n2 1 76218 76220 81033 XOR\n2 1 81033 76393 129749 XOR\n2 1 76217 76219 81032 XOR\n2 1 76216 76218 81031 XOR\n2 1 81031 76391 129747 XOR\n2 1 76215 76217 6507 XOR\n2 1 76214 76216 6506 XOR\n2 1 76213 76215 6505 XOR\n2 1 76212 76214 6504 XOR\n2 1 76211 76213 6503 XOR\n2 1 76210 76212 6502 XOR\n2 1 76209 76211 6501 XOR\n2 1 76240 76210 6500 XOR\n2 1 76239 76209 6499 XOR\n2 1 76238 76240 6498 XOR\n2 1 76237 76239 6497 XOR\n2 1 76236 76238 6496 XOR\n2 1 76235 76237 6495 XOR\n2 1 76234 76236 6494 XOR\n2 1 76233 76235 6493 XOR\n2 1 76232 76234 6492 XOR\n2 1 76231 76233 6491 XOR\n2 1 76230 76232 6490 XOR\n2 1 76229 76231 6489 XOR\n2 1 76228 76230 6488 XOR\n2 1 76227 76229 6487 XOR\n2 1 76226 76228 6486 XOR\n2 1 6507 76240 81030 XOR\n2 1 6506 76239 81029 XOR\n2 1 81029 76389 129745 XOR\n2 1 6505 76238 81028 XOR\n2 1 6504 76237 81027 XOR\n2 1 81027 76387 129743 XOR\n2 1 6503 76236 81026 XOR\n2 1 6502 76235 81025 XOR\n2 1 81025 76385 129741 XOR\n2 1 6501 76234 81024 XOR\n2 1 6500 76233 81023 XOR\n2 1 81023 76383 129739 XOR\n2 1 6499 76232 81022 XOR\n2 1 6498 76231 81021 XOR\n2 1 81021 76381 129737 XOR\n2 1 6497 76230 81020 XOR\n2 1 6496 76229 81019 XOR\n2 1 81019 76379 129735 XOR\n2 1 6495 76228 81018 XOR\n2 1 6494 76227 81017 XOR\n",
"2 1 81017 76377 129733 XOR\n2 1 6493 76226 81016 XOR\n2 1 6492 76225 81015 XOR\n2 1 81015 76375 129731 XOR\n2 1 6491 76224 81014 XOR\n2 1 6490 76223 81013 XOR\n2 1 81013 76373 129729 XOR\n2 1 6489 76222 81012 XOR\n2 1 6488 76221 81011 XOR\n2 1 81011 76371 129727 XOR\n2 1 6487 76220 81010 XOR\n2 1 6486 76219 81009 XOR\n2 1 81009 76369 79473 XOR\n2 1 11197 11198 11196 AND\n2 1 11196 104762 104763 XOR\n2 1 1826 104763 11200 XOR\n2 1 90291 104763 11201 XOR\n2 1 11200 11201 11199 AND\n2 1 11199 104763 104764 XOR\n2 1 1827 104764 11203 XOR\n2 1 104795 104764 2211 XOR\n2 1 64018 2211 63986 AND\n2 1 63986 2275 98393 XOR\n2 1 2211 2243 63954 XOR\n2 1 104794 104763 2210 XOR\n2 1 64017 2210 63985 AND\n2 1 63985 2274 98392 XOR\n2 1 2210 2242 63953 XOR\n2 1 90292 104764 11204 XOR\n2 1 11203 11204 11202 AND\n2 1 11202 104764 104765 XOR\n2 1 104796 104765 2212 XOR\n2 1 1828 104765 11206 XOR\n2 1 90293 104765 11207 XOR\n2 1 11206 11207 11205 AND\n2 1 11205 104765 104766 XOR\n2 1 90294 104766 11210 XOR\n2 1 104797 104766 2213 XOR\n2 1 64020 2213 63988 AND\n2 1 64019 2212 63987 AND\n2 1 63988 2277 98395 XOR\n2 1 63987 2276 98394 XOR\n2 1 2213 2245 63956 XOR\n2 1 2212 2244 63955 XOR\n2 1 1829 104766 11209 XOR\n2 1 11209 11210 11208 AND\n2 1 11208 104766 104767 XOR\n2 1 104798 104767 2214 XOR\n2 1 90295 104767 11213 XOR\n2 1 64021 2214 63989 AND\n2 1 63989 2278 98396 XOR\n2 1 2214 2246 63957 XOR\n2 1 2209 2214 61418 XOR\n2 1 2208 2213 61417 XOR\n2 1 1830 104767 11212 XOR\n2 1 11212 11213 11211 AND\n2 1 11211 104767 104768 XOR\n2 1 104799 104768 2215 XOR\n2 1 1831 104768 11215 XOR\n2 1 64022 2215 63990 AND\n2 1 63990 2279 98397 XOR\n2 1 2215 2247 63958 XOR\n2 1 90296 104768 11216 XOR\n2 1 11215 11216 11214 AND\n2 1 11214 104768 104769 XOR\n2 1 104800 104769 2216 XOR\n2 1 1832 104769 11218 XOR\n2 1 64023 2216 63991 AND\n2 1 63991 2280 98398 XOR\n2 1 2216 2248 63959 XOR\n2 1 90297 104769 11219 XOR\n2 1 11218 11219 11217 AND\n2 1 11217 104769 104770 XOR\n2 1 1833 104770 11221 XOR\n2 1 90298 104770 11222 XOR\n2 1 11221 11222 11220 AND\n2 1 11220 104770 104771 XOR\n2 1 1834 104771 11224 XOR\n2 1 90299 104771 11225 XOR\n2 1 11224 11225 11223 AND\n2 1 11223 104771 104772 XOR\n2 1 104803 104772 2219 XOR\n2 1 104802 104771 2218 XOR\n2 1 104801 104770 2217 XOR\n2 1 64026 2219 63994 AND\n2 1 64025 2218 63993 AND\n2 1 64024 2217 63992 AND\n2 1 63994 2283 98401 XOR\n2 1 63993 2282 98400 XOR\n2 1 63992 2281 98399 XOR\n2 1 2219 2251 63962 XOR\n2 1 2218 2250 63961 XOR\n2 1 2217 2249 63960 XOR\n2 1 1835 104772 11227 XOR\n2 1 90300 104772 11228 XOR\n2 1 11227 11228 11226 AND\n2 1 11226 104772 104773 XOR\n2 1 1836 104773 11230 XOR\n2 1 90301 104773 11231 XOR\n2 1 104804 104773 2220 XOR\n2 1 64027 2220 63995 AND\n2 1 63995 2284 98402 XOR\n2 1 2220 2252 63963 XOR\n2 1 2213 2218 61422 XOR\n2 1 2212 2217 61421 XOR\n2 1 2211 2216 61420 XOR\n2 1 2210 2215 61419 XOR\n2 1 2215 2220 61392 XOR\n2 1 2214 2219 61391 XOR\n2 1 11230 11231 11229 AND\n2 1 11229 104773 104774 XOR\n2 1 104805 104774 2221 XOR\n2 1 90302 104774 11234 XOR\n2 1 1837 104774 11233 XOR\n2 1 11233 11234 11232 AND\n2 1 11232 104774 104775 XOR\n2 1 1838 104775 11236 XOR\n2 1 104806 104775 2222 XOR\n2 1 90303 104775 11237 XOR\n2 1 64029 2222 63997 AND\n2 1 64028 2221 63996 AND\n2 1 63997 2286 98404 XOR\n2 1 63996 2285 98403 XOR\n2 1 2222 2254 63965 XOR\n2 1 2221 2253 63964 XOR\n2 1 11236 11237 11235 AND\n2 1 11235 104775 104776 XOR\n2 1 1839 104776 11239 XOR\n",
"2 1 104807 104776 2223 XOR\n2 1 90304 104776 11240 XOR\n2 1 11239 11240 11238 AND\n2 1 11238 104776 104777 XOR\n2 1 90305 104777 11243 XOR\n2 1 104808 104777 2224 XOR\n2 1 1840 104777 11242 XOR\n2 1 11242 11243 11241 AND\n2 1 11241 104777 104778 XOR\n2 1 104809 104778 2225 XOR\n2 1 90306 104778 11246 XOR\n2 1 1841 104778 11245 XOR\n2 1 11245 11246 11244 AND\n2 1 11244 104778 104779 XOR\n2 1 104810 104779 2226 XOR\n2 1 1842 104779 11248 XOR\n2 1 64033 2226 64001 AND\n2 1 64032 2225 64000 AND\n2 1 64031 2224 63999 AND\n2 1 64030 2223 63998 AND\n2 1 64001 2290 98408 XOR\n2 1 64000 2289 98407 XOR\n2 1 63999 2288 98406 XOR\n2 1 63998 2287 98405 XOR\n2 1 2226 2258 63969 XOR\n2 1 2225 2257 63968 XOR\n2 1 2224 2256 63967 XOR\n2 1 2223 2255 63966 XOR\n2 1 2221 2226 61398 XOR\n2 1 2220 2225 61397 XOR\n2 1 2219 2224 61396 XOR\n2 1 2218 2223 61395 XOR\n2 1 2217 2222 61394 XOR\n2 1 2216 2221 61393 XOR\n2 1 61398 2208 100445 XOR\n2 1 100445 98397 115032 XOR\n2 1 90307 104779 11249 XOR\n2 1 11248 11249 11247 AND\n2 1 11247 104779 104780 XOR\n2 1 1843 104780 11251 XOR\n2 1 104811 104780 2227 XOR\n2 1 64034 2227 64002 AND\n2 1 64002 2291 98409 XOR\n2 1 2227 2259 63970 XOR\n2 1 2222 2227 61399 XOR\n2 1 61417 2227 100464 XOR\n2 1 61399 2209 100446 XOR\n2 1 100446 98398 115033 XOR\n2 1 90308 104780 11252 XOR\n2 1 11251 11252 11250 AND\n2 1 11250 104780 104781 XOR\n2 1 104812 104781 2228 XOR\n2 1 90309 104781 11255 XOR\n2 1 1844 104781 11254 XOR\n2 1 11254 11255 11253 AND\n2 1 11253 104781 104782 XOR\n2 1 90310 104782 11258 XOR\n2 1 1845 104782 11257 XOR\n2 1 11257 11258 11256 AND\n2 1 104813 104782 2229 XOR\n2 1 11256 104782 104783 XOR\n2 1 90311 104783 11261 XOR\n2 1 1846 104783 11260 XOR\n2 1 104814 104783 2230 XOR\n2 1 11260 11261 11259 AND\n2 1 11259 104783 104784 XOR\n2 1 90312 104784 11264 XOR\n2 1 104815 104784 2231 XOR\n2 1 1847 104784 11263 XOR\n2 1 11263 11264 11262 AND\n2 1 11262 104784 104785 XOR\n2 1 104816 104785 2232 XOR\n2 1 1848 104785 11266 XOR\n2 1 90313 104785 11267 XOR\n2 1 11266 11267 11265 AND\n2 1 11265 104785 104786 XOR\n2 1 104817 104786 2233 XOR\n2 1 90314 104786 11270 XOR\n2 1 1849 104786 11269 XOR\n2 1 11269 11270 11268 AND\n2 1 11268 104786 104787 XOR\n2 1 1850 104787 11272 XOR\n2 1 104818 104787 2234 XOR\n2 1 90315 104787 11273 XOR\n2 1 11272 11273 11271 AND\n2 1 11271 104787 104788 XOR\n2 1 104819 104788 2235 XOR\n2 1 1851 104788 11275 XOR\n2 1 90316 104788 11276 XOR\n2 1 11275 11276 11274 AND\n2 1 11274 104788 104789 XOR\n2 1 90317 104789 11279 XOR\n2 1 1852 104789 11278 XOR\n2 1 11278 11279 11277 AND\n2 1 11277 104789 104790 XOR\n2 1 90318 104790 11282 XOR\n2 1 1853 104790 11281 XOR\n2 1 11281 11282 11280 AND\n2 1 64042 2235 64010 AND\n2 1 64041 2234 64009 AND\n2 1 64040 2233 64008 AND\n2 1 64039 2232 64007 AND\n2 1 64038 2231 64006 AND\n2 1 64037 2230 64005 AND\n2 1 64036 2229 64004 AND\n2 1 64035 2228 64003 AND\n2 1 64010 2299 98417 XOR\n2 1 64009 2298 98416 XOR\n2 1 64008 2297 98415 XOR\n2 1 64007 2296 98414 XOR\n2 1 64006 2295 98413 XOR\n2 1 64005 2294 98412 XOR\n2 1 64004 2293 98411 XOR\n2 1 64003 2292 98410 XOR\n2 1 2235 2267 63978 XOR\n2 1 2234 2266 63977 XOR\n2 1 2233 2265 63976 XOR\n2 1 2232 2264 63975 XOR\n2 1 2231 2263 63974 XOR\n2 1 2230 2262 63973 XOR\n2 1 2229 2261 63972 XOR\n2 1 2228 2260 63971 XOR\n2 1 104820 104789 2236 XOR\n2 1 64043 2236 64011 AND\n2 1 64011 2300 98418 XOR\n2 1 2236 2268 63979 XOR\n2 1 11280 104790 104791 XOR\n2 1 90319 104791 11285 XOR\n",
"2 1 1854 104791 11284 XOR\n2 1 11284 11285 11283 AND\n2 1 104822 104791 2238 XOR\n2 1 11283 104791 104792 XOR\n2 1 104823 104792 2239 XOR\n2 1 64046 2239 64014 AND\n2 1 64045 2238 64013 AND\n2 1 64014 2303 98421 XOR\n2 1 64013 2302 98420 XOR\n2 1 2239 2271 63982 XOR\n2 1 2238 2270 63981 XOR\n2 1 104821 104790 2237 XOR\n2 1 64044 2237 64012 AND\n2 1 64012 2301 98419 XOR\n2 1 2237 2269 63980 XOR\n2 1 2239 2212 61416 XOR\n2 1 2238 2211 61415 XOR\n2 1 2237 2210 61414 XOR\n2 1 2236 2209 61413 XOR\n2 1 2235 2208 61412 XOR\n2 1 2234 2239 61411 XOR\n2 1 2233 2238 61410 XOR\n2 1 2232 2237 61409 XOR\n2 1 2231 2236 61408 XOR\n2 1 2230 2235 61407 XOR\n2 1 2229 2234 61406 XOR\n2 1 2228 2233 61405 XOR\n2 1 2227 2232 61404 XOR\n2 1 2226 2231 61403 XOR\n2 1 2225 2230 61402 XOR\n2 1 2224 2229 61401 XOR\n2 1 2223 2228 61400 XOR\n2 1 61422 2232 100469 XOR\n2 1 100469 98421 115056 XOR\n2 1 61421 2231 100468 XOR\n2 1 100468 98420 115055 XOR\n2 1 61420 2230 100467 XOR\n2 1 100467 98419 115054 XOR\n2 1 61419 2229 100466 XOR\n2 1 100466 98418 115053 XOR\n2 1 61418 2228 100465 XOR\n2 1 100465 98417 115052 XOR\n2 1 61416 2226 100463 XOR\n2 1 100463 98415 115050 XOR\n2 1 61415 2225 100462 XOR\n2 1 100462 98414 115049 XOR\n2 1 61414 2224 100461 XOR\n2 1 100461 98413 115048 XOR\n2 1 61413 2223 100460 XOR\n2 1 100460 98412 115047 XOR\n2 1 61412 2222 100459 XOR\n2 1 100459 98411 115046 XOR\n2 1 61411 2221 100458 XOR\n2 1 100458 98410 115045 XOR\n2 1 61410 2220 100457 XOR\n2 1 100457 98409 115044 XOR\n2 1 61409 2219 100456 XOR\n2 1 100456 98408 115043 XOR\n2 1 61408 2218 100455 XOR\n2 1 100455 98407 115042 XOR\n2 1 61407 2217 100454 XOR\n2 1 100454 98406 115041 XOR\n2 1 61406 2216 100453 XOR\n2 1 100453 98405 115040 XOR\n2 1 61405 2215 100452 XOR\n2 1 100452 98404 115039 XOR\n2 1 61404 2214 100451 XOR\n2 1 100451 98403 115038 XOR\n2 1 61403 2213 100450 XOR\n2 1 100450 98402 115037 XOR\n2 1 61402 2212 100449 XOR\n2 1 100449 98401 115036 XOR\n2 1 61401 2211 100448 XOR\n2 1 100448 98400 115035 XOR\n2 1 61400 2210 100447 XOR\n2 1 100447 98399 115034 XOR\n2 1 61397 2239 100444 XOR\n2 1 100444 98396 115031 XOR\n2 1 61396 2238 100443 XOR\n2 1 100443 98395 115030 XOR\n2 1 61395 2237 100442 XOR\n2 1 100442 98394 115029 XOR\n2 1 61394 2236 100441 XOR\n2 1 100441 98393 115028 XOR\n2 1 61393 2235 100440 XOR\n2 1 100440 98392 115027 XOR\n2 1 61392 2234 100439 XOR\n2 1 100439 98391 115026 XOR\n2 1 61391 2233 100438 XOR\n2 1 100438 98390 96342 XOR\n2 1 100438 98390 114995 AND\n2 1 115026 114995 96343 XOR\n2 1 98391 114995 27638 XOR\n2 1 100439 114995 27637 XOR\n2 1 27637 27638 27636 AND\n2 1 27636 114995 114996 XOR\n2 1 115027 114996 96344 XOR\n2 1 100440 114996 27640 XOR\n2 1 98392 114996 27641 XOR\n2 1 27640 27641 27639 AND\n2 1 27639 114996 114997 XOR\n2 1 100441 114997 27643 XOR\n2 1 98393 114997 27644 XOR\n2 1 115028 114997 96345 XOR\n2 1 27643 27644 27642 AND\n2 1 27642 114997 114998 XOR\n2 1 115029 114998 96346 XOR\n2 1 98394 114998 27647 XOR\n2 1 100442 114998 27646 XOR\n2 1 27646 27647 27645 AND\n2 1 27645 114998 114999 XOR\n2 1 115030 114999 96347 XOR\n2 1 98395 114999 27650 XOR\n2 1 100443 114999 27649 XOR\n2 1 27649 27650 27648 AND\n2 1 27648 114999 115000 XOR\n2 1 98396 115000 27653 XOR\n2 1 115031 115000 96348 XOR\n2 1 100464 98416 115051 XOR\n2 1 100444 115000 27652 XOR\n2 1 27652 27653 27651 AND\n2 1 27651 115000 115001 XOR\n2 1 115032 115001 96349 XOR\n2 1 98397 115001 27656 XOR\n2 1 100445 115001 27655 XOR\n2 1 27655 27656 27654 AND\n2 1 27654 115001 115002 XOR\n2 1 115033 115002 96350 XOR\n",
"2 1 100446 115002 27658 XOR\n2 1 98398 115002 27659 XOR\n2 1 27658 27659 27657 AND\n2 1 27657 115002 115003 XOR\n2 1 115034 115003 96351 XOR\n2 1 100447 115003 27661 XOR\n2 1 98399 115003 27662 XOR\n2 1 27661 27662 27660 AND\n2 1 27660 115003 115004 XOR\n2 1 115035 115004 96352 XOR\n2 1 100448 115004 27664 XOR\n2 1 98400 115004 27665 XOR\n2 1 27664 27665 27663 AND\n2 1 27663 115004 115005 XOR\n2 1 115036 115005 96353 XOR\n2 1 100449 115005 27667 XOR\n2 1 98401 115005 27668 XOR\n2 1 27667 27668 27666 AND\n2 1 27666 115005 115006 XOR\n2 1 115037 115006 96354 XOR\n2 1 100450 115006 27670 XOR\n2 1 98402 115006 27671 XOR\n2 1 27670 27671 27669 AND\n2 1 27669 115006 115007 XOR\n2 1 115038 115007 96355 XOR\n2 1 100451 115007 27673 XOR\n2 1 98403 115007 27674 XOR\n2 1 27673 27674 27672 AND\n2 1 27672 115007 115008 XOR\n2 1 115039 115008 96356 XOR\n2 1 100452 115008 27676 XOR\n2 1 98404 115008 27677 XOR\n2 1 27676 27677 27675 AND\n2 1 27675 115008 115009 XOR\n2 1 115040 115009 96357 XOR\n2 1 100453 115009 27679 XOR\n2 1 98405 115009 27680 XOR\n2 1 27679 27680 27678 AND\n2 1 27678 115009 115010 XOR\n2 1 115041 115010 96358 XOR\n2 1 100454 115010 27682 XOR\n2 1 98406 115010 27683 XOR\n2 1 27682 27683 27681 AND\n2 1 27681 115010 115011 XOR\n2 1 115042 115011 96359 XOR\n2 1 100455 115011 27685 XOR\n2 1 98407 115011 27686 XOR\n2 1 27685 27686 27684 AND\n2 1 27684 115011 115012 XOR\n2 1 115043 115012 96360 XOR\n2 1 100456 115012 27688 XOR\n2 1 98408 115012 27689 XOR\n2 1 27688 27689 27687 AND\n2 1 27687 115012 115013 XOR\n2 1 115044 115013 96361 XOR\n2 1 100457 115013 27691 XOR\n2 1 98409 115013 27692 XOR\n2 1 27691 27692 27690 AND\n2 1 27690 115013 115014 XOR\n2 1 115045 115014 96362 XOR\n2 1 100458 115014 27694 XOR\n2 1 98410 115014 27695 XOR\n2 1 27694 27695 27693 AND\n2 1 27693 115014 115015 XOR\n2 1 115046 115015 96363 XOR\n2 1 100459 115015 27697 XOR\n2 1 98411 115015 27698 XOR\n2 1 27697 27698 27696 AND\n2 1 27696 115015 115016 XOR\n2 1 115047 115016 96364 XOR\n2 1 100460 115016 27700 XOR\n2 1 98412 115016 27701 XOR\n2 1 27700 27701 27699 AND\n2 1 27699 115016 115017 XOR\n2 1 115048 115017 96365 XOR\n2 1 100461 115017 27703 XOR\n2 1 98413 115017 27704 XOR\n2 1 27703 27704 27702 AND\n2 1 27702 115017 115018 XOR\n2 1 115049 115018 96366 XOR\n2 1 100462 115018 27706 XOR\n2 1 98414 115018 27707 XOR\n2 1 27706 27707 27705 AND\n2 1 27705 115018 115019 XOR\n2 1 115050 115019 96367 XOR\n2 1 100463 115019 27709 XOR\n2 1 98415 115019 27710 XOR\n2 1 27709 27710 27708 AND\n2 1 27708 115019 115020 XOR\n2 1 115051 115020 96368 XOR\n2 1 100464 115020 27712 XOR\n2 1 98416 115020 27713 XOR\n2 1 27712 27713 27711 AND\n2 1 27711 115020 115021 XOR\n2 1 115052 115021 96369 XOR\n2 1 100465 115021 27715 XOR\n2 1 98417 115021 27716 XOR\n2 1 27715 27716 27714 AND\n2 1 27714 115021 115022 XOR\n2 1 115053 115022 96370 XOR\n2 1 100466 115022 27718 XOR\n2 1 98418 115022 27719 XOR\n2 1 27718 27719 27717 AND\n2 1 27717 115022 115023 XOR\n2 1 115054 115023 96371 XOR\n2 1 100467 115023 27721 XOR\n2 1 98419 115023 27722 XOR\n2 1 27721 27722 27720 AND\n2 1 27720 115023 115024 XOR\n2 1 115055 115024 96372 XOR\n2 1 100468 115024 27724 XOR\n2 1 98420 115024 27725 XOR\n2 1 27724 27725 27723 AND\n2 1 27723 115024 115025 XOR\n2 1 115056 115025 96373 XOR\n2 1 11292 104826 104827 XOR\n2 1 104858 104827 1700 XOR\n2 1 1700 1764 70547 XOR\n2 1 70547 70515 70483 AND\n2 1 70483 1764 86165 XOR\n2 1 1700 1732 70419 XOR\n2 1 90293 104827 11296 XOR\n2 1 84149 104827 11297 XOR\n2 1 11296 11297 11295 AND\n2 1 11295 104827 104828 XOR\n2 1 104859 104828 1701 XOR\n2 1 90294 104828 11299 XOR\n2 1 84150 104828 11300 XOR\n",
"2 1 11299 11300 11298 AND\n2 1 11298 104828 104829 XOR\n2 1 90295 104829 11302 XOR\n2 1 1701 1765 70548 XOR\n2 1 70548 70516 70484 AND\n2 1 70484 1765 86166 XOR\n2 1 1701 1733 70420 XOR\n2 1 84151 104829 11303 XOR\n2 1 11302 11303 11301 AND\n2 1 11301 104829 104830 XOR\n2 1 90296 104830 11305 XOR\n2 1 104861 104830 1703 XOR\n2 1 1703 1767 70550 XOR\n2 1 70550 70518 70486 AND\n2 1 70486 1767 86168 XOR\n2 1 1703 1735 70422 XOR\n2 1 104860 104829 1702 XOR\n2 1 1702 1766 70549 XOR\n2 1 70549 70517 70485 AND\n2 1 70485 1766 86167 XOR\n2 1 1702 1734 70421 XOR\n2 1 84152 104830 11306 XOR\n2 1 11305 11306 11304 AND\n2 1 11304 104830 104831 XOR\n2 1 90297 104831 11308 XOR\n2 1 104862 104831 1704 XOR\n2 1 84153 104831 11309 XOR\n2 1 11308 11309 11307 AND\n2 1 11307 104831 104832 XOR\n2 1 84154 104832 11312 XOR\n2 1 1704 1768 70551 XOR\n2 1 70551 70519 70487 AND\n2 1 70487 1768 86169 XOR\n2 1 1704 1736 70423 XOR\n2 1 90298 104832 11311 XOR\n2 1 11311 11312 11310 AND\n2 1 11310 104832 104833 XOR\n2 1 104864 104833 1706 XOR\n2 1 90299 104833 11314 XOR\n2 1 1706 1770 70553 XOR\n2 1 70553 70521 70489 AND\n2 1 70489 1770 86171 XOR\n2 1 1706 1738 70425 XOR\n2 1 84155 104833 11315 XOR\n2 1 11314 11315 11313 AND\n2 1 11313 104833 104834 XOR\n2 1 84156 104834 11318 XOR\n2 1 104865 104834 1707 XOR\n2 1 1707 1771 70554 XOR\n2 1 70554 70522 70490 AND\n2 1 70490 1771 86172 XOR\n2 1 1707 1739 70426 XOR\n2 1 1696 1707 67341 XOR\n2 1 104863 104832 1705 XOR\n2 1 1705 1769 70552 XOR\n2 1 70552 70520 70488 AND\n2 1 70488 1769 86170 XOR\n2 1 1705 1737 70424 XOR\n2 1 90300 104834 11317 XOR\n2 1 11317 11318 11316 AND\n2 1 11316 104834 104835 XOR\n2 1 104866 104835 1708 XOR\n2 1 84157 104835 11321 XOR\n2 1 90301 104835 11320 XOR\n2 1 11320 11321 11319 AND\n2 1 11319 104835 104836 XOR\n2 1 104867 104836 1709 XOR\n2 1 1709 1773 70556 XOR\n2 1 1708 1772 70555 XOR\n2 1 70556 70524 70492 AND\n2 1 70555 70523 70491 AND\n2 1 70492 1773 86174 XOR\n2 1 70491 1772 86173 XOR\n2 1 1709 1741 70428 XOR\n2 1 1708 1740 70427 XOR\n2 1 84158 104836 11324 XOR\n2 1 90302 104836 11323 XOR\n2 1 11323 11324 11322 AND\n2 1 11322 104836 104837 XOR\n2 1 84159 104837 11327 XOR\n2 1 90303 104837 11326 XOR\n2 1 11326 11327 11325 AND\n2 1 11325 104837 104838 XOR\n2 1 104869 104838 1711 XOR\n2 1 90304 104838 11329 XOR\n2 1 1711 1775 70558 XOR\n2 1 70558 70526 70494 AND\n2 1 70494 1775 86176 XOR\n2 1 1711 1743 70430 XOR\n2 1 104868 104837 1710 XOR\n2 1 1710 1774 70557 XOR\n2 1 70557 70525 70493 AND\n2 1 70493 1774 86175 XOR\n2 1 1710 1742 70429 XOR\n2 1 1697 1708 67342 XOR\n2 1 1700 1711 67313 XOR\n2 1 1699 1710 67312 XOR\n2 1 1698 1709 67311 XOR\n2 1 84160 104838 11330 XOR\n2 1 11329 11330 11328 AND\n2 1 11328 104838 104839 XOR\n2 1 84161 104839 11333 XOR\n2 1 104870 104839 1712 XOR\n2 1 1712 1776 70559 XOR\n2 1 70559 70527 70495 AND\n2 1 70495 1776 86177 XOR\n2 1 1712 1744 70431 XOR\n2 1 1701 1712 67314 XOR\n2 1 90305 104839 11332 XOR\n2 1 11332 11333 11331 AND\n2 1 11331 104839 104840 XOR\n2 1 104871 104840 1713 XOR\n2 1 90306 104840 11335 XOR\n2 1 1713 1777 70560 XOR\n2 1 70560 70528 70496 AND\n2 1 70496 1777 86178 XOR\n2 1 1713 1745 70432 XOR\n2 1 1702 1713 67315 XOR\n2 1 84162 104840 11336 XOR\n2 1 11335 11336 11334 AND\n2 1 11334 104840 104841 XOR\n2 1 104872 104841 1714 XOR\n2 1 1714 1778 70561 XOR\n2 1 70561 70529 70497 AND\n2 1 70497 1778 86179 XOR\n2 1 1714 1746 70433 XOR\n2 1 1703 1714 67316 XOR\n2 1 90307 104841 11338 XOR\n",
"2 1 84163 104841 11339 XOR\n2 1 11338 11339 11337 AND\n2 1 11337 104841 104842 XOR\n2 1 84164 104842 11342 XOR\n2 1 104873 104842 1715 XOR\n2 1 90308 104842 11341 XOR\n2 1 1715 1779 70562 XOR\n2 1 70562 70530 70498 AND\n2 1 70498 1779 86180 XOR\n2 1 1715 1747 70434 XOR\n2 1 1704 1715 67317 XOR\n2 1 11341 11342 11340 AND\n2 1 11340 104842 104843 XOR\n2 1 104874 104843 1716 XOR\n2 1 1716 1780 70563 XOR\n2 1 70563 70531 70499 AND\n2 1 70499 1780 86181 XOR\n2 1 1716 1748 70435 XOR\n2 1 84165 104843 11345 XOR\n2 1 90309 104843 11344 XOR\n2 1 11344 11345 11343 AND\n2 1 11343 104843 104844 XOR\n2 1 90310 104844 11347 XOR\n2 1 84166 104844 11348 XOR\n2 1 11347 11348 11346 AND\n2 1 11346 104844 104845 XOR\n2 1 104876 104845 1718 XOR\n2 1 104875 104844 1717 XOR\n2 1 84167 104845 11351 XOR\n2 1 1718 1782 70565 XOR\n2 1 1717 1781 70564 XOR\n2 1 70565 70533 70501 AND\n2 1 70564 70532 70500 AND\n2 1 70501 1782 86183 XOR\n2 1 70500 1781 86182 XOR\n2 1 1718 1750 70437 XOR\n2 1 1717 1749 70436 XOR\n2 1 1718 1697 67331 XOR\n2 1 1717 1696 67330 XOR\n2 1 1707 1718 67320 XOR\n2 1 1706 1717 67319 XOR\n2 1 1705 1716 67318 XOR\n2 1 67342 1717 88240 XOR\n2 1 67341 1716 88239 XOR\n2 1 67331 1706 88229 XOR\n2 1 88229 86181 114847 XOR\n2 1 67330 1705 88228 XOR\n2 1 88228 86180 114846 XOR\n2 1 67311 1718 88209 XOR\n2 1 88209 86161 114797 AND\n2 1 86162 114797 27290 XOR\n2 1 88209 86161 84113 XOR\n2 1 90311 104845 11350 XOR\n2 1 11350 11351 11349 AND\n2 1 11349 104845 104846 XOR\n2 1 90312 104846 11353 XOR\n2 1 84168 104846 11354 XOR\n2 1 11353 11354 11352 AND\n2 1 104877 104846 1719 XOR\n2 1 1719 1783 70566 XOR\n2 1 70566 70534 70502 AND\n2 1 70502 1783 86184 XOR\n2 1 1719 1751 70438 XOR\n2 1 1719 1698 67332 XOR\n2 1 1708 1719 67321 XOR\n2 1 67332 1707 88230 XOR\n2 1 88230 86182 114848 XOR\n2 1 67321 1696 88219 XOR\n2 1 67312 1719 88210 XOR\n2 1 88210 86162 114828 XOR\n2 1 88210 114797 27289 XOR\n2 1 114828 114797 84114 XOR\n2 1 88219 86171 114837 XOR\n2 1 11352 104846 104847 XOR\n2 1 104878 104847 1720 XOR\n2 1 1720 1784 70567 XOR\n2 1 70567 70535 70503 AND\n2 1 70503 1784 86185 XOR\n2 1 1720 1752 70439 XOR\n2 1 1720 1699 67333 XOR\n2 1 1709 1720 67322 XOR\n2 1 67333 1708 88231 XOR\n2 1 88231 86183 114849 XOR\n2 1 67322 1697 88220 XOR\n2 1 67313 1720 88211 XOR\n2 1 88211 86163 114829 XOR\n2 1 88220 86172 114838 XOR\n2 1 84169 104847 11357 XOR\n2 1 90313 104847 11356 XOR\n2 1 11356 11357 11355 AND\n2 1 11355 104847 104848 XOR\n2 1 84170 104848 11360 XOR\n2 1 90314 104848 11359 XOR\n2 1 11359 11360 11358 AND\n2 1 11358 104848 104849 XOR\n2 1 104880 104849 1722 XOR\n2 1 90315 104849 11362 XOR\n2 1 1722 1786 70569 XOR\n2 1 70569 70537 70505 AND\n2 1 70505 1786 86187 XOR\n2 1 1722 1754 70441 XOR\n2 1 84171 104849 11363 XOR\n2 1 11362 11363 11361 AND\n2 1 11361 104849 104850 XOR\n2 1 90316 104850 11365 XOR\n2 1 84172 104850 11366 XOR\n2 1 11365 11366 11364 AND\n2 1 11364 104850 104851 XOR\n2 1 104882 104851 1724 XOR\n2 1 90317 104851 11368 XOR\n2 1 104881 104850 1723 XOR\n2 1 1724 1788 70571 XOR\n2 1 1723 1787 70570 XOR\n2 1 70571 70539 70507 AND\n2 1 70570 70538 70506 AND\n2 1 70507 1788 86189 XOR\n2 1 70506 1787 86188 XOR\n2 1 1724 1756 70443 XOR\n2 1 1723 1755 70442 XOR\n2 1 1724 1703 67337 XOR\n2 1 1723 1702 67336 XOR\n2 1 1722 1701 67335 XOR\n2 1 1713 1724 67326 XOR\n2 1 1712 1723 67325 XOR\n2 1 1711 1722 67324 XOR\n2 1 67337 1712 88235 XOR\n2 1 88235 86187 114853 XOR\n2 1 67336 1711 88234 XOR\n",
"2 1 67335 1710 88233 XOR\n2 1 88233 86185 114851 XOR\n2 1 67326 1701 88224 XOR\n2 1 88224 86176 114842 XOR\n2 1 67325 1700 88223 XOR\n2 1 88223 86175 114841 XOR\n2 1 67324 1699 88222 XOR\n2 1 67317 1724 88215 XOR\n2 1 67316 1723 88214 XOR\n2 1 88214 86166 114832 XOR\n2 1 67315 1722 88213 XOR\n2 1 88213 86165 114831 XOR\n2 1 88222 86174 114840 XOR\n2 1 104879 104848 1721 XOR\n2 1 1721 1785 70568 XOR\n2 1 70568 70536 70504 AND\n2 1 70504 1785 86186 XOR\n2 1 88234 86186 114852 XOR\n2 1 1721 1753 70440 XOR\n2 1 1721 1700 67334 XOR\n2 1 1710 1721 67323 XOR\n2 1 67334 1709 88232 XOR\n2 1 88232 86184 114850 XOR\n2 1 67323 1698 88221 XOR\n2 1 88221 86173 114839 XOR\n2 1 67314 1721 88212 XOR\n2 1 88212 86164 114830 XOR\n2 1 84173 104851 11369 XOR\n2 1 11368 11369 11367 AND\n2 1 11367 104851 104852 XOR\n2 1 90318 104852 11371 XOR\n2 1 84174 104852 11372 XOR\n2 1 11371 11372 11370 AND\n2 1 104883 104852 1725 XOR\n2 1 1725 1789 70572 XOR\n2 1 70572 70540 70508 AND\n2 1 70508 1789 86190 XOR\n2 1 1725 1757 70444 XOR\n2 1 1725 1704 67338 XOR\n2 1 1714 1725 67327 XOR\n2 1 67338 1713 88236 XOR\n2 1 88236 86188 114854 XOR\n2 1 67327 1702 88225 XOR\n2 1 88225 86177 114843 XOR\n2 1 67318 1725 88216 XOR\n2 1 11370 104852 104853 XOR\n2 1 84175 104853 11375 XOR\n2 1 90319 104853 11374 XOR\n2 1 11374 11375 11373 AND\n2 1 11373 104853 104854 XOR\n2 1 104885 104854 1727 XOR\n2 1 1727 1791 70574 XOR\n2 1 70574 70542 70510 AND\n2 1 70510 1791 86192 XOR\n2 1 88240 86192 114858 XOR\n2 1 1727 1759 70446 XOR\n2 1 1727 1706 67340 XOR\n2 1 1716 1727 67329 XOR\n2 1 67340 1715 88238 XOR\n2 1 88238 86190 114856 XOR\n2 1 67329 1704 88227 XOR\n2 1 88227 86179 114845 XOR\n2 1 67320 1727 88218 XOR\n2 1 104884 104853 1726 XOR\n2 1 1726 1790 70573 XOR\n2 1 70573 70541 70509 AND\n2 1 70509 1790 86191 XOR\n2 1 88239 86191 114857 XOR\n2 1 1726 1758 70445 XOR\n2 1 1726 1705 67339 XOR\n2 1 1715 1726 67328 XOR\n2 1 67339 1714 88237 XOR\n2 1 88237 86189 114855 XOR\n2 1 67328 1703 88226 XOR\n2 1 88226 86178 114844 XOR\n2 1 67319 1726 88217 XOR\n2 1 88217 86169 114835 XOR\n2 1 88216 86168 114834 XOR\n2 1 88215 86167 114833 XOR\n2 1 27289 27290 27288 AND\n2 1 27288 114797 114798 XOR\n2 1 114829 114798 84115 XOR\n2 1 86163 114798 27293 XOR\n2 1 88211 114798 27292 XOR\n2 1 27292 27293 27291 AND\n2 1 27291 114798 114799 XOR\n2 1 114830 114799 84116 XOR\n2 1 88212 114799 27295 XOR\n2 1 86164 114799 27296 XOR\n2 1 27295 27296 27294 AND\n2 1 27294 114799 114800 XOR\n2 1 86165 114800 27299 XOR\n2 1 88213 114800 27298 XOR\n2 1 114831 114800 84117 XOR\n2 1 88218 86170 114836 XOR\n2 1 27298 27299 27297 AND\n2 1 27297 114800 114801 XOR\n2 1 86166 114801 27302 XOR\n2 1 114832 114801 84118 XOR\n2 1 88214 114801 27301 XOR\n2 1 27301 27302 27300 AND\n2 1 27300 114801 114802 XOR\n2 1 114833 114802 84119 XOR\n2 1 88215 114802 27304 XOR\n2 1 86167 114802 27305 XOR\n2 1 27304 27305 27303 AND\n2 1 27303 114802 114803 XOR\n2 1 114834 114803 84120 XOR\n2 1 88216 114803 27307 XOR\n2 1 86168 114803 27308 XOR\n2 1 27307 27308 27306 AND\n2 1 27306 114803 114804 XOR\n2 1 86169 114804 27311 XOR\n2 1 114835 114804 84121 XOR\n2 1 88217 114804 27310 XOR\n2 1 27310 27311 27309 AND\n2 1 27309 114804 114805 XOR\n2 1 86170 114805 27314 XOR\n2 1 88218 114805 27313 XOR\n2 1 114836 114805 84122 XOR\n2 1 27313 27314 27312 AND\n2 1 27312 114805 114806 XOR\n2 1 88219 114806 27316 XOR\n2 1 114837 114806 84123 XOR\n2 1 86171 114806 27317 XOR\n2 1 27316 27317 27315 AND\n2 1 27315 114806 114807 XOR\n2 1 114838 114807 84124 XOR\n",
"2 1 88220 114807 27319 XOR\n2 1 86172 114807 27320 XOR\n2 1 27319 27320 27318 AND\n2 1 27318 114807 114808 XOR\n2 1 86173 114808 27323 XOR\n2 1 114839 114808 84125 XOR\n2 1 88221 114808 27322 XOR\n2 1 27322 27323 27321 AND\n2 1 27321 114808 114809 XOR\n2 1 88222 114809 27325 XOR\n2 1 86174 114809 27326 XOR\n2 1 27325 27326 27324 AND\n2 1 114840 114809 84126 XOR\n2 1 27324 114809 114810 XOR\n2 1 114841 114810 84127 XOR\n2 1 88223 114810 27328 XOR\n2 1 86175 114810 27329 XOR\n2 1 27328 27329 27327 AND\n2 1 27327 114810 114811 XOR\n2 1 114842 114811 84128 XOR\n2 1 88224 114811 27331 XOR\n2 1 86176 114811 27332 XOR\n2 1 27331 27332 27330 AND\n2 1 27330 114811 114812 XOR\n2 1 88225 114812 27334 XOR\n2 1 86177 114812 27335 XOR\n2 1 114843 114812 84129 XOR\n2 1 27334 27335 27333 AND\n2 1 27333 114812 114813 XOR\n2 1 86178 114813 27338 XOR\n2 1 88226 114813 27337 XOR\n2 1 27337 27338 27336 AND\n2 1 27336 114813 114814 XOR\n2 1 88227 114814 27340 XOR\n2 1 86179 114814 27341 XOR\n2 1 27340 27341 27339 AND\n2 1 27339 114814 114815 XOR\n2 1 114846 114815 84132 XOR\n2 1 114845 114814 84131 XOR\n2 1 86180 114815 27344 XOR\n2 1 114844 114813 84130 XOR\n2 1 88228 114815 27343 XOR\n2 1 27343 27344 27342 AND\n2 1 27342 114815 114816 XOR\n2 1 88229 114816 27346 XOR\n2 1 86181 114816 27347 XOR\n2 1 27346 27347 27345 AND\n2 1 114847 114816 84133 XOR\n2 1 27345 114816 114817 XOR\n2 1 88230 114817 27349 XOR\n2 1 86182 114817 27350 XOR\n2 1 114848 114817 84134 XOR\n2 1 27349 27350 27348 AND\n2 1 27348 114817 114818 XOR\n2 1 114849 114818 84135 XOR\n2 1 88231 114818 27352 XOR\n2 1 86183 114818 27353 XOR\n2 1 27352 27353 27351 AND\n2 1 27351 114818 114819 XOR\n2 1 114850 114819 84136 XOR\n2 1 88232 114819 27355 XOR\n2 1 86184 114819 27356 XOR\n2 1 27355 27356 27354 AND\n2 1 27354 114819 114820 XOR\n2 1 88233 114820 27358 XOR\n2 1 86185 114820 27359 XOR\n2 1 114851 114820 84137 XOR\n2 1 27358 27359 27357 AND\n2 1 27357 114820 114821 XOR\n2 1 86186 114821 27362 XOR\n2 1 88234 114821 27361 XOR\n2 1 27361 27362 27360 AND\n2 1 114852 114821 84138 XOR\n2 1 27360 114821 114822 XOR\n2 1 114853 114822 84139 XOR\n2 1 88235 114822 27364 XOR\n2 1 86187 114822 27365 XOR\n2 1 27364 27365 27363 AND\n2 1 27363 114822 114823 XOR\n2 1 114854 114823 84140 XOR\n2 1 88236 114823 27367 XOR\n2 1 86188 114823 27368 XOR\n2 1 27367 27368 27366 AND\n2 1 27366 114823 114824 XOR\n2 1 86189 114824 27371 XOR\n2 1 114855 114824 84141 XOR\n2 1 88237 114824 27370 XOR\n2 1 27370 27371 27369 AND\n2 1 27369 114824 114825 XOR\n2 1 88238 114825 27373 XOR\n2 1 86190 114825 27374 XOR\n2 1 114856 114825 84142 XOR\n2 1 27373 27374 27372 AND\n2 1 27372 114825 114826 XOR\n2 1 114857 114826 84143 XOR\n2 1 88239 114826 27376 XOR\n2 1 86191 114826 27377 XOR\n2 1 27376 27377 27375 AND\n2 1 27375 114826 114827 XOR\n2 1 114858 114827 84144 XOR\n2 1 81009 76369 129695 AND\n2 1 81010 129695 52716 XOR\n2 1 76370 129695 52717 XOR\n2 1 52716 52717 52715 AND\n2 1 52715 129695 129696 XOR\n2 1 81011 129696 52719 XOR\n2 1 76371 129696 52720 XOR\n2 1 52719 52720 52718 AND\n2 1 52718 129696 129697 XOR\n2 1 81012 129697 52722 XOR\n2 1 76372 129697 52723 XOR\n2 1 52722 52723 52721 AND\n2 1 52721 129697 129698 XOR\n2 1 81013 129698 52725 XOR\n2 1 129729 129698 79477 XOR\n2 1 129727 129696 79475 XOR\n2 1 76373 129698 52726 XOR\n2 1 52725 52726 52724 AND\n2 1 52724 129698 129699 XOR\n2 1 81014 129699 52728 XOR\n2 1 76374 129699 52729 XOR\n2 1 52728 52729 52727 AND\n2 1 52727 129699 129700 XOR\n2 1 76375 129700 52732 XOR\n2 1 129731 129700 79479 XOR\n2 1 81015 129700 52731 XOR\n2 1 52731 52732 52730 AND\n2 1 52730 129700 129701 XOR\n",
"2 1 76376 129701 52735 XOR\n2 1 81016 129701 52734 XOR\n2 1 52734 52735 52733 AND\n2 1 52733 129701 129702 XOR\n2 1 129733 129702 79481 XOR\n2 1 76377 129702 52738 XOR\n2 1 81017 129702 52737 XOR\n2 1 52737 52738 52736 AND\n2 1 52736 129702 129703 XOR\n2 1 81018 129703 52740 XOR\n2 1 76378 129703 52741 XOR\n2 1 52740 52741 52739 AND\n2 1 52739 129703 129704 XOR\n2 1 129735 129704 79483 XOR\n2 1 76379 129704 52744 XOR\n2 1 81019 129704 52743 XOR\n2 1 52743 52744 52742 AND\n2 1 52742 129704 129705 XOR\n2 1 76380 129705 52747 XOR\n2 1 81020 129705 52746 XOR\n2 1 52746 52747 52745 AND\n2 1 52745 129705 129706 XOR\n2 1 129737 129706 79485 XOR\n2 1 81021 129706 52749 XOR\n2 1 76381 129706 52750 XOR\n2 1 52749 52750 52748 AND\n2 1 52748 129706 129707 XOR\n2 1 81022 129707 52752 XOR\n2 1 76382 129707 52753 XOR\n2 1 52752 52753 52751 AND\n2 1 52751 129707 129708 XOR\n2 1 129739 129708 79487 XOR\n2 1 81023 129708 52755 XOR\n2 1 76383 129708 52756 XOR\n2 1 52755 52756 52754 AND\n2 1 52754 129708 129709 XOR\n2 1 81024 129709 52758 XOR\n2 1 76384 129709 52759 XOR\n2 1 52758 52759 52757 AND\n2 1 52757 129709 129710 XOR\n2 1 129741 129710 79489 XOR\n2 1 76385 129710 52762 XOR\n2 1 81025 129710 52761 XOR\n2 1 52761 52762 52760 AND\n2 1 52760 129710 129711 XOR\n2 1 76386 129711 52765 XOR\n2 1 81026 129711 52764 XOR\n2 1 52764 52765 52763 AND\n2 1 52763 129711 129712 XOR\n2 1 129743 129712 79491 XOR\n2 1 76387 129712 52768 XOR\n2 1 81027 129712 52767 XOR\n2 1 52767 52768 52766 AND\n2 1 52766 129712 129713 XOR\n2 1 76388 129713 52771 XOR\n2 1 81028 129713 52770 XOR\n2 1 52770 52771 52769 AND\n2 1 52769 129713 129714 XOR\n2 1 76389 129714 52774 XOR\n2 1 81029 129714 52773 XOR\n2 1 52773 52774 52772 AND\n2 1 129745 129714 79493 XOR\n2 1 52772 129714 129715 XOR\n2 1 81030 129715 52776 XOR\n2 1 76390 129715 52777 XOR\n2 1 52776 52777 52775 AND\n2 1 52775 129715 129716 XOR\n2 1 81031 129716 52779 XOR\n2 1 76391 129716 52780 XOR\n2 1 129747 129716 79495 XOR\n2 1 52779 52780 52778 AND\n2 1 52778 129716 129717 XOR\n2 1 81032 129717 52782 XOR\n2 1 76392 129717 52783 XOR\n2 1 52782 52783 52781 AND\n2 1 52781 129717 129718 XOR\n2 1 76393 129718 52786 XOR\n2 1 129749 129718 79497 XOR\n2 1 81033 129718 52785 XOR\n2 1 52785 52786 52784 AND\n2 1 52784 129718 129719 XOR\n2 1 129750 129719 79498 XOR\n2 1 76394 129719 52789 XOR\n2 1 81034 129719 52788 XOR\n2 1 52788 52789 52787 AND\n2 1 52787 129719 129720 XOR\n2 1 81035 129720 52791 XOR\n2 1 129751 129720 79499 XOR\n2 1 76395 129720 52792 XOR\n2 1 52791 52792 52790 AND\n2 1 52790 129720 129721 XOR\n2 1 129752 129721 79500 XOR\n2 1 76396 129721 52795 XOR\n2 1 81036 129721 52794 XOR\n2 1 52794 52795 52793 AND\n2 1 52793 129721 129722 XOR\n2 1 129753 129722 79501 XOR\n2 1 76397 129722 52798 XOR\n2 1 81037 129722 52797 XOR\n2 1 52797 52798 52796 AND\n2 1 52796 129722 129723 XOR\n2 1 76398 129723 52801 XOR\n2 1 81038 129723 52800 XOR\n2 1 52800 52801 52799 AND\n2 1 52799 129723 129724 XOR\n2 1 129755 129724 79503 XOR\n2 1 129754 129723 79502 XOR\n2 1 76399 129724 52804 XOR\n2 1 81039 129724 52803 XOR\n2 1 52803 52804 52802 AND\n2 1 52802 129724 129725 XOR\n2 1 129756 129725 79504 XOR\n2 1 81010 76370 129726 XOR\n2 1 129726 129695 79474 XOR\n2 1 81012 76372 129728 XOR\n2 1 129728 129697 79476 XOR\n2 1 81014 76374 129730 XOR\n2 1 129730 129699 79478 XOR\n2 1 81016 76376 129732 XOR\n2 1 129732 129701 79480 XOR\n2 1 81018 76378 129734 XOR\n2 1 129734 129703 79482 XOR\n2 1 81020 76380 129736 XOR\n2 1 129736 129705 79484 XOR\n2 1 81022 76382 129738 XOR\n2 1 129738 129707 79486 XOR\n2 1 81024 76384 129740 XOR\n2 1 129740 129709 79488 XOR\n",
"2 1 81026 76386 129742 XOR\n2 1 129742 129711 79490 XOR\n2 1 81028 76388 129744 XOR\n2 1 129744 129713 79492 XOR\n2 1 81030 76390 129746 XOR\n2 1 129746 129715 79494 XOR\n2 1 81032 76392 129748 XOR\n2 1 129748 129717 79496 XOR\n2 1 76663 76674 82608 XOR\n2 1 82608 76720 129880 XOR\n2 1 76662 76673 82607 XOR\n2 1 82607 76719 129879 XOR\n2 1 76661 76672 82606 XOR\n2 1 82606 76718 129878 XOR\n2 1 76660 76671 5299 XOR\n2 1 76659 76670 5298 XOR\n2 1 76658 76669 5297 XOR\n2 1 76657 76668 5296 XOR\n2 1 76688 76667 5295 XOR\n2 1 76687 76666 5294 XOR\n2 1 76686 76665 5293 XOR\n2 1 76685 76664 5292 XOR\n2 1 76684 76663 5291 XOR\n2 1 76683 76662 5290 XOR\n2 1 76682 76661 5289 XOR\n2 1 76681 76660 5288 XOR\n2 1 76680 76659 5287 XOR\n2 1 76679 76658 5286 XOR\n2 1 76678 76657 5285 XOR\n2 1 76677 76688 5284 XOR\n2 1 76676 76687 5283 XOR\n2 1 76675 76686 5282 XOR\n2 1 76674 76685 5281 XOR\n2 1 76673 76684 5280 XOR\n2 1 76672 76683 5279 XOR\n2 1 76671 76682 5278 XOR\n2 1 76670 76681 5277 XOR\n2 1 76669 76680 5276 XOR\n2 1 76668 76679 5275 XOR\n2 1 76667 76678 5274 XOR\n2 1 76666 76677 5273 XOR\n2 1 76665 76676 5272 XOR\n2 1 76664 76675 5271 XOR\n2 1 5299 76688 82605 XOR\n2 1 82605 76717 129877 XOR\n2 1 5298 76687 82604 XOR\n2 1 82604 76716 129876 XOR\n2 1 5297 76686 82603 XOR\n2 1 82603 76715 129875 XOR\n2 1 5296 76685 82602 XOR\n2 1 82602 76714 129874 XOR\n2 1 5295 76684 82601 XOR\n2 1 82601 76713 129873 XOR\n2 1 5294 76683 82600 XOR\n2 1 82600 76712 129872 XOR\n2 1 5293 76682 82599 XOR\n2 1 82599 76711 129871 XOR\n2 1 5292 76681 82598 XOR\n2 1 82598 76710 129870 XOR\n2 1 5291 76680 82597 XOR\n2 1 82597 76709 129869 XOR\n2 1 5290 76679 82596 XOR\n2 1 82596 76708 129868 XOR\n2 1 5289 76678 82595 XOR\n2 1 82595 76707 129867 XOR\n2 1 5288 76677 82594 XOR\n2 1 82594 76706 129866 XOR\n2 1 5287 76676 82593 XOR\n2 1 82593 76705 129865 XOR\n2 1 5286 76675 82592 XOR\n2 1 82592 76704 129864 XOR\n2 1 5285 76674 82591 XOR\n2 1 82591 76703 129863 XOR\n2 1 5284 76673 82590 XOR\n2 1 82590 76702 129862 XOR\n2 1 5283 76672 82589 XOR\n2 1 82589 76701 129861 XOR\n2 1 5282 76671 82588 XOR\n2 1 82588 76700 129860 XOR\n2 1 5281 76670 82587 XOR\n2 1 82587 76699 129859 XOR\n2 1 5280 76669 82586 XOR\n2 1 82586 76698 129858 XOR\n2 1 5279 76668 82585 XOR\n2 1 82585 76697 129857 XOR\n2 1 5278 76667 82584 XOR\n2 1 82584 76696 129856 XOR\n2 1 5277 76666 82583 XOR\n2 1 82583 76695 129855 XOR\n2 1 5276 76665 82582 XOR\n2 1 82582 76694 129854 XOR\n2 1 5275 76664 82581 XOR\n2 1 82581 76693 129853 XOR\n2 1 5274 76663 82580 XOR\n2 1 82580 76692 129852 XOR\n2 1 5273 76662 82579 XOR\n2 1 82579 76691 129851 XOR\n2 1 5272 76661 82578 XOR\n2 1 82578 76690 129850 XOR\n2 1 5271 76660 82577 XOR\n2 1 82577 76689 77969 XOR\n2 1 79505 77969 76177 XOR\n2 1 82577 76689 129819 AND\n2 1 76177 2304 94294 XOR\n2 1 96342 94294 90257 XOR\n2 1 96342 94294 114871 AND\n2 1 96343 114871 27457 XOR\n2 1 90257 84113 1664 XOR\n2 1 76177 2304 114933 AND\n2 1 2305 114933 27548 XOR\n2 1 90257 84113 104700 AND\n2 1 84114 104700 11108 XOR\n2 1 1792 90257 2176 XOR\n2 1 1664 1728 70447 XOR\n2 1 70447 70415 70383 AND\n2 1 70383 1728 86129 XOR\n2 1 1664 1696 70319 XOR\n2 1 1792 90257 104638 AND\n2 1 1793 104638 11017 XOR\n2 1 129850 129819 77970 XOR\n2 1 79506 77970 129788 XOR\n2 1 63951 2176 63919 AND\n2 1 63919 2240 98358 XOR\n2 1 2176 2208 63887 XOR\n2 1 82578 129819 52896 XOR\n2 1 76690 129819 52897 XOR\n2 1 52896 52897 52895 AND\n2 1 52895 129819 129820 XOR\n",
"2 1 129851 129820 77971 XOR\n2 1 79507 77971 129789 XOR\n2 1 82579 129820 52899 XOR\n2 1 76691 129820 52900 XOR\n2 1 52899 52900 52898 AND\n2 1 52898 129820 129821 XOR\n2 1 76692 129821 52903 XOR\n2 1 82580 129821 52902 XOR\n2 1 52902 52903 52901 AND\n2 1 129852 129821 77972 XOR\n2 1 79508 77972 129790 XOR\n2 1 52901 129821 129822 XOR\n2 1 82581 129822 52905 XOR\n2 1 129853 129822 77973 XOR\n2 1 76693 129822 52906 XOR\n2 1 52905 52906 52904 AND\n2 1 52904 129822 129823 XOR\n2 1 129854 129823 77974 XOR\n2 1 76694 129823 52909 XOR\n2 1 82582 129823 52908 XOR\n2 1 52908 52909 52907 AND\n2 1 52907 129823 129824 XOR\n2 1 129855 129824 77975 XOR\n2 1 79509 77973 129791 XOR\n2 1 82583 129824 52911 XOR\n2 1 76695 129824 52912 XOR\n2 1 52911 52912 52910 AND\n2 1 52910 129824 129825 XOR\n2 1 129856 129825 77976 XOR\n2 1 79510 77974 129792 XOR\n2 1 82584 129825 52914 XOR\n2 1 76696 129825 52915 XOR\n2 1 52914 52915 52913 AND\n2 1 52913 129825 129826 XOR\n2 1 129857 129826 77977 XOR\n2 1 79513 77977 129795 XOR\n2 1 82585 129826 52917 XOR\n2 1 76697 129826 52918 XOR\n2 1 52917 52918 52916 AND\n2 1 52916 129826 129827 XOR\n2 1 82586 129827 52920 XOR\n2 1 76698 129827 52921 XOR\n2 1 129858 129827 77978 XOR\n2 1 52920 52921 52919 AND\n2 1 52919 129827 129828 XOR\n2 1 82587 129828 52923 XOR\n2 1 76699 129828 52924 XOR\n2 1 52923 52924 52922 AND\n2 1 52922 129828 129829 XOR\n2 1 129860 129829 77980 XOR\n2 1 79516 77980 129798 XOR\n2 1 129859 129828 77979 XOR\n2 1 82588 129829 52926 XOR\n2 1 76700 129829 52927 XOR\n2 1 52926 52927 52925 AND\n2 1 52925 129829 129830 XOR\n2 1 82589 129830 52929 XOR\n2 1 76701 129830 52930 XOR\n2 1 52929 52930 52928 AND\n2 1 129861 129830 77981 XOR\n2 1 79517 77981 129799 XOR\n2 1 52928 129830 129831 XOR\n2 1 129862 129831 77982 XOR\n2 1 79518 77982 129800 XOR\n2 1 79515 77979 129797 XOR\n2 1 82590 129831 52932 XOR\n2 1 76702 129831 52933 XOR\n2 1 52932 52933 52931 AND\n2 1 52931 129831 129832 XOR\n2 1 76703 129832 52936 XOR\n2 1 129863 129832 77983 XOR\n2 1 79519 77983 129801 XOR\n2 1 82591 129832 52935 XOR\n2 1 52935 52936 52934 AND\n2 1 52934 129832 129833 XOR\n2 1 76704 129833 52939 XOR\n2 1 82592 129833 52938 XOR\n2 1 129864 129833 77984 XOR\n2 1 52938 52939 52937 AND\n2 1 79520 77984 129802 XOR\n2 1 52937 129833 129834 XOR\n2 1 82593 129834 52941 XOR\n2 1 129865 129834 77985 XOR\n2 1 76705 129834 52942 XOR\n2 1 52941 52942 52940 AND\n2 1 52940 129834 129835 XOR\n2 1 129866 129835 77986 XOR\n2 1 82594 129835 52944 XOR\n2 1 79522 77986 129804 XOR\n2 1 76706 129835 52945 XOR\n2 1 52944 52945 52943 AND\n2 1 52943 129835 129836 XOR\n2 1 129867 129836 77987 XOR\n2 1 76707 129836 52948 XOR\n2 1 79521 77985 129803 XOR\n2 1 82595 129836 52947 XOR\n2 1 52947 52948 52946 AND\n2 1 52946 129836 129837 XOR\n2 1 82596 129837 52950 XOR\n2 1 129868 129837 77988 XOR\n2 1 76708 129837 52951 XOR\n2 1 52950 52951 52949 AND\n2 1 52949 129837 129838 XOR\n2 1 82597 129838 52953 XOR\n2 1 76709 129838 52954 XOR\n2 1 52953 52954 52952 AND\n2 1 129869 129838 77989 XOR\n2 1 52952 129838 129839 XOR\n2 1 129870 129839 77990 XOR\n2 1 82598 129839 52956 XOR\n2 1 76710 129839 52957 XOR\n2 1 52956 52957 52955 AND\n2 1 52955 129839 129840 XOR\n2 1 129871 129840 77991 XOR\n2 1 79527 77991 129809 XOR\n2 1 82599 129840 52959 XOR\n2 1 76711 129840 52960 XOR\n2 1 52959 52960 52958 AND\n2 1 52958 129840 129841 XOR\n2 1 82600 129841 52962 XOR\n2 1 76712 129841 52963 XOR\n2 1 129872 129841 77992 XOR\n2 1 79528 77992 129810 XOR\n2 1 52962 52963 52961 AND\n2 1 52961 129841 129842 XOR\n2 1 76713 129842 52966 XOR\n2 1 129873 129842 77993 XOR\n2 1 79529 77993 129811 XOR\n",
"2 1 82601 129842 52965 XOR\n2 1 52965 52966 52964 AND\n2 1 52964 129842 129843 XOR\n2 1 129874 129843 77994 XOR\n2 1 79530 77994 129812 XOR\n2 1 82602 129843 52968 XOR\n2 1 76714 129843 52969 XOR\n2 1 52968 52969 52967 AND\n2 1 52967 129843 129844 XOR\n2 1 76715 129844 52972 XOR\n2 1 82603 129844 52971 XOR\n2 1 52971 52972 52970 AND\n2 1 129875 129844 77995 XOR\n2 1 79531 77995 129813 XOR\n2 1 52970 129844 129845 XOR\n2 1 82604 129845 52974 XOR\n2 1 76716 129845 52975 XOR\n2 1 52974 52975 52973 AND\n2 1 52973 129845 129846 XOR\n2 1 129877 129846 77997 XOR\n2 1 82605 129846 52977 XOR\n2 1 76717 129846 52978 XOR\n2 1 52977 52978 52976 AND\n2 1 52976 129846 129847 XOR\n2 1 76718 129847 52981 XOR\n2 1 129878 129847 77998 XOR\n2 1 79534 77998 129816 XOR\n2 1 129876 129845 77996 XOR\n2 1 79532 77996 129814 XOR\n2 1 82606 129847 52980 XOR\n2 1 52980 52981 52979 AND\n2 1 52979 129847 129848 XOR\n2 1 82607 129848 52983 XOR\n2 1 76719 129848 52984 XOR\n2 1 129879 129848 77999 XOR\n2 1 52983 52984 52982 AND\n2 1 52982 129848 129849 XOR\n2 1 129880 129849 78000 XOR\n2 1 79536 78000 129818 XOR\n2 1 79505 77969 129757 AND\n2 1 77970 129757 52807 XOR\n2 1 79506 129757 52806 XOR\n2 1 52806 52807 52805 AND\n2 1 52805 129757 129758 XOR\n2 1 129789 129758 76179 XOR\n2 1 76179 2306 114965 XOR\n2 1 77971 129758 52810 XOR\n2 1 79514 77978 129796 XOR\n2 1 79511 77975 129793 XOR\n2 1 79512 77976 129794 XOR\n2 1 79525 77989 129807 XOR\n2 1 79524 77988 129806 XOR\n2 1 79523 77987 129805 XOR\n2 1 79526 77990 129808 XOR\n2 1 79535 77999 129817 XOR\n2 1 79533 77997 129815 XOR\n2 1 129788 129757 76178 XOR\n2 1 76178 114933 27547 XOR\n2 1 27547 27548 27546 AND\n2 1 27546 114933 114934 XOR\n2 1 114965 114934 94296 XOR\n2 1 96344 94296 114903 XOR\n2 1 76179 114934 27550 XOR\n2 1 76178 2305 114964 XOR\n2 1 114964 114933 94295 XOR\n2 1 94295 114871 27458 XOR\n2 1 96343 94295 114902 XOR\n2 1 27457 27458 27456 AND\n2 1 114902 114871 90258 XOR\n2 1 90258 84114 104731 XOR\n2 1 90258 104700 11107 XOR\n2 1 27456 114871 114872 XOR\n2 1 114903 114872 92283 XOR\n2 1 96344 114872 27460 XOR\n2 1 94296 114872 27461 XOR\n2 1 27460 27461 27459 AND\n2 1 27459 114872 114873 XOR\n2 1 96345 114873 27463 XOR\n2 1 90258 104638 11018 XOR\n2 1 11107 11108 11106 AND\n2 1 11106 104700 104701 XOR\n2 1 104731 104700 1665 XOR\n1 1 92283 90259 INV\n2 1 90259 84115 104732 XOR\n2 1 104732 104701 1666 XOR\n2 1 2306 114934 27551 XOR\n2 1 27550 27551 27549 AND\n2 1 27549 114934 114935 XOR\n2 1 2307 114935 27554 XOR\n2 1 1793 90258 104669 XOR\n2 1 104669 104638 2177 XOR\n2 1 1794 90259 104670 XOR\n2 1 11017 11018 11016 AND\n2 1 11016 104638 104639 XOR\n2 1 1794 104639 11020 XOR\n2 1 90259 104639 11021 XOR\n2 1 11020 11021 11019 AND\n2 1 11019 104639 104640 XOR\n2 1 104670 104639 2178 XOR\n2 1 1666 1730 70449 XOR\n2 1 1665 1729 70448 XOR\n2 1 70449 70417 70385 AND\n2 1 70448 70416 70384 AND\n2 1 70385 1730 86131 XOR\n2 1 70384 1729 86130 XOR\n2 1 1666 1698 70321 XOR\n2 1 1665 1697 70320 XOR\n2 1 84115 104701 11111 XOR\n2 1 90259 104701 11110 XOR\n2 1 11110 11111 11109 AND\n2 1 63953 2178 63921 AND\n2 1 63952 2177 63920 AND\n2 1 63921 2242 98360 XOR\n2 1 63920 2241 98359 XOR\n2 1 2178 2210 63889 XOR\n2 1 2177 2209 63888 XOR\n2 1 11109 104701 104702 XOR\n2 1 84116 104702 11114 XOR\n2 1 1795 104640 11023 XOR\n2 1 79507 129758 52809 XOR\n2 1 52809 52810 52808 AND\n2 1 52808 129758 129759 XOR\n2 1 79508 129759 52812 XOR\n2 1 77972 129759 52813 XOR\n2 1 52812 52813 52811 AND\n2 1 52811 129759 129760 XOR\n2 1 79509 129760 52815 XOR\n2 1 129791 129760 76181 XOR\n",
"2 1 76181 2308 114967 XOR\n2 1 129790 129759 76180 XOR\n2 1 76180 2307 114966 XOR\n2 1 76180 114935 27553 XOR\n2 1 27553 27554 27552 AND\n2 1 114966 114935 94297 XOR\n2 1 96345 94297 114904 XOR\n2 1 114904 114873 92284 XOR\n2 1 27552 114935 114936 XOR\n2 1 2308 114936 27557 XOR\n2 1 76181 114936 27556 XOR\n2 1 114967 114936 94298 XOR\n2 1 27556 27557 27555 AND\n2 1 27555 114936 114937 XOR\n2 1 2309 114937 27560 XOR\n2 1 77973 129760 52816 XOR\n2 1 52815 52816 52814 AND\n2 1 52814 129760 129761 XOR\n2 1 79510 129761 52818 XOR\n2 1 77974 129761 52819 XOR\n2 1 129792 129761 76182 XOR\n2 1 76182 114937 27559 XOR\n2 1 27559 27560 27558 AND\n2 1 27558 114937 114938 XOR\n2 1 2310 114938 27563 XOR\n2 1 76182 2309 114968 XOR\n2 1 114968 114937 94299 XOR\n2 1 96347 94299 114906 XOR\n2 1 52818 52819 52817 AND\n2 1 52817 129761 129762 XOR\n2 1 129793 129762 76183 XOR\n2 1 76183 114938 27562 XOR\n2 1 27562 27563 27561 AND\n2 1 27561 114938 114939 XOR\n2 1 2311 114939 27566 XOR\n2 1 79511 129762 52821 XOR\n2 1 76183 2310 114969 XOR\n2 1 114969 114938 94300 XOR\n2 1 96348 94300 114907 XOR\n2 1 77975 129762 52822 XOR\n2 1 52821 52822 52820 AND\n2 1 52820 129762 129763 XOR\n2 1 77976 129763 52825 XOR\n2 1 129794 129763 76184 XOR\n2 1 76184 114939 27565 XOR\n2 1 27565 27566 27564 AND\n2 1 27564 114939 114940 XOR\n2 1 2312 114940 27569 XOR\n2 1 76184 2311 114970 XOR\n2 1 114970 114939 94301 XOR\n2 1 96349 94301 114908 XOR\n2 1 79512 129763 52824 XOR\n2 1 52824 52825 52823 AND\n2 1 52823 129763 129764 XOR\n2 1 77977 129764 52828 XOR\n2 1 79513 129764 52827 XOR\n2 1 52827 52828 52826 AND\n2 1 129795 129764 76185 XOR\n2 1 76185 2312 114971 XOR\n2 1 114971 114940 94302 XOR\n2 1 96350 94302 114909 XOR\n2 1 76185 114940 27568 XOR\n2 1 27568 27569 27567 AND\n2 1 27567 114940 114941 XOR\n2 1 2313 114941 27572 XOR\n2 1 52826 129764 129765 XOR\n2 1 77978 129765 52831 XOR\n2 1 79514 129765 52830 XOR\n2 1 52830 52831 52829 AND\n2 1 52829 129765 129766 XOR\n2 1 129797 129766 76187 XOR\n2 1 76187 2314 114973 XOR\n2 1 79515 129766 52833 XOR\n2 1 77979 129766 52834 XOR\n2 1 52833 52834 52832 AND\n2 1 52832 129766 129767 XOR\n2 1 129798 129767 76188 XOR\n2 1 76188 2315 114974 XOR\n2 1 79516 129767 52836 XOR\n2 1 77980 129767 52837 XOR\n2 1 52836 52837 52835 AND\n2 1 52835 129767 129768 XOR\n2 1 77981 129768 52840 XOR\n2 1 79517 129768 52839 XOR\n2 1 52839 52840 52838 AND\n2 1 52838 129768 129769 XOR\n2 1 129800 129769 76190 XOR\n2 1 76190 2317 114976 XOR\n2 1 129799 129768 76189 XOR\n2 1 76189 2316 114975 XOR\n2 1 77982 129769 52843 XOR\n2 1 79518 129769 52842 XOR\n2 1 52842 52843 52841 AND\n2 1 52841 129769 129770 XOR\n2 1 79519 129770 52845 XOR\n2 1 77983 129770 52846 XOR\n2 1 52845 52846 52844 AND\n2 1 129801 129770 76191 XOR\n2 1 76191 2318 114977 XOR\n2 1 52844 129770 129771 XOR\n2 1 77984 129771 52849 XOR\n2 1 129802 129771 76192 XOR\n2 1 76192 2319 114978 XOR\n2 1 76190 76192 81005 XOR\n2 1 81005 76365 129567 XOR\n2 1 76189 76191 81004 XOR\n2 1 81004 76364 129566 XOR\n2 1 76188 76190 81003 XOR\n2 1 81003 76363 129565 XOR\n2 1 76187 76189 81002 XOR\n2 1 81002 76362 129564 XOR\n2 1 76185 76187 81000 XOR\n2 1 81000 76360 129562 XOR\n2 1 76183 76185 6485 XOR\n2 1 76182 76184 6484 XOR\n2 1 76181 76183 6483 XOR\n2 1 76180 76182 6482 XOR\n2 1 76179 76181 6481 XOR\n2 1 76178 76180 6480 XOR\n2 1 76177 76179 6479 XOR\n2 1 92284 92283 90260 XOR\n2 1 90260 92283 27378 AND\n2 1 27378 92283 27380 XOR\n2 1 90260 84116 104733 XOR\n2 1 1795 90260 104671 XOR\n2 1 104671 104640 2179 XOR\n2 1 90260 104702 11113 XOR\n2 1 104733 104702 1667 XOR\n",
"2 1 1667 1731 70450 XOR\n2 1 70450 70418 70386 AND\n2 1 70386 1731 86132 XOR\n2 1 1667 1699 70322 XOR\n2 1 63954 2179 63922 AND\n2 1 63922 2243 98361 XOR\n2 1 2179 2211 63890 XOR\n2 1 11113 11114 11112 AND\n2 1 11112 104702 104703 XOR\n2 1 84117 104703 11117 XOR\n2 1 90260 104640 11024 XOR\n2 1 11023 11024 11022 AND\n2 1 11022 104640 104641 XOR\n2 1 1796 104641 11026 XOR\n2 1 96346 94298 114905 XOR\n2 1 94297 114873 27464 XOR\n2 1 27463 27464 27462 AND\n2 1 27462 114873 114874 XOR\n2 1 94298 114874 27467 XOR\n2 1 96346 114874 27466 XOR\n2 1 27466 27467 27465 AND\n2 1 27465 114874 114875 XOR\n2 1 96347 114875 27469 XOR\n2 1 94299 114875 27470 XOR\n2 1 27469 27470 27468 AND\n2 1 27468 114875 114876 XOR\n2 1 114907 114876 92287 XOR\n2 1 94300 114876 27473 XOR\n2 1 96348 114876 27472 XOR\n2 1 27472 27473 27471 AND\n2 1 27471 114876 114877 XOR\n2 1 114908 114877 92288 XOR\n2 1 94301 114877 27476 XOR\n2 1 96349 114877 27475 XOR\n2 1 27475 27476 27474 AND\n2 1 27474 114877 114878 XOR\n2 1 96350 114878 27478 XOR\n2 1 114909 114878 92289 XOR\n2 1 114906 114875 92286 XOR\n1 1 92286 27444 INV\n2 1 94302 114878 27479 XOR\n2 1 27478 27479 27477 AND\n2 1 27477 114878 114879 XOR\n2 1 96351 114879 27481 XOR\n2 1 114905 114874 92285 XOR\n2 1 92285 27380 90261 XOR\n2 1 90261 27380 27379 AND\n2 1 27379 27380 114859 XOR\n2 1 92286 114859 27382 XOR\n1 1 114859 27383 INV\n2 1 27382 27383 27381 AND\n2 1 27381 114859 27385 XOR\n2 1 92287 27385 90263 XOR\n2 1 1798 90263 104674 XOR\n2 1 90263 27385 27384 AND\n2 1 27384 27385 27387 XOR\n2 1 92288 27387 90264 XOR\n2 1 1799 90264 104675 XOR\n2 1 90264 27387 27386 AND\n2 1 27386 27387 27389 XOR\n2 1 92289 27389 90265 XOR\n2 1 90265 27389 27388 AND\n2 1 1800 90265 104676 XOR\n2 1 27388 27389 114860 XOR\n1 1 114860 27392 INV\n2 1 90263 84119 104736 XOR\n2 1 90265 84121 104738 XOR\n2 1 90264 84120 104737 XOR\n2 1 27444 114859 90262 XOR\n2 1 1797 90262 104673 XOR\n2 1 90261 104641 11027 XOR\n2 1 90261 84117 104734 XOR\n2 1 104734 104703 1668 XOR\n2 1 1796 90261 104672 XOR\n2 1 90261 104703 11116 XOR\n2 1 1668 1732 70451 XOR\n2 1 70451 70419 70387 AND\n2 1 70387 1732 86133 XOR\n2 1 1668 1700 70323 XOR\n2 1 104672 104641 2180 XOR\n2 1 63955 2180 63923 AND\n2 1 63923 2244 98362 XOR\n2 1 2180 2212 63891 XOR\n2 1 11116 11117 11115 AND\n2 1 11115 104703 104704 XOR\n2 1 84118 104704 11120 XOR\n2 1 90262 104704 11119 XOR\n2 1 11119 11120 11118 AND\n2 1 11118 104704 104705 XOR\n2 1 104736 104705 1670 XOR\n2 1 90263 104705 11122 XOR\n2 1 84119 104705 11123 XOR\n2 1 11122 11123 11121 AND\n2 1 11121 104705 104706 XOR\n2 1 104737 104706 1671 XOR\n2 1 90264 104706 11125 XOR\n2 1 84120 104706 11126 XOR\n2 1 11125 11126 11124 AND\n2 1 11124 104706 104707 XOR\n2 1 90265 104707 11128 XOR\n2 1 104738 104707 1672 XOR\n2 1 1672 1736 70455 XOR\n2 1 1671 1735 70454 XOR\n2 1 1670 1734 70453 XOR\n2 1 70455 70423 70391 AND\n2 1 70454 70422 70390 AND\n2 1 70453 70421 70389 AND\n2 1 70391 1736 86137 XOR\n2 1 70390 1735 86136 XOR\n2 1 70389 1734 86135 XOR\n2 1 1672 1704 70327 XOR\n2 1 1671 1703 70326 XOR\n2 1 1670 1702 70325 XOR\n2 1 11026 11027 11025 AND\n2 1 11025 104641 104642 XOR\n2 1 104673 104642 2181 XOR\n2 1 90262 104642 11030 XOR\n2 1 1797 104642 11029 XOR\n2 1 11029 11030 11028 AND\n2 1 63956 2181 63924 AND\n2 1 63924 2245 98363 XOR\n2 1 2181 2213 63892 XOR\n2 1 11028 104642 104643 XOR\n2 1 1798 104643 11032 XOR\n2 1 104674 104643 2182 XOR\n2 1 63957 2182 63925 AND\n2 1 63925 2246 98364 XOR\n2 1 2182 2214 63893 XOR\n",
"2 1 90263 104643 11033 XOR\n2 1 11032 11033 11031 AND\n2 1 11031 104643 104644 XOR\n2 1 90264 104644 11036 XOR\n2 1 104675 104644 2183 XOR\n2 1 63958 2183 63926 AND\n2 1 63926 2247 98365 XOR\n2 1 2183 2215 63894 XOR\n2 1 1799 104644 11035 XOR\n2 1 11035 11036 11034 AND\n2 1 11034 104644 104645 XOR\n2 1 90265 104645 11039 XOR\n2 1 104676 104645 2184 XOR\n2 1 1800 104645 11038 XOR\n2 1 11038 11039 11037 AND\n2 1 11037 104645 104646 XOR\n2 1 1801 104646 11041 XOR\n2 1 63959 2184 63927 AND\n2 1 63927 2248 98366 XOR\n2 1 2184 2216 63895 XOR\n2 1 2179 2184 61388 XOR\n2 1 2178 2183 61387 XOR\n2 1 2177 2182 61386 XOR\n2 1 2176 2181 61385 XOR\n2 1 90262 84118 104735 XOR\n2 1 104735 104704 1669 XOR\n2 1 1669 1733 70452 XOR\n2 1 70452 70420 70388 AND\n2 1 70388 1733 86134 XOR\n2 1 1669 1701 70324 XOR\n2 1 129796 129765 76186 XOR\n2 1 76186 114941 27571 XOR\n2 1 27571 27572 27570 AND\n2 1 27570 114941 114942 XOR\n2 1 114973 114942 94304 XOR\n2 1 2314 114942 27575 XOR\n2 1 76187 114942 27574 XOR\n2 1 27574 27575 27573 AND\n2 1 27573 114942 114943 XOR\n2 1 114974 114943 94305 XOR\n2 1 2315 114943 27578 XOR\n2 1 76188 114943 27577 XOR\n2 1 27577 27578 27576 AND\n2 1 27576 114943 114944 XOR\n2 1 2316 114944 27581 XOR\n2 1 114975 114944 94306 XOR\n2 1 96352 94304 114911 XOR\n2 1 96353 94305 114912 XOR\n2 1 96354 94306 114913 XOR\n2 1 76186 2313 114972 XOR\n2 1 114972 114941 94303 XOR\n2 1 94303 114879 27482 XOR\n2 1 27481 27482 27480 AND\n2 1 27480 114879 114880 XOR\n2 1 114911 114880 92291 XOR\n2 1 94304 114880 27485 XOR\n2 1 96352 114880 27484 XOR\n2 1 27484 27485 27483 AND\n2 1 27483 114880 114881 XOR\n2 1 114912 114881 92292 XOR\n2 1 96353 114881 27487 XOR\n2 1 96351 94303 114910 XOR\n1 1 92291 27446 INV\n2 1 76189 114944 27580 XOR\n2 1 27580 27581 27579 AND\n2 1 27579 114944 114945 XOR\n2 1 76190 114945 27583 XOR\n2 1 2317 114945 27584 XOR\n2 1 27583 27584 27582 AND\n2 1 114976 114945 94307 XOR\n2 1 27582 114945 114946 XOR\n2 1 114977 114946 94308 XOR\n2 1 2318 114946 27587 XOR\n2 1 96355 94307 114914 XOR\n2 1 96356 94308 114915 XOR\n2 1 76191 114946 27586 XOR\n2 1 27586 27587 27585 AND\n2 1 27585 114946 114947 XOR\n2 1 2319 114947 27590 XOR\n2 1 114978 114947 94309 XOR\n2 1 96357 94309 114916 XOR\n2 1 76192 114947 27589 XOR\n2 1 27589 27590 27588 AND\n2 1 27588 114947 114948 XOR\n2 1 2320 114948 27593 XOR\n2 1 76186 76188 81001 XOR\n2 1 81001 76361 129563 XOR\n2 1 76184 76186 80999 XOR\n2 1 80999 76359 129561 XOR\n2 1 114910 114879 92290 XOR\n2 1 92290 114860 27391 XOR\n2 1 27391 27392 27390 AND\n1 1 92290 27445 INV\n2 1 27445 114860 90266 XOR\n2 1 90266 104646 11042 XOR\n2 1 1801 90266 104677 XOR\n2 1 104677 104646 2185 XOR\n2 1 11041 11042 11040 AND\n2 1 11040 104646 104647 XOR\n2 1 90266 84122 104739 XOR\n2 1 63960 2185 63928 AND\n2 1 63928 2249 98367 XOR\n2 1 2185 2217 63896 XOR\n2 1 2180 2185 61389 XOR\n2 1 1802 104647 11044 XOR\n2 1 27390 114860 114861 XOR\n2 1 92291 114861 27394 XOR\n2 1 27446 114861 90267 XOR\n2 1 1802 90267 104678 XOR\n2 1 104678 104647 2186 XOR\n2 1 90267 104647 11045 XOR\n1 1 114861 27395 INV\n2 1 27394 27395 27393 AND\n2 1 27393 114861 27397 XOR\n2 1 92292 27397 90268 XOR\n2 1 1803 90268 104679 XOR\n2 1 90268 27397 27396 AND\n2 1 27396 27397 27399 XOR\n2 1 90267 84123 104740 XOR\n2 1 63961 2186 63929 AND\n2 1 63929 2250 98368 XOR\n2 1 2186 2218 63897 XOR\n2 1 90268 84124 104741 XOR\n2 1 2181 2186 61390 XOR\n2 1 11044 11045 11043 AND\n2 1 11043 104647 104648 XOR\n2 1 1803 104648 11047 XOR\n2 1 90268 104648 11048 XOR\n",
"2 1 11047 11048 11046 AND\n2 1 11046 104648 104649 XOR\n2 1 1804 104649 11050 XOR\n2 1 104679 104648 2187 XOR\n2 1 63962 2187 63930 AND\n2 1 63930 2251 98369 XOR\n2 1 2187 2219 63898 XOR\n2 1 2182 2187 61359 XOR\n2 1 94305 114881 27488 XOR\n2 1 27487 27488 27486 AND\n2 1 27486 114881 114882 XOR\n2 1 114913 114882 92293 XOR\n2 1 92293 27399 90269 XOR\n2 1 96354 114882 27490 XOR\n2 1 90269 104649 11051 XOR\n2 1 11050 11051 11049 AND\n2 1 11049 104649 104650 XOR\n2 1 94306 114882 27491 XOR\n2 1 27490 27491 27489 AND\n2 1 27489 114882 114883 XOR\n2 1 96355 114883 27493 XOR\n2 1 94307 114883 27494 XOR\n2 1 27493 27494 27492 AND\n2 1 114914 114883 92294 XOR\n2 1 27492 114883 114884 XOR\n2 1 114915 114884 92295 XOR\n2 1 96356 114884 27496 XOR\n2 1 94308 114884 27497 XOR\n2 1 27496 27497 27495 AND\n2 1 27495 114884 114885 XOR\n2 1 114916 114885 92296 XOR\n2 1 96357 114885 27499 XOR\n2 1 94309 114885 27500 XOR\n2 1 27499 27500 27498 AND\n2 1 27498 114885 114886 XOR\n2 1 96358 114886 27502 XOR\n2 1 1804 90269 104680 XOR\n2 1 104680 104649 2188 XOR\n2 1 63963 2188 63931 AND\n2 1 63931 2252 98370 XOR\n2 1 2188 2220 63899 XOR\n2 1 1805 104650 11053 XOR\n2 1 90269 84125 104742 XOR\n2 1 2183 2188 61360 XOR\n2 1 90269 27399 27398 AND\n2 1 27398 27399 27401 XOR\n2 1 92294 27401 90270 XOR\n2 1 1805 90270 104681 XOR\n2 1 90270 84126 104743 XOR\n2 1 104681 104650 2189 XOR\n2 1 63964 2189 63932 AND\n2 1 63932 2253 98371 XOR\n2 1 2189 2221 63900 XOR\n2 1 90270 104650 11054 XOR\n2 1 11053 11054 11052 AND\n2 1 11052 104650 104651 XOR\n2 1 1806 104651 11056 XOR\n2 1 90270 27401 27400 AND\n2 1 27400 27401 27403 XOR\n2 1 92295 27403 90271 XOR\n2 1 90271 27403 27402 AND\n2 1 27402 27403 27405 XOR\n2 1 92296 27405 90272 XOR\n2 1 90272 27405 27404 AND\n2 1 27404 27405 114862 XOR\n1 1 114862 27408 INV\n2 1 90272 84128 104745 XOR\n2 1 90271 84127 104744 XOR\n2 1 90271 104651 11057 XOR\n2 1 11056 11057 11055 AND\n2 1 11055 104651 104652 XOR\n2 1 1807 104652 11059 XOR\n2 1 90272 104652 11060 XOR\n2 1 11059 11060 11058 AND\n2 1 11058 104652 104653 XOR\n2 1 1808 104653 11062 XOR\n2 1 1807 90272 104683 XOR\n2 1 104683 104652 2191 XOR\n2 1 1806 90271 104682 XOR\n2 1 104682 104651 2190 XOR\n2 1 63966 2191 63934 AND\n2 1 63965 2190 63933 AND\n2 1 63934 2255 98373 XOR\n2 1 63933 2254 98372 XOR\n2 1 2191 2223 63902 XOR\n2 1 2190 2222 63901 XOR\n2 1 2186 2191 61363 XOR\n2 1 2185 2190 61362 XOR\n2 1 2184 2189 61361 XOR\n2 1 79520 129771 52848 XOR\n2 1 52848 52849 52847 AND\n2 1 52847 129771 129772 XOR\n2 1 79521 129772 52851 XOR\n2 1 77985 129772 52852 XOR\n2 1 52851 52852 52850 AND\n2 1 52850 129772 129773 XOR\n2 1 77986 129773 52855 XOR\n2 1 129804 129773 76194 XOR\n2 1 76194 2321 114980 XOR\n2 1 79522 129773 52854 XOR\n2 1 129803 129772 76193 XOR\n2 1 76193 2320 114979 XOR\n2 1 114979 114948 94310 XOR\n2 1 96358 94310 114917 XOR\n2 1 94310 114886 27503 XOR\n2 1 114917 114886 92297 XOR\n1 1 92297 27447 INV\n2 1 27447 114862 90273 XOR\n2 1 90273 104653 11063 XOR\n2 1 11062 11063 11061 AND\n2 1 11061 104653 104654 XOR\n2 1 1809 104654 11065 XOR\n2 1 92297 114862 27407 XOR\n2 1 27407 27408 27406 AND\n2 1 27406 114862 27410 XOR\n2 1 27502 27503 27501 AND\n2 1 27501 114886 114887 XOR\n2 1 96359 114887 27505 XOR\n2 1 76193 114948 27592 XOR\n2 1 27592 27593 27591 AND\n2 1 27591 114948 114949 XOR\n2 1 2321 114949 27596 XOR\n2 1 76194 114949 27595 XOR\n2 1 27595 27596 27594 AND\n2 1 27594 114949 114950 XOR\n2 1 2322 114950 27599 XOR\n2 1 1808 90273 104684 XOR\n2 1 104684 104653 2192 XOR\n",
"2 1 114980 114949 94311 XOR\n2 1 94311 114887 27506 XOR\n2 1 96359 94311 114918 XOR\n2 1 27505 27506 27504 AND\n2 1 27504 114887 114888 XOR\n2 1 96360 114888 27508 XOR\n2 1 63967 2192 63935 AND\n2 1 63935 2256 98374 XOR\n2 1 2192 2224 63903 XOR\n2 1 52854 52855 52853 AND\n2 1 52853 129773 129774 XOR\n2 1 129805 129774 76195 XOR\n2 1 79523 129774 52857 XOR\n2 1 76195 2322 114981 XOR\n2 1 114981 114950 94312 XOR\n2 1 96360 94312 114919 XOR\n2 1 94312 114888 27509 XOR\n2 1 27508 27509 27507 AND\n2 1 27507 114888 114889 XOR\n2 1 96361 114889 27511 XOR\n2 1 114919 114888 92299 XOR\n2 1 77987 129774 52858 XOR\n2 1 52857 52858 52856 AND\n2 1 52856 129774 129775 XOR\n2 1 77988 129775 52861 XOR\n2 1 129806 129775 76196 XOR\n2 1 76196 2323 114982 XOR\n2 1 76195 114950 27598 XOR\n2 1 27598 27599 27597 AND\n2 1 27597 114950 114951 XOR\n2 1 114982 114951 94313 XOR\n2 1 96361 94313 114920 XOR\n2 1 114920 114889 92300 XOR\n1 1 92300 27448 INV\n2 1 2323 114951 27602 XOR\n2 1 76196 114951 27601 XOR\n2 1 27601 27602 27600 AND\n2 1 27600 114951 114952 XOR\n2 1 2324 114952 27605 XOR\n2 1 79524 129775 52860 XOR\n2 1 52860 52861 52859 AND\n2 1 52859 129775 129776 XOR\n2 1 79525 129776 52863 XOR\n2 1 129807 129776 76197 XOR\n2 1 76197 2324 114983 XOR\n2 1 114983 114952 94314 XOR\n2 1 96362 94314 114921 XOR\n2 1 77989 129776 52864 XOR\n2 1 52863 52864 52862 AND\n2 1 52862 129776 129777 XOR\n2 1 129808 129777 76198 XOR\n2 1 76198 2325 114984 XOR\n2 1 77990 129777 52867 XOR\n2 1 79526 129777 52866 XOR\n2 1 52866 52867 52865 AND\n2 1 52865 129777 129778 XOR\n2 1 129809 129778 76199 XOR\n2 1 76199 2326 114985 XOR\n2 1 77991 129778 52870 XOR\n2 1 79527 129778 52869 XOR\n2 1 52869 52870 52868 AND\n2 1 52868 129778 129779 XOR\n2 1 129810 129779 76200 XOR\n2 1 76200 2327 114986 XOR\n2 1 77992 129779 52873 XOR\n2 1 79528 129779 52872 XOR\n2 1 52872 52873 52871 AND\n2 1 52871 129779 129780 XOR\n2 1 77993 129780 52876 XOR\n2 1 129811 129780 76201 XOR\n2 1 79529 129780 52875 XOR\n2 1 52875 52876 52874 AND\n2 1 52874 129780 129781 XOR\n2 1 77994 129781 52879 XOR\n2 1 129812 129781 76202 XOR\n2 1 76202 2329 114988 XOR\n2 1 79530 129781 52878 XOR\n2 1 52878 52879 52877 AND\n2 1 52877 129781 129782 XOR\n2 1 129813 129782 76203 XOR\n2 1 76203 2330 114989 XOR\n2 1 79531 129782 52881 XOR\n2 1 2187 2192 61364 XOR\n2 1 77995 129782 52882 XOR\n2 1 52881 52882 52880 AND\n2 1 52880 129782 129783 XOR\n2 1 79532 129783 52884 XOR\n2 1 77996 129783 52885 XOR\n2 1 52884 52885 52883 AND\n2 1 52883 129783 129784 XOR\n2 1 79533 129784 52887 XOR\n2 1 77997 129784 52888 XOR\n2 1 52887 52888 52886 AND\n2 1 52886 129784 129785 XOR\n2 1 77998 129785 52891 XOR\n2 1 79534 129785 52890 XOR\n2 1 129816 129785 76206 XOR\n2 1 76206 2333 114992 XOR\n2 1 52890 52891 52889 AND\n2 1 52889 129785 129786 XOR\n2 1 77999 129786 52894 XOR\n2 1 79535 129786 52893 XOR\n2 1 52893 52894 52892 AND\n2 1 129817 129786 76207 XOR\n2 1 76207 2334 114993 XOR\n2 1 52892 129786 129787 XOR\n2 1 129818 129787 76208 XOR\n2 1 76208 2335 114994 XOR\n2 1 129815 129784 76205 XOR\n2 1 76205 2332 114991 XOR\n2 1 129814 129783 76204 XOR\n2 1 76204 2331 114990 XOR\n2 1 90273 84129 104746 XOR\n2 1 114918 114887 92298 XOR\n2 1 92298 27410 90274 XOR\n2 1 90274 104654 11066 XOR\n2 1 11065 11066 11064 AND\n2 1 1809 90274 104685 XOR\n2 1 104685 104654 2193 XOR\n2 1 90274 27410 27409 AND\n2 1 27409 27410 27412 XOR\n2 1 92299 27412 90275 XOR\n2 1 90275 27412 27411 AND\n2 1 1810 90275 104686 XOR\n2 1 27411 27412 114863 XOR\n2 1 92300 114863 27414 XOR\n1 1 114863 27415 INV\n2 1 27414 27415 27413 AND\n",
"2 1 27413 114863 114864 XOR\n1 1 114864 27418 INV\n2 1 90274 84130 104747 XOR\n2 1 90275 84131 104748 XOR\n2 1 63968 2193 63936 AND\n2 1 63936 2257 98375 XOR\n2 1 2193 2225 63904 XOR\n2 1 2188 2193 61365 XOR\n2 1 11064 104654 104655 XOR\n2 1 104686 104655 2194 XOR\n2 1 1810 104655 11068 XOR\n2 1 90275 104655 11069 XOR\n2 1 63969 2194 63937 AND\n2 1 63937 2258 98376 XOR\n2 1 2194 2226 63905 XOR\n2 1 11068 11069 11067 AND\n2 1 11067 104655 104656 XOR\n2 1 1811 104656 11071 XOR\n2 1 2189 2194 61366 XOR\n2 1 61366 2176 100413 XOR\n2 1 100413 98365 114772 XOR\n2 1 27448 114863 90276 XOR\n2 1 1811 90276 104687 XOR\n2 1 90276 104656 11072 XOR\n2 1 90276 84132 104749 XOR\n2 1 104687 104656 2195 XOR\n2 1 11071 11072 11070 AND\n2 1 11070 104656 104657 XOR\n2 1 1812 104657 11074 XOR\n2 1 63970 2195 63938 AND\n2 1 63938 2259 98377 XOR\n2 1 2195 2227 63906 XOR\n2 1 2190 2195 61367 XOR\n2 1 61385 2195 100432 XOR\n2 1 61367 2177 100414 XOR\n2 1 100414 98366 114773 XOR\n2 1 76197 114952 27604 XOR\n2 1 27604 27605 27603 AND\n2 1 27603 114952 114953 XOR\n2 1 114984 114953 94315 XOR\n2 1 2325 114953 27608 XOR\n2 1 76198 114953 27607 XOR\n2 1 27607 27608 27606 AND\n2 1 27606 114953 114954 XOR\n2 1 76199 114954 27610 XOR\n2 1 114985 114954 94316 XOR\n2 1 2326 114954 27611 XOR\n2 1 27610 27611 27609 AND\n2 1 27609 114954 114955 XOR\n2 1 76200 114955 27613 XOR\n2 1 114986 114955 94317 XOR\n2 1 2327 114955 27614 XOR\n2 1 27613 27614 27612 AND\n2 1 27612 114955 114956 XOR\n2 1 76201 114956 27616 XOR\n2 1 96363 94315 114922 XOR\n2 1 96364 94316 114923 XOR\n2 1 96365 94317 114924 XOR\n2 1 2328 114956 27617 XOR\n2 1 27616 27617 27615 AND\n2 1 27615 114956 114957 XOR\n2 1 2329 114957 27620 XOR\n2 1 76202 114957 27619 XOR\n2 1 27619 27620 27618 AND\n2 1 27618 114957 114958 XOR\n2 1 114989 114958 94320 XOR\n2 1 114988 114957 94319 XOR\n2 1 2330 114958 27623 XOR\n2 1 76203 114958 27622 XOR\n2 1 27622 27623 27621 AND\n2 1 27621 114958 114959 XOR\n2 1 114990 114959 94321 XOR\n2 1 96368 94320 114927 XOR\n2 1 96367 94319 114926 XOR\n2 1 96369 94321 114928 XOR\n2 1 2331 114959 27626 XOR\n2 1 76204 114959 27625 XOR\n2 1 27625 27626 27624 AND\n2 1 27624 114959 114960 XOR\n2 1 2332 114960 27629 XOR\n2 1 114991 114960 94322 XOR\n2 1 96370 94322 114929 XOR\n2 1 76205 114960 27628 XOR\n2 1 27628 27629 27627 AND\n2 1 27627 114960 114961 XOR\n2 1 2333 114961 27632 XOR\n2 1 114992 114961 94323 XOR\n2 1 76206 114961 27631 XOR\n2 1 27631 27632 27630 AND\n2 1 27630 114961 114962 XOR\n2 1 2334 114962 27635 XOR\n2 1 76207 114962 27634 XOR\n2 1 114993 114962 94324 XOR\n2 1 27634 27635 27633 AND\n2 1 27633 114962 114963 XOR\n2 1 114994 114963 94325 XOR\n2 1 96373 94325 114932 XOR\n2 1 96371 94323 114930 XOR\n2 1 96372 94324 114931 XOR\n2 1 76193 76195 81008 XOR\n2 1 81008 76368 129570 XOR\n2 1 76192 76194 81007 XOR\n2 1 81007 76367 129569 XOR\n2 1 76191 76193 81006 XOR\n2 1 81006 76366 129568 XOR\n2 1 76208 76178 6478 XOR\n2 1 76207 76177 6477 XOR\n2 1 76206 76208 6476 XOR\n2 1 76205 76207 6475 XOR\n2 1 76204 76206 6474 XOR\n2 1 76203 76205 6473 XOR\n2 1 76202 76204 6472 XOR\n2 1 76201 76203 6471 XOR\n2 1 76200 76202 6470 XOR\n2 1 76199 76201 6469 XOR\n2 1 76198 76200 6468 XOR\n2 1 76197 76199 6467 XOR\n2 1 76196 76198 6466 XOR\n2 1 76195 76197 6465 XOR\n2 1 76194 76196 6464 XOR\n2 1 6485 76208 80998 XOR\n2 1 80998 76358 129560 XOR\n2 1 6484 76207 80997 XOR\n2 1 80997 76357 129559 XOR\n2 1 6483 76206 80996 XOR\n2 1 80996 76356 129558 XOR\n2 1 6482 76205 80995 XOR\n2 1 80995 76355 129557 XOR\n",
"2 1 6481 76204 80994 XOR\n2 1 80994 76354 129556 XOR\n2 1 6480 76203 80993 XOR\n2 1 80993 76353 129555 XOR\n2 1 6479 76202 80992 XOR\n2 1 80992 76352 129554 XOR\n2 1 6478 76201 80991 XOR\n2 1 80991 76351 129553 XOR\n2 1 6477 76200 80990 XOR\n2 1 80990 76350 129552 XOR\n2 1 6476 76199 80989 XOR\n2 1 80989 76349 129551 XOR\n2 1 6475 76198 80988 XOR\n2 1 80988 76348 129550 XOR\n2 1 6474 76197 80987 XOR\n2 1 80987 76347 129549 XOR\n2 1 6473 76196 80986 XOR\n2 1 80986 76346 129548 XOR\n2 1 6472 76195 80985 XOR\n2 1 80985 76345 129547 XOR\n2 1 6471 76194 80984 XOR\n2 1 80984 76344 129546 XOR\n2 1 6470 76193 80983 XOR\n2 1 80983 76343 129545 XOR\n2 1 6469 76192 80982 XOR\n2 1 80982 76342 129544 XOR\n2 1 6468 76191 80981 XOR\n2 1 80981 76341 129543 XOR\n2 1 6467 76190 80980 XOR\n2 1 80980 76340 129542 XOR\n2 1 6466 76189 80979 XOR\n2 1 80979 76339 129541 XOR\n2 1 6465 76188 80978 XOR\n2 1 80978 76338 129540 XOR\n2 1 6464 76187 80977 XOR\n2 1 80977 76337 129509 AND\n2 1 80977 76337 79441 XOR\n2 1 129540 129509 79442 XOR\n2 1 80978 129509 52446 XOR\n2 1 76338 129509 52447 XOR\n2 1 52446 52447 52445 AND\n2 1 52445 129509 129510 XOR\n2 1 129541 129510 79443 XOR\n2 1 80979 129510 52449 XOR\n2 1 76339 129510 52450 XOR\n2 1 52449 52450 52448 AND\n2 1 52448 129510 129511 XOR\n2 1 129542 129511 79444 XOR\n2 1 76340 129511 52453 XOR\n2 1 80980 129511 52452 XOR\n2 1 52452 52453 52451 AND\n2 1 52451 129511 129512 XOR\n2 1 80981 129512 52455 XOR\n2 1 129543 129512 79445 XOR\n2 1 76341 129512 52456 XOR\n2 1 52455 52456 52454 AND\n2 1 52454 129512 129513 XOR\n2 1 76342 129513 52459 XOR\n2 1 129544 129513 79446 XOR\n2 1 80982 129513 52458 XOR\n2 1 52458 52459 52457 AND\n2 1 52457 129513 129514 XOR\n2 1 80983 129514 52461 XOR\n2 1 129545 129514 79447 XOR\n2 1 76343 129514 52462 XOR\n2 1 52461 52462 52460 AND\n2 1 52460 129514 129515 XOR\n2 1 129546 129515 79448 XOR\n2 1 76344 129515 52465 XOR\n2 1 80984 129515 52464 XOR\n2 1 52464 52465 52463 AND\n2 1 52463 129515 129516 XOR\n2 1 80985 129516 52467 XOR\n2 1 129547 129516 79449 XOR\n2 1 76345 129516 52468 XOR\n2 1 52467 52468 52466 AND\n2 1 52466 129516 129517 XOR\n2 1 129548 129517 79450 XOR\n2 1 76346 129517 52471 XOR\n2 1 80986 129517 52470 XOR\n2 1 52470 52471 52469 AND\n2 1 52469 129517 129518 XOR\n2 1 80987 129518 52473 XOR\n2 1 129549 129518 79451 XOR\n2 1 76347 129518 52474 XOR\n2 1 52473 52474 52472 AND\n2 1 52472 129518 129519 XOR\n2 1 76348 129519 52477 XOR\n2 1 129550 129519 79452 XOR\n2 1 80988 129519 52476 XOR\n2 1 52476 52477 52475 AND\n2 1 52475 129519 129520 XOR\n2 1 76349 129520 52480 XOR\n2 1 80989 129520 52479 XOR\n2 1 129551 129520 79453 XOR\n2 1 52479 52480 52478 AND\n2 1 52478 129520 129521 XOR\n2 1 129552 129521 79454 XOR\n2 1 80990 129521 52482 XOR\n2 1 76350 129521 52483 XOR\n2 1 52482 52483 52481 AND\n2 1 52481 129521 129522 XOR\n2 1 129553 129522 79455 XOR\n2 1 80991 129522 52485 XOR\n2 1 76351 129522 52486 XOR\n2 1 52485 52486 52484 AND\n2 1 52484 129522 129523 XOR\n2 1 80992 129523 52488 XOR\n2 1 76352 129523 52489 XOR\n2 1 52488 52489 52487 AND\n2 1 52487 129523 129524 XOR\n2 1 80993 129524 52491 XOR\n2 1 129555 129524 79457 XOR\n2 1 129554 129523 79456 XOR\n2 1 76353 129524 52492 XOR\n2 1 52491 52492 52490 AND\n2 1 52490 129524 129525 XOR\n2 1 129556 129525 79458 XOR\n2 1 80994 129525 52494 XOR\n2 1 76354 129525 52495 XOR\n2 1 52494 52495 52493 AND\n2 1 52493 129525 129526 XOR\n2 1 129557 129526 79459 XOR\n2 1 80995 129526 52497 XOR\n2 1 76355 129526 52498 XOR\n2 1 52497 52498 52496 AND\n2 1 52496 129526 129527 XOR\n2 1 80996 129527 52500 XOR\n",
"2 1 76356 129527 52501 XOR\n2 1 52500 52501 52499 AND\n2 1 52499 129527 129528 XOR\n2 1 80997 129528 52503 XOR\n2 1 76357 129528 52504 XOR\n2 1 52503 52504 52502 AND\n2 1 52502 129528 129529 XOR\n2 1 80998 129529 52506 XOR\n2 1 129560 129529 79462 XOR\n2 1 129559 129528 79461 XOR\n2 1 76358 129529 52507 XOR\n2 1 52506 52507 52505 AND\n2 1 52505 129529 129530 XOR\n2 1 80999 129530 52509 XOR\n2 1 76359 129530 52510 XOR\n2 1 52509 52510 52508 AND\n2 1 52508 129530 129531 XOR\n2 1 129562 129531 79464 XOR\n2 1 81000 129531 52512 XOR\n2 1 76360 129531 52513 XOR\n2 1 52512 52513 52511 AND\n2 1 52511 129531 129532 XOR\n2 1 81001 129532 52515 XOR\n2 1 129563 129532 79465 XOR\n2 1 129558 129527 79460 XOR\n2 1 76361 129532 52516 XOR\n2 1 52515 52516 52514 AND\n2 1 52514 129532 129533 XOR\n2 1 81002 129533 52518 XOR\n2 1 76362 129533 52519 XOR\n2 1 52518 52519 52517 AND\n2 1 129564 129533 79466 XOR\n2 1 52517 129533 129534 XOR\n2 1 129565 129534 79467 XOR\n2 1 81003 129534 52521 XOR\n2 1 76363 129534 52522 XOR\n2 1 52521 52522 52520 AND\n2 1 52520 129534 129535 XOR\n2 1 129561 129530 79463 XOR\n2 1 129566 129535 79468 XOR\n2 1 81004 129535 52524 XOR\n2 1 76364 129535 52525 XOR\n2 1 52524 52525 52523 AND\n2 1 52523 129535 129536 XOR\n2 1 81005 129536 52527 XOR\n2 1 76365 129536 52528 XOR\n2 1 52527 52528 52526 AND\n2 1 52526 129536 129537 XOR\n2 1 129568 129537 79470 XOR\n2 1 81006 129537 52530 XOR\n2 1 129567 129536 79469 XOR\n2 1 76366 129537 52531 XOR\n2 1 52530 52531 52529 AND\n2 1 52529 129537 129538 XOR\n2 1 129569 129538 79471 XOR\n2 1 81007 129538 52533 XOR\n2 1 76367 129538 52534 XOR\n2 1 52533 52534 52532 AND\n2 1 52532 129538 129539 XOR\n2 1 129570 129539 79472 XOR\n2 1 94313 114889 27512 XOR\n2 1 27511 27512 27510 AND\n2 1 27510 114889 114890 XOR\n2 1 114921 114890 92301 XOR\n2 1 92301 114864 27417 XOR\n2 1 27417 27418 27416 AND\n2 1 27416 114864 27420 XOR\n1 1 92301 27449 INV\n2 1 27449 114864 90277 XOR\n2 1 1812 90277 104688 XOR\n2 1 104688 104657 2196 XOR\n2 1 90277 84133 104750 XOR\n2 1 94314 114890 27515 XOR\n2 1 96362 114890 27514 XOR\n2 1 90277 104657 11075 XOR\n2 1 63971 2196 63939 AND\n2 1 63939 2260 98378 XOR\n2 1 2196 2228 63907 XOR\n2 1 11074 11075 11073 AND\n2 1 2191 2196 61368 XOR\n2 1 61386 2196 100433 XOR\n2 1 61368 2178 100415 XOR\n2 1 100415 98367 114774 XOR\n2 1 11073 104657 104658 XOR\n2 1 1813 104658 11077 XOR\n2 1 27514 27515 27513 AND\n2 1 27513 114890 114891 XOR\n2 1 96363 114891 27517 XOR\n2 1 94315 114891 27518 XOR\n2 1 27517 27518 27516 AND\n2 1 27516 114891 114892 XOR\n2 1 114923 114892 92303 XOR\n2 1 96364 114892 27520 XOR\n2 1 94316 114892 27521 XOR\n2 1 27520 27521 27519 AND\n2 1 27519 114892 114893 XOR\n2 1 114924 114893 92304 XOR\n1 1 92304 27450 INV\n2 1 96365 114893 27523 XOR\n2 1 94317 114893 27524 XOR\n2 1 27523 27524 27522 AND\n2 1 27522 114893 114894 XOR\n2 1 96366 114894 27526 XOR\n2 1 114922 114891 92302 XOR\n2 1 92302 27420 90278 XOR\n2 1 90278 27420 27419 AND\n2 1 27419 27420 27422 XOR\n2 1 90278 104658 11078 XOR\n2 1 90278 84134 104751 XOR\n2 1 11077 11078 11076 AND\n2 1 11076 104658 104659 XOR\n2 1 1814 104659 11080 XOR\n2 1 1813 90278 104689 XOR\n2 1 104689 104658 2197 XOR\n2 1 63972 2197 63940 AND\n2 1 63940 2261 98379 XOR\n2 1 2197 2229 63908 XOR\n2 1 2192 2197 61369 XOR\n2 1 61387 2197 100434 XOR\n2 1 61369 2179 100416 XOR\n2 1 100416 98368 114775 XOR\n2 1 92303 27422 90279 XOR\n2 1 90279 104659 11081 XOR\n2 1 11080 11081 11079 AND\n2 1 11079 104659 104660 XOR\n2 1 1815 104660 11083 XOR\n2 1 90279 84135 104752 XOR\n2 1 1814 90279 104690 XOR\n",
"2 1 104690 104659 2198 XOR\n2 1 61388 2198 100435 XOR\n2 1 2198 2230 63909 XOR\n2 1 2193 2198 61370 XOR\n2 1 61370 2180 100417 XOR\n2 1 100417 98369 114776 XOR\n2 1 63973 2198 63941 AND\n2 1 63941 2262 98380 XOR\n2 1 90279 27422 27421 AND\n2 1 27421 27422 114865 XOR\n1 1 114865 27425 INV\n2 1 92304 114865 27424 XOR\n2 1 27424 27425 27423 AND\n2 1 27423 114865 27427 XOR\n2 1 27450 114865 90280 XOR\n2 1 90280 84136 104753 XOR\n2 1 90280 104660 11084 XOR\n2 1 11083 11084 11082 AND\n2 1 11082 104660 104661 XOR\n2 1 1816 104661 11086 XOR\n2 1 1815 90280 104691 XOR\n2 1 104691 104660 2199 XOR\n2 1 63974 2199 63942 AND\n2 1 63942 2263 98381 XOR\n2 1 2199 2231 63910 XOR\n2 1 2194 2199 61371 XOR\n2 1 61389 2199 100436 XOR\n2 1 61371 2181 100418 XOR\n2 1 100418 98370 114777 XOR\n2 1 76201 2328 114987 XOR\n2 1 114987 114956 94318 XOR\n2 1 94318 114894 27527 XOR\n2 1 96366 94318 114925 XOR\n2 1 27526 27527 27525 AND\n2 1 27525 114894 114895 XOR\n2 1 94319 114895 27530 XOR\n2 1 96367 114895 27529 XOR\n2 1 114926 114895 92306 XOR\n1 1 92306 27451 INV\n2 1 114925 114894 92305 XOR\n2 1 92305 27427 90281 XOR\n2 1 90281 84137 104754 XOR\n2 1 90281 104661 11087 XOR\n2 1 1816 90281 104692 XOR\n2 1 104692 104661 2200 XOR\n2 1 11086 11087 11085 AND\n2 1 11085 104661 104662 XOR\n2 1 1817 104662 11089 XOR\n2 1 63975 2200 63943 AND\n2 1 63943 2264 98382 XOR\n2 1 2200 2232 63911 XOR\n2 1 90281 27427 27426 AND\n2 1 27426 27427 114866 XOR\n2 1 27451 114866 90282 XOR\n2 1 90282 84138 104755 XOR\n2 1 92306 114866 27429 XOR\n1 1 114866 27430 INV\n2 1 27429 27430 27428 AND\n2 1 27428 114866 114867 XOR\n1 1 114867 27433 INV\n2 1 1817 90282 104693 XOR\n2 1 90282 104662 11090 XOR\n2 1 11089 11090 11088 AND\n2 1 11088 104662 104663 XOR\n2 1 1818 104663 11092 XOR\n2 1 2195 2200 61372 XOR\n2 1 61390 2200 100437 XOR\n2 1 61372 2182 100419 XOR\n2 1 100419 98371 114778 XOR\n2 1 27529 27530 27528 AND\n2 1 27528 114895 114896 XOR\n2 1 94320 114896 27533 XOR\n2 1 114927 114896 92307 XOR\n2 1 96368 114896 27532 XOR\n2 1 27532 27533 27531 AND\n2 1 27531 114896 114897 XOR\n2 1 114928 114897 92308 XOR\n1 1 92307 27452 INV\n2 1 27452 114867 90283 XOR\n2 1 90283 84139 104756 XOR\n2 1 96369 114897 27535 XOR\n2 1 94321 114897 27536 XOR\n2 1 27535 27536 27534 AND\n2 1 27534 114897 114898 XOR\n2 1 94322 114898 27539 XOR\n2 1 92307 114867 27432 XOR\n2 1 27432 27433 27431 AND\n2 1 27431 114867 27435 XOR\n2 1 92308 27435 90284 XOR\n2 1 90284 84140 104757 XOR\n2 1 90284 27435 27434 AND\n2 1 27434 27435 114868 XOR\n1 1 114868 27438 INV\n2 1 96370 114898 27538 XOR\n2 1 27538 27539 27537 AND\n2 1 27537 114898 114899 XOR\n2 1 94323 114899 27542 XOR\n2 1 96371 114899 27541 XOR\n2 1 27541 27542 27540 AND\n2 1 27540 114899 114900 XOR\n2 1 114931 114900 92311 XOR\n2 1 96372 114900 27544 XOR\n2 1 94324 114900 27545 XOR\n2 1 27544 27545 27543 AND\n2 1 27543 114900 114901 XOR\n2 1 114932 114901 92312 XOR\n2 1 114930 114899 92310 XOR\n2 1 90283 104663 11093 XOR\n2 1 11092 11093 11091 AND\n2 1 11091 104663 104664 XOR\n2 1 90284 104664 11096 XOR\n2 1 1819 104664 11095 XOR\n2 1 11095 11096 11094 AND\n2 1 11094 104664 104665 XOR\n2 1 1820 104665 11098 XOR\n2 1 1818 90283 104694 XOR\n2 1 104694 104663 2202 XOR\n2 1 63977 2202 63945 AND\n2 1 63945 2266 98384 XOR\n2 1 100432 98384 114791 XOR\n2 1 2202 2234 63913 XOR\n2 1 1819 90284 104695 XOR\n2 1 104695 104664 2203 XOR\n2 1 63978 2203 63946 AND\n2 1 63946 2267 98385 XOR\n2 1 100433 98385 114792 XOR\n2 1 2203 2235 63914 XOR\n2 1 2203 2176 61380 XOR\n",
"2 1 2198 2203 61375 XOR\n2 1 2197 2202 61374 XOR\n2 1 61380 2190 100427 XOR\n2 1 100427 98379 114786 XOR\n2 1 61375 2185 100422 XOR\n2 1 100422 98374 114781 XOR\n2 1 61374 2184 100421 XOR\n2 1 100421 98373 114780 XOR\n2 1 61361 2203 100408 XOR\n2 1 100408 98360 114767 XOR\n2 1 61360 2202 100407 XOR\n2 1 100407 98359 114766 XOR\n1 1 92311 27454 INV\n1 1 92312 27455 INV\n2 1 114929 114898 92309 XOR\n1 1 92309 27453 INV\n2 1 92309 114868 27437 XOR\n2 1 27437 27438 27436 AND\n2 1 27453 114868 90285 XOR\n2 1 90285 84141 104758 XOR\n2 1 27436 114868 27440 XOR\n2 1 90285 104665 11099 XOR\n2 1 11098 11099 11097 AND\n2 1 11097 104665 104666 XOR\n2 1 1820 90285 104696 XOR\n2 1 104696 104665 2204 XOR\n2 1 63979 2204 63947 AND\n2 1 63947 2268 98386 XOR\n2 1 100434 98386 114793 XOR\n2 1 2204 2236 63915 XOR\n2 1 2204 2177 61381 XOR\n2 1 2199 2204 61376 XOR\n2 1 61381 2191 100428 XOR\n2 1 100428 98380 114787 XOR\n2 1 61376 2186 100423 XOR\n2 1 61362 2204 100409 XOR\n2 1 100409 98361 114768 XOR\n2 1 100423 98375 114782 XOR\n2 1 92310 27440 90286 XOR\n2 1 90286 27440 27439 AND\n2 1 90286 104666 11102 XOR\n2 1 90286 84142 104759 XOR\n2 1 1821 90286 104697 XOR\n2 1 104697 104666 2205 XOR\n2 1 63980 2205 63948 AND\n2 1 63948 2269 98387 XOR\n2 1 2205 2237 63916 XOR\n2 1 2205 2178 61382 XOR\n2 1 2200 2205 61377 XOR\n2 1 61382 2192 100429 XOR\n2 1 100429 98381 114788 XOR\n2 1 61377 2187 100424 XOR\n2 1 100424 98376 114783 XOR\n2 1 61363 2205 100410 XOR\n2 1 100410 98362 114769 XOR\n2 1 100435 98387 114794 XOR\n2 1 27439 27440 114869 XOR\n2 1 27454 114869 90287 XOR\n2 1 92311 114869 27442 XOR\n1 1 114869 27443 INV\n2 1 27442 27443 27441 AND\n2 1 27441 114869 114870 XOR\n2 1 27455 114870 90288 XOR\n2 1 90288 84144 104761 XOR\n2 1 90287 84143 104760 XOR\n2 1 1823 90288 104699 XOR\n2 1 1822 90287 104698 XOR\n2 1 1821 104666 11101 XOR\n2 1 11101 11102 11100 AND\n2 1 11100 104666 104667 XOR\n2 1 104698 104667 2206 XOR\n2 1 1822 104667 11104 XOR\n2 1 90287 104667 11105 XOR\n2 1 11104 11105 11103 AND\n2 1 11103 104667 104668 XOR\n2 1 63981 2206 63949 AND\n2 1 63949 2270 98388 XOR\n2 1 2206 2238 63917 XOR\n2 1 104699 104668 2207 XOR\n2 1 63982 2207 63950 AND\n2 1 63950 2271 98389 XOR\n2 1 2207 2239 63918 XOR\n2 1 2207 2180 61384 XOR\n2 1 2206 2179 61383 XOR\n2 1 2202 2207 61379 XOR\n2 1 61384 2194 100431 XOR\n2 1 61383 2193 100430 XOR\n2 1 100430 98382 114789 XOR\n2 1 61379 2189 100426 XOR\n2 1 100426 98378 114785 XOR\n2 1 61365 2207 100412 XOR\n2 1 100412 98364 114771 XOR\n2 1 61364 2206 100411 XOR\n2 1 100411 98363 114770 XOR\n2 1 100437 98389 114796 XOR\n2 1 100436 98388 114795 XOR\n2 1 104693 104662 2201 XOR\n2 1 63976 2201 63944 AND\n2 1 63944 2265 98383 XOR\n2 1 100431 98383 114790 XOR\n2 1 2201 2233 63912 XOR\n2 1 2201 2206 61378 XOR\n2 1 2196 2201 61373 XOR\n2 1 61378 2188 100425 XOR\n2 1 100425 98377 114784 XOR\n2 1 61373 2183 100420 XOR\n2 1 100420 98372 114779 XOR\n2 1 61359 2201 100406 XOR\n2 1 100406 98358 96310 XOR\n2 1 100406 98358 114735 AND\n2 1 100407 114735 27199 XOR\n2 1 98359 114735 27200 XOR\n2 1 27199 27200 27198 AND\n2 1 27198 114735 114736 XOR\n2 1 100408 114736 27202 XOR\n2 1 98360 114736 27203 XOR\n2 1 27202 27203 27201 AND\n2 1 27201 114736 114737 XOR\n2 1 114768 114737 96313 XOR\n2 1 98361 114737 27206 XOR\n2 1 100409 114737 27205 XOR\n2 1 27205 27206 27204 AND\n2 1 27204 114737 114738 XOR\n2 1 114769 114738 96314 XOR\n2 1 98362 114738 27209 XOR\n2 1 100410 114738 27208 XOR\n2 1 27208 27209 27207 AND\n2 1 27207 114738 114739 XOR\n",
"2 1 100411 114739 27211 XOR\n2 1 114770 114739 96315 XOR\n2 1 114767 114736 96312 XOR\n2 1 98363 114739 27212 XOR\n2 1 27211 27212 27210 AND\n2 1 27210 114739 114740 XOR\n2 1 100412 114740 27214 XOR\n2 1 98364 114740 27215 XOR\n2 1 27214 27215 27213 AND\n2 1 27213 114740 114741 XOR\n2 1 98365 114741 27218 XOR\n2 1 114772 114741 96317 XOR\n2 1 100413 114741 27217 XOR\n2 1 27217 27218 27216 AND\n2 1 27216 114741 114742 XOR\n2 1 114773 114742 96318 XOR\n2 1 114771 114740 96316 XOR\n2 1 98366 114742 27221 XOR\n2 1 100414 114742 27220 XOR\n2 1 27220 27221 27219 AND\n2 1 27219 114742 114743 XOR\n2 1 100415 114743 27223 XOR\n2 1 98367 114743 27224 XOR\n2 1 27223 27224 27222 AND\n2 1 27222 114743 114744 XOR\n2 1 100416 114744 27226 XOR\n2 1 98368 114744 27227 XOR\n2 1 27226 27227 27225 AND\n2 1 27225 114744 114745 XOR\n2 1 114776 114745 96321 XOR\n2 1 98369 114745 27230 XOR\n2 1 100417 114745 27229 XOR\n2 1 27229 27230 27228 AND\n2 1 27228 114745 114746 XOR\n2 1 114777 114746 96322 XOR\n2 1 98370 114746 27233 XOR\n2 1 100418 114746 27232 XOR\n2 1 27232 27233 27231 AND\n2 1 27231 114746 114747 XOR\n2 1 100419 114747 27235 XOR\n2 1 114778 114747 96323 XOR\n2 1 114775 114744 96320 XOR\n2 1 98371 114747 27236 XOR\n2 1 27235 27236 27234 AND\n2 1 27234 114747 114748 XOR\n2 1 100420 114748 27238 XOR\n2 1 98372 114748 27239 XOR\n2 1 27238 27239 27237 AND\n2 1 27237 114748 114749 XOR\n2 1 98373 114749 27242 XOR\n2 1 114780 114749 96325 XOR\n2 1 100421 114749 27241 XOR\n2 1 27241 27242 27240 AND\n2 1 27240 114749 114750 XOR\n2 1 114781 114750 96326 XOR\n2 1 114766 114735 96311 XOR\n2 1 114779 114748 96324 XOR\n2 1 98374 114750 27245 XOR\n2 1 100422 114750 27244 XOR\n2 1 27244 27245 27243 AND\n2 1 27243 114750 114751 XOR\n2 1 100423 114751 27247 XOR\n2 1 98375 114751 27248 XOR\n2 1 27247 27248 27246 AND\n2 1 114782 114751 96327 XOR\n2 1 114774 114743 96319 XOR\n2 1 27246 114751 114752 XOR\n2 1 100424 114752 27250 XOR\n2 1 98376 114752 27251 XOR\n2 1 27250 27251 27249 AND\n2 1 114783 114752 96328 XOR\n2 1 27249 114752 114753 XOR\n2 1 114784 114753 96329 XOR\n2 1 100425 114753 27253 XOR\n2 1 98377 114753 27254 XOR\n2 1 27253 27254 27252 AND\n2 1 27252 114753 114754 XOR\n2 1 114785 114754 96330 XOR\n2 1 100426 114754 27256 XOR\n2 1 98378 114754 27257 XOR\n2 1 27256 27257 27255 AND\n2 1 27255 114754 114755 XOR\n2 1 100427 114755 27259 XOR\n2 1 98379 114755 27260 XOR\n2 1 114786 114755 96331 XOR\n2 1 27259 27260 27258 AND\n2 1 27258 114755 114756 XOR\n2 1 100428 114756 27262 XOR\n2 1 98380 114756 27263 XOR\n2 1 27262 27263 27261 AND\n2 1 114787 114756 96332 XOR\n2 1 27261 114756 114757 XOR\n2 1 100429 114757 27265 XOR\n2 1 114788 114757 96333 XOR\n2 1 98381 114757 27266 XOR\n2 1 27265 27266 27264 AND\n2 1 27264 114757 114758 XOR\n2 1 114789 114758 96334 XOR\n2 1 98382 114758 27269 XOR\n2 1 100430 114758 27268 XOR\n2 1 27268 27269 27267 AND\n2 1 27267 114758 114759 XOR\n2 1 100431 114759 27271 XOR\n2 1 98383 114759 27272 XOR\n2 1 27271 27272 27270 AND\n2 1 114790 114759 96335 XOR\n2 1 27270 114759 114760 XOR\n2 1 100432 114760 27274 XOR\n2 1 98384 114760 27275 XOR\n2 1 27274 27275 27273 AND\n2 1 27273 114760 114761 XOR\n2 1 114792 114761 96337 XOR\n2 1 100433 114761 27277 XOR\n2 1 98385 114761 27278 XOR\n2 1 27277 27278 27276 AND\n2 1 27276 114761 114762 XOR\n2 1 114793 114762 96338 XOR\n2 1 100434 114762 27280 XOR\n2 1 98386 114762 27281 XOR\n2 1 27280 27281 27279 AND\n2 1 27279 114762 114763 XOR\n2 1 100435 114763 27283 XOR\n2 1 98387 114763 27284 XOR\n2 1 114794 114763 96339 XOR\n2 1 27283 27284 27282 AND\n2 1 27282 114763 114764 XOR\n2 1 98388 114764 27287 XOR\n2 1 100436 114764 27286 XOR\n",
"2 1 27286 27287 27285 AND\n2 1 114791 114760 96336 XOR\n2 1 114795 114764 96340 XOR\n2 1 27285 114764 114765 XOR\n2 1 114796 114765 96341 XOR\n2 1 84121 104707 11129 XOR\n2 1 11128 11129 11127 AND\n2 1 11127 104707 104708 XOR\n2 1 104739 104708 1673 XOR\n2 1 1673 1737 70456 XOR\n2 1 70456 70424 70392 AND\n2 1 70392 1737 86138 XOR\n2 1 1673 1705 70328 XOR\n2 1 84122 104708 11132 XOR\n2 1 90266 104708 11131 XOR\n2 1 11131 11132 11130 AND\n2 1 11130 104708 104709 XOR\n2 1 90267 104709 11134 XOR\n2 1 104740 104709 1674 XOR\n2 1 1674 1738 70457 XOR\n2 1 70457 70425 70393 AND\n2 1 70393 1738 86139 XOR\n2 1 1674 1706 70329 XOR\n2 1 84123 104709 11135 XOR\n2 1 11134 11135 11133 AND\n2 1 11133 104709 104710 XOR\n2 1 90268 104710 11137 XOR\n2 1 84124 104710 11138 XOR\n2 1 11137 11138 11136 AND\n2 1 11136 104710 104711 XOR\n2 1 84125 104711 11141 XOR\n2 1 104742 104711 1676 XOR\n2 1 1676 1740 70459 XOR\n2 1 70459 70427 70395 AND\n2 1 70395 1740 86141 XOR\n2 1 1676 1708 70331 XOR\n2 1 90269 104711 11140 XOR\n2 1 11140 11141 11139 AND\n2 1 11139 104711 104712 XOR\n2 1 84126 104712 11144 XOR\n2 1 90270 104712 11143 XOR\n2 1 104743 104712 1677 XOR\n2 1 1677 1741 70460 XOR\n2 1 70460 70428 70396 AND\n2 1 70396 1741 86142 XOR\n2 1 1677 1709 70332 XOR\n2 1 1665 1676 67310 XOR\n2 1 1666 1677 67279 XOR\n2 1 104741 104710 1675 XOR\n2 1 1675 1739 70458 XOR\n2 1 70458 70426 70394 AND\n2 1 70394 1739 86140 XOR\n2 1 1675 1707 70330 XOR\n2 1 1664 1675 67309 XOR\n2 1 11143 11144 11142 AND\n2 1 11142 104712 104713 XOR\n2 1 104744 104713 1678 XOR\n2 1 84127 104713 11147 XOR\n2 1 90271 104713 11146 XOR\n2 1 11146 11147 11145 AND\n2 1 11145 104713 104714 XOR\n2 1 90272 104714 11149 XOR\n2 1 84128 104714 11150 XOR\n2 1 11149 11150 11148 AND\n2 1 104745 104714 1679 XOR\n2 1 1679 1743 70462 XOR\n2 1 1678 1742 70461 XOR\n2 1 70462 70430 70398 AND\n2 1 70461 70429 70397 AND\n2 1 70398 1743 86144 XOR\n2 1 70397 1742 86143 XOR\n2 1 1679 1711 70334 XOR\n2 1 1678 1710 70333 XOR\n2 1 1668 1679 67281 XOR\n2 1 1667 1678 67280 XOR\n2 1 11148 104714 104715 XOR\n2 1 104746 104715 1680 XOR\n2 1 1680 1744 70463 XOR\n2 1 70463 70431 70399 AND\n2 1 70399 1744 86145 XOR\n2 1 1680 1712 70335 XOR\n2 1 1669 1680 67282 XOR\n2 1 84129 104715 11153 XOR\n2 1 90273 104715 11152 XOR\n2 1 11152 11153 11151 AND\n2 1 11151 104715 104716 XOR\n2 1 84130 104716 11156 XOR\n2 1 104747 104716 1681 XOR\n2 1 1681 1745 70464 XOR\n2 1 70464 70432 70400 AND\n2 1 70400 1745 86146 XOR\n2 1 1681 1713 70336 XOR\n2 1 1670 1681 67283 XOR\n2 1 90274 104716 11155 XOR\n2 1 11155 11156 11154 AND\n2 1 11154 104716 104717 XOR\n2 1 90275 104717 11158 XOR\n2 1 84131 104717 11159 XOR\n2 1 11158 11159 11157 AND\n2 1 104748 104717 1682 XOR\n2 1 1682 1746 70465 XOR\n2 1 70465 70433 70401 AND\n2 1 70401 1746 86147 XOR\n2 1 1682 1714 70337 XOR\n2 1 1671 1682 67284 XOR\n2 1 11157 104717 104718 XOR\n2 1 104749 104718 1683 XOR\n2 1 84132 104718 11162 XOR\n2 1 1683 1747 70466 XOR\n2 1 70466 70434 70402 AND\n2 1 70402 1747 86148 XOR\n2 1 1683 1715 70338 XOR\n2 1 90276 104718 11161 XOR\n2 1 11161 11162 11160 AND\n2 1 11160 104718 104719 XOR\n2 1 84133 104719 11165 XOR\n2 1 90277 104719 11164 XOR\n2 1 11164 11165 11163 AND\n2 1 11163 104719 104720 XOR\n2 1 104751 104720 1685 XOR\n2 1 90278 104720 11167 XOR\n2 1 84134 104720 11168 XOR\n2 1 11167 11168 11166 AND\n2 1 11166 104720 104721 XOR\n2 1 104752 104721 1686 XOR\n2 1 84135 104721 11171 XOR\n2 1 1686 1750 70469 XOR\n2 1 1685 1749 70468 XOR\n",
"2 1 70469 70437 70405 AND\n2 1 70468 70436 70404 AND\n2 1 90279 104721 11170 XOR\n2 1 11170 11171 11169 AND\n2 1 11169 104721 104722 XOR\n2 1 104750 104719 1684 XOR\n2 1 1684 1748 70467 XOR\n2 1 70467 70435 70403 AND\n2 1 70405 1750 86151 XOR\n2 1 70404 1749 86150 XOR\n2 1 70403 1748 86149 XOR\n2 1 1686 1718 70341 XOR\n2 1 1685 1717 70340 XOR\n2 1 1684 1716 70339 XOR\n2 1 1686 1665 67299 XOR\n2 1 1685 1664 67298 XOR\n2 1 1675 1686 67288 XOR\n2 1 1674 1685 67287 XOR\n2 1 1673 1684 67286 XOR\n2 1 1672 1683 67285 XOR\n2 1 67310 1685 88208 XOR\n2 1 67309 1684 88207 XOR\n2 1 67299 1674 88197 XOR\n2 1 67298 1673 88196 XOR\n2 1 67279 1686 88177 XOR\n2 1 104753 104722 1687 XOR\n2 1 1687 1751 70470 XOR\n2 1 70470 70438 70406 AND\n2 1 70406 1751 86152 XOR\n2 1 1687 1719 70342 XOR\n2 1 1687 1666 67300 XOR\n2 1 1676 1687 67289 XOR\n2 1 67300 1675 88198 XOR\n2 1 67289 1664 88187 XOR\n2 1 67280 1687 88178 XOR\n2 1 90280 104722 11173 XOR\n2 1 84136 104722 11174 XOR\n2 1 11173 11174 11172 AND\n2 1 11172 104722 104723 XOR\n2 1 90281 104723 11176 XOR\n2 1 84137 104723 11177 XOR\n2 1 11176 11177 11175 AND\n2 1 11175 104723 104724 XOR\n2 1 84138 104724 11180 XOR\n2 1 90282 104724 11179 XOR\n2 1 11179 11180 11178 AND\n2 1 11178 104724 104725 XOR\n2 1 90283 104725 11182 XOR\n2 1 104756 104725 1690 XOR\n2 1 1690 1754 70473 XOR\n2 1 70473 70441 70409 AND\n2 1 70409 1754 86155 XOR\n2 1 1690 1722 70345 XOR\n2 1 1690 1669 67303 XOR\n2 1 1679 1690 67292 XOR\n2 1 67303 1678 88201 XOR\n2 1 67292 1667 88190 XOR\n2 1 67283 1690 88181 XOR\n2 1 88177 86129 114535 AND\n2 1 88177 86129 84081 XOR\n2 1 88178 86130 114566 XOR\n2 1 88181 86133 114569 XOR\n2 1 88187 86139 114575 XOR\n2 1 88190 86142 114578 XOR\n2 1 88196 86148 114584 XOR\n2 1 88197 86149 114585 XOR\n2 1 88198 86150 114586 XOR\n2 1 114566 114535 84082 XOR\n2 1 88178 114535 26843 XOR\n2 1 86130 114535 26844 XOR\n2 1 26843 26844 26842 AND\n2 1 26842 114535 114536 XOR\n2 1 86131 114536 26847 XOR\n2 1 84139 104725 11183 XOR\n2 1 11182 11183 11181 AND\n2 1 11181 104725 104726 XOR\n2 1 104757 104726 1691 XOR\n2 1 90284 104726 11185 XOR\n2 1 84140 104726 11186 XOR\n2 1 1691 1755 70474 XOR\n2 1 11185 11186 11184 AND\n2 1 11184 104726 104727 XOR\n2 1 70474 70442 70410 AND\n2 1 70410 1755 86156 XOR\n2 1 1691 1723 70346 XOR\n2 1 1691 1670 67304 XOR\n2 1 1680 1691 67293 XOR\n2 1 67304 1679 88202 XOR\n2 1 67293 1668 88191 XOR\n2 1 67284 1691 88182 XOR\n2 1 90285 104727 11188 XOR\n2 1 104758 104727 1692 XOR\n2 1 1692 1756 70475 XOR\n2 1 70475 70443 70411 AND\n2 1 70411 1756 86157 XOR\n2 1 1692 1724 70347 XOR\n2 1 1692 1671 67305 XOR\n2 1 1681 1692 67294 XOR\n2 1 67305 1680 88203 XOR\n2 1 67294 1669 88192 XOR\n2 1 67285 1692 88183 XOR\n2 1 84141 104727 11189 XOR\n2 1 11188 11189 11187 AND\n2 1 11187 104727 104728 XOR\n2 1 90286 104728 11191 XOR\n2 1 104759 104728 1693 XOR\n2 1 84142 104728 11192 XOR\n2 1 1693 1757 70476 XOR\n2 1 70476 70444 70412 AND\n2 1 70412 1757 86158 XOR\n2 1 1693 1725 70348 XOR\n2 1 1693 1672 67306 XOR\n2 1 1682 1693 67295 XOR\n2 1 67306 1681 88204 XOR\n2 1 67295 1670 88193 XOR\n2 1 67286 1693 88184 XOR\n2 1 88182 86134 114570 XOR\n2 1 88183 86135 114571 XOR\n2 1 88184 86136 114572 XOR\n2 1 88191 86143 114579 XOR\n2 1 88192 86144 114580 XOR\n2 1 88193 86145 114581 XOR\n2 1 88203 86155 114591 XOR\n2 1 88204 86156 114592 XOR\n2 1 104754 104723 1688 XOR\n2 1 1688 1752 70471 XOR\n2 1 70471 70439 70407 AND\n2 1 70407 1752 86153 XOR\n",
"2 1 1688 1720 70343 XOR\n2 1 1688 1667 67301 XOR\n2 1 1677 1688 67290 XOR\n2 1 67301 1676 88199 XOR\n2 1 67290 1665 88188 XOR\n2 1 67281 1688 88179 XOR\n2 1 88179 86131 114567 XOR\n2 1 88188 86140 114576 XOR\n2 1 88199 86151 114587 XOR\n2 1 88201 86153 114589 XOR\n2 1 114567 114536 84083 XOR\n2 1 88179 114536 26846 XOR\n2 1 26846 26847 26845 AND\n2 1 26845 114536 114537 XOR\n2 1 86132 114537 26850 XOR\n2 1 104755 104724 1689 XOR\n2 1 1689 1753 70472 XOR\n2 1 70472 70440 70408 AND\n2 1 70408 1753 86154 XOR\n2 1 1689 1721 70344 XOR\n2 1 1689 1668 67302 XOR\n2 1 1678 1689 67291 XOR\n2 1 67302 1677 88200 XOR\n2 1 67291 1666 88189 XOR\n2 1 67282 1689 88180 XOR\n2 1 88180 86132 114568 XOR\n2 1 88189 86141 114577 XOR\n2 1 88200 86152 114588 XOR\n2 1 88202 86154 114590 XOR\n2 1 114568 114537 84084 XOR\n2 1 88180 114537 26849 XOR\n2 1 26849 26850 26848 AND\n2 1 26848 114537 114538 XOR\n2 1 114569 114538 84085 XOR\n2 1 88181 114538 26852 XOR\n2 1 86133 114538 26853 XOR\n2 1 26852 26853 26851 AND\n2 1 26851 114538 114539 XOR\n2 1 114570 114539 84086 XOR\n2 1 88182 114539 26855 XOR\n2 1 86134 114539 26856 XOR\n2 1 26855 26856 26854 AND\n2 1 26854 114539 114540 XOR\n2 1 114571 114540 84087 XOR\n2 1 88183 114540 26858 XOR\n2 1 86135 114540 26859 XOR\n2 1 26858 26859 26857 AND\n2 1 26857 114540 114541 XOR\n2 1 114572 114541 84088 XOR\n2 1 88184 114541 26861 XOR\n2 1 86136 114541 26862 XOR\n2 1 26861 26862 26860 AND\n2 1 26860 114541 114542 XOR\n2 1 86137 114542 26865 XOR\n2 1 11191 11192 11190 AND\n2 1 11190 104728 104729 XOR\n2 1 104760 104729 1694 XOR\n2 1 1694 1758 70477 XOR\n2 1 70477 70445 70413 AND\n2 1 70413 1758 86159 XOR\n2 1 1694 1726 70349 XOR\n2 1 1694 1673 67307 XOR\n2 1 1683 1694 67296 XOR\n2 1 67307 1682 88205 XOR\n2 1 67296 1671 88194 XOR\n2 1 67287 1694 88185 XOR\n2 1 90287 104729 11194 XOR\n2 1 84143 104729 11195 XOR\n2 1 11194 11195 11193 AND\n2 1 11193 104729 104730 XOR\n2 1 88185 86137 114573 XOR\n2 1 88194 86146 114582 XOR\n2 1 88205 86157 114593 XOR\n2 1 88207 86159 114595 XOR\n2 1 114573 114542 84089 XOR\n2 1 88185 114542 26864 XOR\n2 1 26864 26865 26863 AND\n2 1 26863 114542 114543 XOR\n2 1 86138 114543 26868 XOR\n2 1 104761 104730 1695 XOR\n2 1 1695 1759 70478 XOR\n2 1 70478 70446 70414 AND\n2 1 70414 1759 86160 XOR\n2 1 1695 1727 70350 XOR\n2 1 1695 1674 67308 XOR\n2 1 1684 1695 67297 XOR\n2 1 67308 1683 88206 XOR\n2 1 67297 1672 88195 XOR\n2 1 67288 1695 88186 XOR\n2 1 88186 86138 114574 XOR\n2 1 88195 86147 114583 XOR\n2 1 88206 86158 114594 XOR\n2 1 88208 86160 114596 XOR\n2 1 114574 114543 84090 XOR\n2 1 88186 114543 26867 XOR\n2 1 26867 26868 26866 AND\n2 1 26866 114543 114544 XOR\n2 1 114575 114544 84091 XOR\n2 1 88187 114544 26870 XOR\n2 1 86139 114544 26871 XOR\n2 1 26870 26871 26869 AND\n2 1 26869 114544 114545 XOR\n2 1 114576 114545 84092 XOR\n2 1 88188 114545 26873 XOR\n2 1 86140 114545 26874 XOR\n2 1 26873 26874 26872 AND\n2 1 26872 114545 114546 XOR\n2 1 114577 114546 84093 XOR\n2 1 88189 114546 26876 XOR\n2 1 86141 114546 26877 XOR\n2 1 26876 26877 26875 AND\n2 1 26875 114546 114547 XOR\n2 1 114578 114547 84094 XOR\n2 1 88190 114547 26879 XOR\n2 1 86142 114547 26880 XOR\n2 1 26879 26880 26878 AND\n2 1 26878 114547 114548 XOR\n2 1 114579 114548 84095 XOR\n2 1 88191 114548 26882 XOR\n2 1 86143 114548 26883 XOR\n2 1 26882 26883 26881 AND\n2 1 26881 114548 114549 XOR\n2 1 114580 114549 84096 XOR\n2 1 88192 114549 26885 XOR\n2 1 86144 114549 26886 XOR\n2 1 26885 26886 26884 AND\n2 1 26884 114549 114550 XOR\n2 1 114581 114550 84097 XOR\n",
"2 1 88193 114550 26888 XOR\n2 1 86145 114550 26889 XOR\n2 1 26888 26889 26887 AND\n2 1 26887 114550 114551 XOR\n2 1 86146 114551 26892 XOR\n2 1 114582 114551 84098 XOR\n2 1 88194 114551 26891 XOR\n2 1 26891 26892 26890 AND\n2 1 26890 114551 114552 XOR\n2 1 88195 114552 26894 XOR\n2 1 114583 114552 84099 XOR\n2 1 86147 114552 26895 XOR\n2 1 26894 26895 26893 AND\n2 1 26893 114552 114553 XOR\n2 1 86148 114553 26898 XOR\n2 1 114584 114553 84100 XOR\n2 1 88196 114553 26897 XOR\n2 1 26897 26898 26896 AND\n2 1 26896 114553 114554 XOR\n2 1 88197 114554 26900 XOR\n2 1 114585 114554 84101 XOR\n2 1 86149 114554 26901 XOR\n2 1 26900 26901 26899 AND\n2 1 26899 114554 114555 XOR\n2 1 86150 114555 26904 XOR\n2 1 114586 114555 84102 XOR\n2 1 88198 114555 26903 XOR\n2 1 26903 26904 26902 AND\n2 1 26902 114555 114556 XOR\n2 1 88199 114556 26906 XOR\n2 1 114587 114556 84103 XOR\n2 1 86151 114556 26907 XOR\n2 1 26906 26907 26905 AND\n2 1 26905 114556 114557 XOR\n2 1 114588 114557 84104 XOR\n2 1 86152 114557 26910 XOR\n2 1 88200 114557 26909 XOR\n2 1 26909 26910 26908 AND\n2 1 26908 114557 114558 XOR\n2 1 88201 114558 26912 XOR\n2 1 114589 114558 84105 XOR\n2 1 86153 114558 26913 XOR\n2 1 26912 26913 26911 AND\n2 1 26911 114558 114559 XOR\n2 1 114590 114559 84106 XOR\n2 1 86154 114559 26916 XOR\n2 1 88202 114559 26915 XOR\n2 1 26915 26916 26914 AND\n2 1 26914 114559 114560 XOR\n2 1 88203 114560 26918 XOR\n2 1 114591 114560 84107 XOR\n2 1 86155 114560 26919 XOR\n2 1 26918 26919 26917 AND\n2 1 26917 114560 114561 XOR\n2 1 114592 114561 84108 XOR\n2 1 86156 114561 26922 XOR\n2 1 88204 114561 26921 XOR\n2 1 26921 26922 26920 AND\n2 1 26920 114561 114562 XOR\n2 1 88205 114562 26924 XOR\n2 1 114593 114562 84109 XOR\n2 1 86157 114562 26925 XOR\n2 1 26924 26925 26923 AND\n2 1 26923 114562 114563 XOR\n2 1 114594 114563 84110 XOR\n2 1 86158 114563 26928 XOR\n2 1 88206 114563 26927 XOR\n2 1 26927 26928 26926 AND\n2 1 26926 114563 114564 XOR\n2 1 86159 114564 26931 XOR\n2 1 88207 114564 26930 XOR\n2 1 26930 26931 26929 AND\n2 1 26929 114564 114565 XOR\n2 1 114596 114565 84112 XOR\n2 1 114595 114564 84111 XOR\n2 1 76631 76642 82576 XOR\n2 1 82576 76688 129694 XOR\n2 1 76630 76641 82575 XOR\n2 1 82575 76687 129693 XOR\n2 1 76629 76640 82574 XOR\n2 1 82574 76686 129692 XOR\n2 1 76628 76639 5270 XOR\n2 1 76627 76638 5269 XOR\n2 1 76626 76637 5268 XOR\n2 1 76625 76636 5267 XOR\n2 1 76656 76635 5266 XOR\n2 1 76655 76634 5265 XOR\n2 1 76654 76633 5264 XOR\n2 1 76653 76632 5263 XOR\n2 1 76652 76631 5262 XOR\n2 1 76651 76630 5261 XOR\n2 1 76650 76629 5260 XOR\n2 1 76649 76628 5259 XOR\n2 1 76648 76627 5258 XOR\n2 1 76647 76626 5257 XOR\n2 1 76646 76625 5256 XOR\n2 1 76645 76656 5255 XOR\n2 1 76644 76655 5254 XOR\n2 1 76643 76654 5253 XOR\n2 1 76642 76653 5252 XOR\n2 1 76641 76652 5251 XOR\n2 1 76640 76651 5250 XOR\n2 1 76639 76650 5249 XOR\n2 1 76638 76649 5248 XOR\n2 1 76637 76648 5247 XOR\n2 1 76636 76647 5246 XOR\n2 1 76635 76646 5245 XOR\n2 1 76634 76645 5244 XOR\n2 1 76633 76644 5243 XOR\n2 1 76632 76643 5242 XOR\n2 1 5270 76656 82573 XOR\n2 1 82573 76685 129691 XOR\n2 1 5269 76655 82572 XOR\n2 1 82572 76684 129690 XOR\n2 1 5268 76654 82571 XOR\n2 1 82571 76683 129689 XOR\n2 1 5267 76653 82570 XOR\n2 1 82570 76682 129688 XOR\n2 1 5266 76652 82569 XOR\n2 1 82569 76681 129687 XOR\n2 1 5265 76651 82568 XOR\n2 1 82568 76680 129686 XOR\n2 1 5264 76650 82567 XOR\n2 1 82567 76679 129685 XOR\n2 1 5263 76649 82566 XOR\n2 1 82566 76678 129684 XOR\n2 1 5262 76648 82565 XOR\n2 1 82565 76677 129683 XOR\n",
"2 1 5261 76647 82564 XOR\n2 1 82564 76676 129682 XOR\n2 1 5260 76646 82563 XOR\n2 1 82563 76675 129681 XOR\n2 1 5259 76645 82562 XOR\n2 1 82562 76674 129680 XOR\n2 1 5258 76644 82561 XOR\n2 1 82561 76673 129679 XOR\n2 1 5257 76643 82560 XOR\n2 1 82560 76672 129678 XOR\n2 1 5256 76642 82559 XOR\n2 1 82559 76671 129677 XOR\n2 1 5255 76641 82558 XOR\n2 1 82558 76670 129676 XOR\n2 1 5254 76640 82557 XOR\n2 1 82557 76669 129675 XOR\n2 1 5253 76639 82556 XOR\n2 1 82556 76668 129674 XOR\n2 1 5252 76638 82555 XOR\n2 1 82555 76667 129673 XOR\n2 1 5251 76637 82554 XOR\n2 1 82554 76666 129672 XOR\n2 1 5250 76636 82553 XOR\n2 1 82553 76665 129671 XOR\n2 1 5249 76635 82552 XOR\n2 1 82552 76664 129670 XOR\n2 1 5248 76634 82551 XOR\n2 1 82551 76663 129669 XOR\n2 1 5247 76633 82550 XOR\n2 1 82550 76662 129668 XOR\n2 1 5246 76632 82549 XOR\n2 1 82549 76661 129667 XOR\n2 1 5245 76631 82548 XOR\n2 1 82548 76660 129666 XOR\n2 1 5244 76630 82547 XOR\n2 1 82547 76659 129665 XOR\n2 1 5243 76629 82546 XOR\n2 1 82546 76658 129664 XOR\n2 1 5242 76628 82545 XOR\n2 1 82545 76657 77937 XOR\n2 1 79473 77937 76145 XOR\n2 1 76145 2272 114673 AND\n2 1 76145 2272 94262 XOR\n2 1 96310 94262 114611 AND\n2 1 2273 114673 27110 XOR\n2 1 79473 77937 129571 AND\n2 1 82545 76657 129633 AND\n2 1 82546 129633 52626 XOR\n2 1 129664 129633 77938 XOR\n2 1 77938 129571 52537 XOR\n2 1 79474 77938 129602 XOR\n2 1 129602 129571 76146 XOR\n2 1 76146 2273 114704 XOR\n2 1 114704 114673 94263 XOR\n2 1 96311 94263 114642 XOR\n2 1 76146 114673 27109 XOR\n2 1 27109 27110 27108 AND\n2 1 27108 114673 114674 XOR\n2 1 2274 114674 27113 XOR\n2 1 76658 129633 52627 XOR\n2 1 52626 52627 52625 AND\n2 1 52625 129633 129634 XOR\n2 1 129665 129634 77939 XOR\n2 1 79475 77939 129603 XOR\n2 1 76659 129634 52630 XOR\n2 1 82547 129634 52629 XOR\n2 1 52629 52630 52628 AND\n2 1 52628 129634 129635 XOR\n2 1 82548 129635 52632 XOR\n2 1 129666 129635 77940 XOR\n2 1 79476 77940 129604 XOR\n2 1 76660 129635 52633 XOR\n2 1 52632 52633 52631 AND\n2 1 52631 129635 129636 XOR\n2 1 76661 129636 52636 XOR\n2 1 129667 129636 77941 XOR\n2 1 79477 77941 129605 XOR\n2 1 82549 129636 52635 XOR\n2 1 52635 52636 52634 AND\n2 1 52634 129636 129637 XOR\n2 1 82550 129637 52638 XOR\n2 1 129668 129637 77942 XOR\n2 1 76662 129637 52639 XOR\n2 1 52638 52639 52637 AND\n2 1 52637 129637 129638 XOR\n2 1 76663 129638 52642 XOR\n2 1 129669 129638 77943 XOR\n2 1 82551 129638 52641 XOR\n2 1 52641 52642 52640 AND\n2 1 52640 129638 129639 XOR\n2 1 76664 129639 52645 XOR\n2 1 129670 129639 77944 XOR\n2 1 82552 129639 52644 XOR\n2 1 79478 77942 129606 XOR\n2 1 79479 77943 129607 XOR\n2 1 52644 52645 52643 AND\n2 1 52643 129639 129640 XOR\n2 1 76665 129640 52648 XOR\n2 1 129671 129640 77945 XOR\n2 1 82553 129640 52647 XOR\n2 1 52647 52648 52646 AND\n2 1 52646 129640 129641 XOR\n2 1 129672 129641 77946 XOR\n2 1 82554 129641 52650 XOR\n2 1 79482 77946 129610 XOR\n2 1 76666 129641 52651 XOR\n2 1 52650 52651 52649 AND\n2 1 52649 129641 129642 XOR\n2 1 82555 129642 52653 XOR\n2 1 129673 129642 77947 XOR\n2 1 76667 129642 52654 XOR\n2 1 79483 77947 129611 XOR\n2 1 52653 52654 52652 AND\n2 1 52652 129642 129643 XOR\n2 1 76668 129643 52657 XOR\n2 1 82556 129643 52656 XOR\n2 1 52656 52657 52655 AND\n2 1 52655 129643 129644 XOR\n2 1 129675 129644 77949 XOR\n2 1 82557 129644 52659 XOR\n2 1 129674 129643 77948 XOR\n2 1 76669 129644 52660 XOR\n2 1 52659 52660 52658 AND\n2 1 52658 129644 129645 XOR\n2 1 76670 129645 52663 XOR\n2 1 129676 129645 77950 XOR\n2 1 82558 129645 52662 XOR\n2 1 52662 52663 52661 AND\n",
"2 1 52661 129645 129646 XOR\n2 1 76671 129646 52666 XOR\n2 1 129677 129646 77951 XOR\n2 1 82559 129646 52665 XOR\n2 1 52665 52666 52664 AND\n2 1 52664 129646 129647 XOR\n2 1 129678 129647 77952 XOR\n2 1 79488 77952 129616 XOR\n2 1 79487 77951 129615 XOR\n2 1 82560 129647 52668 XOR\n2 1 76672 129647 52669 XOR\n2 1 52668 52669 52667 AND\n2 1 52667 129647 129648 XOR\n2 1 76673 129648 52672 XOR\n2 1 129679 129648 77953 XOR\n2 1 79489 77953 129617 XOR\n2 1 82561 129648 52671 XOR\n2 1 52671 52672 52670 AND\n2 1 52670 129648 129649 XOR\n2 1 129680 129649 77954 XOR\n2 1 79490 77954 129618 XOR\n2 1 82562 129649 52674 XOR\n2 1 96310 94262 92251 XOR\n1 1 92251 90225 INV\n2 1 90225 84081 104576 AND\n2 1 84082 104576 10928 XOR\n2 1 1760 90225 1632 XOR\n2 1 90225 84081 1184 XOR\n2 1 1184 1696 70351 XOR\n2 1 70351 70319 70287 AND\n2 1 70287 1696 86097 XOR\n2 1 1184 1664 70223 XOR\n2 1 63887 1632 63855 AND\n2 1 63855 2208 98326 XOR\n2 1 1632 2176 63823 XOR\n2 1 1760 90225 104514 AND\n2 1 1761 104514 10837 XOR\n2 1 114642 114611 92252 XOR\n2 1 96311 114611 27019 XOR\n2 1 94263 114611 27020 XOR\n2 1 27019 27020 27018 AND\n2 1 27018 114611 114612 XOR\n2 1 96312 114612 27022 XOR\n2 1 79480 77944 129608 XOR\n2 1 79481 77945 129609 XOR\n2 1 79484 77948 129612 XOR\n2 1 79485 77949 129613 XOR\n2 1 79486 77950 129614 XOR\n2 1 79474 129571 52536 XOR\n2 1 52536 52537 52535 AND\n2 1 52535 129571 129572 XOR\n2 1 79475 129572 52539 XOR\n2 1 77939 129572 52540 XOR\n2 1 129603 129572 76147 XOR\n2 1 76147 114674 27112 XOR\n2 1 27112 27113 27111 AND\n2 1 27111 114674 114675 XOR\n2 1 2275 114675 27116 XOR\n2 1 52539 52540 52538 AND\n2 1 52538 129572 129573 XOR\n2 1 79476 129573 52542 XOR\n2 1 77940 129573 52543 XOR\n2 1 129604 129573 76148 XOR\n2 1 76148 114675 27115 XOR\n2 1 76148 2275 114706 XOR\n2 1 27115 27116 27114 AND\n2 1 27114 114675 114676 XOR\n2 1 2276 114676 27119 XOR\n2 1 52542 52543 52541 AND\n2 1 52541 129573 129574 XOR\n2 1 129605 129574 76149 XOR\n2 1 76149 114676 27118 XOR\n2 1 76149 2276 114707 XOR\n2 1 27118 27119 27117 AND\n2 1 114707 114676 94266 XOR\n2 1 27117 114676 114677 XOR\n2 1 79477 129574 52545 XOR\n2 1 77941 129574 52546 XOR\n2 1 52545 52546 52544 AND\n2 1 52544 129574 129575 XOR\n2 1 79478 129575 52548 XOR\n2 1 129606 129575 76150 XOR\n2 1 76150 2277 114708 XOR\n2 1 114708 114677 94267 XOR\n2 1 96315 94267 114646 XOR\n2 1 77942 129575 52549 XOR\n2 1 52548 52549 52547 AND\n2 1 52547 129575 129576 XOR\n2 1 77943 129576 52552 XOR\n2 1 79479 129576 52551 XOR\n2 1 52551 52552 52550 AND\n2 1 96314 94266 114645 XOR\n2 1 129607 129576 76151 XOR\n2 1 76151 2278 114709 XOR\n2 1 52550 129576 129577 XOR\n2 1 79480 129577 52554 XOR\n2 1 76147 2274 114705 XOR\n2 1 114705 114674 94264 XOR\n2 1 94264 114612 27023 XOR\n2 1 27022 27023 27021 AND\n2 1 96312 94264 114643 XOR\n2 1 114643 114612 92253 XOR\n1 1 92253 27004 INV\n2 1 27021 114612 114613 XOR\n2 1 96313 114613 27025 XOR\n2 1 114706 114675 94265 XOR\n2 1 96313 94265 114644 XOR\n2 1 114644 114613 92254 XOR\n2 1 94265 114613 27026 XOR\n2 1 27025 27026 27024 AND\n2 1 27024 114613 114614 XOR\n2 1 94266 114614 27029 XOR\n2 1 114645 114614 92255 XOR\n2 1 96314 114614 27028 XOR\n2 1 27028 27029 27027 AND\n2 1 27027 114614 114615 XOR\n2 1 96315 114615 27031 XOR\n2 1 114646 114615 92256 XOR\n2 1 94267 114615 27032 XOR\n2 1 27031 27032 27030 AND\n2 1 27030 114615 114616 XOR\n2 1 96316 114616 27034 XOR\n2 1 2277 114677 27122 XOR\n2 1 76150 114677 27121 XOR\n2 1 27121 27122 27120 AND\n2 1 27120 114677 114678 XOR\n2 1 76151 114678 27124 XOR\n2 1 2278 114678 27125 XOR\n",
"2 1 27124 27125 27123 AND\n2 1 27123 114678 114679 XOR\n2 1 2279 114679 27128 XOR\n2 1 114709 114678 94268 XOR\n2 1 94268 114616 27035 XOR\n2 1 27034 27035 27033 AND\n2 1 96316 94268 114647 XOR\n2 1 114647 114616 92257 XOR\n2 1 27033 114616 114617 XOR\n2 1 96317 114617 27037 XOR\n2 1 129608 129577 76152 XOR\n2 1 76152 114679 27127 XOR\n2 1 27127 27128 27126 AND\n2 1 76152 2279 114710 XOR\n2 1 114710 114679 94269 XOR\n2 1 96317 94269 114648 XOR\n2 1 27126 114679 114680 XOR\n2 1 2280 114680 27131 XOR\n2 1 114648 114617 92258 XOR\n1 1 92258 27005 INV\n2 1 94269 114617 27038 XOR\n2 1 27037 27038 27036 AND\n2 1 27036 114617 114618 XOR\n2 1 96318 114618 27040 XOR\n2 1 77944 129577 52555 XOR\n2 1 52554 52555 52553 AND\n2 1 52553 129577 129578 XOR\n2 1 77945 129578 52558 XOR\n2 1 129609 129578 76153 XOR\n2 1 76153 2280 114711 XOR\n2 1 114711 114680 94270 XOR\n2 1 76153 114680 27130 XOR\n2 1 27130 27131 27129 AND\n2 1 27129 114680 114681 XOR\n2 1 94270 114618 27041 XOR\n2 1 27040 27041 27039 AND\n2 1 2281 114681 27134 XOR\n2 1 96318 94270 114649 XOR\n2 1 114649 114618 92259 XOR\n1 1 92259 27006 INV\n2 1 27039 114618 114619 XOR\n2 1 96319 114619 27043 XOR\n2 1 79481 129578 52557 XOR\n2 1 52557 52558 52556 AND\n2 1 52556 129578 129579 XOR\n2 1 79482 129579 52560 XOR\n2 1 129610 129579 76154 XOR\n2 1 76154 2281 114712 XOR\n2 1 114712 114681 94271 XOR\n2 1 96319 94271 114650 XOR\n2 1 76154 114681 27133 XOR\n2 1 27133 27134 27132 AND\n2 1 27132 114681 114682 XOR\n2 1 2282 114682 27137 XOR\n2 1 114650 114619 92260 XOR\n2 1 94271 114619 27044 XOR\n2 1 27043 27044 27042 AND\n2 1 27042 114619 114620 XOR\n2 1 96320 114620 27046 XOR\n2 1 77946 129579 52561 XOR\n2 1 52560 52561 52559 AND\n2 1 52559 129579 129580 XOR\n2 1 77947 129580 52564 XOR\n2 1 129611 129580 76155 XOR\n2 1 76155 2282 114713 XOR\n2 1 76155 114682 27136 XOR\n2 1 27136 27137 27135 AND\n2 1 114713 114682 94272 XOR\n2 1 94272 114620 27047 XOR\n2 1 27046 27047 27045 AND\n2 1 27135 114682 114683 XOR\n2 1 2283 114683 27140 XOR\n2 1 96320 94272 114651 XOR\n2 1 114651 114620 92261 XOR\n2 1 27045 114620 114621 XOR\n2 1 96321 114621 27049 XOR\n2 1 79483 129580 52563 XOR\n2 1 52563 52564 52562 AND\n2 1 52562 129580 129581 XOR\n2 1 129612 129581 76156 XOR\n2 1 76156 2283 114714 XOR\n2 1 76156 114683 27139 XOR\n2 1 27139 27140 27138 AND\n2 1 27138 114683 114684 XOR\n2 1 2284 114684 27143 XOR\n2 1 114714 114683 94273 XOR\n2 1 94273 114621 27050 XOR\n2 1 27049 27050 27048 AND\n2 1 27048 114621 114622 XOR\n2 1 96321 94273 114652 XOR\n2 1 114652 114621 92262 XOR\n2 1 96322 114622 27052 XOR\n2 1 79484 129581 52566 XOR\n2 1 77948 129581 52567 XOR\n2 1 52566 52567 52565 AND\n2 1 52565 129581 129582 XOR\n2 1 129613 129582 76157 XOR\n2 1 76157 114684 27142 XOR\n2 1 27142 27143 27141 AND\n2 1 27141 114684 114685 XOR\n2 1 76157 2284 114715 XOR\n2 1 114715 114684 94274 XOR\n2 1 94274 114622 27053 XOR\n2 1 96322 94274 114653 XOR\n2 1 114653 114622 92263 XOR\n2 1 27052 27053 27051 AND\n2 1 27051 114622 114623 XOR\n2 1 96323 114623 27055 XOR\n2 1 2285 114685 27146 XOR\n2 1 79485 129582 52569 XOR\n2 1 77949 129582 52570 XOR\n2 1 52569 52570 52568 AND\n2 1 52568 129582 129583 XOR\n2 1 129614 129583 76158 XOR\n2 1 76158 2285 114716 XOR\n2 1 114716 114685 94275 XOR\n2 1 94275 114623 27056 XOR\n2 1 96323 94275 114654 XOR\n2 1 27055 27056 27054 AND\n2 1 27054 114623 114624 XOR\n2 1 96324 114624 27058 XOR\n2 1 114654 114623 92264 XOR\n2 1 76158 114685 27145 XOR\n2 1 27145 27146 27144 AND\n2 1 27144 114685 114686 XOR\n2 1 2286 114686 27149 XOR\n2 1 79486 129583 52572 XOR\n2 1 77950 129583 52573 XOR\n",
"2 1 52572 52573 52571 AND\n2 1 52571 129583 129584 XOR\n2 1 129615 129584 76159 XOR\n2 1 76159 114686 27148 XOR\n2 1 27148 27149 27147 AND\n2 1 76159 2286 114717 XOR\n2 1 114717 114686 94276 XOR\n2 1 94276 114624 27059 XOR\n2 1 27058 27059 27057 AND\n2 1 27057 114624 114625 XOR\n2 1 96325 114625 27061 XOR\n2 1 96324 94276 114655 XOR\n2 1 114655 114624 92265 XOR\n2 1 27147 114686 114687 XOR\n2 1 2287 114687 27152 XOR\n2 1 79487 129584 52575 XOR\n2 1 77951 129584 52576 XOR\n2 1 52575 52576 52574 AND\n2 1 52574 129584 129585 XOR\n2 1 79488 129585 52578 XOR\n2 1 129616 129585 76160 XOR\n2 1 76160 114687 27151 XOR\n2 1 27151 27152 27150 AND\n2 1 27150 114687 114688 XOR\n2 1 2288 114688 27155 XOR\n2 1 76160 2287 114718 XOR\n2 1 114718 114687 94277 XOR\n2 1 94277 114625 27062 XOR\n2 1 96325 94277 114656 XOR\n2 1 114656 114625 92266 XOR\n2 1 27061 27062 27060 AND\n2 1 27060 114625 114626 XOR\n2 1 96326 114626 27064 XOR\n2 1 77952 129585 52579 XOR\n2 1 52578 52579 52577 AND\n2 1 52577 129585 129586 XOR\n2 1 77953 129586 52582 XOR\n2 1 129617 129586 76161 XOR\n2 1 76161 114688 27154 XOR\n2 1 27154 27155 27153 AND\n2 1 27153 114688 114689 XOR\n2 1 2289 114689 27158 XOR\n2 1 76161 2288 114719 XOR\n2 1 114719 114688 94278 XOR\n2 1 94278 114626 27065 XOR\n2 1 27064 27065 27063 AND\n2 1 27063 114626 114627 XOR\n2 1 96327 114627 27067 XOR\n2 1 96326 94278 114657 XOR\n2 1 114657 114626 92267 XOR\n2 1 79489 129586 52581 XOR\n2 1 52581 52582 52580 AND\n2 1 52580 129586 129587 XOR\n2 1 79490 129587 52584 XOR\n2 1 129618 129587 76162 XOR\n2 1 76162 114689 27157 XOR\n2 1 27157 27158 27156 AND\n2 1 27156 114689 114690 XOR\n2 1 2290 114690 27161 XOR\n2 1 76162 2289 114720 XOR\n2 1 114720 114689 94279 XOR\n2 1 94279 114627 27068 XOR\n2 1 27067 27068 27066 AND\n2 1 27066 114627 114628 XOR\n2 1 96327 94279 114658 XOR\n2 1 114658 114627 92268 XOR\n2 1 96328 114628 27070 XOR\n2 1 77954 129587 52585 XOR\n2 1 52584 52585 52583 AND\n2 1 52583 129587 129588 XOR\n2 1 79491 129588 52587 XOR\n2 1 76160 76162 80975 XOR\n2 1 80975 76335 129383 XOR\n2 1 76159 76161 80974 XOR\n2 1 80974 76334 129382 XOR\n2 1 76158 76160 80973 XOR\n2 1 80973 76333 129381 XOR\n2 1 76157 76159 80972 XOR\n2 1 80972 76332 129380 XOR\n2 1 76156 76158 80971 XOR\n2 1 80971 76331 129379 XOR\n2 1 76155 76157 80970 XOR\n2 1 80970 76330 129378 XOR\n2 1 76154 76156 80969 XOR\n2 1 80969 76329 129377 XOR\n2 1 76153 76155 80968 XOR\n2 1 80968 76328 129376 XOR\n2 1 76152 76154 80967 XOR\n2 1 80967 76327 129375 XOR\n2 1 76151 76153 6463 XOR\n2 1 76150 76152 6462 XOR\n2 1 76149 76151 6461 XOR\n2 1 76148 76150 6460 XOR\n2 1 76147 76149 6459 XOR\n2 1 76146 76148 6458 XOR\n2 1 76145 76147 6457 XOR\n2 1 76674 129649 52675 XOR\n2 1 52674 52675 52673 AND\n2 1 52673 129649 129650 XOR\n2 1 129681 129650 77955 XOR\n2 1 79491 77955 129619 XOR\n2 1 77955 129588 52588 XOR\n2 1 52587 52588 52586 AND\n2 1 129619 129588 76163 XOR\n2 1 76163 114690 27160 XOR\n2 1 27160 27161 27159 AND\n2 1 27159 114690 114691 XOR\n2 1 2291 114691 27164 XOR\n2 1 76163 2290 114721 XOR\n2 1 114721 114690 94280 XOR\n2 1 94280 114628 27071 XOR\n2 1 76675 129650 52678 XOR\n2 1 96328 94280 114659 XOR\n2 1 27070 27071 27069 AND\n2 1 27069 114628 114629 XOR\n2 1 96329 114629 27073 XOR\n2 1 114659 114628 92269 XOR\n2 1 52586 129588 129589 XOR\n2 1 79492 129589 52590 XOR\n2 1 76161 76163 80976 XOR\n2 1 80976 76336 129384 XOR\n2 1 82563 129650 52677 XOR\n2 1 52677 52678 52676 AND\n2 1 52676 129650 129651 XOR\n2 1 129682 129651 77956 XOR\n2 1 79492 77956 129620 XOR\n2 1 129620 129589 76164 XOR\n2 1 76164 114691 27163 XOR\n",
"2 1 27163 27164 27162 AND\n2 1 76164 2291 114722 XOR\n2 1 114722 114691 94281 XOR\n2 1 94281 114629 27074 XOR\n2 1 27073 27074 27072 AND\n2 1 27072 114629 114630 XOR\n2 1 96330 114630 27076 XOR\n2 1 96329 94281 114660 XOR\n2 1 114660 114629 92270 XOR\n1 1 92270 27012 INV\n2 1 27162 114691 114692 XOR\n2 1 2292 114692 27167 XOR\n2 1 77956 129589 52591 XOR\n2 1 52590 52591 52589 AND\n2 1 52589 129589 129590 XOR\n2 1 79493 129590 52593 XOR\n2 1 76162 76164 6442 XOR\n2 1 6442 76155 80945 XOR\n2 1 80945 76305 129323 AND\n2 1 80945 76305 79409 XOR\n2 1 76306 129323 52177 XOR\n2 1 82564 129651 52680 XOR\n2 1 76676 129651 52681 XOR\n2 1 52680 52681 52679 AND\n2 1 52679 129651 129652 XOR\n2 1 129683 129652 77957 XOR\n2 1 79493 77957 129621 XOR\n2 1 129621 129590 76165 XOR\n2 1 76165 114692 27166 XOR\n2 1 27166 27167 27165 AND\n2 1 27165 114692 114693 XOR\n2 1 76165 2292 114723 XOR\n2 1 114723 114692 94282 XOR\n2 1 94282 114630 27077 XOR\n2 1 27076 27077 27075 AND\n2 1 27075 114630 114631 XOR\n2 1 96331 114631 27079 XOR\n2 1 77957 129590 52594 XOR\n2 1 52593 52594 52592 AND\n2 1 96330 94282 114661 XOR\n2 1 114661 114630 92271 XOR\n2 1 2293 114693 27170 XOR\n2 1 52592 129590 129591 XOR\n2 1 79494 129591 52596 XOR\n2 1 76163 76165 6443 XOR\n2 1 6443 76156 80946 XOR\n2 1 80946 76306 129354 XOR\n2 1 129354 129323 79410 XOR\n2 1 80946 129323 52176 XOR\n2 1 52176 52177 52175 AND\n2 1 52175 129323 129324 XOR\n2 1 76307 129324 52180 XOR\n2 1 82565 129652 52683 XOR\n2 1 76677 129652 52684 XOR\n2 1 52683 52684 52682 AND\n2 1 52682 129652 129653 XOR\n2 1 129684 129653 77958 XOR\n2 1 79494 77958 129622 XOR\n2 1 129622 129591 76166 XOR\n2 1 76166 2293 114724 XOR\n2 1 114724 114693 94283 XOR\n2 1 94283 114631 27080 XOR\n2 1 27079 27080 27078 AND\n2 1 27078 114631 114632 XOR\n2 1 96332 114632 27082 XOR\n2 1 96331 94283 114662 XOR\n2 1 114662 114631 92272 XOR\n2 1 76166 114693 27169 XOR\n2 1 27169 27170 27168 AND\n2 1 27168 114693 114694 XOR\n2 1 2294 114694 27173 XOR\n2 1 77958 129591 52597 XOR\n2 1 52596 52597 52595 AND\n2 1 52595 129591 129592 XOR\n2 1 79495 129592 52599 XOR\n2 1 76164 76166 6444 XOR\n2 1 6444 76157 80947 XOR\n2 1 80947 76307 129355 XOR\n2 1 129355 129324 79411 XOR\n2 1 80947 129324 52179 XOR\n2 1 52179 52180 52178 AND\n2 1 52178 129324 129325 XOR\n2 1 76308 129325 52183 XOR\n2 1 82566 129653 52686 XOR\n2 1 76678 129653 52687 XOR\n2 1 52686 52687 52685 AND\n2 1 52685 129653 129654 XOR\n2 1 129685 129654 77959 XOR\n2 1 77959 129592 52600 XOR\n2 1 79495 77959 129623 XOR\n2 1 129623 129592 76167 XOR\n2 1 76167 2294 114725 XOR\n2 1 76167 114694 27172 XOR\n2 1 27172 27173 27171 AND\n2 1 52599 52600 52598 AND\n2 1 114725 114694 94284 XOR\n2 1 94284 114632 27083 XOR\n2 1 27082 27083 27081 AND\n2 1 27081 114632 114633 XOR\n2 1 96332 94284 114663 XOR\n2 1 114663 114632 92273 XOR\n2 1 96333 114633 27085 XOR\n2 1 52598 129592 129593 XOR\n2 1 79496 129593 52602 XOR\n2 1 76165 76167 6445 XOR\n2 1 6445 76158 80948 XOR\n2 1 80948 76308 129356 XOR\n2 1 129356 129325 79412 XOR\n2 1 80948 129325 52182 XOR\n2 1 52182 52183 52181 AND\n2 1 52181 129325 129326 XOR\n2 1 76309 129326 52186 XOR\n2 1 27171 114694 114695 XOR\n2 1 2295 114695 27176 XOR\n2 1 82567 129654 52689 XOR\n2 1 76679 129654 52690 XOR\n2 1 52689 52690 52688 AND\n2 1 52688 129654 129655 XOR\n2 1 129686 129655 77960 XOR\n2 1 79496 77960 129624 XOR\n2 1 129624 129593 76168 XOR\n2 1 76168 114695 27175 XOR\n2 1 76168 2295 114726 XOR\n2 1 114726 114695 94285 XOR\n2 1 94285 114633 27086 XOR\n2 1 27085 27086 27084 AND\n2 1 27084 114633 114634 XOR\n2 1 96334 114634 27088 XOR\n",
"2 1 27175 27176 27174 AND\n2 1 27174 114695 114696 XOR\n2 1 2296 114696 27179 XOR\n2 1 96333 94285 114664 XOR\n2 1 114664 114633 92274 XOR\n2 1 77960 129593 52603 XOR\n2 1 52602 52603 52601 AND\n2 1 52601 129593 129594 XOR\n2 1 79497 129594 52605 XOR\n2 1 76166 76168 6446 XOR\n2 1 6446 76159 80949 XOR\n2 1 80949 76309 129357 XOR\n2 1 80949 129326 52185 XOR\n2 1 52185 52186 52184 AND\n2 1 129357 129326 79413 XOR\n2 1 52184 129326 129327 XOR\n2 1 76310 129327 52189 XOR\n2 1 82568 129655 52692 XOR\n2 1 76680 129655 52693 XOR\n2 1 52692 52693 52691 AND\n2 1 52691 129655 129656 XOR\n2 1 129687 129656 77961 XOR\n2 1 77961 129594 52606 XOR\n2 1 52605 52606 52604 AND\n2 1 52604 129594 129595 XOR\n2 1 79498 129595 52608 XOR\n2 1 79497 77961 129625 XOR\n2 1 129625 129594 76169 XOR\n2 1 76169 2296 114727 XOR\n2 1 114727 114696 94286 XOR\n2 1 76169 114696 27178 XOR\n2 1 27178 27179 27177 AND\n2 1 27177 114696 114697 XOR\n2 1 2297 114697 27182 XOR\n2 1 96334 94286 114665 XOR\n2 1 114665 114634 92275 XOR\n2 1 76167 76169 6447 XOR\n2 1 6447 76160 80950 XOR\n2 1 80950 76310 129358 XOR\n2 1 80950 129327 52188 XOR\n2 1 52188 52189 52187 AND\n2 1 52187 129327 129328 XOR\n2 1 129358 129327 79414 XOR\n2 1 76311 129328 52192 XOR\n2 1 94286 114634 27089 XOR\n2 1 27088 27089 27087 AND\n2 1 27087 114634 114635 XOR\n2 1 96335 114635 27091 XOR\n2 1 82569 129656 52695 XOR\n2 1 76681 129656 52696 XOR\n2 1 52695 52696 52694 AND\n2 1 52694 129656 129657 XOR\n2 1 76682 129657 52699 XOR\n2 1 129688 129657 77962 XOR\n2 1 79498 77962 129626 XOR\n2 1 129626 129595 76170 XOR\n2 1 76170 2297 114728 XOR\n2 1 114728 114697 94287 XOR\n2 1 94287 114635 27092 XOR\n2 1 27091 27092 27090 AND\n2 1 76170 114697 27181 XOR\n2 1 27181 27182 27180 AND\n2 1 27180 114697 114698 XOR\n2 1 2298 114698 27185 XOR\n2 1 77962 129595 52609 XOR\n2 1 52608 52609 52607 AND\n2 1 52607 129595 129596 XOR\n2 1 79499 129596 52611 XOR\n2 1 96335 94287 114666 XOR\n2 1 114666 114635 92276 XOR\n2 1 27090 114635 114636 XOR\n2 1 96336 114636 27094 XOR\n2 1 76168 76170 6448 XOR\n2 1 6457 76170 80960 XOR\n2 1 80960 76320 129368 XOR\n2 1 6448 76161 80951 XOR\n2 1 80951 76311 129359 XOR\n2 1 129359 129328 79415 XOR\n2 1 80951 129328 52191 XOR\n2 1 52191 52192 52190 AND\n2 1 52190 129328 129329 XOR\n2 1 76312 129329 52195 XOR\n2 1 82570 129657 52698 XOR\n2 1 52698 52699 52697 AND\n2 1 52697 129657 129658 XOR\n2 1 82571 129658 52701 XOR\n2 1 129689 129658 77963 XOR\n2 1 79499 77963 129627 XOR\n2 1 77963 129596 52612 XOR\n2 1 129627 129596 76171 XOR\n2 1 76171 2298 114729 XOR\n2 1 76171 114698 27184 XOR\n2 1 114729 114698 94288 XOR\n2 1 27184 27185 27183 AND\n2 1 27183 114698 114699 XOR\n2 1 2299 114699 27188 XOR\n2 1 52611 52612 52610 AND\n2 1 52610 129596 129597 XOR\n2 1 79500 129597 52614 XOR\n2 1 96336 94288 114667 XOR\n2 1 114667 114636 92277 XOR\n1 1 92277 27013 INV\n2 1 94288 114636 27095 XOR\n2 1 27094 27095 27093 AND\n2 1 27093 114636 114637 XOR\n2 1 96337 114637 27097 XOR\n2 1 76169 76171 6449 XOR\n2 1 6458 76171 80961 XOR\n2 1 80961 76321 129369 XOR\n2 1 6449 76162 80952 XOR\n2 1 80952 76312 129360 XOR\n2 1 129360 129329 79416 XOR\n2 1 80952 129329 52194 XOR\n2 1 52194 52195 52193 AND\n2 1 52193 129329 129330 XOR\n2 1 76313 129330 52198 XOR\n2 1 76683 129658 52702 XOR\n2 1 52701 52702 52700 AND\n2 1 52700 129658 129659 XOR\n2 1 76684 129659 52705 XOR\n2 1 129690 129659 77964 XOR\n2 1 77964 129597 52615 XOR\n2 1 52614 52615 52613 AND\n2 1 79500 77964 129628 XOR\n2 1 129628 129597 76172 XOR\n2 1 76172 2299 114730 XOR\n2 1 114730 114699 94289 XOR\n2 1 76172 114699 27187 XOR\n",
"2 1 27187 27188 27186 AND\n2 1 94289 114637 27098 XOR\n2 1 27097 27098 27096 AND\n2 1 27096 114637 114638 XOR\n2 1 96338 114638 27100 XOR\n2 1 52613 129597 129598 XOR\n2 1 79501 129598 52617 XOR\n2 1 96337 94289 114668 XOR\n2 1 114668 114637 92278 XOR\n2 1 76170 76172 6450 XOR\n2 1 6459 76172 80962 XOR\n2 1 80962 76322 129370 XOR\n2 1 6450 76163 80953 XOR\n2 1 80953 76313 129361 XOR\n2 1 129361 129330 79417 XOR\n2 1 80953 129330 52197 XOR\n2 1 52197 52198 52196 AND\n2 1 52196 129330 129331 XOR\n2 1 76314 129331 52201 XOR\n2 1 27186 114699 114700 XOR\n2 1 2300 114700 27191 XOR\n2 1 82572 129659 52704 XOR\n2 1 52704 52705 52703 AND\n2 1 52703 129659 129660 XOR\n2 1 82573 129660 52707 XOR\n2 1 129691 129660 77965 XOR\n2 1 77965 129598 52618 XOR\n2 1 52617 52618 52616 AND\n2 1 52616 129598 129599 XOR\n2 1 79502 129599 52620 XOR\n2 1 79501 77965 129629 XOR\n2 1 129629 129598 76173 XOR\n2 1 76173 2300 114731 XOR\n2 1 76173 114700 27190 XOR\n2 1 27190 27191 27189 AND\n2 1 27189 114700 114701 XOR\n2 1 2301 114701 27194 XOR\n2 1 114731 114700 94290 XOR\n2 1 94290 114638 27101 XOR\n2 1 27100 27101 27099 AND\n2 1 27099 114638 114639 XOR\n2 1 96339 114639 27103 XOR\n2 1 96338 94290 114669 XOR\n2 1 114669 114638 92279 XOR\n1 1 92279 27014 INV\n2 1 76171 76173 6451 XOR\n2 1 6460 76173 80963 XOR\n2 1 80963 76323 129371 XOR\n2 1 6451 76164 80954 XOR\n2 1 80954 76314 129362 XOR\n2 1 129362 129331 79418 XOR\n2 1 80954 129331 52200 XOR\n2 1 52200 52201 52199 AND\n2 1 52199 129331 129332 XOR\n2 1 76315 129332 52204 XOR\n2 1 76685 129660 52708 XOR\n2 1 52707 52708 52706 AND\n2 1 52706 129660 129661 XOR\n2 1 76686 129661 52711 XOR\n2 1 129692 129661 77966 XOR\n2 1 79502 77966 129630 XOR\n2 1 129630 129599 76174 XOR\n2 1 76174 2301 114732 XOR\n2 1 114732 114701 94291 XOR\n2 1 94291 114639 27104 XOR\n2 1 27103 27104 27102 AND\n2 1 27102 114639 114640 XOR\n2 1 96340 114640 27106 XOR\n2 1 77966 129599 52621 XOR\n2 1 52620 52621 52619 AND\n2 1 52619 129599 129600 XOR\n2 1 79503 129600 52623 XOR\n2 1 96339 94291 114670 XOR\n2 1 114670 114639 92280 XOR\n1 1 92280 27015 INV\n2 1 76172 76174 6452 XOR\n2 1 6461 76174 80964 XOR\n2 1 80964 76324 129372 XOR\n2 1 6452 76165 80955 XOR\n2 1 80955 129332 52203 XOR\n2 1 52203 52204 52202 AND\n2 1 52202 129332 129333 XOR\n2 1 76316 129333 52207 XOR\n2 1 80955 76315 129363 XOR\n2 1 129363 129332 79419 XOR\n2 1 76174 114701 27193 XOR\n2 1 27193 27194 27192 AND\n2 1 27192 114701 114702 XOR\n2 1 2302 114702 27197 XOR\n2 1 82574 129661 52710 XOR\n2 1 52710 52711 52709 AND\n2 1 52709 129661 129662 XOR\n2 1 82575 129662 52713 XOR\n2 1 129693 129662 77967 XOR\n2 1 77967 129600 52624 XOR\n2 1 79503 77967 129631 XOR\n2 1 52623 52624 52622 AND\n2 1 52622 129600 129601 XOR\n2 1 129631 129600 76175 XOR\n2 1 76175 2302 114733 XOR\n2 1 76175 114702 27196 XOR\n2 1 27196 27197 27195 AND\n2 1 27195 114702 114703 XOR\n2 1 76175 76145 6455 XOR\n2 1 76173 76175 6453 XOR\n2 1 6462 76175 80965 XOR\n2 1 80965 76325 129373 XOR\n2 1 6455 76168 80958 XOR\n2 1 80958 76318 129366 XOR\n2 1 6453 76166 80956 XOR\n2 1 80956 129333 52206 XOR\n2 1 52206 52207 52205 AND\n2 1 52205 129333 129334 XOR\n2 1 76317 129334 52210 XOR\n2 1 80956 76316 129364 XOR\n2 1 129364 129333 79420 XOR\n2 1 114733 114702 94292 XOR\n2 1 94292 114640 27107 XOR\n2 1 27106 27107 27105 AND\n2 1 27105 114640 114641 XOR\n2 1 96340 94292 114671 XOR\n2 1 114671 114640 92281 XOR\n1 1 92281 27016 INV\n2 1 76687 129662 52714 XOR\n2 1 52713 52714 52712 AND\n2 1 52712 129662 129663 XOR\n2 1 129694 129663 77968 XOR\n2 1 79504 77968 129632 XOR\n",
"2 1 129632 129601 76176 XOR\n2 1 76176 2303 114734 XOR\n2 1 114734 114703 94293 XOR\n2 1 96341 94293 114672 XOR\n2 1 114672 114641 92282 XOR\n1 1 92282 27017 INV\n2 1 76176 76146 6456 XOR\n2 1 76174 76176 6454 XOR\n2 1 6463 76176 80966 XOR\n2 1 80966 76326 129374 XOR\n2 1 6456 76169 80959 XOR\n2 1 80959 76319 129367 XOR\n2 1 6454 76167 80957 XOR\n2 1 80957 129334 52209 XOR\n2 1 52209 52210 52208 AND\n2 1 52208 129334 129335 XOR\n2 1 129366 129335 79422 XOR\n2 1 80958 129335 52212 XOR\n2 1 80957 76317 129365 XOR\n2 1 129365 129334 79421 XOR\n2 1 76318 129335 52213 XOR\n2 1 52212 52213 52211 AND\n2 1 52211 129335 129336 XOR\n2 1 129367 129336 79423 XOR\n2 1 80959 129336 52215 XOR\n2 1 76319 129336 52216 XOR\n2 1 52215 52216 52214 AND\n2 1 52214 129336 129337 XOR\n2 1 76320 129337 52219 XOR\n2 1 129368 129337 79424 XOR\n2 1 80960 129337 52218 XOR\n2 1 52218 52219 52217 AND\n2 1 52217 129337 129338 XOR\n2 1 80961 129338 52221 XOR\n2 1 76321 129338 52222 XOR\n2 1 129369 129338 79425 XOR\n2 1 52221 52222 52220 AND\n2 1 52220 129338 129339 XOR\n2 1 129370 129339 79426 XOR\n2 1 76322 129339 52225 XOR\n2 1 80962 129339 52224 XOR\n2 1 52224 52225 52223 AND\n2 1 52223 129339 129340 XOR\n2 1 76323 129340 52228 XOR\n2 1 80963 129340 52227 XOR\n2 1 129371 129340 79427 XOR\n2 1 52227 52228 52226 AND\n2 1 52226 129340 129341 XOR\n2 1 129372 129341 79428 XOR\n2 1 80964 129341 52230 XOR\n2 1 76324 129341 52231 XOR\n2 1 52230 52231 52229 AND\n2 1 52229 129341 129342 XOR\n2 1 129373 129342 79429 XOR\n2 1 80965 129342 52233 XOR\n2 1 76325 129342 52234 XOR\n2 1 52233 52234 52232 AND\n2 1 52232 129342 129343 XOR\n2 1 129374 129343 79430 XOR\n2 1 80966 129343 52236 XOR\n2 1 76326 129343 52237 XOR\n2 1 52236 52237 52235 AND\n2 1 52235 129343 129344 XOR\n2 1 129375 129344 79431 XOR\n2 1 80967 129344 52239 XOR\n2 1 76327 129344 52240 XOR\n2 1 52239 52240 52238 AND\n2 1 52238 129344 129345 XOR\n2 1 80968 129345 52242 XOR\n2 1 76328 129345 52243 XOR\n2 1 52242 52243 52241 AND\n2 1 52241 129345 129346 XOR\n2 1 129377 129346 79433 XOR\n2 1 80969 129346 52245 XOR\n2 1 76329 129346 52246 XOR\n2 1 52245 52246 52244 AND\n2 1 52244 129346 129347 XOR\n2 1 129378 129347 79434 XOR\n2 1 76330 129347 52249 XOR\n2 1 80970 129347 52248 XOR\n2 1 52248 52249 52247 AND\n2 1 52247 129347 129348 XOR\n2 1 129379 129348 79435 XOR\n2 1 80971 129348 52251 XOR\n2 1 76331 129348 52252 XOR\n2 1 52251 52252 52250 AND\n2 1 52250 129348 129349 XOR\n2 1 76332 129349 52255 XOR\n2 1 129380 129349 79436 XOR\n2 1 80972 129349 52254 XOR\n2 1 52254 52255 52253 AND\n2 1 52253 129349 129350 XOR\n2 1 76333 129350 52258 XOR\n2 1 129381 129350 79437 XOR\n2 1 80973 129350 52257 XOR\n2 1 52257 52258 52256 AND\n2 1 52256 129350 129351 XOR\n2 1 76334 129351 52261 XOR\n2 1 129382 129351 79438 XOR\n2 1 129376 129345 79432 XOR\n2 1 80974 129351 52260 XOR\n2 1 52260 52261 52259 AND\n2 1 52259 129351 129352 XOR\n2 1 129383 129352 79439 XOR\n2 1 80975 129352 52263 XOR\n2 1 76335 129352 52264 XOR\n2 1 52263 52264 52262 AND\n2 1 52262 129352 129353 XOR\n2 1 129384 129353 79440 XOR\n1 1 92268 27010 INV\n1 1 92263 27008 INV\n1 1 92261 27007 INV\n1 1 92264 27009 INV\n2 1 92252 92251 90226 XOR\n2 1 90226 104576 10927 XOR\n2 1 10927 10928 10926 AND\n2 1 10926 104576 104577 XOR\n2 1 1761 90226 104545 XOR\n2 1 104545 104514 1633 XOR\n2 1 63888 1633 63856 AND\n2 1 63856 2209 98327 XOR\n2 1 1633 2177 63824 XOR\n2 1 84083 104577 10931 XOR\n2 1 90226 84082 104607 XOR\n2 1 104607 104576 1185 XOR\n2 1 1185 1697 70352 XOR\n2 1 70352 70320 70288 AND\n2 1 70288 1697 86098 XOR\n",
"2 1 1185 1665 70224 XOR\n2 1 90226 104514 10838 XOR\n2 1 10837 10838 10836 AND\n2 1 10836 104514 104515 XOR\n2 1 1762 104515 10840 XOR\n2 1 90226 92251 26932 AND\n2 1 26932 92251 114597 XOR\n1 1 114597 26935 INV\n2 1 92253 114597 26934 XOR\n2 1 26934 26935 26933 AND\n2 1 26933 114597 26937 XOR\n2 1 92254 26937 90228 XOR\n2 1 90228 84084 104609 XOR\n2 1 1763 90228 104547 XOR\n1 1 92269 27011 INV\n2 1 27004 114597 90227 XOR\n2 1 90227 104577 10930 XOR\n2 1 10930 10931 10929 AND\n2 1 10929 104577 104578 XOR\n2 1 1762 90227 104546 XOR\n2 1 104609 104578 1187 XOR\n2 1 1187 1699 70354 XOR\n2 1 70354 70322 70290 AND\n2 1 70290 1699 86100 XOR\n2 1 1187 1667 70226 XOR\n2 1 104546 104515 1634 XOR\n2 1 63889 1634 63857 AND\n2 1 63857 2210 98328 XOR\n2 1 1634 2178 63825 XOR\n2 1 90227 104515 10841 XOR\n2 1 10840 10841 10839 AND\n2 1 10839 104515 104516 XOR\n2 1 90228 104516 10844 XOR\n2 1 104547 104516 1635 XOR\n2 1 63890 1635 63858 AND\n2 1 63858 2211 98329 XOR\n2 1 1635 2179 63826 XOR\n2 1 1763 104516 10843 XOR\n2 1 10843 10844 10842 AND\n2 1 10842 104516 104517 XOR\n2 1 1764 104517 10846 XOR\n2 1 90227 84083 104608 XOR\n2 1 104608 104577 1186 XOR\n2 1 1186 1698 70353 XOR\n2 1 70353 70321 70289 AND\n2 1 70289 1698 86099 XOR\n2 1 1186 1666 70225 XOR\n2 1 90228 104578 10933 XOR\n2 1 84084 104578 10934 XOR\n2 1 10933 10934 10932 AND\n2 1 10932 104578 104579 XOR\n2 1 84085 104579 10937 XOR\n2 1 90228 26937 26936 AND\n2 1 26936 26937 26939 XOR\n2 1 92255 26939 90229 XOR\n2 1 90229 26939 26938 AND\n2 1 26938 26939 26941 XOR\n2 1 1764 90229 104548 XOR\n2 1 90229 104579 10936 XOR\n2 1 10936 10937 10935 AND\n2 1 92256 26941 90230 XOR\n2 1 90230 84086 104611 XOR\n2 1 90230 26941 26940 AND\n2 1 26940 26941 26943 XOR\n2 1 10935 104579 104580 XOR\n2 1 104611 104580 1189 XOR\n2 1 84086 104580 10940 XOR\n2 1 1189 1701 70356 XOR\n2 1 70356 70324 70292 AND\n2 1 70292 1701 86102 XOR\n2 1 1189 1669 70228 XOR\n2 1 1765 90230 104549 XOR\n2 1 104548 104517 1636 XOR\n2 1 63891 1636 63859 AND\n2 1 63859 2212 98330 XOR\n2 1 1636 2180 63827 XOR\n2 1 90229 104517 10847 XOR\n2 1 10846 10847 10845 AND\n2 1 10845 104517 104518 XOR\n2 1 90230 104518 10850 XOR\n2 1 104549 104518 1637 XOR\n2 1 63892 1637 63860 AND\n2 1 63860 2213 98331 XOR\n2 1 1637 2181 63828 XOR\n2 1 1765 104518 10849 XOR\n2 1 10849 10850 10848 AND\n2 1 10848 104518 104519 XOR\n2 1 1766 104519 10852 XOR\n2 1 1632 1637 61353 XOR\n2 1 90229 84085 104610 XOR\n2 1 104610 104579 1188 XOR\n2 1 1188 1700 70355 XOR\n2 1 70355 70323 70291 AND\n2 1 70291 1700 86101 XOR\n2 1 1188 1668 70227 XOR\n2 1 90230 104580 10939 XOR\n2 1 10939 10940 10938 AND\n2 1 10938 104580 104581 XOR\n2 1 84087 104581 10943 XOR\n2 1 92257 26943 90231 XOR\n2 1 90231 84087 104612 XOR\n2 1 90231 104519 10853 XOR\n2 1 10852 10853 10851 AND\n2 1 10851 104519 104520 XOR\n2 1 1767 104520 10855 XOR\n2 1 90231 104581 10942 XOR\n2 1 104612 104581 1190 XOR\n2 1 1190 1702 70357 XOR\n2 1 70357 70325 70293 AND\n2 1 70293 1702 86103 XOR\n2 1 1190 1670 70229 XOR\n2 1 10942 10943 10941 AND\n2 1 10941 104581 104582 XOR\n2 1 84088 104582 10946 XOR\n2 1 1766 90231 104550 XOR\n2 1 104550 104519 1638 XOR\n2 1 1638 2182 63829 XOR\n2 1 1633 1638 61354 XOR\n2 1 63893 1638 63861 AND\n2 1 63861 2214 98332 XOR\n2 1 90231 26943 26942 AND\n2 1 26942 26943 114598 XOR\n1 1 114598 26946 INV\n2 1 27005 114598 90232 XOR\n2 1 90232 84088 104613 XOR\n2 1 104613 104582 1191 XOR\n2 1 90232 104582 10945 XOR\n2 1 1191 1703 70358 XOR\n",
"2 1 70358 70326 70294 AND\n2 1 70294 1703 86104 XOR\n2 1 1191 1671 70230 XOR\n2 1 1767 90232 104551 XOR\n2 1 104551 104520 1639 XOR\n2 1 63894 1639 63862 AND\n2 1 63862 2215 98333 XOR\n2 1 1639 2183 63830 XOR\n2 1 1634 1639 61355 XOR\n2 1 10945 10946 10944 AND\n2 1 10944 104582 104583 XOR\n2 1 84089 104583 10949 XOR\n2 1 90232 104520 10856 XOR\n2 1 10855 10856 10854 AND\n2 1 10854 104520 104521 XOR\n2 1 1768 104521 10858 XOR\n2 1 92258 114598 26945 XOR\n2 1 26945 26946 26944 AND\n2 1 26944 114598 114599 XOR\n2 1 27006 114599 90233 XOR\n2 1 92259 114599 26948 XOR\n2 1 90233 104583 10948 XOR\n2 1 1768 90233 104552 XOR\n2 1 10948 10949 10947 AND\n2 1 90233 104521 10859 XOR\n2 1 10858 10859 10857 AND\n2 1 10857 104521 104522 XOR\n2 1 1769 104522 10861 XOR\n2 1 90233 84089 104614 XOR\n2 1 104614 104583 1192 XOR\n2 1 1192 1704 70359 XOR\n2 1 70359 70327 70295 AND\n2 1 70295 1704 86105 XOR\n2 1 1192 1672 70231 XOR\n2 1 104552 104521 1640 XOR\n2 1 63895 1640 63863 AND\n2 1 63863 2216 98334 XOR\n2 1 1640 2184 63831 XOR\n2 1 1635 1640 61356 XOR\n2 1 10947 104583 104584 XOR\n2 1 84090 104584 10952 XOR\n1 1 114599 26949 INV\n2 1 26948 26949 26947 AND\n2 1 26947 114599 26951 XOR\n2 1 92260 26951 90234 XOR\n2 1 90234 26951 26950 AND\n2 1 26950 26951 114600 XOR\n2 1 27007 114600 90235 XOR\n2 1 90234 104522 10862 XOR\n2 1 90235 84091 104616 XOR\n2 1 1770 90235 104554 XOR\n2 1 90234 104584 10951 XOR\n2 1 10951 10952 10950 AND\n2 1 10950 104584 104585 XOR\n2 1 10861 10862 10860 AND\n2 1 10860 104522 104523 XOR\n2 1 104554 104523 1642 XOR\n2 1 1770 104523 10864 XOR\n2 1 84091 104585 10955 XOR\n2 1 90235 104585 10954 XOR\n2 1 90235 104523 10865 XOR\n2 1 10864 10865 10863 AND\n2 1 10863 104523 104524 XOR\n2 1 1771 104524 10867 XOR\n2 1 63897 1642 63865 AND\n2 1 63865 2218 98336 XOR\n2 1 1642 2186 63833 XOR\n2 1 1769 90234 104553 XOR\n2 1 104553 104522 1641 XOR\n2 1 63896 1641 63864 AND\n2 1 63864 2217 98335 XOR\n2 1 1641 2185 63832 XOR\n2 1 90234 84090 104615 XOR\n2 1 104615 104584 1193 XOR\n2 1 1193 1705 70360 XOR\n2 1 70360 70328 70296 AND\n2 1 70296 1705 86106 XOR\n2 1 1193 1673 70232 XOR\n2 1 104616 104585 1194 XOR\n2 1 1194 1706 70361 XOR\n2 1 70361 70329 70297 AND\n2 1 70297 1706 86107 XOR\n2 1 1194 1674 70233 XOR\n2 1 10954 10955 10953 AND\n2 1 10953 104585 104586 XOR\n2 1 84092 104586 10958 XOR\n2 1 1637 1642 61358 XOR\n2 1 1636 1641 61357 XOR\n1 1 114600 26954 INV\n2 1 92261 114600 26953 XOR\n2 1 26953 26954 26952 AND\n2 1 26952 114600 26956 XOR\n2 1 92262 26956 90236 XOR\n2 1 90236 104586 10957 XOR\n2 1 10957 10958 10956 AND\n2 1 10956 104586 104587 XOR\n2 1 84093 104587 10961 XOR\n2 1 1771 90236 104555 XOR\n2 1 104555 104524 1643 XOR\n2 1 63898 1643 63866 AND\n2 1 63866 2219 98337 XOR\n2 1 1643 2187 63834 XOR\n2 1 90236 84092 104617 XOR\n2 1 104617 104586 1195 XOR\n2 1 1195 1707 70362 XOR\n2 1 70362 70330 70298 AND\n2 1 70298 1707 86108 XOR\n2 1 1195 1675 70234 XOR\n2 1 1184 1195 67277 XOR\n2 1 1638 1643 61327 XOR\n2 1 90236 104524 10868 XOR\n2 1 10867 10868 10866 AND\n2 1 10866 104524 104525 XOR\n2 1 1772 104525 10870 XOR\n2 1 90236 26956 26955 AND\n2 1 26955 26956 114601 XOR\n1 1 114601 26959 INV\n2 1 92263 114601 26958 XOR\n2 1 27008 114601 90237 XOR\n2 1 1772 90237 104556 XOR\n2 1 104556 104525 1644 XOR\n2 1 90237 104587 10960 XOR\n2 1 10960 10961 10959 AND\n2 1 10959 104587 104588 XOR\n2 1 84094 104588 10964 XOR\n2 1 90237 84093 104618 XOR\n2 1 104618 104587 1196 XOR\n2 1 1196 1708 70363 XOR\n",
"2 1 70363 70331 70299 AND\n2 1 70299 1708 86109 XOR\n2 1 1196 1676 70235 XOR\n2 1 1185 1196 67278 XOR\n2 1 63899 1644 63867 AND\n2 1 63867 2220 98338 XOR\n2 1 1644 2188 63835 XOR\n2 1 90237 104525 10871 XOR\n2 1 10870 10871 10869 AND\n2 1 10869 104525 104526 XOR\n2 1 1773 104526 10873 XOR\n2 1 1639 1644 61328 XOR\n2 1 26958 26959 26957 AND\n2 1 26957 114601 114602 XOR\n2 1 92264 114602 26961 XOR\n1 1 114602 26962 INV\n2 1 26961 26962 26960 AND\n2 1 27009 114602 90238 XOR\n2 1 26960 114602 26964 XOR\n2 1 92265 26964 90239 XOR\n2 1 90239 26964 26963 AND\n2 1 26963 26964 26966 XOR\n2 1 90238 104526 10874 XOR\n2 1 1774 90239 104558 XOR\n2 1 90239 84095 104620 XOR\n2 1 90238 84094 104619 XOR\n2 1 104619 104588 1197 XOR\n2 1 1197 1709 70364 XOR\n2 1 70364 70332 70300 AND\n2 1 70300 1709 86110 XOR\n2 1 1197 1677 70236 XOR\n2 1 1186 1197 67247 XOR\n2 1 1773 90238 104557 XOR\n2 1 104557 104526 1645 XOR\n2 1 63900 1645 63868 AND\n2 1 63868 2221 98339 XOR\n2 1 1645 2189 63836 XOR\n2 1 10873 10874 10872 AND\n2 1 10872 104526 104527 XOR\n2 1 1774 104527 10876 XOR\n2 1 104558 104527 1646 XOR\n2 1 63901 1646 63869 AND\n2 1 63869 2222 98340 XOR\n2 1 1646 2190 63837 XOR\n2 1 1641 1646 61330 XOR\n2 1 1640 1645 61329 XOR\n2 1 90239 104527 10877 XOR\n2 1 10876 10877 10875 AND\n2 1 10875 104527 104528 XOR\n2 1 1775 104528 10879 XOR\n2 1 90238 104588 10963 XOR\n2 1 10963 10964 10962 AND\n2 1 10962 104588 104589 XOR\n2 1 104620 104589 1198 XOR\n2 1 90239 104589 10966 XOR\n2 1 1198 1710 70365 XOR\n2 1 70365 70333 70301 AND\n2 1 70301 1710 86111 XOR\n2 1 1198 1678 70237 XOR\n2 1 84095 104589 10967 XOR\n2 1 10966 10967 10965 AND\n2 1 10965 104589 104590 XOR\n2 1 1187 1198 67248 XOR\n2 1 84096 104590 10970 XOR\n2 1 92266 26966 90240 XOR\n2 1 1775 90240 104559 XOR\n2 1 90240 104590 10969 XOR\n2 1 104559 104528 1647 XOR\n2 1 1647 2191 63838 XOR\n2 1 1642 1647 61331 XOR\n2 1 63902 1647 63870 AND\n2 1 63870 2223 98341 XOR\n2 1 90240 84096 104621 XOR\n2 1 104621 104590 1199 XOR\n2 1 1199 1711 70366 XOR\n2 1 70366 70334 70302 AND\n2 1 70302 1711 86112 XOR\n2 1 1199 1679 70238 XOR\n2 1 1188 1199 67249 XOR\n2 1 10969 10970 10968 AND\n2 1 10968 104590 104591 XOR\n2 1 84097 104591 10973 XOR\n2 1 90240 104528 10880 XOR\n2 1 10879 10880 10878 AND\n2 1 10878 104528 104529 XOR\n2 1 1776 104529 10882 XOR\n2 1 90240 26966 26965 AND\n2 1 26965 26966 26968 XOR\n2 1 92267 26968 90241 XOR\n2 1 90241 84097 104622 XOR\n2 1 1776 90241 104560 XOR\n2 1 104622 104591 1200 XOR\n2 1 1200 1712 70367 XOR\n2 1 70367 70335 70303 AND\n2 1 70303 1712 86113 XOR\n2 1 1200 1680 70239 XOR\n2 1 90241 104529 10883 XOR\n2 1 10882 10883 10881 AND\n2 1 104560 104529 1648 XOR\n2 1 1189 1200 67250 XOR\n2 1 10881 104529 104530 XOR\n2 1 1777 104530 10885 XOR\n2 1 90241 104591 10972 XOR\n2 1 63903 1648 63871 AND\n2 1 63871 2224 98342 XOR\n2 1 1648 2192 63839 XOR\n2 1 10972 10973 10971 AND\n2 1 10971 104591 104592 XOR\n2 1 84098 104592 10976 XOR\n2 1 1643 1648 61332 XOR\n2 1 90241 26968 26967 AND\n2 1 26967 26968 114603 XOR\n2 1 27010 114603 90242 XOR\n2 1 92268 114603 26970 XOR\n1 1 114603 26971 INV\n2 1 90242 84098 104623 XOR\n2 1 90242 104592 10975 XOR\n2 1 104623 104592 1201 XOR\n2 1 1201 1713 70368 XOR\n2 1 70368 70336 70304 AND\n2 1 70304 1713 86114 XOR\n2 1 1201 1681 70240 XOR\n2 1 1190 1201 67251 XOR\n2 1 90242 104530 10886 XOR\n2 1 10885 10886 10884 AND\n2 1 10884 104530 104531 XOR\n2 1 1778 104531 10888 XOR\n2 1 1777 90242 104561 XOR\n",
"2 1 104561 104530 1649 XOR\n2 1 63904 1649 63872 AND\n2 1 63872 2225 98343 XOR\n2 1 1649 2193 63840 XOR\n2 1 10975 10976 10974 AND\n2 1 10974 104592 104593 XOR\n2 1 84099 104593 10979 XOR\n2 1 1644 1649 61333 XOR\n2 1 26970 26971 26969 AND\n2 1 26969 114603 114604 XOR\n1 1 114604 26974 INV\n2 1 27011 114604 90243 XOR\n2 1 92269 114604 26973 XOR\n2 1 26973 26974 26972 AND\n2 1 26972 114604 114605 XOR\n1 1 114605 26977 INV\n2 1 92270 114605 26976 XOR\n2 1 26976 26977 26975 AND\n2 1 27012 114605 90244 XOR\n2 1 90243 104531 10889 XOR\n2 1 90243 84099 104624 XOR\n2 1 1778 90243 104562 XOR\n2 1 104562 104531 1650 XOR\n2 1 104624 104593 1202 XOR\n2 1 26975 114605 26979 XOR\n2 1 90243 104593 10978 XOR\n2 1 10978 10979 10977 AND\n2 1 10977 104593 104594 XOR\n2 1 90244 84100 104625 XOR\n2 1 84100 104594 10982 XOR\n2 1 1202 1714 70369 XOR\n2 1 70369 70337 70305 AND\n2 1 70305 1714 86115 XOR\n2 1 1202 1682 70241 XOR\n2 1 104625 104594 1203 XOR\n2 1 1203 1715 70370 XOR\n2 1 70370 70338 70306 AND\n2 1 70306 1715 86116 XOR\n2 1 1203 1683 70242 XOR\n2 1 1192 1203 67253 XOR\n2 1 1191 1202 67252 XOR\n2 1 90244 104594 10981 XOR\n2 1 10888 10889 10887 AND\n2 1 10887 104531 104532 XOR\n2 1 90244 104532 10892 XOR\n2 1 63905 1650 63873 AND\n2 1 63873 2226 98344 XOR\n2 1 1650 2194 63841 XOR\n2 1 1779 90244 104563 XOR\n2 1 104563 104532 1651 XOR\n2 1 63906 1651 63874 AND\n2 1 63874 2227 98345 XOR\n2 1 1651 2195 63842 XOR\n2 1 10981 10982 10980 AND\n2 1 10980 104594 104595 XOR\n2 1 84101 104595 10985 XOR\n2 1 1779 104532 10891 XOR\n2 1 10891 10892 10890 AND\n2 1 10890 104532 104533 XOR\n2 1 1780 104533 10894 XOR\n2 1 1646 1651 61335 XOR\n2 1 1645 1650 61334 XOR\n2 1 61353 1651 100400 XOR\n2 1 61335 1633 100382 XOR\n2 1 100382 98334 114511 XOR\n2 1 61334 1632 100381 XOR\n2 1 100381 98333 114510 XOR\n2 1 92271 26979 90245 XOR\n2 1 1780 90245 104564 XOR\n2 1 90245 104595 10984 XOR\n2 1 10984 10985 10983 AND\n2 1 104564 104533 1652 XOR\n2 1 1652 2196 63843 XOR\n2 1 1647 1652 61336 XOR\n2 1 61354 1652 100401 XOR\n2 1 61336 1634 100383 XOR\n2 1 100383 98335 114512 XOR\n2 1 63907 1652 63875 AND\n2 1 63875 2228 98346 XOR\n2 1 90245 104533 10895 XOR\n2 1 10983 104595 104596 XOR\n2 1 84102 104596 10988 XOR\n2 1 90245 84101 104626 XOR\n2 1 104626 104595 1204 XOR\n2 1 1204 1716 70371 XOR\n2 1 70371 70339 70307 AND\n2 1 70307 1716 86117 XOR\n2 1 1204 1684 70243 XOR\n2 1 1193 1204 67254 XOR\n2 1 67277 1204 88175 XOR\n2 1 10894 10895 10893 AND\n2 1 10893 104533 104534 XOR\n2 1 1781 104534 10897 XOR\n2 1 90245 26979 26978 AND\n2 1 26978 26979 26981 XOR\n2 1 92272 26981 90246 XOR\n2 1 90246 26981 26980 AND\n2 1 90246 104596 10987 XOR\n2 1 90246 84102 104627 XOR\n2 1 104627 104596 1205 XOR\n2 1 1205 1717 70372 XOR\n2 1 70372 70340 70308 AND\n2 1 70308 1717 86118 XOR\n2 1 1205 1685 70244 XOR\n2 1 1205 1184 67266 XOR\n2 1 1194 1205 67255 XOR\n2 1 67278 1205 88176 XOR\n2 1 67266 1193 88164 XOR\n2 1 10987 10988 10986 AND\n2 1 10986 104596 104597 XOR\n2 1 84103 104597 10991 XOR\n2 1 1781 90246 104565 XOR\n2 1 104565 104534 1653 XOR\n2 1 63908 1653 63876 AND\n2 1 63876 2229 98347 XOR\n2 1 1653 2197 63844 XOR\n2 1 88164 86116 114336 XOR\n2 1 1648 1653 61337 XOR\n2 1 61355 1653 100402 XOR\n2 1 61337 1635 100384 XOR\n2 1 100384 98336 114513 XOR\n2 1 90246 104534 10898 XOR\n2 1 10897 10898 10896 AND\n2 1 10896 104534 104535 XOR\n2 1 1782 104535 10900 XOR\n2 1 26980 26981 26983 XOR\n2 1 92273 26983 90247 XOR\n2 1 90247 26983 26982 AND\n",
"2 1 26982 26983 26985 XOR\n2 1 92274 26985 90248 XOR\n2 1 90248 26985 26984 AND\n2 1 26984 26985 26987 XOR\n2 1 90247 104597 10990 XOR\n2 1 10990 10991 10989 AND\n2 1 10989 104597 104598 XOR\n2 1 90248 84104 104629 XOR\n2 1 84104 104598 10994 XOR\n2 1 90247 104535 10901 XOR\n2 1 10900 10901 10899 AND\n2 1 10899 104535 104536 XOR\n2 1 1783 104536 10903 XOR\n2 1 90248 104536 10904 XOR\n2 1 10903 10904 10902 AND\n2 1 10902 104536 104537 XOR\n2 1 1784 104537 10906 XOR\n2 1 1783 90248 104567 XOR\n2 1 104567 104536 1655 XOR\n2 1 63910 1655 63878 AND\n2 1 63878 2231 98349 XOR\n2 1 1655 2199 63846 XOR\n2 1 104629 104598 1207 XOR\n2 1 1207 1719 70374 XOR\n2 1 70374 70342 70310 AND\n2 1 70310 1719 86120 XOR\n2 1 1207 1687 70246 XOR\n2 1 1207 1186 67268 XOR\n2 1 1196 1207 67257 XOR\n2 1 67268 1195 88166 XOR\n2 1 67257 1184 88155 XOR\n2 1 88155 86107 114327 XOR\n2 1 67248 1207 88146 XOR\n2 1 88146 86098 114318 XOR\n2 1 88166 86118 114338 XOR\n2 1 90248 104598 10993 XOR\n2 1 10993 10994 10992 AND\n2 1 10992 104598 104599 XOR\n2 1 84105 104599 10997 XOR\n2 1 92275 26987 90249 XOR\n2 1 90249 104599 10996 XOR\n2 1 90249 104537 10907 XOR\n2 1 10996 10997 10995 AND\n2 1 10995 104599 104600 XOR\n2 1 84106 104600 11000 XOR\n2 1 90249 84105 104630 XOR\n2 1 104630 104599 1208 XOR\n2 1 1208 1688 70247 XOR\n2 1 1208 1187 67269 XOR\n2 1 1197 1208 67258 XOR\n2 1 67269 1196 88167 XOR\n2 1 67258 1185 88156 XOR\n2 1 67249 1208 88147 XOR\n2 1 88147 86099 114319 XOR\n2 1 1208 1720 70375 XOR\n2 1 70375 70343 70311 AND\n2 1 70311 1720 86121 XOR\n2 1 90249 26987 26986 AND\n2 1 26986 26987 26989 XOR\n2 1 92276 26989 90250 XOR\n2 1 90250 26989 26988 AND\n2 1 26988 26989 114606 XOR\n2 1 92277 114606 26991 XOR\n1 1 114606 26992 INV\n2 1 26991 26992 26990 AND\n2 1 90250 104600 10999 XOR\n2 1 90250 84106 104631 XOR\n2 1 104631 104600 1209 XOR\n2 1 1209 1721 70376 XOR\n2 1 70376 70344 70312 AND\n2 1 70312 1721 86122 XOR\n2 1 1209 1689 70248 XOR\n2 1 1209 1188 67270 XOR\n2 1 1198 1209 67259 XOR\n2 1 67270 1197 88168 XOR\n2 1 88168 86120 114340 XOR\n2 1 67259 1186 88157 XOR\n2 1 67250 1209 88148 XOR\n2 1 88148 86100 114320 XOR\n2 1 10999 11000 10998 AND\n2 1 10998 104600 104601 XOR\n2 1 84107 104601 11003 XOR\n2 1 88157 86109 114329 XOR\n2 1 1785 90250 104569 XOR\n2 1 27013 114606 90251 XOR\n2 1 90251 104601 11002 XOR\n2 1 11002 11003 11001 AND\n2 1 11001 104601 104602 XOR\n2 1 84108 104602 11006 XOR\n2 1 90251 84107 104632 XOR\n2 1 1786 90251 104570 XOR\n2 1 88156 86108 114328 XOR\n2 1 1650 1655 61339 XOR\n2 1 61357 1655 100404 XOR\n2 1 61339 1637 100386 XOR\n2 1 100386 98338 114515 XOR\n2 1 1782 90247 104566 XOR\n2 1 104566 104535 1654 XOR\n2 1 63909 1654 63877 AND\n2 1 63877 2230 98348 XOR\n2 1 1654 2198 63845 XOR\n2 1 1649 1654 61338 XOR\n2 1 61356 1654 100403 XOR\n2 1 61338 1636 100385 XOR\n2 1 100385 98337 114514 XOR\n2 1 1784 90249 104568 XOR\n2 1 104568 104537 1656 XOR\n2 1 63911 1656 63879 AND\n2 1 63879 2232 98350 XOR\n2 1 1656 2200 63847 XOR\n2 1 1651 1656 61340 XOR\n2 1 61358 1656 100405 XOR\n2 1 61340 1638 100387 XOR\n2 1 100387 98339 114516 XOR\n2 1 104632 104601 1210 XOR\n2 1 1210 1722 70377 XOR\n2 1 70377 70345 70313 AND\n2 1 70313 1722 86123 XOR\n2 1 1210 1690 70249 XOR\n2 1 1210 1189 67271 XOR\n2 1 1199 1210 67260 XOR\n2 1 67271 1198 88169 XOR\n2 1 67260 1187 88158 XOR\n2 1 67251 1210 88149 XOR\n2 1 88149 86101 114321 XOR\n2 1 88158 86110 114330 XOR\n2 1 88169 86121 114341 XOR\n2 1 10906 10907 10905 AND\n",
"2 1 10905 104537 104538 XOR\n2 1 90250 104538 10910 XOR\n2 1 104569 104538 1657 XOR\n2 1 1785 104538 10909 XOR\n2 1 63912 1657 63880 AND\n2 1 63880 2233 98351 XOR\n2 1 1657 2201 63848 XOR\n2 1 10909 10910 10908 AND\n2 1 10908 104538 104539 XOR\n2 1 1786 104539 10912 XOR\n2 1 104570 104539 1658 XOR\n2 1 63913 1658 63881 AND\n2 1 63881 2234 98352 XOR\n2 1 100400 98352 114529 XOR\n2 1 1658 2202 63849 XOR\n2 1 90251 104539 10913 XOR\n2 1 10912 10913 10911 AND\n2 1 1653 1658 61342 XOR\n2 1 1652 1657 61341 XOR\n2 1 61342 1640 100389 XOR\n2 1 100389 98341 114518 XOR\n2 1 61341 1639 100388 XOR\n2 1 100388 98340 114517 XOR\n2 1 61328 1658 100375 XOR\n2 1 100375 98327 114504 XOR\n2 1 61327 1657 100374 XOR\n2 1 100374 98326 114473 AND\n2 1 114504 114473 96279 XOR\n2 1 98327 114473 26754 XOR\n2 1 100374 98326 96278 XOR\n2 1 100375 114473 26753 XOR\n2 1 26753 26754 26752 AND\n2 1 26752 114473 114474 XOR\n2 1 98328 114474 26757 XOR\n2 1 10911 104539 104540 XOR\n2 1 1787 104540 10915 XOR\n2 1 90247 84103 104628 XOR\n2 1 104628 104597 1206 XOR\n2 1 1206 1718 70373 XOR\n2 1 70373 70341 70309 AND\n2 1 70309 1718 86119 XOR\n2 1 1206 1686 70245 XOR\n2 1 1206 1185 67267 XOR\n2 1 1195 1206 67256 XOR\n2 1 67267 1194 88165 XOR\n2 1 67247 1206 88145 XOR\n2 1 88145 86097 114287 AND\n2 1 88145 86097 84049 XOR\n2 1 88165 86117 114337 XOR\n2 1 114318 114287 84050 XOR\n2 1 88146 114287 26405 XOR\n2 1 88167 86119 114339 XOR\n2 1 86098 114287 26406 XOR\n2 1 26405 26406 26404 AND\n2 1 26404 114287 114288 XOR\n2 1 88147 114288 26408 XOR\n2 1 86099 114288 26409 XOR\n2 1 26408 26409 26407 AND\n2 1 26407 114288 114289 XOR\n2 1 86100 114289 26412 XOR\n2 1 88148 114289 26411 XOR\n2 1 26411 26412 26410 AND\n2 1 26410 114289 114290 XOR\n2 1 114321 114290 84053 XOR\n2 1 86101 114290 26415 XOR\n2 1 114320 114289 84052 XOR\n2 1 114319 114288 84051 XOR\n2 1 88149 114290 26414 XOR\n2 1 26414 26415 26413 AND\n2 1 26413 114290 114291 XOR\n2 1 86102 114291 26418 XOR\n2 1 26990 114606 26994 XOR\n2 1 92278 26994 90252 XOR\n2 1 90252 26994 26993 AND\n2 1 26993 26994 114607 XOR\n1 1 114607 26997 INV\n2 1 27014 114607 90253 XOR\n2 1 92279 114607 26996 XOR\n2 1 26996 26997 26995 AND\n2 1 90252 104540 10916 XOR\n2 1 10915 10916 10914 AND\n2 1 10914 104540 104541 XOR\n2 1 1788 104541 10918 XOR\n2 1 90252 104602 11005 XOR\n2 1 11005 11006 11004 AND\n2 1 26995 114607 114608 XOR\n1 1 114608 27000 INV\n2 1 11004 104602 104603 XOR\n2 1 90253 104603 11008 XOR\n2 1 1788 90253 104572 XOR\n2 1 104572 104541 1660 XOR\n2 1 63915 1660 63883 AND\n2 1 63883 2236 98354 XOR\n2 1 100402 98354 114531 XOR\n2 1 1660 2204 63851 XOR\n2 1 1787 90252 104571 XOR\n2 1 84109 104603 11009 XOR\n2 1 11008 11009 11007 AND\n2 1 11007 104603 104604 XOR\n2 1 84110 104604 11012 XOR\n2 1 104571 104540 1659 XOR\n2 1 63914 1659 63882 AND\n2 1 63882 2235 98353 XOR\n2 1 100401 98353 114530 XOR\n2 1 1659 2203 63850 XOR\n2 1 27015 114608 90254 XOR\n2 1 90254 84110 104635 XOR\n2 1 104635 104604 1213 XOR\n2 1 1213 1725 70380 XOR\n2 1 70380 70348 70316 AND\n2 1 70316 1725 86126 XOR\n2 1 1213 1693 70252 XOR\n2 1 1213 1192 67274 XOR\n2 1 1202 1213 67263 XOR\n2 1 67274 1201 88172 XOR\n2 1 67263 1190 88161 XOR\n2 1 88161 86113 114333 XOR\n2 1 67254 1213 88152 XOR\n2 1 90254 104604 11011 XOR\n2 1 88152 86104 114324 XOR\n2 1 11011 11012 11010 AND\n2 1 11010 104604 104605 XOR\n2 1 1789 90254 104573 XOR\n2 1 84111 104605 11015 XOR\n2 1 1660 1633 61349 XOR\n2 1 1659 1632 61348 XOR\n2 1 1655 1660 61344 XOR\n2 1 1654 1659 61343 XOR\n",
"2 1 61349 1647 100396 XOR\n2 1 100396 98348 114525 XOR\n2 1 61348 1646 100395 XOR\n2 1 100395 98347 114524 XOR\n2 1 61344 1642 100391 XOR\n2 1 100391 98343 114520 XOR\n2 1 61343 1641 100390 XOR\n2 1 100390 98342 114519 XOR\n2 1 61330 1660 100377 XOR\n2 1 100377 98329 114506 XOR\n2 1 61329 1659 100376 XOR\n2 1 100376 98328 114505 XOR\n2 1 114505 114474 96280 XOR\n2 1 100376 114474 26756 XOR\n2 1 26756 26757 26755 AND\n2 1 26755 114474 114475 XOR\n2 1 114506 114475 96281 XOR\n2 1 98329 114475 26760 XOR\n2 1 100377 114475 26759 XOR\n2 1 26759 26760 26758 AND\n2 1 26758 114475 114476 XOR\n2 1 98330 114476 26763 XOR\n2 1 90252 84108 104633 XOR\n2 1 104633 104602 1211 XOR\n2 1 1211 1723 70378 XOR\n2 1 70378 70346 70314 AND\n2 1 70314 1723 86124 XOR\n2 1 1211 1691 70250 XOR\n2 1 1211 1190 67272 XOR\n2 1 1200 1211 67261 XOR\n2 1 67272 1199 88170 XOR\n2 1 88170 86122 114342 XOR\n2 1 67261 1188 88159 XOR\n2 1 88159 86111 114331 XOR\n2 1 67252 1211 88150 XOR\n2 1 88150 86102 114322 XOR\n2 1 88150 114291 26417 XOR\n2 1 26417 26418 26416 AND\n2 1 26416 114291 114292 XOR\n2 1 86103 114292 26421 XOR\n2 1 114322 114291 84054 XOR\n2 1 88172 86124 114344 XOR\n2 1 90253 84109 104634 XOR\n2 1 104634 104603 1212 XOR\n2 1 1212 1724 70379 XOR\n2 1 70379 70347 70315 AND\n2 1 70315 1724 86125 XOR\n2 1 1212 1692 70251 XOR\n2 1 1212 1191 67273 XOR\n2 1 1201 1212 67262 XOR\n2 1 67273 1200 88171 XOR\n2 1 88171 86123 114343 XOR\n2 1 67262 1189 88160 XOR\n2 1 88160 86112 114332 XOR\n2 1 67253 1212 88151 XOR\n2 1 88151 86103 114323 XOR\n2 1 114323 114292 84055 XOR\n2 1 88151 114292 26420 XOR\n2 1 26420 26421 26419 AND\n2 1 26419 114292 114293 XOR\n2 1 114324 114293 84056 XOR\n2 1 88152 114293 26423 XOR\n2 1 86104 114293 26424 XOR\n2 1 26423 26424 26422 AND\n2 1 26422 114293 114294 XOR\n2 1 86105 114294 26427 XOR\n2 1 90253 104541 10919 XOR\n2 1 10918 10919 10917 AND\n2 1 10917 104541 104542 XOR\n2 1 90254 104542 10922 XOR\n2 1 1789 104542 10921 XOR\n2 1 10921 10922 10920 AND\n2 1 10920 104542 104543 XOR\n2 1 1790 104543 10924 XOR\n2 1 104573 104542 1661 XOR\n2 1 63916 1661 63884 AND\n2 1 63884 2237 98355 XOR\n2 1 100403 98355 114532 XOR\n2 1 1661 2205 63852 XOR\n2 1 1661 1634 61350 XOR\n2 1 1656 1661 61345 XOR\n2 1 61350 1648 100397 XOR\n2 1 100397 98349 114526 XOR\n2 1 61345 1643 100392 XOR\n2 1 100392 98344 114521 XOR\n2 1 61331 1661 100378 XOR\n2 1 100378 98330 114507 XOR\n2 1 114507 114476 96282 XOR\n2 1 100378 114476 26762 XOR\n2 1 26762 26763 26761 AND\n2 1 26761 114476 114477 XOR\n2 1 98331 114477 26766 XOR\n2 1 92280 114608 26999 XOR\n2 1 26999 27000 26998 AND\n2 1 26998 114608 114609 XOR\n1 1 114609 27003 INV\n2 1 92281 114609 27002 XOR\n2 1 27002 27003 27001 AND\n2 1 27016 114609 90255 XOR\n2 1 90255 104605 11014 XOR\n2 1 1790 90255 104574 XOR\n2 1 104574 104543 1662 XOR\n2 1 63917 1662 63885 AND\n2 1 63885 2238 98356 XOR\n2 1 100404 98356 114533 XOR\n2 1 1662 2206 63853 XOR\n2 1 11014 11015 11013 AND\n2 1 11013 104605 104606 XOR\n2 1 90255 104543 10925 XOR\n2 1 10924 10925 10923 AND\n2 1 10923 104543 104544 XOR\n2 1 1662 1635 61351 XOR\n2 1 1657 1662 61346 XOR\n2 1 61351 1649 100398 XOR\n2 1 100398 98350 114527 XOR\n2 1 61346 1644 100393 XOR\n2 1 100393 98345 114522 XOR\n2 1 61332 1662 100379 XOR\n2 1 100379 98331 114508 XOR\n2 1 114508 114477 96283 XOR\n2 1 100379 114477 26765 XOR\n2 1 26765 26766 26764 AND\n2 1 26764 114477 114478 XOR\n2 1 98332 114478 26769 XOR\n2 1 90255 84111 104636 XOR\n2 1 104636 104605 1214 XOR\n2 1 1214 1726 70381 XOR\n2 1 70381 70349 70317 AND\n",
"2 1 70317 1726 86127 XOR\n2 1 1214 1694 70253 XOR\n2 1 1214 1193 67275 XOR\n2 1 1203 1214 67264 XOR\n2 1 67275 1202 88173 XOR\n2 1 67264 1191 88162 XOR\n2 1 88162 86114 114334 XOR\n2 1 67255 1214 88153 XOR\n2 1 88153 114294 26426 XOR\n2 1 88173 86125 114345 XOR\n2 1 88153 86105 114325 XOR\n2 1 114325 114294 84057 XOR\n2 1 88175 86127 114347 XOR\n2 1 26426 26427 26425 AND\n2 1 26425 114294 114295 XOR\n2 1 86106 114295 26430 XOR\n2 1 27001 114609 114610 XOR\n2 1 27017 114610 90256 XOR\n2 1 1791 90256 104575 XOR\n2 1 104575 104544 1663 XOR\n2 1 63918 1663 63886 AND\n2 1 63886 2239 98357 XOR\n2 1 100405 98357 114534 XOR\n2 1 1663 2207 63854 XOR\n2 1 1663 1636 61352 XOR\n2 1 1658 1663 61347 XOR\n2 1 61352 1650 100399 XOR\n2 1 100399 98351 114528 XOR\n2 1 61347 1645 100394 XOR\n2 1 100394 98346 114523 XOR\n2 1 61333 1663 100380 XOR\n2 1 100380 98332 114509 XOR\n2 1 114509 114478 96284 XOR\n2 1 100380 114478 26768 XOR\n2 1 26768 26769 26767 AND\n2 1 26767 114478 114479 XOR\n2 1 98333 114479 26772 XOR\n2 1 114510 114479 96285 XOR\n2 1 100381 114479 26771 XOR\n2 1 26771 26772 26770 AND\n2 1 26770 114479 114480 XOR\n2 1 98334 114480 26775 XOR\n2 1 114511 114480 96286 XOR\n2 1 100382 114480 26774 XOR\n2 1 26774 26775 26773 AND\n2 1 26773 114480 114481 XOR\n2 1 98335 114481 26778 XOR\n2 1 114512 114481 96287 XOR\n2 1 100383 114481 26777 XOR\n2 1 26777 26778 26776 AND\n2 1 26776 114481 114482 XOR\n2 1 114513 114482 96288 XOR\n2 1 98336 114482 26781 XOR\n2 1 100384 114482 26780 XOR\n2 1 26780 26781 26779 AND\n2 1 26779 114482 114483 XOR\n2 1 114514 114483 96289 XOR\n2 1 98337 114483 26784 XOR\n2 1 100385 114483 26783 XOR\n2 1 26783 26784 26782 AND\n2 1 26782 114483 114484 XOR\n2 1 98338 114484 26787 XOR\n2 1 114515 114484 96290 XOR\n2 1 100386 114484 26786 XOR\n2 1 26786 26787 26785 AND\n2 1 26785 114484 114485 XOR\n2 1 100387 114485 26789 XOR\n2 1 114516 114485 96291 XOR\n2 1 98339 114485 26790 XOR\n2 1 90256 84112 104637 XOR\n2 1 104637 104606 1215 XOR\n2 1 1215 1727 70382 XOR\n2 1 70382 70350 70318 AND\n2 1 70318 1727 86128 XOR\n2 1 1215 1695 70254 XOR\n2 1 1215 1194 67276 XOR\n2 1 1204 1215 67265 XOR\n2 1 67276 1203 88174 XOR\n2 1 67265 1192 88163 XOR\n2 1 88163 86115 114335 XOR\n2 1 67256 1215 88154 XOR\n2 1 88154 114295 26429 XOR\n2 1 26429 26430 26428 AND\n2 1 26428 114295 114296 XOR\n2 1 86107 114296 26433 XOR\n2 1 114327 114296 84059 XOR\n2 1 88155 114296 26432 XOR\n2 1 88176 86128 114348 XOR\n2 1 88154 86106 114326 XOR\n2 1 114326 114295 84058 XOR\n2 1 88174 86126 114346 XOR\n2 1 26789 26790 26788 AND\n2 1 26788 114485 114486 XOR\n2 1 114517 114486 96292 XOR\n2 1 98340 114486 26793 XOR\n2 1 100388 114486 26792 XOR\n2 1 26792 26793 26791 AND\n2 1 26791 114486 114487 XOR\n2 1 114518 114487 96293 XOR\n2 1 98341 114487 26796 XOR\n2 1 100389 114487 26795 XOR\n2 1 26795 26796 26794 AND\n2 1 26432 26433 26431 AND\n2 1 26431 114296 114297 XOR\n2 1 86108 114297 26436 XOR\n2 1 114328 114297 84060 XOR\n2 1 88156 114297 26435 XOR\n2 1 26435 26436 26434 AND\n2 1 26434 114297 114298 XOR\n2 1 88157 114298 26438 XOR\n2 1 86109 114298 26439 XOR\n2 1 26438 26439 26437 AND\n2 1 26437 114298 114299 XOR\n2 1 86110 114299 26442 XOR\n2 1 88158 114299 26441 XOR\n2 1 26441 26442 26440 AND\n2 1 26440 114299 114300 XOR\n2 1 86111 114300 26445 XOR\n2 1 114331 114300 84063 XOR\n2 1 114330 114299 84062 XOR\n2 1 88159 114300 26444 XOR\n2 1 26444 26445 26443 AND\n2 1 26443 114300 114301 XOR\n2 1 86112 114301 26448 XOR\n2 1 114332 114301 84064 XOR\n2 1 88160 114301 26447 XOR\n2 1 26447 26448 26446 AND\n2 1 26446 114301 114302 XOR\n",
"2 1 114333 114302 84065 XOR\n2 1 88161 114302 26450 XOR\n2 1 86113 114302 26451 XOR\n2 1 26450 26451 26449 AND\n2 1 26449 114302 114303 XOR\n2 1 88162 114303 26453 XOR\n2 1 86114 114303 26454 XOR\n2 1 26453 26454 26452 AND\n2 1 26452 114303 114304 XOR\n2 1 88163 114304 26456 XOR\n2 1 86115 114304 26457 XOR\n2 1 26456 26457 26455 AND\n2 1 26455 114304 114305 XOR\n2 1 86116 114305 26460 XOR\n2 1 88164 114305 26459 XOR\n2 1 26459 26460 26458 AND\n2 1 114336 114305 84068 XOR\n2 1 26458 114305 114306 XOR\n2 1 86117 114306 26463 XOR\n2 1 88165 114306 26462 XOR\n2 1 114337 114306 84069 XOR\n2 1 26462 26463 26461 AND\n2 1 26461 114306 114307 XOR\n2 1 88166 114307 26465 XOR\n2 1 86118 114307 26466 XOR\n2 1 26465 26466 26464 AND\n2 1 26464 114307 114308 XOR\n2 1 114339 114308 84071 XOR\n2 1 88167 114308 26468 XOR\n2 1 86119 114308 26469 XOR\n2 1 114335 114304 84067 XOR\n2 1 26468 26469 26467 AND\n2 1 26467 114308 114309 XOR\n2 1 88168 114309 26471 XOR\n2 1 86120 114309 26472 XOR\n2 1 26471 26472 26470 AND\n2 1 26470 114309 114310 XOR\n2 1 114341 114310 84073 XOR\n2 1 88169 114310 26474 XOR\n2 1 86121 114310 26475 XOR\n2 1 26474 26475 26473 AND\n2 1 26473 114310 114311 XOR\n2 1 88170 114311 26477 XOR\n2 1 114342 114311 84074 XOR\n2 1 86122 114311 26478 XOR\n2 1 26477 26478 26476 AND\n2 1 26476 114311 114312 XOR\n2 1 88171 114312 26480 XOR\n2 1 114343 114312 84075 XOR\n2 1 86123 114312 26481 XOR\n2 1 26480 26481 26479 AND\n2 1 26479 114312 114313 XOR\n2 1 114344 114313 84076 XOR\n2 1 86124 114313 26484 XOR\n2 1 114338 114307 84070 XOR\n2 1 114340 114309 84072 XOR\n2 1 114329 114298 84061 XOR\n2 1 88172 114313 26483 XOR\n2 1 26483 26484 26482 AND\n2 1 26482 114313 114314 XOR\n2 1 114345 114314 84077 XOR\n2 1 86125 114314 26487 XOR\n2 1 88173 114314 26486 XOR\n2 1 26486 26487 26485 AND\n2 1 26485 114314 114315 XOR\n2 1 86126 114315 26490 XOR\n2 1 88174 114315 26489 XOR\n2 1 26489 26490 26488 AND\n2 1 26488 114315 114316 XOR\n2 1 86127 114316 26493 XOR\n2 1 88175 114316 26492 XOR\n2 1 114347 114316 84079 XOR\n2 1 26492 26493 26491 AND\n2 1 26491 114316 114317 XOR\n2 1 114348 114317 84080 XOR\n2 1 114346 114315 84078 XOR\n2 1 114334 114303 84066 XOR\n2 1 26794 114487 114488 XOR\n2 1 114519 114488 96294 XOR\n2 1 98342 114488 26799 XOR\n2 1 100390 114488 26798 XOR\n2 1 26798 26799 26797 AND\n2 1 26797 114488 114489 XOR\n2 1 114520 114489 96295 XOR\n2 1 100391 114489 26801 XOR\n2 1 98343 114489 26802 XOR\n2 1 26801 26802 26800 AND\n2 1 26800 114489 114490 XOR\n2 1 114521 114490 96296 XOR\n2 1 98344 114490 26805 XOR\n2 1 100392 114490 26804 XOR\n2 1 26804 26805 26803 AND\n2 1 26803 114490 114491 XOR\n2 1 114522 114491 96297 XOR\n2 1 98345 114491 26808 XOR\n2 1 100393 114491 26807 XOR\n2 1 26807 26808 26806 AND\n2 1 26806 114491 114492 XOR\n2 1 114523 114492 96298 XOR\n2 1 98346 114492 26811 XOR\n2 1 100394 114492 26810 XOR\n2 1 26810 26811 26809 AND\n2 1 26809 114492 114493 XOR\n2 1 114524 114493 96299 XOR\n2 1 98347 114493 26814 XOR\n2 1 100395 114493 26813 XOR\n2 1 26813 26814 26812 AND\n2 1 26812 114493 114494 XOR\n2 1 114525 114494 96300 XOR\n2 1 98348 114494 26817 XOR\n2 1 100396 114494 26816 XOR\n2 1 26816 26817 26815 AND\n2 1 26815 114494 114495 XOR\n2 1 100397 114495 26819 XOR\n2 1 98349 114495 26820 XOR\n2 1 26819 26820 26818 AND\n2 1 26818 114495 114496 XOR\n2 1 114527 114496 96302 XOR\n2 1 98350 114496 26823 XOR\n2 1 100398 114496 26822 XOR\n2 1 26822 26823 26821 AND\n2 1 26821 114496 114497 XOR\n2 1 114528 114497 96303 XOR\n2 1 98351 114497 26826 XOR\n2 1 100399 114497 26825 XOR\n2 1 26825 26826 26824 AND\n2 1 26824 114497 114498 XOR\n2 1 114529 114498 96304 XOR\n",
"2 1 98352 114498 26829 XOR\n2 1 100400 114498 26828 XOR\n2 1 26828 26829 26827 AND\n2 1 26827 114498 114499 XOR\n2 1 98353 114499 26832 XOR\n2 1 100401 114499 26831 XOR\n2 1 114530 114499 96305 XOR\n2 1 26831 26832 26830 AND\n2 1 26830 114499 114500 XOR\n2 1 100402 114500 26834 XOR\n2 1 98354 114500 26835 XOR\n2 1 26834 26835 26833 AND\n2 1 114531 114500 96306 XOR\n2 1 26833 114500 114501 XOR\n2 1 114532 114501 96307 XOR\n2 1 100403 114501 26837 XOR\n2 1 98355 114501 26838 XOR\n2 1 26837 26838 26836 AND\n2 1 26836 114501 114502 XOR\n2 1 114533 114502 96308 XOR\n2 1 100404 114502 26840 XOR\n2 1 98356 114502 26841 XOR\n2 1 26840 26841 26839 AND\n2 1 26839 114502 114503 XOR\n2 1 114534 114503 96309 XOR\n2 1 114526 114495 96301 XOR\n2 1 76599 76610 82544 XOR\n2 1 82544 76656 129508 XOR\n2 1 76598 76609 82543 XOR\n2 1 82543 76655 129507 XOR\n2 1 76597 76608 82542 XOR\n2 1 82542 76654 129506 XOR\n2 1 76596 76607 5241 XOR\n2 1 76595 76606 5240 XOR\n2 1 76594 76605 5239 XOR\n2 1 76593 76604 5238 XOR\n2 1 76624 76603 5237 XOR\n2 1 76623 76602 5236 XOR\n2 1 76622 76601 5235 XOR\n2 1 76621 76600 5234 XOR\n2 1 76620 76599 5233 XOR\n2 1 76619 76598 5232 XOR\n2 1 76618 76597 5231 XOR\n2 1 76617 76596 5230 XOR\n2 1 76616 76595 5229 XOR\n2 1 76615 76594 5228 XOR\n2 1 76614 76593 5227 XOR\n2 1 76613 76624 5226 XOR\n2 1 76612 76623 5225 XOR\n2 1 76611 76622 5224 XOR\n2 1 76610 76621 5223 XOR\n2 1 76609 76620 5222 XOR\n2 1 76608 76619 5221 XOR\n2 1 76607 76618 5220 XOR\n2 1 76606 76617 5219 XOR\n2 1 76605 76616 5218 XOR\n2 1 76604 76615 5217 XOR\n2 1 76603 76614 5216 XOR\n2 1 76602 76613 5215 XOR\n2 1 76601 76612 5214 XOR\n2 1 76600 76611 5213 XOR\n2 1 5241 76624 82541 XOR\n2 1 82541 76653 129505 XOR\n2 1 5240 76623 82540 XOR\n2 1 82540 76652 129504 XOR\n2 1 5239 76622 82539 XOR\n2 1 82539 76651 129503 XOR\n2 1 5238 76621 82538 XOR\n2 1 82538 76650 129502 XOR\n2 1 5237 76620 82537 XOR\n2 1 82537 76649 129501 XOR\n2 1 5236 76619 82536 XOR\n2 1 82536 76648 129500 XOR\n2 1 5235 76618 82535 XOR\n2 1 82535 76647 129499 XOR\n2 1 5234 76617 82534 XOR\n2 1 82534 76646 129498 XOR\n2 1 5233 76616 82533 XOR\n2 1 82533 76645 129497 XOR\n2 1 5232 76615 82532 XOR\n2 1 82532 76644 129496 XOR\n2 1 5231 76614 82531 XOR\n2 1 82531 76643 129495 XOR\n2 1 5230 76613 82530 XOR\n2 1 82530 76642 129494 XOR\n2 1 5229 76612 82529 XOR\n2 1 82529 76641 129493 XOR\n2 1 5228 76611 82528 XOR\n2 1 82528 76640 129492 XOR\n2 1 5227 76610 82527 XOR\n2 1 82527 76639 129491 XOR\n2 1 5226 76609 82526 XOR\n2 1 82526 76638 129490 XOR\n2 1 5225 76608 82525 XOR\n2 1 82525 76637 129489 XOR\n2 1 5224 76607 82524 XOR\n2 1 82524 76636 129488 XOR\n2 1 5223 76606 82523 XOR\n2 1 82523 76635 129487 XOR\n2 1 5222 76605 82522 XOR\n2 1 82522 76634 129486 XOR\n2 1 5221 76604 82521 XOR\n2 1 82521 76633 129485 XOR\n2 1 5220 76603 82520 XOR\n2 1 82520 76632 129484 XOR\n2 1 5219 76602 82519 XOR\n2 1 82519 76631 129483 XOR\n2 1 5218 76601 82518 XOR\n2 1 82518 76630 129482 XOR\n2 1 5217 76600 82517 XOR\n2 1 82517 76629 129481 XOR\n2 1 5216 76599 82516 XOR\n2 1 82516 76628 129480 XOR\n2 1 5215 76598 82515 XOR\n2 1 82515 76627 129479 XOR\n2 1 5214 76597 82514 XOR\n2 1 82514 76626 129478 XOR\n2 1 5213 76596 82513 XOR\n2 1 82513 76625 129447 AND\n2 1 82513 76625 77905 XOR\n2 1 79441 77905 129385 AND\n2 1 79442 129385 52266 XOR\n2 1 82514 129447 52356 XOR\n2 1 79441 77905 76113 XOR\n2 1 76113 2240 114411 AND\n2 1 2241 114411 26664 XOR\n2 1 76113 2240 94230 XOR\n2 1 96278 94230 90193 XOR\n",
"2 1 90193 84049 1152 XOR\n2 1 90193 84049 104452 AND\n2 1 1152 1664 70255 XOR\n2 1 70255 70223 70191 AND\n2 1 70191 1664 86065 XOR\n2 1 1152 1184 70127 XOR\n2 1 1728 90193 104390 AND\n2 1 1728 90193 1600 XOR\n2 1 1729 104390 10657 XOR\n2 1 76626 129447 52357 XOR\n2 1 52356 52357 52355 AND\n2 1 52355 129447 129448 XOR\n2 1 129479 129448 77907 XOR\n2 1 79443 77907 129417 XOR\n2 1 82515 129448 52359 XOR\n2 1 76627 129448 52360 XOR\n2 1 52359 52360 52358 AND\n2 1 52358 129448 129449 XOR\n2 1 129480 129449 77908 XOR\n2 1 79444 77908 129418 XOR\n2 1 82516 129449 52362 XOR\n2 1 96278 94230 114349 AND\n2 1 76628 129449 52363 XOR\n2 1 52362 52363 52361 AND\n2 1 52361 129449 129450 XOR\n2 1 129481 129450 77909 XOR\n2 1 79445 77909 129419 XOR\n2 1 82517 129450 52365 XOR\n2 1 76629 129450 52366 XOR\n2 1 52365 52366 52364 AND\n2 1 52364 129450 129451 XOR\n2 1 76630 129451 52369 XOR\n2 1 129482 129451 77910 XOR\n2 1 79446 77910 129420 XOR\n2 1 63823 1600 63791 AND\n2 1 63791 2176 98294 XOR\n2 1 1600 1632 63759 XOR\n2 1 129478 129447 77906 XOR\n2 1 77906 129385 52267 XOR\n2 1 52266 52267 52265 AND\n2 1 52265 129385 129386 XOR\n2 1 129417 129386 76115 XOR\n2 1 76115 2242 114443 XOR\n2 1 79442 77906 129416 XOR\n2 1 129416 129385 76114 XOR\n2 1 76114 114411 26663 XOR\n2 1 26663 26664 26662 AND\n2 1 26662 114411 114412 XOR\n2 1 114443 114412 94232 XOR\n2 1 96280 94232 114381 XOR\n2 1 76115 114412 26666 XOR\n2 1 2242 114412 26667 XOR\n2 1 26666 26667 26665 AND\n2 1 26665 114412 114413 XOR\n2 1 2243 114413 26670 XOR\n2 1 77907 129386 52270 XOR\n2 1 79443 129386 52269 XOR\n2 1 52269 52270 52268 AND\n2 1 52268 129386 129387 XOR\n2 1 129418 129387 76116 XOR\n2 1 76116 114413 26669 XOR\n2 1 26669 26670 26668 AND\n2 1 26668 114413 114414 XOR\n2 1 76116 2243 114444 XOR\n2 1 114444 114413 94233 XOR\n2 1 96281 94233 114382 XOR\n2 1 2244 114414 26673 XOR\n2 1 76114 2241 114442 XOR\n2 1 114442 114411 94231 XOR\n2 1 79444 129387 52272 XOR\n2 1 77908 129387 52273 XOR\n2 1 52272 52273 52271 AND\n2 1 52271 129387 129388 XOR\n2 1 79445 129388 52275 XOR\n2 1 77909 129388 52276 XOR\n2 1 52275 52276 52274 AND\n2 1 52274 129388 129389 XOR\n2 1 129420 129389 76118 XOR\n2 1 76118 2245 114446 XOR\n2 1 77910 129389 52279 XOR\n2 1 79446 129389 52278 XOR\n2 1 52278 52279 52277 AND\n2 1 52277 129389 129390 XOR\n2 1 79447 129390 52281 XOR\n2 1 96279 94231 114380 XOR\n2 1 114380 114349 90194 XOR\n2 1 90194 84050 104483 XOR\n2 1 90194 104390 10658 XOR\n2 1 10657 10658 10656 AND\n2 1 1729 90194 104421 XOR\n2 1 104421 104390 1601 XOR\n2 1 10656 104390 104391 XOR\n2 1 1730 104391 10660 XOR\n2 1 63824 1601 63792 AND\n2 1 63792 2177 98295 XOR\n2 1 1601 1633 63760 XOR\n2 1 129419 129388 76117 XOR\n2 1 76117 114414 26672 XOR\n2 1 26672 26673 26671 AND\n2 1 26671 114414 114415 XOR\n2 1 114446 114415 94235 XOR\n2 1 96283 94235 114384 XOR\n2 1 76117 2244 114445 XOR\n2 1 114445 114414 94234 XOR\n2 1 96282 94234 114383 XOR\n2 1 76118 114415 26675 XOR\n2 1 2245 114415 26676 XOR\n2 1 26675 26676 26674 AND\n2 1 26674 114415 114416 XOR\n2 1 2246 114416 26679 XOR\n2 1 82518 129451 52368 XOR\n2 1 52368 52369 52367 AND\n2 1 52367 129451 129452 XOR\n2 1 82519 129452 52371 XOR\n2 1 76631 129452 52372 XOR\n2 1 52371 52372 52370 AND\n2 1 129483 129452 77911 XOR\n2 1 77911 129390 52282 XOR\n2 1 79447 77911 129421 XOR\n2 1 129421 129390 76119 XOR\n2 1 76119 114416 26678 XOR\n2 1 26678 26679 26677 AND\n2 1 26677 114416 114417 XOR\n2 1 2247 114417 26682 XOR\n2 1 76119 2246 114447 XOR\n2 1 114447 114416 94236 XOR\n2 1 96284 94236 114385 XOR\n2 1 52281 52282 52280 AND\n",
"2 1 52280 129390 129391 XOR\n2 1 79448 129391 52284 XOR\n2 1 52370 129452 129453 XOR\n2 1 129484 129453 77912 XOR\n2 1 79448 77912 129422 XOR\n2 1 129422 129391 76120 XOR\n2 1 76120 114417 26681 XOR\n2 1 26681 26682 26680 AND\n2 1 26680 114417 114418 XOR\n2 1 2248 114418 26685 XOR\n2 1 82520 129453 52374 XOR\n2 1 76632 129453 52375 XOR\n2 1 52374 52375 52373 AND\n2 1 52373 129453 129454 XOR\n2 1 76633 129454 52378 XOR\n2 1 129485 129454 77913 XOR\n2 1 79449 77913 129423 XOR\n2 1 82521 129454 52377 XOR\n2 1 52377 52378 52376 AND\n2 1 52376 129454 129455 XOR\n2 1 129486 129455 77914 XOR\n2 1 76634 129455 52381 XOR\n2 1 79450 77914 129424 XOR\n2 1 82522 129455 52380 XOR\n2 1 52380 52381 52379 AND\n2 1 52379 129455 129456 XOR\n2 1 82523 129456 52383 XOR\n2 1 76635 129456 52384 XOR\n2 1 129487 129456 77915 XOR\n2 1 52383 52384 52382 AND\n2 1 52382 129456 129457 XOR\n2 1 76636 129457 52387 XOR\n2 1 129488 129457 77916 XOR\n2 1 82524 129457 52386 XOR\n2 1 52386 52387 52385 AND\n2 1 52385 129457 129458 XOR\n2 1 76637 129458 52390 XOR\n2 1 82525 129458 52389 XOR\n2 1 129489 129458 77917 XOR\n2 1 52389 52390 52388 AND\n2 1 52388 129458 129459 XOR\n2 1 76638 129459 52393 XOR\n2 1 129490 129459 77918 XOR\n2 1 82526 129459 52392 XOR\n2 1 52392 52393 52391 AND\n2 1 52391 129459 129460 XOR\n2 1 82527 129460 52395 XOR\n2 1 76639 129460 52396 XOR\n2 1 129491 129460 77919 XOR\n2 1 79455 77919 129429 XOR\n2 1 52395 52396 52394 AND\n2 1 52394 129460 129461 XOR\n2 1 129492 129461 77920 XOR\n2 1 76640 129461 52399 XOR\n2 1 82528 129461 52398 XOR\n2 1 52398 52399 52397 AND\n2 1 52397 129461 129462 XOR\n2 1 82529 129462 52401 XOR\n2 1 76641 129462 52402 XOR\n2 1 52401 52402 52400 AND\n2 1 52400 129462 129463 XOR\n2 1 82530 129463 52404 XOR\n2 1 129493 129462 77921 XOR\n2 1 129494 129463 77922 XOR\n2 1 76642 129463 52405 XOR\n2 1 52404 52405 52403 AND\n2 1 52403 129463 129464 XOR\n2 1 82531 129464 52407 XOR\n2 1 76643 129464 52408 XOR\n2 1 52407 52408 52406 AND\n2 1 52406 129464 129465 XOR\n2 1 82532 129465 52410 XOR\n2 1 76644 129465 52411 XOR\n2 1 129495 129464 77923 XOR\n2 1 52410 52411 52409 AND\n2 1 52409 129465 129466 XOR\n2 1 82533 129466 52413 XOR\n2 1 129496 129465 77924 XOR\n2 1 76645 129466 52414 XOR\n2 1 52413 52414 52412 AND\n2 1 52412 129466 129467 XOR\n2 1 82534 129467 52416 XOR\n2 1 129498 129467 77926 XOR\n2 1 76646 129467 52417 XOR\n2 1 52416 52417 52415 AND\n2 1 52415 129467 129468 XOR\n2 1 129497 129466 77925 XOR\n2 1 129499 129468 77927 XOR\n2 1 82535 129468 52419 XOR\n2 1 76647 129468 52420 XOR\n2 1 52419 52420 52418 AND\n2 1 52418 129468 129469 XOR\n2 1 129500 129469 77928 XOR\n2 1 82536 129469 52422 XOR\n2 1 76648 129469 52423 XOR\n2 1 52422 52423 52421 AND\n2 1 52421 129469 129470 XOR\n2 1 129501 129470 77929 XOR\n2 1 82537 129470 52425 XOR\n2 1 76649 129470 52426 XOR\n2 1 52425 52426 52424 AND\n2 1 52424 129470 129471 XOR\n2 1 129502 129471 77930 XOR\n2 1 82538 129471 52428 XOR\n2 1 76650 129471 52429 XOR\n2 1 52428 52429 52427 AND\n2 1 52427 129471 129472 XOR\n2 1 129503 129472 77931 XOR\n2 1 82539 129472 52431 XOR\n2 1 76651 129472 52432 XOR\n2 1 52431 52432 52430 AND\n2 1 52430 129472 129473 XOR\n2 1 129504 129473 77932 XOR\n2 1 82540 129473 52434 XOR\n2 1 76652 129473 52435 XOR\n2 1 52434 52435 52433 AND\n2 1 52433 129473 129474 XOR\n2 1 82541 129474 52437 XOR\n2 1 129505 129474 77933 XOR\n2 1 76653 129474 52438 XOR\n2 1 52437 52438 52436 AND\n2 1 52436 129474 129475 XOR\n2 1 129506 129475 77934 XOR\n2 1 76654 129475 52441 XOR\n2 1 82542 129475 52440 XOR\n2 1 52440 52441 52439 AND\n2 1 52439 129475 129476 XOR\n2 1 129507 129476 77935 XOR\n",
"2 1 82543 129476 52443 XOR\n2 1 79459 77923 129433 XOR\n2 1 79457 77921 129431 XOR\n2 1 79471 77935 129445 XOR\n2 1 79470 77934 129444 XOR\n2 1 79460 77924 129434 XOR\n2 1 79463 77927 129437 XOR\n2 1 79462 77926 129436 XOR\n2 1 79461 77925 129435 XOR\n2 1 79464 77928 129438 XOR\n2 1 76655 129476 52444 XOR\n2 1 52443 52444 52442 AND\n2 1 52442 129476 129477 XOR\n2 1 79451 77915 129425 XOR\n2 1 79452 77916 129426 XOR\n2 1 79453 77917 129427 XOR\n2 1 79454 77918 129428 XOR\n2 1 79456 77920 129430 XOR\n2 1 79458 77922 129432 XOR\n2 1 79469 77933 129443 XOR\n2 1 76120 2247 114448 XOR\n2 1 114448 114417 94237 XOR\n2 1 96285 94237 114386 XOR\n2 1 79465 77929 129439 XOR\n2 1 79466 77930 129440 XOR\n2 1 79467 77931 129441 XOR\n2 1 79468 77932 129442 XOR\n2 1 77912 129391 52285 XOR\n2 1 52284 52285 52283 AND\n2 1 52283 129391 129392 XOR\n2 1 79449 129392 52287 XOR\n2 1 77913 129392 52288 XOR\n2 1 52287 52288 52286 AND\n2 1 129423 129392 76121 XOR\n2 1 52286 129392 129393 XOR\n2 1 129424 129393 76122 XOR\n2 1 79450 129393 52290 XOR\n2 1 77914 129393 52291 XOR\n2 1 52290 52291 52289 AND\n2 1 52289 129393 129394 XOR\n2 1 79451 129394 52293 XOR\n2 1 77915 129394 52294 XOR\n2 1 52293 52294 52292 AND\n2 1 52292 129394 129395 XOR\n2 1 129426 129395 76124 XOR\n2 1 129425 129394 76123 XOR\n2 1 76121 2248 114449 XOR\n2 1 114449 114418 94238 XOR\n2 1 96286 94238 114387 XOR\n2 1 76121 114418 26684 XOR\n2 1 26684 26685 26683 AND\n2 1 26683 114418 114419 XOR\n2 1 2249 114419 26688 XOR\n2 1 76122 114419 26687 XOR\n2 1 26687 26688 26686 AND\n2 1 26686 114419 114420 XOR\n2 1 76123 114420 26690 XOR\n2 1 2250 114420 26691 XOR\n2 1 26690 26691 26689 AND\n2 1 26689 114420 114421 XOR\n2 1 2251 114421 26694 XOR\n2 1 76124 114421 26693 XOR\n2 1 26693 26694 26692 AND\n2 1 26692 114421 114422 XOR\n2 1 2252 114422 26697 XOR\n2 1 79452 129395 52296 XOR\n2 1 77916 129395 52297 XOR\n2 1 52296 52297 52295 AND\n2 1 52295 129395 129396 XOR\n2 1 79453 129396 52299 XOR\n2 1 129427 129396 76125 XOR\n2 1 76125 114422 26696 XOR\n2 1 76125 2252 114453 XOR\n2 1 114453 114422 94242 XOR\n2 1 96290 94242 114391 XOR\n2 1 26696 26697 26695 AND\n2 1 26695 114422 114423 XOR\n2 1 2253 114423 26700 XOR\n2 1 77917 129396 52300 XOR\n2 1 52299 52300 52298 AND\n2 1 52298 129396 129397 XOR\n2 1 79454 129397 52302 XOR\n2 1 129428 129397 76126 XOR\n2 1 76126 2253 114454 XOR\n2 1 114454 114423 94243 XOR\n2 1 96291 94243 114392 XOR\n2 1 76126 114423 26699 XOR\n2 1 26699 26700 26698 AND\n2 1 26698 114423 114424 XOR\n2 1 2254 114424 26703 XOR\n2 1 77918 129397 52303 XOR\n2 1 52302 52303 52301 AND\n2 1 52301 129397 129398 XOR\n2 1 77919 129398 52306 XOR\n2 1 129429 129398 76127 XOR\n2 1 76127 114424 26702 XOR\n2 1 26702 26703 26701 AND\n2 1 26701 114424 114425 XOR\n2 1 2255 114425 26706 XOR\n2 1 76127 2254 114455 XOR\n2 1 114455 114424 94244 XOR\n2 1 96292 94244 114393 XOR\n2 1 79455 129398 52305 XOR\n2 1 52305 52306 52304 AND\n2 1 76122 2249 114450 XOR\n2 1 114450 114419 94239 XOR\n2 1 96287 94239 114388 XOR\n2 1 76123 2250 114451 XOR\n2 1 114451 114420 94240 XOR\n2 1 96288 94240 114389 XOR\n2 1 52304 129398 129399 XOR\n2 1 79456 129399 52308 XOR\n2 1 77920 129399 52309 XOR\n2 1 52308 52309 52307 AND\n2 1 52307 129399 129400 XOR\n2 1 79457 129400 52311 XOR\n2 1 77921 129400 52312 XOR\n2 1 52311 52312 52310 AND\n2 1 52310 129400 129401 XOR\n2 1 77922 129401 52315 XOR\n2 1 79458 129401 52314 XOR\n2 1 52314 52315 52313 AND\n2 1 129432 129401 76130 XOR\n2 1 129431 129400 76129 XOR\n2 1 52313 129401 129402 XOR\n2 1 77923 129402 52318 XOR\n2 1 129433 129402 76131 XOR\n2 1 76131 2258 114459 XOR\n",
"2 1 79459 129402 52317 XOR\n2 1 52317 52318 52316 AND\n2 1 52316 129402 129403 XOR\n2 1 77924 129403 52321 XOR\n2 1 79460 129403 52320 XOR\n2 1 52320 52321 52319 AND\n2 1 52319 129403 129404 XOR\n2 1 129435 129404 76133 XOR\n2 1 77925 129404 52324 XOR\n2 1 79461 129404 52323 XOR\n2 1 52323 52324 52322 AND\n2 1 52322 129404 129405 XOR\n2 1 129436 129405 76134 XOR\n2 1 76134 2261 114462 XOR\n2 1 79462 129405 52326 XOR\n2 1 77926 129405 52327 XOR\n2 1 52326 52327 52325 AND\n2 1 52325 129405 129406 XOR\n2 1 129437 129406 76135 XOR\n2 1 76135 2262 114463 XOR\n2 1 79463 129406 52329 XOR\n2 1 77927 129406 52330 XOR\n2 1 52329 52330 52328 AND\n2 1 52328 129406 129407 XOR\n2 1 79464 129407 52332 XOR\n2 1 129438 129407 76136 XOR\n2 1 76136 2263 114464 XOR\n2 1 77928 129407 52333 XOR\n2 1 52332 52333 52331 AND\n2 1 52331 129407 129408 XOR\n2 1 79465 129408 52335 XOR\n2 1 77929 129408 52336 XOR\n2 1 52335 52336 52334 AND\n2 1 129439 129408 76137 XOR\n2 1 76137 2264 114465 XOR\n2 1 52334 129408 129409 XOR\n2 1 77930 129409 52339 XOR\n2 1 129440 129409 76138 XOR\n2 1 79466 129409 52338 XOR\n2 1 52338 52339 52337 AND\n2 1 52337 129409 129410 XOR\n2 1 129441 129410 76139 XOR\n2 1 79467 129410 52341 XOR\n2 1 77931 129410 52342 XOR\n2 1 52341 52342 52340 AND\n2 1 52340 129410 129411 XOR\n2 1 129442 129411 76140 XOR\n2 1 76140 2267 114468 XOR\n2 1 79468 129411 52344 XOR\n2 1 77932 129411 52345 XOR\n2 1 52344 52345 52343 AND\n2 1 52343 129411 129412 XOR\n2 1 79469 129412 52347 XOR\n2 1 129443 129412 76141 XOR\n2 1 76141 2268 114469 XOR\n2 1 77933 129412 52348 XOR\n2 1 52347 52348 52346 AND\n2 1 52346 129412 129413 XOR\n2 1 77934 129413 52351 XOR\n2 1 129444 129413 76142 XOR\n2 1 76142 2269 114470 XOR\n2 1 79470 129413 52350 XOR\n2 1 52350 52351 52349 AND\n2 1 52349 129413 129414 XOR\n2 1 129445 129414 76143 XOR\n2 1 76143 2270 114471 XOR\n2 1 76138 2265 114466 XOR\n2 1 77935 129414 52354 XOR\n2 1 79471 129414 52353 XOR\n2 1 52353 52354 52352 AND\n2 1 52352 129414 129415 XOR\n2 1 76133 2260 114461 XOR\n2 1 76129 2256 114457 XOR\n2 1 129434 129403 76132 XOR\n2 1 129430 129399 76128 XOR\n2 1 76128 114425 26705 XOR\n2 1 26705 26706 26704 AND\n2 1 26704 114425 114426 XOR\n2 1 114457 114426 94246 XOR\n2 1 2256 114426 26709 XOR\n2 1 76128 2255 114456 XOR\n2 1 114456 114425 94245 XOR\n2 1 96293 94245 114394 XOR\n2 1 76124 2251 114452 XOR\n2 1 114452 114421 94241 XOR\n2 1 96289 94241 114390 XOR\n2 1 76139 2266 114467 XOR\n2 1 76129 114426 26708 XOR\n2 1 26708 26709 26707 AND\n2 1 26707 114426 114427 XOR\n2 1 2257 114427 26712 XOR\n2 1 76130 114427 26711 XOR\n2 1 26711 26712 26710 AND\n2 1 26710 114427 114428 XOR\n2 1 114459 114428 94248 XOR\n2 1 76131 114428 26714 XOR\n2 1 2258 114428 26715 XOR\n2 1 26714 26715 26713 AND\n2 1 26713 114428 114429 XOR\n2 1 76132 114429 26717 XOR\n2 1 2259 114429 26718 XOR\n2 1 26717 26718 26716 AND\n2 1 26716 114429 114430 XOR\n2 1 2260 114430 26721 XOR\n2 1 114461 114430 94250 XOR\n2 1 76133 114430 26720 XOR\n2 1 26720 26721 26719 AND\n2 1 26719 114430 114431 XOR\n2 1 114462 114431 94251 XOR\n2 1 96298 94250 114399 XOR\n2 1 2261 114431 26724 XOR\n2 1 76134 114431 26723 XOR\n2 1 26723 26724 26722 AND\n2 1 26722 114431 114432 XOR\n2 1 76135 114432 26726 XOR\n2 1 2262 114432 26727 XOR\n2 1 26726 26727 26725 AND\n2 1 114463 114432 94252 XOR\n2 1 26725 114432 114433 XOR\n2 1 114464 114433 94253 XOR\n2 1 76136 114433 26729 XOR\n2 1 2263 114433 26730 XOR\n2 1 26729 26730 26728 AND\n2 1 26728 114433 114434 XOR\n2 1 2264 114434 26733 XOR\n2 1 76137 114434 26732 XOR\n2 1 26732 26733 26731 AND\n2 1 26731 114434 114435 XOR\n",
"2 1 76138 114435 26735 XOR\n2 1 114466 114435 94255 XOR\n2 1 2265 114435 26736 XOR\n2 1 26735 26736 26734 AND\n2 1 26734 114435 114436 XOR\n2 1 2266 114436 26739 XOR\n2 1 76139 114436 26738 XOR\n2 1 26738 26739 26737 AND\n2 1 26737 114436 114437 XOR\n2 1 114468 114437 94257 XOR\n2 1 76140 114437 26741 XOR\n2 1 2267 114437 26742 XOR\n2 1 26741 26742 26740 AND\n2 1 26740 114437 114438 XOR\n2 1 114469 114438 94258 XOR\n2 1 76141 114438 26744 XOR\n2 1 2268 114438 26745 XOR\n2 1 26744 26745 26743 AND\n2 1 26743 114438 114439 XOR\n2 1 114470 114439 94259 XOR\n2 1 76142 114439 26747 XOR\n2 1 2269 114439 26748 XOR\n2 1 26747 26748 26746 AND\n2 1 26746 114439 114440 XOR\n2 1 114471 114440 94260 XOR\n2 1 76143 114440 26750 XOR\n2 1 2270 114440 26751 XOR\n2 1 26750 26751 26749 AND\n2 1 26749 114440 114441 XOR\n2 1 96306 94258 114407 XOR\n2 1 96305 94257 114406 XOR\n2 1 96307 94259 114408 XOR\n2 1 96308 94260 114409 XOR\n2 1 114467 114436 94256 XOR\n2 1 114465 114434 94254 XOR\n2 1 76130 2257 114458 XOR\n2 1 114458 114427 94247 XOR\n2 1 96294 94246 114395 XOR\n2 1 129508 129477 77936 XOR\n2 1 79472 77936 129446 XOR\n2 1 129446 129415 76144 XOR\n2 1 76144 2271 114472 XOR\n2 1 114472 114441 94261 XOR\n2 1 96309 94261 114410 XOR\n2 1 96295 94247 114396 XOR\n2 1 96296 94248 114397 XOR\n2 1 96300 94252 114401 XOR\n2 1 96301 94253 114402 XOR\n2 1 96299 94251 114400 XOR\n2 1 96303 94255 114404 XOR\n2 1 96304 94256 114405 XOR\n2 1 94231 114349 26574 XOR\n2 1 96302 94254 114403 XOR\n2 1 96279 114349 26573 XOR\n2 1 26573 26574 26572 AND\n2 1 26572 114349 114350 XOR\n2 1 96280 114350 26576 XOR\n2 1 94232 114350 26577 XOR\n2 1 26576 26577 26575 AND\n2 1 26575 114350 114351 XOR\n2 1 114382 114351 90196 XOR\n2 1 90196 84052 104485 XOR\n2 1 1731 90196 104423 XOR\n2 1 94233 114351 26580 XOR\n2 1 114381 114350 90195 XOR\n2 1 90195 84051 104484 XOR\n2 1 1730 90195 104422 XOR\n2 1 104422 104391 1602 XOR\n2 1 90195 104391 10661 XOR\n2 1 10660 10661 10659 AND\n2 1 10659 104391 104392 XOR\n2 1 104423 104392 1603 XOR\n2 1 90196 104392 10664 XOR\n2 1 1731 104392 10663 XOR\n2 1 10663 10664 10662 AND\n2 1 10662 104392 104393 XOR\n2 1 1732 104393 10666 XOR\n2 1 63826 1603 63794 AND\n2 1 63825 1602 63793 AND\n2 1 63794 2179 98297 XOR\n2 1 63793 2178 98296 XOR\n2 1 1603 1635 63762 XOR\n2 1 1602 1634 63761 XOR\n2 1 96281 114351 26579 XOR\n2 1 26579 26580 26578 AND\n2 1 26578 114351 114352 XOR\n2 1 94234 114352 26583 XOR\n2 1 96282 114352 26582 XOR\n2 1 26582 26583 26581 AND\n2 1 114383 114352 92223 XOR\n1 1 92223 90197 INV\n2 1 1732 90197 104424 XOR\n2 1 104424 104393 1604 XOR\n2 1 90197 104393 10667 XOR\n2 1 10666 10667 10665 AND\n2 1 10665 104393 104394 XOR\n2 1 1733 104394 10669 XOR\n2 1 90197 84053 104486 XOR\n2 1 63827 1604 63795 AND\n2 1 63795 2180 98298 XOR\n2 1 1604 1636 63763 XOR\n2 1 26581 114352 114353 XOR\n2 1 94235 114353 26586 XOR\n2 1 114384 114353 92224 XOR\n1 1 92224 26563 INV\n2 1 92224 92223 26495 XOR\n2 1 26563 92223 90198 XOR\n2 1 90198 104394 10670 XOR\n2 1 10669 10670 10668 AND\n2 1 90198 84054 104487 XOR\n2 1 1733 90198 104425 XOR\n2 1 104425 104394 1605 XOR\n2 1 10668 104394 104395 XOR\n2 1 1734 104395 10672 XOR\n2 1 63828 1605 63796 AND\n2 1 63796 2181 98299 XOR\n2 1 1605 1637 63764 XOR\n2 1 26495 90197 26494 AND\n2 1 26494 92223 26554 XOR\n1 1 26554 26498 INV\n2 1 1600 1605 61321 XOR\n2 1 96283 114353 26585 XOR\n2 1 26585 26586 26584 AND\n2 1 26584 114353 114354 XOR\n2 1 96284 114354 26588 XOR\n2 1 114385 114354 92225 XOR\n2 1 92225 26554 26497 XOR\n1 1 92225 26564 INV\n",
"2 1 26564 26554 90199 XOR\n2 1 90199 84055 104488 XOR\n2 1 1734 90199 104426 XOR\n2 1 104426 104395 1606 XOR\n2 1 90199 104395 10673 XOR\n2 1 10672 10673 10671 AND\n2 1 10671 104395 104396 XOR\n2 1 1735 104396 10675 XOR\n2 1 26497 26498 26496 AND\n2 1 26496 26554 26500 XOR\n2 1 94236 114354 26589 XOR\n2 1 63829 1606 63797 AND\n2 1 63797 2182 98300 XOR\n2 1 1606 1638 63765 XOR\n2 1 26588 26589 26587 AND\n2 1 26587 114354 114355 XOR\n2 1 114386 114355 92226 XOR\n2 1 94237 114355 26592 XOR\n2 1 92226 26500 90200 XOR\n2 1 90200 104396 10676 XOR\n2 1 10675 10676 10674 AND\n2 1 90200 84056 104489 XOR\n2 1 1735 90200 104427 XOR\n2 1 104427 104396 1607 XOR\n2 1 10674 104396 104397 XOR\n2 1 1736 104397 10678 XOR\n2 1 63830 1607 63798 AND\n2 1 63798 2183 98301 XOR\n2 1 1607 1639 63766 XOR\n2 1 96285 114355 26591 XOR\n2 1 26591 26592 26590 AND\n2 1 26590 114355 114356 XOR\n2 1 96286 114356 26594 XOR\n2 1 114387 114356 92227 XOR\n2 1 94238 114356 26595 XOR\n2 1 26594 26595 26593 AND\n2 1 26593 114356 114357 XOR\n2 1 94239 114357 26598 XOR\n2 1 96287 114357 26597 XOR\n2 1 26597 26598 26596 AND\n2 1 26596 114357 114358 XOR\n2 1 94240 114358 26601 XOR\n2 1 114389 114358 92229 XOR\n2 1 114388 114357 92228 XOR\n2 1 96288 114358 26600 XOR\n2 1 26600 26601 26599 AND\n2 1 26599 114358 114359 XOR\n2 1 114390 114359 92230 XOR\n2 1 96289 114359 26603 XOR\n2 1 94241 114359 26604 XOR\n2 1 26603 26604 26602 AND\n2 1 26602 114359 114360 XOR\n2 1 96290 114360 26606 XOR\n2 1 94242 114360 26607 XOR\n2 1 114391 114360 92231 XOR\n2 1 26606 26607 26605 AND\n2 1 26605 114360 114361 XOR\n2 1 114392 114361 92232 XOR\n1 1 92232 26565 INV\n2 1 96291 114361 26609 XOR\n2 1 94243 114361 26610 XOR\n2 1 26609 26610 26608 AND\n2 1 26608 114361 114362 XOR\n2 1 114393 114362 92233 XOR\n2 1 96292 114362 26612 XOR\n2 1 94244 114362 26613 XOR\n2 1 26612 26613 26611 AND\n2 1 26611 114362 114363 XOR\n2 1 114394 114363 92234 XOR\n1 1 92234 26566 INV\n2 1 96293 114363 26615 XOR\n2 1 94245 114363 26616 XOR\n2 1 26615 26616 26614 AND\n2 1 26614 114363 114364 XOR\n2 1 114395 114364 92235 XOR\n2 1 96294 114364 26618 XOR\n2 1 94246 114364 26619 XOR\n2 1 26618 26619 26617 AND\n2 1 26617 114364 114365 XOR\n2 1 114396 114365 92236 XOR\n1 1 92236 26567 INV\n2 1 94247 114365 26622 XOR\n2 1 96295 114365 26621 XOR\n2 1 26621 26622 26620 AND\n2 1 26620 114365 114366 XOR\n2 1 96296 114366 26624 XOR\n2 1 94248 114366 26625 XOR\n2 1 26624 26625 26623 AND\n2 1 26623 114366 114367 XOR\n2 1 96297 114367 26627 XOR\n2 1 114397 114366 92237 XOR\n2 1 1602 1607 61323 XOR\n2 1 1601 1606 61322 XOR\n2 1 90200 26500 26499 AND\n2 1 26499 26500 26502 XOR\n2 1 92227 26502 90201 XOR\n2 1 1736 90201 104428 XOR\n2 1 104428 104397 1608 XOR\n2 1 90201 104397 10679 XOR\n2 1 10678 10679 10677 AND\n2 1 10677 104397 104398 XOR\n2 1 1737 104398 10681 XOR\n2 1 90201 84057 104490 XOR\n2 1 90201 26502 26501 AND\n2 1 63831 1608 63799 AND\n2 1 63799 2184 98302 XOR\n2 1 1608 1640 63767 XOR\n2 1 1603 1608 61324 XOR\n2 1 26501 26502 26504 XOR\n2 1 92228 26504 90202 XOR\n2 1 1737 90202 104429 XOR\n2 1 104429 104398 1609 XOR\n2 1 63832 1609 63800 AND\n2 1 63800 2185 98303 XOR\n2 1 1609 1641 63768 XOR\n2 1 90202 84058 104491 XOR\n2 1 90202 26504 26503 AND\n2 1 26503 26504 26506 XOR\n2 1 92229 26506 90203 XOR\n2 1 90203 26506 26505 AND\n2 1 90203 84059 104492 XOR\n2 1 1738 90203 104430 XOR\n2 1 26505 26506 26508 XOR\n2 1 92230 26508 90204 XOR\n2 1 90204 26508 26507 AND\n2 1 26507 26508 26510 XOR\n2 1 90204 84060 104493 XOR\n2 1 1739 90204 104431 XOR\n",
"2 1 92231 26510 90205 XOR\n2 1 90205 26510 26509 AND\n2 1 90205 84061 104494 XOR\n2 1 1740 90205 104432 XOR\n2 1 26509 26510 26555 XOR\n1 1 26555 26513 INV\n2 1 92232 26555 26512 XOR\n2 1 26565 26555 90206 XOR\n2 1 90206 84062 104495 XOR\n2 1 1741 90206 104433 XOR\n2 1 26512 26513 26511 AND\n2 1 26511 26555 26515 XOR\n2 1 92233 26515 90207 XOR\n2 1 1742 90207 104434 XOR\n2 1 1604 1609 61325 XOR\n2 1 90202 104398 10682 XOR\n2 1 10681 10682 10680 AND\n2 1 10680 104398 104399 XOR\n2 1 1738 104399 10684 XOR\n2 1 104430 104399 1610 XOR\n2 1 90203 104399 10685 XOR\n2 1 10684 10685 10683 AND\n2 1 10683 104399 104400 XOR\n2 1 90204 104400 10688 XOR\n2 1 104431 104400 1611 XOR\n2 1 1739 104400 10687 XOR\n2 1 10687 10688 10686 AND\n2 1 10686 104400 104401 XOR\n2 1 1740 104401 10690 XOR\n2 1 104432 104401 1612 XOR\n2 1 63835 1612 63803 AND\n2 1 63834 1611 63802 AND\n2 1 63833 1610 63801 AND\n2 1 63803 2188 98306 XOR\n2 1 63802 2187 98305 XOR\n2 1 63801 2186 98304 XOR\n2 1 1612 1644 63771 XOR\n2 1 1611 1643 63770 XOR\n2 1 1610 1642 63769 XOR\n2 1 1605 1610 61326 XOR\n2 1 1607 1612 61296 XOR\n2 1 1606 1611 61295 XOR\n2 1 90205 104401 10691 XOR\n2 1 10690 10691 10689 AND\n2 1 10689 104401 104402 XOR\n2 1 1741 104402 10693 XOR\n2 1 104433 104402 1613 XOR\n2 1 90206 104402 10694 XOR\n2 1 10693 10694 10692 AND\n2 1 10692 104402 104403 XOR\n2 1 104434 104403 1614 XOR\n2 1 1742 104403 10696 XOR\n2 1 63837 1614 63805 AND\n2 1 63836 1613 63804 AND\n2 1 63805 2190 98308 XOR\n2 1 63804 2189 98307 XOR\n2 1 1614 1646 63773 XOR\n2 1 1613 1645 63772 XOR\n2 1 90207 104403 10697 XOR\n2 1 10696 10697 10695 AND\n2 1 10695 104403 104404 XOR\n2 1 1743 104404 10699 XOR\n2 1 1609 1614 61298 XOR\n2 1 1608 1613 61297 XOR\n2 1 90207 26515 26514 AND\n2 1 26514 26515 26556 XOR\n1 1 26556 26518 INV\n2 1 26566 26556 90208 XOR\n2 1 90208 104404 10700 XOR\n2 1 10699 10700 10698 AND\n2 1 10698 104404 104405 XOR\n2 1 1744 104405 10702 XOR\n2 1 92234 26556 26517 XOR\n2 1 26517 26518 26516 AND\n2 1 26516 26556 26520 XOR\n2 1 92235 26520 90209 XOR\n2 1 90209 104405 10703 XOR\n2 1 10702 10703 10701 AND\n2 1 10701 104405 104406 XOR\n2 1 1745 104406 10705 XOR\n2 1 90209 26520 26519 AND\n2 1 26519 26520 26557 XOR\n2 1 26567 26557 90210 XOR\n2 1 90210 104406 10706 XOR\n2 1 10705 10706 10704 AND\n2 1 10704 104406 104407 XOR\n2 1 1746 104407 10708 XOR\n2 1 92236 26557 26522 XOR\n2 1 1743 90208 104435 XOR\n2 1 104435 104404 1615 XOR\n2 1 1744 90209 104436 XOR\n2 1 104436 104405 1616 XOR\n2 1 1745 90210 104437 XOR\n2 1 104437 104406 1617 XOR\n2 1 90208 84064 104497 XOR\n1 1 26557 26523 INV\n2 1 26522 26523 26521 AND\n2 1 26521 26557 26525 XOR\n2 1 92237 26525 90211 XOR\n2 1 90211 26525 26524 AND\n2 1 26524 26525 26558 XOR\n2 1 1746 90211 104438 XOR\n2 1 90211 104407 10709 XOR\n2 1 90211 84067 104500 XOR\n2 1 10708 10709 10707 AND\n2 1 10707 104407 104408 XOR\n2 1 1747 104408 10711 XOR\n1 1 26558 26528 INV\n2 1 63840 1617 63808 AND\n2 1 63839 1616 63807 AND\n2 1 63838 1615 63806 AND\n2 1 63808 2193 98311 XOR\n2 1 63807 2192 98310 XOR\n2 1 63806 2191 98309 XOR\n2 1 1617 1649 63776 XOR\n2 1 1616 1648 63775 XOR\n2 1 1615 1647 63774 XOR\n2 1 1612 1617 61301 XOR\n2 1 1611 1616 61300 XOR\n2 1 1610 1615 61299 XOR\n2 1 104438 104407 1618 XOR\n2 1 63841 1618 63809 AND\n2 1 63809 2194 98312 XOR\n2 1 1618 1650 63777 XOR\n2 1 1613 1618 61302 XOR\n2 1 61302 1600 100349 XOR\n2 1 100349 98301 114262 XOR\n2 1 76129 76131 80944 XOR\n",
"2 1 80944 76304 129198 XOR\n2 1 76128 76130 80943 XOR\n2 1 80943 76303 129197 XOR\n2 1 76127 76129 80942 XOR\n2 1 80942 76302 129196 XOR\n2 1 76126 76128 80941 XOR\n2 1 80941 76301 129195 XOR\n2 1 76125 76127 80940 XOR\n2 1 80940 76300 129194 XOR\n2 1 76124 76126 80939 XOR\n2 1 80939 76299 129193 XOR\n2 1 76123 76125 80938 XOR\n2 1 80938 76298 129192 XOR\n2 1 76122 76124 80937 XOR\n2 1 80937 76297 129191 XOR\n2 1 76121 76123 80936 XOR\n2 1 80936 76296 129190 XOR\n2 1 76120 76122 80935 XOR\n2 1 80935 76295 129189 XOR\n2 1 76119 76121 6441 XOR\n2 1 76118 76120 6440 XOR\n2 1 76117 76119 6439 XOR\n2 1 76116 76118 6438 XOR\n2 1 76115 76117 6437 XOR\n2 1 76114 76116 6436 XOR\n2 1 76113 76115 6435 XOR\n2 1 76144 76114 6434 XOR\n2 1 76143 76113 6433 XOR\n2 1 76142 76144 6432 XOR\n2 1 76141 76143 6431 XOR\n2 1 76140 76142 6430 XOR\n2 1 76139 76141 6429 XOR\n2 1 76138 76140 6428 XOR\n2 1 76137 76139 6427 XOR\n2 1 76136 76138 6426 XOR\n2 1 76135 76137 6425 XOR\n2 1 76134 76136 6424 XOR\n2 1 76133 76135 6423 XOR\n2 1 76132 76134 6422 XOR\n2 1 76131 76133 6421 XOR\n2 1 76130 76132 6420 XOR\n2 1 6441 76144 80934 XOR\n2 1 80934 76294 129188 XOR\n2 1 6440 76143 80933 XOR\n2 1 80933 76293 129187 XOR\n2 1 6439 76142 80932 XOR\n2 1 80932 76292 129186 XOR\n2 1 6438 76141 80931 XOR\n2 1 80931 76291 129185 XOR\n2 1 6437 76140 80930 XOR\n2 1 80930 76290 129184 XOR\n2 1 6436 76139 80929 XOR\n2 1 80929 76289 129183 XOR\n2 1 6435 76138 80928 XOR\n2 1 80928 76288 129182 XOR\n2 1 6434 76137 80927 XOR\n2 1 80927 76287 129181 XOR\n2 1 6433 76136 80926 XOR\n2 1 80926 76286 129180 XOR\n2 1 6432 76135 80925 XOR\n2 1 80925 76285 129179 XOR\n2 1 6431 76134 80924 XOR\n2 1 80924 76284 129178 XOR\n2 1 6430 76133 80923 XOR\n2 1 80923 76283 129177 XOR\n2 1 6429 76132 80922 XOR\n2 1 80922 76282 129176 XOR\n2 1 6428 76131 80921 XOR\n2 1 80921 76281 129175 XOR\n2 1 6427 76130 80920 XOR\n2 1 80920 76280 129174 XOR\n2 1 6426 76129 80919 XOR\n2 1 80919 76279 129173 XOR\n2 1 6425 76128 80918 XOR\n2 1 80918 76278 129172 XOR\n2 1 6424 76127 80917 XOR\n2 1 80917 76277 129171 XOR\n2 1 6423 76126 80916 XOR\n2 1 80916 76276 129170 XOR\n2 1 6422 76125 80915 XOR\n2 1 80915 76275 129169 XOR\n2 1 6421 76124 80914 XOR\n2 1 80914 76274 129168 XOR\n2 1 6420 76123 80913 XOR\n2 1 80913 76273 129137 AND\n2 1 80914 129137 51906 XOR\n2 1 129168 129137 79378 XOR\n2 1 80913 76273 79377 XOR\n2 1 90207 84063 104496 XOR\n2 1 90210 84066 104499 XOR\n2 1 90209 84065 104498 XOR\n2 1 104483 104452 1153 XOR\n2 1 1153 1665 70256 XOR\n2 1 70256 70224 70192 AND\n2 1 70192 1665 86066 XOR\n2 1 1153 1185 70128 XOR\n2 1 90194 104452 10747 XOR\n2 1 84050 104452 10748 XOR\n2 1 10747 10748 10746 AND\n2 1 10746 104452 104453 XOR\n2 1 104484 104453 1154 XOR\n2 1 1154 1666 70257 XOR\n2 1 70257 70225 70193 AND\n2 1 70193 1666 86067 XOR\n2 1 1154 1186 70129 XOR\n2 1 90195 104453 10750 XOR\n2 1 84051 104453 10751 XOR\n2 1 10750 10751 10749 AND\n2 1 10749 104453 104454 XOR\n2 1 104485 104454 1155 XOR\n2 1 1155 1667 70258 XOR\n2 1 70258 70226 70194 AND\n2 1 70194 1667 86068 XOR\n2 1 1155 1187 70130 XOR\n2 1 90196 104454 10753 XOR\n2 1 84052 104454 10754 XOR\n2 1 10753 10754 10752 AND\n2 1 10752 104454 104455 XOR\n2 1 90197 104455 10756 XOR\n2 1 104486 104455 1156 XOR\n2 1 1156 1668 70259 XOR\n2 1 70259 70227 70195 AND\n2 1 70195 1668 86069 XOR\n2 1 1156 1188 70131 XOR\n2 1 84053 104455 10757 XOR\n2 1 10756 10757 10755 AND\n2 1 10755 104455 104456 XOR\n2 1 90198 104456 10759 XOR\n",
"2 1 84054 104456 10760 XOR\n2 1 10759 10760 10758 AND\n2 1 10758 104456 104457 XOR\n2 1 104488 104457 1158 XOR\n2 1 1158 1670 70261 XOR\n2 1 70261 70229 70197 AND\n2 1 70197 1670 86071 XOR\n2 1 1158 1190 70133 XOR\n2 1 90199 104457 10762 XOR\n2 1 84055 104457 10763 XOR\n2 1 10762 10763 10761 AND\n2 1 10761 104457 104458 XOR\n2 1 104489 104458 1159 XOR\n2 1 1159 1671 70262 XOR\n2 1 70262 70230 70198 AND\n2 1 70198 1671 86072 XOR\n2 1 1159 1191 70134 XOR\n2 1 90200 104458 10765 XOR\n2 1 84056 104458 10766 XOR\n2 1 10765 10766 10764 AND\n2 1 10764 104458 104459 XOR\n2 1 104490 104459 1160 XOR\n2 1 1160 1672 70263 XOR\n2 1 70263 70231 70199 AND\n2 1 70199 1672 86073 XOR\n2 1 1160 1192 70135 XOR\n2 1 90201 104459 10768 XOR\n2 1 84057 104459 10769 XOR\n2 1 10768 10769 10767 AND\n2 1 10767 104459 104460 XOR\n2 1 104491 104460 1161 XOR\n2 1 1161 1673 70264 XOR\n2 1 70264 70232 70200 AND\n2 1 70200 1673 86074 XOR\n2 1 1161 1193 70136 XOR\n2 1 90202 104460 10771 XOR\n2 1 84058 104460 10772 XOR\n2 1 10771 10772 10770 AND\n2 1 10770 104460 104461 XOR\n2 1 104492 104461 1162 XOR\n2 1 1162 1674 70265 XOR\n2 1 70265 70233 70201 AND\n2 1 70201 1674 86075 XOR\n2 1 1162 1194 70137 XOR\n2 1 90203 104461 10774 XOR\n2 1 84059 104461 10775 XOR\n2 1 10774 10775 10773 AND\n2 1 10773 104461 104462 XOR\n2 1 104493 104462 1163 XOR\n2 1 1163 1675 70266 XOR\n2 1 70266 70234 70202 AND\n2 1 70202 1675 86076 XOR\n2 1 1163 1195 70138 XOR\n2 1 1152 1163 67245 XOR\n2 1 90204 104462 10777 XOR\n2 1 84060 104462 10778 XOR\n2 1 10777 10778 10776 AND\n2 1 10776 104462 104463 XOR\n2 1 104494 104463 1164 XOR\n2 1 1164 1676 70267 XOR\n2 1 70267 70235 70203 AND\n2 1 70203 1676 86077 XOR\n2 1 1164 1196 70139 XOR\n2 1 1153 1164 67246 XOR\n2 1 90205 104463 10780 XOR\n2 1 84061 104463 10781 XOR\n2 1 10780 10781 10779 AND\n2 1 10779 104463 104464 XOR\n2 1 104495 104464 1165 XOR\n2 1 1165 1677 70268 XOR\n2 1 70268 70236 70204 AND\n2 1 70204 1677 86078 XOR\n2 1 1165 1197 70140 XOR\n2 1 1154 1165 67215 XOR\n2 1 90206 104464 10783 XOR\n2 1 84062 104464 10784 XOR\n2 1 10783 10784 10782 AND\n2 1 10782 104464 104465 XOR\n2 1 104496 104465 1166 XOR\n2 1 1166 1678 70269 XOR\n2 1 70269 70237 70205 AND\n2 1 70205 1678 86079 XOR\n2 1 1166 1198 70141 XOR\n2 1 1155 1166 67216 XOR\n2 1 90207 104465 10786 XOR\n2 1 84063 104465 10787 XOR\n2 1 10786 10787 10785 AND\n2 1 10785 104465 104466 XOR\n2 1 104497 104466 1167 XOR\n2 1 1167 1679 70270 XOR\n2 1 70270 70238 70206 AND\n2 1 70206 1679 86080 XOR\n2 1 1167 1199 70142 XOR\n2 1 1156 1167 67217 XOR\n2 1 90208 104466 10789 XOR\n2 1 84064 104466 10790 XOR\n2 1 10789 10790 10788 AND\n2 1 10788 104466 104467 XOR\n2 1 104498 104467 1168 XOR\n2 1 1168 1680 70271 XOR\n2 1 70271 70239 70207 AND\n2 1 70207 1680 86081 XOR\n2 1 1168 1200 70143 XOR\n2 1 90209 104467 10792 XOR\n2 1 84065 104467 10793 XOR\n2 1 10792 10793 10791 AND\n2 1 10791 104467 104468 XOR\n2 1 104499 104468 1169 XOR\n2 1 1169 1681 70272 XOR\n2 1 70272 70240 70208 AND\n2 1 70208 1681 86082 XOR\n2 1 1169 1201 70144 XOR\n2 1 1158 1169 67219 XOR\n2 1 90210 104468 10795 XOR\n2 1 84066 104468 10796 XOR\n2 1 10795 10796 10794 AND\n2 1 10794 104468 104469 XOR\n2 1 104500 104469 1170 XOR\n2 1 1170 1682 70273 XOR\n2 1 70273 70241 70209 AND\n2 1 70209 1682 86083 XOR\n2 1 1170 1202 70145 XOR\n2 1 1159 1170 67220 XOR\n2 1 90211 104469 10798 XOR\n2 1 84067 104469 10799 XOR\n2 1 10798 10799 10797 AND\n2 1 10797 104469 104470 XOR\n2 1 84068 104470 10802 XOR\n",
"2 1 104487 104456 1157 XOR\n2 1 1157 1669 70260 XOR\n2 1 70260 70228 70196 AND\n2 1 70196 1669 86070 XOR\n2 1 1157 1189 70132 XOR\n2 1 1157 1168 67218 XOR\n2 1 76274 129137 51907 XOR\n2 1 51906 51907 51905 AND\n2 1 51905 129137 129138 XOR\n2 1 76275 129138 51910 XOR\n2 1 80915 129138 51909 XOR\n2 1 51909 51910 51908 AND\n2 1 51908 129138 129139 XOR\n2 1 129170 129139 79380 XOR\n2 1 76276 129139 51913 XOR\n2 1 80916 129139 51912 XOR\n2 1 51912 51913 51911 AND\n2 1 51911 129139 129140 XOR\n2 1 80917 129140 51915 XOR\n2 1 129171 129140 79381 XOR\n2 1 76277 129140 51916 XOR\n2 1 51915 51916 51914 AND\n2 1 51914 129140 129141 XOR\n2 1 129172 129141 79382 XOR\n2 1 76278 129141 51919 XOR\n2 1 80918 129141 51918 XOR\n2 1 51918 51919 51917 AND\n2 1 51917 129141 129142 XOR\n2 1 129173 129142 79383 XOR\n2 1 76279 129142 51922 XOR\n2 1 80919 129142 51921 XOR\n2 1 51921 51922 51920 AND\n2 1 51920 129142 129143 XOR\n2 1 129174 129143 79384 XOR\n2 1 80920 129143 51924 XOR\n2 1 76280 129143 51925 XOR\n2 1 51924 51925 51923 AND\n2 1 51923 129143 129144 XOR\n2 1 129175 129144 79385 XOR\n2 1 80921 129144 51927 XOR\n2 1 76281 129144 51928 XOR\n2 1 51927 51928 51926 AND\n2 1 51926 129144 129145 XOR\n2 1 129176 129145 79386 XOR\n2 1 80922 129145 51930 XOR\n2 1 76282 129145 51931 XOR\n2 1 51930 51931 51929 AND\n2 1 51929 129145 129146 XOR\n2 1 129177 129146 79387 XOR\n2 1 76283 129146 51934 XOR\n2 1 80923 129146 51933 XOR\n2 1 51933 51934 51932 AND\n2 1 51932 129146 129147 XOR\n2 1 129178 129147 79388 XOR\n2 1 80924 129147 51936 XOR\n2 1 76284 129147 51937 XOR\n2 1 51936 51937 51935 AND\n2 1 51935 129147 129148 XOR\n2 1 129179 129148 79389 XOR\n2 1 80925 129148 51939 XOR\n2 1 76285 129148 51940 XOR\n2 1 51939 51940 51938 AND\n2 1 51938 129148 129149 XOR\n2 1 129180 129149 79390 XOR\n2 1 80926 129149 51942 XOR\n2 1 76286 129149 51943 XOR\n2 1 51942 51943 51941 AND\n2 1 51941 129149 129150 XOR\n2 1 129181 129150 79391 XOR\n2 1 80927 129150 51945 XOR\n2 1 76287 129150 51946 XOR\n2 1 51945 51946 51944 AND\n2 1 51944 129150 129151 XOR\n2 1 76288 129151 51949 XOR\n2 1 129182 129151 79392 XOR\n2 1 80928 129151 51948 XOR\n2 1 51948 51949 51947 AND\n2 1 51947 129151 129152 XOR\n2 1 129183 129152 79393 XOR\n2 1 76289 129152 51952 XOR\n2 1 80929 129152 51951 XOR\n2 1 51951 51952 51950 AND\n2 1 51950 129152 129153 XOR\n2 1 129184 129153 79394 XOR\n2 1 80930 129153 51954 XOR\n2 1 76290 129153 51955 XOR\n2 1 51954 51955 51953 AND\n2 1 51953 129153 129154 XOR\n2 1 129185 129154 79395 XOR\n2 1 80931 129154 51957 XOR\n2 1 76291 129154 51958 XOR\n2 1 51957 51958 51956 AND\n2 1 51956 129154 129155 XOR\n2 1 129186 129155 79396 XOR\n2 1 80932 129155 51960 XOR\n2 1 76292 129155 51961 XOR\n2 1 51960 51961 51959 AND\n2 1 51959 129155 129156 XOR\n2 1 129187 129156 79397 XOR\n2 1 80933 129156 51963 XOR\n2 1 76293 129156 51964 XOR\n2 1 51963 51964 51962 AND\n2 1 51962 129156 129157 XOR\n2 1 80934 129157 51966 XOR\n2 1 129188 129157 79398 XOR\n2 1 76294 129157 51967 XOR\n2 1 51966 51967 51965 AND\n2 1 51965 129157 129158 XOR\n2 1 80935 129158 51969 XOR\n2 1 76295 129158 51970 XOR\n2 1 51969 51970 51968 AND\n2 1 51968 129158 129159 XOR\n2 1 129190 129159 79400 XOR\n2 1 76296 129159 51973 XOR\n2 1 80936 129159 51972 XOR\n2 1 51972 51973 51971 AND\n2 1 129189 129158 79399 XOR\n2 1 51971 129159 129160 XOR\n2 1 76297 129160 51976 XOR\n2 1 129191 129160 79401 XOR\n2 1 80937 129160 51975 XOR\n2 1 51975 51976 51974 AND\n2 1 51974 129160 129161 XOR\n2 1 129192 129161 79402 XOR\n2 1 76298 129161 51979 XOR\n2 1 80938 129161 51978 XOR\n2 1 51978 51979 51977 AND\n2 1 51977 129161 129162 XOR\n",
"2 1 129193 129162 79403 XOR\n2 1 80939 129162 51981 XOR\n2 1 76299 129162 51982 XOR\n2 1 51981 51982 51980 AND\n2 1 51980 129162 129163 XOR\n2 1 129194 129163 79404 XOR\n2 1 76300 129163 51985 XOR\n2 1 80940 129163 51984 XOR\n2 1 51984 51985 51983 AND\n2 1 51983 129163 129164 XOR\n2 1 129195 129164 79405 XOR\n2 1 76301 129164 51988 XOR\n2 1 80941 129164 51987 XOR\n2 1 51987 51988 51986 AND\n2 1 51986 129164 129165 XOR\n2 1 80942 129165 51990 XOR\n2 1 76302 129165 51991 XOR\n2 1 51990 51991 51989 AND\n2 1 51989 129165 129166 XOR\n2 1 129197 129166 79407 XOR\n2 1 129196 129165 79406 XOR\n2 1 80943 129166 51993 XOR\n2 1 76303 129166 51994 XOR\n2 1 51993 51994 51992 AND\n2 1 51992 129166 129167 XOR\n2 1 129198 129167 79408 XOR\n2 1 129169 129138 79379 XOR\n2 1 76132 2259 114460 XOR\n2 1 114460 114429 94249 XOR\n2 1 94249 114367 26628 XOR\n2 1 26627 26628 26626 AND\n2 1 26626 114367 114368 XOR\n2 1 96298 114368 26630 XOR\n2 1 94250 114368 26631 XOR\n2 1 26630 26631 26629 AND\n2 1 26629 114368 114369 XOR\n2 1 96299 114369 26633 XOR\n2 1 114400 114369 92240 XOR\n2 1 94251 114369 26634 XOR\n2 1 26633 26634 26632 AND\n2 1 26632 114369 114370 XOR\n2 1 96300 114370 26636 XOR\n2 1 94252 114370 26637 XOR\n1 1 92240 26569 INV\n2 1 26636 26637 26635 AND\n2 1 114401 114370 92241 XOR\n1 1 92241 26570 INV\n2 1 114399 114368 92239 XOR\n2 1 26635 114370 114371 XOR\n2 1 96301 114371 26639 XOR\n2 1 114402 114371 92242 XOR\n2 1 94253 114371 26640 XOR\n2 1 26639 26640 26638 AND\n2 1 26638 114371 114372 XOR\n2 1 114403 114372 92243 XOR\n2 1 96302 114372 26642 XOR\n2 1 94254 114372 26643 XOR\n2 1 26642 26643 26641 AND\n2 1 26641 114372 114373 XOR\n2 1 114404 114373 92244 XOR\n2 1 96303 114373 26645 XOR\n2 1 94255 114373 26646 XOR\n2 1 26645 26646 26644 AND\n2 1 26644 114373 114374 XOR\n2 1 114405 114374 92245 XOR\n2 1 96304 114374 26648 XOR\n2 1 94256 114374 26649 XOR\n2 1 26648 26649 26647 AND\n2 1 26647 114374 114375 XOR\n2 1 114406 114375 92246 XOR\n2 1 96305 114375 26651 XOR\n2 1 94257 114375 26652 XOR\n2 1 26651 26652 26650 AND\n2 1 26650 114375 114376 XOR\n2 1 96306 114376 26654 XOR\n2 1 94258 114376 26655 XOR\n2 1 26654 26655 26653 AND\n2 1 26653 114376 114377 XOR\n2 1 114407 114376 92247 XOR\n1 1 92247 26571 INV\n2 1 114408 114377 92248 XOR\n2 1 96307 114377 26657 XOR\n2 1 94259 114377 26658 XOR\n2 1 26657 26658 26656 AND\n2 1 26656 114377 114378 XOR\n2 1 96308 114378 26660 XOR\n2 1 94260 114378 26661 XOR\n2 1 114409 114378 92249 XOR\n2 1 26660 26661 26659 AND\n2 1 26659 114378 114379 XOR\n2 1 114410 114379 92250 XOR\n2 1 96297 94249 114398 XOR\n2 1 114398 114367 92238 XOR\n2 1 92238 26558 26527 XOR\n2 1 26527 26528 26526 AND\n2 1 26526 26558 26530 XOR\n2 1 92239 26530 90213 XOR\n2 1 90213 26530 26529 AND\n2 1 26529 26530 26559 XOR\n2 1 92240 26559 26532 XOR\n2 1 1748 90213 104440 XOR\n2 1 26569 26559 90214 XOR\n2 1 1749 90214 104441 XOR\n1 1 26559 26533 INV\n2 1 26532 26533 26531 AND\n2 1 26531 26559 26560 XOR\n1 1 26560 26536 INV\n2 1 26570 26560 90215 XOR\n2 1 1750 90215 104442 XOR\n2 1 92241 26560 26535 XOR\n2 1 26535 26536 26534 AND\n2 1 26534 26560 26538 XOR\n2 1 92242 26538 90216 XOR\n2 1 1751 90216 104443 XOR\n2 1 90216 26538 26537 AND\n2 1 26537 26538 26540 XOR\n2 1 92243 26540 90217 XOR\n2 1 1752 90217 104444 XOR\n2 1 90217 26540 26539 AND\n2 1 26539 26540 26542 XOR\n2 1 92244 26542 90218 XOR\n2 1 1753 90218 104445 XOR\n2 1 90218 26542 26541 AND\n2 1 26541 26542 26544 XOR\n1 1 92238 26568 INV\n2 1 26568 26558 90212 XOR\n2 1 90212 104408 10712 XOR\n2 1 10711 10712 10710 AND\n",
"2 1 10710 104408 104409 XOR\n2 1 90213 104409 10715 XOR\n2 1 1748 104409 10714 XOR\n2 1 104440 104409 1620 XOR\n2 1 10714 10715 10713 AND\n2 1 10713 104409 104410 XOR\n2 1 1749 104410 10717 XOR\n2 1 104441 104410 1621 XOR\n2 1 90214 104410 10718 XOR\n2 1 10717 10718 10716 AND\n2 1 10716 104410 104411 XOR\n2 1 1750 104411 10720 XOR\n2 1 90215 104411 10721 XOR\n2 1 10720 10721 10719 AND\n2 1 10719 104411 104412 XOR\n2 1 90216 104412 10724 XOR\n2 1 1751 104412 10723 XOR\n2 1 10723 10724 10722 AND\n2 1 104443 104412 1623 XOR\n2 1 104442 104411 1622 XOR\n2 1 1747 90212 104439 XOR\n2 1 104439 104408 1619 XOR\n2 1 90212 84068 104501 XOR\n2 1 104501 104470 1171 XOR\n2 1 1171 1683 70274 XOR\n2 1 70274 70242 70210 AND\n2 1 70210 1683 86084 XOR\n2 1 1171 1203 70146 XOR\n2 1 1160 1171 67221 XOR\n2 1 90212 104470 10801 XOR\n2 1 10801 10802 10800 AND\n2 1 10800 104470 104471 XOR\n2 1 90213 104471 10804 XOR\n2 1 84069 104471 10805 XOR\n2 1 10804 10805 10803 AND\n2 1 10803 104471 104472 XOR\n2 1 90214 104472 10807 XOR\n2 1 84070 104472 10808 XOR\n2 1 10807 10808 10806 AND\n2 1 10806 104472 104473 XOR\n2 1 90215 104473 10810 XOR\n2 1 84071 104473 10811 XOR\n2 1 10810 10811 10809 AND\n2 1 10809 104473 104474 XOR\n2 1 90216 104474 10813 XOR\n2 1 84072 104474 10814 XOR\n2 1 10813 10814 10812 AND\n2 1 10812 104474 104475 XOR\n2 1 90217 104475 10816 XOR\n2 1 63846 1623 63814 AND\n2 1 63845 1622 63813 AND\n2 1 63844 1621 63812 AND\n2 1 63843 1620 63811 AND\n2 1 63842 1619 63810 AND\n2 1 63814 2199 98317 XOR\n2 1 63813 2198 98316 XOR\n2 1 63812 2197 98315 XOR\n2 1 63811 2196 98314 XOR\n2 1 63810 2195 98313 XOR\n2 1 1623 1655 63782 XOR\n2 1 1622 1654 63781 XOR\n2 1 1621 1653 63780 XOR\n2 1 1620 1652 63779 XOR\n2 1 1619 1651 63778 XOR\n2 1 84073 104475 10817 XOR\n2 1 10816 10817 10815 AND\n2 1 10815 104475 104476 XOR\n2 1 90218 104476 10819 XOR\n2 1 84074 104476 10820 XOR\n2 1 10819 10820 10818 AND\n2 1 10818 104476 104477 XOR\n2 1 84075 104477 10823 XOR\n2 1 92245 26544 90219 XOR\n2 1 1754 90219 104446 XOR\n2 1 90219 104477 10822 XOR\n2 1 10822 10823 10821 AND\n2 1 10821 104477 104478 XOR\n2 1 84076 104478 10826 XOR\n2 1 90219 26544 26543 AND\n2 1 26543 26544 26546 XOR\n2 1 92246 26546 90220 XOR\n2 1 90220 26546 26545 AND\n2 1 1755 90220 104447 XOR\n2 1 90220 104478 10825 XOR\n2 1 10825 10826 10824 AND\n2 1 10824 104478 104479 XOR\n2 1 84077 104479 10829 XOR\n2 1 26545 26546 26561 XOR\n2 1 92247 26561 26548 XOR\n2 1 26571 26561 90221 XOR\n2 1 1756 90221 104448 XOR\n2 1 90221 104479 10828 XOR\n2 1 10828 10829 10827 AND\n2 1 10827 104479 104480 XOR\n2 1 84078 104480 10832 XOR\n1 1 26561 26549 INV\n2 1 26548 26549 26547 AND\n2 1 26547 26561 26551 XOR\n2 1 92248 26551 90222 XOR\n2 1 1757 90222 104449 XOR\n2 1 90222 104480 10831 XOR\n2 1 10831 10832 10830 AND\n2 1 10830 104480 104481 XOR\n2 1 84079 104481 10835 XOR\n2 1 1618 1623 61307 XOR\n2 1 1617 1622 61306 XOR\n2 1 1616 1621 61305 XOR\n2 1 1615 1620 61304 XOR\n2 1 1614 1619 61303 XOR\n2 1 61325 1623 100372 XOR\n2 1 61324 1622 100371 XOR\n2 1 61323 1621 100370 XOR\n2 1 61322 1620 100369 XOR\n2 1 61321 1619 100368 XOR\n2 1 61307 1605 100354 XOR\n2 1 100354 98306 114267 XOR\n2 1 61306 1604 100353 XOR\n2 1 100353 98305 114266 XOR\n2 1 61305 1603 100352 XOR\n2 1 100352 98304 114265 XOR\n2 1 61304 1602 100351 XOR\n2 1 100351 98303 114264 XOR\n2 1 61303 1601 100350 XOR\n2 1 100350 98302 114263 XOR\n2 1 90216 84072 104505 XOR\n2 1 104505 104474 1175 XOR\n2 1 1175 1687 70278 XOR\n2 1 70278 70246 70214 AND\n",
"2 1 70214 1687 86088 XOR\n2 1 1175 1207 70150 XOR\n2 1 1175 1154 67236 XOR\n2 1 1164 1175 67225 XOR\n2 1 67236 1163 88134 XOR\n2 1 67225 1152 88123 XOR\n2 1 67216 1175 88114 XOR\n2 1 88114 86066 114070 XOR\n2 1 88123 86075 114079 XOR\n2 1 90215 84071 104504 XOR\n2 1 104504 104473 1174 XOR\n2 1 1174 1686 70277 XOR\n2 1 70277 70245 70213 AND\n2 1 70213 1686 86087 XOR\n2 1 1174 1206 70149 XOR\n2 1 1174 1153 67235 XOR\n2 1 1163 1174 67224 XOR\n2 1 67235 1162 88133 XOR\n2 1 67215 1174 88113 XOR\n2 1 88113 86065 84017 XOR\n2 1 88113 86065 114039 AND\n2 1 88114 114039 25955 XOR\n2 1 86066 114039 25956 XOR\n2 1 25955 25956 25954 AND\n2 1 114070 114039 84018 XOR\n2 1 25954 114039 114040 XOR\n2 1 86067 114040 25959 XOR\n2 1 90213 84069 104502 XOR\n2 1 104502 104471 1172 XOR\n2 1 1172 1684 70275 XOR\n2 1 70275 70243 70211 AND\n2 1 70211 1684 86085 XOR\n2 1 88133 86085 114089 XOR\n2 1 1172 1204 70147 XOR\n2 1 1161 1172 67222 XOR\n2 1 67245 1172 88143 XOR\n2 1 90214 84070 104503 XOR\n2 1 104503 104472 1173 XOR\n2 1 1173 1685 70276 XOR\n2 1 70276 70244 70212 AND\n2 1 70212 1685 86086 XOR\n2 1 1173 1205 70148 XOR\n2 1 88134 86086 114090 XOR\n2 1 1173 1152 67234 XOR\n2 1 1162 1173 67223 XOR\n2 1 67246 1173 88144 XOR\n2 1 67234 1161 88132 XOR\n2 1 88132 86084 114088 XOR\n2 1 90217 84073 104506 XOR\n2 1 104506 104475 1176 XOR\n2 1 1176 1688 70279 XOR\n2 1 70279 70247 70215 AND\n2 1 70215 1688 86089 XOR\n2 1 1176 1208 70151 XOR\n2 1 1176 1155 67237 XOR\n2 1 1165 1176 67226 XOR\n2 1 67237 1164 88135 XOR\n2 1 88135 86087 114091 XOR\n2 1 67226 1153 88124 XOR\n2 1 67217 1176 88115 XOR\n2 1 88115 86067 114071 XOR\n2 1 114071 114040 84019 XOR\n2 1 88115 114040 25958 XOR\n2 1 25958 25959 25957 AND\n2 1 25957 114040 114041 XOR\n2 1 90221 84077 104510 XOR\n2 1 104510 104479 1180 XOR\n2 1 1180 1692 70283 XOR\n2 1 70283 70251 70219 AND\n2 1 70219 1692 86093 XOR\n2 1 1180 1212 70155 XOR\n2 1 1180 1159 67241 XOR\n2 1 1169 1180 67230 XOR\n2 1 67241 1168 88139 XOR\n2 1 67230 1157 88128 XOR\n2 1 67221 1180 88119 XOR\n2 1 88119 86071 114075 XOR\n2 1 90220 84076 104509 XOR\n2 1 104509 104478 1179 XOR\n2 1 1179 1691 70282 XOR\n2 1 70282 70250 70218 AND\n2 1 70218 1691 86092 XOR\n2 1 1179 1211 70154 XOR\n2 1 1179 1158 67240 XOR\n2 1 1168 1179 67229 XOR\n2 1 67240 1167 88138 XOR\n2 1 67229 1156 88127 XOR\n2 1 88127 86079 114083 XOR\n2 1 67220 1179 88118 XOR\n2 1 88118 86070 114074 XOR\n2 1 90218 84074 104507 XOR\n2 1 104507 104476 1177 XOR\n2 1 1177 1689 70280 XOR\n2 1 70280 70248 70216 AND\n2 1 70216 1689 86090 XOR\n2 1 1177 1209 70152 XOR\n2 1 88138 86090 114094 XOR\n2 1 1177 1156 67238 XOR\n2 1 1166 1177 67227 XOR\n2 1 67238 1165 88136 XOR\n2 1 88136 86088 114092 XOR\n2 1 67227 1154 88125 XOR\n2 1 67218 1177 88116 XOR\n2 1 88116 86068 114072 XOR\n2 1 88116 114041 25961 XOR\n2 1 114072 114041 84020 XOR\n2 1 90219 84075 104508 XOR\n2 1 104508 104477 1178 XOR\n2 1 1178 1690 70281 XOR\n2 1 70281 70249 70217 AND\n2 1 70217 1690 86091 XOR\n2 1 88139 86091 114095 XOR\n2 1 1178 1210 70153 XOR\n2 1 1178 1157 67239 XOR\n2 1 1167 1178 67228 XOR\n2 1 67239 1166 88137 XOR\n2 1 88137 86089 114093 XOR\n2 1 67228 1155 88126 XOR\n2 1 88126 86078 114082 XOR\n2 1 67219 1178 88117 XOR\n2 1 88117 86069 114073 XOR\n2 1 90222 84078 104511 XOR\n2 1 104511 104480 1181 XOR\n2 1 1181 1693 70284 XOR\n2 1 70284 70252 70220 AND\n2 1 70220 1693 86094 XOR\n2 1 1181 1213 70156 XOR\n2 1 1181 1160 67242 XOR\n"]

end Verif.Data
