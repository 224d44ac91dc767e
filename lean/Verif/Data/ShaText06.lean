/-!
# Text of `data/circ/sha256.txt`, part 7 of 11

Generated by `tools/gen_circuits.py`.
-/

namespace Verif.Data

/-- Lines 73733-86020 of `data/circ/sha256.txt`, 128 per string. -/
def shaBlocks06 : List String := [
"2 1 64515 2548 98666 XOR\n2 1 64514 2547 98665 XOR\n2 1 64513 2546 98664 XOR\n2 1 64512 2545 98663 XOR\n2 1 64511 2544 98662 XOR\n2 1 64510 2543 98661 XOR\n2 1 64509 2542 98660 XOR\n2 1 2491 2523 64490 XOR\n2 1 2490 2522 64489 XOR\n2 1 2488 2520 64487 XOR\n2 1 2487 2519 64486 XOR\n2 1 2486 2518 64485 XOR\n2 1 2485 2517 64484 XOR\n2 1 2484 2516 64483 XOR\n2 1 2483 2515 64482 XOR\n2 1 2482 2514 64481 XOR\n2 1 2481 2513 64480 XOR\n2 1 2480 2512 64479 XOR\n2 1 2479 2511 64478 XOR\n2 1 2478 2510 64477 XOR\n2 1 2107 105780 12715 XOR\n2 1 12715 12716 12714 AND\n2 1 12714 105780 105781 XOR\n2 1 2108 105781 12718 XOR\n2 1 105812 105781 2492 XOR\n2 1 90573 105781 12719 XOR\n2 1 12718 12719 12717 AND\n2 1 12717 105781 105782 XOR\n2 1 105813 105782 2493 XOR\n2 1 2109 105782 12721 XOR\n2 1 90574 105782 12722 XOR\n2 1 12721 12722 12720 AND\n2 1 12720 105782 105783 XOR\n2 1 2110 105783 12724 XOR\n2 1 90575 105783 12725 XOR\n2 1 105814 105783 2494 XOR\n2 1 12724 12725 12723 AND\n2 1 12723 105783 105784 XOR\n2 1 105815 105784 2495 XOR\n2 1 64558 2495 64526 AND\n2 1 64557 2494 64525 AND\n2 1 64556 2493 64524 AND\n2 1 64555 2492 64523 AND\n2 1 64526 2559 98677 XOR\n2 1 64525 2558 98676 XOR\n2 1 64524 2557 98675 XOR\n2 1 64523 2556 98674 XOR\n2 1 2495 2527 64494 XOR\n2 1 2494 2526 64493 XOR\n2 1 2493 2525 64492 XOR\n2 1 2492 2524 64491 XOR\n2 1 2495 2468 61672 XOR\n2 1 2494 2467 61671 XOR\n2 1 2493 2466 61670 XOR\n2 1 2492 2465 61669 XOR\n2 1 2491 2464 61668 XOR\n2 1 2490 2495 61667 XOR\n2 1 2488 2493 61665 XOR\n2 1 2487 2492 61664 XOR\n2 1 2486 2491 61663 XOR\n2 1 2485 2490 61662 XOR\n2 1 2483 2488 61660 XOR\n2 1 2482 2487 61659 XOR\n2 1 2481 2486 61658 XOR\n2 1 2480 2485 61657 XOR\n2 1 2479 2484 61656 XOR\n2 1 2478 2483 61655 XOR\n2 1 2477 2482 61654 XOR\n2 1 2476 2481 61653 XOR\n2 1 2475 2480 61652 XOR\n2 1 2474 2479 61651 XOR\n2 1 2473 2478 61650 XOR\n2 1 2472 2477 61649 XOR\n2 1 2471 2476 61648 XOR\n2 1 61678 2488 100725 XOR\n2 1 100725 98677 117081 XOR\n2 1 61677 2487 100724 XOR\n2 1 100724 98676 117080 XOR\n2 1 61676 2486 100723 XOR\n2 1 100723 98675 117079 XOR\n2 1 61675 2485 100722 XOR\n2 1 100722 98674 117078 XOR\n2 1 61674 2484 100721 XOR\n2 1 100721 98673 117077 XOR\n2 1 61673 2483 100720 XOR\n2 1 100720 98672 117076 XOR\n2 1 61672 2482 100719 XOR\n2 1 61671 2481 100718 XOR\n2 1 100718 98670 117074 XOR\n2 1 61670 2480 100717 XOR\n2 1 100717 98669 117073 XOR\n2 1 61669 2479 100716 XOR\n2 1 100716 98668 117072 XOR\n2 1 61668 2478 100715 XOR\n2 1 100715 98667 117071 XOR\n2 1 61667 2477 100714 XOR\n2 1 100714 98666 117070 XOR\n2 1 61665 2475 100712 XOR\n2 1 100712 98664 117068 XOR\n2 1 61664 2474 100711 XOR\n2 1 100711 98663 117067 XOR\n2 1 61663 2473 100710 XOR\n2 1 100710 98662 117066 XOR\n2 1 61662 2472 100709 XOR\n2 1 100709 98661 117065 XOR\n2 1 61660 2470 100707 XOR\n2 1 100707 98659 117063 XOR\n2 1 61659 2469 100706 XOR\n2 1 100706 98658 117062 XOR\n2 1 61658 2468 100705 XOR\n2 1 100705 98657 117061 XOR\n2 1 61657 2467 100704 XOR\n2 1 100704 98656 117060 XOR\n2 1 61656 2466 100703 XOR\n2 1 100703 98655 117059 XOR\n2 1 61655 2465 100702 XOR\n2 1 100702 98654 117058 XOR\n2 1 61654 2464 100701 XOR\n2 1 100701 98653 117057 XOR\n2 1 61653 2495 100700 XOR\n2 1 100700 98652 117056 XOR\n2 1 61652 2494 100699 XOR\n2 1 100699 98651 117055 XOR\n2 1 61651 2493 100698 XOR\n2 1 100698 98650 117054 XOR\n2 1 61650 2492 100697 XOR\n2 1 100697 98649 117053 XOR\n2 1 61649 2491 100696 XOR\n",
"2 1 100696 98648 117052 XOR\n2 1 61648 2490 100695 XOR\n2 1 100695 98647 117051 XOR\n2 1 105809 105778 2489 XOR\n2 1 64552 2489 64520 AND\n2 1 64520 2553 98671 XOR\n2 1 2489 2521 64488 XOR\n2 1 100719 98671 117075 XOR\n2 1 2489 2494 61666 XOR\n2 1 2484 2489 61661 XOR\n2 1 61666 2476 100713 XOR\n2 1 61661 2471 100708 XOR\n2 1 100708 98660 117064 XOR\n2 1 61647 2489 100694 XOR\n2 1 100694 98646 117020 AND\n2 1 100695 117020 31257 XOR\n2 1 117051 117020 96599 XOR\n2 1 98647 117020 31258 XOR\n2 1 31257 31258 31256 AND\n2 1 100694 98646 96598 XOR\n2 1 31256 117020 117021 XOR\n2 1 117052 117021 96600 XOR\n2 1 100696 117021 31260 XOR\n2 1 98648 117021 31261 XOR\n2 1 31260 31261 31259 AND\n2 1 31259 117021 117022 XOR\n2 1 117053 117022 96601 XOR\n2 1 100697 117022 31263 XOR\n2 1 98649 117022 31264 XOR\n2 1 31263 31264 31262 AND\n2 1 31262 117022 117023 XOR\n2 1 117054 117023 96602 XOR\n2 1 100698 117023 31266 XOR\n2 1 98650 117023 31267 XOR\n2 1 31266 31267 31265 AND\n2 1 31265 117023 117024 XOR\n2 1 100699 117024 31269 XOR\n2 1 117055 117024 96603 XOR\n2 1 98651 117024 31270 XOR\n2 1 31269 31270 31268 AND\n2 1 31268 117024 117025 XOR\n2 1 100700 117025 31272 XOR\n2 1 98652 117025 31273 XOR\n2 1 31272 31273 31271 AND\n2 1 31271 117025 117026 XOR\n2 1 98653 117026 31276 XOR\n2 1 117057 117026 96605 XOR\n2 1 117056 117025 96604 XOR\n2 1 100701 117026 31275 XOR\n2 1 31275 31276 31274 AND\n2 1 31274 117026 117027 XOR\n2 1 100702 117027 31278 XOR\n2 1 98654 117027 31279 XOR\n2 1 31278 31279 31277 AND\n2 1 117058 117027 96606 XOR\n2 1 31277 117027 117028 XOR\n2 1 100703 117028 31281 XOR\n2 1 98655 117028 31282 XOR\n2 1 117059 117028 96607 XOR\n2 1 31281 31282 31280 AND\n2 1 31280 117028 117029 XOR\n2 1 117060 117029 96608 XOR\n2 1 100704 117029 31284 XOR\n2 1 98656 117029 31285 XOR\n2 1 31284 31285 31283 AND\n2 1 31283 117029 117030 XOR\n2 1 98657 117030 31288 XOR\n2 1 117061 117030 96609 XOR\n2 1 100705 117030 31287 XOR\n2 1 31287 31288 31286 AND\n2 1 31286 117030 117031 XOR\n2 1 98658 117031 31291 XOR\n2 1 117062 117031 96610 XOR\n2 1 100706 117031 31290 XOR\n2 1 31290 31291 31289 AND\n2 1 31289 117031 117032 XOR\n2 1 117063 117032 96611 XOR\n2 1 98659 117032 31294 XOR\n2 1 100707 117032 31293 XOR\n2 1 31293 31294 31292 AND\n2 1 31292 117032 117033 XOR\n2 1 100708 117033 31296 XOR\n2 1 98660 117033 31297 XOR\n2 1 31296 31297 31295 AND\n2 1 31295 117033 117034 XOR\n2 1 117065 117034 96613 XOR\n2 1 100709 117034 31299 XOR\n2 1 98661 117034 31300 XOR\n2 1 31299 31300 31298 AND\n2 1 31298 117034 117035 XOR\n2 1 117066 117035 96614 XOR\n2 1 100710 117035 31302 XOR\n2 1 98662 117035 31303 XOR\n2 1 31302 31303 31301 AND\n2 1 31301 117035 117036 XOR\n2 1 117067 117036 96615 XOR\n2 1 100711 117036 31305 XOR\n2 1 98663 117036 31306 XOR\n2 1 31305 31306 31304 AND\n2 1 31304 117036 117037 XOR\n2 1 117068 117037 96616 XOR\n2 1 100712 117037 31308 XOR\n2 1 98664 117037 31309 XOR\n2 1 31308 31309 31307 AND\n2 1 31307 117037 117038 XOR\n2 1 100713 117038 31311 XOR\n2 1 98665 117038 31312 XOR\n2 1 31311 31312 31310 AND\n2 1 31310 117038 117039 XOR\n2 1 100714 117039 31314 XOR\n2 1 117070 117039 96618 XOR\n2 1 98666 117039 31315 XOR\n2 1 31314 31315 31313 AND\n2 1 31313 117039 117040 XOR\n2 1 100715 117040 31317 XOR\n2 1 98667 117040 31318 XOR\n2 1 31317 31318 31316 AND\n2 1 117071 117040 96619 XOR\n2 1 31316 117040 117041 XOR\n2 1 100716 117041 31320 XOR\n2 1 117072 117041 96620 XOR\n2 1 117064 117033 96612 XOR\n2 1 98668 117041 31321 XOR\n2 1 31320 31321 31319 AND\n2 1 31319 117041 117042 XOR\n2 1 98669 117042 31324 XOR\n2 1 100717 117042 31323 XOR\n2 1 31323 31324 31322 AND\n",
"2 1 31322 117042 117043 XOR\n2 1 117074 117043 96622 XOR\n2 1 100718 117043 31326 XOR\n2 1 117073 117042 96621 XOR\n2 1 100713 98665 117069 XOR\n2 1 117069 117038 96617 XOR\n2 1 98670 117043 31327 XOR\n2 1 31326 31327 31325 AND\n2 1 31325 117043 117044 XOR\n2 1 98671 117044 31330 XOR\n2 1 117075 117044 96623 XOR\n2 1 100719 117044 31329 XOR\n2 1 31329 31330 31328 AND\n2 1 31328 117044 117045 XOR\n2 1 117076 117045 96624 XOR\n2 1 100720 117045 31332 XOR\n2 1 98672 117045 31333 XOR\n2 1 31332 31333 31331 AND\n2 1 31331 117045 117046 XOR\n2 1 117077 117046 96625 XOR\n2 1 100721 117046 31335 XOR\n2 1 98673 117046 31336 XOR\n2 1 31335 31336 31334 AND\n2 1 31334 117046 117047 XOR\n2 1 117078 117047 96626 XOR\n2 1 100722 117047 31338 XOR\n2 1 98674 117047 31339 XOR\n2 1 31338 31339 31337 AND\n2 1 31337 117047 117048 XOR\n2 1 117079 117048 96627 XOR\n2 1 100723 117048 31341 XOR\n2 1 98675 117048 31342 XOR\n2 1 31341 31342 31340 AND\n2 1 31340 117048 117049 XOR\n2 1 117080 117049 96628 XOR\n2 1 100724 117049 31344 XOR\n2 1 98676 117049 31345 XOR\n2 1 31344 31345 31343 AND\n2 1 31343 117049 117050 XOR\n2 1 117081 117050 96629 XOR\n2 1 76919 76930 82864 XOR\n2 1 82864 76976 131368 XOR\n2 1 76918 76929 82863 XOR\n2 1 82863 76975 131367 XOR\n2 1 76917 76928 82862 XOR\n2 1 82862 76974 131366 XOR\n2 1 76916 76927 5531 XOR\n2 1 76915 76926 5530 XOR\n2 1 76914 76925 5529 XOR\n2 1 76913 76924 5528 XOR\n2 1 76944 76923 5527 XOR\n2 1 76943 76922 5526 XOR\n2 1 76942 76921 5525 XOR\n2 1 76941 76920 5524 XOR\n2 1 76940 76919 5523 XOR\n2 1 76939 76918 5522 XOR\n2 1 76938 76917 5521 XOR\n2 1 76937 76916 5520 XOR\n2 1 76936 76915 5519 XOR\n2 1 76935 76914 5518 XOR\n2 1 76934 76913 5517 XOR\n2 1 76933 76944 5516 XOR\n2 1 76932 76943 5515 XOR\n2 1 76931 76942 5514 XOR\n2 1 76930 76941 5513 XOR\n2 1 76929 76940 5512 XOR\n2 1 76928 76939 5511 XOR\n2 1 76927 76938 5510 XOR\n2 1 76926 76937 5509 XOR\n2 1 76925 76936 5508 XOR\n2 1 76924 76935 5507 XOR\n2 1 76923 76934 5506 XOR\n2 1 76922 76933 5505 XOR\n2 1 76921 76932 5504 XOR\n2 1 76920 76931 5503 XOR\n2 1 5531 76944 82861 XOR\n2 1 82861 76973 131365 XOR\n2 1 5530 76943 82860 XOR\n2 1 82860 76972 131364 XOR\n2 1 5529 76942 82859 XOR\n2 1 82859 76971 131363 XOR\n2 1 5528 76941 82858 XOR\n2 1 82858 76970 131362 XOR\n2 1 5527 76940 82857 XOR\n2 1 82857 76969 131361 XOR\n2 1 5526 76939 82856 XOR\n2 1 82856 76968 131360 XOR\n2 1 5525 76938 82855 XOR\n2 1 82855 76967 131359 XOR\n2 1 5524 76937 82854 XOR\n2 1 82854 76966 131358 XOR\n2 1 5523 76936 82853 XOR\n2 1 82853 76965 131357 XOR\n2 1 5522 76935 82852 XOR\n2 1 82852 76964 131356 XOR\n2 1 5521 76934 82851 XOR\n2 1 82851 76963 131355 XOR\n2 1 5520 76933 82850 XOR\n2 1 82850 76962 131354 XOR\n2 1 5519 76932 82849 XOR\n2 1 82849 76961 131353 XOR\n2 1 5518 76931 82848 XOR\n2 1 82848 76960 131352 XOR\n2 1 5517 76930 82847 XOR\n2 1 82847 76959 131351 XOR\n2 1 5516 76929 82846 XOR\n2 1 82846 76958 131350 XOR\n2 1 5515 76928 82845 XOR\n2 1 82845 76957 131349 XOR\n2 1 5514 76927 82844 XOR\n2 1 82844 76956 131348 XOR\n2 1 5513 76926 82843 XOR\n2 1 82843 76955 131347 XOR\n2 1 5512 76925 82842 XOR\n2 1 82842 76954 131346 XOR\n2 1 5511 76924 82841 XOR\n2 1 82841 76953 131345 XOR\n2 1 5510 76923 82840 XOR\n2 1 82840 76952 131344 XOR\n2 1 5509 76922 82839 XOR\n2 1 82839 76951 131343 XOR\n2 1 5508 76921 82838 XOR\n2 1 82838 76950 131342 XOR\n2 1 5507 76920 82837 XOR\n2 1 82837 76949 131341 XOR\n2 1 5506 76919 82836 XOR\n2 1 82836 76948 131340 XOR\n2 1 5505 76918 82835 XOR\n",
"2 1 82835 76947 131339 XOR\n2 1 5504 76917 82834 XOR\n2 1 82834 76946 131338 XOR\n2 1 5503 76916 82833 XOR\n2 1 82833 76945 131307 AND\n2 1 82833 76945 78225 XOR\n2 1 79761 78225 131245 AND\n2 1 79761 78225 76433 XOR\n2 1 79762 131245 54966 XOR\n2 1 131338 131307 78226 XOR\n2 1 79762 78226 131276 XOR\n2 1 131276 131245 76434 XOR\n2 1 78226 131245 54967 XOR\n2 1 54966 54967 54965 AND\n2 1 54965 131245 131246 XOR\n2 1 79763 131246 54969 XOR\n2 1 82834 131307 55056 XOR\n2 1 76946 131307 55057 XOR\n2 1 55056 55057 55055 AND\n2 1 55055 131307 131308 XOR\n2 1 131339 131308 78227 XOR\n2 1 79763 78227 131277 XOR\n2 1 131277 131246 76435 XOR\n2 1 78227 131246 54970 XOR\n2 1 54969 54970 54968 AND\n2 1 54968 131246 131247 XOR\n2 1 79764 131247 54972 XOR\n2 1 82835 131308 55059 XOR\n2 1 76947 131308 55060 XOR\n2 1 55059 55060 55058 AND\n2 1 55058 131308 131309 XOR\n2 1 131340 131309 78228 XOR\n2 1 79764 78228 131278 XOR\n2 1 131278 131247 76436 XOR\n2 1 78228 131247 54973 XOR\n2 1 54972 54973 54971 AND\n2 1 54971 131247 131248 XOR\n2 1 79765 131248 54975 XOR\n2 1 82836 131309 55062 XOR\n2 1 76948 131309 55063 XOR\n2 1 55062 55063 55061 AND\n2 1 55061 131309 131310 XOR\n2 1 131341 131310 78229 XOR\n2 1 79765 78229 131279 XOR\n2 1 131279 131248 76437 XOR\n2 1 78229 131248 54976 XOR\n2 1 54975 54976 54974 AND\n2 1 54974 131248 131249 XOR\n2 1 79766 131249 54978 XOR\n2 1 82837 131310 55065 XOR\n2 1 76949 131310 55066 XOR\n2 1 55065 55066 55064 AND\n2 1 55064 131310 131311 XOR\n2 1 131342 131311 78230 XOR\n2 1 79766 78230 131280 XOR\n2 1 131280 131249 76438 XOR\n2 1 76438 2565 116993 XOR\n2 1 78230 131249 54979 XOR\n2 1 54978 54979 54977 AND\n2 1 54977 131249 131250 XOR\n2 1 79767 131250 54981 XOR\n2 1 82838 131311 55068 XOR\n2 1 76950 131311 55069 XOR\n2 1 55068 55069 55067 AND\n2 1 55067 131311 131312 XOR\n2 1 131343 131312 78231 XOR\n2 1 79767 78231 131281 XOR\n2 1 131281 131250 76439 XOR\n2 1 78231 131250 54982 XOR\n2 1 54981 54982 54980 AND\n2 1 54980 131250 131251 XOR\n2 1 79768 131251 54984 XOR\n2 1 82839 131312 55071 XOR\n2 1 76951 131312 55072 XOR\n2 1 55071 55072 55070 AND\n2 1 55070 131312 131313 XOR\n2 1 131344 131313 78232 XOR\n2 1 79768 78232 131282 XOR\n2 1 131282 131251 76440 XOR\n2 1 78232 131251 54985 XOR\n2 1 54984 54985 54983 AND\n2 1 54983 131251 131252 XOR\n2 1 79769 131252 54987 XOR\n2 1 82840 131313 55074 XOR\n2 1 76952 131313 55075 XOR\n2 1 55074 55075 55073 AND\n2 1 55073 131313 131314 XOR\n2 1 131345 131314 78233 XOR\n2 1 79769 78233 131283 XOR\n2 1 131283 131252 76441 XOR\n2 1 78233 131252 54988 XOR\n2 1 54987 54988 54986 AND\n2 1 54986 131252 131253 XOR\n2 1 79770 131253 54990 XOR\n2 1 82841 131314 55077 XOR\n2 1 76953 131314 55078 XOR\n2 1 55077 55078 55076 AND\n2 1 55076 131314 131315 XOR\n2 1 131346 131315 78234 XOR\n2 1 79770 78234 131284 XOR\n2 1 131284 131253 76442 XOR\n2 1 78234 131253 54991 XOR\n2 1 54990 54991 54989 AND\n2 1 54989 131253 131254 XOR\n2 1 79771 131254 54993 XOR\n2 1 82842 131315 55080 XOR\n2 1 76954 131315 55081 XOR\n2 1 55080 55081 55079 AND\n2 1 55079 131315 131316 XOR\n2 1 131347 131316 78235 XOR\n2 1 79771 78235 131285 XOR\n2 1 131285 131254 76443 XOR\n2 1 78235 131254 54994 XOR\n2 1 54993 54994 54992 AND\n2 1 54992 131254 131255 XOR\n2 1 79772 131255 54996 XOR\n2 1 82843 131316 55083 XOR\n2 1 76955 131316 55084 XOR\n2 1 55083 55084 55082 AND\n2 1 55082 131316 131317 XOR\n2 1 131348 131317 78236 XOR\n2 1 79772 78236 131286 XOR\n2 1 131286 131255 76444 XOR\n2 1 78236 131255 54997 XOR\n2 1 54996 54997 54995 AND\n2 1 54995 131255 131256 XOR\n2 1 79773 131256 54999 XOR\n2 1 82844 131317 55086 XOR\n",
"2 1 76956 131317 55087 XOR\n2 1 55086 55087 55085 AND\n2 1 55085 131317 131318 XOR\n2 1 131349 131318 78237 XOR\n2 1 79773 78237 131287 XOR\n2 1 131287 131256 76445 XOR\n2 1 78237 131256 55000 XOR\n2 1 54999 55000 54998 AND\n2 1 54998 131256 131257 XOR\n2 1 79774 131257 55002 XOR\n2 1 82845 131318 55089 XOR\n2 1 76957 131318 55090 XOR\n2 1 55089 55090 55088 AND\n2 1 55088 131318 131319 XOR\n2 1 131350 131319 78238 XOR\n2 1 79774 78238 131288 XOR\n2 1 131288 131257 76446 XOR\n2 1 78238 131257 55003 XOR\n2 1 55002 55003 55001 AND\n2 1 55001 131257 131258 XOR\n2 1 79775 131258 55005 XOR\n2 1 82846 131319 55092 XOR\n2 1 76958 131319 55093 XOR\n2 1 55092 55093 55091 AND\n2 1 55091 131319 131320 XOR\n2 1 131351 131320 78239 XOR\n2 1 79775 78239 131289 XOR\n2 1 131289 131258 76447 XOR\n2 1 78239 131258 55006 XOR\n2 1 55005 55006 55004 AND\n2 1 55004 131258 131259 XOR\n2 1 79776 131259 55008 XOR\n2 1 82847 131320 55095 XOR\n2 1 76959 131320 55096 XOR\n2 1 55095 55096 55094 AND\n2 1 55094 131320 131321 XOR\n2 1 131352 131321 78240 XOR\n2 1 79776 78240 131290 XOR\n2 1 131290 131259 76448 XOR\n2 1 78240 131259 55009 XOR\n2 1 55008 55009 55007 AND\n2 1 55007 131259 131260 XOR\n2 1 79777 131260 55011 XOR\n2 1 82848 131321 55098 XOR\n2 1 76960 131321 55099 XOR\n2 1 55098 55099 55097 AND\n2 1 55097 131321 131322 XOR\n2 1 131353 131322 78241 XOR\n2 1 79777 78241 131291 XOR\n2 1 131291 131260 76449 XOR\n2 1 78241 131260 55012 XOR\n2 1 55011 55012 55010 AND\n2 1 55010 131260 131261 XOR\n2 1 79778 131261 55014 XOR\n2 1 82849 131322 55101 XOR\n2 1 76961 131322 55102 XOR\n2 1 55101 55102 55100 AND\n2 1 55100 131322 131323 XOR\n2 1 131354 131323 78242 XOR\n2 1 79778 78242 131292 XOR\n2 1 131292 131261 76450 XOR\n2 1 78242 131261 55015 XOR\n2 1 55014 55015 55013 AND\n2 1 55013 131261 131262 XOR\n2 1 79779 131262 55017 XOR\n2 1 82850 131323 55104 XOR\n2 1 76962 131323 55105 XOR\n2 1 55104 55105 55103 AND\n2 1 55103 131323 131324 XOR\n2 1 131355 131324 78243 XOR\n2 1 79779 78243 131293 XOR\n2 1 131293 131262 76451 XOR\n2 1 78243 131262 55018 XOR\n2 1 55017 55018 55016 AND\n2 1 55016 131262 131263 XOR\n2 1 79780 131263 55020 XOR\n2 1 82851 131324 55107 XOR\n2 1 76963 131324 55108 XOR\n2 1 55107 55108 55106 AND\n2 1 55106 131324 131325 XOR\n2 1 131356 131325 78244 XOR\n2 1 79780 78244 131294 XOR\n2 1 131294 131263 76452 XOR\n2 1 78244 131263 55021 XOR\n2 1 55020 55021 55019 AND\n2 1 55019 131263 131264 XOR\n2 1 79781 131264 55023 XOR\n2 1 82852 131325 55110 XOR\n2 1 76964 131325 55111 XOR\n2 1 55110 55111 55109 AND\n2 1 55109 131325 131326 XOR\n2 1 131357 131326 78245 XOR\n2 1 79781 78245 131295 XOR\n2 1 131295 131264 76453 XOR\n2 1 78245 131264 55024 XOR\n2 1 55023 55024 55022 AND\n2 1 55022 131264 131265 XOR\n2 1 79782 131265 55026 XOR\n2 1 82853 131326 55113 XOR\n2 1 76965 131326 55114 XOR\n2 1 55113 55114 55112 AND\n2 1 55112 131326 131327 XOR\n2 1 131358 131327 78246 XOR\n2 1 79782 78246 131296 XOR\n2 1 131296 131265 76454 XOR\n2 1 78246 131265 55027 XOR\n2 1 55026 55027 55025 AND\n2 1 55025 131265 131266 XOR\n2 1 79783 131266 55029 XOR\n2 1 82854 131327 55116 XOR\n2 1 76966 131327 55117 XOR\n2 1 55116 55117 55115 AND\n2 1 55115 131327 131328 XOR\n2 1 131359 131328 78247 XOR\n2 1 79783 78247 131297 XOR\n2 1 131297 131266 76455 XOR\n2 1 78247 131266 55030 XOR\n2 1 55029 55030 55028 AND\n2 1 55028 131266 131267 XOR\n2 1 79784 131267 55032 XOR\n2 1 82855 131328 55119 XOR\n2 1 76967 131328 55120 XOR\n2 1 55119 55120 55118 AND\n2 1 55118 131328 131329 XOR\n2 1 131360 131329 78248 XOR\n2 1 79784 78248 131298 XOR\n2 1 131298 131267 76456 XOR\n2 1 78248 131267 55033 XOR\n",
"2 1 55032 55033 55031 AND\n2 1 55031 131267 131268 XOR\n2 1 79785 131268 55035 XOR\n2 1 82856 131329 55122 XOR\n2 1 76968 131329 55123 XOR\n2 1 55122 55123 55121 AND\n2 1 55121 131329 131330 XOR\n2 1 131361 131330 78249 XOR\n2 1 79785 78249 131299 XOR\n2 1 131299 131268 76457 XOR\n2 1 78249 131268 55036 XOR\n2 1 55035 55036 55034 AND\n2 1 55034 131268 131269 XOR\n2 1 79786 131269 55038 XOR\n2 1 82857 131330 55125 XOR\n2 1 76969 131330 55126 XOR\n2 1 55125 55126 55124 AND\n2 1 55124 131330 131331 XOR\n2 1 131362 131331 78250 XOR\n2 1 79786 78250 131300 XOR\n2 1 131300 131269 76458 XOR\n2 1 78250 131269 55039 XOR\n2 1 55038 55039 55037 AND\n2 1 55037 131269 131270 XOR\n2 1 79787 131270 55041 XOR\n2 1 82858 131331 55128 XOR\n2 1 76970 131331 55129 XOR\n2 1 55128 55129 55127 AND\n2 1 55127 131331 131332 XOR\n2 1 131363 131332 78251 XOR\n2 1 79787 78251 131301 XOR\n2 1 131301 131270 76459 XOR\n2 1 78251 131270 55042 XOR\n2 1 55041 55042 55040 AND\n2 1 55040 131270 131271 XOR\n2 1 79788 131271 55044 XOR\n2 1 82859 131332 55131 XOR\n2 1 76971 131332 55132 XOR\n2 1 55131 55132 55130 AND\n2 1 55130 131332 131333 XOR\n2 1 131364 131333 78252 XOR\n2 1 79788 78252 131302 XOR\n2 1 131302 131271 76460 XOR\n2 1 78252 131271 55045 XOR\n2 1 55044 55045 55043 AND\n2 1 55043 131271 131272 XOR\n2 1 79789 131272 55047 XOR\n2 1 82860 131333 55134 XOR\n2 1 76972 131333 55135 XOR\n2 1 55134 55135 55133 AND\n2 1 55133 131333 131334 XOR\n2 1 131365 131334 78253 XOR\n2 1 79789 78253 131303 XOR\n2 1 131303 131272 76461 XOR\n2 1 78253 131272 55048 XOR\n2 1 55047 55048 55046 AND\n2 1 55046 131272 131273 XOR\n2 1 79790 131273 55050 XOR\n2 1 82861 131334 55137 XOR\n2 1 76973 131334 55138 XOR\n2 1 55137 55138 55136 AND\n2 1 55136 131334 131335 XOR\n2 1 131366 131335 78254 XOR\n2 1 79790 78254 131304 XOR\n2 1 131304 131273 76462 XOR\n2 1 78254 131273 55051 XOR\n2 1 55050 55051 55049 AND\n2 1 55049 131273 131274 XOR\n2 1 79791 131274 55053 XOR\n2 1 82862 131335 55140 XOR\n2 1 76974 131335 55141 XOR\n2 1 55140 55141 55139 AND\n2 1 55139 131335 131336 XOR\n2 1 131367 131336 78255 XOR\n2 1 79791 78255 131305 XOR\n2 1 131305 131274 76463 XOR\n2 1 78255 131274 55054 XOR\n2 1 55053 55054 55052 AND\n2 1 55052 131274 131275 XOR\n2 1 82863 131336 55143 XOR\n2 1 76975 131336 55144 XOR\n2 1 55143 55144 55142 AND\n2 1 55142 131336 131337 XOR\n2 1 131368 131337 78256 XOR\n2 1 79792 78256 131306 XOR\n2 1 131306 131275 76464 XOR\n2 1 76436 2563 116991 XOR\n2 1 76456 2583 117011 XOR\n2 1 76443 2570 116998 XOR\n2 1 76444 2571 116999 XOR\n2 1 76453 2580 117008 XOR\n2 1 76433 2560 116958 AND\n2 1 2561 116958 31168 XOR\n2 1 76454 2581 117009 XOR\n2 1 76457 2584 117012 XOR\n2 1 76446 2573 117001 XOR\n2 1 76455 2582 117010 XOR\n2 1 76452 2579 117007 XOR\n2 1 76462 2589 117017 XOR\n2 1 76460 2587 117015 XOR\n2 1 76435 2562 116990 XOR\n2 1 76433 2560 94550 XOR\n2 1 96598 94550 116896 AND\n2 1 96599 116896 31077 XOR\n2 1 76434 2561 116989 XOR\n2 1 116989 116958 94551 XOR\n2 1 94551 116896 31078 XOR\n2 1 31077 31078 31076 AND\n2 1 31076 116896 116897 XOR\n2 1 96600 116897 31080 XOR\n2 1 76458 2585 117013 XOR\n2 1 96598 94550 92532 XOR\n1 1 92532 90513 INV\n2 1 2048 90513 2432 XOR\n2 1 90513 84369 1920 XOR\n2 1 1920 1984 71215 XOR\n2 1 71215 71183 71151 AND\n2 1 71151 1984 86385 XOR\n2 1 1920 1952 71087 XOR\n2 1 76440 2567 116995 XOR\n2 1 76434 116958 31167 XOR\n2 1 76447 2574 117002 XOR\n2 1 76461 2588 117016 XOR\n2 1 76437 2564 116992 XOR\n2 1 76445 2572 117000 XOR\n2 1 76448 2575 117003 XOR\n2 1 76449 2576 117004 XOR\n2 1 76451 2578 117006 XOR\n",
"2 1 76450 2577 117005 XOR\n2 1 90513 84369 105692 AND\n2 1 84370 105692 12548 XOR\n2 1 96599 94551 116927 XOR\n2 1 2048 90513 105630 AND\n2 1 2049 105630 12457 XOR\n2 1 64463 2432 64431 AND\n2 1 64431 2496 98614 XOR\n2 1 2432 2464 64399 XOR\n2 1 76459 2586 117014 XOR\n2 1 116927 116896 92533 XOR\n2 1 92533 92532 30970 XOR\n1 1 92533 31060 INV\n2 1 31060 92532 90514 XOR\n2 1 2049 90514 105661 XOR\n2 1 105661 105630 2433 XOR\n2 1 90514 105630 12458 XOR\n2 1 12457 12458 12456 AND\n2 1 12456 105630 105631 XOR\n2 1 2050 105631 12460 XOR\n2 1 90514 84370 105723 XOR\n2 1 30970 90513 30969 AND\n2 1 30969 92532 30972 XOR\n2 1 105723 105692 1921 XOR\n2 1 90514 105692 12547 XOR\n2 1 12547 12548 12546 AND\n2 1 1921 1985 71216 XOR\n2 1 71216 71184 71152 AND\n2 1 71152 1985 86386 XOR\n2 1 1921 1953 71088 XOR\n2 1 12546 105692 105693 XOR\n2 1 84371 105693 12551 XOR\n2 1 64464 2433 64432 AND\n2 1 64432 2497 98615 XOR\n2 1 2433 2465 64400 XOR\n2 1 76442 2569 116997 XOR\n2 1 76441 2568 116996 XOR\n2 1 31167 31168 31166 AND\n2 1 31166 116958 116959 XOR\n2 1 116990 116959 94552 XOR\n2 1 96600 94552 116928 XOR\n2 1 116928 116897 92534 XOR\n2 1 94552 116897 31081 XOR\n2 1 31080 31081 31079 AND\n2 1 31079 116897 116898 XOR\n2 1 96601 116898 31083 XOR\n2 1 92534 30972 90515 XOR\n2 1 90515 30972 30971 AND\n2 1 30971 30972 31044 XOR\n1 1 31044 30975 INV\n2 1 2050 90515 105662 XOR\n2 1 90515 105631 12461 XOR\n2 1 105662 105631 2434 XOR\n2 1 12460 12461 12459 AND\n2 1 12459 105631 105632 XOR\n2 1 90515 84371 105724 XOR\n2 1 105724 105693 1922 XOR\n2 1 90515 105693 12550 XOR\n2 1 12550 12551 12549 AND\n2 1 12549 105693 105694 XOR\n2 1 84372 105694 12554 XOR\n2 1 1922 1986 71217 XOR\n2 1 71217 71185 71153 AND\n2 1 71153 1986 86387 XOR\n2 1 1922 1954 71089 XOR\n2 1 2051 105632 12463 XOR\n2 1 2562 116959 31171 XOR\n2 1 64465 2434 64433 AND\n2 1 64433 2498 98616 XOR\n2 1 2434 2466 64401 XOR\n2 1 76435 116959 31170 XOR\n2 1 31170 31171 31169 AND\n2 1 31169 116959 116960 XOR\n2 1 116991 116960 94553 XOR\n2 1 94553 116898 31084 XOR\n2 1 96601 94553 116929 XOR\n2 1 116929 116898 92535 XOR\n1 1 92535 31061 INV\n2 1 31061 31044 90516 XOR\n2 1 2051 90516 105663 XOR\n2 1 105663 105632 2435 XOR\n2 1 90516 105694 12553 XOR\n2 1 12553 12554 12552 AND\n2 1 12552 105694 105695 XOR\n2 1 84373 105695 12557 XOR\n2 1 92535 31044 30974 XOR\n2 1 30974 30975 30973 AND\n2 1 30973 31044 31045 XOR\n1 1 31045 30978 INV\n2 1 90516 84372 105725 XOR\n2 1 105725 105694 1923 XOR\n2 1 1923 1987 71218 XOR\n2 1 71218 71186 71154 AND\n2 1 71154 1987 86388 XOR\n2 1 1923 1955 71090 XOR\n2 1 31083 31084 31082 AND\n2 1 31082 116898 116899 XOR\n2 1 96602 116899 31086 XOR\n2 1 90516 105632 12464 XOR\n2 1 12463 12464 12462 AND\n2 1 12462 105632 105633 XOR\n2 1 2052 105633 12466 XOR\n2 1 2563 116960 31174 XOR\n2 1 64466 2435 64434 AND\n2 1 64434 2499 98617 XOR\n2 1 2435 2467 64402 XOR\n2 1 76463 2590 117018 XOR\n2 1 76464 2591 117019 XOR\n2 1 76436 116960 31173 XOR\n2 1 31173 31174 31172 AND\n2 1 31172 116960 116961 XOR\n2 1 76437 116961 31176 XOR\n2 1 2564 116961 31177 XOR\n2 1 31176 31177 31175 AND\n2 1 116992 116961 94554 XOR\n2 1 94554 116899 31087 XOR\n2 1 96602 94554 116930 XOR\n2 1 116930 116899 92536 XOR\n1 1 92536 31062 INV\n2 1 92536 31045 30977 XOR\n2 1 30977 30978 30976 AND\n2 1 31062 31045 90517 XOR\n2 1 2052 90517 105664 XOR\n2 1 90517 105695 12556 XOR\n2 1 12556 12557 12555 AND\n2 1 12555 105695 105696 XOR\n2 1 84374 105696 12560 XOR\n2 1 30976 31045 31046 XOR\n",
"2 1 90517 84373 105726 XOR\n2 1 105726 105695 1924 XOR\n2 1 105664 105633 2436 XOR\n2 1 1924 1988 71219 XOR\n2 1 71219 71187 71155 AND\n2 1 71155 1988 86389 XOR\n2 1 1924 1956 71091 XOR\n2 1 64467 2436 64435 AND\n2 1 64435 2500 98618 XOR\n2 1 2436 2468 64403 XOR\n2 1 31175 116961 116962 XOR\n2 1 116993 116962 94555 XOR\n2 1 96603 94555 116931 XOR\n2 1 76438 116962 31179 XOR\n2 1 2565 116962 31180 XOR\n2 1 31179 31180 31178 AND\n2 1 31178 116962 116963 XOR\n2 1 76439 116963 31182 XOR\n2 1 2566 116963 31183 XOR\n2 1 31182 31183 31181 AND\n2 1 31181 116963 116964 XOR\n2 1 116995 116964 94557 XOR\n2 1 96605 94557 116933 XOR\n2 1 76440 116964 31185 XOR\n2 1 2567 116964 31186 XOR\n2 1 31185 31186 31184 AND\n2 1 31184 116964 116965 XOR\n2 1 116996 116965 94558 XOR\n2 1 96606 94558 116934 XOR\n2 1 76441 116965 31188 XOR\n2 1 2568 116965 31189 XOR\n2 1 31188 31189 31187 AND\n2 1 31187 116965 116966 XOR\n2 1 2569 116966 31192 XOR\n2 1 116997 116966 94559 XOR\n2 1 96607 94559 116935 XOR\n2 1 76442 116966 31191 XOR\n2 1 31191 31192 31190 AND\n2 1 31190 116966 116967 XOR\n2 1 116998 116967 94560 XOR\n2 1 96608 94560 116936 XOR\n2 1 76443 116967 31194 XOR\n2 1 2570 116967 31195 XOR\n2 1 31194 31195 31193 AND\n2 1 31193 116967 116968 XOR\n2 1 76444 116968 31197 XOR\n2 1 116999 116968 94561 XOR\n2 1 96609 94561 116937 XOR\n2 1 2571 116968 31198 XOR\n2 1 31197 31198 31196 AND\n2 1 31196 116968 116969 XOR\n2 1 117000 116969 94562 XOR\n2 1 96610 94562 116938 XOR\n2 1 76445 116969 31200 XOR\n2 1 2572 116969 31201 XOR\n2 1 31200 31201 31199 AND\n2 1 31199 116969 116970 XOR\n2 1 117001 116970 94563 XOR\n2 1 96611 94563 116939 XOR\n2 1 76446 116970 31203 XOR\n2 1 2573 116970 31204 XOR\n2 1 31203 31204 31202 AND\n2 1 31202 116970 116971 XOR\n2 1 117002 116971 94564 XOR\n2 1 96612 94564 116940 XOR\n2 1 76447 116971 31206 XOR\n2 1 2574 116971 31207 XOR\n2 1 31206 31207 31205 AND\n2 1 31205 116971 116972 XOR\n2 1 76448 116972 31209 XOR\n2 1 2575 116972 31210 XOR\n2 1 31209 31210 31208 AND\n2 1 31208 116972 116973 XOR\n2 1 76449 116973 31212 XOR\n2 1 117003 116972 94565 XOR\n2 1 96613 94565 116941 XOR\n2 1 117004 116973 94566 XOR\n2 1 96614 94566 116942 XOR\n2 1 2576 116973 31213 XOR\n2 1 31212 31213 31211 AND\n2 1 31211 116973 116974 XOR\n2 1 76450 116974 31215 XOR\n2 1 117005 116974 94567 XOR\n2 1 2577 116974 31216 XOR\n2 1 31215 31216 31214 AND\n2 1 31214 116974 116975 XOR\n2 1 117006 116975 94568 XOR\n2 1 96616 94568 116944 XOR\n2 1 76451 116975 31218 XOR\n2 1 2578 116975 31219 XOR\n2 1 31218 31219 31217 AND\n2 1 31217 116975 116976 XOR\n2 1 117007 116976 94569 XOR\n2 1 96617 94569 116945 XOR\n2 1 76452 116976 31221 XOR\n2 1 2579 116976 31222 XOR\n2 1 31221 31222 31220 AND\n2 1 31220 116976 116977 XOR\n2 1 117008 116977 94570 XOR\n2 1 96618 94570 116946 XOR\n2 1 76453 116977 31224 XOR\n2 1 2580 116977 31225 XOR\n2 1 31224 31225 31223 AND\n2 1 31223 116977 116978 XOR\n2 1 76454 116978 31227 XOR\n2 1 117009 116978 94571 XOR\n2 1 96619 94571 116947 XOR\n2 1 2581 116978 31228 XOR\n2 1 31227 31228 31226 AND\n2 1 31226 116978 116979 XOR\n2 1 117010 116979 94572 XOR\n2 1 2582 116979 31231 XOR\n2 1 76455 116979 31230 XOR\n2 1 31230 31231 31229 AND\n2 1 31229 116979 116980 XOR\n2 1 2583 116980 31234 XOR\n2 1 76456 116980 31233 XOR\n2 1 31233 31234 31232 AND\n2 1 31232 116980 116981 XOR\n2 1 76457 116981 31236 XOR\n2 1 117012 116981 94574 XOR\n2 1 96622 94574 116950 XOR\n2 1 2584 116981 31237 XOR\n2 1 117011 116980 94573 XOR\n2 1 96621 94573 116949 XOR\n2 1 31236 31237 31235 AND\n2 1 31235 116981 116982 XOR\n2 1 2585 116982 31240 XOR\n",
"2 1 117013 116982 94575 XOR\n2 1 96623 94575 116951 XOR\n2 1 76458 116982 31239 XOR\n2 1 31239 31240 31238 AND\n2 1 31238 116982 116983 XOR\n2 1 117014 116983 94576 XOR\n2 1 96624 94576 116952 XOR\n2 1 76459 116983 31242 XOR\n2 1 2586 116983 31243 XOR\n2 1 31242 31243 31241 AND\n2 1 31241 116983 116984 XOR\n2 1 76460 116984 31245 XOR\n2 1 2587 116984 31246 XOR\n2 1 31245 31246 31244 AND\n2 1 31244 116984 116985 XOR\n2 1 2588 116985 31249 XOR\n2 1 117016 116985 94578 XOR\n2 1 96626 94578 116954 XOR\n2 1 76461 116985 31248 XOR\n2 1 31248 31249 31247 AND\n2 1 31247 116985 116986 XOR\n2 1 117017 116986 94579 XOR\n2 1 96627 94579 116955 XOR\n2 1 76462 116986 31251 XOR\n2 1 2589 116986 31252 XOR\n2 1 31251 31252 31250 AND\n2 1 31250 116986 116987 XOR\n2 1 117018 116987 94580 XOR\n2 1 96628 94580 116956 XOR\n2 1 76463 116987 31254 XOR\n2 1 2590 116987 31255 XOR\n2 1 31254 31255 31253 AND\n2 1 31253 116987 116988 XOR\n2 1 117019 116988 94581 XOR\n2 1 117015 116984 94577 XOR\n2 1 96625 94577 116953 XOR\n2 1 96629 94581 116957 XOR\n1 1 31046 30981 INV\n2 1 31086 31087 31085 AND\n2 1 31085 116899 116900 XOR\n2 1 94555 116900 31090 XOR\n2 1 96603 116900 31089 XOR\n2 1 31089 31090 31088 AND\n2 1 31088 116900 116901 XOR\n2 1 96604 116901 31092 XOR\n2 1 116931 116900 92537 XOR\n1 1 92537 31063 INV\n2 1 92537 31046 30980 XOR\n2 1 30980 30981 30979 AND\n2 1 30979 31046 30983 XOR\n2 1 31063 31046 90518 XOR\n2 1 2053 90518 105665 XOR\n2 1 90518 105696 12559 XOR\n2 1 12559 12560 12558 AND\n2 1 12558 105696 105697 XOR\n2 1 84375 105697 12563 XOR\n2 1 90518 84374 105727 XOR\n2 1 105727 105696 1925 XOR\n2 1 1925 1989 71220 XOR\n2 1 71220 71188 71156 AND\n2 1 71156 1989 86390 XOR\n2 1 1925 1957 71092 XOR\n2 1 76439 2566 116994 XOR\n2 1 116994 116963 94556 XOR\n2 1 96604 94556 116932 XOR\n2 1 94556 116901 31093 XOR\n2 1 31092 31093 31091 AND\n2 1 31091 116901 116902 XOR\n2 1 96605 116902 31095 XOR\n2 1 94557 116902 31096 XOR\n2 1 31095 31096 31094 AND\n2 1 31094 116902 116903 XOR\n2 1 96606 116903 31098 XOR\n2 1 116934 116903 92540 XOR\n2 1 94558 116903 31099 XOR\n2 1 31098 31099 31097 AND\n2 1 31097 116903 116904 XOR\n2 1 94559 116904 31102 XOR\n2 1 116935 116904 92541 XOR\n1 1 92541 31065 INV\n2 1 96607 116904 31101 XOR\n2 1 31101 31102 31100 AND\n2 1 31100 116904 116905 XOR\n2 1 96608 116905 31104 XOR\n2 1 94560 116905 31105 XOR\n2 1 31104 31105 31103 AND\n2 1 31103 116905 116906 XOR\n2 1 96609 116906 31107 XOR\n2 1 116936 116905 92542 XOR\n2 1 116932 116901 92538 XOR\n2 1 94561 116906 31108 XOR\n2 1 31107 31108 31106 AND\n2 1 31106 116906 116907 XOR\n2 1 116938 116907 92544 XOR\n2 1 116937 116906 92543 XOR\n1 1 92543 31066 INV\n2 1 92538 30983 90519 XOR\n2 1 90519 30983 30982 AND\n2 1 30982 30983 31047 XOR\n2 1 2054 90519 105666 XOR\n2 1 90519 84375 105728 XOR\n2 1 105728 105697 1926 XOR\n2 1 1926 1990 71221 XOR\n2 1 71221 71189 71157 AND\n2 1 71157 1990 86391 XOR\n2 1 1926 1958 71093 XOR\n2 1 96610 116907 31110 XOR\n2 1 94562 116907 31111 XOR\n2 1 31110 31111 31109 AND\n2 1 31109 116907 116908 XOR\n2 1 116939 116908 92545 XOR\n2 1 96611 116908 31113 XOR\n2 1 94563 116908 31114 XOR\n2 1 31113 31114 31112 AND\n2 1 31112 116908 116909 XOR\n2 1 94564 116909 31117 XOR\n2 1 116940 116909 92546 XOR\n2 1 96612 116909 31116 XOR\n2 1 31116 31117 31115 AND\n2 1 31115 116909 116910 XOR\n2 1 96613 116910 31119 XOR\n2 1 94565 116910 31120 XOR\n2 1 116941 116910 92547 XOR\n2 1 31119 31120 31118 AND\n2 1 31118 116910 116911 XOR\n2 1 116942 116911 92548 XOR\n2 1 96614 116911 31122 XOR\n2 1 94566 116911 31123 XOR\n",
"2 1 31122 31123 31121 AND\n2 1 31121 116911 116912 XOR\n2 1 94567 116912 31126 XOR\n2 1 96615 116912 31125 XOR\n2 1 31125 31126 31124 AND\n2 1 31124 116912 116913 XOR\n2 1 94568 116913 31129 XOR\n2 1 96616 116913 31128 XOR\n2 1 31128 31129 31127 AND\n2 1 116944 116913 92550 XOR\n1 1 31047 30986 INV\n2 1 116933 116902 92539 XOR\n1 1 92539 31064 INV\n2 1 31064 31047 90520 XOR\n2 1 2055 90520 105667 XOR\n2 1 90520 84376 105729 XOR\n2 1 92539 31047 30985 XOR\n2 1 30985 30986 30984 AND\n2 1 30984 31047 30988 XOR\n2 1 92540 30988 90521 XOR\n2 1 2056 90521 105668 XOR\n2 1 90521 30988 30987 AND\n2 1 30987 30988 31048 XOR\n2 1 92541 31048 30990 XOR\n2 1 90521 84377 105730 XOR\n2 1 31065 31048 90522 XOR\n2 1 2057 90522 105669 XOR\n1 1 31048 30991 INV\n2 1 30990 30991 30989 AND\n2 1 30989 31048 30993 XOR\n2 1 92542 30993 90523 XOR\n2 1 90523 30993 30992 AND\n2 1 30992 30993 31049 XOR\n1 1 31049 30996 INV\n2 1 92543 31049 30995 XOR\n2 1 30995 30996 30994 AND\n2 1 31066 31049 90524 XOR\n2 1 30994 31049 30998 XOR\n2 1 92544 30998 90525 XOR\n2 1 90525 30998 30997 AND\n2 1 30997 30998 31000 XOR\n2 1 90525 84381 105734 XOR\n2 1 92545 31000 90526 XOR\n2 1 90526 84382 105735 XOR\n2 1 90526 31000 30999 AND\n2 1 30999 31000 31002 XOR\n2 1 92546 31002 90527 XOR\n2 1 90527 31002 31001 AND\n2 1 31001 31002 31004 XOR\n2 1 92547 31004 90528 XOR\n2 1 90528 31004 31003 AND\n2 1 31003 31004 31006 XOR\n2 1 92548 31006 90529 XOR\n2 1 90529 31006 31005 AND\n2 1 31005 31006 31050 XOR\n1 1 31050 31009 INV\n2 1 90528 84384 105737 XOR\n2 1 90527 84383 105736 XOR\n2 1 2062 90527 105674 XOR\n2 1 90524 84380 105733 XOR\n2 1 90523 84379 105732 XOR\n2 1 90529 84385 105738 XOR\n2 1 2061 90526 105673 XOR\n2 1 2064 90529 105676 XOR\n2 1 2058 90523 105670 XOR\n2 1 2060 90525 105672 XOR\n2 1 2059 90524 105671 XOR\n2 1 90522 84378 105731 XOR\n2 1 90519 105697 12562 XOR\n2 1 12562 12563 12561 AND\n2 1 12561 105697 105698 XOR\n2 1 105729 105698 1927 XOR\n2 1 1927 1991 71222 XOR\n2 1 71222 71190 71158 AND\n2 1 71158 1991 86392 XOR\n2 1 1927 1959 71094 XOR\n2 1 90520 105698 12565 XOR\n2 1 84376 105698 12566 XOR\n2 1 12565 12566 12564 AND\n2 1 12564 105698 105699 XOR\n2 1 90521 105699 12568 XOR\n2 1 84377 105699 12569 XOR\n2 1 12568 12569 12567 AND\n2 1 105730 105699 1928 XOR\n2 1 1928 1992 71223 XOR\n2 1 71223 71191 71159 AND\n2 1 71159 1992 86393 XOR\n2 1 1928 1960 71095 XOR\n2 1 12567 105699 105700 XOR\n2 1 84378 105700 12572 XOR\n2 1 105731 105700 1929 XOR\n2 1 90522 105700 12571 XOR\n2 1 12571 12572 12570 AND\n2 1 12570 105700 105701 XOR\n2 1 90523 105701 12574 XOR\n2 1 105732 105701 1930 XOR\n2 1 1930 1994 71225 XOR\n2 1 1929 1993 71224 XOR\n2 1 71225 71193 71161 AND\n2 1 71224 71192 71160 AND\n2 1 71161 1994 86395 XOR\n2 1 71160 1993 86394 XOR\n2 1 1930 1962 71097 XOR\n2 1 1929 1961 71096 XOR\n2 1 84379 105701 12575 XOR\n2 1 12574 12575 12573 AND\n2 1 12573 105701 105702 XOR\n2 1 90524 105702 12577 XOR\n2 1 105733 105702 1931 XOR\n2 1 1931 1995 71226 XOR\n2 1 71226 71194 71162 AND\n2 1 71162 1995 86396 XOR\n2 1 1931 1963 71098 XOR\n2 1 1920 1931 67565 XOR\n2 1 84380 105702 12578 XOR\n2 1 12577 12578 12576 AND\n2 1 12576 105702 105703 XOR\n2 1 84381 105703 12581 XOR\n2 1 90525 105703 12580 XOR\n2 1 12580 12581 12579 AND\n2 1 12579 105703 105704 XOR\n2 1 105735 105704 1933 XOR\n2 1 105734 105703 1932 XOR\n2 1 1933 1997 71228 XOR\n2 1 1932 1996 71227 XOR\n2 1 71228 71196 71164 AND\n2 1 71227 71195 71163 AND\n2 1 71164 1997 86398 XOR\n",
"2 1 71163 1996 86397 XOR\n2 1 1933 1965 71100 XOR\n2 1 1932 1964 71099 XOR\n2 1 1921 1932 67566 XOR\n2 1 1922 1933 67535 XOR\n2 1 84382 105704 12584 XOR\n2 1 90526 105704 12583 XOR\n2 1 12583 12584 12582 AND\n2 1 12582 105704 105705 XOR\n2 1 90527 105705 12586 XOR\n2 1 84383 105705 12587 XOR\n2 1 12586 12587 12585 AND\n2 1 12585 105705 105706 XOR\n2 1 105737 105706 1935 XOR\n2 1 84384 105706 12590 XOR\n2 1 90528 105706 12589 XOR\n2 1 12589 12590 12588 AND\n2 1 12588 105706 105707 XOR\n2 1 84385 105707 12593 XOR\n2 1 105738 105707 1936 XOR\n2 1 1936 2000 71231 XOR\n2 1 1935 1999 71230 XOR\n2 1 71231 71199 71167 AND\n2 1 71230 71198 71166 AND\n2 1 71167 2000 86401 XOR\n2 1 71166 1999 86400 XOR\n2 1 1936 1968 71103 XOR\n2 1 1935 1967 71102 XOR\n2 1 90529 105707 12592 XOR\n2 1 12592 12593 12591 AND\n2 1 1925 1936 67538 XOR\n2 1 1924 1935 67537 XOR\n2 1 105736 105705 1934 XOR\n2 1 1934 1998 71229 XOR\n2 1 71229 71197 71165 AND\n2 1 71165 1998 86399 XOR\n2 1 1934 1966 71101 XOR\n2 1 1923 1934 67536 XOR\n2 1 12591 105707 105708 XOR\n2 1 84386 105708 12596 XOR\n2 1 31127 116913 116914 XOR\n2 1 96617 116914 31131 XOR\n2 1 116945 116914 92551 XOR\n1 1 92551 31068 INV\n2 1 94569 116914 31132 XOR\n2 1 31131 31132 31130 AND\n2 1 31130 116914 116915 XOR\n2 1 94570 116915 31135 XOR\n2 1 116946 116915 92552 XOR\n2 1 96618 116915 31134 XOR\n2 1 31134 31135 31133 AND\n2 1 31133 116915 116916 XOR\n2 1 116947 116916 92553 XOR\n1 1 92553 31069 INV\n2 1 94571 116916 31138 XOR\n2 1 96619 116916 31137 XOR\n2 1 31137 31138 31136 AND\n2 1 96615 94567 116943 XOR\n2 1 116943 116912 92549 XOR\n2 1 92549 31050 31008 XOR\n2 1 31008 31009 31007 AND\n2 1 31007 31050 31011 XOR\n1 1 92549 31067 INV\n2 1 92550 31011 90531 XOR\n2 1 90531 31011 31010 AND\n2 1 31010 31011 31051 XOR\n1 1 31051 31014 INV\n2 1 92551 31051 31013 XOR\n2 1 31013 31014 31012 AND\n2 1 31068 31051 90532 XOR\n2 1 2067 90532 105679 XOR\n2 1 31012 31051 31016 XOR\n2 1 90531 84387 105740 XOR\n2 1 2066 90531 105678 XOR\n2 1 31067 31050 90530 XOR\n2 1 90530 84386 105739 XOR\n2 1 105739 105708 1937 XOR\n2 1 1937 2001 71232 XOR\n2 1 71232 71200 71168 AND\n2 1 71168 2001 86402 XOR\n2 1 1937 1969 71104 XOR\n2 1 1926 1937 67539 XOR\n2 1 90530 105708 12595 XOR\n2 1 2065 90530 105677 XOR\n2 1 90532 84388 105741 XOR\n2 1 12595 12596 12594 AND\n2 1 12594 105708 105709 XOR\n2 1 90531 105709 12598 XOR\n2 1 84387 105709 12599 XOR\n2 1 12598 12599 12597 AND\n2 1 12597 105709 105710 XOR\n2 1 105741 105710 1939 XOR\n2 1 90532 105710 12601 XOR\n2 1 84388 105710 12602 XOR\n2 1 12601 12602 12600 AND\n2 1 12600 105710 105711 XOR\n2 1 105740 105709 1938 XOR\n2 1 1939 2003 71234 XOR\n2 1 1938 2002 71233 XOR\n2 1 71234 71202 71170 AND\n2 1 71233 71201 71169 AND\n2 1 71170 2003 86404 XOR\n2 1 71169 2002 86403 XOR\n2 1 1939 1971 71106 XOR\n2 1 1938 1970 71105 XOR\n2 1 84389 105711 12605 XOR\n2 1 1928 1939 67541 XOR\n2 1 1927 1938 67540 XOR\n2 1 92552 31016 90533 XOR\n2 1 90533 84389 105742 XOR\n2 1 90533 105711 12604 XOR\n2 1 2068 90533 105680 XOR\n2 1 12604 12605 12603 AND\n2 1 12603 105711 105712 XOR\n2 1 84390 105712 12608 XOR\n2 1 105742 105711 1940 XOR\n2 1 1940 1972 71107 XOR\n2 1 67565 1940 88463 XOR\n2 1 1940 2004 71235 XOR\n2 1 71235 71203 71171 AND\n2 1 1929 1940 67542 XOR\n2 1 71171 2004 86405 XOR\n2 1 90533 31016 31015 AND\n2 1 31015 31016 31052 XOR\n2 1 92553 31052 31018 XOR\n2 1 31069 31052 90534 XOR\n2 1 90534 84390 105743 XOR\n2 1 2069 90534 105681 XOR\n",
"2 1 90534 105712 12607 XOR\n1 1 31052 31019 INV\n2 1 31018 31019 31017 AND\n2 1 31017 31052 31053 XOR\n1 1 31053 31022 INV\n2 1 105743 105712 1941 XOR\n2 1 1941 2005 71236 XOR\n2 1 71236 71204 71172 AND\n2 1 71172 2005 86406 XOR\n2 1 1941 1973 71108 XOR\n2 1 12607 12608 12606 AND\n2 1 12606 105712 105713 XOR\n2 1 84391 105713 12611 XOR\n2 1 1941 1920 67554 XOR\n2 1 1930 1941 67543 XOR\n2 1 67566 1941 88464 XOR\n2 1 67554 1929 88452 XOR\n2 1 88452 86404 116635 XOR\n2 1 31136 116916 116917 XOR\n2 1 96620 116917 31140 XOR\n2 1 94572 116917 31141 XOR\n2 1 31140 31141 31139 AND\n2 1 31139 116917 116918 XOR\n2 1 116949 116918 92555 XOR\n2 1 96621 116918 31143 XOR\n2 1 94573 116918 31144 XOR\n2 1 31143 31144 31142 AND\n2 1 31142 116918 116919 XOR\n2 1 116950 116919 92556 XOR\n2 1 96622 116919 31146 XOR\n2 1 94574 116919 31147 XOR\n2 1 31146 31147 31145 AND\n2 1 31145 116919 116920 XOR\n2 1 116951 116920 92557 XOR\n1 1 92557 31071 INV\n2 1 96623 116920 31149 XOR\n2 1 94575 116920 31150 XOR\n2 1 31149 31150 31148 AND\n2 1 31148 116920 116921 XOR\n2 1 96624 116921 31152 XOR\n2 1 94576 116921 31153 XOR\n2 1 116952 116921 92558 XOR\n1 1 92558 31072 INV\n2 1 31152 31153 31151 AND\n2 1 31151 116921 116922 XOR\n2 1 116953 116922 92559 XOR\n2 1 96625 116922 31155 XOR\n2 1 94577 116922 31156 XOR\n2 1 31155 31156 31154 AND\n2 1 31154 116922 116923 XOR\n2 1 116954 116923 92560 XOR\n1 1 92560 31073 INV\n2 1 96626 116923 31158 XOR\n2 1 94578 116923 31159 XOR\n2 1 31158 31159 31157 AND\n2 1 31157 116923 116924 XOR\n2 1 116955 116924 92561 XOR\n1 1 92561 31074 INV\n2 1 96627 116924 31161 XOR\n2 1 94579 116924 31162 XOR\n2 1 31161 31162 31160 AND\n2 1 31160 116924 116925 XOR\n2 1 94580 116925 31165 XOR\n2 1 116956 116925 92562 XOR\n1 1 92562 31075 INV\n2 1 96628 116925 31164 XOR\n2 1 31164 31165 31163 AND\n2 1 31163 116925 116926 XOR\n2 1 116957 116926 92563 XOR\n2 1 96620 94572 116948 XOR\n2 1 116948 116917 92554 XOR\n2 1 92554 31053 31021 XOR\n2 1 31021 31022 31020 AND\n2 1 31020 31053 31024 XOR\n2 1 92555 31024 90536 XOR\n2 1 2071 90536 105683 XOR\n2 1 90536 84392 105745 XOR\n2 1 90536 31024 31023 AND\n2 1 31023 31024 31026 XOR\n2 1 92556 31026 90537 XOR\n2 1 90537 31026 31025 AND\n2 1 2072 90537 105684 XOR\n2 1 90537 84393 105746 XOR\n2 1 31025 31026 31054 XOR\n1 1 31054 31029 INV\n2 1 31071 31054 90538 XOR\n2 1 2073 90538 105685 XOR\n2 1 92557 31054 31028 XOR\n2 1 31028 31029 31027 AND\n2 1 31027 31054 31055 XOR\n2 1 92558 31055 31031 XOR\n2 1 31072 31055 90539 XOR\n2 1 2074 90539 105686 XOR\n1 1 31055 31032 INV\n2 1 31031 31032 31030 AND\n2 1 31030 31055 31034 XOR\n2 1 92559 31034 90540 XOR\n2 1 2075 90540 105687 XOR\n2 1 90540 84396 105749 XOR\n2 1 90540 31034 31033 AND\n2 1 31033 31034 31056 XOR\n1 1 31056 31037 INV\n2 1 92560 31056 31036 XOR\n2 1 31036 31037 31035 AND\n2 1 31035 31056 31057 XOR\n1 1 31057 31040 INV\n2 1 31074 31057 90542 XOR\n2 1 92561 31057 31039 XOR\n2 1 31073 31056 90541 XOR\n2 1 31039 31040 31038 AND\n2 1 31038 31057 31058 XOR\n1 1 31058 31043 INV\n2 1 31075 31058 90543 XOR\n2 1 90543 84399 105752 XOR\n2 1 90542 84398 105751 XOR\n2 1 92562 31058 31042 XOR\n2 1 31042 31043 31041 AND\n2 1 31041 31058 31059 XOR\n2 1 92563 31059 90544 XOR\n2 1 2079 90544 105691 XOR\n2 1 90544 84400 105753 XOR\n2 1 90541 84397 105750 XOR\n2 1 2077 90542 105689 XOR\n2 1 2076 90541 105688 XOR\n2 1 90539 84395 105748 XOR\n2 1 2078 90543 105690 XOR\n1 1 92554 31070 INV\n2 1 31070 31053 90535 XOR\n",
"2 1 2070 90535 105682 XOR\n2 1 90535 84391 105744 XOR\n2 1 105744 105713 1942 XOR\n2 1 90535 105713 12610 XOR\n2 1 12610 12611 12609 AND\n2 1 12609 105713 105714 XOR\n2 1 90536 105714 12613 XOR\n2 1 1942 2006 71237 XOR\n2 1 71237 71205 71173 AND\n2 1 71173 2006 86407 XOR\n2 1 1942 1974 71109 XOR\n2 1 84392 105714 12614 XOR\n2 1 1942 1921 67555 XOR\n2 1 1931 1942 67544 XOR\n2 1 67555 1930 88453 XOR\n2 1 67535 1942 88433 XOR\n2 1 88433 86385 84337 XOR\n2 1 88453 86405 116636 XOR\n2 1 105745 105714 1943 XOR\n2 1 1943 2007 71238 XOR\n2 1 71238 71206 71174 AND\n2 1 71174 2007 86408 XOR\n2 1 1943 1975 71110 XOR\n2 1 1943 1922 67556 XOR\n2 1 1932 1943 67545 XOR\n2 1 67556 1931 88454 XOR\n2 1 67545 1920 88443 XOR\n2 1 88443 86395 116626 XOR\n2 1 67536 1943 88434 XOR\n2 1 88434 86386 116617 XOR\n2 1 88454 86406 116637 XOR\n2 1 12613 12614 12612 AND\n2 1 12612 105714 105715 XOR\n2 1 84393 105715 12617 XOR\n2 1 90537 105715 12616 XOR\n2 1 12616 12617 12615 AND\n2 1 12615 105715 105716 XOR\n2 1 105746 105715 1944 XOR\n2 1 84394 105716 12620 XOR\n2 1 90538 105716 12619 XOR\n2 1 12619 12620 12618 AND\n2 1 12618 105716 105717 XOR\n2 1 105748 105717 1946 XOR\n2 1 84395 105717 12623 XOR\n2 1 1946 2010 71241 XOR\n2 1 1944 2008 71239 XOR\n2 1 71241 71209 71177 AND\n2 1 71239 71207 71175 AND\n2 1 71177 2010 86411 XOR\n2 1 71175 2008 86409 XOR\n2 1 1946 1978 71113 XOR\n2 1 1944 1976 71111 XOR\n2 1 90539 105717 12622 XOR\n2 1 1946 1925 67559 XOR\n2 1 1944 1923 67557 XOR\n2 1 1935 1946 67548 XOR\n2 1 1933 1944 67546 XOR\n2 1 67559 1934 88457 XOR\n2 1 67557 1932 88455 XOR\n2 1 67548 1923 88446 XOR\n2 1 88446 86398 116629 XOR\n2 1 67546 1921 88444 XOR\n2 1 67539 1946 88437 XOR\n2 1 88437 86389 116620 XOR\n2 1 67537 1944 88435 XOR\n2 1 88435 86387 116618 XOR\n2 1 88444 86396 116627 XOR\n2 1 88457 86409 116640 XOR\n2 1 88455 86407 116638 XOR\n2 1 90538 84394 105747 XOR\n2 1 105747 105716 1945 XOR\n2 1 1945 2009 71240 XOR\n2 1 71240 71208 71176 AND\n2 1 71176 2009 86410 XOR\n2 1 1945 1977 71112 XOR\n2 1 1945 1924 67558 XOR\n2 1 1934 1945 67547 XOR\n2 1 67558 1933 88456 XOR\n2 1 67547 1922 88445 XOR\n2 1 67538 1945 88436 XOR\n2 1 88436 86388 116619 XOR\n2 1 88445 86397 116628 XOR\n2 1 88456 86408 116639 XOR\n2 1 12622 12623 12621 AND\n2 1 12621 105717 105718 XOR\n2 1 90540 105718 12625 XOR\n2 1 84396 105718 12626 XOR\n2 1 12625 12626 12624 AND\n2 1 12624 105718 105719 XOR\n2 1 84397 105719 12629 XOR\n2 1 90541 105719 12628 XOR\n2 1 12628 12629 12627 AND\n2 1 105750 105719 1948 XOR\n2 1 1948 2012 71243 XOR\n2 1 71243 71211 71179 AND\n2 1 71179 2012 86413 XOR\n2 1 1948 1980 71115 XOR\n2 1 1948 1927 67561 XOR\n2 1 1937 1948 67550 XOR\n2 1 67561 1936 88459 XOR\n2 1 67550 1925 88448 XOR\n2 1 67541 1948 88439 XOR\n2 1 12627 105719 105720 XOR\n2 1 105751 105720 1949 XOR\n2 1 90542 105720 12631 XOR\n2 1 1949 2013 71244 XOR\n2 1 71244 71212 71180 AND\n2 1 71180 2013 86414 XOR\n2 1 1949 1981 71116 XOR\n2 1 1949 1928 67562 XOR\n2 1 1938 1949 67551 XOR\n2 1 67562 1937 88460 XOR\n2 1 67551 1926 88449 XOR\n2 1 67542 1949 88440 XOR\n2 1 88440 86392 116623 XOR\n2 1 88439 86391 116622 XOR\n2 1 88448 86400 116631 XOR\n2 1 88449 86401 116632 XOR\n2 1 88459 86411 116642 XOR\n2 1 84398 105720 12632 XOR\n2 1 12631 12632 12630 AND\n2 1 12630 105720 105721 XOR\n2 1 84399 105721 12635 XOR\n2 1 90543 105721 12634 XOR\n2 1 105752 105721 1950 XOR\n2 1 12634 12635 12633 AND\n2 1 12633 105721 105722 XOR\n2 1 105753 105722 1951 XOR\n",
"2 1 1951 2015 71246 XOR\n2 1 1950 2014 71245 XOR\n2 1 71246 71214 71182 AND\n2 1 71245 71213 71181 AND\n2 1 71182 2015 86416 XOR\n2 1 88464 86416 116647 XOR\n2 1 71181 2014 86415 XOR\n2 1 1951 1983 71118 XOR\n2 1 1950 1982 71117 XOR\n2 1 1951 1930 67564 XOR\n2 1 1950 1929 67563 XOR\n2 1 1940 1951 67553 XOR\n2 1 1939 1950 67552 XOR\n2 1 67564 1939 88462 XOR\n2 1 67563 1938 88461 XOR\n2 1 67553 1928 88451 XOR\n2 1 67552 1927 88450 XOR\n2 1 67544 1951 88442 XOR\n2 1 88442 86394 116625 XOR\n2 1 67543 1950 88441 XOR\n2 1 88441 86393 116624 XOR\n2 1 88451 86403 116634 XOR\n2 1 88450 86402 116633 XOR\n2 1 88461 86413 116644 XOR\n2 1 88462 86414 116645 XOR\n2 1 105749 105718 1947 XOR\n2 1 1947 2011 71242 XOR\n2 1 71242 71210 71178 AND\n2 1 71178 2011 86412 XOR\n2 1 1947 1979 71114 XOR\n2 1 1947 1926 67560 XOR\n2 1 1936 1947 67549 XOR\n2 1 67560 1935 88458 XOR\n2 1 67549 1924 88447 XOR\n2 1 67540 1947 88438 XOR\n2 1 88438 86390 116621 XOR\n2 1 88447 86399 116630 XOR\n2 1 88458 86410 116641 XOR\n2 1 88460 86412 116643 XOR\n2 1 88463 86415 116646 XOR\n2 1 88433 86385 116586 AND\n2 1 116617 116586 84338 XOR\n2 1 88434 116586 30429 XOR\n2 1 86386 116586 30430 XOR\n2 1 30429 30430 30428 AND\n2 1 30428 116586 116587 XOR\n2 1 86387 116587 30433 XOR\n2 1 116618 116587 84339 XOR\n2 1 88435 116587 30432 XOR\n2 1 30432 30433 30431 AND\n2 1 30431 116587 116588 XOR\n2 1 116619 116588 84340 XOR\n2 1 88436 116588 30435 XOR\n2 1 86388 116588 30436 XOR\n2 1 30435 30436 30434 AND\n2 1 30434 116588 116589 XOR\n2 1 116620 116589 84341 XOR\n2 1 88437 116589 30438 XOR\n2 1 86389 116589 30439 XOR\n2 1 30438 30439 30437 AND\n2 1 30437 116589 116590 XOR\n2 1 86390 116590 30442 XOR\n2 1 116621 116590 84342 XOR\n2 1 88438 116590 30441 XOR\n2 1 30441 30442 30440 AND\n2 1 30440 116590 116591 XOR\n2 1 86391 116591 30445 XOR\n2 1 88439 116591 30444 XOR\n2 1 30444 30445 30443 AND\n2 1 116622 116591 84343 XOR\n2 1 30443 116591 116592 XOR\n2 1 88440 116592 30447 XOR\n2 1 86392 116592 30448 XOR\n2 1 30447 30448 30446 AND\n2 1 30446 116592 116593 XOR\n2 1 88441 116593 30450 XOR\n2 1 116624 116593 84345 XOR\n2 1 86393 116593 30451 XOR\n2 1 30450 30451 30449 AND\n2 1 30449 116593 116594 XOR\n2 1 88442 116594 30453 XOR\n2 1 116625 116594 84346 XOR\n2 1 86394 116594 30454 XOR\n2 1 116623 116592 84344 XOR\n2 1 30453 30454 30452 AND\n2 1 30452 116594 116595 XOR\n2 1 88443 116595 30456 XOR\n2 1 116626 116595 84347 XOR\n2 1 86395 116595 30457 XOR\n2 1 30456 30457 30455 AND\n2 1 30455 116595 116596 XOR\n2 1 88444 116596 30459 XOR\n2 1 116627 116596 84348 XOR\n2 1 86396 116596 30460 XOR\n2 1 30459 30460 30458 AND\n2 1 30458 116596 116597 XOR\n2 1 88445 116597 30462 XOR\n2 1 116628 116597 84349 XOR\n2 1 86397 116597 30463 XOR\n2 1 30462 30463 30461 AND\n2 1 30461 116597 116598 XOR\n2 1 86398 116598 30466 XOR\n2 1 116629 116598 84350 XOR\n2 1 88446 116598 30465 XOR\n2 1 30465 30466 30464 AND\n2 1 30464 116598 116599 XOR\n2 1 88447 116599 30468 XOR\n2 1 116630 116599 84351 XOR\n2 1 86399 116599 30469 XOR\n2 1 30468 30469 30467 AND\n2 1 30467 116599 116600 XOR\n2 1 86400 116600 30472 XOR\n2 1 116631 116600 84352 XOR\n2 1 88448 116600 30471 XOR\n2 1 30471 30472 30470 AND\n2 1 30470 116600 116601 XOR\n2 1 86401 116601 30475 XOR\n2 1 116632 116601 84353 XOR\n2 1 88449 116601 30474 XOR\n2 1 30474 30475 30473 AND\n2 1 30473 116601 116602 XOR\n2 1 116633 116602 84354 XOR\n2 1 88450 116602 30477 XOR\n2 1 86402 116602 30478 XOR\n2 1 30477 30478 30476 AND\n2 1 30476 116602 116603 XOR\n2 1 116634 116603 84355 XOR\n2 1 88451 116603 30480 XOR\n",
"2 1 86403 116603 30481 XOR\n2 1 30480 30481 30479 AND\n2 1 30479 116603 116604 XOR\n2 1 116635 116604 84356 XOR\n2 1 88452 116604 30483 XOR\n2 1 86404 116604 30484 XOR\n2 1 30483 30484 30482 AND\n2 1 30482 116604 116605 XOR\n2 1 116636 116605 84357 XOR\n2 1 88453 116605 30486 XOR\n2 1 86405 116605 30487 XOR\n2 1 30486 30487 30485 AND\n2 1 30485 116605 116606 XOR\n2 1 116637 116606 84358 XOR\n2 1 88454 116606 30489 XOR\n2 1 86406 116606 30490 XOR\n2 1 30489 30490 30488 AND\n2 1 30488 116606 116607 XOR\n2 1 116638 116607 84359 XOR\n2 1 88455 116607 30492 XOR\n2 1 86407 116607 30493 XOR\n2 1 30492 30493 30491 AND\n2 1 30491 116607 116608 XOR\n2 1 86408 116608 30496 XOR\n2 1 116639 116608 84360 XOR\n2 1 88456 116608 30495 XOR\n2 1 30495 30496 30494 AND\n2 1 30494 116608 116609 XOR\n2 1 88457 116609 30498 XOR\n2 1 116640 116609 84361 XOR\n2 1 86409 116609 30499 XOR\n2 1 30498 30499 30497 AND\n2 1 30497 116609 116610 XOR\n2 1 86410 116610 30502 XOR\n2 1 116641 116610 84362 XOR\n2 1 88458 116610 30501 XOR\n2 1 30501 30502 30500 AND\n2 1 30500 116610 116611 XOR\n2 1 88459 116611 30504 XOR\n2 1 116642 116611 84363 XOR\n2 1 86411 116611 30505 XOR\n2 1 30504 30505 30503 AND\n2 1 30503 116611 116612 XOR\n2 1 116643 116612 84364 XOR\n2 1 86412 116612 30508 XOR\n2 1 88460 116612 30507 XOR\n2 1 30507 30508 30506 AND\n2 1 30506 116612 116613 XOR\n2 1 88461 116613 30510 XOR\n2 1 116644 116613 84365 XOR\n2 1 86413 116613 30511 XOR\n2 1 30510 30511 30509 AND\n2 1 30509 116613 116614 XOR\n2 1 116645 116614 84366 XOR\n2 1 86414 116614 30514 XOR\n2 1 88462 116614 30513 XOR\n2 1 30513 30514 30512 AND\n2 1 30512 116614 116615 XOR\n2 1 88463 116615 30516 XOR\n2 1 116646 116615 84367 XOR\n2 1 86415 116615 30517 XOR\n2 1 30516 30517 30515 AND\n2 1 30515 116615 116616 XOR\n2 1 116647 116616 84368 XOR\n2 1 2063 90528 105675 XOR\n2 1 76449 76451 81264 XOR\n2 1 81264 76624 131058 XOR\n2 1 76448 76450 81263 XOR\n2 1 81263 76623 131057 XOR\n2 1 76447 76449 81262 XOR\n2 1 81262 76622 131056 XOR\n2 1 76446 76448 81261 XOR\n2 1 81261 76621 131055 XOR\n2 1 76445 76447 81260 XOR\n2 1 81260 76620 131054 XOR\n2 1 76444 76446 81259 XOR\n2 1 81259 76619 131053 XOR\n2 1 76443 76445 81258 XOR\n2 1 81258 76618 131052 XOR\n2 1 76442 76444 81257 XOR\n2 1 81257 76617 131051 XOR\n2 1 76441 76443 81256 XOR\n2 1 81256 76616 131050 XOR\n2 1 76440 76442 81255 XOR\n2 1 81255 76615 131049 XOR\n2 1 76439 76441 6661 XOR\n2 1 76438 76440 6660 XOR\n2 1 76437 76439 6659 XOR\n2 1 76436 76438 6658 XOR\n2 1 76435 76437 6657 XOR\n2 1 76434 76436 6656 XOR\n2 1 76433 76435 6655 XOR\n2 1 76464 76434 6654 XOR\n2 1 76463 76433 6653 XOR\n2 1 76462 76464 6652 XOR\n2 1 76461 76463 6651 XOR\n2 1 76460 76462 6650 XOR\n2 1 76459 76461 6649 XOR\n2 1 76458 76460 6648 XOR\n2 1 76457 76459 6647 XOR\n2 1 76456 76458 6646 XOR\n2 1 76455 76457 6645 XOR\n2 1 76454 76456 6644 XOR\n2 1 76453 76455 6643 XOR\n2 1 76452 76454 6642 XOR\n2 1 76451 76453 6641 XOR\n2 1 76450 76452 6640 XOR\n2 1 6661 76464 81254 XOR\n2 1 81254 76614 131048 XOR\n2 1 6660 76463 81253 XOR\n2 1 81253 76613 131047 XOR\n2 1 6659 76462 81252 XOR\n2 1 81252 76612 131046 XOR\n2 1 6658 76461 81251 XOR\n2 1 81251 76611 131045 XOR\n2 1 6657 76460 81250 XOR\n2 1 81250 76610 131044 XOR\n2 1 6656 76459 81249 XOR\n2 1 81249 76609 131043 XOR\n2 1 6655 76458 81248 XOR\n2 1 81248 76608 131042 XOR\n2 1 6654 76457 81247 XOR\n2 1 81247 76607 131041 XOR\n2 1 6653 76456 81246 XOR\n2 1 81246 76606 131040 XOR\n2 1 6652 76455 81245 XOR\n2 1 81245 76605 131039 XOR\n2 1 6651 76454 81244 XOR\n",
"2 1 81244 76604 131038 XOR\n2 1 6650 76453 81243 XOR\n2 1 81243 76603 131037 XOR\n2 1 6649 76452 81242 XOR\n2 1 81242 76602 131036 XOR\n2 1 6648 76451 81241 XOR\n2 1 81241 76601 131035 XOR\n2 1 6647 76450 81240 XOR\n2 1 81240 76600 131034 XOR\n2 1 6646 76449 81239 XOR\n2 1 81239 76599 131033 XOR\n2 1 6645 76448 81238 XOR\n2 1 81238 76598 131032 XOR\n2 1 6644 76447 81237 XOR\n2 1 81237 76597 131031 XOR\n2 1 6643 76446 81236 XOR\n2 1 81236 76596 131030 XOR\n2 1 6642 76445 81235 XOR\n2 1 81235 76595 131029 XOR\n2 1 6641 76444 81234 XOR\n2 1 81234 76594 131028 XOR\n2 1 6640 76443 81233 XOR\n2 1 81233 76593 130997 AND\n2 1 81233 76593 79697 XOR\n2 1 131028 130997 79698 XOR\n2 1 81234 130997 54606 XOR\n2 1 76594 130997 54607 XOR\n2 1 54606 54607 54605 AND\n2 1 54605 130997 130998 XOR\n2 1 131029 130998 79699 XOR\n2 1 81235 130998 54609 XOR\n2 1 76595 130998 54610 XOR\n2 1 54609 54610 54608 AND\n2 1 54608 130998 130999 XOR\n2 1 131030 130999 79700 XOR\n2 1 81236 130999 54612 XOR\n2 1 76596 130999 54613 XOR\n2 1 54612 54613 54611 AND\n2 1 54611 130999 131000 XOR\n2 1 131031 131000 79701 XOR\n2 1 81237 131000 54615 XOR\n2 1 76597 131000 54616 XOR\n2 1 54615 54616 54614 AND\n2 1 54614 131000 131001 XOR\n2 1 131032 131001 79702 XOR\n2 1 81238 131001 54618 XOR\n2 1 76598 131001 54619 XOR\n2 1 54618 54619 54617 AND\n2 1 54617 131001 131002 XOR\n2 1 131033 131002 79703 XOR\n2 1 81239 131002 54621 XOR\n2 1 76599 131002 54622 XOR\n2 1 54621 54622 54620 AND\n2 1 54620 131002 131003 XOR\n2 1 131034 131003 79704 XOR\n2 1 81240 131003 54624 XOR\n2 1 76600 131003 54625 XOR\n2 1 54624 54625 54623 AND\n2 1 54623 131003 131004 XOR\n2 1 131035 131004 79705 XOR\n2 1 81241 131004 54627 XOR\n2 1 76601 131004 54628 XOR\n2 1 54627 54628 54626 AND\n2 1 54626 131004 131005 XOR\n2 1 131036 131005 79706 XOR\n2 1 81242 131005 54630 XOR\n2 1 76602 131005 54631 XOR\n2 1 54630 54631 54629 AND\n2 1 54629 131005 131006 XOR\n2 1 131037 131006 79707 XOR\n2 1 81243 131006 54633 XOR\n2 1 76603 131006 54634 XOR\n2 1 54633 54634 54632 AND\n2 1 54632 131006 131007 XOR\n2 1 131038 131007 79708 XOR\n2 1 81244 131007 54636 XOR\n2 1 76604 131007 54637 XOR\n2 1 54636 54637 54635 AND\n2 1 54635 131007 131008 XOR\n2 1 131039 131008 79709 XOR\n2 1 81245 131008 54639 XOR\n2 1 76605 131008 54640 XOR\n2 1 54639 54640 54638 AND\n2 1 54638 131008 131009 XOR\n2 1 131040 131009 79710 XOR\n2 1 81246 131009 54642 XOR\n2 1 76606 131009 54643 XOR\n2 1 54642 54643 54641 AND\n2 1 54641 131009 131010 XOR\n2 1 131041 131010 79711 XOR\n2 1 81247 131010 54645 XOR\n2 1 76607 131010 54646 XOR\n2 1 54645 54646 54644 AND\n2 1 54644 131010 131011 XOR\n2 1 131042 131011 79712 XOR\n2 1 81248 131011 54648 XOR\n2 1 76608 131011 54649 XOR\n2 1 54648 54649 54647 AND\n2 1 54647 131011 131012 XOR\n2 1 131043 131012 79713 XOR\n2 1 81249 131012 54651 XOR\n2 1 76609 131012 54652 XOR\n2 1 54651 54652 54650 AND\n2 1 54650 131012 131013 XOR\n2 1 131044 131013 79714 XOR\n2 1 81250 131013 54654 XOR\n2 1 76610 131013 54655 XOR\n2 1 54654 54655 54653 AND\n2 1 54653 131013 131014 XOR\n2 1 131045 131014 79715 XOR\n2 1 81251 131014 54657 XOR\n2 1 76611 131014 54658 XOR\n2 1 54657 54658 54656 AND\n2 1 54656 131014 131015 XOR\n2 1 131046 131015 79716 XOR\n2 1 81252 131015 54660 XOR\n2 1 76612 131015 54661 XOR\n2 1 54660 54661 54659 AND\n2 1 54659 131015 131016 XOR\n2 1 131047 131016 79717 XOR\n2 1 81253 131016 54663 XOR\n2 1 76613 131016 54664 XOR\n2 1 54663 54664 54662 AND\n2 1 54662 131016 131017 XOR\n2 1 131048 131017 79718 XOR\n2 1 81254 131017 54666 XOR\n2 1 76614 131017 54667 XOR\n2 1 54666 54667 54665 AND\n",
"2 1 54665 131017 131018 XOR\n2 1 131049 131018 79719 XOR\n2 1 81255 131018 54669 XOR\n2 1 76615 131018 54670 XOR\n2 1 54669 54670 54668 AND\n2 1 54668 131018 131019 XOR\n2 1 131050 131019 79720 XOR\n2 1 81256 131019 54672 XOR\n2 1 76616 131019 54673 XOR\n2 1 54672 54673 54671 AND\n2 1 54671 131019 131020 XOR\n2 1 131051 131020 79721 XOR\n2 1 81257 131020 54675 XOR\n2 1 76617 131020 54676 XOR\n2 1 54675 54676 54674 AND\n2 1 54674 131020 131021 XOR\n2 1 131052 131021 79722 XOR\n2 1 81258 131021 54678 XOR\n2 1 76618 131021 54679 XOR\n2 1 54678 54679 54677 AND\n2 1 54677 131021 131022 XOR\n2 1 131053 131022 79723 XOR\n2 1 81259 131022 54681 XOR\n2 1 76619 131022 54682 XOR\n2 1 54681 54682 54680 AND\n2 1 54680 131022 131023 XOR\n2 1 131054 131023 79724 XOR\n2 1 81260 131023 54684 XOR\n2 1 76620 131023 54685 XOR\n2 1 54684 54685 54683 AND\n2 1 54683 131023 131024 XOR\n2 1 131055 131024 79725 XOR\n2 1 81261 131024 54687 XOR\n2 1 76621 131024 54688 XOR\n2 1 54687 54688 54686 AND\n2 1 54686 131024 131025 XOR\n2 1 131056 131025 79726 XOR\n2 1 81262 131025 54690 XOR\n2 1 76622 131025 54691 XOR\n2 1 54690 54691 54689 AND\n2 1 54689 131025 131026 XOR\n2 1 131057 131026 79727 XOR\n2 1 81263 131026 54693 XOR\n2 1 76623 131026 54694 XOR\n2 1 54693 54694 54692 AND\n2 1 54692 131026 131027 XOR\n2 1 131058 131027 79728 XOR\n2 1 90517 105633 12467 XOR\n2 1 12466 12467 12465 AND\n2 1 12465 105633 105634 XOR\n2 1 105665 105634 2437 XOR\n2 1 2053 105634 12469 XOR\n2 1 90518 105634 12470 XOR\n2 1 12469 12470 12468 AND\n2 1 12468 105634 105635 XOR\n2 1 105666 105635 2438 XOR\n2 1 64469 2438 64437 AND\n2 1 64468 2437 64436 AND\n2 1 64437 2502 98620 XOR\n2 1 64436 2501 98619 XOR\n2 1 2438 2470 64405 XOR\n2 1 2437 2469 64404 XOR\n2 1 90519 105635 12473 XOR\n2 1 2054 105635 12472 XOR\n2 1 12472 12473 12471 AND\n2 1 12471 105635 105636 XOR\n2 1 105667 105636 2439 XOR\n2 1 2055 105636 12475 XOR\n2 1 90520 105636 12476 XOR\n2 1 12475 12476 12474 AND\n2 1 64470 2439 64438 AND\n2 1 64438 2503 98621 XOR\n2 1 2439 2471 64406 XOR\n2 1 12474 105636 105637 XOR\n2 1 105668 105637 2440 XOR\n2 1 90521 105637 12479 XOR\n2 1 2056 105637 12478 XOR\n2 1 12478 12479 12477 AND\n2 1 12477 105637 105638 XOR\n2 1 2057 105638 12481 XOR\n2 1 105669 105638 2441 XOR\n2 1 90522 105638 12482 XOR\n2 1 12481 12482 12480 AND\n2 1 12480 105638 105639 XOR\n2 1 90523 105639 12485 XOR\n2 1 105670 105639 2442 XOR\n2 1 2058 105639 12484 XOR\n2 1 12484 12485 12483 AND\n2 1 12483 105639 105640 XOR\n2 1 2059 105640 12487 XOR\n2 1 90524 105640 12488 XOR\n2 1 105671 105640 2443 XOR\n2 1 12487 12488 12486 AND\n2 1 12486 105640 105641 XOR\n2 1 105672 105641 2444 XOR\n2 1 90525 105641 12491 XOR\n2 1 2060 105641 12490 XOR\n2 1 12490 12491 12489 AND\n2 1 12489 105641 105642 XOR\n2 1 2061 105642 12493 XOR\n2 1 90526 105642 12494 XOR\n2 1 12493 12494 12492 AND\n2 1 12492 105642 105643 XOR\n2 1 105674 105643 2446 XOR\n2 1 2062 105643 12496 XOR\n2 1 90527 105643 12497 XOR\n2 1 12496 12497 12495 AND\n2 1 12495 105643 105644 XOR\n2 1 90528 105644 12500 XOR\n2 1 2063 105644 12499 XOR\n2 1 12499 12500 12498 AND\n2 1 105675 105644 2447 XOR\n2 1 12498 105644 105645 XOR\n2 1 2064 105645 12502 XOR\n2 1 105676 105645 2448 XOR\n2 1 90529 105645 12503 XOR\n2 1 12502 12503 12501 AND\n2 1 12501 105645 105646 XOR\n2 1 2065 105646 12505 XOR\n2 1 105677 105646 2449 XOR\n2 1 64480 2449 64448 AND\n2 1 64479 2448 64447 AND\n2 1 64478 2447 64446 AND\n2 1 64477 2446 64445 AND\n2 1 64475 2444 64443 AND\n2 1 64474 2443 64442 AND\n2 1 64473 2442 64441 AND\n2 1 64472 2441 64440 AND\n",
"2 1 64471 2440 64439 AND\n2 1 64448 2513 98631 XOR\n2 1 64447 2512 98630 XOR\n2 1 64446 2511 98629 XOR\n2 1 64445 2510 98628 XOR\n2 1 64443 2508 98626 XOR\n2 1 64442 2507 98625 XOR\n2 1 64441 2506 98624 XOR\n2 1 64440 2505 98623 XOR\n2 1 64439 2504 98622 XOR\n2 1 2449 2481 64416 XOR\n2 1 2448 2480 64415 XOR\n2 1 2447 2479 64414 XOR\n2 1 2446 2478 64413 XOR\n2 1 2444 2476 64411 XOR\n2 1 2443 2475 64410 XOR\n2 1 2442 2474 64409 XOR\n2 1 2441 2473 64408 XOR\n2 1 2440 2472 64407 XOR\n2 1 90530 105646 12506 XOR\n2 1 12505 12506 12504 AND\n2 1 12504 105646 105647 XOR\n2 1 90531 105647 12509 XOR\n2 1 105678 105647 2450 XOR\n2 1 2066 105647 12508 XOR\n2 1 12508 12509 12507 AND\n2 1 12507 105647 105648 XOR\n2 1 105679 105648 2451 XOR\n2 1 2067 105648 12511 XOR\n2 1 64482 2451 64450 AND\n2 1 64481 2450 64449 AND\n2 1 64450 2515 98633 XOR\n2 1 64449 2514 98632 XOR\n2 1 2451 2483 64418 XOR\n2 1 2450 2482 64417 XOR\n2 1 90532 105648 12512 XOR\n2 1 12511 12512 12510 AND\n2 1 12510 105648 105649 XOR\n2 1 2068 105649 12514 XOR\n2 1 90533 105649 12515 XOR\n2 1 12514 12515 12513 AND\n2 1 12513 105649 105650 XOR\n2 1 90534 105650 12518 XOR\n2 1 105681 105650 2453 XOR\n2 1 2069 105650 12517 XOR\n2 1 12517 12518 12516 AND\n2 1 12516 105650 105651 XOR\n2 1 2070 105651 12520 XOR\n2 1 90535 105651 12521 XOR\n2 1 12520 12521 12519 AND\n2 1 105682 105651 2454 XOR\n2 1 64485 2454 64453 AND\n2 1 64484 2453 64452 AND\n2 1 64453 2518 98636 XOR\n2 1 64452 2517 98635 XOR\n2 1 2454 2486 64421 XOR\n2 1 2453 2485 64420 XOR\n2 1 105680 105649 2452 XOR\n2 1 64483 2452 64451 AND\n2 1 64451 2516 98634 XOR\n2 1 2452 2484 64419 XOR\n2 1 105673 105642 2445 XOR\n2 1 64476 2445 64444 AND\n2 1 64444 2509 98627 XOR\n2 1 2445 2477 64412 XOR\n2 1 12519 105651 105652 XOR\n2 1 105683 105652 2455 XOR\n2 1 2071 105652 12523 XOR\n2 1 90536 105652 12524 XOR\n2 1 12523 12524 12522 AND\n2 1 12522 105652 105653 XOR\n2 1 2072 105653 12526 XOR\n2 1 90537 105653 12527 XOR\n2 1 105684 105653 2456 XOR\n2 1 64487 2456 64455 AND\n2 1 64486 2455 64454 AND\n2 1 64455 2520 98638 XOR\n2 1 64454 2519 98637 XOR\n2 1 2456 2488 64423 XOR\n2 1 2455 2487 64422 XOR\n2 1 12526 12527 12525 AND\n2 1 12525 105653 105654 XOR\n2 1 90538 105654 12530 XOR\n2 1 105685 105654 2457 XOR\n2 1 2073 105654 12529 XOR\n2 1 12529 12530 12528 AND\n2 1 12528 105654 105655 XOR\n2 1 2074 105655 12532 XOR\n2 1 105686 105655 2458 XOR\n2 1 90539 105655 12533 XOR\n2 1 12532 12533 12531 AND\n2 1 12531 105655 105656 XOR\n2 1 105687 105656 2459 XOR\n2 1 2075 105656 12535 XOR\n2 1 90540 105656 12536 XOR\n2 1 12535 12536 12534 AND\n2 1 12534 105656 105657 XOR\n2 1 2076 105657 12538 XOR\n2 1 90541 105657 12539 XOR\n2 1 105688 105657 2460 XOR\n2 1 12538 12539 12537 AND\n2 1 12537 105657 105658 XOR\n2 1 105689 105658 2461 XOR\n2 1 90542 105658 12542 XOR\n2 1 2077 105658 12541 XOR\n2 1 12541 12542 12540 AND\n2 1 12540 105658 105659 XOR\n2 1 105690 105659 2462 XOR\n2 1 90543 105659 12545 XOR\n2 1 2078 105659 12544 XOR\n2 1 12544 12545 12543 AND\n2 1 12543 105659 105660 XOR\n2 1 105691 105660 2463 XOR\n2 1 64494 2463 64462 AND\n2 1 64493 2462 64461 AND\n2 1 64492 2461 64460 AND\n2 1 64491 2460 64459 AND\n2 1 64490 2459 64458 AND\n2 1 64489 2458 64457 AND\n2 1 64488 2457 64456 AND\n2 1 64462 2527 98645 XOR\n2 1 64461 2526 98644 XOR\n2 1 64460 2525 98643 XOR\n2 1 64459 2524 98642 XOR\n2 1 64458 2523 98641 XOR\n2 1 64457 2522 98640 XOR\n2 1 64456 2521 98639 XOR\n2 1 2463 2495 64430 XOR\n",
"2 1 2462 2494 64429 XOR\n2 1 2461 2493 64428 XOR\n2 1 2460 2492 64427 XOR\n2 1 2459 2491 64426 XOR\n2 1 2458 2490 64425 XOR\n2 1 2457 2489 64424 XOR\n2 1 2437 2442 61646 XOR\n2 1 2436 2441 61645 XOR\n2 1 2435 2440 61644 XOR\n2 1 2434 2439 61643 XOR\n2 1 2433 2438 61642 XOR\n2 1 2432 2437 61641 XOR\n2 1 2463 2436 61640 XOR\n2 1 2462 2435 61639 XOR\n2 1 2461 2434 61638 XOR\n2 1 2460 2433 61637 XOR\n2 1 2459 2432 61636 XOR\n2 1 2458 2463 61635 XOR\n2 1 2457 2462 61634 XOR\n2 1 2456 2461 61633 XOR\n2 1 2455 2460 61632 XOR\n2 1 2454 2459 61631 XOR\n2 1 2453 2458 61630 XOR\n2 1 2452 2457 61629 XOR\n2 1 2451 2456 61628 XOR\n2 1 2450 2455 61627 XOR\n2 1 2449 2454 61626 XOR\n2 1 2448 2453 61625 XOR\n2 1 2447 2452 61624 XOR\n2 1 2446 2451 61623 XOR\n2 1 2445 2450 61622 XOR\n2 1 2444 2449 61621 XOR\n2 1 2443 2448 61620 XOR\n2 1 2442 2447 61619 XOR\n2 1 2441 2446 61618 XOR\n2 1 2440 2445 61617 XOR\n2 1 2439 2444 61616 XOR\n2 1 2438 2443 61615 XOR\n2 1 61646 2456 100693 XOR\n2 1 100693 98645 116833 XOR\n2 1 61645 2455 100692 XOR\n2 1 100692 98644 116832 XOR\n2 1 61644 2454 100691 XOR\n2 1 100691 98643 116831 XOR\n2 1 61643 2453 100690 XOR\n2 1 100690 98642 116830 XOR\n2 1 61642 2452 100689 XOR\n2 1 100689 98641 116829 XOR\n2 1 61641 2451 100688 XOR\n2 1 100688 98640 116828 XOR\n2 1 61640 2450 100687 XOR\n2 1 100687 98639 116827 XOR\n2 1 61639 2449 100686 XOR\n2 1 100686 98638 116826 XOR\n2 1 61638 2448 100685 XOR\n2 1 100685 98637 116825 XOR\n2 1 61637 2447 100684 XOR\n2 1 100684 98636 116824 XOR\n2 1 61636 2446 100683 XOR\n2 1 100683 98635 116823 XOR\n2 1 61635 2445 100682 XOR\n2 1 100682 98634 116822 XOR\n2 1 61634 2444 100681 XOR\n2 1 100681 98633 116821 XOR\n2 1 61633 2443 100680 XOR\n2 1 100680 98632 116820 XOR\n2 1 61632 2442 100679 XOR\n2 1 100679 98631 116819 XOR\n2 1 61631 2441 100678 XOR\n2 1 100678 98630 116818 XOR\n2 1 61630 2440 100677 XOR\n2 1 61629 2439 100676 XOR\n2 1 100676 98628 116816 XOR\n2 1 61628 2438 100675 XOR\n2 1 61627 2437 100674 XOR\n2 1 100674 98626 116814 XOR\n2 1 61626 2436 100673 XOR\n2 1 100673 98625 116813 XOR\n2 1 61625 2435 100672 XOR\n2 1 100672 98624 116812 XOR\n2 1 61624 2434 100671 XOR\n2 1 100671 98623 116811 XOR\n2 1 61623 2433 100670 XOR\n2 1 100670 98622 116810 XOR\n2 1 61622 2432 100669 XOR\n2 1 100669 98621 116809 XOR\n2 1 61621 2463 100668 XOR\n2 1 100668 98620 116808 XOR\n2 1 61620 2462 100667 XOR\n2 1 100667 98619 116807 XOR\n2 1 61619 2461 100666 XOR\n2 1 100666 98618 116806 XOR\n2 1 61618 2460 100665 XOR\n2 1 100665 98617 116805 XOR\n2 1 61617 2459 100664 XOR\n2 1 100664 98616 116804 XOR\n2 1 61616 2458 100663 XOR\n2 1 100663 98615 116803 XOR\n2 1 61615 2457 100662 XOR\n2 1 100662 98614 96566 XOR\n2 1 100662 98614 116772 AND\n2 1 100663 116772 30790 XOR\n2 1 98615 116772 30791 XOR\n2 1 116803 116772 96567 XOR\n2 1 30790 30791 30789 AND\n2 1 30789 116772 116773 XOR\n2 1 100664 116773 30793 XOR\n2 1 116804 116773 96568 XOR\n2 1 100675 98627 116815 XOR\n2 1 100677 98629 116817 XOR\n2 1 98616 116773 30794 XOR\n2 1 30793 30794 30792 AND\n2 1 30792 116773 116774 XOR\n2 1 98617 116774 30797 XOR\n2 1 100665 116774 30796 XOR\n2 1 116805 116774 96569 XOR\n2 1 30796 30797 30795 AND\n2 1 30795 116774 116775 XOR\n2 1 116806 116775 96570 XOR\n2 1 100666 116775 30799 XOR\n2 1 98618 116775 30800 XOR\n2 1 30799 30800 30798 AND\n2 1 30798 116775 116776 XOR\n2 1 116807 116776 96571 XOR\n2 1 98619 116776 30803 XOR\n2 1 100667 116776 30802 XOR\n2 1 30802 30803 30801 AND\n2 1 30801 116776 116777 XOR\n",
"2 1 116808 116777 96572 XOR\n2 1 98620 116777 30806 XOR\n2 1 100668 116777 30805 XOR\n2 1 30805 30806 30804 AND\n2 1 30804 116777 116778 XOR\n2 1 98621 116778 30809 XOR\n2 1 100669 116778 30808 XOR\n2 1 30808 30809 30807 AND\n2 1 116809 116778 96573 XOR\n2 1 30807 116778 116779 XOR\n2 1 98622 116779 30812 XOR\n2 1 116810 116779 96574 XOR\n2 1 100670 116779 30811 XOR\n2 1 30811 30812 30810 AND\n2 1 30810 116779 116780 XOR\n2 1 98623 116780 30815 XOR\n2 1 116811 116780 96575 XOR\n2 1 100671 116780 30814 XOR\n2 1 30814 30815 30813 AND\n2 1 30813 116780 116781 XOR\n2 1 116812 116781 96576 XOR\n2 1 100672 116781 30817 XOR\n2 1 98624 116781 30818 XOR\n2 1 30817 30818 30816 AND\n2 1 30816 116781 116782 XOR\n2 1 116813 116782 96577 XOR\n2 1 98625 116782 30821 XOR\n2 1 100673 116782 30820 XOR\n2 1 30820 30821 30819 AND\n2 1 30819 116782 116783 XOR\n2 1 116814 116783 96578 XOR\n2 1 98626 116783 30824 XOR\n2 1 100674 116783 30823 XOR\n2 1 30823 30824 30822 AND\n2 1 30822 116783 116784 XOR\n2 1 98627 116784 30827 XOR\n2 1 100675 116784 30826 XOR\n2 1 30826 30827 30825 AND\n2 1 116815 116784 96579 XOR\n2 1 30825 116784 116785 XOR\n2 1 98628 116785 30830 XOR\n2 1 116816 116785 96580 XOR\n2 1 100676 116785 30829 XOR\n2 1 30829 30830 30828 AND\n2 1 30828 116785 116786 XOR\n2 1 100677 116786 30832 XOR\n2 1 98629 116786 30833 XOR\n2 1 30832 30833 30831 AND\n2 1 116817 116786 96581 XOR\n2 1 30831 116786 116787 XOR\n2 1 100678 116787 30835 XOR\n2 1 116818 116787 96582 XOR\n2 1 98630 116787 30836 XOR\n2 1 30835 30836 30834 AND\n2 1 30834 116787 116788 XOR\n2 1 116819 116788 96583 XOR\n2 1 98631 116788 30839 XOR\n2 1 100679 116788 30838 XOR\n2 1 30838 30839 30837 AND\n2 1 30837 116788 116789 XOR\n2 1 116820 116789 96584 XOR\n2 1 98632 116789 30842 XOR\n2 1 100680 116789 30841 XOR\n2 1 30841 30842 30840 AND\n2 1 30840 116789 116790 XOR\n2 1 98633 116790 30845 XOR\n2 1 100681 116790 30844 XOR\n2 1 30844 30845 30843 AND\n2 1 30843 116790 116791 XOR\n2 1 98634 116791 30848 XOR\n2 1 100682 116791 30847 XOR\n2 1 30847 30848 30846 AND\n2 1 30846 116791 116792 XOR\n2 1 100683 116792 30850 XOR\n2 1 98635 116792 30851 XOR\n2 1 30850 30851 30849 AND\n2 1 116822 116791 96586 XOR\n2 1 116821 116790 96585 XOR\n2 1 116823 116792 96587 XOR\n2 1 30849 116792 116793 XOR\n2 1 98636 116793 30854 XOR\n2 1 116824 116793 96588 XOR\n2 1 100684 116793 30853 XOR\n2 1 30853 30854 30852 AND\n2 1 30852 116793 116794 XOR\n2 1 100685 116794 30856 XOR\n2 1 98637 116794 30857 XOR\n2 1 30856 30857 30855 AND\n2 1 30855 116794 116795 XOR\n2 1 100686 116795 30859 XOR\n2 1 116826 116795 96590 XOR\n2 1 98638 116795 30860 XOR\n2 1 30859 30860 30858 AND\n2 1 30858 116795 116796 XOR\n2 1 98639 116796 30863 XOR\n2 1 100687 116796 30862 XOR\n2 1 30862 30863 30861 AND\n2 1 116827 116796 96591 XOR\n2 1 30861 116796 116797 XOR\n2 1 116828 116797 96592 XOR\n2 1 116825 116794 96589 XOR\n2 1 98640 116797 30866 XOR\n2 1 100688 116797 30865 XOR\n2 1 30865 30866 30864 AND\n2 1 30864 116797 116798 XOR\n2 1 116829 116798 96593 XOR\n2 1 98641 116798 30869 XOR\n2 1 100689 116798 30868 XOR\n2 1 30868 30869 30867 AND\n2 1 30867 116798 116799 XOR\n2 1 100690 116799 30871 XOR\n2 1 116830 116799 96594 XOR\n2 1 98642 116799 30872 XOR\n2 1 30871 30872 30870 AND\n2 1 30870 116799 116800 XOR\n2 1 116831 116800 96595 XOR\n2 1 100691 116800 30874 XOR\n2 1 98643 116800 30875 XOR\n2 1 30874 30875 30873 AND\n2 1 30873 116800 116801 XOR\n2 1 98644 116801 30878 XOR\n2 1 116832 116801 96596 XOR\n2 1 100692 116801 30877 XOR\n2 1 30877 30878 30876 AND\n2 1 30876 116801 116802 XOR\n2 1 116833 116802 96597 XOR\n2 1 76887 76898 82832 XOR\n2 1 82832 76944 131182 XOR\n",
"2 1 76886 76897 82831 XOR\n2 1 82831 76943 131181 XOR\n2 1 76885 76896 82830 XOR\n2 1 82830 76942 131180 XOR\n2 1 76884 76895 5502 XOR\n2 1 76883 76894 5501 XOR\n2 1 76882 76893 5500 XOR\n2 1 76881 76892 5499 XOR\n2 1 76912 76891 5498 XOR\n2 1 76911 76890 5497 XOR\n2 1 76910 76889 5496 XOR\n2 1 76909 76888 5495 XOR\n2 1 76908 76887 5494 XOR\n2 1 76907 76886 5493 XOR\n2 1 76906 76885 5492 XOR\n2 1 76905 76884 5491 XOR\n2 1 76904 76883 5490 XOR\n2 1 76903 76882 5489 XOR\n2 1 76902 76881 5488 XOR\n2 1 76901 76912 5487 XOR\n2 1 76900 76911 5486 XOR\n2 1 76899 76910 5485 XOR\n2 1 76898 76909 5484 XOR\n2 1 76897 76908 5483 XOR\n2 1 76896 76907 5482 XOR\n2 1 76895 76906 5481 XOR\n2 1 76894 76905 5480 XOR\n2 1 76893 76904 5479 XOR\n2 1 76892 76903 5478 XOR\n2 1 76891 76902 5477 XOR\n2 1 76890 76901 5476 XOR\n2 1 76889 76900 5475 XOR\n2 1 76888 76899 5474 XOR\n2 1 5502 76912 82829 XOR\n2 1 82829 76941 131179 XOR\n2 1 5501 76911 82828 XOR\n2 1 82828 76940 131178 XOR\n2 1 5500 76910 82827 XOR\n2 1 82827 76939 131177 XOR\n2 1 5499 76909 82826 XOR\n2 1 82826 76938 131176 XOR\n2 1 5498 76908 82825 XOR\n2 1 82825 76937 131175 XOR\n2 1 5497 76907 82824 XOR\n2 1 82824 76936 131174 XOR\n2 1 5496 76906 82823 XOR\n2 1 82823 76935 131173 XOR\n2 1 5495 76905 82822 XOR\n2 1 82822 76934 131172 XOR\n2 1 5494 76904 82821 XOR\n2 1 82821 76933 131171 XOR\n2 1 5493 76903 82820 XOR\n2 1 82820 76932 131170 XOR\n2 1 5492 76902 82819 XOR\n2 1 82819 76931 131169 XOR\n2 1 5491 76901 82818 XOR\n2 1 82818 76930 131168 XOR\n2 1 5490 76900 82817 XOR\n2 1 82817 76929 131167 XOR\n2 1 5489 76899 82816 XOR\n2 1 82816 76928 131166 XOR\n2 1 5488 76898 82815 XOR\n2 1 82815 76927 131165 XOR\n2 1 5487 76897 82814 XOR\n2 1 82814 76926 131164 XOR\n2 1 5486 76896 82813 XOR\n2 1 82813 76925 131163 XOR\n2 1 5485 76895 82812 XOR\n2 1 82812 76924 131162 XOR\n2 1 5484 76894 82811 XOR\n2 1 82811 76923 131161 XOR\n2 1 5483 76893 82810 XOR\n2 1 82810 76922 131160 XOR\n2 1 5482 76892 82809 XOR\n2 1 82809 76921 131159 XOR\n2 1 5481 76891 82808 XOR\n2 1 82808 76920 131158 XOR\n2 1 5480 76890 82807 XOR\n2 1 82807 76919 131157 XOR\n2 1 5479 76889 82806 XOR\n2 1 82806 76918 131156 XOR\n2 1 5478 76888 82805 XOR\n2 1 82805 76917 131155 XOR\n2 1 5477 76887 82804 XOR\n2 1 82804 76916 131154 XOR\n2 1 5476 76886 82803 XOR\n2 1 82803 76915 131153 XOR\n2 1 5475 76885 82802 XOR\n2 1 82802 76914 131152 XOR\n2 1 5474 76884 82801 XOR\n2 1 82801 76913 131121 AND\n2 1 82801 76913 78193 XOR\n2 1 79729 78193 131059 AND\n2 1 79729 78193 76401 XOR\n2 1 79730 131059 54696 XOR\n2 1 131152 131121 78194 XOR\n2 1 79730 78194 131090 XOR\n2 1 131090 131059 76402 XOR\n2 1 78194 131059 54697 XOR\n2 1 54696 54697 54695 AND\n2 1 54695 131059 131060 XOR\n2 1 79731 131060 54699 XOR\n2 1 82802 131121 54786 XOR\n2 1 76914 131121 54787 XOR\n2 1 54786 54787 54785 AND\n2 1 54785 131121 131122 XOR\n2 1 131153 131122 78195 XOR\n2 1 79731 78195 131091 XOR\n2 1 131091 131060 76403 XOR\n2 1 78195 131060 54700 XOR\n2 1 54699 54700 54698 AND\n2 1 54698 131060 131061 XOR\n2 1 79732 131061 54702 XOR\n2 1 82803 131122 54789 XOR\n2 1 76915 131122 54790 XOR\n2 1 54789 54790 54788 AND\n2 1 54788 131122 131123 XOR\n2 1 131154 131123 78196 XOR\n2 1 79732 78196 131092 XOR\n2 1 131092 131061 76404 XOR\n2 1 78196 131061 54703 XOR\n2 1 54702 54703 54701 AND\n2 1 54701 131061 131062 XOR\n2 1 79733 131062 54705 XOR\n2 1 82804 131123 54792 XOR\n2 1 76916 131123 54793 XOR\n2 1 54792 54793 54791 AND\n2 1 54791 131123 131124 XOR\n",
"2 1 131155 131124 78197 XOR\n2 1 79733 78197 131093 XOR\n2 1 131093 131062 76405 XOR\n2 1 78197 131062 54706 XOR\n2 1 54705 54706 54704 AND\n2 1 54704 131062 131063 XOR\n2 1 79734 131063 54708 XOR\n2 1 82805 131124 54795 XOR\n2 1 76917 131124 54796 XOR\n2 1 54795 54796 54794 AND\n2 1 54794 131124 131125 XOR\n2 1 131156 131125 78198 XOR\n2 1 79734 78198 131094 XOR\n2 1 131094 131063 76406 XOR\n2 1 78198 131063 54709 XOR\n2 1 54708 54709 54707 AND\n2 1 54707 131063 131064 XOR\n2 1 79735 131064 54711 XOR\n2 1 82806 131125 54798 XOR\n2 1 76918 131125 54799 XOR\n2 1 54798 54799 54797 AND\n2 1 54797 131125 131126 XOR\n2 1 131157 131126 78199 XOR\n2 1 79735 78199 131095 XOR\n2 1 131095 131064 76407 XOR\n2 1 78199 131064 54712 XOR\n2 1 54711 54712 54710 AND\n2 1 54710 131064 131065 XOR\n2 1 79736 131065 54714 XOR\n2 1 82807 131126 54801 XOR\n2 1 76919 131126 54802 XOR\n2 1 54801 54802 54800 AND\n2 1 54800 131126 131127 XOR\n2 1 131158 131127 78200 XOR\n2 1 79736 78200 131096 XOR\n2 1 131096 131065 76408 XOR\n2 1 78200 131065 54715 XOR\n2 1 54714 54715 54713 AND\n2 1 54713 131065 131066 XOR\n2 1 79737 131066 54717 XOR\n2 1 82808 131127 54804 XOR\n2 1 76920 131127 54805 XOR\n2 1 54804 54805 54803 AND\n2 1 54803 131127 131128 XOR\n2 1 131159 131128 78201 XOR\n2 1 79737 78201 131097 XOR\n2 1 131097 131066 76409 XOR\n2 1 78201 131066 54718 XOR\n2 1 54717 54718 54716 AND\n2 1 54716 131066 131067 XOR\n2 1 79738 131067 54720 XOR\n2 1 82809 131128 54807 XOR\n2 1 76921 131128 54808 XOR\n2 1 54807 54808 54806 AND\n2 1 54806 131128 131129 XOR\n2 1 131160 131129 78202 XOR\n2 1 79738 78202 131098 XOR\n2 1 131098 131067 76410 XOR\n2 1 78202 131067 54721 XOR\n2 1 54720 54721 54719 AND\n2 1 54719 131067 131068 XOR\n2 1 79739 131068 54723 XOR\n2 1 82810 131129 54810 XOR\n2 1 76922 131129 54811 XOR\n2 1 54810 54811 54809 AND\n2 1 54809 131129 131130 XOR\n2 1 131161 131130 78203 XOR\n2 1 79739 78203 131099 XOR\n2 1 131099 131068 76411 XOR\n2 1 78203 131068 54724 XOR\n2 1 54723 54724 54722 AND\n2 1 54722 131068 131069 XOR\n2 1 79740 131069 54726 XOR\n2 1 82811 131130 54813 XOR\n2 1 76923 131130 54814 XOR\n2 1 54813 54814 54812 AND\n2 1 54812 131130 131131 XOR\n2 1 131162 131131 78204 XOR\n2 1 79740 78204 131100 XOR\n2 1 131100 131069 76412 XOR\n2 1 78204 131069 54727 XOR\n2 1 54726 54727 54725 AND\n2 1 54725 131069 131070 XOR\n2 1 79741 131070 54729 XOR\n2 1 82812 131131 54816 XOR\n2 1 76924 131131 54817 XOR\n2 1 54816 54817 54815 AND\n2 1 54815 131131 131132 XOR\n2 1 131163 131132 78205 XOR\n2 1 79741 78205 131101 XOR\n2 1 131101 131070 76413 XOR\n2 1 78205 131070 54730 XOR\n2 1 54729 54730 54728 AND\n2 1 54728 131070 131071 XOR\n2 1 79742 131071 54732 XOR\n2 1 82813 131132 54819 XOR\n2 1 76925 131132 54820 XOR\n2 1 54819 54820 54818 AND\n2 1 54818 131132 131133 XOR\n2 1 131164 131133 78206 XOR\n2 1 79742 78206 131102 XOR\n2 1 131102 131071 76414 XOR\n2 1 78206 131071 54733 XOR\n2 1 54732 54733 54731 AND\n2 1 54731 131071 131072 XOR\n2 1 79743 131072 54735 XOR\n2 1 82814 131133 54822 XOR\n2 1 76926 131133 54823 XOR\n2 1 54822 54823 54821 AND\n2 1 54821 131133 131134 XOR\n2 1 131165 131134 78207 XOR\n2 1 79743 78207 131103 XOR\n2 1 131103 131072 76415 XOR\n2 1 78207 131072 54736 XOR\n2 1 54735 54736 54734 AND\n2 1 54734 131072 131073 XOR\n2 1 79744 131073 54738 XOR\n2 1 82815 131134 54825 XOR\n2 1 76927 131134 54826 XOR\n2 1 54825 54826 54824 AND\n2 1 54824 131134 131135 XOR\n2 1 131166 131135 78208 XOR\n2 1 79744 78208 131104 XOR\n2 1 131104 131073 76416 XOR\n2 1 78208 131073 54739 XOR\n2 1 54738 54739 54737 AND\n2 1 54737 131073 131074 XOR\n2 1 79745 131074 54741 XOR\n",
"2 1 82816 131135 54828 XOR\n2 1 76928 131135 54829 XOR\n2 1 54828 54829 54827 AND\n2 1 54827 131135 131136 XOR\n2 1 131167 131136 78209 XOR\n2 1 79745 78209 131105 XOR\n2 1 131105 131074 76417 XOR\n2 1 78209 131074 54742 XOR\n2 1 54741 54742 54740 AND\n2 1 54740 131074 131075 XOR\n2 1 79746 131075 54744 XOR\n2 1 82817 131136 54831 XOR\n2 1 76929 131136 54832 XOR\n2 1 54831 54832 54830 AND\n2 1 54830 131136 131137 XOR\n2 1 131168 131137 78210 XOR\n2 1 79746 78210 131106 XOR\n2 1 131106 131075 76418 XOR\n2 1 78210 131075 54745 XOR\n2 1 54744 54745 54743 AND\n2 1 54743 131075 131076 XOR\n2 1 79747 131076 54747 XOR\n2 1 82818 131137 54834 XOR\n2 1 76930 131137 54835 XOR\n2 1 54834 54835 54833 AND\n2 1 54833 131137 131138 XOR\n2 1 131169 131138 78211 XOR\n2 1 79747 78211 131107 XOR\n2 1 131107 131076 76419 XOR\n2 1 78211 131076 54748 XOR\n2 1 54747 54748 54746 AND\n2 1 54746 131076 131077 XOR\n2 1 79748 131077 54750 XOR\n2 1 82819 131138 54837 XOR\n2 1 76931 131138 54838 XOR\n2 1 54837 54838 54836 AND\n2 1 54836 131138 131139 XOR\n2 1 131170 131139 78212 XOR\n2 1 79748 78212 131108 XOR\n2 1 131108 131077 76420 XOR\n2 1 78212 131077 54751 XOR\n2 1 54750 54751 54749 AND\n2 1 54749 131077 131078 XOR\n2 1 79749 131078 54753 XOR\n2 1 82820 131139 54840 XOR\n2 1 76932 131139 54841 XOR\n2 1 54840 54841 54839 AND\n2 1 54839 131139 131140 XOR\n2 1 131171 131140 78213 XOR\n2 1 79749 78213 131109 XOR\n2 1 131109 131078 76421 XOR\n2 1 78213 131078 54754 XOR\n2 1 54753 54754 54752 AND\n2 1 54752 131078 131079 XOR\n2 1 79750 131079 54756 XOR\n2 1 82821 131140 54843 XOR\n2 1 76933 131140 54844 XOR\n2 1 54843 54844 54842 AND\n2 1 54842 131140 131141 XOR\n2 1 131172 131141 78214 XOR\n2 1 79750 78214 131110 XOR\n2 1 131110 131079 76422 XOR\n2 1 78214 131079 54757 XOR\n2 1 54756 54757 54755 AND\n2 1 54755 131079 131080 XOR\n2 1 79751 131080 54759 XOR\n2 1 82822 131141 54846 XOR\n2 1 76934 131141 54847 XOR\n2 1 54846 54847 54845 AND\n2 1 54845 131141 131142 XOR\n2 1 131173 131142 78215 XOR\n2 1 79751 78215 131111 XOR\n2 1 131111 131080 76423 XOR\n2 1 78215 131080 54760 XOR\n2 1 54759 54760 54758 AND\n2 1 54758 131080 131081 XOR\n2 1 79752 131081 54762 XOR\n2 1 82823 131142 54849 XOR\n2 1 76935 131142 54850 XOR\n2 1 54849 54850 54848 AND\n2 1 54848 131142 131143 XOR\n2 1 131174 131143 78216 XOR\n2 1 79752 78216 131112 XOR\n2 1 131112 131081 76424 XOR\n2 1 78216 131081 54763 XOR\n2 1 54762 54763 54761 AND\n2 1 54761 131081 131082 XOR\n2 1 79753 131082 54765 XOR\n2 1 82824 131143 54852 XOR\n2 1 76936 131143 54853 XOR\n2 1 54852 54853 54851 AND\n2 1 54851 131143 131144 XOR\n2 1 131175 131144 78217 XOR\n2 1 79753 78217 131113 XOR\n2 1 131113 131082 76425 XOR\n2 1 78217 131082 54766 XOR\n2 1 54765 54766 54764 AND\n2 1 54764 131082 131083 XOR\n2 1 79754 131083 54768 XOR\n2 1 82825 131144 54855 XOR\n2 1 76937 131144 54856 XOR\n2 1 54855 54856 54854 AND\n2 1 54854 131144 131145 XOR\n2 1 131176 131145 78218 XOR\n2 1 79754 78218 131114 XOR\n2 1 131114 131083 76426 XOR\n2 1 78218 131083 54769 XOR\n2 1 54768 54769 54767 AND\n2 1 54767 131083 131084 XOR\n2 1 79755 131084 54771 XOR\n2 1 82826 131145 54858 XOR\n2 1 76938 131145 54859 XOR\n2 1 54858 54859 54857 AND\n2 1 54857 131145 131146 XOR\n2 1 131177 131146 78219 XOR\n2 1 79755 78219 131115 XOR\n2 1 131115 131084 76427 XOR\n2 1 78219 131084 54772 XOR\n2 1 54771 54772 54770 AND\n2 1 54770 131084 131085 XOR\n2 1 79756 131085 54774 XOR\n2 1 82827 131146 54861 XOR\n2 1 76939 131146 54862 XOR\n2 1 54861 54862 54860 AND\n2 1 54860 131146 131147 XOR\n2 1 131178 131147 78220 XOR\n2 1 79756 78220 131116 XOR\n2 1 131116 131085 76428 XOR\n",
"2 1 78220 131085 54775 XOR\n2 1 54774 54775 54773 AND\n2 1 54773 131085 131086 XOR\n2 1 79757 131086 54777 XOR\n2 1 82828 131147 54864 XOR\n2 1 76940 131147 54865 XOR\n2 1 54864 54865 54863 AND\n2 1 54863 131147 131148 XOR\n2 1 131179 131148 78221 XOR\n2 1 79757 78221 131117 XOR\n2 1 131117 131086 76429 XOR\n2 1 78221 131086 54778 XOR\n2 1 54777 54778 54776 AND\n2 1 54776 131086 131087 XOR\n2 1 79758 131087 54780 XOR\n2 1 82829 131148 54867 XOR\n2 1 76941 131148 54868 XOR\n2 1 54867 54868 54866 AND\n2 1 54866 131148 131149 XOR\n2 1 131180 131149 78222 XOR\n2 1 79758 78222 131118 XOR\n2 1 131118 131087 76430 XOR\n2 1 78222 131087 54781 XOR\n2 1 54780 54781 54779 AND\n2 1 54779 131087 131088 XOR\n2 1 79759 131088 54783 XOR\n2 1 82830 131149 54870 XOR\n2 1 76942 131149 54871 XOR\n2 1 54870 54871 54869 AND\n2 1 54869 131149 131150 XOR\n2 1 131181 131150 78223 XOR\n2 1 79759 78223 131119 XOR\n2 1 131119 131088 76431 XOR\n2 1 78223 131088 54784 XOR\n2 1 54783 54784 54782 AND\n2 1 54782 131088 131089 XOR\n2 1 82831 131150 54873 XOR\n2 1 76943 131150 54874 XOR\n2 1 54873 54874 54872 AND\n2 1 54872 131150 131151 XOR\n2 1 131182 131151 78224 XOR\n2 1 79760 78224 131120 XOR\n2 1 131120 131089 76432 XOR\n2 1 76418 2545 116757 XOR\n2 1 76419 2546 116758 XOR\n2 1 76427 2554 116766 XOR\n2 1 76425 2552 116764 XOR\n2 1 76416 2543 116755 XOR\n2 1 76431 2558 116770 XOR\n2 1 76417 2544 116756 XOR\n2 1 76432 2559 116771 XOR\n2 1 76430 2557 116769 XOR\n2 1 76421 2548 116760 XOR\n2 1 76423 2550 116762 XOR\n2 1 76428 2555 116767 XOR\n2 1 76429 2556 116768 XOR\n2 1 76403 2530 116742 XOR\n2 1 76414 2541 116753 XOR\n2 1 76407 2534 116746 XOR\n2 1 76406 2533 116745 XOR\n2 1 76405 2532 116744 XOR\n2 1 76415 2542 116754 XOR\n2 1 76408 2535 116747 XOR\n2 1 76412 2539 116751 XOR\n2 1 76411 2538 116750 XOR\n2 1 76409 2536 116748 XOR\n2 1 76410 2537 116749 XOR\n2 1 76413 2540 116752 XOR\n2 1 76426 2553 116765 XOR\n2 1 76401 2528 94518 XOR\n2 1 96566 94518 90481 XOR\n2 1 2016 90481 2400 XOR\n2 1 2016 90481 105506 AND\n2 1 96566 94518 116648 AND\n2 1 96567 116648 30610 XOR\n2 1 2017 105506 12277 XOR\n2 1 90481 84337 105568 AND\n2 1 90481 84337 1888 XOR\n2 1 1888 1952 71119 XOR\n2 1 71119 71087 71055 AND\n2 1 71055 1952 86353 XOR\n2 1 1888 1920 70991 XOR\n2 1 84338 105568 12368 XOR\n2 1 76401 2528 116710 AND\n2 1 2529 116710 30701 XOR\n2 1 76402 116710 30700 XOR\n2 1 30700 30701 30699 AND\n2 1 30699 116710 116711 XOR\n2 1 116742 116711 94520 XOR\n2 1 96568 94520 116680 XOR\n2 1 76403 116711 30703 XOR\n2 1 2530 116711 30704 XOR\n2 1 30703 30704 30702 AND\n2 1 30702 116711 116712 XOR\n2 1 2531 116712 30707 XOR\n2 1 76404 116712 30706 XOR\n2 1 30706 30707 30705 AND\n2 1 30705 116712 116713 XOR\n2 1 76405 116713 30709 XOR\n2 1 2532 116713 30710 XOR\n2 1 30709 30710 30708 AND\n2 1 30708 116713 116714 XOR\n2 1 2533 116714 30713 XOR\n2 1 116744 116713 94522 XOR\n2 1 96570 94522 116682 XOR\n2 1 64399 2400 64367 AND\n2 1 64367 2464 98582 XOR\n2 1 2400 2432 64335 XOR\n2 1 76402 2529 116741 XOR\n2 1 116741 116710 94519 XOR\n2 1 96567 94519 116679 XOR\n2 1 116679 116648 92501 XOR\n1 1 92501 90482 INV\n2 1 2017 90482 105537 XOR\n2 1 105537 105506 2401 XOR\n2 1 90482 105506 12278 XOR\n2 1 12277 12278 12276 AND\n2 1 12276 105506 105507 XOR\n2 1 2018 105507 12280 XOR\n2 1 90482 84338 105599 XOR\n2 1 105599 105568 1889 XOR\n2 1 1889 1953 71120 XOR\n2 1 71120 71088 71056 AND\n2 1 71056 1953 86354 XOR\n2 1 1889 1921 70992 XOR\n2 1 90482 105568 12367 XOR\n2 1 12367 12368 12366 AND\n2 1 12366 105568 105569 XOR\n",
"2 1 84339 105569 12371 XOR\n2 1 64400 2401 64368 AND\n2 1 64368 2465 98583 XOR\n2 1 2401 2433 64336 XOR\n2 1 76404 2531 116743 XOR\n2 1 116743 116712 94521 XOR\n2 1 96569 94521 116681 XOR\n2 1 94519 116648 30611 XOR\n2 1 30610 30611 30609 AND\n2 1 30609 116648 116649 XOR\n2 1 94520 116649 30614 XOR\n2 1 116680 116649 92502 XOR\n1 1 92502 30597 INV\n2 1 30597 92501 90483 XOR\n2 1 2018 90483 105538 XOR\n2 1 90483 105507 12281 XOR\n2 1 105538 105507 2402 XOR\n2 1 12280 12281 12279 AND\n2 1 12279 105507 105508 XOR\n2 1 2019 105508 12283 XOR\n2 1 92502 92501 30519 XOR\n2 1 30519 90482 30518 AND\n2 1 30518 92501 30586 XOR\n1 1 30586 30522 INV\n2 1 90483 84339 105600 XOR\n2 1 105600 105569 1890 XOR\n2 1 1890 1954 71121 XOR\n2 1 71121 71089 71057 AND\n2 1 71057 1954 86355 XOR\n2 1 1890 1922 70993 XOR\n2 1 90483 105569 12370 XOR\n2 1 12370 12371 12369 AND\n2 1 12369 105569 105570 XOR\n2 1 84340 105570 12374 XOR\n2 1 64401 2402 64369 AND\n2 1 64369 2466 98584 XOR\n2 1 2402 2434 64337 XOR\n2 1 96568 116649 30613 XOR\n2 1 30613 30614 30612 AND\n2 1 30612 116649 116650 XOR\n2 1 96569 116650 30616 XOR\n2 1 116681 116650 92503 XOR\n2 1 92503 30586 30521 XOR\n2 1 30521 30522 30520 AND\n2 1 30520 30586 30524 XOR\n1 1 92503 30598 INV\n2 1 30598 30586 90484 XOR\n2 1 2019 90484 105539 XOR\n2 1 105539 105508 2403 XOR\n2 1 90484 105508 12284 XOR\n2 1 12283 12284 12282 AND\n2 1 12282 105508 105509 XOR\n2 1 2020 105509 12286 XOR\n2 1 90484 84340 105601 XOR\n2 1 105601 105570 1891 XOR\n2 1 1891 1955 71122 XOR\n2 1 71122 71090 71058 AND\n2 1 71058 1955 86356 XOR\n2 1 1891 1923 70994 XOR\n2 1 90484 105570 12373 XOR\n2 1 12373 12374 12372 AND\n2 1 12372 105570 105571 XOR\n2 1 84341 105571 12377 XOR\n2 1 64402 2403 64370 AND\n2 1 64370 2467 98585 XOR\n2 1 2403 2435 64338 XOR\n2 1 94521 116650 30617 XOR\n2 1 30616 30617 30615 AND\n2 1 30615 116650 116651 XOR\n2 1 94522 116651 30620 XOR\n2 1 116682 116651 92504 XOR\n2 1 92504 30524 90485 XOR\n2 1 90485 30524 30523 AND\n2 1 2020 90485 105540 XOR\n2 1 105540 105509 2404 XOR\n2 1 30523 30524 30587 XOR\n2 1 90485 105509 12287 XOR\n2 1 12286 12287 12285 AND\n2 1 12285 105509 105510 XOR\n2 1 2021 105510 12289 XOR\n2 1 90485 84341 105602 XOR\n2 1 105602 105571 1892 XOR\n2 1 1892 1956 71123 XOR\n2 1 71123 71091 71059 AND\n2 1 71059 1956 86357 XOR\n2 1 1892 1924 70995 XOR\n2 1 90485 105571 12376 XOR\n2 1 12376 12377 12375 AND\n2 1 12375 105571 105572 XOR\n2 1 64403 2404 64371 AND\n2 1 64371 2468 98586 XOR\n2 1 2404 2436 64339 XOR\n2 1 84342 105572 12380 XOR\n1 1 30587 30527 INV\n2 1 96570 116651 30619 XOR\n2 1 30619 30620 30618 AND\n2 1 30618 116651 116652 XOR\n2 1 96571 116652 30622 XOR\n2 1 76424 2551 116763 XOR\n2 1 116745 116714 94523 XOR\n2 1 96571 94523 116683 XOR\n2 1 116683 116652 92505 XOR\n1 1 92505 30599 INV\n2 1 92505 30587 30526 XOR\n2 1 30526 30527 30525 AND\n2 1 30599 30587 90486 XOR\n2 1 2021 90486 105541 XOR\n2 1 30525 30587 30529 XOR\n2 1 105541 105510 2405 XOR\n2 1 90486 105510 12290 XOR\n2 1 90486 84342 105603 XOR\n2 1 105603 105572 1893 XOR\n2 1 1893 1957 71124 XOR\n2 1 71124 71092 71060 AND\n2 1 71060 1957 86358 XOR\n2 1 1893 1925 70996 XOR\n2 1 12289 12290 12288 AND\n2 1 12288 105510 105511 XOR\n2 1 2022 105511 12292 XOR\n2 1 64404 2405 64372 AND\n2 1 64372 2469 98587 XOR\n2 1 2405 2437 64340 XOR\n2 1 90486 105572 12379 XOR\n2 1 12379 12380 12378 AND\n2 1 12378 105572 105573 XOR\n2 1 84343 105573 12383 XOR\n2 1 2400 2405 61609 XOR\n2 1 94523 116652 30623 XOR\n",
"2 1 30622 30623 30621 AND\n2 1 30621 116652 116653 XOR\n2 1 96572 116653 30625 XOR\n2 1 76420 2547 116759 XOR\n2 1 76422 2549 116761 XOR\n2 1 76406 116714 30712 XOR\n2 1 30712 30713 30711 AND\n2 1 30711 116714 116715 XOR\n2 1 2534 116715 30716 XOR\n2 1 76407 116715 30715 XOR\n2 1 30715 30716 30714 AND\n2 1 116746 116715 94524 XOR\n2 1 30714 116715 116716 XOR\n2 1 116747 116716 94525 XOR\n2 1 2535 116716 30719 XOR\n2 1 96573 94525 116685 XOR\n2 1 96572 94524 116684 XOR\n2 1 76408 116716 30718 XOR\n2 1 30718 30719 30717 AND\n2 1 30717 116716 116717 XOR\n2 1 116748 116717 94526 XOR\n2 1 76409 116717 30721 XOR\n2 1 2536 116717 30722 XOR\n2 1 30721 30722 30720 AND\n2 1 30720 116717 116718 XOR\n2 1 76410 116718 30724 XOR\n2 1 2537 116718 30725 XOR\n2 1 116749 116718 94527 XOR\n2 1 30724 30725 30723 AND\n2 1 30723 116718 116719 XOR\n2 1 116750 116719 94528 XOR\n2 1 76411 116719 30727 XOR\n2 1 96574 94526 116686 XOR\n2 1 96576 94528 116688 XOR\n2 1 96575 94527 116687 XOR\n2 1 116684 116653 92506 XOR\n2 1 92506 30529 90487 XOR\n2 1 2022 90487 105542 XOR\n2 1 90487 30529 30528 AND\n2 1 30528 30529 30531 XOR\n2 1 90487 84343 105604 XOR\n2 1 105542 105511 2406 XOR\n2 1 90487 105511 12293 XOR\n2 1 12292 12293 12291 AND\n2 1 12291 105511 105512 XOR\n2 1 2023 105512 12295 XOR\n2 1 64405 2406 64373 AND\n2 1 64373 2470 98588 XOR\n2 1 2406 2438 64341 XOR\n2 1 105604 105573 1894 XOR\n2 1 1894 1958 71125 XOR\n2 1 71125 71093 71061 AND\n2 1 71061 1958 86359 XOR\n2 1 1894 1926 70997 XOR\n2 1 90487 105573 12382 XOR\n2 1 12382 12383 12381 AND\n2 1 12381 105573 105574 XOR\n2 1 84344 105574 12386 XOR\n2 1 2401 2406 61610 XOR\n2 1 94524 116653 30626 XOR\n2 1 30625 30626 30624 AND\n2 1 30624 116653 116654 XOR\n2 1 116685 116654 92507 XOR\n2 1 92507 30531 90488 XOR\n2 1 2023 90488 105543 XOR\n2 1 90488 105512 12296 XOR\n2 1 90488 30531 30530 AND\n2 1 30530 30531 30588 XOR\n1 1 30588 30534 INV\n2 1 12295 12296 12294 AND\n2 1 90488 84344 105605 XOR\n2 1 105543 105512 2407 XOR\n2 1 12294 105512 105513 XOR\n2 1 2024 105513 12298 XOR\n2 1 64406 2407 64374 AND\n2 1 64374 2471 98589 XOR\n2 1 2407 2439 64342 XOR\n2 1 105605 105574 1895 XOR\n2 1 1895 1959 71126 XOR\n2 1 71126 71094 71062 AND\n2 1 71062 1959 86360 XOR\n2 1 1895 1927 70998 XOR\n2 1 90488 105574 12385 XOR\n2 1 12385 12386 12384 AND\n2 1 12384 105574 105575 XOR\n2 1 84345 105575 12389 XOR\n2 1 2402 2407 61611 XOR\n2 1 96573 116654 30628 XOR\n2 1 94525 116654 30629 XOR\n2 1 30628 30629 30627 AND\n2 1 30627 116654 116655 XOR\n2 1 116686 116655 92508 XOR\n2 1 92508 30588 30533 XOR\n2 1 30533 30534 30532 AND\n2 1 30532 30588 30536 XOR\n1 1 92508 30600 INV\n2 1 30600 30588 90489 XOR\n2 1 2024 90489 105544 XOR\n2 1 90489 84345 105606 XOR\n2 1 105544 105513 2408 XOR\n2 1 90489 105513 12299 XOR\n2 1 64407 2408 64375 AND\n2 1 64375 2472 98590 XOR\n2 1 2408 2440 64343 XOR\n2 1 105606 105575 1896 XOR\n2 1 1896 1960 71127 XOR\n2 1 71127 71095 71063 AND\n2 1 71063 1960 86361 XOR\n2 1 1896 1928 70999 XOR\n2 1 90489 105575 12388 XOR\n2 1 12388 12389 12387 AND\n2 1 12387 105575 105576 XOR\n2 1 84346 105576 12392 XOR\n2 1 12298 12299 12297 AND\n2 1 12297 105513 105514 XOR\n2 1 2025 105514 12301 XOR\n2 1 2403 2408 61612 XOR\n2 1 96574 116655 30631 XOR\n2 1 94526 116655 30632 XOR\n2 1 30631 30632 30630 AND\n2 1 30630 116655 116656 XOR\n2 1 116687 116656 92509 XOR\n2 1 92509 30536 90490 XOR\n2 1 90490 105514 12302 XOR\n2 1 2025 90490 105545 XOR\n2 1 105545 105514 2409 XOR\n2 1 90490 30536 30535 AND\n2 1 30535 30536 30538 XOR\n",
"2 1 90490 84346 105607 XOR\n2 1 64408 2409 64376 AND\n2 1 64376 2473 98591 XOR\n2 1 2409 2441 64344 XOR\n2 1 105607 105576 1897 XOR\n2 1 1897 1961 71128 XOR\n2 1 71128 71096 71064 AND\n2 1 71064 1961 86362 XOR\n2 1 1897 1929 71000 XOR\n2 1 90490 105576 12391 XOR\n2 1 12391 12392 12390 AND\n2 1 12390 105576 105577 XOR\n2 1 84347 105577 12395 XOR\n2 1 12301 12302 12300 AND\n2 1 12300 105514 105515 XOR\n2 1 2026 105515 12304 XOR\n2 1 2404 2409 61613 XOR\n2 1 96575 116656 30634 XOR\n2 1 94527 116656 30635 XOR\n2 1 30634 30635 30633 AND\n2 1 30633 116656 116657 XOR\n2 1 94528 116657 30638 XOR\n2 1 116688 116657 92510 XOR\n2 1 92510 30538 90491 XOR\n2 1 90491 30538 30537 AND\n2 1 30537 30538 30589 XOR\n2 1 2026 90491 105546 XOR\n2 1 90491 105515 12305 XOR\n2 1 12304 12305 12303 AND\n2 1 105546 105515 2410 XOR\n2 1 90491 84347 105608 XOR\n2 1 12303 105515 105516 XOR\n2 1 2027 105516 12307 XOR\n2 1 64409 2410 64377 AND\n2 1 64377 2474 98592 XOR\n2 1 2410 2442 64345 XOR\n2 1 105608 105577 1898 XOR\n2 1 1898 1962 71129 XOR\n2 1 71129 71097 71065 AND\n2 1 71065 1962 86363 XOR\n2 1 1898 1930 71001 XOR\n2 1 90491 105577 12394 XOR\n2 1 12394 12395 12393 AND\n2 1 12393 105577 105578 XOR\n2 1 84348 105578 12398 XOR\n1 1 30589 30541 INV\n2 1 2405 2410 61614 XOR\n2 1 96576 116657 30637 XOR\n2 1 30637 30638 30636 AND\n2 1 30636 116657 116658 XOR\n2 1 96577 116658 30640 XOR\n2 1 2538 116719 30728 XOR\n2 1 30727 30728 30726 AND\n2 1 30726 116719 116720 XOR\n2 1 116751 116720 94529 XOR\n2 1 96577 94529 116689 XOR\n2 1 2539 116720 30731 XOR\n2 1 116689 116658 92511 XOR\n2 1 92511 30589 30540 XOR\n1 1 92511 30601 INV\n2 1 30601 30589 90492 XOR\n2 1 2027 90492 105547 XOR\n2 1 90492 105516 12308 XOR\n2 1 12307 12308 12306 AND\n2 1 105547 105516 2411 XOR\n2 1 12306 105516 105517 XOR\n2 1 30540 30541 30539 AND\n2 1 30539 30589 30543 XOR\n2 1 2028 105517 12310 XOR\n2 1 90492 84348 105609 XOR\n2 1 64410 2411 64378 AND\n2 1 64378 2475 98593 XOR\n2 1 2411 2443 64346 XOR\n2 1 105609 105578 1899 XOR\n2 1 1899 1963 71130 XOR\n2 1 71130 71098 71066 AND\n2 1 71066 1963 86364 XOR\n2 1 1899 1931 71002 XOR\n2 1 1888 1899 67533 XOR\n2 1 90492 105578 12397 XOR\n2 1 12397 12398 12396 AND\n2 1 12396 105578 105579 XOR\n2 1 84349 105579 12401 XOR\n2 1 2406 2411 61583 XOR\n2 1 94529 116658 30641 XOR\n2 1 30640 30641 30639 AND\n2 1 30639 116658 116659 XOR\n2 1 96578 116659 30643 XOR\n2 1 76412 116720 30730 XOR\n2 1 30730 30731 30729 AND\n2 1 30729 116720 116721 XOR\n2 1 116752 116721 94530 XOR\n2 1 76413 116721 30733 XOR\n2 1 2540 116721 30734 XOR\n2 1 30733 30734 30732 AND\n2 1 30732 116721 116722 XOR\n2 1 116753 116722 94531 XOR\n2 1 2541 116722 30737 XOR\n2 1 76414 116722 30736 XOR\n2 1 30736 30737 30735 AND\n2 1 30735 116722 116723 XOR\n2 1 116754 116723 94532 XOR\n2 1 94530 116659 30644 XOR\n2 1 30643 30644 30642 AND\n2 1 2542 116723 30740 XOR\n2 1 76415 116723 30739 XOR\n2 1 30739 30740 30738 AND\n2 1 30738 116723 116724 XOR\n2 1 2543 116724 30743 XOR\n2 1 76416 116724 30742 XOR\n2 1 30742 30743 30741 AND\n2 1 116755 116724 94533 XOR\n2 1 30741 116724 116725 XOR\n2 1 116756 116725 94534 XOR\n2 1 96578 94530 116690 XOR\n2 1 116690 116659 92512 XOR\n2 1 96579 94531 116691 XOR\n2 1 96581 94533 116693 XOR\n2 1 96580 94532 116692 XOR\n2 1 96582 94534 116694 XOR\n2 1 92512 30543 90493 XOR\n2 1 2028 90493 105548 XOR\n2 1 90493 30543 30542 AND\n2 1 30542 30543 30545 XOR\n2 1 105548 105517 2412 XOR\n2 1 90493 105517 12311 XOR\n2 1 90493 84349 105610 XOR\n2 1 12310 12311 12309 AND\n",
"2 1 12309 105517 105518 XOR\n2 1 2029 105518 12313 XOR\n2 1 64411 2412 64379 AND\n2 1 64379 2476 98594 XOR\n2 1 2412 2444 64347 XOR\n2 1 105610 105579 1900 XOR\n2 1 1900 1964 71131 XOR\n2 1 71131 71099 71067 AND\n2 1 71067 1964 86365 XOR\n2 1 1900 1932 71003 XOR\n2 1 1889 1900 67534 XOR\n2 1 2407 2412 61584 XOR\n2 1 30642 116659 116660 XOR\n2 1 96579 116660 30646 XOR\n2 1 116691 116660 92513 XOR\n2 1 92513 30545 90494 XOR\n2 1 2029 90494 105549 XOR\n2 1 90494 30545 30544 AND\n2 1 30544 30545 30590 XOR\n1 1 30590 30548 INV\n2 1 105549 105518 2413 XOR\n2 1 90494 84350 105611 XOR\n2 1 90494 105518 12314 XOR\n2 1 64412 2413 64380 AND\n2 1 64380 2477 98595 XOR\n2 1 2413 2445 64348 XOR\n2 1 12313 12314 12312 AND\n2 1 12312 105518 105519 XOR\n2 1 2030 105519 12316 XOR\n2 1 2408 2413 61585 XOR\n2 1 94531 116660 30647 XOR\n2 1 30646 30647 30645 AND\n2 1 30645 116660 116661 XOR\n2 1 94532 116661 30650 XOR\n2 1 116692 116661 92514 XOR\n2 1 92514 30590 30547 XOR\n2 1 30547 30548 30546 AND\n2 1 30546 30590 30591 XOR\n1 1 30591 30551 INV\n1 1 92514 30602 INV\n2 1 30602 30590 90495 XOR\n2 1 2030 90495 105550 XOR\n2 1 90495 84351 105612 XOR\n2 1 105550 105519 2414 XOR\n2 1 64413 2414 64381 AND\n2 1 64381 2478 98596 XOR\n2 1 2414 2446 64349 XOR\n2 1 90495 105519 12317 XOR\n2 1 12316 12317 12315 AND\n2 1 12315 105519 105520 XOR\n2 1 2031 105520 12319 XOR\n2 1 2409 2414 61586 XOR\n2 1 96580 116661 30649 XOR\n2 1 30649 30650 30648 AND\n2 1 30648 116661 116662 XOR\n2 1 96581 116662 30652 XOR\n2 1 116693 116662 92515 XOR\n1 1 92515 30603 INV\n2 1 30603 30591 90496 XOR\n2 1 2031 90496 105551 XOR\n2 1 105551 105520 2415 XOR\n2 1 90496 105520 12320 XOR\n2 1 12319 12320 12318 AND\n2 1 12318 105520 105521 XOR\n2 1 92515 30591 30550 XOR\n2 1 30550 30551 30549 AND\n2 1 30549 30591 30553 XOR\n2 1 2032 105521 12322 XOR\n2 1 90496 84352 105613 XOR\n2 1 64414 2415 64382 AND\n2 1 64382 2479 98597 XOR\n2 1 2415 2447 64350 XOR\n2 1 2410 2415 61587 XOR\n2 1 94533 116662 30653 XOR\n2 1 30652 30653 30651 AND\n2 1 30651 116662 116663 XOR\n2 1 94534 116663 30656 XOR\n2 1 116694 116663 92516 XOR\n2 1 92516 30553 90497 XOR\n2 1 90497 105521 12323 XOR\n2 1 2032 90497 105552 XOR\n2 1 90497 30553 30552 AND\n2 1 30552 30553 30592 XOR\n1 1 30592 30556 INV\n2 1 90497 84353 105614 XOR\n2 1 105552 105521 2416 XOR\n2 1 12322 12323 12321 AND\n2 1 12321 105521 105522 XOR\n2 1 2033 105522 12325 XOR\n2 1 64415 2416 64383 AND\n2 1 64383 2480 98598 XOR\n2 1 2416 2448 64351 XOR\n2 1 2411 2416 61588 XOR\n2 1 96582 116663 30655 XOR\n2 1 30655 30656 30654 AND\n2 1 30654 116663 116664 XOR\n2 1 96583 116664 30658 XOR\n2 1 76417 116725 30745 XOR\n2 1 90493 105579 12400 XOR\n2 1 12400 12401 12399 AND\n2 1 12399 105579 105580 XOR\n2 1 84350 105580 12404 XOR\n2 1 105611 105580 1901 XOR\n2 1 1901 1965 71132 XOR\n2 1 71132 71100 71068 AND\n2 1 71068 1965 86366 XOR\n2 1 1901 1933 71004 XOR\n2 1 1890 1901 67503 XOR\n2 1 90494 105580 12403 XOR\n2 1 12403 12404 12402 AND\n2 1 12402 105580 105581 XOR\n2 1 90495 105581 12406 XOR\n2 1 105612 105581 1902 XOR\n2 1 1902 1966 71133 XOR\n2 1 71133 71101 71069 AND\n2 1 71069 1966 86367 XOR\n2 1 1902 1934 71005 XOR\n2 1 1891 1902 67504 XOR\n2 1 84351 105581 12407 XOR\n2 1 12406 12407 12405 AND\n2 1 12405 105581 105582 XOR\n2 1 105613 105582 1903 XOR\n2 1 84352 105582 12410 XOR\n2 1 1903 1967 71134 XOR\n2 1 71134 71102 71070 AND\n2 1 71070 1967 86368 XOR\n2 1 1903 1935 71006 XOR\n2 1 1892 1903 67505 XOR\n",
"2 1 90496 105582 12409 XOR\n2 1 12409 12410 12408 AND\n2 1 12408 105582 105583 XOR\n2 1 105614 105583 1904 XOR\n2 1 1904 1968 71135 XOR\n2 1 71135 71103 71071 AND\n2 1 71071 1968 86369 XOR\n2 1 1904 1936 71007 XOR\n2 1 1893 1904 67506 XOR\n2 1 84353 105583 12413 XOR\n2 1 90497 105583 12412 XOR\n2 1 12412 12413 12411 AND\n2 1 12411 105583 105584 XOR\n2 1 84354 105584 12416 XOR\n2 1 2544 116725 30746 XOR\n2 1 30745 30746 30744 AND\n2 1 30744 116725 116726 XOR\n2 1 2545 116726 30749 XOR\n2 1 116757 116726 94535 XOR\n2 1 76418 116726 30748 XOR\n2 1 30748 30749 30747 AND\n2 1 96583 94535 116695 XOR\n2 1 116695 116664 92517 XOR\n2 1 92517 30592 30555 XOR\n2 1 30555 30556 30554 AND\n2 1 30554 30592 30558 XOR\n1 1 92517 30604 INV\n2 1 30604 30592 90498 XOR\n2 1 2033 90498 105553 XOR\n2 1 90498 105522 12326 XOR\n2 1 105553 105522 2417 XOR\n2 1 12325 12326 12324 AND\n2 1 12324 105522 105523 XOR\n2 1 2034 105523 12328 XOR\n2 1 90498 84354 105615 XOR\n2 1 64416 2417 64384 AND\n2 1 64384 2481 98599 XOR\n2 1 2417 2449 64352 XOR\n2 1 90498 105584 12415 XOR\n2 1 12415 12416 12414 AND\n2 1 12414 105584 105585 XOR\n2 1 84355 105585 12419 XOR\n2 1 105615 105584 1905 XOR\n2 1 1905 1969 71136 XOR\n2 1 71136 71104 71072 AND\n2 1 71072 1969 86370 XOR\n2 1 1905 1937 71008 XOR\n2 1 1894 1905 67507 XOR\n2 1 2412 2417 61589 XOR\n2 1 94535 116664 30659 XOR\n2 1 30658 30659 30657 AND\n2 1 30657 116664 116665 XOR\n2 1 96584 116665 30661 XOR\n2 1 30747 116726 116727 XOR\n2 1 116758 116727 94536 XOR\n2 1 76419 116727 30751 XOR\n2 1 2546 116727 30752 XOR\n2 1 30751 30752 30750 AND\n2 1 30750 116727 116728 XOR\n2 1 116759 116728 94537 XOR\n2 1 94536 116665 30662 XOR\n2 1 2547 116728 30755 XOR\n2 1 76420 116728 30754 XOR\n2 1 30754 30755 30753 AND\n2 1 30661 30662 30660 AND\n2 1 96584 94536 116696 XOR\n2 1 116696 116665 92518 XOR\n2 1 96585 94537 116697 XOR\n2 1 92518 30558 90499 XOR\n2 1 2034 90499 105554 XOR\n2 1 105554 105523 2418 XOR\n2 1 90499 105585 12418 XOR\n2 1 90499 105523 12329 XOR\n2 1 12328 12329 12327 AND\n2 1 12327 105523 105524 XOR\n2 1 2035 105524 12331 XOR\n2 1 90499 30558 30557 AND\n2 1 30557 30558 30560 XOR\n2 1 90499 84355 105616 XOR\n2 1 64417 2418 64385 AND\n2 1 64385 2482 98600 XOR\n2 1 2418 2450 64353 XOR\n2 1 105616 105585 1906 XOR\n2 1 1906 1970 71137 XOR\n2 1 71137 71105 71073 AND\n2 1 71073 1970 86371 XOR\n2 1 1906 1938 71009 XOR\n2 1 1895 1906 67508 XOR\n2 1 12418 12419 12417 AND\n2 1 12417 105585 105586 XOR\n2 1 84356 105586 12422 XOR\n2 1 30753 116728 116729 XOR\n2 1 116760 116729 94538 XOR\n2 1 2548 116729 30758 XOR\n2 1 76421 116729 30757 XOR\n2 1 30757 30758 30756 AND\n2 1 30756 116729 116730 XOR\n2 1 2549 116730 30761 XOR\n2 1 76422 116730 30760 XOR\n2 1 30760 30761 30759 AND\n2 1 30759 116730 116731 XOR\n2 1 116762 116731 94540 XOR\n2 1 76423 116731 30763 XOR\n2 1 116761 116730 94539 XOR\n2 1 96586 94538 116698 XOR\n2 1 96588 94540 116700 XOR\n2 1 96587 94539 116699 XOR\n2 1 2413 2418 61590 XOR\n2 1 61590 2400 100637 XOR\n2 1 100637 98589 116561 XOR\n2 1 30660 116665 116666 XOR\n2 1 94537 116666 30665 XOR\n2 1 96585 116666 30664 XOR\n2 1 30664 30665 30663 AND\n2 1 30663 116666 116667 XOR\n2 1 116698 116667 92520 XOR\n2 1 94538 116667 30668 XOR\n2 1 96586 116667 30667 XOR\n2 1 116697 116666 92519 XOR\n2 1 92519 30560 90500 XOR\n2 1 90500 30560 30559 AND\n2 1 30559 30560 30562 XOR\n2 1 92520 30562 90501 XOR\n2 1 2036 90501 105556 XOR\n2 1 90501 30562 30561 AND\n2 1 30561 30562 30564 XOR\n2 1 2035 90500 105555 XOR\n2 1 105555 105524 2419 XOR\n",
"2 1 90500 105524 12332 XOR\n2 1 12331 12332 12330 AND\n2 1 12330 105524 105525 XOR\n2 1 90500 84356 105617 XOR\n2 1 105617 105586 1907 XOR\n2 1 1907 1971 71138 XOR\n2 1 71138 71106 71074 AND\n2 1 71074 1971 86372 XOR\n2 1 1907 1939 71010 XOR\n2 1 1896 1907 67509 XOR\n2 1 90501 84357 105618 XOR\n2 1 105556 105525 2420 XOR\n2 1 90501 105525 12335 XOR\n2 1 2036 105525 12334 XOR\n2 1 12334 12335 12333 AND\n2 1 12333 105525 105526 XOR\n2 1 2037 105526 12337 XOR\n2 1 64419 2420 64387 AND\n2 1 64418 2419 64386 AND\n2 1 64387 2484 98602 XOR\n2 1 64386 2483 98601 XOR\n2 1 2420 2452 64355 XOR\n2 1 2419 2451 64354 XOR\n2 1 90500 105586 12421 XOR\n2 1 12421 12422 12420 AND\n2 1 12420 105586 105587 XOR\n2 1 90501 105587 12424 XOR\n2 1 105618 105587 1908 XOR\n2 1 1908 1972 71139 XOR\n2 1 71139 71107 71075 AND\n2 1 71075 1972 86373 XOR\n2 1 1908 1940 71011 XOR\n2 1 1897 1908 67510 XOR\n2 1 67533 1908 88431 XOR\n2 1 84357 105587 12425 XOR\n2 1 12424 12425 12423 AND\n2 1 12423 105587 105588 XOR\n2 1 84358 105588 12428 XOR\n2 1 30667 30668 30666 AND\n2 1 30666 116667 116668 XOR\n2 1 94539 116668 30671 XOR\n2 1 96587 116668 30670 XOR\n2 1 30670 30671 30669 AND\n2 1 116699 116668 92521 XOR\n2 1 92521 30564 90502 XOR\n2 1 2037 90502 105557 XOR\n2 1 90502 30564 30563 AND\n2 1 30563 30564 30593 XOR\n2 1 30669 116668 116669 XOR\n2 1 94540 116669 30674 XOR\n2 1 116700 116669 92522 XOR\n2 1 92522 30593 30566 XOR\n1 1 92522 30605 INV\n2 1 30605 30593 90503 XOR\n2 1 2038 90503 105558 XOR\n2 1 90502 84358 105619 XOR\n2 1 90503 84359 105620 XOR\n2 1 90502 105588 12427 XOR\n2 1 12427 12428 12426 AND\n2 1 12426 105588 105589 XOR\n2 1 90503 105589 12430 XOR\n2 1 105620 105589 1910 XOR\n2 1 1910 1974 71141 XOR\n2 1 71141 71109 71077 AND\n2 1 71077 1974 86375 XOR\n2 1 1910 1942 71013 XOR\n2 1 1910 1889 67523 XOR\n2 1 1899 1910 67512 XOR\n2 1 67523 1898 88421 XOR\n2 1 88421 86373 116376 XOR\n2 1 67503 1910 88401 XOR\n2 1 88401 86353 84305 XOR\n2 1 88401 86353 116326 AND\n2 1 86354 116326 29988 XOR\n2 1 84359 105589 12431 XOR\n2 1 12430 12431 12429 AND\n2 1 12429 105589 105590 XOR\n2 1 84360 105590 12434 XOR\n2 1 105619 105588 1909 XOR\n2 1 1909 1973 71140 XOR\n2 1 71140 71108 71076 AND\n2 1 71076 1973 86374 XOR\n2 1 1909 1941 71012 XOR\n2 1 1909 1888 67522 XOR\n2 1 1898 1909 67511 XOR\n2 1 67534 1909 88432 XOR\n2 1 67522 1897 88420 XOR\n2 1 88420 86372 116375 XOR\n2 1 105557 105526 2421 XOR\n2 1 64420 2421 64388 AND\n2 1 64388 2485 98603 XOR\n2 1 2421 2453 64356 XOR\n1 1 30593 30567 INV\n2 1 30566 30567 30565 AND\n2 1 30565 30593 30594 XOR\n1 1 30594 30570 INV\n2 1 90502 105526 12338 XOR\n2 1 12337 12338 12336 AND\n2 1 12336 105526 105527 XOR\n2 1 2038 105527 12340 XOR\n2 1 90503 105527 12341 XOR\n2 1 12340 12341 12339 AND\n2 1 12339 105527 105528 XOR\n2 1 105558 105527 2422 XOR\n2 1 2039 105528 12343 XOR\n2 1 64421 2422 64389 AND\n2 1 64389 2486 98604 XOR\n2 1 2422 2454 64357 XOR\n2 1 2417 2422 61594 XOR\n2 1 2416 2421 61593 XOR\n2 1 2415 2420 61592 XOR\n2 1 2414 2419 61591 XOR\n2 1 61612 2422 100659 XOR\n2 1 61611 2421 100658 XOR\n2 1 61610 2420 100657 XOR\n2 1 61609 2419 100656 XOR\n2 1 61594 2404 100641 XOR\n2 1 100641 98593 116565 XOR\n2 1 61593 2403 100640 XOR\n2 1 100640 98592 116564 XOR\n2 1 61592 2402 100639 XOR\n2 1 100639 98591 116563 XOR\n2 1 61591 2401 100638 XOR\n2 1 100638 98590 116562 XOR\n2 1 96588 116669 30673 XOR\n2 1 30673 30674 30672 AND\n2 1 30672 116669 116670 XOR\n2 1 96589 116670 30676 XOR\n",
"2 1 2550 116731 30764 XOR\n2 1 30763 30764 30762 AND\n2 1 30762 116731 116732 XOR\n2 1 116763 116732 94541 XOR\n2 1 76424 116732 30766 XOR\n2 1 2551 116732 30767 XOR\n2 1 30766 30767 30765 AND\n2 1 94541 116670 30677 XOR\n2 1 30676 30677 30675 AND\n2 1 30675 116670 116671 XOR\n2 1 96589 94541 116701 XOR\n2 1 116701 116670 92523 XOR\n2 1 92523 30594 30569 XOR\n2 1 30569 30570 30568 AND\n2 1 30568 30594 30595 XOR\n1 1 30595 30573 INV\n1 1 92523 30606 INV\n2 1 30606 30594 90504 XOR\n2 1 2039 90504 105559 XOR\n2 1 90504 105528 12344 XOR\n2 1 12343 12344 12342 AND\n2 1 12342 105528 105529 XOR\n2 1 2040 105529 12346 XOR\n2 1 90504 84360 105621 XOR\n2 1 105621 105590 1911 XOR\n2 1 1911 1975 71142 XOR\n2 1 71142 71110 71078 AND\n2 1 71078 1975 86376 XOR\n2 1 1911 1943 71014 XOR\n2 1 1911 1890 67524 XOR\n2 1 1900 1911 67513 XOR\n2 1 67524 1899 88422 XOR\n2 1 88422 86374 116377 XOR\n2 1 67513 1888 88411 XOR\n2 1 88411 86363 116366 XOR\n2 1 67504 1911 88402 XOR\n2 1 88402 116326 29987 XOR\n2 1 88402 86354 116357 XOR\n2 1 116357 116326 84306 XOR\n2 1 29987 29988 29986 AND\n2 1 29986 116326 116327 XOR\n2 1 86355 116327 29991 XOR\n2 1 90504 105590 12433 XOR\n2 1 12433 12434 12432 AND\n2 1 12432 105590 105591 XOR\n2 1 84361 105591 12437 XOR\n2 1 96590 116671 30679 XOR\n2 1 105559 105528 2423 XOR\n2 1 64422 2423 64390 AND\n2 1 64390 2487 98605 XOR\n2 1 2423 2455 64358 XOR\n2 1 2418 2423 61595 XOR\n2 1 61613 2423 100660 XOR\n2 1 61595 2405 100642 XOR\n2 1 100642 98594 116566 XOR\n2 1 30765 116732 116733 XOR\n2 1 116764 116733 94542 XOR\n2 1 76425 116733 30769 XOR\n2 1 2552 116733 30770 XOR\n2 1 30769 30770 30768 AND\n2 1 30768 116733 116734 XOR\n2 1 116765 116734 94543 XOR\n2 1 76426 116734 30772 XOR\n2 1 2553 116734 30773 XOR\n2 1 30772 30773 30771 AND\n2 1 30771 116734 116735 XOR\n2 1 76427 116735 30775 XOR\n2 1 116766 116735 94544 XOR\n2 1 2554 116735 30776 XOR\n2 1 30775 30776 30774 AND\n2 1 30774 116735 116736 XOR\n2 1 2555 116736 30779 XOR\n2 1 76428 116736 30778 XOR\n2 1 30778 30779 30777 AND\n2 1 116767 116736 94545 XOR\n2 1 30777 116736 116737 XOR\n2 1 116768 116737 94546 XOR\n2 1 76429 116737 30781 XOR\n2 1 96591 94543 116703 XOR\n2 1 96594 94546 116706 XOR\n2 1 96592 94544 116704 XOR\n2 1 96593 94545 116705 XOR\n2 1 96590 94542 116702 XOR\n2 1 116702 116671 92524 XOR\n2 1 92524 30595 30572 XOR\n2 1 30572 30573 30571 AND\n2 1 30571 30595 30575 XOR\n1 1 92524 30607 INV\n2 1 30607 30595 90505 XOR\n2 1 90505 105591 12436 XOR\n2 1 2040 90505 105560 XOR\n2 1 105560 105529 2424 XOR\n2 1 90505 105529 12347 XOR\n2 1 12346 12347 12345 AND\n2 1 12345 105529 105530 XOR\n2 1 2041 105530 12349 XOR\n2 1 90505 84361 105622 XOR\n2 1 94542 116671 30680 XOR\n2 1 30679 30680 30678 AND\n2 1 30678 116671 116672 XOR\n2 1 94543 116672 30683 XOR\n2 1 96591 116672 30682 XOR\n2 1 30682 30683 30681 AND\n2 1 30681 116672 116673 XOR\n2 1 116704 116673 92526 XOR\n2 1 94544 116673 30686 XOR\n2 1 96592 116673 30685 XOR\n2 1 30685 30686 30684 AND\n2 1 30684 116673 116674 XOR\n2 1 94545 116674 30689 XOR\n2 1 96593 116674 30688 XOR\n2 1 30688 30689 30687 AND\n2 1 116705 116674 92527 XOR\n2 1 30687 116674 116675 XOR\n2 1 94546 116675 30692 XOR\n2 1 116706 116675 92528 XOR\n2 1 64423 2424 64391 AND\n2 1 64391 2488 98606 XOR\n2 1 2424 2456 64359 XOR\n2 1 105622 105591 1912 XOR\n2 1 1912 1976 71143 XOR\n2 1 71143 71111 71079 AND\n2 1 71079 1976 86377 XOR\n2 1 1912 1944 71015 XOR\n2 1 1912 1891 67525 XOR\n2 1 1901 1912 67514 XOR\n2 1 67525 1900 88423 XOR\n2 1 88423 86375 116378 XOR\n",
"2 1 67514 1889 88412 XOR\n2 1 88412 86364 116367 XOR\n2 1 67505 1912 88403 XOR\n2 1 88403 86355 116358 XOR\n2 1 116358 116327 84307 XOR\n2 1 88403 116327 29990 XOR\n2 1 29990 29991 29989 AND\n2 1 29989 116327 116328 XOR\n2 1 86356 116328 29994 XOR\n2 1 12436 12437 12435 AND\n2 1 12435 105591 105592 XOR\n2 1 84362 105592 12440 XOR\n2 1 116703 116672 92525 XOR\n2 1 92525 30575 90506 XOR\n2 1 2041 90506 105561 XOR\n2 1 90506 30575 30574 AND\n2 1 30574 30575 30577 XOR\n2 1 92526 30577 90507 XOR\n2 1 90507 30577 30576 AND\n2 1 2042 90507 105562 XOR\n2 1 90506 105592 12439 XOR\n2 1 30576 30577 30579 XOR\n2 1 92527 30579 90508 XOR\n2 1 90508 30579 30578 AND\n2 1 30578 30579 30581 XOR\n2 1 92528 30581 90509 XOR\n2 1 2044 90509 105564 XOR\n2 1 90509 30581 30580 AND\n2 1 30580 30581 30583 XOR\n2 1 2043 90508 105563 XOR\n2 1 105561 105530 2425 XOR\n2 1 90506 105530 12350 XOR\n2 1 12349 12350 12348 AND\n2 1 12348 105530 105531 XOR\n2 1 105562 105531 2426 XOR\n2 1 2042 105531 12352 XOR\n2 1 90507 105531 12353 XOR\n2 1 12352 12353 12351 AND\n2 1 12351 105531 105532 XOR\n2 1 105563 105532 2427 XOR\n2 1 2043 105532 12355 XOR\n2 1 90508 105532 12356 XOR\n2 1 12355 12356 12354 AND\n2 1 12354 105532 105533 XOR\n2 1 105564 105533 2428 XOR\n2 1 2044 105533 12358 XOR\n2 1 90509 105533 12359 XOR\n2 1 12358 12359 12357 AND\n2 1 12357 105533 105534 XOR\n2 1 2045 105534 12361 XOR\n2 1 90506 84362 105623 XOR\n2 1 90507 84363 105624 XOR\n2 1 90508 84364 105625 XOR\n2 1 90509 84365 105626 XOR\n2 1 105623 105592 1913 XOR\n2 1 1913 1977 71144 XOR\n2 1 71144 71112 71080 AND\n2 1 71080 1977 86378 XOR\n2 1 1913 1945 71016 XOR\n2 1 1913 1892 67526 XOR\n2 1 1902 1913 67515 XOR\n2 1 67526 1901 88424 XOR\n2 1 67515 1890 88413 XOR\n2 1 88413 86365 116368 XOR\n2 1 67506 1913 88404 XOR\n2 1 88404 86356 116359 XOR\n2 1 116359 116328 84308 XOR\n2 1 12439 12440 12438 AND\n2 1 12438 105592 105593 XOR\n2 1 84363 105593 12443 XOR\n2 1 90507 105593 12442 XOR\n2 1 12442 12443 12441 AND\n2 1 12441 105593 105594 XOR\n2 1 105624 105593 1914 XOR\n2 1 1914 1978 71145 XOR\n2 1 71145 71113 71081 AND\n2 1 71081 1978 86379 XOR\n2 1 1914 1946 71017 XOR\n2 1 1914 1893 67527 XOR\n2 1 1903 1914 67516 XOR\n2 1 67527 1902 88425 XOR\n2 1 67516 1891 88414 XOR\n2 1 88414 86366 116369 XOR\n2 1 67507 1914 88405 XOR\n2 1 88405 86357 116360 XOR\n2 1 90508 105594 12445 XOR\n2 1 105625 105594 1915 XOR\n2 1 1915 1979 71146 XOR\n2 1 71146 71114 71082 AND\n2 1 71082 1979 86380 XOR\n2 1 1915 1947 71018 XOR\n2 1 1915 1894 67528 XOR\n2 1 1904 1915 67517 XOR\n2 1 67528 1903 88426 XOR\n2 1 88426 86378 116381 XOR\n2 1 67517 1892 88415 XOR\n2 1 67508 1915 88406 XOR\n2 1 88406 86358 116361 XOR\n2 1 88415 86367 116370 XOR\n2 1 88425 86377 116380 XOR\n2 1 88424 86376 116379 XOR\n2 1 64427 2428 64395 AND\n2 1 64426 2427 64394 AND\n2 1 64425 2426 64393 AND\n2 1 64424 2425 64392 AND\n2 1 64395 2492 98610 XOR\n2 1 100658 98610 116582 XOR\n2 1 64394 2491 98609 XOR\n2 1 100657 98609 116581 XOR\n2 1 64393 2490 98608 XOR\n2 1 100656 98608 116580 XOR\n2 1 64392 2489 98607 XOR\n2 1 2428 2460 64363 XOR\n2 1 2427 2459 64362 XOR\n2 1 2426 2458 64361 XOR\n2 1 2425 2457 64360 XOR\n2 1 84364 105594 12446 XOR\n2 1 12445 12446 12444 AND\n2 1 12444 105594 105595 XOR\n2 1 105626 105595 1916 XOR\n2 1 1916 1980 71147 XOR\n2 1 71147 71115 71083 AND\n2 1 71083 1980 86381 XOR\n2 1 1916 1948 71019 XOR\n2 1 1916 1895 67529 XOR\n2 1 1905 1916 67518 XOR\n2 1 67529 1904 88427 XOR\n2 1 88427 86379 116382 XOR\n",
"2 1 67518 1893 88416 XOR\n2 1 67509 1916 88407 XOR\n2 1 88407 86359 116362 XOR\n2 1 84365 105595 12449 XOR\n2 1 90509 105595 12448 XOR\n2 1 88416 86368 116371 XOR\n2 1 12448 12449 12447 AND\n2 1 12447 105595 105596 XOR\n2 1 84366 105596 12452 XOR\n2 1 2428 2401 61605 XOR\n2 1 2427 2400 61604 XOR\n2 1 2423 2428 61600 XOR\n2 1 2422 2427 61599 XOR\n2 1 2421 2426 61598 XOR\n2 1 2420 2425 61597 XOR\n2 1 2419 2424 61596 XOR\n2 1 61614 2424 100661 XOR\n2 1 61605 2415 100652 XOR\n2 1 100652 98604 116576 XOR\n2 1 61604 2414 100651 XOR\n2 1 100651 98603 116575 XOR\n2 1 61600 2410 100647 XOR\n2 1 100647 98599 116571 XOR\n2 1 61599 2409 100646 XOR\n2 1 100646 98598 116570 XOR\n2 1 61598 2408 100645 XOR\n2 1 100645 98597 116569 XOR\n2 1 61597 2407 100644 XOR\n2 1 100644 98596 116568 XOR\n2 1 61596 2406 100643 XOR\n2 1 100643 98595 116567 XOR\n2 1 61586 2428 100633 XOR\n2 1 100633 98585 116557 XOR\n2 1 61585 2427 100632 XOR\n2 1 100632 98584 116556 XOR\n2 1 61584 2426 100631 XOR\n2 1 100631 98583 116555 XOR\n2 1 61583 2425 100630 XOR\n2 1 100630 98582 116524 AND\n2 1 100631 116524 30339 XOR\n2 1 98583 116524 30340 XOR\n2 1 100630 98582 96534 XOR\n2 1 30339 30340 30338 AND\n2 1 30338 116524 116525 XOR\n2 1 116556 116525 96536 XOR\n2 1 100632 116525 30342 XOR\n2 1 98584 116525 30343 XOR\n2 1 30342 30343 30341 AND\n2 1 30341 116525 116526 XOR\n2 1 116557 116526 96537 XOR\n2 1 100633 116526 30345 XOR\n2 1 98585 116526 30346 XOR\n2 1 30345 30346 30344 AND\n2 1 30344 116526 116527 XOR\n2 1 98586 116527 30349 XOR\n2 1 116555 116524 96535 XOR\n2 1 96594 116675 30691 XOR\n2 1 30691 30692 30690 AND\n2 1 30690 116675 116676 XOR\n2 1 96595 116676 30694 XOR\n2 1 2556 116737 30782 XOR\n2 1 30781 30782 30780 AND\n2 1 30780 116737 116738 XOR\n2 1 116769 116738 94547 XOR\n2 1 94547 116676 30695 XOR\n2 1 30694 30695 30693 AND\n2 1 30693 116676 116677 XOR\n2 1 96596 116677 30697 XOR\n2 1 2557 116738 30785 XOR\n2 1 96595 94547 116707 XOR\n2 1 76430 116738 30784 XOR\n2 1 30784 30785 30783 AND\n2 1 30783 116738 116739 XOR\n2 1 116770 116739 94548 XOR\n2 1 94548 116677 30698 XOR\n2 1 30697 30698 30696 AND\n2 1 30696 116677 116678 XOR\n2 1 96596 94548 116708 XOR\n2 1 116708 116677 92530 XOR\n2 1 2558 116739 30788 XOR\n2 1 76431 116739 30787 XOR\n2 1 30787 30788 30786 AND\n2 1 30786 116739 116740 XOR\n2 1 116771 116740 94549 XOR\n2 1 96597 94549 116709 XOR\n2 1 116709 116678 92531 XOR\n1 1 92531 30608 INV\n2 1 116707 116676 92529 XOR\n2 1 92529 30583 90510 XOR\n2 1 90510 105596 12451 XOR\n2 1 90510 30583 30582 AND\n2 1 2045 90510 105565 XOR\n2 1 30582 30583 30585 XOR\n2 1 92530 30585 90511 XOR\n2 1 90511 30585 30584 AND\n2 1 2046 90511 105566 XOR\n2 1 105565 105534 2429 XOR\n2 1 90510 105534 12362 XOR\n2 1 12361 12362 12360 AND\n2 1 12360 105534 105535 XOR\n2 1 105566 105535 2430 XOR\n2 1 2046 105535 12364 XOR\n2 1 90511 105535 12365 XOR\n2 1 12364 12365 12363 AND\n2 1 12363 105535 105536 XOR\n2 1 90510 84366 105627 XOR\n2 1 105627 105596 1917 XOR\n2 1 1917 1981 71148 XOR\n2 1 71148 71116 71084 AND\n2 1 71084 1981 86382 XOR\n2 1 1917 1949 71020 XOR\n2 1 1917 1896 67530 XOR\n2 1 1906 1917 67519 XOR\n2 1 67530 1905 88428 XOR\n2 1 67519 1894 88417 XOR\n2 1 67510 1917 88408 XOR\n2 1 88408 86360 116363 XOR\n2 1 90511 84367 105628 XOR\n2 1 30584 30585 30596 XOR\n2 1 30608 30596 90512 XOR\n2 1 2047 90512 105567 XOR\n2 1 105567 105536 2431 XOR\n2 1 90512 84368 105629 XOR\n2 1 88417 86369 116372 XOR\n2 1 12451 12452 12450 AND\n2 1 12450 105596 105597 XOR\n2 1 105628 105597 1918 XOR\n2 1 1918 1982 71149 XOR\n",
"2 1 71149 71117 71085 AND\n2 1 71085 1982 86383 XOR\n2 1 1918 1950 71021 XOR\n2 1 1918 1897 67531 XOR\n2 1 1907 1918 67520 XOR\n2 1 67531 1906 88429 XOR\n2 1 67520 1895 88418 XOR\n2 1 67511 1918 88409 XOR\n2 1 88409 86361 116364 XOR\n2 1 88418 86370 116373 XOR\n2 1 88431 86383 116386 XOR\n2 1 90511 105597 12454 XOR\n2 1 64430 2431 64398 AND\n2 1 64429 2430 64397 AND\n2 1 64428 2429 64396 AND\n2 1 64398 2495 98613 XOR\n2 1 100661 98613 116585 XOR\n2 1 64397 2494 98612 XOR\n2 1 100660 98612 116584 XOR\n2 1 64396 2493 98611 XOR\n2 1 100659 98611 116583 XOR\n2 1 2431 2463 64366 XOR\n2 1 2430 2462 64365 XOR\n2 1 2429 2461 64364 XOR\n2 1 84367 105597 12455 XOR\n2 1 12454 12455 12453 AND\n2 1 12453 105597 105598 XOR\n2 1 105629 105598 1919 XOR\n2 1 1919 1983 71150 XOR\n2 1 71150 71118 71086 AND\n2 1 71086 1983 86384 XOR\n2 1 1919 1951 71022 XOR\n2 1 1919 1898 67532 XOR\n2 1 1908 1919 67521 XOR\n2 1 67532 1907 88430 XOR\n2 1 67521 1896 88419 XOR\n2 1 67512 1919 88410 XOR\n2 1 88430 86382 116385 XOR\n2 1 88410 86362 116365 XOR\n2 1 88419 86371 116374 XOR\n2 1 88432 86384 116387 XOR\n2 1 88429 86381 116384 XOR\n2 1 2431 2404 61608 XOR\n2 1 2430 2403 61607 XOR\n2 1 2429 2402 61606 XOR\n2 1 2426 2431 61603 XOR\n2 1 2425 2430 61602 XOR\n2 1 2424 2429 61601 XOR\n2 1 61608 2418 100655 XOR\n2 1 100655 98607 116579 XOR\n2 1 61607 2417 100654 XOR\n2 1 100654 98606 116578 XOR\n2 1 61606 2416 100653 XOR\n2 1 100653 98605 116577 XOR\n2 1 61603 2413 100650 XOR\n2 1 100650 98602 116574 XOR\n2 1 61602 2412 100649 XOR\n2 1 100649 98601 116573 XOR\n2 1 61601 2411 100648 XOR\n2 1 100648 98600 116572 XOR\n2 1 61589 2431 100636 XOR\n2 1 100636 98588 116560 XOR\n2 1 61588 2430 100635 XOR\n2 1 100635 98587 116559 XOR\n2 1 61587 2429 100634 XOR\n2 1 100634 116527 30348 XOR\n2 1 100634 98586 116558 XOR\n2 1 116558 116527 96538 XOR\n2 1 30348 30349 30347 AND\n2 1 30347 116527 116528 XOR\n2 1 116559 116528 96539 XOR\n2 1 100635 116528 30351 XOR\n2 1 98587 116528 30352 XOR\n2 1 30351 30352 30350 AND\n2 1 30350 116528 116529 XOR\n2 1 100636 116529 30354 XOR\n2 1 98588 116529 30355 XOR\n2 1 30354 30355 30353 AND\n2 1 116560 116529 96540 XOR\n2 1 30353 116529 116530 XOR\n2 1 98589 116530 30358 XOR\n2 1 100637 116530 30357 XOR\n2 1 30357 30358 30356 AND\n2 1 30356 116530 116531 XOR\n2 1 100638 116531 30360 XOR\n2 1 98590 116531 30361 XOR\n2 1 30360 30361 30359 AND\n2 1 30359 116531 116532 XOR\n2 1 116563 116532 96543 XOR\n2 1 100639 116532 30363 XOR\n2 1 98591 116532 30364 XOR\n2 1 30363 30364 30362 AND\n2 1 30362 116532 116533 XOR\n2 1 116564 116533 96544 XOR\n2 1 100640 116533 30366 XOR\n2 1 98592 116533 30367 XOR\n2 1 30366 30367 30365 AND\n2 1 30365 116533 116534 XOR\n2 1 116565 116534 96545 XOR\n2 1 100641 116534 30369 XOR\n2 1 116562 116531 96542 XOR\n2 1 98593 116534 30370 XOR\n2 1 30369 30370 30368 AND\n2 1 30368 116534 116535 XOR\n2 1 116566 116535 96546 XOR\n2 1 100642 116535 30372 XOR\n2 1 98594 116535 30373 XOR\n2 1 30372 30373 30371 AND\n2 1 30371 116535 116536 XOR\n2 1 116567 116536 96547 XOR\n2 1 100643 116536 30375 XOR\n2 1 98595 116536 30376 XOR\n2 1 30375 30376 30374 AND\n2 1 30374 116536 116537 XOR\n2 1 116568 116537 96548 XOR\n2 1 100644 116537 30378 XOR\n2 1 98596 116537 30379 XOR\n2 1 30378 30379 30377 AND\n2 1 30377 116537 116538 XOR\n2 1 100645 116538 30381 XOR\n2 1 116569 116538 96549 XOR\n2 1 98597 116538 30382 XOR\n2 1 30381 30382 30380 AND\n2 1 30380 116538 116539 XOR\n2 1 100646 116539 30384 XOR\n2 1 116570 116539 96550 XOR\n2 1 98598 116539 30385 XOR\n2 1 30384 30385 30383 AND\n",
"2 1 30383 116539 116540 XOR\n2 1 116571 116540 96551 XOR\n2 1 98599 116540 30388 XOR\n2 1 100647 116540 30387 XOR\n2 1 30387 30388 30386 AND\n2 1 30386 116540 116541 XOR\n2 1 100648 116541 30390 XOR\n2 1 116572 116541 96552 XOR\n2 1 98600 116541 30391 XOR\n2 1 30390 30391 30389 AND\n2 1 30389 116541 116542 XOR\n2 1 116573 116542 96553 XOR\n2 1 100649 116542 30393 XOR\n2 1 116561 116530 96541 XOR\n2 1 98601 116542 30394 XOR\n2 1 30393 30394 30392 AND\n2 1 30392 116542 116543 XOR\n2 1 116574 116543 96554 XOR\n2 1 98602 116543 30397 XOR\n2 1 100650 116543 30396 XOR\n2 1 30396 30397 30395 AND\n2 1 30395 116543 116544 XOR\n2 1 116575 116544 96555 XOR\n2 1 98603 116544 30400 XOR\n2 1 100651 116544 30399 XOR\n2 1 30399 30400 30398 AND\n2 1 30398 116544 116545 XOR\n2 1 116576 116545 96556 XOR\n2 1 100652 116545 30402 XOR\n2 1 98604 116545 30403 XOR\n2 1 30402 30403 30401 AND\n2 1 30401 116545 116546 XOR\n2 1 116577 116546 96557 XOR\n2 1 100653 116546 30405 XOR\n2 1 98605 116546 30406 XOR\n2 1 30405 30406 30404 AND\n2 1 30404 116546 116547 XOR\n2 1 98606 116547 30409 XOR\n2 1 116578 116547 96558 XOR\n2 1 100654 116547 30408 XOR\n2 1 30408 30409 30407 AND\n2 1 30407 116547 116548 XOR\n2 1 116579 116548 96559 XOR\n2 1 98607 116548 30412 XOR\n2 1 100655 116548 30411 XOR\n2 1 30411 30412 30410 AND\n2 1 30410 116548 116549 XOR\n2 1 98608 116549 30415 XOR\n2 1 116580 116549 96560 XOR\n2 1 100656 116549 30414 XOR\n2 1 30414 30415 30413 AND\n2 1 30413 116549 116550 XOR\n2 1 116581 116550 96561 XOR\n2 1 100657 116550 30417 XOR\n2 1 98609 116550 30418 XOR\n2 1 30417 30418 30416 AND\n2 1 30416 116550 116551 XOR\n2 1 98610 116551 30421 XOR\n2 1 100658 116551 30420 XOR\n2 1 30420 30421 30419 AND\n2 1 30419 116551 116552 XOR\n2 1 116583 116552 96563 XOR\n2 1 100659 116552 30423 XOR\n2 1 116582 116551 96562 XOR\n2 1 98611 116552 30424 XOR\n2 1 30423 30424 30422 AND\n2 1 30422 116552 116553 XOR\n2 1 116584 116553 96564 XOR\n2 1 98612 116553 30427 XOR\n2 1 100660 116553 30426 XOR\n2 1 30426 30427 30425 AND\n2 1 30425 116553 116554 XOR\n2 1 116585 116554 96565 XOR\n2 1 88428 86380 116383 XOR\n2 1 88404 116328 29993 XOR\n2 1 29993 29994 29992 AND\n2 1 29992 116328 116329 XOR\n2 1 86357 116329 29997 XOR\n2 1 116360 116329 84309 XOR\n2 1 88405 116329 29996 XOR\n2 1 29996 29997 29995 AND\n2 1 29995 116329 116330 XOR\n2 1 116361 116330 84310 XOR\n2 1 86358 116330 30000 XOR\n2 1 88406 116330 29999 XOR\n2 1 29999 30000 29998 AND\n2 1 29998 116330 116331 XOR\n2 1 116362 116331 84311 XOR\n2 1 88407 116331 30002 XOR\n2 1 86359 116331 30003 XOR\n2 1 30002 30003 30001 AND\n2 1 30001 116331 116332 XOR\n2 1 116363 116332 84312 XOR\n2 1 86360 116332 30006 XOR\n2 1 88408 116332 30005 XOR\n2 1 30005 30006 30004 AND\n2 1 30004 116332 116333 XOR\n2 1 86361 116333 30009 XOR\n2 1 88409 116333 30008 XOR\n2 1 30008 30009 30007 AND\n2 1 30007 116333 116334 XOR\n2 1 88410 116334 30011 XOR\n2 1 86362 116334 30012 XOR\n2 1 30011 30012 30010 AND\n2 1 30010 116334 116335 XOR\n2 1 116366 116335 84315 XOR\n2 1 116365 116334 84314 XOR\n2 1 116364 116333 84313 XOR\n2 1 86363 116335 30015 XOR\n2 1 88411 116335 30014 XOR\n2 1 30014 30015 30013 AND\n2 1 30013 116335 116336 XOR\n2 1 86364 116336 30018 XOR\n2 1 116367 116336 84316 XOR\n2 1 88412 116336 30017 XOR\n2 1 30017 30018 30016 AND\n2 1 30016 116336 116337 XOR\n2 1 88413 116337 30020 XOR\n2 1 116368 116337 84317 XOR\n2 1 86365 116337 30021 XOR\n2 1 30020 30021 30019 AND\n2 1 30019 116337 116338 XOR\n2 1 116369 116338 84318 XOR\n2 1 88414 116338 30023 XOR\n2 1 86366 116338 30024 XOR\n2 1 30023 30024 30022 AND\n2 1 30022 116338 116339 XOR\n2 1 88415 116339 30026 XOR\n",
"2 1 116370 116339 84319 XOR\n2 1 76417 76419 81232 XOR\n2 1 81232 76592 130872 XOR\n2 1 76416 76418 81231 XOR\n2 1 81231 76591 130871 XOR\n2 1 76415 76417 81230 XOR\n2 1 81230 76590 130870 XOR\n2 1 76414 76416 81229 XOR\n2 1 81229 76589 130869 XOR\n2 1 76413 76415 81228 XOR\n2 1 81228 76588 130868 XOR\n2 1 76412 76414 81227 XOR\n2 1 81227 76587 130867 XOR\n2 1 76411 76413 81226 XOR\n2 1 81226 76586 130866 XOR\n2 1 76410 76412 81225 XOR\n2 1 81225 76585 130865 XOR\n2 1 76409 76411 81224 XOR\n2 1 81224 76584 130864 XOR\n2 1 76408 76410 81223 XOR\n2 1 81223 76583 130863 XOR\n2 1 76407 76409 6639 XOR\n2 1 76406 76408 6638 XOR\n2 1 76405 76407 6637 XOR\n2 1 76404 76406 6636 XOR\n2 1 76403 76405 6635 XOR\n2 1 76402 76404 6634 XOR\n2 1 76401 76403 6633 XOR\n2 1 76432 76402 6632 XOR\n2 1 76431 76401 6631 XOR\n2 1 76430 76432 6630 XOR\n2 1 76429 76431 6629 XOR\n2 1 76428 76430 6628 XOR\n2 1 76427 76429 6627 XOR\n2 1 76426 76428 6626 XOR\n2 1 76425 76427 6625 XOR\n2 1 76424 76426 6624 XOR\n2 1 76423 76425 6623 XOR\n2 1 76422 76424 6622 XOR\n2 1 76421 76423 6621 XOR\n2 1 76420 76422 6620 XOR\n2 1 76419 76421 6619 XOR\n2 1 76418 76420 6618 XOR\n2 1 6639 76432 81222 XOR\n2 1 81222 76582 130862 XOR\n2 1 6638 76431 81221 XOR\n2 1 81221 76581 130861 XOR\n2 1 6637 76430 81220 XOR\n2 1 81220 76580 130860 XOR\n2 1 6636 76429 81219 XOR\n2 1 81219 76579 130859 XOR\n2 1 6635 76428 81218 XOR\n2 1 81218 76578 130858 XOR\n2 1 6634 76427 81217 XOR\n2 1 81217 76577 130857 XOR\n2 1 6633 76426 81216 XOR\n2 1 81216 76576 130856 XOR\n2 1 6632 76425 81215 XOR\n2 1 81215 76575 130855 XOR\n2 1 6631 76424 81214 XOR\n2 1 81214 76574 130854 XOR\n2 1 6630 76423 81213 XOR\n2 1 81213 76573 130853 XOR\n2 1 6629 76422 81212 XOR\n2 1 81212 76572 130852 XOR\n2 1 6628 76421 81211 XOR\n2 1 81211 76571 130851 XOR\n2 1 6627 76420 81210 XOR\n2 1 81210 76570 130850 XOR\n2 1 6626 76419 81209 XOR\n2 1 81209 76569 130849 XOR\n2 1 6625 76418 81208 XOR\n2 1 81208 76568 130848 XOR\n2 1 6624 76417 81207 XOR\n2 1 81207 76567 130847 XOR\n2 1 6623 76416 81206 XOR\n2 1 81206 76566 130846 XOR\n2 1 6622 76415 81205 XOR\n2 1 81205 76565 130845 XOR\n2 1 6621 76414 81204 XOR\n2 1 81204 76564 130844 XOR\n2 1 6620 76413 81203 XOR\n2 1 81203 76563 130843 XOR\n2 1 6619 76412 81202 XOR\n2 1 81202 76562 130842 XOR\n2 1 6618 76411 81201 XOR\n2 1 81201 76561 130811 AND\n2 1 81201 76561 79665 XOR\n2 1 130842 130811 79666 XOR\n2 1 81202 130811 54336 XOR\n2 1 76562 130811 54337 XOR\n2 1 54336 54337 54335 AND\n2 1 54335 130811 130812 XOR\n2 1 130843 130812 79667 XOR\n2 1 81203 130812 54339 XOR\n2 1 76563 130812 54340 XOR\n2 1 54339 54340 54338 AND\n2 1 54338 130812 130813 XOR\n2 1 130844 130813 79668 XOR\n2 1 81204 130813 54342 XOR\n2 1 76564 130813 54343 XOR\n2 1 54342 54343 54341 AND\n2 1 54341 130813 130814 XOR\n2 1 130845 130814 79669 XOR\n2 1 81205 130814 54345 XOR\n2 1 76565 130814 54346 XOR\n2 1 54345 54346 54344 AND\n2 1 54344 130814 130815 XOR\n2 1 130846 130815 79670 XOR\n2 1 81206 130815 54348 XOR\n2 1 76566 130815 54349 XOR\n2 1 54348 54349 54347 AND\n2 1 54347 130815 130816 XOR\n2 1 130847 130816 79671 XOR\n2 1 81207 130816 54351 XOR\n2 1 76567 130816 54352 XOR\n2 1 54351 54352 54350 AND\n2 1 54350 130816 130817 XOR\n2 1 130848 130817 79672 XOR\n2 1 81208 130817 54354 XOR\n2 1 76568 130817 54355 XOR\n2 1 54354 54355 54353 AND\n2 1 54353 130817 130818 XOR\n2 1 130849 130818 79673 XOR\n2 1 81209 130818 54357 XOR\n2 1 76569 130818 54358 XOR\n2 1 54357 54358 54356 AND\n2 1 54356 130818 130819 XOR\n",
"2 1 130850 130819 79674 XOR\n2 1 81210 130819 54360 XOR\n2 1 76570 130819 54361 XOR\n2 1 54360 54361 54359 AND\n2 1 54359 130819 130820 XOR\n2 1 130851 130820 79675 XOR\n2 1 81211 130820 54363 XOR\n2 1 76571 130820 54364 XOR\n2 1 54363 54364 54362 AND\n2 1 54362 130820 130821 XOR\n2 1 130852 130821 79676 XOR\n2 1 81212 130821 54366 XOR\n2 1 76572 130821 54367 XOR\n2 1 54366 54367 54365 AND\n2 1 54365 130821 130822 XOR\n2 1 130853 130822 79677 XOR\n2 1 81213 130822 54369 XOR\n2 1 76573 130822 54370 XOR\n2 1 54369 54370 54368 AND\n2 1 54368 130822 130823 XOR\n2 1 130854 130823 79678 XOR\n2 1 81214 130823 54372 XOR\n2 1 76574 130823 54373 XOR\n2 1 54372 54373 54371 AND\n2 1 54371 130823 130824 XOR\n2 1 130855 130824 79679 XOR\n2 1 81215 130824 54375 XOR\n2 1 76575 130824 54376 XOR\n2 1 54375 54376 54374 AND\n2 1 54374 130824 130825 XOR\n2 1 130856 130825 79680 XOR\n2 1 81216 130825 54378 XOR\n2 1 76576 130825 54379 XOR\n2 1 54378 54379 54377 AND\n2 1 54377 130825 130826 XOR\n2 1 130857 130826 79681 XOR\n2 1 81217 130826 54381 XOR\n2 1 76577 130826 54382 XOR\n2 1 54381 54382 54380 AND\n2 1 54380 130826 130827 XOR\n2 1 130858 130827 79682 XOR\n2 1 81218 130827 54384 XOR\n2 1 76578 130827 54385 XOR\n2 1 54384 54385 54383 AND\n2 1 54383 130827 130828 XOR\n2 1 130859 130828 79683 XOR\n2 1 81219 130828 54387 XOR\n2 1 76579 130828 54388 XOR\n2 1 54387 54388 54386 AND\n2 1 54386 130828 130829 XOR\n2 1 130860 130829 79684 XOR\n2 1 81220 130829 54390 XOR\n2 1 76580 130829 54391 XOR\n2 1 54390 54391 54389 AND\n2 1 54389 130829 130830 XOR\n2 1 130861 130830 79685 XOR\n2 1 81221 130830 54393 XOR\n2 1 76581 130830 54394 XOR\n2 1 54393 54394 54392 AND\n2 1 54392 130830 130831 XOR\n2 1 130862 130831 79686 XOR\n2 1 81222 130831 54396 XOR\n2 1 76582 130831 54397 XOR\n2 1 54396 54397 54395 AND\n2 1 54395 130831 130832 XOR\n2 1 130863 130832 79687 XOR\n2 1 81223 130832 54399 XOR\n2 1 76583 130832 54400 XOR\n2 1 54399 54400 54398 AND\n2 1 54398 130832 130833 XOR\n2 1 130864 130833 79688 XOR\n2 1 81224 130833 54402 XOR\n2 1 76584 130833 54403 XOR\n2 1 54402 54403 54401 AND\n2 1 54401 130833 130834 XOR\n2 1 130865 130834 79689 XOR\n2 1 81225 130834 54405 XOR\n2 1 76585 130834 54406 XOR\n2 1 54405 54406 54404 AND\n2 1 54404 130834 130835 XOR\n2 1 130866 130835 79690 XOR\n2 1 81226 130835 54408 XOR\n2 1 76586 130835 54409 XOR\n2 1 54408 54409 54407 AND\n2 1 54407 130835 130836 XOR\n2 1 130867 130836 79691 XOR\n2 1 81227 130836 54411 XOR\n2 1 76587 130836 54412 XOR\n2 1 54411 54412 54410 AND\n2 1 54410 130836 130837 XOR\n2 1 130868 130837 79692 XOR\n2 1 81228 130837 54414 XOR\n2 1 76588 130837 54415 XOR\n2 1 54414 54415 54413 AND\n2 1 54413 130837 130838 XOR\n2 1 130869 130838 79693 XOR\n2 1 81229 130838 54417 XOR\n2 1 76589 130838 54418 XOR\n2 1 54417 54418 54416 AND\n2 1 54416 130838 130839 XOR\n2 1 130870 130839 79694 XOR\n2 1 81230 130839 54420 XOR\n2 1 76590 130839 54421 XOR\n2 1 54420 54421 54419 AND\n2 1 54419 130839 130840 XOR\n2 1 130871 130840 79695 XOR\n2 1 81231 130840 54423 XOR\n2 1 76591 130840 54424 XOR\n2 1 54423 54424 54422 AND\n2 1 54422 130840 130841 XOR\n2 1 130872 130841 79696 XOR\n2 1 86367 116339 30027 XOR\n2 1 30026 30027 30025 AND\n2 1 30025 116339 116340 XOR\n2 1 88416 116340 30029 XOR\n2 1 86368 116340 30030 XOR\n2 1 116371 116340 84320 XOR\n2 1 30029 30030 30028 AND\n2 1 30028 116340 116341 XOR\n2 1 116372 116341 84321 XOR\n2 1 88417 116341 30032 XOR\n2 1 86369 116341 30033 XOR\n2 1 30032 30033 30031 AND\n2 1 30031 116341 116342 XOR\n2 1 88418 116342 30035 XOR\n2 1 116373 116342 84322 XOR\n2 1 86370 116342 30036 XOR\n2 1 30035 30036 30034 AND\n",
"2 1 30034 116342 116343 XOR\n2 1 86371 116343 30039 XOR\n2 1 116374 116343 84323 XOR\n2 1 88419 116343 30038 XOR\n2 1 30038 30039 30037 AND\n2 1 30037 116343 116344 XOR\n2 1 86372 116344 30042 XOR\n2 1 116375 116344 84324 XOR\n2 1 88420 116344 30041 XOR\n2 1 30041 30042 30040 AND\n2 1 30040 116344 116345 XOR\n2 1 86373 116345 30045 XOR\n2 1 88421 116345 30044 XOR\n2 1 30044 30045 30043 AND\n2 1 30043 116345 116346 XOR\n2 1 88422 116346 30047 XOR\n2 1 86374 116346 30048 XOR\n2 1 116377 116346 84326 XOR\n2 1 30047 30048 30046 AND\n2 1 30046 116346 116347 XOR\n2 1 86375 116347 30051 XOR\n2 1 116378 116347 84327 XOR\n2 1 88423 116347 30050 XOR\n2 1 30050 30051 30049 AND\n2 1 30049 116347 116348 XOR\n2 1 116379 116348 84328 XOR\n2 1 86376 116348 30054 XOR\n2 1 88424 116348 30053 XOR\n2 1 30053 30054 30052 AND\n2 1 30052 116348 116349 XOR\n2 1 88425 116349 30056 XOR\n2 1 86377 116349 30057 XOR\n2 1 30056 30057 30055 AND\n2 1 116380 116349 84329 XOR\n2 1 30055 116349 116350 XOR\n2 1 88426 116350 30059 XOR\n2 1 86378 116350 30060 XOR\n2 1 30059 30060 30058 AND\n2 1 116381 116350 84330 XOR\n2 1 30058 116350 116351 XOR\n2 1 116382 116351 84331 XOR\n2 1 86379 116351 30063 XOR\n2 1 88427 116351 30062 XOR\n2 1 30062 30063 30061 AND\n2 1 30061 116351 116352 XOR\n2 1 116383 116352 84332 XOR\n2 1 88428 116352 30065 XOR\n2 1 86380 116352 30066 XOR\n2 1 30065 30066 30064 AND\n2 1 30064 116352 116353 XOR\n2 1 116384 116353 84333 XOR\n2 1 86381 116353 30069 XOR\n2 1 88429 116353 30068 XOR\n2 1 30068 30069 30067 AND\n2 1 30067 116353 116354 XOR\n2 1 116385 116354 84334 XOR\n2 1 88430 116354 30071 XOR\n2 1 86382 116354 30072 XOR\n2 1 30071 30072 30070 AND\n2 1 30070 116354 116355 XOR\n2 1 86383 116355 30075 XOR\n2 1 116386 116355 84335 XOR\n2 1 88431 116355 30074 XOR\n2 1 30074 30075 30073 AND\n2 1 30073 116355 116356 XOR\n2 1 116387 116356 84336 XOR\n2 1 116376 116345 84325 XOR\n2 1 76855 76866 82800 XOR\n2 1 82800 76912 130996 XOR\n2 1 76854 76865 82799 XOR\n2 1 82799 76911 130995 XOR\n2 1 76853 76864 82798 XOR\n2 1 82798 76910 130994 XOR\n2 1 76852 76863 5473 XOR\n2 1 76851 76862 5472 XOR\n2 1 76850 76861 5471 XOR\n2 1 76849 76860 5470 XOR\n2 1 76880 76859 5469 XOR\n2 1 76879 76858 5468 XOR\n2 1 76878 76857 5467 XOR\n2 1 76877 76856 5466 XOR\n2 1 76876 76855 5465 XOR\n2 1 76875 76854 5464 XOR\n2 1 76874 76853 5463 XOR\n2 1 76873 76852 5462 XOR\n2 1 76872 76851 5461 XOR\n2 1 76871 76850 5460 XOR\n2 1 76870 76849 5459 XOR\n2 1 76869 76880 5458 XOR\n2 1 76868 76879 5457 XOR\n2 1 76867 76878 5456 XOR\n2 1 76866 76877 5455 XOR\n2 1 76865 76876 5454 XOR\n2 1 76864 76875 5453 XOR\n2 1 76863 76874 5452 XOR\n2 1 76862 76873 5451 XOR\n2 1 76861 76872 5450 XOR\n2 1 76860 76871 5449 XOR\n2 1 76859 76870 5448 XOR\n2 1 76858 76869 5447 XOR\n2 1 76857 76868 5446 XOR\n2 1 76856 76867 5445 XOR\n2 1 5473 76880 82797 XOR\n2 1 82797 76909 130993 XOR\n2 1 5472 76879 82796 XOR\n2 1 82796 76908 130992 XOR\n2 1 5471 76878 82795 XOR\n2 1 82795 76907 130991 XOR\n2 1 5470 76877 82794 XOR\n2 1 82794 76906 130990 XOR\n2 1 5469 76876 82793 XOR\n2 1 82793 76905 130989 XOR\n2 1 5468 76875 82792 XOR\n2 1 82792 76904 130988 XOR\n2 1 5467 76874 82791 XOR\n2 1 82791 76903 130987 XOR\n2 1 5466 76873 82790 XOR\n2 1 82790 76902 130986 XOR\n2 1 5465 76872 82789 XOR\n2 1 82789 76901 130985 XOR\n2 1 5464 76871 82788 XOR\n2 1 82788 76900 130984 XOR\n2 1 5463 76870 82787 XOR\n2 1 82787 76899 130983 XOR\n2 1 5462 76869 82786 XOR\n2 1 82786 76898 130982 XOR\n2 1 5461 76868 82785 XOR\n2 1 82785 76897 130981 XOR\n",
"2 1 5460 76867 82784 XOR\n2 1 82784 76896 130980 XOR\n2 1 5459 76866 82783 XOR\n2 1 82783 76895 130979 XOR\n2 1 5458 76865 82782 XOR\n2 1 82782 76894 130978 XOR\n2 1 5457 76864 82781 XOR\n2 1 82781 76893 130977 XOR\n2 1 5456 76863 82780 XOR\n2 1 82780 76892 130976 XOR\n2 1 5455 76862 82779 XOR\n2 1 82779 76891 130975 XOR\n2 1 5454 76861 82778 XOR\n2 1 82778 76890 130974 XOR\n2 1 5453 76860 82777 XOR\n2 1 82777 76889 130973 XOR\n2 1 5452 76859 82776 XOR\n2 1 82776 76888 130972 XOR\n2 1 5451 76858 82775 XOR\n2 1 82775 76887 130971 XOR\n2 1 5450 76857 82774 XOR\n2 1 82774 76886 130970 XOR\n2 1 5449 76856 82773 XOR\n2 1 82773 76885 130969 XOR\n2 1 5448 76855 82772 XOR\n2 1 82772 76884 130968 XOR\n2 1 5447 76854 82771 XOR\n2 1 82771 76883 130967 XOR\n2 1 5446 76853 82770 XOR\n2 1 82770 76882 130966 XOR\n2 1 5445 76852 82769 XOR\n2 1 82769 76881 130935 AND\n2 1 82769 76881 78161 XOR\n2 1 79697 78161 130873 AND\n2 1 79697 78161 76369 XOR\n2 1 79698 130873 54426 XOR\n2 1 130966 130935 78162 XOR\n2 1 79698 78162 130904 XOR\n2 1 130904 130873 76370 XOR\n2 1 78162 130873 54427 XOR\n2 1 54426 54427 54425 AND\n2 1 54425 130873 130874 XOR\n2 1 79699 130874 54429 XOR\n2 1 82770 130935 54516 XOR\n2 1 76882 130935 54517 XOR\n2 1 54516 54517 54515 AND\n2 1 54515 130935 130936 XOR\n2 1 130967 130936 78163 XOR\n2 1 79699 78163 130905 XOR\n2 1 130905 130874 76371 XOR\n2 1 78163 130874 54430 XOR\n2 1 54429 54430 54428 AND\n2 1 54428 130874 130875 XOR\n2 1 79700 130875 54432 XOR\n2 1 82771 130936 54519 XOR\n2 1 76883 130936 54520 XOR\n2 1 54519 54520 54518 AND\n2 1 54518 130936 130937 XOR\n2 1 130968 130937 78164 XOR\n2 1 79700 78164 130906 XOR\n2 1 130906 130875 76372 XOR\n2 1 78164 130875 54433 XOR\n2 1 54432 54433 54431 AND\n2 1 54431 130875 130876 XOR\n2 1 79701 130876 54435 XOR\n2 1 82772 130937 54522 XOR\n2 1 76884 130937 54523 XOR\n2 1 54522 54523 54521 AND\n2 1 54521 130937 130938 XOR\n2 1 130969 130938 78165 XOR\n2 1 79701 78165 130907 XOR\n2 1 130907 130876 76373 XOR\n2 1 78165 130876 54436 XOR\n2 1 54435 54436 54434 AND\n2 1 54434 130876 130877 XOR\n2 1 79702 130877 54438 XOR\n2 1 82773 130938 54525 XOR\n2 1 76885 130938 54526 XOR\n2 1 54525 54526 54524 AND\n2 1 54524 130938 130939 XOR\n2 1 130970 130939 78166 XOR\n2 1 79702 78166 130908 XOR\n2 1 130908 130877 76374 XOR\n2 1 78166 130877 54439 XOR\n2 1 54438 54439 54437 AND\n2 1 54437 130877 130878 XOR\n2 1 79703 130878 54441 XOR\n2 1 82774 130939 54528 XOR\n2 1 76886 130939 54529 XOR\n2 1 54528 54529 54527 AND\n2 1 54527 130939 130940 XOR\n2 1 130971 130940 78167 XOR\n2 1 79703 78167 130909 XOR\n2 1 130909 130878 76375 XOR\n2 1 78167 130878 54442 XOR\n2 1 54441 54442 54440 AND\n2 1 54440 130878 130879 XOR\n2 1 79704 130879 54444 XOR\n2 1 82775 130940 54531 XOR\n2 1 76887 130940 54532 XOR\n2 1 54531 54532 54530 AND\n2 1 54530 130940 130941 XOR\n2 1 130972 130941 78168 XOR\n2 1 79704 78168 130910 XOR\n2 1 130910 130879 76376 XOR\n2 1 78168 130879 54445 XOR\n2 1 54444 54445 54443 AND\n2 1 54443 130879 130880 XOR\n2 1 79705 130880 54447 XOR\n2 1 82776 130941 54534 XOR\n2 1 76888 130941 54535 XOR\n2 1 54534 54535 54533 AND\n2 1 54533 130941 130942 XOR\n2 1 130973 130942 78169 XOR\n2 1 79705 78169 130911 XOR\n2 1 130911 130880 76377 XOR\n2 1 78169 130880 54448 XOR\n2 1 54447 54448 54446 AND\n2 1 54446 130880 130881 XOR\n2 1 79706 130881 54450 XOR\n2 1 82777 130942 54537 XOR\n2 1 76889 130942 54538 XOR\n2 1 54537 54538 54536 AND\n2 1 54536 130942 130943 XOR\n2 1 130974 130943 78170 XOR\n2 1 79706 78170 130912 XOR\n2 1 130912 130881 76378 XOR\n2 1 78170 130881 54451 XOR\n",
"2 1 54450 54451 54449 AND\n2 1 54449 130881 130882 XOR\n2 1 79707 130882 54453 XOR\n2 1 82778 130943 54540 XOR\n2 1 76890 130943 54541 XOR\n2 1 54540 54541 54539 AND\n2 1 54539 130943 130944 XOR\n2 1 130975 130944 78171 XOR\n2 1 79707 78171 130913 XOR\n2 1 130913 130882 76379 XOR\n2 1 78171 130882 54454 XOR\n2 1 54453 54454 54452 AND\n2 1 54452 130882 130883 XOR\n2 1 79708 130883 54456 XOR\n2 1 82779 130944 54543 XOR\n2 1 76891 130944 54544 XOR\n2 1 54543 54544 54542 AND\n2 1 54542 130944 130945 XOR\n2 1 130976 130945 78172 XOR\n2 1 79708 78172 130914 XOR\n2 1 130914 130883 76380 XOR\n2 1 78172 130883 54457 XOR\n2 1 54456 54457 54455 AND\n2 1 54455 130883 130884 XOR\n2 1 79709 130884 54459 XOR\n2 1 82780 130945 54546 XOR\n2 1 76892 130945 54547 XOR\n2 1 54546 54547 54545 AND\n2 1 54545 130945 130946 XOR\n2 1 130977 130946 78173 XOR\n2 1 79709 78173 130915 XOR\n2 1 130915 130884 76381 XOR\n2 1 78173 130884 54460 XOR\n2 1 54459 54460 54458 AND\n2 1 54458 130884 130885 XOR\n2 1 79710 130885 54462 XOR\n2 1 82781 130946 54549 XOR\n2 1 76893 130946 54550 XOR\n2 1 54549 54550 54548 AND\n2 1 54548 130946 130947 XOR\n2 1 130978 130947 78174 XOR\n2 1 79710 78174 130916 XOR\n2 1 130916 130885 76382 XOR\n2 1 78174 130885 54463 XOR\n2 1 54462 54463 54461 AND\n2 1 54461 130885 130886 XOR\n2 1 79711 130886 54465 XOR\n2 1 82782 130947 54552 XOR\n2 1 76894 130947 54553 XOR\n2 1 54552 54553 54551 AND\n2 1 54551 130947 130948 XOR\n2 1 130979 130948 78175 XOR\n2 1 79711 78175 130917 XOR\n2 1 130917 130886 76383 XOR\n2 1 78175 130886 54466 XOR\n2 1 54465 54466 54464 AND\n2 1 54464 130886 130887 XOR\n2 1 79712 130887 54468 XOR\n2 1 82783 130948 54555 XOR\n2 1 76895 130948 54556 XOR\n2 1 54555 54556 54554 AND\n2 1 54554 130948 130949 XOR\n2 1 130980 130949 78176 XOR\n2 1 79712 78176 130918 XOR\n2 1 130918 130887 76384 XOR\n2 1 78176 130887 54469 XOR\n2 1 54468 54469 54467 AND\n2 1 54467 130887 130888 XOR\n2 1 79713 130888 54471 XOR\n2 1 82784 130949 54558 XOR\n2 1 76896 130949 54559 XOR\n2 1 54558 54559 54557 AND\n2 1 54557 130949 130950 XOR\n2 1 130981 130950 78177 XOR\n2 1 79713 78177 130919 XOR\n2 1 130919 130888 76385 XOR\n2 1 78177 130888 54472 XOR\n2 1 54471 54472 54470 AND\n2 1 54470 130888 130889 XOR\n2 1 79714 130889 54474 XOR\n2 1 82785 130950 54561 XOR\n2 1 76897 130950 54562 XOR\n2 1 54561 54562 54560 AND\n2 1 54560 130950 130951 XOR\n2 1 130982 130951 78178 XOR\n2 1 79714 78178 130920 XOR\n2 1 130920 130889 76386 XOR\n2 1 78178 130889 54475 XOR\n2 1 54474 54475 54473 AND\n2 1 54473 130889 130890 XOR\n2 1 79715 130890 54477 XOR\n2 1 82786 130951 54564 XOR\n2 1 76898 130951 54565 XOR\n2 1 54564 54565 54563 AND\n2 1 54563 130951 130952 XOR\n2 1 130983 130952 78179 XOR\n2 1 79715 78179 130921 XOR\n2 1 130921 130890 76387 XOR\n2 1 78179 130890 54478 XOR\n2 1 54477 54478 54476 AND\n2 1 54476 130890 130891 XOR\n2 1 79716 130891 54480 XOR\n2 1 82787 130952 54567 XOR\n2 1 76899 130952 54568 XOR\n2 1 54567 54568 54566 AND\n2 1 54566 130952 130953 XOR\n2 1 130984 130953 78180 XOR\n2 1 79716 78180 130922 XOR\n2 1 130922 130891 76388 XOR\n2 1 78180 130891 54481 XOR\n2 1 54480 54481 54479 AND\n2 1 54479 130891 130892 XOR\n2 1 79717 130892 54483 XOR\n2 1 82788 130953 54570 XOR\n2 1 76900 130953 54571 XOR\n2 1 54570 54571 54569 AND\n2 1 54569 130953 130954 XOR\n2 1 130985 130954 78181 XOR\n2 1 79717 78181 130923 XOR\n2 1 130923 130892 76389 XOR\n2 1 78181 130892 54484 XOR\n2 1 54483 54484 54482 AND\n2 1 54482 130892 130893 XOR\n2 1 79718 130893 54486 XOR\n2 1 82789 130954 54573 XOR\n2 1 76901 130954 54574 XOR\n2 1 54573 54574 54572 AND\n2 1 54572 130954 130955 XOR\n",
"2 1 130986 130955 78182 XOR\n2 1 79718 78182 130924 XOR\n2 1 130924 130893 76390 XOR\n2 1 78182 130893 54487 XOR\n2 1 54486 54487 54485 AND\n2 1 54485 130893 130894 XOR\n2 1 79719 130894 54489 XOR\n2 1 82790 130955 54576 XOR\n2 1 76902 130955 54577 XOR\n2 1 54576 54577 54575 AND\n2 1 54575 130955 130956 XOR\n2 1 130987 130956 78183 XOR\n2 1 79719 78183 130925 XOR\n2 1 130925 130894 76391 XOR\n2 1 78183 130894 54490 XOR\n2 1 54489 54490 54488 AND\n2 1 54488 130894 130895 XOR\n2 1 79720 130895 54492 XOR\n2 1 82791 130956 54579 XOR\n2 1 76903 130956 54580 XOR\n2 1 54579 54580 54578 AND\n2 1 54578 130956 130957 XOR\n2 1 130988 130957 78184 XOR\n2 1 79720 78184 130926 XOR\n2 1 130926 130895 76392 XOR\n2 1 78184 130895 54493 XOR\n2 1 54492 54493 54491 AND\n2 1 54491 130895 130896 XOR\n2 1 79721 130896 54495 XOR\n2 1 82792 130957 54582 XOR\n2 1 76904 130957 54583 XOR\n2 1 54582 54583 54581 AND\n2 1 54581 130957 130958 XOR\n2 1 130989 130958 78185 XOR\n2 1 79721 78185 130927 XOR\n2 1 130927 130896 76393 XOR\n2 1 78185 130896 54496 XOR\n2 1 54495 54496 54494 AND\n2 1 54494 130896 130897 XOR\n2 1 79722 130897 54498 XOR\n2 1 82793 130958 54585 XOR\n2 1 76905 130958 54586 XOR\n2 1 54585 54586 54584 AND\n2 1 54584 130958 130959 XOR\n2 1 130990 130959 78186 XOR\n2 1 79722 78186 130928 XOR\n2 1 130928 130897 76394 XOR\n2 1 78186 130897 54499 XOR\n2 1 54498 54499 54497 AND\n2 1 54497 130897 130898 XOR\n2 1 79723 130898 54501 XOR\n2 1 82794 130959 54588 XOR\n2 1 76906 130959 54589 XOR\n2 1 54588 54589 54587 AND\n2 1 54587 130959 130960 XOR\n2 1 130991 130960 78187 XOR\n2 1 79723 78187 130929 XOR\n2 1 130929 130898 76395 XOR\n2 1 78187 130898 54502 XOR\n2 1 54501 54502 54500 AND\n2 1 54500 130898 130899 XOR\n2 1 79724 130899 54504 XOR\n2 1 82795 130960 54591 XOR\n2 1 76907 130960 54592 XOR\n2 1 54591 54592 54590 AND\n2 1 54590 130960 130961 XOR\n2 1 130992 130961 78188 XOR\n2 1 79724 78188 130930 XOR\n2 1 130930 130899 76396 XOR\n2 1 78188 130899 54505 XOR\n2 1 54504 54505 54503 AND\n2 1 54503 130899 130900 XOR\n2 1 79725 130900 54507 XOR\n2 1 82796 130961 54594 XOR\n2 1 76908 130961 54595 XOR\n2 1 54594 54595 54593 AND\n2 1 54593 130961 130962 XOR\n2 1 130993 130962 78189 XOR\n2 1 79725 78189 130931 XOR\n2 1 130931 130900 76397 XOR\n2 1 78189 130900 54508 XOR\n2 1 54507 54508 54506 AND\n2 1 54506 130900 130901 XOR\n2 1 79726 130901 54510 XOR\n2 1 82797 130962 54597 XOR\n2 1 76909 130962 54598 XOR\n2 1 54597 54598 54596 AND\n2 1 54596 130962 130963 XOR\n2 1 130994 130963 78190 XOR\n2 1 79726 78190 130932 XOR\n2 1 130932 130901 76398 XOR\n2 1 78190 130901 54511 XOR\n2 1 54510 54511 54509 AND\n2 1 54509 130901 130902 XOR\n2 1 79727 130902 54513 XOR\n2 1 82798 130963 54600 XOR\n2 1 76910 130963 54601 XOR\n2 1 54600 54601 54599 AND\n2 1 54599 130963 130964 XOR\n2 1 130995 130964 78191 XOR\n2 1 79727 78191 130933 XOR\n2 1 130933 130902 76399 XOR\n2 1 78191 130902 54514 XOR\n2 1 54513 54514 54512 AND\n2 1 54512 130902 130903 XOR\n2 1 82799 130964 54603 XOR\n2 1 76911 130964 54604 XOR\n2 1 54603 54604 54602 AND\n2 1 54602 130964 130965 XOR\n2 1 130996 130965 78192 XOR\n2 1 79728 78192 130934 XOR\n2 1 130934 130903 76400 XOR\n2 1 76371 2498 116494 XOR\n2 1 76388 2515 116511 XOR\n2 1 76387 2514 116510 XOR\n2 1 76369 2496 116462 AND\n2 1 76374 2501 116497 XOR\n2 1 76376 2503 116499 XOR\n2 1 76377 2504 116500 XOR\n2 1 76389 2516 116512 XOR\n2 1 76385 2512 116508 XOR\n2 1 76386 2513 116509 XOR\n2 1 76370 2497 116493 XOR\n2 1 76372 2499 116495 XOR\n2 1 76369 2496 94486 XOR\n2 1 76379 2506 116502 XOR\n2 1 76384 2511 116507 XOR\n2 1 76380 2507 116503 XOR\n",
"2 1 76381 2508 116504 XOR\n2 1 76382 2509 116505 XOR\n2 1 76383 2510 116506 XOR\n2 1 76390 2517 116513 XOR\n2 1 96534 94486 92469 XOR\n1 1 92469 90449 INV\n2 1 90449 84305 105444 AND\n2 1 90449 84305 1856 XOR\n2 1 84306 105444 12188 XOR\n2 1 1856 1920 71023 XOR\n2 1 71023 70991 70959 AND\n2 1 70959 1920 86321 XOR\n2 1 1856 1888 70895 XOR\n2 1 1984 90449 2368 XOR\n2 1 1984 90449 105382 AND\n2 1 1985 105382 12097 XOR\n2 1 96534 94486 116400 AND\n2 1 96535 116400 30159 XOR\n2 1 76391 2518 116514 XOR\n2 1 76392 2519 116515 XOR\n2 1 76393 2520 116516 XOR\n2 1 76394 2521 116517 XOR\n2 1 76395 2522 116518 XOR\n2 1 76396 2523 116519 XOR\n2 1 76397 2524 116520 XOR\n2 1 76398 2525 116521 XOR\n2 1 76399 2526 116522 XOR\n2 1 76400 2527 116523 XOR\n2 1 116493 116462 94487 XOR\n2 1 94487 116400 30160 XOR\n2 1 76370 116462 30249 XOR\n2 1 2497 116462 30250 XOR\n2 1 30249 30250 30248 AND\n2 1 30248 116462 116463 XOR\n2 1 116494 116463 94488 XOR\n2 1 96536 94488 116432 XOR\n2 1 76371 116463 30252 XOR\n2 1 2498 116463 30253 XOR\n2 1 30252 30253 30251 AND\n2 1 30251 116463 116464 XOR\n2 1 116495 116464 94489 XOR\n2 1 96537 94489 116433 XOR\n2 1 76372 116464 30255 XOR\n2 1 2499 116464 30256 XOR\n2 1 30255 30256 30254 AND\n2 1 30254 116464 116465 XOR\n2 1 76373 116465 30258 XOR\n2 1 2500 116465 30259 XOR\n2 1 30258 30259 30257 AND\n2 1 30257 116465 116466 XOR\n2 1 116497 116466 94491 XOR\n2 1 96539 94491 116435 XOR\n2 1 76374 116466 30261 XOR\n2 1 2501 116466 30262 XOR\n2 1 30261 30262 30260 AND\n2 1 30260 116466 116467 XOR\n2 1 76375 116467 30264 XOR\n2 1 2502 116467 30265 XOR\n2 1 30264 30265 30263 AND\n2 1 30263 116467 116468 XOR\n2 1 76376 116468 30267 XOR\n2 1 2503 116468 30268 XOR\n2 1 116499 116468 94493 XOR\n2 1 96541 94493 116437 XOR\n2 1 96535 94487 116431 XOR\n2 1 116431 116400 92470 XOR\n2 1 92470 92469 90450 XOR\n2 1 90450 105444 12187 XOR\n2 1 12187 12188 12186 AND\n2 1 12186 105444 105445 XOR\n2 1 84307 105445 12191 XOR\n2 1 90450 105382 12098 XOR\n2 1 12097 12098 12096 AND\n2 1 12096 105382 105383 XOR\n2 1 1985 90450 105413 XOR\n2 1 105413 105382 2369 XOR\n2 1 90450 84306 105475 XOR\n2 1 105475 105444 1857 XOR\n2 1 1857 1889 70896 XOR\n2 1 1857 1921 71024 XOR\n2 1 71024 70992 70960 AND\n2 1 70960 1921 86322 XOR\n2 1 90450 92469 30076 AND\n2 1 30076 92469 116388 XOR\n1 1 116388 30079 INV\n2 1 1986 105383 12100 XOR\n2 1 76373 2500 116496 XOR\n2 1 116496 116465 94490 XOR\n2 1 96538 94490 116434 XOR\n2 1 64336 2369 64304 AND\n2 1 64335 2368 64303 AND\n2 1 64304 2433 98551 XOR\n2 1 64303 2432 98550 XOR\n2 1 2369 2401 64272 XOR\n2 1 2368 2400 64271 XOR\n2 1 30267 30268 30266 AND\n2 1 30266 116468 116469 XOR\n2 1 76377 116469 30270 XOR\n2 1 2504 116469 30271 XOR\n2 1 30270 30271 30269 AND\n2 1 116500 116469 94494 XOR\n2 1 96542 94494 116438 XOR\n2 1 30269 116469 116470 XOR\n2 1 76378 116470 30273 XOR\n2 1 2505 116470 30274 XOR\n2 1 30273 30274 30272 AND\n2 1 30272 116470 116471 XOR\n2 1 116502 116471 94496 XOR\n2 1 96544 94496 116440 XOR\n2 1 2506 116471 30277 XOR\n2 1 76378 2505 116501 XOR\n2 1 116501 116470 94495 XOR\n2 1 96543 94495 116439 XOR\n2 1 30159 30160 30158 AND\n2 1 30158 116400 116401 XOR\n2 1 94488 116401 30163 XOR\n2 1 96536 116401 30162 XOR\n2 1 30162 30163 30161 AND\n2 1 30161 116401 116402 XOR\n2 1 116433 116402 92472 XOR\n2 1 96537 116402 30165 XOR\n2 1 94489 116402 30166 XOR\n2 1 30165 30166 30164 AND\n2 1 30164 116402 116403 XOR\n2 1 116434 116403 92473 XOR\n2 1 96538 116403 30168 XOR\n2 1 94490 116403 30169 XOR\n2 1 30168 30169 30167 AND\n",
"2 1 116432 116401 92471 XOR\n2 1 92471 116388 30078 XOR\n2 1 30078 30079 30077 AND\n1 1 92471 30146 INV\n2 1 30077 116388 30081 XOR\n2 1 92472 30081 90452 XOR\n2 1 1987 90452 105415 XOR\n2 1 90452 84308 105477 XOR\n2 1 90452 30081 30080 AND\n2 1 30080 30081 30083 XOR\n2 1 92473 30083 90453 XOR\n2 1 90453 84309 105478 XOR\n2 1 90453 30083 30082 AND\n2 1 30082 30083 30085 XOR\n2 1 1988 90453 105416 XOR\n2 1 30146 116388 90451 XOR\n2 1 90451 84307 105476 XOR\n2 1 105476 105445 1858 XOR\n2 1 90451 105445 12190 XOR\n2 1 12190 12191 12189 AND\n2 1 12189 105445 105446 XOR\n2 1 105477 105446 1859 XOR\n2 1 90452 105446 12193 XOR\n2 1 84308 105446 12194 XOR\n2 1 12193 12194 12192 AND\n2 1 12192 105446 105447 XOR\n2 1 105478 105447 1860 XOR\n2 1 90453 105447 12196 XOR\n2 1 84309 105447 12197 XOR\n2 1 12196 12197 12195 AND\n2 1 12195 105447 105448 XOR\n2 1 84310 105448 12200 XOR\n2 1 1986 90451 105414 XOR\n2 1 1860 1924 71027 XOR\n2 1 1859 1923 71026 XOR\n2 1 1858 1922 71025 XOR\n2 1 71027 70995 70963 AND\n2 1 71026 70994 70962 AND\n2 1 71025 70993 70961 AND\n2 1 70963 1924 86325 XOR\n2 1 70962 1923 86324 XOR\n2 1 70961 1922 86323 XOR\n2 1 1860 1892 70899 XOR\n2 1 1859 1891 70898 XOR\n2 1 1858 1890 70897 XOR\n2 1 105414 105383 2370 XOR\n2 1 64337 2370 64305 AND\n2 1 64305 2434 98552 XOR\n2 1 2370 2402 64273 XOR\n2 1 90451 105383 12101 XOR\n2 1 12100 12101 12099 AND\n2 1 12099 105383 105384 XOR\n2 1 105415 105384 2371 XOR\n2 1 1987 105384 12103 XOR\n2 1 90452 105384 12104 XOR\n2 1 12103 12104 12102 AND\n2 1 64338 2371 64306 AND\n2 1 64306 2435 98553 XOR\n2 1 2371 2403 64274 XOR\n2 1 12102 105384 105385 XOR\n2 1 105416 105385 2372 XOR\n2 1 64339 2372 64307 AND\n2 1 64307 2436 98554 XOR\n2 1 2372 2404 64275 XOR\n2 1 1988 105385 12106 XOR\n2 1 90453 105385 12107 XOR\n2 1 12106 12107 12105 AND\n2 1 12105 105385 105386 XOR\n2 1 1989 105386 12109 XOR\n2 1 30167 116403 116404 XOR\n2 1 116435 116404 92474 XOR\n2 1 92474 30085 90454 XOR\n2 1 90454 84310 105479 XOR\n2 1 105479 105448 1861 XOR\n2 1 90454 105448 12199 XOR\n2 1 12199 12200 12198 AND\n2 1 12198 105448 105449 XOR\n2 1 84311 105449 12203 XOR\n2 1 90454 105386 12110 XOR\n2 1 12109 12110 12108 AND\n2 1 12108 105386 105387 XOR\n2 1 90454 30085 30084 AND\n2 1 30084 30085 30087 XOR\n2 1 1989 90454 105417 XOR\n2 1 1861 1925 71028 XOR\n2 1 71028 70996 70964 AND\n2 1 70964 1925 86326 XOR\n2 1 1861 1893 70900 XOR\n2 1 96539 116404 30171 XOR\n2 1 94491 116404 30172 XOR\n2 1 30171 30172 30170 AND\n2 1 30170 116404 116405 XOR\n2 1 96540 116405 30174 XOR\n2 1 105417 105386 2373 XOR\n2 1 64340 2373 64308 AND\n2 1 64308 2437 98555 XOR\n2 1 2373 2405 64276 XOR\n2 1 76375 2502 116498 XOR\n2 1 116498 116467 94492 XOR\n2 1 96540 94492 116436 XOR\n2 1 116436 116405 92475 XOR\n2 1 92475 30087 90455 XOR\n2 1 90455 84311 105480 XOR\n2 1 105480 105449 1862 XOR\n2 1 90455 105449 12202 XOR\n2 1 12202 12203 12201 AND\n2 1 12201 105449 105450 XOR\n2 1 84312 105450 12206 XOR\n2 1 90455 105387 12113 XOR\n2 1 90455 30087 30086 AND\n2 1 30086 30087 116389 XOR\n2 1 1990 90455 105418 XOR\n2 1 1862 1926 71029 XOR\n2 1 71029 70997 70965 AND\n2 1 70965 1926 86327 XOR\n2 1 1862 1894 70901 XOR\n2 1 94492 116405 30175 XOR\n2 1 30174 30175 30173 AND\n2 1 30173 116405 116406 XOR\n2 1 116437 116406 92476 XOR\n2 1 92476 116389 30089 XOR\n1 1 92476 30147 INV\n2 1 30147 116389 90456 XOR\n2 1 90456 84312 105481 XOR\n2 1 105481 105450 1863 XOR\n2 1 90456 105450 12205 XOR\n2 1 12205 12206 12204 AND\n2 1 12204 105450 105451 XOR\n",
"2 1 84313 105451 12209 XOR\n2 1 1991 90456 105419 XOR\n2 1 1863 1927 71030 XOR\n2 1 71030 70998 70966 AND\n2 1 70966 1927 86328 XOR\n2 1 1863 1895 70902 XOR\n2 1 96541 116406 30177 XOR\n2 1 94493 116406 30178 XOR\n2 1 30177 30178 30176 AND\n2 1 30176 116406 116407 XOR\n2 1 96542 116407 30180 XOR\n2 1 116438 116407 92477 XOR\n2 1 94494 116407 30181 XOR\n2 1 30180 30181 30179 AND\n2 1 30179 116407 116408 XOR\n2 1 94495 116408 30184 XOR\n2 1 116439 116408 92478 XOR\n2 1 96543 116408 30183 XOR\n2 1 30183 30184 30182 AND\n2 1 30182 116408 116409 XOR\n2 1 94496 116409 30187 XOR\n2 1 116440 116409 92479 XOR\n1 1 92479 30148 INV\n2 1 96544 116409 30186 XOR\n2 1 30186 30187 30185 AND\n2 1 30185 116409 116410 XOR\n2 1 96545 116410 30189 XOR\n1 1 116389 30090 INV\n2 1 30089 30090 30088 AND\n2 1 30088 116389 30092 XOR\n2 1 92477 30092 90457 XOR\n2 1 90457 105451 12208 XOR\n2 1 12208 12209 12207 AND\n2 1 12207 105451 105452 XOR\n2 1 84314 105452 12212 XOR\n2 1 90457 84313 105482 XOR\n2 1 105482 105451 1864 XOR\n2 1 90457 30092 30091 AND\n2 1 30091 30092 30094 XOR\n2 1 1992 90457 105420 XOR\n2 1 1864 1928 71031 XOR\n2 1 71031 70999 70967 AND\n2 1 70967 1928 86329 XOR\n2 1 1864 1896 70903 XOR\n2 1 92478 30094 90458 XOR\n2 1 90458 105452 12211 XOR\n2 1 12211 12212 12210 AND\n2 1 12210 105452 105453 XOR\n2 1 84315 105453 12215 XOR\n2 1 90458 84314 105483 XOR\n2 1 105483 105452 1865 XOR\n2 1 1865 1897 70904 XOR\n2 1 1865 1929 71032 XOR\n2 1 71032 71000 70968 AND\n2 1 70968 1929 86330 XOR\n2 1 90458 30094 30093 AND\n2 1 30093 30094 116390 XOR\n1 1 116390 30097 INV\n2 1 30148 116390 90459 XOR\n2 1 1994 90459 105422 XOR\n2 1 90459 84315 105484 XOR\n2 1 105484 105453 1866 XOR\n2 1 1866 1930 71033 XOR\n2 1 71033 71001 70969 AND\n2 1 70969 1930 86331 XOR\n2 1 1866 1898 70905 XOR\n2 1 90459 105453 12214 XOR\n2 1 12214 12215 12213 AND\n2 1 12213 105453 105454 XOR\n2 1 84316 105454 12218 XOR\n2 1 92479 116390 30096 XOR\n2 1 30096 30097 30095 AND\n2 1 30095 116390 116391 XOR\n1 1 116391 30100 INV\n2 1 1993 90458 105421 XOR\n2 1 76379 116471 30276 XOR\n2 1 30276 30277 30275 AND\n2 1 30275 116471 116472 XOR\n2 1 2507 116472 30280 XOR\n2 1 76380 116472 30279 XOR\n2 1 30279 30280 30278 AND\n2 1 30278 116472 116473 XOR\n2 1 76381 116473 30282 XOR\n2 1 2508 116473 30283 XOR\n2 1 30282 30283 30281 AND\n2 1 116504 116473 94498 XOR\n2 1 30281 116473 116474 XOR\n2 1 76382 116474 30285 XOR\n2 1 2509 116474 30286 XOR\n2 1 30285 30286 30284 AND\n2 1 96546 94498 116442 XOR\n2 1 116503 116472 94497 XOR\n2 1 94497 116410 30190 XOR\n2 1 96545 94497 116441 XOR\n2 1 116441 116410 92480 XOR\n1 1 92480 30149 INV\n2 1 30149 116391 90460 XOR\n2 1 90460 84316 105485 XOR\n2 1 105485 105454 1867 XOR\n2 1 1867 1931 71034 XOR\n2 1 71034 71002 70970 AND\n2 1 70970 1931 86332 XOR\n2 1 1867 1899 70906 XOR\n2 1 90460 105454 12217 XOR\n2 1 12217 12218 12216 AND\n2 1 12216 105454 105455 XOR\n2 1 84317 105455 12221 XOR\n2 1 1856 1867 67501 XOR\n2 1 92480 116391 30099 XOR\n2 1 30099 30100 30098 AND\n2 1 30098 116391 30102 XOR\n2 1 30189 30190 30188 AND\n2 1 30188 116410 116411 XOR\n2 1 94498 116411 30193 XOR\n2 1 96546 116411 30192 XOR\n2 1 30192 30193 30191 AND\n2 1 30191 116411 116412 XOR\n2 1 96547 116412 30195 XOR\n2 1 116505 116474 94499 XOR\n2 1 94499 116412 30196 XOR\n2 1 30195 30196 30194 AND\n2 1 96547 94499 116443 XOR\n2 1 116443 116412 92482 XOR\n1 1 92482 30150 INV\n2 1 30194 116412 116413 XOR\n2 1 96548 116413 30198 XOR\n2 1 30284 116474 116475 XOR\n2 1 116506 116475 94500 XOR\n",
"2 1 76383 116475 30288 XOR\n2 1 2510 116475 30289 XOR\n2 1 30288 30289 30287 AND\n2 1 30287 116475 116476 XOR\n2 1 116507 116476 94501 XOR\n2 1 76384 116476 30291 XOR\n2 1 2511 116476 30292 XOR\n2 1 30291 30292 30290 AND\n2 1 30290 116476 116477 XOR\n2 1 116508 116477 94502 XOR\n2 1 76385 116477 30294 XOR\n2 1 2512 116477 30295 XOR\n2 1 30294 30295 30293 AND\n2 1 30293 116477 116478 XOR\n2 1 116509 116478 94503 XOR\n2 1 76386 116478 30297 XOR\n2 1 2513 116478 30298 XOR\n2 1 30297 30298 30296 AND\n2 1 30296 116478 116479 XOR\n2 1 2514 116479 30301 XOR\n2 1 94500 116413 30199 XOR\n2 1 116510 116479 94504 XOR\n2 1 76387 116479 30300 XOR\n2 1 30300 30301 30299 AND\n2 1 96548 94500 116444 XOR\n2 1 96549 94501 116445 XOR\n2 1 96550 94502 116446 XOR\n2 1 96551 94503 116447 XOR\n2 1 30198 30199 30197 AND\n2 1 30197 116413 116414 XOR\n2 1 94501 116414 30202 XOR\n2 1 96549 116414 30201 XOR\n2 1 30201 30202 30200 AND\n2 1 116445 116414 92484 XOR\n2 1 96552 94504 116448 XOR\n2 1 1995 90460 105423 XOR\n2 1 116442 116411 92481 XOR\n2 1 92481 30102 90461 XOR\n2 1 90461 105455 12220 XOR\n2 1 12220 12221 12219 AND\n2 1 12219 105455 105456 XOR\n2 1 84318 105456 12224 XOR\n2 1 1996 90461 105424 XOR\n2 1 90461 84317 105486 XOR\n2 1 105486 105455 1868 XOR\n2 1 1868 1900 70907 XOR\n2 1 1857 1868 67502 XOR\n2 1 1868 1932 71035 XOR\n2 1 71035 71003 70971 AND\n2 1 70971 1932 86333 XOR\n2 1 90461 30102 30101 AND\n2 1 30101 30102 116392 XOR\n1 1 116392 30105 INV\n2 1 30150 116392 90462 XOR\n2 1 90462 84318 105487 XOR\n2 1 105487 105456 1869 XOR\n2 1 1869 1933 71036 XOR\n2 1 71036 71004 70972 AND\n2 1 70972 1933 86334 XOR\n2 1 1869 1901 70908 XOR\n2 1 90462 105456 12223 XOR\n2 1 12223 12224 12222 AND\n2 1 12222 105456 105457 XOR\n2 1 84319 105457 12227 XOR\n2 1 1997 90462 105425 XOR\n2 1 1858 1869 67471 XOR\n2 1 92482 116392 30104 XOR\n2 1 30104 30105 30103 AND\n2 1 30103 116392 30107 XOR\n2 1 116444 116413 92483 XOR\n2 1 92483 30107 90463 XOR\n2 1 90463 105457 12226 XOR\n2 1 12226 12227 12225 AND\n2 1 12225 105457 105458 XOR\n2 1 84320 105458 12230 XOR\n2 1 90463 84319 105488 XOR\n2 1 105488 105457 1870 XOR\n2 1 1870 1934 71037 XOR\n2 1 71037 71005 70973 AND\n2 1 70973 1934 86335 XOR\n2 1 1859 1870 67472 XOR\n2 1 1870 1902 70909 XOR\n2 1 90463 30107 30106 AND\n2 1 30106 30107 30109 XOR\n2 1 1998 90463 105426 XOR\n2 1 92484 30109 90464 XOR\n2 1 90464 105458 12229 XOR\n2 1 12229 12230 12228 AND\n2 1 12228 105458 105459 XOR\n2 1 84321 105459 12233 XOR\n2 1 1999 90464 105427 XOR\n2 1 90464 84320 105489 XOR\n2 1 105489 105458 1871 XOR\n2 1 1871 1903 70910 XOR\n2 1 1860 1871 67473 XOR\n2 1 1871 1935 71038 XOR\n2 1 71038 71006 70974 AND\n2 1 70974 1935 86336 XOR\n2 1 30200 116414 116415 XOR\n2 1 96550 116415 30204 XOR\n2 1 94502 116415 30205 XOR\n2 1 30204 30205 30203 AND\n2 1 30203 116415 116416 XOR\n2 1 116447 116416 92486 XOR\n1 1 92486 30151 INV\n2 1 96551 116416 30207 XOR\n2 1 94503 116416 30208 XOR\n2 1 30207 30208 30206 AND\n2 1 30206 116416 116417 XOR\n2 1 116448 116417 92487 XOR\n2 1 96552 116417 30210 XOR\n2 1 94504 116417 30211 XOR\n2 1 30210 30211 30209 AND\n2 1 30209 116417 116418 XOR\n2 1 96553 116418 30213 XOR\n2 1 116446 116415 92485 XOR\n2 1 90464 30109 30108 AND\n2 1 30108 30109 30111 XOR\n2 1 92485 30111 90465 XOR\n2 1 90465 84321 105490 XOR\n2 1 90465 30111 30110 AND\n2 1 2000 90465 105428 XOR\n2 1 105490 105459 1872 XOR\n2 1 1872 1936 71039 XOR\n2 1 71039 71007 70975 AND\n2 1 70975 1936 86337 XOR\n2 1 1872 1904 70911 XOR\n2 1 90465 105459 12232 XOR\n",
"2 1 12232 12233 12231 AND\n2 1 12231 105459 105460 XOR\n2 1 84322 105460 12236 XOR\n2 1 1861 1872 67474 XOR\n2 1 30110 30111 116393 XOR\n1 1 116393 30114 INV\n2 1 30151 116393 90466 XOR\n2 1 90466 84322 105491 XOR\n2 1 105491 105460 1873 XOR\n2 1 1873 1937 71040 XOR\n2 1 71040 71008 70976 AND\n2 1 70976 1937 86338 XOR\n2 1 1873 1905 70912 XOR\n2 1 90466 105460 12235 XOR\n2 1 12235 12236 12234 AND\n2 1 12234 105460 105461 XOR\n2 1 84323 105461 12239 XOR\n2 1 1862 1873 67475 XOR\n2 1 92486 116393 30113 XOR\n2 1 30113 30114 30112 AND\n2 1 30112 116393 30116 XOR\n2 1 2001 90466 105429 XOR\n2 1 92487 30116 90467 XOR\n2 1 90467 30116 30115 AND\n2 1 30115 30116 30118 XOR\n2 1 90467 105461 12238 XOR\n2 1 2002 90467 105430 XOR\n2 1 90467 84323 105492 XOR\n2 1 105492 105461 1874 XOR\n2 1 1874 1938 71041 XOR\n2 1 71041 71009 70977 AND\n2 1 70977 1938 86339 XOR\n2 1 1874 1906 70913 XOR\n2 1 12238 12239 12237 AND\n2 1 12237 105461 105462 XOR\n2 1 84324 105462 12242 XOR\n2 1 1863 1874 67476 XOR\n2 1 30299 116479 116480 XOR\n2 1 116511 116480 94505 XOR\n2 1 76388 116480 30303 XOR\n2 1 96553 94505 116449 XOR\n2 1 2515 116480 30304 XOR\n2 1 30303 30304 30302 AND\n2 1 30302 116480 116481 XOR\n2 1 76389 116481 30306 XOR\n2 1 2516 116481 30307 XOR\n2 1 30306 30307 30305 AND\n2 1 30305 116481 116482 XOR\n2 1 116513 116482 94507 XOR\n2 1 76390 116482 30309 XOR\n2 1 2517 116482 30310 XOR\n2 1 30309 30310 30308 AND\n2 1 30308 116482 116483 XOR\n2 1 116514 116483 94508 XOR\n2 1 116449 116418 92488 XOR\n2 1 94505 116418 30214 XOR\n2 1 30213 30214 30212 AND\n2 1 30212 116418 116419 XOR\n2 1 96554 116419 30216 XOR\n2 1 76391 116483 30312 XOR\n2 1 2518 116483 30313 XOR\n2 1 96556 94508 116452 XOR\n2 1 116512 116481 94506 XOR\n2 1 96554 94506 116450 XOR\n2 1 116450 116419 92489 XOR\n2 1 94506 116419 30217 XOR\n2 1 30216 30217 30215 AND\n2 1 30215 116419 116420 XOR\n1 1 92489 30152 INV\n2 1 96555 116420 30219 XOR\n2 1 94507 116420 30220 XOR\n2 1 96555 94507 116451 XOR\n2 1 116451 116420 92490 XOR\n1 1 92490 30153 INV\n2 1 30219 30220 30218 AND\n2 1 30218 116420 116421 XOR\n2 1 96556 116421 30222 XOR\n2 1 116452 116421 92491 XOR\n2 1 94508 116421 30223 XOR\n2 1 30222 30223 30221 AND\n2 1 30221 116421 116422 XOR\n2 1 96557 116422 30225 XOR\n1 1 92491 30154 INV\n2 1 92488 30118 90468 XOR\n2 1 90468 30118 30117 AND\n2 1 30117 30118 116394 XOR\n1 1 116394 30121 INV\n2 1 92489 116394 30120 XOR\n2 1 30152 116394 90469 XOR\n2 1 2004 90469 105432 XOR\n2 1 90469 84325 105494 XOR\n2 1 30120 30121 30119 AND\n2 1 30119 116394 116395 XOR\n1 1 116395 30124 INV\n2 1 30153 116395 90470 XOR\n2 1 90470 84326 105495 XOR\n2 1 2005 90470 105433 XOR\n2 1 92490 116395 30123 XOR\n2 1 2003 90468 105431 XOR\n2 1 90468 84324 105493 XOR\n2 1 105493 105462 1875 XOR\n2 1 1875 1939 71042 XOR\n2 1 71042 71010 70978 AND\n2 1 70978 1939 86340 XOR\n2 1 1875 1907 70914 XOR\n2 1 90468 105462 12241 XOR\n2 1 12241 12242 12240 AND\n2 1 12240 105462 105463 XOR\n2 1 90469 105463 12244 XOR\n2 1 105494 105463 1876 XOR\n2 1 1876 1940 71043 XOR\n2 1 71043 71011 70979 AND\n2 1 70979 1940 86341 XOR\n2 1 1876 1908 70915 XOR\n2 1 84325 105463 12245 XOR\n2 1 12244 12245 12243 AND\n2 1 12243 105463 105464 XOR\n2 1 105495 105464 1877 XOR\n2 1 84326 105464 12248 XOR\n2 1 1877 1941 71044 XOR\n2 1 71044 71012 70980 AND\n2 1 70980 1941 86342 XOR\n2 1 1877 1909 70916 XOR\n2 1 90470 105464 12247 XOR\n2 1 12247 12248 12246 AND\n2 1 12246 105464 105465 XOR\n2 1 84327 105465 12251 XOR\n2 1 1877 1856 67490 XOR\n",
"2 1 1866 1877 67479 XOR\n2 1 1865 1876 67478 XOR\n2 1 1864 1875 67477 XOR\n2 1 67502 1877 88400 XOR\n2 1 67501 1876 88399 XOR\n2 1 67490 1865 88388 XOR\n2 1 88388 86340 116111 XOR\n2 1 30312 30313 30311 AND\n2 1 30311 116483 116484 XOR\n2 1 2519 116484 30316 XOR\n2 1 116515 116484 94509 XOR\n2 1 94509 116422 30226 XOR\n2 1 96557 94509 116453 XOR\n2 1 30225 30226 30224 AND\n2 1 30224 116422 116423 XOR\n2 1 96558 116423 30228 XOR\n2 1 76392 116484 30315 XOR\n2 1 30315 30316 30314 AND\n2 1 30314 116484 116485 XOR\n2 1 76393 116485 30318 XOR\n2 1 2520 116485 30319 XOR\n2 1 30318 30319 30317 AND\n2 1 30317 116485 116486 XOR\n2 1 76394 116486 30321 XOR\n2 1 116517 116486 94511 XOR\n2 1 2521 116486 30322 XOR\n2 1 30321 30322 30320 AND\n2 1 30320 116486 116487 XOR\n2 1 76395 116487 30324 XOR\n2 1 2522 116487 30325 XOR\n2 1 116518 116487 94512 XOR\n2 1 96559 94511 116455 XOR\n2 1 96560 94512 116456 XOR\n2 1 116453 116422 92492 XOR\n2 1 30123 30124 30122 AND\n2 1 30122 116395 116396 XOR\n2 1 92491 116396 30126 XOR\n1 1 116396 30127 INV\n2 1 30154 116396 90471 XOR\n2 1 2006 90471 105434 XOR\n2 1 90471 105465 12250 XOR\n2 1 90471 84327 105496 XOR\n2 1 105496 105465 1878 XOR\n2 1 1878 1942 71045 XOR\n2 1 71045 71013 70981 AND\n2 1 70981 1942 86343 XOR\n2 1 1878 1910 70917 XOR\n2 1 12250 12251 12249 AND\n2 1 12249 105465 105466 XOR\n2 1 84328 105466 12254 XOR\n2 1 1878 1857 67491 XOR\n2 1 1867 1878 67480 XOR\n2 1 67491 1866 88389 XOR\n2 1 88389 86341 116112 XOR\n2 1 67471 1878 88369 XOR\n2 1 88369 86321 116062 AND\n2 1 88369 86321 84273 XOR\n2 1 86322 116062 29538 XOR\n2 1 30126 30127 30125 AND\n2 1 30125 116396 30129 XOR\n2 1 92492 30129 90472 XOR\n2 1 90472 30129 30128 AND\n2 1 30128 30129 30131 XOR\n2 1 2007 90472 105435 XOR\n2 1 90472 84328 105497 XOR\n2 1 105497 105466 1879 XOR\n2 1 1879 1943 71046 XOR\n2 1 71046 71014 70982 AND\n2 1 70982 1943 86344 XOR\n2 1 1879 1911 70918 XOR\n2 1 90472 105466 12253 XOR\n2 1 12253 12254 12252 AND\n2 1 12252 105466 105467 XOR\n2 1 84329 105467 12257 XOR\n2 1 1879 1858 67492 XOR\n2 1 1868 1879 67481 XOR\n2 1 67492 1867 88390 XOR\n2 1 88390 86342 116113 XOR\n2 1 67481 1856 88379 XOR\n2 1 88379 86331 116102 XOR\n2 1 67472 1879 88370 XOR\n2 1 88370 116062 29537 XOR\n2 1 88370 86322 116093 XOR\n2 1 116093 116062 84274 XOR\n2 1 29537 29538 29536 AND\n2 1 29536 116062 116063 XOR\n2 1 86323 116063 29541 XOR\n2 1 116516 116485 94510 XOR\n2 1 94510 116423 30229 XOR\n2 1 30228 30229 30227 AND\n2 1 96558 94510 116454 XOR\n2 1 116454 116423 92493 XOR\n2 1 30227 116423 116424 XOR\n2 1 96559 116424 30231 XOR\n2 1 94511 116424 30232 XOR\n2 1 30231 30232 30230 AND\n2 1 30230 116424 116425 XOR\n2 1 96560 116425 30234 XOR\n2 1 94512 116425 30235 XOR\n2 1 30234 30235 30233 AND\n2 1 30233 116425 116426 XOR\n2 1 96561 116426 30237 XOR\n2 1 92493 30131 90473 XOR\n2 1 90473 30131 30130 AND\n2 1 30130 30131 116397 XOR\n1 1 116397 30134 INV\n2 1 90473 105467 12256 XOR\n2 1 90473 84329 105498 XOR\n2 1 105498 105467 1880 XOR\n2 1 1880 1944 71047 XOR\n2 1 71047 71015 70983 AND\n2 1 70983 1944 86345 XOR\n2 1 1880 1912 70919 XOR\n2 1 12256 12257 12255 AND\n2 1 12255 105467 105468 XOR\n2 1 84330 105468 12260 XOR\n2 1 1880 1859 67493 XOR\n2 1 1869 1880 67482 XOR\n2 1 67493 1868 88391 XOR\n2 1 88391 86343 116114 XOR\n2 1 67482 1857 88380 XOR\n2 1 88380 86332 116103 XOR\n2 1 67473 1880 88371 XOR\n2 1 88371 86323 116094 XOR\n2 1 116094 116063 84275 XOR\n2 1 88371 116063 29540 XOR\n2 1 29540 29541 29539 AND\n2 1 29539 116063 116064 XOR\n",
"2 1 86324 116064 29544 XOR\n2 1 116455 116424 92494 XOR\n1 1 92494 30155 INV\n2 1 30155 116397 90474 XOR\n2 1 90474 84330 105499 XOR\n2 1 105499 105468 1881 XOR\n2 1 92494 116397 30133 XOR\n2 1 30133 30134 30132 AND\n2 1 30132 116397 30136 XOR\n2 1 1881 1945 71048 XOR\n2 1 71048 71016 70984 AND\n2 1 70984 1945 86346 XOR\n2 1 1881 1913 70920 XOR\n2 1 90474 105468 12259 XOR\n2 1 12259 12260 12258 AND\n2 1 12258 105468 105469 XOR\n2 1 84331 105469 12263 XOR\n2 1 1881 1860 67494 XOR\n2 1 1870 1881 67483 XOR\n2 1 67494 1869 88392 XOR\n2 1 88392 86344 116115 XOR\n2 1 67483 1858 88381 XOR\n2 1 88381 86333 116104 XOR\n2 1 67474 1881 88372 XOR\n2 1 88372 86324 116095 XOR\n2 1 116095 116064 84276 XOR\n2 1 88372 116064 29543 XOR\n2 1 29543 29544 29542 AND\n2 1 29542 116064 116065 XOR\n2 1 86325 116065 29547 XOR\n2 1 116456 116425 92495 XOR\n2 1 92495 30136 90475 XOR\n2 1 2010 90475 105438 XOR\n2 1 90475 84331 105500 XOR\n2 1 90475 105469 12262 XOR\n2 1 90475 30136 30135 AND\n2 1 30135 30136 30138 XOR\n2 1 105500 105469 1882 XOR\n2 1 1882 1946 71049 XOR\n2 1 71049 71017 70985 AND\n2 1 70985 1946 86347 XOR\n2 1 1882 1914 70921 XOR\n2 1 12262 12263 12261 AND\n2 1 12261 105469 105470 XOR\n2 1 84332 105470 12266 XOR\n2 1 1882 1861 67495 XOR\n2 1 1871 1882 67484 XOR\n2 1 67495 1870 88393 XOR\n2 1 88393 86345 116116 XOR\n2 1 67484 1859 88382 XOR\n2 1 88382 86334 116105 XOR\n2 1 67475 1882 88373 XOR\n2 1 88373 86325 116096 XOR\n2 1 88373 116065 29546 XOR\n2 1 29546 29547 29545 AND\n2 1 29545 116065 116066 XOR\n2 1 86326 116066 29550 XOR\n2 1 116096 116065 84277 XOR\n2 1 30324 30325 30323 AND\n2 1 30323 116487 116488 XOR\n2 1 116519 116488 94513 XOR\n2 1 96561 94513 116457 XOR\n2 1 94513 116426 30238 XOR\n2 1 76396 116488 30327 XOR\n2 1 2523 116488 30328 XOR\n2 1 30327 30328 30326 AND\n2 1 30326 116488 116489 XOR\n2 1 116520 116489 94514 XOR\n2 1 96562 94514 116458 XOR\n2 1 76397 116489 30330 XOR\n2 1 2524 116489 30331 XOR\n2 1 30330 30331 30329 AND\n2 1 30329 116489 116490 XOR\n2 1 116521 116490 94515 XOR\n2 1 76398 116490 30333 XOR\n2 1 2525 116490 30334 XOR\n2 1 30333 30334 30332 AND\n2 1 30332 116490 116491 XOR\n2 1 116522 116491 94516 XOR\n2 1 96564 94516 116460 XOR\n2 1 76399 116491 30336 XOR\n2 1 2526 116491 30337 XOR\n2 1 30336 30337 30335 AND\n2 1 30335 116491 116492 XOR\n2 1 116523 116492 94517 XOR\n2 1 96565 94517 116461 XOR\n2 1 96563 94515 116459 XOR\n2 1 116457 116426 92496 XOR\n2 1 92496 30138 90476 XOR\n2 1 90476 84332 105501 XOR\n2 1 105501 105470 1883 XOR\n2 1 2011 90476 105439 XOR\n2 1 90476 30138 30137 AND\n2 1 30137 30138 116398 XOR\n2 1 1883 1947 71050 XOR\n2 1 71050 71018 70986 AND\n2 1 70986 1947 86348 XOR\n2 1 1883 1915 70922 XOR\n2 1 90476 105470 12265 XOR\n2 1 12265 12266 12264 AND\n2 1 12264 105470 105471 XOR\n2 1 84333 105471 12269 XOR\n2 1 1883 1862 67496 XOR\n2 1 1872 1883 67485 XOR\n2 1 67496 1871 88394 XOR\n2 1 88394 86346 116117 XOR\n2 1 67485 1860 88383 XOR\n2 1 88383 86335 116106 XOR\n2 1 67476 1883 88374 XOR\n2 1 88374 116066 29549 XOR\n2 1 88374 86326 116097 XOR\n2 1 116097 116066 84278 XOR\n2 1 29549 29550 29548 AND\n2 1 29548 116066 116067 XOR\n2 1 86327 116067 29553 XOR\n1 1 116398 30141 INV\n2 1 30237 30238 30236 AND\n2 1 30236 116426 116427 XOR\n2 1 96562 116427 30240 XOR\n2 1 116458 116427 92497 XOR\n2 1 92497 116398 30140 XOR\n2 1 30140 30141 30139 AND\n2 1 30139 116398 30143 XOR\n2 1 94514 116427 30241 XOR\n2 1 30240 30241 30239 AND\n2 1 30239 116427 116428 XOR\n2 1 94515 116428 30244 XOR\n2 1 116459 116428 92498 XOR\n",
"2 1 92498 30143 90478 XOR\n2 1 90478 84334 105503 XOR\n2 1 2013 90478 105441 XOR\n2 1 90478 30143 30142 AND\n2 1 30142 30143 30145 XOR\n1 1 92497 30156 INV\n2 1 30156 116398 90477 XOR\n2 1 90477 105471 12268 XOR\n2 1 90477 84333 105502 XOR\n2 1 105502 105471 1884 XOR\n2 1 1884 1948 71051 XOR\n2 1 71051 71019 70987 AND\n2 1 70987 1948 86349 XOR\n2 1 1884 1916 70923 XOR\n2 1 12268 12269 12267 AND\n2 1 12267 105471 105472 XOR\n2 1 90478 105472 12271 XOR\n2 1 105503 105472 1885 XOR\n2 1 84334 105472 12272 XOR\n2 1 12271 12272 12270 AND\n2 1 1885 1949 71052 XOR\n2 1 71052 71020 70988 AND\n2 1 70988 1949 86350 XOR\n2 1 1885 1917 70924 XOR\n2 1 12270 105472 105473 XOR\n2 1 84335 105473 12275 XOR\n2 1 1885 1864 67498 XOR\n2 1 1884 1863 67497 XOR\n2 1 1874 1885 67487 XOR\n2 1 1873 1884 67486 XOR\n2 1 67498 1873 88396 XOR\n2 1 88396 86348 116119 XOR\n2 1 67497 1872 88395 XOR\n2 1 88395 86347 116118 XOR\n2 1 67487 1862 88385 XOR\n2 1 88385 86337 116108 XOR\n2 1 67486 1861 88384 XOR\n2 1 88384 86336 116107 XOR\n2 1 67478 1885 88376 XOR\n2 1 88376 86328 116099 XOR\n2 1 67477 1884 88375 XOR\n2 1 88375 86327 116098 XOR\n2 1 116098 116067 84279 XOR\n2 1 88375 116067 29552 XOR\n2 1 29552 29553 29551 AND\n2 1 29551 116067 116068 XOR\n2 1 88376 116068 29555 XOR\n2 1 116099 116068 84280 XOR\n2 1 86328 116068 29556 XOR\n2 1 29555 29556 29554 AND\n2 1 29554 116068 116069 XOR\n2 1 86329 116069 29559 XOR\n2 1 96563 116428 30243 XOR\n2 1 30243 30244 30242 AND\n2 1 30242 116428 116429 XOR\n2 1 96564 116429 30246 XOR\n2 1 94516 116429 30247 XOR\n2 1 116460 116429 92499 XOR\n2 1 30246 30247 30245 AND\n2 1 30245 116429 116430 XOR\n2 1 116461 116430 92500 XOR\n2 1 92499 30145 90479 XOR\n2 1 90479 105473 12274 XOR\n2 1 12274 12275 12273 AND\n2 1 12273 105473 105474 XOR\n2 1 90479 84335 105504 XOR\n2 1 105504 105473 1886 XOR\n2 1 1886 1918 70925 XOR\n2 1 1886 1950 71053 XOR\n2 1 71053 71021 70989 AND\n2 1 1886 1865 67499 XOR\n2 1 1875 1886 67488 XOR\n2 1 67499 1874 88397 XOR\n2 1 88397 86349 116120 XOR\n2 1 67488 1863 88386 XOR\n2 1 88386 86338 116109 XOR\n2 1 67479 1886 88377 XOR\n2 1 88377 86329 116100 XOR\n2 1 116100 116069 84281 XOR\n2 1 88377 116069 29558 XOR\n2 1 29558 29559 29557 AND\n2 1 29557 116069 116070 XOR\n2 1 86330 116070 29562 XOR\n2 1 70989 1950 86351 XOR\n2 1 88399 86351 116122 XOR\n2 1 90479 30145 30144 AND\n2 1 30144 30145 116399 XOR\n2 1 2014 90479 105442 XOR\n1 1 92500 30157 INV\n2 1 30157 116399 90480 XOR\n2 1 90480 84336 105505 XOR\n2 1 105505 105474 1887 XOR\n2 1 2015 90480 105443 XOR\n2 1 1887 1951 71054 XOR\n2 1 71054 71022 70990 AND\n2 1 70990 1951 86352 XOR\n2 1 1887 1919 70926 XOR\n2 1 1887 1866 67500 XOR\n2 1 1876 1887 67489 XOR\n2 1 67500 1875 88398 XOR\n2 1 88398 86350 116121 XOR\n2 1 67489 1864 88387 XOR\n2 1 88387 86339 116110 XOR\n2 1 67480 1887 88378 XOR\n2 1 88378 116070 29561 XOR\n2 1 88378 86330 116101 XOR\n2 1 116101 116070 84282 XOR\n2 1 29561 29562 29560 AND\n2 1 29560 116070 116071 XOR\n2 1 86331 116071 29565 XOR\n2 1 116102 116071 84283 XOR\n2 1 88379 116071 29564 XOR\n2 1 29564 29565 29563 AND\n2 1 29563 116071 116072 XOR\n2 1 116103 116072 84284 XOR\n2 1 86332 116072 29568 XOR\n2 1 88380 116072 29567 XOR\n2 1 29567 29568 29566 AND\n2 1 29566 116072 116073 XOR\n2 1 86333 116073 29571 XOR\n2 1 88381 116073 29570 XOR\n2 1 29570 29571 29569 AND\n2 1 29569 116073 116074 XOR\n2 1 116105 116074 84286 XOR\n2 1 116104 116073 84285 XOR\n2 1 86334 116074 29574 XOR\n2 1 88382 116074 29573 XOR\n2 1 29573 29574 29572 AND\n",
"2 1 29572 116074 116075 XOR\n2 1 116106 116075 84287 XOR\n2 1 86335 116075 29577 XOR\n2 1 88383 116075 29576 XOR\n2 1 29576 29577 29575 AND\n2 1 29575 116075 116076 XOR\n2 1 116107 116076 84288 XOR\n2 1 86336 116076 29580 XOR\n2 1 88384 116076 29579 XOR\n2 1 29579 29580 29578 AND\n2 1 29578 116076 116077 XOR\n2 1 86337 116077 29583 XOR\n2 1 88385 116077 29582 XOR\n2 1 29582 29583 29581 AND\n2 1 29581 116077 116078 XOR\n2 1 116109 116078 84290 XOR\n2 1 86338 116078 29586 XOR\n2 1 88386 116078 29585 XOR\n2 1 29585 29586 29584 AND\n2 1 29584 116078 116079 XOR\n2 1 88387 116079 29588 XOR\n2 1 116110 116079 84291 XOR\n2 1 86339 116079 29589 XOR\n2 1 29588 29589 29587 AND\n2 1 29587 116079 116080 XOR\n2 1 116111 116080 84292 XOR\n2 1 86340 116080 29592 XOR\n2 1 88388 116080 29591 XOR\n2 1 29591 29592 29590 AND\n2 1 29590 116080 116081 XOR\n2 1 116112 116081 84293 XOR\n2 1 86341 116081 29595 XOR\n2 1 88389 116081 29594 XOR\n2 1 29594 29595 29593 AND\n2 1 29593 116081 116082 XOR\n2 1 116113 116082 84294 XOR\n2 1 116108 116077 84289 XOR\n2 1 86342 116082 29598 XOR\n2 1 88390 116082 29597 XOR\n2 1 29597 29598 29596 AND\n2 1 29596 116082 116083 XOR\n2 1 116114 116083 84295 XOR\n2 1 86343 116083 29601 XOR\n2 1 88391 116083 29600 XOR\n2 1 29600 29601 29599 AND\n2 1 29599 116083 116084 XOR\n2 1 116115 116084 84296 XOR\n2 1 86344 116084 29604 XOR\n2 1 88392 116084 29603 XOR\n2 1 29603 29604 29602 AND\n2 1 29602 116084 116085 XOR\n2 1 116116 116085 84297 XOR\n2 1 86345 116085 29607 XOR\n2 1 88393 116085 29606 XOR\n2 1 29606 29607 29605 AND\n2 1 29605 116085 116086 XOR\n2 1 116117 116086 84298 XOR\n2 1 86346 116086 29610 XOR\n2 1 88400 86352 116123 XOR\n2 1 88394 116086 29609 XOR\n2 1 29609 29610 29608 AND\n2 1 29608 116086 116087 XOR\n2 1 88395 116087 29612 XOR\n2 1 86347 116087 29613 XOR\n2 1 29612 29613 29611 AND\n2 1 29611 116087 116088 XOR\n2 1 116119 116088 84300 XOR\n2 1 86348 116088 29616 XOR\n2 1 88396 116088 29615 XOR\n2 1 29615 29616 29614 AND\n2 1 29614 116088 116089 XOR\n2 1 88397 116089 29618 XOR\n2 1 116120 116089 84301 XOR\n2 1 86349 116089 29619 XOR\n2 1 29618 29619 29617 AND\n2 1 29617 116089 116090 XOR\n2 1 86350 116090 29622 XOR\n2 1 88398 116090 29621 XOR\n2 1 116121 116090 84302 XOR\n2 1 29621 29622 29620 AND\n2 1 29620 116090 116091 XOR\n2 1 116122 116091 84303 XOR\n2 1 86351 116091 29625 XOR\n2 1 88399 116091 29624 XOR\n2 1 29624 29625 29623 AND\n2 1 29623 116091 116092 XOR\n2 1 116123 116092 84304 XOR\n2 1 116118 116087 84299 XOR\n2 1 2009 90474 105437 XOR\n2 1 2008 90473 105436 XOR\n2 1 1990 105387 12112 XOR\n2 1 12112 12113 12111 AND\n2 1 12111 105387 105388 XOR\n2 1 1991 105388 12115 XOR\n2 1 90456 105388 12116 XOR\n2 1 12115 12116 12114 AND\n2 1 12114 105388 105389 XOR\n2 1 1992 105389 12118 XOR\n2 1 90457 105389 12119 XOR\n2 1 12118 12119 12117 AND\n2 1 12117 105389 105390 XOR\n2 1 1993 105390 12121 XOR\n2 1 105421 105390 2377 XOR\n2 1 64344 2377 64312 AND\n2 1 64312 2441 98559 XOR\n2 1 2377 2409 64280 XOR\n2 1 90458 105390 12122 XOR\n2 1 12121 12122 12120 AND\n2 1 12120 105390 105391 XOR\n2 1 105422 105391 2378 XOR\n2 1 1994 105391 12124 XOR\n2 1 90459 105391 12125 XOR\n2 1 64345 2378 64313 AND\n2 1 64313 2442 98560 XOR\n2 1 2378 2410 64281 XOR\n2 1 105420 105389 2376 XOR\n2 1 64343 2376 64311 AND\n2 1 64311 2440 98558 XOR\n2 1 2376 2408 64279 XOR\n2 1 12124 12125 12123 AND\n2 1 12123 105391 105392 XOR\n2 1 105423 105392 2379 XOR\n2 1 90460 105392 12128 XOR\n2 1 1995 105392 12127 XOR\n2 1 64346 2379 64314 AND\n2 1 64314 2443 98561 XOR\n2 1 2379 2411 64282 XOR\n2 1 105418 105387 2374 XOR\n",
"2 1 64341 2374 64309 AND\n2 1 64309 2438 98556 XOR\n2 1 2374 2406 64277 XOR\n2 1 2373 2378 61582 XOR\n2 1 2372 2377 61581 XOR\n2 1 2371 2376 61580 XOR\n2 1 2369 2374 61578 XOR\n2 1 2368 2373 61577 XOR\n2 1 2374 2379 61551 XOR\n2 1 12127 12128 12126 AND\n2 1 12126 105392 105393 XOR\n2 1 105424 105393 2380 XOR\n2 1 1996 105393 12130 XOR\n2 1 90461 105393 12131 XOR\n2 1 12130 12131 12129 AND\n2 1 12129 105393 105394 XOR\n2 1 1997 105394 12133 XOR\n2 1 105425 105394 2381 XOR\n2 1 64348 2381 64316 AND\n2 1 64347 2380 64315 AND\n2 1 64316 2445 98563 XOR\n2 1 64315 2444 98562 XOR\n2 1 2381 2413 64284 XOR\n2 1 2380 2412 64283 XOR\n2 1 2376 2381 61553 XOR\n2 1 2012 90477 105440 XOR\n2 1 105419 105388 2375 XOR\n2 1 64342 2375 64310 AND\n2 1 64310 2439 98557 XOR\n2 1 2375 2407 64278 XOR\n2 1 2370 2375 61579 XOR\n2 1 2375 2380 61552 XOR\n2 1 90462 105394 12134 XOR\n2 1 12133 12134 12132 AND\n2 1 12132 105394 105395 XOR\n2 1 105426 105395 2382 XOR\n2 1 1998 105395 12136 XOR\n2 1 90463 105395 12137 XOR\n2 1 12136 12137 12135 AND\n2 1 12135 105395 105396 XOR\n2 1 105427 105396 2383 XOR\n2 1 1999 105396 12139 XOR\n2 1 90464 105396 12140 XOR\n2 1 12139 12140 12138 AND\n2 1 12138 105396 105397 XOR\n2 1 2000 105397 12142 XOR\n2 1 64350 2383 64318 AND\n2 1 64349 2382 64317 AND\n2 1 64318 2447 98565 XOR\n2 1 64317 2446 98564 XOR\n2 1 2383 2415 64286 XOR\n2 1 2382 2414 64285 XOR\n2 1 105428 105397 2384 XOR\n2 1 64351 2384 64319 AND\n2 1 64319 2448 98566 XOR\n2 1 2384 2416 64287 XOR\n2 1 90465 105397 12143 XOR\n2 1 12142 12143 12141 AND\n2 1 12141 105397 105398 XOR\n2 1 90466 105398 12146 XOR\n2 1 105429 105398 2385 XOR\n2 1 64352 2385 64320 AND\n2 1 64320 2449 98567 XOR\n2 1 2385 2417 64288 XOR\n2 1 2380 2385 61557 XOR\n2 1 2379 2384 61556 XOR\n2 1 2378 2383 61555 XOR\n2 1 2377 2382 61554 XOR\n2 1 2001 105398 12145 XOR\n2 1 12145 12146 12144 AND\n2 1 12144 105398 105399 XOR\n2 1 2002 105399 12148 XOR\n2 1 90467 105399 12149 XOR\n2 1 12148 12149 12147 AND\n2 1 12147 105399 105400 XOR\n2 1 105431 105400 2387 XOR\n2 1 64354 2387 64322 AND\n2 1 64322 2451 98569 XOR\n2 1 2387 2419 64290 XOR\n2 1 2382 2387 61559 XOR\n2 1 61577 2387 100624 XOR\n2 1 61559 2369 100606 XOR\n2 1 100606 98558 116302 XOR\n2 1 2003 105400 12151 XOR\n2 1 105430 105399 2386 XOR\n2 1 64353 2386 64321 AND\n2 1 64321 2450 98568 XOR\n2 1 2386 2418 64289 XOR\n2 1 2381 2386 61558 XOR\n2 1 61558 2368 100605 XOR\n2 1 100605 98557 116301 XOR\n2 1 90468 105400 12152 XOR\n2 1 12151 12152 12150 AND\n2 1 12150 105400 105401 XOR\n2 1 105432 105401 2388 XOR\n2 1 2004 105401 12154 XOR\n2 1 90469 105401 12155 XOR\n2 1 12154 12155 12153 AND\n2 1 12153 105401 105402 XOR\n2 1 105433 105402 2389 XOR\n2 1 2005 105402 12157 XOR\n2 1 90470 105402 12158 XOR\n2 1 12157 12158 12156 AND\n2 1 12156 105402 105403 XOR\n2 1 105434 105403 2390 XOR\n2 1 2006 105403 12160 XOR\n2 1 90471 105403 12161 XOR\n2 1 12160 12161 12159 AND\n2 1 12159 105403 105404 XOR\n2 1 105435 105404 2391 XOR\n2 1 2007 105404 12163 XOR\n2 1 90472 105404 12164 XOR\n2 1 12163 12164 12162 AND\n2 1 12162 105404 105405 XOR\n2 1 105436 105405 2392 XOR\n2 1 2008 105405 12166 XOR\n2 1 90473 105405 12167 XOR\n2 1 12166 12167 12165 AND\n2 1 12165 105405 105406 XOR\n2 1 105437 105406 2393 XOR\n2 1 2009 105406 12169 XOR\n2 1 90474 105406 12170 XOR\n2 1 12169 12170 12168 AND\n2 1 12168 105406 105407 XOR\n2 1 105438 105407 2394 XOR\n2 1 2010 105407 12172 XOR\n2 1 90475 105407 12173 XOR\n2 1 12172 12173 12171 AND\n",
"2 1 12171 105407 105408 XOR\n2 1 105439 105408 2395 XOR\n2 1 2011 105408 12175 XOR\n2 1 90476 105408 12176 XOR\n2 1 12175 12176 12174 AND\n2 1 12174 105408 105409 XOR\n2 1 105440 105409 2396 XOR\n2 1 2012 105409 12178 XOR\n2 1 90477 105409 12179 XOR\n2 1 12178 12179 12177 AND\n2 1 12177 105409 105410 XOR\n2 1 105441 105410 2397 XOR\n2 1 2013 105410 12181 XOR\n2 1 90478 105410 12182 XOR\n2 1 12181 12182 12180 AND\n2 1 12180 105410 105411 XOR\n2 1 105442 105411 2398 XOR\n2 1 2014 105411 12184 XOR\n2 1 90479 105411 12185 XOR\n2 1 12184 12185 12183 AND\n2 1 12183 105411 105412 XOR\n2 1 105443 105412 2399 XOR\n2 1 64366 2399 64334 AND\n2 1 64365 2398 64333 AND\n2 1 64364 2397 64332 AND\n2 1 64363 2396 64331 AND\n2 1 64362 2395 64330 AND\n2 1 64361 2394 64329 AND\n2 1 64360 2393 64328 AND\n2 1 64359 2392 64327 AND\n2 1 64358 2391 64326 AND\n2 1 64357 2390 64325 AND\n2 1 64356 2389 64324 AND\n2 1 64355 2388 64323 AND\n2 1 64334 2463 98581 XOR\n2 1 64333 2462 98580 XOR\n2 1 64332 2461 98579 XOR\n2 1 64331 2460 98578 XOR\n2 1 64330 2459 98577 XOR\n2 1 64329 2458 98576 XOR\n2 1 100624 98576 116320 XOR\n2 1 64328 2457 98575 XOR\n2 1 64327 2456 98574 XOR\n2 1 64326 2455 98573 XOR\n2 1 64325 2454 98572 XOR\n2 1 64324 2453 98571 XOR\n2 1 64323 2452 98570 XOR\n2 1 2399 2431 64302 XOR\n2 1 2398 2430 64301 XOR\n2 1 2397 2429 64300 XOR\n2 1 2396 2428 64299 XOR\n2 1 2395 2427 64298 XOR\n2 1 2394 2426 64297 XOR\n2 1 2393 2425 64296 XOR\n2 1 2392 2424 64295 XOR\n2 1 2391 2423 64294 XOR\n2 1 2390 2422 64293 XOR\n2 1 2389 2421 64292 XOR\n2 1 2388 2420 64291 XOR\n2 1 2399 2372 61576 XOR\n2 1 2398 2371 61575 XOR\n2 1 2397 2370 61574 XOR\n2 1 2396 2369 61573 XOR\n2 1 2395 2368 61572 XOR\n2 1 2394 2399 61571 XOR\n2 1 2393 2398 61570 XOR\n2 1 2392 2397 61569 XOR\n2 1 2391 2396 61568 XOR\n2 1 2390 2395 61567 XOR\n2 1 2389 2394 61566 XOR\n2 1 2388 2393 61565 XOR\n2 1 2387 2392 61564 XOR\n2 1 2386 2391 61563 XOR\n2 1 2385 2390 61562 XOR\n2 1 2384 2389 61561 XOR\n2 1 2383 2388 61560 XOR\n2 1 61582 2392 100629 XOR\n2 1 100629 98581 116325 XOR\n2 1 61581 2391 100628 XOR\n2 1 100628 98580 116324 XOR\n2 1 61580 2390 100627 XOR\n2 1 100627 98579 116323 XOR\n2 1 61579 2389 100626 XOR\n2 1 100626 98578 116322 XOR\n2 1 61578 2388 100625 XOR\n2 1 100625 98577 116321 XOR\n2 1 61576 2386 100623 XOR\n2 1 100623 98575 116319 XOR\n2 1 61575 2385 100622 XOR\n2 1 100622 98574 116318 XOR\n2 1 61574 2384 100621 XOR\n2 1 100621 98573 116317 XOR\n2 1 61573 2383 100620 XOR\n2 1 100620 98572 116316 XOR\n2 1 61572 2382 100619 XOR\n2 1 61571 2381 100618 XOR\n2 1 100618 98570 116314 XOR\n2 1 61570 2380 100617 XOR\n2 1 100617 98569 116313 XOR\n2 1 61569 2379 100616 XOR\n2 1 100616 98568 116312 XOR\n2 1 61568 2378 100615 XOR\n2 1 100615 98567 116311 XOR\n2 1 61567 2377 100614 XOR\n2 1 100614 98566 116310 XOR\n2 1 61566 2376 100613 XOR\n2 1 100613 98565 116309 XOR\n2 1 61565 2375 100612 XOR\n2 1 100612 98564 116308 XOR\n2 1 61564 2374 100611 XOR\n2 1 100611 98563 116307 XOR\n2 1 61563 2373 100610 XOR\n2 1 100610 98562 116306 XOR\n2 1 61562 2372 100609 XOR\n2 1 100609 98561 116305 XOR\n2 1 61561 2371 100608 XOR\n2 1 100608 98560 116304 XOR\n2 1 61560 2370 100607 XOR\n2 1 100607 98559 116303 XOR\n2 1 61557 2399 100604 XOR\n2 1 100604 98556 116300 XOR\n2 1 61556 2398 100603 XOR\n2 1 100603 98555 116299 XOR\n2 1 61555 2397 100602 XOR\n2 1 100602 98554 116298 XOR\n2 1 61554 2396 100601 XOR\n2 1 100601 98553 116297 XOR\n2 1 61553 2395 100600 XOR\n",
"2 1 100600 98552 116296 XOR\n2 1 61552 2394 100599 XOR\n2 1 100599 98551 116295 XOR\n2 1 61551 2393 100598 XOR\n2 1 100598 98550 96502 XOR\n2 1 100598 98550 116264 AND\n2 1 116295 116264 96503 XOR\n2 1 100599 116264 29897 XOR\n2 1 98551 116264 29898 XOR\n2 1 29897 29898 29896 AND\n2 1 29896 116264 116265 XOR\n2 1 116296 116265 96504 XOR\n2 1 100600 116265 29900 XOR\n2 1 98552 116265 29901 XOR\n2 1 29900 29901 29899 AND\n2 1 29899 116265 116266 XOR\n2 1 100601 116266 29903 XOR\n2 1 116297 116266 96505 XOR\n2 1 98553 116266 29904 XOR\n2 1 29903 29904 29902 AND\n2 1 29902 116266 116267 XOR\n2 1 116298 116267 96506 XOR\n2 1 100602 116267 29906 XOR\n2 1 98554 116267 29907 XOR\n2 1 29906 29907 29905 AND\n2 1 29905 116267 116268 XOR\n2 1 98555 116268 29910 XOR\n2 1 100603 116268 29909 XOR\n2 1 116299 116268 96507 XOR\n2 1 29909 29910 29908 AND\n2 1 29908 116268 116269 XOR\n2 1 100604 116269 29912 XOR\n2 1 116300 116269 96508 XOR\n2 1 98556 116269 29913 XOR\n2 1 29912 29913 29911 AND\n2 1 29911 116269 116270 XOR\n2 1 116301 116270 96509 XOR\n2 1 98557 116270 29916 XOR\n2 1 100605 116270 29915 XOR\n2 1 29915 29916 29914 AND\n2 1 29914 116270 116271 XOR\n2 1 98558 116271 29919 XOR\n2 1 116302 116271 96510 XOR\n2 1 100606 116271 29918 XOR\n2 1 29918 29919 29917 AND\n2 1 29917 116271 116272 XOR\n2 1 98559 116272 29922 XOR\n2 1 100607 116272 29921 XOR\n2 1 29921 29922 29920 AND\n2 1 29920 116272 116273 XOR\n2 1 116304 116273 96512 XOR\n2 1 116303 116272 96511 XOR\n2 1 98560 116273 29925 XOR\n2 1 100608 116273 29924 XOR\n2 1 29924 29925 29923 AND\n2 1 29923 116273 116274 XOR\n2 1 98561 116274 29928 XOR\n2 1 100609 116274 29927 XOR\n2 1 29927 29928 29926 AND\n2 1 29926 116274 116275 XOR\n2 1 100610 116275 29930 XOR\n2 1 98562 116275 29931 XOR\n2 1 116306 116275 96514 XOR\n2 1 29930 29931 29929 AND\n2 1 29929 116275 116276 XOR\n2 1 116307 116276 96515 XOR\n2 1 98563 116276 29934 XOR\n2 1 100611 116276 29933 XOR\n2 1 29933 29934 29932 AND\n2 1 29932 116276 116277 XOR\n2 1 98564 116277 29937 XOR\n2 1 100612 116277 29936 XOR\n2 1 29936 29937 29935 AND\n2 1 116308 116277 96516 XOR\n2 1 116305 116274 96513 XOR\n2 1 29935 116277 116278 XOR\n2 1 98565 116278 29940 XOR\n2 1 116309 116278 96517 XOR\n2 1 100613 116278 29939 XOR\n2 1 29939 29940 29938 AND\n2 1 29938 116278 116279 XOR\n2 1 98566 116279 29943 XOR\n2 1 100614 116279 29942 XOR\n2 1 29942 29943 29941 AND\n2 1 29941 116279 116280 XOR\n2 1 98567 116280 29946 XOR\n2 1 100615 116280 29945 XOR\n2 1 29945 29946 29944 AND\n2 1 29944 116280 116281 XOR\n2 1 98568 116281 29949 XOR\n2 1 116312 116281 96520 XOR\n2 1 116311 116280 96519 XOR\n2 1 116310 116279 96518 XOR\n2 1 100616 116281 29948 XOR\n2 1 29948 29949 29947 AND\n2 1 29947 116281 116282 XOR\n2 1 98569 116282 29952 XOR\n2 1 116313 116282 96521 XOR\n2 1 100617 116282 29951 XOR\n2 1 29951 29952 29950 AND\n2 1 29950 116282 116283 XOR\n2 1 116314 116283 96522 XOR\n2 1 100618 116283 29954 XOR\n2 1 98570 116283 29955 XOR\n2 1 29954 29955 29953 AND\n2 1 29953 116283 116284 XOR\n2 1 98571 116284 29958 XOR\n2 1 100619 116284 29957 XOR\n2 1 29957 29958 29956 AND\n2 1 29956 116284 116285 XOR\n2 1 100620 116285 29960 XOR\n2 1 98572 116285 29961 XOR\n2 1 29960 29961 29959 AND\n2 1 29959 116285 116286 XOR\n2 1 100621 116286 29963 XOR\n2 1 116317 116286 96525 XOR\n2 1 116316 116285 96524 XOR\n2 1 98573 116286 29964 XOR\n2 1 29963 29964 29962 AND\n2 1 29962 116286 116287 XOR\n2 1 100622 116287 29966 XOR\n2 1 116318 116287 96526 XOR\n2 1 98574 116287 29967 XOR\n2 1 29966 29967 29965 AND\n2 1 29965 116287 116288 XOR\n2 1 100623 116288 29969 XOR\n2 1 98575 116288 29970 XOR\n2 1 29969 29970 29968 AND\n",
"2 1 116319 116288 96527 XOR\n2 1 29968 116288 116289 XOR\n2 1 100624 116289 29972 XOR\n2 1 116320 116289 96528 XOR\n2 1 98576 116289 29973 XOR\n2 1 29972 29973 29971 AND\n2 1 29971 116289 116290 XOR\n2 1 98577 116290 29976 XOR\n2 1 100625 116290 29975 XOR\n2 1 29975 29976 29974 AND\n2 1 29974 116290 116291 XOR\n2 1 98578 116291 29979 XOR\n2 1 116322 116291 96530 XOR\n2 1 116321 116290 96529 XOR\n2 1 100626 116291 29978 XOR\n2 1 29978 29979 29977 AND\n2 1 29977 116291 116292 XOR\n2 1 116323 116292 96531 XOR\n2 1 100627 116292 29981 XOR\n2 1 98579 116292 29982 XOR\n2 1 29981 29982 29980 AND\n2 1 29980 116292 116293 XOR\n2 1 116324 116293 96532 XOR\n2 1 98580 116293 29985 XOR\n2 1 100628 116293 29984 XOR\n2 1 29984 29985 29983 AND\n2 1 29983 116293 116294 XOR\n2 1 116325 116294 96533 XOR\n2 1 100619 98571 116315 XOR\n2 1 116315 116284 96523 XOR\n2 1 76385 76387 81200 XOR\n2 1 81200 76560 130686 XOR\n2 1 76384 76386 81199 XOR\n2 1 81199 76559 130685 XOR\n2 1 76383 76385 81198 XOR\n2 1 81198 76558 130684 XOR\n2 1 76382 76384 81197 XOR\n2 1 81197 76557 130683 XOR\n2 1 76381 76383 81196 XOR\n2 1 81196 76556 130682 XOR\n2 1 76380 76382 81195 XOR\n2 1 81195 76555 130681 XOR\n2 1 76379 76381 81194 XOR\n2 1 81194 76554 130680 XOR\n2 1 76378 76380 81193 XOR\n2 1 81193 76553 130679 XOR\n2 1 76377 76379 81192 XOR\n2 1 81192 76552 130678 XOR\n2 1 76376 76378 81191 XOR\n2 1 81191 76551 130677 XOR\n2 1 76375 76377 6617 XOR\n2 1 76374 76376 6616 XOR\n2 1 76373 76375 6615 XOR\n2 1 76372 76374 6614 XOR\n2 1 76371 76373 6613 XOR\n2 1 76370 76372 6612 XOR\n2 1 76369 76371 6611 XOR\n2 1 76400 76370 6610 XOR\n2 1 76399 76369 6609 XOR\n2 1 76398 76400 6608 XOR\n2 1 76397 76399 6607 XOR\n2 1 76396 76398 6606 XOR\n2 1 76395 76397 6605 XOR\n2 1 76394 76396 6604 XOR\n2 1 76393 76395 6603 XOR\n2 1 76392 76394 6602 XOR\n2 1 76391 76393 6601 XOR\n2 1 76390 76392 6600 XOR\n2 1 76389 76391 6599 XOR\n2 1 76388 76390 6598 XOR\n2 1 76387 76389 6597 XOR\n2 1 76386 76388 6596 XOR\n2 1 6617 76400 81190 XOR\n2 1 81190 76550 130676 XOR\n2 1 6616 76399 81189 XOR\n2 1 81189 76549 130675 XOR\n2 1 6615 76398 81188 XOR\n2 1 81188 76548 130674 XOR\n2 1 6614 76397 81187 XOR\n2 1 81187 76547 130673 XOR\n2 1 6613 76396 81186 XOR\n2 1 81186 76546 130672 XOR\n2 1 6612 76395 81185 XOR\n2 1 81185 76545 130671 XOR\n2 1 6611 76394 81184 XOR\n2 1 81184 76544 130670 XOR\n2 1 6610 76393 81183 XOR\n2 1 81183 76543 130669 XOR\n2 1 6609 76392 81182 XOR\n2 1 81182 76542 130668 XOR\n2 1 6608 76391 81181 XOR\n2 1 81181 76541 130667 XOR\n2 1 6607 76390 81180 XOR\n2 1 81180 76540 130666 XOR\n2 1 6606 76389 81179 XOR\n2 1 81179 76539 130665 XOR\n2 1 6605 76388 81178 XOR\n2 1 81178 76538 130664 XOR\n2 1 6604 76387 81177 XOR\n2 1 81177 76537 130663 XOR\n2 1 6603 76386 81176 XOR\n2 1 81176 76536 130662 XOR\n2 1 6602 76385 81175 XOR\n2 1 81175 76535 130661 XOR\n2 1 6601 76384 81174 XOR\n2 1 81174 76534 130660 XOR\n2 1 6600 76383 81173 XOR\n2 1 81173 76533 130659 XOR\n2 1 6599 76382 81172 XOR\n2 1 81172 76532 130658 XOR\n2 1 6598 76381 81171 XOR\n2 1 81171 76531 130657 XOR\n2 1 6597 76380 81170 XOR\n2 1 81170 76530 130656 XOR\n2 1 6596 76379 81169 XOR\n2 1 81169 76529 130625 AND\n2 1 81169 76529 79633 XOR\n2 1 130656 130625 79634 XOR\n2 1 81170 130625 54066 XOR\n2 1 76530 130625 54067 XOR\n2 1 54066 54067 54065 AND\n2 1 54065 130625 130626 XOR\n2 1 130657 130626 79635 XOR\n2 1 81171 130626 54069 XOR\n2 1 76531 130626 54070 XOR\n2 1 54069 54070 54068 AND\n2 1 54068 130626 130627 XOR\n2 1 130658 130627 79636 XOR\n",
"2 1 81172 130627 54072 XOR\n2 1 76532 130627 54073 XOR\n2 1 54072 54073 54071 AND\n2 1 54071 130627 130628 XOR\n2 1 130659 130628 79637 XOR\n2 1 81173 130628 54075 XOR\n2 1 76533 130628 54076 XOR\n2 1 54075 54076 54074 AND\n2 1 54074 130628 130629 XOR\n2 1 130660 130629 79638 XOR\n2 1 81174 130629 54078 XOR\n2 1 76534 130629 54079 XOR\n2 1 54078 54079 54077 AND\n2 1 54077 130629 130630 XOR\n2 1 130661 130630 79639 XOR\n2 1 81175 130630 54081 XOR\n2 1 76535 130630 54082 XOR\n2 1 54081 54082 54080 AND\n2 1 54080 130630 130631 XOR\n2 1 130662 130631 79640 XOR\n2 1 81176 130631 54084 XOR\n2 1 76536 130631 54085 XOR\n2 1 54084 54085 54083 AND\n2 1 54083 130631 130632 XOR\n2 1 130663 130632 79641 XOR\n2 1 81177 130632 54087 XOR\n2 1 76537 130632 54088 XOR\n2 1 54087 54088 54086 AND\n2 1 54086 130632 130633 XOR\n2 1 130664 130633 79642 XOR\n2 1 81178 130633 54090 XOR\n2 1 76538 130633 54091 XOR\n2 1 54090 54091 54089 AND\n2 1 54089 130633 130634 XOR\n2 1 130665 130634 79643 XOR\n2 1 81179 130634 54093 XOR\n2 1 76539 130634 54094 XOR\n2 1 54093 54094 54092 AND\n2 1 54092 130634 130635 XOR\n2 1 130666 130635 79644 XOR\n2 1 81180 130635 54096 XOR\n2 1 76540 130635 54097 XOR\n2 1 54096 54097 54095 AND\n2 1 54095 130635 130636 XOR\n2 1 130667 130636 79645 XOR\n2 1 81181 130636 54099 XOR\n2 1 76541 130636 54100 XOR\n2 1 54099 54100 54098 AND\n2 1 54098 130636 130637 XOR\n2 1 130668 130637 79646 XOR\n2 1 81182 130637 54102 XOR\n2 1 76542 130637 54103 XOR\n2 1 54102 54103 54101 AND\n2 1 54101 130637 130638 XOR\n2 1 130669 130638 79647 XOR\n2 1 81183 130638 54105 XOR\n2 1 76543 130638 54106 XOR\n2 1 54105 54106 54104 AND\n2 1 54104 130638 130639 XOR\n2 1 130670 130639 79648 XOR\n2 1 81184 130639 54108 XOR\n2 1 76544 130639 54109 XOR\n2 1 54108 54109 54107 AND\n2 1 54107 130639 130640 XOR\n2 1 130671 130640 79649 XOR\n2 1 81185 130640 54111 XOR\n2 1 76545 130640 54112 XOR\n2 1 54111 54112 54110 AND\n2 1 54110 130640 130641 XOR\n2 1 130672 130641 79650 XOR\n2 1 81186 130641 54114 XOR\n2 1 76546 130641 54115 XOR\n2 1 54114 54115 54113 AND\n2 1 54113 130641 130642 XOR\n2 1 130673 130642 79651 XOR\n2 1 81187 130642 54117 XOR\n2 1 76547 130642 54118 XOR\n2 1 54117 54118 54116 AND\n2 1 54116 130642 130643 XOR\n2 1 130674 130643 79652 XOR\n2 1 81188 130643 54120 XOR\n2 1 76548 130643 54121 XOR\n2 1 54120 54121 54119 AND\n2 1 54119 130643 130644 XOR\n2 1 130675 130644 79653 XOR\n2 1 81189 130644 54123 XOR\n2 1 76549 130644 54124 XOR\n2 1 54123 54124 54122 AND\n2 1 54122 130644 130645 XOR\n2 1 130676 130645 79654 XOR\n2 1 81190 130645 54126 XOR\n2 1 76550 130645 54127 XOR\n2 1 54126 54127 54125 AND\n2 1 54125 130645 130646 XOR\n2 1 130677 130646 79655 XOR\n2 1 81191 130646 54129 XOR\n2 1 76551 130646 54130 XOR\n2 1 54129 54130 54128 AND\n2 1 54128 130646 130647 XOR\n2 1 130678 130647 79656 XOR\n2 1 81192 130647 54132 XOR\n2 1 76552 130647 54133 XOR\n2 1 54132 54133 54131 AND\n2 1 54131 130647 130648 XOR\n2 1 130679 130648 79657 XOR\n2 1 81193 130648 54135 XOR\n2 1 76553 130648 54136 XOR\n2 1 54135 54136 54134 AND\n2 1 54134 130648 130649 XOR\n2 1 130680 130649 79658 XOR\n2 1 81194 130649 54138 XOR\n2 1 76554 130649 54139 XOR\n2 1 54138 54139 54137 AND\n2 1 54137 130649 130650 XOR\n2 1 130681 130650 79659 XOR\n2 1 81195 130650 54141 XOR\n2 1 76555 130650 54142 XOR\n2 1 54141 54142 54140 AND\n2 1 54140 130650 130651 XOR\n2 1 130682 130651 79660 XOR\n2 1 81196 130651 54144 XOR\n2 1 76556 130651 54145 XOR\n2 1 54144 54145 54143 AND\n2 1 54143 130651 130652 XOR\n2 1 130683 130652 79661 XOR\n2 1 81197 130652 54147 XOR\n2 1 76557 130652 54148 XOR\n2 1 54147 54148 54146 AND\n",
"2 1 54146 130652 130653 XOR\n2 1 130684 130653 79662 XOR\n2 1 81198 130653 54150 XOR\n2 1 76558 130653 54151 XOR\n2 1 54150 54151 54149 AND\n2 1 54149 130653 130654 XOR\n2 1 130685 130654 79663 XOR\n2 1 81199 130654 54153 XOR\n2 1 76559 130654 54154 XOR\n2 1 54153 54154 54152 AND\n2 1 54152 130654 130655 XOR\n2 1 130686 130655 79664 XOR\n2 1 76823 76834 82768 XOR\n2 1 82768 76880 130810 XOR\n2 1 76822 76833 82767 XOR\n2 1 82767 76879 130809 XOR\n2 1 76821 76832 82766 XOR\n2 1 82766 76878 130808 XOR\n2 1 76820 76831 5444 XOR\n2 1 76819 76830 5443 XOR\n2 1 76818 76829 5442 XOR\n2 1 76817 76828 5441 XOR\n2 1 76848 76827 5440 XOR\n2 1 76847 76826 5439 XOR\n2 1 76846 76825 5438 XOR\n2 1 76845 76824 5437 XOR\n2 1 76844 76823 5436 XOR\n2 1 76843 76822 5435 XOR\n2 1 76842 76821 5434 XOR\n2 1 76841 76820 5433 XOR\n2 1 76840 76819 5432 XOR\n2 1 76839 76818 5431 XOR\n2 1 76838 76817 5430 XOR\n2 1 76837 76848 5429 XOR\n2 1 76836 76847 5428 XOR\n2 1 76835 76846 5427 XOR\n2 1 76834 76845 5426 XOR\n2 1 76833 76844 5425 XOR\n2 1 76832 76843 5424 XOR\n2 1 76831 76842 5423 XOR\n2 1 76830 76841 5422 XOR\n2 1 76829 76840 5421 XOR\n2 1 76828 76839 5420 XOR\n2 1 76827 76838 5419 XOR\n2 1 76826 76837 5418 XOR\n2 1 76825 76836 5417 XOR\n2 1 76824 76835 5416 XOR\n2 1 5444 76848 82765 XOR\n2 1 82765 76877 130807 XOR\n2 1 5443 76847 82764 XOR\n2 1 82764 76876 130806 XOR\n2 1 5442 76846 82763 XOR\n2 1 82763 76875 130805 XOR\n2 1 5441 76845 82762 XOR\n2 1 82762 76874 130804 XOR\n2 1 5440 76844 82761 XOR\n2 1 82761 76873 130803 XOR\n2 1 5439 76843 82760 XOR\n2 1 82760 76872 130802 XOR\n2 1 5438 76842 82759 XOR\n2 1 82759 76871 130801 XOR\n2 1 5437 76841 82758 XOR\n2 1 82758 76870 130800 XOR\n2 1 5436 76840 82757 XOR\n2 1 82757 76869 130799 XOR\n2 1 5435 76839 82756 XOR\n2 1 82756 76868 130798 XOR\n2 1 5434 76838 82755 XOR\n2 1 82755 76867 130797 XOR\n2 1 5433 76837 82754 XOR\n2 1 82754 76866 130796 XOR\n2 1 5432 76836 82753 XOR\n2 1 82753 76865 130795 XOR\n2 1 5431 76835 82752 XOR\n2 1 82752 76864 130794 XOR\n2 1 5430 76834 82751 XOR\n2 1 82751 76863 130793 XOR\n2 1 5429 76833 82750 XOR\n2 1 82750 76862 130792 XOR\n2 1 5428 76832 82749 XOR\n2 1 82749 76861 130791 XOR\n2 1 5427 76831 82748 XOR\n2 1 82748 76860 130790 XOR\n2 1 5426 76830 82747 XOR\n2 1 82747 76859 130789 XOR\n2 1 5425 76829 82746 XOR\n2 1 82746 76858 130788 XOR\n2 1 5424 76828 82745 XOR\n2 1 82745 76857 130787 XOR\n2 1 5423 76827 82744 XOR\n2 1 82744 76856 130786 XOR\n2 1 5422 76826 82743 XOR\n2 1 82743 76855 130785 XOR\n2 1 5421 76825 82742 XOR\n2 1 82742 76854 130784 XOR\n2 1 5420 76824 82741 XOR\n2 1 82741 76853 130783 XOR\n2 1 5419 76823 82740 XOR\n2 1 82740 76852 130782 XOR\n2 1 5418 76822 82739 XOR\n2 1 82739 76851 130781 XOR\n2 1 5417 76821 82738 XOR\n2 1 82738 76850 130780 XOR\n2 1 5416 76820 82737 XOR\n2 1 82737 76849 130749 AND\n2 1 82737 76849 78129 XOR\n2 1 79665 78129 130687 AND\n2 1 79665 78129 76337 XOR\n2 1 79666 130687 54156 XOR\n2 1 130780 130749 78130 XOR\n2 1 79666 78130 130718 XOR\n2 1 130718 130687 76338 XOR\n2 1 78130 130687 54157 XOR\n2 1 54156 54157 54155 AND\n2 1 54155 130687 130688 XOR\n2 1 79667 130688 54159 XOR\n2 1 82738 130749 54246 XOR\n2 1 76850 130749 54247 XOR\n2 1 54246 54247 54245 AND\n2 1 54245 130749 130750 XOR\n2 1 130781 130750 78131 XOR\n2 1 79667 78131 130719 XOR\n2 1 130719 130688 76339 XOR\n2 1 78131 130688 54160 XOR\n2 1 54159 54160 54158 AND\n2 1 54158 130688 130689 XOR\n2 1 79668 130689 54162 XOR\n2 1 82739 130750 54249 XOR\n",
"2 1 76851 130750 54250 XOR\n2 1 54249 54250 54248 AND\n2 1 54248 130750 130751 XOR\n2 1 130782 130751 78132 XOR\n2 1 79668 78132 130720 XOR\n2 1 130720 130689 76340 XOR\n2 1 78132 130689 54163 XOR\n2 1 54162 54163 54161 AND\n2 1 54161 130689 130690 XOR\n2 1 79669 130690 54165 XOR\n2 1 82740 130751 54252 XOR\n2 1 76852 130751 54253 XOR\n2 1 54252 54253 54251 AND\n2 1 54251 130751 130752 XOR\n2 1 130783 130752 78133 XOR\n2 1 79669 78133 130721 XOR\n2 1 130721 130690 76341 XOR\n2 1 78133 130690 54166 XOR\n2 1 54165 54166 54164 AND\n2 1 54164 130690 130691 XOR\n2 1 79670 130691 54168 XOR\n2 1 82741 130752 54255 XOR\n2 1 76853 130752 54256 XOR\n2 1 54255 54256 54254 AND\n2 1 54254 130752 130753 XOR\n2 1 130784 130753 78134 XOR\n2 1 79670 78134 130722 XOR\n2 1 130722 130691 76342 XOR\n2 1 78134 130691 54169 XOR\n2 1 54168 54169 54167 AND\n2 1 54167 130691 130692 XOR\n2 1 79671 130692 54171 XOR\n2 1 82742 130753 54258 XOR\n2 1 76854 130753 54259 XOR\n2 1 54258 54259 54257 AND\n2 1 54257 130753 130754 XOR\n2 1 130785 130754 78135 XOR\n2 1 79671 78135 130723 XOR\n2 1 130723 130692 76343 XOR\n2 1 78135 130692 54172 XOR\n2 1 54171 54172 54170 AND\n2 1 54170 130692 130693 XOR\n2 1 79672 130693 54174 XOR\n2 1 82743 130754 54261 XOR\n2 1 76855 130754 54262 XOR\n2 1 54261 54262 54260 AND\n2 1 54260 130754 130755 XOR\n2 1 130786 130755 78136 XOR\n2 1 79672 78136 130724 XOR\n2 1 130724 130693 76344 XOR\n2 1 78136 130693 54175 XOR\n2 1 54174 54175 54173 AND\n2 1 54173 130693 130694 XOR\n2 1 79673 130694 54177 XOR\n2 1 82744 130755 54264 XOR\n2 1 76856 130755 54265 XOR\n2 1 54264 54265 54263 AND\n2 1 54263 130755 130756 XOR\n2 1 130787 130756 78137 XOR\n2 1 79673 78137 130725 XOR\n2 1 130725 130694 76345 XOR\n2 1 78137 130694 54178 XOR\n2 1 54177 54178 54176 AND\n2 1 54176 130694 130695 XOR\n2 1 79674 130695 54180 XOR\n2 1 82745 130756 54267 XOR\n2 1 76857 130756 54268 XOR\n2 1 54267 54268 54266 AND\n2 1 54266 130756 130757 XOR\n2 1 130788 130757 78138 XOR\n2 1 79674 78138 130726 XOR\n2 1 130726 130695 76346 XOR\n2 1 78138 130695 54181 XOR\n2 1 54180 54181 54179 AND\n2 1 54179 130695 130696 XOR\n2 1 79675 130696 54183 XOR\n2 1 82746 130757 54270 XOR\n2 1 76858 130757 54271 XOR\n2 1 54270 54271 54269 AND\n2 1 54269 130757 130758 XOR\n2 1 130789 130758 78139 XOR\n2 1 79675 78139 130727 XOR\n2 1 130727 130696 76347 XOR\n2 1 78139 130696 54184 XOR\n2 1 54183 54184 54182 AND\n2 1 54182 130696 130697 XOR\n2 1 79676 130697 54186 XOR\n2 1 82747 130758 54273 XOR\n2 1 76859 130758 54274 XOR\n2 1 54273 54274 54272 AND\n2 1 54272 130758 130759 XOR\n2 1 130790 130759 78140 XOR\n2 1 79676 78140 130728 XOR\n2 1 130728 130697 76348 XOR\n2 1 78140 130697 54187 XOR\n2 1 54186 54187 54185 AND\n2 1 54185 130697 130698 XOR\n2 1 79677 130698 54189 XOR\n2 1 82748 130759 54276 XOR\n2 1 76860 130759 54277 XOR\n2 1 54276 54277 54275 AND\n2 1 54275 130759 130760 XOR\n2 1 130791 130760 78141 XOR\n2 1 79677 78141 130729 XOR\n2 1 130729 130698 76349 XOR\n2 1 78141 130698 54190 XOR\n2 1 54189 54190 54188 AND\n2 1 54188 130698 130699 XOR\n2 1 79678 130699 54192 XOR\n2 1 82749 130760 54279 XOR\n2 1 76861 130760 54280 XOR\n2 1 54279 54280 54278 AND\n2 1 54278 130760 130761 XOR\n2 1 130792 130761 78142 XOR\n2 1 79678 78142 130730 XOR\n2 1 130730 130699 76350 XOR\n2 1 78142 130699 54193 XOR\n2 1 54192 54193 54191 AND\n2 1 54191 130699 130700 XOR\n2 1 79679 130700 54195 XOR\n2 1 82750 130761 54282 XOR\n2 1 76862 130761 54283 XOR\n2 1 54282 54283 54281 AND\n2 1 54281 130761 130762 XOR\n2 1 130793 130762 78143 XOR\n2 1 79679 78143 130731 XOR\n2 1 130731 130700 76351 XOR\n2 1 78143 130700 54196 XOR\n",
"2 1 54195 54196 54194 AND\n2 1 54194 130700 130701 XOR\n2 1 79680 130701 54198 XOR\n2 1 82751 130762 54285 XOR\n2 1 76863 130762 54286 XOR\n2 1 54285 54286 54284 AND\n2 1 54284 130762 130763 XOR\n2 1 130794 130763 78144 XOR\n2 1 79680 78144 130732 XOR\n2 1 130732 130701 76352 XOR\n2 1 78144 130701 54199 XOR\n2 1 54198 54199 54197 AND\n2 1 54197 130701 130702 XOR\n2 1 79681 130702 54201 XOR\n2 1 82752 130763 54288 XOR\n2 1 76864 130763 54289 XOR\n2 1 54288 54289 54287 AND\n2 1 54287 130763 130764 XOR\n2 1 130795 130764 78145 XOR\n2 1 79681 78145 130733 XOR\n2 1 130733 130702 76353 XOR\n2 1 78145 130702 54202 XOR\n2 1 54201 54202 54200 AND\n2 1 54200 130702 130703 XOR\n2 1 79682 130703 54204 XOR\n2 1 82753 130764 54291 XOR\n2 1 76865 130764 54292 XOR\n2 1 54291 54292 54290 AND\n2 1 54290 130764 130765 XOR\n2 1 130796 130765 78146 XOR\n2 1 79682 78146 130734 XOR\n2 1 130734 130703 76354 XOR\n2 1 78146 130703 54205 XOR\n2 1 54204 54205 54203 AND\n2 1 54203 130703 130704 XOR\n2 1 79683 130704 54207 XOR\n2 1 82754 130765 54294 XOR\n2 1 76866 130765 54295 XOR\n2 1 54294 54295 54293 AND\n2 1 54293 130765 130766 XOR\n2 1 130797 130766 78147 XOR\n2 1 79683 78147 130735 XOR\n2 1 130735 130704 76355 XOR\n2 1 78147 130704 54208 XOR\n2 1 54207 54208 54206 AND\n2 1 54206 130704 130705 XOR\n2 1 79684 130705 54210 XOR\n2 1 82755 130766 54297 XOR\n2 1 76867 130766 54298 XOR\n2 1 54297 54298 54296 AND\n2 1 54296 130766 130767 XOR\n2 1 130798 130767 78148 XOR\n2 1 79684 78148 130736 XOR\n2 1 130736 130705 76356 XOR\n2 1 78148 130705 54211 XOR\n2 1 54210 54211 54209 AND\n2 1 54209 130705 130706 XOR\n2 1 79685 130706 54213 XOR\n2 1 82756 130767 54300 XOR\n2 1 76868 130767 54301 XOR\n2 1 54300 54301 54299 AND\n2 1 54299 130767 130768 XOR\n2 1 130799 130768 78149 XOR\n2 1 79685 78149 130737 XOR\n2 1 130737 130706 76357 XOR\n2 1 78149 130706 54214 XOR\n2 1 54213 54214 54212 AND\n2 1 54212 130706 130707 XOR\n2 1 79686 130707 54216 XOR\n2 1 82757 130768 54303 XOR\n2 1 76869 130768 54304 XOR\n2 1 54303 54304 54302 AND\n2 1 54302 130768 130769 XOR\n2 1 130800 130769 78150 XOR\n2 1 79686 78150 130738 XOR\n2 1 130738 130707 76358 XOR\n2 1 78150 130707 54217 XOR\n2 1 54216 54217 54215 AND\n2 1 54215 130707 130708 XOR\n2 1 79687 130708 54219 XOR\n2 1 82758 130769 54306 XOR\n2 1 76870 130769 54307 XOR\n2 1 54306 54307 54305 AND\n2 1 54305 130769 130770 XOR\n2 1 130801 130770 78151 XOR\n2 1 79687 78151 130739 XOR\n2 1 130739 130708 76359 XOR\n2 1 78151 130708 54220 XOR\n2 1 54219 54220 54218 AND\n2 1 54218 130708 130709 XOR\n2 1 79688 130709 54222 XOR\n2 1 82759 130770 54309 XOR\n2 1 76871 130770 54310 XOR\n2 1 54309 54310 54308 AND\n2 1 54308 130770 130771 XOR\n2 1 130802 130771 78152 XOR\n2 1 79688 78152 130740 XOR\n2 1 130740 130709 76360 XOR\n2 1 78152 130709 54223 XOR\n2 1 54222 54223 54221 AND\n2 1 54221 130709 130710 XOR\n2 1 79689 130710 54225 XOR\n2 1 82760 130771 54312 XOR\n2 1 76872 130771 54313 XOR\n2 1 54312 54313 54311 AND\n2 1 54311 130771 130772 XOR\n2 1 130803 130772 78153 XOR\n2 1 79689 78153 130741 XOR\n2 1 130741 130710 76361 XOR\n2 1 78153 130710 54226 XOR\n2 1 54225 54226 54224 AND\n2 1 54224 130710 130711 XOR\n2 1 79690 130711 54228 XOR\n2 1 82761 130772 54315 XOR\n2 1 76873 130772 54316 XOR\n2 1 54315 54316 54314 AND\n2 1 54314 130772 130773 XOR\n2 1 130804 130773 78154 XOR\n2 1 79690 78154 130742 XOR\n2 1 130742 130711 76362 XOR\n2 1 78154 130711 54229 XOR\n2 1 54228 54229 54227 AND\n2 1 54227 130711 130712 XOR\n2 1 79691 130712 54231 XOR\n2 1 82762 130773 54318 XOR\n2 1 76874 130773 54319 XOR\n2 1 54318 54319 54317 AND\n2 1 54317 130773 130774 XOR\n",
"2 1 130805 130774 78155 XOR\n2 1 79691 78155 130743 XOR\n2 1 130743 130712 76363 XOR\n2 1 78155 130712 54232 XOR\n2 1 54231 54232 54230 AND\n2 1 54230 130712 130713 XOR\n2 1 79692 130713 54234 XOR\n2 1 82763 130774 54321 XOR\n2 1 76875 130774 54322 XOR\n2 1 54321 54322 54320 AND\n2 1 54320 130774 130775 XOR\n2 1 130806 130775 78156 XOR\n2 1 79692 78156 130744 XOR\n2 1 130744 130713 76364 XOR\n2 1 78156 130713 54235 XOR\n2 1 54234 54235 54233 AND\n2 1 54233 130713 130714 XOR\n2 1 79693 130714 54237 XOR\n2 1 82764 130775 54324 XOR\n2 1 76876 130775 54325 XOR\n2 1 54324 54325 54323 AND\n2 1 54323 130775 130776 XOR\n2 1 130807 130776 78157 XOR\n2 1 79693 78157 130745 XOR\n2 1 130745 130714 76365 XOR\n2 1 78157 130714 54238 XOR\n2 1 54237 54238 54236 AND\n2 1 54236 130714 130715 XOR\n2 1 79694 130715 54240 XOR\n2 1 82765 130776 54327 XOR\n2 1 76877 130776 54328 XOR\n2 1 54327 54328 54326 AND\n2 1 54326 130776 130777 XOR\n2 1 130808 130777 78158 XOR\n2 1 79694 78158 130746 XOR\n2 1 130746 130715 76366 XOR\n2 1 78158 130715 54241 XOR\n2 1 54240 54241 54239 AND\n2 1 54239 130715 130716 XOR\n2 1 79695 130716 54243 XOR\n2 1 82766 130777 54330 XOR\n2 1 76878 130777 54331 XOR\n2 1 54330 54331 54329 AND\n2 1 54329 130777 130778 XOR\n2 1 130809 130778 78159 XOR\n2 1 79695 78159 130747 XOR\n2 1 130747 130716 76367 XOR\n2 1 78159 130716 54244 XOR\n2 1 54243 54244 54242 AND\n2 1 54242 130716 130717 XOR\n2 1 82767 130778 54333 XOR\n2 1 76879 130778 54334 XOR\n2 1 54333 54334 54332 AND\n2 1 54332 130778 130779 XOR\n2 1 130810 130779 78160 XOR\n2 1 79696 78160 130748 XOR\n2 1 130748 130717 76368 XOR\n2 1 76340 2467 116235 XOR\n2 1 76348 2475 116243 XOR\n2 1 76337 2464 116202 AND\n2 1 76352 2479 116247 XOR\n2 1 76344 2471 116239 XOR\n2 1 76360 2487 116255 XOR\n2 1 76356 2483 116251 XOR\n2 1 76364 2491 116259 XOR\n2 1 2465 116202 29808 XOR\n2 1 76337 2464 94454 XOR\n2 1 96502 94454 116140 AND\n2 1 96503 116140 29717 XOR\n2 1 76339 2466 116234 XOR\n2 1 76341 2468 116236 XOR\n2 1 76343 2470 116238 XOR\n2 1 76345 2472 116240 XOR\n2 1 76347 2474 116242 XOR\n2 1 76349 2476 116244 XOR\n2 1 76351 2478 116246 XOR\n2 1 76353 2480 116248 XOR\n2 1 76355 2482 116250 XOR\n2 1 76357 2484 116252 XOR\n2 1 76359 2486 116254 XOR\n2 1 76361 2488 116256 XOR\n2 1 76363 2490 116258 XOR\n2 1 76365 2492 116260 XOR\n2 1 76367 2494 116262 XOR\n2 1 76338 116202 29807 XOR\n2 1 29807 29808 29806 AND\n2 1 29806 116202 116203 XOR\n2 1 116234 116203 94456 XOR\n2 1 96504 94456 116172 XOR\n2 1 76339 116203 29810 XOR\n2 1 2466 116203 29811 XOR\n2 1 29810 29811 29809 AND\n2 1 29809 116203 116204 XOR\n2 1 2467 116204 29814 XOR\n2 1 76340 116204 29813 XOR\n2 1 29813 29814 29812 AND\n2 1 29812 116204 116205 XOR\n2 1 2468 116205 29817 XOR\n2 1 116236 116205 94458 XOR\n2 1 96506 94458 116174 XOR\n2 1 116235 116204 94457 XOR\n2 1 96505 94457 116173 XOR\n2 1 76341 116205 29816 XOR\n2 1 29816 29817 29815 AND\n2 1 29815 116205 116206 XOR\n2 1 2469 116206 29820 XOR\n2 1 76342 116206 29819 XOR\n2 1 96502 94454 92437 XOR\n1 1 92437 90417 INV\n2 1 90417 84273 105320 AND\n2 1 90417 84273 1824 XOR\n2 1 1952 90417 2336 XOR\n2 1 1824 1888 70927 XOR\n2 1 70927 70895 70863 AND\n2 1 70863 1888 86289 XOR\n2 1 1824 1856 70799 XOR\n2 1 1952 90417 105258 AND\n2 1 1953 105258 11917 XOR\n2 1 64271 2336 64239 AND\n2 1 64239 2400 98518 XOR\n2 1 2336 2368 64207 XOR\n2 1 84274 105320 12008 XOR\n2 1 76366 2493 116261 XOR\n2 1 76368 2495 116263 XOR\n2 1 76354 2481 116249 XOR\n2 1 76362 2489 116257 XOR\n2 1 76346 2473 116241 XOR\n2 1 76358 2485 116253 XOR\n",
"2 1 76350 2477 116245 XOR\n2 1 76342 2469 116237 XOR\n2 1 116237 116206 94459 XOR\n2 1 96507 94459 116175 XOR\n2 1 76338 2465 116233 XOR\n2 1 116233 116202 94455 XOR\n2 1 96503 94455 116171 XOR\n2 1 116171 116140 92438 XOR\n2 1 92438 92437 90418 XOR\n2 1 90418 92437 29626 AND\n2 1 90418 105320 12007 XOR\n2 1 12007 12008 12006 AND\n2 1 12006 105320 105321 XOR\n2 1 90418 84274 105351 XOR\n2 1 105351 105320 1825 XOR\n2 1 90418 105258 11918 XOR\n2 1 11917 11918 11916 AND\n2 1 1953 90418 105289 XOR\n2 1 11916 105258 105259 XOR\n2 1 1825 1889 70928 XOR\n2 1 70928 70896 70864 AND\n2 1 70864 1889 86290 XOR\n2 1 1825 1857 70800 XOR\n2 1 94455 116140 29718 XOR\n2 1 29717 29718 29716 AND\n2 1 29716 116140 116141 XOR\n2 1 116172 116141 92439 XOR\n2 1 96504 116141 29720 XOR\n2 1 94456 116141 29721 XOR\n2 1 29720 29721 29719 AND\n2 1 29719 116141 116142 XOR\n2 1 116173 116142 92440 XOR\n2 1 96505 116142 29723 XOR\n2 1 94457 116142 29724 XOR\n2 1 29723 29724 29722 AND\n2 1 29722 116142 116143 XOR\n2 1 116174 116143 92441 XOR\n2 1 96506 116143 29726 XOR\n2 1 94458 116143 29727 XOR\n2 1 29726 29727 29725 AND\n2 1 29725 116143 116144 XOR\n2 1 116175 116144 92442 XOR\n1 1 92442 29700 INV\n2 1 96507 116144 29729 XOR\n2 1 94459 116144 29730 XOR\n2 1 29729 29730 29728 AND\n2 1 29728 116144 116145 XOR\n2 1 96508 116145 29732 XOR\n2 1 105289 105258 2337 XOR\n2 1 64272 2337 64240 AND\n2 1 64240 2401 98519 XOR\n2 1 2337 2369 64208 XOR\n2 1 1954 105259 11920 XOR\n2 1 29626 92437 29628 XOR\n2 1 92439 29628 90419 XOR\n2 1 90419 29628 29627 AND\n2 1 29627 29628 29630 XOR\n2 1 92440 29630 90420 XOR\n2 1 90420 29630 29629 AND\n2 1 1955 90420 105291 XOR\n2 1 1954 90419 105290 XOR\n2 1 29629 29630 29632 XOR\n2 1 92441 29632 90421 XOR\n2 1 1956 90421 105292 XOR\n2 1 90421 29632 29631 AND\n2 1 29631 29632 116124 XOR\n1 1 116124 29635 INV\n2 1 29700 116124 90422 XOR\n2 1 90422 84278 105355 XOR\n2 1 1957 90422 105293 XOR\n2 1 90421 84277 105354 XOR\n2 1 105290 105259 2338 XOR\n2 1 64273 2338 64241 AND\n2 1 64241 2402 98520 XOR\n2 1 2338 2370 64209 XOR\n2 1 92442 116124 29634 XOR\n2 1 29634 29635 29633 AND\n2 1 29633 116124 29637 XOR\n2 1 90419 105259 11921 XOR\n2 1 11920 11921 11919 AND\n2 1 11919 105259 105260 XOR\n2 1 1955 105260 11923 XOR\n2 1 90420 105260 11924 XOR\n2 1 11923 11924 11922 AND\n2 1 105291 105260 2339 XOR\n2 1 64274 2339 64242 AND\n2 1 64242 2403 98521 XOR\n2 1 2339 2371 64210 XOR\n2 1 11922 105260 105261 XOR\n2 1 105292 105261 2340 XOR\n2 1 90421 105261 11927 XOR\n2 1 64275 2340 64243 AND\n2 1 64243 2404 98522 XOR\n2 1 2340 2372 64211 XOR\n2 1 1956 105261 11926 XOR\n2 1 11926 11927 11925 AND\n2 1 11925 105261 105262 XOR\n2 1 105293 105262 2341 XOR\n2 1 90422 105262 11930 XOR\n2 1 64276 2341 64244 AND\n2 1 64244 2405 98523 XOR\n2 1 2341 2373 64212 XOR\n2 1 1957 105262 11929 XOR\n2 1 11929 11930 11928 AND\n2 1 90420 84276 105353 XOR\n2 1 90419 84275 105352 XOR\n2 1 105352 105321 1826 XOR\n2 1 1826 1890 70929 XOR\n2 1 70929 70897 70865 AND\n2 1 70865 1890 86291 XOR\n2 1 1826 1858 70801 XOR\n2 1 90419 105321 12010 XOR\n2 1 2336 2341 61545 XOR\n2 1 11928 105262 105263 XOR\n2 1 1958 105263 11932 XOR\n2 1 84275 105321 12011 XOR\n2 1 12010 12011 12009 AND\n2 1 12009 105321 105322 XOR\n2 1 105353 105322 1827 XOR\n2 1 84276 105322 12014 XOR\n2 1 90420 105322 12013 XOR\n2 1 12013 12014 12012 AND\n2 1 1827 1891 70930 XOR\n2 1 70930 70898 70866 AND\n2 1 70866 1891 86292 XOR\n2 1 1827 1859 70802 XOR\n2 1 12012 105322 105323 XOR\n2 1 90421 105323 12016 XOR\n",
"2 1 105354 105323 1828 XOR\n2 1 1828 1892 70931 XOR\n2 1 70931 70899 70867 AND\n2 1 70867 1892 86293 XOR\n2 1 1828 1860 70803 XOR\n2 1 84277 105323 12017 XOR\n2 1 12016 12017 12015 AND\n2 1 12015 105323 105324 XOR\n2 1 105355 105324 1829 XOR\n2 1 84278 105324 12020 XOR\n2 1 1829 1893 70932 XOR\n2 1 70932 70900 70868 AND\n2 1 70868 1893 86294 XOR\n2 1 1829 1861 70804 XOR\n2 1 90422 105324 12019 XOR\n2 1 12019 12020 12018 AND\n2 1 12018 105324 105325 XOR\n2 1 84279 105325 12023 XOR\n2 1 76353 76355 81168 XOR\n2 1 81168 76528 130500 XOR\n2 1 76352 76354 81167 XOR\n2 1 81167 76527 130499 XOR\n2 1 76351 76353 81166 XOR\n2 1 81166 76526 130498 XOR\n2 1 76350 76352 81165 XOR\n2 1 81165 76525 130497 XOR\n2 1 76349 76351 81164 XOR\n2 1 81164 76524 130496 XOR\n2 1 76348 76350 81163 XOR\n2 1 81163 76523 130495 XOR\n2 1 76347 76349 81162 XOR\n2 1 81162 76522 130494 XOR\n2 1 76346 76348 81161 XOR\n2 1 81161 76521 130493 XOR\n2 1 76345 76347 81160 XOR\n2 1 81160 76520 130492 XOR\n2 1 76344 76346 81159 XOR\n2 1 81159 76519 130491 XOR\n2 1 76343 76345 6595 XOR\n2 1 76342 76344 6594 XOR\n2 1 76341 76343 6593 XOR\n2 1 76340 76342 6592 XOR\n2 1 76339 76341 6591 XOR\n2 1 76338 76340 6590 XOR\n2 1 76337 76339 6589 XOR\n2 1 76368 76338 6588 XOR\n2 1 76367 76337 6587 XOR\n2 1 76366 76368 6586 XOR\n2 1 76365 76367 6585 XOR\n2 1 76364 76366 6584 XOR\n2 1 76363 76365 6583 XOR\n2 1 76362 76364 6582 XOR\n2 1 76361 76363 6581 XOR\n2 1 76360 76362 6580 XOR\n2 1 76359 76361 6579 XOR\n2 1 76358 76360 6578 XOR\n2 1 76357 76359 6577 XOR\n2 1 76356 76358 6576 XOR\n2 1 76355 76357 6575 XOR\n2 1 76354 76356 6574 XOR\n2 1 6595 76368 81158 XOR\n2 1 81158 76518 130490 XOR\n2 1 6594 76367 81157 XOR\n2 1 81157 76517 130489 XOR\n2 1 6593 76366 81156 XOR\n2 1 81156 76516 130488 XOR\n2 1 6592 76365 81155 XOR\n2 1 81155 76515 130487 XOR\n2 1 6591 76364 81154 XOR\n2 1 81154 76514 130486 XOR\n2 1 6590 76363 81153 XOR\n2 1 81153 76513 130485 XOR\n2 1 6589 76362 81152 XOR\n2 1 81152 76512 130484 XOR\n2 1 6588 76361 81151 XOR\n2 1 81151 76511 130483 XOR\n2 1 6587 76360 81150 XOR\n2 1 81150 76510 130482 XOR\n2 1 6586 76359 81149 XOR\n2 1 81149 76509 130481 XOR\n2 1 6585 76358 81148 XOR\n2 1 81148 76508 130480 XOR\n2 1 6584 76357 81147 XOR\n2 1 81147 76507 130479 XOR\n2 1 6583 76356 81146 XOR\n2 1 81146 76506 130478 XOR\n2 1 6582 76355 81145 XOR\n2 1 81145 76505 130477 XOR\n2 1 6581 76354 81144 XOR\n2 1 81144 76504 130476 XOR\n2 1 6580 76353 81143 XOR\n2 1 81143 76503 130475 XOR\n2 1 6579 76352 81142 XOR\n2 1 81142 76502 130474 XOR\n2 1 6578 76351 81141 XOR\n2 1 81141 76501 130473 XOR\n2 1 6577 76350 81140 XOR\n2 1 81140 76500 130472 XOR\n2 1 6576 76349 81139 XOR\n2 1 81139 76499 130471 XOR\n2 1 6575 76348 81138 XOR\n2 1 81138 76498 130470 XOR\n2 1 6574 76347 81137 XOR\n2 1 81137 76497 130439 AND\n2 1 81137 76497 79601 XOR\n2 1 130470 130439 79602 XOR\n2 1 81138 130439 53796 XOR\n2 1 76498 130439 53797 XOR\n2 1 53796 53797 53795 AND\n2 1 53795 130439 130440 XOR\n2 1 130471 130440 79603 XOR\n2 1 81139 130440 53799 XOR\n2 1 76499 130440 53800 XOR\n2 1 53799 53800 53798 AND\n2 1 53798 130440 130441 XOR\n2 1 130472 130441 79604 XOR\n2 1 81140 130441 53802 XOR\n2 1 76500 130441 53803 XOR\n2 1 53802 53803 53801 AND\n2 1 53801 130441 130442 XOR\n2 1 130473 130442 79605 XOR\n2 1 81141 130442 53805 XOR\n2 1 76501 130442 53806 XOR\n2 1 53805 53806 53804 AND\n2 1 53804 130442 130443 XOR\n2 1 130474 130443 79606 XOR\n2 1 81142 130443 53808 XOR\n2 1 76502 130443 53809 XOR\n",
"2 1 53808 53809 53807 AND\n2 1 53807 130443 130444 XOR\n2 1 130475 130444 79607 XOR\n2 1 81143 130444 53811 XOR\n2 1 76503 130444 53812 XOR\n2 1 53811 53812 53810 AND\n2 1 53810 130444 130445 XOR\n2 1 130476 130445 79608 XOR\n2 1 81144 130445 53814 XOR\n2 1 76504 130445 53815 XOR\n2 1 53814 53815 53813 AND\n2 1 53813 130445 130446 XOR\n2 1 130477 130446 79609 XOR\n2 1 81145 130446 53817 XOR\n2 1 76505 130446 53818 XOR\n2 1 53817 53818 53816 AND\n2 1 53816 130446 130447 XOR\n2 1 130478 130447 79610 XOR\n2 1 81146 130447 53820 XOR\n2 1 76506 130447 53821 XOR\n2 1 53820 53821 53819 AND\n2 1 53819 130447 130448 XOR\n2 1 130479 130448 79611 XOR\n2 1 81147 130448 53823 XOR\n2 1 76507 130448 53824 XOR\n2 1 53823 53824 53822 AND\n2 1 53822 130448 130449 XOR\n2 1 130480 130449 79612 XOR\n2 1 81148 130449 53826 XOR\n2 1 76508 130449 53827 XOR\n2 1 53826 53827 53825 AND\n2 1 53825 130449 130450 XOR\n2 1 130481 130450 79613 XOR\n2 1 81149 130450 53829 XOR\n2 1 76509 130450 53830 XOR\n2 1 53829 53830 53828 AND\n2 1 53828 130450 130451 XOR\n2 1 130482 130451 79614 XOR\n2 1 81150 130451 53832 XOR\n2 1 76510 130451 53833 XOR\n2 1 53832 53833 53831 AND\n2 1 53831 130451 130452 XOR\n2 1 130483 130452 79615 XOR\n2 1 81151 130452 53835 XOR\n2 1 76511 130452 53836 XOR\n2 1 53835 53836 53834 AND\n2 1 53834 130452 130453 XOR\n2 1 130484 130453 79616 XOR\n2 1 81152 130453 53838 XOR\n2 1 76512 130453 53839 XOR\n2 1 53838 53839 53837 AND\n2 1 53837 130453 130454 XOR\n2 1 130485 130454 79617 XOR\n2 1 81153 130454 53841 XOR\n2 1 76513 130454 53842 XOR\n2 1 53841 53842 53840 AND\n2 1 53840 130454 130455 XOR\n2 1 130486 130455 79618 XOR\n2 1 81154 130455 53844 XOR\n2 1 76514 130455 53845 XOR\n2 1 53844 53845 53843 AND\n2 1 53843 130455 130456 XOR\n2 1 130487 130456 79619 XOR\n2 1 81155 130456 53847 XOR\n2 1 76515 130456 53848 XOR\n2 1 53847 53848 53846 AND\n2 1 53846 130456 130457 XOR\n2 1 130488 130457 79620 XOR\n2 1 81156 130457 53850 XOR\n2 1 76516 130457 53851 XOR\n2 1 53850 53851 53849 AND\n2 1 53849 130457 130458 XOR\n2 1 130489 130458 79621 XOR\n2 1 81157 130458 53853 XOR\n2 1 76517 130458 53854 XOR\n2 1 53853 53854 53852 AND\n2 1 53852 130458 130459 XOR\n2 1 130490 130459 79622 XOR\n2 1 81158 130459 53856 XOR\n2 1 76518 130459 53857 XOR\n2 1 53856 53857 53855 AND\n2 1 53855 130459 130460 XOR\n2 1 130491 130460 79623 XOR\n2 1 81159 130460 53859 XOR\n2 1 76519 130460 53860 XOR\n2 1 53859 53860 53858 AND\n2 1 53858 130460 130461 XOR\n2 1 130492 130461 79624 XOR\n2 1 81160 130461 53862 XOR\n2 1 76520 130461 53863 XOR\n2 1 53862 53863 53861 AND\n2 1 53861 130461 130462 XOR\n2 1 130493 130462 79625 XOR\n2 1 81161 130462 53865 XOR\n2 1 76521 130462 53866 XOR\n2 1 53865 53866 53864 AND\n2 1 53864 130462 130463 XOR\n2 1 130494 130463 79626 XOR\n2 1 81162 130463 53868 XOR\n2 1 76522 130463 53869 XOR\n2 1 53868 53869 53867 AND\n2 1 53867 130463 130464 XOR\n2 1 130495 130464 79627 XOR\n2 1 81163 130464 53871 XOR\n2 1 76523 130464 53872 XOR\n2 1 53871 53872 53870 AND\n2 1 53870 130464 130465 XOR\n2 1 130496 130465 79628 XOR\n2 1 81164 130465 53874 XOR\n2 1 76524 130465 53875 XOR\n2 1 53874 53875 53873 AND\n2 1 53873 130465 130466 XOR\n2 1 130497 130466 79629 XOR\n2 1 81165 130466 53877 XOR\n2 1 76525 130466 53878 XOR\n2 1 53877 53878 53876 AND\n2 1 53876 130466 130467 XOR\n2 1 130498 130467 79630 XOR\n2 1 81166 130467 53880 XOR\n2 1 76526 130467 53881 XOR\n2 1 53880 53881 53879 AND\n2 1 53879 130467 130468 XOR\n2 1 130499 130468 79631 XOR\n2 1 81167 130468 53883 XOR\n2 1 76527 130468 53884 XOR\n2 1 53883 53884 53882 AND\n2 1 53882 130468 130469 XOR\n2 1 130500 130469 79632 XOR\n",
"2 1 29819 29820 29818 AND\n2 1 29818 116206 116207 XOR\n2 1 76343 116207 29822 XOR\n2 1 2470 116207 29823 XOR\n2 1 116238 116207 94460 XOR\n2 1 96508 94460 116176 XOR\n2 1 116176 116145 92443 XOR\n2 1 92443 29637 90423 XOR\n2 1 90423 105263 11933 XOR\n2 1 1958 90423 105294 XOR\n2 1 105294 105263 2342 XOR\n2 1 90423 29637 29636 AND\n2 1 11932 11933 11931 AND\n2 1 11931 105263 105264 XOR\n2 1 1959 105264 11935 XOR\n2 1 94460 116145 29733 XOR\n2 1 29732 29733 29731 AND\n2 1 29731 116145 116146 XOR\n2 1 96509 116146 29735 XOR\n2 1 64277 2342 64245 AND\n2 1 64245 2406 98524 XOR\n2 1 2342 2374 64213 XOR\n2 1 29636 29637 116125 XOR\n1 1 116125 29640 INV\n2 1 90423 105325 12022 XOR\n2 1 12022 12023 12021 AND\n2 1 12021 105325 105326 XOR\n2 1 84280 105326 12026 XOR\n2 1 29822 29823 29821 AND\n2 1 29821 116207 116208 XOR\n2 1 76344 116208 29825 XOR\n2 1 116239 116208 94461 XOR\n2 1 96509 94461 116177 XOR\n2 1 116177 116146 92444 XOR\n1 1 92444 29701 INV\n2 1 29701 116125 90424 XOR\n2 1 90424 84280 105357 XOR\n2 1 90424 105264 11936 XOR\n2 1 105357 105326 1831 XOR\n2 1 1831 1895 70934 XOR\n2 1 70934 70902 70870 AND\n2 1 70870 1895 86296 XOR\n2 1 1831 1863 70806 XOR\n2 1 11935 11936 11934 AND\n2 1 11934 105264 105265 XOR\n2 1 1960 105265 11938 XOR\n2 1 1959 90424 105295 XOR\n2 1 105295 105264 2343 XOR\n2 1 64278 2343 64246 AND\n2 1 64246 2407 98525 XOR\n2 1 2343 2375 64214 XOR\n2 1 94461 116146 29736 XOR\n2 1 29735 29736 29734 AND\n2 1 29734 116146 116147 XOR\n2 1 90424 105326 12025 XOR\n2 1 12025 12026 12024 AND\n2 1 12024 105326 105327 XOR\n2 1 2471 116208 29826 XOR\n2 1 29825 29826 29824 AND\n2 1 29824 116208 116209 XOR\n2 1 2472 116209 29829 XOR\n2 1 76345 116209 29828 XOR\n2 1 29828 29829 29827 AND\n2 1 29827 116209 116210 XOR\n2 1 116241 116210 94463 XOR\n2 1 96511 94463 116179 XOR\n2 1 76346 116210 29831 XOR\n2 1 116240 116209 94462 XOR\n2 1 96510 94462 116178 XOR\n2 1 94462 116147 29739 XOR\n2 1 2473 116210 29832 XOR\n2 1 116178 116147 92445 XOR\n2 1 29831 29832 29830 AND\n2 1 29830 116210 116211 XOR\n2 1 76347 116211 29834 XOR\n2 1 116242 116211 94464 XOR\n2 1 2474 116211 29835 XOR\n2 1 29834 29835 29833 AND\n2 1 29833 116211 116212 XOR\n2 1 76348 116212 29837 XOR\n2 1 2475 116212 29838 XOR\n2 1 116243 116212 94465 XOR\n2 1 29837 29838 29836 AND\n2 1 29836 116212 116213 XOR\n2 1 116244 116213 94466 XOR\n2 1 96512 94464 116180 XOR\n2 1 96514 94466 116182 XOR\n2 1 2476 116213 29841 XOR\n2 1 76349 116213 29840 XOR\n2 1 29840 29841 29839 AND\n2 1 29839 116213 116214 XOR\n2 1 2477 116214 29844 XOR\n2 1 76350 116214 29843 XOR\n2 1 29843 29844 29842 AND\n2 1 29842 116214 116215 XOR\n2 1 76351 116215 29846 XOR\n2 1 2478 116215 29847 XOR\n2 1 29846 29847 29845 AND\n2 1 29845 116215 116216 XOR\n2 1 76352 116216 29849 XOR\n2 1 116247 116216 94469 XOR\n2 1 116246 116215 94468 XOR\n2 1 116245 116214 94467 XOR\n2 1 96517 94469 116185 XOR\n2 1 2479 116216 29850 XOR\n2 1 29849 29850 29848 AND\n2 1 29848 116216 116217 XOR\n2 1 2480 116217 29853 XOR\n2 1 76353 116217 29852 XOR\n2 1 29852 29853 29851 AND\n2 1 116248 116217 94470 XOR\n2 1 96516 94468 116184 XOR\n2 1 96515 94467 116183 XOR\n2 1 29851 116217 116218 XOR\n2 1 2481 116218 29856 XOR\n2 1 116249 116218 94471 XOR\n2 1 76354 116218 29855 XOR\n2 1 29855 29856 29854 AND\n2 1 29854 116218 116219 XOR\n2 1 2482 116219 29859 XOR\n2 1 116250 116219 94472 XOR\n2 1 96520 94472 116188 XOR\n2 1 76355 116219 29858 XOR\n2 1 29858 29859 29857 AND\n2 1 29857 116219 116220 XOR\n2 1 76356 116220 29861 XOR\n2 1 2483 116220 29862 XOR\n2 1 29861 29862 29860 AND\n",
"2 1 29860 116220 116221 XOR\n2 1 2484 116221 29865 XOR\n2 1 116252 116221 94474 XOR\n2 1 76357 116221 29864 XOR\n2 1 29864 29865 29863 AND\n2 1 29863 116221 116222 XOR\n2 1 2485 116222 29868 XOR\n2 1 76358 116222 29867 XOR\n2 1 29867 29868 29866 AND\n2 1 29866 116222 116223 XOR\n2 1 76359 116223 29870 XOR\n2 1 116254 116223 94476 XOR\n2 1 96524 94476 116192 XOR\n2 1 116251 116220 94473 XOR\n2 1 96519 94471 116187 XOR\n2 1 2486 116223 29871 XOR\n2 1 29870 29871 29869 AND\n2 1 29869 116223 116224 XOR\n2 1 76360 116224 29873 XOR\n2 1 116255 116224 94477 XOR\n2 1 96525 94477 116193 XOR\n2 1 2487 116224 29874 XOR\n2 1 29873 29874 29872 AND\n2 1 29872 116224 116225 XOR\n2 1 116256 116225 94478 XOR\n2 1 116253 116222 94475 XOR\n2 1 96521 94473 116189 XOR\n2 1 96522 94474 116190 XOR\n2 1 96526 94478 116194 XOR\n2 1 2488 116225 29877 XOR\n2 1 76361 116225 29876 XOR\n2 1 29876 29877 29875 AND\n2 1 29875 116225 116226 XOR\n2 1 2489 116226 29880 XOR\n2 1 116257 116226 94479 XOR\n2 1 96527 94479 116195 XOR\n2 1 76362 116226 29879 XOR\n2 1 29879 29880 29878 AND\n2 1 29878 116226 116227 XOR\n2 1 76363 116227 29882 XOR\n2 1 116258 116227 94480 XOR\n2 1 2490 116227 29883 XOR\n2 1 29882 29883 29881 AND\n2 1 29881 116227 116228 XOR\n2 1 116259 116228 94481 XOR\n2 1 96528 94480 116196 XOR\n2 1 96529 94481 116197 XOR\n2 1 2491 116228 29886 XOR\n2 1 76364 116228 29885 XOR\n2 1 29885 29886 29884 AND\n2 1 29884 116228 116229 XOR\n2 1 76365 116229 29888 XOR\n2 1 116260 116229 94482 XOR\n2 1 96530 94482 116198 XOR\n2 1 96523 94475 116191 XOR\n2 1 96518 94470 116186 XOR\n2 1 2492 116229 29889 XOR\n2 1 29888 29889 29887 AND\n2 1 29887 116229 116230 XOR\n2 1 76366 116230 29891 XOR\n2 1 116261 116230 94483 XOR\n2 1 2493 116230 29892 XOR\n2 1 29891 29892 29890 AND\n2 1 29890 116230 116231 XOR\n2 1 76367 116231 29894 XOR\n2 1 116262 116231 94484 XOR\n2 1 2494 116231 29895 XOR\n2 1 96531 94483 116199 XOR\n2 1 96532 94484 116200 XOR\n2 1 29894 29895 29893 AND\n2 1 29893 116231 116232 XOR\n2 1 116263 116232 94485 XOR\n2 1 96533 94485 116201 XOR\n2 1 92444 116125 29639 XOR\n2 1 29639 29640 29638 AND\n2 1 29638 116125 29642 XOR\n2 1 92445 29642 90425 XOR\n2 1 90425 105327 12028 XOR\n2 1 90425 29642 29641 AND\n2 1 29641 29642 29644 XOR\n2 1 90425 84281 105358 XOR\n2 1 105358 105327 1832 XOR\n2 1 1832 1896 70935 XOR\n2 1 70935 70903 70871 AND\n2 1 70871 1896 86297 XOR\n2 1 1832 1864 70807 XOR\n2 1 1960 90425 105296 XOR\n2 1 105296 105265 2344 XOR\n2 1 64279 2344 64247 AND\n2 1 64247 2408 98526 XOR\n2 1 2344 2376 64215 XOR\n2 1 90425 105265 11939 XOR\n2 1 11938 11939 11937 AND\n2 1 11937 105265 105266 XOR\n2 1 1961 105266 11941 XOR\n2 1 96513 94465 116181 XOR\n2 1 96510 116147 29738 XOR\n2 1 29738 29739 29737 AND\n2 1 29737 116147 116148 XOR\n2 1 116179 116148 92446 XOR\n2 1 94463 116148 29742 XOR\n2 1 96511 116148 29741 XOR\n2 1 29741 29742 29740 AND\n2 1 92446 29644 90426 XOR\n2 1 90426 84282 105359 XOR\n2 1 1961 90426 105297 XOR\n2 1 90426 105266 11942 XOR\n2 1 11941 11942 11940 AND\n2 1 11940 105266 105267 XOR\n2 1 1962 105267 11944 XOR\n2 1 105297 105266 2345 XOR\n2 1 64280 2345 64248 AND\n2 1 64248 2409 98527 XOR\n2 1 2345 2377 64216 XOR\n2 1 90426 29644 29643 AND\n2 1 29643 29644 29646 XOR\n2 1 29740 116148 116149 XOR\n2 1 116180 116149 92447 XOR\n2 1 96512 116149 29744 XOR\n2 1 92447 29646 90427 XOR\n2 1 90427 29646 29645 AND\n2 1 29645 29646 116126 XOR\n1 1 116126 29649 INV\n2 1 90427 84283 105360 XOR\n2 1 94464 116149 29745 XOR\n2 1 29744 29745 29743 AND\n2 1 29743 116149 116150 XOR\n2 1 116181 116150 92448 XOR\n",
"1 1 92448 29702 INV\n2 1 29702 116126 90428 XOR\n2 1 1963 90428 105299 XOR\n2 1 90428 84284 105361 XOR\n2 1 92448 116126 29648 XOR\n2 1 96513 116150 29747 XOR\n2 1 94465 116150 29748 XOR\n2 1 29747 29748 29746 AND\n2 1 29746 116150 116151 XOR\n2 1 94466 116151 29751 XOR\n2 1 96514 116151 29750 XOR\n2 1 29750 29751 29749 AND\n2 1 29749 116151 116152 XOR\n2 1 116183 116152 92450 XOR\n1 1 92450 29703 INV\n2 1 96515 116152 29753 XOR\n2 1 94467 116152 29754 XOR\n2 1 29753 29754 29752 AND\n2 1 29752 116152 116153 XOR\n2 1 116184 116153 92451 XOR\n1 1 92451 29704 INV\n2 1 96516 116153 29756 XOR\n2 1 94468 116153 29757 XOR\n2 1 29756 29757 29755 AND\n2 1 29755 116153 116154 XOR\n2 1 116185 116154 92452 XOR\n2 1 96517 116154 29759 XOR\n2 1 94469 116154 29760 XOR\n2 1 29759 29760 29758 AND\n2 1 29758 116154 116155 XOR\n2 1 116186 116155 92453 XOR\n1 1 92453 29706 INV\n2 1 96518 116155 29762 XOR\n2 1 94470 116155 29763 XOR\n2 1 29762 29763 29761 AND\n2 1 29761 116155 116156 XOR\n2 1 116187 116156 92454 XOR\n1 1 92454 29707 INV\n1 1 92452 29705 INV\n2 1 96519 116156 29765 XOR\n2 1 116182 116151 92449 XOR\n2 1 1962 90427 105298 XOR\n2 1 105298 105267 2346 XOR\n2 1 64281 2346 64249 AND\n2 1 64249 2410 98528 XOR\n2 1 2346 2378 64217 XOR\n2 1 29648 29649 29647 AND\n2 1 29647 116126 29651 XOR\n2 1 92449 29651 90429 XOR\n2 1 90429 84285 105362 XOR\n2 1 1964 90429 105300 XOR\n2 1 90429 29651 29650 AND\n2 1 29650 29651 116127 XOR\n2 1 92450 116127 29653 XOR\n1 1 116127 29654 INV\n2 1 29653 29654 29652 AND\n2 1 29703 116127 90430 XOR\n2 1 1965 90430 105301 XOR\n2 1 90430 84286 105363 XOR\n2 1 29652 116127 116128 XOR\n2 1 29704 116128 90431 XOR\n2 1 1966 90431 105302 XOR\n1 1 116128 29657 INV\n2 1 92451 116128 29656 XOR\n2 1 29656 29657 29655 AND\n2 1 29655 116128 116129 XOR\n1 1 116129 29660 INV\n2 1 29705 116129 90432 XOR\n2 1 90432 84288 105365 XOR\n2 1 92452 116129 29659 XOR\n2 1 29659 29660 29658 AND\n2 1 29658 116129 116130 XOR\n1 1 116130 29663 INV\n2 1 29706 116130 90433 XOR\n2 1 1968 90433 105304 XOR\n2 1 90433 84289 105366 XOR\n2 1 92453 116130 29662 XOR\n2 1 29662 29663 29661 AND\n2 1 29661 116130 116131 XOR\n1 1 116131 29666 INV\n2 1 29707 116131 90434 XOR\n2 1 90434 84290 105367 XOR\n2 1 92454 116131 29665 XOR\n2 1 29665 29666 29664 AND\n2 1 29664 116131 116132 XOR\n1 1 116132 29669 INV\n2 1 1969 90434 105305 XOR\n2 1 1967 90432 105303 XOR\n2 1 90427 105267 11945 XOR\n2 1 11944 11945 11943 AND\n2 1 11943 105267 105268 XOR\n2 1 105299 105268 2347 XOR\n2 1 64282 2347 64250 AND\n2 1 64250 2411 98529 XOR\n2 1 2347 2379 64218 XOR\n2 1 1963 105268 11947 XOR\n2 1 84281 105327 12029 XOR\n2 1 12028 12029 12027 AND\n2 1 12027 105327 105328 XOR\n2 1 90426 105328 12031 XOR\n2 1 105359 105328 1833 XOR\n2 1 1833 1897 70936 XOR\n2 1 70936 70904 70872 AND\n2 1 70872 1897 86298 XOR\n2 1 1833 1865 70808 XOR\n2 1 2341 2346 61550 XOR\n2 1 2340 2345 61549 XOR\n2 1 2339 2344 61548 XOR\n2 1 2338 2343 61547 XOR\n2 1 2337 2342 61546 XOR\n2 1 2342 2347 61519 XOR\n2 1 90431 84287 105364 XOR\n2 1 94471 116156 29766 XOR\n2 1 29765 29766 29764 AND\n2 1 29764 116156 116157 XOR\n2 1 116188 116157 92455 XOR\n1 1 92455 29708 INV\n2 1 29708 116132 90435 XOR\n2 1 92455 116132 29668 XOR\n2 1 29668 29669 29667 AND\n2 1 29667 116132 116133 XOR\n1 1 116133 29672 INV\n2 1 90435 84291 105368 XOR\n2 1 96520 116157 29768 XOR\n2 1 94472 116157 29769 XOR\n2 1 29768 29769 29767 AND\n2 1 29767 116157 116158 XOR\n2 1 116189 116158 92456 XOR\n",
"2 1 92456 116133 29671 XOR\n2 1 29671 29672 29670 AND\n2 1 29670 116133 116134 XOR\n1 1 116134 29675 INV\n2 1 96521 116158 29771 XOR\n2 1 94473 116158 29772 XOR\n2 1 29771 29772 29770 AND\n2 1 29770 116158 116159 XOR\n2 1 116190 116159 92457 XOR\n1 1 92457 29710 INV\n2 1 92457 116134 29674 XOR\n2 1 29674 29675 29673 AND\n2 1 29673 116134 116135 XOR\n1 1 116135 29678 INV\n2 1 29710 116134 90437 XOR\n2 1 90437 84293 105370 XOR\n2 1 96522 116159 29774 XOR\n2 1 94474 116159 29775 XOR\n2 1 29774 29775 29773 AND\n2 1 29773 116159 116160 XOR\n2 1 116191 116160 92458 XOR\n2 1 92458 116135 29677 XOR\n2 1 29677 29678 29676 AND\n2 1 29676 116135 29680 XOR\n2 1 96523 116160 29777 XOR\n2 1 94475 116160 29778 XOR\n2 1 29777 29778 29776 AND\n2 1 29776 116160 116161 XOR\n2 1 116192 116161 92459 XOR\n2 1 96524 116161 29780 XOR\n2 1 94476 116161 29781 XOR\n2 1 29780 29781 29779 AND\n2 1 29779 116161 116162 XOR\n2 1 116193 116162 92460 XOR\n1 1 92460 29712 INV\n2 1 96525 116162 29783 XOR\n2 1 94477 116162 29784 XOR\n2 1 29783 29784 29782 AND\n2 1 29782 116162 116163 XOR\n2 1 116194 116163 92461 XOR\n2 1 96526 116163 29786 XOR\n2 1 94478 116163 29787 XOR\n2 1 29786 29787 29785 AND\n2 1 29785 116163 116164 XOR\n2 1 96527 116164 29789 XOR\n2 1 116195 116164 92462 XOR\n1 1 92462 29713 INV\n2 1 94479 116164 29790 XOR\n2 1 29789 29790 29788 AND\n2 1 29788 116164 116165 XOR\n2 1 94480 116165 29793 XOR\n2 1 116196 116165 92463 XOR\n2 1 96528 116165 29792 XOR\n2 1 29792 29793 29791 AND\n2 1 29791 116165 116166 XOR\n2 1 96529 116166 29795 XOR\n2 1 116197 116166 92464 XOR\n2 1 94481 116166 29796 XOR\n2 1 29795 29796 29794 AND\n2 1 29794 116166 116167 XOR\n2 1 94482 116167 29799 XOR\n2 1 116198 116167 92465 XOR\n2 1 96530 116167 29798 XOR\n2 1 29798 29799 29797 AND\n2 1 29797 116167 116168 XOR\n2 1 96531 116168 29801 XOR\n2 1 116199 116168 92466 XOR\n1 1 92466 29714 INV\n2 1 94483 116168 29802 XOR\n2 1 29801 29802 29800 AND\n2 1 29800 116168 116169 XOR\n2 1 116200 116169 92467 XOR\n2 1 96532 116169 29804 XOR\n1 1 92456 29709 INV\n2 1 29709 116133 90436 XOR\n2 1 90436 84292 105369 XOR\n1 1 92458 29711 INV\n2 1 29711 116135 90438 XOR\n2 1 1973 90438 105309 XOR\n2 1 90438 84294 105371 XOR\n2 1 92459 29680 90439 XOR\n2 1 90439 29680 29679 AND\n2 1 29679 29680 116136 XOR\n1 1 116136 29683 INV\n2 1 29712 116136 90440 XOR\n2 1 1975 90440 105311 XOR\n2 1 90440 84296 105373 XOR\n2 1 92460 116136 29682 XOR\n2 1 29682 29683 29681 AND\n2 1 29681 116136 29685 XOR\n2 1 92461 29685 90441 XOR\n2 1 90441 84297 105374 XOR\n2 1 1976 90441 105312 XOR\n2 1 90441 29685 29684 AND\n2 1 29684 29685 116137 XOR\n1 1 116137 29688 INV\n2 1 92462 116137 29687 XOR\n2 1 29687 29688 29686 AND\n2 1 29686 116137 29690 XOR\n2 1 92463 29690 90443 XOR\n2 1 90443 84299 105376 XOR\n2 1 1978 90443 105314 XOR\n2 1 90443 29690 29689 AND\n2 1 29713 116137 90442 XOR\n2 1 1977 90442 105313 XOR\n2 1 90442 84298 105375 XOR\n2 1 90439 84295 105372 XOR\n2 1 1974 90439 105310 XOR\n2 1 29689 29690 29692 XOR\n2 1 92464 29692 90444 XOR\n2 1 90444 29692 29691 AND\n2 1 1979 90444 105315 XOR\n2 1 29691 29692 29694 XOR\n2 1 92465 29694 90445 XOR\n2 1 1980 90445 105316 XOR\n2 1 90445 29694 29693 AND\n2 1 29693 29694 116138 XOR\n1 1 116138 29697 INV\n2 1 92466 116138 29696 XOR\n2 1 29696 29697 29695 AND\n2 1 29695 116138 29699 XOR\n2 1 90445 84301 105378 XOR\n2 1 90444 84300 105377 XOR\n2 1 29714 116138 90446 XOR\n2 1 90446 84302 105379 XOR\n2 1 1981 90446 105317 XOR\n2 1 92467 29699 90447 XOR\n2 1 90447 84303 105380 XOR\n",
"2 1 1982 90447 105318 XOR\n2 1 90447 29699 29698 AND\n2 1 29698 29699 116139 XOR\n2 1 1970 90435 105306 XOR\n2 1 1971 90436 105307 XOR\n2 1 94484 116169 29805 XOR\n2 1 29804 29805 29803 AND\n2 1 29803 116169 116170 XOR\n2 1 116201 116170 92468 XOR\n1 1 92468 29715 INV\n2 1 29715 116139 90448 XOR\n2 1 90448 84304 105381 XOR\n2 1 1983 90448 105319 XOR\n2 1 1972 90437 105308 XOR\n2 1 90428 105268 11948 XOR\n2 1 11947 11948 11946 AND\n2 1 11946 105268 105269 XOR\n2 1 105300 105269 2348 XOR\n2 1 90429 105269 11951 XOR\n2 1 1964 105269 11950 XOR\n2 1 11950 11951 11949 AND\n2 1 64283 2348 64251 AND\n2 1 64251 2412 98530 XOR\n2 1 2348 2380 64219 XOR\n2 1 11949 105269 105270 XOR\n2 1 90430 105270 11954 XOR\n2 1 105301 105270 2349 XOR\n2 1 1965 105270 11953 XOR\n2 1 11953 11954 11952 AND\n2 1 11952 105270 105271 XOR\n2 1 105302 105271 2350 XOR\n2 1 90431 105271 11957 XOR\n2 1 1966 105271 11956 XOR\n2 1 11956 11957 11955 AND\n2 1 11955 105271 105272 XOR\n2 1 1967 105272 11959 XOR\n2 1 105303 105272 2351 XOR\n2 1 90432 105272 11960 XOR\n2 1 11959 11960 11958 AND\n2 1 11958 105272 105273 XOR\n2 1 90433 105273 11963 XOR\n2 1 1968 105273 11962 XOR\n2 1 11962 11963 11961 AND\n2 1 64286 2351 64254 AND\n2 1 64285 2350 64253 AND\n2 1 64284 2349 64252 AND\n2 1 64254 2415 98533 XOR\n2 1 64253 2414 98532 XOR\n2 1 64252 2413 98531 XOR\n2 1 2351 2383 64222 XOR\n2 1 2350 2382 64221 XOR\n2 1 2349 2381 64220 XOR\n2 1 11961 105273 105274 XOR\n2 1 105305 105274 2353 XOR\n2 1 1969 105274 11965 XOR\n2 1 64288 2353 64256 AND\n2 1 64256 2417 98535 XOR\n2 1 2353 2385 64224 XOR\n2 1 105304 105273 2352 XOR\n2 1 64287 2352 64255 AND\n2 1 64255 2416 98534 XOR\n2 1 2352 2384 64223 XOR\n2 1 90434 105274 11966 XOR\n2 1 11965 11966 11964 AND\n2 1 11964 105274 105275 XOR\n2 1 90435 105275 11969 XOR\n2 1 105306 105275 2354 XOR\n2 1 64289 2354 64257 AND\n2 1 64257 2418 98536 XOR\n2 1 2354 2386 64225 XOR\n2 1 2349 2354 61526 XOR\n2 1 2348 2353 61525 XOR\n2 1 2347 2352 61524 XOR\n2 1 2346 2351 61523 XOR\n2 1 2345 2350 61522 XOR\n2 1 2344 2349 61521 XOR\n2 1 2343 2348 61520 XOR\n2 1 61526 2336 100573 XOR\n2 1 100573 98525 116037 XOR\n2 1 1970 105275 11968 XOR\n2 1 11968 11969 11967 AND\n2 1 11967 105275 105276 XOR\n2 1 90436 105276 11972 XOR\n2 1 105307 105276 2355 XOR\n2 1 1971 105276 11971 XOR\n2 1 11971 11972 11970 AND\n2 1 11970 105276 105277 XOR\n2 1 90437 105277 11975 XOR\n2 1 105308 105277 2356 XOR\n2 1 1972 105277 11974 XOR\n2 1 11974 11975 11973 AND\n2 1 11973 105277 105278 XOR\n2 1 105309 105278 2357 XOR\n2 1 1973 105278 11977 XOR\n2 1 90438 105278 11978 XOR\n2 1 11977 11978 11976 AND\n2 1 11976 105278 105279 XOR\n2 1 105310 105279 2358 XOR\n2 1 1974 105279 11980 XOR\n2 1 64293 2358 64261 AND\n2 1 64292 2357 64260 AND\n2 1 64291 2356 64259 AND\n2 1 64290 2355 64258 AND\n2 1 64261 2422 98540 XOR\n2 1 64260 2421 98539 XOR\n2 1 64259 2420 98538 XOR\n2 1 64258 2419 98537 XOR\n2 1 2358 2390 64229 XOR\n2 1 2357 2389 64228 XOR\n2 1 2356 2388 64227 XOR\n2 1 2355 2387 64226 XOR\n2 1 90439 105279 11981 XOR\n2 1 11980 11981 11979 AND\n2 1 11979 105279 105280 XOR\n2 1 90440 105280 11984 XOR\n2 1 1975 105280 11983 XOR\n2 1 11983 11984 11982 AND\n2 1 11982 105280 105281 XOR\n2 1 105312 105281 2360 XOR\n2 1 90441 105281 11987 XOR\n2 1 64295 2360 64263 AND\n2 1 64263 2424 98542 XOR\n2 1 2360 2392 64231 XOR\n2 1 105311 105280 2359 XOR\n2 1 64294 2359 64262 AND\n2 1 64262 2423 98541 XOR\n2 1 2359 2391 64230 XOR\n2 1 1976 105281 11986 XOR\n",
"2 1 11986 11987 11985 AND\n2 1 11985 105281 105282 XOR\n2 1 90442 105282 11990 XOR\n2 1 105313 105282 2361 XOR\n2 1 64296 2361 64264 AND\n2 1 64264 2425 98543 XOR\n2 1 2361 2393 64232 XOR\n2 1 2356 2361 61533 XOR\n2 1 2355 2360 61532 XOR\n2 1 2354 2359 61531 XOR\n2 1 2353 2358 61530 XOR\n2 1 2352 2357 61529 XOR\n2 1 2351 2356 61528 XOR\n2 1 2350 2355 61527 XOR\n2 1 61550 2360 100597 XOR\n2 1 61549 2359 100596 XOR\n2 1 61548 2358 100595 XOR\n2 1 61547 2357 100594 XOR\n2 1 61546 2356 100593 XOR\n2 1 61545 2355 100592 XOR\n2 1 61533 2343 100580 XOR\n2 1 100580 98532 116044 XOR\n2 1 61532 2342 100579 XOR\n2 1 100579 98531 116043 XOR\n2 1 61531 2341 100578 XOR\n2 1 100578 98530 116042 XOR\n2 1 61530 2340 100577 XOR\n2 1 100577 98529 116041 XOR\n2 1 61529 2339 100576 XOR\n2 1 100576 98528 116040 XOR\n2 1 61528 2338 100575 XOR\n2 1 100575 98527 116039 XOR\n2 1 61527 2337 100574 XOR\n2 1 100574 98526 116038 XOR\n2 1 61519 2361 100566 XOR\n2 1 100566 98518 96470 XOR\n2 1 100566 98518 116000 AND\n2 1 98519 116000 29448 XOR\n2 1 1977 105282 11989 XOR\n2 1 11989 11990 11988 AND\n2 1 11988 105282 105283 XOR\n2 1 90443 105283 11993 XOR\n2 1 105314 105283 2362 XOR\n2 1 64297 2362 64265 AND\n2 1 64265 2426 98544 XOR\n2 1 100592 98544 116056 XOR\n2 1 2362 2394 64233 XOR\n2 1 1978 105283 11992 XOR\n2 1 11992 11993 11991 AND\n2 1 11991 105283 105284 XOR\n2 1 90444 105284 11996 XOR\n2 1 105315 105284 2363 XOR\n2 1 1979 105284 11995 XOR\n2 1 11995 11996 11994 AND\n2 1 11994 105284 105285 XOR\n2 1 105316 105285 2364 XOR\n2 1 1980 105285 11998 XOR\n2 1 90445 105285 11999 XOR\n2 1 11998 11999 11997 AND\n2 1 11997 105285 105286 XOR\n2 1 64299 2364 64267 AND\n2 1 64298 2363 64266 AND\n2 1 64267 2428 98546 XOR\n2 1 100594 98546 116058 XOR\n2 1 64266 2427 98545 XOR\n2 1 100593 98545 116057 XOR\n2 1 2364 2396 64235 XOR\n2 1 2363 2395 64234 XOR\n2 1 90446 105286 12002 XOR\n2 1 1981 105286 12001 XOR\n2 1 12001 12002 12000 AND\n2 1 12000 105286 105287 XOR\n2 1 90447 105287 12005 XOR\n2 1 1982 105287 12004 XOR\n2 1 105318 105287 2366 XOR\n2 1 64301 2366 64269 AND\n2 1 64269 2430 98548 XOR\n2 1 100596 98548 116060 XOR\n2 1 2366 2398 64237 XOR\n2 1 12004 12005 12003 AND\n2 1 12003 105287 105288 XOR\n2 1 105319 105288 2367 XOR\n2 1 64302 2367 64270 AND\n2 1 64270 2431 98549 XOR\n2 1 100597 98549 116061 XOR\n2 1 2367 2399 64238 XOR\n2 1 105317 105286 2365 XOR\n2 1 64300 2365 64268 AND\n2 1 64268 2429 98547 XOR\n2 1 100595 98547 116059 XOR\n2 1 2365 2397 64236 XOR\n2 1 2367 2340 61544 XOR\n2 1 2366 2339 61543 XOR\n2 1 2365 2338 61542 XOR\n2 1 2364 2337 61541 XOR\n2 1 2363 2336 61540 XOR\n2 1 2362 2367 61539 XOR\n2 1 2361 2366 61538 XOR\n2 1 2360 2365 61537 XOR\n2 1 2359 2364 61536 XOR\n2 1 2358 2363 61535 XOR\n2 1 2357 2362 61534 XOR\n2 1 61544 2354 100591 XOR\n2 1 100591 98543 116055 XOR\n2 1 61543 2353 100590 XOR\n2 1 100590 98542 116054 XOR\n2 1 61542 2352 100589 XOR\n2 1 100589 98541 116053 XOR\n2 1 61541 2351 100588 XOR\n2 1 100588 98540 116052 XOR\n2 1 61540 2350 100587 XOR\n2 1 100587 98539 116051 XOR\n2 1 61539 2349 100586 XOR\n2 1 100586 98538 116050 XOR\n2 1 61538 2348 100585 XOR\n2 1 100585 98537 116049 XOR\n2 1 61537 2347 100584 XOR\n2 1 100584 98536 116048 XOR\n2 1 61536 2346 100583 XOR\n2 1 100583 98535 116047 XOR\n2 1 61535 2345 100582 XOR\n2 1 100582 98534 116046 XOR\n2 1 61534 2344 100581 XOR\n2 1 100581 98533 116045 XOR\n2 1 61525 2367 100572 XOR\n2 1 100572 98524 116036 XOR\n2 1 61524 2366 100571 XOR\n2 1 100571 98523 116035 XOR\n",
"2 1 61523 2365 100570 XOR\n2 1 100570 98522 116034 XOR\n2 1 61522 2364 100569 XOR\n2 1 100569 98521 116033 XOR\n2 1 61521 2363 100568 XOR\n2 1 100568 98520 116032 XOR\n2 1 61520 2362 100567 XOR\n2 1 100567 98519 116031 XOR\n2 1 116031 116000 96471 XOR\n2 1 100567 116000 29447 XOR\n2 1 29447 29448 29446 AND\n2 1 29446 116000 116001 XOR\n2 1 116032 116001 96472 XOR\n2 1 100568 116001 29450 XOR\n2 1 98520 116001 29451 XOR\n2 1 29450 29451 29449 AND\n2 1 29449 116001 116002 XOR\n2 1 116033 116002 96473 XOR\n2 1 100569 116002 29453 XOR\n2 1 98521 116002 29454 XOR\n2 1 29453 29454 29452 AND\n2 1 29452 116002 116003 XOR\n2 1 116034 116003 96474 XOR\n2 1 100570 116003 29456 XOR\n2 1 98522 116003 29457 XOR\n2 1 29456 29457 29455 AND\n2 1 29455 116003 116004 XOR\n2 1 116035 116004 96475 XOR\n2 1 100571 116004 29459 XOR\n2 1 98523 116004 29460 XOR\n2 1 29459 29460 29458 AND\n2 1 29458 116004 116005 XOR\n2 1 116036 116005 96476 XOR\n2 1 100572 116005 29462 XOR\n2 1 98524 116005 29463 XOR\n2 1 29462 29463 29461 AND\n2 1 29461 116005 116006 XOR\n2 1 116037 116006 96477 XOR\n2 1 100573 116006 29465 XOR\n2 1 98525 116006 29466 XOR\n2 1 29465 29466 29464 AND\n2 1 29464 116006 116007 XOR\n2 1 116038 116007 96478 XOR\n2 1 100574 116007 29468 XOR\n2 1 98526 116007 29469 XOR\n2 1 29468 29469 29467 AND\n2 1 29467 116007 116008 XOR\n2 1 116039 116008 96479 XOR\n2 1 100575 116008 29471 XOR\n2 1 98527 116008 29472 XOR\n2 1 29471 29472 29470 AND\n2 1 29470 116008 116009 XOR\n2 1 116040 116009 96480 XOR\n2 1 100576 116009 29474 XOR\n2 1 98528 116009 29475 XOR\n2 1 29474 29475 29473 AND\n2 1 29473 116009 116010 XOR\n2 1 116041 116010 96481 XOR\n2 1 100577 116010 29477 XOR\n2 1 98529 116010 29478 XOR\n2 1 29477 29478 29476 AND\n2 1 29476 116010 116011 XOR\n2 1 116042 116011 96482 XOR\n2 1 100578 116011 29480 XOR\n2 1 98530 116011 29481 XOR\n2 1 29480 29481 29479 AND\n2 1 29479 116011 116012 XOR\n2 1 116043 116012 96483 XOR\n2 1 100579 116012 29483 XOR\n2 1 98531 116012 29484 XOR\n2 1 29483 29484 29482 AND\n2 1 29482 116012 116013 XOR\n2 1 116044 116013 96484 XOR\n2 1 100580 116013 29486 XOR\n2 1 98532 116013 29487 XOR\n2 1 29486 29487 29485 AND\n2 1 29485 116013 116014 XOR\n2 1 116045 116014 96485 XOR\n2 1 100581 116014 29489 XOR\n2 1 98533 116014 29490 XOR\n2 1 29489 29490 29488 AND\n2 1 29488 116014 116015 XOR\n2 1 116046 116015 96486 XOR\n2 1 100582 116015 29492 XOR\n2 1 98534 116015 29493 XOR\n2 1 29492 29493 29491 AND\n2 1 29491 116015 116016 XOR\n2 1 116047 116016 96487 XOR\n2 1 100583 116016 29495 XOR\n2 1 98535 116016 29496 XOR\n2 1 29495 29496 29494 AND\n2 1 29494 116016 116017 XOR\n2 1 116048 116017 96488 XOR\n2 1 100584 116017 29498 XOR\n2 1 98536 116017 29499 XOR\n2 1 29498 29499 29497 AND\n2 1 29497 116017 116018 XOR\n2 1 116049 116018 96489 XOR\n2 1 100585 116018 29501 XOR\n2 1 98537 116018 29502 XOR\n2 1 29501 29502 29500 AND\n2 1 29500 116018 116019 XOR\n2 1 116050 116019 96490 XOR\n2 1 100586 116019 29504 XOR\n2 1 98538 116019 29505 XOR\n2 1 29504 29505 29503 AND\n2 1 29503 116019 116020 XOR\n2 1 116051 116020 96491 XOR\n2 1 100587 116020 29507 XOR\n2 1 98539 116020 29508 XOR\n2 1 29507 29508 29506 AND\n2 1 29506 116020 116021 XOR\n2 1 116052 116021 96492 XOR\n2 1 100588 116021 29510 XOR\n2 1 98540 116021 29511 XOR\n2 1 29510 29511 29509 AND\n2 1 29509 116021 116022 XOR\n2 1 116053 116022 96493 XOR\n2 1 100589 116022 29513 XOR\n2 1 98541 116022 29514 XOR\n2 1 29513 29514 29512 AND\n2 1 29512 116022 116023 XOR\n2 1 116054 116023 96494 XOR\n2 1 100590 116023 29516 XOR\n2 1 98542 116023 29517 XOR\n2 1 29516 29517 29515 AND\n2 1 29515 116023 116024 XOR\n2 1 116055 116024 96495 XOR\n",
"2 1 100591 116024 29519 XOR\n2 1 98543 116024 29520 XOR\n2 1 29519 29520 29518 AND\n2 1 29518 116024 116025 XOR\n2 1 116056 116025 96496 XOR\n2 1 100592 116025 29522 XOR\n2 1 98544 116025 29523 XOR\n2 1 29522 29523 29521 AND\n2 1 29521 116025 116026 XOR\n2 1 116057 116026 96497 XOR\n2 1 100593 116026 29525 XOR\n2 1 98545 116026 29526 XOR\n2 1 29525 29526 29524 AND\n2 1 29524 116026 116027 XOR\n2 1 116058 116027 96498 XOR\n2 1 100594 116027 29528 XOR\n2 1 98546 116027 29529 XOR\n2 1 29528 29529 29527 AND\n2 1 29527 116027 116028 XOR\n2 1 116059 116028 96499 XOR\n2 1 100595 116028 29531 XOR\n2 1 98547 116028 29532 XOR\n2 1 29531 29532 29530 AND\n2 1 29530 116028 116029 XOR\n2 1 116060 116029 96500 XOR\n2 1 100596 116029 29534 XOR\n2 1 98548 116029 29535 XOR\n2 1 29534 29535 29533 AND\n2 1 29533 116029 116030 XOR\n2 1 116061 116030 96501 XOR\n2 1 90423 84279 105356 XOR\n2 1 105356 105325 1830 XOR\n2 1 1830 1894 70933 XOR\n2 1 70933 70901 70869 AND\n2 1 70869 1894 86295 XOR\n2 1 1830 1862 70805 XOR\n2 1 84282 105328 12032 XOR\n2 1 12031 12032 12030 AND\n2 1 12030 105328 105329 XOR\n2 1 105360 105329 1834 XOR\n2 1 90427 105329 12034 XOR\n2 1 1834 1898 70937 XOR\n2 1 70937 70905 70873 AND\n2 1 70873 1898 86299 XOR\n2 1 1834 1866 70809 XOR\n2 1 84283 105329 12035 XOR\n2 1 12034 12035 12033 AND\n2 1 12033 105329 105330 XOR\n2 1 105361 105330 1835 XOR\n2 1 1835 1899 70938 XOR\n2 1 70938 70906 70874 AND\n2 1 70874 1899 86300 XOR\n2 1 1835 1867 70810 XOR\n2 1 90428 105330 12037 XOR\n2 1 84284 105330 12038 XOR\n2 1 12037 12038 12036 AND\n2 1 12036 105330 105331 XOR\n2 1 105362 105331 1836 XOR\n2 1 84285 105331 12041 XOR\n2 1 90429 105331 12040 XOR\n2 1 12040 12041 12039 AND\n2 1 12039 105331 105332 XOR\n2 1 90430 105332 12043 XOR\n2 1 84286 105332 12044 XOR\n2 1 105363 105332 1837 XOR\n2 1 1837 1901 70940 XOR\n2 1 1836 1900 70939 XOR\n2 1 70940 70908 70876 AND\n2 1 70939 70907 70875 AND\n2 1 70876 1901 86302 XOR\n2 1 70875 1900 86301 XOR\n2 1 1837 1869 70812 XOR\n2 1 1836 1868 70811 XOR\n2 1 12043 12044 12042 AND\n2 1 12042 105332 105333 XOR\n2 1 84287 105333 12047 XOR\n2 1 90431 105333 12046 XOR\n2 1 12046 12047 12045 AND\n2 1 1825 1836 67470 XOR\n2 1 1824 1835 67469 XOR\n2 1 1826 1837 67439 XOR\n2 1 12045 105333 105334 XOR\n2 1 105365 105334 1839 XOR\n2 1 84288 105334 12050 XOR\n2 1 1839 1903 70942 XOR\n2 1 70942 70910 70878 AND\n2 1 70878 1903 86304 XOR\n2 1 1839 1871 70814 XOR\n2 1 1828 1839 67441 XOR\n2 1 105364 105333 1838 XOR\n2 1 1838 1902 70941 XOR\n2 1 70941 70909 70877 AND\n2 1 70877 1902 86303 XOR\n2 1 1838 1870 70813 XOR\n2 1 1827 1838 67440 XOR\n2 1 90432 105334 12049 XOR\n2 1 12049 12050 12048 AND\n2 1 12048 105334 105335 XOR\n2 1 84289 105335 12053 XOR\n2 1 105366 105335 1840 XOR\n2 1 1840 1904 70943 XOR\n2 1 70943 70911 70879 AND\n2 1 70879 1904 86305 XOR\n2 1 1840 1872 70815 XOR\n2 1 1829 1840 67442 XOR\n2 1 90433 105335 12052 XOR\n2 1 12052 12053 12051 AND\n2 1 12051 105335 105336 XOR\n2 1 90434 105336 12055 XOR\n2 1 84290 105336 12056 XOR\n2 1 12055 12056 12054 AND\n2 1 12054 105336 105337 XOR\n2 1 84291 105337 12059 XOR\n2 1 90435 105337 12058 XOR\n2 1 105368 105337 1842 XOR\n2 1 105367 105336 1841 XOR\n2 1 1842 1906 70945 XOR\n2 1 1841 1905 70944 XOR\n2 1 70945 70913 70881 AND\n2 1 70944 70912 70880 AND\n2 1 70881 1906 86307 XOR\n2 1 70880 1905 86306 XOR\n2 1 1842 1874 70817 XOR\n2 1 1841 1873 70816 XOR\n2 1 12058 12059 12057 AND\n2 1 12057 105337 105338 XOR\n2 1 105369 105338 1843 XOR\n2 1 84292 105338 12062 XOR\n",
"2 1 1843 1907 70946 XOR\n2 1 70946 70914 70882 AND\n2 1 70882 1907 86308 XOR\n2 1 1843 1875 70818 XOR\n2 1 1832 1843 67445 XOR\n2 1 1831 1842 67444 XOR\n2 1 1830 1841 67443 XOR\n2 1 90436 105338 12061 XOR\n2 1 12061 12062 12060 AND\n2 1 12060 105338 105339 XOR\n2 1 90437 105339 12064 XOR\n2 1 84293 105339 12065 XOR\n2 1 12064 12065 12063 AND\n2 1 105370 105339 1844 XOR\n2 1 1844 1908 70947 XOR\n2 1 70947 70915 70883 AND\n2 1 70883 1908 86309 XOR\n2 1 1844 1876 70819 XOR\n2 1 1833 1844 67446 XOR\n2 1 67469 1844 88367 XOR\n2 1 12063 105339 105340 XOR\n2 1 90438 105340 12067 XOR\n2 1 84294 105340 12068 XOR\n2 1 12067 12068 12066 AND\n2 1 105371 105340 1845 XOR\n2 1 1845 1909 70948 XOR\n2 1 70948 70916 70884 AND\n2 1 70884 1909 86310 XOR\n2 1 1845 1877 70820 XOR\n2 1 1845 1824 67458 XOR\n2 1 1834 1845 67447 XOR\n2 1 67470 1845 88368 XOR\n2 1 67458 1833 88356 XOR\n2 1 88356 86308 115863 XOR\n2 1 12066 105340 105341 XOR\n2 1 105372 105341 1846 XOR\n2 1 84295 105341 12071 XOR\n2 1 1846 1910 70949 XOR\n2 1 70949 70917 70885 AND\n2 1 70885 1910 86311 XOR\n2 1 1846 1878 70821 XOR\n2 1 1846 1825 67459 XOR\n2 1 1835 1846 67448 XOR\n2 1 67459 1834 88357 XOR\n2 1 88357 86309 115864 XOR\n2 1 67439 1846 88337 XOR\n2 1 88337 86289 84241 XOR\n2 1 88337 86289 115814 AND\n2 1 90439 105341 12070 XOR\n2 1 12070 12071 12069 AND\n2 1 12069 105341 105342 XOR\n2 1 105373 105342 1847 XOR\n2 1 84296 105342 12074 XOR\n2 1 1847 1911 70950 XOR\n2 1 70950 70918 70886 AND\n2 1 70886 1911 86312 XOR\n2 1 1847 1879 70822 XOR\n2 1 1847 1826 67460 XOR\n2 1 1836 1847 67449 XOR\n2 1 67460 1835 88358 XOR\n2 1 88358 86310 115865 XOR\n2 1 67449 1824 88347 XOR\n2 1 88347 86299 115854 XOR\n2 1 67440 1847 88338 XOR\n2 1 88338 115814 29081 XOR\n2 1 88338 86290 115845 XOR\n2 1 115845 115814 84242 XOR\n2 1 90440 105342 12073 XOR\n2 1 12073 12074 12072 AND\n2 1 86290 115814 29082 XOR\n2 1 29081 29082 29080 AND\n2 1 29080 115814 115815 XOR\n2 1 86291 115815 29085 XOR\n2 1 12072 105342 105343 XOR\n2 1 105374 105343 1848 XOR\n2 1 1848 1912 70951 XOR\n2 1 70951 70919 70887 AND\n2 1 70887 1912 86313 XOR\n2 1 1848 1880 70823 XOR\n2 1 84297 105343 12077 XOR\n2 1 90441 105343 12076 XOR\n2 1 12076 12077 12075 AND\n2 1 12075 105343 105344 XOR\n2 1 84298 105344 12080 XOR\n2 1 90442 105344 12079 XOR\n2 1 12079 12080 12078 AND\n2 1 12078 105344 105345 XOR\n2 1 105376 105345 1850 XOR\n2 1 1850 1914 70953 XOR\n2 1 70953 70921 70889 AND\n2 1 70889 1914 86315 XOR\n2 1 1850 1882 70825 XOR\n2 1 105375 105344 1849 XOR\n2 1 1849 1913 70952 XOR\n2 1 70952 70920 70888 AND\n2 1 70888 1913 86314 XOR\n2 1 1849 1881 70824 XOR\n2 1 90443 105345 12082 XOR\n2 1 1850 1829 67463 XOR\n2 1 1849 1828 67462 XOR\n2 1 1848 1827 67461 XOR\n2 1 1839 1850 67452 XOR\n2 1 1838 1849 67451 XOR\n2 1 1837 1848 67450 XOR\n2 1 67463 1838 88361 XOR\n2 1 88361 86313 115868 XOR\n2 1 67462 1837 88360 XOR\n2 1 88360 86312 115867 XOR\n2 1 67461 1836 88359 XOR\n2 1 88359 86311 115866 XOR\n2 1 67452 1827 88350 XOR\n2 1 88350 86302 115857 XOR\n2 1 67451 1826 88349 XOR\n2 1 88349 86301 115856 XOR\n2 1 67450 1825 88348 XOR\n2 1 67443 1850 88341 XOR\n2 1 67442 1849 88340 XOR\n2 1 88340 86292 115847 XOR\n2 1 67441 1848 88339 XOR\n2 1 88339 115815 29084 XOR\n2 1 29084 29085 29083 AND\n2 1 29083 115815 115816 XOR\n2 1 88340 115816 29087 XOR\n2 1 86292 115816 29088 XOR\n2 1 29087 29088 29086 AND\n2 1 29086 115816 115817 XOR\n2 1 88341 115817 29090 XOR\n2 1 86293 115817 29091 XOR\n",
"2 1 29090 29091 29089 AND\n2 1 29089 115817 115818 XOR\n2 1 86294 115818 29094 XOR\n2 1 115847 115816 84244 XOR\n2 1 84299 105345 12083 XOR\n2 1 12082 12083 12081 AND\n2 1 12081 105345 105346 XOR\n2 1 105377 105346 1851 XOR\n2 1 90444 105346 12085 XOR\n2 1 1851 1915 70954 XOR\n2 1 70954 70922 70890 AND\n2 1 70890 1915 86316 XOR\n2 1 1851 1883 70826 XOR\n2 1 1851 1830 67464 XOR\n2 1 1840 1851 67453 XOR\n2 1 67464 1839 88362 XOR\n2 1 88362 86314 115869 XOR\n2 1 67453 1828 88351 XOR\n2 1 88351 86303 115858 XOR\n2 1 67444 1851 88342 XOR\n2 1 88342 115818 29093 XOR\n2 1 29093 29094 29092 AND\n2 1 88342 86294 115849 XOR\n2 1 115849 115818 84246 XOR\n2 1 29092 115818 115819 XOR\n2 1 86295 115819 29097 XOR\n2 1 84300 105346 12086 XOR\n2 1 12085 12086 12084 AND\n2 1 12084 105346 105347 XOR\n2 1 90445 105347 12088 XOR\n2 1 84301 105347 12089 XOR\n2 1 12088 12089 12087 AND\n2 1 12087 105347 105348 XOR\n2 1 105378 105347 1852 XOR\n2 1 1852 1916 70955 XOR\n2 1 70955 70923 70891 AND\n2 1 70891 1916 86317 XOR\n2 1 1852 1884 70827 XOR\n2 1 1852 1831 67465 XOR\n2 1 1841 1852 67454 XOR\n2 1 67465 1840 88363 XOR\n2 1 88363 86315 115870 XOR\n2 1 67454 1829 88352 XOR\n2 1 88352 86304 115859 XOR\n2 1 67445 1852 88343 XOR\n2 1 88343 86295 115850 XOR\n2 1 115850 115819 84247 XOR\n2 1 88343 115819 29096 XOR\n2 1 29096 29097 29095 AND\n2 1 29095 115819 115820 XOR\n2 1 86296 115820 29100 XOR\n2 1 88339 86291 115846 XOR\n2 1 115846 115815 84243 XOR\n2 1 88348 86300 115855 XOR\n2 1 90446 105348 12091 XOR\n2 1 105379 105348 1853 XOR\n2 1 1853 1917 70956 XOR\n2 1 70956 70924 70892 AND\n2 1 70892 1917 86318 XOR\n2 1 1853 1885 70828 XOR\n2 1 1853 1832 67466 XOR\n2 1 1842 1853 67455 XOR\n2 1 67466 1841 88364 XOR\n2 1 67455 1830 88353 XOR\n2 1 88353 86305 115860 XOR\n2 1 67446 1853 88344 XOR\n2 1 88344 86296 115851 XOR\n2 1 115851 115820 84248 XOR\n2 1 84302 105348 12092 XOR\n2 1 12091 12092 12090 AND\n2 1 12090 105348 105349 XOR\n2 1 84303 105349 12095 XOR\n2 1 90447 105349 12094 XOR\n2 1 12094 12095 12093 AND\n2 1 12093 105349 105350 XOR\n2 1 105381 105350 1855 XOR\n2 1 1855 1919 70958 XOR\n2 1 70958 70926 70894 AND\n2 1 70894 1919 86320 XOR\n2 1 88368 86320 115875 XOR\n2 1 1855 1887 70830 XOR\n2 1 1855 1834 67468 XOR\n2 1 1844 1855 67457 XOR\n2 1 67468 1843 88366 XOR\n2 1 67457 1832 88355 XOR\n2 1 88355 86307 115862 XOR\n2 1 67448 1855 88346 XOR\n2 1 88346 86298 115853 XOR\n2 1 88366 86318 115873 XOR\n2 1 88341 86293 115848 XOR\n2 1 115848 115817 84245 XOR\n2 1 88364 86316 115871 XOR\n2 1 88344 115820 29099 XOR\n2 1 29099 29100 29098 AND\n2 1 29098 115820 115821 XOR\n2 1 86297 115821 29103 XOR\n2 1 105380 105349 1854 XOR\n2 1 1854 1918 70957 XOR\n2 1 70957 70925 70893 AND\n2 1 70893 1918 86319 XOR\n2 1 1854 1886 70829 XOR\n2 1 1854 1833 67467 XOR\n2 1 1843 1854 67456 XOR\n2 1 67467 1842 88365 XOR\n2 1 67456 1831 88354 XOR\n2 1 88354 86306 115861 XOR\n2 1 67447 1854 88345 XOR\n2 1 88345 86297 115852 XOR\n2 1 115852 115821 84249 XOR\n2 1 88345 115821 29102 XOR\n2 1 29102 29103 29101 AND\n2 1 29101 115821 115822 XOR\n2 1 88346 115822 29105 XOR\n2 1 86298 115822 29106 XOR\n2 1 29105 29106 29104 AND\n2 1 29104 115822 115823 XOR\n2 1 88347 115823 29108 XOR\n2 1 115854 115823 84251 XOR\n2 1 86299 115823 29109 XOR\n2 1 29108 29109 29107 AND\n2 1 29107 115823 115824 XOR\n2 1 88348 115824 29111 XOR\n2 1 86300 115824 29112 XOR\n2 1 29111 29112 29110 AND\n2 1 115855 115824 84252 XOR\n2 1 29110 115824 115825 XOR\n2 1 86301 115825 29115 XOR\n2 1 88349 115825 29114 XOR\n",
"2 1 29114 29115 29113 AND\n2 1 115853 115822 84250 XOR\n2 1 88367 86319 115874 XOR\n2 1 29113 115825 115826 XOR\n2 1 88350 115826 29117 XOR\n2 1 115857 115826 84254 XOR\n2 1 88365 86317 115872 XOR\n2 1 115856 115825 84253 XOR\n2 1 86302 115826 29118 XOR\n2 1 29117 29118 29116 AND\n2 1 29116 115826 115827 XOR\n2 1 115858 115827 84255 XOR\n2 1 88351 115827 29120 XOR\n2 1 86303 115827 29121 XOR\n2 1 29120 29121 29119 AND\n2 1 29119 115827 115828 XOR\n2 1 88352 115828 29123 XOR\n2 1 86304 115828 29124 XOR\n2 1 29123 29124 29122 AND\n2 1 29122 115828 115829 XOR\n2 1 88353 115829 29126 XOR\n2 1 115860 115829 84257 XOR\n2 1 86305 115829 29127 XOR\n2 1 29126 29127 29125 AND\n2 1 29125 115829 115830 XOR\n2 1 88354 115830 29129 XOR\n2 1 115861 115830 84258 XOR\n2 1 86306 115830 29130 XOR\n2 1 29129 29130 29128 AND\n2 1 29128 115830 115831 XOR\n2 1 115862 115831 84259 XOR\n2 1 86307 115831 29133 XOR\n2 1 88355 115831 29132 XOR\n2 1 29132 29133 29131 AND\n2 1 29131 115831 115832 XOR\n2 1 86308 115832 29136 XOR\n2 1 115859 115828 84256 XOR\n2 1 115863 115832 84260 XOR\n2 1 88356 115832 29135 XOR\n2 1 29135 29136 29134 AND\n2 1 29134 115832 115833 XOR\n2 1 115864 115833 84261 XOR\n2 1 86309 115833 29139 XOR\n2 1 88357 115833 29138 XOR\n2 1 29138 29139 29137 AND\n2 1 29137 115833 115834 XOR\n2 1 115865 115834 84262 XOR\n2 1 88358 115834 29141 XOR\n2 1 86310 115834 29142 XOR\n2 1 29141 29142 29140 AND\n2 1 29140 115834 115835 XOR\n2 1 86311 115835 29145 XOR\n2 1 115866 115835 84263 XOR\n2 1 88359 115835 29144 XOR\n2 1 29144 29145 29143 AND\n2 1 29143 115835 115836 XOR\n2 1 115867 115836 84264 XOR\n2 1 88360 115836 29147 XOR\n2 1 86312 115836 29148 XOR\n2 1 29147 29148 29146 AND\n2 1 29146 115836 115837 XOR\n2 1 88361 115837 29150 XOR\n2 1 115868 115837 84265 XOR\n2 1 86313 115837 29151 XOR\n2 1 29150 29151 29149 AND\n2 1 29149 115837 115838 XOR\n2 1 86314 115838 29154 XOR\n2 1 88362 115838 29153 XOR\n2 1 115869 115838 84266 XOR\n2 1 29153 29154 29152 AND\n2 1 29152 115838 115839 XOR\n2 1 115870 115839 84267 XOR\n2 1 86315 115839 29157 XOR\n2 1 88363 115839 29156 XOR\n2 1 29156 29157 29155 AND\n2 1 29155 115839 115840 XOR\n2 1 115871 115840 84268 XOR\n2 1 88364 115840 29159 XOR\n2 1 86316 115840 29160 XOR\n2 1 29159 29160 29158 AND\n2 1 29158 115840 115841 XOR\n2 1 88365 115841 29162 XOR\n2 1 86317 115841 29163 XOR\n2 1 115872 115841 84269 XOR\n2 1 29162 29163 29161 AND\n2 1 29161 115841 115842 XOR\n2 1 115873 115842 84270 XOR\n2 1 86318 115842 29166 XOR\n2 1 88366 115842 29165 XOR\n2 1 29165 29166 29164 AND\n2 1 29164 115842 115843 XOR\n2 1 115874 115843 84271 XOR\n2 1 86319 115843 29169 XOR\n2 1 88367 115843 29168 XOR\n2 1 29168 29169 29167 AND\n2 1 29167 115843 115844 XOR\n2 1 115875 115844 84272 XOR\n2 1 76791 76802 82736 XOR\n2 1 82736 76848 130624 XOR\n2 1 76790 76801 82735 XOR\n2 1 82735 76847 130623 XOR\n2 1 76789 76800 82734 XOR\n2 1 82734 76846 130622 XOR\n2 1 76788 76799 5415 XOR\n2 1 76787 76798 5414 XOR\n2 1 76786 76797 5413 XOR\n2 1 76785 76796 5412 XOR\n2 1 76816 76795 5411 XOR\n2 1 76815 76794 5410 XOR\n2 1 76814 76793 5409 XOR\n2 1 76813 76792 5408 XOR\n2 1 76812 76791 5407 XOR\n2 1 76811 76790 5406 XOR\n2 1 76810 76789 5405 XOR\n2 1 76809 76788 5404 XOR\n2 1 76808 76787 5403 XOR\n2 1 76807 76786 5402 XOR\n2 1 76806 76785 5401 XOR\n2 1 76805 76816 5400 XOR\n2 1 76804 76815 5399 XOR\n2 1 76803 76814 5398 XOR\n2 1 76802 76813 5397 XOR\n2 1 76801 76812 5396 XOR\n2 1 76800 76811 5395 XOR\n2 1 76799 76810 5394 XOR\n2 1 76798 76809 5393 XOR\n2 1 76797 76808 5392 XOR\n2 1 76796 76807 5391 XOR\n",
"2 1 76795 76806 5390 XOR\n2 1 76794 76805 5389 XOR\n2 1 76793 76804 5388 XOR\n2 1 76792 76803 5387 XOR\n2 1 5415 76816 82733 XOR\n2 1 82733 76845 130621 XOR\n2 1 5414 76815 82732 XOR\n2 1 82732 76844 130620 XOR\n2 1 5413 76814 82731 XOR\n2 1 82731 76843 130619 XOR\n2 1 5412 76813 82730 XOR\n2 1 82730 76842 130618 XOR\n2 1 5411 76812 82729 XOR\n2 1 82729 76841 130617 XOR\n2 1 5410 76811 82728 XOR\n2 1 82728 76840 130616 XOR\n2 1 5409 76810 82727 XOR\n2 1 82727 76839 130615 XOR\n2 1 5408 76809 82726 XOR\n2 1 82726 76838 130614 XOR\n2 1 5407 76808 82725 XOR\n2 1 82725 76837 130613 XOR\n2 1 5406 76807 82724 XOR\n2 1 82724 76836 130612 XOR\n2 1 5405 76806 82723 XOR\n2 1 82723 76835 130611 XOR\n2 1 5404 76805 82722 XOR\n2 1 82722 76834 130610 XOR\n2 1 5403 76804 82721 XOR\n2 1 82721 76833 130609 XOR\n2 1 5402 76803 82720 XOR\n2 1 82720 76832 130608 XOR\n2 1 5401 76802 82719 XOR\n2 1 82719 76831 130607 XOR\n2 1 5400 76801 82718 XOR\n2 1 82718 76830 130606 XOR\n2 1 5399 76800 82717 XOR\n2 1 82717 76829 130605 XOR\n2 1 5398 76799 82716 XOR\n2 1 82716 76828 130604 XOR\n2 1 5397 76798 82715 XOR\n2 1 82715 76827 130603 XOR\n2 1 5396 76797 82714 XOR\n2 1 82714 76826 130602 XOR\n2 1 5395 76796 82713 XOR\n2 1 82713 76825 130601 XOR\n2 1 5394 76795 82712 XOR\n2 1 82712 76824 130600 XOR\n2 1 5393 76794 82711 XOR\n2 1 82711 76823 130599 XOR\n2 1 5392 76793 82710 XOR\n2 1 82710 76822 130598 XOR\n2 1 5391 76792 82709 XOR\n2 1 82709 76821 130597 XOR\n2 1 5390 76791 82708 XOR\n2 1 82708 76820 130596 XOR\n2 1 5389 76790 82707 XOR\n2 1 82707 76819 130595 XOR\n2 1 5388 76789 82706 XOR\n2 1 82706 76818 130594 XOR\n2 1 5387 76788 82705 XOR\n2 1 82705 76817 130563 AND\n2 1 82705 76817 78097 XOR\n2 1 79633 78097 130501 AND\n2 1 79633 78097 76305 XOR\n2 1 79634 130501 53886 XOR\n2 1 130594 130563 78098 XOR\n2 1 79634 78098 130532 XOR\n2 1 130532 130501 76306 XOR\n2 1 78098 130501 53887 XOR\n2 1 53886 53887 53885 AND\n2 1 53885 130501 130502 XOR\n2 1 79635 130502 53889 XOR\n2 1 82706 130563 53976 XOR\n2 1 76818 130563 53977 XOR\n2 1 53976 53977 53975 AND\n2 1 53975 130563 130564 XOR\n2 1 130595 130564 78099 XOR\n2 1 79635 78099 130533 XOR\n2 1 130533 130502 76307 XOR\n2 1 78099 130502 53890 XOR\n2 1 53889 53890 53888 AND\n2 1 53888 130502 130503 XOR\n2 1 79636 130503 53892 XOR\n2 1 82707 130564 53979 XOR\n2 1 76819 130564 53980 XOR\n2 1 53979 53980 53978 AND\n2 1 53978 130564 130565 XOR\n2 1 130596 130565 78100 XOR\n2 1 79636 78100 130534 XOR\n2 1 130534 130503 76308 XOR\n2 1 78100 130503 53893 XOR\n2 1 53892 53893 53891 AND\n2 1 53891 130503 130504 XOR\n2 1 79637 130504 53895 XOR\n2 1 82708 130565 53982 XOR\n2 1 76820 130565 53983 XOR\n2 1 53982 53983 53981 AND\n2 1 53981 130565 130566 XOR\n2 1 130597 130566 78101 XOR\n2 1 79637 78101 130535 XOR\n2 1 130535 130504 76309 XOR\n2 1 78101 130504 53896 XOR\n2 1 53895 53896 53894 AND\n2 1 53894 130504 130505 XOR\n2 1 79638 130505 53898 XOR\n2 1 82709 130566 53985 XOR\n2 1 76821 130566 53986 XOR\n2 1 53985 53986 53984 AND\n2 1 53984 130566 130567 XOR\n2 1 130598 130567 78102 XOR\n2 1 79638 78102 130536 XOR\n2 1 130536 130505 76310 XOR\n2 1 78102 130505 53899 XOR\n2 1 53898 53899 53897 AND\n2 1 53897 130505 130506 XOR\n2 1 79639 130506 53901 XOR\n2 1 82710 130567 53988 XOR\n2 1 76822 130567 53989 XOR\n2 1 53988 53989 53987 AND\n2 1 53987 130567 130568 XOR\n2 1 130599 130568 78103 XOR\n2 1 79639 78103 130537 XOR\n2 1 130537 130506 76311 XOR\n2 1 78103 130506 53902 XOR\n2 1 53901 53902 53900 AND\n2 1 53900 130506 130507 XOR\n2 1 79640 130507 53904 XOR\n",
"2 1 82711 130568 53991 XOR\n2 1 76823 130568 53992 XOR\n2 1 53991 53992 53990 AND\n2 1 53990 130568 130569 XOR\n2 1 130600 130569 78104 XOR\n2 1 79640 78104 130538 XOR\n2 1 130538 130507 76312 XOR\n2 1 78104 130507 53905 XOR\n2 1 53904 53905 53903 AND\n2 1 53903 130507 130508 XOR\n2 1 79641 130508 53907 XOR\n2 1 82712 130569 53994 XOR\n2 1 76824 130569 53995 XOR\n2 1 53994 53995 53993 AND\n2 1 53993 130569 130570 XOR\n2 1 130601 130570 78105 XOR\n2 1 79641 78105 130539 XOR\n2 1 130539 130508 76313 XOR\n2 1 78105 130508 53908 XOR\n2 1 53907 53908 53906 AND\n2 1 53906 130508 130509 XOR\n2 1 79642 130509 53910 XOR\n2 1 82713 130570 53997 XOR\n2 1 76825 130570 53998 XOR\n2 1 53997 53998 53996 AND\n2 1 53996 130570 130571 XOR\n2 1 130602 130571 78106 XOR\n2 1 79642 78106 130540 XOR\n2 1 130540 130509 76314 XOR\n2 1 78106 130509 53911 XOR\n2 1 53910 53911 53909 AND\n2 1 53909 130509 130510 XOR\n2 1 79643 130510 53913 XOR\n2 1 82714 130571 54000 XOR\n2 1 76826 130571 54001 XOR\n2 1 54000 54001 53999 AND\n2 1 53999 130571 130572 XOR\n2 1 130603 130572 78107 XOR\n2 1 79643 78107 130541 XOR\n2 1 130541 130510 76315 XOR\n2 1 78107 130510 53914 XOR\n2 1 53913 53914 53912 AND\n2 1 53912 130510 130511 XOR\n2 1 79644 130511 53916 XOR\n2 1 82715 130572 54003 XOR\n2 1 76827 130572 54004 XOR\n2 1 54003 54004 54002 AND\n2 1 54002 130572 130573 XOR\n2 1 130604 130573 78108 XOR\n2 1 79644 78108 130542 XOR\n2 1 130542 130511 76316 XOR\n2 1 78108 130511 53917 XOR\n2 1 53916 53917 53915 AND\n2 1 53915 130511 130512 XOR\n2 1 79645 130512 53919 XOR\n2 1 82716 130573 54006 XOR\n2 1 76828 130573 54007 XOR\n2 1 54006 54007 54005 AND\n2 1 54005 130573 130574 XOR\n2 1 130605 130574 78109 XOR\n2 1 79645 78109 130543 XOR\n2 1 130543 130512 76317 XOR\n2 1 78109 130512 53920 XOR\n2 1 53919 53920 53918 AND\n2 1 53918 130512 130513 XOR\n2 1 79646 130513 53922 XOR\n2 1 82717 130574 54009 XOR\n2 1 76829 130574 54010 XOR\n2 1 54009 54010 54008 AND\n2 1 54008 130574 130575 XOR\n2 1 130606 130575 78110 XOR\n2 1 79646 78110 130544 XOR\n2 1 130544 130513 76318 XOR\n2 1 78110 130513 53923 XOR\n2 1 53922 53923 53921 AND\n2 1 53921 130513 130514 XOR\n2 1 79647 130514 53925 XOR\n2 1 82718 130575 54012 XOR\n2 1 76830 130575 54013 XOR\n2 1 54012 54013 54011 AND\n2 1 54011 130575 130576 XOR\n2 1 130607 130576 78111 XOR\n2 1 79647 78111 130545 XOR\n2 1 130545 130514 76319 XOR\n2 1 78111 130514 53926 XOR\n2 1 53925 53926 53924 AND\n2 1 53924 130514 130515 XOR\n2 1 79648 130515 53928 XOR\n2 1 82719 130576 54015 XOR\n2 1 76831 130576 54016 XOR\n2 1 54015 54016 54014 AND\n2 1 54014 130576 130577 XOR\n2 1 130608 130577 78112 XOR\n2 1 79648 78112 130546 XOR\n2 1 130546 130515 76320 XOR\n2 1 78112 130515 53929 XOR\n2 1 53928 53929 53927 AND\n2 1 53927 130515 130516 XOR\n2 1 79649 130516 53931 XOR\n2 1 82720 130577 54018 XOR\n2 1 76832 130577 54019 XOR\n2 1 54018 54019 54017 AND\n2 1 54017 130577 130578 XOR\n2 1 130609 130578 78113 XOR\n2 1 79649 78113 130547 XOR\n2 1 130547 130516 76321 XOR\n2 1 78113 130516 53932 XOR\n2 1 53931 53932 53930 AND\n2 1 53930 130516 130517 XOR\n2 1 79650 130517 53934 XOR\n2 1 82721 130578 54021 XOR\n2 1 76833 130578 54022 XOR\n2 1 54021 54022 54020 AND\n2 1 54020 130578 130579 XOR\n2 1 130610 130579 78114 XOR\n2 1 79650 78114 130548 XOR\n2 1 130548 130517 76322 XOR\n2 1 78114 130517 53935 XOR\n2 1 53934 53935 53933 AND\n2 1 53933 130517 130518 XOR\n2 1 79651 130518 53937 XOR\n2 1 82722 130579 54024 XOR\n2 1 76834 130579 54025 XOR\n2 1 54024 54025 54023 AND\n2 1 54023 130579 130580 XOR\n2 1 130611 130580 78115 XOR\n2 1 79651 78115 130549 XOR\n2 1 130549 130518 76323 XOR\n",
"2 1 78115 130518 53938 XOR\n2 1 53937 53938 53936 AND\n2 1 53936 130518 130519 XOR\n2 1 79652 130519 53940 XOR\n2 1 82723 130580 54027 XOR\n2 1 76835 130580 54028 XOR\n2 1 54027 54028 54026 AND\n2 1 54026 130580 130581 XOR\n2 1 130612 130581 78116 XOR\n2 1 79652 78116 130550 XOR\n2 1 130550 130519 76324 XOR\n2 1 78116 130519 53941 XOR\n2 1 53940 53941 53939 AND\n2 1 53939 130519 130520 XOR\n2 1 79653 130520 53943 XOR\n2 1 82724 130581 54030 XOR\n2 1 76836 130581 54031 XOR\n2 1 54030 54031 54029 AND\n2 1 54029 130581 130582 XOR\n2 1 130613 130582 78117 XOR\n2 1 79653 78117 130551 XOR\n2 1 130551 130520 76325 XOR\n2 1 78117 130520 53944 XOR\n2 1 53943 53944 53942 AND\n2 1 53942 130520 130521 XOR\n2 1 79654 130521 53946 XOR\n2 1 82725 130582 54033 XOR\n2 1 76837 130582 54034 XOR\n2 1 54033 54034 54032 AND\n2 1 54032 130582 130583 XOR\n2 1 130614 130583 78118 XOR\n2 1 79654 78118 130552 XOR\n2 1 130552 130521 76326 XOR\n2 1 78118 130521 53947 XOR\n2 1 53946 53947 53945 AND\n2 1 53945 130521 130522 XOR\n2 1 79655 130522 53949 XOR\n2 1 82726 130583 54036 XOR\n2 1 76838 130583 54037 XOR\n2 1 54036 54037 54035 AND\n2 1 54035 130583 130584 XOR\n2 1 130615 130584 78119 XOR\n2 1 79655 78119 130553 XOR\n2 1 130553 130522 76327 XOR\n2 1 78119 130522 53950 XOR\n2 1 53949 53950 53948 AND\n2 1 53948 130522 130523 XOR\n2 1 79656 130523 53952 XOR\n2 1 82727 130584 54039 XOR\n2 1 76839 130584 54040 XOR\n2 1 54039 54040 54038 AND\n2 1 54038 130584 130585 XOR\n2 1 130616 130585 78120 XOR\n2 1 79656 78120 130554 XOR\n2 1 130554 130523 76328 XOR\n2 1 78120 130523 53953 XOR\n2 1 53952 53953 53951 AND\n2 1 53951 130523 130524 XOR\n2 1 79657 130524 53955 XOR\n2 1 82728 130585 54042 XOR\n2 1 76840 130585 54043 XOR\n2 1 54042 54043 54041 AND\n2 1 54041 130585 130586 XOR\n2 1 130617 130586 78121 XOR\n2 1 79657 78121 130555 XOR\n2 1 130555 130524 76329 XOR\n2 1 78121 130524 53956 XOR\n2 1 53955 53956 53954 AND\n2 1 53954 130524 130525 XOR\n2 1 79658 130525 53958 XOR\n2 1 82729 130586 54045 XOR\n2 1 76841 130586 54046 XOR\n2 1 54045 54046 54044 AND\n2 1 54044 130586 130587 XOR\n2 1 130618 130587 78122 XOR\n2 1 79658 78122 130556 XOR\n2 1 130556 130525 76330 XOR\n2 1 78122 130525 53959 XOR\n2 1 53958 53959 53957 AND\n2 1 53957 130525 130526 XOR\n2 1 79659 130526 53961 XOR\n2 1 82730 130587 54048 XOR\n2 1 76842 130587 54049 XOR\n2 1 54048 54049 54047 AND\n2 1 54047 130587 130588 XOR\n2 1 130619 130588 78123 XOR\n2 1 79659 78123 130557 XOR\n2 1 130557 130526 76331 XOR\n2 1 78123 130526 53962 XOR\n2 1 53961 53962 53960 AND\n2 1 53960 130526 130527 XOR\n2 1 79660 130527 53964 XOR\n2 1 82731 130588 54051 XOR\n2 1 76843 130588 54052 XOR\n2 1 54051 54052 54050 AND\n2 1 54050 130588 130589 XOR\n2 1 130620 130589 78124 XOR\n2 1 79660 78124 130558 XOR\n2 1 130558 130527 76332 XOR\n2 1 78124 130527 53965 XOR\n2 1 53964 53965 53963 AND\n2 1 53963 130527 130528 XOR\n2 1 79661 130528 53967 XOR\n2 1 82732 130589 54054 XOR\n2 1 76844 130589 54055 XOR\n2 1 54054 54055 54053 AND\n2 1 54053 130589 130590 XOR\n2 1 130621 130590 78125 XOR\n2 1 79661 78125 130559 XOR\n2 1 130559 130528 76333 XOR\n2 1 78125 130528 53968 XOR\n2 1 53967 53968 53966 AND\n2 1 53966 130528 130529 XOR\n2 1 79662 130529 53970 XOR\n2 1 82733 130590 54057 XOR\n2 1 76845 130590 54058 XOR\n2 1 54057 54058 54056 AND\n2 1 54056 130590 130591 XOR\n2 1 130622 130591 78126 XOR\n2 1 79662 78126 130560 XOR\n2 1 130560 130529 76334 XOR\n2 1 78126 130529 53971 XOR\n2 1 53970 53971 53969 AND\n2 1 53969 130529 130530 XOR\n2 1 79663 130530 53973 XOR\n2 1 82734 130591 54060 XOR\n2 1 76846 130591 54061 XOR\n2 1 54060 54061 54059 AND\n",
"2 1 54059 130591 130592 XOR\n2 1 130623 130592 78127 XOR\n2 1 79663 78127 130561 XOR\n2 1 130561 130530 76335 XOR\n2 1 78127 130530 53974 XOR\n2 1 53973 53974 53972 AND\n2 1 53972 130530 130531 XOR\n2 1 82735 130592 54063 XOR\n2 1 76847 130592 54064 XOR\n2 1 54063 54064 54062 AND\n2 1 54062 130592 130593 XOR\n2 1 130624 130593 78128 XOR\n2 1 79664 78128 130562 XOR\n2 1 130562 130531 76336 XOR\n2 1 76319 2446 115982 XOR\n2 1 76325 2452 115988 XOR\n2 1 76327 2454 115990 XOR\n2 1 76326 2453 115989 XOR\n2 1 76316 2443 115979 XOR\n2 1 76305 2432 115938 AND\n2 1 76331 2458 115994 XOR\n2 1 76321 2448 115984 XOR\n2 1 76324 2451 115987 XOR\n2 1 76323 2450 115986 XOR\n2 1 76318 2445 115981 XOR\n2 1 76314 2441 115977 XOR\n2 1 76306 115938 29357 XOR\n2 1 76307 2434 115970 XOR\n2 1 76306 2433 115969 XOR\n2 1 76305 2432 94422 XOR\n2 1 76315 2442 115978 XOR\n2 1 76334 2461 115997 XOR\n2 1 76333 2460 115996 XOR\n2 1 76332 2459 115995 XOR\n2 1 76308 2435 115971 XOR\n2 1 2433 115938 29358 XOR\n2 1 76312 2439 115975 XOR\n2 1 76311 2438 115974 XOR\n2 1 76309 2436 115972 XOR\n2 1 76310 2437 115973 XOR\n2 1 76313 2440 115976 XOR\n2 1 115969 115938 94423 XOR\n2 1 96471 94423 115907 XOR\n2 1 76335 2462 115998 XOR\n2 1 76336 2463 115999 XOR\n2 1 29357 29358 29356 AND\n2 1 29356 115938 115939 XOR\n2 1 76307 115939 29360 XOR\n2 1 115970 115939 94424 XOR\n2 1 2434 115939 29361 XOR\n2 1 29360 29361 29359 AND\n2 1 76320 2447 115983 XOR\n2 1 76322 2449 115985 XOR\n2 1 96470 94422 92405 XOR\n1 1 92405 90385 INV\n2 1 1920 90385 105134 AND\n2 1 1921 105134 11737 XOR\n2 1 90385 84241 1792 XOR\n2 1 1792 1856 70831 XOR\n2 1 70831 70799 70767 AND\n2 1 70767 1856 86257 XOR\n2 1 1792 1824 70703 XOR\n2 1 90385 84241 105196 AND\n2 1 84242 105196 11828 XOR\n2 1 1920 90385 2304 XOR\n2 1 64207 2304 64175 AND\n2 1 64175 2368 98486 XOR\n2 1 2304 2336 64143 XOR\n2 1 96470 94422 115876 AND\n2 1 115907 115876 92406 XOR\n1 1 92406 29253 INV\n2 1 94423 115876 29268 XOR\n2 1 96471 115876 29267 XOR\n2 1 29253 92405 90386 XOR\n2 1 90386 105134 11738 XOR\n2 1 11737 11738 11736 AND\n2 1 11736 105134 105135 XOR\n2 1 1921 90386 105165 XOR\n2 1 1922 105135 11740 XOR\n2 1 105165 105134 2305 XOR\n2 1 64208 2305 64176 AND\n2 1 64176 2369 98487 XOR\n2 1 2305 2337 64144 XOR\n2 1 90386 84242 105227 XOR\n2 1 105227 105196 1793 XOR\n2 1 1793 1857 70832 XOR\n2 1 70832 70800 70768 AND\n2 1 70768 1857 86258 XOR\n2 1 1793 1825 70704 XOR\n2 1 90386 105196 11827 XOR\n2 1 11827 11828 11826 AND\n2 1 11826 105196 105197 XOR\n2 1 84243 105197 11831 XOR\n2 1 92406 92405 29171 XOR\n2 1 29171 90385 29170 AND\n2 1 29170 92405 29173 XOR\n2 1 96472 94424 115908 XOR\n2 1 29267 29268 29266 AND\n2 1 29266 115876 115877 XOR\n2 1 115908 115877 92407 XOR\n2 1 96472 115877 29270 XOR\n2 1 94424 115877 29271 XOR\n2 1 29270 29271 29269 AND\n2 1 29269 115877 115878 XOR\n2 1 96473 115878 29273 XOR\n2 1 92407 29173 90387 XOR\n2 1 90387 29173 29172 AND\n2 1 29172 29173 29241 XOR\n1 1 29241 29176 INV\n2 1 1922 90387 105166 XOR\n2 1 90387 105197 11830 XOR\n2 1 105166 105135 2306 XOR\n2 1 90387 105135 11741 XOR\n2 1 11740 11741 11739 AND\n2 1 11739 105135 105136 XOR\n2 1 1923 105136 11743 XOR\n2 1 64209 2306 64177 AND\n2 1 64177 2370 98488 XOR\n2 1 2306 2338 64145 XOR\n2 1 11830 11831 11829 AND\n2 1 11829 105197 105198 XOR\n2 1 84244 105198 11834 XOR\n2 1 76317 2444 115980 XOR\n2 1 76330 2457 115993 XOR\n2 1 76329 2456 115992 XOR\n2 1 76328 2455 115991 XOR\n2 1 29359 115939 115940 XOR\n2 1 76308 115940 29363 XOR\n",
"2 1 2435 115940 29364 XOR\n2 1 29363 29364 29362 AND\n2 1 29362 115940 115941 XOR\n2 1 115972 115941 94426 XOR\n2 1 76309 115941 29366 XOR\n2 1 2436 115941 29367 XOR\n2 1 29366 29367 29365 AND\n2 1 29365 115941 115942 XOR\n2 1 115973 115942 94427 XOR\n2 1 96475 94427 115911 XOR\n2 1 76310 115942 29369 XOR\n2 1 2437 115942 29370 XOR\n2 1 29369 29370 29368 AND\n2 1 29368 115942 115943 XOR\n2 1 76311 115943 29372 XOR\n2 1 2438 115943 29373 XOR\n2 1 29372 29373 29371 AND\n2 1 115974 115943 94428 XOR\n2 1 96476 94428 115912 XOR\n2 1 115971 115940 94425 XOR\n2 1 96473 94425 115909 XOR\n2 1 94425 115878 29274 XOR\n2 1 115909 115878 92408 XOR\n2 1 92408 29241 29175 XOR\n2 1 29273 29274 29272 AND\n2 1 29272 115878 115879 XOR\n2 1 94426 115879 29277 XOR\n2 1 29175 29176 29174 AND\n2 1 29174 29241 29178 XOR\n2 1 29371 115943 115944 XOR\n2 1 2439 115944 29376 XOR\n2 1 115975 115944 94429 XOR\n2 1 76312 115944 29375 XOR\n2 1 29375 29376 29374 AND\n2 1 29374 115944 115945 XOR\n2 1 2440 115945 29379 XOR\n2 1 115976 115945 94430 XOR\n2 1 96478 94430 115914 XOR\n2 1 76313 115945 29378 XOR\n2 1 29378 29379 29377 AND\n2 1 29377 115945 115946 XOR\n2 1 76314 115946 29381 XOR\n2 1 2441 115946 29382 XOR\n2 1 29381 29382 29380 AND\n2 1 29380 115946 115947 XOR\n2 1 115978 115947 94432 XOR\n2 1 96480 94432 115916 XOR\n2 1 76315 115947 29384 XOR\n2 1 2442 115947 29385 XOR\n2 1 29384 29385 29383 AND\n2 1 29383 115947 115948 XOR\n2 1 115979 115948 94433 XOR\n2 1 96481 94433 115917 XOR\n2 1 76316 115948 29387 XOR\n2 1 2443 115948 29388 XOR\n2 1 29387 29388 29386 AND\n2 1 29386 115948 115949 XOR\n2 1 115980 115949 94434 XOR\n2 1 96482 94434 115918 XOR\n2 1 76317 115949 29390 XOR\n2 1 2444 115949 29391 XOR\n2 1 29390 29391 29389 AND\n2 1 29389 115949 115950 XOR\n2 1 2445 115950 29394 XOR\n2 1 115981 115950 94435 XOR\n2 1 96483 94435 115919 XOR\n2 1 115977 115946 94431 XOR\n2 1 96479 94431 115915 XOR\n2 1 76318 115950 29393 XOR\n2 1 29393 29394 29392 AND\n2 1 29392 115950 115951 XOR\n2 1 115982 115951 94436 XOR\n2 1 96484 94436 115920 XOR\n2 1 76319 115951 29396 XOR\n2 1 2446 115951 29397 XOR\n2 1 29396 29397 29395 AND\n2 1 29395 115951 115952 XOR\n2 1 115983 115952 94437 XOR\n2 1 96485 94437 115921 XOR\n2 1 76320 115952 29399 XOR\n2 1 2447 115952 29400 XOR\n2 1 29399 29400 29398 AND\n2 1 29398 115952 115953 XOR\n2 1 115984 115953 94438 XOR\n2 1 96486 94438 115922 XOR\n2 1 76321 115953 29402 XOR\n2 1 2448 115953 29403 XOR\n2 1 29402 29403 29401 AND\n2 1 29401 115953 115954 XOR\n2 1 115985 115954 94439 XOR\n2 1 96487 94439 115923 XOR\n2 1 76322 115954 29405 XOR\n2 1 2449 115954 29406 XOR\n2 1 29405 29406 29404 AND\n2 1 29404 115954 115955 XOR\n2 1 115986 115955 94440 XOR\n2 1 96488 94440 115924 XOR\n2 1 76323 115955 29408 XOR\n2 1 2450 115955 29409 XOR\n2 1 29408 29409 29407 AND\n2 1 29407 115955 115956 XOR\n2 1 115987 115956 94441 XOR\n2 1 96489 94441 115925 XOR\n2 1 76324 115956 29411 XOR\n2 1 2451 115956 29412 XOR\n2 1 29411 29412 29410 AND\n2 1 29410 115956 115957 XOR\n2 1 115988 115957 94442 XOR\n2 1 96490 94442 115926 XOR\n2 1 76325 115957 29414 XOR\n2 1 2452 115957 29415 XOR\n2 1 29414 29415 29413 AND\n2 1 29413 115957 115958 XOR\n2 1 2453 115958 29418 XOR\n2 1 115989 115958 94443 XOR\n2 1 76326 115958 29417 XOR\n2 1 29417 29418 29416 AND\n2 1 96491 94443 115927 XOR\n2 1 29416 115958 115959 XOR\n2 1 115990 115959 94444 XOR\n2 1 96492 94444 115928 XOR\n2 1 76327 115959 29420 XOR\n2 1 2454 115959 29421 XOR\n2 1 29420 29421 29419 AND\n2 1 29419 115959 115960 XOR\n2 1 115991 115960 94445 XOR\n2 1 96493 94445 115929 XOR\n2 1 2455 115960 29424 XOR\n",
"2 1 96477 94429 115913 XOR\n2 1 76328 115960 29423 XOR\n2 1 29423 29424 29422 AND\n2 1 29422 115960 115961 XOR\n2 1 76329 115961 29426 XOR\n2 1 2456 115961 29427 XOR\n2 1 29426 29427 29425 AND\n2 1 29425 115961 115962 XOR\n2 1 115993 115962 94447 XOR\n2 1 96495 94447 115931 XOR\n2 1 76330 115962 29429 XOR\n2 1 2457 115962 29430 XOR\n2 1 29429 29430 29428 AND\n2 1 29428 115962 115963 XOR\n2 1 115994 115963 94448 XOR\n2 1 96496 94448 115932 XOR\n2 1 76331 115963 29432 XOR\n2 1 2458 115963 29433 XOR\n2 1 29432 29433 29431 AND\n2 1 29431 115963 115964 XOR\n2 1 115995 115964 94449 XOR\n2 1 96497 94449 115933 XOR\n2 1 76332 115964 29435 XOR\n2 1 2459 115964 29436 XOR\n2 1 29435 29436 29434 AND\n2 1 29434 115964 115965 XOR\n2 1 76333 115965 29438 XOR\n2 1 2460 115965 29439 XOR\n2 1 115996 115965 94450 XOR\n2 1 96498 94450 115934 XOR\n2 1 29438 29439 29437 AND\n2 1 29437 115965 115966 XOR\n2 1 115997 115966 94451 XOR\n2 1 115992 115961 94446 XOR\n2 1 96494 94446 115930 XOR\n2 1 76334 115966 29441 XOR\n2 1 2461 115966 29442 XOR\n2 1 29441 29442 29440 AND\n2 1 29440 115966 115967 XOR\n2 1 76335 115967 29444 XOR\n2 1 2462 115967 29445 XOR\n2 1 115998 115967 94452 XOR\n2 1 96500 94452 115936 XOR\n2 1 29444 29445 29443 AND\n2 1 29443 115967 115968 XOR\n2 1 115999 115968 94453 XOR\n1 1 92408 29254 INV\n2 1 29254 29241 90388 XOR\n2 1 90388 84244 105229 XOR\n2 1 105229 105198 1795 XOR\n2 1 1795 1859 70834 XOR\n2 1 70834 70802 70770 AND\n2 1 70770 1859 86260 XOR\n2 1 1795 1827 70706 XOR\n2 1 90388 105198 11833 XOR\n2 1 11833 11834 11832 AND\n2 1 11832 105198 105199 XOR\n2 1 84245 105199 11837 XOR\n2 1 90388 105136 11744 XOR\n2 1 11743 11744 11742 AND\n2 1 1923 90388 105167 XOR\n2 1 105167 105136 2307 XOR\n2 1 64210 2307 64178 AND\n2 1 64178 2371 98489 XOR\n2 1 2307 2339 64146 XOR\n2 1 96499 94451 115935 XOR\n2 1 96474 115879 29276 XOR\n2 1 29276 29277 29275 AND\n2 1 96474 94426 115910 XOR\n2 1 115910 115879 92409 XOR\n2 1 92409 29178 90389 XOR\n2 1 1924 90389 105168 XOR\n2 1 90389 29178 29177 AND\n2 1 29177 29178 29180 XOR\n2 1 90389 105199 11836 XOR\n2 1 11836 11837 11835 AND\n2 1 11835 105199 105200 XOR\n2 1 84246 105200 11840 XOR\n2 1 90389 84245 105230 XOR\n2 1 105230 105199 1796 XOR\n2 1 1796 1860 70835 XOR\n2 1 70835 70803 70771 AND\n2 1 70771 1860 86261 XOR\n2 1 1796 1828 70707 XOR\n2 1 96501 94453 115937 XOR\n2 1 29275 115879 115880 XOR\n2 1 115911 115880 92410 XOR\n2 1 92410 29180 90390 XOR\n2 1 90390 29180 29179 AND\n2 1 29179 29180 29242 XOR\n1 1 29242 29183 INV\n2 1 90390 84246 105231 XOR\n2 1 90390 105200 11839 XOR\n2 1 105231 105200 1797 XOR\n2 1 1797 1861 70836 XOR\n2 1 70836 70804 70772 AND\n2 1 70772 1861 86262 XOR\n2 1 1797 1829 70708 XOR\n2 1 96475 115880 29279 XOR\n2 1 1925 90390 105169 XOR\n2 1 11839 11840 11838 AND\n2 1 11838 105200 105201 XOR\n2 1 84247 105201 11843 XOR\n2 1 94427 115880 29280 XOR\n2 1 29279 29280 29278 AND\n2 1 29278 115880 115881 XOR\n2 1 96476 115881 29282 XOR\n2 1 115912 115881 92411 XOR\n2 1 92411 29242 29182 XOR\n2 1 29182 29183 29181 AND\n2 1 29181 29242 29185 XOR\n1 1 92411 29255 INV\n2 1 29255 29242 90391 XOR\n2 1 90391 84247 105232 XOR\n2 1 90391 105201 11842 XOR\n2 1 11842 11843 11841 AND\n2 1 11841 105201 105202 XOR\n2 1 105232 105201 1798 XOR\n2 1 1798 1862 70837 XOR\n2 1 70837 70805 70773 AND\n2 1 70773 1862 86263 XOR\n2 1 1798 1830 70709 XOR\n2 1 1926 90391 105170 XOR\n2 1 84248 105202 11846 XOR\n2 1 94428 115881 29283 XOR\n2 1 29282 29283 29281 AND\n2 1 29281 115881 115882 XOR\n2 1 115913 115882 92412 XOR\n",
"2 1 92412 29185 90392 XOR\n2 1 94429 115882 29286 XOR\n2 1 96477 115882 29285 XOR\n2 1 90392 84248 105233 XOR\n2 1 105233 105202 1799 XOR\n2 1 1799 1863 70838 XOR\n2 1 70838 70806 70774 AND\n2 1 70774 1863 86264 XOR\n2 1 1799 1831 70710 XOR\n2 1 29285 29286 29284 AND\n2 1 29284 115882 115883 XOR\n2 1 115914 115883 92413 XOR\n2 1 94430 115883 29289 XOR\n2 1 96478 115883 29288 XOR\n2 1 29288 29289 29287 AND\n2 1 29287 115883 115884 XOR\n2 1 94431 115884 29292 XOR\n2 1 96479 115884 29291 XOR\n2 1 29291 29292 29290 AND\n2 1 115915 115884 92414 XOR\n1 1 92414 29256 INV\n2 1 29290 115884 115885 XOR\n2 1 115916 115885 92415 XOR\n2 1 94432 115885 29295 XOR\n1 1 92415 29257 INV\n2 1 96480 115885 29294 XOR\n2 1 29294 29295 29293 AND\n2 1 29293 115885 115886 XOR\n2 1 94433 115886 29298 XOR\n2 1 115917 115886 92416 XOR\n2 1 90392 29185 29184 AND\n2 1 96481 115886 29297 XOR\n2 1 29297 29298 29296 AND\n2 1 29296 115886 115887 XOR\n2 1 94434 115887 29301 XOR\n2 1 115918 115887 92417 XOR\n2 1 90392 105202 11845 XOR\n2 1 11845 11846 11844 AND\n2 1 11844 105202 105203 XOR\n2 1 84249 105203 11849 XOR\n2 1 29184 29185 29187 XOR\n2 1 92413 29187 90393 XOR\n2 1 90393 84249 105234 XOR\n2 1 1928 90393 105172 XOR\n2 1 90393 29187 29186 AND\n2 1 29186 29187 29243 XOR\n2 1 92414 29243 29189 XOR\n1 1 29243 29190 INV\n2 1 105234 105203 1800 XOR\n2 1 1800 1864 70839 XOR\n2 1 70839 70807 70775 AND\n2 1 70775 1864 86265 XOR\n2 1 1800 1832 70711 XOR\n2 1 29189 29190 29188 AND\n2 1 29188 29243 29244 XOR\n2 1 29257 29244 90395 XOR\n2 1 92415 29244 29192 XOR\n1 1 29244 29193 INV\n2 1 29192 29193 29191 AND\n2 1 29191 29244 29195 XOR\n2 1 92416 29195 90396 XOR\n2 1 90396 29195 29194 AND\n2 1 90396 84252 105237 XOR\n2 1 90395 84251 105236 XOR\n2 1 1931 90396 105175 XOR\n2 1 29194 29195 29197 XOR\n2 1 92417 29197 90397 XOR\n2 1 90397 29197 29196 AND\n2 1 29196 29197 29245 XOR\n1 1 29245 29200 INV\n2 1 1932 90397 105176 XOR\n2 1 90397 84253 105238 XOR\n2 1 29256 29243 90394 XOR\n2 1 90394 84250 105235 XOR\n2 1 96482 115887 29300 XOR\n2 1 29300 29301 29299 AND\n2 1 29299 115887 115888 XOR\n2 1 94435 115888 29304 XOR\n2 1 96483 115888 29303 XOR\n2 1 29303 29304 29302 AND\n2 1 115919 115888 92418 XOR\n1 1 92418 29258 INV\n2 1 92418 29245 29199 XOR\n2 1 29258 29245 90398 XOR\n2 1 29199 29200 29198 AND\n2 1 29198 29245 29246 XOR\n1 1 29246 29203 INV\n2 1 1933 90398 105177 XOR\n2 1 90398 84254 105239 XOR\n2 1 29302 115888 115889 XOR\n2 1 115920 115889 92419 XOR\n1 1 92419 29259 INV\n2 1 29259 29246 90399 XOR\n2 1 94436 115889 29307 XOR\n2 1 96484 115889 29306 XOR\n2 1 29306 29307 29305 AND\n2 1 29305 115889 115890 XOR\n2 1 94437 115890 29310 XOR\n2 1 96485 115890 29309 XOR\n2 1 29309 29310 29308 AND\n2 1 115921 115890 92420 XOR\n2 1 29308 115890 115891 XOR\n2 1 92419 29246 29202 XOR\n2 1 29202 29203 29201 AND\n2 1 29201 29246 29205 XOR\n2 1 1934 90399 105178 XOR\n2 1 90399 84255 105240 XOR\n2 1 96486 115891 29312 XOR\n2 1 94438 115891 29313 XOR\n2 1 92420 29205 90400 XOR\n2 1 90400 29205 29204 AND\n2 1 29204 29205 29207 XOR\n2 1 90400 84256 105241 XOR\n2 1 1935 90400 105179 XOR\n2 1 29312 29313 29311 AND\n2 1 29311 115891 115892 XOR\n2 1 96487 115892 29315 XOR\n2 1 115923 115892 92422 XOR\n1 1 92422 29260 INV\n2 1 94439 115892 29316 XOR\n2 1 29315 29316 29314 AND\n2 1 29314 115892 115893 XOR\n2 1 115924 115893 92423 XOR\n2 1 115922 115891 92421 XOR\n2 1 92421 29207 90401 XOR\n2 1 90401 84257 105242 XOR\n2 1 1936 90401 105180 XOR\n2 1 90401 29207 29206 AND\n",
"2 1 29206 29207 29247 XOR\n2 1 29260 29247 90402 XOR\n2 1 92422 29247 29209 XOR\n1 1 29247 29210 INV\n2 1 29209 29210 29208 AND\n2 1 90402 84258 105243 XOR\n2 1 29208 29247 29212 XOR\n2 1 92423 29212 90403 XOR\n2 1 90403 29212 29211 AND\n2 1 29211 29212 29248 XOR\n1 1 29248 29215 INV\n2 1 90403 84259 105244 XOR\n2 1 1938 90403 105182 XOR\n2 1 94440 115893 29319 XOR\n2 1 96488 115893 29318 XOR\n2 1 29318 29319 29317 AND\n2 1 29317 115893 115894 XOR\n2 1 115925 115894 92424 XOR\n1 1 92424 29261 INV\n2 1 29261 29248 90404 XOR\n2 1 90404 84260 105245 XOR\n2 1 92424 29248 29214 XOR\n2 1 29214 29215 29213 AND\n2 1 29213 29248 29249 XOR\n2 1 94441 115894 29322 XOR\n2 1 96489 115894 29321 XOR\n2 1 29321 29322 29320 AND\n1 1 29249 29218 INV\n2 1 1939 90404 105183 XOR\n2 1 29320 115894 115895 XOR\n2 1 115926 115895 92425 XOR\n1 1 92425 29262 INV\n2 1 92425 29249 29217 XOR\n2 1 29217 29218 29216 AND\n2 1 29262 29249 90405 XOR\n2 1 29216 29249 29220 XOR\n2 1 94442 115895 29325 XOR\n2 1 96490 115895 29324 XOR\n2 1 29324 29325 29323 AND\n2 1 29323 115895 115896 XOR\n2 1 94443 115896 29328 XOR\n2 1 96491 115896 29327 XOR\n2 1 29327 29328 29326 AND\n2 1 115927 115896 92426 XOR\n2 1 92426 29220 90406 XOR\n2 1 90406 29220 29219 AND\n2 1 29219 29220 29222 XOR\n2 1 90406 84262 105247 XOR\n2 1 29326 115896 115897 XOR\n2 1 1940 90405 105184 XOR\n2 1 1941 90406 105185 XOR\n2 1 90405 84261 105246 XOR\n2 1 94444 115897 29331 XOR\n2 1 96492 115897 29330 XOR\n2 1 29330 29331 29329 AND\n2 1 29329 115897 115898 XOR\n2 1 96493 115898 29333 XOR\n2 1 94445 115898 29334 XOR\n2 1 29333 29334 29332 AND\n2 1 29332 115898 115899 XOR\n2 1 115929 115898 92428 XOR\n2 1 115930 115899 92429 XOR\n2 1 115928 115897 92427 XOR\n2 1 92427 29222 90407 XOR\n2 1 90407 29222 29221 AND\n2 1 29221 29222 29224 XOR\n2 1 1942 90407 105186 XOR\n2 1 92428 29224 90408 XOR\n2 1 1943 90408 105187 XOR\n2 1 90407 84263 105248 XOR\n2 1 90408 84264 105249 XOR\n2 1 90408 29224 29223 AND\n2 1 29223 29224 29226 XOR\n2 1 92429 29226 90409 XOR\n2 1 1944 90409 105188 XOR\n2 1 90409 84265 105250 XOR\n2 1 90409 29226 29225 AND\n2 1 29225 29226 29228 XOR\n2 1 94446 115899 29337 XOR\n2 1 96494 115899 29336 XOR\n2 1 29336 29337 29335 AND\n2 1 29335 115899 115900 XOR\n2 1 94447 115900 29340 XOR\n2 1 96495 115900 29339 XOR\n2 1 29339 29340 29338 AND\n2 1 29338 115900 115901 XOR\n2 1 115932 115901 92431 XOR\n2 1 94448 115901 29343 XOR\n2 1 96496 115901 29342 XOR\n2 1 29342 29343 29341 AND\n2 1 29341 115901 115902 XOR\n2 1 96497 115902 29345 XOR\n2 1 115933 115902 92432 XOR\n1 1 92432 29263 INV\n2 1 94449 115902 29346 XOR\n2 1 29345 29346 29344 AND\n2 1 29344 115902 115903 XOR\n2 1 94450 115903 29349 XOR\n2 1 115934 115903 92433 XOR\n2 1 96498 115903 29348 XOR\n2 1 29348 29349 29347 AND\n2 1 29347 115903 115904 XOR\n2 1 94451 115904 29352 XOR\n2 1 115935 115904 92434 XOR\n1 1 92434 29264 INV\n2 1 96499 115904 29351 XOR\n2 1 29351 29352 29350 AND\n2 1 29350 115904 115905 XOR\n2 1 115936 115905 92435 XOR\n2 1 96500 115905 29354 XOR\n2 1 115931 115900 92430 XOR\n2 1 92430 29228 90410 XOR\n2 1 1945 90410 105189 XOR\n2 1 90410 84266 105251 XOR\n2 1 90410 29228 29227 AND\n2 1 29227 29228 29230 XOR\n2 1 92431 29230 90411 XOR\n2 1 90411 29230 29229 AND\n2 1 29229 29230 29250 XOR\n2 1 92432 29250 29232 XOR\n1 1 29250 29233 INV\n2 1 29232 29233 29231 AND\n2 1 29231 29250 29235 XOR\n2 1 92433 29235 90413 XOR\n2 1 90413 29235 29234 AND\n2 1 90413 84269 105254 XOR\n2 1 1948 90413 105192 XOR\n2 1 29234 29235 29251 XOR\n",
"2 1 29264 29251 90414 XOR\n2 1 90414 84270 105255 XOR\n2 1 1949 90414 105193 XOR\n1 1 29251 29238 INV\n2 1 29263 29250 90412 XOR\n2 1 90412 84268 105253 XOR\n2 1 1947 90412 105191 XOR\n2 1 90411 84267 105252 XOR\n2 1 1946 90411 105190 XOR\n2 1 92434 29251 29237 XOR\n2 1 29237 29238 29236 AND\n2 1 29236 29251 29240 XOR\n2 1 92435 29240 90415 XOR\n2 1 90415 29240 29239 AND\n2 1 29239 29240 29252 XOR\n2 1 90415 84271 105256 XOR\n2 1 1950 90415 105194 XOR\n2 1 94452 115905 29355 XOR\n2 1 29354 29355 29353 AND\n2 1 29353 115905 115906 XOR\n2 1 115937 115906 92436 XOR\n1 1 92436 29265 INV\n2 1 29265 29252 90416 XOR\n2 1 1951 90416 105195 XOR\n2 1 90416 84272 105257 XOR\n2 1 90387 84243 105228 XOR\n2 1 105228 105197 1794 XOR\n2 1 1794 1858 70833 XOR\n2 1 70833 70801 70769 AND\n2 1 70769 1858 86259 XOR\n2 1 1794 1826 70705 XOR\n2 1 90393 105203 11848 XOR\n2 1 11848 11849 11847 AND\n2 1 11847 105203 105204 XOR\n2 1 90394 105204 11851 XOR\n2 1 84250 105204 11852 XOR\n2 1 11851 11852 11850 AND\n2 1 11850 105204 105205 XOR\n2 1 90395 105205 11854 XOR\n2 1 105236 105205 1802 XOR\n2 1 1802 1866 70841 XOR\n2 1 70841 70809 70777 AND\n2 1 70777 1866 86267 XOR\n2 1 1802 1834 70713 XOR\n2 1 84251 105205 11855 XOR\n2 1 11854 11855 11853 AND\n2 1 11853 105205 105206 XOR\n2 1 105237 105206 1803 XOR\n2 1 1803 1867 70842 XOR\n2 1 70842 70810 70778 AND\n2 1 70778 1867 86268 XOR\n2 1 1803 1835 70714 XOR\n2 1 1792 1803 67437 XOR\n2 1 84252 105206 11858 XOR\n2 1 90396 105206 11857 XOR\n2 1 11857 11858 11856 AND\n2 1 11856 105206 105207 XOR\n2 1 90397 105207 11860 XOR\n2 1 105235 105204 1801 XOR\n2 1 1801 1865 70840 XOR\n2 1 70840 70808 70776 AND\n2 1 70776 1865 86266 XOR\n2 1 1801 1833 70712 XOR\n2 1 84253 105207 11861 XOR\n2 1 11860 11861 11859 AND\n2 1 105238 105207 1804 XOR\n2 1 1804 1868 70843 XOR\n2 1 70843 70811 70779 AND\n2 1 70779 1868 86269 XOR\n2 1 1804 1836 70715 XOR\n2 1 1793 1804 67438 XOR\n2 1 11859 105207 105208 XOR\n2 1 90398 105208 11863 XOR\n2 1 84254 105208 11864 XOR\n2 1 11863 11864 11862 AND\n2 1 11862 105208 105209 XOR\n2 1 105240 105209 1806 XOR\n2 1 1806 1870 70845 XOR\n2 1 70845 70813 70781 AND\n2 1 70781 1870 86271 XOR\n2 1 1806 1838 70717 XOR\n2 1 1795 1806 67408 XOR\n2 1 105239 105208 1805 XOR\n2 1 1805 1869 70844 XOR\n2 1 70844 70812 70780 AND\n2 1 70780 1869 86270 XOR\n2 1 1805 1837 70716 XOR\n2 1 1794 1805 67407 XOR\n2 1 84255 105209 11867 XOR\n2 1 90399 105209 11866 XOR\n2 1 11866 11867 11865 AND\n2 1 11865 105209 105210 XOR\n2 1 84256 105210 11870 XOR\n2 1 90400 105210 11869 XOR\n2 1 11869 11870 11868 AND\n2 1 105241 105210 1807 XOR\n2 1 1807 1871 70846 XOR\n2 1 70846 70814 70782 AND\n2 1 70782 1871 86272 XOR\n2 1 1807 1839 70718 XOR\n2 1 1796 1807 67409 XOR\n2 1 11868 105210 105211 XOR\n2 1 84257 105211 11873 XOR\n2 1 105242 105211 1808 XOR\n2 1 90401 105211 11872 XOR\n2 1 11872 11873 11871 AND\n2 1 1808 1872 70847 XOR\n2 1 70847 70815 70783 AND\n2 1 70783 1872 86273 XOR\n2 1 1808 1840 70719 XOR\n2 1 11871 105211 105212 XOR\n2 1 105243 105212 1809 XOR\n2 1 84258 105212 11876 XOR\n2 1 1809 1873 70848 XOR\n2 1 70848 70816 70784 AND\n2 1 70784 1873 86274 XOR\n2 1 1809 1841 70720 XOR\n2 1 90402 105212 11875 XOR\n2 1 11875 11876 11874 AND\n2 1 11874 105212 105213 XOR\n2 1 105244 105213 1810 XOR\n2 1 1810 1874 70849 XOR\n2 1 70849 70817 70785 AND\n2 1 70785 1874 86275 XOR\n2 1 1810 1842 70721 XOR\n2 1 1799 1810 67412 XOR\n2 1 1798 1809 67411 XOR\n2 1 1797 1808 67410 XOR\n",
"2 1 90403 105213 11878 XOR\n2 1 84259 105213 11879 XOR\n2 1 11878 11879 11877 AND\n2 1 11877 105213 105214 XOR\n2 1 84260 105214 11882 XOR\n2 1 90404 105214 11881 XOR\n2 1 11881 11882 11880 AND\n2 1 11880 105214 105215 XOR\n2 1 105246 105215 1812 XOR\n2 1 90405 105215 11884 XOR\n2 1 1812 1876 70851 XOR\n2 1 70851 70819 70787 AND\n2 1 70787 1876 86277 XOR\n2 1 1812 1844 70723 XOR\n2 1 1801 1812 67414 XOR\n2 1 67437 1812 88335 XOR\n2 1 105245 105214 1811 XOR\n2 1 1811 1875 70850 XOR\n2 1 70850 70818 70786 AND\n2 1 70786 1875 86276 XOR\n2 1 1811 1843 70722 XOR\n2 1 1800 1811 67413 XOR\n2 1 84261 105215 11885 XOR\n2 1 11884 11885 11883 AND\n2 1 11883 105215 105216 XOR\n2 1 105247 105216 1813 XOR\n2 1 1813 1877 70852 XOR\n2 1 70852 70820 70788 AND\n2 1 70788 1877 86278 XOR\n2 1 1813 1845 70724 XOR\n2 1 1813 1792 67426 XOR\n2 1 1802 1813 67415 XOR\n2 1 67438 1813 88336 XOR\n2 1 67426 1801 88324 XOR\n2 1 88324 86276 115615 XOR\n2 1 90406 105216 11887 XOR\n2 1 84262 105216 11888 XOR\n2 1 11887 11888 11886 AND\n2 1 11886 105216 105217 XOR\n2 1 105248 105217 1814 XOR\n2 1 84263 105217 11891 XOR\n2 1 1814 1878 70853 XOR\n2 1 70853 70821 70789 AND\n2 1 70789 1878 86279 XOR\n2 1 1814 1846 70725 XOR\n2 1 90407 105217 11890 XOR\n2 1 11890 11891 11889 AND\n2 1 1814 1793 67427 XOR\n2 1 1803 1814 67416 XOR\n2 1 67427 1802 88325 XOR\n2 1 88325 86277 115616 XOR\n2 1 67407 1814 88305 XOR\n2 1 88305 86257 84209 XOR\n2 1 88305 86257 115566 AND\n2 1 11889 105217 105218 XOR\n2 1 84264 105218 11894 XOR\n2 1 105249 105218 1815 XOR\n2 1 1815 1879 70854 XOR\n2 1 70854 70822 70790 AND\n2 1 70790 1879 86280 XOR\n2 1 1815 1847 70726 XOR\n2 1 90408 105218 11893 XOR\n2 1 11893 11894 11892 AND\n2 1 11892 105218 105219 XOR\n2 1 90409 105219 11896 XOR\n2 1 84265 105219 11897 XOR\n2 1 11896 11897 11895 AND\n2 1 11895 105219 105220 XOR\n2 1 90410 105220 11899 XOR\n2 1 105250 105219 1816 XOR\n2 1 1816 1880 70855 XOR\n2 1 70855 70823 70791 AND\n2 1 70791 1880 86281 XOR\n2 1 1816 1848 70727 XOR\n2 1 1816 1795 67429 XOR\n2 1 1815 1794 67428 XOR\n2 1 1805 1816 67418 XOR\n2 1 1804 1815 67417 XOR\n2 1 67429 1804 88327 XOR\n2 1 88327 86279 115618 XOR\n2 1 67428 1803 88326 XOR\n2 1 88326 86278 115617 XOR\n2 1 67418 1793 88316 XOR\n2 1 88316 86268 115607 XOR\n2 1 67417 1792 88315 XOR\n2 1 88315 86267 115606 XOR\n2 1 67409 1816 88307 XOR\n2 1 88307 86259 115598 XOR\n2 1 67408 1815 88306 XOR\n2 1 88306 86258 115597 XOR\n2 1 84266 105220 11900 XOR\n2 1 11899 11900 11898 AND\n2 1 11898 105220 105221 XOR\n2 1 84267 105221 11903 XOR\n2 1 90411 105221 11902 XOR\n2 1 11902 11903 11901 AND\n2 1 11901 105221 105222 XOR\n2 1 105253 105222 1819 XOR\n2 1 1819 1883 70858 XOR\n2 1 70858 70826 70794 AND\n2 1 70794 1883 86284 XOR\n2 1 1819 1851 70730 XOR\n2 1 1819 1798 67432 XOR\n2 1 1808 1819 67421 XOR\n2 1 67432 1807 88330 XOR\n2 1 67421 1796 88319 XOR\n2 1 88319 86271 115610 XOR\n2 1 67412 1819 88310 XOR\n2 1 88310 86262 115601 XOR\n2 1 105252 105221 1818 XOR\n2 1 1818 1882 70857 XOR\n2 1 70857 70825 70793 AND\n2 1 70793 1882 86283 XOR\n2 1 1818 1850 70729 XOR\n2 1 1818 1797 67431 XOR\n2 1 1807 1818 67420 XOR\n2 1 67431 1806 88329 XOR\n2 1 67420 1795 88318 XOR\n2 1 88318 86270 115609 XOR\n2 1 67411 1818 88309 XOR\n2 1 88309 86261 115600 XOR\n2 1 105251 105220 1817 XOR\n2 1 1817 1881 70856 XOR\n2 1 70856 70824 70792 AND\n2 1 70792 1881 86282 XOR\n2 1 1817 1849 70728 XOR\n2 1 1817 1796 67430 XOR\n2 1 1806 1817 67419 XOR\n",
"2 1 67430 1805 88328 XOR\n2 1 88328 86280 115619 XOR\n2 1 67419 1794 88317 XOR\n2 1 88317 86269 115608 XOR\n2 1 67410 1817 88308 XOR\n2 1 88308 86260 115599 XOR\n2 1 88329 86281 115620 XOR\n2 1 88330 86282 115621 XOR\n2 1 115597 115566 84210 XOR\n2 1 86258 115566 28634 XOR\n2 1 88306 115566 28633 XOR\n2 1 28633 28634 28632 AND\n2 1 28632 115566 115567 XOR\n2 1 115598 115567 84211 XOR\n2 1 86259 115567 28637 XOR\n2 1 88307 115567 28636 XOR\n2 1 28636 28637 28635 AND\n2 1 28635 115567 115568 XOR\n2 1 115599 115568 84212 XOR\n2 1 86260 115568 28640 XOR\n2 1 88308 115568 28639 XOR\n2 1 28639 28640 28638 AND\n2 1 28638 115568 115569 XOR\n2 1 115600 115569 84213 XOR\n2 1 86261 115569 28643 XOR\n2 1 88309 115569 28642 XOR\n2 1 28642 28643 28641 AND\n2 1 28641 115569 115570 XOR\n2 1 115601 115570 84214 XOR\n2 1 86262 115570 28646 XOR\n2 1 88310 115570 28645 XOR\n2 1 28645 28646 28644 AND\n2 1 28644 115570 115571 XOR\n2 1 86263 115571 28649 XOR\n2 1 90412 105222 11905 XOR\n2 1 84268 105222 11906 XOR\n2 1 11905 11906 11904 AND\n2 1 11904 105222 105223 XOR\n2 1 84269 105223 11909 XOR\n2 1 105254 105223 1820 XOR\n2 1 1820 1884 70859 XOR\n2 1 70859 70827 70795 AND\n2 1 70795 1884 86285 XOR\n2 1 1820 1852 70731 XOR\n2 1 1820 1799 67433 XOR\n2 1 1809 1820 67422 XOR\n2 1 67433 1808 88331 XOR\n2 1 67422 1797 88320 XOR\n2 1 88320 86272 115611 XOR\n2 1 67413 1820 88311 XOR\n2 1 88311 86263 115602 XOR\n2 1 88331 86283 115622 XOR\n2 1 115602 115571 84215 XOR\n2 1 88311 115571 28648 XOR\n2 1 28648 28649 28647 AND\n2 1 28647 115571 115572 XOR\n2 1 86264 115572 28652 XOR\n2 1 90413 105223 11908 XOR\n2 1 11908 11909 11907 AND\n2 1 11907 105223 105224 XOR\n2 1 105255 105224 1821 XOR\n2 1 90414 105224 11911 XOR\n2 1 1821 1885 70860 XOR\n2 1 70860 70828 70796 AND\n2 1 70796 1885 86286 XOR\n2 1 1821 1853 70732 XOR\n2 1 84270 105224 11912 XOR\n2 1 11911 11912 11910 AND\n2 1 1821 1800 67434 XOR\n2 1 1810 1821 67423 XOR\n2 1 67434 1809 88332 XOR\n2 1 88332 86284 115623 XOR\n2 1 67423 1798 88321 XOR\n2 1 88321 86273 115612 XOR\n2 1 67414 1821 88312 XOR\n2 1 88312 86264 115603 XOR\n2 1 88312 115572 28651 XOR\n2 1 115603 115572 84216 XOR\n2 1 11910 105224 105225 XOR\n2 1 105256 105225 1822 XOR\n2 1 1822 1886 70861 XOR\n2 1 70861 70829 70797 AND\n2 1 70797 1886 86287 XOR\n2 1 1822 1854 70733 XOR\n2 1 90415 105225 11914 XOR\n2 1 84271 105225 11915 XOR\n2 1 11914 11915 11913 AND\n2 1 11913 105225 105226 XOR\n2 1 105257 105226 1823 XOR\n2 1 1823 1887 70862 XOR\n2 1 70862 70830 70798 AND\n2 1 70798 1887 86288 XOR\n2 1 1823 1855 70734 XOR\n2 1 1823 1802 67436 XOR\n2 1 1822 1801 67435 XOR\n2 1 1812 1823 67425 XOR\n2 1 1811 1822 67424 XOR\n2 1 67436 1811 88334 XOR\n2 1 67435 1810 88333 XOR\n2 1 67425 1800 88323 XOR\n2 1 67424 1799 88322 XOR\n2 1 88322 86274 115613 XOR\n2 1 67416 1823 88314 XOR\n2 1 88314 86266 115605 XOR\n2 1 67415 1822 88313 XOR\n2 1 88313 86265 115604 XOR\n2 1 88323 86275 115614 XOR\n2 1 88333 86285 115624 XOR\n2 1 88336 86288 115627 XOR\n2 1 88334 86286 115625 XOR\n2 1 88335 86287 115626 XOR\n2 1 28651 28652 28650 AND\n2 1 28650 115572 115573 XOR\n2 1 115604 115573 84217 XOR\n2 1 86265 115573 28655 XOR\n2 1 88313 115573 28654 XOR\n2 1 28654 28655 28653 AND\n2 1 28653 115573 115574 XOR\n2 1 88314 115574 28657 XOR\n2 1 86266 115574 28658 XOR\n2 1 115605 115574 84218 XOR\n2 1 28657 28658 28656 AND\n2 1 28656 115574 115575 XOR\n2 1 115606 115575 84219 XOR\n2 1 86267 115575 28661 XOR\n2 1 88315 115575 28660 XOR\n2 1 28660 28661 28659 AND\n2 1 28659 115575 115576 XOR\n",
"2 1 88316 115576 28663 XOR\n2 1 86268 115576 28664 XOR\n2 1 115607 115576 84220 XOR\n2 1 28663 28664 28662 AND\n2 1 28662 115576 115577 XOR\n2 1 88317 115577 28666 XOR\n2 1 86269 115577 28667 XOR\n2 1 28666 28667 28665 AND\n2 1 115608 115577 84221 XOR\n2 1 28665 115577 115578 XOR\n2 1 115609 115578 84222 XOR\n2 1 88318 115578 28669 XOR\n2 1 86270 115578 28670 XOR\n2 1 28669 28670 28668 AND\n2 1 28668 115578 115579 XOR\n2 1 115610 115579 84223 XOR\n2 1 88319 115579 28672 XOR\n2 1 86271 115579 28673 XOR\n2 1 28672 28673 28671 AND\n2 1 28671 115579 115580 XOR\n2 1 115611 115580 84224 XOR\n2 1 88320 115580 28675 XOR\n2 1 86272 115580 28676 XOR\n2 1 28675 28676 28674 AND\n2 1 28674 115580 115581 XOR\n2 1 115612 115581 84225 XOR\n2 1 88321 115581 28678 XOR\n2 1 86273 115581 28679 XOR\n2 1 28678 28679 28677 AND\n2 1 28677 115581 115582 XOR\n2 1 115613 115582 84226 XOR\n2 1 88322 115582 28681 XOR\n2 1 86274 115582 28682 XOR\n2 1 28681 28682 28680 AND\n2 1 28680 115582 115583 XOR\n2 1 115614 115583 84227 XOR\n2 1 88323 115583 28684 XOR\n2 1 86275 115583 28685 XOR\n2 1 28684 28685 28683 AND\n2 1 28683 115583 115584 XOR\n2 1 115615 115584 84228 XOR\n2 1 88324 115584 28687 XOR\n2 1 86276 115584 28688 XOR\n2 1 28687 28688 28686 AND\n2 1 28686 115584 115585 XOR\n2 1 115616 115585 84229 XOR\n2 1 88325 115585 28690 XOR\n2 1 86277 115585 28691 XOR\n2 1 28690 28691 28689 AND\n2 1 28689 115585 115586 XOR\n2 1 115617 115586 84230 XOR\n2 1 88326 115586 28693 XOR\n2 1 86278 115586 28694 XOR\n2 1 28693 28694 28692 AND\n2 1 28692 115586 115587 XOR\n2 1 115618 115587 84231 XOR\n2 1 88327 115587 28696 XOR\n2 1 86279 115587 28697 XOR\n2 1 28696 28697 28695 AND\n2 1 28695 115587 115588 XOR\n2 1 115619 115588 84232 XOR\n2 1 88328 115588 28699 XOR\n2 1 86280 115588 28700 XOR\n2 1 28699 28700 28698 AND\n2 1 28698 115588 115589 XOR\n2 1 115620 115589 84233 XOR\n2 1 88329 115589 28702 XOR\n2 1 86281 115589 28703 XOR\n2 1 28702 28703 28701 AND\n2 1 28701 115589 115590 XOR\n2 1 115621 115590 84234 XOR\n2 1 88330 115590 28705 XOR\n2 1 86282 115590 28706 XOR\n2 1 28705 28706 28704 AND\n2 1 28704 115590 115591 XOR\n2 1 115622 115591 84235 XOR\n2 1 88331 115591 28708 XOR\n2 1 86283 115591 28709 XOR\n2 1 28708 28709 28707 AND\n2 1 28707 115591 115592 XOR\n2 1 115623 115592 84236 XOR\n2 1 88332 115592 28711 XOR\n2 1 86284 115592 28712 XOR\n2 1 28711 28712 28710 AND\n2 1 28710 115592 115593 XOR\n2 1 115624 115593 84237 XOR\n2 1 88333 115593 28714 XOR\n2 1 86285 115593 28715 XOR\n2 1 28714 28715 28713 AND\n2 1 28713 115593 115594 XOR\n2 1 115625 115594 84238 XOR\n2 1 88334 115594 28717 XOR\n2 1 86286 115594 28718 XOR\n2 1 28717 28718 28716 AND\n2 1 28716 115594 115595 XOR\n2 1 115626 115595 84239 XOR\n2 1 88335 115595 28720 XOR\n2 1 86287 115595 28721 XOR\n2 1 28720 28721 28719 AND\n2 1 28719 115595 115596 XOR\n2 1 115627 115596 84240 XOR\n2 1 1929 90394 105173 XOR\n2 1 1927 90392 105171 XOR\n2 1 1937 90402 105181 XOR\n2 1 11742 105136 105137 XOR\n2 1 105168 105137 2308 XOR\n2 1 1924 105137 11746 XOR\n2 1 64211 2308 64179 AND\n2 1 64179 2372 98490 XOR\n2 1 2308 2340 64147 XOR\n2 1 90389 105137 11747 XOR\n2 1 11746 11747 11745 AND\n2 1 11745 105137 105138 XOR\n2 1 105169 105138 2309 XOR\n2 1 1925 105138 11749 XOR\n2 1 90390 105138 11750 XOR\n2 1 11749 11750 11748 AND\n2 1 11748 105138 105139 XOR\n2 1 105170 105139 2310 XOR\n2 1 1926 105139 11752 XOR\n2 1 90391 105139 11753 XOR\n2 1 11752 11753 11751 AND\n2 1 11751 105139 105140 XOR\n2 1 1927 105140 11755 XOR\n2 1 90392 105140 11756 XOR\n2 1 11755 11756 11754 AND\n2 1 11754 105140 105141 XOR\n2 1 90393 105141 11759 XOR\n",
"2 1 105172 105141 2312 XOR\n2 1 1928 105141 11758 XOR\n2 1 11758 11759 11757 AND\n2 1 11757 105141 105142 XOR\n2 1 90394 105142 11762 XOR\n2 1 105173 105142 2313 XOR\n2 1 64216 2313 64184 AND\n2 1 64215 2312 64183 AND\n2 1 64213 2310 64181 AND\n2 1 64212 2309 64180 AND\n2 1 64184 2377 98495 XOR\n2 1 64183 2376 98494 XOR\n2 1 64181 2374 98492 XOR\n2 1 64180 2373 98491 XOR\n2 1 2313 2345 64152 XOR\n2 1 2312 2344 64151 XOR\n2 1 2310 2342 64149 XOR\n2 1 2309 2341 64148 XOR\n2 1 105171 105140 2311 XOR\n2 1 64214 2311 64182 AND\n2 1 64182 2375 98493 XOR\n2 1 2311 2343 64150 XOR\n2 1 2308 2313 61517 XOR\n2 1 2307 2312 61516 XOR\n2 1 2306 2311 61515 XOR\n2 1 2305 2310 61514 XOR\n2 1 2304 2309 61513 XOR\n2 1 1929 105142 11761 XOR\n2 1 11761 11762 11760 AND\n2 1 11760 105142 105143 XOR\n2 1 90395 105143 11765 XOR\n2 1 1930 90395 105174 XOR\n2 1 105174 105143 2314 XOR\n2 1 64217 2314 64185 AND\n2 1 64185 2378 98496 XOR\n2 1 2314 2346 64153 XOR\n2 1 2309 2314 61518 XOR\n2 1 1930 105143 11764 XOR\n2 1 11764 11765 11763 AND\n2 1 11763 105143 105144 XOR\n2 1 90396 105144 11768 XOR\n2 1 105175 105144 2315 XOR\n2 1 1931 105144 11767 XOR\n2 1 11767 11768 11766 AND\n2 1 11766 105144 105145 XOR\n2 1 1932 105145 11770 XOR\n2 1 90397 105145 11771 XOR\n2 1 11770 11771 11769 AND\n2 1 11769 105145 105146 XOR\n2 1 105177 105146 2317 XOR\n2 1 1933 105146 11773 XOR\n2 1 90398 105146 11774 XOR\n2 1 11773 11774 11772 AND\n2 1 11772 105146 105147 XOR\n2 1 105178 105147 2318 XOR\n2 1 1934 105147 11776 XOR\n2 1 64221 2318 64189 AND\n2 1 64220 2317 64188 AND\n2 1 64218 2315 64186 AND\n2 1 64189 2382 98500 XOR\n2 1 64188 2381 98499 XOR\n2 1 64186 2379 98497 XOR\n2 1 2318 2350 64157 XOR\n2 1 2317 2349 64156 XOR\n2 1 2315 2347 64154 XOR\n2 1 90399 105147 11777 XOR\n2 1 11776 11777 11775 AND\n2 1 11775 105147 105148 XOR\n2 1 105179 105148 2319 XOR\n2 1 90400 105148 11780 XOR\n2 1 1935 105148 11779 XOR\n2 1 11779 11780 11778 AND\n2 1 11778 105148 105149 XOR\n2 1 90401 105149 11783 XOR\n2 1 64222 2319 64190 AND\n2 1 64190 2383 98501 XOR\n2 1 2319 2351 64158 XOR\n2 1 105180 105149 2320 XOR\n2 1 64223 2320 64191 AND\n2 1 64191 2384 98502 XOR\n2 1 2320 2352 64159 XOR\n2 1 2315 2320 61492 XOR\n2 1 2314 2319 61491 XOR\n2 1 2313 2318 61490 XOR\n2 1 2312 2317 61489 XOR\n2 1 2310 2315 61487 XOR\n2 1 1936 105149 11782 XOR\n2 1 11782 11783 11781 AND\n2 1 11781 105149 105150 XOR\n2 1 1937 105150 11785 XOR\n2 1 90402 105150 11786 XOR\n2 1 11785 11786 11784 AND\n2 1 11784 105150 105151 XOR\n2 1 90403 105151 11789 XOR\n2 1 105182 105151 2322 XOR\n2 1 64225 2322 64193 AND\n2 1 64193 2386 98504 XOR\n2 1 2322 2354 64161 XOR\n2 1 2317 2322 61494 XOR\n2 1 61494 2304 100541 XOR\n2 1 100541 98493 115789 XOR\n2 1 1938 105151 11788 XOR\n2 1 11788 11789 11787 AND\n2 1 11787 105151 105152 XOR\n2 1 1939 105152 11791 XOR\n2 1 90404 105152 11792 XOR\n2 1 11791 11792 11790 AND\n2 1 11790 105152 105153 XOR\n2 1 1940 105153 11794 XOR\n2 1 105184 105153 2324 XOR\n2 1 90405 105153 11795 XOR\n2 1 11794 11795 11793 AND\n2 1 11793 105153 105154 XOR\n2 1 105185 105154 2325 XOR\n2 1 1941 105154 11797 XOR\n2 1 90406 105154 11798 XOR\n2 1 11797 11798 11796 AND\n2 1 11796 105154 105155 XOR\n2 1 1942 105155 11800 XOR\n2 1 64228 2325 64196 AND\n2 1 64227 2324 64195 AND\n2 1 64196 2389 98507 XOR\n2 1 64195 2388 98506 XOR\n2 1 2325 2357 64164 XOR\n2 1 2324 2356 64163 XOR\n2 1 105186 105155 2326 XOR\n2 1 64229 2326 64197 AND\n2 1 64197 2390 98508 XOR\n",
"2 1 2326 2358 64165 XOR\n2 1 2320 2325 61497 XOR\n2 1 2319 2324 61496 XOR\n2 1 61516 2326 100563 XOR\n2 1 61515 2325 100562 XOR\n2 1 61514 2324 100561 XOR\n2 1 61497 2307 100544 XOR\n2 1 100544 98496 115792 XOR\n2 1 61496 2306 100543 XOR\n2 1 100543 98495 115791 XOR\n2 1 105183 105152 2323 XOR\n2 1 64226 2323 64194 AND\n2 1 64194 2387 98505 XOR\n2 1 2323 2355 64162 XOR\n2 1 2318 2323 61495 XOR\n2 1 61513 2323 100560 XOR\n2 1 61495 2305 100542 XOR\n2 1 100542 98494 115790 XOR\n2 1 90407 105155 11801 XOR\n2 1 11800 11801 11799 AND\n2 1 11799 105155 105156 XOR\n2 1 1943 105156 11803 XOR\n2 1 105187 105156 2327 XOR\n2 1 64230 2327 64198 AND\n2 1 64198 2391 98509 XOR\n2 1 2327 2359 64166 XOR\n2 1 2322 2327 61499 XOR\n2 1 61517 2327 100564 XOR\n2 1 61499 2309 100546 XOR\n2 1 105176 105145 2316 XOR\n2 1 64219 2316 64187 AND\n2 1 64187 2380 98498 XOR\n2 1 2316 2348 64155 XOR\n2 1 2311 2316 61488 XOR\n2 1 100546 98498 115794 XOR\n2 1 105181 105150 2321 XOR\n2 1 64224 2321 64192 AND\n2 1 64192 2385 98503 XOR\n2 1 2321 2353 64160 XOR\n2 1 2321 2326 61498 XOR\n2 1 2316 2321 61493 XOR\n2 1 61498 2308 100545 XOR\n2 1 100545 98497 115793 XOR\n2 1 90408 105156 11804 XOR\n2 1 11803 11804 11802 AND\n2 1 11802 105156 105157 XOR\n2 1 105188 105157 2328 XOR\n2 1 90409 105157 11807 XOR\n2 1 1944 105157 11806 XOR\n2 1 11806 11807 11805 AND\n2 1 11805 105157 105158 XOR\n2 1 90410 105158 11810 XOR\n2 1 105189 105158 2329 XOR\n2 1 64232 2329 64200 AND\n2 1 64231 2328 64199 AND\n2 1 64200 2393 98511 XOR\n2 1 64199 2392 98510 XOR\n2 1 2329 2361 64168 XOR\n2 1 2328 2360 64167 XOR\n2 1 2324 2329 61501 XOR\n2 1 2323 2328 61500 XOR\n2 1 61518 2328 100565 XOR\n2 1 61501 2311 100548 XOR\n2 1 100548 98500 115796 XOR\n2 1 61500 2310 100547 XOR\n2 1 61487 2329 100534 XOR\n2 1 100534 98486 96438 XOR\n2 1 100534 98486 115752 AND\n2 1 98487 115752 28992 XOR\n2 1 100547 98499 115795 XOR\n2 1 1945 105158 11809 XOR\n2 1 11809 11810 11808 AND\n2 1 11808 105158 105159 XOR\n2 1 1946 105159 11812 XOR\n2 1 105190 105159 2330 XOR\n2 1 90411 105159 11813 XOR\n2 1 11812 11813 11811 AND\n2 1 11811 105159 105160 XOR\n2 1 105191 105160 2331 XOR\n2 1 1947 105160 11815 XOR\n2 1 64234 2331 64202 AND\n2 1 64233 2330 64201 AND\n2 1 64202 2395 98513 XOR\n2 1 100561 98513 115809 XOR\n2 1 64201 2394 98512 XOR\n2 1 100560 98512 115808 XOR\n2 1 2331 2363 64170 XOR\n2 1 2330 2362 64169 XOR\n2 1 90412 105160 11816 XOR\n2 1 11815 11816 11814 AND\n2 1 11814 105160 105161 XOR\n2 1 1948 105161 11818 XOR\n2 1 90413 105161 11819 XOR\n2 1 105192 105161 2332 XOR\n2 1 64235 2332 64203 AND\n2 1 64203 2396 98514 XOR\n2 1 100562 98514 115810 XOR\n2 1 2332 2364 64171 XOR\n2 1 11818 11819 11817 AND\n2 1 11817 105161 105162 XOR\n2 1 90414 105162 11822 XOR\n2 1 1949 105162 11821 XOR\n2 1 105193 105162 2333 XOR\n2 1 64236 2333 64204 AND\n2 1 64204 2397 98515 XOR\n2 1 100563 98515 115811 XOR\n2 1 2333 2365 64172 XOR\n2 1 2333 2306 61510 XOR\n2 1 2332 2305 61509 XOR\n2 1 2331 2304 61508 XOR\n2 1 2328 2333 61505 XOR\n2 1 2327 2332 61504 XOR\n2 1 2326 2331 61503 XOR\n2 1 2325 2330 61502 XOR\n2 1 61510 2320 100557 XOR\n2 1 100557 98509 115805 XOR\n2 1 61509 2319 100556 XOR\n2 1 100556 98508 115804 XOR\n2 1 61508 2318 100555 XOR\n2 1 100555 98507 115803 XOR\n2 1 61505 2315 100552 XOR\n2 1 100552 98504 115800 XOR\n2 1 61504 2314 100551 XOR\n2 1 100551 98503 115799 XOR\n2 1 61503 2313 100550 XOR\n2 1 100550 98502 115798 XOR\n2 1 61502 2312 100549 XOR\n2 1 61491 2333 100538 XOR\n",
"2 1 100538 98490 115786 XOR\n2 1 61490 2332 100537 XOR\n2 1 100537 98489 115785 XOR\n2 1 61489 2331 100536 XOR\n2 1 100536 98488 115784 XOR\n2 1 61488 2330 100535 XOR\n2 1 100535 115752 28991 XOR\n2 1 28991 28992 28990 AND\n2 1 28990 115752 115753 XOR\n2 1 115784 115753 96440 XOR\n2 1 100535 98487 115783 XOR\n2 1 115783 115752 96439 XOR\n2 1 100536 115753 28994 XOR\n2 1 98488 115753 28995 XOR\n2 1 28994 28995 28993 AND\n2 1 28993 115753 115754 XOR\n2 1 98489 115754 28998 XOR\n2 1 100549 98501 115797 XOR\n2 1 115785 115754 96441 XOR\n2 1 100537 115754 28997 XOR\n2 1 28997 28998 28996 AND\n2 1 28996 115754 115755 XOR\n2 1 115786 115755 96442 XOR\n2 1 98490 115755 29001 XOR\n2 1 100538 115755 29000 XOR\n2 1 29000 29001 28999 AND\n2 1 28999 115755 115756 XOR\n2 1 98491 115756 29004 XOR\n2 1 11821 11822 11820 AND\n2 1 11820 105162 105163 XOR\n2 1 105194 105163 2334 XOR\n2 1 1950 105163 11824 XOR\n2 1 64237 2334 64205 AND\n2 1 64205 2398 98516 XOR\n2 1 100564 98516 115812 XOR\n2 1 2334 2366 64173 XOR\n2 1 90415 105163 11825 XOR\n2 1 11824 11825 11823 AND\n2 1 11823 105163 105164 XOR\n2 1 105195 105164 2335 XOR\n2 1 64238 2335 64206 AND\n2 1 64206 2399 98517 XOR\n2 1 100565 98517 115813 XOR\n2 1 2335 2367 64174 XOR\n2 1 2335 2308 61512 XOR\n2 1 2334 2307 61511 XOR\n2 1 2330 2335 61507 XOR\n2 1 2329 2334 61506 XOR\n2 1 61512 2322 100559 XOR\n2 1 100559 98511 115807 XOR\n2 1 61511 2321 100558 XOR\n2 1 100558 98510 115806 XOR\n2 1 61507 2317 100554 XOR\n2 1 100554 98506 115802 XOR\n2 1 61506 2316 100553 XOR\n2 1 100553 98505 115801 XOR\n2 1 61493 2335 100540 XOR\n2 1 100540 98492 115788 XOR\n2 1 61492 2334 100539 XOR\n2 1 100539 115756 29003 XOR\n2 1 29003 29004 29002 AND\n2 1 29002 115756 115757 XOR\n2 1 100540 115757 29006 XOR\n2 1 98492 115757 29007 XOR\n2 1 115788 115757 96444 XOR\n2 1 29006 29007 29005 AND\n2 1 29005 115757 115758 XOR\n2 1 115789 115758 96445 XOR\n2 1 98493 115758 29010 XOR\n2 1 100539 98491 115787 XOR\n2 1 115787 115756 96443 XOR\n2 1 100541 115758 29009 XOR\n2 1 29009 29010 29008 AND\n2 1 29008 115758 115759 XOR\n2 1 100542 115759 29012 XOR\n2 1 115790 115759 96446 XOR\n2 1 98494 115759 29013 XOR\n2 1 29012 29013 29011 AND\n2 1 29011 115759 115760 XOR\n2 1 98495 115760 29016 XOR\n2 1 100543 115760 29015 XOR\n2 1 115791 115760 96447 XOR\n2 1 29015 29016 29014 AND\n2 1 29014 115760 115761 XOR\n2 1 115792 115761 96448 XOR\n2 1 98496 115761 29019 XOR\n2 1 100544 115761 29018 XOR\n2 1 29018 29019 29017 AND\n2 1 29017 115761 115762 XOR\n2 1 115793 115762 96449 XOR\n2 1 98497 115762 29022 XOR\n2 1 100545 115762 29021 XOR\n2 1 29021 29022 29020 AND\n2 1 29020 115762 115763 XOR\n2 1 98498 115763 29025 XOR\n2 1 100546 115763 29024 XOR\n2 1 29024 29025 29023 AND\n2 1 115794 115763 96450 XOR\n2 1 29023 115763 115764 XOR\n2 1 115795 115764 96451 XOR\n2 1 100547 115764 29027 XOR\n2 1 98499 115764 29028 XOR\n2 1 29027 29028 29026 AND\n2 1 29026 115764 115765 XOR\n2 1 115796 115765 96452 XOR\n2 1 98500 115765 29031 XOR\n2 1 100548 115765 29030 XOR\n2 1 29030 29031 29029 AND\n2 1 29029 115765 115766 XOR\n2 1 100549 115766 29033 XOR\n2 1 98501 115766 29034 XOR\n2 1 29033 29034 29032 AND\n2 1 29032 115766 115767 XOR\n2 1 100550 115767 29036 XOR\n2 1 98502 115767 29037 XOR\n2 1 29036 29037 29035 AND\n2 1 29035 115767 115768 XOR\n2 1 100551 115768 29039 XOR\n2 1 115799 115768 96455 XOR\n2 1 98503 115768 29040 XOR\n2 1 29039 29040 29038 AND\n2 1 29038 115768 115769 XOR\n2 1 100552 115769 29042 XOR\n2 1 115800 115769 96456 XOR\n2 1 98504 115769 29043 XOR\n2 1 29042 29043 29041 AND\n2 1 29041 115769 115770 XOR\n2 1 115798 115767 96454 XOR\n",
"2 1 98505 115770 29046 XOR\n2 1 100553 115770 29045 XOR\n2 1 29045 29046 29044 AND\n2 1 29044 115770 115771 XOR\n2 1 98506 115771 29049 XOR\n2 1 115802 115771 96458 XOR\n2 1 115801 115770 96457 XOR\n2 1 100554 115771 29048 XOR\n2 1 29048 29049 29047 AND\n2 1 115797 115766 96453 XOR\n2 1 29047 115771 115772 XOR\n2 1 98507 115772 29052 XOR\n2 1 115803 115772 96459 XOR\n2 1 100555 115772 29051 XOR\n2 1 29051 29052 29050 AND\n2 1 29050 115772 115773 XOR\n2 1 115804 115773 96460 XOR\n2 1 100556 115773 29054 XOR\n2 1 98508 115773 29055 XOR\n2 1 29054 29055 29053 AND\n2 1 29053 115773 115774 XOR\n2 1 98509 115774 29058 XOR\n2 1 115805 115774 96461 XOR\n2 1 100557 115774 29057 XOR\n2 1 29057 29058 29056 AND\n2 1 29056 115774 115775 XOR\n2 1 115806 115775 96462 XOR\n2 1 100558 115775 29060 XOR\n2 1 98510 115775 29061 XOR\n2 1 29060 29061 29059 AND\n2 1 29059 115775 115776 XOR\n2 1 98511 115776 29064 XOR\n2 1 100559 115776 29063 XOR\n2 1 29063 29064 29062 AND\n2 1 29062 115776 115777 XOR\n2 1 98512 115777 29067 XOR\n2 1 115807 115776 96463 XOR\n2 1 115808 115777 96464 XOR\n2 1 100560 115777 29066 XOR\n2 1 29066 29067 29065 AND\n2 1 29065 115777 115778 XOR\n2 1 115809 115778 96465 XOR\n2 1 98513 115778 29070 XOR\n2 1 100561 115778 29069 XOR\n2 1 29069 29070 29068 AND\n2 1 29068 115778 115779 XOR\n2 1 115810 115779 96466 XOR\n2 1 100562 115779 29072 XOR\n2 1 98514 115779 29073 XOR\n2 1 29072 29073 29071 AND\n2 1 29071 115779 115780 XOR\n2 1 98515 115780 29076 XOR\n2 1 115811 115780 96467 XOR\n2 1 100563 115780 29075 XOR\n2 1 29075 29076 29074 AND\n2 1 29074 115780 115781 XOR\n2 1 115812 115781 96468 XOR\n2 1 100564 115781 29078 XOR\n2 1 98516 115781 29079 XOR\n2 1 29078 29079 29077 AND\n2 1 29077 115781 115782 XOR\n2 1 115813 115782 96469 XOR\n2 1 76321 76323 81136 XOR\n2 1 81136 76496 130314 XOR\n2 1 76320 76322 81135 XOR\n2 1 81135 76495 130313 XOR\n2 1 76319 76321 81134 XOR\n2 1 81134 76494 130312 XOR\n2 1 76318 76320 81133 XOR\n2 1 81133 76493 130311 XOR\n2 1 76317 76319 81132 XOR\n2 1 81132 76492 130310 XOR\n2 1 76316 76318 81131 XOR\n2 1 81131 76491 130309 XOR\n2 1 76315 76317 81130 XOR\n2 1 81130 76490 130308 XOR\n2 1 76314 76316 81129 XOR\n2 1 81129 76489 130307 XOR\n2 1 76313 76315 81128 XOR\n2 1 81128 76488 130306 XOR\n2 1 76312 76314 81127 XOR\n2 1 81127 76487 130305 XOR\n2 1 76311 76313 6573 XOR\n2 1 76310 76312 6572 XOR\n2 1 76309 76311 6571 XOR\n2 1 76308 76310 6570 XOR\n2 1 76307 76309 6569 XOR\n2 1 76306 76308 6568 XOR\n2 1 76305 76307 6567 XOR\n2 1 76336 76306 6566 XOR\n2 1 76335 76305 6565 XOR\n2 1 76334 76336 6564 XOR\n2 1 76333 76335 6563 XOR\n2 1 76332 76334 6562 XOR\n2 1 76331 76333 6561 XOR\n2 1 76330 76332 6560 XOR\n2 1 76329 76331 6559 XOR\n2 1 76328 76330 6558 XOR\n2 1 76327 76329 6557 XOR\n2 1 76326 76328 6556 XOR\n2 1 76325 76327 6555 XOR\n2 1 76324 76326 6554 XOR\n2 1 76323 76325 6553 XOR\n2 1 76322 76324 6552 XOR\n2 1 6573 76336 81126 XOR\n2 1 81126 76486 130304 XOR\n2 1 6572 76335 81125 XOR\n2 1 81125 76485 130303 XOR\n2 1 6571 76334 81124 XOR\n2 1 81124 76484 130302 XOR\n2 1 6570 76333 81123 XOR\n2 1 81123 76483 130301 XOR\n2 1 6569 76332 81122 XOR\n2 1 81122 76482 130300 XOR\n2 1 6568 76331 81121 XOR\n2 1 81121 76481 130299 XOR\n2 1 6567 76330 81120 XOR\n2 1 81120 76480 130298 XOR\n2 1 6566 76329 81119 XOR\n2 1 81119 76479 130297 XOR\n2 1 6565 76328 81118 XOR\n2 1 81118 76478 130296 XOR\n2 1 6564 76327 81117 XOR\n2 1 81117 76477 130295 XOR\n2 1 6563 76326 81116 XOR\n2 1 81116 76476 130294 XOR\n2 1 6562 76325 81115 XOR\n2 1 81115 76475 130293 XOR\n",
"2 1 6561 76324 81114 XOR\n2 1 81114 76474 130292 XOR\n2 1 6560 76323 81113 XOR\n2 1 81113 76473 130291 XOR\n2 1 6559 76322 81112 XOR\n2 1 81112 76472 130290 XOR\n2 1 6558 76321 81111 XOR\n2 1 81111 76471 130289 XOR\n2 1 6557 76320 81110 XOR\n2 1 81110 76470 130288 XOR\n2 1 6556 76319 81109 XOR\n2 1 81109 76469 130287 XOR\n2 1 6555 76318 81108 XOR\n2 1 81108 76468 130286 XOR\n2 1 6554 76317 81107 XOR\n2 1 81107 76467 130285 XOR\n2 1 6553 76316 81106 XOR\n2 1 81106 76466 130284 XOR\n2 1 6552 76315 81105 XOR\n2 1 81105 76465 130253 AND\n2 1 81105 76465 79569 XOR\n2 1 130284 130253 79570 XOR\n2 1 81106 130253 53526 XOR\n2 1 76466 130253 53527 XOR\n2 1 53526 53527 53525 AND\n2 1 53525 130253 130254 XOR\n2 1 130285 130254 79571 XOR\n2 1 81107 130254 53529 XOR\n2 1 76467 130254 53530 XOR\n2 1 53529 53530 53528 AND\n2 1 53528 130254 130255 XOR\n2 1 130286 130255 79572 XOR\n2 1 81108 130255 53532 XOR\n2 1 76468 130255 53533 XOR\n2 1 53532 53533 53531 AND\n2 1 53531 130255 130256 XOR\n2 1 130287 130256 79573 XOR\n2 1 81109 130256 53535 XOR\n2 1 76469 130256 53536 XOR\n2 1 53535 53536 53534 AND\n2 1 53534 130256 130257 XOR\n2 1 130288 130257 79574 XOR\n2 1 81110 130257 53538 XOR\n2 1 76470 130257 53539 XOR\n2 1 53538 53539 53537 AND\n2 1 53537 130257 130258 XOR\n2 1 130289 130258 79575 XOR\n2 1 81111 130258 53541 XOR\n2 1 76471 130258 53542 XOR\n2 1 53541 53542 53540 AND\n2 1 53540 130258 130259 XOR\n2 1 130290 130259 79576 XOR\n2 1 81112 130259 53544 XOR\n2 1 76472 130259 53545 XOR\n2 1 53544 53545 53543 AND\n2 1 53543 130259 130260 XOR\n2 1 130291 130260 79577 XOR\n2 1 81113 130260 53547 XOR\n2 1 76473 130260 53548 XOR\n2 1 53547 53548 53546 AND\n2 1 53546 130260 130261 XOR\n2 1 130292 130261 79578 XOR\n2 1 81114 130261 53550 XOR\n2 1 76474 130261 53551 XOR\n2 1 53550 53551 53549 AND\n2 1 53549 130261 130262 XOR\n2 1 130293 130262 79579 XOR\n2 1 81115 130262 53553 XOR\n2 1 76475 130262 53554 XOR\n2 1 53553 53554 53552 AND\n2 1 53552 130262 130263 XOR\n2 1 130294 130263 79580 XOR\n2 1 81116 130263 53556 XOR\n2 1 76476 130263 53557 XOR\n2 1 53556 53557 53555 AND\n2 1 53555 130263 130264 XOR\n2 1 130295 130264 79581 XOR\n2 1 81117 130264 53559 XOR\n2 1 76477 130264 53560 XOR\n2 1 53559 53560 53558 AND\n2 1 53558 130264 130265 XOR\n2 1 130296 130265 79582 XOR\n2 1 81118 130265 53562 XOR\n2 1 76478 130265 53563 XOR\n2 1 53562 53563 53561 AND\n2 1 53561 130265 130266 XOR\n2 1 130297 130266 79583 XOR\n2 1 81119 130266 53565 XOR\n2 1 76479 130266 53566 XOR\n2 1 53565 53566 53564 AND\n2 1 53564 130266 130267 XOR\n2 1 130298 130267 79584 XOR\n2 1 81120 130267 53568 XOR\n2 1 76480 130267 53569 XOR\n2 1 53568 53569 53567 AND\n2 1 53567 130267 130268 XOR\n2 1 130299 130268 79585 XOR\n2 1 81121 130268 53571 XOR\n2 1 76481 130268 53572 XOR\n2 1 53571 53572 53570 AND\n2 1 53570 130268 130269 XOR\n2 1 130300 130269 79586 XOR\n2 1 81122 130269 53574 XOR\n2 1 76482 130269 53575 XOR\n2 1 53574 53575 53573 AND\n2 1 53573 130269 130270 XOR\n2 1 130301 130270 79587 XOR\n2 1 81123 130270 53577 XOR\n2 1 76483 130270 53578 XOR\n2 1 53577 53578 53576 AND\n2 1 53576 130270 130271 XOR\n2 1 130302 130271 79588 XOR\n2 1 81124 130271 53580 XOR\n2 1 76484 130271 53581 XOR\n2 1 53580 53581 53579 AND\n2 1 53579 130271 130272 XOR\n2 1 130303 130272 79589 XOR\n2 1 81125 130272 53583 XOR\n2 1 76485 130272 53584 XOR\n2 1 53583 53584 53582 AND\n2 1 53582 130272 130273 XOR\n2 1 130304 130273 79590 XOR\n2 1 81126 130273 53586 XOR\n2 1 76486 130273 53587 XOR\n2 1 53586 53587 53585 AND\n2 1 53585 130273 130274 XOR\n2 1 130305 130274 79591 XOR\n2 1 81127 130274 53589 XOR\n",
"2 1 76487 130274 53590 XOR\n2 1 53589 53590 53588 AND\n2 1 53588 130274 130275 XOR\n2 1 130306 130275 79592 XOR\n2 1 81128 130275 53592 XOR\n2 1 76488 130275 53593 XOR\n2 1 53592 53593 53591 AND\n2 1 53591 130275 130276 XOR\n2 1 130307 130276 79593 XOR\n2 1 81129 130276 53595 XOR\n2 1 76489 130276 53596 XOR\n2 1 53595 53596 53594 AND\n2 1 53594 130276 130277 XOR\n2 1 130308 130277 79594 XOR\n2 1 81130 130277 53598 XOR\n2 1 76490 130277 53599 XOR\n2 1 53598 53599 53597 AND\n2 1 53597 130277 130278 XOR\n2 1 130309 130278 79595 XOR\n2 1 81131 130278 53601 XOR\n2 1 76491 130278 53602 XOR\n2 1 53601 53602 53600 AND\n2 1 53600 130278 130279 XOR\n2 1 130310 130279 79596 XOR\n2 1 81132 130279 53604 XOR\n2 1 76492 130279 53605 XOR\n2 1 53604 53605 53603 AND\n2 1 53603 130279 130280 XOR\n2 1 130311 130280 79597 XOR\n2 1 81133 130280 53607 XOR\n2 1 76493 130280 53608 XOR\n2 1 53607 53608 53606 AND\n2 1 53606 130280 130281 XOR\n2 1 130312 130281 79598 XOR\n2 1 81134 130281 53610 XOR\n2 1 76494 130281 53611 XOR\n2 1 53610 53611 53609 AND\n2 1 53609 130281 130282 XOR\n2 1 130313 130282 79599 XOR\n2 1 81135 130282 53613 XOR\n2 1 76495 130282 53614 XOR\n2 1 53613 53614 53612 AND\n2 1 53612 130282 130283 XOR\n2 1 130314 130283 79600 XOR\n2 1 76759 76770 82704 XOR\n2 1 82704 76816 130438 XOR\n2 1 76758 76769 82703 XOR\n2 1 82703 76815 130437 XOR\n2 1 76757 76768 82702 XOR\n2 1 82702 76814 130436 XOR\n2 1 76756 76767 5386 XOR\n2 1 76755 76766 5385 XOR\n2 1 76754 76765 5384 XOR\n2 1 76753 76764 5383 XOR\n2 1 76784 76763 5382 XOR\n2 1 76783 76762 5381 XOR\n2 1 76782 76761 5380 XOR\n2 1 76781 76760 5379 XOR\n2 1 76780 76759 5378 XOR\n2 1 76779 76758 5377 XOR\n2 1 76778 76757 5376 XOR\n2 1 76777 76756 5375 XOR\n2 1 76776 76755 5374 XOR\n2 1 76775 76754 5373 XOR\n2 1 76774 76753 5372 XOR\n2 1 76773 76784 5371 XOR\n2 1 76772 76783 5370 XOR\n2 1 76771 76782 5369 XOR\n2 1 76770 76781 5368 XOR\n2 1 76769 76780 5367 XOR\n2 1 76768 76779 5366 XOR\n2 1 76767 76778 5365 XOR\n2 1 76766 76777 5364 XOR\n2 1 76765 76776 5363 XOR\n2 1 76764 76775 5362 XOR\n2 1 76763 76774 5361 XOR\n2 1 76762 76773 5360 XOR\n2 1 76761 76772 5359 XOR\n2 1 76760 76771 5358 XOR\n2 1 5386 76784 82701 XOR\n2 1 82701 76813 130435 XOR\n2 1 5385 76783 82700 XOR\n2 1 82700 76812 130434 XOR\n2 1 5384 76782 82699 XOR\n2 1 82699 76811 130433 XOR\n2 1 5383 76781 82698 XOR\n2 1 82698 76810 130432 XOR\n2 1 5382 76780 82697 XOR\n2 1 82697 76809 130431 XOR\n2 1 5381 76779 82696 XOR\n2 1 82696 76808 130430 XOR\n2 1 5380 76778 82695 XOR\n2 1 82695 76807 130429 XOR\n2 1 5379 76777 82694 XOR\n2 1 82694 76806 130428 XOR\n2 1 5378 76776 82693 XOR\n2 1 82693 76805 130427 XOR\n2 1 5377 76775 82692 XOR\n2 1 82692 76804 130426 XOR\n2 1 5376 76774 82691 XOR\n2 1 82691 76803 130425 XOR\n2 1 5375 76773 82690 XOR\n2 1 82690 76802 130424 XOR\n2 1 5374 76772 82689 XOR\n2 1 82689 76801 130423 XOR\n2 1 5373 76771 82688 XOR\n2 1 82688 76800 130422 XOR\n2 1 5372 76770 82687 XOR\n2 1 82687 76799 130421 XOR\n2 1 5371 76769 82686 XOR\n2 1 82686 76798 130420 XOR\n2 1 5370 76768 82685 XOR\n2 1 82685 76797 130419 XOR\n2 1 5369 76767 82684 XOR\n2 1 82684 76796 130418 XOR\n2 1 5368 76766 82683 XOR\n2 1 82683 76795 130417 XOR\n2 1 5367 76765 82682 XOR\n2 1 82682 76794 130416 XOR\n2 1 5366 76764 82681 XOR\n2 1 82681 76793 130415 XOR\n2 1 5365 76763 82680 XOR\n2 1 82680 76792 130414 XOR\n2 1 5364 76762 82679 XOR\n2 1 82679 76791 130413 XOR\n2 1 5363 76761 82678 XOR\n2 1 82678 76790 130412 XOR\n2 1 5362 76760 82677 XOR\n",
"2 1 82677 76789 130411 XOR\n2 1 5361 76759 82676 XOR\n2 1 82676 76788 130410 XOR\n2 1 5360 76758 82675 XOR\n2 1 82675 76787 130409 XOR\n2 1 5359 76757 82674 XOR\n2 1 82674 76786 130408 XOR\n2 1 5358 76756 82673 XOR\n2 1 82673 76785 130377 AND\n2 1 82673 76785 78065 XOR\n2 1 79601 78065 130315 AND\n2 1 79601 78065 76273 XOR\n2 1 79602 130315 53616 XOR\n2 1 130408 130377 78066 XOR\n2 1 79602 78066 130346 XOR\n2 1 130346 130315 76274 XOR\n2 1 78066 130315 53617 XOR\n2 1 53616 53617 53615 AND\n2 1 53615 130315 130316 XOR\n2 1 79603 130316 53619 XOR\n2 1 82674 130377 53706 XOR\n2 1 76786 130377 53707 XOR\n2 1 53706 53707 53705 AND\n2 1 53705 130377 130378 XOR\n2 1 130409 130378 78067 XOR\n2 1 79603 78067 130347 XOR\n2 1 130347 130316 76275 XOR\n2 1 78067 130316 53620 XOR\n2 1 53619 53620 53618 AND\n2 1 53618 130316 130317 XOR\n2 1 79604 130317 53622 XOR\n2 1 82675 130378 53709 XOR\n2 1 76787 130378 53710 XOR\n2 1 53709 53710 53708 AND\n2 1 53708 130378 130379 XOR\n2 1 130410 130379 78068 XOR\n2 1 79604 78068 130348 XOR\n2 1 130348 130317 76276 XOR\n2 1 78068 130317 53623 XOR\n2 1 53622 53623 53621 AND\n2 1 53621 130317 130318 XOR\n2 1 79605 130318 53625 XOR\n2 1 82676 130379 53712 XOR\n2 1 76788 130379 53713 XOR\n2 1 53712 53713 53711 AND\n2 1 53711 130379 130380 XOR\n2 1 130411 130380 78069 XOR\n2 1 79605 78069 130349 XOR\n2 1 130349 130318 76277 XOR\n2 1 78069 130318 53626 XOR\n2 1 53625 53626 53624 AND\n2 1 53624 130318 130319 XOR\n2 1 79606 130319 53628 XOR\n2 1 82677 130380 53715 XOR\n2 1 76789 130380 53716 XOR\n2 1 53715 53716 53714 AND\n2 1 53714 130380 130381 XOR\n2 1 130412 130381 78070 XOR\n2 1 79606 78070 130350 XOR\n2 1 130350 130319 76278 XOR\n2 1 78070 130319 53629 XOR\n2 1 53628 53629 53627 AND\n2 1 53627 130319 130320 XOR\n2 1 79607 130320 53631 XOR\n2 1 82678 130381 53718 XOR\n2 1 76790 130381 53719 XOR\n2 1 53718 53719 53717 AND\n2 1 53717 130381 130382 XOR\n2 1 130413 130382 78071 XOR\n2 1 79607 78071 130351 XOR\n2 1 130351 130320 76279 XOR\n2 1 78071 130320 53632 XOR\n2 1 53631 53632 53630 AND\n2 1 53630 130320 130321 XOR\n2 1 79608 130321 53634 XOR\n2 1 82679 130382 53721 XOR\n2 1 76791 130382 53722 XOR\n2 1 53721 53722 53720 AND\n2 1 53720 130382 130383 XOR\n2 1 130414 130383 78072 XOR\n2 1 79608 78072 130352 XOR\n2 1 130352 130321 76280 XOR\n2 1 78072 130321 53635 XOR\n2 1 53634 53635 53633 AND\n2 1 53633 130321 130322 XOR\n2 1 79609 130322 53637 XOR\n2 1 82680 130383 53724 XOR\n2 1 76792 130383 53725 XOR\n2 1 53724 53725 53723 AND\n2 1 53723 130383 130384 XOR\n2 1 130415 130384 78073 XOR\n2 1 79609 78073 130353 XOR\n2 1 130353 130322 76281 XOR\n2 1 78073 130322 53638 XOR\n2 1 53637 53638 53636 AND\n2 1 53636 130322 130323 XOR\n2 1 79610 130323 53640 XOR\n2 1 82681 130384 53727 XOR\n2 1 76793 130384 53728 XOR\n2 1 53727 53728 53726 AND\n2 1 53726 130384 130385 XOR\n2 1 130416 130385 78074 XOR\n2 1 79610 78074 130354 XOR\n2 1 130354 130323 76282 XOR\n2 1 78074 130323 53641 XOR\n2 1 53640 53641 53639 AND\n2 1 53639 130323 130324 XOR\n2 1 79611 130324 53643 XOR\n2 1 82682 130385 53730 XOR\n2 1 76794 130385 53731 XOR\n2 1 53730 53731 53729 AND\n2 1 53729 130385 130386 XOR\n2 1 130417 130386 78075 XOR\n2 1 79611 78075 130355 XOR\n2 1 130355 130324 76283 XOR\n2 1 78075 130324 53644 XOR\n2 1 53643 53644 53642 AND\n2 1 53642 130324 130325 XOR\n2 1 79612 130325 53646 XOR\n2 1 82683 130386 53733 XOR\n2 1 76795 130386 53734 XOR\n2 1 53733 53734 53732 AND\n2 1 53732 130386 130387 XOR\n2 1 130418 130387 78076 XOR\n2 1 79612 78076 130356 XOR\n2 1 130356 130325 76284 XOR\n2 1 78076 130325 53647 XOR\n2 1 53646 53647 53645 AND\n",
"2 1 53645 130325 130326 XOR\n2 1 79613 130326 53649 XOR\n2 1 82684 130387 53736 XOR\n2 1 76796 130387 53737 XOR\n2 1 53736 53737 53735 AND\n2 1 53735 130387 130388 XOR\n2 1 130419 130388 78077 XOR\n2 1 79613 78077 130357 XOR\n2 1 130357 130326 76285 XOR\n2 1 78077 130326 53650 XOR\n2 1 53649 53650 53648 AND\n2 1 53648 130326 130327 XOR\n2 1 79614 130327 53652 XOR\n2 1 82685 130388 53739 XOR\n2 1 76797 130388 53740 XOR\n2 1 53739 53740 53738 AND\n2 1 53738 130388 130389 XOR\n2 1 130420 130389 78078 XOR\n2 1 79614 78078 130358 XOR\n2 1 130358 130327 76286 XOR\n2 1 78078 130327 53653 XOR\n2 1 53652 53653 53651 AND\n2 1 53651 130327 130328 XOR\n2 1 79615 130328 53655 XOR\n2 1 82686 130389 53742 XOR\n2 1 76798 130389 53743 XOR\n2 1 53742 53743 53741 AND\n2 1 53741 130389 130390 XOR\n2 1 130421 130390 78079 XOR\n2 1 79615 78079 130359 XOR\n2 1 130359 130328 76287 XOR\n2 1 78079 130328 53656 XOR\n2 1 53655 53656 53654 AND\n2 1 53654 130328 130329 XOR\n2 1 79616 130329 53658 XOR\n2 1 82687 130390 53745 XOR\n2 1 76799 130390 53746 XOR\n2 1 53745 53746 53744 AND\n2 1 53744 130390 130391 XOR\n2 1 130422 130391 78080 XOR\n2 1 79616 78080 130360 XOR\n2 1 130360 130329 76288 XOR\n2 1 78080 130329 53659 XOR\n2 1 53658 53659 53657 AND\n2 1 53657 130329 130330 XOR\n2 1 79617 130330 53661 XOR\n2 1 82688 130391 53748 XOR\n2 1 76800 130391 53749 XOR\n2 1 53748 53749 53747 AND\n2 1 53747 130391 130392 XOR\n2 1 130423 130392 78081 XOR\n2 1 79617 78081 130361 XOR\n2 1 130361 130330 76289 XOR\n2 1 78081 130330 53662 XOR\n2 1 53661 53662 53660 AND\n2 1 53660 130330 130331 XOR\n2 1 79618 130331 53664 XOR\n2 1 82689 130392 53751 XOR\n2 1 76801 130392 53752 XOR\n2 1 53751 53752 53750 AND\n2 1 53750 130392 130393 XOR\n2 1 130424 130393 78082 XOR\n2 1 79618 78082 130362 XOR\n2 1 130362 130331 76290 XOR\n2 1 78082 130331 53665 XOR\n2 1 53664 53665 53663 AND\n2 1 53663 130331 130332 XOR\n2 1 79619 130332 53667 XOR\n2 1 82690 130393 53754 XOR\n2 1 76802 130393 53755 XOR\n2 1 53754 53755 53753 AND\n2 1 53753 130393 130394 XOR\n2 1 130425 130394 78083 XOR\n2 1 79619 78083 130363 XOR\n2 1 130363 130332 76291 XOR\n2 1 78083 130332 53668 XOR\n2 1 53667 53668 53666 AND\n2 1 53666 130332 130333 XOR\n2 1 79620 130333 53670 XOR\n2 1 82691 130394 53757 XOR\n2 1 76803 130394 53758 XOR\n2 1 53757 53758 53756 AND\n2 1 53756 130394 130395 XOR\n2 1 130426 130395 78084 XOR\n2 1 79620 78084 130364 XOR\n2 1 130364 130333 76292 XOR\n2 1 78084 130333 53671 XOR\n2 1 53670 53671 53669 AND\n2 1 53669 130333 130334 XOR\n2 1 79621 130334 53673 XOR\n2 1 82692 130395 53760 XOR\n2 1 76804 130395 53761 XOR\n2 1 53760 53761 53759 AND\n2 1 53759 130395 130396 XOR\n2 1 130427 130396 78085 XOR\n2 1 79621 78085 130365 XOR\n2 1 130365 130334 76293 XOR\n2 1 78085 130334 53674 XOR\n2 1 53673 53674 53672 AND\n2 1 53672 130334 130335 XOR\n2 1 79622 130335 53676 XOR\n2 1 82693 130396 53763 XOR\n2 1 76805 130396 53764 XOR\n2 1 53763 53764 53762 AND\n2 1 53762 130396 130397 XOR\n2 1 130428 130397 78086 XOR\n2 1 79622 78086 130366 XOR\n2 1 130366 130335 76294 XOR\n2 1 78086 130335 53677 XOR\n2 1 53676 53677 53675 AND\n2 1 53675 130335 130336 XOR\n2 1 79623 130336 53679 XOR\n2 1 82694 130397 53766 XOR\n2 1 76806 130397 53767 XOR\n2 1 53766 53767 53765 AND\n2 1 53765 130397 130398 XOR\n2 1 130429 130398 78087 XOR\n2 1 79623 78087 130367 XOR\n2 1 130367 130336 76295 XOR\n2 1 78087 130336 53680 XOR\n2 1 53679 53680 53678 AND\n2 1 53678 130336 130337 XOR\n2 1 79624 130337 53682 XOR\n2 1 82695 130398 53769 XOR\n2 1 76807 130398 53770 XOR\n2 1 53769 53770 53768 AND\n2 1 53768 130398 130399 XOR\n2 1 130430 130399 78088 XOR\n",
"2 1 79624 78088 130368 XOR\n2 1 130368 130337 76296 XOR\n2 1 78088 130337 53683 XOR\n2 1 53682 53683 53681 AND\n2 1 53681 130337 130338 XOR\n2 1 79625 130338 53685 XOR\n2 1 82696 130399 53772 XOR\n2 1 76808 130399 53773 XOR\n2 1 53772 53773 53771 AND\n2 1 53771 130399 130400 XOR\n2 1 130431 130400 78089 XOR\n2 1 79625 78089 130369 XOR\n2 1 130369 130338 76297 XOR\n2 1 78089 130338 53686 XOR\n2 1 53685 53686 53684 AND\n2 1 53684 130338 130339 XOR\n2 1 79626 130339 53688 XOR\n2 1 82697 130400 53775 XOR\n2 1 76809 130400 53776 XOR\n2 1 53775 53776 53774 AND\n2 1 53774 130400 130401 XOR\n2 1 130432 130401 78090 XOR\n2 1 79626 78090 130370 XOR\n2 1 130370 130339 76298 XOR\n2 1 78090 130339 53689 XOR\n2 1 53688 53689 53687 AND\n2 1 53687 130339 130340 XOR\n2 1 79627 130340 53691 XOR\n2 1 82698 130401 53778 XOR\n2 1 76810 130401 53779 XOR\n2 1 53778 53779 53777 AND\n2 1 53777 130401 130402 XOR\n2 1 130433 130402 78091 XOR\n2 1 79627 78091 130371 XOR\n2 1 130371 130340 76299 XOR\n2 1 78091 130340 53692 XOR\n2 1 53691 53692 53690 AND\n2 1 53690 130340 130341 XOR\n2 1 79628 130341 53694 XOR\n2 1 82699 130402 53781 XOR\n2 1 76811 130402 53782 XOR\n2 1 53781 53782 53780 AND\n2 1 53780 130402 130403 XOR\n2 1 130434 130403 78092 XOR\n2 1 79628 78092 130372 XOR\n2 1 130372 130341 76300 XOR\n2 1 78092 130341 53695 XOR\n2 1 53694 53695 53693 AND\n2 1 53693 130341 130342 XOR\n2 1 79629 130342 53697 XOR\n2 1 82700 130403 53784 XOR\n2 1 76812 130403 53785 XOR\n2 1 53784 53785 53783 AND\n2 1 53783 130403 130404 XOR\n2 1 130435 130404 78093 XOR\n2 1 79629 78093 130373 XOR\n2 1 130373 130342 76301 XOR\n2 1 78093 130342 53698 XOR\n2 1 53697 53698 53696 AND\n2 1 53696 130342 130343 XOR\n2 1 79630 130343 53700 XOR\n2 1 82701 130404 53787 XOR\n2 1 76813 130404 53788 XOR\n2 1 53787 53788 53786 AND\n2 1 53786 130404 130405 XOR\n2 1 130436 130405 78094 XOR\n2 1 79630 78094 130374 XOR\n2 1 130374 130343 76302 XOR\n2 1 78094 130343 53701 XOR\n2 1 53700 53701 53699 AND\n2 1 53699 130343 130344 XOR\n2 1 79631 130344 53703 XOR\n2 1 82702 130405 53790 XOR\n2 1 76814 130405 53791 XOR\n2 1 53790 53791 53789 AND\n2 1 53789 130405 130406 XOR\n2 1 130437 130406 78095 XOR\n2 1 79631 78095 130375 XOR\n2 1 130375 130344 76303 XOR\n2 1 78095 130344 53704 XOR\n2 1 53703 53704 53702 AND\n2 1 53702 130344 130345 XOR\n2 1 82703 130406 53793 XOR\n2 1 76815 130406 53794 XOR\n2 1 53793 53794 53792 AND\n2 1 53792 130406 130407 XOR\n2 1 130438 130407 78096 XOR\n2 1 79632 78096 130376 XOR\n2 1 130376 130345 76304 XOR\n2 1 76296 2423 115743 XOR\n2 1 76297 2424 115744 XOR\n2 1 76301 2428 115748 XOR\n2 1 76300 2427 115747 XOR\n2 1 76298 2425 115745 XOR\n2 1 76299 2426 115746 XOR\n2 1 76304 2431 115751 XOR\n2 1 76294 2421 115741 XOR\n2 1 76295 2422 115742 XOR\n2 1 76292 2419 115739 XOR\n2 1 76293 2420 115740 XOR\n2 1 76290 2417 115737 XOR\n2 1 76288 2415 115735 XOR\n2 1 76286 2413 115733 XOR\n2 1 76284 2411 115731 XOR\n2 1 76282 2409 115729 XOR\n2 1 76280 2407 115727 XOR\n2 1 76278 2405 115725 XOR\n2 1 76276 2403 115723 XOR\n2 1 76274 2401 115721 XOR\n2 1 76273 2400 115690 AND\n2 1 2401 115690 28902 XOR\n2 1 76274 115690 28901 XOR\n2 1 28901 28902 28900 AND\n2 1 115721 115690 94391 XOR\n2 1 96439 94391 115659 XOR\n2 1 28900 115690 115691 XOR\n2 1 76275 115691 28904 XOR\n2 1 2402 115691 28905 XOR\n2 1 28904 28905 28903 AND\n2 1 28903 115691 115692 XOR\n2 1 2403 115692 28908 XOR\n2 1 115723 115692 94393 XOR\n2 1 96441 94393 115661 XOR\n2 1 76303 2430 115750 XOR\n2 1 76302 2429 115749 XOR\n2 1 76273 2400 94390 XOR\n2 1 96438 94390 90353 XOR\n2 1 96438 94390 115628 AND\n",
"2 1 115659 115628 90354 XOR\n2 1 94391 115628 28812 XOR\n2 1 96439 115628 28811 XOR\n2 1 28811 28812 28810 AND\n2 1 28810 115628 115629 XOR\n2 1 96440 115629 28814 XOR\n2 1 1889 90354 105041 XOR\n2 1 1888 90353 2272 XOR\n2 1 90353 84209 1760 XOR\n2 1 1760 1824 70735 XOR\n2 1 70735 70703 70671 AND\n2 1 70671 1824 86225 XOR\n2 1 1760 1792 70607 XOR\n2 1 64143 2272 64111 AND\n2 1 64111 2336 98454 XOR\n2 1 2272 2304 64079 XOR\n2 1 90353 84209 105072 AND\n2 1 84210 105072 11648 XOR\n2 1 90354 105072 11647 XOR\n2 1 11647 11648 11646 AND\n2 1 11646 105072 105073 XOR\n2 1 84211 105073 11651 XOR\n2 1 90354 84210 105103 XOR\n2 1 105103 105072 1761 XOR\n2 1 1761 1825 70736 XOR\n2 1 70736 70704 70672 AND\n2 1 70672 1825 86226 XOR\n2 1 1761 1793 70608 XOR\n2 1 1888 90353 105010 AND\n2 1 105041 105010 2273 XOR\n2 1 1889 105010 11557 XOR\n2 1 90354 105010 11558 XOR\n2 1 11557 11558 11556 AND\n2 1 11556 105010 105011 XOR\n2 1 1890 105011 11560 XOR\n2 1 64144 2273 64112 AND\n2 1 64112 2337 98455 XOR\n2 1 2273 2305 64080 XOR\n2 1 76275 2402 115722 XOR\n2 1 115722 115691 94392 XOR\n2 1 96440 94392 115660 XOR\n2 1 115660 115629 90355 XOR\n2 1 94392 115629 28815 XOR\n2 1 28814 28815 28813 AND\n2 1 28813 115629 115630 XOR\n2 1 94393 115630 28818 XOR\n2 1 96441 115630 28817 XOR\n2 1 28817 28818 28816 AND\n2 1 28816 115630 115631 XOR\n2 1 115661 115630 90356 XOR\n2 1 96442 115631 28820 XOR\n2 1 90355 105073 11650 XOR\n2 1 90355 105011 11561 XOR\n2 1 11560 11561 11559 AND\n2 1 11559 105011 105012 XOR\n2 1 1891 105012 11563 XOR\n2 1 90356 105012 11564 XOR\n2 1 11563 11564 11562 AND\n2 1 11562 105012 105013 XOR\n2 1 1892 105013 11566 XOR\n2 1 1891 90356 105043 XOR\n2 1 105043 105012 2275 XOR\n2 1 1890 90355 105042 XOR\n2 1 105042 105011 2274 XOR\n2 1 11650 11651 11649 AND\n2 1 11649 105073 105074 XOR\n2 1 84212 105074 11654 XOR\n2 1 90356 105074 11653 XOR\n2 1 11653 11654 11652 AND\n2 1 11652 105074 105075 XOR\n2 1 84213 105075 11657 XOR\n2 1 90355 84211 105104 XOR\n2 1 105104 105073 1762 XOR\n2 1 1762 1826 70737 XOR\n2 1 70737 70705 70673 AND\n2 1 70673 1826 86227 XOR\n2 1 1762 1794 70609 XOR\n2 1 64146 2275 64114 AND\n2 1 64145 2274 64113 AND\n2 1 64114 2339 98457 XOR\n2 1 64113 2338 98456 XOR\n2 1 2275 2307 64082 XOR\n2 1 2274 2306 64081 XOR\n2 1 90356 84212 105105 XOR\n2 1 105105 105074 1763 XOR\n2 1 1763 1827 70738 XOR\n2 1 70738 70706 70674 AND\n2 1 70674 1827 86228 XOR\n2 1 1763 1795 70610 XOR\n2 1 76277 2404 115724 XOR\n2 1 76279 2406 115726 XOR\n2 1 76281 2408 115728 XOR\n2 1 76283 2410 115730 XOR\n2 1 76285 2412 115732 XOR\n2 1 76287 2414 115734 XOR\n2 1 76289 2416 115736 XOR\n2 1 76291 2418 115738 XOR\n2 1 76276 115692 28907 XOR\n2 1 28907 28908 28906 AND\n2 1 28906 115692 115693 XOR\n2 1 115724 115693 94394 XOR\n2 1 94394 115631 28821 XOR\n2 1 96442 94394 115662 XOR\n2 1 115662 115631 92377 XOR\n2 1 28820 28821 28819 AND\n2 1 28819 115631 115632 XOR\n2 1 96443 115632 28823 XOR\n2 1 76277 115693 28910 XOR\n2 1 2404 115693 28911 XOR\n2 1 28910 28911 28909 AND\n2 1 28909 115693 115694 XOR\n2 1 76278 115694 28913 XOR\n2 1 2405 115694 28914 XOR\n2 1 115725 115694 94395 XOR\n2 1 96443 94395 115663 XOR\n2 1 115663 115632 92378 XOR\n2 1 94395 115632 28824 XOR\n2 1 28823 28824 28822 AND\n2 1 28822 115632 115633 XOR\n2 1 96444 115633 28826 XOR\n1 1 92377 90357 INV\n2 1 90357 105013 11567 XOR\n2 1 11566 11567 11565 AND\n2 1 11565 105013 105014 XOR\n2 1 1893 105014 11569 XOR\n2 1 1892 90357 105044 XOR\n2 1 105044 105013 2276 XOR\n2 1 90357 105075 11656 XOR\n",
"2 1 11656 11657 11655 AND\n2 1 11655 105075 105076 XOR\n2 1 64147 2276 64115 AND\n2 1 64115 2340 98458 XOR\n2 1 2276 2308 64083 XOR\n1 1 92378 28797 INV\n2 1 28797 92377 90358 XOR\n2 1 1893 90358 105045 XOR\n2 1 105045 105014 2277 XOR\n2 1 90358 105014 11570 XOR\n2 1 11569 11570 11568 AND\n2 1 11568 105014 105015 XOR\n2 1 1894 105015 11572 XOR\n2 1 64148 2277 64116 AND\n2 1 64116 2341 98459 XOR\n2 1 2277 2309 64084 XOR\n2 1 90358 84214 105107 XOR\n2 1 105107 105076 1765 XOR\n2 1 1765 1829 70740 XOR\n2 1 70740 70708 70676 AND\n2 1 70676 1829 86230 XOR\n2 1 1765 1797 70612 XOR\n2 1 92378 92377 28723 XOR\n2 1 28723 90357 28722 AND\n2 1 28722 92377 28785 XOR\n1 1 28785 28726 INV\n2 1 90357 84213 105106 XOR\n2 1 105106 105075 1764 XOR\n2 1 1764 1828 70739 XOR\n2 1 70739 70707 70675 AND\n2 1 70675 1828 86229 XOR\n2 1 1764 1796 70611 XOR\n2 1 28913 28914 28912 AND\n2 1 28912 115694 115695 XOR\n2 1 2406 115695 28917 XOR\n2 1 76279 115695 28916 XOR\n2 1 28916 28917 28915 AND\n2 1 28915 115695 115696 XOR\n2 1 115727 115696 94397 XOR\n2 1 96445 94397 115665 XOR\n2 1 2407 115696 28920 XOR\n2 1 76280 115696 28919 XOR\n2 1 28919 28920 28918 AND\n2 1 28918 115696 115697 XOR\n2 1 76281 115697 28922 XOR\n2 1 2408 115697 28923 XOR\n2 1 28922 28923 28921 AND\n2 1 28921 115697 115698 XOR\n2 1 115729 115698 94399 XOR\n2 1 96447 94399 115667 XOR\n2 1 115728 115697 94398 XOR\n2 1 96446 94398 115666 XOR\n2 1 115726 115695 94396 XOR\n2 1 96444 94396 115664 XOR\n2 1 94396 115633 28827 XOR\n2 1 115664 115633 92379 XOR\n2 1 28826 28827 28825 AND\n2 1 28825 115633 115634 XOR\n2 1 94397 115634 28830 XOR\n2 1 115665 115634 92380 XOR\n2 1 96445 115634 28829 XOR\n2 1 28829 28830 28828 AND\n2 1 28828 115634 115635 XOR\n2 1 96446 115635 28832 XOR\n2 1 94398 115635 28833 XOR\n2 1 115666 115635 92381 XOR\n2 1 28832 28833 28831 AND\n2 1 28831 115635 115636 XOR\n2 1 96447 115636 28835 XOR\n2 1 94399 115636 28836 XOR\n2 1 28835 28836 28834 AND\n2 1 115667 115636 92382 XOR\n2 1 28834 115636 115637 XOR\n2 1 96448 115637 28838 XOR\n2 1 76282 115698 28925 XOR\n1 1 92379 28798 INV\n1 1 92381 28799 INV\n1 1 92382 28800 INV\n2 1 28798 28785 90359 XOR\n2 1 1894 90359 105046 XOR\n2 1 105046 105015 2278 XOR\n2 1 90359 105015 11573 XOR\n2 1 11572 11573 11571 AND\n2 1 11571 105015 105016 XOR\n2 1 1895 105016 11575 XOR\n2 1 90359 84215 105108 XOR\n2 1 64149 2278 64117 AND\n2 1 64117 2342 98460 XOR\n2 1 2278 2310 64085 XOR\n2 1 92379 28785 28725 XOR\n2 1 28725 28726 28724 AND\n2 1 28724 28785 28728 XOR\n2 1 2273 2278 61482 XOR\n2 1 2272 2277 61481 XOR\n2 1 2409 115698 28926 XOR\n2 1 28925 28926 28924 AND\n2 1 28924 115698 115699 XOR\n2 1 2410 115699 28929 XOR\n2 1 76283 115699 28928 XOR\n2 1 28928 28929 28927 AND\n2 1 28927 115699 115700 XOR\n2 1 115731 115700 94401 XOR\n2 1 96449 94401 115669 XOR\n2 1 2411 115700 28932 XOR\n2 1 76284 115700 28931 XOR\n2 1 28931 28932 28930 AND\n2 1 28930 115700 115701 XOR\n2 1 115732 115701 94402 XOR\n2 1 96450 94402 115670 XOR\n2 1 76285 115701 28934 XOR\n2 1 2412 115701 28935 XOR\n2 1 28934 28935 28933 AND\n2 1 28933 115701 115702 XOR\n2 1 76286 115702 28937 XOR\n2 1 2413 115702 28938 XOR\n2 1 115733 115702 94403 XOR\n2 1 96451 94403 115671 XOR\n2 1 28937 28938 28936 AND\n2 1 28936 115702 115703 XOR\n2 1 115734 115703 94404 XOR\n2 1 96452 94404 115672 XOR\n2 1 76287 115703 28940 XOR\n2 1 115730 115699 94400 XOR\n2 1 94400 115637 28839 XOR\n2 1 28838 28839 28837 AND\n2 1 28837 115637 115638 XOR\n2 1 96448 94400 115668 XOR\n2 1 115668 115637 92383 XOR\n"]

end Verif.Data
