/-!
# Text of `data/circ/sha256.txt`, part 5 of 11

Generated by `tools/gen_circuits.py`.
-/

namespace Verif.Data

/-- Lines 49157-61444 of `data/circ/sha256.txt`, 128 per string. -/
def shaBlocks04 : List String := [
"2 1 92917 36462 90908 XOR\n2 1 90908 36462 36461 AND\n2 1 36461 36462 36464 XOR\n2 1 94945 119949 36554 XOR\n2 1 36553 36554 36552 AND\n2 1 36552 119949 119950 XOR\n2 1 96994 119950 36556 XOR\n2 1 76828 120011 36643 XOR\n2 1 36643 36644 36642 AND\n2 1 36642 120011 120012 XOR\n2 1 3468 120012 36647 XOR\n2 1 2955 90908 107159 XOR\n2 1 107159 107128 3339 XOR\n2 1 90908 107128 14648 XOR\n2 1 14647 14648 14646 AND\n2 1 14646 107128 107129 XOR\n2 1 2956 107129 14650 XOR\n2 1 80156 133487 58236 XOR\n2 1 58236 58237 58235 AND\n2 1 58235 133487 133488 XOR\n2 1 78621 133488 58240 XOR\n2 1 81692 133611 58416 XOR\n2 1 77052 133611 58417 XOR\n2 1 58416 58417 58415 AND\n2 1 58415 133611 133612 XOR\n2 1 133643 133612 80157 XOR\n2 1 80157 78621 133519 XOR\n2 1 133519 133488 76829 XOR\n2 1 76829 3468 120043 XOR\n2 1 120043 120012 94946 XOR\n2 1 96994 94946 119981 XOR\n2 1 119981 119950 92918 XOR\n2 1 92918 36464 90909 XOR\n2 1 90909 36464 36463 AND\n2 1 36463 36464 36466 XOR\n2 1 94946 119950 36557 XOR\n2 1 36556 36557 36555 AND\n2 1 36555 119950 119951 XOR\n2 1 96995 119951 36559 XOR\n2 1 76829 120012 36646 XOR\n2 1 36646 36647 36645 AND\n2 1 36645 120012 120013 XOR\n2 1 3469 120013 36650 XOR\n2 1 2956 90909 107160 XOR\n2 1 107160 107129 3340 XOR\n2 1 90909 107129 14651 XOR\n2 1 14650 14651 14649 AND\n2 1 14649 107129 107130 XOR\n2 1 2957 107130 14653 XOR\n2 1 80157 133488 58239 XOR\n2 1 58239 58240 58238 AND\n2 1 58238 133488 133489 XOR\n2 1 78622 133489 58243 XOR\n2 1 81693 133612 58419 XOR\n2 1 77053 133612 58420 XOR\n2 1 58419 58420 58418 AND\n2 1 58418 133612 133613 XOR\n2 1 133644 133613 80158 XOR\n2 1 80158 78622 133520 XOR\n2 1 133520 133489 76830 XOR\n2 1 76830 3469 120044 XOR\n2 1 120044 120013 94947 XOR\n2 1 96995 94947 119982 XOR\n2 1 119982 119951 92919 XOR\n2 1 92919 36466 90910 XOR\n2 1 90910 36466 36465 AND\n2 1 36465 36466 119931 XOR\n1 1 119931 36469 INV\n2 1 94947 119951 36560 XOR\n2 1 36559 36560 36558 AND\n2 1 36558 119951 119952 XOR\n2 1 96996 119952 36562 XOR\n2 1 76830 120013 36649 XOR\n2 1 36649 36650 36648 AND\n2 1 36648 120013 120014 XOR\n2 1 3470 120014 36653 XOR\n2 1 2957 90910 107161 XOR\n2 1 107161 107130 3341 XOR\n2 1 90910 107130 14654 XOR\n2 1 14653 14654 14652 AND\n2 1 14652 107130 107131 XOR\n2 1 2958 107131 14656 XOR\n2 1 80158 133489 58242 XOR\n2 1 58242 58243 58241 AND\n2 1 58241 133489 133490 XOR\n2 1 78623 133490 58246 XOR\n2 1 81694 133613 58422 XOR\n2 1 77054 133613 58423 XOR\n2 1 58422 58423 58421 AND\n2 1 58421 133613 133614 XOR\n2 1 133645 133614 80159 XOR\n2 1 80159 78623 133521 XOR\n2 1 133521 133490 76831 XOR\n2 1 76831 3470 120045 XOR\n2 1 120045 120014 94948 XOR\n2 1 96996 94948 119983 XOR\n2 1 119983 119952 92920 XOR\n1 1 92920 36514 INV\n2 1 36514 119931 90911 XOR\n2 1 92920 119931 36468 XOR\n2 1 36468 36469 36467 AND\n2 1 36467 119931 119932 XOR\n1 1 119932 36472 INV\n2 1 94948 119952 36563 XOR\n2 1 36562 36563 36561 AND\n2 1 36561 119952 119953 XOR\n2 1 96997 119953 36565 XOR\n2 1 76831 120014 36652 XOR\n2 1 36652 36653 36651 AND\n2 1 36651 120014 120015 XOR\n2 1 3471 120015 36656 XOR\n2 1 2958 90911 107162 XOR\n2 1 107162 107131 3342 XOR\n2 1 90911 107131 14657 XOR\n2 1 14656 14657 14655 AND\n2 1 14655 107131 107132 XOR\n2 1 2959 107132 14659 XOR\n2 1 80159 133490 58245 XOR\n2 1 58245 58246 58244 AND\n2 1 58244 133490 133491 XOR\n2 1 78624 133491 58249 XOR\n2 1 81695 133614 58425 XOR\n2 1 77055 133614 58426 XOR\n2 1 58425 58426 58424 AND\n2 1 58424 133614 133615 XOR\n2 1 133646 133615 80160 XOR\n2 1 80160 78624 133522 XOR\n2 1 133522 133491 76832 XOR\n",
"2 1 76832 3471 120046 XOR\n2 1 120046 120015 94949 XOR\n2 1 96997 94949 119984 XOR\n2 1 119984 119953 92921 XOR\n1 1 92921 36515 INV\n2 1 36515 119932 90912 XOR\n2 1 92921 119932 36471 XOR\n2 1 36471 36472 36470 AND\n2 1 36470 119932 119933 XOR\n1 1 119933 36475 INV\n2 1 94949 119953 36566 XOR\n2 1 36565 36566 36564 AND\n2 1 36564 119953 119954 XOR\n2 1 96998 119954 36568 XOR\n2 1 76832 120015 36655 XOR\n2 1 36655 36656 36654 AND\n2 1 36654 120015 120016 XOR\n2 1 3472 120016 36659 XOR\n2 1 2959 90912 107163 XOR\n2 1 107163 107132 3343 XOR\n2 1 90912 107132 14660 XOR\n2 1 14659 14660 14658 AND\n2 1 14658 107132 107133 XOR\n2 1 2960 107133 14662 XOR\n2 1 80160 133491 58248 XOR\n2 1 58248 58249 58247 AND\n2 1 58247 133491 133492 XOR\n2 1 78625 133492 58252 XOR\n2 1 81696 133615 58428 XOR\n2 1 77056 133615 58429 XOR\n2 1 58428 58429 58427 AND\n2 1 58427 133615 133616 XOR\n2 1 133647 133616 80161 XOR\n2 1 80161 78625 133523 XOR\n2 1 133523 133492 76833 XOR\n2 1 76833 3472 120047 XOR\n2 1 120047 120016 94950 XOR\n2 1 96998 94950 119985 XOR\n2 1 119985 119954 92922 XOR\n1 1 92922 36516 INV\n2 1 36516 119933 90913 XOR\n2 1 92922 119933 36474 XOR\n2 1 36474 36475 36473 AND\n2 1 36473 119933 36477 XOR\n2 1 94950 119954 36569 XOR\n2 1 36568 36569 36567 AND\n2 1 36567 119954 119955 XOR\n2 1 96999 119955 36571 XOR\n2 1 76833 120016 36658 XOR\n2 1 36658 36659 36657 AND\n2 1 36657 120016 120017 XOR\n2 1 3473 120017 36662 XOR\n2 1 2960 90913 107164 XOR\n2 1 107164 107133 3344 XOR\n2 1 90913 107133 14663 XOR\n2 1 14662 14663 14661 AND\n2 1 14661 107133 107134 XOR\n2 1 2961 107134 14665 XOR\n2 1 80161 133492 58251 XOR\n2 1 58251 58252 58250 AND\n2 1 58250 133492 133493 XOR\n2 1 78626 133493 58255 XOR\n2 1 81697 133616 58431 XOR\n2 1 77057 133616 58432 XOR\n2 1 58431 58432 58430 AND\n2 1 58430 133616 133617 XOR\n2 1 133648 133617 80162 XOR\n2 1 80162 78626 133524 XOR\n2 1 133524 133493 76834 XOR\n2 1 76834 3473 120048 XOR\n2 1 120048 120017 94951 XOR\n2 1 96999 94951 119986 XOR\n2 1 119986 119955 92923 XOR\n2 1 92923 36477 90914 XOR\n2 1 90914 36477 36476 AND\n2 1 36476 36477 36479 XOR\n2 1 94951 119955 36572 XOR\n2 1 36571 36572 36570 AND\n2 1 36570 119955 119956 XOR\n2 1 97000 119956 36574 XOR\n2 1 76834 120017 36661 XOR\n2 1 36661 36662 36660 AND\n2 1 36660 120017 120018 XOR\n2 1 3474 120018 36665 XOR\n2 1 2961 90914 107165 XOR\n2 1 107165 107134 3345 XOR\n2 1 90914 107134 14666 XOR\n2 1 14665 14666 14664 AND\n2 1 14664 107134 107135 XOR\n2 1 2962 107135 14668 XOR\n2 1 80162 133493 58254 XOR\n2 1 58254 58255 58253 AND\n2 1 58253 133493 133494 XOR\n2 1 78627 133494 58258 XOR\n2 1 81698 133617 58434 XOR\n2 1 77058 133617 58435 XOR\n2 1 58434 58435 58433 AND\n2 1 58433 133617 133618 XOR\n2 1 133649 133618 80163 XOR\n2 1 80163 78627 133525 XOR\n2 1 133525 133494 76835 XOR\n2 1 76835 3474 120049 XOR\n2 1 120049 120018 94952 XOR\n2 1 97000 94952 119987 XOR\n2 1 119987 119956 92924 XOR\n2 1 92924 36479 90915 XOR\n2 1 90915 36479 36478 AND\n2 1 36478 36479 36481 XOR\n2 1 94952 119956 36575 XOR\n2 1 36574 36575 36573 AND\n2 1 36573 119956 119957 XOR\n2 1 97001 119957 36577 XOR\n2 1 76835 120018 36664 XOR\n2 1 36664 36665 36663 AND\n2 1 36663 120018 120019 XOR\n2 1 3475 120019 36668 XOR\n2 1 2962 90915 107166 XOR\n2 1 107166 107135 3346 XOR\n2 1 90915 107135 14669 XOR\n2 1 14668 14669 14667 AND\n2 1 14667 107135 107136 XOR\n2 1 2963 107136 14671 XOR\n2 1 80163 133494 58257 XOR\n2 1 58257 58258 58256 AND\n2 1 58256 133494 133495 XOR\n2 1 78628 133495 58261 XOR\n2 1 81699 133618 58437 XOR\n2 1 77059 133618 58438 XOR\n",
"2 1 58437 58438 58436 AND\n2 1 58436 133618 133619 XOR\n2 1 133650 133619 80164 XOR\n2 1 80164 78628 133526 XOR\n2 1 133526 133495 76836 XOR\n2 1 76836 3475 120050 XOR\n2 1 120050 120019 94953 XOR\n2 1 97001 94953 119988 XOR\n2 1 119988 119957 92925 XOR\n2 1 92925 36481 90916 XOR\n2 1 90916 36481 36480 AND\n2 1 36480 36481 119934 XOR\n1 1 119934 36484 INV\n2 1 94953 119957 36578 XOR\n2 1 36577 36578 36576 AND\n2 1 36576 119957 119958 XOR\n2 1 97002 119958 36580 XOR\n2 1 76836 120019 36667 XOR\n2 1 36667 36668 36666 AND\n2 1 36666 120019 120020 XOR\n2 1 3476 120020 36671 XOR\n2 1 2963 90916 107167 XOR\n2 1 107167 107136 3347 XOR\n2 1 90916 107136 14672 XOR\n2 1 14671 14672 14670 AND\n2 1 14670 107136 107137 XOR\n2 1 2964 107137 14674 XOR\n2 1 80164 133495 58260 XOR\n2 1 58260 58261 58259 AND\n2 1 58259 133495 133496 XOR\n2 1 78629 133496 58264 XOR\n2 1 81700 133619 58440 XOR\n2 1 77060 133619 58441 XOR\n2 1 58440 58441 58439 AND\n2 1 58439 133619 133620 XOR\n2 1 133651 133620 80165 XOR\n2 1 80165 78629 133527 XOR\n2 1 133527 133496 76837 XOR\n2 1 76837 3476 120051 XOR\n2 1 120051 120020 94954 XOR\n2 1 97002 94954 119989 XOR\n2 1 119989 119958 92926 XOR\n1 1 92926 36517 INV\n2 1 36517 119934 90917 XOR\n2 1 92926 119934 36483 XOR\n2 1 36483 36484 36482 AND\n2 1 36482 119934 119935 XOR\n1 1 119935 36487 INV\n2 1 94954 119958 36581 XOR\n2 1 36580 36581 36579 AND\n2 1 36579 119958 119959 XOR\n2 1 97003 119959 36583 XOR\n2 1 76837 120020 36670 XOR\n2 1 36670 36671 36669 AND\n2 1 36669 120020 120021 XOR\n2 1 3477 120021 36674 XOR\n2 1 2964 90917 107168 XOR\n2 1 107168 107137 3348 XOR\n2 1 90917 107137 14675 XOR\n2 1 14674 14675 14673 AND\n2 1 14673 107137 107138 XOR\n2 1 2965 107138 14677 XOR\n2 1 80165 133496 58263 XOR\n2 1 58263 58264 58262 AND\n2 1 58262 133496 133497 XOR\n2 1 78630 133497 58267 XOR\n2 1 81701 133620 58443 XOR\n2 1 77061 133620 58444 XOR\n2 1 58443 58444 58442 AND\n2 1 58442 133620 133621 XOR\n2 1 133652 133621 80166 XOR\n2 1 80166 78630 133528 XOR\n2 1 133528 133497 76838 XOR\n2 1 76838 3477 120052 XOR\n2 1 120052 120021 94955 XOR\n2 1 97003 94955 119990 XOR\n2 1 119990 119959 92927 XOR\n1 1 92927 36518 INV\n2 1 36518 119935 90918 XOR\n2 1 92927 119935 36486 XOR\n2 1 36486 36487 36485 AND\n2 1 36485 119935 36489 XOR\n2 1 94955 119959 36584 XOR\n2 1 36583 36584 36582 AND\n2 1 36582 119959 119960 XOR\n2 1 97004 119960 36586 XOR\n2 1 76838 120021 36673 XOR\n2 1 36673 36674 36672 AND\n2 1 36672 120021 120022 XOR\n2 1 3478 120022 36677 XOR\n2 1 2965 90918 107169 XOR\n2 1 107169 107138 3349 XOR\n2 1 90918 107138 14678 XOR\n2 1 14677 14678 14676 AND\n2 1 14676 107138 107139 XOR\n2 1 2966 107139 14680 XOR\n2 1 80166 133497 58266 XOR\n2 1 58266 58267 58265 AND\n2 1 58265 133497 133498 XOR\n2 1 78631 133498 58270 XOR\n2 1 81702 133621 58446 XOR\n2 1 77062 133621 58447 XOR\n2 1 58446 58447 58445 AND\n2 1 58445 133621 133622 XOR\n2 1 133653 133622 80167 XOR\n2 1 80167 78631 133529 XOR\n2 1 133529 133498 76839 XOR\n2 1 76839 3478 120053 XOR\n2 1 120053 120022 94956 XOR\n2 1 97004 94956 119991 XOR\n2 1 119991 119960 92928 XOR\n2 1 92928 36489 90919 XOR\n2 1 90919 36489 36488 AND\n2 1 36488 36489 36491 XOR\n2 1 94956 119960 36587 XOR\n2 1 36586 36587 36585 AND\n2 1 36585 119960 119961 XOR\n2 1 97005 119961 36589 XOR\n2 1 76839 120022 36676 XOR\n2 1 36676 36677 36675 AND\n2 1 36675 120022 120023 XOR\n2 1 3479 120023 36680 XOR\n2 1 2966 90919 107170 XOR\n2 1 107170 107139 3350 XOR\n2 1 90919 107139 14681 XOR\n2 1 14680 14681 14679 AND\n2 1 14679 107139 107140 XOR\n2 1 2967 107140 14683 XOR\n",
"2 1 80167 133498 58269 XOR\n2 1 58269 58270 58268 AND\n2 1 58268 133498 133499 XOR\n2 1 78632 133499 58273 XOR\n2 1 81703 133622 58449 XOR\n2 1 77063 133622 58450 XOR\n2 1 58449 58450 58448 AND\n2 1 58448 133622 133623 XOR\n2 1 133654 133623 80168 XOR\n2 1 80168 78632 133530 XOR\n2 1 133530 133499 76840 XOR\n2 1 76840 3479 120054 XOR\n2 1 120054 120023 94957 XOR\n2 1 97005 94957 119992 XOR\n2 1 119992 119961 92929 XOR\n2 1 92929 36491 90920 XOR\n2 1 90920 36491 36490 AND\n2 1 36490 36491 36493 XOR\n2 1 94957 119961 36590 XOR\n2 1 36589 36590 36588 AND\n2 1 36588 119961 119962 XOR\n2 1 97006 119962 36592 XOR\n2 1 76840 120023 36679 XOR\n2 1 36679 36680 36678 AND\n2 1 36678 120023 120024 XOR\n2 1 3480 120024 36683 XOR\n2 1 2967 90920 107171 XOR\n2 1 107171 107140 3351 XOR\n2 1 90920 107140 14684 XOR\n2 1 14683 14684 14682 AND\n2 1 14682 107140 107141 XOR\n2 1 2968 107141 14686 XOR\n2 1 80168 133499 58272 XOR\n2 1 58272 58273 58271 AND\n2 1 58271 133499 133500 XOR\n2 1 78633 133500 58276 XOR\n2 1 81704 133623 58452 XOR\n2 1 77064 133623 58453 XOR\n2 1 58452 58453 58451 AND\n2 1 58451 133623 133624 XOR\n2 1 133655 133624 80169 XOR\n2 1 80169 78633 133531 XOR\n2 1 133531 133500 76841 XOR\n2 1 76841 3480 120055 XOR\n2 1 120055 120024 94958 XOR\n2 1 97006 94958 119993 XOR\n2 1 119993 119962 92930 XOR\n2 1 92930 36493 90921 XOR\n2 1 90921 36493 36492 AND\n2 1 36492 36493 36495 XOR\n2 1 94958 119962 36593 XOR\n2 1 36592 36593 36591 AND\n2 1 36591 119962 119963 XOR\n2 1 97007 119963 36595 XOR\n2 1 76841 120024 36682 XOR\n2 1 36682 36683 36681 AND\n2 1 36681 120024 120025 XOR\n2 1 3481 120025 36686 XOR\n2 1 2968 90921 107172 XOR\n2 1 107172 107141 3352 XOR\n2 1 90921 107141 14687 XOR\n2 1 14686 14687 14685 AND\n2 1 14685 107141 107142 XOR\n2 1 2969 107142 14689 XOR\n2 1 80169 133500 58275 XOR\n2 1 58275 58276 58274 AND\n2 1 58274 133500 133501 XOR\n2 1 78634 133501 58279 XOR\n2 1 81705 133624 58455 XOR\n2 1 77065 133624 58456 XOR\n2 1 58455 58456 58454 AND\n2 1 58454 133624 133625 XOR\n2 1 133656 133625 80170 XOR\n2 1 80170 78634 133532 XOR\n2 1 133532 133501 76842 XOR\n2 1 76842 3481 120056 XOR\n2 1 120056 120025 94959 XOR\n2 1 97007 94959 119994 XOR\n2 1 119994 119963 92931 XOR\n2 1 92931 36495 90922 XOR\n2 1 90922 36495 36494 AND\n2 1 36494 36495 36497 XOR\n2 1 94959 119963 36596 XOR\n2 1 36595 36596 36594 AND\n2 1 36594 119963 119964 XOR\n2 1 97008 119964 36598 XOR\n2 1 76842 120025 36685 XOR\n2 1 36685 36686 36684 AND\n2 1 36684 120025 120026 XOR\n2 1 3482 120026 36689 XOR\n2 1 2969 90922 107173 XOR\n2 1 107173 107142 3353 XOR\n2 1 80170 133501 58278 XOR\n2 1 58278 58279 58277 AND\n2 1 58277 133501 133502 XOR\n2 1 78635 133502 58282 XOR\n2 1 81706 133625 58458 XOR\n2 1 77066 133625 58459 XOR\n2 1 58458 58459 58457 AND\n2 1 58457 133625 133626 XOR\n2 1 133657 133626 80171 XOR\n2 1 80171 78635 133533 XOR\n2 1 133533 133502 76843 XOR\n2 1 76843 3482 120057 XOR\n2 1 120057 120026 94960 XOR\n2 1 97008 94960 119995 XOR\n2 1 119995 119964 92932 XOR\n2 1 92932 36497 90923 XOR\n2 1 90923 36497 36496 AND\n2 1 36496 36497 119936 XOR\n1 1 119936 36500 INV\n2 1 94960 119964 36599 XOR\n2 1 36598 36599 36597 AND\n2 1 36597 119964 119965 XOR\n2 1 97009 119965 36601 XOR\n2 1 76843 120026 36688 XOR\n2 1 36688 36689 36687 AND\n2 1 36687 120026 120027 XOR\n2 1 3483 120027 36692 XOR\n2 1 2970 90923 107174 XOR\n2 1 80171 133502 58281 XOR\n2 1 58281 58282 58280 AND\n2 1 58280 133502 133503 XOR\n2 1 78636 133503 58285 XOR\n2 1 81707 133626 58461 XOR\n2 1 77067 133626 58462 XOR\n2 1 58461 58462 58460 AND\n2 1 58460 133626 133627 XOR\n",
"2 1 133658 133627 80172 XOR\n2 1 80172 78636 133534 XOR\n2 1 133534 133503 76844 XOR\n2 1 76844 3483 120058 XOR\n2 1 120058 120027 94961 XOR\n2 1 97009 94961 119996 XOR\n2 1 119996 119965 92933 XOR\n1 1 92933 36519 INV\n2 1 36519 119936 90924 XOR\n2 1 92933 119936 36499 XOR\n2 1 36499 36500 36498 AND\n2 1 36498 119936 36502 XOR\n2 1 94961 119965 36602 XOR\n2 1 36601 36602 36600 AND\n2 1 36600 119965 119966 XOR\n2 1 97010 119966 36604 XOR\n2 1 76844 120027 36691 XOR\n2 1 36691 36692 36690 AND\n2 1 36690 120027 120028 XOR\n2 1 3484 120028 36695 XOR\n2 1 2971 90924 107175 XOR\n2 1 80172 133503 58284 XOR\n2 1 58284 58285 58283 AND\n2 1 58283 133503 133504 XOR\n2 1 78637 133504 58288 XOR\n2 1 81708 133627 58464 XOR\n2 1 77068 133627 58465 XOR\n2 1 58464 58465 58463 AND\n2 1 58463 133627 133628 XOR\n2 1 133659 133628 80173 XOR\n2 1 80173 78637 133535 XOR\n2 1 133535 133504 76845 XOR\n2 1 76845 3484 120059 XOR\n2 1 120059 120028 94962 XOR\n2 1 97010 94962 119997 XOR\n2 1 119997 119966 92934 XOR\n2 1 92934 36502 90925 XOR\n2 1 90925 36502 36501 AND\n2 1 36501 36502 119937 XOR\n1 1 119937 36505 INV\n2 1 94962 119966 36605 XOR\n2 1 36604 36605 36603 AND\n2 1 36603 119966 119967 XOR\n2 1 97011 119967 36607 XOR\n2 1 76845 120028 36694 XOR\n2 1 36694 36695 36693 AND\n2 1 36693 120028 120029 XOR\n2 1 3485 120029 36698 XOR\n2 1 2972 90925 107176 XOR\n2 1 80173 133504 58287 XOR\n2 1 58287 58288 58286 AND\n2 1 58286 133504 133505 XOR\n2 1 78638 133505 58291 XOR\n2 1 81709 133628 58467 XOR\n2 1 77069 133628 58468 XOR\n2 1 58467 58468 58466 AND\n2 1 58466 133628 133629 XOR\n2 1 133660 133629 80174 XOR\n2 1 80174 78638 133536 XOR\n2 1 133536 133505 76846 XOR\n2 1 76846 3485 120060 XOR\n2 1 120060 120029 94963 XOR\n2 1 97011 94963 119998 XOR\n2 1 119998 119967 92935 XOR\n1 1 92935 36520 INV\n2 1 36520 119937 90926 XOR\n2 1 92935 119937 36504 XOR\n2 1 36504 36505 36503 AND\n2 1 36503 119937 36507 XOR\n2 1 94963 119967 36608 XOR\n2 1 36607 36608 36606 AND\n2 1 36606 119967 119968 XOR\n2 1 97012 119968 36610 XOR\n2 1 76846 120029 36697 XOR\n2 1 36697 36698 36696 AND\n2 1 36696 120029 120030 XOR\n2 1 3486 120030 36701 XOR\n2 1 2973 90926 107177 XOR\n2 1 80174 133505 58290 XOR\n2 1 58290 58291 58289 AND\n2 1 58289 133505 133506 XOR\n2 1 78639 133506 58294 XOR\n2 1 81710 133629 58470 XOR\n2 1 77070 133629 58471 XOR\n2 1 58470 58471 58469 AND\n2 1 58469 133629 133630 XOR\n2 1 133661 133630 80175 XOR\n2 1 80175 78639 133537 XOR\n2 1 133537 133506 76847 XOR\n2 1 76847 3486 120061 XOR\n2 1 120061 120030 94964 XOR\n2 1 97012 94964 119999 XOR\n2 1 119999 119968 92936 XOR\n2 1 92936 36507 90927 XOR\n2 1 90927 36507 36506 AND\n2 1 36506 36507 119938 XOR\n2 1 94964 119968 36611 XOR\n2 1 36610 36611 36609 AND\n2 1 36609 119968 119969 XOR\n2 1 76847 120030 36700 XOR\n2 1 36700 36701 36699 AND\n2 1 36699 120030 120031 XOR\n2 1 2974 90927 107178 XOR\n2 1 80175 133506 58293 XOR\n2 1 58293 58294 58292 AND\n2 1 58292 133506 133507 XOR\n2 1 81711 133630 58473 XOR\n2 1 77071 133630 58474 XOR\n2 1 58473 58474 58472 AND\n2 1 58472 133630 133631 XOR\n2 1 133662 133631 80176 XOR\n2 1 80176 78640 133538 XOR\n2 1 133538 133507 76848 XOR\n2 1 76848 3487 120062 XOR\n2 1 120062 120031 94965 XOR\n2 1 97013 94965 120000 XOR\n2 1 120000 119969 92937 XOR\n1 1 92937 36521 INV\n2 1 36521 119938 90928 XOR\n2 1 2975 90928 107179 XOR\n2 1 2944 90897 3328 XOR\n2 1 2946 90899 107150 XOR\n2 1 107150 107119 3330 XOR\n2 1 90922 107142 14690 XOR\n2 1 14689 14690 14688 AND\n2 1 14688 107142 107143 XOR\n2 1 107174 107143 3354 XOR\n2 1 2970 107143 14692 XOR\n",
"2 1 90923 107143 14693 XOR\n2 1 14692 14693 14691 AND\n2 1 14691 107143 107144 XOR\n2 1 107175 107144 3355 XOR\n2 1 2971 107144 14695 XOR\n2 1 90924 107144 14696 XOR\n2 1 14695 14696 14694 AND\n2 1 14694 107144 107145 XOR\n2 1 107176 107145 3356 XOR\n2 1 2972 107145 14698 XOR\n2 1 90925 107145 14699 XOR\n2 1 14698 14699 14697 AND\n2 1 14697 107145 107146 XOR\n2 1 107177 107146 3357 XOR\n2 1 2973 107146 14701 XOR\n2 1 90926 107146 14702 XOR\n2 1 14701 14702 14700 AND\n2 1 14700 107146 107147 XOR\n2 1 107178 107147 3358 XOR\n2 1 2974 107147 14704 XOR\n2 1 90927 107147 14705 XOR\n2 1 14704 14705 14703 AND\n2 1 14703 107147 107148 XOR\n2 1 107179 107148 3359 XOR\n2 1 90897 84753 107180 AND\n2 1 90897 84753 2816 XOR\n2 1 2816 2880 72367 XOR\n2 1 72367 72335 72303 AND\n2 1 72303 2880 86769 XOR\n2 1 2816 2848 72239 XOR\n2 1 90898 84754 107211 XOR\n2 1 90899 84755 107212 XOR\n2 1 90900 84756 107213 XOR\n2 1 90901 84757 107214 XOR\n2 1 90902 84758 107215 XOR\n2 1 90903 84759 107216 XOR\n2 1 90904 84760 107217 XOR\n2 1 90905 84761 107218 XOR\n2 1 90906 84762 107219 XOR\n2 1 90907 84763 107220 XOR\n2 1 90908 84764 107221 XOR\n2 1 90909 84765 107222 XOR\n2 1 90910 84766 107223 XOR\n2 1 90911 84767 107224 XOR\n2 1 90912 84768 107225 XOR\n2 1 90913 84769 107226 XOR\n2 1 90914 84770 107227 XOR\n2 1 90915 84771 107228 XOR\n2 1 90916 84772 107229 XOR\n2 1 90917 84773 107230 XOR\n2 1 90918 84774 107231 XOR\n2 1 90919 84775 107232 XOR\n2 1 90920 84776 107233 XOR\n2 1 90921 84777 107234 XOR\n2 1 90922 84778 107235 XOR\n2 1 90923 84779 107236 XOR\n2 1 90924 84780 107237 XOR\n2 1 90925 84781 107238 XOR\n2 1 90926 84782 107239 XOR\n2 1 90927 84783 107240 XOR\n2 1 90928 84784 107241 XOR\n2 1 107211 107180 2817 XOR\n2 1 2817 2881 72368 XOR\n2 1 72368 72336 72304 AND\n2 1 72304 2881 86770 XOR\n2 1 2817 2849 72240 XOR\n2 1 90898 107180 14707 XOR\n2 1 84754 107180 14708 XOR\n2 1 14707 14708 14706 AND\n2 1 14706 107180 107181 XOR\n2 1 107212 107181 2818 XOR\n2 1 2818 2882 72369 XOR\n2 1 72369 72337 72305 AND\n2 1 72305 2882 86771 XOR\n2 1 2818 2850 72241 XOR\n2 1 90899 107181 14710 XOR\n2 1 84755 107181 14711 XOR\n2 1 14710 14711 14709 AND\n2 1 14709 107181 107182 XOR\n2 1 107213 107182 2819 XOR\n2 1 2819 2883 72370 XOR\n2 1 72370 72338 72306 AND\n2 1 72306 2883 86772 XOR\n2 1 2819 2851 72242 XOR\n2 1 90900 107182 14713 XOR\n2 1 84756 107182 14714 XOR\n2 1 14713 14714 14712 AND\n2 1 14712 107182 107183 XOR\n2 1 107214 107183 2820 XOR\n2 1 2820 2884 72371 XOR\n2 1 72371 72339 72307 AND\n2 1 72307 2884 86773 XOR\n2 1 2820 2852 72243 XOR\n2 1 90901 107183 14716 XOR\n2 1 84757 107183 14717 XOR\n2 1 14716 14717 14715 AND\n2 1 14715 107183 107184 XOR\n2 1 107215 107184 2821 XOR\n2 1 2821 2885 72372 XOR\n2 1 72372 72340 72308 AND\n2 1 72308 2885 86774 XOR\n2 1 2821 2853 72244 XOR\n2 1 90902 107184 14719 XOR\n2 1 84758 107184 14720 XOR\n2 1 14719 14720 14718 AND\n2 1 14718 107184 107185 XOR\n2 1 107216 107185 2822 XOR\n2 1 2822 2886 72373 XOR\n2 1 72373 72341 72309 AND\n2 1 72309 2886 86775 XOR\n2 1 2822 2854 72245 XOR\n2 1 90903 107185 14722 XOR\n2 1 84759 107185 14723 XOR\n2 1 14722 14723 14721 AND\n2 1 14721 107185 107186 XOR\n2 1 107217 107186 2823 XOR\n2 1 2823 2887 72374 XOR\n2 1 72374 72342 72310 AND\n2 1 72310 2887 86776 XOR\n2 1 2823 2855 72246 XOR\n2 1 90904 107186 14725 XOR\n2 1 84760 107186 14726 XOR\n2 1 14725 14726 14724 AND\n2 1 14724 107186 107187 XOR\n2 1 107218 107187 2824 XOR\n2 1 2824 2888 72375 XOR\n2 1 72375 72343 72311 AND\n2 1 72311 2888 86777 XOR\n",
"2 1 2824 2856 72247 XOR\n2 1 65262 3359 65230 AND\n2 1 65261 3358 65229 AND\n2 1 65260 3357 65228 AND\n2 1 65259 3356 65227 AND\n2 1 65258 3355 65226 AND\n2 1 65257 3354 65225 AND\n2 1 65256 3353 65224 AND\n2 1 65255 3352 65223 AND\n2 1 65254 3351 65222 AND\n2 1 65253 3350 65221 AND\n2 1 65252 3349 65220 AND\n2 1 65251 3348 65219 AND\n2 1 65250 3347 65218 AND\n2 1 65249 3346 65217 AND\n2 1 65248 3345 65216 AND\n2 1 65247 3344 65215 AND\n2 1 65246 3343 65214 AND\n2 1 65245 3342 65213 AND\n2 1 65244 3341 65212 AND\n2 1 65243 3340 65211 AND\n2 1 65242 3339 65210 AND\n2 1 65241 3338 65209 AND\n2 1 65240 3337 65208 AND\n2 1 65239 3336 65207 AND\n2 1 65238 3335 65206 AND\n2 1 65237 3334 65205 AND\n2 1 65236 3333 65204 AND\n2 1 65235 3332 65203 AND\n2 1 65234 3331 65202 AND\n2 1 65233 3330 65201 AND\n2 1 65232 3329 65200 AND\n2 1 65231 3328 65199 AND\n2 1 65230 3423 99029 XOR\n2 1 65229 3422 99028 XOR\n2 1 65228 3421 99027 XOR\n2 1 65227 3420 99026 XOR\n2 1 65226 3419 99025 XOR\n2 1 65225 3418 99024 XOR\n2 1 65224 3417 99023 XOR\n2 1 65223 3416 99022 XOR\n2 1 65222 3415 99021 XOR\n2 1 65221 3414 99020 XOR\n2 1 65220 3413 99019 XOR\n2 1 65219 3412 99018 XOR\n2 1 65218 3411 99017 XOR\n2 1 65217 3410 99016 XOR\n2 1 65216 3409 99015 XOR\n2 1 65215 3408 99014 XOR\n2 1 65214 3407 99013 XOR\n2 1 65213 3406 99012 XOR\n2 1 65212 3405 99011 XOR\n2 1 65211 3404 99010 XOR\n2 1 65210 3403 99009 XOR\n2 1 65209 3402 99008 XOR\n2 1 65208 3401 99007 XOR\n2 1 65207 3400 99006 XOR\n2 1 65206 3399 99005 XOR\n2 1 65205 3398 99004 XOR\n2 1 65204 3397 99003 XOR\n2 1 65203 3396 99002 XOR\n2 1 65202 3395 99001 XOR\n2 1 65201 3394 99000 XOR\n2 1 65200 3393 98999 XOR\n2 1 65199 3392 98998 XOR\n2 1 3359 3391 65198 XOR\n2 1 3358 3390 65197 XOR\n2 1 3357 3389 65196 XOR\n2 1 3356 3388 65195 XOR\n2 1 3355 3387 65194 XOR\n2 1 3354 3386 65193 XOR\n2 1 3353 3385 65192 XOR\n2 1 3352 3384 65191 XOR\n2 1 3351 3383 65190 XOR\n2 1 3350 3382 65189 XOR\n2 1 3349 3381 65188 XOR\n2 1 3348 3380 65187 XOR\n2 1 3347 3379 65186 XOR\n2 1 3346 3378 65185 XOR\n2 1 3345 3377 65184 XOR\n2 1 3344 3376 65183 XOR\n2 1 3343 3375 65182 XOR\n2 1 3342 3374 65181 XOR\n2 1 3341 3373 65180 XOR\n2 1 3340 3372 65179 XOR\n2 1 3339 3371 65178 XOR\n2 1 3338 3370 65177 XOR\n2 1 3337 3369 65176 XOR\n2 1 3336 3368 65175 XOR\n2 1 3335 3367 65174 XOR\n2 1 3334 3366 65173 XOR\n2 1 3333 3365 65172 XOR\n2 1 3332 3364 65171 XOR\n2 1 3331 3363 65170 XOR\n2 1 3330 3362 65169 XOR\n2 1 3329 3361 65168 XOR\n2 1 3328 3360 65167 XOR\n2 1 90905 107187 14728 XOR\n2 1 84761 107187 14729 XOR\n2 1 14728 14729 14727 AND\n2 1 14727 107187 107188 XOR\n2 1 107219 107188 2825 XOR\n2 1 2825 2889 72376 XOR\n2 1 72376 72344 72312 AND\n2 1 72312 2889 86778 XOR\n2 1 2825 2857 72248 XOR\n2 1 90906 107188 14731 XOR\n2 1 84762 107188 14732 XOR\n2 1 14731 14732 14730 AND\n2 1 14730 107188 107189 XOR\n2 1 107220 107189 2826 XOR\n2 1 2826 2890 72377 XOR\n2 1 72377 72345 72313 AND\n2 1 72313 2890 86779 XOR\n2 1 2826 2858 72249 XOR\n2 1 90907 107189 14734 XOR\n2 1 84763 107189 14735 XOR\n2 1 14734 14735 14733 AND\n2 1 14733 107189 107190 XOR\n2 1 107221 107190 2827 XOR\n2 1 2827 2891 72378 XOR\n2 1 72378 72346 72314 AND\n2 1 72314 2891 86780 XOR\n2 1 2827 2859 72250 XOR\n2 1 2816 2827 67949 XOR\n2 1 90908 107190 14737 XOR\n2 1 84764 107190 14738 XOR\n2 1 14737 14738 14736 AND\n",
"2 1 14736 107190 107191 XOR\n2 1 107222 107191 2828 XOR\n2 1 2828 2892 72379 XOR\n2 1 72379 72347 72315 AND\n2 1 72315 2892 86781 XOR\n2 1 2828 2860 72251 XOR\n2 1 2817 2828 67950 XOR\n2 1 90909 107191 14740 XOR\n2 1 84765 107191 14741 XOR\n2 1 14740 14741 14739 AND\n2 1 14739 107191 107192 XOR\n2 1 107223 107192 2829 XOR\n2 1 2829 2893 72380 XOR\n2 1 72380 72348 72316 AND\n2 1 72316 2893 86782 XOR\n2 1 2829 2861 72252 XOR\n2 1 2818 2829 67919 XOR\n2 1 90910 107192 14743 XOR\n2 1 84766 107192 14744 XOR\n2 1 14743 14744 14742 AND\n2 1 14742 107192 107193 XOR\n2 1 84767 107193 14747 XOR\n2 1 107224 107193 2830 XOR\n2 1 2830 2894 72381 XOR\n2 1 72381 72349 72317 AND\n2 1 72317 2894 86783 XOR\n2 1 2830 2862 72253 XOR\n2 1 2819 2830 67920 XOR\n2 1 90911 107193 14746 XOR\n2 1 14746 14747 14745 AND\n2 1 14745 107193 107194 XOR\n2 1 90912 107194 14749 XOR\n2 1 107225 107194 2831 XOR\n2 1 2831 2895 72382 XOR\n2 1 72382 72350 72318 AND\n2 1 72318 2895 86784 XOR\n2 1 2831 2863 72254 XOR\n2 1 2820 2831 67921 XOR\n2 1 84768 107194 14750 XOR\n2 1 14749 14750 14748 AND\n2 1 14748 107194 107195 XOR\n2 1 84769 107195 14753 XOR\n2 1 107226 107195 2832 XOR\n2 1 2832 2896 72383 XOR\n2 1 72383 72351 72319 AND\n2 1 72319 2896 86785 XOR\n2 1 2832 2864 72255 XOR\n2 1 2821 2832 67922 XOR\n2 1 90913 107195 14752 XOR\n2 1 14752 14753 14751 AND\n2 1 14751 107195 107196 XOR\n2 1 90914 107196 14755 XOR\n2 1 107227 107196 2833 XOR\n2 1 2833 2897 72384 XOR\n2 1 72384 72352 72320 AND\n2 1 72320 2897 86786 XOR\n2 1 2833 2865 72256 XOR\n2 1 2822 2833 67923 XOR\n2 1 84770 107196 14756 XOR\n2 1 14755 14756 14754 AND\n2 1 14754 107196 107197 XOR\n2 1 84771 107197 14759 XOR\n2 1 107228 107197 2834 XOR\n2 1 2834 2898 72385 XOR\n2 1 72385 72353 72321 AND\n2 1 72321 2898 86787 XOR\n2 1 2834 2866 72257 XOR\n2 1 2823 2834 67924 XOR\n2 1 90915 107197 14758 XOR\n2 1 14758 14759 14757 AND\n2 1 14757 107197 107198 XOR\n2 1 90916 107198 14761 XOR\n2 1 107229 107198 2835 XOR\n2 1 2835 2899 72386 XOR\n2 1 72386 72354 72322 AND\n2 1 72322 2899 86788 XOR\n2 1 2835 2867 72258 XOR\n2 1 2824 2835 67925 XOR\n2 1 84772 107198 14762 XOR\n2 1 14761 14762 14760 AND\n2 1 14760 107198 107199 XOR\n2 1 84773 107199 14765 XOR\n2 1 107230 107199 2836 XOR\n2 1 2836 2900 72387 XOR\n2 1 72387 72355 72323 AND\n2 1 72323 2900 86789 XOR\n2 1 2836 2868 72259 XOR\n2 1 2825 2836 67926 XOR\n2 1 67949 2836 88847 XOR\n2 1 90917 107199 14764 XOR\n2 1 14764 14765 14763 AND\n2 1 14763 107199 107200 XOR\n2 1 90918 107200 14767 XOR\n2 1 107231 107200 2837 XOR\n2 1 2837 2901 72388 XOR\n2 1 72388 72356 72324 AND\n2 1 72324 2901 86790 XOR\n2 1 2837 2869 72260 XOR\n2 1 2837 2816 67938 XOR\n2 1 2826 2837 67927 XOR\n2 1 67950 2837 88848 XOR\n2 1 67938 2825 88836 XOR\n2 1 88836 86788 119653 XOR\n2 1 84774 107200 14768 XOR\n2 1 14767 14768 14766 AND\n2 1 14766 107200 107201 XOR\n2 1 84775 107201 14771 XOR\n2 1 107232 107201 2838 XOR\n2 1 2838 2902 72389 XOR\n2 1 72389 72357 72325 AND\n2 1 72325 2902 86791 XOR\n2 1 2838 2870 72261 XOR\n2 1 2838 2817 67939 XOR\n2 1 2827 2838 67928 XOR\n2 1 67939 2826 88837 XOR\n2 1 88837 86789 119654 XOR\n2 1 67919 2838 88817 XOR\n2 1 88817 86769 119604 AND\n2 1 88817 86769 84721 XOR\n2 1 86770 119604 35914 XOR\n2 1 90919 107201 14770 XOR\n2 1 14770 14771 14769 AND\n2 1 14769 107201 107202 XOR\n2 1 90920 107202 14773 XOR\n2 1 107233 107202 2839 XOR\n2 1 2839 2903 72390 XOR\n2 1 72390 72358 72326 AND\n2 1 72326 2903 86792 XOR\n",
"2 1 2839 2871 72262 XOR\n2 1 2839 2818 67940 XOR\n2 1 2828 2839 67929 XOR\n2 1 67940 2827 88838 XOR\n2 1 88838 86790 119655 XOR\n2 1 67929 2816 88827 XOR\n2 1 88827 86779 119644 XOR\n2 1 67920 2839 88818 XOR\n2 1 88818 86770 119635 XOR\n2 1 119635 119604 84722 XOR\n2 1 88818 119604 35913 XOR\n2 1 35913 35914 35912 AND\n2 1 35912 119604 119605 XOR\n2 1 86771 119605 35917 XOR\n2 1 84776 107202 14774 XOR\n2 1 14773 14774 14772 AND\n2 1 14772 107202 107203 XOR\n2 1 84777 107203 14777 XOR\n2 1 107234 107203 2840 XOR\n2 1 2840 2904 72391 XOR\n2 1 72391 72359 72327 AND\n2 1 72327 2904 86793 XOR\n2 1 2840 2872 72263 XOR\n2 1 2840 2819 67941 XOR\n2 1 2829 2840 67930 XOR\n2 1 67941 2828 88839 XOR\n2 1 88839 86791 119656 XOR\n2 1 67930 2817 88828 XOR\n2 1 88828 86780 119645 XOR\n2 1 67921 2840 88819 XOR\n2 1 88819 86771 119636 XOR\n2 1 119636 119605 84723 XOR\n2 1 88819 119605 35916 XOR\n2 1 35916 35917 35915 AND\n2 1 35915 119605 119606 XOR\n2 1 86772 119606 35920 XOR\n2 1 90921 107203 14776 XOR\n2 1 14776 14777 14775 AND\n2 1 14775 107203 107204 XOR\n2 1 90922 107204 14779 XOR\n2 1 107235 107204 2841 XOR\n2 1 2841 2905 72392 XOR\n2 1 72392 72360 72328 AND\n2 1 72328 2905 86794 XOR\n2 1 2841 2873 72264 XOR\n2 1 2841 2820 67942 XOR\n2 1 2830 2841 67931 XOR\n2 1 67942 2829 88840 XOR\n2 1 88840 86792 119657 XOR\n2 1 67931 2818 88829 XOR\n2 1 88829 86781 119646 XOR\n2 1 67922 2841 88820 XOR\n2 1 88820 86772 119637 XOR\n2 1 119637 119606 84724 XOR\n2 1 88820 119606 35919 XOR\n2 1 35919 35920 35918 AND\n2 1 35918 119606 119607 XOR\n2 1 86773 119607 35923 XOR\n2 1 84778 107204 14780 XOR\n2 1 14779 14780 14778 AND\n2 1 14778 107204 107205 XOR\n2 1 84779 107205 14783 XOR\n2 1 107236 107205 2842 XOR\n2 1 2842 2906 72393 XOR\n2 1 72393 72361 72329 AND\n2 1 72329 2906 86795 XOR\n2 1 2842 2874 72265 XOR\n2 1 2842 2821 67943 XOR\n2 1 2831 2842 67932 XOR\n2 1 67943 2830 88841 XOR\n2 1 88841 86793 119658 XOR\n2 1 67932 2819 88830 XOR\n2 1 88830 86782 119647 XOR\n2 1 67923 2842 88821 XOR\n2 1 88821 86773 119638 XOR\n2 1 119638 119607 84725 XOR\n2 1 88821 119607 35922 XOR\n2 1 35922 35923 35921 AND\n2 1 35921 119607 119608 XOR\n2 1 86774 119608 35926 XOR\n2 1 90923 107205 14782 XOR\n2 1 14782 14783 14781 AND\n2 1 14781 107205 107206 XOR\n2 1 90924 107206 14785 XOR\n2 1 84780 107206 14786 XOR\n2 1 14785 14786 14784 AND\n2 1 14784 107206 107207 XOR\n2 1 107238 107207 2844 XOR\n2 1 84781 107207 14789 XOR\n2 1 2844 2908 72395 XOR\n2 1 72395 72363 72331 AND\n2 1 72331 2908 86797 XOR\n2 1 2844 2876 72267 XOR\n2 1 2844 2823 67945 XOR\n2 1 2833 2844 67934 XOR\n2 1 67945 2832 88843 XOR\n2 1 88843 86795 119660 XOR\n2 1 67934 2821 88832 XOR\n2 1 88832 86784 119649 XOR\n2 1 67925 2844 88823 XOR\n2 1 88823 86775 119640 XOR\n2 1 90925 107207 14788 XOR\n2 1 14788 14789 14787 AND\n2 1 14787 107207 107208 XOR\n2 1 90926 107208 14791 XOR\n2 1 84782 107208 14792 XOR\n2 1 14791 14792 14790 AND\n2 1 14790 107208 107209 XOR\n2 1 84783 107209 14795 XOR\n2 1 90927 107209 14794 XOR\n2 1 14794 14795 14793 AND\n2 1 107240 107209 2846 XOR\n2 1 14793 107209 107210 XOR\n2 1 107241 107210 2847 XOR\n2 1 2847 2911 72398 XOR\n2 1 2846 2910 72397 XOR\n2 1 72398 72366 72334 AND\n2 1 72397 72365 72333 AND\n2 1 72334 2911 86800 XOR\n2 1 88848 86800 119665 XOR\n2 1 72333 2910 86799 XOR\n2 1 88847 86799 119664 XOR\n2 1 2847 2879 72270 XOR\n2 1 2846 2878 72269 XOR\n2 1 107239 107208 2845 XOR\n2 1 2845 2909 72396 XOR\n2 1 72396 72364 72332 AND\n2 1 72332 2909 86798 XOR\n",
"2 1 2845 2877 72268 XOR\n2 1 2847 2826 67948 XOR\n2 1 2846 2825 67947 XOR\n2 1 2845 2824 67946 XOR\n2 1 2836 2847 67937 XOR\n2 1 2835 2846 67936 XOR\n2 1 2834 2845 67935 XOR\n2 1 67948 2835 88846 XOR\n2 1 88846 86798 119663 XOR\n2 1 67947 2834 88845 XOR\n2 1 88845 86797 119662 XOR\n2 1 67946 2833 88844 XOR\n2 1 67937 2824 88835 XOR\n2 1 88835 86787 119652 XOR\n2 1 67936 2823 88834 XOR\n2 1 88834 86786 119651 XOR\n2 1 67935 2822 88833 XOR\n2 1 88833 86785 119650 XOR\n2 1 67928 2847 88826 XOR\n2 1 88826 86778 119643 XOR\n2 1 67927 2846 88825 XOR\n2 1 88825 86777 119642 XOR\n2 1 67926 2845 88824 XOR\n2 1 88824 86776 119641 XOR\n2 1 107237 107206 2843 XOR\n2 1 2843 2907 72394 XOR\n2 1 72394 72362 72330 AND\n2 1 72330 2907 86796 XOR\n2 1 88844 86796 119661 XOR\n2 1 2843 2875 72266 XOR\n2 1 2843 2822 67944 XOR\n2 1 2832 2843 67933 XOR\n2 1 67944 2831 88842 XOR\n2 1 88842 86794 119659 XOR\n2 1 67933 2820 88831 XOR\n2 1 88831 86783 119648 XOR\n2 1 67924 2843 88822 XOR\n2 1 88822 86774 119639 XOR\n2 1 119639 119608 84726 XOR\n2 1 88822 119608 35925 XOR\n2 1 35925 35926 35924 AND\n2 1 35924 119608 119609 XOR\n2 1 119640 119609 84727 XOR\n2 1 88823 119609 35928 XOR\n2 1 86775 119609 35929 XOR\n2 1 35928 35929 35927 AND\n2 1 35927 119609 119610 XOR\n2 1 119641 119610 84728 XOR\n2 1 88824 119610 35931 XOR\n2 1 86776 119610 35932 XOR\n2 1 35931 35932 35930 AND\n2 1 35930 119610 119611 XOR\n2 1 119642 119611 84729 XOR\n2 1 88825 119611 35934 XOR\n2 1 86777 119611 35935 XOR\n2 1 35934 35935 35933 AND\n2 1 35933 119611 119612 XOR\n2 1 119643 119612 84730 XOR\n2 1 88826 119612 35937 XOR\n2 1 86778 119612 35938 XOR\n2 1 35937 35938 35936 AND\n2 1 35936 119612 119613 XOR\n2 1 119644 119613 84731 XOR\n2 1 88827 119613 35940 XOR\n2 1 86779 119613 35941 XOR\n2 1 35940 35941 35939 AND\n2 1 35939 119613 119614 XOR\n2 1 119645 119614 84732 XOR\n2 1 88828 119614 35943 XOR\n2 1 86780 119614 35944 XOR\n2 1 35943 35944 35942 AND\n2 1 35942 119614 119615 XOR\n2 1 119646 119615 84733 XOR\n2 1 88829 119615 35946 XOR\n2 1 86781 119615 35947 XOR\n2 1 35946 35947 35945 AND\n2 1 35945 119615 119616 XOR\n2 1 119647 119616 84734 XOR\n2 1 88830 119616 35949 XOR\n2 1 86782 119616 35950 XOR\n2 1 35949 35950 35948 AND\n2 1 35948 119616 119617 XOR\n2 1 119648 119617 84735 XOR\n2 1 88831 119617 35952 XOR\n2 1 86783 119617 35953 XOR\n2 1 35952 35953 35951 AND\n2 1 35951 119617 119618 XOR\n2 1 119649 119618 84736 XOR\n2 1 88832 119618 35955 XOR\n2 1 86784 119618 35956 XOR\n2 1 35955 35956 35954 AND\n2 1 35954 119618 119619 XOR\n2 1 119650 119619 84737 XOR\n2 1 88833 119619 35958 XOR\n2 1 86785 119619 35959 XOR\n2 1 35958 35959 35957 AND\n2 1 35957 119619 119620 XOR\n2 1 119651 119620 84738 XOR\n2 1 88834 119620 35961 XOR\n2 1 86786 119620 35962 XOR\n2 1 35961 35962 35960 AND\n2 1 35960 119620 119621 XOR\n2 1 119652 119621 84739 XOR\n2 1 88835 119621 35964 XOR\n2 1 86787 119621 35965 XOR\n2 1 35964 35965 35963 AND\n2 1 35963 119621 119622 XOR\n2 1 119653 119622 84740 XOR\n2 1 88836 119622 35967 XOR\n2 1 86788 119622 35968 XOR\n2 1 35967 35968 35966 AND\n2 1 35966 119622 119623 XOR\n2 1 119654 119623 84741 XOR\n2 1 88837 119623 35970 XOR\n2 1 86789 119623 35971 XOR\n2 1 35970 35971 35969 AND\n2 1 35969 119623 119624 XOR\n2 1 119655 119624 84742 XOR\n2 1 88838 119624 35973 XOR\n2 1 86790 119624 35974 XOR\n2 1 35973 35974 35972 AND\n2 1 35972 119624 119625 XOR\n2 1 119656 119625 84743 XOR\n2 1 88839 119625 35976 XOR\n2 1 86791 119625 35977 XOR\n2 1 35976 35977 35975 AND\n2 1 35975 119625 119626 XOR\n2 1 119657 119626 84744 XOR\n",
"2 1 88840 119626 35979 XOR\n2 1 86792 119626 35980 XOR\n2 1 35979 35980 35978 AND\n2 1 35978 119626 119627 XOR\n2 1 119658 119627 84745 XOR\n2 1 88841 119627 35982 XOR\n2 1 86793 119627 35983 XOR\n2 1 35982 35983 35981 AND\n2 1 35981 119627 119628 XOR\n2 1 119659 119628 84746 XOR\n2 1 88842 119628 35985 XOR\n2 1 86794 119628 35986 XOR\n2 1 35985 35986 35984 AND\n2 1 35984 119628 119629 XOR\n2 1 119660 119629 84747 XOR\n2 1 88843 119629 35988 XOR\n2 1 86795 119629 35989 XOR\n2 1 35988 35989 35987 AND\n2 1 35987 119629 119630 XOR\n2 1 119661 119630 84748 XOR\n2 1 88844 119630 35991 XOR\n2 1 86796 119630 35992 XOR\n2 1 35991 35992 35990 AND\n2 1 35990 119630 119631 XOR\n2 1 119662 119631 84749 XOR\n2 1 88845 119631 35994 XOR\n2 1 86797 119631 35995 XOR\n2 1 35994 35995 35993 AND\n2 1 35993 119631 119632 XOR\n2 1 119663 119632 84750 XOR\n2 1 88846 119632 35997 XOR\n2 1 86798 119632 35998 XOR\n2 1 35997 35998 35996 AND\n2 1 35996 119632 119633 XOR\n2 1 119664 119633 84751 XOR\n2 1 88847 119633 36000 XOR\n2 1 86799 119633 36001 XOR\n2 1 36000 36001 35999 AND\n2 1 35999 119633 119634 XOR\n2 1 119665 119634 84752 XOR\n2 1 3333 3338 62030 XOR\n2 1 3332 3337 62029 XOR\n2 1 3331 3336 62028 XOR\n2 1 3330 3335 62027 XOR\n2 1 3329 3334 62026 XOR\n2 1 3328 3333 62025 XOR\n2 1 3359 3332 62024 XOR\n2 1 3358 3331 62023 XOR\n2 1 3357 3330 62022 XOR\n2 1 3356 3329 62021 XOR\n2 1 3355 3328 62020 XOR\n2 1 3354 3359 62019 XOR\n2 1 3353 3358 62018 XOR\n2 1 3352 3357 62017 XOR\n2 1 3351 3356 62016 XOR\n2 1 3350 3355 62015 XOR\n2 1 3349 3354 62014 XOR\n2 1 3348 3353 62013 XOR\n2 1 3347 3352 62012 XOR\n2 1 3346 3351 62011 XOR\n2 1 3345 3350 62010 XOR\n2 1 3344 3349 62009 XOR\n2 1 3343 3348 62008 XOR\n2 1 3342 3347 62007 XOR\n2 1 3341 3346 62006 XOR\n2 1 3340 3345 62005 XOR\n2 1 3339 3344 62004 XOR\n2 1 3338 3343 62003 XOR\n2 1 3337 3342 62002 XOR\n2 1 3336 3341 62001 XOR\n2 1 3335 3340 62000 XOR\n2 1 3334 3339 61999 XOR\n2 1 62030 3352 101077 XOR\n2 1 101077 99029 119862 XOR\n2 1 62029 3351 101076 XOR\n2 1 101076 99028 119861 XOR\n2 1 62028 3350 101075 XOR\n2 1 101075 99027 119860 XOR\n2 1 62027 3349 101074 XOR\n2 1 101074 99026 119859 XOR\n2 1 62026 3348 101073 XOR\n2 1 101073 99025 119858 XOR\n2 1 62025 3347 101072 XOR\n2 1 101072 99024 119857 XOR\n2 1 62024 3346 101071 XOR\n2 1 101071 99023 119856 XOR\n2 1 62023 3345 101070 XOR\n2 1 101070 99022 119855 XOR\n2 1 62022 3344 101069 XOR\n2 1 101069 99021 119854 XOR\n2 1 62021 3343 101068 XOR\n2 1 101068 99020 119853 XOR\n2 1 62020 3342 101067 XOR\n2 1 101067 99019 119852 XOR\n2 1 62019 3341 101066 XOR\n2 1 101066 99018 119851 XOR\n2 1 62018 3340 101065 XOR\n2 1 101065 99017 119850 XOR\n2 1 62017 3339 101064 XOR\n2 1 101064 99016 119849 XOR\n2 1 62016 3338 101063 XOR\n2 1 101063 99015 119848 XOR\n2 1 62015 3337 101062 XOR\n2 1 101062 99014 119847 XOR\n2 1 62014 3336 101061 XOR\n2 1 101061 99013 119846 XOR\n2 1 62013 3335 101060 XOR\n2 1 101060 99012 119845 XOR\n2 1 62012 3334 101059 XOR\n2 1 101059 99011 119844 XOR\n2 1 62011 3333 101058 XOR\n2 1 101058 99010 119843 XOR\n2 1 62010 3332 101057 XOR\n2 1 101057 99009 119842 XOR\n2 1 62009 3331 101056 XOR\n2 1 101056 99008 119841 XOR\n2 1 62008 3330 101055 XOR\n2 1 101055 99007 119840 XOR\n2 1 62007 3329 101054 XOR\n2 1 101054 99006 119839 XOR\n2 1 62006 3328 101053 XOR\n2 1 101053 99005 119838 XOR\n2 1 62005 3359 101052 XOR\n2 1 101052 99004 119837 XOR\n2 1 62004 3358 101051 XOR\n2 1 101051 99003 119836 XOR\n2 1 62003 3357 101050 XOR\n2 1 101050 99002 119835 XOR\n",
"2 1 62002 3356 101049 XOR\n2 1 101049 99001 119834 XOR\n2 1 62001 3355 101048 XOR\n2 1 101048 99000 119833 XOR\n2 1 62000 3354 101047 XOR\n2 1 101047 98999 119832 XOR\n2 1 61999 3353 101046 XOR\n2 1 101046 98998 119801 AND\n2 1 101046 98998 96950 XOR\n2 1 119832 119801 96951 XOR\n2 1 101047 119801 36257 XOR\n2 1 98999 119801 36258 XOR\n2 1 36257 36258 36256 AND\n2 1 36256 119801 119802 XOR\n2 1 119833 119802 96952 XOR\n2 1 101048 119802 36260 XOR\n2 1 99000 119802 36261 XOR\n2 1 36260 36261 36259 AND\n2 1 36259 119802 119803 XOR\n2 1 119834 119803 96953 XOR\n2 1 101049 119803 36263 XOR\n2 1 99001 119803 36264 XOR\n2 1 36263 36264 36262 AND\n2 1 36262 119803 119804 XOR\n2 1 119835 119804 96954 XOR\n2 1 101050 119804 36266 XOR\n2 1 99002 119804 36267 XOR\n2 1 36266 36267 36265 AND\n2 1 36265 119804 119805 XOR\n2 1 119836 119805 96955 XOR\n2 1 101051 119805 36269 XOR\n2 1 99003 119805 36270 XOR\n2 1 36269 36270 36268 AND\n2 1 36268 119805 119806 XOR\n2 1 119837 119806 96956 XOR\n2 1 101052 119806 36272 XOR\n2 1 99004 119806 36273 XOR\n2 1 36272 36273 36271 AND\n2 1 36271 119806 119807 XOR\n2 1 119838 119807 96957 XOR\n2 1 101053 119807 36275 XOR\n2 1 99005 119807 36276 XOR\n2 1 36275 36276 36274 AND\n2 1 36274 119807 119808 XOR\n2 1 119839 119808 96958 XOR\n2 1 101054 119808 36278 XOR\n2 1 99006 119808 36279 XOR\n2 1 36278 36279 36277 AND\n2 1 36277 119808 119809 XOR\n2 1 119840 119809 96959 XOR\n2 1 101055 119809 36281 XOR\n2 1 99007 119809 36282 XOR\n2 1 36281 36282 36280 AND\n2 1 36280 119809 119810 XOR\n2 1 119841 119810 96960 XOR\n2 1 101056 119810 36284 XOR\n2 1 99008 119810 36285 XOR\n2 1 36284 36285 36283 AND\n2 1 36283 119810 119811 XOR\n2 1 119842 119811 96961 XOR\n2 1 101057 119811 36287 XOR\n2 1 99009 119811 36288 XOR\n2 1 36287 36288 36286 AND\n2 1 36286 119811 119812 XOR\n2 1 119843 119812 96962 XOR\n2 1 101058 119812 36290 XOR\n2 1 99010 119812 36291 XOR\n2 1 36290 36291 36289 AND\n2 1 36289 119812 119813 XOR\n2 1 119844 119813 96963 XOR\n2 1 101059 119813 36293 XOR\n2 1 99011 119813 36294 XOR\n2 1 36293 36294 36292 AND\n2 1 36292 119813 119814 XOR\n2 1 119845 119814 96964 XOR\n2 1 101060 119814 36296 XOR\n2 1 99012 119814 36297 XOR\n2 1 36296 36297 36295 AND\n2 1 36295 119814 119815 XOR\n2 1 119846 119815 96965 XOR\n2 1 101061 119815 36299 XOR\n2 1 99013 119815 36300 XOR\n2 1 36299 36300 36298 AND\n2 1 36298 119815 119816 XOR\n2 1 119847 119816 96966 XOR\n2 1 101062 119816 36302 XOR\n2 1 99014 119816 36303 XOR\n2 1 36302 36303 36301 AND\n2 1 36301 119816 119817 XOR\n2 1 119848 119817 96967 XOR\n2 1 101063 119817 36305 XOR\n2 1 99015 119817 36306 XOR\n2 1 36305 36306 36304 AND\n2 1 36304 119817 119818 XOR\n2 1 119849 119818 96968 XOR\n2 1 101064 119818 36308 XOR\n2 1 99016 119818 36309 XOR\n2 1 36308 36309 36307 AND\n2 1 36307 119818 119819 XOR\n2 1 119850 119819 96969 XOR\n2 1 101065 119819 36311 XOR\n2 1 99017 119819 36312 XOR\n2 1 36311 36312 36310 AND\n2 1 36310 119819 119820 XOR\n2 1 119851 119820 96970 XOR\n2 1 101066 119820 36314 XOR\n2 1 99018 119820 36315 XOR\n2 1 36314 36315 36313 AND\n2 1 36313 119820 119821 XOR\n2 1 119852 119821 96971 XOR\n2 1 101067 119821 36317 XOR\n2 1 99019 119821 36318 XOR\n2 1 36317 36318 36316 AND\n2 1 36316 119821 119822 XOR\n2 1 119853 119822 96972 XOR\n2 1 101068 119822 36320 XOR\n2 1 99020 119822 36321 XOR\n2 1 36320 36321 36319 AND\n2 1 36319 119822 119823 XOR\n2 1 119854 119823 96973 XOR\n2 1 101069 119823 36323 XOR\n2 1 99021 119823 36324 XOR\n2 1 36323 36324 36322 AND\n2 1 36322 119823 119824 XOR\n2 1 119855 119824 96974 XOR\n2 1 101070 119824 36326 XOR\n2 1 99022 119824 36327 XOR\n2 1 36326 36327 36325 AND\n",
"2 1 36325 119824 119825 XOR\n2 1 119856 119825 96975 XOR\n2 1 101071 119825 36329 XOR\n2 1 99023 119825 36330 XOR\n2 1 36329 36330 36328 AND\n2 1 36328 119825 119826 XOR\n2 1 119857 119826 96976 XOR\n2 1 101072 119826 36332 XOR\n2 1 99024 119826 36333 XOR\n2 1 36332 36333 36331 AND\n2 1 36331 119826 119827 XOR\n2 1 119858 119827 96977 XOR\n2 1 101073 119827 36335 XOR\n2 1 99025 119827 36336 XOR\n2 1 36335 36336 36334 AND\n2 1 36334 119827 119828 XOR\n2 1 119859 119828 96978 XOR\n2 1 101074 119828 36338 XOR\n2 1 99026 119828 36339 XOR\n2 1 36338 36339 36337 AND\n2 1 36337 119828 119829 XOR\n2 1 119860 119829 96979 XOR\n2 1 101075 119829 36341 XOR\n2 1 99027 119829 36342 XOR\n2 1 36341 36342 36340 AND\n2 1 36340 119829 119830 XOR\n2 1 119861 119830 96980 XOR\n2 1 101076 119830 36344 XOR\n2 1 99028 119830 36345 XOR\n2 1 36344 36345 36343 AND\n2 1 36343 119830 119831 XOR\n2 1 119862 119831 96981 XOR\n2 1 76865 76867 81680 XOR\n2 1 81680 77040 133476 XOR\n2 1 76864 76866 81679 XOR\n2 1 81679 77039 133475 XOR\n2 1 76863 76865 81678 XOR\n2 1 81678 77038 133474 XOR\n2 1 76862 76864 81677 XOR\n2 1 81677 77037 133473 XOR\n2 1 76861 76863 81676 XOR\n2 1 81676 77036 133472 XOR\n2 1 76860 76862 81675 XOR\n2 1 81675 77035 133471 XOR\n2 1 76859 76861 81674 XOR\n2 1 81674 77034 133470 XOR\n2 1 76858 76860 81673 XOR\n2 1 81673 77033 133469 XOR\n2 1 76857 76859 81672 XOR\n2 1 81672 77032 133468 XOR\n2 1 76856 76858 81671 XOR\n2 1 81671 77031 133467 XOR\n2 1 76855 76857 6947 XOR\n2 1 76854 76856 6946 XOR\n2 1 76853 76855 6945 XOR\n2 1 76852 76854 6944 XOR\n2 1 76851 76853 6943 XOR\n2 1 76850 76852 6942 XOR\n2 1 76849 76851 6941 XOR\n2 1 76880 76850 6940 XOR\n2 1 76879 76849 6939 XOR\n2 1 76878 76880 6938 XOR\n2 1 76877 76879 6937 XOR\n2 1 76876 76878 6936 XOR\n2 1 76875 76877 6935 XOR\n2 1 76874 76876 6934 XOR\n2 1 76873 76875 6933 XOR\n2 1 76872 76874 6932 XOR\n2 1 76871 76873 6931 XOR\n2 1 76870 76872 6930 XOR\n2 1 76869 76871 6929 XOR\n2 1 76868 76870 6928 XOR\n2 1 76867 76869 6927 XOR\n2 1 76866 76868 6926 XOR\n2 1 6947 76880 81670 XOR\n2 1 81670 77030 133466 XOR\n2 1 6946 76879 81669 XOR\n2 1 81669 77029 133465 XOR\n2 1 6945 76878 81668 XOR\n2 1 81668 77028 133464 XOR\n2 1 6944 76877 81667 XOR\n2 1 81667 77027 133463 XOR\n2 1 6943 76876 81666 XOR\n2 1 81666 77026 133462 XOR\n2 1 6942 76875 81665 XOR\n2 1 81665 77025 133461 XOR\n2 1 6941 76874 81664 XOR\n2 1 81664 77024 133460 XOR\n2 1 6940 76873 81663 XOR\n2 1 81663 77023 133459 XOR\n2 1 6939 76872 81662 XOR\n2 1 81662 77022 133458 XOR\n2 1 6938 76871 81661 XOR\n2 1 81661 77021 133457 XOR\n2 1 6937 76870 81660 XOR\n2 1 81660 77020 133456 XOR\n2 1 6936 76869 81659 XOR\n2 1 81659 77019 133455 XOR\n2 1 6935 76868 81658 XOR\n2 1 81658 77018 133454 XOR\n2 1 6934 76867 81657 XOR\n2 1 81657 77017 133453 XOR\n2 1 6933 76866 81656 XOR\n2 1 81656 77016 133452 XOR\n2 1 6932 76865 81655 XOR\n2 1 81655 77015 133451 XOR\n2 1 6931 76864 81654 XOR\n2 1 81654 77014 133450 XOR\n2 1 6930 76863 81653 XOR\n2 1 81653 77013 133449 XOR\n2 1 6929 76862 81652 XOR\n2 1 81652 77012 133448 XOR\n2 1 6928 76861 81651 XOR\n2 1 81651 77011 133447 XOR\n2 1 6927 76860 81650 XOR\n2 1 81650 77010 133446 XOR\n2 1 6926 76859 81649 XOR\n2 1 81649 77009 133415 AND\n2 1 81649 77009 80113 XOR\n2 1 80113 78577 133291 AND\n2 1 80113 78577 76785 XOR\n2 1 76785 3424 119739 AND\n2 1 76785 3424 94902 XOR\n2 1 96950 94902 119677 AND\n2 1 96950 94902 90865 XOR\n2 1 96951 119677 36077 XOR\n2 1 3425 119739 36168 XOR\n2 1 2912 90865 106994 AND\n",
"2 1 2912 90865 3296 XOR\n2 1 2913 106994 14437 XOR\n2 1 78578 133291 57937 XOR\n2 1 133446 133415 80114 XOR\n2 1 80114 78578 133322 XOR\n2 1 133322 133291 76786 XOR\n2 1 76786 3425 119770 XOR\n2 1 119770 119739 94903 XOR\n2 1 96951 94903 119708 XOR\n2 1 119708 119677 90866 XOR\n2 1 94903 119677 36078 XOR\n2 1 36077 36078 36076 AND\n2 1 36076 119677 119678 XOR\n2 1 96952 119678 36080 XOR\n2 1 76786 119739 36167 XOR\n2 1 36167 36168 36166 AND\n2 1 36166 119739 119740 XOR\n2 1 3426 119740 36171 XOR\n2 1 2913 90866 107025 XOR\n2 1 107025 106994 3297 XOR\n2 1 90866 106994 14438 XOR\n2 1 14437 14438 14436 AND\n2 1 14436 106994 106995 XOR\n2 1 2914 106995 14440 XOR\n2 1 80114 133291 57936 XOR\n2 1 57936 57937 57935 AND\n2 1 57935 133291 133292 XOR\n2 1 78579 133292 57940 XOR\n2 1 81650 133415 58116 XOR\n2 1 77010 133415 58117 XOR\n2 1 58116 58117 58115 AND\n2 1 58115 133415 133416 XOR\n2 1 133447 133416 80115 XOR\n2 1 80115 78579 133323 XOR\n2 1 133323 133292 76787 XOR\n2 1 76787 3426 119771 XOR\n2 1 119771 119740 94904 XOR\n2 1 96952 94904 119709 XOR\n2 1 119709 119678 90867 XOR\n2 1 94904 119678 36081 XOR\n2 1 36080 36081 36079 AND\n2 1 36079 119678 119679 XOR\n2 1 96953 119679 36083 XOR\n2 1 76787 119740 36170 XOR\n2 1 36170 36171 36169 AND\n2 1 36169 119740 119741 XOR\n2 1 3427 119741 36174 XOR\n2 1 90867 106995 14441 XOR\n2 1 2914 90867 107026 XOR\n2 1 107026 106995 3298 XOR\n2 1 14440 14441 14439 AND\n2 1 14439 106995 106996 XOR\n2 1 2915 106996 14443 XOR\n2 1 80115 133292 57939 XOR\n2 1 57939 57940 57938 AND\n2 1 57938 133292 133293 XOR\n2 1 78580 133293 57943 XOR\n2 1 81651 133416 58119 XOR\n2 1 77011 133416 58120 XOR\n2 1 58119 58120 58118 AND\n2 1 58118 133416 133417 XOR\n2 1 133448 133417 80116 XOR\n2 1 80116 78580 133324 XOR\n2 1 133324 133293 76788 XOR\n2 1 76788 3427 119772 XOR\n2 1 119772 119741 94905 XOR\n2 1 96953 94905 119710 XOR\n2 1 119710 119679 92877 XOR\n1 1 92877 90868 INV\n2 1 94905 119679 36084 XOR\n2 1 36083 36084 36082 AND\n2 1 36082 119679 119680 XOR\n2 1 96954 119680 36086 XOR\n2 1 76788 119741 36173 XOR\n2 1 36173 36174 36172 AND\n2 1 36172 119741 119742 XOR\n2 1 3428 119742 36177 XOR\n2 1 90868 106996 14444 XOR\n2 1 14443 14444 14442 AND\n2 1 14442 106996 106997 XOR\n2 1 2916 106997 14446 XOR\n2 1 2915 90868 107027 XOR\n2 1 107027 106996 3299 XOR\n2 1 80116 133293 57942 XOR\n2 1 57942 57943 57941 AND\n2 1 57941 133293 133294 XOR\n2 1 78581 133294 57946 XOR\n2 1 81652 133417 58122 XOR\n2 1 77012 133417 58123 XOR\n2 1 58122 58123 58121 AND\n2 1 58121 133417 133418 XOR\n2 1 133449 133418 80117 XOR\n2 1 80117 78581 133325 XOR\n2 1 133325 133294 76789 XOR\n2 1 76789 3428 119773 XOR\n2 1 119773 119742 94906 XOR\n2 1 96954 94906 119711 XOR\n2 1 119711 119680 92878 XOR\n2 1 92878 92877 90869 XOR\n2 1 90869 92877 36002 AND\n2 1 36002 92877 36004 XOR\n2 1 94906 119680 36087 XOR\n2 1 36086 36087 36085 AND\n2 1 36085 119680 119681 XOR\n2 1 96955 119681 36089 XOR\n2 1 76789 119742 36176 XOR\n2 1 36176 36177 36175 AND\n2 1 36175 119742 119743 XOR\n2 1 3429 119743 36180 XOR\n2 1 90869 106997 14447 XOR\n2 1 14446 14447 14445 AND\n2 1 14445 106997 106998 XOR\n2 1 2917 106998 14449 XOR\n2 1 2916 90869 107028 XOR\n2 1 107028 106997 3300 XOR\n2 1 80117 133294 57945 XOR\n2 1 57945 57946 57944 AND\n2 1 57944 133294 133295 XOR\n2 1 78582 133295 57949 XOR\n2 1 81653 133418 58125 XOR\n2 1 77013 133418 58126 XOR\n2 1 58125 58126 58124 AND\n2 1 58124 133418 133419 XOR\n2 1 133450 133419 80118 XOR\n2 1 80118 78582 133326 XOR\n2 1 133326 133295 76790 XOR\n2 1 76790 3429 119774 XOR\n2 1 119774 119743 94907 XOR\n",
"2 1 96955 94907 119712 XOR\n2 1 119712 119681 92879 XOR\n2 1 92879 36004 90870 XOR\n2 1 90870 36004 36003 AND\n2 1 36003 36004 119666 XOR\n1 1 119666 36007 INV\n2 1 94907 119681 36090 XOR\n2 1 36089 36090 36088 AND\n2 1 36088 119681 119682 XOR\n2 1 96956 119682 36092 XOR\n2 1 76790 119743 36179 XOR\n2 1 36179 36180 36178 AND\n2 1 36178 119743 119744 XOR\n2 1 3430 119744 36183 XOR\n2 1 90870 106998 14450 XOR\n2 1 14449 14450 14448 AND\n2 1 14448 106998 106999 XOR\n2 1 2918 106999 14452 XOR\n2 1 2917 90870 107029 XOR\n2 1 107029 106998 3301 XOR\n2 1 80118 133295 57948 XOR\n2 1 57948 57949 57947 AND\n2 1 57947 133295 133296 XOR\n2 1 78583 133296 57952 XOR\n2 1 81654 133419 58128 XOR\n2 1 77014 133419 58129 XOR\n2 1 58128 58129 58127 AND\n2 1 58127 133419 133420 XOR\n2 1 133451 133420 80119 XOR\n2 1 80119 78583 133327 XOR\n2 1 133327 133296 76791 XOR\n2 1 76791 3430 119775 XOR\n2 1 119775 119744 94908 XOR\n2 1 96956 94908 119713 XOR\n2 1 119713 119682 92880 XOR\n1 1 92880 36065 INV\n2 1 36065 119666 90871 XOR\n2 1 92880 119666 36006 XOR\n2 1 36006 36007 36005 AND\n2 1 36005 119666 119667 XOR\n1 1 119667 36010 INV\n2 1 94908 119682 36093 XOR\n2 1 36092 36093 36091 AND\n2 1 36091 119682 119683 XOR\n2 1 96957 119683 36095 XOR\n2 1 76791 119744 36182 XOR\n2 1 36182 36183 36181 AND\n2 1 36181 119744 119745 XOR\n2 1 3431 119745 36186 XOR\n2 1 90871 106999 14453 XOR\n2 1 14452 14453 14451 AND\n2 1 14451 106999 107000 XOR\n2 1 2918 90871 107030 XOR\n2 1 107030 106999 3302 XOR\n2 1 2919 107000 14455 XOR\n2 1 80119 133296 57951 XOR\n2 1 57951 57952 57950 AND\n2 1 57950 133296 133297 XOR\n2 1 78584 133297 57955 XOR\n2 1 81655 133420 58131 XOR\n2 1 77015 133420 58132 XOR\n2 1 58131 58132 58130 AND\n2 1 58130 133420 133421 XOR\n2 1 133452 133421 80120 XOR\n2 1 80120 78584 133328 XOR\n2 1 133328 133297 76792 XOR\n2 1 76792 3431 119776 XOR\n2 1 119776 119745 94909 XOR\n2 1 96957 94909 119714 XOR\n2 1 119714 119683 92881 XOR\n1 1 92881 36066 INV\n2 1 36066 119667 90872 XOR\n2 1 92881 119667 36009 XOR\n2 1 36009 36010 36008 AND\n2 1 36008 119667 119668 XOR\n1 1 119668 36013 INV\n2 1 94909 119683 36096 XOR\n2 1 36095 36096 36094 AND\n2 1 36094 119683 119684 XOR\n2 1 96958 119684 36098 XOR\n2 1 76792 119745 36185 XOR\n2 1 36185 36186 36184 AND\n2 1 36184 119745 119746 XOR\n2 1 3432 119746 36189 XOR\n2 1 2919 90872 107031 XOR\n2 1 107031 107000 3303 XOR\n2 1 90872 107000 14456 XOR\n2 1 14455 14456 14454 AND\n2 1 14454 107000 107001 XOR\n2 1 2920 107001 14458 XOR\n2 1 80120 133297 57954 XOR\n2 1 57954 57955 57953 AND\n2 1 57953 133297 133298 XOR\n2 1 78585 133298 57958 XOR\n2 1 81656 133421 58134 XOR\n2 1 77016 133421 58135 XOR\n2 1 58134 58135 58133 AND\n2 1 58133 133421 133422 XOR\n2 1 133453 133422 80121 XOR\n2 1 80121 78585 133329 XOR\n2 1 133329 133298 76793 XOR\n2 1 76793 3432 119777 XOR\n2 1 119777 119746 94910 XOR\n2 1 96958 94910 119715 XOR\n2 1 119715 119684 92882 XOR\n1 1 92882 36067 INV\n2 1 36067 119668 90873 XOR\n2 1 92882 119668 36012 XOR\n2 1 36012 36013 36011 AND\n2 1 36011 119668 119669 XOR\n1 1 119669 36016 INV\n2 1 94910 119684 36099 XOR\n2 1 36098 36099 36097 AND\n2 1 36097 119684 119685 XOR\n2 1 96959 119685 36101 XOR\n2 1 76793 119746 36188 XOR\n2 1 36188 36189 36187 AND\n2 1 36187 119746 119747 XOR\n2 1 3433 119747 36192 XOR\n2 1 2920 90873 107032 XOR\n2 1 107032 107001 3304 XOR\n2 1 90873 107001 14459 XOR\n2 1 14458 14459 14457 AND\n2 1 14457 107001 107002 XOR\n2 1 2921 107002 14461 XOR\n2 1 80121 133298 57957 XOR\n2 1 57957 57958 57956 AND\n2 1 57956 133298 133299 XOR\n",
"2 1 78586 133299 57961 XOR\n2 1 81657 133422 58137 XOR\n2 1 77017 133422 58138 XOR\n2 1 58137 58138 58136 AND\n2 1 58136 133422 133423 XOR\n2 1 133454 133423 80122 XOR\n2 1 80122 78586 133330 XOR\n2 1 133330 133299 76794 XOR\n2 1 76794 3433 119778 XOR\n2 1 119778 119747 94911 XOR\n2 1 96959 94911 119716 XOR\n2 1 119716 119685 92883 XOR\n1 1 92883 36068 INV\n2 1 36068 119669 90874 XOR\n2 1 92883 119669 36015 XOR\n2 1 36015 36016 36014 AND\n2 1 36014 119669 119670 XOR\n1 1 119670 36019 INV\n2 1 94911 119685 36102 XOR\n2 1 36101 36102 36100 AND\n2 1 36100 119685 119686 XOR\n2 1 96960 119686 36104 XOR\n2 1 76794 119747 36191 XOR\n2 1 36191 36192 36190 AND\n2 1 36190 119747 119748 XOR\n2 1 3434 119748 36195 XOR\n2 1 2921 90874 107033 XOR\n2 1 90874 107002 14462 XOR\n2 1 14461 14462 14460 AND\n2 1 107033 107002 3305 XOR\n2 1 14460 107002 107003 XOR\n2 1 2922 107003 14464 XOR\n2 1 80122 133299 57960 XOR\n2 1 57960 57961 57959 AND\n2 1 57959 133299 133300 XOR\n2 1 78587 133300 57964 XOR\n2 1 81658 133423 58140 XOR\n2 1 77018 133423 58141 XOR\n2 1 58140 58141 58139 AND\n2 1 58139 133423 133424 XOR\n2 1 133455 133424 80123 XOR\n2 1 80123 78587 133331 XOR\n2 1 133331 133300 76795 XOR\n2 1 76795 3434 119779 XOR\n2 1 119779 119748 94912 XOR\n2 1 96960 94912 119717 XOR\n2 1 119717 119686 92884 XOR\n1 1 92884 36069 INV\n2 1 36069 119670 90875 XOR\n2 1 92884 119670 36018 XOR\n2 1 36018 36019 36017 AND\n2 1 36017 119670 36021 XOR\n2 1 94912 119686 36105 XOR\n2 1 36104 36105 36103 AND\n2 1 36103 119686 119687 XOR\n2 1 96961 119687 36107 XOR\n2 1 76795 119748 36194 XOR\n2 1 36194 36195 36193 AND\n2 1 36193 119748 119749 XOR\n2 1 3435 119749 36198 XOR\n2 1 2922 90875 107034 XOR\n2 1 107034 107003 3306 XOR\n2 1 90875 107003 14465 XOR\n2 1 14464 14465 14463 AND\n2 1 14463 107003 107004 XOR\n2 1 2923 107004 14467 XOR\n2 1 80123 133300 57963 XOR\n2 1 57963 57964 57962 AND\n2 1 57962 133300 133301 XOR\n2 1 78588 133301 57967 XOR\n2 1 81659 133424 58143 XOR\n2 1 77019 133424 58144 XOR\n2 1 58143 58144 58142 AND\n2 1 58142 133424 133425 XOR\n2 1 133456 133425 80124 XOR\n2 1 80124 78588 133332 XOR\n2 1 133332 133301 76796 XOR\n2 1 76796 3435 119780 XOR\n2 1 119780 119749 94913 XOR\n2 1 96961 94913 119718 XOR\n2 1 119718 119687 92885 XOR\n2 1 92885 36021 90876 XOR\n2 1 90876 36021 36020 AND\n2 1 36020 36021 36023 XOR\n2 1 94913 119687 36108 XOR\n2 1 36107 36108 36106 AND\n2 1 36106 119687 119688 XOR\n2 1 96962 119688 36110 XOR\n2 1 76796 119749 36197 XOR\n2 1 36197 36198 36196 AND\n2 1 36196 119749 119750 XOR\n2 1 3436 119750 36201 XOR\n2 1 2923 90876 107035 XOR\n2 1 107035 107004 3307 XOR\n2 1 90876 107004 14468 XOR\n2 1 14467 14468 14466 AND\n2 1 14466 107004 107005 XOR\n2 1 2924 107005 14470 XOR\n2 1 80124 133301 57966 XOR\n2 1 57966 57967 57965 AND\n2 1 57965 133301 133302 XOR\n2 1 78589 133302 57970 XOR\n2 1 81660 133425 58146 XOR\n2 1 77020 133425 58147 XOR\n2 1 58146 58147 58145 AND\n2 1 58145 133425 133426 XOR\n2 1 133457 133426 80125 XOR\n2 1 80125 78589 133333 XOR\n2 1 133333 133302 76797 XOR\n2 1 76797 3436 119781 XOR\n2 1 119781 119750 94914 XOR\n2 1 96962 94914 119719 XOR\n2 1 119719 119688 92886 XOR\n2 1 92886 36023 90877 XOR\n2 1 90877 36023 36022 AND\n2 1 36022 36023 119671 XOR\n1 1 119671 36026 INV\n2 1 94914 119688 36111 XOR\n2 1 36110 36111 36109 AND\n2 1 36109 119688 119689 XOR\n2 1 96963 119689 36113 XOR\n2 1 76797 119750 36200 XOR\n2 1 36200 36201 36199 AND\n2 1 36199 119750 119751 XOR\n2 1 3437 119751 36204 XOR\n2 1 2924 90877 107036 XOR\n2 1 107036 107005 3308 XOR\n2 1 90877 107005 14471 XOR\n",
"2 1 14470 14471 14469 AND\n2 1 14469 107005 107006 XOR\n2 1 2925 107006 14473 XOR\n2 1 80125 133302 57969 XOR\n2 1 57969 57970 57968 AND\n2 1 57968 133302 133303 XOR\n2 1 78590 133303 57973 XOR\n2 1 81661 133426 58149 XOR\n2 1 77021 133426 58150 XOR\n2 1 58149 58150 58148 AND\n2 1 58148 133426 133427 XOR\n2 1 133458 133427 80126 XOR\n2 1 80126 78590 133334 XOR\n2 1 133334 133303 76798 XOR\n2 1 76798 3437 119782 XOR\n2 1 119782 119751 94915 XOR\n2 1 96963 94915 119720 XOR\n2 1 119720 119689 92887 XOR\n1 1 92887 36070 INV\n2 1 36070 119671 90878 XOR\n2 1 92887 119671 36025 XOR\n2 1 36025 36026 36024 AND\n2 1 36024 119671 36028 XOR\n2 1 94915 119689 36114 XOR\n2 1 36113 36114 36112 AND\n2 1 36112 119689 119690 XOR\n2 1 96964 119690 36116 XOR\n2 1 76798 119751 36203 XOR\n2 1 36203 36204 36202 AND\n2 1 36202 119751 119752 XOR\n2 1 3438 119752 36207 XOR\n2 1 2925 90878 107037 XOR\n2 1 107037 107006 3309 XOR\n2 1 90878 107006 14474 XOR\n2 1 14473 14474 14472 AND\n2 1 14472 107006 107007 XOR\n2 1 2926 107007 14476 XOR\n2 1 80126 133303 57972 XOR\n2 1 57972 57973 57971 AND\n2 1 57971 133303 133304 XOR\n2 1 78591 133304 57976 XOR\n2 1 81662 133427 58152 XOR\n2 1 77022 133427 58153 XOR\n2 1 58152 58153 58151 AND\n2 1 58151 133427 133428 XOR\n2 1 133459 133428 80127 XOR\n2 1 80127 78591 133335 XOR\n2 1 133335 133304 76799 XOR\n2 1 76799 3438 119783 XOR\n2 1 119783 119752 94916 XOR\n2 1 96964 94916 119721 XOR\n2 1 119721 119690 92888 XOR\n2 1 92888 36028 90879 XOR\n2 1 90879 36028 36027 AND\n2 1 36027 36028 36030 XOR\n2 1 94916 119690 36117 XOR\n2 1 36116 36117 36115 AND\n2 1 36115 119690 119691 XOR\n2 1 96965 119691 36119 XOR\n2 1 76799 119752 36206 XOR\n2 1 36206 36207 36205 AND\n2 1 36205 119752 119753 XOR\n2 1 3439 119753 36210 XOR\n2 1 2926 90879 107038 XOR\n2 1 107038 107007 3310 XOR\n2 1 90879 107007 14477 XOR\n2 1 14476 14477 14475 AND\n2 1 14475 107007 107008 XOR\n2 1 2927 107008 14479 XOR\n2 1 80127 133304 57975 XOR\n2 1 57975 57976 57974 AND\n2 1 57974 133304 133305 XOR\n2 1 78592 133305 57979 XOR\n2 1 81663 133428 58155 XOR\n2 1 77023 133428 58156 XOR\n2 1 58155 58156 58154 AND\n2 1 58154 133428 133429 XOR\n2 1 133460 133429 80128 XOR\n2 1 80128 78592 133336 XOR\n2 1 133336 133305 76800 XOR\n2 1 76800 3439 119784 XOR\n2 1 119784 119753 94917 XOR\n2 1 96965 94917 119722 XOR\n2 1 119722 119691 92889 XOR\n2 1 92889 36030 90880 XOR\n2 1 90880 36030 36029 AND\n2 1 36029 36030 119672 XOR\n1 1 119672 36033 INV\n2 1 94917 119691 36120 XOR\n2 1 36119 36120 36118 AND\n2 1 36118 119691 119692 XOR\n2 1 96966 119692 36122 XOR\n2 1 76800 119753 36209 XOR\n2 1 36209 36210 36208 AND\n2 1 36208 119753 119754 XOR\n2 1 3440 119754 36213 XOR\n2 1 2927 90880 107039 XOR\n2 1 107039 107008 3311 XOR\n2 1 90880 107008 14480 XOR\n2 1 14479 14480 14478 AND\n2 1 14478 107008 107009 XOR\n2 1 2928 107009 14482 XOR\n2 1 80128 133305 57978 XOR\n2 1 57978 57979 57977 AND\n2 1 57977 133305 133306 XOR\n2 1 78593 133306 57982 XOR\n2 1 81664 133429 58158 XOR\n2 1 77024 133429 58159 XOR\n2 1 58158 58159 58157 AND\n2 1 58157 133429 133430 XOR\n2 1 133461 133430 80129 XOR\n2 1 80129 78593 133337 XOR\n2 1 133337 133306 76801 XOR\n2 1 76801 3440 119785 XOR\n2 1 119785 119754 94918 XOR\n2 1 96966 94918 119723 XOR\n2 1 119723 119692 92890 XOR\n1 1 92890 36071 INV\n2 1 36071 119672 90881 XOR\n2 1 92890 119672 36032 XOR\n2 1 36032 36033 36031 AND\n2 1 36031 119672 119673 XOR\n1 1 119673 36036 INV\n2 1 94918 119692 36123 XOR\n2 1 36122 36123 36121 AND\n2 1 36121 119692 119693 XOR\n2 1 96967 119693 36125 XOR\n2 1 76801 119754 36212 XOR\n",
"2 1 36212 36213 36211 AND\n2 1 36211 119754 119755 XOR\n2 1 3441 119755 36216 XOR\n2 1 2928 90881 107040 XOR\n2 1 90881 107009 14483 XOR\n2 1 14482 14483 14481 AND\n2 1 14481 107009 107010 XOR\n2 1 2929 107010 14485 XOR\n2 1 107040 107009 3312 XOR\n2 1 80129 133306 57981 XOR\n2 1 57981 57982 57980 AND\n2 1 57980 133306 133307 XOR\n2 1 78594 133307 57985 XOR\n2 1 81665 133430 58161 XOR\n2 1 77025 133430 58162 XOR\n2 1 58161 58162 58160 AND\n2 1 58160 133430 133431 XOR\n2 1 133462 133431 80130 XOR\n2 1 80130 78594 133338 XOR\n2 1 133338 133307 76802 XOR\n2 1 76802 3441 119786 XOR\n2 1 119786 119755 94919 XOR\n2 1 96967 94919 119724 XOR\n2 1 119724 119693 92891 XOR\n1 1 92891 36072 INV\n2 1 36072 119673 90882 XOR\n2 1 92891 119673 36035 XOR\n2 1 36035 36036 36034 AND\n2 1 36034 119673 36038 XOR\n2 1 94919 119693 36126 XOR\n2 1 36125 36126 36124 AND\n2 1 36124 119693 119694 XOR\n2 1 96968 119694 36128 XOR\n2 1 76802 119755 36215 XOR\n2 1 36215 36216 36214 AND\n2 1 36214 119755 119756 XOR\n2 1 3442 119756 36219 XOR\n2 1 90882 107010 14486 XOR\n2 1 14485 14486 14484 AND\n2 1 14484 107010 107011 XOR\n2 1 2930 107011 14488 XOR\n2 1 2929 90882 107041 XOR\n2 1 80130 133307 57984 XOR\n2 1 57984 57985 57983 AND\n2 1 57983 133307 133308 XOR\n2 1 78595 133308 57988 XOR\n2 1 81666 133431 58164 XOR\n2 1 77026 133431 58165 XOR\n2 1 58164 58165 58163 AND\n2 1 58163 133431 133432 XOR\n2 1 133463 133432 80131 XOR\n2 1 80131 78595 133339 XOR\n2 1 133339 133308 76803 XOR\n2 1 76803 3442 119787 XOR\n2 1 119787 119756 94920 XOR\n2 1 96968 94920 119725 XOR\n2 1 119725 119694 92892 XOR\n2 1 92892 36038 90883 XOR\n2 1 90883 36038 36037 AND\n2 1 36037 36038 36040 XOR\n2 1 94920 119694 36129 XOR\n2 1 36128 36129 36127 AND\n2 1 36127 119694 119695 XOR\n2 1 96969 119695 36131 XOR\n2 1 76803 119756 36218 XOR\n2 1 36218 36219 36217 AND\n2 1 36217 119756 119757 XOR\n2 1 3443 119757 36222 XOR\n2 1 90883 107011 14489 XOR\n2 1 2930 90883 107042 XOR\n2 1 107042 107011 3314 XOR\n2 1 14488 14489 14487 AND\n2 1 14487 107011 107012 XOR\n2 1 2931 107012 14491 XOR\n2 1 80131 133308 57987 XOR\n2 1 57987 57988 57986 AND\n2 1 57986 133308 133309 XOR\n2 1 78596 133309 57991 XOR\n2 1 81667 133432 58167 XOR\n2 1 77027 133432 58168 XOR\n2 1 58167 58168 58166 AND\n2 1 58166 133432 133433 XOR\n2 1 133464 133433 80132 XOR\n2 1 80132 78596 133340 XOR\n2 1 133340 133309 76804 XOR\n2 1 76804 3443 119788 XOR\n2 1 119788 119757 94921 XOR\n2 1 96969 94921 119726 XOR\n2 1 119726 119695 92893 XOR\n2 1 92893 36040 90884 XOR\n2 1 90884 36040 36039 AND\n2 1 36039 36040 36042 XOR\n2 1 94921 119695 36132 XOR\n2 1 36131 36132 36130 AND\n2 1 36130 119695 119696 XOR\n2 1 96970 119696 36134 XOR\n2 1 76804 119757 36221 XOR\n2 1 36221 36222 36220 AND\n2 1 36220 119757 119758 XOR\n2 1 3444 119758 36225 XOR\n2 1 2931 90884 107043 XOR\n2 1 107043 107012 3315 XOR\n2 1 90884 107012 14492 XOR\n2 1 14491 14492 14490 AND\n2 1 14490 107012 107013 XOR\n2 1 2932 107013 14494 XOR\n2 1 80132 133309 57990 XOR\n2 1 57990 57991 57989 AND\n2 1 57989 133309 133310 XOR\n2 1 78597 133310 57994 XOR\n2 1 81668 133433 58170 XOR\n2 1 77028 133433 58171 XOR\n2 1 58170 58171 58169 AND\n2 1 58169 133433 133434 XOR\n2 1 133465 133434 80133 XOR\n2 1 80133 78597 133341 XOR\n2 1 133341 133310 76805 XOR\n2 1 76805 3444 119789 XOR\n2 1 119789 119758 94922 XOR\n2 1 96970 94922 119727 XOR\n2 1 119727 119696 92894 XOR\n2 1 92894 36042 90885 XOR\n2 1 90885 36042 36041 AND\n2 1 36041 36042 36044 XOR\n2 1 94922 119696 36135 XOR\n2 1 36134 36135 36133 AND\n2 1 36133 119696 119697 XOR\n2 1 96971 119697 36137 XOR\n",
"2 1 76805 119758 36224 XOR\n2 1 36224 36225 36223 AND\n2 1 36223 119758 119759 XOR\n2 1 3445 119759 36228 XOR\n2 1 2932 90885 107044 XOR\n2 1 107044 107013 3316 XOR\n2 1 90885 107013 14495 XOR\n2 1 14494 14495 14493 AND\n2 1 14493 107013 107014 XOR\n2 1 2933 107014 14497 XOR\n2 1 80133 133310 57993 XOR\n2 1 57993 57994 57992 AND\n2 1 57992 133310 133311 XOR\n2 1 78598 133311 57997 XOR\n2 1 81669 133434 58173 XOR\n2 1 77029 133434 58174 XOR\n2 1 58173 58174 58172 AND\n2 1 58172 133434 133435 XOR\n2 1 133466 133435 80134 XOR\n2 1 80134 78598 133342 XOR\n2 1 133342 133311 76806 XOR\n2 1 76806 3445 119790 XOR\n2 1 119790 119759 94923 XOR\n2 1 96971 94923 119728 XOR\n2 1 119728 119697 92895 XOR\n2 1 92895 36044 90886 XOR\n2 1 90886 36044 36043 AND\n2 1 36043 36044 36046 XOR\n2 1 94923 119697 36138 XOR\n2 1 36137 36138 36136 AND\n2 1 36136 119697 119698 XOR\n2 1 96972 119698 36140 XOR\n2 1 76806 119759 36227 XOR\n2 1 36227 36228 36226 AND\n2 1 36226 119759 119760 XOR\n2 1 3446 119760 36231 XOR\n2 1 2933 90886 107045 XOR\n2 1 107045 107014 3317 XOR\n2 1 90886 107014 14498 XOR\n2 1 14497 14498 14496 AND\n2 1 14496 107014 107015 XOR\n2 1 2934 107015 14500 XOR\n2 1 80134 133311 57996 XOR\n2 1 57996 57997 57995 AND\n2 1 57995 133311 133312 XOR\n2 1 78599 133312 58000 XOR\n2 1 81670 133435 58176 XOR\n2 1 77030 133435 58177 XOR\n2 1 58176 58177 58175 AND\n2 1 58175 133435 133436 XOR\n2 1 133467 133436 80135 XOR\n2 1 80135 78599 133343 XOR\n2 1 133343 133312 76807 XOR\n2 1 76807 3446 119791 XOR\n2 1 119791 119760 94924 XOR\n2 1 96972 94924 119729 XOR\n2 1 119729 119698 92896 XOR\n2 1 92896 36046 90887 XOR\n2 1 90887 36046 36045 AND\n2 1 36045 36046 36048 XOR\n2 1 94924 119698 36141 XOR\n2 1 36140 36141 36139 AND\n2 1 36139 119698 119699 XOR\n2 1 96973 119699 36143 XOR\n2 1 76807 119760 36230 XOR\n2 1 36230 36231 36229 AND\n2 1 36229 119760 119761 XOR\n2 1 3447 119761 36234 XOR\n2 1 2934 90887 107046 XOR\n2 1 90887 107015 14501 XOR\n2 1 14500 14501 14499 AND\n2 1 14499 107015 107016 XOR\n2 1 2935 107016 14503 XOR\n2 1 107046 107015 3318 XOR\n2 1 80135 133312 57999 XOR\n2 1 57999 58000 57998 AND\n2 1 57998 133312 133313 XOR\n2 1 78600 133313 58003 XOR\n2 1 81671 133436 58179 XOR\n2 1 77031 133436 58180 XOR\n2 1 58179 58180 58178 AND\n2 1 58178 133436 133437 XOR\n2 1 133468 133437 80136 XOR\n2 1 80136 78600 133344 XOR\n2 1 133344 133313 76808 XOR\n2 1 76808 3447 119792 XOR\n2 1 119792 119761 94925 XOR\n2 1 96973 94925 119730 XOR\n2 1 119730 119699 92897 XOR\n2 1 92897 36048 90888 XOR\n2 1 90888 36048 36047 AND\n2 1 36047 36048 36050 XOR\n2 1 94925 119699 36144 XOR\n2 1 36143 36144 36142 AND\n2 1 36142 119699 119700 XOR\n2 1 96974 119700 36146 XOR\n2 1 76808 119761 36233 XOR\n2 1 36233 36234 36232 AND\n2 1 36232 119761 119762 XOR\n2 1 3448 119762 36237 XOR\n2 1 90888 107016 14504 XOR\n2 1 14503 14504 14502 AND\n2 1 14502 107016 107017 XOR\n2 1 2935 90888 107047 XOR\n2 1 80136 133313 58002 XOR\n2 1 58002 58003 58001 AND\n2 1 58001 133313 133314 XOR\n2 1 78601 133314 58006 XOR\n2 1 81672 133437 58182 XOR\n2 1 77032 133437 58183 XOR\n2 1 58182 58183 58181 AND\n2 1 58181 133437 133438 XOR\n2 1 133469 133438 80137 XOR\n2 1 80137 78601 133345 XOR\n2 1 133345 133314 76809 XOR\n2 1 76809 3448 119793 XOR\n2 1 119793 119762 94926 XOR\n2 1 96974 94926 119731 XOR\n2 1 119731 119700 92898 XOR\n2 1 92898 36050 90889 XOR\n2 1 90889 36050 36049 AND\n2 1 36049 36050 36052 XOR\n2 1 94926 119700 36147 XOR\n2 1 36146 36147 36145 AND\n2 1 36145 119700 119701 XOR\n2 1 96975 119701 36149 XOR\n2 1 76809 119762 36236 XOR\n2 1 36236 36237 36235 AND\n",
"2 1 36235 119762 119763 XOR\n2 1 3449 119763 36240 XOR\n2 1 2936 90889 107048 XOR\n2 1 107048 107017 3320 XOR\n2 1 80137 133314 58005 XOR\n2 1 58005 58006 58004 AND\n2 1 58004 133314 133315 XOR\n2 1 78602 133315 58009 XOR\n2 1 81673 133438 58185 XOR\n2 1 77033 133438 58186 XOR\n2 1 58185 58186 58184 AND\n2 1 58184 133438 133439 XOR\n2 1 133470 133439 80138 XOR\n2 1 80138 78602 133346 XOR\n2 1 133346 133315 76810 XOR\n2 1 76810 3449 119794 XOR\n2 1 119794 119763 94927 XOR\n2 1 96975 94927 119732 XOR\n2 1 119732 119701 92899 XOR\n2 1 92899 36052 90890 XOR\n2 1 90890 36052 36051 AND\n2 1 36051 36052 36054 XOR\n2 1 94927 119701 36150 XOR\n2 1 36149 36150 36148 AND\n2 1 36148 119701 119702 XOR\n2 1 96976 119702 36152 XOR\n2 1 76810 119763 36239 XOR\n2 1 36239 36240 36238 AND\n2 1 36238 119763 119764 XOR\n2 1 3450 119764 36243 XOR\n2 1 2937 90890 107049 XOR\n2 1 80138 133315 58008 XOR\n2 1 58008 58009 58007 AND\n2 1 58007 133315 133316 XOR\n2 1 78603 133316 58012 XOR\n2 1 81674 133439 58188 XOR\n2 1 77034 133439 58189 XOR\n2 1 58188 58189 58187 AND\n2 1 58187 133439 133440 XOR\n2 1 133471 133440 80139 XOR\n2 1 80139 78603 133347 XOR\n2 1 133347 133316 76811 XOR\n2 1 76811 3450 119795 XOR\n2 1 119795 119764 94928 XOR\n2 1 96976 94928 119733 XOR\n2 1 119733 119702 92900 XOR\n2 1 92900 36054 90891 XOR\n2 1 90891 36054 36053 AND\n2 1 36053 36054 36056 XOR\n2 1 94928 119702 36153 XOR\n2 1 36152 36153 36151 AND\n2 1 36151 119702 119703 XOR\n2 1 96977 119703 36155 XOR\n2 1 76811 119764 36242 XOR\n2 1 36242 36243 36241 AND\n2 1 36241 119764 119765 XOR\n2 1 3451 119765 36246 XOR\n2 1 2938 90891 107050 XOR\n2 1 80139 133316 58011 XOR\n2 1 58011 58012 58010 AND\n2 1 58010 133316 133317 XOR\n2 1 78604 133317 58015 XOR\n2 1 81675 133440 58191 XOR\n2 1 77035 133440 58192 XOR\n2 1 58191 58192 58190 AND\n2 1 58190 133440 133441 XOR\n2 1 133472 133441 80140 XOR\n2 1 80140 78604 133348 XOR\n2 1 133348 133317 76812 XOR\n2 1 76812 3451 119796 XOR\n2 1 119796 119765 94929 XOR\n2 1 96977 94929 119734 XOR\n2 1 119734 119703 92901 XOR\n2 1 92901 36056 90892 XOR\n2 1 90892 36056 36055 AND\n2 1 36055 36056 119674 XOR\n1 1 119674 36059 INV\n2 1 94929 119703 36156 XOR\n2 1 36155 36156 36154 AND\n2 1 36154 119703 119704 XOR\n2 1 96978 119704 36158 XOR\n2 1 76812 119765 36245 XOR\n2 1 36245 36246 36244 AND\n2 1 36244 119765 119766 XOR\n2 1 3452 119766 36249 XOR\n2 1 2939 90892 107051 XOR\n2 1 80140 133317 58014 XOR\n2 1 58014 58015 58013 AND\n2 1 58013 133317 133318 XOR\n2 1 78605 133318 58018 XOR\n2 1 81676 133441 58194 XOR\n2 1 77036 133441 58195 XOR\n2 1 58194 58195 58193 AND\n2 1 58193 133441 133442 XOR\n2 1 133473 133442 80141 XOR\n2 1 80141 78605 133349 XOR\n2 1 133349 133318 76813 XOR\n2 1 76813 3452 119797 XOR\n2 1 119797 119766 94930 XOR\n2 1 96978 94930 119735 XOR\n2 1 119735 119704 92902 XOR\n1 1 92902 36073 INV\n2 1 36073 119674 90893 XOR\n2 1 92902 119674 36058 XOR\n2 1 36058 36059 36057 AND\n2 1 36057 119674 119675 XOR\n1 1 119675 36062 INV\n2 1 94930 119704 36159 XOR\n2 1 36158 36159 36157 AND\n2 1 36157 119704 119705 XOR\n2 1 96979 119705 36161 XOR\n2 1 76813 119766 36248 XOR\n2 1 36248 36249 36247 AND\n2 1 36247 119766 119767 XOR\n2 1 3453 119767 36252 XOR\n2 1 2940 90893 107052 XOR\n2 1 80141 133318 58017 XOR\n2 1 58017 58018 58016 AND\n2 1 58016 133318 133319 XOR\n2 1 78606 133319 58021 XOR\n2 1 81677 133442 58197 XOR\n2 1 77037 133442 58198 XOR\n2 1 58197 58198 58196 AND\n2 1 58196 133442 133443 XOR\n2 1 133474 133443 80142 XOR\n2 1 80142 78606 133350 XOR\n2 1 133350 133319 76814 XOR\n2 1 76814 3453 119798 XOR\n",
"2 1 119798 119767 94931 XOR\n2 1 96979 94931 119736 XOR\n2 1 119736 119705 92903 XOR\n1 1 92903 36074 INV\n2 1 36074 119675 90894 XOR\n2 1 92903 119675 36061 XOR\n2 1 36061 36062 36060 AND\n2 1 36060 119675 36064 XOR\n2 1 94931 119705 36162 XOR\n2 1 36161 36162 36160 AND\n2 1 36160 119705 119706 XOR\n2 1 96980 119706 36164 XOR\n2 1 76814 119767 36251 XOR\n2 1 36251 36252 36250 AND\n2 1 36250 119767 119768 XOR\n2 1 3454 119768 36255 XOR\n2 1 2941 90894 107053 XOR\n2 1 80142 133319 58020 XOR\n2 1 58020 58021 58019 AND\n2 1 58019 133319 133320 XOR\n2 1 78607 133320 58024 XOR\n2 1 81678 133443 58200 XOR\n2 1 77038 133443 58201 XOR\n2 1 58200 58201 58199 AND\n2 1 58199 133443 133444 XOR\n2 1 133475 133444 80143 XOR\n2 1 80143 78607 133351 XOR\n2 1 133351 133320 76815 XOR\n2 1 76815 3454 119799 XOR\n2 1 119799 119768 94932 XOR\n2 1 96980 94932 119737 XOR\n2 1 119737 119706 92904 XOR\n2 1 92904 36064 90895 XOR\n2 1 90895 36064 36063 AND\n2 1 36063 36064 119676 XOR\n2 1 94932 119706 36165 XOR\n2 1 36164 36165 36163 AND\n2 1 36163 119706 119707 XOR\n2 1 76815 119768 36254 XOR\n2 1 36254 36255 36253 AND\n2 1 36253 119768 119769 XOR\n2 1 2942 90895 107054 XOR\n2 1 80143 133320 58023 XOR\n2 1 58023 58024 58022 AND\n2 1 58022 133320 133321 XOR\n2 1 81679 133444 58203 XOR\n2 1 77039 133444 58204 XOR\n2 1 58203 58204 58202 AND\n2 1 58202 133444 133445 XOR\n2 1 133476 133445 80144 XOR\n2 1 80144 78608 133352 XOR\n2 1 133352 133321 76816 XOR\n2 1 76816 3455 119800 XOR\n2 1 119800 119769 94933 XOR\n2 1 96981 94933 119738 XOR\n2 1 119738 119707 92905 XOR\n1 1 92905 36075 INV\n2 1 36075 119676 90896 XOR\n2 1 2943 90896 107055 XOR\n2 1 2936 107017 14506 XOR\n2 1 90889 107017 14507 XOR\n2 1 14506 14507 14505 AND\n2 1 14505 107017 107018 XOR\n2 1 107049 107018 3321 XOR\n2 1 2937 107018 14509 XOR\n2 1 90890 107018 14510 XOR\n2 1 14509 14510 14508 AND\n2 1 14508 107018 107019 XOR\n2 1 107050 107019 3322 XOR\n2 1 2938 107019 14512 XOR\n2 1 90891 107019 14513 XOR\n2 1 14512 14513 14511 AND\n2 1 14511 107019 107020 XOR\n2 1 107051 107020 3323 XOR\n2 1 2939 107020 14515 XOR\n2 1 90892 107020 14516 XOR\n2 1 14515 14516 14514 AND\n2 1 14514 107020 107021 XOR\n2 1 107052 107021 3324 XOR\n2 1 2940 107021 14518 XOR\n2 1 90893 107021 14519 XOR\n2 1 14518 14519 14517 AND\n2 1 14517 107021 107022 XOR\n2 1 107053 107022 3325 XOR\n2 1 2941 107022 14521 XOR\n2 1 90894 107022 14522 XOR\n2 1 14521 14522 14520 AND\n2 1 14520 107022 107023 XOR\n2 1 107054 107023 3326 XOR\n2 1 2942 107023 14524 XOR\n2 1 90895 107023 14525 XOR\n2 1 14524 14525 14523 AND\n2 1 14523 107023 107024 XOR\n2 1 107055 107024 3327 XOR\n2 1 90865 84721 107056 AND\n2 1 90865 84721 2784 XOR\n2 1 90866 84722 107087 XOR\n2 1 90867 84723 107088 XOR\n2 1 90868 84724 107089 XOR\n2 1 90869 84725 107090 XOR\n2 1 90870 84726 107091 XOR\n2 1 90871 84727 107092 XOR\n2 1 90872 84728 107093 XOR\n2 1 90873 84729 107094 XOR\n2 1 90874 84730 107095 XOR\n2 1 90875 84731 107096 XOR\n2 1 90876 84732 107097 XOR\n2 1 90877 84733 107098 XOR\n2 1 90878 84734 107099 XOR\n2 1 90879 84735 107100 XOR\n2 1 90880 84736 107101 XOR\n2 1 90881 84737 107102 XOR\n2 1 90882 84738 107103 XOR\n2 1 90883 84739 107104 XOR\n2 1 90884 84740 107105 XOR\n2 1 90885 84741 107106 XOR\n2 1 90886 84742 107107 XOR\n2 1 90887 84743 107108 XOR\n2 1 90888 84744 107109 XOR\n2 1 90889 84745 107110 XOR\n2 1 90890 84746 107111 XOR\n2 1 90891 84747 107112 XOR\n2 1 90892 84748 107113 XOR\n2 1 90893 84749 107114 XOR\n2 1 90894 84750 107115 XOR\n2 1 90895 84751 107116 XOR\n2 1 90896 84752 107117 XOR\n2 1 107087 107056 2785 XOR\n",
"2 1 90866 107056 14527 XOR\n2 1 84722 107056 14528 XOR\n2 1 14527 14528 14526 AND\n2 1 14526 107056 107057 XOR\n2 1 107088 107057 2786 XOR\n2 1 90867 107057 14530 XOR\n2 1 84723 107057 14531 XOR\n2 1 14530 14531 14529 AND\n2 1 14529 107057 107058 XOR\n2 1 107089 107058 2787 XOR\n2 1 90868 107058 14533 XOR\n2 1 84724 107058 14534 XOR\n2 1 14533 14534 14532 AND\n2 1 14532 107058 107059 XOR\n2 1 107090 107059 2788 XOR\n2 1 90869 107059 14536 XOR\n2 1 84725 107059 14537 XOR\n2 1 14536 14537 14535 AND\n2 1 14535 107059 107060 XOR\n2 1 107091 107060 2789 XOR\n2 1 90870 107060 14539 XOR\n2 1 84726 107060 14540 XOR\n2 1 14539 14540 14538 AND\n2 1 14538 107060 107061 XOR\n2 1 107092 107061 2790 XOR\n2 1 90871 107061 14542 XOR\n2 1 84727 107061 14543 XOR\n2 1 14542 14543 14541 AND\n2 1 14541 107061 107062 XOR\n2 1 107093 107062 2791 XOR\n2 1 90872 107062 14545 XOR\n2 1 84728 107062 14546 XOR\n2 1 14545 14546 14544 AND\n2 1 14544 107062 107063 XOR\n2 1 107094 107063 2792 XOR\n2 1 90873 107063 14548 XOR\n2 1 84729 107063 14549 XOR\n2 1 14548 14549 14547 AND\n2 1 14547 107063 107064 XOR\n2 1 107095 107064 2793 XOR\n2 1 90874 107064 14551 XOR\n2 1 84730 107064 14552 XOR\n2 1 14551 14552 14550 AND\n2 1 14550 107064 107065 XOR\n2 1 107096 107065 2794 XOR\n2 1 90875 107065 14554 XOR\n2 1 84731 107065 14555 XOR\n2 1 14554 14555 14553 AND\n2 1 14553 107065 107066 XOR\n2 1 107097 107066 2795 XOR\n2 1 90876 107066 14557 XOR\n2 1 84732 107066 14558 XOR\n2 1 14557 14558 14556 AND\n2 1 14556 107066 107067 XOR\n2 1 107098 107067 2796 XOR\n2 1 90877 107067 14560 XOR\n2 1 84733 107067 14561 XOR\n2 1 14560 14561 14559 AND\n2 1 14559 107067 107068 XOR\n2 1 2796 2860 72283 XOR\n2 1 2795 2859 72282 XOR\n2 1 2794 2858 72281 XOR\n2 1 2793 2857 72280 XOR\n2 1 2792 2856 72279 XOR\n2 1 2791 2855 72278 XOR\n2 1 2790 2854 72277 XOR\n2 1 2789 2853 72276 XOR\n2 1 2788 2852 72275 XOR\n2 1 2787 2851 72274 XOR\n2 1 2786 2850 72273 XOR\n2 1 2785 2849 72272 XOR\n2 1 2784 2848 72271 XOR\n2 1 72283 72251 72219 AND\n2 1 72282 72250 72218 AND\n2 1 72281 72249 72217 AND\n2 1 72280 72248 72216 AND\n2 1 72279 72247 72215 AND\n2 1 72278 72246 72214 AND\n2 1 72277 72245 72213 AND\n2 1 72276 72244 72212 AND\n2 1 72275 72243 72211 AND\n2 1 72274 72242 72210 AND\n2 1 72273 72241 72209 AND\n2 1 72272 72240 72208 AND\n2 1 72271 72239 72207 AND\n2 1 72219 2860 86749 XOR\n2 1 72218 2859 86748 XOR\n2 1 72217 2858 86747 XOR\n2 1 72216 2857 86746 XOR\n2 1 72215 2856 86745 XOR\n2 1 72214 2855 86744 XOR\n2 1 72213 2854 86743 XOR\n2 1 72212 2853 86742 XOR\n2 1 72211 2852 86741 XOR\n2 1 72210 2851 86740 XOR\n2 1 72209 2850 86739 XOR\n2 1 72208 2849 86738 XOR\n2 1 72207 2848 86737 XOR\n2 1 2796 2828 72155 XOR\n2 1 2795 2827 72154 XOR\n2 1 2794 2826 72153 XOR\n2 1 2793 2825 72152 XOR\n2 1 2792 2824 72151 XOR\n2 1 2791 2823 72150 XOR\n2 1 2790 2822 72149 XOR\n2 1 2789 2821 72148 XOR\n2 1 2788 2820 72147 XOR\n2 1 2787 2819 72146 XOR\n2 1 2786 2818 72145 XOR\n2 1 2785 2817 72144 XOR\n2 1 2784 2816 72143 XOR\n2 1 107099 107068 2797 XOR\n2 1 2797 2861 72284 XOR\n2 1 72284 72252 72220 AND\n2 1 72220 2861 86750 XOR\n2 1 2797 2829 72156 XOR\n2 1 90878 107068 14563 XOR\n2 1 84734 107068 14564 XOR\n2 1 14563 14564 14562 AND\n2 1 14562 107068 107069 XOR\n2 1 107100 107069 2798 XOR\n2 1 2798 2862 72285 XOR\n2 1 72285 72253 72221 AND\n2 1 72221 2862 86751 XOR\n2 1 2798 2830 72157 XOR\n2 1 90879 107069 14566 XOR\n2 1 84735 107069 14567 XOR\n2 1 14566 14567 14565 AND\n",
"2 1 14565 107069 107070 XOR\n2 1 107101 107070 2799 XOR\n2 1 2799 2863 72286 XOR\n2 1 72286 72254 72222 AND\n2 1 72222 2863 86752 XOR\n2 1 2799 2831 72158 XOR\n2 1 90880 107070 14569 XOR\n2 1 84736 107070 14570 XOR\n2 1 14569 14570 14568 AND\n2 1 14568 107070 107071 XOR\n2 1 107102 107071 2800 XOR\n2 1 2800 2864 72287 XOR\n2 1 72287 72255 72223 AND\n2 1 72223 2864 86753 XOR\n2 1 2800 2832 72159 XOR\n2 1 90881 107071 14572 XOR\n2 1 84737 107071 14573 XOR\n2 1 14572 14573 14571 AND\n2 1 14571 107071 107072 XOR\n2 1 107103 107072 2801 XOR\n2 1 2801 2865 72288 XOR\n2 1 72288 72256 72224 AND\n2 1 72224 2865 86754 XOR\n2 1 2801 2833 72160 XOR\n2 1 90882 107072 14575 XOR\n2 1 84738 107072 14576 XOR\n2 1 14575 14576 14574 AND\n2 1 14574 107072 107073 XOR\n2 1 107104 107073 2802 XOR\n2 1 2802 2866 72289 XOR\n2 1 72289 72257 72225 AND\n2 1 72225 2866 86755 XOR\n2 1 2802 2834 72161 XOR\n2 1 90883 107073 14578 XOR\n2 1 84739 107073 14579 XOR\n2 1 14578 14579 14577 AND\n2 1 14577 107073 107074 XOR\n2 1 90884 107074 14581 XOR\n2 1 107105 107074 2803 XOR\n2 1 2803 2867 72290 XOR\n2 1 72290 72258 72226 AND\n2 1 72226 2867 86756 XOR\n2 1 2803 2835 72162 XOR\n2 1 84740 107074 14582 XOR\n2 1 14581 14582 14580 AND\n2 1 14580 107074 107075 XOR\n2 1 84741 107075 14585 XOR\n2 1 107106 107075 2804 XOR\n2 1 2804 2868 72291 XOR\n2 1 72291 72259 72227 AND\n2 1 72227 2868 86757 XOR\n2 1 2804 2836 72163 XOR\n2 1 90885 107075 14584 XOR\n2 1 14584 14585 14583 AND\n2 1 14583 107075 107076 XOR\n2 1 90886 107076 14587 XOR\n2 1 107107 107076 2805 XOR\n2 1 2805 2869 72292 XOR\n2 1 72292 72260 72228 AND\n2 1 72228 2869 86758 XOR\n2 1 2805 2837 72164 XOR\n2 1 84742 107076 14588 XOR\n2 1 14587 14588 14586 AND\n2 1 14586 107076 107077 XOR\n2 1 84743 107077 14591 XOR\n2 1 107108 107077 2806 XOR\n2 1 2806 2870 72293 XOR\n2 1 72293 72261 72229 AND\n2 1 72229 2870 86759 XOR\n2 1 2806 2838 72165 XOR\n2 1 90887 107077 14590 XOR\n2 1 14590 14591 14589 AND\n2 1 14589 107077 107078 XOR\n2 1 90888 107078 14593 XOR\n2 1 107109 107078 2807 XOR\n2 1 2807 2871 72294 XOR\n2 1 72294 72262 72230 AND\n2 1 72230 2871 86760 XOR\n2 1 2807 2839 72166 XOR\n2 1 84744 107078 14594 XOR\n2 1 14593 14594 14592 AND\n2 1 14592 107078 107079 XOR\n2 1 84745 107079 14597 XOR\n2 1 107110 107079 2808 XOR\n2 1 2808 2872 72295 XOR\n2 1 72295 72263 72231 AND\n2 1 72231 2872 86761 XOR\n2 1 2808 2840 72167 XOR\n2 1 90889 107079 14596 XOR\n2 1 14596 14597 14595 AND\n2 1 14595 107079 107080 XOR\n2 1 90890 107080 14599 XOR\n2 1 107111 107080 2809 XOR\n2 1 2809 2873 72296 XOR\n2 1 72296 72264 72232 AND\n2 1 72232 2873 86762 XOR\n2 1 2809 2841 72168 XOR\n2 1 84746 107080 14600 XOR\n2 1 14599 14600 14598 AND\n2 1 14598 107080 107081 XOR\n2 1 84747 107081 14603 XOR\n2 1 107112 107081 2810 XOR\n2 1 2810 2874 72297 XOR\n2 1 72297 72265 72233 AND\n2 1 72233 2874 86763 XOR\n2 1 2810 2842 72169 XOR\n2 1 90891 107081 14602 XOR\n2 1 14602 14603 14601 AND\n2 1 14601 107081 107082 XOR\n2 1 90892 107082 14605 XOR\n2 1 107113 107082 2811 XOR\n2 1 2811 2875 72298 XOR\n2 1 72298 72266 72234 AND\n2 1 72234 2875 86764 XOR\n2 1 2811 2843 72170 XOR\n2 1 84748 107082 14606 XOR\n2 1 14605 14606 14604 AND\n2 1 14604 107082 107083 XOR\n2 1 84749 107083 14609 XOR\n2 1 107114 107083 2812 XOR\n2 1 2812 2876 72299 XOR\n2 1 72299 72267 72235 AND\n2 1 72235 2876 86765 XOR\n2 1 2812 2844 72171 XOR\n2 1 90893 107083 14608 XOR\n2 1 14608 14609 14607 AND\n2 1 14607 107083 107084 XOR\n2 1 90894 107084 14611 XOR\n",
"2 1 107115 107084 2813 XOR\n2 1 2813 2877 72300 XOR\n2 1 72300 72268 72236 AND\n2 1 72236 2877 86766 XOR\n2 1 2813 2845 72172 XOR\n2 1 84750 107084 14612 XOR\n2 1 14611 14612 14610 AND\n2 1 14610 107084 107085 XOR\n2 1 84751 107085 14615 XOR\n2 1 107116 107085 2814 XOR\n2 1 2814 2878 72301 XOR\n2 1 72301 72269 72237 AND\n2 1 72237 2878 86767 XOR\n2 1 2814 2846 72173 XOR\n2 1 90895 107085 14614 XOR\n2 1 14614 14615 14613 AND\n2 1 14613 107085 107086 XOR\n2 1 107117 107086 2815 XOR\n2 1 2815 2879 72302 XOR\n2 1 72302 72270 72238 AND\n2 1 72238 2879 86768 XOR\n2 1 2815 2847 72174 XOR\n2 1 2785 2796 67918 XOR\n2 1 2784 2795 67917 XOR\n2 1 2815 2794 67916 XOR\n2 1 2814 2793 67915 XOR\n2 1 2813 2792 67914 XOR\n2 1 2812 2791 67913 XOR\n2 1 2811 2790 67912 XOR\n2 1 2810 2789 67911 XOR\n2 1 2809 2788 67910 XOR\n2 1 2808 2787 67909 XOR\n2 1 2807 2786 67908 XOR\n2 1 2806 2785 67907 XOR\n2 1 2805 2784 67906 XOR\n2 1 2804 2815 67905 XOR\n2 1 2803 2814 67904 XOR\n2 1 2802 2813 67903 XOR\n2 1 2801 2812 67902 XOR\n2 1 2800 2811 67901 XOR\n2 1 2799 2810 67900 XOR\n2 1 2798 2809 67899 XOR\n2 1 2797 2808 67898 XOR\n2 1 2796 2807 67897 XOR\n2 1 2795 2806 67896 XOR\n2 1 2794 2805 67895 XOR\n2 1 2793 2804 67894 XOR\n2 1 2792 2803 67893 XOR\n2 1 2791 2802 67892 XOR\n2 1 2790 2801 67891 XOR\n2 1 2789 2800 67890 XOR\n2 1 2788 2799 67889 XOR\n2 1 2787 2798 67888 XOR\n2 1 2786 2797 67887 XOR\n2 1 67918 2805 88816 XOR\n2 1 88816 86768 119417 XOR\n2 1 67917 2804 88815 XOR\n2 1 88815 86767 119416 XOR\n2 1 67916 2803 88814 XOR\n2 1 88814 86766 119415 XOR\n2 1 67915 2802 88813 XOR\n2 1 88813 86765 119414 XOR\n2 1 67914 2801 88812 XOR\n2 1 88812 86764 119413 XOR\n2 1 67913 2800 88811 XOR\n2 1 88811 86763 119412 XOR\n2 1 67912 2799 88810 XOR\n2 1 88810 86762 119411 XOR\n2 1 67911 2798 88809 XOR\n2 1 88809 86761 119410 XOR\n2 1 67910 2797 88808 XOR\n2 1 88808 86760 119409 XOR\n2 1 67909 2796 88807 XOR\n2 1 88807 86759 119408 XOR\n2 1 67908 2795 88806 XOR\n2 1 88806 86758 119407 XOR\n2 1 67907 2794 88805 XOR\n2 1 88805 86757 119406 XOR\n2 1 67906 2793 88804 XOR\n2 1 88804 86756 119405 XOR\n2 1 67905 2792 88803 XOR\n2 1 88803 86755 119404 XOR\n2 1 67904 2791 88802 XOR\n2 1 88802 86754 119403 XOR\n2 1 67903 2790 88801 XOR\n2 1 88801 86753 119402 XOR\n2 1 67902 2789 88800 XOR\n2 1 88800 86752 119401 XOR\n2 1 67901 2788 88799 XOR\n2 1 88799 86751 119400 XOR\n2 1 67900 2787 88798 XOR\n2 1 88798 86750 119399 XOR\n2 1 67899 2786 88797 XOR\n2 1 88797 86749 119398 XOR\n2 1 67898 2785 88796 XOR\n2 1 88796 86748 119397 XOR\n2 1 67897 2784 88795 XOR\n2 1 88795 86747 119396 XOR\n2 1 67896 2815 88794 XOR\n2 1 88794 86746 119395 XOR\n2 1 67895 2814 88793 XOR\n2 1 88793 86745 119394 XOR\n2 1 67894 2813 88792 XOR\n2 1 88792 86744 119393 XOR\n2 1 67893 2812 88791 XOR\n2 1 88791 86743 119392 XOR\n2 1 67892 2811 88790 XOR\n2 1 88790 86742 119391 XOR\n2 1 67891 2810 88789 XOR\n2 1 88789 86741 119390 XOR\n2 1 67890 2809 88788 XOR\n2 1 88788 86740 119389 XOR\n2 1 67889 2808 88787 XOR\n2 1 88787 86739 119388 XOR\n2 1 67888 2807 88786 XOR\n2 1 88786 86738 119387 XOR\n2 1 67887 2806 88785 XOR\n2 1 88785 86737 119356 AND\n2 1 88785 86737 84689 XOR\n2 1 119387 119356 84690 XOR\n2 1 88786 119356 35430 XOR\n2 1 86738 119356 35431 XOR\n2 1 35430 35431 35429 AND\n2 1 35429 119356 119357 XOR\n2 1 119388 119357 84691 XOR\n2 1 88787 119357 35433 XOR\n2 1 86739 119357 35434 XOR\n2 1 35433 35434 35432 AND\n",
"2 1 35432 119357 119358 XOR\n2 1 119389 119358 84692 XOR\n2 1 88788 119358 35436 XOR\n2 1 86740 119358 35437 XOR\n2 1 35436 35437 35435 AND\n2 1 35435 119358 119359 XOR\n2 1 119390 119359 84693 XOR\n2 1 88789 119359 35439 XOR\n2 1 86741 119359 35440 XOR\n2 1 35439 35440 35438 AND\n2 1 35438 119359 119360 XOR\n2 1 119391 119360 84694 XOR\n2 1 88790 119360 35442 XOR\n2 1 86742 119360 35443 XOR\n2 1 35442 35443 35441 AND\n2 1 35441 119360 119361 XOR\n2 1 119392 119361 84695 XOR\n2 1 88791 119361 35445 XOR\n2 1 86743 119361 35446 XOR\n2 1 35445 35446 35444 AND\n2 1 35444 119361 119362 XOR\n2 1 119393 119362 84696 XOR\n2 1 88792 119362 35448 XOR\n2 1 86744 119362 35449 XOR\n2 1 35448 35449 35447 AND\n2 1 35447 119362 119363 XOR\n2 1 119394 119363 84697 XOR\n2 1 88793 119363 35451 XOR\n2 1 86745 119363 35452 XOR\n2 1 35451 35452 35450 AND\n2 1 35450 119363 119364 XOR\n2 1 119395 119364 84698 XOR\n2 1 88794 119364 35454 XOR\n2 1 86746 119364 35455 XOR\n2 1 35454 35455 35453 AND\n2 1 35453 119364 119365 XOR\n2 1 119396 119365 84699 XOR\n2 1 88795 119365 35457 XOR\n2 1 86747 119365 35458 XOR\n2 1 35457 35458 35456 AND\n2 1 35456 119365 119366 XOR\n2 1 119397 119366 84700 XOR\n2 1 88796 119366 35460 XOR\n2 1 86748 119366 35461 XOR\n2 1 35460 35461 35459 AND\n2 1 35459 119366 119367 XOR\n2 1 119398 119367 84701 XOR\n2 1 88797 119367 35463 XOR\n2 1 86749 119367 35464 XOR\n2 1 35463 35464 35462 AND\n2 1 35462 119367 119368 XOR\n2 1 119399 119368 84702 XOR\n2 1 88798 119368 35466 XOR\n2 1 86750 119368 35467 XOR\n2 1 35466 35467 35465 AND\n2 1 35465 119368 119369 XOR\n2 1 119400 119369 84703 XOR\n2 1 88799 119369 35469 XOR\n2 1 86751 119369 35470 XOR\n2 1 35469 35470 35468 AND\n2 1 35468 119369 119370 XOR\n2 1 119401 119370 84704 XOR\n2 1 88800 119370 35472 XOR\n2 1 86752 119370 35473 XOR\n2 1 35472 35473 35471 AND\n2 1 35471 119370 119371 XOR\n2 1 119402 119371 84705 XOR\n2 1 88801 119371 35475 XOR\n2 1 86753 119371 35476 XOR\n2 1 35475 35476 35474 AND\n2 1 35474 119371 119372 XOR\n2 1 119403 119372 84706 XOR\n2 1 88802 119372 35478 XOR\n2 1 86754 119372 35479 XOR\n2 1 35478 35479 35477 AND\n2 1 35477 119372 119373 XOR\n2 1 119404 119373 84707 XOR\n2 1 88803 119373 35481 XOR\n2 1 86755 119373 35482 XOR\n2 1 35481 35482 35480 AND\n2 1 35480 119373 119374 XOR\n2 1 119405 119374 84708 XOR\n2 1 88804 119374 35484 XOR\n2 1 86756 119374 35485 XOR\n2 1 35484 35485 35483 AND\n2 1 35483 119374 119375 XOR\n2 1 119406 119375 84709 XOR\n2 1 88805 119375 35487 XOR\n2 1 86757 119375 35488 XOR\n2 1 35487 35488 35486 AND\n2 1 35486 119375 119376 XOR\n2 1 119407 119376 84710 XOR\n2 1 88806 119376 35490 XOR\n2 1 86758 119376 35491 XOR\n2 1 35490 35491 35489 AND\n2 1 35489 119376 119377 XOR\n2 1 119408 119377 84711 XOR\n2 1 88807 119377 35493 XOR\n2 1 86759 119377 35494 XOR\n2 1 35493 35494 35492 AND\n2 1 35492 119377 119378 XOR\n2 1 119409 119378 84712 XOR\n2 1 88808 119378 35496 XOR\n2 1 86760 119378 35497 XOR\n2 1 35496 35497 35495 AND\n2 1 35495 119378 119379 XOR\n2 1 119410 119379 84713 XOR\n2 1 88809 119379 35499 XOR\n2 1 86761 119379 35500 XOR\n2 1 35499 35500 35498 AND\n2 1 35498 119379 119380 XOR\n2 1 119411 119380 84714 XOR\n2 1 88810 119380 35502 XOR\n2 1 86762 119380 35503 XOR\n2 1 35502 35503 35501 AND\n2 1 35501 119380 119381 XOR\n2 1 119412 119381 84715 XOR\n2 1 88811 119381 35505 XOR\n2 1 86763 119381 35506 XOR\n2 1 35505 35506 35504 AND\n2 1 35504 119381 119382 XOR\n2 1 119413 119382 84716 XOR\n2 1 88812 119382 35508 XOR\n2 1 86764 119382 35509 XOR\n2 1 35508 35509 35507 AND\n2 1 35507 119382 119383 XOR\n2 1 119414 119383 84717 XOR\n2 1 88813 119383 35511 XOR\n",
"2 1 86765 119383 35512 XOR\n2 1 35511 35512 35510 AND\n2 1 35510 119383 119384 XOR\n2 1 119415 119384 84718 XOR\n2 1 88814 119384 35514 XOR\n2 1 86766 119384 35515 XOR\n2 1 35514 35515 35513 AND\n2 1 35513 119384 119385 XOR\n2 1 119416 119385 84719 XOR\n2 1 88815 119385 35517 XOR\n2 1 86767 119385 35518 XOR\n2 1 35517 35518 35516 AND\n2 1 35516 119385 119386 XOR\n2 1 119417 119386 84720 XOR\n2 1 65198 3327 65166 AND\n2 1 65197 3326 65165 AND\n2 1 65196 3325 65164 AND\n2 1 65195 3324 65163 AND\n2 1 65194 3323 65162 AND\n2 1 65193 3322 65161 AND\n2 1 65192 3321 65160 AND\n2 1 65191 3320 65159 AND\n2 1 65189 3318 65157 AND\n2 1 65188 3317 65156 AND\n2 1 65187 3316 65155 AND\n2 1 65186 3315 65154 AND\n2 1 65185 3314 65153 AND\n2 1 65183 3312 65151 AND\n2 1 65182 3311 65150 AND\n2 1 65181 3310 65149 AND\n2 1 65180 3309 65148 AND\n2 1 65179 3308 65147 AND\n2 1 65178 3307 65146 AND\n2 1 65177 3306 65145 AND\n2 1 65176 3305 65144 AND\n2 1 65175 3304 65143 AND\n2 1 65174 3303 65142 AND\n2 1 65173 3302 65141 AND\n2 1 65172 3301 65140 AND\n2 1 65171 3300 65139 AND\n2 1 65170 3299 65138 AND\n2 1 65169 3298 65137 AND\n2 1 65168 3297 65136 AND\n2 1 65167 3296 65135 AND\n2 1 65166 3391 98997 XOR\n2 1 65165 3390 98996 XOR\n2 1 65164 3389 98995 XOR\n2 1 65163 3388 98994 XOR\n2 1 65162 3387 98993 XOR\n2 1 65161 3386 98992 XOR\n2 1 65160 3385 98991 XOR\n2 1 65159 3384 98990 XOR\n2 1 65157 3382 98988 XOR\n2 1 65156 3381 98987 XOR\n2 1 65155 3380 98986 XOR\n2 1 65154 3379 98985 XOR\n2 1 65153 3378 98984 XOR\n2 1 65151 3376 98982 XOR\n2 1 65150 3375 98981 XOR\n2 1 65149 3374 98980 XOR\n2 1 65148 3373 98979 XOR\n2 1 65147 3372 98978 XOR\n2 1 65146 3371 98977 XOR\n2 1 65145 3370 98976 XOR\n2 1 65144 3369 98975 XOR\n2 1 65143 3368 98974 XOR\n2 1 65142 3367 98973 XOR\n2 1 65141 3366 98972 XOR\n2 1 65140 3365 98971 XOR\n2 1 65139 3364 98970 XOR\n2 1 65138 3363 98969 XOR\n2 1 65137 3362 98968 XOR\n2 1 65136 3361 98967 XOR\n2 1 65135 3360 98966 XOR\n2 1 3327 3359 65134 XOR\n2 1 3326 3358 65133 XOR\n2 1 3325 3357 65132 XOR\n2 1 3324 3356 65131 XOR\n2 1 3323 3355 65130 XOR\n2 1 3322 3354 65129 XOR\n2 1 3321 3353 65128 XOR\n2 1 3320 3352 65127 XOR\n2 1 3318 3350 65125 XOR\n2 1 3317 3349 65124 XOR\n2 1 3316 3348 65123 XOR\n2 1 3315 3347 65122 XOR\n2 1 3314 3346 65121 XOR\n2 1 3312 3344 65119 XOR\n2 1 3311 3343 65118 XOR\n2 1 3310 3342 65117 XOR\n2 1 3309 3341 65116 XOR\n2 1 3308 3340 65115 XOR\n2 1 3307 3339 65114 XOR\n2 1 3306 3338 65113 XOR\n2 1 3305 3337 65112 XOR\n2 1 3304 3336 65111 XOR\n2 1 3303 3335 65110 XOR\n2 1 3302 3334 65109 XOR\n2 1 3301 3333 65108 XOR\n2 1 3300 3332 65107 XOR\n2 1 3299 3331 65106 XOR\n2 1 3298 3330 65105 XOR\n2 1 3297 3329 65104 XOR\n2 1 3296 3328 65103 XOR\n2 1 107047 107016 3319 XOR\n2 1 65190 3319 65158 AND\n2 1 65158 3383 98989 XOR\n2 1 3319 3351 65126 XOR\n2 1 107041 107010 3313 XOR\n2 1 65184 3313 65152 AND\n2 1 65152 3377 98983 XOR\n2 1 3313 3345 65120 XOR\n2 1 3301 3306 61998 XOR\n2 1 3300 3305 61997 XOR\n2 1 3299 3304 61996 XOR\n2 1 3298 3303 61995 XOR\n2 1 3297 3302 61994 XOR\n2 1 3296 3301 61993 XOR\n2 1 3327 3300 61992 XOR\n2 1 3326 3299 61991 XOR\n2 1 3325 3298 61990 XOR\n2 1 3324 3297 61989 XOR\n2 1 3323 3296 61988 XOR\n2 1 3322 3327 61987 XOR\n2 1 3321 3326 61986 XOR\n2 1 3320 3325 61985 XOR\n2 1 3319 3324 61984 XOR\n2 1 3318 3323 61983 XOR\n",
"2 1 3317 3322 61982 XOR\n2 1 3316 3321 61981 XOR\n2 1 3315 3320 61980 XOR\n2 1 3314 3319 61979 XOR\n2 1 3313 3318 61978 XOR\n2 1 3312 3317 61977 XOR\n2 1 3311 3316 61976 XOR\n2 1 3310 3315 61975 XOR\n2 1 3309 3314 61974 XOR\n2 1 3308 3313 61973 XOR\n2 1 3307 3312 61972 XOR\n2 1 3306 3311 61971 XOR\n2 1 3305 3310 61970 XOR\n2 1 3304 3309 61969 XOR\n2 1 3303 3308 61968 XOR\n2 1 3302 3307 61967 XOR\n2 1 61998 3320 101045 XOR\n2 1 101045 98997 119603 XOR\n2 1 61997 3319 101044 XOR\n2 1 101044 98996 119602 XOR\n2 1 61996 3318 101043 XOR\n2 1 101043 98995 119601 XOR\n2 1 61995 3317 101042 XOR\n2 1 101042 98994 119600 XOR\n2 1 61994 3316 101041 XOR\n2 1 101041 98993 119599 XOR\n2 1 61993 3315 101040 XOR\n2 1 101040 98992 119598 XOR\n2 1 61992 3314 101039 XOR\n2 1 101039 98991 119597 XOR\n2 1 61991 3313 101038 XOR\n2 1 101038 98990 119596 XOR\n2 1 61990 3312 101037 XOR\n2 1 101037 98989 119595 XOR\n2 1 61989 3311 101036 XOR\n2 1 101036 98988 119594 XOR\n2 1 61988 3310 101035 XOR\n2 1 101035 98987 119593 XOR\n2 1 61987 3309 101034 XOR\n2 1 101034 98986 119592 XOR\n2 1 61986 3308 101033 XOR\n2 1 101033 98985 119591 XOR\n2 1 61985 3307 101032 XOR\n2 1 101032 98984 119590 XOR\n2 1 61984 3306 101031 XOR\n2 1 101031 98983 119589 XOR\n2 1 61983 3305 101030 XOR\n2 1 101030 98982 119588 XOR\n2 1 61982 3304 101029 XOR\n2 1 101029 98981 119587 XOR\n2 1 61981 3303 101028 XOR\n2 1 101028 98980 119586 XOR\n2 1 61980 3302 101027 XOR\n2 1 101027 98979 119585 XOR\n2 1 61979 3301 101026 XOR\n2 1 101026 98978 119584 XOR\n2 1 61978 3300 101025 XOR\n2 1 101025 98977 119583 XOR\n2 1 61977 3299 101024 XOR\n2 1 101024 98976 119582 XOR\n2 1 61976 3298 101023 XOR\n2 1 101023 98975 119581 XOR\n2 1 61975 3297 101022 XOR\n2 1 101022 98974 119580 XOR\n2 1 61974 3296 101021 XOR\n2 1 101021 98973 119579 XOR\n2 1 61973 3327 101020 XOR\n2 1 101020 98972 119578 XOR\n2 1 61972 3326 101019 XOR\n2 1 101019 98971 119577 XOR\n2 1 61971 3325 101018 XOR\n2 1 101018 98970 119576 XOR\n2 1 61970 3324 101017 XOR\n2 1 101017 98969 119575 XOR\n2 1 61969 3323 101016 XOR\n2 1 101016 98968 119574 XOR\n2 1 61968 3322 101015 XOR\n2 1 101015 98967 119573 XOR\n2 1 61967 3321 101014 XOR\n2 1 101014 98966 119542 AND\n2 1 101014 98966 96918 XOR\n2 1 119573 119542 96919 XOR\n2 1 101015 119542 35823 XOR\n2 1 98967 119542 35824 XOR\n2 1 35823 35824 35822 AND\n2 1 35822 119542 119543 XOR\n2 1 119574 119543 96920 XOR\n2 1 101016 119543 35826 XOR\n2 1 98968 119543 35827 XOR\n2 1 35826 35827 35825 AND\n2 1 35825 119543 119544 XOR\n2 1 119575 119544 96921 XOR\n2 1 101017 119544 35829 XOR\n2 1 98969 119544 35830 XOR\n2 1 35829 35830 35828 AND\n2 1 35828 119544 119545 XOR\n2 1 119576 119545 96922 XOR\n2 1 101018 119545 35832 XOR\n2 1 98970 119545 35833 XOR\n2 1 35832 35833 35831 AND\n2 1 35831 119545 119546 XOR\n2 1 119577 119546 96923 XOR\n2 1 101019 119546 35835 XOR\n2 1 98971 119546 35836 XOR\n2 1 35835 35836 35834 AND\n2 1 35834 119546 119547 XOR\n2 1 119578 119547 96924 XOR\n2 1 101020 119547 35838 XOR\n2 1 98972 119547 35839 XOR\n2 1 35838 35839 35837 AND\n2 1 35837 119547 119548 XOR\n2 1 119579 119548 96925 XOR\n2 1 101021 119548 35841 XOR\n2 1 98973 119548 35842 XOR\n2 1 35841 35842 35840 AND\n2 1 35840 119548 119549 XOR\n2 1 119580 119549 96926 XOR\n2 1 101022 119549 35844 XOR\n2 1 98974 119549 35845 XOR\n2 1 35844 35845 35843 AND\n2 1 35843 119549 119550 XOR\n2 1 119581 119550 96927 XOR\n2 1 101023 119550 35847 XOR\n2 1 98975 119550 35848 XOR\n2 1 35847 35848 35846 AND\n2 1 35846 119550 119551 XOR\n2 1 119582 119551 96928 XOR\n2 1 101024 119551 35850 XOR\n",
"2 1 98976 119551 35851 XOR\n2 1 35850 35851 35849 AND\n2 1 35849 119551 119552 XOR\n2 1 119583 119552 96929 XOR\n2 1 101025 119552 35853 XOR\n2 1 98977 119552 35854 XOR\n2 1 35853 35854 35852 AND\n2 1 35852 119552 119553 XOR\n2 1 119584 119553 96930 XOR\n2 1 101026 119553 35856 XOR\n2 1 98978 119553 35857 XOR\n2 1 35856 35857 35855 AND\n2 1 35855 119553 119554 XOR\n2 1 119585 119554 96931 XOR\n2 1 101027 119554 35859 XOR\n2 1 98979 119554 35860 XOR\n2 1 35859 35860 35858 AND\n2 1 35858 119554 119555 XOR\n2 1 119586 119555 96932 XOR\n2 1 101028 119555 35862 XOR\n2 1 98980 119555 35863 XOR\n2 1 35862 35863 35861 AND\n2 1 35861 119555 119556 XOR\n2 1 119587 119556 96933 XOR\n2 1 101029 119556 35865 XOR\n2 1 98981 119556 35866 XOR\n2 1 35865 35866 35864 AND\n2 1 35864 119556 119557 XOR\n2 1 119588 119557 96934 XOR\n2 1 101030 119557 35868 XOR\n2 1 98982 119557 35869 XOR\n2 1 35868 35869 35867 AND\n2 1 35867 119557 119558 XOR\n2 1 119589 119558 96935 XOR\n2 1 101031 119558 35871 XOR\n2 1 98983 119558 35872 XOR\n2 1 35871 35872 35870 AND\n2 1 35870 119558 119559 XOR\n2 1 119590 119559 96936 XOR\n2 1 101032 119559 35874 XOR\n2 1 98984 119559 35875 XOR\n2 1 35874 35875 35873 AND\n2 1 35873 119559 119560 XOR\n2 1 119591 119560 96937 XOR\n2 1 101033 119560 35877 XOR\n2 1 98985 119560 35878 XOR\n2 1 35877 35878 35876 AND\n2 1 35876 119560 119561 XOR\n2 1 119592 119561 96938 XOR\n2 1 101034 119561 35880 XOR\n2 1 98986 119561 35881 XOR\n2 1 35880 35881 35879 AND\n2 1 35879 119561 119562 XOR\n2 1 119593 119562 96939 XOR\n2 1 101035 119562 35883 XOR\n2 1 98987 119562 35884 XOR\n2 1 35883 35884 35882 AND\n2 1 35882 119562 119563 XOR\n2 1 119594 119563 96940 XOR\n2 1 101036 119563 35886 XOR\n2 1 98988 119563 35887 XOR\n2 1 35886 35887 35885 AND\n2 1 35885 119563 119564 XOR\n2 1 119595 119564 96941 XOR\n2 1 101037 119564 35889 XOR\n2 1 98989 119564 35890 XOR\n2 1 35889 35890 35888 AND\n2 1 35888 119564 119565 XOR\n2 1 119596 119565 96942 XOR\n2 1 101038 119565 35892 XOR\n2 1 98990 119565 35893 XOR\n2 1 35892 35893 35891 AND\n2 1 35891 119565 119566 XOR\n2 1 119597 119566 96943 XOR\n2 1 101039 119566 35895 XOR\n2 1 98991 119566 35896 XOR\n2 1 35895 35896 35894 AND\n2 1 35894 119566 119567 XOR\n2 1 119598 119567 96944 XOR\n2 1 101040 119567 35898 XOR\n2 1 98992 119567 35899 XOR\n2 1 35898 35899 35897 AND\n2 1 35897 119567 119568 XOR\n2 1 119599 119568 96945 XOR\n2 1 101041 119568 35901 XOR\n2 1 98993 119568 35902 XOR\n2 1 35901 35902 35900 AND\n2 1 35900 119568 119569 XOR\n2 1 119600 119569 96946 XOR\n2 1 101042 119569 35904 XOR\n2 1 98994 119569 35905 XOR\n2 1 35904 35905 35903 AND\n2 1 35903 119569 119570 XOR\n2 1 119601 119570 96947 XOR\n2 1 101043 119570 35907 XOR\n2 1 98995 119570 35908 XOR\n2 1 35907 35908 35906 AND\n2 1 35906 119570 119571 XOR\n2 1 119602 119571 96948 XOR\n2 1 101044 119571 35910 XOR\n2 1 98996 119571 35911 XOR\n2 1 35910 35911 35909 AND\n2 1 35909 119571 119572 XOR\n2 1 119603 119572 96949 XOR\n2 1 76833 76835 81648 XOR\n2 1 81648 77008 133290 XOR\n2 1 76832 76834 81647 XOR\n2 1 81647 77007 133289 XOR\n2 1 76831 76833 81646 XOR\n2 1 81646 77006 133288 XOR\n2 1 76830 76832 81645 XOR\n2 1 81645 77005 133287 XOR\n2 1 76829 76831 81644 XOR\n2 1 81644 77004 133286 XOR\n2 1 76828 76830 81643 XOR\n2 1 81643 77003 133285 XOR\n2 1 76827 76829 81642 XOR\n2 1 81642 77002 133284 XOR\n2 1 76826 76828 81641 XOR\n2 1 81641 77001 133283 XOR\n2 1 76825 76827 81640 XOR\n2 1 81640 77000 133282 XOR\n2 1 76824 76826 81639 XOR\n2 1 81639 76999 133281 XOR\n2 1 76823 76825 6925 XOR\n2 1 76822 76824 6924 XOR\n2 1 76821 76823 6923 XOR\n2 1 76820 76822 6922 XOR\n",
"2 1 76819 76821 6921 XOR\n2 1 76818 76820 6920 XOR\n2 1 76817 76819 6919 XOR\n2 1 76848 76818 6918 XOR\n2 1 76847 76817 6917 XOR\n2 1 76846 76848 6916 XOR\n2 1 76845 76847 6915 XOR\n2 1 76844 76846 6914 XOR\n2 1 76843 76845 6913 XOR\n2 1 76842 76844 6912 XOR\n2 1 76841 76843 6911 XOR\n2 1 76840 76842 6910 XOR\n2 1 76839 76841 6909 XOR\n2 1 76838 76840 6908 XOR\n2 1 76837 76839 6907 XOR\n2 1 76836 76838 6906 XOR\n2 1 76835 76837 6905 XOR\n2 1 76834 76836 6904 XOR\n2 1 6925 76848 81638 XOR\n2 1 81638 76998 133280 XOR\n2 1 6924 76847 81637 XOR\n2 1 81637 76997 133279 XOR\n2 1 6923 76846 81636 XOR\n2 1 81636 76996 133278 XOR\n2 1 6922 76845 81635 XOR\n2 1 81635 76995 133277 XOR\n2 1 6921 76844 81634 XOR\n2 1 81634 76994 133276 XOR\n2 1 6920 76843 81633 XOR\n2 1 81633 76993 133275 XOR\n2 1 6919 76842 81632 XOR\n2 1 81632 76992 133274 XOR\n2 1 6918 76841 81631 XOR\n2 1 81631 76991 133273 XOR\n2 1 6917 76840 81630 XOR\n2 1 81630 76990 133272 XOR\n2 1 6916 76839 81629 XOR\n2 1 81629 76989 133271 XOR\n2 1 6915 76838 81628 XOR\n2 1 81628 76988 133270 XOR\n2 1 6914 76837 81627 XOR\n2 1 81627 76987 133269 XOR\n2 1 6913 76836 81626 XOR\n2 1 81626 76986 133268 XOR\n2 1 6912 76835 81625 XOR\n2 1 81625 76985 133267 XOR\n2 1 6911 76834 81624 XOR\n2 1 81624 76984 133266 XOR\n2 1 6910 76833 81623 XOR\n2 1 81623 76983 133265 XOR\n2 1 6909 76832 81622 XOR\n2 1 81622 76982 133264 XOR\n2 1 6908 76831 81621 XOR\n2 1 81621 76981 133263 XOR\n2 1 6907 76830 81620 XOR\n2 1 81620 76980 133262 XOR\n2 1 6906 76829 81619 XOR\n2 1 81619 76979 133261 XOR\n2 1 6905 76828 81618 XOR\n2 1 81618 76978 133260 XOR\n2 1 6904 76827 81617 XOR\n2 1 81617 76977 133229 AND\n2 1 81617 76977 80081 XOR\n2 1 80081 78545 133105 AND\n2 1 80081 78545 76753 XOR\n2 1 76753 3392 119480 AND\n2 1 76753 3392 94870 XOR\n2 1 96918 94870 119418 AND\n2 1 96918 94870 92845 XOR\n1 1 92845 90833 INV\n2 1 96919 119418 35643 XOR\n2 1 3393 119480 35734 XOR\n2 1 90833 84689 106932 AND\n2 1 84690 106932 14348 XOR\n2 1 2880 90833 106870 AND\n2 1 2880 90833 3264 XOR\n2 1 2881 106870 14257 XOR\n2 1 78546 133105 57667 XOR\n2 1 133260 133229 80082 XOR\n2 1 80082 78546 133136 XOR\n2 1 133136 133105 76754 XOR\n2 1 76754 3393 119511 XOR\n2 1 119511 119480 94871 XOR\n2 1 96919 94871 119449 XOR\n2 1 119449 119418 92846 XOR\n1 1 92846 35620 INV\n2 1 35620 92845 90834 XOR\n2 1 92846 92845 35520 XOR\n2 1 35520 90833 35519 AND\n2 1 35519 92845 35599 XOR\n1 1 35599 35523 INV\n2 1 94871 119418 35644 XOR\n2 1 35643 35644 35642 AND\n2 1 35642 119418 119419 XOR\n2 1 96920 119419 35646 XOR\n2 1 76754 119480 35733 XOR\n2 1 35733 35734 35732 AND\n2 1 35732 119480 119481 XOR\n2 1 3394 119481 35737 XOR\n2 1 90834 106932 14347 XOR\n2 1 90834 84690 106963 XOR\n2 1 106963 106932 2753 XOR\n2 1 14347 14348 14346 AND\n2 1 14346 106932 106933 XOR\n2 1 84691 106933 14351 XOR\n2 1 2881 90834 106901 XOR\n2 1 106901 106870 3265 XOR\n2 1 90834 106870 14258 XOR\n2 1 14257 14258 14256 AND\n2 1 14256 106870 106871 XOR\n2 1 2882 106871 14260 XOR\n2 1 80082 133105 57666 XOR\n2 1 57666 57667 57665 AND\n2 1 57665 133105 133106 XOR\n2 1 78547 133106 57670 XOR\n2 1 81618 133229 57846 XOR\n2 1 76978 133229 57847 XOR\n2 1 57846 57847 57845 AND\n2 1 57845 133229 133230 XOR\n2 1 133261 133230 80083 XOR\n2 1 80083 78547 133137 XOR\n2 1 133137 133106 76755 XOR\n2 1 76755 3394 119512 XOR\n2 1 119512 119481 94872 XOR\n2 1 96920 94872 119450 XOR\n2 1 119450 119419 92847 XOR\n1 1 92847 35621 INV\n2 1 35621 35599 90835 XOR\n",
"2 1 92847 35599 35522 XOR\n2 1 35522 35523 35521 AND\n2 1 35521 35599 35525 XOR\n2 1 94872 119419 35647 XOR\n2 1 35646 35647 35645 AND\n2 1 35645 119419 119420 XOR\n2 1 96921 119420 35649 XOR\n2 1 76755 119481 35736 XOR\n2 1 35736 35737 35735 AND\n2 1 35735 119481 119482 XOR\n2 1 3395 119482 35740 XOR\n2 1 90835 106933 14350 XOR\n2 1 14350 14351 14349 AND\n2 1 14349 106933 106934 XOR\n2 1 90835 106871 14261 XOR\n2 1 84692 106934 14354 XOR\n2 1 14260 14261 14259 AND\n2 1 2882 90835 106902 XOR\n2 1 106902 106871 3266 XOR\n2 1 14259 106871 106872 XOR\n2 1 2883 106872 14263 XOR\n2 1 80083 133106 57669 XOR\n2 1 57669 57670 57668 AND\n2 1 57668 133106 133107 XOR\n2 1 78548 133107 57673 XOR\n2 1 81619 133230 57849 XOR\n2 1 76979 133230 57850 XOR\n2 1 57849 57850 57848 AND\n2 1 57848 133230 133231 XOR\n2 1 133262 133231 80084 XOR\n2 1 80084 78548 133138 XOR\n2 1 133138 133107 76756 XOR\n2 1 76756 3395 119513 XOR\n2 1 119513 119482 94873 XOR\n2 1 96921 94873 119451 XOR\n2 1 119451 119420 92848 XOR\n2 1 92848 35525 90836 XOR\n2 1 90836 35525 35524 AND\n2 1 35524 35525 35527 XOR\n2 1 94873 119420 35650 XOR\n2 1 35649 35650 35648 AND\n2 1 35648 119420 119421 XOR\n2 1 96922 119421 35652 XOR\n2 1 76756 119482 35739 XOR\n2 1 35739 35740 35738 AND\n2 1 35738 119482 119483 XOR\n2 1 3396 119483 35743 XOR\n2 1 90836 106872 14264 XOR\n2 1 90836 84692 106965 XOR\n2 1 106965 106934 2755 XOR\n2 1 90836 106934 14353 XOR\n2 1 14353 14354 14352 AND\n2 1 14352 106934 106935 XOR\n2 1 2883 90836 106903 XOR\n2 1 106903 106872 3267 XOR\n2 1 84693 106935 14357 XOR\n2 1 80084 133107 57672 XOR\n2 1 57672 57673 57671 AND\n2 1 57671 133107 133108 XOR\n2 1 78549 133108 57676 XOR\n2 1 81620 133231 57852 XOR\n2 1 76980 133231 57853 XOR\n2 1 57852 57853 57851 AND\n2 1 57851 133231 133232 XOR\n2 1 133263 133232 80085 XOR\n2 1 80085 78549 133139 XOR\n2 1 133139 133108 76757 XOR\n2 1 76757 3396 119514 XOR\n2 1 119514 119483 94874 XOR\n2 1 96922 94874 119452 XOR\n2 1 119452 119421 92849 XOR\n2 1 92849 35527 90837 XOR\n2 1 90837 35527 35526 AND\n2 1 35526 35527 35529 XOR\n2 1 94874 119421 35653 XOR\n2 1 35652 35653 35651 AND\n2 1 35651 119421 119422 XOR\n2 1 96923 119422 35655 XOR\n2 1 76757 119483 35742 XOR\n2 1 35742 35743 35741 AND\n2 1 35741 119483 119484 XOR\n2 1 3397 119484 35746 XOR\n2 1 90837 84693 106966 XOR\n2 1 2884 90837 106904 XOR\n2 1 106966 106935 2756 XOR\n2 1 90837 106935 14356 XOR\n2 1 14356 14357 14355 AND\n2 1 14355 106935 106936 XOR\n2 1 84694 106936 14360 XOR\n2 1 80085 133108 57675 XOR\n2 1 57675 57676 57674 AND\n2 1 57674 133108 133109 XOR\n2 1 78550 133109 57679 XOR\n2 1 81621 133232 57855 XOR\n2 1 76981 133232 57856 XOR\n2 1 57855 57856 57854 AND\n2 1 57854 133232 133233 XOR\n2 1 133264 133233 80086 XOR\n2 1 80086 78550 133140 XOR\n2 1 133140 133109 76758 XOR\n2 1 76758 3397 119515 XOR\n2 1 119515 119484 94875 XOR\n2 1 96923 94875 119453 XOR\n2 1 119453 119422 92850 XOR\n2 1 92850 35529 90838 XOR\n2 1 90838 35529 35528 AND\n2 1 35528 35529 35600 XOR\n1 1 35600 35532 INV\n2 1 94875 119422 35656 XOR\n2 1 35655 35656 35654 AND\n2 1 35654 119422 119423 XOR\n2 1 96924 119423 35658 XOR\n2 1 76758 119484 35745 XOR\n2 1 35745 35746 35744 AND\n2 1 35744 119484 119485 XOR\n2 1 3398 119485 35749 XOR\n2 1 90838 84694 106967 XOR\n2 1 2885 90838 106905 XOR\n2 1 106967 106936 2757 XOR\n2 1 90838 106936 14359 XOR\n2 1 14359 14360 14358 AND\n2 1 14358 106936 106937 XOR\n2 1 84695 106937 14363 XOR\n2 1 80086 133109 57678 XOR\n2 1 57678 57679 57677 AND\n2 1 57677 133109 133110 XOR\n2 1 78551 133110 57682 XOR\n2 1 81622 133233 57858 XOR\n",
"2 1 76982 133233 57859 XOR\n2 1 57858 57859 57857 AND\n2 1 57857 133233 133234 XOR\n2 1 133265 133234 80087 XOR\n2 1 80087 78551 133141 XOR\n2 1 133141 133110 76759 XOR\n2 1 76759 3398 119516 XOR\n2 1 119516 119485 94876 XOR\n2 1 96924 94876 119454 XOR\n2 1 119454 119423 92851 XOR\n1 1 92851 35622 INV\n2 1 35622 35600 90839 XOR\n2 1 92851 35600 35531 XOR\n2 1 35531 35532 35530 AND\n2 1 35530 35600 35601 XOR\n1 1 35601 35535 INV\n2 1 94876 119423 35659 XOR\n2 1 35658 35659 35657 AND\n2 1 35657 119423 119424 XOR\n2 1 96925 119424 35661 XOR\n2 1 76759 119485 35748 XOR\n2 1 35748 35749 35747 AND\n2 1 35747 119485 119486 XOR\n2 1 3399 119486 35752 XOR\n2 1 90839 106937 14362 XOR\n2 1 90839 84695 106968 XOR\n2 1 2886 90839 106906 XOR\n2 1 106968 106937 2758 XOR\n2 1 80087 133110 57681 XOR\n2 1 57681 57682 57680 AND\n2 1 57680 133110 133111 XOR\n2 1 78552 133111 57685 XOR\n2 1 81623 133234 57861 XOR\n2 1 76983 133234 57862 XOR\n2 1 57861 57862 57860 AND\n2 1 57860 133234 133235 XOR\n2 1 133266 133235 80088 XOR\n2 1 80088 78552 133142 XOR\n2 1 133142 133111 76760 XOR\n2 1 76760 3399 119517 XOR\n2 1 119517 119486 94877 XOR\n2 1 96925 94877 119455 XOR\n2 1 119455 119424 92852 XOR\n1 1 92852 35623 INV\n2 1 35623 35601 90840 XOR\n2 1 92852 35601 35534 XOR\n2 1 35534 35535 35533 AND\n2 1 35533 35601 35602 XOR\n1 1 35602 35538 INV\n2 1 94877 119424 35662 XOR\n2 1 35661 35662 35660 AND\n2 1 35660 119424 119425 XOR\n2 1 96926 119425 35664 XOR\n2 1 76760 119486 35751 XOR\n2 1 35751 35752 35750 AND\n2 1 35750 119486 119487 XOR\n2 1 3400 119487 35755 XOR\n2 1 90840 84696 106969 XOR\n2 1 2887 90840 106907 XOR\n2 1 80088 133111 57684 XOR\n2 1 57684 57685 57683 AND\n2 1 57683 133111 133112 XOR\n2 1 78553 133112 57688 XOR\n2 1 81624 133235 57864 XOR\n2 1 76984 133235 57865 XOR\n2 1 57864 57865 57863 AND\n2 1 57863 133235 133236 XOR\n2 1 133267 133236 80089 XOR\n2 1 80089 78553 133143 XOR\n2 1 133143 133112 76761 XOR\n2 1 76761 3400 119518 XOR\n2 1 119518 119487 94878 XOR\n2 1 96926 94878 119456 XOR\n2 1 119456 119425 92853 XOR\n1 1 92853 35624 INV\n2 1 35624 35602 90841 XOR\n2 1 92853 35602 35537 XOR\n2 1 35537 35538 35536 AND\n2 1 35536 35602 35603 XOR\n1 1 35603 35541 INV\n2 1 94878 119425 35665 XOR\n2 1 35664 35665 35663 AND\n2 1 35663 119425 119426 XOR\n2 1 96927 119426 35667 XOR\n2 1 76761 119487 35754 XOR\n2 1 35754 35755 35753 AND\n2 1 35753 119487 119488 XOR\n2 1 3401 119488 35758 XOR\n2 1 90841 84697 106970 XOR\n2 1 80089 133112 57687 XOR\n2 1 57687 57688 57686 AND\n2 1 57686 133112 133113 XOR\n2 1 78554 133113 57691 XOR\n2 1 81625 133236 57867 XOR\n2 1 76985 133236 57868 XOR\n2 1 57867 57868 57866 AND\n2 1 57866 133236 133237 XOR\n2 1 133268 133237 80090 XOR\n2 1 80090 78554 133144 XOR\n2 1 133144 133113 76762 XOR\n2 1 76762 3401 119519 XOR\n2 1 119519 119488 94879 XOR\n2 1 96927 94879 119457 XOR\n2 1 119457 119426 92854 XOR\n1 1 92854 35625 INV\n2 1 35625 35603 90842 XOR\n2 1 92854 35603 35540 XOR\n2 1 35540 35541 35539 AND\n2 1 35539 35603 35604 XOR\n1 1 35604 35544 INV\n2 1 94879 119426 35668 XOR\n2 1 35667 35668 35666 AND\n2 1 35666 119426 119427 XOR\n2 1 96928 119427 35670 XOR\n2 1 76762 119488 35757 XOR\n2 1 35757 35758 35756 AND\n2 1 35756 119488 119489 XOR\n2 1 3402 119489 35761 XOR\n2 1 90842 84698 106971 XOR\n2 1 80090 133113 57690 XOR\n2 1 57690 57691 57689 AND\n2 1 57689 133113 133114 XOR\n2 1 78555 133114 57694 XOR\n2 1 81626 133237 57870 XOR\n2 1 76986 133237 57871 XOR\n2 1 57870 57871 57869 AND\n2 1 57869 133237 133238 XOR\n2 1 133269 133238 80091 XOR\n",
"2 1 80091 78555 133145 XOR\n2 1 133145 133114 76763 XOR\n2 1 76763 3402 119520 XOR\n2 1 119520 119489 94880 XOR\n2 1 96928 94880 119458 XOR\n2 1 119458 119427 92855 XOR\n1 1 92855 35626 INV\n2 1 35626 35604 90843 XOR\n2 1 92855 35604 35543 XOR\n2 1 35543 35544 35542 AND\n2 1 35542 35604 35605 XOR\n1 1 35605 35547 INV\n2 1 94880 119427 35671 XOR\n2 1 35670 35671 35669 AND\n2 1 35669 119427 119428 XOR\n2 1 96929 119428 35673 XOR\n2 1 76763 119489 35760 XOR\n2 1 35760 35761 35759 AND\n2 1 35759 119489 119490 XOR\n2 1 3403 119490 35764 XOR\n2 1 2890 90843 106910 XOR\n2 1 90843 84699 106972 XOR\n2 1 80091 133114 57693 XOR\n2 1 57693 57694 57692 AND\n2 1 57692 133114 133115 XOR\n2 1 78556 133115 57697 XOR\n2 1 81627 133238 57873 XOR\n2 1 76987 133238 57874 XOR\n2 1 57873 57874 57872 AND\n2 1 57872 133238 133239 XOR\n2 1 133270 133239 80092 XOR\n2 1 80092 78556 133146 XOR\n2 1 133146 133115 76764 XOR\n2 1 76764 3403 119521 XOR\n2 1 119521 119490 94881 XOR\n2 1 96929 94881 119459 XOR\n2 1 119459 119428 92856 XOR\n1 1 92856 35627 INV\n2 1 35627 35605 90844 XOR\n2 1 92856 35605 35546 XOR\n2 1 35546 35547 35545 AND\n2 1 35545 35605 35606 XOR\n1 1 35606 35550 INV\n2 1 94881 119428 35674 XOR\n2 1 35673 35674 35672 AND\n2 1 35672 119428 119429 XOR\n2 1 96930 119429 35676 XOR\n2 1 76764 119490 35763 XOR\n2 1 35763 35764 35762 AND\n2 1 35762 119490 119491 XOR\n2 1 3404 119491 35767 XOR\n2 1 2891 90844 106911 XOR\n2 1 90844 84700 106973 XOR\n2 1 80092 133115 57696 XOR\n2 1 57696 57697 57695 AND\n2 1 57695 133115 133116 XOR\n2 1 78557 133116 57700 XOR\n2 1 81628 133239 57876 XOR\n2 1 76988 133239 57877 XOR\n2 1 57876 57877 57875 AND\n2 1 57875 133239 133240 XOR\n2 1 133271 133240 80093 XOR\n2 1 80093 78557 133147 XOR\n2 1 133147 133116 76765 XOR\n2 1 76765 3404 119522 XOR\n2 1 119522 119491 94882 XOR\n2 1 96930 94882 119460 XOR\n2 1 119460 119429 92857 XOR\n1 1 92857 35628 INV\n2 1 35628 35606 90845 XOR\n2 1 92857 35606 35549 XOR\n2 1 35549 35550 35548 AND\n2 1 35548 35606 35607 XOR\n1 1 35607 35553 INV\n2 1 94882 119429 35677 XOR\n2 1 35676 35677 35675 AND\n2 1 35675 119429 119430 XOR\n2 1 96931 119430 35679 XOR\n2 1 76765 119491 35766 XOR\n2 1 35766 35767 35765 AND\n2 1 35765 119491 119492 XOR\n2 1 3405 119492 35770 XOR\n2 1 90845 84701 106974 XOR\n2 1 80093 133116 57699 XOR\n2 1 57699 57700 57698 AND\n2 1 57698 133116 133117 XOR\n2 1 78558 133117 57703 XOR\n2 1 81629 133240 57879 XOR\n2 1 76989 133240 57880 XOR\n2 1 57879 57880 57878 AND\n2 1 57878 133240 133241 XOR\n2 1 133272 133241 80094 XOR\n2 1 80094 78558 133148 XOR\n2 1 133148 133117 76766 XOR\n2 1 76766 3405 119523 XOR\n2 1 119523 119492 94883 XOR\n2 1 96931 94883 119461 XOR\n2 1 119461 119430 92858 XOR\n1 1 92858 35629 INV\n2 1 35629 35607 90846 XOR\n2 1 92858 35607 35552 XOR\n2 1 35552 35553 35551 AND\n2 1 35551 35607 35608 XOR\n1 1 35608 35556 INV\n2 1 94883 119430 35680 XOR\n2 1 35679 35680 35678 AND\n2 1 35678 119430 119431 XOR\n2 1 96932 119431 35682 XOR\n2 1 76766 119492 35769 XOR\n2 1 35769 35770 35768 AND\n2 1 35768 119492 119493 XOR\n2 1 3406 119493 35773 XOR\n2 1 2893 90846 106913 XOR\n2 1 90846 84702 106975 XOR\n2 1 80094 133117 57702 XOR\n2 1 57702 57703 57701 AND\n2 1 57701 133117 133118 XOR\n2 1 78559 133118 57706 XOR\n2 1 81630 133241 57882 XOR\n2 1 76990 133241 57883 XOR\n2 1 57882 57883 57881 AND\n2 1 57881 133241 133242 XOR\n2 1 133273 133242 80095 XOR\n2 1 80095 78559 133149 XOR\n2 1 133149 133118 76767 XOR\n2 1 76767 3406 119524 XOR\n2 1 119524 119493 94884 XOR\n2 1 96932 94884 119462 XOR\n",
"2 1 119462 119431 92859 XOR\n1 1 92859 35630 INV\n2 1 35630 35608 90847 XOR\n2 1 92859 35608 35555 XOR\n2 1 35555 35556 35554 AND\n2 1 35554 35608 35558 XOR\n2 1 94884 119431 35683 XOR\n2 1 35682 35683 35681 AND\n2 1 35681 119431 119432 XOR\n2 1 96933 119432 35685 XOR\n2 1 76767 119493 35772 XOR\n2 1 35772 35773 35771 AND\n2 1 35771 119493 119494 XOR\n2 1 3407 119494 35776 XOR\n2 1 2894 90847 106914 XOR\n2 1 90847 84703 106976 XOR\n2 1 80095 133118 57705 XOR\n2 1 57705 57706 57704 AND\n2 1 57704 133118 133119 XOR\n2 1 78560 133119 57709 XOR\n2 1 81631 133242 57885 XOR\n2 1 76991 133242 57886 XOR\n2 1 57885 57886 57884 AND\n2 1 57884 133242 133243 XOR\n2 1 133274 133243 80096 XOR\n2 1 80096 78560 133150 XOR\n2 1 133150 133119 76768 XOR\n2 1 76768 3407 119525 XOR\n2 1 119525 119494 94885 XOR\n2 1 96933 94885 119463 XOR\n2 1 119463 119432 92860 XOR\n2 1 92860 35558 90848 XOR\n2 1 90848 35558 35557 AND\n2 1 35557 35558 35609 XOR\n1 1 35609 35561 INV\n2 1 94885 119432 35686 XOR\n2 1 35685 35686 35684 AND\n2 1 35684 119432 119433 XOR\n2 1 96934 119433 35688 XOR\n2 1 76768 119494 35775 XOR\n2 1 35775 35776 35774 AND\n2 1 35774 119494 119495 XOR\n2 1 3408 119495 35779 XOR\n2 1 2895 90848 106915 XOR\n2 1 90848 84704 106977 XOR\n2 1 80096 133119 57708 XOR\n2 1 57708 57709 57707 AND\n2 1 57707 133119 133120 XOR\n2 1 78561 133120 57712 XOR\n2 1 81632 133243 57888 XOR\n2 1 76992 133243 57889 XOR\n2 1 57888 57889 57887 AND\n2 1 57887 133243 133244 XOR\n2 1 133275 133244 80097 XOR\n2 1 80097 78561 133151 XOR\n2 1 133151 133120 76769 XOR\n2 1 76769 3408 119526 XOR\n2 1 119526 119495 94886 XOR\n2 1 96934 94886 119464 XOR\n2 1 119464 119433 92861 XOR\n1 1 92861 35631 INV\n2 1 35631 35609 90849 XOR\n2 1 92861 35609 35560 XOR\n2 1 35560 35561 35559 AND\n2 1 35559 35609 35563 XOR\n2 1 94886 119433 35689 XOR\n2 1 35688 35689 35687 AND\n2 1 35687 119433 119434 XOR\n2 1 96935 119434 35691 XOR\n2 1 76769 119495 35778 XOR\n2 1 35778 35779 35777 AND\n2 1 35777 119495 119496 XOR\n2 1 3409 119496 35782 XOR\n2 1 90849 84705 106978 XOR\n2 1 80097 133120 57711 XOR\n2 1 57711 57712 57710 AND\n2 1 57710 133120 133121 XOR\n2 1 78562 133121 57715 XOR\n2 1 81633 133244 57891 XOR\n2 1 76993 133244 57892 XOR\n2 1 57891 57892 57890 AND\n2 1 57890 133244 133245 XOR\n2 1 133276 133245 80098 XOR\n2 1 80098 78562 133152 XOR\n2 1 133152 133121 76770 XOR\n2 1 76770 3409 119527 XOR\n2 1 119527 119496 94887 XOR\n2 1 96935 94887 119465 XOR\n2 1 119465 119434 92862 XOR\n2 1 92862 35563 90850 XOR\n2 1 90850 35563 35562 AND\n2 1 35562 35563 35565 XOR\n2 1 94887 119434 35692 XOR\n2 1 35691 35692 35690 AND\n2 1 35690 119434 119435 XOR\n2 1 96936 119435 35694 XOR\n2 1 76770 119496 35781 XOR\n2 1 35781 35782 35780 AND\n2 1 35780 119496 119497 XOR\n2 1 3410 119497 35785 XOR\n2 1 2897 90850 106917 XOR\n2 1 90850 84706 106979 XOR\n2 1 80098 133121 57714 XOR\n2 1 57714 57715 57713 AND\n2 1 57713 133121 133122 XOR\n2 1 78563 133122 57718 XOR\n2 1 81634 133245 57894 XOR\n2 1 76994 133245 57895 XOR\n2 1 57894 57895 57893 AND\n2 1 57893 133245 133246 XOR\n2 1 133277 133246 80099 XOR\n2 1 80099 78563 133153 XOR\n2 1 133153 133122 76771 XOR\n2 1 76771 3410 119528 XOR\n2 1 119528 119497 94888 XOR\n2 1 96936 94888 119466 XOR\n2 1 119466 119435 92863 XOR\n2 1 92863 35565 90851 XOR\n2 1 90851 35565 35564 AND\n2 1 35564 35565 35610 XOR\n1 1 35610 35568 INV\n2 1 94888 119435 35695 XOR\n2 1 35694 35695 35693 AND\n2 1 35693 119435 119436 XOR\n2 1 96937 119436 35697 XOR\n2 1 76771 119497 35784 XOR\n2 1 35784 35785 35783 AND\n2 1 35783 119497 119498 XOR\n",
"2 1 3411 119498 35788 XOR\n2 1 90851 84707 106980 XOR\n2 1 80099 133122 57717 XOR\n2 1 57717 57718 57716 AND\n2 1 57716 133122 133123 XOR\n2 1 78564 133123 57721 XOR\n2 1 81635 133246 57897 XOR\n2 1 76995 133246 57898 XOR\n2 1 57897 57898 57896 AND\n2 1 57896 133246 133247 XOR\n2 1 133278 133247 80100 XOR\n2 1 80100 78564 133154 XOR\n2 1 133154 133123 76772 XOR\n2 1 76772 3411 119529 XOR\n2 1 119529 119498 94889 XOR\n2 1 96937 94889 119467 XOR\n2 1 119467 119436 92864 XOR\n1 1 92864 35632 INV\n2 1 35632 35610 90852 XOR\n2 1 92864 35610 35567 XOR\n2 1 35567 35568 35566 AND\n2 1 35566 35610 35611 XOR\n1 1 35611 35571 INV\n2 1 94889 119436 35698 XOR\n2 1 35697 35698 35696 AND\n2 1 35696 119436 119437 XOR\n2 1 96938 119437 35700 XOR\n2 1 76772 119498 35787 XOR\n2 1 35787 35788 35786 AND\n2 1 35786 119498 119499 XOR\n2 1 3412 119499 35791 XOR\n2 1 90852 84708 106981 XOR\n2 1 80100 133123 57720 XOR\n2 1 57720 57721 57719 AND\n2 1 57719 133123 133124 XOR\n2 1 78565 133124 57724 XOR\n2 1 81636 133247 57900 XOR\n2 1 76996 133247 57901 XOR\n2 1 57900 57901 57899 AND\n2 1 57899 133247 133248 XOR\n2 1 133279 133248 80101 XOR\n2 1 80101 78565 133155 XOR\n2 1 133155 133124 76773 XOR\n2 1 76773 3412 119530 XOR\n2 1 119530 119499 94890 XOR\n2 1 96938 94890 119468 XOR\n2 1 119468 119437 92865 XOR\n1 1 92865 35633 INV\n2 1 35633 35611 90853 XOR\n2 1 92865 35611 35570 XOR\n2 1 35570 35571 35569 AND\n2 1 35569 35611 35573 XOR\n2 1 94890 119437 35701 XOR\n2 1 35700 35701 35699 AND\n2 1 35699 119437 119438 XOR\n2 1 96939 119438 35703 XOR\n2 1 76773 119499 35790 XOR\n2 1 35790 35791 35789 AND\n2 1 35789 119499 119500 XOR\n2 1 3413 119500 35794 XOR\n2 1 2900 90853 106920 XOR\n2 1 90853 84709 106982 XOR\n2 1 80101 133124 57723 XOR\n2 1 57723 57724 57722 AND\n2 1 57722 133124 133125 XOR\n2 1 78566 133125 57727 XOR\n2 1 81637 133248 57903 XOR\n2 1 76997 133248 57904 XOR\n2 1 57903 57904 57902 AND\n2 1 57902 133248 133249 XOR\n2 1 133280 133249 80102 XOR\n2 1 80102 78566 133156 XOR\n2 1 133156 133125 76774 XOR\n2 1 76774 3413 119531 XOR\n2 1 119531 119500 94891 XOR\n2 1 96939 94891 119469 XOR\n2 1 119469 119438 92866 XOR\n2 1 92866 35573 90854 XOR\n2 1 90854 35573 35572 AND\n2 1 35572 35573 35612 XOR\n1 1 35612 35576 INV\n2 1 94891 119438 35704 XOR\n2 1 35703 35704 35702 AND\n2 1 35702 119438 119439 XOR\n2 1 96940 119439 35706 XOR\n2 1 76774 119500 35793 XOR\n2 1 35793 35794 35792 AND\n2 1 35792 119500 119501 XOR\n2 1 3414 119501 35797 XOR\n2 1 2901 90854 106921 XOR\n2 1 90854 84710 106983 XOR\n2 1 80102 133125 57726 XOR\n2 1 57726 57727 57725 AND\n2 1 57725 133125 133126 XOR\n2 1 78567 133126 57730 XOR\n2 1 81638 133249 57906 XOR\n2 1 76998 133249 57907 XOR\n2 1 57906 57907 57905 AND\n2 1 57905 133249 133250 XOR\n2 1 133281 133250 80103 XOR\n2 1 80103 78567 133157 XOR\n2 1 133157 133126 76775 XOR\n2 1 76775 3414 119532 XOR\n2 1 119532 119501 94892 XOR\n2 1 96940 94892 119470 XOR\n2 1 119470 119439 92867 XOR\n1 1 92867 35634 INV\n2 1 35634 35612 90855 XOR\n2 1 92867 35612 35575 XOR\n2 1 35575 35576 35574 AND\n2 1 35574 35612 35578 XOR\n2 1 94892 119439 35707 XOR\n2 1 35706 35707 35705 AND\n2 1 35705 119439 119440 XOR\n2 1 96941 119440 35709 XOR\n2 1 76775 119501 35796 XOR\n2 1 35796 35797 35795 AND\n2 1 35795 119501 119502 XOR\n2 1 3415 119502 35800 XOR\n2 1 2902 90855 106922 XOR\n2 1 90855 84711 106984 XOR\n2 1 80103 133126 57729 XOR\n2 1 57729 57730 57728 AND\n2 1 57728 133126 133127 XOR\n2 1 78568 133127 57733 XOR\n2 1 81639 133250 57909 XOR\n2 1 76999 133250 57910 XOR\n2 1 57909 57910 57908 AND\n",
"2 1 57908 133250 133251 XOR\n2 1 133282 133251 80104 XOR\n2 1 80104 78568 133158 XOR\n2 1 133158 133127 76776 XOR\n2 1 76776 3415 119533 XOR\n2 1 119533 119502 94893 XOR\n2 1 96941 94893 119471 XOR\n2 1 119471 119440 92868 XOR\n2 1 92868 35578 90856 XOR\n2 1 90856 35578 35577 AND\n2 1 35577 35578 35613 XOR\n1 1 35613 35581 INV\n2 1 94893 119440 35710 XOR\n2 1 35709 35710 35708 AND\n2 1 35708 119440 119441 XOR\n2 1 96942 119441 35712 XOR\n2 1 76776 119502 35799 XOR\n2 1 35799 35800 35798 AND\n2 1 35798 119502 119503 XOR\n2 1 3416 119503 35803 XOR\n2 1 2903 90856 106923 XOR\n2 1 90856 84712 106985 XOR\n2 1 80104 133127 57732 XOR\n2 1 57732 57733 57731 AND\n2 1 57731 133127 133128 XOR\n2 1 78569 133128 57736 XOR\n2 1 81640 133251 57912 XOR\n2 1 77000 133251 57913 XOR\n2 1 57912 57913 57911 AND\n2 1 57911 133251 133252 XOR\n2 1 133283 133252 80105 XOR\n2 1 80105 78569 133159 XOR\n2 1 133159 133128 76777 XOR\n2 1 76777 3416 119534 XOR\n2 1 119534 119503 94894 XOR\n2 1 96942 94894 119472 XOR\n2 1 119472 119441 92869 XOR\n1 1 92869 35635 INV\n2 1 35635 35613 90857 XOR\n2 1 92869 35613 35580 XOR\n2 1 35580 35581 35579 AND\n2 1 35579 35613 35614 XOR\n1 1 35614 35584 INV\n2 1 94894 119441 35713 XOR\n2 1 35712 35713 35711 AND\n2 1 35711 119441 119442 XOR\n2 1 96943 119442 35715 XOR\n2 1 76777 119503 35802 XOR\n2 1 35802 35803 35801 AND\n2 1 35801 119503 119504 XOR\n2 1 3417 119504 35806 XOR\n2 1 2904 90857 106924 XOR\n2 1 90857 84713 106986 XOR\n2 1 80105 133128 57735 XOR\n2 1 57735 57736 57734 AND\n2 1 57734 133128 133129 XOR\n2 1 78570 133129 57739 XOR\n2 1 81641 133252 57915 XOR\n2 1 77001 133252 57916 XOR\n2 1 57915 57916 57914 AND\n2 1 57914 133252 133253 XOR\n2 1 133284 133253 80106 XOR\n2 1 80106 78570 133160 XOR\n2 1 133160 133129 76778 XOR\n2 1 76778 3417 119535 XOR\n2 1 119535 119504 94895 XOR\n2 1 96943 94895 119473 XOR\n2 1 119473 119442 92870 XOR\n1 1 92870 35636 INV\n2 1 35636 35614 90858 XOR\n2 1 92870 35614 35583 XOR\n2 1 35583 35584 35582 AND\n2 1 35582 35614 35615 XOR\n1 1 35615 35587 INV\n2 1 94895 119442 35716 XOR\n2 1 35715 35716 35714 AND\n2 1 35714 119442 119443 XOR\n2 1 96944 119443 35718 XOR\n2 1 76778 119504 35805 XOR\n2 1 35805 35806 35804 AND\n2 1 35804 119504 119505 XOR\n2 1 3418 119505 35809 XOR\n2 1 2905 90858 106925 XOR\n2 1 90858 84714 106987 XOR\n2 1 80106 133129 57738 XOR\n2 1 57738 57739 57737 AND\n2 1 57737 133129 133130 XOR\n2 1 78571 133130 57742 XOR\n2 1 81642 133253 57918 XOR\n2 1 77002 133253 57919 XOR\n2 1 57918 57919 57917 AND\n2 1 57917 133253 133254 XOR\n2 1 133285 133254 80107 XOR\n2 1 80107 78571 133161 XOR\n2 1 133161 133130 76779 XOR\n2 1 76779 3418 119536 XOR\n2 1 119536 119505 94896 XOR\n2 1 96944 94896 119474 XOR\n2 1 119474 119443 92871 XOR\n1 1 92871 35637 INV\n2 1 35637 35615 90859 XOR\n2 1 92871 35615 35586 XOR\n2 1 35586 35587 35585 AND\n2 1 35585 35615 35616 XOR\n1 1 35616 35590 INV\n2 1 94896 119443 35719 XOR\n2 1 35718 35719 35717 AND\n2 1 35717 119443 119444 XOR\n2 1 96945 119444 35721 XOR\n2 1 76779 119505 35808 XOR\n2 1 35808 35809 35807 AND\n2 1 35807 119505 119506 XOR\n2 1 3419 119506 35812 XOR\n2 1 90859 84715 106988 XOR\n2 1 2906 90859 106926 XOR\n2 1 80107 133130 57741 XOR\n2 1 57741 57742 57740 AND\n2 1 57740 133130 133131 XOR\n2 1 78572 133131 57745 XOR\n2 1 81643 133254 57921 XOR\n2 1 77003 133254 57922 XOR\n2 1 57921 57922 57920 AND\n2 1 57920 133254 133255 XOR\n2 1 133286 133255 80108 XOR\n2 1 80108 78572 133162 XOR\n2 1 133162 133131 76780 XOR\n2 1 76780 3419 119537 XOR\n2 1 119537 119506 94897 XOR\n",
"2 1 96945 94897 119475 XOR\n2 1 119475 119444 92872 XOR\n1 1 92872 35638 INV\n2 1 35638 35616 90860 XOR\n2 1 92872 35616 35589 XOR\n2 1 35589 35590 35588 AND\n2 1 35588 35616 35617 XOR\n1 1 35617 35593 INV\n2 1 94897 119444 35722 XOR\n2 1 35721 35722 35720 AND\n2 1 35720 119444 119445 XOR\n2 1 96946 119445 35724 XOR\n2 1 76780 119506 35811 XOR\n2 1 35811 35812 35810 AND\n2 1 35810 119506 119507 XOR\n2 1 3420 119507 35815 XOR\n2 1 90860 84716 106989 XOR\n2 1 2907 90860 106927 XOR\n2 1 80108 133131 57744 XOR\n2 1 57744 57745 57743 AND\n2 1 57743 133131 133132 XOR\n2 1 78573 133132 57748 XOR\n2 1 81644 133255 57924 XOR\n2 1 77004 133255 57925 XOR\n2 1 57924 57925 57923 AND\n2 1 57923 133255 133256 XOR\n2 1 133287 133256 80109 XOR\n2 1 80109 78573 133163 XOR\n2 1 133163 133132 76781 XOR\n2 1 76781 3420 119538 XOR\n2 1 119538 119507 94898 XOR\n2 1 96946 94898 119476 XOR\n2 1 119476 119445 92873 XOR\n1 1 92873 35639 INV\n2 1 35639 35617 90861 XOR\n2 1 92873 35617 35592 XOR\n2 1 35592 35593 35591 AND\n2 1 35591 35617 35618 XOR\n1 1 35618 35596 INV\n2 1 94898 119445 35725 XOR\n2 1 35724 35725 35723 AND\n2 1 35723 119445 119446 XOR\n2 1 96947 119446 35727 XOR\n2 1 76781 119507 35814 XOR\n2 1 35814 35815 35813 AND\n2 1 35813 119507 119508 XOR\n2 1 3421 119508 35818 XOR\n2 1 90861 84717 106990 XOR\n2 1 2908 90861 106928 XOR\n2 1 80109 133132 57747 XOR\n2 1 57747 57748 57746 AND\n2 1 57746 133132 133133 XOR\n2 1 78574 133133 57751 XOR\n2 1 81645 133256 57927 XOR\n2 1 77005 133256 57928 XOR\n2 1 57927 57928 57926 AND\n2 1 57926 133256 133257 XOR\n2 1 133288 133257 80110 XOR\n2 1 80110 78574 133164 XOR\n2 1 133164 133133 76782 XOR\n2 1 76782 3421 119539 XOR\n2 1 119539 119508 94899 XOR\n2 1 96947 94899 119477 XOR\n2 1 119477 119446 92874 XOR\n1 1 92874 35640 INV\n2 1 35640 35618 90862 XOR\n2 1 92874 35618 35595 XOR\n2 1 35595 35596 35594 AND\n2 1 35594 35618 35598 XOR\n2 1 94899 119446 35728 XOR\n2 1 35727 35728 35726 AND\n2 1 35726 119446 119447 XOR\n2 1 96948 119447 35730 XOR\n2 1 76782 119508 35817 XOR\n2 1 35817 35818 35816 AND\n2 1 35816 119508 119509 XOR\n2 1 3422 119509 35821 XOR\n2 1 90862 84718 106991 XOR\n2 1 2909 90862 106929 XOR\n2 1 80110 133133 57750 XOR\n2 1 57750 57751 57749 AND\n2 1 57749 133133 133134 XOR\n2 1 78575 133134 57754 XOR\n2 1 81646 133257 57930 XOR\n2 1 77006 133257 57931 XOR\n2 1 57930 57931 57929 AND\n2 1 57929 133257 133258 XOR\n2 1 133289 133258 80111 XOR\n2 1 80111 78575 133165 XOR\n2 1 133165 133134 76783 XOR\n2 1 76783 3422 119540 XOR\n2 1 119540 119509 94900 XOR\n2 1 96948 94900 119478 XOR\n2 1 119478 119447 92875 XOR\n2 1 92875 35598 90863 XOR\n2 1 90863 35598 35597 AND\n2 1 35597 35598 35619 XOR\n2 1 94900 119447 35731 XOR\n2 1 35730 35731 35729 AND\n2 1 35729 119447 119448 XOR\n2 1 76783 119509 35820 XOR\n2 1 35820 35821 35819 AND\n2 1 35819 119509 119510 XOR\n2 1 90863 84719 106992 XOR\n2 1 2910 90863 106930 XOR\n2 1 80111 133134 57753 XOR\n2 1 57753 57754 57752 AND\n2 1 57752 133134 133135 XOR\n2 1 81647 133258 57933 XOR\n2 1 77007 133258 57934 XOR\n2 1 57933 57934 57932 AND\n2 1 57932 133258 133259 XOR\n2 1 133290 133259 80112 XOR\n2 1 80112 78576 133166 XOR\n2 1 133166 133135 76784 XOR\n2 1 76784 3423 119541 XOR\n2 1 119541 119510 94901 XOR\n2 1 96949 94901 119479 XOR\n2 1 119479 119448 92876 XOR\n1 1 92876 35641 INV\n2 1 35641 35619 90864 XOR\n2 1 90864 84720 106993 XOR\n2 1 2911 90864 106931 XOR\n2 1 2888 90841 106908 XOR\n2 1 2758 2822 72181 XOR\n2 1 2757 2821 72180 XOR\n2 1 2756 2820 72179 XOR\n2 1 2755 2819 72178 XOR\n",
"2 1 2753 2817 72176 XOR\n2 1 72181 72149 72117 AND\n2 1 72180 72148 72116 AND\n2 1 72179 72147 72115 AND\n2 1 72178 72146 72114 AND\n2 1 72176 72144 72112 AND\n2 1 72117 2822 86711 XOR\n2 1 72116 2821 86710 XOR\n2 1 72115 2820 86709 XOR\n2 1 72114 2819 86708 XOR\n2 1 72112 2817 86706 XOR\n2 1 2758 2790 72053 XOR\n2 1 2757 2789 72052 XOR\n2 1 2756 2788 72051 XOR\n2 1 2755 2787 72050 XOR\n2 1 2753 2785 72048 XOR\n2 1 2889 90842 106909 XOR\n2 1 2892 90845 106912 XOR\n2 1 14263 14264 14262 AND\n2 1 14262 106872 106873 XOR\n2 1 106904 106873 3268 XOR\n2 1 90837 106873 14267 XOR\n2 1 14362 14363 14361 AND\n2 1 14361 106937 106938 XOR\n2 1 106969 106938 2759 XOR\n2 1 90840 106938 14365 XOR\n2 1 84696 106938 14366 XOR\n2 1 14365 14366 14364 AND\n2 1 14364 106938 106939 XOR\n2 1 106970 106939 2760 XOR\n2 1 90841 106939 14368 XOR\n2 1 84697 106939 14369 XOR\n2 1 14368 14369 14367 AND\n2 1 14367 106939 106940 XOR\n2 1 106971 106940 2761 XOR\n2 1 90842 106940 14371 XOR\n2 1 84698 106940 14372 XOR\n2 1 14371 14372 14370 AND\n2 1 14370 106940 106941 XOR\n2 1 106972 106941 2762 XOR\n2 1 84699 106941 14375 XOR\n2 1 90843 106941 14374 XOR\n2 1 14374 14375 14373 AND\n2 1 14373 106941 106942 XOR\n2 1 106973 106942 2763 XOR\n2 1 84700 106942 14378 XOR\n2 1 90844 106942 14377 XOR\n2 1 14377 14378 14376 AND\n2 1 14376 106942 106943 XOR\n2 1 84701 106943 14381 XOR\n2 1 90845 106943 14380 XOR\n2 1 14380 14381 14379 AND\n2 1 106974 106943 2764 XOR\n2 1 14379 106943 106944 XOR\n2 1 106975 106944 2765 XOR\n2 1 84702 106944 14384 XOR\n2 1 90846 106944 14383 XOR\n2 1 14383 14384 14382 AND\n2 1 14382 106944 106945 XOR\n2 1 106976 106945 2766 XOR\n2 1 84703 106945 14387 XOR\n2 1 90847 106945 14386 XOR\n2 1 14386 14387 14385 AND\n2 1 14385 106945 106946 XOR\n2 1 106977 106946 2767 XOR\n2 1 90848 106946 14389 XOR\n2 1 84704 106946 14390 XOR\n2 1 14389 14390 14388 AND\n2 1 14388 106946 106947 XOR\n2 1 106978 106947 2768 XOR\n2 1 84705 106947 14393 XOR\n2 1 90849 106947 14392 XOR\n2 1 14392 14393 14391 AND\n2 1 14391 106947 106948 XOR\n2 1 106979 106948 2769 XOR\n2 1 90850 106948 14395 XOR\n2 1 84706 106948 14396 XOR\n2 1 14395 14396 14394 AND\n2 1 14394 106948 106949 XOR\n2 1 90851 106949 14398 XOR\n2 1 106980 106949 2770 XOR\n2 1 84707 106949 14399 XOR\n2 1 14398 14399 14397 AND\n2 1 14397 106949 106950 XOR\n2 1 90852 106950 14401 XOR\n2 1 84708 106950 14402 XOR\n2 1 14401 14402 14400 AND\n2 1 106981 106950 2771 XOR\n2 1 14400 106950 106951 XOR\n2 1 106982 106951 2772 XOR\n2 1 90853 106951 14404 XOR\n2 1 84709 106951 14405 XOR\n2 1 14404 14405 14403 AND\n2 1 14403 106951 106952 XOR\n2 1 84710 106952 14408 XOR\n2 1 106983 106952 2773 XOR\n2 1 90854 106952 14407 XOR\n2 1 14407 14408 14406 AND\n2 1 14406 106952 106953 XOR\n2 1 106984 106953 2774 XOR\n2 1 84711 106953 14411 XOR\n2 1 90855 106953 14410 XOR\n2 1 14410 14411 14409 AND\n2 1 14409 106953 106954 XOR\n2 1 106985 106954 2775 XOR\n2 1 90856 106954 14413 XOR\n2 1 84712 106954 14414 XOR\n2 1 14413 14414 14412 AND\n2 1 14412 106954 106955 XOR\n2 1 106986 106955 2776 XOR\n2 1 90857 106955 14416 XOR\n2 1 84713 106955 14417 XOR\n2 1 14416 14417 14415 AND\n2 1 14415 106955 106956 XOR\n2 1 90858 106956 14419 XOR\n2 1 84714 106956 14420 XOR\n2 1 106987 106956 2777 XOR\n2 1 14419 14420 14418 AND\n2 1 14418 106956 106957 XOR\n2 1 90859 106957 14422 XOR\n2 1 84715 106957 14423 XOR\n2 1 14422 14423 14421 AND\n2 1 14421 106957 106958 XOR\n2 1 106989 106958 2779 XOR\n2 1 90860 106958 14425 XOR\n2 1 84716 106958 14426 XOR\n2 1 14425 14426 14424 AND\n2 1 14424 106958 106959 XOR\n",
"2 1 106990 106959 2780 XOR\n2 1 90861 106959 14428 XOR\n2 1 84717 106959 14429 XOR\n2 1 14428 14429 14427 AND\n2 1 14427 106959 106960 XOR\n2 1 106991 106960 2781 XOR\n2 1 90862 106960 14431 XOR\n2 1 106988 106957 2778 XOR\n2 1 84718 106960 14432 XOR\n2 1 14431 14432 14430 AND\n2 1 14430 106960 106961 XOR\n2 1 106992 106961 2782 XOR\n2 1 84719 106961 14435 XOR\n2 1 90863 106961 14434 XOR\n2 1 14434 14435 14433 AND\n2 1 14433 106961 106962 XOR\n2 1 106993 106962 2783 XOR\n2 1 2783 2847 72206 XOR\n2 1 2782 2846 72205 XOR\n2 1 2781 2845 72204 XOR\n2 1 2780 2844 72203 XOR\n2 1 2779 2843 72202 XOR\n2 1 2778 2842 72201 XOR\n2 1 2777 2841 72200 XOR\n2 1 2776 2840 72199 XOR\n2 1 2775 2839 72198 XOR\n2 1 2774 2838 72197 XOR\n2 1 2773 2837 72196 XOR\n2 1 2772 2836 72195 XOR\n2 1 2771 2835 72194 XOR\n2 1 2770 2834 72193 XOR\n2 1 2769 2833 72192 XOR\n2 1 2768 2832 72191 XOR\n2 1 2767 2831 72190 XOR\n2 1 2766 2830 72189 XOR\n2 1 2765 2829 72188 XOR\n2 1 2764 2828 72187 XOR\n2 1 2763 2827 72186 XOR\n2 1 2762 2826 72185 XOR\n2 1 2761 2825 72184 XOR\n2 1 2760 2824 72183 XOR\n2 1 2759 2823 72182 XOR\n2 1 72206 72174 72142 AND\n2 1 72205 72173 72141 AND\n2 1 72204 72172 72140 AND\n2 1 72203 72171 72139 AND\n2 1 72202 72170 72138 AND\n2 1 72201 72169 72137 AND\n2 1 72200 72168 72136 AND\n2 1 72199 72167 72135 AND\n2 1 72198 72166 72134 AND\n2 1 72197 72165 72133 AND\n2 1 72196 72164 72132 AND\n2 1 72195 72163 72131 AND\n2 1 72194 72162 72130 AND\n2 1 72193 72161 72129 AND\n2 1 72192 72160 72128 AND\n2 1 72191 72159 72127 AND\n2 1 72190 72158 72126 AND\n2 1 72189 72157 72125 AND\n2 1 72188 72156 72124 AND\n2 1 72187 72155 72123 AND\n2 1 72186 72154 72122 AND\n2 1 72185 72153 72121 AND\n2 1 72184 72152 72120 AND\n2 1 72183 72151 72119 AND\n2 1 72182 72150 72118 AND\n2 1 72142 2847 86736 XOR\n2 1 72141 2846 86735 XOR\n2 1 72140 2845 86734 XOR\n2 1 72139 2844 86733 XOR\n2 1 72138 2843 86732 XOR\n2 1 72137 2842 86731 XOR\n2 1 72136 2841 86730 XOR\n2 1 72135 2840 86729 XOR\n2 1 72134 2839 86728 XOR\n2 1 72133 2838 86727 XOR\n2 1 72132 2837 86726 XOR\n2 1 72131 2836 86725 XOR\n2 1 72130 2835 86724 XOR\n2 1 72129 2834 86723 XOR\n2 1 72128 2833 86722 XOR\n2 1 72127 2832 86721 XOR\n2 1 72126 2831 86720 XOR\n2 1 72125 2830 86719 XOR\n2 1 72124 2829 86718 XOR\n2 1 72123 2828 86717 XOR\n2 1 72122 2827 86716 XOR\n2 1 72121 2826 86715 XOR\n2 1 72120 2825 86714 XOR\n2 1 72119 2824 86713 XOR\n2 1 72118 2823 86712 XOR\n2 1 2783 2815 72078 XOR\n2 1 2782 2814 72077 XOR\n2 1 2781 2813 72076 XOR\n2 1 2780 2812 72075 XOR\n2 1 2779 2811 72074 XOR\n2 1 2778 2810 72073 XOR\n2 1 2777 2809 72072 XOR\n2 1 2776 2808 72071 XOR\n2 1 2775 2807 72070 XOR\n2 1 2774 2806 72069 XOR\n2 1 2773 2805 72068 XOR\n2 1 2772 2804 72067 XOR\n2 1 2771 2803 72066 XOR\n2 1 2770 2802 72065 XOR\n2 1 2769 2801 72064 XOR\n2 1 2768 2800 72063 XOR\n2 1 2767 2799 72062 XOR\n2 1 2766 2798 72061 XOR\n2 1 2765 2797 72060 XOR\n2 1 2764 2796 72059 XOR\n2 1 2763 2795 72058 XOR\n2 1 2762 2794 72057 XOR\n2 1 2761 2793 72056 XOR\n2 1 2760 2792 72055 XOR\n2 1 2759 2791 72054 XOR\n2 1 2753 2764 67886 XOR\n2 1 2783 2762 67884 XOR\n2 1 2782 2761 67883 XOR\n2 1 2781 2760 67882 XOR\n2 1 2780 2759 67881 XOR\n2 1 2779 2758 67880 XOR\n2 1 2778 2757 67879 XOR\n2 1 2777 2756 67878 XOR\n2 1 2776 2755 67877 XOR\n2 1 2774 2753 67875 XOR\n2 1 2772 2783 67873 XOR\n",
"2 1 2771 2782 67872 XOR\n2 1 2770 2781 67871 XOR\n2 1 2769 2780 67870 XOR\n2 1 2768 2779 67869 XOR\n2 1 2767 2778 67868 XOR\n2 1 2766 2777 67867 XOR\n2 1 2765 2776 67866 XOR\n2 1 2764 2775 67865 XOR\n2 1 2763 2774 67864 XOR\n2 1 2762 2773 67863 XOR\n2 1 2761 2772 67862 XOR\n2 1 2760 2771 67861 XOR\n2 1 2759 2770 67860 XOR\n2 1 2758 2769 67859 XOR\n2 1 2757 2768 67858 XOR\n2 1 2756 2767 67857 XOR\n2 1 2755 2766 67856 XOR\n2 1 67886 2773 88784 XOR\n2 1 88784 86736 119169 XOR\n2 1 67884 2771 88782 XOR\n2 1 88782 86734 119167 XOR\n2 1 67883 2770 88781 XOR\n2 1 88781 86733 119166 XOR\n2 1 67882 2769 88780 XOR\n2 1 88780 86732 119165 XOR\n2 1 67881 2768 88779 XOR\n2 1 88779 86731 119164 XOR\n2 1 67880 2767 88778 XOR\n2 1 88778 86730 119163 XOR\n2 1 67879 2766 88777 XOR\n2 1 88777 86729 119162 XOR\n2 1 67878 2765 88776 XOR\n2 1 88776 86728 119161 XOR\n2 1 67877 2764 88775 XOR\n2 1 88775 86727 119160 XOR\n2 1 67875 2762 88773 XOR\n2 1 88773 86725 119158 XOR\n2 1 67873 2760 88771 XOR\n2 1 88771 86723 119156 XOR\n2 1 67872 2759 88770 XOR\n2 1 88770 86722 119155 XOR\n2 1 67871 2758 88769 XOR\n2 1 88769 86721 119154 XOR\n2 1 67870 2757 88768 XOR\n2 1 88768 86720 119153 XOR\n2 1 67869 2756 88767 XOR\n2 1 88767 86719 119152 XOR\n2 1 67868 2755 88766 XOR\n2 1 88766 86718 119151 XOR\n2 1 67866 2753 88764 XOR\n2 1 88764 86716 119149 XOR\n2 1 67864 2783 88762 XOR\n2 1 88762 86714 119147 XOR\n2 1 67863 2782 88761 XOR\n2 1 88761 86713 119146 XOR\n2 1 67862 2781 88760 XOR\n2 1 88760 86712 119145 XOR\n2 1 67861 2780 88759 XOR\n2 1 88759 86711 119144 XOR\n2 1 67860 2779 88758 XOR\n2 1 88758 86710 119143 XOR\n2 1 67859 2778 88757 XOR\n2 1 88757 86709 119142 XOR\n2 1 67858 2777 88756 XOR\n2 1 88756 86708 119141 XOR\n2 1 67857 2776 88755 XOR\n2 1 67856 2775 88754 XOR\n2 1 88754 86706 119139 XOR\n2 1 65107 3268 65075 AND\n2 1 65106 3267 65074 AND\n2 1 65105 3266 65073 AND\n2 1 65104 3265 65072 AND\n2 1 65103 3264 65071 AND\n2 1 65075 3332 98938 XOR\n2 1 65074 3331 98937 XOR\n2 1 65073 3330 98936 XOR\n2 1 65072 3329 98935 XOR\n2 1 65071 3328 98934 XOR\n2 1 3268 3300 65043 XOR\n2 1 3267 3299 65042 XOR\n2 1 3266 3298 65041 XOR\n2 1 3265 3297 65040 XOR\n2 1 3264 3296 65039 XOR\n2 1 2898 90851 106918 XOR\n2 1 2896 90849 106916 XOR\n2 1 2884 106873 14266 XOR\n2 1 14266 14267 14265 AND\n2 1 14265 106873 106874 XOR\n2 1 2885 106874 14269 XOR\n2 1 90838 106874 14270 XOR\n2 1 14269 14270 14268 AND\n2 1 14268 106874 106875 XOR\n2 1 106906 106875 3270 XOR\n2 1 2886 106875 14272 XOR\n2 1 90839 106875 14273 XOR\n2 1 14272 14273 14271 AND\n2 1 14271 106875 106876 XOR\n2 1 106907 106876 3271 XOR\n2 1 90840 106876 14276 XOR\n2 1 2887 106876 14275 XOR\n2 1 14275 14276 14274 AND\n2 1 14274 106876 106877 XOR\n2 1 106908 106877 3272 XOR\n2 1 90841 106877 14279 XOR\n2 1 2888 106877 14278 XOR\n2 1 14278 14279 14277 AND\n2 1 14277 106877 106878 XOR\n2 1 90842 106878 14282 XOR\n2 1 2889 106878 14281 XOR\n2 1 14281 14282 14280 AND\n2 1 106909 106878 3273 XOR\n2 1 14280 106878 106879 XOR\n2 1 2890 106879 14284 XOR\n2 1 90843 106879 14285 XOR\n2 1 14284 14285 14283 AND\n2 1 106910 106879 3274 XOR\n2 1 14283 106879 106880 XOR\n2 1 106911 106880 3275 XOR\n2 1 2891 106880 14287 XOR\n2 1 65114 3275 65082 AND\n2 1 65113 3274 65081 AND\n2 1 65112 3273 65080 AND\n2 1 65111 3272 65079 AND\n2 1 65110 3271 65078 AND\n2 1 65109 3270 65077 AND\n2 1 65082 3339 98945 XOR\n2 1 65081 3338 98944 XOR\n2 1 65080 3337 98943 XOR\n",
"2 1 65079 3336 98942 XOR\n2 1 65078 3335 98941 XOR\n2 1 65077 3334 98940 XOR\n2 1 3275 3307 65050 XOR\n2 1 3274 3306 65049 XOR\n2 1 3273 3305 65048 XOR\n2 1 3272 3304 65047 XOR\n2 1 3271 3303 65046 XOR\n2 1 3270 3302 65045 XOR\n2 1 106905 106874 3269 XOR\n2 1 65108 3269 65076 AND\n2 1 65076 3333 98939 XOR\n2 1 3269 3301 65044 XOR\n2 1 2899 90852 106919 XOR\n2 1 90844 106880 14288 XOR\n2 1 14287 14288 14286 AND\n2 1 14286 106880 106881 XOR\n2 1 106912 106881 3276 XOR\n2 1 2892 106881 14290 XOR\n2 1 90845 106881 14291 XOR\n2 1 65115 3276 65083 AND\n2 1 65083 3340 98946 XOR\n2 1 3276 3308 65051 XOR\n2 1 14290 14291 14289 AND\n2 1 14289 106881 106882 XOR\n2 1 106913 106882 3277 XOR\n2 1 2893 106882 14293 XOR\n2 1 90846 106882 14294 XOR\n2 1 14293 14294 14292 AND\n2 1 14292 106882 106883 XOR\n2 1 106914 106883 3278 XOR\n2 1 90847 106883 14297 XOR\n2 1 2894 106883 14296 XOR\n2 1 14296 14297 14295 AND\n2 1 14295 106883 106884 XOR\n2 1 106915 106884 3279 XOR\n2 1 90848 106884 14300 XOR\n2 1 2895 106884 14299 XOR\n2 1 14299 14300 14298 AND\n2 1 14298 106884 106885 XOR\n2 1 2896 106885 14302 XOR\n2 1 106916 106885 3280 XOR\n2 1 90849 106885 14303 XOR\n2 1 14302 14303 14301 AND\n2 1 14301 106885 106886 XOR\n2 1 106917 106886 3281 XOR\n2 1 2897 106886 14305 XOR\n2 1 90850 106886 14306 XOR\n2 1 14305 14306 14304 AND\n2 1 14304 106886 106887 XOR\n2 1 106918 106887 3282 XOR\n2 1 90851 106887 14309 XOR\n2 1 65121 3282 65089 AND\n2 1 65120 3281 65088 AND\n2 1 65119 3280 65087 AND\n2 1 65118 3279 65086 AND\n2 1 65117 3278 65085 AND\n2 1 65116 3277 65084 AND\n2 1 65089 3346 98952 XOR\n2 1 65088 3345 98951 XOR\n2 1 65087 3344 98950 XOR\n2 1 65086 3343 98949 XOR\n2 1 65085 3342 98948 XOR\n2 1 65084 3341 98947 XOR\n2 1 3282 3314 65057 XOR\n2 1 3281 3313 65056 XOR\n2 1 3280 3312 65055 XOR\n2 1 3279 3311 65054 XOR\n2 1 3278 3310 65053 XOR\n2 1 3277 3309 65052 XOR\n2 1 2898 106887 14308 XOR\n2 1 14308 14309 14307 AND\n2 1 14307 106887 106888 XOR\n2 1 106919 106888 3283 XOR\n2 1 90852 106888 14312 XOR\n2 1 2899 106888 14311 XOR\n2 1 14311 14312 14310 AND\n2 1 14310 106888 106889 XOR\n2 1 106920 106889 3284 XOR\n2 1 90853 106889 14315 XOR\n2 1 2900 106889 14314 XOR\n2 1 14314 14315 14313 AND\n2 1 14313 106889 106890 XOR\n2 1 106921 106890 3285 XOR\n2 1 2901 106890 14317 XOR\n2 1 90854 106890 14318 XOR\n2 1 14317 14318 14316 AND\n2 1 14316 106890 106891 XOR\n2 1 90855 106891 14321 XOR\n2 1 106922 106891 3286 XOR\n2 1 2902 106891 14320 XOR\n2 1 14320 14321 14319 AND\n2 1 14319 106891 106892 XOR\n2 1 2903 106892 14323 XOR\n2 1 90856 106892 14324 XOR\n2 1 14323 14324 14322 AND\n2 1 14322 106892 106893 XOR\n2 1 106924 106893 3288 XOR\n2 1 2904 106893 14326 XOR\n2 1 90857 106893 14327 XOR\n2 1 14326 14327 14325 AND\n2 1 14325 106893 106894 XOR\n2 1 2905 106894 14329 XOR\n2 1 90858 106894 14330 XOR\n2 1 106923 106892 3287 XOR\n2 1 65127 3288 65095 AND\n2 1 65126 3287 65094 AND\n2 1 65125 3286 65093 AND\n2 1 65124 3285 65092 AND\n2 1 65123 3284 65091 AND\n2 1 65122 3283 65090 AND\n2 1 65095 3352 98958 XOR\n2 1 65094 3351 98957 XOR\n2 1 65093 3350 98956 XOR\n2 1 65092 3349 98955 XOR\n2 1 65091 3348 98954 XOR\n2 1 65090 3347 98953 XOR\n2 1 3288 3320 65063 XOR\n2 1 3287 3319 65062 XOR\n2 1 3286 3318 65061 XOR\n2 1 3285 3317 65060 XOR\n2 1 3284 3316 65059 XOR\n2 1 3283 3315 65058 XOR\n2 1 14329 14330 14328 AND\n2 1 14328 106894 106895 XOR\n2 1 106926 106895 3290 XOR\n2 1 2906 106895 14332 XOR\n2 1 90859 106895 14333 XOR\n",
"2 1 14332 14333 14331 AND\n2 1 14331 106895 106896 XOR\n2 1 106927 106896 3291 XOR\n2 1 90860 106896 14336 XOR\n2 1 2907 106896 14335 XOR\n2 1 14335 14336 14334 AND\n2 1 14334 106896 106897 XOR\n2 1 106928 106897 3292 XOR\n2 1 90861 106897 14339 XOR\n2 1 2908 106897 14338 XOR\n2 1 14338 14339 14337 AND\n2 1 14337 106897 106898 XOR\n2 1 90862 106898 14342 XOR\n2 1 2909 106898 14341 XOR\n2 1 14341 14342 14340 AND\n2 1 106929 106898 3293 XOR\n2 1 14340 106898 106899 XOR\n2 1 90863 106899 14345 XOR\n2 1 2910 106899 14344 XOR\n2 1 14344 14345 14343 AND\n2 1 14343 106899 106900 XOR\n2 1 106931 106900 3295 XOR\n2 1 106930 106899 3294 XOR\n2 1 65134 3295 65102 AND\n2 1 65133 3294 65101 AND\n2 1 65132 3293 65100 AND\n2 1 65131 3292 65099 AND\n2 1 65130 3291 65098 AND\n2 1 65129 3290 65097 AND\n2 1 65102 3359 98965 XOR\n2 1 65101 3358 98964 XOR\n2 1 65100 3357 98963 XOR\n2 1 65099 3356 98962 XOR\n2 1 65098 3355 98961 XOR\n2 1 65097 3354 98960 XOR\n2 1 3295 3327 65070 XOR\n2 1 3294 3326 65069 XOR\n2 1 3293 3325 65068 XOR\n2 1 3292 3324 65067 XOR\n2 1 3291 3323 65066 XOR\n2 1 3290 3322 65065 XOR\n2 1 106925 106894 3289 XOR\n2 1 65128 3289 65096 AND\n2 1 65096 3353 98959 XOR\n2 1 3289 3321 65064 XOR\n2 1 90833 84689 2752 XOR\n2 1 2752 2816 72175 XOR\n2 1 72175 72143 72111 AND\n2 1 72111 2816 86705 XOR\n2 1 2752 2784 72047 XOR\n2 1 2752 2763 67885 XOR\n2 1 2773 2752 67874 XOR\n2 1 67885 2772 88783 XOR\n2 1 88783 86735 119168 XOR\n2 1 67874 2761 88772 XOR\n2 1 88772 86724 119157 XOR\n2 1 67865 2752 88763 XOR\n2 1 88763 86715 119148 XOR\n2 1 90835 84691 106964 XOR\n2 1 106964 106933 2754 XOR\n2 1 2754 2818 72177 XOR\n2 1 72177 72145 72113 AND\n2 1 72113 2818 86707 XOR\n2 1 88755 86707 119140 XOR\n2 1 2754 2786 72049 XOR\n2 1 2775 2754 67876 XOR\n2 1 2754 2765 67855 XOR\n2 1 67876 2763 88774 XOR\n2 1 88774 86726 119159 XOR\n2 1 67867 2754 88765 XOR\n2 1 88765 86717 119150 XOR\n2 1 67855 2774 88753 XOR\n2 1 88753 86705 119108 AND\n2 1 88753 86705 84657 XOR\n2 1 119139 119108 84658 XOR\n2 1 88754 119108 34968 XOR\n2 1 86706 119108 34969 XOR\n2 1 34968 34969 34967 AND\n2 1 34967 119108 119109 XOR\n2 1 119140 119109 84659 XOR\n2 1 88755 119109 34971 XOR\n2 1 86707 119109 34972 XOR\n2 1 34971 34972 34970 AND\n2 1 34970 119109 119110 XOR\n2 1 119141 119110 84660 XOR\n2 1 88756 119110 34974 XOR\n2 1 86708 119110 34975 XOR\n2 1 34974 34975 34973 AND\n2 1 34973 119110 119111 XOR\n2 1 119142 119111 84661 XOR\n2 1 88757 119111 34977 XOR\n2 1 86709 119111 34978 XOR\n2 1 34977 34978 34976 AND\n2 1 34976 119111 119112 XOR\n2 1 119143 119112 84662 XOR\n2 1 88758 119112 34980 XOR\n2 1 86710 119112 34981 XOR\n2 1 34980 34981 34979 AND\n2 1 34979 119112 119113 XOR\n2 1 119144 119113 84663 XOR\n2 1 88759 119113 34983 XOR\n2 1 86711 119113 34984 XOR\n2 1 34983 34984 34982 AND\n2 1 34982 119113 119114 XOR\n2 1 119145 119114 84664 XOR\n2 1 88760 119114 34986 XOR\n2 1 86712 119114 34987 XOR\n2 1 34986 34987 34985 AND\n2 1 34985 119114 119115 XOR\n2 1 119146 119115 84665 XOR\n2 1 88761 119115 34989 XOR\n2 1 86713 119115 34990 XOR\n2 1 34989 34990 34988 AND\n2 1 34988 119115 119116 XOR\n2 1 119147 119116 84666 XOR\n2 1 88762 119116 34992 XOR\n2 1 86714 119116 34993 XOR\n2 1 34992 34993 34991 AND\n2 1 34991 119116 119117 XOR\n2 1 119148 119117 84667 XOR\n2 1 88763 119117 34995 XOR\n2 1 86715 119117 34996 XOR\n2 1 34995 34996 34994 AND\n2 1 34994 119117 119118 XOR\n2 1 119149 119118 84668 XOR\n2 1 88764 119118 34998 XOR\n2 1 86716 119118 34999 XOR\n2 1 34998 34999 34997 AND\n",
"2 1 34997 119118 119119 XOR\n2 1 119150 119119 84669 XOR\n2 1 88765 119119 35001 XOR\n2 1 86717 119119 35002 XOR\n2 1 35001 35002 35000 AND\n2 1 35000 119119 119120 XOR\n2 1 119151 119120 84670 XOR\n2 1 88766 119120 35004 XOR\n2 1 86718 119120 35005 XOR\n2 1 35004 35005 35003 AND\n2 1 35003 119120 119121 XOR\n2 1 119152 119121 84671 XOR\n2 1 88767 119121 35007 XOR\n2 1 86719 119121 35008 XOR\n2 1 35007 35008 35006 AND\n2 1 35006 119121 119122 XOR\n2 1 119153 119122 84672 XOR\n2 1 88768 119122 35010 XOR\n2 1 86720 119122 35011 XOR\n2 1 35010 35011 35009 AND\n2 1 35009 119122 119123 XOR\n2 1 119154 119123 84673 XOR\n2 1 88769 119123 35013 XOR\n2 1 86721 119123 35014 XOR\n2 1 35013 35014 35012 AND\n2 1 35012 119123 119124 XOR\n2 1 119155 119124 84674 XOR\n2 1 88770 119124 35016 XOR\n2 1 86722 119124 35017 XOR\n2 1 35016 35017 35015 AND\n2 1 35015 119124 119125 XOR\n2 1 119156 119125 84675 XOR\n2 1 88771 119125 35019 XOR\n2 1 86723 119125 35020 XOR\n2 1 35019 35020 35018 AND\n2 1 35018 119125 119126 XOR\n2 1 119157 119126 84676 XOR\n2 1 88772 119126 35022 XOR\n2 1 86724 119126 35023 XOR\n2 1 35022 35023 35021 AND\n2 1 35021 119126 119127 XOR\n2 1 119158 119127 84677 XOR\n2 1 88773 119127 35025 XOR\n2 1 86725 119127 35026 XOR\n2 1 35025 35026 35024 AND\n2 1 35024 119127 119128 XOR\n2 1 119159 119128 84678 XOR\n2 1 88774 119128 35028 XOR\n2 1 86726 119128 35029 XOR\n2 1 35028 35029 35027 AND\n2 1 35027 119128 119129 XOR\n2 1 119160 119129 84679 XOR\n2 1 88775 119129 35031 XOR\n2 1 86727 119129 35032 XOR\n2 1 35031 35032 35030 AND\n2 1 35030 119129 119130 XOR\n2 1 119161 119130 84680 XOR\n2 1 88776 119130 35034 XOR\n2 1 86728 119130 35035 XOR\n2 1 35034 35035 35033 AND\n2 1 35033 119130 119131 XOR\n2 1 119162 119131 84681 XOR\n2 1 88777 119131 35037 XOR\n2 1 86729 119131 35038 XOR\n2 1 35037 35038 35036 AND\n2 1 35036 119131 119132 XOR\n2 1 119163 119132 84682 XOR\n2 1 88778 119132 35040 XOR\n2 1 86730 119132 35041 XOR\n2 1 35040 35041 35039 AND\n2 1 35039 119132 119133 XOR\n2 1 119164 119133 84683 XOR\n2 1 88779 119133 35043 XOR\n2 1 86731 119133 35044 XOR\n2 1 35043 35044 35042 AND\n2 1 35042 119133 119134 XOR\n2 1 119165 119134 84684 XOR\n2 1 88780 119134 35046 XOR\n2 1 86732 119134 35047 XOR\n2 1 35046 35047 35045 AND\n2 1 35045 119134 119135 XOR\n2 1 119166 119135 84685 XOR\n2 1 88781 119135 35049 XOR\n2 1 86733 119135 35050 XOR\n2 1 35049 35050 35048 AND\n2 1 35048 119135 119136 XOR\n2 1 119167 119136 84686 XOR\n2 1 88782 119136 35052 XOR\n2 1 86734 119136 35053 XOR\n2 1 35052 35053 35051 AND\n2 1 35051 119136 119137 XOR\n2 1 119168 119137 84687 XOR\n2 1 88783 119137 35055 XOR\n2 1 86735 119137 35056 XOR\n2 1 35055 35056 35054 AND\n2 1 35054 119137 119138 XOR\n2 1 119169 119138 84688 XOR\n2 1 3269 3274 61966 XOR\n2 1 3268 3273 61965 XOR\n2 1 3267 3272 61964 XOR\n2 1 3266 3271 61963 XOR\n2 1 3265 3270 61962 XOR\n2 1 3264 3269 61961 XOR\n2 1 3295 3268 61960 XOR\n2 1 3294 3267 61959 XOR\n2 1 3293 3266 61958 XOR\n2 1 3292 3265 61957 XOR\n2 1 3291 3264 61956 XOR\n2 1 3290 3295 61955 XOR\n2 1 3289 3294 61954 XOR\n2 1 3288 3293 61953 XOR\n2 1 3287 3292 61952 XOR\n2 1 3286 3291 61951 XOR\n2 1 3285 3290 61950 XOR\n2 1 3284 3289 61949 XOR\n2 1 3283 3288 61948 XOR\n2 1 3282 3287 61947 XOR\n2 1 3281 3286 61946 XOR\n2 1 3280 3285 61945 XOR\n2 1 3279 3284 61944 XOR\n2 1 3278 3283 61943 XOR\n2 1 3277 3282 61942 XOR\n2 1 3276 3281 61941 XOR\n2 1 3275 3280 61940 XOR\n2 1 3274 3279 61939 XOR\n2 1 3273 3278 61938 XOR\n2 1 3272 3277 61937 XOR\n2 1 3271 3276 61936 XOR\n",
"2 1 3270 3275 61935 XOR\n2 1 61966 3288 101013 XOR\n2 1 101013 98965 119355 XOR\n2 1 61965 3287 101012 XOR\n2 1 101012 98964 119354 XOR\n2 1 61964 3286 101011 XOR\n2 1 101011 98963 119353 XOR\n2 1 61963 3285 101010 XOR\n2 1 101010 98962 119352 XOR\n2 1 61962 3284 101009 XOR\n2 1 101009 98961 119351 XOR\n2 1 61961 3283 101008 XOR\n2 1 101008 98960 119350 XOR\n2 1 61960 3282 101007 XOR\n2 1 101007 98959 119349 XOR\n2 1 61959 3281 101006 XOR\n2 1 101006 98958 119348 XOR\n2 1 61958 3280 101005 XOR\n2 1 101005 98957 119347 XOR\n2 1 61957 3279 101004 XOR\n2 1 101004 98956 119346 XOR\n2 1 61956 3278 101003 XOR\n2 1 101003 98955 119345 XOR\n2 1 61955 3277 101002 XOR\n2 1 101002 98954 119344 XOR\n2 1 61954 3276 101001 XOR\n2 1 101001 98953 119343 XOR\n2 1 61953 3275 101000 XOR\n2 1 101000 98952 119342 XOR\n2 1 61952 3274 100999 XOR\n2 1 100999 98951 119341 XOR\n2 1 61951 3273 100998 XOR\n2 1 100998 98950 119340 XOR\n2 1 61950 3272 100997 XOR\n2 1 100997 98949 119339 XOR\n2 1 61949 3271 100996 XOR\n2 1 100996 98948 119338 XOR\n2 1 61948 3270 100995 XOR\n2 1 100995 98947 119337 XOR\n2 1 61947 3269 100994 XOR\n2 1 100994 98946 119336 XOR\n2 1 61946 3268 100993 XOR\n2 1 100993 98945 119335 XOR\n2 1 61945 3267 100992 XOR\n2 1 100992 98944 119334 XOR\n2 1 61944 3266 100991 XOR\n2 1 100991 98943 119333 XOR\n2 1 61943 3265 100990 XOR\n2 1 100990 98942 119332 XOR\n2 1 61942 3264 100989 XOR\n2 1 100989 98941 119331 XOR\n2 1 61941 3295 100988 XOR\n2 1 100988 98940 119330 XOR\n2 1 61940 3294 100987 XOR\n2 1 100987 98939 119329 XOR\n2 1 61939 3293 100986 XOR\n2 1 100986 98938 119328 XOR\n2 1 61938 3292 100985 XOR\n2 1 100985 98937 119327 XOR\n2 1 61937 3291 100984 XOR\n2 1 100984 98936 119326 XOR\n2 1 61936 3290 100983 XOR\n2 1 100983 98935 119325 XOR\n2 1 61935 3289 100982 XOR\n2 1 100982 98934 119294 AND\n2 1 100982 98934 96886 XOR\n2 1 119325 119294 96887 XOR\n2 1 100983 119294 35340 XOR\n2 1 98935 119294 35341 XOR\n2 1 35340 35341 35339 AND\n2 1 35339 119294 119295 XOR\n2 1 119326 119295 96888 XOR\n2 1 100984 119295 35343 XOR\n2 1 98936 119295 35344 XOR\n2 1 35343 35344 35342 AND\n2 1 35342 119295 119296 XOR\n2 1 119327 119296 96889 XOR\n2 1 100985 119296 35346 XOR\n2 1 98937 119296 35347 XOR\n2 1 35346 35347 35345 AND\n2 1 35345 119296 119297 XOR\n2 1 119328 119297 96890 XOR\n2 1 100986 119297 35349 XOR\n2 1 98938 119297 35350 XOR\n2 1 35349 35350 35348 AND\n2 1 35348 119297 119298 XOR\n2 1 119329 119298 96891 XOR\n2 1 100987 119298 35352 XOR\n2 1 98939 119298 35353 XOR\n2 1 35352 35353 35351 AND\n2 1 35351 119298 119299 XOR\n2 1 119330 119299 96892 XOR\n2 1 100988 119299 35355 XOR\n2 1 98940 119299 35356 XOR\n2 1 35355 35356 35354 AND\n2 1 35354 119299 119300 XOR\n2 1 119331 119300 96893 XOR\n2 1 100989 119300 35358 XOR\n2 1 98941 119300 35359 XOR\n2 1 35358 35359 35357 AND\n2 1 35357 119300 119301 XOR\n2 1 119332 119301 96894 XOR\n2 1 100990 119301 35361 XOR\n2 1 98942 119301 35362 XOR\n2 1 35361 35362 35360 AND\n2 1 35360 119301 119302 XOR\n2 1 119333 119302 96895 XOR\n2 1 100991 119302 35364 XOR\n2 1 98943 119302 35365 XOR\n2 1 35364 35365 35363 AND\n2 1 35363 119302 119303 XOR\n2 1 119334 119303 96896 XOR\n2 1 100992 119303 35367 XOR\n2 1 98944 119303 35368 XOR\n2 1 35367 35368 35366 AND\n2 1 35366 119303 119304 XOR\n2 1 119335 119304 96897 XOR\n2 1 100993 119304 35370 XOR\n2 1 98945 119304 35371 XOR\n2 1 35370 35371 35369 AND\n2 1 35369 119304 119305 XOR\n2 1 119336 119305 96898 XOR\n2 1 100994 119305 35373 XOR\n2 1 98946 119305 35374 XOR\n2 1 35373 35374 35372 AND\n2 1 35372 119305 119306 XOR\n2 1 119337 119306 96899 XOR\n2 1 100995 119306 35376 XOR\n",
"2 1 98947 119306 35377 XOR\n2 1 35376 35377 35375 AND\n2 1 35375 119306 119307 XOR\n2 1 119338 119307 96900 XOR\n2 1 100996 119307 35379 XOR\n2 1 98948 119307 35380 XOR\n2 1 35379 35380 35378 AND\n2 1 35378 119307 119308 XOR\n2 1 119339 119308 96901 XOR\n2 1 100997 119308 35382 XOR\n2 1 98949 119308 35383 XOR\n2 1 35382 35383 35381 AND\n2 1 35381 119308 119309 XOR\n2 1 119340 119309 96902 XOR\n2 1 100998 119309 35385 XOR\n2 1 98950 119309 35386 XOR\n2 1 35385 35386 35384 AND\n2 1 35384 119309 119310 XOR\n2 1 119341 119310 96903 XOR\n2 1 100999 119310 35388 XOR\n2 1 98951 119310 35389 XOR\n2 1 35388 35389 35387 AND\n2 1 35387 119310 119311 XOR\n2 1 119342 119311 96904 XOR\n2 1 101000 119311 35391 XOR\n2 1 98952 119311 35392 XOR\n2 1 35391 35392 35390 AND\n2 1 35390 119311 119312 XOR\n2 1 119343 119312 96905 XOR\n2 1 101001 119312 35394 XOR\n2 1 98953 119312 35395 XOR\n2 1 35394 35395 35393 AND\n2 1 35393 119312 119313 XOR\n2 1 119344 119313 96906 XOR\n2 1 101002 119313 35397 XOR\n2 1 98954 119313 35398 XOR\n2 1 35397 35398 35396 AND\n2 1 35396 119313 119314 XOR\n2 1 119345 119314 96907 XOR\n2 1 101003 119314 35400 XOR\n2 1 98955 119314 35401 XOR\n2 1 35400 35401 35399 AND\n2 1 35399 119314 119315 XOR\n2 1 119346 119315 96908 XOR\n2 1 101004 119315 35403 XOR\n2 1 98956 119315 35404 XOR\n2 1 35403 35404 35402 AND\n2 1 35402 119315 119316 XOR\n2 1 119347 119316 96909 XOR\n2 1 101005 119316 35406 XOR\n2 1 98957 119316 35407 XOR\n2 1 35406 35407 35405 AND\n2 1 35405 119316 119317 XOR\n2 1 119348 119317 96910 XOR\n2 1 101006 119317 35409 XOR\n2 1 98958 119317 35410 XOR\n2 1 35409 35410 35408 AND\n2 1 35408 119317 119318 XOR\n2 1 119349 119318 96911 XOR\n2 1 101007 119318 35412 XOR\n2 1 98959 119318 35413 XOR\n2 1 35412 35413 35411 AND\n2 1 35411 119318 119319 XOR\n2 1 119350 119319 96912 XOR\n2 1 101008 119319 35415 XOR\n2 1 98960 119319 35416 XOR\n2 1 35415 35416 35414 AND\n2 1 35414 119319 119320 XOR\n2 1 119351 119320 96913 XOR\n2 1 101009 119320 35418 XOR\n2 1 98961 119320 35419 XOR\n2 1 35418 35419 35417 AND\n2 1 35417 119320 119321 XOR\n2 1 119352 119321 96914 XOR\n2 1 101010 119321 35421 XOR\n2 1 98962 119321 35422 XOR\n2 1 35421 35422 35420 AND\n2 1 35420 119321 119322 XOR\n2 1 119353 119322 96915 XOR\n2 1 101011 119322 35424 XOR\n2 1 98963 119322 35425 XOR\n2 1 35424 35425 35423 AND\n2 1 35423 119322 119323 XOR\n2 1 119354 119323 96916 XOR\n2 1 101012 119323 35427 XOR\n2 1 98964 119323 35428 XOR\n2 1 35427 35428 35426 AND\n2 1 35426 119323 119324 XOR\n2 1 119355 119324 96917 XOR\n2 1 76801 76803 81616 XOR\n2 1 81616 76976 133104 XOR\n2 1 76800 76802 81615 XOR\n2 1 81615 76975 133103 XOR\n2 1 76799 76801 81614 XOR\n2 1 81614 76974 133102 XOR\n2 1 76798 76800 81613 XOR\n2 1 81613 76973 133101 XOR\n2 1 76797 76799 81612 XOR\n2 1 81612 76972 133100 XOR\n2 1 76796 76798 81611 XOR\n2 1 81611 76971 133099 XOR\n2 1 76795 76797 81610 XOR\n2 1 81610 76970 133098 XOR\n2 1 76794 76796 81609 XOR\n2 1 81609 76969 133097 XOR\n2 1 76793 76795 81608 XOR\n2 1 81608 76968 133096 XOR\n2 1 76792 76794 81607 XOR\n2 1 81607 76967 133095 XOR\n2 1 76791 76793 6903 XOR\n2 1 76790 76792 6902 XOR\n2 1 76789 76791 6901 XOR\n2 1 76788 76790 6900 XOR\n2 1 76787 76789 6899 XOR\n2 1 76786 76788 6898 XOR\n2 1 76785 76787 6897 XOR\n2 1 76816 76786 6896 XOR\n2 1 76815 76785 6895 XOR\n2 1 76814 76816 6894 XOR\n2 1 76813 76815 6893 XOR\n2 1 76812 76814 6892 XOR\n2 1 76811 76813 6891 XOR\n2 1 76810 76812 6890 XOR\n2 1 76809 76811 6889 XOR\n2 1 76808 76810 6888 XOR\n2 1 76807 76809 6887 XOR\n2 1 76806 76808 6886 XOR\n2 1 76805 76807 6885 XOR\n",
"2 1 76804 76806 6884 XOR\n2 1 76803 76805 6883 XOR\n2 1 76802 76804 6882 XOR\n2 1 6903 76816 81606 XOR\n2 1 81606 76966 133094 XOR\n2 1 6902 76815 81605 XOR\n2 1 81605 76965 133093 XOR\n2 1 6901 76814 81604 XOR\n2 1 81604 76964 133092 XOR\n2 1 6900 76813 81603 XOR\n2 1 81603 76963 133091 XOR\n2 1 6899 76812 81602 XOR\n2 1 81602 76962 133090 XOR\n2 1 6898 76811 81601 XOR\n2 1 81601 76961 133089 XOR\n2 1 6897 76810 81600 XOR\n2 1 81600 76960 133088 XOR\n2 1 6896 76809 81599 XOR\n2 1 81599 76959 133087 XOR\n2 1 6895 76808 81598 XOR\n2 1 81598 76958 133086 XOR\n2 1 6894 76807 81597 XOR\n2 1 81597 76957 133085 XOR\n2 1 6893 76806 81596 XOR\n2 1 81596 76956 133084 XOR\n2 1 6892 76805 81595 XOR\n2 1 81595 76955 133083 XOR\n2 1 6891 76804 81594 XOR\n2 1 81594 76954 133082 XOR\n2 1 6890 76803 81593 XOR\n2 1 81593 76953 133081 XOR\n2 1 6889 76802 81592 XOR\n2 1 81592 76952 133080 XOR\n2 1 6888 76801 81591 XOR\n2 1 81591 76951 133079 XOR\n2 1 6887 76800 81590 XOR\n2 1 81590 76950 133078 XOR\n2 1 6886 76799 81589 XOR\n2 1 81589 76949 133077 XOR\n2 1 6885 76798 81588 XOR\n2 1 81588 76948 133076 XOR\n2 1 6884 76797 81587 XOR\n2 1 81587 76947 133075 XOR\n2 1 6883 76796 81586 XOR\n2 1 81586 76946 133074 XOR\n2 1 6882 76795 81585 XOR\n2 1 81585 76945 133043 AND\n2 1 81585 76945 80049 XOR\n2 1 80049 78513 132919 AND\n2 1 80049 78513 76721 XOR\n2 1 76721 3360 119232 AND\n2 1 76721 3360 94838 XOR\n2 1 96886 94838 119170 AND\n2 1 96886 94838 92813 XOR\n1 1 92813 90801 INV\n2 1 96887 119170 35160 XOR\n2 1 3361 119232 35251 XOR\n2 1 90801 84657 106808 AND\n2 1 90801 84657 2720 XOR\n2 1 84658 106808 14168 XOR\n2 1 2848 90801 3232 XOR\n2 1 2848 90801 106746 AND\n2 1 78514 132919 57397 XOR\n2 1 133074 133043 80050 XOR\n2 1 80050 78514 132950 XOR\n2 1 132950 132919 76722 XOR\n2 1 76722 3361 119263 XOR\n2 1 119263 119232 94839 XOR\n2 1 96887 94839 119201 XOR\n2 1 119201 119170 92814 XOR\n1 1 92814 35144 INV\n2 1 35144 92813 90802 XOR\n2 1 92814 92813 35058 XOR\n2 1 35058 90801 35057 AND\n2 1 35057 92813 35060 XOR\n2 1 94839 119170 35161 XOR\n2 1 35160 35161 35159 AND\n2 1 35159 119170 119171 XOR\n2 1 96888 119171 35163 XOR\n2 1 76722 119232 35250 XOR\n2 1 35250 35251 35249 AND\n2 1 35249 119232 119233 XOR\n2 1 3362 119233 35254 XOR\n2 1 2849 90802 106777 XOR\n2 1 90802 84658 106839 XOR\n2 1 106839 106808 2721 XOR\n2 1 90802 106808 14167 XOR\n2 1 14167 14168 14166 AND\n2 1 14166 106808 106809 XOR\n2 1 84659 106809 14171 XOR\n2 1 106777 106746 3233 XOR\n2 1 80050 132919 57396 XOR\n2 1 57396 57397 57395 AND\n2 1 57395 132919 132920 XOR\n2 1 78515 132920 57400 XOR\n2 1 81586 133043 57576 XOR\n2 1 76946 133043 57577 XOR\n2 1 57576 57577 57575 AND\n2 1 57575 133043 133044 XOR\n2 1 133075 133044 80051 XOR\n2 1 80051 78515 132951 XOR\n2 1 132951 132920 76723 XOR\n2 1 76723 3362 119264 XOR\n2 1 119264 119233 94840 XOR\n2 1 96888 94840 119202 XOR\n2 1 119202 119171 92815 XOR\n2 1 92815 35060 90803 XOR\n2 1 90803 35060 35059 AND\n2 1 35059 35060 35062 XOR\n2 1 94840 119171 35164 XOR\n2 1 35163 35164 35162 AND\n2 1 35162 119171 119172 XOR\n2 1 96889 119172 35166 XOR\n2 1 76723 119233 35253 XOR\n2 1 35253 35254 35252 AND\n2 1 35252 119233 119234 XOR\n2 1 3363 119234 35257 XOR\n2 1 90803 84659 106840 XOR\n2 1 106840 106809 2722 XOR\n2 1 90803 106809 14170 XOR\n2 1 14170 14171 14169 AND\n2 1 14169 106809 106810 XOR\n2 1 84660 106810 14174 XOR\n2 1 80051 132920 57399 XOR\n2 1 57399 57400 57398 AND\n2 1 57398 132920 132921 XOR\n2 1 78516 132921 57403 XOR\n2 1 81587 133044 57579 XOR\n",
"2 1 76947 133044 57580 XOR\n2 1 57579 57580 57578 AND\n2 1 57578 133044 133045 XOR\n2 1 133076 133045 80052 XOR\n2 1 80052 78516 132952 XOR\n2 1 132952 132921 76724 XOR\n2 1 76724 3363 119265 XOR\n2 1 119265 119234 94841 XOR\n2 1 96889 94841 119203 XOR\n2 1 119203 119172 92816 XOR\n2 1 92816 35062 90804 XOR\n2 1 90804 35062 35061 AND\n2 1 35061 35062 35130 XOR\n1 1 35130 35065 INV\n2 1 94841 119172 35167 XOR\n2 1 35166 35167 35165 AND\n2 1 35165 119172 119173 XOR\n2 1 96890 119173 35169 XOR\n2 1 76724 119234 35256 XOR\n2 1 35256 35257 35255 AND\n2 1 35255 119234 119235 XOR\n2 1 3364 119235 35260 XOR\n2 1 90804 84660 106841 XOR\n2 1 106841 106810 2723 XOR\n2 1 90804 106810 14173 XOR\n2 1 14173 14174 14172 AND\n2 1 14172 106810 106811 XOR\n2 1 84661 106811 14177 XOR\n2 1 80052 132921 57402 XOR\n2 1 57402 57403 57401 AND\n2 1 57401 132921 132922 XOR\n2 1 78517 132922 57406 XOR\n2 1 81588 133045 57582 XOR\n2 1 76948 133045 57583 XOR\n2 1 57582 57583 57581 AND\n2 1 57581 133045 133046 XOR\n2 1 133077 133046 80053 XOR\n2 1 80053 78517 132953 XOR\n2 1 132953 132922 76725 XOR\n2 1 76725 3364 119266 XOR\n2 1 119266 119235 94842 XOR\n2 1 96890 94842 119204 XOR\n2 1 119204 119173 92817 XOR\n1 1 92817 35145 INV\n2 1 35145 35130 90805 XOR\n2 1 92817 35130 35064 XOR\n2 1 35064 35065 35063 AND\n2 1 35063 35130 35131 XOR\n1 1 35131 35068 INV\n2 1 94842 119173 35170 XOR\n2 1 35169 35170 35168 AND\n2 1 35168 119173 119174 XOR\n2 1 96891 119174 35172 XOR\n2 1 76725 119235 35259 XOR\n2 1 35259 35260 35258 AND\n2 1 35258 119235 119236 XOR\n2 1 3365 119236 35263 XOR\n2 1 90805 84661 106842 XOR\n2 1 106842 106811 2724 XOR\n2 1 90805 106811 14176 XOR\n2 1 14176 14177 14175 AND\n2 1 14175 106811 106812 XOR\n2 1 84662 106812 14180 XOR\n2 1 80053 132922 57405 XOR\n2 1 57405 57406 57404 AND\n2 1 57404 132922 132923 XOR\n2 1 78518 132923 57409 XOR\n2 1 81589 133046 57585 XOR\n2 1 76949 133046 57586 XOR\n2 1 57585 57586 57584 AND\n2 1 57584 133046 133047 XOR\n2 1 133078 133047 80054 XOR\n2 1 80054 78518 132954 XOR\n2 1 132954 132923 76726 XOR\n2 1 76726 3365 119267 XOR\n2 1 119267 119236 94843 XOR\n2 1 96891 94843 119205 XOR\n2 1 119205 119174 92818 XOR\n1 1 92818 35146 INV\n2 1 35146 35131 90806 XOR\n2 1 92818 35131 35067 XOR\n2 1 35067 35068 35066 AND\n2 1 35066 35131 35132 XOR\n1 1 35132 35071 INV\n2 1 94843 119174 35173 XOR\n2 1 35172 35173 35171 AND\n2 1 35171 119174 119175 XOR\n2 1 96892 119175 35175 XOR\n2 1 76726 119236 35262 XOR\n2 1 35262 35263 35261 AND\n2 1 35261 119236 119237 XOR\n2 1 3366 119237 35266 XOR\n2 1 90806 106812 14179 XOR\n2 1 2853 90806 106781 XOR\n2 1 90806 84662 106843 XOR\n2 1 106843 106812 2725 XOR\n2 1 80054 132923 57408 XOR\n2 1 57408 57409 57407 AND\n2 1 57407 132923 132924 XOR\n2 1 78519 132924 57412 XOR\n2 1 81590 133047 57588 XOR\n2 1 76950 133047 57589 XOR\n2 1 57588 57589 57587 AND\n2 1 57587 133047 133048 XOR\n2 1 133079 133048 80055 XOR\n2 1 80055 78519 132955 XOR\n2 1 132955 132924 76727 XOR\n2 1 76727 3366 119268 XOR\n2 1 119268 119237 94844 XOR\n2 1 96892 94844 119206 XOR\n2 1 119206 119175 92819 XOR\n1 1 92819 35147 INV\n2 1 35147 35132 90807 XOR\n2 1 92819 35132 35070 XOR\n2 1 35070 35071 35069 AND\n2 1 35069 35132 35133 XOR\n1 1 35133 35074 INV\n2 1 94844 119175 35176 XOR\n2 1 35175 35176 35174 AND\n2 1 35174 119175 119176 XOR\n2 1 96893 119176 35178 XOR\n2 1 76727 119237 35265 XOR\n2 1 35265 35266 35264 AND\n2 1 35264 119237 119238 XOR\n2 1 3367 119238 35269 XOR\n2 1 90807 84663 106844 XOR\n2 1 80055 132924 57411 XOR\n2 1 57411 57412 57410 AND\n",
"2 1 57410 132924 132925 XOR\n2 1 78520 132925 57415 XOR\n2 1 81591 133048 57591 XOR\n2 1 76951 133048 57592 XOR\n2 1 57591 57592 57590 AND\n2 1 57590 133048 133049 XOR\n2 1 133080 133049 80056 XOR\n2 1 80056 78520 132956 XOR\n2 1 132956 132925 76728 XOR\n2 1 76728 3367 119269 XOR\n2 1 119269 119238 94845 XOR\n2 1 96893 94845 119207 XOR\n2 1 119207 119176 92820 XOR\n1 1 92820 35148 INV\n2 1 35148 35133 90808 XOR\n2 1 92820 35133 35073 XOR\n2 1 35073 35074 35072 AND\n2 1 35072 35133 35134 XOR\n1 1 35134 35077 INV\n2 1 94845 119176 35179 XOR\n2 1 35178 35179 35177 AND\n2 1 35177 119176 119177 XOR\n2 1 96894 119177 35181 XOR\n2 1 76728 119238 35268 XOR\n2 1 35268 35269 35267 AND\n2 1 35267 119238 119239 XOR\n2 1 3368 119239 35272 XOR\n2 1 2855 90808 106783 XOR\n2 1 90808 84664 106845 XOR\n2 1 80056 132925 57414 XOR\n2 1 57414 57415 57413 AND\n2 1 57413 132925 132926 XOR\n2 1 78521 132926 57418 XOR\n2 1 81592 133049 57594 XOR\n2 1 76952 133049 57595 XOR\n2 1 57594 57595 57593 AND\n2 1 57593 133049 133050 XOR\n2 1 133081 133050 80057 XOR\n2 1 80057 78521 132957 XOR\n2 1 132957 132926 76729 XOR\n2 1 76729 3368 119270 XOR\n2 1 119270 119239 94846 XOR\n2 1 96894 94846 119208 XOR\n2 1 119208 119177 92821 XOR\n1 1 92821 35149 INV\n2 1 35149 35134 90809 XOR\n2 1 92821 35134 35076 XOR\n2 1 35076 35077 35075 AND\n2 1 35075 35134 35135 XOR\n1 1 35135 35080 INV\n2 1 94846 119177 35182 XOR\n2 1 35181 35182 35180 AND\n2 1 35180 119177 119178 XOR\n2 1 96895 119178 35184 XOR\n2 1 76729 119239 35271 XOR\n2 1 35271 35272 35270 AND\n2 1 35270 119239 119240 XOR\n2 1 3369 119240 35275 XOR\n2 1 90809 84665 106846 XOR\n2 1 80057 132926 57417 XOR\n2 1 57417 57418 57416 AND\n2 1 57416 132926 132927 XOR\n2 1 78522 132927 57421 XOR\n2 1 81593 133050 57597 XOR\n2 1 76953 133050 57598 XOR\n2 1 57597 57598 57596 AND\n2 1 57596 133050 133051 XOR\n2 1 133082 133051 80058 XOR\n2 1 80058 78522 132958 XOR\n2 1 132958 132927 76730 XOR\n2 1 76730 3369 119271 XOR\n2 1 119271 119240 94847 XOR\n2 1 96895 94847 119209 XOR\n2 1 119209 119178 92822 XOR\n1 1 92822 35150 INV\n2 1 35150 35135 90810 XOR\n2 1 92822 35135 35079 XOR\n2 1 35079 35080 35078 AND\n2 1 35078 35135 35082 XOR\n2 1 94847 119178 35185 XOR\n2 1 35184 35185 35183 AND\n2 1 35183 119178 119179 XOR\n2 1 96896 119179 35187 XOR\n2 1 76730 119240 35274 XOR\n2 1 35274 35275 35273 AND\n2 1 35273 119240 119241 XOR\n2 1 3370 119241 35278 XOR\n2 1 90810 84666 106847 XOR\n2 1 80058 132927 57420 XOR\n2 1 57420 57421 57419 AND\n2 1 57419 132927 132928 XOR\n2 1 78523 132928 57424 XOR\n2 1 81594 133051 57600 XOR\n2 1 76954 133051 57601 XOR\n2 1 57600 57601 57599 AND\n2 1 57599 133051 133052 XOR\n2 1 133083 133052 80059 XOR\n2 1 80059 78523 132959 XOR\n2 1 132959 132928 76731 XOR\n2 1 76731 3370 119272 XOR\n2 1 119272 119241 94848 XOR\n2 1 96896 94848 119210 XOR\n2 1 119210 119179 92823 XOR\n2 1 92823 35082 90811 XOR\n2 1 90811 35082 35081 AND\n2 1 35081 35082 35136 XOR\n1 1 35136 35085 INV\n2 1 94848 119179 35188 XOR\n2 1 35187 35188 35186 AND\n2 1 35186 119179 119180 XOR\n2 1 96897 119180 35190 XOR\n2 1 76731 119241 35277 XOR\n2 1 35277 35278 35276 AND\n2 1 35276 119241 119242 XOR\n2 1 3371 119242 35281 XOR\n2 1 90811 84667 106848 XOR\n2 1 80059 132928 57423 XOR\n2 1 57423 57424 57422 AND\n2 1 57422 132928 132929 XOR\n2 1 78524 132929 57427 XOR\n2 1 81595 133052 57603 XOR\n2 1 76955 133052 57604 XOR\n2 1 57603 57604 57602 AND\n2 1 57602 133052 133053 XOR\n2 1 133084 133053 80060 XOR\n2 1 80060 78524 132960 XOR\n2 1 132960 132929 76732 XOR\n2 1 76732 3371 119273 XOR\n",
"2 1 119273 119242 94849 XOR\n2 1 96897 94849 119211 XOR\n2 1 119211 119180 92824 XOR\n1 1 92824 35151 INV\n2 1 35151 35136 90812 XOR\n2 1 92824 35136 35084 XOR\n2 1 35084 35085 35083 AND\n2 1 35083 35136 35087 XOR\n2 1 94849 119180 35191 XOR\n2 1 35190 35191 35189 AND\n2 1 35189 119180 119181 XOR\n2 1 96898 119181 35193 XOR\n2 1 76732 119242 35280 XOR\n2 1 35280 35281 35279 AND\n2 1 35279 119242 119243 XOR\n2 1 3372 119243 35284 XOR\n2 1 90812 84668 106849 XOR\n2 1 80060 132929 57426 XOR\n2 1 57426 57427 57425 AND\n2 1 57425 132929 132930 XOR\n2 1 78525 132930 57430 XOR\n2 1 81596 133053 57606 XOR\n2 1 76956 133053 57607 XOR\n2 1 57606 57607 57605 AND\n2 1 57605 133053 133054 XOR\n2 1 133085 133054 80061 XOR\n2 1 80061 78525 132961 XOR\n2 1 132961 132930 76733 XOR\n2 1 76733 3372 119274 XOR\n2 1 119274 119243 94850 XOR\n2 1 96898 94850 119212 XOR\n2 1 119212 119181 92825 XOR\n2 1 92825 35087 90813 XOR\n2 1 90813 35087 35086 AND\n2 1 35086 35087 35089 XOR\n2 1 94850 119181 35194 XOR\n2 1 35193 35194 35192 AND\n2 1 35192 119181 119182 XOR\n2 1 96899 119182 35196 XOR\n2 1 76733 119243 35283 XOR\n2 1 35283 35284 35282 AND\n2 1 35282 119243 119244 XOR\n2 1 3373 119244 35287 XOR\n2 1 90813 84669 106850 XOR\n2 1 80061 132930 57429 XOR\n2 1 57429 57430 57428 AND\n2 1 57428 132930 132931 XOR\n2 1 78526 132931 57433 XOR\n2 1 81597 133054 57609 XOR\n2 1 76957 133054 57610 XOR\n2 1 57609 57610 57608 AND\n2 1 57608 133054 133055 XOR\n2 1 133086 133055 80062 XOR\n2 1 80062 78526 132962 XOR\n2 1 132962 132931 76734 XOR\n2 1 76734 3373 119275 XOR\n2 1 119275 119244 94851 XOR\n2 1 96899 94851 119213 XOR\n2 1 119213 119182 92826 XOR\n2 1 92826 35089 90814 XOR\n2 1 90814 35089 35088 AND\n2 1 35088 35089 35091 XOR\n2 1 94851 119182 35197 XOR\n2 1 35196 35197 35195 AND\n2 1 35195 119182 119183 XOR\n2 1 96900 119183 35199 XOR\n2 1 76734 119244 35286 XOR\n2 1 35286 35287 35285 AND\n2 1 35285 119244 119245 XOR\n2 1 3374 119245 35290 XOR\n2 1 2861 90814 106789 XOR\n2 1 90814 84670 106851 XOR\n2 1 80062 132931 57432 XOR\n2 1 57432 57433 57431 AND\n2 1 57431 132931 132932 XOR\n2 1 78527 132932 57436 XOR\n2 1 81598 133055 57612 XOR\n2 1 76958 133055 57613 XOR\n2 1 57612 57613 57611 AND\n2 1 57611 133055 133056 XOR\n2 1 133087 133056 80063 XOR\n2 1 80063 78527 132963 XOR\n2 1 132963 132932 76735 XOR\n2 1 76735 3374 119276 XOR\n2 1 119276 119245 94852 XOR\n2 1 96900 94852 119214 XOR\n2 1 119214 119183 92827 XOR\n2 1 92827 35091 90815 XOR\n2 1 90815 35091 35090 AND\n2 1 35090 35091 35093 XOR\n2 1 94852 119183 35200 XOR\n2 1 35199 35200 35198 AND\n2 1 35198 119183 119184 XOR\n2 1 96901 119184 35202 XOR\n2 1 76735 119245 35289 XOR\n2 1 35289 35290 35288 AND\n2 1 35288 119245 119246 XOR\n2 1 3375 119246 35293 XOR\n2 1 2862 90815 106790 XOR\n2 1 90815 84671 106852 XOR\n2 1 80063 132932 57435 XOR\n2 1 57435 57436 57434 AND\n2 1 57434 132932 132933 XOR\n2 1 78528 132933 57439 XOR\n2 1 81599 133056 57615 XOR\n2 1 76959 133056 57616 XOR\n2 1 57615 57616 57614 AND\n2 1 57614 133056 133057 XOR\n2 1 133088 133057 80064 XOR\n2 1 80064 78528 132964 XOR\n2 1 132964 132933 76736 XOR\n2 1 76736 3375 119277 XOR\n2 1 119277 119246 94853 XOR\n2 1 96901 94853 119215 XOR\n2 1 119215 119184 92828 XOR\n2 1 92828 35093 90816 XOR\n2 1 90816 35093 35092 AND\n2 1 35092 35093 35095 XOR\n2 1 94853 119184 35203 XOR\n2 1 35202 35203 35201 AND\n2 1 35201 119184 119185 XOR\n2 1 96902 119185 35205 XOR\n2 1 76736 119246 35292 XOR\n2 1 35292 35293 35291 AND\n2 1 35291 119246 119247 XOR\n2 1 3376 119247 35296 XOR\n2 1 2863 90816 106791 XOR\n2 1 90816 84672 106853 XOR\n",
"2 1 80064 132933 57438 XOR\n2 1 57438 57439 57437 AND\n2 1 57437 132933 132934 XOR\n2 1 78529 132934 57442 XOR\n2 1 81600 133057 57618 XOR\n2 1 76960 133057 57619 XOR\n2 1 57618 57619 57617 AND\n2 1 57617 133057 133058 XOR\n2 1 133089 133058 80065 XOR\n2 1 80065 78529 132965 XOR\n2 1 132965 132934 76737 XOR\n2 1 76737 3376 119278 XOR\n2 1 119278 119247 94854 XOR\n2 1 96902 94854 119216 XOR\n2 1 119216 119185 92829 XOR\n2 1 92829 35095 90817 XOR\n2 1 90817 35095 35094 AND\n2 1 35094 35095 35097 XOR\n2 1 94854 119185 35206 XOR\n2 1 35205 35206 35204 AND\n2 1 35204 119185 119186 XOR\n2 1 96903 119186 35208 XOR\n2 1 76737 119247 35295 XOR\n2 1 35295 35296 35294 AND\n2 1 35294 119247 119248 XOR\n2 1 3377 119248 35299 XOR\n2 1 2864 90817 106792 XOR\n2 1 90817 84673 106854 XOR\n2 1 80065 132934 57441 XOR\n2 1 57441 57442 57440 AND\n2 1 57440 132934 132935 XOR\n2 1 78530 132935 57445 XOR\n2 1 81601 133058 57621 XOR\n2 1 76961 133058 57622 XOR\n2 1 57621 57622 57620 AND\n2 1 57620 133058 133059 XOR\n2 1 133090 133059 80066 XOR\n2 1 80066 78530 132966 XOR\n2 1 132966 132935 76738 XOR\n2 1 76738 3377 119279 XOR\n2 1 119279 119248 94855 XOR\n2 1 96903 94855 119217 XOR\n2 1 119217 119186 92830 XOR\n2 1 92830 35097 90818 XOR\n2 1 90818 35097 35096 AND\n2 1 35096 35097 35099 XOR\n2 1 94855 119186 35209 XOR\n2 1 35208 35209 35207 AND\n2 1 35207 119186 119187 XOR\n2 1 96904 119187 35211 XOR\n2 1 76738 119248 35298 XOR\n2 1 35298 35299 35297 AND\n2 1 35297 119248 119249 XOR\n2 1 3378 119249 35302 XOR\n2 1 2865 90818 106793 XOR\n2 1 90818 84674 106855 XOR\n2 1 80066 132935 57444 XOR\n2 1 57444 57445 57443 AND\n2 1 57443 132935 132936 XOR\n2 1 78531 132936 57448 XOR\n2 1 81602 133059 57624 XOR\n2 1 76962 133059 57625 XOR\n2 1 57624 57625 57623 AND\n2 1 57623 133059 133060 XOR\n2 1 133091 133060 80067 XOR\n2 1 80067 78531 132967 XOR\n2 1 132967 132936 76739 XOR\n2 1 76739 3378 119280 XOR\n2 1 119280 119249 94856 XOR\n2 1 96904 94856 119218 XOR\n2 1 119218 119187 92831 XOR\n2 1 92831 35099 90819 XOR\n2 1 90819 35099 35098 AND\n2 1 35098 35099 35101 XOR\n2 1 94856 119187 35212 XOR\n2 1 35211 35212 35210 AND\n2 1 35210 119187 119188 XOR\n2 1 96905 119188 35214 XOR\n2 1 76739 119249 35301 XOR\n2 1 35301 35302 35300 AND\n2 1 35300 119249 119250 XOR\n2 1 3379 119250 35305 XOR\n2 1 2866 90819 106794 XOR\n2 1 90819 84675 106856 XOR\n2 1 80067 132936 57447 XOR\n2 1 57447 57448 57446 AND\n2 1 57446 132936 132937 XOR\n2 1 78532 132937 57451 XOR\n2 1 81603 133060 57627 XOR\n2 1 76963 133060 57628 XOR\n2 1 57627 57628 57626 AND\n2 1 57626 133060 133061 XOR\n2 1 133092 133061 80068 XOR\n2 1 80068 78532 132968 XOR\n2 1 132968 132937 76740 XOR\n2 1 76740 3379 119281 XOR\n2 1 119281 119250 94857 XOR\n2 1 96905 94857 119219 XOR\n2 1 119219 119188 92832 XOR\n2 1 94857 119188 35215 XOR\n2 1 35214 35215 35213 AND\n2 1 35213 119188 119189 XOR\n2 1 96906 119189 35217 XOR\n2 1 76740 119250 35304 XOR\n2 1 35304 35305 35303 AND\n2 1 35303 119250 119251 XOR\n2 1 3380 119251 35308 XOR\n2 1 92832 35101 90820 XOR\n2 1 2867 90820 106795 XOR\n2 1 90820 84676 106857 XOR\n2 1 90820 35101 35100 AND\n2 1 35100 35101 35103 XOR\n2 1 80068 132937 57450 XOR\n2 1 57450 57451 57449 AND\n2 1 57449 132937 132938 XOR\n2 1 78533 132938 57454 XOR\n2 1 81604 133061 57630 XOR\n2 1 76964 133061 57631 XOR\n2 1 57630 57631 57629 AND\n2 1 57629 133061 133062 XOR\n2 1 133093 133062 80069 XOR\n2 1 80069 78533 132969 XOR\n2 1 132969 132938 76741 XOR\n2 1 76741 3380 119282 XOR\n2 1 119282 119251 94858 XOR\n2 1 96906 94858 119220 XOR\n2 1 119220 119189 92833 XOR\n2 1 94858 119189 35218 XOR\n",
"2 1 35217 35218 35216 AND\n2 1 35216 119189 119190 XOR\n2 1 96907 119190 35220 XOR\n2 1 76741 119251 35307 XOR\n2 1 35307 35308 35306 AND\n2 1 35306 119251 119252 XOR\n2 1 3381 119252 35311 XOR\n2 1 80069 132938 57453 XOR\n2 1 57453 57454 57452 AND\n2 1 57452 132938 132939 XOR\n2 1 78534 132939 57457 XOR\n2 1 92833 35103 90821 XOR\n2 1 90821 84677 106858 XOR\n2 1 2868 90821 106796 XOR\n2 1 90821 35103 35102 AND\n2 1 35102 35103 35137 XOR\n1 1 35137 35106 INV\n2 1 81605 133062 57633 XOR\n2 1 76965 133062 57634 XOR\n2 1 57633 57634 57632 AND\n2 1 57632 133062 133063 XOR\n2 1 133094 133063 80070 XOR\n2 1 80070 78534 132970 XOR\n2 1 132970 132939 76742 XOR\n2 1 76742 3381 119283 XOR\n2 1 119283 119252 94859 XOR\n2 1 94859 119190 35221 XOR\n2 1 35220 35221 35219 AND\n2 1 35219 119190 119191 XOR\n2 1 96908 119191 35223 XOR\n2 1 76742 119252 35310 XOR\n2 1 35310 35311 35309 AND\n2 1 35309 119252 119253 XOR\n2 1 3382 119253 35314 XOR\n2 1 96907 94859 119221 XOR\n2 1 119221 119190 92834 XOR\n2 1 92834 35137 35105 XOR\n2 1 80070 132939 57456 XOR\n2 1 57456 57457 57455 AND\n2 1 57455 132939 132940 XOR\n2 1 78535 132940 57460 XOR\n1 1 92834 35152 INV\n2 1 35152 35137 90822 XOR\n2 1 90822 84678 106859 XOR\n2 1 2869 90822 106797 XOR\n2 1 35105 35106 35104 AND\n2 1 35104 35137 35138 XOR\n1 1 35138 35109 INV\n2 1 81606 133063 57636 XOR\n2 1 76966 133063 57637 XOR\n2 1 57636 57637 57635 AND\n2 1 57635 133063 133064 XOR\n2 1 133095 133064 80071 XOR\n2 1 80071 78535 132971 XOR\n2 1 132971 132940 76743 XOR\n2 1 76743 3382 119284 XOR\n2 1 119284 119253 94860 XOR\n2 1 94860 119191 35224 XOR\n2 1 35223 35224 35222 AND\n2 1 35222 119191 119192 XOR\n2 1 96909 119192 35226 XOR\n2 1 96908 94860 119222 XOR\n2 1 119222 119191 92835 XOR\n2 1 76743 119253 35313 XOR\n2 1 35313 35314 35312 AND\n2 1 35312 119253 119254 XOR\n2 1 3383 119254 35317 XOR\n2 1 80071 132940 57459 XOR\n2 1 57459 57460 57458 AND\n2 1 57458 132940 132941 XOR\n2 1 78536 132941 57463 XOR\n1 1 92835 35153 INV\n2 1 35153 35138 90823 XOR\n2 1 90823 84679 106860 XOR\n2 1 2870 90823 106798 XOR\n2 1 92835 35138 35108 XOR\n2 1 35108 35109 35107 AND\n2 1 35107 35138 35139 XOR\n1 1 35139 35112 INV\n2 1 81607 133064 57639 XOR\n2 1 76967 133064 57640 XOR\n2 1 57639 57640 57638 AND\n2 1 57638 133064 133065 XOR\n2 1 133096 133065 80072 XOR\n2 1 80072 78536 132972 XOR\n2 1 132972 132941 76744 XOR\n2 1 76744 3383 119285 XOR\n2 1 119285 119254 94861 XOR\n2 1 94861 119192 35227 XOR\n2 1 35226 35227 35225 AND\n2 1 35225 119192 119193 XOR\n2 1 96910 119193 35229 XOR\n2 1 96909 94861 119223 XOR\n2 1 119223 119192 92836 XOR\n2 1 92836 35139 35111 XOR\n2 1 35111 35112 35110 AND\n2 1 35110 35139 35114 XOR\n2 1 76744 119254 35316 XOR\n2 1 35316 35317 35315 AND\n2 1 35315 119254 119255 XOR\n2 1 3384 119255 35320 XOR\n2 1 80072 132941 57462 XOR\n2 1 57462 57463 57461 AND\n2 1 57461 132941 132942 XOR\n2 1 78537 132942 57466 XOR\n1 1 92836 35154 INV\n2 1 35154 35139 90824 XOR\n2 1 2871 90824 106799 XOR\n2 1 81608 133065 57642 XOR\n2 1 76968 133065 57643 XOR\n2 1 57642 57643 57641 AND\n2 1 57641 133065 133066 XOR\n2 1 133097 133066 80073 XOR\n2 1 80073 78537 132973 XOR\n2 1 132973 132942 76745 XOR\n2 1 76745 3384 119286 XOR\n2 1 119286 119255 94862 XOR\n2 1 96910 94862 119224 XOR\n2 1 119224 119193 92837 XOR\n2 1 94862 119193 35230 XOR\n2 1 35229 35230 35228 AND\n2 1 35228 119193 119194 XOR\n2 1 96911 119194 35232 XOR\n2 1 92837 35114 90825 XOR\n2 1 90825 35114 35113 AND\n2 1 35113 35114 35140 XOR\n2 1 76745 119255 35319 XOR\n2 1 35319 35320 35318 AND\n",
"2 1 35318 119255 119256 XOR\n2 1 3385 119256 35323 XOR\n2 1 2872 90825 106800 XOR\n1 1 35140 35117 INV\n2 1 80073 132942 57465 XOR\n2 1 57465 57466 57464 AND\n2 1 57464 132942 132943 XOR\n2 1 78538 132943 57469 XOR\n2 1 81609 133066 57645 XOR\n2 1 76969 133066 57646 XOR\n2 1 57645 57646 57644 AND\n2 1 57644 133066 133067 XOR\n2 1 133098 133067 80074 XOR\n2 1 80074 78538 132974 XOR\n2 1 132974 132943 76746 XOR\n2 1 76746 3385 119287 XOR\n2 1 119287 119256 94863 XOR\n2 1 94863 119194 35233 XOR\n2 1 35232 35233 35231 AND\n2 1 35231 119194 119195 XOR\n2 1 96912 119195 35235 XOR\n2 1 76746 119256 35322 XOR\n2 1 35322 35323 35321 AND\n2 1 35321 119256 119257 XOR\n2 1 3386 119257 35326 XOR\n2 1 80074 132943 57468 XOR\n2 1 57468 57469 57467 AND\n2 1 57467 132943 132944 XOR\n2 1 96911 94863 119225 XOR\n2 1 119225 119194 92838 XOR\n2 1 92838 35140 35116 XOR\n2 1 35116 35117 35115 AND\n2 1 35115 35140 35141 XOR\n2 1 78539 132944 57472 XOR\n1 1 35141 35120 INV\n1 1 92838 35155 INV\n2 1 35155 35140 90826 XOR\n2 1 2873 90826 106801 XOR\n2 1 81610 133067 57648 XOR\n2 1 76970 133067 57649 XOR\n2 1 57648 57649 57647 AND\n2 1 57647 133067 133068 XOR\n2 1 133099 133068 80075 XOR\n2 1 80075 78539 132975 XOR\n2 1 132975 132944 76747 XOR\n2 1 76747 3386 119288 XOR\n2 1 119288 119257 94864 XOR\n2 1 76747 119257 35325 XOR\n2 1 35325 35326 35324 AND\n2 1 35324 119257 119258 XOR\n2 1 3387 119258 35329 XOR\n2 1 96912 94864 119226 XOR\n2 1 119226 119195 92839 XOR\n1 1 92839 35156 INV\n2 1 35156 35141 90827 XOR\n2 1 2874 90827 106802 XOR\n2 1 92839 35141 35119 XOR\n2 1 35119 35120 35118 AND\n2 1 35118 35141 35122 XOR\n2 1 80075 132944 57471 XOR\n2 1 57471 57472 57470 AND\n2 1 57470 132944 132945 XOR\n2 1 78540 132945 57475 XOR\n2 1 94864 119195 35236 XOR\n2 1 35235 35236 35234 AND\n2 1 35234 119195 119196 XOR\n2 1 96913 119196 35238 XOR\n2 1 81611 133068 57651 XOR\n2 1 76971 133068 57652 XOR\n2 1 57651 57652 57650 AND\n2 1 57650 133068 133069 XOR\n2 1 133100 133069 80076 XOR\n2 1 80076 78540 132976 XOR\n2 1 132976 132945 76748 XOR\n2 1 76748 3387 119289 XOR\n2 1 119289 119258 94865 XOR\n2 1 76748 119258 35328 XOR\n2 1 35328 35329 35327 AND\n2 1 35327 119258 119259 XOR\n2 1 3388 119259 35332 XOR\n2 1 96913 94865 119227 XOR\n2 1 80076 132945 57474 XOR\n2 1 57474 57475 57473 AND\n2 1 57473 132945 132946 XOR\n2 1 78541 132946 57478 XOR\n2 1 119227 119196 92840 XOR\n2 1 92840 35122 90828 XOR\n2 1 2875 90828 106803 XOR\n2 1 90828 84684 106865 XOR\n2 1 90828 35122 35121 AND\n2 1 35121 35122 35124 XOR\n2 1 94865 119196 35239 XOR\n2 1 35238 35239 35237 AND\n2 1 35237 119196 119197 XOR\n2 1 96914 119197 35241 XOR\n2 1 81612 133069 57654 XOR\n2 1 76972 133069 57655 XOR\n2 1 57654 57655 57653 AND\n2 1 57653 133069 133070 XOR\n2 1 133101 133070 80077 XOR\n2 1 80077 78541 132977 XOR\n2 1 132977 132946 76749 XOR\n2 1 76749 119259 35331 XOR\n2 1 35331 35332 35330 AND\n2 1 35330 119259 119260 XOR\n2 1 3389 119260 35335 XOR\n2 1 80077 132946 57477 XOR\n2 1 57477 57478 57476 AND\n2 1 57476 132946 132947 XOR\n2 1 78542 132947 57481 XOR\n2 1 76749 3388 119290 XOR\n2 1 119290 119259 94866 XOR\n2 1 96914 94866 119228 XOR\n2 1 94866 119197 35242 XOR\n2 1 119228 119197 92841 XOR\n2 1 92841 35124 90829 XOR\n2 1 2876 90829 106804 XOR\n2 1 90829 35124 35123 AND\n2 1 35123 35124 35126 XOR\n2 1 35241 35242 35240 AND\n2 1 35240 119197 119198 XOR\n2 1 96915 119198 35244 XOR\n2 1 81613 133070 57657 XOR\n2 1 76973 133070 57658 XOR\n2 1 57657 57658 57656 AND\n2 1 57656 133070 133071 XOR\n2 1 133102 133071 80078 XOR\n2 1 80078 78542 132978 XOR\n",
"2 1 132978 132947 76750 XOR\n2 1 76750 119260 35334 XOR\n2 1 35334 35335 35333 AND\n2 1 35333 119260 119261 XOR\n2 1 3390 119261 35338 XOR\n2 1 76750 3389 119291 XOR\n2 1 119291 119260 94867 XOR\n2 1 96915 94867 119229 XOR\n2 1 94867 119198 35245 XOR\n2 1 35244 35245 35243 AND\n2 1 35243 119198 119199 XOR\n2 1 96916 119199 35247 XOR\n2 1 119229 119198 92842 XOR\n2 1 92842 35126 90830 XOR\n2 1 90830 35126 35125 AND\n2 1 90830 84686 106867 XOR\n2 1 2877 90830 106805 XOR\n2 1 35125 35126 35142 XOR\n1 1 35142 35129 INV\n2 1 80078 132947 57480 XOR\n2 1 57480 57481 57479 AND\n2 1 57479 132947 132948 XOR\n2 1 78543 132948 57484 XOR\n2 1 81614 133071 57660 XOR\n2 1 76974 133071 57661 XOR\n2 1 57660 57661 57659 AND\n2 1 57659 133071 133072 XOR\n2 1 133103 133072 80079 XOR\n2 1 80079 78543 132979 XOR\n2 1 132979 132948 76751 XOR\n2 1 76751 119261 35337 XOR\n2 1 35337 35338 35336 AND\n2 1 35336 119261 119262 XOR\n2 1 76751 3390 119292 XOR\n2 1 119292 119261 94868 XOR\n2 1 96916 94868 119230 XOR\n2 1 119230 119199 92843 XOR\n1 1 92843 35157 INV\n2 1 92843 35142 35128 XOR\n2 1 35157 35142 90831 XOR\n2 1 2878 90831 106806 XOR\n2 1 94868 119199 35248 XOR\n2 1 35247 35248 35246 AND\n2 1 35246 119199 119200 XOR\n2 1 35128 35129 35127 AND\n2 1 35127 35142 35143 XOR\n2 1 80079 132948 57483 XOR\n2 1 57483 57484 57482 AND\n2 1 57482 132948 132949 XOR\n2 1 81615 133072 57663 XOR\n2 1 76975 133072 57664 XOR\n2 1 57663 57664 57662 AND\n2 1 57662 133072 133073 XOR\n2 1 133104 133073 80080 XOR\n2 1 80080 78544 132980 XOR\n2 1 132980 132949 76752 XOR\n2 1 76752 3391 119293 XOR\n2 1 119293 119262 94869 XOR\n2 1 96917 94869 119231 XOR\n2 1 119231 119200 92844 XOR\n1 1 92844 35158 INV\n2 1 35158 35143 90832 XOR\n2 1 90832 84688 106869 XOR\n2 1 2879 90832 106807 XOR\n2 1 2849 106746 14077 XOR\n2 1 90826 84682 106863 XOR\n2 1 2854 90807 106782 XOR\n2 1 2725 2789 72084 XOR\n2 1 2724 2788 72083 XOR\n2 1 2723 2787 72082 XOR\n2 1 2722 2786 72081 XOR\n2 1 2721 2785 72080 XOR\n2 1 2720 2784 72079 XOR\n2 1 72084 72052 72020 AND\n2 1 72083 72051 72019 AND\n2 1 72082 72050 72018 AND\n2 1 72081 72049 72017 AND\n2 1 72080 72048 72016 AND\n2 1 72079 72047 72015 AND\n2 1 72020 2789 86678 XOR\n2 1 72019 2788 86677 XOR\n2 1 72018 2787 86676 XOR\n2 1 72017 2786 86675 XOR\n2 1 72016 2785 86674 XOR\n2 1 72015 2784 86673 XOR\n2 1 2725 2757 71956 XOR\n2 1 2724 2756 71955 XOR\n2 1 2723 2755 71954 XOR\n2 1 2722 2754 71953 XOR\n2 1 2721 2753 71952 XOR\n2 1 2720 2752 71951 XOR\n2 1 90825 84681 106862 XOR\n2 1 90802 106746 14078 XOR\n2 1 14077 14078 14076 AND\n2 1 14076 106746 106747 XOR\n2 1 2850 106747 14080 XOR\n2 1 90824 84680 106861 XOR\n2 1 90827 84683 106864 XOR\n2 1 65040 3233 65008 AND\n2 1 65039 3232 65007 AND\n2 1 65008 3297 98903 XOR\n2 1 65007 3296 98902 XOR\n2 1 3233 3265 64976 XOR\n2 1 3232 3264 64975 XOR\n2 1 14179 14180 14178 AND\n2 1 14178 106812 106813 XOR\n2 1 106844 106813 2726 XOR\n2 1 90807 106813 14182 XOR\n2 1 84663 106813 14183 XOR\n2 1 14182 14183 14181 AND\n2 1 2726 2790 72085 XOR\n2 1 72085 72053 72021 AND\n2 1 72021 2790 86679 XOR\n2 1 2726 2758 71957 XOR\n2 1 14181 106813 106814 XOR\n2 1 84664 106814 14186 XOR\n2 1 2852 90805 106780 XOR\n2 1 2850 90803 106778 XOR\n2 1 106778 106747 3234 XOR\n2 1 65041 3234 65009 AND\n2 1 65009 3298 98904 XOR\n2 1 3234 3266 64977 XOR\n2 1 2851 90804 106779 XOR\n2 1 2856 90809 106784 XOR\n2 1 2859 90812 106787 XOR\n2 1 2858 90811 106786 XOR\n2 1 2857 90810 106785 XOR\n2 1 90803 106747 14081 XOR\n",
"2 1 14080 14081 14079 AND\n2 1 14079 106747 106748 XOR\n2 1 90804 106748 14084 XOR\n2 1 106779 106748 3235 XOR\n2 1 65042 3235 65010 AND\n2 1 65010 3299 98905 XOR\n2 1 3235 3267 64978 XOR\n2 1 2860 90813 106788 XOR\n2 1 2851 106748 14083 XOR\n2 1 14083 14084 14082 AND\n2 1 14082 106748 106749 XOR\n2 1 106780 106749 3236 XOR\n2 1 2852 106749 14086 XOR\n2 1 90805 106749 14087 XOR\n2 1 14086 14087 14085 AND\n2 1 14085 106749 106750 XOR\n2 1 2853 106750 14089 XOR\n2 1 106781 106750 3237 XOR\n2 1 90806 106750 14090 XOR\n2 1 14089 14090 14088 AND\n2 1 14088 106750 106751 XOR\n2 1 106782 106751 3238 XOR\n2 1 2854 106751 14092 XOR\n2 1 90807 106751 14093 XOR\n2 1 14092 14093 14091 AND\n2 1 14091 106751 106752 XOR\n2 1 2855 106752 14095 XOR\n2 1 90808 106752 14096 XOR\n2 1 106783 106752 3239 XOR\n2 1 14095 14096 14094 AND\n2 1 14094 106752 106753 XOR\n2 1 90809 106753 14099 XOR\n2 1 106784 106753 3240 XOR\n2 1 2856 106753 14098 XOR\n2 1 14098 14099 14097 AND\n2 1 14097 106753 106754 XOR\n2 1 106785 106754 3241 XOR\n2 1 2857 106754 14101 XOR\n2 1 65048 3241 65016 AND\n2 1 65047 3240 65015 AND\n2 1 65046 3239 65014 AND\n2 1 65045 3238 65013 AND\n2 1 65044 3237 65012 AND\n2 1 65043 3236 65011 AND\n2 1 65016 3305 98911 XOR\n2 1 65015 3304 98910 XOR\n2 1 65014 3303 98909 XOR\n2 1 65013 3302 98908 XOR\n2 1 65012 3301 98907 XOR\n2 1 65011 3300 98906 XOR\n2 1 3241 3273 64984 XOR\n2 1 3240 3272 64983 XOR\n2 1 3239 3271 64982 XOR\n2 1 3238 3270 64981 XOR\n2 1 3237 3269 64980 XOR\n2 1 3236 3268 64979 XOR\n2 1 90810 106754 14102 XOR\n2 1 14101 14102 14100 AND\n2 1 14100 106754 106755 XOR\n2 1 90811 106755 14105 XOR\n2 1 106786 106755 3242 XOR\n2 1 65049 3242 65017 AND\n2 1 65017 3306 98912 XOR\n2 1 3242 3274 64985 XOR\n2 1 2858 106755 14104 XOR\n2 1 14104 14105 14103 AND\n2 1 14103 106755 106756 XOR\n2 1 106787 106756 3243 XOR\n2 1 2859 106756 14107 XOR\n2 1 90812 106756 14108 XOR\n2 1 14107 14108 14106 AND\n2 1 14106 106756 106757 XOR\n2 1 106788 106757 3244 XOR\n2 1 90813 106757 14111 XOR\n2 1 2860 106757 14110 XOR\n2 1 14110 14111 14109 AND\n2 1 14109 106757 106758 XOR\n2 1 106789 106758 3245 XOR\n2 1 90814 106758 14114 XOR\n2 1 2861 106758 14113 XOR\n2 1 14113 14114 14112 AND\n2 1 14112 106758 106759 XOR\n2 1 90815 106759 14117 XOR\n2 1 2862 106759 14116 XOR\n2 1 14116 14117 14115 AND\n2 1 106790 106759 3246 XOR\n2 1 14115 106759 106760 XOR\n2 1 90816 106760 14120 XOR\n2 1 2863 106760 14119 XOR\n2 1 14119 14120 14118 AND\n2 1 14118 106760 106761 XOR\n2 1 65053 3246 65021 AND\n2 1 65052 3245 65020 AND\n2 1 65051 3244 65019 AND\n2 1 65050 3243 65018 AND\n2 1 65021 3310 98916 XOR\n2 1 65020 3309 98915 XOR\n2 1 65019 3308 98914 XOR\n2 1 65018 3307 98913 XOR\n2 1 3246 3278 64989 XOR\n2 1 3245 3277 64988 XOR\n2 1 3244 3276 64987 XOR\n2 1 3243 3275 64986 XOR\n2 1 106791 106760 3247 XOR\n2 1 65054 3247 65022 AND\n2 1 65022 3311 98917 XOR\n2 1 3247 3279 64990 XOR\n2 1 106792 106761 3248 XOR\n2 1 65055 3248 65023 AND\n2 1 65023 3312 98918 XOR\n2 1 3248 3280 64991 XOR\n2 1 90817 106761 14123 XOR\n2 1 2864 106761 14122 XOR\n2 1 14122 14123 14121 AND\n2 1 14121 106761 106762 XOR\n2 1 2865 106762 14125 XOR\n2 1 90818 106762 14126 XOR\n2 1 14125 14126 14124 AND\n2 1 106793 106762 3249 XOR\n2 1 65056 3249 65024 AND\n2 1 65024 3313 98919 XOR\n2 1 3249 3281 64992 XOR\n2 1 14124 106762 106763 XOR\n2 1 106794 106763 3250 XOR\n2 1 90819 106763 14129 XOR\n2 1 2866 106763 14128 XOR\n2 1 14128 14129 14127 AND\n2 1 14127 106763 106764 XOR\n",
"2 1 106795 106764 3251 XOR\n2 1 90820 106764 14132 XOR\n2 1 2867 106764 14131 XOR\n2 1 14131 14132 14130 AND\n2 1 14130 106764 106765 XOR\n2 1 106796 106765 3252 XOR\n2 1 90821 106765 14135 XOR\n2 1 2868 106765 14134 XOR\n2 1 14134 14135 14133 AND\n2 1 14133 106765 106766 XOR\n2 1 2869 106766 14137 XOR\n2 1 90822 106766 14138 XOR\n2 1 14137 14138 14136 AND\n2 1 14136 106766 106767 XOR\n2 1 90823 106767 14141 XOR\n2 1 106798 106767 3254 XOR\n2 1 106797 106766 3253 XOR\n2 1 65061 3254 65029 AND\n2 1 65060 3253 65028 AND\n2 1 65059 3252 65027 AND\n2 1 65058 3251 65026 AND\n2 1 65057 3250 65025 AND\n2 1 65029 3318 98924 XOR\n2 1 65028 3317 98923 XOR\n2 1 65027 3316 98922 XOR\n2 1 65026 3315 98921 XOR\n2 1 65025 3314 98920 XOR\n2 1 3254 3286 64997 XOR\n2 1 3253 3285 64996 XOR\n2 1 3252 3284 64995 XOR\n2 1 3251 3283 64994 XOR\n2 1 3250 3282 64993 XOR\n2 1 2870 106767 14140 XOR\n2 1 14140 14141 14139 AND\n2 1 14139 106767 106768 XOR\n2 1 2871 106768 14143 XOR\n2 1 106799 106768 3255 XOR\n2 1 65062 3255 65030 AND\n2 1 65030 3319 98925 XOR\n2 1 3255 3287 64998 XOR\n2 1 90824 106768 14144 XOR\n2 1 14143 14144 14142 AND\n2 1 14142 106768 106769 XOR\n2 1 106800 106769 3256 XOR\n2 1 2872 106769 14146 XOR\n2 1 90825 106769 14147 XOR\n2 1 14146 14147 14145 AND\n2 1 14145 106769 106770 XOR\n2 1 106801 106770 3257 XOR\n2 1 90826 106770 14150 XOR\n2 1 2873 106770 14149 XOR\n2 1 14149 14150 14148 AND\n2 1 14148 106770 106771 XOR\n2 1 106802 106771 3258 XOR\n2 1 2874 106771 14152 XOR\n2 1 90827 106771 14153 XOR\n2 1 14152 14153 14151 AND\n2 1 14151 106771 106772 XOR\n2 1 2875 106772 14155 XOR\n2 1 106803 106772 3259 XOR\n2 1 90828 106772 14156 XOR\n2 1 14155 14156 14154 AND\n2 1 14154 106772 106773 XOR\n2 1 90829 106773 14159 XOR\n2 1 106804 106773 3260 XOR\n2 1 65067 3260 65035 AND\n2 1 65066 3259 65034 AND\n2 1 65065 3258 65033 AND\n2 1 65064 3257 65032 AND\n2 1 65063 3256 65031 AND\n2 1 65035 3324 98930 XOR\n2 1 65034 3323 98929 XOR\n2 1 65033 3322 98928 XOR\n2 1 65032 3321 98927 XOR\n2 1 65031 3320 98926 XOR\n2 1 3260 3292 65003 XOR\n2 1 3259 3291 65002 XOR\n2 1 3258 3290 65001 XOR\n2 1 3257 3289 65000 XOR\n2 1 3256 3288 64999 XOR\n2 1 2876 106773 14158 XOR\n2 1 14158 14159 14157 AND\n2 1 14157 106773 106774 XOR\n2 1 90830 106774 14162 XOR\n2 1 106805 106774 3261 XOR\n2 1 2877 106774 14161 XOR\n2 1 14161 14162 14160 AND\n2 1 14160 106774 106775 XOR\n2 1 106806 106775 3262 XOR\n2 1 65069 3262 65037 AND\n2 1 65068 3261 65036 AND\n2 1 65037 3326 98932 XOR\n2 1 65036 3325 98931 XOR\n2 1 3262 3294 65005 XOR\n2 1 3261 3293 65004 XOR\n2 1 2878 106775 14164 XOR\n2 1 90829 84685 106866 XOR\n2 1 90831 84687 106868 XOR\n2 1 90831 106775 14165 XOR\n2 1 14164 14165 14163 AND\n2 1 14163 106775 106776 XOR\n2 1 106807 106776 3263 XOR\n2 1 65070 3263 65038 AND\n2 1 65038 3327 98933 XOR\n2 1 3263 3295 65006 XOR\n2 1 106845 106814 2727 XOR\n2 1 2727 2791 72086 XOR\n2 1 72086 72054 72022 AND\n2 1 72022 2791 86680 XOR\n2 1 2727 2759 71958 XOR\n2 1 90808 106814 14185 XOR\n2 1 14185 14186 14184 AND\n2 1 14184 106814 106815 XOR\n2 1 106846 106815 2728 XOR\n2 1 90809 106815 14188 XOR\n2 1 84665 106815 14189 XOR\n2 1 14188 14189 14187 AND\n2 1 14187 106815 106816 XOR\n2 1 90810 106816 14191 XOR\n2 1 106847 106816 2729 XOR\n2 1 84666 106816 14192 XOR\n2 1 14191 14192 14190 AND\n2 1 14190 106816 106817 XOR\n2 1 106848 106817 2730 XOR\n2 1 90811 106817 14194 XOR\n2 1 84667 106817 14195 XOR\n2 1 14194 14195 14193 AND\n2 1 14193 106817 106818 XOR\n",
"2 1 90812 106818 14197 XOR\n2 1 84668 106818 14198 XOR\n2 1 106849 106818 2731 XOR\n2 1 14197 14198 14196 AND\n2 1 14196 106818 106819 XOR\n2 1 90813 106819 14200 XOR\n2 1 84669 106819 14201 XOR\n2 1 106850 106819 2732 XOR\n2 1 14200 14201 14199 AND\n2 1 14199 106819 106820 XOR\n2 1 106851 106820 2733 XOR\n2 1 90814 106820 14203 XOR\n2 1 2733 2797 72092 XOR\n2 1 2732 2796 72091 XOR\n2 1 2731 2795 72090 XOR\n2 1 2730 2794 72089 XOR\n2 1 2729 2793 72088 XOR\n2 1 2728 2792 72087 XOR\n2 1 72092 72060 72028 AND\n2 1 72091 72059 72027 AND\n2 1 72090 72058 72026 AND\n2 1 72089 72057 72025 AND\n2 1 72088 72056 72024 AND\n2 1 72087 72055 72023 AND\n2 1 72028 2797 86686 XOR\n2 1 72027 2796 86685 XOR\n2 1 72026 2795 86684 XOR\n2 1 72025 2794 86683 XOR\n2 1 72024 2793 86682 XOR\n2 1 72023 2792 86681 XOR\n2 1 2733 2765 71964 XOR\n2 1 2732 2764 71963 XOR\n2 1 2731 2763 71962 XOR\n2 1 2730 2762 71961 XOR\n2 1 2729 2761 71960 XOR\n2 1 2728 2760 71959 XOR\n2 1 2721 2732 67854 XOR\n2 1 2720 2731 67853 XOR\n2 1 2722 2733 67823 XOR\n2 1 84670 106820 14204 XOR\n2 1 14203 14204 14202 AND\n2 1 14202 106820 106821 XOR\n2 1 90815 106821 14206 XOR\n2 1 106852 106821 2734 XOR\n2 1 84671 106821 14207 XOR\n2 1 14206 14207 14205 AND\n2 1 2734 2798 72093 XOR\n2 1 72093 72061 72029 AND\n2 1 72029 2798 86687 XOR\n2 1 2734 2766 71965 XOR\n2 1 2723 2734 67824 XOR\n2 1 14205 106821 106822 XOR\n2 1 106853 106822 2735 XOR\n2 1 90816 106822 14209 XOR\n2 1 84672 106822 14210 XOR\n2 1 14209 14210 14208 AND\n2 1 14208 106822 106823 XOR\n2 1 106854 106823 2736 XOR\n2 1 84673 106823 14213 XOR\n2 1 90817 106823 14212 XOR\n2 1 14212 14213 14211 AND\n2 1 14211 106823 106824 XOR\n2 1 106855 106824 2737 XOR\n2 1 84674 106824 14216 XOR\n2 1 90818 106824 14215 XOR\n2 1 14215 14216 14214 AND\n2 1 14214 106824 106825 XOR\n2 1 84675 106825 14219 XOR\n2 1 90819 106825 14218 XOR\n2 1 14218 14219 14217 AND\n2 1 106856 106825 2738 XOR\n2 1 14217 106825 106826 XOR\n2 1 84676 106826 14222 XOR\n2 1 106857 106826 2739 XOR\n2 1 2739 2803 72098 XOR\n2 1 2738 2802 72097 XOR\n2 1 2737 2801 72096 XOR\n2 1 2736 2800 72095 XOR\n2 1 2735 2799 72094 XOR\n2 1 72098 72066 72034 AND\n2 1 72097 72065 72033 AND\n2 1 72096 72064 72032 AND\n2 1 72095 72063 72031 AND\n2 1 72094 72062 72030 AND\n2 1 72034 2803 86692 XOR\n2 1 72033 2802 86691 XOR\n2 1 72032 2801 86690 XOR\n2 1 72031 2800 86689 XOR\n2 1 72030 2799 86688 XOR\n2 1 2739 2771 71970 XOR\n2 1 2738 2770 71969 XOR\n2 1 2737 2769 71968 XOR\n2 1 2736 2768 71967 XOR\n2 1 2735 2767 71966 XOR\n2 1 2728 2739 67829 XOR\n2 1 2727 2738 67828 XOR\n2 1 2726 2737 67827 XOR\n2 1 2725 2736 67826 XOR\n2 1 2724 2735 67825 XOR\n2 1 90820 106826 14221 XOR\n2 1 14221 14222 14220 AND\n2 1 14220 106826 106827 XOR\n2 1 84677 106827 14225 XOR\n2 1 106858 106827 2740 XOR\n2 1 2740 2804 72099 XOR\n2 1 72099 72067 72035 AND\n2 1 72035 2804 86693 XOR\n2 1 2740 2772 71971 XOR\n2 1 2729 2740 67830 XOR\n2 1 67853 2740 88751 XOR\n2 1 90821 106827 14224 XOR\n2 1 14224 14225 14223 AND\n2 1 14223 106827 106828 XOR\n2 1 90822 106828 14227 XOR\n2 1 84678 106828 14228 XOR\n2 1 14227 14228 14226 AND\n2 1 106859 106828 2741 XOR\n2 1 2741 2805 72100 XOR\n2 1 72100 72068 72036 AND\n2 1 72036 2805 86694 XOR\n2 1 2741 2773 71972 XOR\n2 1 2741 2720 67842 XOR\n2 1 2730 2741 67831 XOR\n2 1 67854 2741 88752 XOR\n2 1 67842 2729 88740 XOR\n2 1 88740 86692 118909 XOR\n2 1 14226 106828 106829 XOR\n2 1 106860 106829 2742 XOR\n",
"2 1 84679 106829 14231 XOR\n2 1 90823 106829 14230 XOR\n2 1 14230 14231 14229 AND\n2 1 14229 106829 106830 XOR\n2 1 106861 106830 2743 XOR\n2 1 84680 106830 14234 XOR\n2 1 90824 106830 14233 XOR\n2 1 14233 14234 14232 AND\n2 1 14232 106830 106831 XOR\n2 1 106862 106831 2744 XOR\n2 1 84681 106831 14237 XOR\n2 1 90825 106831 14236 XOR\n2 1 14236 14237 14235 AND\n2 1 14235 106831 106832 XOR\n2 1 90826 106832 14239 XOR\n2 1 84682 106832 14240 XOR\n2 1 14239 14240 14238 AND\n2 1 14238 106832 106833 XOR\n2 1 90827 106833 14242 XOR\n2 1 106863 106832 2745 XOR\n2 1 84683 106833 14243 XOR\n2 1 106864 106833 2746 XOR\n2 1 2746 2810 72105 XOR\n2 1 2745 2809 72104 XOR\n2 1 2744 2808 72103 XOR\n2 1 2743 2807 72102 XOR\n2 1 2742 2806 72101 XOR\n2 1 72105 72073 72041 AND\n2 1 72104 72072 72040 AND\n2 1 72103 72071 72039 AND\n2 1 72102 72070 72038 AND\n2 1 72101 72069 72037 AND\n2 1 72041 2810 86699 XOR\n2 1 72040 2809 86698 XOR\n2 1 72039 2808 86697 XOR\n2 1 72038 2807 86696 XOR\n2 1 72037 2806 86695 XOR\n2 1 2746 2778 71977 XOR\n2 1 2745 2777 71976 XOR\n2 1 2744 2776 71975 XOR\n2 1 2743 2775 71974 XOR\n2 1 2742 2774 71973 XOR\n2 1 14242 14243 14241 AND\n2 1 14241 106833 106834 XOR\n2 1 90828 106834 14245 XOR\n2 1 106865 106834 2747 XOR\n2 1 2747 2811 72106 XOR\n2 1 72106 72074 72042 AND\n2 1 72042 2811 86700 XOR\n2 1 2747 2779 71978 XOR\n2 1 2747 2726 67848 XOR\n2 1 2746 2725 67847 XOR\n2 1 2745 2724 67846 XOR\n2 1 2744 2723 67845 XOR\n2 1 2743 2722 67844 XOR\n2 1 2742 2721 67843 XOR\n2 1 2736 2747 67837 XOR\n2 1 2735 2746 67836 XOR\n2 1 2734 2745 67835 XOR\n2 1 2733 2744 67834 XOR\n2 1 2732 2743 67833 XOR\n2 1 2731 2742 67832 XOR\n2 1 67848 2735 88746 XOR\n2 1 88746 86698 118915 XOR\n2 1 67847 2734 88745 XOR\n2 1 88745 86697 118914 XOR\n2 1 67846 2733 88744 XOR\n2 1 88744 86696 118913 XOR\n2 1 67845 2732 88743 XOR\n2 1 88743 86695 118912 XOR\n2 1 67844 2731 88742 XOR\n2 1 88742 86694 118911 XOR\n2 1 67843 2730 88741 XOR\n2 1 88741 86693 118910 XOR\n2 1 67837 2724 88735 XOR\n2 1 88735 86687 118904 XOR\n2 1 67836 2723 88734 XOR\n2 1 88734 86686 118903 XOR\n2 1 67835 2722 88733 XOR\n2 1 88733 86685 118902 XOR\n2 1 67834 2721 88732 XOR\n2 1 88732 86684 118901 XOR\n2 1 67833 2720 88731 XOR\n2 1 88731 86683 118900 XOR\n2 1 67828 2747 88726 XOR\n2 1 88726 86678 118895 XOR\n2 1 67827 2746 88725 XOR\n2 1 88725 86677 118894 XOR\n2 1 67826 2745 88724 XOR\n2 1 88724 86676 118893 XOR\n2 1 67825 2744 88723 XOR\n2 1 88723 86675 118892 XOR\n2 1 67824 2743 88722 XOR\n2 1 67823 2742 88721 XOR\n2 1 88721 86673 84625 XOR\n2 1 84684 106834 14246 XOR\n2 1 14245 14246 14244 AND\n2 1 14244 106834 106835 XOR\n2 1 106866 106835 2748 XOR\n2 1 90829 106835 14248 XOR\n2 1 84685 106835 14249 XOR\n2 1 14248 14249 14247 AND\n2 1 14247 106835 106836 XOR\n2 1 106867 106836 2749 XOR\n2 1 84686 106836 14252 XOR\n2 1 90830 106836 14251 XOR\n2 1 14251 14252 14250 AND\n2 1 14250 106836 106837 XOR\n2 1 106868 106837 2750 XOR\n2 1 84687 106837 14255 XOR\n2 1 90831 106837 14254 XOR\n2 1 14254 14255 14253 AND\n2 1 14253 106837 106838 XOR\n2 1 106869 106838 2751 XOR\n2 1 2751 2815 72110 XOR\n2 1 2750 2814 72109 XOR\n2 1 2749 2813 72108 XOR\n2 1 2748 2812 72107 XOR\n2 1 72110 72078 72046 AND\n2 1 72109 72077 72045 AND\n2 1 72108 72076 72044 AND\n2 1 72107 72075 72043 AND\n2 1 72046 2815 86704 XOR\n2 1 88752 86704 118921 XOR\n2 1 72045 2814 86703 XOR\n2 1 88751 86703 118920 XOR\n2 1 72044 2813 86702 XOR\n2 1 72043 2812 86701 XOR\n",
"2 1 2751 2783 71982 XOR\n2 1 2750 2782 71981 XOR\n2 1 2749 2781 71980 XOR\n2 1 2748 2780 71979 XOR\n2 1 2751 2730 67852 XOR\n2 1 2750 2729 67851 XOR\n2 1 2749 2728 67850 XOR\n2 1 2748 2727 67849 XOR\n2 1 2740 2751 67841 XOR\n2 1 2739 2750 67840 XOR\n2 1 2738 2749 67839 XOR\n2 1 2737 2748 67838 XOR\n2 1 67852 2739 88750 XOR\n2 1 88750 86702 118919 XOR\n2 1 67851 2738 88749 XOR\n2 1 88749 86701 118918 XOR\n2 1 67850 2737 88748 XOR\n2 1 88748 86700 118917 XOR\n2 1 67849 2736 88747 XOR\n2 1 88747 86699 118916 XOR\n2 1 67841 2728 88739 XOR\n2 1 88739 86691 118908 XOR\n2 1 67840 2727 88738 XOR\n2 1 88738 86690 118907 XOR\n2 1 67839 2726 88737 XOR\n2 1 88737 86689 118906 XOR\n2 1 67838 2725 88736 XOR\n2 1 88736 86688 118905 XOR\n2 1 67832 2751 88730 XOR\n2 1 88730 86682 118899 XOR\n2 1 67831 2750 88729 XOR\n2 1 88729 86681 118898 XOR\n2 1 67830 2749 88728 XOR\n2 1 88728 86680 118897 XOR\n2 1 67829 2748 88727 XOR\n2 1 88727 86679 118896 XOR\n2 1 88722 86674 118891 XOR\n2 1 88721 86673 118860 AND\n2 1 118891 118860 84626 XOR\n2 1 88722 118860 34503 XOR\n2 1 86674 118860 34504 XOR\n2 1 34503 34504 34502 AND\n2 1 34502 118860 118861 XOR\n2 1 118892 118861 84627 XOR\n2 1 88723 118861 34506 XOR\n2 1 86675 118861 34507 XOR\n2 1 34506 34507 34505 AND\n2 1 34505 118861 118862 XOR\n2 1 118893 118862 84628 XOR\n2 1 88724 118862 34509 XOR\n2 1 86676 118862 34510 XOR\n2 1 34509 34510 34508 AND\n2 1 34508 118862 118863 XOR\n2 1 118894 118863 84629 XOR\n2 1 88725 118863 34512 XOR\n2 1 86677 118863 34513 XOR\n2 1 34512 34513 34511 AND\n2 1 34511 118863 118864 XOR\n2 1 88726 118864 34515 XOR\n2 1 86678 118864 34516 XOR\n2 1 34515 34516 34514 AND\n2 1 34514 118864 118865 XOR\n2 1 118896 118865 84631 XOR\n2 1 88727 118865 34518 XOR\n2 1 86679 118865 34519 XOR\n2 1 34518 34519 34517 AND\n2 1 34517 118865 118866 XOR\n2 1 118897 118866 84632 XOR\n2 1 88728 118866 34521 XOR\n2 1 86680 118866 34522 XOR\n2 1 34521 34522 34520 AND\n2 1 34520 118866 118867 XOR\n2 1 86681 118867 34525 XOR\n2 1 88729 118867 34524 XOR\n2 1 34524 34525 34523 AND\n2 1 34523 118867 118868 XOR\n2 1 86682 118868 34528 XOR\n2 1 88730 118868 34527 XOR\n2 1 34527 34528 34526 AND\n2 1 118899 118868 84634 XOR\n2 1 118898 118867 84633 XOR\n2 1 34526 118868 118869 XOR\n2 1 118900 118869 84635 XOR\n2 1 88731 118869 34530 XOR\n2 1 86683 118869 34531 XOR\n2 1 34530 34531 34529 AND\n2 1 34529 118869 118870 XOR\n2 1 118901 118870 84636 XOR\n2 1 88732 118870 34533 XOR\n2 1 86684 118870 34534 XOR\n2 1 34533 34534 34532 AND\n2 1 34532 118870 118871 XOR\n2 1 118902 118871 84637 XOR\n2 1 88733 118871 34536 XOR\n2 1 86685 118871 34537 XOR\n2 1 34536 34537 34535 AND\n2 1 34535 118871 118872 XOR\n2 1 118903 118872 84638 XOR\n2 1 88734 118872 34539 XOR\n2 1 86686 118872 34540 XOR\n2 1 34539 34540 34538 AND\n2 1 34538 118872 118873 XOR\n2 1 88735 118873 34542 XOR\n2 1 118904 118873 84639 XOR\n2 1 86687 118873 34543 XOR\n2 1 34542 34543 34541 AND\n2 1 118895 118864 84630 XOR\n2 1 34541 118873 118874 XOR\n2 1 88736 118874 34545 XOR\n2 1 86688 118874 34546 XOR\n2 1 34545 34546 34544 AND\n2 1 34544 118874 118875 XOR\n2 1 88737 118875 34548 XOR\n2 1 118906 118875 84641 XOR\n2 1 86689 118875 34549 XOR\n2 1 34548 34549 34547 AND\n2 1 34547 118875 118876 XOR\n2 1 86690 118876 34552 XOR\n2 1 118907 118876 84642 XOR\n2 1 118905 118874 84640 XOR\n2 1 88738 118876 34551 XOR\n2 1 34551 34552 34550 AND\n2 1 34550 118876 118877 XOR\n2 1 88739 118877 34554 XOR\n2 1 118908 118877 84643 XOR\n2 1 86691 118877 34555 XOR\n2 1 34554 34555 34553 AND\n2 1 34553 118877 118878 XOR\n",
"2 1 88740 118878 34557 XOR\n2 1 118909 118878 84644 XOR\n2 1 86692 118878 34558 XOR\n2 1 34557 34558 34556 AND\n2 1 34556 118878 118879 XOR\n2 1 118910 118879 84645 XOR\n2 1 88741 118879 34560 XOR\n2 1 86693 118879 34561 XOR\n2 1 34560 34561 34559 AND\n2 1 34559 118879 118880 XOR\n2 1 86694 118880 34564 XOR\n2 1 88742 118880 34563 XOR\n2 1 34563 34564 34562 AND\n2 1 34562 118880 118881 XOR\n2 1 118912 118881 84647 XOR\n2 1 118911 118880 84646 XOR\n2 1 88743 118881 34566 XOR\n2 1 86695 118881 34567 XOR\n2 1 34566 34567 34565 AND\n2 1 34565 118881 118882 XOR\n2 1 88744 118882 34569 XOR\n2 1 118913 118882 84648 XOR\n2 1 86696 118882 34570 XOR\n2 1 34569 34570 34568 AND\n2 1 34568 118882 118883 XOR\n2 1 88745 118883 34572 XOR\n2 1 118914 118883 84649 XOR\n2 1 86697 118883 34573 XOR\n2 1 34572 34573 34571 AND\n2 1 34571 118883 118884 XOR\n2 1 118915 118884 84650 XOR\n2 1 86698 118884 34576 XOR\n2 1 88746 118884 34575 XOR\n2 1 34575 34576 34574 AND\n2 1 34574 118884 118885 XOR\n2 1 88747 118885 34578 XOR\n2 1 86699 118885 34579 XOR\n2 1 34578 34579 34577 AND\n2 1 118916 118885 84651 XOR\n2 1 34577 118885 118886 XOR\n2 1 118917 118886 84652 XOR\n2 1 88748 118886 34581 XOR\n2 1 86700 118886 34582 XOR\n2 1 34581 34582 34580 AND\n2 1 34580 118886 118887 XOR\n2 1 86701 118887 34585 XOR\n2 1 118918 118887 84653 XOR\n2 1 88749 118887 34584 XOR\n2 1 34584 34585 34583 AND\n2 1 34583 118887 118888 XOR\n2 1 88750 118888 34587 XOR\n2 1 118919 118888 84654 XOR\n2 1 86702 118888 34588 XOR\n2 1 34587 34588 34586 AND\n2 1 34586 118888 118889 XOR\n2 1 88751 118889 34590 XOR\n2 1 118920 118889 84655 XOR\n2 1 86703 118889 34591 XOR\n2 1 34590 34591 34589 AND\n2 1 34589 118889 118890 XOR\n2 1 118921 118890 84656 XOR\n2 1 3237 3242 61934 XOR\n2 1 3236 3241 61933 XOR\n2 1 3235 3240 61932 XOR\n2 1 3234 3239 61931 XOR\n2 1 3233 3238 61930 XOR\n2 1 3232 3237 61929 XOR\n2 1 3263 3236 61928 XOR\n2 1 3262 3235 61927 XOR\n2 1 3261 3234 61926 XOR\n2 1 3260 3233 61925 XOR\n2 1 3259 3232 61924 XOR\n2 1 3258 3263 61923 XOR\n2 1 3257 3262 61922 XOR\n2 1 3256 3261 61921 XOR\n2 1 3255 3260 61920 XOR\n2 1 3254 3259 61919 XOR\n2 1 3253 3258 61918 XOR\n2 1 3252 3257 61917 XOR\n2 1 3251 3256 61916 XOR\n2 1 3250 3255 61915 XOR\n2 1 3249 3254 61914 XOR\n2 1 3248 3253 61913 XOR\n2 1 3247 3252 61912 XOR\n2 1 3246 3251 61911 XOR\n2 1 3245 3250 61910 XOR\n2 1 3244 3249 61909 XOR\n2 1 3243 3248 61908 XOR\n2 1 3242 3247 61907 XOR\n2 1 3241 3246 61906 XOR\n2 1 3240 3245 61905 XOR\n2 1 3239 3244 61904 XOR\n2 1 3238 3243 61903 XOR\n2 1 61934 3256 100981 XOR\n2 1 100981 98933 119107 XOR\n2 1 61933 3255 100980 XOR\n2 1 100980 98932 119106 XOR\n2 1 61932 3254 100979 XOR\n2 1 100979 98931 119105 XOR\n2 1 61931 3253 100978 XOR\n2 1 100978 98930 119104 XOR\n2 1 61930 3252 100977 XOR\n2 1 100977 98929 119103 XOR\n2 1 61929 3251 100976 XOR\n2 1 100976 98928 119102 XOR\n2 1 61928 3250 100975 XOR\n2 1 100975 98927 119101 XOR\n2 1 61927 3249 100974 XOR\n2 1 100974 98926 119100 XOR\n2 1 61926 3248 100973 XOR\n2 1 100973 98925 119099 XOR\n2 1 61925 3247 100972 XOR\n2 1 100972 98924 119098 XOR\n2 1 61924 3246 100971 XOR\n2 1 100971 98923 119097 XOR\n2 1 61923 3245 100970 XOR\n2 1 100970 98922 119096 XOR\n2 1 61922 3244 100969 XOR\n2 1 100969 98921 119095 XOR\n2 1 61921 3243 100968 XOR\n2 1 100968 98920 119094 XOR\n2 1 61920 3242 100967 XOR\n2 1 100967 98919 119093 XOR\n2 1 61919 3241 100966 XOR\n2 1 100966 98918 119092 XOR\n2 1 61918 3240 100965 XOR\n2 1 100965 98917 119091 XOR\n2 1 61917 3239 100964 XOR\n",
"2 1 100964 98916 119090 XOR\n2 1 61916 3238 100963 XOR\n2 1 100963 98915 119089 XOR\n2 1 61915 3237 100962 XOR\n2 1 100962 98914 119088 XOR\n2 1 61914 3236 100961 XOR\n2 1 100961 98913 119087 XOR\n2 1 61913 3235 100960 XOR\n2 1 100960 98912 119086 XOR\n2 1 61912 3234 100959 XOR\n2 1 100959 98911 119085 XOR\n2 1 61911 3233 100958 XOR\n2 1 100958 98910 119084 XOR\n2 1 61910 3232 100957 XOR\n2 1 100957 98909 119083 XOR\n2 1 61909 3263 100956 XOR\n2 1 100956 98908 119082 XOR\n2 1 61908 3262 100955 XOR\n2 1 100955 98907 119081 XOR\n2 1 61907 3261 100954 XOR\n2 1 100954 98906 119080 XOR\n2 1 61906 3260 100953 XOR\n2 1 100953 98905 119079 XOR\n2 1 61905 3259 100952 XOR\n2 1 100952 98904 119078 XOR\n2 1 61904 3258 100951 XOR\n2 1 100951 98903 119077 XOR\n2 1 61903 3257 100950 XOR\n2 1 100950 98902 119046 AND\n2 1 100951 119046 34878 XOR\n2 1 119077 119046 96855 XOR\n2 1 98903 119046 34879 XOR\n2 1 34878 34879 34877 AND\n2 1 34877 119046 119047 XOR\n2 1 98904 119047 34882 XOR\n2 1 100952 119047 34881 XOR\n2 1 100950 98902 96854 XOR\n2 1 119078 119047 96856 XOR\n2 1 34881 34882 34880 AND\n2 1 34880 119047 119048 XOR\n2 1 119079 119048 96857 XOR\n2 1 100953 119048 34884 XOR\n2 1 98905 119048 34885 XOR\n2 1 34884 34885 34883 AND\n2 1 34883 119048 119049 XOR\n2 1 100954 119049 34887 XOR\n2 1 119080 119049 96858 XOR\n2 1 98906 119049 34888 XOR\n2 1 34887 34888 34886 AND\n2 1 34886 119049 119050 XOR\n2 1 119081 119050 96859 XOR\n2 1 100955 119050 34890 XOR\n2 1 98907 119050 34891 XOR\n2 1 34890 34891 34889 AND\n2 1 34889 119050 119051 XOR\n2 1 119082 119051 96860 XOR\n2 1 100956 119051 34893 XOR\n2 1 98908 119051 34894 XOR\n2 1 34893 34894 34892 AND\n2 1 34892 119051 119052 XOR\n2 1 100957 119052 34896 XOR\n2 1 119083 119052 96861 XOR\n2 1 98909 119052 34897 XOR\n2 1 34896 34897 34895 AND\n2 1 34895 119052 119053 XOR\n2 1 98910 119053 34900 XOR\n2 1 119084 119053 96862 XOR\n2 1 100958 119053 34899 XOR\n2 1 34899 34900 34898 AND\n2 1 34898 119053 119054 XOR\n2 1 98911 119054 34903 XOR\n2 1 100959 119054 34902 XOR\n2 1 34902 34903 34901 AND\n2 1 119085 119054 96863 XOR\n2 1 34901 119054 119055 XOR\n2 1 100960 119055 34905 XOR\n2 1 119086 119055 96864 XOR\n2 1 98912 119055 34906 XOR\n2 1 34905 34906 34904 AND\n2 1 34904 119055 119056 XOR\n2 1 100961 119056 34908 XOR\n2 1 98913 119056 34909 XOR\n2 1 34908 34909 34907 AND\n2 1 34907 119056 119057 XOR\n2 1 119088 119057 96866 XOR\n2 1 100962 119057 34911 XOR\n2 1 98914 119057 34912 XOR\n2 1 34911 34912 34910 AND\n2 1 34910 119057 119058 XOR\n2 1 119089 119058 96867 XOR\n2 1 100963 119058 34914 XOR\n2 1 98915 119058 34915 XOR\n2 1 34914 34915 34913 AND\n2 1 34913 119058 119059 XOR\n2 1 100964 119059 34917 XOR\n2 1 98916 119059 34918 XOR\n2 1 119090 119059 96868 XOR\n2 1 34917 34918 34916 AND\n2 1 34916 119059 119060 XOR\n2 1 98917 119060 34921 XOR\n2 1 119091 119060 96869 XOR\n2 1 100965 119060 34920 XOR\n2 1 34920 34921 34919 AND\n2 1 34919 119060 119061 XOR\n2 1 119092 119061 96870 XOR\n2 1 100966 119061 34923 XOR\n2 1 98918 119061 34924 XOR\n2 1 34923 34924 34922 AND\n2 1 34922 119061 119062 XOR\n2 1 98919 119062 34927 XOR\n2 1 100967 119062 34926 XOR\n2 1 34926 34927 34925 AND\n2 1 119087 119056 96865 XOR\n2 1 119093 119062 96871 XOR\n2 1 34925 119062 119063 XOR\n2 1 100968 119063 34929 XOR\n2 1 98920 119063 34930 XOR\n2 1 119094 119063 96872 XOR\n2 1 34929 34930 34928 AND\n2 1 34928 119063 119064 XOR\n2 1 119095 119064 96873 XOR\n2 1 100969 119064 34932 XOR\n2 1 98921 119064 34933 XOR\n2 1 34932 34933 34931 AND\n2 1 34931 119064 119065 XOR\n2 1 100970 119065 34935 XOR\n2 1 98922 119065 34936 XOR\n2 1 119096 119065 96874 XOR\n",
"2 1 34935 34936 34934 AND\n2 1 34934 119065 119066 XOR\n2 1 119097 119066 96875 XOR\n2 1 98923 119066 34939 XOR\n2 1 100971 119066 34938 XOR\n2 1 34938 34939 34937 AND\n2 1 34937 119066 119067 XOR\n2 1 100972 119067 34941 XOR\n2 1 98924 119067 34942 XOR\n2 1 34941 34942 34940 AND\n2 1 34940 119067 119068 XOR\n2 1 100973 119068 34944 XOR\n2 1 119099 119068 96877 XOR\n2 1 119098 119067 96876 XOR\n2 1 98925 119068 34945 XOR\n2 1 34944 34945 34943 AND\n2 1 34943 119068 119069 XOR\n2 1 100974 119069 34947 XOR\n2 1 98926 119069 34948 XOR\n2 1 119100 119069 96878 XOR\n2 1 34947 34948 34946 AND\n2 1 34946 119069 119070 XOR\n2 1 119101 119070 96879 XOR\n2 1 100975 119070 34950 XOR\n2 1 98927 119070 34951 XOR\n2 1 34950 34951 34949 AND\n2 1 34949 119070 119071 XOR\n2 1 98928 119071 34954 XOR\n2 1 119102 119071 96880 XOR\n2 1 100976 119071 34953 XOR\n2 1 34953 34954 34952 AND\n2 1 34952 119071 119072 XOR\n2 1 119103 119072 96881 XOR\n2 1 100977 119072 34956 XOR\n2 1 98929 119072 34957 XOR\n2 1 34956 34957 34955 AND\n2 1 34955 119072 119073 XOR\n2 1 100978 119073 34959 XOR\n2 1 98930 119073 34960 XOR\n2 1 34959 34960 34958 AND\n2 1 34958 119073 119074 XOR\n2 1 119105 119074 96883 XOR\n2 1 100979 119074 34962 XOR\n2 1 119104 119073 96882 XOR\n2 1 98931 119074 34963 XOR\n2 1 34962 34963 34961 AND\n2 1 34961 119074 119075 XOR\n2 1 98932 119075 34966 XOR\n2 1 119106 119075 96884 XOR\n2 1 100980 119075 34965 XOR\n2 1 34965 34966 34964 AND\n2 1 34964 119075 119076 XOR\n2 1 119107 119076 96885 XOR\n2 1 76769 76771 81584 XOR\n2 1 81584 76944 132918 XOR\n2 1 76768 76770 81583 XOR\n2 1 81583 76943 132917 XOR\n2 1 76767 76769 81582 XOR\n2 1 81582 76942 132916 XOR\n2 1 76766 76768 81581 XOR\n2 1 81581 76941 132915 XOR\n2 1 76765 76767 81580 XOR\n2 1 81580 76940 132914 XOR\n2 1 76764 76766 81579 XOR\n2 1 81579 76939 132913 XOR\n2 1 76763 76765 81578 XOR\n2 1 81578 76938 132912 XOR\n2 1 76762 76764 81577 XOR\n2 1 81577 76937 132911 XOR\n2 1 76761 76763 81576 XOR\n2 1 81576 76936 132910 XOR\n2 1 76760 76762 81575 XOR\n2 1 81575 76935 132909 XOR\n2 1 76759 76761 6881 XOR\n2 1 76758 76760 6880 XOR\n2 1 76757 76759 6879 XOR\n2 1 76756 76758 6878 XOR\n2 1 76755 76757 6877 XOR\n2 1 76754 76756 6876 XOR\n2 1 76753 76755 6875 XOR\n2 1 76784 76754 6874 XOR\n2 1 76783 76753 6873 XOR\n2 1 76782 76784 6872 XOR\n2 1 76781 76783 6871 XOR\n2 1 76780 76782 6870 XOR\n2 1 76779 76781 6869 XOR\n2 1 76778 76780 6868 XOR\n2 1 76777 76779 6867 XOR\n2 1 76776 76778 6866 XOR\n2 1 76775 76777 6865 XOR\n2 1 76774 76776 6864 XOR\n2 1 76773 76775 6863 XOR\n2 1 76772 76774 6862 XOR\n2 1 76771 76773 6861 XOR\n2 1 76770 76772 6860 XOR\n2 1 6881 76784 81574 XOR\n2 1 81574 76934 132908 XOR\n2 1 6880 76783 81573 XOR\n2 1 81573 76933 132907 XOR\n2 1 6879 76782 81572 XOR\n2 1 81572 76932 132906 XOR\n2 1 6878 76781 81571 XOR\n2 1 81571 76931 132905 XOR\n2 1 6877 76780 81570 XOR\n2 1 81570 76930 132904 XOR\n2 1 6876 76779 81569 XOR\n2 1 81569 76929 132903 XOR\n2 1 6875 76778 81568 XOR\n2 1 81568 76928 132902 XOR\n2 1 6874 76777 81567 XOR\n2 1 81567 76927 132901 XOR\n2 1 6873 76776 81566 XOR\n2 1 81566 76926 132900 XOR\n2 1 6872 76775 81565 XOR\n2 1 81565 76925 132899 XOR\n2 1 6871 76774 81564 XOR\n2 1 81564 76924 132898 XOR\n2 1 6870 76773 81563 XOR\n2 1 81563 76923 132897 XOR\n2 1 6869 76772 81562 XOR\n2 1 81562 76922 132896 XOR\n2 1 6868 76771 81561 XOR\n2 1 81561 76921 132895 XOR\n2 1 6867 76770 81560 XOR\n2 1 81560 76920 132894 XOR\n2 1 6866 76769 81559 XOR\n2 1 81559 76919 132893 XOR\n2 1 6865 76768 81558 XOR\n",
"2 1 81558 76918 132892 XOR\n2 1 6864 76767 81557 XOR\n2 1 81557 76917 132891 XOR\n2 1 6863 76766 81556 XOR\n2 1 81556 76916 132890 XOR\n2 1 6862 76765 81555 XOR\n2 1 81555 76915 132889 XOR\n2 1 6861 76764 81554 XOR\n2 1 81554 76914 132888 XOR\n2 1 6860 76763 81553 XOR\n2 1 81553 76913 132857 AND\n2 1 81553 76913 80017 XOR\n2 1 80017 78481 132733 AND\n2 1 80017 78481 76689 XOR\n2 1 78482 132733 57127 XOR\n2 1 132888 132857 80018 XOR\n2 1 80018 78482 132764 XOR\n2 1 132764 132733 76690 XOR\n2 1 80018 132733 57126 XOR\n2 1 57126 57127 57125 AND\n2 1 57125 132733 132734 XOR\n2 1 78483 132734 57130 XOR\n2 1 81554 132857 57306 XOR\n2 1 76914 132857 57307 XOR\n2 1 57306 57307 57305 AND\n2 1 57305 132857 132858 XOR\n2 1 132889 132858 80019 XOR\n2 1 80019 78483 132765 XOR\n2 1 132765 132734 76691 XOR\n2 1 80019 132734 57129 XOR\n2 1 57129 57130 57128 AND\n2 1 57128 132734 132735 XOR\n2 1 78484 132735 57133 XOR\n2 1 81555 132858 57309 XOR\n2 1 76915 132858 57310 XOR\n2 1 57309 57310 57308 AND\n2 1 57308 132858 132859 XOR\n2 1 132890 132859 80020 XOR\n2 1 80020 78484 132766 XOR\n2 1 132766 132735 76692 XOR\n2 1 80020 132735 57132 XOR\n2 1 57132 57133 57131 AND\n2 1 57131 132735 132736 XOR\n2 1 78485 132736 57136 XOR\n2 1 81556 132859 57312 XOR\n2 1 76916 132859 57313 XOR\n2 1 57312 57313 57311 AND\n2 1 57311 132859 132860 XOR\n2 1 132891 132860 80021 XOR\n2 1 80021 78485 132767 XOR\n2 1 132767 132736 76693 XOR\n2 1 76693 3332 119018 XOR\n2 1 80021 132736 57135 XOR\n2 1 57135 57136 57134 AND\n2 1 57134 132736 132737 XOR\n2 1 78486 132737 57139 XOR\n2 1 81557 132860 57315 XOR\n2 1 76917 132860 57316 XOR\n2 1 57315 57316 57314 AND\n2 1 57314 132860 132861 XOR\n2 1 132892 132861 80022 XOR\n2 1 80022 78486 132768 XOR\n2 1 132768 132737 76694 XOR\n2 1 76694 3333 119019 XOR\n2 1 80022 132737 57138 XOR\n2 1 57138 57139 57137 AND\n2 1 57137 132737 132738 XOR\n2 1 78487 132738 57142 XOR\n2 1 81558 132861 57318 XOR\n2 1 76918 132861 57319 XOR\n2 1 57318 57319 57317 AND\n2 1 57317 132861 132862 XOR\n2 1 132893 132862 80023 XOR\n2 1 80023 78487 132769 XOR\n2 1 132769 132738 76695 XOR\n2 1 76695 3334 119020 XOR\n2 1 80023 132738 57141 XOR\n2 1 57141 57142 57140 AND\n2 1 57140 132738 132739 XOR\n2 1 78488 132739 57145 XOR\n2 1 81559 132862 57321 XOR\n2 1 76919 132862 57322 XOR\n2 1 57321 57322 57320 AND\n2 1 57320 132862 132863 XOR\n2 1 132894 132863 80024 XOR\n2 1 80024 78488 132770 XOR\n2 1 132770 132739 76696 XOR\n2 1 80024 132739 57144 XOR\n2 1 57144 57145 57143 AND\n2 1 57143 132739 132740 XOR\n2 1 78489 132740 57148 XOR\n2 1 81560 132863 57324 XOR\n2 1 76920 132863 57325 XOR\n2 1 57324 57325 57323 AND\n2 1 57323 132863 132864 XOR\n2 1 132895 132864 80025 XOR\n2 1 80025 78489 132771 XOR\n2 1 132771 132740 76697 XOR\n2 1 80025 132740 57147 XOR\n2 1 57147 57148 57146 AND\n2 1 57146 132740 132741 XOR\n2 1 78490 132741 57151 XOR\n2 1 81561 132864 57327 XOR\n2 1 76921 132864 57328 XOR\n2 1 57327 57328 57326 AND\n2 1 57326 132864 132865 XOR\n2 1 132896 132865 80026 XOR\n2 1 80026 78490 132772 XOR\n2 1 132772 132741 76698 XOR\n2 1 80026 132741 57150 XOR\n2 1 57150 57151 57149 AND\n2 1 57149 132741 132742 XOR\n2 1 78491 132742 57154 XOR\n2 1 81562 132865 57330 XOR\n2 1 76922 132865 57331 XOR\n2 1 57330 57331 57329 AND\n2 1 57329 132865 132866 XOR\n2 1 132897 132866 80027 XOR\n2 1 80027 78491 132773 XOR\n2 1 132773 132742 76699 XOR\n2 1 80027 132742 57153 XOR\n2 1 57153 57154 57152 AND\n2 1 57152 132742 132743 XOR\n2 1 78492 132743 57157 XOR\n2 1 81563 132866 57333 XOR\n2 1 76923 132866 57334 XOR\n2 1 57333 57334 57332 AND\n2 1 57332 132866 132867 XOR\n",
"2 1 132898 132867 80028 XOR\n2 1 80028 78492 132774 XOR\n2 1 132774 132743 76700 XOR\n2 1 80028 132743 57156 XOR\n2 1 57156 57157 57155 AND\n2 1 57155 132743 132744 XOR\n2 1 78493 132744 57160 XOR\n2 1 81564 132867 57336 XOR\n2 1 76924 132867 57337 XOR\n2 1 57336 57337 57335 AND\n2 1 57335 132867 132868 XOR\n2 1 132899 132868 80029 XOR\n2 1 80029 78493 132775 XOR\n2 1 132775 132744 76701 XOR\n2 1 80029 132744 57159 XOR\n2 1 57159 57160 57158 AND\n2 1 57158 132744 132745 XOR\n2 1 78494 132745 57163 XOR\n2 1 81565 132868 57339 XOR\n2 1 76925 132868 57340 XOR\n2 1 57339 57340 57338 AND\n2 1 57338 132868 132869 XOR\n2 1 132900 132869 80030 XOR\n2 1 80030 78494 132776 XOR\n2 1 132776 132745 76702 XOR\n2 1 80030 132745 57162 XOR\n2 1 57162 57163 57161 AND\n2 1 57161 132745 132746 XOR\n2 1 78495 132746 57166 XOR\n2 1 81566 132869 57342 XOR\n2 1 76926 132869 57343 XOR\n2 1 57342 57343 57341 AND\n2 1 57341 132869 132870 XOR\n2 1 132901 132870 80031 XOR\n2 1 80031 78495 132777 XOR\n2 1 132777 132746 76703 XOR\n2 1 80031 132746 57165 XOR\n2 1 57165 57166 57164 AND\n2 1 57164 132746 132747 XOR\n2 1 78496 132747 57169 XOR\n2 1 81567 132870 57345 XOR\n2 1 76927 132870 57346 XOR\n2 1 57345 57346 57344 AND\n2 1 57344 132870 132871 XOR\n2 1 132902 132871 80032 XOR\n2 1 80032 78496 132778 XOR\n2 1 132778 132747 76704 XOR\n2 1 80032 132747 57168 XOR\n2 1 57168 57169 57167 AND\n2 1 57167 132747 132748 XOR\n2 1 78497 132748 57172 XOR\n2 1 81568 132871 57348 XOR\n2 1 76928 132871 57349 XOR\n2 1 57348 57349 57347 AND\n2 1 57347 132871 132872 XOR\n2 1 132903 132872 80033 XOR\n2 1 80033 78497 132779 XOR\n2 1 132779 132748 76705 XOR\n2 1 80033 132748 57171 XOR\n2 1 57171 57172 57170 AND\n2 1 57170 132748 132749 XOR\n2 1 78498 132749 57175 XOR\n2 1 81569 132872 57351 XOR\n2 1 76929 132872 57352 XOR\n2 1 57351 57352 57350 AND\n2 1 57350 132872 132873 XOR\n2 1 132904 132873 80034 XOR\n2 1 80034 78498 132780 XOR\n2 1 132780 132749 76706 XOR\n2 1 80034 132749 57174 XOR\n2 1 57174 57175 57173 AND\n2 1 57173 132749 132750 XOR\n2 1 78499 132750 57178 XOR\n2 1 81570 132873 57354 XOR\n2 1 76930 132873 57355 XOR\n2 1 57354 57355 57353 AND\n2 1 57353 132873 132874 XOR\n2 1 132905 132874 80035 XOR\n2 1 80035 78499 132781 XOR\n2 1 132781 132750 76707 XOR\n2 1 80035 132750 57177 XOR\n2 1 57177 57178 57176 AND\n2 1 57176 132750 132751 XOR\n2 1 78500 132751 57181 XOR\n2 1 81571 132874 57357 XOR\n2 1 76931 132874 57358 XOR\n2 1 57357 57358 57356 AND\n2 1 57356 132874 132875 XOR\n2 1 132906 132875 80036 XOR\n2 1 80036 78500 132782 XOR\n2 1 132782 132751 76708 XOR\n2 1 80036 132751 57180 XOR\n2 1 57180 57181 57179 AND\n2 1 57179 132751 132752 XOR\n2 1 78501 132752 57184 XOR\n2 1 81572 132875 57360 XOR\n2 1 76932 132875 57361 XOR\n2 1 57360 57361 57359 AND\n2 1 57359 132875 132876 XOR\n2 1 132907 132876 80037 XOR\n2 1 80037 78501 132783 XOR\n2 1 132783 132752 76709 XOR\n2 1 80037 132752 57183 XOR\n2 1 57183 57184 57182 AND\n2 1 57182 132752 132753 XOR\n2 1 78502 132753 57187 XOR\n2 1 81573 132876 57363 XOR\n2 1 76933 132876 57364 XOR\n2 1 57363 57364 57362 AND\n2 1 57362 132876 132877 XOR\n2 1 132908 132877 80038 XOR\n2 1 80038 78502 132784 XOR\n2 1 132784 132753 76710 XOR\n2 1 80038 132753 57186 XOR\n2 1 57186 57187 57185 AND\n2 1 57185 132753 132754 XOR\n2 1 78503 132754 57190 XOR\n2 1 81574 132877 57366 XOR\n2 1 76934 132877 57367 XOR\n2 1 57366 57367 57365 AND\n2 1 57365 132877 132878 XOR\n2 1 132909 132878 80039 XOR\n2 1 80039 78503 132785 XOR\n2 1 132785 132754 76711 XOR\n2 1 80039 132754 57189 XOR\n2 1 57189 57190 57188 AND\n2 1 57188 132754 132755 XOR\n2 1 78504 132755 57193 XOR\n",
"2 1 81575 132878 57369 XOR\n2 1 76935 132878 57370 XOR\n2 1 57369 57370 57368 AND\n2 1 57368 132878 132879 XOR\n2 1 132910 132879 80040 XOR\n2 1 80040 78504 132786 XOR\n2 1 132786 132755 76712 XOR\n2 1 80040 132755 57192 XOR\n2 1 57192 57193 57191 AND\n2 1 57191 132755 132756 XOR\n2 1 78505 132756 57196 XOR\n2 1 81576 132879 57372 XOR\n2 1 76936 132879 57373 XOR\n2 1 57372 57373 57371 AND\n2 1 57371 132879 132880 XOR\n2 1 132911 132880 80041 XOR\n2 1 80041 78505 132787 XOR\n2 1 132787 132756 76713 XOR\n2 1 80041 132756 57195 XOR\n2 1 57195 57196 57194 AND\n2 1 57194 132756 132757 XOR\n2 1 78506 132757 57199 XOR\n2 1 81577 132880 57375 XOR\n2 1 76937 132880 57376 XOR\n2 1 57375 57376 57374 AND\n2 1 57374 132880 132881 XOR\n2 1 132912 132881 80042 XOR\n2 1 80042 78506 132788 XOR\n2 1 132788 132757 76714 XOR\n2 1 80042 132757 57198 XOR\n2 1 57198 57199 57197 AND\n2 1 57197 132757 132758 XOR\n2 1 78507 132758 57202 XOR\n2 1 81578 132881 57378 XOR\n2 1 76938 132881 57379 XOR\n2 1 57378 57379 57377 AND\n2 1 57377 132881 132882 XOR\n2 1 132913 132882 80043 XOR\n2 1 80043 78507 132789 XOR\n2 1 132789 132758 76715 XOR\n2 1 80043 132758 57201 XOR\n2 1 57201 57202 57200 AND\n2 1 57200 132758 132759 XOR\n2 1 78508 132759 57205 XOR\n2 1 81579 132882 57381 XOR\n2 1 76939 132882 57382 XOR\n2 1 57381 57382 57380 AND\n2 1 57380 132882 132883 XOR\n2 1 132914 132883 80044 XOR\n2 1 80044 78508 132790 XOR\n2 1 132790 132759 76716 XOR\n2 1 80044 132759 57204 XOR\n2 1 57204 57205 57203 AND\n2 1 57203 132759 132760 XOR\n2 1 78509 132760 57208 XOR\n2 1 81580 132883 57384 XOR\n2 1 76940 132883 57385 XOR\n2 1 57384 57385 57383 AND\n2 1 57383 132883 132884 XOR\n2 1 132915 132884 80045 XOR\n2 1 80045 78509 132791 XOR\n2 1 132791 132760 76717 XOR\n2 1 80045 132760 57207 XOR\n2 1 57207 57208 57206 AND\n2 1 57206 132760 132761 XOR\n2 1 78510 132761 57211 XOR\n2 1 81581 132884 57387 XOR\n2 1 76941 132884 57388 XOR\n2 1 57387 57388 57386 AND\n2 1 57386 132884 132885 XOR\n2 1 132916 132885 80046 XOR\n2 1 80046 78510 132792 XOR\n2 1 132792 132761 76718 XOR\n2 1 80046 132761 57210 XOR\n2 1 57210 57211 57209 AND\n2 1 57209 132761 132762 XOR\n2 1 78511 132762 57214 XOR\n2 1 81582 132885 57390 XOR\n2 1 76942 132885 57391 XOR\n2 1 57390 57391 57389 AND\n2 1 57389 132885 132886 XOR\n2 1 132917 132886 80047 XOR\n2 1 80047 78511 132793 XOR\n2 1 132793 132762 76719 XOR\n2 1 80047 132762 57213 XOR\n2 1 57213 57214 57212 AND\n2 1 57212 132762 132763 XOR\n2 1 81583 132886 57393 XOR\n2 1 76943 132886 57394 XOR\n2 1 57393 57394 57392 AND\n2 1 57392 132886 132887 XOR\n2 1 132918 132887 80048 XOR\n2 1 80048 78512 132794 XOR\n2 1 132794 132763 76720 XOR\n2 1 76717 3356 119042 XOR\n2 1 76715 3354 119040 XOR\n2 1 76713 3352 119038 XOR\n2 1 76711 3350 119036 XOR\n2 1 76709 3348 119034 XOR\n2 1 76707 3346 119032 XOR\n2 1 76705 3344 119030 XOR\n2 1 76703 3342 119028 XOR\n2 1 76701 3340 119026 XOR\n2 1 76699 3338 119024 XOR\n2 1 76697 3336 119022 XOR\n2 1 76691 3330 119016 XOR\n2 1 76690 3329 119015 XOR\n2 1 76689 3328 118984 AND\n2 1 76689 3328 94806 XOR\n2 1 96854 94806 92781 XOR\n1 1 92781 90769 INV\n2 1 2816 90769 3200 XOR\n2 1 2816 90769 106622 AND\n2 1 2817 106622 13897 XOR\n2 1 90769 84625 2688 XOR\n2 1 2688 2752 71983 XOR\n2 1 71983 71951 71919 AND\n2 1 71919 2752 86641 XOR\n2 1 2688 2720 71855 XOR\n2 1 76692 3331 119017 XOR\n2 1 64975 3200 64943 AND\n2 1 64943 3264 98870 XOR\n2 1 3200 3232 64911 XOR\n2 1 90769 84625 106684 AND\n2 1 84626 106684 13988 XOR\n2 1 76696 3335 119021 XOR\n2 1 96854 94806 118922 AND\n2 1 96855 118922 34698 XOR\n",
"2 1 76698 3337 119023 XOR\n2 1 76700 3339 119025 XOR\n2 1 76702 3341 119027 XOR\n2 1 76704 3343 119029 XOR\n2 1 76706 3345 119031 XOR\n2 1 76708 3347 119033 XOR\n2 1 76710 3349 119035 XOR\n2 1 76712 3351 119037 XOR\n2 1 76714 3353 119039 XOR\n2 1 76716 3355 119041 XOR\n2 1 76718 3357 119043 XOR\n2 1 76719 3358 119044 XOR\n2 1 76720 3359 119045 XOR\n2 1 119015 118984 94807 XOR\n2 1 94807 118922 34699 XOR\n2 1 34698 34699 34697 AND\n2 1 96855 94807 118953 XOR\n2 1 118953 118922 92782 XOR\n1 1 92782 34681 INV\n2 1 34681 92781 90770 XOR\n2 1 2817 90770 106653 XOR\n2 1 106653 106622 3201 XOR\n2 1 90770 106622 13898 XOR\n2 1 13897 13898 13896 AND\n2 1 13896 106622 106623 XOR\n2 1 92782 92781 34593 XOR\n2 1 34593 90769 34592 AND\n2 1 34592 92781 34666 XOR\n1 1 34666 34596 INV\n2 1 2818 106623 13900 XOR\n2 1 64976 3201 64944 AND\n2 1 64944 3265 98871 XOR\n2 1 3201 3233 64912 XOR\n2 1 90770 84626 106715 XOR\n2 1 106715 106684 2689 XOR\n2 1 2689 2753 71984 XOR\n2 1 71984 71952 71920 AND\n2 1 71920 2753 86642 XOR\n2 1 2689 2721 71856 XOR\n2 1 90770 106684 13987 XOR\n2 1 13987 13988 13986 AND\n2 1 13986 106684 106685 XOR\n2 1 84627 106685 13991 XOR\n2 1 34697 118922 118923 XOR\n2 1 96856 118923 34701 XOR\n2 1 76690 118984 34788 XOR\n2 1 3329 118984 34789 XOR\n2 1 34788 34789 34787 AND\n2 1 34787 118984 118985 XOR\n2 1 119016 118985 94808 XOR\n2 1 96856 94808 118954 XOR\n2 1 94808 118923 34702 XOR\n2 1 118954 118923 92783 XOR\n1 1 92783 34682 INV\n2 1 92783 34666 34595 XOR\n2 1 34595 34596 34594 AND\n2 1 34682 34666 90771 XOR\n2 1 2818 90771 106654 XOR\n2 1 90771 106685 13990 XOR\n2 1 90771 84627 106716 XOR\n2 1 34594 34666 34598 XOR\n2 1 106654 106623 3202 XOR\n2 1 90771 106623 13901 XOR\n2 1 13900 13901 13899 AND\n2 1 13899 106623 106624 XOR\n2 1 2819 106624 13903 XOR\n2 1 64977 3202 64945 AND\n2 1 64945 3266 98872 XOR\n2 1 3202 3234 64913 XOR\n2 1 106716 106685 2690 XOR\n2 1 2690 2754 71985 XOR\n2 1 71985 71953 71921 AND\n2 1 71921 2754 86643 XOR\n2 1 2690 2722 71857 XOR\n2 1 13990 13991 13989 AND\n2 1 13989 106685 106686 XOR\n2 1 84628 106686 13994 XOR\n2 1 34701 34702 34700 AND\n2 1 34700 118923 118924 XOR\n2 1 96857 118924 34704 XOR\n2 1 76691 118985 34791 XOR\n2 1 3330 118985 34792 XOR\n2 1 34791 34792 34790 AND\n2 1 34790 118985 118986 XOR\n2 1 119017 118986 94809 XOR\n2 1 94809 118924 34705 XOR\n2 1 34704 34705 34703 AND\n2 1 34703 118924 118925 XOR\n2 1 96858 118925 34707 XOR\n2 1 96857 94809 118955 XOR\n2 1 118955 118924 92784 XOR\n2 1 92784 34598 90772 XOR\n2 1 90772 106686 13993 XOR\n2 1 13993 13994 13992 AND\n2 1 2819 90772 106655 XOR\n2 1 90772 34598 34597 AND\n2 1 34597 34598 34600 XOR\n2 1 106655 106624 3203 XOR\n2 1 90772 106624 13904 XOR\n2 1 13903 13904 13902 AND\n2 1 13902 106624 106625 XOR\n2 1 2820 106625 13906 XOR\n2 1 64978 3203 64946 AND\n2 1 64946 3267 98873 XOR\n2 1 3203 3235 64914 XOR\n2 1 90772 84628 106717 XOR\n2 1 106717 106686 2691 XOR\n2 1 2691 2755 71986 XOR\n2 1 71986 71954 71922 AND\n2 1 71922 2755 86644 XOR\n2 1 2691 2723 71858 XOR\n2 1 13992 106686 106687 XOR\n2 1 84629 106687 13997 XOR\n2 1 76692 118986 34794 XOR\n2 1 3331 118986 34795 XOR\n2 1 34794 34795 34793 AND\n2 1 34793 118986 118987 XOR\n2 1 119018 118987 94810 XOR\n2 1 94810 118925 34708 XOR\n2 1 34707 34708 34706 AND\n2 1 34706 118925 118926 XOR\n2 1 96859 118926 34710 XOR\n2 1 96858 94810 118956 XOR\n2 1 118956 118925 92785 XOR\n2 1 92785 34600 90773 XOR\n2 1 90773 34600 34599 AND\n2 1 34599 34600 34602 XOR\n2 1 2820 90773 106656 XOR\n",
"2 1 90773 84629 106718 XOR\n2 1 106718 106687 2692 XOR\n2 1 90773 106687 13996 XOR\n2 1 13996 13997 13995 AND\n2 1 2692 2756 71987 XOR\n2 1 71987 71955 71923 AND\n2 1 71923 2756 86645 XOR\n2 1 2692 2724 71859 XOR\n2 1 13995 106687 106688 XOR\n2 1 84630 106688 14000 XOR\n2 1 106656 106625 3204 XOR\n2 1 90773 106625 13907 XOR\n2 1 13906 13907 13905 AND\n2 1 13905 106625 106626 XOR\n2 1 2821 106626 13909 XOR\n2 1 64979 3204 64947 AND\n2 1 64947 3268 98874 XOR\n2 1 3204 3236 64915 XOR\n2 1 76693 118987 34797 XOR\n2 1 3332 118987 34798 XOR\n2 1 34797 34798 34796 AND\n2 1 34796 118987 118988 XOR\n2 1 3333 118988 34801 XOR\n2 1 119019 118988 94811 XOR\n2 1 94811 118926 34711 XOR\n2 1 34710 34711 34709 AND\n2 1 34709 118926 118927 XOR\n2 1 96860 118927 34713 XOR\n2 1 96859 94811 118957 XOR\n2 1 118957 118926 92786 XOR\n2 1 92786 34602 90774 XOR\n2 1 90774 34602 34601 AND\n2 1 34601 34602 34667 XOR\n1 1 34667 34605 INV\n2 1 90774 106688 13999 XOR\n2 1 13999 14000 13998 AND\n2 1 13998 106688 106689 XOR\n2 1 2821 90774 106657 XOR\n2 1 84631 106689 14003 XOR\n2 1 106657 106626 3205 XOR\n2 1 90774 106626 13910 XOR\n2 1 13909 13910 13908 AND\n2 1 13908 106626 106627 XOR\n2 1 2822 106627 13912 XOR\n2 1 64980 3205 64948 AND\n2 1 64948 3269 98875 XOR\n2 1 3205 3237 64916 XOR\n2 1 90774 84630 106719 XOR\n2 1 106719 106688 2693 XOR\n2 1 2693 2757 71988 XOR\n2 1 71988 71956 71924 AND\n2 1 71924 2757 86646 XOR\n2 1 2693 2725 71860 XOR\n2 1 3200 3205 61897 XOR\n2 1 76694 118988 34800 XOR\n2 1 34800 34801 34799 AND\n2 1 34799 118988 118989 XOR\n2 1 76695 118989 34803 XOR\n2 1 119020 118989 94812 XOR\n2 1 94812 118927 34714 XOR\n2 1 34713 34714 34712 AND\n2 1 34712 118927 118928 XOR\n2 1 96861 118928 34716 XOR\n2 1 96860 94812 118958 XOR\n2 1 118958 118927 92787 XOR\n2 1 92787 34667 34604 XOR\n2 1 34604 34605 34603 AND\n1 1 92787 34683 INV\n2 1 34603 34667 34607 XOR\n2 1 34683 34667 90775 XOR\n2 1 2822 90775 106658 XOR\n2 1 90775 106689 14002 XOR\n2 1 14002 14003 14001 AND\n2 1 90775 84631 106720 XOR\n2 1 106720 106689 2694 XOR\n2 1 14001 106689 106690 XOR\n2 1 2694 2758 71989 XOR\n2 1 71989 71957 71925 AND\n2 1 71925 2758 86647 XOR\n2 1 2694 2726 71861 XOR\n2 1 84632 106690 14006 XOR\n2 1 106658 106627 3206 XOR\n2 1 90775 106627 13913 XOR\n2 1 13912 13913 13911 AND\n2 1 13911 106627 106628 XOR\n2 1 2823 106628 13915 XOR\n2 1 64981 3206 64949 AND\n2 1 64949 3270 98876 XOR\n2 1 3206 3238 64917 XOR\n2 1 3201 3206 61898 XOR\n2 1 3334 118989 34804 XOR\n2 1 34803 34804 34802 AND\n2 1 34802 118989 118990 XOR\n2 1 3335 118990 34807 XOR\n2 1 119021 118990 94813 XOR\n2 1 94813 118928 34717 XOR\n2 1 34716 34717 34715 AND\n2 1 34715 118928 118929 XOR\n2 1 96862 118929 34719 XOR\n2 1 96861 94813 118959 XOR\n2 1 118959 118928 92788 XOR\n2 1 92788 34607 90776 XOR\n2 1 90776 34607 34606 AND\n2 1 34606 34607 34668 XOR\n1 1 34668 34610 INV\n2 1 90776 106690 14005 XOR\n2 1 14005 14006 14004 AND\n2 1 2823 90776 106659 XOR\n2 1 14004 106690 106691 XOR\n2 1 84633 106691 14009 XOR\n2 1 106659 106628 3207 XOR\n2 1 90776 106628 13916 XOR\n2 1 13915 13916 13914 AND\n2 1 13914 106628 106629 XOR\n2 1 2824 106629 13918 XOR\n2 1 64982 3207 64950 AND\n2 1 64950 3271 98877 XOR\n2 1 3207 3239 64918 XOR\n2 1 90776 84632 106721 XOR\n2 1 106721 106690 2695 XOR\n2 1 2695 2759 71990 XOR\n2 1 71990 71958 71926 AND\n2 1 71926 2759 86648 XOR\n2 1 2695 2727 71862 XOR\n2 1 3202 3207 61899 XOR\n2 1 76696 118990 34806 XOR\n2 1 34806 34807 34805 AND\n2 1 34805 118990 118991 XOR\n",
"2 1 76697 118991 34809 XOR\n2 1 119022 118991 94814 XOR\n2 1 94814 118929 34720 XOR\n2 1 34719 34720 34718 AND\n2 1 34718 118929 118930 XOR\n2 1 96863 118930 34722 XOR\n2 1 96862 94814 118960 XOR\n2 1 118960 118929 92789 XOR\n2 1 92789 34668 34609 XOR\n2 1 34609 34610 34608 AND\n2 1 34608 34668 34612 XOR\n1 1 92789 34684 INV\n2 1 34684 34668 90777 XOR\n2 1 90777 106691 14008 XOR\n2 1 14008 14009 14007 AND\n2 1 14007 106691 106692 XOR\n2 1 84634 106692 14012 XOR\n2 1 2824 90777 106660 XOR\n2 1 90777 84633 106722 XOR\n2 1 106722 106691 2696 XOR\n2 1 2696 2760 71991 XOR\n2 1 71991 71959 71927 AND\n2 1 71927 2760 86649 XOR\n2 1 2696 2728 71863 XOR\n2 1 106660 106629 3208 XOR\n2 1 90777 106629 13919 XOR\n2 1 13918 13919 13917 AND\n2 1 13917 106629 106630 XOR\n2 1 2825 106630 13921 XOR\n2 1 64983 3208 64951 AND\n2 1 64951 3272 98878 XOR\n2 1 3208 3240 64919 XOR\n2 1 3203 3208 61900 XOR\n2 1 3336 118991 34810 XOR\n2 1 34809 34810 34808 AND\n2 1 34808 118991 118992 XOR\n2 1 3337 118992 34813 XOR\n2 1 119023 118992 94815 XOR\n2 1 94815 118930 34723 XOR\n2 1 34722 34723 34721 AND\n2 1 34721 118930 118931 XOR\n2 1 96864 118931 34725 XOR\n2 1 96863 94815 118961 XOR\n2 1 118961 118930 92790 XOR\n2 1 92790 34612 90778 XOR\n2 1 90778 34612 34611 AND\n2 1 34611 34612 34614 XOR\n2 1 90778 106692 14011 XOR\n2 1 14011 14012 14010 AND\n2 1 14010 106692 106693 XOR\n2 1 2825 90778 106661 XOR\n2 1 84635 106693 14015 XOR\n2 1 106661 106630 3209 XOR\n2 1 90778 106630 13922 XOR\n2 1 13921 13922 13920 AND\n2 1 13920 106630 106631 XOR\n2 1 2826 106631 13924 XOR\n2 1 64984 3209 64952 AND\n2 1 64952 3273 98879 XOR\n2 1 3209 3241 64920 XOR\n2 1 90778 84634 106723 XOR\n2 1 106723 106692 2697 XOR\n2 1 2697 2761 71992 XOR\n2 1 71992 71960 71928 AND\n2 1 71928 2761 86650 XOR\n2 1 2697 2729 71864 XOR\n2 1 3204 3209 61901 XOR\n2 1 76698 118992 34812 XOR\n2 1 34812 34813 34811 AND\n2 1 34811 118992 118993 XOR\n2 1 76699 118993 34815 XOR\n2 1 119024 118993 94816 XOR\n2 1 94816 118931 34726 XOR\n2 1 34725 34726 34724 AND\n2 1 34724 118931 118932 XOR\n2 1 96864 94816 118962 XOR\n2 1 118962 118931 92791 XOR\n2 1 92791 34614 90779 XOR\n2 1 90779 106693 14014 XOR\n2 1 14014 14015 14013 AND\n2 1 14013 106693 106694 XOR\n2 1 90779 84635 106724 XOR\n2 1 106724 106693 2698 XOR\n2 1 84636 106694 14018 XOR\n2 1 2826 90779 106662 XOR\n2 1 90779 34614 34613 AND\n2 1 34613 34614 34616 XOR\n2 1 2698 2762 71993 XOR\n2 1 71993 71961 71929 AND\n2 1 71929 2762 86651 XOR\n2 1 2698 2730 71865 XOR\n2 1 106662 106631 3210 XOR\n2 1 90779 106631 13925 XOR\n2 1 13924 13925 13923 AND\n2 1 13923 106631 106632 XOR\n2 1 2827 106632 13927 XOR\n2 1 64985 3210 64953 AND\n2 1 64953 3274 98880 XOR\n2 1 3210 3242 64921 XOR\n2 1 96865 118932 34728 XOR\n2 1 3205 3210 61902 XOR\n2 1 3338 118993 34816 XOR\n2 1 34815 34816 34814 AND\n2 1 34814 118993 118994 XOR\n2 1 3339 118994 34819 XOR\n2 1 119025 118994 94817 XOR\n2 1 94817 118932 34729 XOR\n2 1 34728 34729 34727 AND\n2 1 34727 118932 118933 XOR\n2 1 96866 118933 34731 XOR\n2 1 96865 94817 118963 XOR\n2 1 118963 118932 92792 XOR\n2 1 92792 34616 90780 XOR\n2 1 90780 34616 34615 AND\n2 1 34615 34616 34669 XOR\n1 1 34669 34619 INV\n2 1 2827 90780 106663 XOR\n2 1 90780 106694 14017 XOR\n2 1 14017 14018 14016 AND\n2 1 14016 106694 106695 XOR\n2 1 84637 106695 14021 XOR\n2 1 106663 106632 3211 XOR\n2 1 90780 106632 13928 XOR\n2 1 13927 13928 13926 AND\n2 1 13926 106632 106633 XOR\n2 1 2828 106633 13930 XOR\n2 1 64986 3211 64954 AND\n2 1 64954 3275 98881 XOR\n",
"2 1 3211 3243 64922 XOR\n2 1 90780 84636 106725 XOR\n2 1 106725 106694 2699 XOR\n2 1 2699 2763 71994 XOR\n2 1 71994 71962 71930 AND\n2 1 71930 2763 86652 XOR\n2 1 2699 2731 71866 XOR\n2 1 2688 2699 67821 XOR\n2 1 3206 3211 61871 XOR\n2 1 76700 118994 34818 XOR\n2 1 34818 34819 34817 AND\n2 1 34817 118994 118995 XOR\n2 1 76701 118995 34821 XOR\n2 1 119026 118995 94818 XOR\n2 1 96866 94818 118964 XOR\n2 1 118964 118933 92793 XOR\n1 1 92793 34685 INV\n2 1 34685 34669 90781 XOR\n2 1 90781 106695 14020 XOR\n2 1 2828 90781 106664 XOR\n2 1 14020 14021 14019 AND\n2 1 14019 106695 106696 XOR\n2 1 84638 106696 14024 XOR\n2 1 90781 84637 106726 XOR\n2 1 106726 106695 2700 XOR\n2 1 92793 34669 34618 XOR\n2 1 34618 34619 34617 AND\n2 1 34617 34669 34621 XOR\n2 1 2700 2764 71995 XOR\n2 1 71995 71963 71931 AND\n2 1 71931 2764 86653 XOR\n2 1 2700 2732 71867 XOR\n2 1 2689 2700 67822 XOR\n2 1 106664 106633 3212 XOR\n2 1 90781 106633 13931 XOR\n2 1 13930 13931 13929 AND\n2 1 13929 106633 106634 XOR\n2 1 2829 106634 13933 XOR\n2 1 64987 3212 64955 AND\n2 1 64955 3276 98882 XOR\n2 1 3212 3244 64923 XOR\n2 1 94818 118933 34732 XOR\n2 1 34731 34732 34730 AND\n2 1 34730 118933 118934 XOR\n2 1 96867 118934 34734 XOR\n2 1 3207 3212 61872 XOR\n2 1 3340 118995 34822 XOR\n2 1 34821 34822 34820 AND\n2 1 34820 118995 118996 XOR\n2 1 3341 118996 34825 XOR\n2 1 76702 118996 34824 XOR\n2 1 34824 34825 34823 AND\n2 1 119027 118996 94819 XOR\n2 1 94819 118934 34735 XOR\n2 1 34734 34735 34733 AND\n2 1 34733 118934 118935 XOR\n2 1 96868 118935 34737 XOR\n2 1 96867 94819 118965 XOR\n2 1 118965 118934 92794 XOR\n2 1 92794 34621 90782 XOR\n2 1 2829 90782 106665 XOR\n2 1 90782 34621 34620 AND\n2 1 34620 34621 34623 XOR\n2 1 90782 106696 14023 XOR\n2 1 14023 14024 14022 AND\n2 1 14022 106696 106697 XOR\n2 1 106665 106634 3213 XOR\n2 1 90782 106634 13934 XOR\n2 1 13933 13934 13932 AND\n2 1 13932 106634 106635 XOR\n2 1 2830 106635 13936 XOR\n2 1 64988 3213 64956 AND\n2 1 64956 3277 98883 XOR\n2 1 3213 3245 64924 XOR\n2 1 90782 84638 106727 XOR\n2 1 106727 106696 2701 XOR\n2 1 2701 2765 71996 XOR\n2 1 71996 71964 71932 AND\n2 1 71932 2765 86654 XOR\n2 1 2701 2733 71868 XOR\n2 1 2690 2701 67791 XOR\n2 1 84639 106697 14027 XOR\n2 1 3208 3213 61873 XOR\n2 1 34823 118996 118997 XOR\n2 1 3342 118997 34828 XOR\n2 1 119028 118997 94820 XOR\n2 1 94820 118935 34738 XOR\n2 1 34737 34738 34736 AND\n2 1 34736 118935 118936 XOR\n2 1 96869 118936 34740 XOR\n2 1 76703 118997 34827 XOR\n2 1 34827 34828 34826 AND\n2 1 34826 118997 118998 XOR\n2 1 3343 118998 34831 XOR\n2 1 76704 118998 34830 XOR\n2 1 34830 34831 34829 AND\n2 1 34829 118998 118999 XOR\n2 1 119030 118999 94822 XOR\n2 1 76705 118999 34833 XOR\n2 1 3344 118999 34834 XOR\n2 1 34833 34834 34832 AND\n2 1 34832 118999 119000 XOR\n2 1 76706 119000 34836 XOR\n2 1 119031 119000 94823 XOR\n2 1 3345 119000 34837 XOR\n2 1 34836 34837 34835 AND\n2 1 34835 119000 119001 XOR\n2 1 119032 119001 94824 XOR\n2 1 119029 118998 94821 XOR\n2 1 94821 118936 34741 XOR\n2 1 34740 34741 34739 AND\n2 1 34739 118936 118937 XOR\n2 1 96870 118937 34743 XOR\n2 1 94822 118937 34744 XOR\n2 1 34743 34744 34742 AND\n2 1 34742 118937 118938 XOR\n2 1 94823 118938 34747 XOR\n2 1 96871 118938 34746 XOR\n2 1 34746 34747 34745 AND\n2 1 34745 118938 118939 XOR\n2 1 76707 119001 34839 XOR\n2 1 3346 119001 34840 XOR\n2 1 34839 34840 34838 AND\n2 1 34838 119001 119002 XOR\n2 1 76708 119002 34842 XOR\n2 1 3347 119002 34843 XOR\n2 1 34842 34843 34841 AND\n2 1 119033 119002 94825 XOR\n",
"2 1 34841 119002 119003 XOR\n2 1 76709 119003 34845 XOR\n2 1 119034 119003 94826 XOR\n2 1 3348 119003 34846 XOR\n2 1 34845 34846 34844 AND\n2 1 34844 119003 119004 XOR\n2 1 119035 119004 94827 XOR\n2 1 3349 119004 34849 XOR\n2 1 76710 119004 34848 XOR\n2 1 34848 34849 34847 AND\n2 1 34847 119004 119005 XOR\n2 1 119036 119005 94828 XOR\n2 1 3350 119005 34852 XOR\n2 1 76711 119005 34851 XOR\n2 1 34851 34852 34850 AND\n2 1 34850 119005 119006 XOR\n2 1 119037 119006 94829 XOR\n2 1 3351 119006 34855 XOR\n2 1 76712 119006 34854 XOR\n2 1 34854 34855 34853 AND\n2 1 34853 119006 119007 XOR\n2 1 76713 119007 34857 XOR\n2 1 3352 119007 34858 XOR\n2 1 34857 34858 34856 AND\n2 1 119038 119007 94830 XOR\n2 1 34856 119007 119008 XOR\n2 1 119039 119008 94831 XOR\n2 1 76714 119008 34860 XOR\n2 1 3353 119008 34861 XOR\n2 1 34860 34861 34859 AND\n2 1 34859 119008 119009 XOR\n2 1 119040 119009 94832 XOR\n2 1 3354 119009 34864 XOR\n2 1 76715 119009 34863 XOR\n2 1 34863 34864 34862 AND\n2 1 34862 119009 119010 XOR\n2 1 76716 119010 34866 XOR\n2 1 119041 119010 94833 XOR\n2 1 96878 94830 118976 XOR\n2 1 3355 119010 34867 XOR\n2 1 34866 34867 34865 AND\n2 1 34865 119010 119011 XOR\n2 1 119042 119011 94834 XOR\n2 1 3356 119011 34870 XOR\n2 1 76717 119011 34869 XOR\n2 1 34869 34870 34868 AND\n2 1 34868 119011 119012 XOR\n2 1 119043 119012 94835 XOR\n2 1 76718 119012 34872 XOR\n2 1 3357 119012 34873 XOR\n2 1 34872 34873 34871 AND\n2 1 34871 119012 119013 XOR\n2 1 76719 119013 34875 XOR\n2 1 119044 119013 94836 XOR\n2 1 96884 94836 118982 XOR\n2 1 3358 119013 34876 XOR\n2 1 34875 34876 34874 AND\n2 1 34874 119013 119014 XOR\n2 1 119045 119014 94837 XOR\n2 1 94824 118939 34750 XOR\n2 1 96872 118939 34749 XOR\n2 1 34749 34750 34748 AND\n2 1 34748 118939 118940 XOR\n2 1 96876 94828 118974 XOR\n2 1 94825 118940 34753 XOR\n2 1 96873 118940 34752 XOR\n2 1 34752 34753 34751 AND\n2 1 34751 118940 118941 XOR\n2 1 96874 94826 118972 XOR\n2 1 118972 118941 92801 XOR\n2 1 94826 118941 34756 XOR\n2 1 96874 118941 34755 XOR\n2 1 96872 94824 118970 XOR\n2 1 118970 118939 92799 XOR\n1 1 92799 34689 INV\n2 1 34755 34756 34754 AND\n2 1 34754 118941 118942 XOR\n2 1 94827 118942 34759 XOR\n2 1 96875 118942 34758 XOR\n2 1 34758 34759 34757 AND\n2 1 96882 94834 118980 XOR\n2 1 96880 94832 118978 XOR\n2 1 96870 94822 118968 XOR\n2 1 118968 118937 92797 XOR\n1 1 92797 34687 INV\n2 1 34757 118942 118943 XOR\n2 1 118974 118943 92803 XOR\n2 1 94828 118943 34762 XOR\n2 1 96868 94820 118966 XOR\n2 1 118966 118935 92795 XOR\n2 1 92795 34623 90783 XOR\n2 1 2830 90783 106666 XOR\n2 1 90783 84639 106728 XOR\n2 1 106728 106697 2702 XOR\n2 1 2702 2766 71997 XOR\n2 1 71997 71965 71933 AND\n2 1 71933 2766 86655 XOR\n2 1 2702 2734 71869 XOR\n2 1 2691 2702 67792 XOR\n2 1 106666 106635 3214 XOR\n2 1 90783 106635 13937 XOR\n2 1 13936 13937 13935 AND\n2 1 13935 106635 106636 XOR\n2 1 2831 106636 13939 XOR\n2 1 64989 3214 64957 AND\n2 1 64957 3278 98884 XOR\n2 1 3214 3246 64925 XOR\n2 1 90783 106697 14026 XOR\n2 1 14026 14027 14025 AND\n2 1 90783 34623 34622 AND\n2 1 34622 34623 34670 XOR\n1 1 34670 34626 INV\n2 1 14025 106697 106698 XOR\n2 1 84640 106698 14030 XOR\n2 1 96876 118943 34761 XOR\n2 1 34761 34762 34760 AND\n2 1 34760 118943 118944 XOR\n2 1 94829 118944 34765 XOR\n2 1 96877 118944 34764 XOR\n2 1 34764 34765 34763 AND\n2 1 34763 118944 118945 XOR\n2 1 118976 118945 92805 XOR\n1 1 92805 34692 INV\n2 1 94830 118945 34768 XOR\n2 1 96878 118945 34767 XOR\n2 1 34767 34768 34766 AND\n2 1 34766 118945 118946 XOR\n2 1 96879 118946 34770 XOR\n",
"2 1 94831 118946 34771 XOR\n2 1 34770 34771 34769 AND\n2 1 34769 118946 118947 XOR\n2 1 118978 118947 92807 XOR\n1 1 92807 34693 INV\n2 1 94832 118947 34774 XOR\n2 1 96880 118947 34773 XOR\n2 1 34773 34774 34772 AND\n2 1 34772 118947 118948 XOR\n2 1 94833 118948 34777 XOR\n2 1 96881 118948 34776 XOR\n2 1 34776 34777 34775 AND\n2 1 34775 118948 118949 XOR\n2 1 118980 118949 92809 XOR\n2 1 96882 118949 34779 XOR\n2 1 94834 118949 34780 XOR\n2 1 34779 34780 34778 AND\n2 1 34778 118949 118950 XOR\n1 1 92809 34694 INV\n2 1 94835 118950 34783 XOR\n2 1 96883 118950 34782 XOR\n2 1 34782 34783 34781 AND\n2 1 34781 118950 118951 XOR\n2 1 118982 118951 92811 XOR\n1 1 92811 34695 INV\n2 1 94836 118951 34786 XOR\n2 1 96884 118951 34785 XOR\n2 1 34785 34786 34784 AND\n2 1 34784 118951 118952 XOR\n2 1 96869 94821 118967 XOR\n2 1 118967 118936 92796 XOR\n2 1 92796 34670 34625 XOR\n2 1 34625 34626 34624 AND\n2 1 34624 34670 34671 XOR\n2 1 34687 34671 90785 XOR\n2 1 2832 90785 106668 XOR\n2 1 90785 84641 106730 XOR\n2 1 92797 34671 34628 XOR\n1 1 34671 34629 INV\n2 1 34628 34629 34627 AND\n2 1 34627 34671 34672 XOR\n1 1 34672 34632 INV\n1 1 92796 34686 INV\n2 1 34686 34670 90784 XOR\n2 1 90784 106698 14029 XOR\n2 1 14029 14030 14028 AND\n2 1 14028 106698 106699 XOR\n2 1 106730 106699 2704 XOR\n2 1 2831 90784 106667 XOR\n2 1 90785 106699 14032 XOR\n2 1 84641 106699 14033 XOR\n2 1 14032 14033 14031 AND\n2 1 14031 106699 106700 XOR\n2 1 84642 106700 14036 XOR\n2 1 2704 2768 71999 XOR\n2 1 71999 71967 71935 AND\n2 1 71935 2768 86657 XOR\n2 1 2704 2736 71871 XOR\n2 1 2693 2704 67794 XOR\n2 1 106667 106636 3215 XOR\n2 1 90784 106636 13940 XOR\n2 1 13939 13940 13938 AND\n2 1 13938 106636 106637 XOR\n2 1 106668 106637 3216 XOR\n2 1 2832 106637 13942 XOR\n2 1 90785 106637 13943 XOR\n2 1 13942 13943 13941 AND\n2 1 13941 106637 106638 XOR\n2 1 2833 106638 13945 XOR\n2 1 64991 3216 64959 AND\n2 1 64990 3215 64958 AND\n2 1 64959 3280 98886 XOR\n2 1 64958 3279 98885 XOR\n2 1 3216 3248 64927 XOR\n2 1 3215 3247 64926 XOR\n2 1 90784 84640 106729 XOR\n2 1 106729 106698 2703 XOR\n2 1 2703 2767 71998 XOR\n2 1 71998 71966 71934 AND\n2 1 71934 2767 86656 XOR\n2 1 2703 2735 71870 XOR\n2 1 2692 2703 67793 XOR\n2 1 96871 94823 118969 XOR\n2 1 118969 118938 92798 XOR\n1 1 92798 34688 INV\n2 1 34688 34672 90786 XOR\n2 1 2833 90786 106669 XOR\n2 1 90786 106700 14035 XOR\n2 1 14035 14036 14034 AND\n2 1 14034 106700 106701 XOR\n2 1 84643 106701 14039 XOR\n2 1 106669 106638 3217 XOR\n2 1 90786 106638 13946 XOR\n2 1 13945 13946 13944 AND\n2 1 13944 106638 106639 XOR\n2 1 2834 106639 13948 XOR\n2 1 64992 3217 64960 AND\n2 1 64960 3281 98887 XOR\n2 1 3217 3249 64928 XOR\n2 1 90786 84642 106731 XOR\n2 1 106731 106700 2705 XOR\n2 1 2705 2769 72000 XOR\n2 1 72000 71968 71936 AND\n2 1 71936 2769 86658 XOR\n2 1 2705 2737 71872 XOR\n2 1 2694 2705 67795 XOR\n2 1 92798 34672 34631 XOR\n2 1 34631 34632 34630 AND\n2 1 34630 34672 34673 XOR\n1 1 34673 34635 INV\n2 1 34689 34673 90787 XOR\n2 1 2834 90787 106670 XOR\n2 1 90787 106701 14038 XOR\n2 1 14038 14039 14037 AND\n2 1 14037 106701 106702 XOR\n2 1 84644 106702 14042 XOR\n2 1 90787 84643 106732 XOR\n2 1 106732 106701 2706 XOR\n2 1 2706 2770 72001 XOR\n2 1 72001 71969 71937 AND\n2 1 71937 2770 86659 XOR\n2 1 2706 2738 71873 XOR\n2 1 2695 2706 67796 XOR\n2 1 106670 106639 3218 XOR\n2 1 90787 106639 13949 XOR\n2 1 13948 13949 13947 AND\n2 1 13947 106639 106640 XOR\n2 1 2835 106640 13951 XOR\n",
"2 1 64993 3218 64961 AND\n2 1 64961 3282 98888 XOR\n2 1 3218 3250 64929 XOR\n2 1 92799 34673 34634 XOR\n2 1 34634 34635 34633 AND\n2 1 34633 34673 34637 XOR\n2 1 96873 94825 118971 XOR\n2 1 118971 118940 92800 XOR\n2 1 92800 34637 90788 XOR\n2 1 90788 106702 14041 XOR\n2 1 14041 14042 14040 AND\n2 1 14040 106702 106703 XOR\n2 1 90788 106640 13952 XOR\n2 1 13951 13952 13950 AND\n2 1 13950 106640 106641 XOR\n2 1 2836 106641 13954 XOR\n2 1 90788 84644 106733 XOR\n2 1 106733 106702 2707 XOR\n2 1 2707 2771 72002 XOR\n2 1 72002 71970 71938 AND\n2 1 71938 2771 86660 XOR\n2 1 2707 2739 71874 XOR\n2 1 2696 2707 67797 XOR\n2 1 84645 106703 14045 XOR\n2 1 2835 90788 106671 XOR\n2 1 106671 106640 3219 XOR\n2 1 3219 3251 64930 XOR\n2 1 64994 3219 64962 AND\n2 1 64962 3283 98889 XOR\n2 1 90788 34637 34636 AND\n2 1 34636 34637 34639 XOR\n2 1 92801 34639 90789 XOR\n2 1 90789 84645 106734 XOR\n2 1 106734 106703 2708 XOR\n2 1 2708 2772 72003 XOR\n2 1 72003 71971 71939 AND\n2 1 71939 2772 86661 XOR\n2 1 2708 2740 71875 XOR\n2 1 2697 2708 67798 XOR\n2 1 67821 2708 88719 XOR\n2 1 90789 106641 13955 XOR\n2 1 13954 13955 13953 AND\n2 1 13953 106641 106642 XOR\n2 1 2837 106642 13957 XOR\n2 1 90789 106703 14044 XOR\n2 1 14044 14045 14043 AND\n2 1 14043 106703 106704 XOR\n2 1 84646 106704 14048 XOR\n2 1 2836 90789 106672 XOR\n2 1 106672 106641 3220 XOR\n2 1 3220 3252 64931 XOR\n2 1 64995 3220 64963 AND\n2 1 64963 3284 98890 XOR\n2 1 90789 34639 34638 AND\n2 1 34638 34639 34674 XOR\n1 1 34674 34642 INV\n2 1 96875 94827 118973 XOR\n2 1 118973 118942 92802 XOR\n1 1 92802 34690 INV\n2 1 34690 34674 90790 XOR\n2 1 90790 106704 14047 XOR\n2 1 14047 14048 14046 AND\n2 1 14046 106704 106705 XOR\n2 1 2837 90790 106673 XOR\n2 1 84647 106705 14051 XOR\n2 1 106673 106642 3221 XOR\n2 1 64996 3221 64964 AND\n2 1 64964 3285 98891 XOR\n2 1 3221 3253 64932 XOR\n2 1 90790 106642 13958 XOR\n2 1 13957 13958 13956 AND\n2 1 13956 106642 106643 XOR\n2 1 2838 106643 13960 XOR\n2 1 90790 84646 106735 XOR\n2 1 106735 106704 2709 XOR\n2 1 2709 2773 72004 XOR\n2 1 72004 71972 71940 AND\n2 1 71940 2773 86662 XOR\n2 1 2709 2741 71876 XOR\n2 1 2709 2688 67810 XOR\n2 1 2698 2709 67799 XOR\n2 1 67822 2709 88720 XOR\n2 1 67810 2697 88708 XOR\n2 1 88708 86660 118648 XOR\n2 1 92802 34674 34641 XOR\n2 1 34641 34642 34640 AND\n2 1 34640 34674 34644 XOR\n2 1 92803 34644 90791 XOR\n2 1 90791 106705 14050 XOR\n2 1 14050 14051 14049 AND\n2 1 14049 106705 106706 XOR\n2 1 90791 84647 106736 XOR\n2 1 106736 106705 2710 XOR\n2 1 84648 106706 14054 XOR\n2 1 2710 2774 72005 XOR\n2 1 72005 71973 71941 AND\n2 1 71941 2774 86663 XOR\n2 1 2710 2742 71877 XOR\n2 1 2710 2689 67811 XOR\n2 1 2699 2710 67800 XOR\n2 1 67811 2698 88709 XOR\n2 1 88709 86661 118649 XOR\n2 1 67791 2710 88689 XOR\n2 1 88689 86641 118599 AND\n2 1 86642 118599 34061 XOR\n2 1 88689 86641 84593 XOR\n2 1 90791 106643 13961 XOR\n2 1 13960 13961 13959 AND\n2 1 13959 106643 106644 XOR\n2 1 2839 106644 13963 XOR\n2 1 2838 90791 106674 XOR\n2 1 106674 106643 3222 XOR\n2 1 3222 3254 64933 XOR\n2 1 64997 3222 64965 AND\n2 1 64965 3286 98892 XOR\n2 1 90791 34644 34643 AND\n2 1 34643 34644 34675 XOR\n1 1 34675 34647 INV\n2 1 96877 94829 118975 XOR\n2 1 118975 118944 92804 XOR\n1 1 92804 34691 INV\n2 1 34691 34675 90792 XOR\n2 1 2839 90792 106675 XOR\n2 1 90792 106706 14053 XOR\n2 1 14053 14054 14052 AND\n2 1 14052 106706 106707 XOR\n2 1 84649 106707 14057 XOR\n2 1 106675 106644 3223 XOR\n",
"2 1 64998 3223 64966 AND\n2 1 64966 3287 98893 XOR\n2 1 3223 3255 64934 XOR\n2 1 90792 106644 13964 XOR\n2 1 13963 13964 13962 AND\n2 1 13962 106644 106645 XOR\n2 1 2840 106645 13966 XOR\n2 1 90792 84648 106737 XOR\n2 1 106737 106706 2711 XOR\n2 1 2711 2775 72006 XOR\n2 1 72006 71974 71942 AND\n2 1 71942 2775 86664 XOR\n2 1 2711 2743 71878 XOR\n2 1 2711 2690 67812 XOR\n2 1 2700 2711 67801 XOR\n2 1 67812 2699 88710 XOR\n2 1 88710 86662 118650 XOR\n2 1 67801 2688 88699 XOR\n2 1 88699 86651 118639 XOR\n2 1 67792 2711 88690 XOR\n2 1 88690 86642 118630 XOR\n2 1 88690 118599 34060 XOR\n2 1 118630 118599 84594 XOR\n2 1 34060 34061 34059 AND\n2 1 34059 118599 118600 XOR\n2 1 86643 118600 34064 XOR\n2 1 92804 34675 34646 XOR\n2 1 34646 34647 34645 AND\n2 1 34645 34675 34676 XOR\n1 1 34676 34650 INV\n2 1 34692 34676 90793 XOR\n2 1 2840 90793 106676 XOR\n2 1 90793 106707 14056 XOR\n2 1 14056 14057 14055 AND\n2 1 14055 106707 106708 XOR\n2 1 84650 106708 14060 XOR\n2 1 90793 84649 106738 XOR\n2 1 106738 106707 2712 XOR\n2 1 2712 2776 72007 XOR\n2 1 72007 71975 71943 AND\n2 1 71943 2776 86665 XOR\n2 1 2712 2744 71879 XOR\n2 1 2712 2691 67813 XOR\n2 1 2701 2712 67802 XOR\n2 1 67813 2700 88711 XOR\n2 1 88711 86663 118651 XOR\n2 1 67802 2689 88700 XOR\n2 1 88700 86652 118640 XOR\n2 1 67793 2712 88691 XOR\n2 1 88691 118600 34063 XOR\n2 1 34063 34064 34062 AND\n2 1 34062 118600 118601 XOR\n2 1 86644 118601 34067 XOR\n2 1 88691 86643 118631 XOR\n2 1 118631 118600 84595 XOR\n2 1 106676 106645 3224 XOR\n2 1 64999 3224 64967 AND\n2 1 64967 3288 98894 XOR\n2 1 3224 3256 64935 XOR\n2 1 90793 106645 13967 XOR\n2 1 13966 13967 13965 AND\n2 1 13965 106645 106646 XOR\n2 1 2841 106646 13969 XOR\n2 1 92805 34676 34649 XOR\n2 1 34649 34650 34648 AND\n2 1 34648 34676 34652 XOR\n2 1 96879 94831 118977 XOR\n2 1 118977 118946 92806 XOR\n2 1 92806 34652 90794 XOR\n2 1 2841 90794 106677 XOR\n2 1 106677 106646 3225 XOR\n2 1 65000 3225 64968 AND\n2 1 64968 3289 98895 XOR\n2 1 3225 3257 64936 XOR\n2 1 90794 106646 13970 XOR\n2 1 13969 13970 13968 AND\n2 1 13968 106646 106647 XOR\n2 1 2842 106647 13972 XOR\n2 1 90794 84650 106739 XOR\n2 1 106739 106708 2713 XOR\n2 1 2713 2777 72008 XOR\n2 1 72008 71976 71944 AND\n2 1 71944 2777 86666 XOR\n2 1 2713 2745 71880 XOR\n2 1 2713 2692 67814 XOR\n2 1 2702 2713 67803 XOR\n2 1 67814 2701 88712 XOR\n2 1 88712 86664 118652 XOR\n2 1 67803 2690 88701 XOR\n2 1 88701 86653 118641 XOR\n2 1 67794 2713 88692 XOR\n2 1 88692 118601 34066 XOR\n2 1 34066 34067 34065 AND\n2 1 34065 118601 118602 XOR\n2 1 86645 118602 34070 XOR\n2 1 88692 86644 118632 XOR\n2 1 118632 118601 84596 XOR\n2 1 90794 106708 14059 XOR\n2 1 14059 14060 14058 AND\n2 1 14058 106708 106709 XOR\n2 1 84651 106709 14063 XOR\n2 1 90794 34652 34651 AND\n2 1 34651 34652 34677 XOR\n2 1 34693 34677 90795 XOR\n2 1 2842 90795 106678 XOR\n2 1 90795 84651 106740 XOR\n2 1 106740 106709 2714 XOR\n1 1 34677 34655 INV\n2 1 2714 2778 72009 XOR\n2 1 72009 71977 71945 AND\n2 1 71945 2778 86667 XOR\n2 1 2714 2746 71881 XOR\n2 1 2714 2693 67815 XOR\n2 1 2703 2714 67804 XOR\n2 1 67815 2702 88713 XOR\n2 1 67804 2691 88702 XOR\n2 1 88702 86654 118642 XOR\n2 1 67795 2714 88693 XOR\n2 1 88693 86645 118633 XOR\n2 1 118633 118602 84597 XOR\n2 1 88693 118602 34069 XOR\n2 1 34069 34070 34068 AND\n2 1 34068 118602 118603 XOR\n2 1 86646 118603 34073 XOR\n2 1 106678 106647 3226 XOR\n2 1 65001 3226 64969 AND\n2 1 64969 3290 98896 XOR\n2 1 3226 3258 64937 XOR\n",
"2 1 90795 106647 13973 XOR\n2 1 13972 13973 13971 AND\n2 1 13971 106647 106648 XOR\n2 1 2843 106648 13975 XOR\n2 1 90795 106709 14062 XOR\n2 1 14062 14063 14061 AND\n2 1 14061 106709 106710 XOR\n2 1 84652 106710 14066 XOR\n2 1 92807 34677 34654 XOR\n2 1 34654 34655 34653 AND\n2 1 34653 34677 34657 XOR\n2 1 96881 94833 118979 XOR\n2 1 118979 118948 92808 XOR\n2 1 92808 34657 90796 XOR\n2 1 2843 90796 106679 XOR\n2 1 90796 106648 13976 XOR\n2 1 106679 106648 3227 XOR\n2 1 65002 3227 64970 AND\n2 1 64970 3291 98897 XOR\n2 1 3227 3259 64938 XOR\n2 1 13975 13976 13974 AND\n2 1 13974 106648 106649 XOR\n2 1 2844 106649 13978 XOR\n2 1 90796 84652 106741 XOR\n2 1 106741 106710 2715 XOR\n2 1 2715 2779 72010 XOR\n2 1 72010 71978 71946 AND\n2 1 71946 2779 86668 XOR\n2 1 2715 2747 71882 XOR\n2 1 2715 2694 67816 XOR\n2 1 2704 2715 67805 XOR\n2 1 67816 2703 88714 XOR\n2 1 67805 2692 88703 XOR\n2 1 88703 86655 118643 XOR\n2 1 67796 2715 88694 XOR\n2 1 88694 86646 118634 XOR\n2 1 118634 118603 84598 XOR\n2 1 88694 118603 34072 XOR\n2 1 34072 34073 34071 AND\n2 1 88714 86666 118654 XOR\n2 1 90796 106710 14065 XOR\n2 1 14065 14066 14064 AND\n2 1 14064 106710 106711 XOR\n2 1 84653 106711 14069 XOR\n2 1 90796 34657 34656 AND\n2 1 34656 34657 34678 XOR\n1 1 34678 34660 INV\n2 1 34694 34678 90797 XOR\n2 1 2844 90797 106680 XOR\n2 1 90797 106711 14068 XOR\n2 1 14068 14069 14067 AND\n2 1 14067 106711 106712 XOR\n2 1 84654 106712 14072 XOR\n2 1 90797 84653 106742 XOR\n2 1 106742 106711 2716 XOR\n2 1 2716 2780 72011 XOR\n2 1 72011 71979 71947 AND\n2 1 71947 2780 86669 XOR\n2 1 2716 2748 71883 XOR\n2 1 2716 2695 67817 XOR\n2 1 2705 2716 67806 XOR\n2 1 67817 2704 88715 XOR\n2 1 88715 86667 118655 XOR\n2 1 67806 2693 88704 XOR\n2 1 88704 86656 118644 XOR\n2 1 67797 2716 88695 XOR\n2 1 88695 86647 118635 XOR\n2 1 106680 106649 3228 XOR\n2 1 65003 3228 64971 AND\n2 1 64971 3292 98898 XOR\n2 1 3228 3260 64939 XOR\n2 1 90797 106649 13979 XOR\n2 1 13978 13979 13977 AND\n2 1 13977 106649 106650 XOR\n2 1 2845 106650 13981 XOR\n2 1 92809 34678 34659 XOR\n2 1 34659 34660 34658 AND\n2 1 34658 34678 34662 XOR\n2 1 96883 94835 118981 XOR\n2 1 118981 118950 92810 XOR\n2 1 92810 34662 90798 XOR\n2 1 90798 106712 14071 XOR\n2 1 14071 14072 14070 AND\n2 1 14070 106712 106713 XOR\n2 1 90798 106650 13982 XOR\n2 1 13981 13982 13980 AND\n2 1 84655 106713 14075 XOR\n2 1 13980 106650 106651 XOR\n2 1 2846 106651 13984 XOR\n2 1 90798 84654 106743 XOR\n2 1 106743 106712 2717 XOR\n2 1 2717 2781 72012 XOR\n2 1 72012 71980 71948 AND\n2 1 71948 2781 86670 XOR\n2 1 2717 2749 71884 XOR\n2 1 2717 2696 67818 XOR\n2 1 2706 2717 67807 XOR\n2 1 67818 2705 88716 XOR\n2 1 67807 2694 88705 XOR\n2 1 88705 86657 118645 XOR\n2 1 67798 2717 88696 XOR\n2 1 88696 86648 118636 XOR\n2 1 88716 86668 118656 XOR\n2 1 2845 90798 106681 XOR\n2 1 106681 106650 3229 XOR\n2 1 3229 3261 64940 XOR\n2 1 65004 3229 64972 AND\n2 1 64972 3293 98899 XOR\n2 1 90798 34662 34661 AND\n2 1 34661 34662 34679 XOR\n1 1 34679 34665 INV\n2 1 34695 34679 90799 XOR\n2 1 2846 90799 106682 XOR\n2 1 90799 84655 106744 XOR\n2 1 90799 106713 14074 XOR\n2 1 14074 14075 14073 AND\n2 1 106744 106713 2718 XOR\n2 1 14073 106713 106714 XOR\n2 1 2718 2782 72013 XOR\n2 1 72013 71981 71949 AND\n2 1 71949 2782 86671 XOR\n2 1 88719 86671 118659 XOR\n2 1 2718 2750 71885 XOR\n2 1 2718 2697 67819 XOR\n2 1 2707 2718 67808 XOR\n2 1 67819 2706 88717 XOR\n2 1 88717 86669 118657 XOR\n2 1 67808 2695 88706 XOR\n",
"2 1 88706 86658 118646 XOR\n2 1 67799 2718 88697 XOR\n2 1 88697 86649 118637 XOR\n2 1 106682 106651 3230 XOR\n2 1 65005 3230 64973 AND\n2 1 64973 3294 98900 XOR\n2 1 3230 3262 64941 XOR\n2 1 90799 106651 13985 XOR\n2 1 13984 13985 13983 AND\n2 1 13983 106651 106652 XOR\n2 1 92811 34679 34664 XOR\n2 1 34664 34665 34663 AND\n2 1 34663 34679 34680 XOR\n2 1 96885 94837 118983 XOR\n2 1 118983 118952 92812 XOR\n1 1 92812 34696 INV\n2 1 34696 34680 90800 XOR\n2 1 2847 90800 106683 XOR\n2 1 106683 106652 3231 XOR\n2 1 65006 3231 64974 AND\n2 1 64974 3295 98901 XOR\n2 1 3231 3263 64942 XOR\n2 1 90800 84656 106745 XOR\n2 1 106745 106714 2719 XOR\n2 1 2719 2783 72014 XOR\n2 1 72014 71982 71950 AND\n2 1 71950 2783 86672 XOR\n2 1 2719 2751 71886 XOR\n2 1 88720 86672 118660 XOR\n2 1 2719 2698 67820 XOR\n2 1 2708 2719 67809 XOR\n2 1 67820 2707 88718 XOR\n2 1 88718 86670 118658 XOR\n2 1 67809 2696 88707 XOR\n2 1 88707 86659 118647 XOR\n2 1 67800 2719 88698 XOR\n2 1 88698 86650 118638 XOR\n2 1 88713 86665 118653 XOR\n2 1 34071 118603 118604 XOR\n2 1 88695 118604 34075 XOR\n2 1 118635 118604 84599 XOR\n2 1 86647 118604 34076 XOR\n2 1 34075 34076 34074 AND\n2 1 34074 118604 118605 XOR\n2 1 86648 118605 34079 XOR\n2 1 88696 118605 34078 XOR\n2 1 34078 34079 34077 AND\n2 1 34077 118605 118606 XOR\n2 1 86649 118606 34082 XOR\n2 1 118637 118606 84601 XOR\n2 1 88697 118606 34081 XOR\n2 1 34081 34082 34080 AND\n2 1 34080 118606 118607 XOR\n2 1 118638 118607 84602 XOR\n2 1 88698 118607 34084 XOR\n2 1 86650 118607 34085 XOR\n2 1 34084 34085 34083 AND\n2 1 34083 118607 118608 XOR\n2 1 86651 118608 34088 XOR\n2 1 118639 118608 84603 XOR\n2 1 88699 118608 34087 XOR\n2 1 34087 34088 34086 AND\n2 1 34086 118608 118609 XOR\n2 1 88700 118609 34090 XOR\n2 1 118640 118609 84604 XOR\n2 1 86652 118609 34091 XOR\n2 1 34090 34091 34089 AND\n2 1 118636 118605 84600 XOR\n2 1 34089 118609 118610 XOR\n2 1 88701 118610 34093 XOR\n2 1 86653 118610 34094 XOR\n2 1 34093 34094 34092 AND\n2 1 34092 118610 118611 XOR\n2 1 118642 118611 84606 XOR\n2 1 88702 118611 34096 XOR\n2 1 86654 118611 34097 XOR\n2 1 34096 34097 34095 AND\n2 1 34095 118611 118612 XOR\n2 1 88703 118612 34099 XOR\n2 1 86655 118612 34100 XOR\n2 1 34099 34100 34098 AND\n2 1 34098 118612 118613 XOR\n2 1 118643 118612 84607 XOR\n2 1 118644 118613 84608 XOR\n2 1 88704 118613 34102 XOR\n2 1 86656 118613 34103 XOR\n2 1 34102 34103 34101 AND\n2 1 34101 118613 118614 XOR\n2 1 86657 118614 34106 XOR\n2 1 118645 118614 84609 XOR\n2 1 88705 118614 34105 XOR\n2 1 34105 34106 34104 AND\n2 1 34104 118614 118615 XOR\n2 1 86658 118615 34109 XOR\n2 1 118646 118615 84610 XOR\n2 1 88706 118615 34108 XOR\n2 1 34108 34109 34107 AND\n2 1 118641 118610 84605 XOR\n2 1 34107 118615 118616 XOR\n2 1 118647 118616 84611 XOR\n2 1 86659 118616 34112 XOR\n2 1 88707 118616 34111 XOR\n2 1 34111 34112 34110 AND\n2 1 34110 118616 118617 XOR\n2 1 86660 118617 34115 XOR\n2 1 118648 118617 84612 XOR\n2 1 88708 118617 34114 XOR\n2 1 34114 34115 34113 AND\n2 1 34113 118617 118618 XOR\n2 1 88709 118618 34117 XOR\n2 1 118649 118618 84613 XOR\n2 1 86661 118618 34118 XOR\n2 1 34117 34118 34116 AND\n2 1 34116 118618 118619 XOR\n2 1 118650 118619 84614 XOR\n2 1 88710 118619 34120 XOR\n2 1 86662 118619 34121 XOR\n2 1 34120 34121 34119 AND\n2 1 34119 118619 118620 XOR\n2 1 86663 118620 34124 XOR\n2 1 118651 118620 84615 XOR\n2 1 88711 118620 34123 XOR\n2 1 34123 34124 34122 AND\n2 1 34122 118620 118621 XOR\n2 1 88712 118621 34126 XOR\n2 1 86664 118621 34127 XOR\n2 1 34126 34127 34125 AND\n2 1 118652 118621 84616 XOR\n",
"2 1 34125 118621 118622 XOR\n2 1 86665 118622 34130 XOR\n2 1 118653 118622 84617 XOR\n2 1 88713 118622 34129 XOR\n2 1 34129 34130 34128 AND\n2 1 34128 118622 118623 XOR\n2 1 86666 118623 34133 XOR\n2 1 88714 118623 34132 XOR\n2 1 34132 34133 34131 AND\n2 1 34131 118623 118624 XOR\n2 1 88715 118624 34135 XOR\n2 1 86667 118624 34136 XOR\n2 1 118655 118624 84619 XOR\n2 1 118654 118623 84618 XOR\n2 1 34135 34136 34134 AND\n2 1 34134 118624 118625 XOR\n2 1 118656 118625 84620 XOR\n2 1 88716 118625 34138 XOR\n2 1 86668 118625 34139 XOR\n2 1 34138 34139 34137 AND\n2 1 34137 118625 118626 XOR\n2 1 86669 118626 34142 XOR\n2 1 118657 118626 84621 XOR\n2 1 88717 118626 34141 XOR\n2 1 34141 34142 34140 AND\n2 1 34140 118626 118627 XOR\n2 1 118658 118627 84622 XOR\n2 1 86670 118627 34145 XOR\n2 1 88718 118627 34144 XOR\n2 1 34144 34145 34143 AND\n2 1 34143 118627 118628 XOR\n2 1 118659 118628 84623 XOR\n2 1 88719 118628 34147 XOR\n2 1 86671 118628 34148 XOR\n2 1 34147 34148 34146 AND\n2 1 34146 118628 118629 XOR\n2 1 118660 118629 84624 XOR\n2 1 3231 3204 61896 XOR\n2 1 3230 3203 61895 XOR\n2 1 3229 3202 61894 XOR\n2 1 3228 3201 61893 XOR\n2 1 3227 3200 61892 XOR\n2 1 3226 3231 61891 XOR\n2 1 3225 3230 61890 XOR\n2 1 3224 3229 61889 XOR\n2 1 3223 3228 61888 XOR\n2 1 3222 3227 61887 XOR\n2 1 3221 3226 61886 XOR\n2 1 3220 3225 61885 XOR\n2 1 3219 3224 61884 XOR\n2 1 3218 3223 61883 XOR\n2 1 3217 3222 61882 XOR\n2 1 3216 3221 61881 XOR\n2 1 3215 3220 61880 XOR\n2 1 3214 3219 61879 XOR\n2 1 3213 3218 61878 XOR\n2 1 3212 3217 61877 XOR\n2 1 3211 3216 61876 XOR\n2 1 3210 3215 61875 XOR\n2 1 3209 3214 61874 XOR\n2 1 61902 3224 100949 XOR\n2 1 100949 98901 118859 XOR\n2 1 61901 3223 100948 XOR\n2 1 100948 98900 118858 XOR\n2 1 61900 3222 100947 XOR\n2 1 100947 98899 118857 XOR\n2 1 61899 3221 100946 XOR\n2 1 100946 98898 118856 XOR\n2 1 61898 3220 100945 XOR\n2 1 100945 98897 118855 XOR\n2 1 61897 3219 100944 XOR\n2 1 100944 98896 118854 XOR\n2 1 61896 3218 100943 XOR\n2 1 100943 98895 118853 XOR\n2 1 61895 3217 100942 XOR\n2 1 100942 98894 118852 XOR\n2 1 61894 3216 100941 XOR\n2 1 100941 98893 118851 XOR\n2 1 61893 3215 100940 XOR\n2 1 100940 98892 118850 XOR\n2 1 61892 3214 100939 XOR\n2 1 100939 98891 118849 XOR\n2 1 61891 3213 100938 XOR\n2 1 100938 98890 118848 XOR\n2 1 61890 3212 100937 XOR\n2 1 100937 98889 118847 XOR\n2 1 61889 3211 100936 XOR\n2 1 100936 98888 118846 XOR\n2 1 61888 3210 100935 XOR\n2 1 100935 98887 118845 XOR\n2 1 61887 3209 100934 XOR\n2 1 100934 98886 118844 XOR\n2 1 61886 3208 100933 XOR\n2 1 100933 98885 118843 XOR\n2 1 61885 3207 100932 XOR\n2 1 100932 98884 118842 XOR\n2 1 61884 3206 100931 XOR\n2 1 100931 98883 118841 XOR\n2 1 61883 3205 100930 XOR\n2 1 100930 98882 118840 XOR\n2 1 61882 3204 100929 XOR\n2 1 100929 98881 118839 XOR\n2 1 61881 3203 100928 XOR\n2 1 100928 98880 118838 XOR\n2 1 61880 3202 100927 XOR\n2 1 100927 98879 118837 XOR\n2 1 61879 3201 100926 XOR\n2 1 100926 98878 118836 XOR\n2 1 61878 3200 100925 XOR\n2 1 100925 98877 118835 XOR\n2 1 61877 3231 100924 XOR\n2 1 100924 98876 118834 XOR\n2 1 61876 3230 100923 XOR\n2 1 100923 98875 118833 XOR\n2 1 61875 3229 100922 XOR\n2 1 100922 98874 118832 XOR\n2 1 61874 3228 100921 XOR\n2 1 100921 98873 118831 XOR\n2 1 61873 3227 100920 XOR\n2 1 100920 98872 118830 XOR\n2 1 61872 3226 100919 XOR\n2 1 100919 98871 118829 XOR\n2 1 61871 3225 100918 XOR\n2 1 100918 98870 118798 AND\n2 1 100919 118798 34413 XOR\n2 1 100918 98870 96822 XOR\n2 1 118829 118798 96823 XOR\n2 1 98871 118798 34414 XOR\n",
"2 1 34413 34414 34412 AND\n2 1 34412 118798 118799 XOR\n2 1 98872 118799 34417 XOR\n2 1 118830 118799 96824 XOR\n2 1 100920 118799 34416 XOR\n2 1 34416 34417 34415 AND\n2 1 34415 118799 118800 XOR\n2 1 100921 118800 34419 XOR\n2 1 118831 118800 96825 XOR\n2 1 98873 118800 34420 XOR\n2 1 34419 34420 34418 AND\n2 1 34418 118800 118801 XOR\n2 1 118832 118801 96826 XOR\n2 1 100922 118801 34422 XOR\n2 1 98874 118801 34423 XOR\n2 1 34422 34423 34421 AND\n2 1 34421 118801 118802 XOR\n2 1 118833 118802 96827 XOR\n2 1 100923 118802 34425 XOR\n2 1 98875 118802 34426 XOR\n2 1 34425 34426 34424 AND\n2 1 34424 118802 118803 XOR\n2 1 118834 118803 96828 XOR\n2 1 100924 118803 34428 XOR\n2 1 98876 118803 34429 XOR\n2 1 34428 34429 34427 AND\n2 1 34427 118803 118804 XOR\n2 1 118835 118804 96829 XOR\n2 1 100925 118804 34431 XOR\n2 1 98877 118804 34432 XOR\n2 1 34431 34432 34430 AND\n2 1 34430 118804 118805 XOR\n2 1 98878 118805 34435 XOR\n2 1 118836 118805 96830 XOR\n2 1 100926 118805 34434 XOR\n2 1 34434 34435 34433 AND\n2 1 34433 118805 118806 XOR\n2 1 118837 118806 96831 XOR\n2 1 100927 118806 34437 XOR\n2 1 98879 118806 34438 XOR\n2 1 34437 34438 34436 AND\n2 1 34436 118806 118807 XOR\n2 1 100928 118807 34440 XOR\n2 1 98880 118807 34441 XOR\n2 1 118838 118807 96832 XOR\n2 1 34440 34441 34439 AND\n2 1 34439 118807 118808 XOR\n2 1 100929 118808 34443 XOR\n2 1 98881 118808 34444 XOR\n2 1 118839 118808 96833 XOR\n2 1 34443 34444 34442 AND\n2 1 34442 118808 118809 XOR\n2 1 118840 118809 96834 XOR\n2 1 98882 118809 34447 XOR\n2 1 100930 118809 34446 XOR\n2 1 34446 34447 34445 AND\n2 1 34445 118809 118810 XOR\n2 1 118841 118810 96835 XOR\n2 1 100931 118810 34449 XOR\n2 1 98883 118810 34450 XOR\n2 1 34449 34450 34448 AND\n2 1 34448 118810 118811 XOR\n2 1 118842 118811 96836 XOR\n2 1 100932 118811 34452 XOR\n2 1 98884 118811 34453 XOR\n2 1 34452 34453 34451 AND\n2 1 34451 118811 118812 XOR\n2 1 118843 118812 96837 XOR\n2 1 100933 118812 34455 XOR\n2 1 98885 118812 34456 XOR\n2 1 34455 34456 34454 AND\n2 1 34454 118812 118813 XOR\n2 1 118844 118813 96838 XOR\n2 1 100934 118813 34458 XOR\n2 1 98886 118813 34459 XOR\n2 1 34458 34459 34457 AND\n2 1 34457 118813 118814 XOR\n2 1 118845 118814 96839 XOR\n2 1 100935 118814 34461 XOR\n2 1 98887 118814 34462 XOR\n2 1 34461 34462 34460 AND\n2 1 34460 118814 118815 XOR\n2 1 118846 118815 96840 XOR\n2 1 100936 118815 34464 XOR\n2 1 98888 118815 34465 XOR\n2 1 34464 34465 34463 AND\n2 1 34463 118815 118816 XOR\n2 1 100937 118816 34467 XOR\n2 1 118847 118816 96841 XOR\n2 1 98889 118816 34468 XOR\n2 1 34467 34468 34466 AND\n2 1 34466 118816 118817 XOR\n2 1 100938 118817 34470 XOR\n2 1 98890 118817 34471 XOR\n2 1 34470 34471 34469 AND\n2 1 34469 118817 118818 XOR\n2 1 118849 118818 96843 XOR\n2 1 100939 118818 34473 XOR\n2 1 118848 118817 96842 XOR\n2 1 98891 118818 34474 XOR\n2 1 34473 34474 34472 AND\n2 1 34472 118818 118819 XOR\n2 1 98892 118819 34477 XOR\n2 1 100940 118819 34476 XOR\n2 1 34476 34477 34475 AND\n2 1 34475 118819 118820 XOR\n2 1 118851 118820 96845 XOR\n2 1 100941 118820 34479 XOR\n2 1 98893 118820 34480 XOR\n2 1 34479 34480 34478 AND\n2 1 34478 118820 118821 XOR\n2 1 118852 118821 96846 XOR\n2 1 100942 118821 34482 XOR\n2 1 98894 118821 34483 XOR\n2 1 34482 34483 34481 AND\n2 1 34481 118821 118822 XOR\n2 1 98895 118822 34486 XOR\n2 1 118853 118822 96847 XOR\n2 1 100943 118822 34485 XOR\n2 1 34485 34486 34484 AND\n2 1 34484 118822 118823 XOR\n2 1 98896 118823 34489 XOR\n2 1 100944 118823 34488 XOR\n2 1 34488 34489 34487 AND\n2 1 34487 118823 118824 XOR\n2 1 118855 118824 96849 XOR\n2 1 118854 118823 96848 XOR\n2 1 100945 118824 34491 XOR\n",
"2 1 98897 118824 34492 XOR\n2 1 34491 34492 34490 AND\n2 1 34490 118824 118825 XOR\n2 1 118856 118825 96850 XOR\n2 1 100946 118825 34494 XOR\n2 1 98898 118825 34495 XOR\n2 1 34494 34495 34493 AND\n2 1 34493 118825 118826 XOR\n2 1 118857 118826 96851 XOR\n2 1 100947 118826 34497 XOR\n2 1 98899 118826 34498 XOR\n2 1 34497 34498 34496 AND\n2 1 34496 118826 118827 XOR\n2 1 118858 118827 96852 XOR\n2 1 100948 118827 34500 XOR\n2 1 98900 118827 34501 XOR\n2 1 34500 34501 34499 AND\n2 1 34499 118827 118828 XOR\n2 1 118859 118828 96853 XOR\n2 1 118850 118819 96844 XOR\n2 1 76737 76739 81552 XOR\n2 1 81552 76912 132732 XOR\n2 1 76736 76738 81551 XOR\n2 1 81551 76911 132731 XOR\n2 1 76735 76737 81550 XOR\n2 1 81550 76910 132730 XOR\n2 1 76734 76736 81549 XOR\n2 1 81549 76909 132729 XOR\n2 1 76733 76735 81548 XOR\n2 1 81548 76908 132728 XOR\n2 1 76732 76734 81547 XOR\n2 1 81547 76907 132727 XOR\n2 1 76731 76733 81546 XOR\n2 1 81546 76906 132726 XOR\n2 1 76730 76732 81545 XOR\n2 1 81545 76905 132725 XOR\n2 1 76729 76731 81544 XOR\n2 1 81544 76904 132724 XOR\n2 1 76728 76730 81543 XOR\n2 1 81543 76903 132723 XOR\n2 1 76727 76729 6859 XOR\n2 1 76726 76728 6858 XOR\n2 1 76725 76727 6857 XOR\n2 1 76724 76726 6856 XOR\n2 1 76723 76725 6855 XOR\n2 1 76722 76724 6854 XOR\n2 1 76721 76723 6853 XOR\n2 1 76752 76722 6852 XOR\n2 1 76751 76721 6851 XOR\n2 1 76750 76752 6850 XOR\n2 1 76749 76751 6849 XOR\n2 1 76748 76750 6848 XOR\n2 1 76747 76749 6847 XOR\n2 1 76746 76748 6846 XOR\n2 1 76745 76747 6845 XOR\n2 1 76744 76746 6844 XOR\n2 1 76743 76745 6843 XOR\n2 1 76742 76744 6842 XOR\n2 1 76741 76743 6841 XOR\n2 1 76740 76742 6840 XOR\n2 1 76739 76741 6839 XOR\n2 1 76738 76740 6838 XOR\n2 1 6859 76752 81542 XOR\n2 1 81542 76902 132722 XOR\n2 1 6858 76751 81541 XOR\n2 1 81541 76901 132721 XOR\n2 1 6857 76750 81540 XOR\n2 1 81540 76900 132720 XOR\n2 1 6856 76749 81539 XOR\n2 1 81539 76899 132719 XOR\n2 1 6855 76748 81538 XOR\n2 1 81538 76898 132718 XOR\n2 1 6854 76747 81537 XOR\n2 1 81537 76897 132717 XOR\n2 1 6853 76746 81536 XOR\n2 1 81536 76896 132716 XOR\n2 1 6852 76745 81535 XOR\n2 1 81535 76895 132715 XOR\n2 1 6851 76744 81534 XOR\n2 1 81534 76894 132714 XOR\n2 1 6850 76743 81533 XOR\n2 1 81533 76893 132713 XOR\n2 1 6849 76742 81532 XOR\n2 1 81532 76892 132712 XOR\n2 1 6848 76741 81531 XOR\n2 1 81531 76891 132711 XOR\n2 1 6847 76740 81530 XOR\n2 1 81530 76890 132710 XOR\n2 1 6846 76739 81529 XOR\n2 1 81529 76889 132709 XOR\n2 1 6845 76738 81528 XOR\n2 1 81528 76888 132708 XOR\n2 1 6844 76737 81527 XOR\n2 1 81527 76887 132707 XOR\n2 1 6843 76736 81526 XOR\n2 1 81526 76886 132706 XOR\n2 1 6842 76735 81525 XOR\n2 1 81525 76885 132705 XOR\n2 1 6841 76734 81524 XOR\n2 1 81524 76884 132704 XOR\n2 1 6840 76733 81523 XOR\n2 1 81523 76883 132703 XOR\n2 1 6839 76732 81522 XOR\n2 1 81522 76882 132702 XOR\n2 1 6838 76731 81521 XOR\n2 1 81521 76881 132671 AND\n2 1 81521 76881 79985 XOR\n2 1 79985 78449 132547 AND\n2 1 79985 78449 76657 XOR\n2 1 76657 3296 118736 AND\n2 1 3297 118736 34324 XOR\n2 1 76657 3296 94774 XOR\n2 1 96822 94774 118674 AND\n2 1 96823 118674 34233 XOR\n2 1 78450 132547 56857 XOR\n2 1 132702 132671 79986 XOR\n2 1 79986 78450 132578 XOR\n2 1 132578 132547 76658 XOR\n2 1 76658 118736 34323 XOR\n2 1 34323 34324 34322 AND\n2 1 34322 118736 118737 XOR\n2 1 3298 118737 34327 XOR\n2 1 76658 3297 118767 XOR\n2 1 118767 118736 94775 XOR\n2 1 96823 94775 118705 XOR\n2 1 118705 118674 92750 XOR\n2 1 79986 132547 56856 XOR\n2 1 56856 56857 56855 AND\n",
"2 1 56855 132547 132548 XOR\n2 1 78451 132548 56860 XOR\n2 1 81522 132671 57036 XOR\n2 1 76882 132671 57037 XOR\n2 1 57036 57037 57035 AND\n2 1 57035 132671 132672 XOR\n2 1 132703 132672 79987 XOR\n2 1 79987 78451 132579 XOR\n2 1 132579 132548 76659 XOR\n2 1 76659 3298 118768 XOR\n2 1 76659 118737 34326 XOR\n2 1 34326 34327 34325 AND\n2 1 118768 118737 94776 XOR\n2 1 34325 118737 118738 XOR\n2 1 3299 118738 34330 XOR\n2 1 79987 132548 56859 XOR\n2 1 56859 56860 56858 AND\n2 1 56858 132548 132549 XOR\n2 1 78452 132549 56863 XOR\n2 1 81523 132672 57039 XOR\n2 1 76883 132672 57040 XOR\n2 1 57039 57040 57038 AND\n2 1 57038 132672 132673 XOR\n2 1 132704 132673 79988 XOR\n2 1 79988 78452 132580 XOR\n2 1 132580 132549 76660 XOR\n2 1 76660 3299 118769 XOR\n2 1 76660 118738 34329 XOR\n2 1 34329 34330 34328 AND\n2 1 118769 118738 94777 XOR\n2 1 34328 118738 118739 XOR\n2 1 3300 118739 34333 XOR\n2 1 79988 132549 56862 XOR\n2 1 56862 56863 56861 AND\n2 1 56861 132549 132550 XOR\n2 1 78453 132550 56866 XOR\n2 1 81524 132673 57042 XOR\n2 1 76884 132673 57043 XOR\n2 1 57042 57043 57041 AND\n2 1 57041 132673 132674 XOR\n2 1 132705 132674 79989 XOR\n2 1 79989 78453 132581 XOR\n2 1 132581 132550 76661 XOR\n2 1 76661 3300 118770 XOR\n2 1 76661 118739 34332 XOR\n2 1 118770 118739 94778 XOR\n2 1 34332 34333 34331 AND\n2 1 34331 118739 118740 XOR\n2 1 3301 118740 34336 XOR\n2 1 79989 132550 56865 XOR\n2 1 56865 56866 56864 AND\n2 1 56864 132550 132551 XOR\n2 1 78454 132551 56869 XOR\n2 1 81525 132674 57045 XOR\n2 1 76885 132674 57046 XOR\n2 1 57045 57046 57044 AND\n2 1 57044 132674 132675 XOR\n2 1 132706 132675 79990 XOR\n2 1 79990 78454 132582 XOR\n2 1 132582 132551 76662 XOR\n2 1 76662 3301 118771 XOR\n2 1 76662 118740 34335 XOR\n2 1 118771 118740 94779 XOR\n2 1 34335 34336 34334 AND\n2 1 34334 118740 118741 XOR\n2 1 79990 132551 56868 XOR\n2 1 56868 56869 56867 AND\n2 1 56867 132551 132552 XOR\n2 1 78455 132552 56872 XOR\n2 1 81526 132675 57048 XOR\n2 1 76886 132675 57049 XOR\n2 1 57048 57049 57047 AND\n2 1 57047 132675 132676 XOR\n2 1 132707 132676 79991 XOR\n2 1 79991 78455 132583 XOR\n2 1 132583 132552 76663 XOR\n2 1 76663 3302 118772 XOR\n2 1 118772 118741 94780 XOR\n2 1 96828 94780 118710 XOR\n2 1 79991 132552 56871 XOR\n2 1 56871 56872 56870 AND\n2 1 56870 132552 132553 XOR\n2 1 78456 132553 56875 XOR\n2 1 81527 132676 57051 XOR\n2 1 76887 132676 57052 XOR\n2 1 57051 57052 57050 AND\n2 1 57050 132676 132677 XOR\n2 1 132708 132677 79992 XOR\n2 1 79992 78456 132584 XOR\n2 1 132584 132553 76664 XOR\n2 1 76664 3303 118773 XOR\n2 1 79992 132553 56874 XOR\n2 1 56874 56875 56873 AND\n2 1 56873 132553 132554 XOR\n2 1 78457 132554 56878 XOR\n2 1 81528 132677 57054 XOR\n2 1 76888 132677 57055 XOR\n2 1 57054 57055 57053 AND\n2 1 57053 132677 132678 XOR\n2 1 132709 132678 79993 XOR\n2 1 79993 78457 132585 XOR\n2 1 132585 132554 76665 XOR\n2 1 76665 3304 118774 XOR\n2 1 79993 132554 56877 XOR\n2 1 56877 56878 56876 AND\n2 1 56876 132554 132555 XOR\n2 1 78458 132555 56881 XOR\n2 1 81529 132678 57057 XOR\n2 1 76889 132678 57058 XOR\n2 1 57057 57058 57056 AND\n2 1 57056 132678 132679 XOR\n2 1 132710 132679 79994 XOR\n2 1 79994 78458 132586 XOR\n2 1 132586 132555 76666 XOR\n2 1 76666 3305 118775 XOR\n2 1 79994 132555 56880 XOR\n2 1 56880 56881 56879 AND\n2 1 56879 132555 132556 XOR\n2 1 78459 132556 56884 XOR\n2 1 81530 132679 57060 XOR\n2 1 76890 132679 57061 XOR\n2 1 57060 57061 57059 AND\n2 1 57059 132679 132680 XOR\n2 1 132711 132680 79995 XOR\n2 1 79995 78459 132587 XOR\n2 1 132587 132556 76667 XOR\n2 1 76667 3306 118776 XOR\n2 1 79995 132556 56883 XOR\n",
"2 1 56883 56884 56882 AND\n2 1 56882 132556 132557 XOR\n2 1 78460 132557 56887 XOR\n2 1 81531 132680 57063 XOR\n2 1 76891 132680 57064 XOR\n2 1 57063 57064 57062 AND\n2 1 57062 132680 132681 XOR\n2 1 132712 132681 79996 XOR\n2 1 79996 78460 132588 XOR\n2 1 132588 132557 76668 XOR\n2 1 76668 3307 118777 XOR\n2 1 79996 132557 56886 XOR\n2 1 56886 56887 56885 AND\n2 1 56885 132557 132558 XOR\n2 1 78461 132558 56890 XOR\n2 1 81532 132681 57066 XOR\n2 1 76892 132681 57067 XOR\n2 1 57066 57067 57065 AND\n2 1 57065 132681 132682 XOR\n2 1 132713 132682 79997 XOR\n2 1 79997 78461 132589 XOR\n2 1 132589 132558 76669 XOR\n2 1 76669 3308 118778 XOR\n2 1 79997 132558 56889 XOR\n2 1 56889 56890 56888 AND\n2 1 56888 132558 132559 XOR\n2 1 78462 132559 56893 XOR\n2 1 81533 132682 57069 XOR\n2 1 76893 132682 57070 XOR\n2 1 57069 57070 57068 AND\n2 1 57068 132682 132683 XOR\n2 1 132714 132683 79998 XOR\n2 1 79998 78462 132590 XOR\n2 1 132590 132559 76670 XOR\n2 1 76670 3309 118779 XOR\n2 1 79998 132559 56892 XOR\n2 1 56892 56893 56891 AND\n2 1 56891 132559 132560 XOR\n2 1 78463 132560 56896 XOR\n2 1 81534 132683 57072 XOR\n2 1 76894 132683 57073 XOR\n2 1 57072 57073 57071 AND\n2 1 57071 132683 132684 XOR\n2 1 132715 132684 79999 XOR\n2 1 79999 78463 132591 XOR\n2 1 132591 132560 76671 XOR\n2 1 76671 3310 118780 XOR\n2 1 79999 132560 56895 XOR\n2 1 56895 56896 56894 AND\n2 1 56894 132560 132561 XOR\n2 1 78464 132561 56899 XOR\n2 1 81535 132684 57075 XOR\n2 1 76895 132684 57076 XOR\n2 1 57075 57076 57074 AND\n2 1 57074 132684 132685 XOR\n2 1 132716 132685 80000 XOR\n2 1 80000 78464 132592 XOR\n2 1 132592 132561 76672 XOR\n2 1 76672 3311 118781 XOR\n2 1 80000 132561 56898 XOR\n2 1 56898 56899 56897 AND\n2 1 56897 132561 132562 XOR\n2 1 78465 132562 56902 XOR\n2 1 81536 132685 57078 XOR\n2 1 76896 132685 57079 XOR\n2 1 57078 57079 57077 AND\n2 1 57077 132685 132686 XOR\n2 1 132717 132686 80001 XOR\n2 1 80001 78465 132593 XOR\n2 1 132593 132562 76673 XOR\n2 1 76673 3312 118782 XOR\n2 1 80001 132562 56901 XOR\n2 1 56901 56902 56900 AND\n2 1 56900 132562 132563 XOR\n2 1 78466 132563 56905 XOR\n2 1 81537 132686 57081 XOR\n2 1 76897 132686 57082 XOR\n2 1 57081 57082 57080 AND\n2 1 57080 132686 132687 XOR\n2 1 132718 132687 80002 XOR\n2 1 80002 78466 132594 XOR\n2 1 132594 132563 76674 XOR\n2 1 76674 3313 118783 XOR\n2 1 80002 132563 56904 XOR\n2 1 56904 56905 56903 AND\n2 1 56903 132563 132564 XOR\n2 1 78467 132564 56908 XOR\n2 1 81538 132687 57084 XOR\n2 1 76898 132687 57085 XOR\n2 1 57084 57085 57083 AND\n2 1 57083 132687 132688 XOR\n2 1 132719 132688 80003 XOR\n2 1 80003 78467 132595 XOR\n2 1 132595 132564 76675 XOR\n2 1 76675 3314 118784 XOR\n2 1 80003 132564 56907 XOR\n2 1 56907 56908 56906 AND\n2 1 56906 132564 132565 XOR\n2 1 78468 132565 56911 XOR\n2 1 81539 132688 57087 XOR\n2 1 76899 132688 57088 XOR\n2 1 57087 57088 57086 AND\n2 1 57086 132688 132689 XOR\n2 1 132720 132689 80004 XOR\n2 1 80004 78468 132596 XOR\n2 1 132596 132565 76676 XOR\n2 1 76676 3315 118785 XOR\n2 1 80004 132565 56910 XOR\n2 1 56910 56911 56909 AND\n2 1 56909 132565 132566 XOR\n2 1 78469 132566 56914 XOR\n2 1 81540 132689 57090 XOR\n2 1 76900 132689 57091 XOR\n2 1 57090 57091 57089 AND\n2 1 57089 132689 132690 XOR\n2 1 132721 132690 80005 XOR\n2 1 80005 78469 132597 XOR\n2 1 132597 132566 76677 XOR\n2 1 76677 3316 118786 XOR\n2 1 80005 132566 56913 XOR\n2 1 56913 56914 56912 AND\n2 1 56912 132566 132567 XOR\n2 1 78470 132567 56917 XOR\n2 1 81541 132690 57093 XOR\n2 1 76901 132690 57094 XOR\n2 1 57093 57094 57092 AND\n2 1 57092 132690 132691 XOR\n2 1 132722 132691 80006 XOR\n",
"2 1 80006 78470 132598 XOR\n2 1 132598 132567 76678 XOR\n2 1 76678 3317 118787 XOR\n2 1 80006 132567 56916 XOR\n2 1 56916 56917 56915 AND\n2 1 56915 132567 132568 XOR\n2 1 78471 132568 56920 XOR\n2 1 81542 132691 57096 XOR\n2 1 76902 132691 57097 XOR\n2 1 57096 57097 57095 AND\n2 1 57095 132691 132692 XOR\n2 1 132723 132692 80007 XOR\n2 1 80007 78471 132599 XOR\n2 1 132599 132568 76679 XOR\n2 1 76679 3318 118788 XOR\n2 1 80007 132568 56919 XOR\n2 1 56919 56920 56918 AND\n2 1 56918 132568 132569 XOR\n2 1 78472 132569 56923 XOR\n2 1 81543 132692 57099 XOR\n2 1 76903 132692 57100 XOR\n2 1 57099 57100 57098 AND\n2 1 57098 132692 132693 XOR\n2 1 132724 132693 80008 XOR\n2 1 80008 78472 132600 XOR\n2 1 132600 132569 76680 XOR\n2 1 76680 3319 118789 XOR\n2 1 80008 132569 56922 XOR\n2 1 56922 56923 56921 AND\n2 1 56921 132569 132570 XOR\n2 1 78473 132570 56926 XOR\n2 1 81544 132693 57102 XOR\n2 1 76904 132693 57103 XOR\n2 1 57102 57103 57101 AND\n2 1 57101 132693 132694 XOR\n2 1 132725 132694 80009 XOR\n2 1 80009 78473 132601 XOR\n2 1 132601 132570 76681 XOR\n2 1 76681 3320 118790 XOR\n2 1 80009 132570 56925 XOR\n2 1 56925 56926 56924 AND\n2 1 56924 132570 132571 XOR\n2 1 78474 132571 56929 XOR\n2 1 81545 132694 57105 XOR\n2 1 76905 132694 57106 XOR\n2 1 57105 57106 57104 AND\n2 1 57104 132694 132695 XOR\n2 1 132726 132695 80010 XOR\n2 1 80010 78474 132602 XOR\n2 1 132602 132571 76682 XOR\n2 1 76682 3321 118791 XOR\n2 1 80010 132571 56928 XOR\n2 1 56928 56929 56927 AND\n2 1 56927 132571 132572 XOR\n2 1 78475 132572 56932 XOR\n2 1 81546 132695 57108 XOR\n2 1 76906 132695 57109 XOR\n2 1 57108 57109 57107 AND\n2 1 57107 132695 132696 XOR\n2 1 132727 132696 80011 XOR\n2 1 80011 78475 132603 XOR\n2 1 132603 132572 76683 XOR\n2 1 76683 3322 118792 XOR\n2 1 80011 132572 56931 XOR\n2 1 56931 56932 56930 AND\n2 1 56930 132572 132573 XOR\n2 1 78476 132573 56935 XOR\n2 1 81547 132696 57111 XOR\n2 1 76907 132696 57112 XOR\n2 1 57111 57112 57110 AND\n2 1 57110 132696 132697 XOR\n2 1 132728 132697 80012 XOR\n2 1 80012 78476 132604 XOR\n2 1 132604 132573 76684 XOR\n2 1 76684 3323 118793 XOR\n2 1 80012 132573 56934 XOR\n2 1 56934 56935 56933 AND\n2 1 56933 132573 132574 XOR\n2 1 78477 132574 56938 XOR\n2 1 81548 132697 57114 XOR\n2 1 76908 132697 57115 XOR\n2 1 57114 57115 57113 AND\n2 1 57113 132697 132698 XOR\n2 1 132729 132698 80013 XOR\n2 1 80013 78477 132605 XOR\n2 1 132605 132574 76685 XOR\n2 1 76685 3324 118794 XOR\n2 1 80013 132574 56937 XOR\n2 1 56937 56938 56936 AND\n2 1 56936 132574 132575 XOR\n2 1 78478 132575 56941 XOR\n2 1 81549 132698 57117 XOR\n2 1 76909 132698 57118 XOR\n2 1 57117 57118 57116 AND\n2 1 57116 132698 132699 XOR\n2 1 132730 132699 80014 XOR\n2 1 80014 78478 132606 XOR\n2 1 132606 132575 76686 XOR\n2 1 76686 3325 118795 XOR\n2 1 80014 132575 56940 XOR\n2 1 56940 56941 56939 AND\n2 1 56939 132575 132576 XOR\n2 1 78479 132576 56944 XOR\n2 1 81550 132699 57120 XOR\n2 1 76910 132699 57121 XOR\n2 1 57120 57121 57119 AND\n2 1 57119 132699 132700 XOR\n2 1 132731 132700 80015 XOR\n2 1 80015 78479 132607 XOR\n2 1 132607 132576 76687 XOR\n2 1 76687 3326 118796 XOR\n2 1 80015 132576 56943 XOR\n2 1 56943 56944 56942 AND\n2 1 56942 132576 132577 XOR\n2 1 81551 132700 57123 XOR\n2 1 76911 132700 57124 XOR\n2 1 57123 57124 57122 AND\n2 1 57122 132700 132701 XOR\n2 1 132732 132701 80016 XOR\n2 1 80016 78480 132608 XOR\n2 1 132608 132577 76688 XOR\n2 1 76688 3327 118797 XOR\n2 1 96822 94774 92749 XOR\n2 1 92750 92749 90738 XOR\n2 1 2785 90738 106529 XOR\n2 1 90738 92749 34149 AND\n2 1 34149 92749 34151 XOR\n1 1 92749 90737 INV\n",
"2 1 2784 90737 106498 AND\n2 1 2784 90737 2656 XOR\n2 1 106529 106498 2657 XOR\n2 1 2785 106498 13717 XOR\n2 1 90738 106498 13718 XOR\n2 1 13717 13718 13716 AND\n2 1 13716 106498 106499 XOR\n2 1 2786 106499 13720 XOR\n2 1 76663 118741 34338 XOR\n2 1 3302 118741 34339 XOR\n2 1 34338 34339 34337 AND\n2 1 34337 118741 118742 XOR\n2 1 118773 118742 94781 XOR\n2 1 96829 94781 118711 XOR\n2 1 76664 118742 34341 XOR\n2 1 3303 118742 34342 XOR\n2 1 34341 34342 34340 AND\n2 1 34340 118742 118743 XOR\n2 1 118774 118743 94782 XOR\n2 1 96830 94782 118712 XOR\n2 1 76665 118743 34344 XOR\n2 1 3304 118743 34345 XOR\n2 1 34344 34345 34343 AND\n2 1 34343 118743 118744 XOR\n2 1 118775 118744 94783 XOR\n2 1 96831 94783 118713 XOR\n2 1 76666 118744 34347 XOR\n2 1 3305 118744 34348 XOR\n2 1 34347 34348 34346 AND\n2 1 34346 118744 118745 XOR\n2 1 118776 118745 94784 XOR\n2 1 96832 94784 118714 XOR\n2 1 76667 118745 34350 XOR\n2 1 3306 118745 34351 XOR\n2 1 34350 34351 34349 AND\n2 1 34349 118745 118746 XOR\n2 1 118777 118746 94785 XOR\n2 1 96833 94785 118715 XOR\n2 1 76668 118746 34353 XOR\n2 1 3307 118746 34354 XOR\n2 1 34353 34354 34352 AND\n2 1 34352 118746 118747 XOR\n2 1 118778 118747 94786 XOR\n2 1 96834 94786 118716 XOR\n2 1 76669 118747 34356 XOR\n2 1 3308 118747 34357 XOR\n2 1 34356 34357 34355 AND\n2 1 34355 118747 118748 XOR\n2 1 118779 118748 94787 XOR\n2 1 96835 94787 118717 XOR\n2 1 76670 118748 34359 XOR\n2 1 3309 118748 34360 XOR\n2 1 34359 34360 34358 AND\n2 1 34358 118748 118749 XOR\n2 1 118780 118749 94788 XOR\n2 1 96836 94788 118718 XOR\n2 1 76671 118749 34362 XOR\n2 1 3310 118749 34363 XOR\n2 1 34362 34363 34361 AND\n2 1 34361 118749 118750 XOR\n2 1 118781 118750 94789 XOR\n2 1 96837 94789 118719 XOR\n2 1 76672 118750 34365 XOR\n2 1 3311 118750 34366 XOR\n2 1 34365 34366 34364 AND\n2 1 34364 118750 118751 XOR\n2 1 118782 118751 94790 XOR\n2 1 96838 94790 118720 XOR\n2 1 76673 118751 34368 XOR\n2 1 3312 118751 34369 XOR\n2 1 34368 34369 34367 AND\n2 1 34367 118751 118752 XOR\n2 1 118783 118752 94791 XOR\n2 1 96839 94791 118721 XOR\n2 1 76674 118752 34371 XOR\n2 1 3313 118752 34372 XOR\n2 1 34371 34372 34370 AND\n2 1 34370 118752 118753 XOR\n2 1 118784 118753 94792 XOR\n2 1 96840 94792 118722 XOR\n2 1 76675 118753 34374 XOR\n2 1 3314 118753 34375 XOR\n2 1 34374 34375 34373 AND\n2 1 34373 118753 118754 XOR\n2 1 118785 118754 94793 XOR\n2 1 96841 94793 118723 XOR\n2 1 76676 118754 34377 XOR\n2 1 3315 118754 34378 XOR\n2 1 34377 34378 34376 AND\n2 1 34376 118754 118755 XOR\n2 1 118786 118755 94794 XOR\n2 1 96842 94794 118724 XOR\n2 1 76677 118755 34380 XOR\n2 1 3316 118755 34381 XOR\n2 1 34380 34381 34379 AND\n2 1 34379 118755 118756 XOR\n2 1 118787 118756 94795 XOR\n2 1 96843 94795 118725 XOR\n2 1 96824 94776 118706 XOR\n2 1 76678 118756 34383 XOR\n2 1 3317 118756 34384 XOR\n2 1 34383 34384 34382 AND\n2 1 34382 118756 118757 XOR\n2 1 118788 118757 94796 XOR\n2 1 96844 94796 118726 XOR\n2 1 76679 118757 34386 XOR\n2 1 3318 118757 34387 XOR\n2 1 34386 34387 34385 AND\n2 1 34385 118757 118758 XOR\n2 1 118789 118758 94797 XOR\n2 1 96845 94797 118727 XOR\n2 1 76680 118758 34389 XOR\n2 1 3319 118758 34390 XOR\n2 1 34389 34390 34388 AND\n2 1 34388 118758 118759 XOR\n2 1 118790 118759 94798 XOR\n2 1 96846 94798 118728 XOR\n2 1 76681 118759 34392 XOR\n2 1 3320 118759 34393 XOR\n2 1 34392 34393 34391 AND\n2 1 34391 118759 118760 XOR\n2 1 118791 118760 94799 XOR\n2 1 96847 94799 118729 XOR\n2 1 76682 118760 34395 XOR\n2 1 3321 118760 34396 XOR\n2 1 34395 34396 34394 AND\n2 1 34394 118760 118761 XOR\n2 1 118792 118761 94800 XOR\n",
"2 1 96848 94800 118730 XOR\n2 1 96827 94779 118709 XOR\n2 1 96826 94778 118708 XOR\n2 1 96825 94777 118707 XOR\n2 1 94775 118674 34234 XOR\n2 1 34233 34234 34232 AND\n2 1 34232 118674 118675 XOR\n2 1 118706 118675 92751 XOR\n2 1 96824 118675 34236 XOR\n2 1 94776 118675 34237 XOR\n2 1 34236 34237 34235 AND\n2 1 34235 118675 118676 XOR\n2 1 96825 118676 34239 XOR\n2 1 94777 118676 34240 XOR\n2 1 118707 118676 92752 XOR\n2 1 34239 34240 34238 AND\n2 1 34238 118676 118677 XOR\n2 1 118708 118677 92753 XOR\n1 1 92753 34220 INV\n2 1 96826 118677 34242 XOR\n2 1 94778 118677 34243 XOR\n2 1 34242 34243 34241 AND\n2 1 34241 118677 118678 XOR\n2 1 94779 118678 34246 XOR\n2 1 118709 118678 92754 XOR\n2 1 96827 118678 34245 XOR\n2 1 34245 34246 34244 AND\n2 1 34244 118678 118679 XOR\n2 1 96828 118679 34248 XOR\n2 1 94780 118679 34249 XOR\n2 1 34248 34249 34247 AND\n2 1 118710 118679 92755 XOR\n1 1 92755 34221 INV\n2 1 92751 34151 90739 XOR\n2 1 90739 106499 13721 XOR\n2 1 13720 13721 13719 AND\n2 1 13719 106499 106500 XOR\n2 1 2787 106500 13723 XOR\n2 1 2786 90739 106530 XOR\n2 1 106530 106499 2658 XOR\n2 1 90739 34151 34150 AND\n2 1 34150 34151 34153 XOR\n2 1 92752 34153 90740 XOR\n2 1 2787 90740 106531 XOR\n2 1 90740 34153 34152 AND\n2 1 34152 34153 118661 XOR\n2 1 34220 118661 90741 XOR\n2 1 2788 90741 106532 XOR\n1 1 118661 34156 INV\n2 1 92753 118661 34155 XOR\n2 1 34155 34156 34154 AND\n2 1 34154 118661 34158 XOR\n2 1 92754 34158 90742 XOR\n2 1 2789 90742 106533 XOR\n2 1 90742 34158 34157 AND\n2 1 34157 34158 118662 XOR\n1 1 118662 34161 INV\n2 1 34221 118662 90743 XOR\n2 1 2790 90743 106534 XOR\n2 1 90743 84599 106596 XOR\n2 1 92755 118662 34160 XOR\n2 1 34160 34161 34159 AND\n2 1 34159 118662 34163 XOR\n2 1 106531 106500 2659 XOR\n2 1 90740 106500 13724 XOR\n2 1 13723 13724 13722 AND\n2 1 13722 106500 106501 XOR\n2 1 106532 106501 2660 XOR\n2 1 2788 106501 13726 XOR\n2 1 90741 106501 13727 XOR\n2 1 13726 13727 13725 AND\n2 1 13725 106501 106502 XOR\n2 1 106533 106502 2661 XOR\n2 1 2789 106502 13729 XOR\n2 1 90742 106502 13730 XOR\n2 1 13729 13730 13728 AND\n2 1 13728 106502 106503 XOR\n2 1 106534 106503 2662 XOR\n2 1 2790 106503 13732 XOR\n2 1 90743 106503 13733 XOR\n2 1 13732 13733 13731 AND\n2 1 13731 106503 106504 XOR\n2 1 2791 106504 13735 XOR\n2 1 90737 84593 106560 AND\n2 1 84594 106560 13808 XOR\n2 1 90737 84593 2144 XOR\n2 1 2144 2720 71887 XOR\n2 1 71887 71855 71823 AND\n2 1 71823 2720 86609 XOR\n2 1 2144 2688 71759 XOR\n2 1 90738 84594 106591 XOR\n2 1 106591 106560 2145 XOR\n2 1 2145 2721 71888 XOR\n2 1 71888 71856 71824 AND\n2 1 71824 2721 86610 XOR\n2 1 2145 2689 71760 XOR\n2 1 90739 84595 106592 XOR\n2 1 90740 84596 106593 XOR\n2 1 90741 84597 106594 XOR\n2 1 90742 84598 106595 XOR\n2 1 90738 106560 13807 XOR\n2 1 13807 13808 13806 AND\n2 1 13806 106560 106561 XOR\n2 1 90739 106561 13810 XOR\n2 1 106592 106561 2146 XOR\n2 1 2146 2722 71889 XOR\n2 1 71889 71857 71825 AND\n2 1 71825 2722 86611 XOR\n2 1 2146 2690 71761 XOR\n2 1 84595 106561 13811 XOR\n2 1 13810 13811 13809 AND\n2 1 13809 106561 106562 XOR\n2 1 84596 106562 13814 XOR\n2 1 106593 106562 2147 XOR\n2 1 2147 2723 71890 XOR\n2 1 71890 71858 71826 AND\n2 1 71826 2723 86612 XOR\n2 1 2147 2691 71762 XOR\n2 1 90740 106562 13813 XOR\n2 1 13813 13814 13812 AND\n2 1 13812 106562 106563 XOR\n2 1 90741 106563 13816 XOR\n2 1 106594 106563 2148 XOR\n2 1 2148 2724 71891 XOR\n2 1 71891 71859 71827 AND\n2 1 71827 2724 86613 XOR\n2 1 2148 2692 71763 XOR\n2 1 84597 106563 13817 XOR\n",
"2 1 13816 13817 13815 AND\n2 1 13815 106563 106564 XOR\n2 1 84598 106564 13820 XOR\n2 1 106595 106564 2149 XOR\n2 1 2149 2725 71892 XOR\n2 1 71892 71860 71828 AND\n2 1 71828 2725 86614 XOR\n2 1 2149 2693 71764 XOR\n2 1 90742 106564 13819 XOR\n2 1 13819 13820 13818 AND\n2 1 13818 106564 106565 XOR\n2 1 90743 106565 13822 XOR\n2 1 106596 106565 2150 XOR\n2 1 2150 2726 71893 XOR\n2 1 71893 71861 71829 AND\n2 1 71829 2726 86615 XOR\n2 1 2150 2694 71765 XOR\n2 1 84599 106565 13823 XOR\n2 1 13822 13823 13821 AND\n2 1 13821 106565 106566 XOR\n2 1 84600 106566 13826 XOR\n2 1 76683 118761 34398 XOR\n2 1 3322 118761 34399 XOR\n2 1 34398 34399 34397 AND\n2 1 34397 118761 118762 XOR\n2 1 118793 118762 94801 XOR\n2 1 96849 94801 118731 XOR\n2 1 76684 118762 34401 XOR\n2 1 3323 118762 34402 XOR\n2 1 34401 34402 34400 AND\n2 1 34400 118762 118763 XOR\n2 1 118794 118763 94802 XOR\n2 1 76685 118763 34404 XOR\n2 1 3324 118763 34405 XOR\n2 1 34404 34405 34403 AND\n2 1 34403 118763 118764 XOR\n2 1 118795 118764 94803 XOR\n2 1 96851 94803 118733 XOR\n2 1 76686 118764 34407 XOR\n2 1 3325 118764 34408 XOR\n2 1 34407 34408 34406 AND\n2 1 34406 118764 118765 XOR\n2 1 118796 118765 94804 XOR\n2 1 76687 118765 34410 XOR\n2 1 3326 118765 34411 XOR\n2 1 34410 34411 34409 AND\n2 1 34409 118765 118766 XOR\n2 1 118797 118766 94805 XOR\n2 1 96853 94805 118735 XOR\n2 1 96852 94804 118734 XOR\n2 1 64917 2662 64885 AND\n2 1 64916 2661 64884 AND\n2 1 64915 2660 64883 AND\n2 1 64914 2659 64882 AND\n2 1 64913 2658 64881 AND\n2 1 64912 2657 64880 AND\n2 1 64911 2656 64879 AND\n2 1 64885 3238 98844 XOR\n2 1 64884 3237 98843 XOR\n2 1 64883 3236 98842 XOR\n2 1 64882 3235 98841 XOR\n2 1 64881 3234 98840 XOR\n2 1 64880 3233 98839 XOR\n2 1 64879 3232 98838 XOR\n2 1 2662 3206 64853 XOR\n2 1 2661 3205 64852 XOR\n2 1 2660 3204 64851 XOR\n2 1 2659 3203 64850 XOR\n2 1 2658 3202 64849 XOR\n2 1 2657 3201 64848 XOR\n2 1 2656 3200 64847 XOR\n2 1 96850 94802 118732 XOR\n2 1 34247 118679 118680 XOR\n2 1 118711 118680 92756 XOR\n2 1 94781 118680 34252 XOR\n2 1 92756 34163 90744 XOR\n2 1 2791 90744 106535 XOR\n2 1 106535 106504 2663 XOR\n2 1 90744 106504 13736 XOR\n2 1 13735 13736 13734 AND\n2 1 13734 106504 106505 XOR\n2 1 2792 106505 13738 XOR\n2 1 96829 118680 34251 XOR\n2 1 34251 34252 34250 AND\n2 1 34250 118680 118681 XOR\n2 1 94782 118681 34255 XOR\n2 1 96830 118681 34254 XOR\n2 1 34254 34255 34253 AND\n2 1 118712 118681 92757 XOR\n2 1 34253 118681 118682 XOR\n2 1 118713 118682 92758 XOR\n1 1 92757 34222 INV\n1 1 92758 34223 INV\n2 1 94783 118682 34258 XOR\n2 1 96831 118682 34257 XOR\n2 1 34257 34258 34256 AND\n2 1 34256 118682 118683 XOR\n2 1 96832 118683 34260 XOR\n2 1 118714 118683 92759 XOR\n2 1 94784 118683 34261 XOR\n2 1 34260 34261 34259 AND\n2 1 34259 118683 118684 XOR\n2 1 118715 118684 92760 XOR\n2 1 96833 118684 34263 XOR\n2 1 90744 84600 106597 XOR\n2 1 106597 106566 2151 XOR\n2 1 2151 2727 71894 XOR\n2 1 71894 71862 71830 AND\n2 1 71830 2727 86616 XOR\n2 1 2151 2695 71766 XOR\n2 1 90744 106566 13825 XOR\n2 1 13825 13826 13824 AND\n2 1 13824 106566 106567 XOR\n2 1 84601 106567 13829 XOR\n2 1 94785 118684 34264 XOR\n2 1 64918 2663 64886 AND\n2 1 64886 3239 98845 XOR\n2 1 2663 3207 64854 XOR\n2 1 90744 34163 34162 AND\n2 1 34162 34163 118663 XOR\n2 1 92757 118663 34165 XOR\n1 1 118663 34166 INV\n2 1 34165 34166 34164 AND\n2 1 34222 118663 90745 XOR\n2 1 90745 84601 106598 XOR\n2 1 90745 106567 13828 XOR\n2 1 13828 13829 13827 AND\n2 1 13827 106567 106568 XOR\n",
"2 1 84602 106568 13832 XOR\n2 1 2792 90745 106536 XOR\n2 1 106536 106505 2664 XOR\n2 1 90745 106505 13739 XOR\n2 1 13738 13739 13737 AND\n2 1 13737 106505 106506 XOR\n2 1 2793 106506 13741 XOR\n2 1 106598 106567 2152 XOR\n2 1 2152 2728 71895 XOR\n2 1 71895 71863 71831 AND\n2 1 71831 2728 86617 XOR\n2 1 2152 2696 71767 XOR\n2 1 34164 118663 118664 XOR\n2 1 34223 118664 90746 XOR\n2 1 90746 106568 13831 XOR\n2 1 13831 13832 13830 AND\n2 1 13830 106568 106569 XOR\n2 1 84603 106569 13835 XOR\n2 1 2793 90746 106537 XOR\n1 1 118664 34169 INV\n2 1 106537 106506 2665 XOR\n2 1 90746 106506 13742 XOR\n2 1 13741 13742 13740 AND\n2 1 13740 106506 106507 XOR\n2 1 2794 106507 13744 XOR\n2 1 90746 84602 106599 XOR\n2 1 106599 106568 2153 XOR\n2 1 2153 2729 71896 XOR\n2 1 71896 71864 71832 AND\n2 1 71832 2729 86618 XOR\n2 1 2153 2697 71768 XOR\n2 1 64920 2665 64888 AND\n2 1 64919 2664 64887 AND\n2 1 64888 3241 98847 XOR\n2 1 64887 3240 98846 XOR\n2 1 2665 3209 64856 XOR\n2 1 2664 3208 64855 XOR\n2 1 92758 118664 34168 XOR\n2 1 34168 34169 34167 AND\n2 1 34167 118664 34171 XOR\n2 1 92759 34171 90747 XOR\n2 1 90747 84603 106600 XOR\n2 1 106600 106569 2154 XOR\n2 1 90747 106569 13834 XOR\n2 1 13834 13835 13833 AND\n2 1 13833 106569 106570 XOR\n2 1 84604 106570 13838 XOR\n2 1 2794 90747 106538 XOR\n2 1 90747 34171 34170 AND\n2 1 34170 34171 34173 XOR\n2 1 92760 34173 90748 XOR\n2 1 2795 90748 106539 XOR\n2 1 90748 106570 13837 XOR\n2 1 13837 13838 13836 AND\n2 1 13836 106570 106571 XOR\n2 1 84605 106571 13841 XOR\n2 1 90748 34173 34172 AND\n2 1 34172 34173 34175 XOR\n2 1 106538 106507 2666 XOR\n2 1 90747 106507 13745 XOR\n2 1 13744 13745 13743 AND\n2 1 13743 106507 106508 XOR\n2 1 106539 106508 2667 XOR\n2 1 2795 106508 13747 XOR\n2 1 90748 106508 13748 XOR\n2 1 13747 13748 13746 AND\n2 1 13746 106508 106509 XOR\n2 1 2796 106509 13750 XOR\n2 1 2154 2730 71897 XOR\n2 1 71897 71865 71833 AND\n2 1 71833 2730 86619 XOR\n2 1 2154 2698 71769 XOR\n2 1 90748 84604 106601 XOR\n2 1 106601 106570 2155 XOR\n2 1 2155 2731 71898 XOR\n2 1 71898 71866 71834 AND\n2 1 71834 2731 86620 XOR\n2 1 2155 2699 71770 XOR\n2 1 2144 2155 67789 XOR\n2 1 64922 2667 64890 AND\n2 1 64921 2666 64889 AND\n2 1 64890 3243 98849 XOR\n2 1 64889 3242 98848 XOR\n2 1 2667 3211 64858 XOR\n2 1 2666 3210 64857 XOR\n2 1 34263 34264 34262 AND\n2 1 34262 118684 118685 XOR\n2 1 96834 118685 34266 XOR\n2 1 94786 118685 34267 XOR\n2 1 118716 118685 92761 XOR\n2 1 92761 34175 90749 XOR\n2 1 90749 106571 13840 XOR\n2 1 13840 13841 13839 AND\n2 1 13839 106571 106572 XOR\n2 1 84606 106572 13844 XOR\n2 1 2796 90749 106540 XOR\n2 1 90749 84605 106602 XOR\n2 1 106602 106571 2156 XOR\n2 1 90749 34175 34174 AND\n2 1 34174 34175 118665 XOR\n1 1 118665 34178 INV\n2 1 106540 106509 2668 XOR\n2 1 90749 106509 13751 XOR\n2 1 13750 13751 13749 AND\n2 1 13749 106509 106510 XOR\n2 1 2797 106510 13753 XOR\n2 1 34266 34267 34265 AND\n2 1 2156 2732 71899 XOR\n2 1 71899 71867 71835 AND\n2 1 71835 2732 86621 XOR\n2 1 2156 2700 71771 XOR\n2 1 34265 118685 118686 XOR\n2 1 118717 118686 92762 XOR\n1 1 92762 34224 INV\n2 1 34224 118665 90750 XOR\n2 1 90750 106572 13843 XOR\n2 1 13843 13844 13842 AND\n2 1 13842 106572 106573 XOR\n2 1 84607 106573 13847 XOR\n2 1 2797 90750 106541 XOR\n2 1 92762 118665 34177 XOR\n2 1 34177 34178 34176 AND\n2 1 34176 118665 118666 XOR\n1 1 118666 34181 INV\n2 1 106541 106510 2669 XOR\n2 1 90750 106510 13754 XOR\n2 1 13753 13754 13752 AND\n2 1 13752 106510 106511 XOR\n",
"2 1 2798 106511 13756 XOR\n2 1 96835 118686 34269 XOR\n2 1 94787 118686 34270 XOR\n2 1 34269 34270 34268 AND\n2 1 34268 118686 118687 XOR\n2 1 118718 118687 92763 XOR\n2 1 92763 118666 34180 XOR\n1 1 92763 34225 INV\n2 1 34225 118666 90751 XOR\n2 1 90751 84607 106604 XOR\n2 1 106604 106573 2158 XOR\n2 1 90751 106573 13846 XOR\n2 1 13846 13847 13845 AND\n2 1 13845 106573 106574 XOR\n2 1 84608 106574 13850 XOR\n2 1 2798 90751 106542 XOR\n2 1 34180 34181 34179 AND\n2 1 34179 118666 34183 XOR\n2 1 106542 106511 2670 XOR\n2 1 90751 106511 13757 XOR\n2 1 13756 13757 13755 AND\n2 1 13755 106511 106512 XOR\n2 1 2799 106512 13759 XOR\n2 1 96836 118687 34272 XOR\n2 1 94788 118687 34273 XOR\n2 1 34272 34273 34271 AND\n2 1 34271 118687 118688 XOR\n2 1 118719 118688 92764 XOR\n2 1 92764 34183 90752 XOR\n2 1 90752 34183 34182 AND\n2 1 90752 106574 13849 XOR\n2 1 13849 13850 13848 AND\n2 1 13848 106574 106575 XOR\n2 1 84609 106575 13853 XOR\n2 1 2799 90752 106543 XOR\n2 1 106543 106512 2671 XOR\n2 1 90752 106512 13760 XOR\n2 1 13759 13760 13758 AND\n2 1 13758 106512 106513 XOR\n2 1 2800 106513 13762 XOR\n2 1 96837 118688 34275 XOR\n2 1 94789 118688 34276 XOR\n2 1 34275 34276 34274 AND\n2 1 34274 118688 118689 XOR\n2 1 118720 118689 92765 XOR\n2 1 96838 118689 34278 XOR\n2 1 94790 118689 34279 XOR\n2 1 34278 34279 34277 AND\n2 1 34277 118689 118690 XOR\n2 1 118721 118690 92766 XOR\n1 1 92766 34226 INV\n2 1 2158 2734 71901 XOR\n2 1 71901 71869 71837 AND\n2 1 71837 2734 86623 XOR\n2 1 2158 2702 71773 XOR\n2 1 90750 84606 106603 XOR\n2 1 106603 106572 2157 XOR\n2 1 2157 2733 71900 XOR\n2 1 71900 71868 71836 AND\n2 1 71836 2733 86622 XOR\n2 1 2157 2701 71772 XOR\n2 1 90752 84608 106605 XOR\n2 1 106605 106574 2159 XOR\n2 1 2159 2735 71902 XOR\n2 1 71902 71870 71838 AND\n2 1 71838 2735 86624 XOR\n2 1 2159 2703 71774 XOR\n2 1 94791 118690 34282 XOR\n2 1 96839 118690 34281 XOR\n2 1 34281 34282 34280 AND\n2 1 34280 118690 118691 XOR\n2 1 118722 118691 92767 XOR\n2 1 94792 118691 34285 XOR\n2 1 96840 118691 34284 XOR\n2 1 34284 34285 34283 AND\n2 1 34283 118691 118692 XOR\n2 1 96841 118692 34287 XOR\n2 1 118723 118692 92768 XOR\n2 1 94793 118692 34288 XOR\n2 1 34287 34288 34286 AND\n2 1 34286 118692 118693 XOR\n2 1 96842 118693 34290 XOR\n2 1 118724 118693 92769 XOR\n2 1 94794 118693 34291 XOR\n2 1 34290 34291 34289 AND\n2 1 34289 118693 118694 XOR\n2 1 118725 118694 92770 XOR\n2 1 96843 118694 34293 XOR\n2 1 94795 118694 34294 XOR\n2 1 34293 34294 34292 AND\n2 1 34292 118694 118695 XOR\n2 1 96844 118695 34296 XOR\n2 1 94796 118695 34297 XOR\n2 1 34296 34297 34295 AND\n2 1 118726 118695 92771 XOR\n2 1 34295 118695 118696 XOR\n2 1 94797 118696 34300 XOR\n2 1 96845 118696 34299 XOR\n2 1 118727 118696 92772 XOR\n1 1 92772 34229 INV\n2 1 34299 34300 34298 AND\n2 1 34298 118696 118697 XOR\n2 1 94798 118697 34303 XOR\n2 1 118728 118697 92773 XOR\n2 1 96846 118697 34302 XOR\n2 1 34302 34303 34301 AND\n2 1 34301 118697 118698 XOR\n2 1 96847 118698 34305 XOR\n2 1 118729 118698 92774 XOR\n2 1 94799 118698 34306 XOR\n2 1 34305 34306 34304 AND\n2 1 34304 118698 118699 XOR\n2 1 96848 118699 34308 XOR\n2 1 94800 118699 34309 XOR\n2 1 34308 34309 34307 AND\n2 1 118730 118699 92775 XOR\n2 1 34307 118699 118700 XOR\n2 1 96849 118700 34311 XOR\n2 1 118731 118700 92776 XOR\n2 1 94801 118700 34312 XOR\n2 1 34311 34312 34310 AND\n2 1 34310 118700 118701 XOR\n2 1 96850 118701 34314 XOR\n2 1 94802 118701 34315 XOR\n2 1 34314 34315 34313 AND\n2 1 118732 118701 92777 XOR\n2 1 34313 118701 118702 XOR\n2 1 118733 118702 92778 XOR\n",
"2 1 96851 118702 34317 XOR\n2 1 94803 118702 34318 XOR\n2 1 34317 34318 34316 AND\n2 1 34316 118702 118703 XOR\n2 1 94804 118703 34321 XOR\n2 1 118734 118703 92779 XOR\n2 1 96852 118703 34320 XOR\n2 1 34320 34321 34319 AND\n2 1 34319 118703 118704 XOR\n2 1 118735 118704 92780 XOR\n1 1 92774 34230 INV\n1 1 92771 34228 INV\n1 1 92768 34227 INV\n1 1 92775 34231 INV\n2 1 2145 2156 67790 XOR\n2 1 2148 2159 67761 XOR\n2 1 2147 2158 67760 XOR\n2 1 2146 2157 67759 XOR\n2 1 64926 2671 64894 AND\n2 1 64925 2670 64893 AND\n2 1 64924 2669 64892 AND\n2 1 64923 2668 64891 AND\n2 1 64894 3247 98853 XOR\n2 1 64893 3246 98852 XOR\n2 1 64892 3245 98851 XOR\n2 1 64891 3244 98850 XOR\n2 1 2671 3215 64862 XOR\n2 1 2670 3214 64861 XOR\n2 1 2669 3213 64860 XOR\n2 1 2668 3212 64859 XOR\n2 1 34182 34183 34185 XOR\n2 1 92765 34185 90753 XOR\n2 1 90753 34185 34184 AND\n2 1 34184 34185 118667 XOR\n2 1 34226 118667 90754 XOR\n2 1 2801 90754 106545 XOR\n2 1 90753 84609 106606 XOR\n2 1 106606 106575 2160 XOR\n2 1 90753 106575 13852 XOR\n2 1 13852 13853 13851 AND\n2 1 13851 106575 106576 XOR\n2 1 90754 106576 13855 XOR\n2 1 84610 106576 13856 XOR\n2 1 13855 13856 13854 AND\n2 1 13854 106576 106577 XOR\n2 1 84611 106577 13859 XOR\n2 1 2800 90753 106544 XOR\n2 1 92766 118667 34187 XOR\n1 1 118667 34188 INV\n2 1 34187 34188 34186 AND\n2 1 34186 118667 34190 XOR\n2 1 92767 34190 90755 XOR\n2 1 90755 106577 13858 XOR\n2 1 13858 13859 13857 AND\n2 1 13857 106577 106578 XOR\n2 1 84612 106578 13862 XOR\n2 1 2802 90755 106546 XOR\n2 1 90755 84611 106608 XOR\n2 1 106608 106577 2162 XOR\n2 1 90755 34190 34189 AND\n2 1 34189 34190 118668 XOR\n2 1 92768 118668 34192 XOR\n1 1 118668 34193 INV\n2 1 34227 118668 90756 XOR\n2 1 90756 106578 13861 XOR\n2 1 13861 13862 13860 AND\n2 1 13860 106578 106579 XOR\n2 1 84613 106579 13865 XOR\n2 1 2803 90756 106547 XOR\n2 1 34192 34193 34191 AND\n2 1 34191 118668 34195 XOR\n2 1 92769 34195 90757 XOR\n2 1 90757 106579 13864 XOR\n2 1 13864 13865 13863 AND\n2 1 13863 106579 106580 XOR\n2 1 84614 106580 13868 XOR\n2 1 2804 90757 106548 XOR\n2 1 90757 84613 106610 XOR\n2 1 106610 106579 2164 XOR\n2 1 90757 34195 34194 AND\n2 1 34194 34195 34197 XOR\n2 1 92770 34197 90758 XOR\n2 1 2805 90758 106549 XOR\n2 1 90758 106580 13867 XOR\n2 1 13867 13868 13866 AND\n2 1 13866 106580 106581 XOR\n2 1 84615 106581 13871 XOR\n2 1 90758 34197 34196 AND\n2 1 34196 34197 118669 XOR\n1 1 118669 34200 INV\n2 1 92771 118669 34199 XOR\n2 1 34199 34200 34198 AND\n2 1 34228 118669 90759 XOR\n2 1 90759 84615 106612 XOR\n2 1 106612 106581 2166 XOR\n2 1 90759 106581 13870 XOR\n2 1 13870 13871 13869 AND\n2 1 13869 106581 106582 XOR\n2 1 84616 106582 13874 XOR\n2 1 2806 90759 106550 XOR\n2 1 34198 118669 118670 XOR\n2 1 92772 118670 34202 XOR\n1 1 118670 34203 INV\n2 1 106544 106513 2672 XOR\n2 1 90753 106513 13763 XOR\n2 1 13762 13763 13761 AND\n2 1 13761 106513 106514 XOR\n2 1 106545 106514 2673 XOR\n2 1 2801 106514 13765 XOR\n2 1 90754 106514 13766 XOR\n2 1 13765 13766 13764 AND\n2 1 13764 106514 106515 XOR\n2 1 106546 106515 2674 XOR\n2 1 2802 106515 13768 XOR\n2 1 90755 106515 13769 XOR\n2 1 13768 13769 13767 AND\n2 1 13767 106515 106516 XOR\n2 1 106547 106516 2675 XOR\n2 1 2803 106516 13771 XOR\n2 1 90756 106516 13772 XOR\n2 1 13771 13772 13770 AND\n2 1 13770 106516 106517 XOR\n2 1 106548 106517 2676 XOR\n2 1 2804 106517 13774 XOR\n2 1 90757 106517 13775 XOR\n2 1 13774 13775 13773 AND\n2 1 13773 106517 106518 XOR\n2 1 106549 106518 2677 XOR\n",
"2 1 2805 106518 13777 XOR\n2 1 90758 106518 13778 XOR\n2 1 13777 13778 13776 AND\n2 1 13776 106518 106519 XOR\n2 1 106550 106519 2678 XOR\n2 1 2806 106519 13780 XOR\n2 1 90759 106519 13781 XOR\n2 1 13780 13781 13779 AND\n2 1 13779 106519 106520 XOR\n2 1 2807 106520 13783 XOR\n2 1 2166 2742 71909 XOR\n2 1 2164 2740 71907 XOR\n2 1 2162 2738 71905 XOR\n2 1 2160 2736 71903 XOR\n2 1 71909 71877 71845 AND\n2 1 71907 71875 71843 AND\n2 1 71905 71873 71841 AND\n2 1 71903 71871 71839 AND\n2 1 71845 2742 86631 XOR\n2 1 71843 2740 86629 XOR\n2 1 71841 2738 86627 XOR\n2 1 71839 2736 86625 XOR\n2 1 2166 2710 71781 XOR\n2 1 2164 2708 71779 XOR\n2 1 2162 2706 71777 XOR\n2 1 2160 2704 71775 XOR\n2 1 90754 84610 106607 XOR\n2 1 106607 106576 2161 XOR\n2 1 2161 2737 71904 XOR\n2 1 71904 71872 71840 AND\n2 1 71840 2737 86626 XOR\n2 1 2161 2705 71776 XOR\n2 1 90756 84612 106609 XOR\n2 1 106609 106578 2163 XOR\n2 1 2163 2739 71906 XOR\n2 1 71906 71874 71842 AND\n2 1 71842 2739 86628 XOR\n2 1 2163 2707 71778 XOR\n2 1 90758 84614 106611 XOR\n2 1 106611 106580 2165 XOR\n2 1 2165 2741 71908 XOR\n2 1 71908 71876 71844 AND\n2 1 71844 2741 86630 XOR\n2 1 2165 2709 71780 XOR\n2 1 34202 34203 34201 AND\n2 1 34201 118670 34205 XOR\n2 1 92773 34205 90761 XOR\n2 1 90761 84617 106614 XOR\n2 1 2808 90761 106552 XOR\n2 1 90761 34205 34204 AND\n2 1 34204 34205 118671 XOR\n2 1 92774 118671 34207 XOR\n2 1 34230 118671 90762 XOR\n2 1 2809 90762 106553 XOR\n2 1 90762 84618 106615 XOR\n2 1 2166 2145 67779 XOR\n2 1 2165 2144 67778 XOR\n2 1 2155 2166 67768 XOR\n2 1 2154 2165 67767 XOR\n2 1 2153 2164 67766 XOR\n2 1 2152 2163 67765 XOR\n2 1 2151 2162 67764 XOR\n2 1 2150 2161 67763 XOR\n2 1 2149 2160 67762 XOR\n2 1 67790 2165 88688 XOR\n2 1 67789 2164 88687 XOR\n2 1 67779 2154 88677 XOR\n2 1 67778 2153 88676 XOR\n2 1 67759 2166 88657 XOR\n2 1 88657 86609 84561 XOR\n2 1 64933 2678 64901 AND\n2 1 64932 2677 64900 AND\n2 1 64931 2676 64899 AND\n2 1 64930 2675 64898 AND\n2 1 64929 2674 64897 AND\n2 1 64928 2673 64896 AND\n2 1 64927 2672 64895 AND\n2 1 64901 3254 98860 XOR\n2 1 64900 3253 98859 XOR\n2 1 64899 3252 98858 XOR\n2 1 64898 3251 98857 XOR\n2 1 64897 3250 98856 XOR\n2 1 64896 3249 98855 XOR\n2 1 64895 3248 98854 XOR\n2 1 2678 3222 64869 XOR\n2 1 2677 3221 64868 XOR\n2 1 2676 3220 64867 XOR\n2 1 2675 3219 64866 XOR\n2 1 2674 3218 64865 XOR\n2 1 2673 3217 64864 XOR\n2 1 2672 3216 64863 XOR\n2 1 88657 86609 118351 AND\n2 1 86610 118351 33606 XOR\n2 1 88676 86628 118400 XOR\n2 1 88677 86629 118401 XOR\n1 1 118671 34208 INV\n2 1 34207 34208 34206 AND\n2 1 34206 118671 118672 XOR\n1 1 118672 34211 INV\n2 1 92775 118672 34210 XOR\n2 1 34210 34211 34209 AND\n2 1 34209 118672 34213 XOR\n2 1 92776 34213 90764 XOR\n2 1 90764 34213 34212 AND\n2 1 34212 34213 34215 XOR\n2 1 2811 90764 106555 XOR\n2 1 34231 118672 90763 XOR\n2 1 2810 90763 106554 XOR\n2 1 90763 84619 106616 XOR\n2 1 92777 34215 90765 XOR\n2 1 90765 84621 106618 XOR\n2 1 2812 90765 106556 XOR\n2 1 90765 34215 34214 AND\n2 1 34214 34215 34217 XOR\n2 1 92778 34217 90766 XOR\n2 1 90766 34217 34216 AND\n2 1 34216 34217 34219 XOR\n2 1 2813 90766 106557 XOR\n2 1 90764 84620 106617 XOR\n2 1 90766 84622 106619 XOR\n2 1 34229 118670 90760 XOR\n2 1 2807 90760 106551 XOR\n2 1 90760 106582 13873 XOR\n2 1 13873 13874 13872 AND\n2 1 13872 106582 106583 XOR\n2 1 106614 106583 2168 XOR\n2 1 90761 106583 13876 XOR\n2 1 84617 106583 13877 XOR\n",
"2 1 13876 13877 13875 AND\n2 1 13875 106583 106584 XOR\n2 1 106615 106584 2169 XOR\n2 1 90762 106584 13879 XOR\n2 1 84618 106584 13880 XOR\n2 1 13879 13880 13878 AND\n2 1 13878 106584 106585 XOR\n2 1 106616 106585 2170 XOR\n2 1 90763 106585 13882 XOR\n2 1 84619 106585 13883 XOR\n2 1 13882 13883 13881 AND\n2 1 13881 106585 106586 XOR\n2 1 106617 106586 2171 XOR\n2 1 90764 106586 13885 XOR\n2 1 84620 106586 13886 XOR\n2 1 13885 13886 13884 AND\n2 1 13884 106586 106587 XOR\n2 1 106618 106587 2172 XOR\n2 1 90765 106587 13888 XOR\n2 1 84621 106587 13889 XOR\n2 1 13888 13889 13887 AND\n2 1 13887 106587 106588 XOR\n2 1 106619 106588 2173 XOR\n2 1 90766 106588 13891 XOR\n2 1 84622 106588 13892 XOR\n2 1 13891 13892 13890 AND\n2 1 13890 106588 106589 XOR\n2 1 84623 106589 13895 XOR\n2 1 106551 106520 2679 XOR\n2 1 90760 106520 13784 XOR\n2 1 13783 13784 13782 AND\n2 1 13782 106520 106521 XOR\n2 1 106552 106521 2680 XOR\n2 1 2808 106521 13786 XOR\n2 1 90761 106521 13787 XOR\n2 1 13786 13787 13785 AND\n2 1 13785 106521 106522 XOR\n2 1 106553 106522 2681 XOR\n2 1 2809 106522 13789 XOR\n2 1 90762 106522 13790 XOR\n2 1 13789 13790 13788 AND\n2 1 13788 106522 106523 XOR\n2 1 2173 2749 71916 XOR\n2 1 2172 2748 71915 XOR\n2 1 2171 2747 71914 XOR\n2 1 2170 2746 71913 XOR\n2 1 2169 2745 71912 XOR\n2 1 2168 2744 71911 XOR\n2 1 71916 71884 71852 AND\n2 1 71915 71883 71851 AND\n2 1 71914 71882 71850 AND\n2 1 71913 71881 71849 AND\n2 1 71912 71880 71848 AND\n2 1 71911 71879 71847 AND\n2 1 71852 2749 86638 XOR\n2 1 71851 2748 86637 XOR\n2 1 71850 2747 86636 XOR\n2 1 71849 2746 86635 XOR\n2 1 71848 2745 86634 XOR\n2 1 71847 2744 86633 XOR\n2 1 2173 2717 71788 XOR\n2 1 2172 2716 71787 XOR\n2 1 2171 2715 71786 XOR\n2 1 2170 2714 71785 XOR\n2 1 2169 2713 71784 XOR\n2 1 2168 2712 71783 XOR\n2 1 106554 106523 2682 XOR\n2 1 2810 106523 13792 XOR\n2 1 90763 106523 13793 XOR\n2 1 13792 13793 13791 AND\n2 1 13791 106523 106524 XOR\n2 1 106555 106524 2683 XOR\n2 1 2811 106524 13795 XOR\n2 1 90764 106524 13796 XOR\n2 1 13795 13796 13794 AND\n2 1 13794 106524 106525 XOR\n2 1 106556 106525 2684 XOR\n2 1 2812 106525 13798 XOR\n2 1 90765 106525 13799 XOR\n2 1 13798 13799 13797 AND\n2 1 13797 106525 106526 XOR\n2 1 106557 106526 2685 XOR\n2 1 2813 106526 13801 XOR\n2 1 90766 106526 13802 XOR\n2 1 13801 13802 13800 AND\n2 1 13800 106526 106527 XOR\n2 1 2814 106527 13804 XOR\n2 1 90760 84616 106613 XOR\n2 1 106613 106582 2167 XOR\n2 1 2167 2743 71910 XOR\n2 1 71910 71878 71846 AND\n2 1 71846 2743 86632 XOR\n2 1 2167 2711 71782 XOR\n2 1 2173 2152 67786 XOR\n2 1 2172 2151 67785 XOR\n2 1 2171 2150 67784 XOR\n2 1 2170 2149 67783 XOR\n2 1 2169 2148 67782 XOR\n2 1 2168 2147 67781 XOR\n2 1 2167 2146 67780 XOR\n2 1 2162 2173 67775 XOR\n2 1 2161 2172 67774 XOR\n2 1 2160 2171 67773 XOR\n2 1 2159 2170 67772 XOR\n2 1 2158 2169 67771 XOR\n2 1 2157 2168 67770 XOR\n2 1 2156 2167 67769 XOR\n2 1 67786 2161 88684 XOR\n2 1 67785 2160 88683 XOR\n2 1 67784 2159 88682 XOR\n2 1 67783 2158 88681 XOR\n2 1 67782 2157 88680 XOR\n2 1 67781 2156 88679 XOR\n2 1 67780 2155 88678 XOR\n2 1 67775 2150 88673 XOR\n2 1 67774 2149 88672 XOR\n2 1 67773 2148 88671 XOR\n2 1 67772 2147 88670 XOR\n2 1 67771 2146 88669 XOR\n2 1 67770 2145 88668 XOR\n2 1 67769 2144 88667 XOR\n2 1 67766 2173 88664 XOR\n2 1 67765 2172 88663 XOR\n2 1 67764 2171 88662 XOR\n2 1 67763 2170 88661 XOR\n2 1 67762 2169 88660 XOR\n2 1 67761 2168 88659 XOR\n2 1 67760 2167 88658 XOR\n",
"2 1 88658 86610 118382 XOR\n2 1 88659 86611 118383 XOR\n2 1 64940 2685 64908 AND\n2 1 64939 2684 64907 AND\n2 1 64938 2683 64906 AND\n2 1 64937 2682 64905 AND\n2 1 64936 2681 64904 AND\n2 1 64935 2680 64903 AND\n2 1 64934 2679 64902 AND\n2 1 64908 3261 98867 XOR\n2 1 64907 3260 98866 XOR\n2 1 64906 3259 98865 XOR\n2 1 64905 3258 98864 XOR\n2 1 64904 3257 98863 XOR\n2 1 64903 3256 98862 XOR\n2 1 64902 3255 98861 XOR\n2 1 2685 3229 64876 XOR\n2 1 2684 3228 64875 XOR\n2 1 2683 3227 64874 XOR\n2 1 2682 3226 64873 XOR\n2 1 2681 3225 64872 XOR\n2 1 2680 3224 64871 XOR\n2 1 2679 3223 64870 XOR\n2 1 88660 86612 118384 XOR\n2 1 88661 86613 118385 XOR\n2 1 88662 86614 118386 XOR\n2 1 88663 86615 118387 XOR\n2 1 88664 86616 118388 XOR\n2 1 88667 86619 118391 XOR\n2 1 88668 86620 118392 XOR\n2 1 88669 86621 118393 XOR\n2 1 88670 86622 118394 XOR\n2 1 88671 86623 118395 XOR\n2 1 88672 86624 118396 XOR\n2 1 88673 86625 118397 XOR\n2 1 88678 86630 118402 XOR\n2 1 88679 86631 118403 XOR\n2 1 88680 86632 118404 XOR\n2 1 88681 86633 118405 XOR\n2 1 88682 86634 118406 XOR\n2 1 88683 86635 118407 XOR\n2 1 88684 86636 118408 XOR\n2 1 118382 118351 84562 XOR\n2 1 88658 118351 33605 XOR\n2 1 33605 33606 33604 AND\n2 1 33604 118351 118352 XOR\n2 1 88659 118352 33608 XOR\n2 1 118383 118352 84563 XOR\n2 1 86611 118352 33609 XOR\n2 1 33608 33609 33607 AND\n2 1 33607 118352 118353 XOR\n2 1 86612 118353 33612 XOR\n2 1 118384 118353 84564 XOR\n2 1 88660 118353 33611 XOR\n2 1 33611 33612 33610 AND\n2 1 33610 118353 118354 XOR\n2 1 88661 118354 33614 XOR\n2 1 118385 118354 84565 XOR\n2 1 86613 118354 33615 XOR\n2 1 33614 33615 33613 AND\n2 1 33613 118354 118355 XOR\n2 1 86614 118355 33618 XOR\n2 1 118386 118355 84566 XOR\n2 1 88662 118355 33617 XOR\n2 1 33617 33618 33616 AND\n2 1 33616 118355 118356 XOR\n2 1 88663 118356 33620 XOR\n2 1 118387 118356 84567 XOR\n2 1 86615 118356 33621 XOR\n2 1 33620 33621 33619 AND\n2 1 33619 118356 118357 XOR\n2 1 118388 118357 84568 XOR\n2 1 86616 118357 33624 XOR\n2 1 88664 118357 33623 XOR\n2 1 33623 33624 33622 AND\n2 1 33622 118357 118358 XOR\n2 1 86617 118358 33627 XOR\n2 1 92779 34219 90767 XOR\n2 1 90767 84623 106620 XOR\n2 1 106620 106589 2174 XOR\n2 1 67767 2174 88665 XOR\n2 1 2174 2153 67787 XOR\n2 1 67787 2162 88685 XOR\n2 1 2174 2718 71789 XOR\n2 1 2174 2750 71917 XOR\n2 1 71917 71885 71853 AND\n2 1 71853 2750 86639 XOR\n2 1 88685 86637 118409 XOR\n2 1 88687 86639 118411 XOR\n2 1 90767 106589 13894 XOR\n2 1 90767 106527 13805 XOR\n2 1 13804 13805 13803 AND\n2 1 2163 2174 67776 XOR\n2 1 67776 2151 88674 XOR\n2 1 88674 86626 118398 XOR\n2 1 13803 106527 106528 XOR\n2 1 2814 90767 106558 XOR\n2 1 106558 106527 2686 XOR\n2 1 2686 3230 64877 XOR\n2 1 64941 2686 64909 AND\n2 1 64909 3262 98868 XOR\n2 1 88665 118358 33626 XOR\n2 1 88665 86617 118389 XOR\n2 1 118389 118358 84569 XOR\n2 1 33626 33627 33625 AND\n2 1 33625 118358 118359 XOR\n2 1 86618 118359 33630 XOR\n2 1 13894 13895 13893 AND\n2 1 13893 106589 106590 XOR\n2 1 90767 34219 34218 AND\n2 1 34218 34219 118673 XOR\n2 1 92780 118673 90768 XOR\n2 1 2815 90768 106559 XOR\n2 1 106559 106528 2687 XOR\n2 1 90768 84624 106621 XOR\n2 1 106621 106590 2175 XOR\n2 1 2175 2751 71918 XOR\n2 1 71918 71886 71854 AND\n2 1 71854 2751 86640 XOR\n2 1 2175 2719 71790 XOR\n2 1 2175 2154 67788 XOR\n2 1 2164 2175 67777 XOR\n2 1 67788 2163 88686 XOR\n2 1 67777 2152 88675 XOR\n2 1 67768 2175 88666 XOR\n2 1 64942 2687 64910 AND\n2 1 64910 3263 98869 XOR\n2 1 2687 3231 64878 XOR\n",
"2 1 88666 86618 118390 XOR\n2 1 118390 118359 84570 XOR\n2 1 88675 86627 118399 XOR\n2 1 88686 86638 118410 XOR\n2 1 88688 86640 118412 XOR\n2 1 88666 118359 33629 XOR\n2 1 33629 33630 33628 AND\n2 1 33628 118359 118360 XOR\n2 1 88667 118360 33632 XOR\n2 1 118391 118360 84571 XOR\n2 1 86619 118360 33633 XOR\n2 1 33632 33633 33631 AND\n2 1 33631 118360 118361 XOR\n2 1 118392 118361 84572 XOR\n2 1 86620 118361 33636 XOR\n2 1 88668 118361 33635 XOR\n2 1 33635 33636 33634 AND\n2 1 33634 118361 118362 XOR\n2 1 88669 118362 33638 XOR\n2 1 118393 118362 84573 XOR\n2 1 86621 118362 33639 XOR\n2 1 33638 33639 33637 AND\n2 1 33637 118362 118363 XOR\n2 1 86622 118363 33642 XOR\n2 1 118394 118363 84574 XOR\n2 1 88670 118363 33641 XOR\n2 1 33641 33642 33640 AND\n2 1 33640 118363 118364 XOR\n2 1 86623 118364 33645 XOR\n2 1 88671 118364 33644 XOR\n2 1 33644 33645 33643 AND\n2 1 33643 118364 118365 XOR\n2 1 86624 118365 33648 XOR\n2 1 118396 118365 84576 XOR\n2 1 88672 118365 33647 XOR\n2 1 33647 33648 33646 AND\n2 1 33646 118365 118366 XOR\n2 1 86625 118366 33651 XOR\n2 1 118397 118366 84577 XOR\n2 1 88673 118366 33650 XOR\n2 1 33650 33651 33649 AND\n2 1 33649 118366 118367 XOR\n2 1 118398 118367 84578 XOR\n2 1 88674 118367 33653 XOR\n2 1 86626 118367 33654 XOR\n2 1 33653 33654 33652 AND\n2 1 33652 118367 118368 XOR\n2 1 86627 118368 33657 XOR\n2 1 88675 118368 33656 XOR\n2 1 118399 118368 84579 XOR\n2 1 33656 33657 33655 AND\n2 1 33655 118368 118369 XOR\n2 1 86628 118369 33660 XOR\n2 1 118400 118369 84580 XOR\n2 1 88676 118369 33659 XOR\n2 1 33659 33660 33658 AND\n2 1 33658 118369 118370 XOR\n2 1 86629 118370 33663 XOR\n2 1 118401 118370 84581 XOR\n2 1 88677 118370 33662 XOR\n2 1 33662 33663 33661 AND\n2 1 33661 118370 118371 XOR\n2 1 88678 118371 33665 XOR\n2 1 118395 118364 84575 XOR\n2 1 2661 2666 61870 XOR\n2 1 2660 2665 61869 XOR\n2 1 2659 2664 61868 XOR\n2 1 2658 2663 61867 XOR\n2 1 2657 2662 61866 XOR\n2 1 2656 2661 61865 XOR\n2 1 2687 2660 61864 XOR\n2 1 2686 2659 61863 XOR\n2 1 2685 2658 61862 XOR\n2 1 2684 2657 61861 XOR\n2 1 2683 2656 61860 XOR\n2 1 2682 2687 61859 XOR\n2 1 2681 2686 61858 XOR\n2 1 2680 2685 61857 XOR\n2 1 2679 2684 61856 XOR\n2 1 2678 2683 61855 XOR\n2 1 2677 2682 61854 XOR\n2 1 2676 2681 61853 XOR\n2 1 2675 2680 61852 XOR\n2 1 2674 2679 61851 XOR\n2 1 2673 2678 61850 XOR\n2 1 2672 2677 61849 XOR\n2 1 2671 2676 61848 XOR\n2 1 2670 2675 61847 XOR\n2 1 2669 2674 61846 XOR\n2 1 2668 2673 61845 XOR\n2 1 2667 2672 61844 XOR\n2 1 2666 2671 61843 XOR\n2 1 2665 2670 61842 XOR\n2 1 2664 2669 61841 XOR\n2 1 2663 2668 61840 XOR\n2 1 2662 2667 61839 XOR\n2 1 61870 2680 100917 XOR\n2 1 100917 98869 118598 XOR\n2 1 61869 2679 100916 XOR\n2 1 100916 98868 118597 XOR\n2 1 61868 2678 100915 XOR\n2 1 100915 98867 118596 XOR\n2 1 61867 2677 100914 XOR\n2 1 100914 98866 118595 XOR\n2 1 61866 2676 100913 XOR\n2 1 100913 98865 118594 XOR\n2 1 61865 2675 100912 XOR\n2 1 100912 98864 118593 XOR\n2 1 61864 2674 100911 XOR\n2 1 100911 98863 118592 XOR\n2 1 61863 2673 100910 XOR\n2 1 100910 98862 118591 XOR\n2 1 61862 2672 100909 XOR\n2 1 100909 98861 118590 XOR\n2 1 61861 2671 100908 XOR\n2 1 100908 98860 118589 XOR\n2 1 61860 2670 100907 XOR\n2 1 100907 98859 118588 XOR\n2 1 61859 2669 100906 XOR\n2 1 100906 98858 118587 XOR\n2 1 61858 2668 100905 XOR\n2 1 100905 98857 118586 XOR\n2 1 61857 2667 100904 XOR\n2 1 100904 98856 118585 XOR\n2 1 61856 2666 100903 XOR\n2 1 100903 98855 118584 XOR\n2 1 61855 2665 100902 XOR\n2 1 100902 98854 118583 XOR\n",
"2 1 61854 2664 100901 XOR\n2 1 100901 98853 118582 XOR\n2 1 61853 2663 100900 XOR\n2 1 100900 98852 118581 XOR\n2 1 61852 2662 100899 XOR\n2 1 100899 98851 118580 XOR\n2 1 61851 2661 100898 XOR\n2 1 100898 98850 118579 XOR\n2 1 61850 2660 100897 XOR\n2 1 100897 98849 118578 XOR\n2 1 61849 2659 100896 XOR\n2 1 100896 98848 118577 XOR\n2 1 61848 2658 100895 XOR\n2 1 100895 98847 118576 XOR\n2 1 61847 2657 100894 XOR\n2 1 100894 98846 118575 XOR\n2 1 61846 2656 100893 XOR\n2 1 100893 98845 118574 XOR\n2 1 61845 2687 100892 XOR\n2 1 100892 98844 118573 XOR\n2 1 61844 2686 100891 XOR\n2 1 100891 98843 118572 XOR\n2 1 61843 2685 100890 XOR\n2 1 100890 98842 118571 XOR\n2 1 61842 2684 100889 XOR\n2 1 100889 98841 118570 XOR\n2 1 61841 2683 100888 XOR\n2 1 100888 98840 118569 XOR\n2 1 61840 2682 100887 XOR\n2 1 100887 98839 118568 XOR\n2 1 61839 2681 100886 XOR\n2 1 100886 98838 96790 XOR\n2 1 100886 98838 118537 AND\n2 1 98839 118537 33971 XOR\n2 1 100887 118537 33970 XOR\n2 1 33970 33971 33969 AND\n2 1 33969 118537 118538 XOR\n2 1 118569 118538 96792 XOR\n2 1 98840 118538 33974 XOR\n2 1 118568 118537 96791 XOR\n2 1 100888 118538 33973 XOR\n2 1 33973 33974 33972 AND\n2 1 33972 118538 118539 XOR\n2 1 118570 118539 96793 XOR\n2 1 100889 118539 33976 XOR\n2 1 98841 118539 33977 XOR\n2 1 33976 33977 33975 AND\n2 1 33975 118539 118540 XOR\n2 1 118571 118540 96794 XOR\n2 1 100890 118540 33979 XOR\n2 1 98842 118540 33980 XOR\n2 1 33979 33980 33978 AND\n2 1 33978 118540 118541 XOR\n2 1 100891 118541 33982 XOR\n2 1 118572 118541 96795 XOR\n2 1 98843 118541 33983 XOR\n2 1 33982 33983 33981 AND\n2 1 33981 118541 118542 XOR\n2 1 118573 118542 96796 XOR\n2 1 98844 118542 33986 XOR\n2 1 100892 118542 33985 XOR\n2 1 33985 33986 33984 AND\n2 1 33984 118542 118543 XOR\n2 1 98845 118543 33989 XOR\n2 1 100893 118543 33988 XOR\n2 1 33988 33989 33987 AND\n2 1 33987 118543 118544 XOR\n2 1 118575 118544 96798 XOR\n2 1 98846 118544 33992 XOR\n2 1 118574 118543 96797 XOR\n2 1 100894 118544 33991 XOR\n2 1 33991 33992 33990 AND\n2 1 33990 118544 118545 XOR\n2 1 100895 118545 33994 XOR\n2 1 98847 118545 33995 XOR\n2 1 118576 118545 96799 XOR\n2 1 33994 33995 33993 AND\n2 1 33993 118545 118546 XOR\n2 1 118577 118546 96800 XOR\n2 1 98848 118546 33998 XOR\n2 1 100896 118546 33997 XOR\n2 1 33997 33998 33996 AND\n2 1 33996 118546 118547 XOR\n2 1 118578 118547 96801 XOR\n2 1 98849 118547 34001 XOR\n2 1 100897 118547 34000 XOR\n2 1 34000 34001 33999 AND\n2 1 33999 118547 118548 XOR\n2 1 98850 118548 34004 XOR\n2 1 118579 118548 96802 XOR\n2 1 100898 118548 34003 XOR\n2 1 34003 34004 34002 AND\n2 1 34002 118548 118549 XOR\n2 1 118580 118549 96803 XOR\n2 1 100899 118549 34006 XOR\n2 1 98851 118549 34007 XOR\n2 1 34006 34007 34005 AND\n2 1 34005 118549 118550 XOR\n2 1 118581 118550 96804 XOR\n2 1 100900 118550 34009 XOR\n2 1 98852 118550 34010 XOR\n2 1 34009 34010 34008 AND\n2 1 34008 118550 118551 XOR\n2 1 100901 118551 34012 XOR\n2 1 98853 118551 34013 XOR\n2 1 34012 34013 34011 AND\n2 1 34011 118551 118552 XOR\n2 1 118583 118552 96806 XOR\n2 1 98854 118552 34016 XOR\n2 1 100902 118552 34015 XOR\n2 1 34015 34016 34014 AND\n2 1 34014 118552 118553 XOR\n2 1 118584 118553 96807 XOR\n2 1 98855 118553 34019 XOR\n2 1 100903 118553 34018 XOR\n2 1 34018 34019 34017 AND\n2 1 34017 118553 118554 XOR\n2 1 98856 118554 34022 XOR\n2 1 118585 118554 96808 XOR\n2 1 118582 118551 96805 XOR\n2 1 100904 118554 34021 XOR\n2 1 34021 34022 34020 AND\n2 1 34020 118554 118555 XOR\n2 1 98857 118555 34025 XOR\n2 1 118586 118555 96809 XOR\n2 1 100905 118555 34024 XOR\n2 1 34024 34025 34023 AND\n2 1 34023 118555 118556 XOR\n",
"2 1 118587 118556 96810 XOR\n2 1 98858 118556 34028 XOR\n2 1 100906 118556 34027 XOR\n2 1 34027 34028 34026 AND\n2 1 34026 118556 118557 XOR\n2 1 100907 118557 34030 XOR\n2 1 98859 118557 34031 XOR\n2 1 34030 34031 34029 AND\n2 1 34029 118557 118558 XOR\n2 1 118589 118558 96812 XOR\n2 1 98860 118558 34034 XOR\n2 1 100908 118558 34033 XOR\n2 1 34033 34034 34032 AND\n2 1 34032 118558 118559 XOR\n2 1 118590 118559 96813 XOR\n2 1 98861 118559 34037 XOR\n2 1 100909 118559 34036 XOR\n2 1 34036 34037 34035 AND\n2 1 34035 118559 118560 XOR\n2 1 118591 118560 96814 XOR\n2 1 118588 118557 96811 XOR\n2 1 98862 118560 34040 XOR\n2 1 100910 118560 34039 XOR\n2 1 34039 34040 34038 AND\n2 1 34038 118560 118561 XOR\n2 1 100911 118561 34042 XOR\n2 1 118592 118561 96815 XOR\n2 1 98863 118561 34043 XOR\n2 1 34042 34043 34041 AND\n2 1 34041 118561 118562 XOR\n2 1 118593 118562 96816 XOR\n2 1 100912 118562 34045 XOR\n2 1 98864 118562 34046 XOR\n2 1 34045 34046 34044 AND\n2 1 34044 118562 118563 XOR\n2 1 100913 118563 34048 XOR\n2 1 118594 118563 96817 XOR\n2 1 98865 118563 34049 XOR\n2 1 34048 34049 34047 AND\n2 1 34047 118563 118564 XOR\n2 1 118595 118564 96818 XOR\n2 1 100914 118564 34051 XOR\n2 1 98866 118564 34052 XOR\n2 1 34051 34052 34050 AND\n2 1 34050 118564 118565 XOR\n2 1 100915 118565 34054 XOR\n2 1 118596 118565 96819 XOR\n2 1 98867 118565 34055 XOR\n2 1 34054 34055 34053 AND\n2 1 34053 118565 118566 XOR\n2 1 100916 118566 34057 XOR\n2 1 118597 118566 96820 XOR\n2 1 98868 118566 34058 XOR\n2 1 34057 34058 34056 AND\n2 1 34056 118566 118567 XOR\n2 1 118598 118567 96821 XOR\n2 1 118402 118371 84582 XOR\n2 1 86630 118371 33666 XOR\n2 1 33665 33666 33664 AND\n2 1 33664 118371 118372 XOR\n2 1 86631 118372 33669 XOR\n2 1 118403 118372 84583 XOR\n2 1 88679 118372 33668 XOR\n2 1 33668 33669 33667 AND\n2 1 33667 118372 118373 XOR\n2 1 88680 118373 33671 XOR\n2 1 118404 118373 84584 XOR\n2 1 86632 118373 33672 XOR\n2 1 33671 33672 33670 AND\n2 1 33670 118373 118374 XOR\n2 1 86633 118374 33675 XOR\n2 1 118405 118374 84585 XOR\n2 1 88681 118374 33674 XOR\n2 1 33674 33675 33673 AND\n2 1 33673 118374 118375 XOR\n2 1 118406 118375 84586 XOR\n2 1 88682 118375 33677 XOR\n2 1 86634 118375 33678 XOR\n2 1 33677 33678 33676 AND\n2 1 33676 118375 118376 XOR\n2 1 118407 118376 84587 XOR\n2 1 88683 118376 33680 XOR\n2 1 86635 118376 33681 XOR\n2 1 33680 33681 33679 AND\n2 1 33679 118376 118377 XOR\n2 1 118408 118377 84588 XOR\n2 1 88684 118377 33683 XOR\n2 1 86636 118377 33684 XOR\n2 1 33683 33684 33682 AND\n2 1 33682 118377 118378 XOR\n2 1 118409 118378 84589 XOR\n2 1 88685 118378 33686 XOR\n2 1 86637 118378 33687 XOR\n2 1 33686 33687 33685 AND\n2 1 33685 118378 118379 XOR\n2 1 118410 118379 84590 XOR\n2 1 88686 118379 33689 XOR\n2 1 86638 118379 33690 XOR\n2 1 33689 33690 33688 AND\n2 1 33688 118379 118380 XOR\n2 1 86639 118380 33693 XOR\n2 1 118411 118380 84591 XOR\n2 1 88687 118380 33692 XOR\n2 1 33692 33693 33691 AND\n2 1 33691 118380 118381 XOR\n2 1 118412 118381 84592 XOR\n2 1 76705 76707 81520 XOR\n2 1 81520 76880 132546 XOR\n2 1 76704 76706 81519 XOR\n2 1 81519 76879 132545 XOR\n2 1 76703 76705 81518 XOR\n2 1 81518 76878 132544 XOR\n2 1 76702 76704 81517 XOR\n2 1 81517 76877 132543 XOR\n2 1 76701 76703 81516 XOR\n2 1 81516 76876 132542 XOR\n2 1 76700 76702 81515 XOR\n2 1 81515 76875 132541 XOR\n2 1 76699 76701 81514 XOR\n2 1 81514 76874 132540 XOR\n2 1 76698 76700 81513 XOR\n2 1 81513 76873 132539 XOR\n2 1 76697 76699 81512 XOR\n2 1 81512 76872 132538 XOR\n2 1 76696 76698 81511 XOR\n2 1 81511 76871 132537 XOR\n2 1 76695 76697 6837 XOR\n2 1 76694 76696 6836 XOR\n",
"2 1 76693 76695 6835 XOR\n2 1 76692 76694 6834 XOR\n2 1 76691 76693 6833 XOR\n2 1 76690 76692 6832 XOR\n2 1 76689 76691 6831 XOR\n2 1 76720 76690 6830 XOR\n2 1 76719 76689 6829 XOR\n2 1 76718 76720 6828 XOR\n2 1 76717 76719 6827 XOR\n2 1 76716 76718 6826 XOR\n2 1 76715 76717 6825 XOR\n2 1 76714 76716 6824 XOR\n2 1 76713 76715 6823 XOR\n2 1 76712 76714 6822 XOR\n2 1 76711 76713 6821 XOR\n2 1 76710 76712 6820 XOR\n2 1 76709 76711 6819 XOR\n2 1 76708 76710 6818 XOR\n2 1 76707 76709 6817 XOR\n2 1 76706 76708 6816 XOR\n2 1 6837 76720 81510 XOR\n2 1 81510 76870 132536 XOR\n2 1 6836 76719 81509 XOR\n2 1 81509 76869 132535 XOR\n2 1 6835 76718 81508 XOR\n2 1 81508 76868 132534 XOR\n2 1 6834 76717 81507 XOR\n2 1 81507 76867 132533 XOR\n2 1 6833 76716 81506 XOR\n2 1 81506 76866 132532 XOR\n2 1 6832 76715 81505 XOR\n2 1 81505 76865 132531 XOR\n2 1 6831 76714 81504 XOR\n2 1 81504 76864 132530 XOR\n2 1 6830 76713 81503 XOR\n2 1 81503 76863 132529 XOR\n2 1 6829 76712 81502 XOR\n2 1 81502 76862 132528 XOR\n2 1 6828 76711 81501 XOR\n2 1 81501 76861 132527 XOR\n2 1 6827 76710 81500 XOR\n2 1 81500 76860 132526 XOR\n2 1 6826 76709 81499 XOR\n2 1 81499 76859 132525 XOR\n2 1 6825 76708 81498 XOR\n2 1 81498 76858 132524 XOR\n2 1 6824 76707 81497 XOR\n2 1 81497 76857 132523 XOR\n2 1 6823 76706 81496 XOR\n2 1 81496 76856 132522 XOR\n2 1 6822 76705 81495 XOR\n2 1 81495 76855 132521 XOR\n2 1 6821 76704 81494 XOR\n2 1 81494 76854 132520 XOR\n2 1 6820 76703 81493 XOR\n2 1 81493 76853 132519 XOR\n2 1 6819 76702 81492 XOR\n2 1 81492 76852 132518 XOR\n2 1 6818 76701 81491 XOR\n2 1 81491 76851 132517 XOR\n2 1 6817 76700 81490 XOR\n2 1 81490 76850 132516 XOR\n2 1 6816 76699 81489 XOR\n2 1 81489 76849 132485 AND\n2 1 81489 76849 79953 XOR\n2 1 132516 132485 79954 XOR\n2 1 81490 132485 56766 XOR\n2 1 76850 132485 56767 XOR\n2 1 56766 56767 56765 AND\n2 1 56765 132485 132486 XOR\n2 1 132517 132486 79955 XOR\n2 1 81491 132486 56769 XOR\n2 1 76851 132486 56770 XOR\n2 1 56769 56770 56768 AND\n2 1 56768 132486 132487 XOR\n2 1 132518 132487 79956 XOR\n2 1 81492 132487 56772 XOR\n2 1 76852 132487 56773 XOR\n2 1 56772 56773 56771 AND\n2 1 56771 132487 132488 XOR\n2 1 132519 132488 79957 XOR\n2 1 81493 132488 56775 XOR\n2 1 76853 132488 56776 XOR\n2 1 56775 56776 56774 AND\n2 1 56774 132488 132489 XOR\n2 1 132520 132489 79958 XOR\n2 1 81494 132489 56778 XOR\n2 1 76854 132489 56779 XOR\n2 1 56778 56779 56777 AND\n2 1 56777 132489 132490 XOR\n2 1 132521 132490 79959 XOR\n2 1 81495 132490 56781 XOR\n2 1 76855 132490 56782 XOR\n2 1 56781 56782 56780 AND\n2 1 56780 132490 132491 XOR\n2 1 132522 132491 79960 XOR\n2 1 81496 132491 56784 XOR\n2 1 76856 132491 56785 XOR\n2 1 56784 56785 56783 AND\n2 1 56783 132491 132492 XOR\n2 1 132523 132492 79961 XOR\n2 1 81497 132492 56787 XOR\n2 1 76857 132492 56788 XOR\n2 1 56787 56788 56786 AND\n2 1 56786 132492 132493 XOR\n2 1 132524 132493 79962 XOR\n2 1 81498 132493 56790 XOR\n2 1 76858 132493 56791 XOR\n2 1 56790 56791 56789 AND\n2 1 56789 132493 132494 XOR\n2 1 132525 132494 79963 XOR\n2 1 81499 132494 56793 XOR\n2 1 76859 132494 56794 XOR\n2 1 56793 56794 56792 AND\n2 1 56792 132494 132495 XOR\n2 1 132526 132495 79964 XOR\n2 1 81500 132495 56796 XOR\n2 1 76860 132495 56797 XOR\n2 1 56796 56797 56795 AND\n2 1 56795 132495 132496 XOR\n2 1 132527 132496 79965 XOR\n2 1 81501 132496 56799 XOR\n2 1 76861 132496 56800 XOR\n2 1 56799 56800 56798 AND\n2 1 56798 132496 132497 XOR\n2 1 132528 132497 79966 XOR\n2 1 81502 132497 56802 XOR\n2 1 76862 132497 56803 XOR\n",
"2 1 56802 56803 56801 AND\n2 1 56801 132497 132498 XOR\n2 1 132529 132498 79967 XOR\n2 1 81503 132498 56805 XOR\n2 1 76863 132498 56806 XOR\n2 1 56805 56806 56804 AND\n2 1 56804 132498 132499 XOR\n2 1 132530 132499 79968 XOR\n2 1 81504 132499 56808 XOR\n2 1 76864 132499 56809 XOR\n2 1 56808 56809 56807 AND\n2 1 56807 132499 132500 XOR\n2 1 132531 132500 79969 XOR\n2 1 81505 132500 56811 XOR\n2 1 76865 132500 56812 XOR\n2 1 56811 56812 56810 AND\n2 1 56810 132500 132501 XOR\n2 1 132532 132501 79970 XOR\n2 1 81506 132501 56814 XOR\n2 1 76866 132501 56815 XOR\n2 1 56814 56815 56813 AND\n2 1 56813 132501 132502 XOR\n2 1 132533 132502 79971 XOR\n2 1 81507 132502 56817 XOR\n2 1 76867 132502 56818 XOR\n2 1 56817 56818 56816 AND\n2 1 56816 132502 132503 XOR\n2 1 132534 132503 79972 XOR\n2 1 81508 132503 56820 XOR\n2 1 76868 132503 56821 XOR\n2 1 56820 56821 56819 AND\n2 1 56819 132503 132504 XOR\n2 1 132535 132504 79973 XOR\n2 1 81509 132504 56823 XOR\n2 1 76869 132504 56824 XOR\n2 1 56823 56824 56822 AND\n2 1 56822 132504 132505 XOR\n2 1 132536 132505 79974 XOR\n2 1 81510 132505 56826 XOR\n2 1 76870 132505 56827 XOR\n2 1 56826 56827 56825 AND\n2 1 56825 132505 132506 XOR\n2 1 132537 132506 79975 XOR\n2 1 81511 132506 56829 XOR\n2 1 76871 132506 56830 XOR\n2 1 56829 56830 56828 AND\n2 1 56828 132506 132507 XOR\n2 1 132538 132507 79976 XOR\n2 1 81512 132507 56832 XOR\n2 1 76872 132507 56833 XOR\n2 1 56832 56833 56831 AND\n2 1 56831 132507 132508 XOR\n2 1 132539 132508 79977 XOR\n2 1 81513 132508 56835 XOR\n2 1 76873 132508 56836 XOR\n2 1 56835 56836 56834 AND\n2 1 56834 132508 132509 XOR\n2 1 132540 132509 79978 XOR\n2 1 81514 132509 56838 XOR\n2 1 76874 132509 56839 XOR\n2 1 56838 56839 56837 AND\n2 1 56837 132509 132510 XOR\n2 1 132541 132510 79979 XOR\n2 1 81515 132510 56841 XOR\n2 1 76875 132510 56842 XOR\n2 1 56841 56842 56840 AND\n2 1 56840 132510 132511 XOR\n2 1 132542 132511 79980 XOR\n2 1 81516 132511 56844 XOR\n2 1 76876 132511 56845 XOR\n2 1 56844 56845 56843 AND\n2 1 56843 132511 132512 XOR\n2 1 132543 132512 79981 XOR\n2 1 81517 132512 56847 XOR\n2 1 76877 132512 56848 XOR\n2 1 56847 56848 56846 AND\n2 1 56846 132512 132513 XOR\n2 1 132544 132513 79982 XOR\n2 1 81518 132513 56850 XOR\n2 1 76878 132513 56851 XOR\n2 1 56850 56851 56849 AND\n2 1 56849 132513 132514 XOR\n2 1 132545 132514 79983 XOR\n2 1 81519 132514 56853 XOR\n2 1 76879 132514 56854 XOR\n2 1 56853 56854 56852 AND\n2 1 56852 132514 132515 XOR\n2 1 132546 132515 79984 XOR\n2 1 76673 76675 81488 XOR\n2 1 81488 76848 132360 XOR\n2 1 76672 76674 81487 XOR\n2 1 81487 76847 132359 XOR\n2 1 76671 76673 81486 XOR\n2 1 81486 76846 132358 XOR\n2 1 76670 76672 81485 XOR\n2 1 81485 76845 132357 XOR\n2 1 76669 76671 81484 XOR\n2 1 81484 76844 132356 XOR\n2 1 76668 76670 81483 XOR\n2 1 81483 76843 132355 XOR\n2 1 76667 76669 81482 XOR\n2 1 81482 76842 132354 XOR\n2 1 76666 76668 81481 XOR\n2 1 81481 76841 132353 XOR\n2 1 76665 76667 81480 XOR\n2 1 81480 76840 132352 XOR\n2 1 76664 76666 81479 XOR\n2 1 81479 76839 132351 XOR\n2 1 76663 76665 6815 XOR\n2 1 76662 76664 6814 XOR\n2 1 76661 76663 6813 XOR\n2 1 76660 76662 6812 XOR\n2 1 76659 76661 6811 XOR\n2 1 76658 76660 6810 XOR\n2 1 76657 76659 6809 XOR\n2 1 76688 76658 6808 XOR\n2 1 76687 76657 6807 XOR\n2 1 76686 76688 6806 XOR\n2 1 76685 76687 6805 XOR\n2 1 76684 76686 6804 XOR\n2 1 76683 76685 6803 XOR\n2 1 76682 76684 6802 XOR\n2 1 76681 76683 6801 XOR\n2 1 76680 76682 6800 XOR\n2 1 76679 76681 6799 XOR\n2 1 76678 76680 6798 XOR\n2 1 76677 76679 6797 XOR\n2 1 76676 76678 6796 XOR\n",
"2 1 76675 76677 6795 XOR\n2 1 76674 76676 6794 XOR\n2 1 6815 76688 81478 XOR\n2 1 81478 76838 132350 XOR\n2 1 6814 76687 81477 XOR\n2 1 81477 76837 132349 XOR\n2 1 6813 76686 81476 XOR\n2 1 81476 76836 132348 XOR\n2 1 6812 76685 81475 XOR\n2 1 81475 76835 132347 XOR\n2 1 6811 76684 81474 XOR\n2 1 81474 76834 132346 XOR\n2 1 6810 76683 81473 XOR\n2 1 81473 76833 132345 XOR\n2 1 6809 76682 81472 XOR\n2 1 81472 76832 132344 XOR\n2 1 6808 76681 81471 XOR\n2 1 81471 76831 132343 XOR\n2 1 6807 76680 81470 XOR\n2 1 81470 76830 132342 XOR\n2 1 6806 76679 81469 XOR\n2 1 81469 76829 132341 XOR\n2 1 6805 76678 81468 XOR\n2 1 81468 76828 132340 XOR\n2 1 6804 76677 81467 XOR\n2 1 81467 76827 132339 XOR\n2 1 6803 76676 81466 XOR\n2 1 81466 76826 132338 XOR\n2 1 6802 76675 81465 XOR\n2 1 81465 76825 132337 XOR\n2 1 6801 76674 81464 XOR\n2 1 81464 76824 132336 XOR\n2 1 6800 76673 81463 XOR\n2 1 81463 76823 132335 XOR\n2 1 6799 76672 81462 XOR\n2 1 81462 76822 132334 XOR\n2 1 6798 76671 81461 XOR\n2 1 81461 76821 132333 XOR\n2 1 6797 76670 81460 XOR\n2 1 81460 76820 132332 XOR\n2 1 6796 76669 81459 XOR\n2 1 81459 76819 132331 XOR\n2 1 6795 76668 81458 XOR\n2 1 81458 76818 132330 XOR\n2 1 6794 76667 81457 XOR\n2 1 81457 76817 132299 AND\n2 1 81457 76817 79921 XOR\n2 1 79921 78385 132175 AND\n2 1 79921 78385 76593 XOR\n2 1 76593 3232 94710 XOR\n2 1 78386 132175 56317 XOR\n2 1 132330 132299 79922 XOR\n2 1 79922 78386 132206 XOR\n2 1 132206 132175 76594 XOR\n2 1 79922 132175 56316 XOR\n2 1 56316 56317 56315 AND\n2 1 56315 132175 132176 XOR\n2 1 78387 132176 56320 XOR\n2 1 81458 132299 56496 XOR\n2 1 76818 132299 56497 XOR\n2 1 56496 56497 56495 AND\n2 1 56495 132299 132300 XOR\n2 1 132331 132300 79923 XOR\n2 1 79923 78387 132207 XOR\n2 1 132207 132176 76595 XOR\n2 1 76595 3234 118259 XOR\n2 1 79923 132176 56319 XOR\n2 1 56319 56320 56318 AND\n2 1 56318 132176 132177 XOR\n2 1 78388 132177 56323 XOR\n2 1 81459 132300 56499 XOR\n2 1 76819 132300 56500 XOR\n2 1 56499 56500 56498 AND\n2 1 56498 132300 132301 XOR\n2 1 132332 132301 79924 XOR\n2 1 79924 78388 132208 XOR\n2 1 132208 132177 76596 XOR\n2 1 79924 132177 56322 XOR\n2 1 56322 56323 56321 AND\n2 1 56321 132177 132178 XOR\n2 1 78389 132178 56326 XOR\n2 1 81460 132301 56502 XOR\n2 1 76820 132301 56503 XOR\n2 1 56502 56503 56501 AND\n2 1 56501 132301 132302 XOR\n2 1 132333 132302 79925 XOR\n2 1 79925 78389 132209 XOR\n2 1 132209 132178 76597 XOR\n2 1 79925 132178 56325 XOR\n2 1 56325 56326 56324 AND\n2 1 56324 132178 132179 XOR\n2 1 78390 132179 56329 XOR\n2 1 81461 132302 56505 XOR\n2 1 76821 132302 56506 XOR\n2 1 56505 56506 56504 AND\n2 1 56504 132302 132303 XOR\n2 1 132334 132303 79926 XOR\n2 1 79926 78390 132210 XOR\n2 1 132210 132179 76598 XOR\n2 1 79926 132179 56328 XOR\n2 1 56328 56329 56327 AND\n2 1 56327 132179 132180 XOR\n2 1 78391 132180 56332 XOR\n2 1 81462 132303 56508 XOR\n2 1 76822 132303 56509 XOR\n2 1 56508 56509 56507 AND\n2 1 56507 132303 132304 XOR\n2 1 132335 132304 79927 XOR\n2 1 79927 78391 132211 XOR\n2 1 132211 132180 76599 XOR\n2 1 79927 132180 56331 XOR\n2 1 56331 56332 56330 AND\n2 1 56330 132180 132181 XOR\n2 1 78392 132181 56335 XOR\n2 1 81463 132304 56511 XOR\n2 1 76823 132304 56512 XOR\n2 1 56511 56512 56510 AND\n2 1 56510 132304 132305 XOR\n2 1 132336 132305 79928 XOR\n2 1 79928 78392 132212 XOR\n2 1 132212 132181 76600 XOR\n2 1 79928 132181 56334 XOR\n2 1 56334 56335 56333 AND\n2 1 56333 132181 132182 XOR\n2 1 78393 132182 56338 XOR\n2 1 81464 132305 56514 XOR\n2 1 76824 132305 56515 XOR\n2 1 56514 56515 56513 AND\n",
"2 1 56513 132305 132306 XOR\n2 1 132337 132306 79929 XOR\n2 1 79929 78393 132213 XOR\n2 1 132213 132182 76601 XOR\n2 1 79929 132182 56337 XOR\n2 1 56337 56338 56336 AND\n2 1 56336 132182 132183 XOR\n2 1 78394 132183 56341 XOR\n2 1 81465 132306 56517 XOR\n2 1 76825 132306 56518 XOR\n2 1 56517 56518 56516 AND\n2 1 56516 132306 132307 XOR\n2 1 132338 132307 79930 XOR\n2 1 79930 78394 132214 XOR\n2 1 132214 132183 76602 XOR\n2 1 79930 132183 56340 XOR\n2 1 56340 56341 56339 AND\n2 1 56339 132183 132184 XOR\n2 1 78395 132184 56344 XOR\n2 1 81466 132307 56520 XOR\n2 1 76826 132307 56521 XOR\n2 1 56520 56521 56519 AND\n2 1 56519 132307 132308 XOR\n2 1 132339 132308 79931 XOR\n2 1 79931 78395 132215 XOR\n2 1 132215 132184 76603 XOR\n2 1 76603 3242 118267 XOR\n2 1 79931 132184 56343 XOR\n2 1 56343 56344 56342 AND\n2 1 56342 132184 132185 XOR\n2 1 78396 132185 56347 XOR\n2 1 81467 132308 56523 XOR\n2 1 76827 132308 56524 XOR\n2 1 56523 56524 56522 AND\n2 1 56522 132308 132309 XOR\n2 1 132340 132309 79932 XOR\n2 1 79932 78396 132216 XOR\n2 1 132216 132185 76604 XOR\n2 1 76604 3243 118268 XOR\n2 1 79932 132185 56346 XOR\n2 1 56346 56347 56345 AND\n2 1 56345 132185 132186 XOR\n2 1 78397 132186 56350 XOR\n2 1 81468 132309 56526 XOR\n2 1 76828 132309 56527 XOR\n2 1 56526 56527 56525 AND\n2 1 56525 132309 132310 XOR\n2 1 132341 132310 79933 XOR\n2 1 79933 78397 132217 XOR\n2 1 132217 132186 76605 XOR\n2 1 76605 3244 118269 XOR\n2 1 79933 132186 56349 XOR\n2 1 56349 56350 56348 AND\n2 1 56348 132186 132187 XOR\n2 1 78398 132187 56353 XOR\n2 1 81469 132310 56529 XOR\n2 1 76829 132310 56530 XOR\n2 1 56529 56530 56528 AND\n2 1 56528 132310 132311 XOR\n2 1 132342 132311 79934 XOR\n2 1 79934 78398 132218 XOR\n2 1 132218 132187 76606 XOR\n2 1 79934 132187 56352 XOR\n2 1 56352 56353 56351 AND\n2 1 56351 132187 132188 XOR\n2 1 78399 132188 56356 XOR\n2 1 81470 132311 56532 XOR\n2 1 76830 132311 56533 XOR\n2 1 56532 56533 56531 AND\n2 1 56531 132311 132312 XOR\n2 1 132343 132312 79935 XOR\n2 1 79935 78399 132219 XOR\n2 1 132219 132188 76607 XOR\n2 1 79935 132188 56355 XOR\n2 1 56355 56356 56354 AND\n2 1 56354 132188 132189 XOR\n2 1 78400 132189 56359 XOR\n2 1 81471 132312 56535 XOR\n2 1 76831 132312 56536 XOR\n2 1 56535 56536 56534 AND\n2 1 56534 132312 132313 XOR\n2 1 132344 132313 79936 XOR\n2 1 79936 78400 132220 XOR\n2 1 132220 132189 76608 XOR\n2 1 79936 132189 56358 XOR\n2 1 56358 56359 56357 AND\n2 1 56357 132189 132190 XOR\n2 1 78401 132190 56362 XOR\n2 1 81472 132313 56538 XOR\n2 1 76832 132313 56539 XOR\n2 1 56538 56539 56537 AND\n2 1 56537 132313 132314 XOR\n2 1 132345 132314 79937 XOR\n2 1 79937 78401 132221 XOR\n2 1 132221 132190 76609 XOR\n2 1 79937 132190 56361 XOR\n2 1 56361 56362 56360 AND\n2 1 56360 132190 132191 XOR\n2 1 78402 132191 56365 XOR\n2 1 81473 132314 56541 XOR\n2 1 76833 132314 56542 XOR\n2 1 56541 56542 56540 AND\n2 1 56540 132314 132315 XOR\n2 1 132346 132315 79938 XOR\n2 1 79938 78402 132222 XOR\n2 1 132222 132191 76610 XOR\n2 1 79938 132191 56364 XOR\n2 1 56364 56365 56363 AND\n2 1 56363 132191 132192 XOR\n2 1 78403 132192 56368 XOR\n2 1 81474 132315 56544 XOR\n2 1 76834 132315 56545 XOR\n2 1 56544 56545 56543 AND\n2 1 56543 132315 132316 XOR\n2 1 132347 132316 79939 XOR\n2 1 79939 78403 132223 XOR\n2 1 132223 132192 76611 XOR\n2 1 76611 3250 118275 XOR\n2 1 79939 132192 56367 XOR\n2 1 56367 56368 56366 AND\n2 1 56366 132192 132193 XOR\n2 1 78404 132193 56371 XOR\n2 1 81475 132316 56547 XOR\n2 1 76835 132316 56548 XOR\n2 1 56547 56548 56546 AND\n2 1 56546 132316 132317 XOR\n2 1 132348 132317 79940 XOR\n2 1 79940 78404 132224 XOR\n",
"2 1 132224 132193 76612 XOR\n2 1 79940 132193 56370 XOR\n2 1 56370 56371 56369 AND\n2 1 56369 132193 132194 XOR\n2 1 78405 132194 56374 XOR\n2 1 81476 132317 56550 XOR\n2 1 76836 132317 56551 XOR\n2 1 56550 56551 56549 AND\n2 1 56549 132317 132318 XOR\n2 1 132349 132318 79941 XOR\n2 1 79941 78405 132225 XOR\n2 1 132225 132194 76613 XOR\n2 1 79941 132194 56373 XOR\n2 1 56373 56374 56372 AND\n2 1 56372 132194 132195 XOR\n2 1 78406 132195 56377 XOR\n2 1 81477 132318 56553 XOR\n2 1 76837 132318 56554 XOR\n2 1 56553 56554 56552 AND\n2 1 56552 132318 132319 XOR\n2 1 132350 132319 79942 XOR\n2 1 79942 78406 132226 XOR\n2 1 132226 132195 76614 XOR\n2 1 79942 132195 56376 XOR\n2 1 56376 56377 56375 AND\n2 1 56375 132195 132196 XOR\n2 1 78407 132196 56380 XOR\n2 1 81478 132319 56556 XOR\n2 1 76838 132319 56557 XOR\n2 1 56556 56557 56555 AND\n2 1 56555 132319 132320 XOR\n2 1 132351 132320 79943 XOR\n2 1 79943 78407 132227 XOR\n2 1 132227 132196 76615 XOR\n2 1 79943 132196 56379 XOR\n2 1 56379 56380 56378 AND\n2 1 56378 132196 132197 XOR\n2 1 78408 132197 56383 XOR\n2 1 81479 132320 56559 XOR\n2 1 76839 132320 56560 XOR\n2 1 56559 56560 56558 AND\n2 1 56558 132320 132321 XOR\n2 1 132352 132321 79944 XOR\n2 1 79944 78408 132228 XOR\n2 1 132228 132197 76616 XOR\n2 1 79944 132197 56382 XOR\n2 1 56382 56383 56381 AND\n2 1 56381 132197 132198 XOR\n2 1 78409 132198 56386 XOR\n2 1 81480 132321 56562 XOR\n2 1 76840 132321 56563 XOR\n2 1 56562 56563 56561 AND\n2 1 56561 132321 132322 XOR\n2 1 132353 132322 79945 XOR\n2 1 79945 78409 132229 XOR\n2 1 132229 132198 76617 XOR\n2 1 79945 132198 56385 XOR\n2 1 56385 56386 56384 AND\n2 1 56384 132198 132199 XOR\n2 1 78410 132199 56389 XOR\n2 1 81481 132322 56565 XOR\n2 1 76841 132322 56566 XOR\n2 1 56565 56566 56564 AND\n2 1 56564 132322 132323 XOR\n2 1 132354 132323 79946 XOR\n2 1 79946 78410 132230 XOR\n2 1 132230 132199 76618 XOR\n2 1 79946 132199 56388 XOR\n2 1 56388 56389 56387 AND\n2 1 56387 132199 132200 XOR\n2 1 78411 132200 56392 XOR\n2 1 81482 132323 56568 XOR\n2 1 76842 132323 56569 XOR\n2 1 56568 56569 56567 AND\n2 1 56567 132323 132324 XOR\n2 1 132355 132324 79947 XOR\n2 1 79947 78411 132231 XOR\n2 1 132231 132200 76619 XOR\n2 1 79947 132200 56391 XOR\n2 1 56391 56392 56390 AND\n2 1 56390 132200 132201 XOR\n2 1 78412 132201 56395 XOR\n2 1 81483 132324 56571 XOR\n2 1 76843 132324 56572 XOR\n2 1 56571 56572 56570 AND\n2 1 56570 132324 132325 XOR\n2 1 132356 132325 79948 XOR\n2 1 79948 78412 132232 XOR\n2 1 132232 132201 76620 XOR\n2 1 79948 132201 56394 XOR\n2 1 56394 56395 56393 AND\n2 1 56393 132201 132202 XOR\n2 1 78413 132202 56398 XOR\n2 1 81484 132325 56574 XOR\n2 1 76844 132325 56575 XOR\n2 1 56574 56575 56573 AND\n2 1 56573 132325 132326 XOR\n2 1 132357 132326 79949 XOR\n2 1 79949 78413 132233 XOR\n2 1 132233 132202 76621 XOR\n2 1 79949 132202 56397 XOR\n2 1 56397 56398 56396 AND\n2 1 56396 132202 132203 XOR\n2 1 78414 132203 56401 XOR\n2 1 81485 132326 56577 XOR\n2 1 76845 132326 56578 XOR\n2 1 56577 56578 56576 AND\n2 1 56576 132326 132327 XOR\n2 1 132358 132327 79950 XOR\n2 1 79950 78414 132234 XOR\n2 1 132234 132203 76622 XOR\n2 1 79950 132203 56400 XOR\n2 1 56400 56401 56399 AND\n2 1 56399 132203 132204 XOR\n2 1 78415 132204 56404 XOR\n2 1 81486 132327 56580 XOR\n2 1 76846 132327 56581 XOR\n2 1 56580 56581 56579 AND\n2 1 56579 132327 132328 XOR\n2 1 132359 132328 79951 XOR\n2 1 79951 78415 132235 XOR\n2 1 132235 132204 76623 XOR\n2 1 79951 132204 56403 XOR\n2 1 56403 56404 56402 AND\n2 1 56402 132204 132205 XOR\n2 1 81487 132328 56583 XOR\n2 1 76847 132328 56584 XOR\n2 1 56583 56584 56582 AND\n"]

end Verif.Data
