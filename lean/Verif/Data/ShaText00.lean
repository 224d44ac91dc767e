/-!
# Text of `data/circ/sha256.txt`, part 1 of 11

Generated by `tools/gen_circuits.py`.
-/

namespace Verif.Data

/-- The first four lines of `data/circ/sha256.txt`. -/
def shaHead : String := "135073 135841\n2 512 256 \n1 256 \n\n"

/-- What follows the last gate of `data/circ/sha256.txt`. -/
def shaTail : String := "\n\n"

/-- Lines 5-12292 of `data/circ/sha256.txt`, 128 per string. -/
def shaBlocks00 : List String := [
"2 1 416 576 125751 AND\n2 1 416 576 95670 XOR\n2 1 417 577 125782 XOR\n2 1 418 578 125783 XOR\n2 1 419 579 125784 XOR\n2 1 420 580 125785 XOR\n2 1 421 581 125786 XOR\n2 1 422 582 125787 XOR\n2 1 423 583 125788 XOR\n2 1 424 584 125789 XOR\n2 1 425 585 125790 XOR\n2 1 426 586 125791 XOR\n2 1 427 587 125792 XOR\n2 1 428 588 125793 XOR\n2 1 429 589 125794 XOR\n2 1 430 590 125795 XOR\n2 1 431 591 125796 XOR\n2 1 432 592 125797 XOR\n2 1 433 593 125798 XOR\n2 1 434 594 125799 XOR\n2 1 435 595 125800 XOR\n2 1 436 596 125801 XOR\n2 1 437 597 125802 XOR\n2 1 438 598 125803 XOR\n2 1 439 599 125804 XOR\n2 1 440 600 125805 XOR\n2 1 441 601 125806 XOR\n2 1 442 602 125807 XOR\n2 1 443 603 125808 XOR\n2 1 444 604 125809 XOR\n2 1 445 605 125810 XOR\n2 1 446 606 125811 XOR\n2 1 447 607 125812 XOR\n2 1 125782 125751 95671 XOR\n2 1 417 125751 46896 XOR\n2 1 577 125751 46897 XOR\n2 1 46896 46897 46895 AND\n2 1 46895 125751 125752 XOR\n2 1 125783 125752 95672 XOR\n2 1 418 125752 46899 XOR\n2 1 578 125752 46900 XOR\n2 1 46899 46900 46898 AND\n2 1 46898 125752 125753 XOR\n2 1 125784 125753 95673 XOR\n2 1 419 125753 46902 XOR\n2 1 579 125753 46903 XOR\n2 1 46902 46903 46901 AND\n2 1 46901 125753 125754 XOR\n2 1 125785 125754 95674 XOR\n2 1 420 125754 46905 XOR\n2 1 580 125754 46906 XOR\n2 1 46905 46906 46904 AND\n2 1 46904 125754 125755 XOR\n2 1 125786 125755 95675 XOR\n2 1 421 125755 46908 XOR\n2 1 581 125755 46909 XOR\n2 1 46908 46909 46907 AND\n2 1 46907 125755 125756 XOR\n2 1 125787 125756 95676 XOR\n2 1 422 125756 46911 XOR\n2 1 582 125756 46912 XOR\n2 1 46911 46912 46910 AND\n2 1 46910 125756 125757 XOR\n2 1 125788 125757 95677 XOR\n2 1 423 125757 46914 XOR\n2 1 583 125757 46915 XOR\n2 1 46914 46915 46913 AND\n2 1 46913 125757 125758 XOR\n2 1 125789 125758 95678 XOR\n2 1 424 125758 46917 XOR\n2 1 584 125758 46918 XOR\n2 1 46917 46918 46916 AND\n2 1 46916 125758 125759 XOR\n2 1 125790 125759 95679 XOR\n2 1 425 125759 46920 XOR\n2 1 585 125759 46921 XOR\n2 1 46920 46921 46919 AND\n2 1 46919 125759 125760 XOR\n2 1 125791 125760 95680 XOR\n2 1 426 125760 46923 XOR\n2 1 586 125760 46924 XOR\n2 1 46923 46924 46922 AND\n2 1 46922 125760 125761 XOR\n2 1 125792 125761 95681 XOR\n2 1 427 125761 46926 XOR\n2 1 587 125761 46927 XOR\n2 1 46926 46927 46925 AND\n2 1 46925 125761 125762 XOR\n2 1 125793 125762 95682 XOR\n2 1 428 125762 46929 XOR\n2 1 588 125762 46930 XOR\n2 1 46929 46930 46928 AND\n2 1 46928 125762 125763 XOR\n2 1 125794 125763 95683 XOR\n2 1 429 125763 46932 XOR\n2 1 589 125763 46933 XOR\n2 1 46932 46933 46931 AND\n2 1 46931 125763 125764 XOR\n2 1 125795 125764 95684 XOR\n2 1 430 125764 46935 XOR\n2 1 590 125764 46936 XOR\n2 1 46935 46936 46934 AND\n2 1 46934 125764 125765 XOR\n2 1 125796 125765 95685 XOR\n2 1 431 125765 46938 XOR\n2 1 591 125765 46939 XOR\n2 1 46938 46939 46937 AND\n2 1 46937 125765 125766 XOR\n2 1 125797 125766 95686 XOR\n2 1 432 125766 46941 XOR\n2 1 592 125766 46942 XOR\n2 1 46941 46942 46940 AND\n2 1 46940 125766 125767 XOR\n2 1 125798 125767 95687 XOR\n2 1 433 125767 46944 XOR\n2 1 593 125767 46945 XOR\n2 1 46944 46945 46943 AND\n2 1 46943 125767 125768 XOR\n2 1 125799 125768 95688 XOR\n2 1 434 125768 46947 XOR\n2 1 594 125768 46948 XOR\n2 1 46947 46948 46946 AND\n2 1 46946 125768 125769 XOR\n2 1 125800 125769 95689 XOR\n2 1 435 125769 46950 XOR\n2 1 595 125769 46951 XOR\n2 1 46950 46951 46949 AND\n2 1 46949 125769 125770 XOR\n",
"2 1 125801 125770 95690 XOR\n2 1 436 125770 46953 XOR\n2 1 596 125770 46954 XOR\n2 1 46953 46954 46952 AND\n2 1 46952 125770 125771 XOR\n2 1 125802 125771 95691 XOR\n2 1 437 125771 46956 XOR\n2 1 597 125771 46957 XOR\n2 1 46956 46957 46955 AND\n2 1 46955 125771 125772 XOR\n2 1 125803 125772 95692 XOR\n2 1 438 125772 46959 XOR\n2 1 598 125772 46960 XOR\n2 1 46959 46960 46958 AND\n2 1 46958 125772 125773 XOR\n2 1 125804 125773 95693 XOR\n2 1 439 125773 46962 XOR\n2 1 599 125773 46963 XOR\n2 1 46962 46963 46961 AND\n2 1 46961 125773 125774 XOR\n2 1 125805 125774 95694 XOR\n2 1 440 125774 46965 XOR\n2 1 600 125774 46966 XOR\n2 1 46965 46966 46964 AND\n2 1 46964 125774 125775 XOR\n2 1 125806 125775 95695 XOR\n2 1 441 125775 46968 XOR\n2 1 601 125775 46969 XOR\n2 1 46968 46969 46967 AND\n2 1 46967 125775 125776 XOR\n2 1 125807 125776 95696 XOR\n2 1 442 125776 46971 XOR\n2 1 602 125776 46972 XOR\n2 1 46971 46972 46970 AND\n2 1 46970 125776 125777 XOR\n2 1 125808 125777 95697 XOR\n2 1 443 125777 46974 XOR\n2 1 603 125777 46975 XOR\n2 1 46974 46975 46973 AND\n2 1 46973 125777 125778 XOR\n2 1 125809 125778 95698 XOR\n2 1 444 125778 46977 XOR\n2 1 604 125778 46978 XOR\n2 1 46977 46978 46976 AND\n2 1 46976 125778 125779 XOR\n2 1 125810 125779 95699 XOR\n2 1 445 125779 46980 XOR\n2 1 605 125779 46981 XOR\n2 1 46980 46981 46979 AND\n2 1 46979 125779 125780 XOR\n2 1 125811 125780 95700 XOR\n2 1 446 125780 46983 XOR\n2 1 606 125780 46984 XOR\n2 1 46983 46984 46982 AND\n2 1 46982 125780 125781 XOR\n2 1 125812 125781 95701 XOR\n2 1 448 544 126013 AND\n2 1 448 544 95702 XOR\n2 1 449 545 126044 XOR\n2 1 450 546 126045 XOR\n2 1 451 547 126046 XOR\n2 1 452 548 126047 XOR\n2 1 453 549 126048 XOR\n2 1 454 550 126049 XOR\n2 1 455 551 126050 XOR\n2 1 456 552 126051 XOR\n2 1 457 553 126052 XOR\n2 1 458 554 126053 XOR\n2 1 459 555 126054 XOR\n2 1 460 556 126055 XOR\n2 1 461 557 126056 XOR\n2 1 462 558 126057 XOR\n2 1 463 559 126058 XOR\n2 1 464 560 126059 XOR\n2 1 465 561 126060 XOR\n2 1 466 562 126061 XOR\n2 1 467 563 126062 XOR\n2 1 468 564 126063 XOR\n2 1 469 565 126064 XOR\n2 1 470 566 126065 XOR\n2 1 471 567 126066 XOR\n2 1 472 568 126067 XOR\n2 1 473 569 126068 XOR\n2 1 474 570 126069 XOR\n2 1 475 571 126070 XOR\n2 1 476 572 126071 XOR\n2 1 477 573 126072 XOR\n2 1 478 574 126073 XOR\n2 1 479 575 126074 XOR\n2 1 126044 126013 95703 XOR\n2 1 449 126013 47341 XOR\n2 1 545 126013 47342 XOR\n2 1 47341 47342 47340 AND\n2 1 47340 126013 126014 XOR\n2 1 126045 126014 95704 XOR\n2 1 450 126014 47344 XOR\n2 1 546 126014 47345 XOR\n2 1 47344 47345 47343 AND\n2 1 47343 126014 126015 XOR\n2 1 126046 126015 95705 XOR\n2 1 451 126015 47347 XOR\n2 1 547 126015 47348 XOR\n2 1 47347 47348 47346 AND\n2 1 47346 126015 126016 XOR\n2 1 126047 126016 95706 XOR\n2 1 452 126016 47350 XOR\n2 1 548 126016 47351 XOR\n2 1 47350 47351 47349 AND\n2 1 47349 126016 126017 XOR\n2 1 126048 126017 95707 XOR\n2 1 453 126017 47353 XOR\n2 1 549 126017 47354 XOR\n2 1 47353 47354 47352 AND\n2 1 47352 126017 126018 XOR\n2 1 126049 126018 95708 XOR\n2 1 454 126018 47356 XOR\n2 1 550 126018 47357 XOR\n2 1 47356 47357 47355 AND\n2 1 47355 126018 126019 XOR\n2 1 126050 126019 95709 XOR\n2 1 455 126019 47359 XOR\n2 1 551 126019 47360 XOR\n2 1 47359 47360 47358 AND\n2 1 47358 126019 126020 XOR\n2 1 126051 126020 95710 XOR\n2 1 456 126020 47362 XOR\n2 1 552 126020 47363 XOR\n2 1 47362 47363 47361 AND\n",
"2 1 47361 126020 126021 XOR\n2 1 126052 126021 95711 XOR\n2 1 457 126021 47365 XOR\n2 1 553 126021 47366 XOR\n2 1 47365 47366 47364 AND\n2 1 47364 126021 126022 XOR\n2 1 126053 126022 95712 XOR\n2 1 458 126022 47368 XOR\n2 1 554 126022 47369 XOR\n2 1 47368 47369 47367 AND\n2 1 47367 126022 126023 XOR\n2 1 126054 126023 95713 XOR\n2 1 459 126023 47371 XOR\n2 1 555 126023 47372 XOR\n2 1 47371 47372 47370 AND\n2 1 47370 126023 126024 XOR\n2 1 126055 126024 95714 XOR\n2 1 460 126024 47374 XOR\n2 1 556 126024 47375 XOR\n2 1 47374 47375 47373 AND\n2 1 47373 126024 126025 XOR\n2 1 126056 126025 95715 XOR\n2 1 461 126025 47377 XOR\n2 1 557 126025 47378 XOR\n2 1 47377 47378 47376 AND\n2 1 47376 126025 126026 XOR\n2 1 126057 126026 95716 XOR\n2 1 462 126026 47380 XOR\n2 1 558 126026 47381 XOR\n2 1 47380 47381 47379 AND\n2 1 47379 126026 126027 XOR\n2 1 126058 126027 95717 XOR\n2 1 463 126027 47383 XOR\n2 1 559 126027 47384 XOR\n2 1 47383 47384 47382 AND\n2 1 47382 126027 126028 XOR\n2 1 126059 126028 95718 XOR\n2 1 464 126028 47386 XOR\n2 1 560 126028 47387 XOR\n2 1 47386 47387 47385 AND\n2 1 47385 126028 126029 XOR\n2 1 126060 126029 95719 XOR\n2 1 465 126029 47389 XOR\n2 1 561 126029 47390 XOR\n2 1 47389 47390 47388 AND\n2 1 47388 126029 126030 XOR\n2 1 126061 126030 95720 XOR\n2 1 466 126030 47392 XOR\n2 1 562 126030 47393 XOR\n2 1 47392 47393 47391 AND\n2 1 47391 126030 126031 XOR\n2 1 126062 126031 95721 XOR\n2 1 467 126031 47395 XOR\n2 1 563 126031 47396 XOR\n2 1 47395 47396 47394 AND\n2 1 47394 126031 126032 XOR\n2 1 126063 126032 95722 XOR\n2 1 468 126032 47398 XOR\n2 1 564 126032 47399 XOR\n2 1 47398 47399 47397 AND\n2 1 47397 126032 126033 XOR\n2 1 126064 126033 95723 XOR\n2 1 469 126033 47401 XOR\n2 1 565 126033 47402 XOR\n2 1 47401 47402 47400 AND\n2 1 47400 126033 126034 XOR\n2 1 126065 126034 95724 XOR\n2 1 470 126034 47404 XOR\n2 1 566 126034 47405 XOR\n2 1 47404 47405 47403 AND\n2 1 47403 126034 126035 XOR\n2 1 126066 126035 95725 XOR\n2 1 471 126035 47407 XOR\n2 1 567 126035 47408 XOR\n2 1 47407 47408 47406 AND\n2 1 47406 126035 126036 XOR\n2 1 126067 126036 95726 XOR\n2 1 472 126036 47410 XOR\n2 1 568 126036 47411 XOR\n2 1 47410 47411 47409 AND\n2 1 47409 126036 126037 XOR\n2 1 126068 126037 95727 XOR\n2 1 473 126037 47413 XOR\n2 1 569 126037 47414 XOR\n2 1 47413 47414 47412 AND\n2 1 47412 126037 126038 XOR\n2 1 126069 126038 95728 XOR\n2 1 474 126038 47416 XOR\n2 1 570 126038 47417 XOR\n2 1 47416 47417 47415 AND\n2 1 47415 126038 126039 XOR\n2 1 126070 126039 95729 XOR\n2 1 475 126039 47419 XOR\n2 1 571 126039 47420 XOR\n2 1 47419 47420 47418 AND\n2 1 47418 126039 126040 XOR\n2 1 126071 126040 95730 XOR\n2 1 476 126040 47422 XOR\n2 1 572 126040 47423 XOR\n2 1 47422 47423 47421 AND\n2 1 47421 126040 126041 XOR\n2 1 126072 126041 95731 XOR\n2 1 477 126041 47425 XOR\n2 1 573 126041 47426 XOR\n2 1 47425 47426 47424 AND\n2 1 47424 126041 126042 XOR\n2 1 126073 126042 95732 XOR\n2 1 478 126042 47428 XOR\n2 1 574 126042 47429 XOR\n2 1 47428 47429 47427 AND\n2 1 47427 126042 126043 XOR\n2 1 126074 126043 95733 XOR\n2 1 480 512 126285 AND\n2 1 480 512 95734 XOR\n2 1 481 513 126316 XOR\n2 1 482 514 126317 XOR\n2 1 483 515 126318 XOR\n2 1 484 516 126319 XOR\n2 1 485 517 126320 XOR\n2 1 486 518 126321 XOR\n2 1 487 519 126322 XOR\n2 1 488 520 126323 XOR\n2 1 489 521 126324 XOR\n2 1 490 522 126325 XOR\n2 1 491 523 126326 XOR\n2 1 492 524 126327 XOR\n2 1 493 525 126328 XOR\n2 1 494 526 126329 XOR\n",
"2 1 495 527 126330 XOR\n2 1 496 528 126331 XOR\n2 1 497 529 126332 XOR\n2 1 498 530 126333 XOR\n2 1 499 531 126334 XOR\n2 1 500 532 126335 XOR\n2 1 501 533 126336 XOR\n2 1 502 534 126337 XOR\n2 1 503 535 126338 XOR\n2 1 504 536 126339 XOR\n2 1 505 537 126340 XOR\n2 1 506 538 126341 XOR\n2 1 507 539 126342 XOR\n2 1 508 540 126343 XOR\n2 1 509 541 126344 XOR\n2 1 510 542 126345 XOR\n2 1 511 543 126346 XOR\n2 1 126316 126285 95735 XOR\n2 1 481 126285 47766 XOR\n2 1 513 126285 47767 XOR\n2 1 47766 47767 47765 AND\n2 1 47765 126285 126286 XOR\n2 1 126317 126286 95736 XOR\n2 1 482 126286 47769 XOR\n2 1 514 126286 47770 XOR\n2 1 47769 47770 47768 AND\n2 1 47768 126286 126287 XOR\n2 1 126318 126287 95737 XOR\n2 1 483 126287 47772 XOR\n2 1 515 126287 47773 XOR\n2 1 47772 47773 47771 AND\n2 1 47771 126287 126288 XOR\n2 1 126319 126288 95738 XOR\n2 1 484 126288 47775 XOR\n2 1 516 126288 47776 XOR\n2 1 47775 47776 47774 AND\n2 1 47774 126288 126289 XOR\n2 1 126320 126289 95739 XOR\n2 1 485 126289 47778 XOR\n2 1 517 126289 47779 XOR\n2 1 47778 47779 47777 AND\n2 1 47777 126289 126290 XOR\n2 1 126321 126290 95740 XOR\n2 1 486 126290 47781 XOR\n2 1 518 126290 47782 XOR\n2 1 47781 47782 47780 AND\n2 1 47780 126290 126291 XOR\n2 1 126322 126291 95741 XOR\n2 1 487 126291 47784 XOR\n2 1 519 126291 47785 XOR\n2 1 47784 47785 47783 AND\n2 1 47783 126291 126292 XOR\n2 1 126323 126292 95742 XOR\n2 1 488 126292 47787 XOR\n2 1 520 126292 47788 XOR\n2 1 47787 47788 47786 AND\n2 1 47786 126292 126293 XOR\n2 1 126324 126293 95743 XOR\n2 1 489 126293 47790 XOR\n2 1 521 126293 47791 XOR\n2 1 47790 47791 47789 AND\n2 1 47789 126293 126294 XOR\n2 1 126325 126294 95744 XOR\n2 1 490 126294 47793 XOR\n2 1 522 126294 47794 XOR\n2 1 47793 47794 47792 AND\n2 1 47792 126294 126295 XOR\n2 1 126326 126295 95745 XOR\n2 1 491 126295 47796 XOR\n2 1 523 126295 47797 XOR\n2 1 47796 47797 47795 AND\n2 1 47795 126295 126296 XOR\n2 1 126327 126296 95746 XOR\n2 1 492 126296 47799 XOR\n2 1 524 126296 47800 XOR\n2 1 47799 47800 47798 AND\n2 1 47798 126296 126297 XOR\n2 1 126328 126297 95747 XOR\n2 1 493 126297 47802 XOR\n2 1 525 126297 47803 XOR\n2 1 47802 47803 47801 AND\n2 1 47801 126297 126298 XOR\n2 1 126329 126298 95748 XOR\n2 1 494 126298 47805 XOR\n2 1 526 126298 47806 XOR\n2 1 47805 47806 47804 AND\n2 1 47804 126298 126299 XOR\n2 1 126330 126299 95749 XOR\n2 1 495 126299 47808 XOR\n2 1 527 126299 47809 XOR\n2 1 47808 47809 47807 AND\n2 1 47807 126299 126300 XOR\n2 1 126331 126300 95750 XOR\n2 1 496 126300 47811 XOR\n2 1 528 126300 47812 XOR\n2 1 47811 47812 47810 AND\n2 1 47810 126300 126301 XOR\n2 1 126332 126301 95751 XOR\n2 1 497 126301 47814 XOR\n2 1 529 126301 47815 XOR\n2 1 47814 47815 47813 AND\n2 1 47813 126301 126302 XOR\n2 1 126333 126302 95752 XOR\n2 1 498 126302 47817 XOR\n2 1 530 126302 47818 XOR\n2 1 47817 47818 47816 AND\n2 1 47816 126302 126303 XOR\n2 1 126334 126303 95753 XOR\n2 1 499 126303 47820 XOR\n2 1 531 126303 47821 XOR\n2 1 47820 47821 47819 AND\n2 1 47819 126303 126304 XOR\n2 1 126335 126304 95754 XOR\n2 1 500 126304 47823 XOR\n2 1 532 126304 47824 XOR\n2 1 47823 47824 47822 AND\n2 1 47822 126304 126305 XOR\n2 1 126336 126305 95755 XOR\n2 1 501 126305 47826 XOR\n2 1 533 126305 47827 XOR\n2 1 47826 47827 47825 AND\n2 1 47825 126305 126306 XOR\n2 1 126337 126306 95756 XOR\n2 1 502 126306 47829 XOR\n2 1 534 126306 47830 XOR\n2 1 47829 47830 47828 AND\n2 1 47828 126306 126307 XOR\n2 1 126338 126307 95757 XOR\n",
"2 1 503 126307 47832 XOR\n2 1 535 126307 47833 XOR\n2 1 47832 47833 47831 AND\n2 1 47831 126307 126308 XOR\n2 1 126339 126308 95758 XOR\n2 1 504 126308 47835 XOR\n2 1 536 126308 47836 XOR\n2 1 47835 47836 47834 AND\n2 1 47834 126308 126309 XOR\n2 1 126340 126309 95759 XOR\n2 1 505 126309 47838 XOR\n2 1 537 126309 47839 XOR\n2 1 47838 47839 47837 AND\n2 1 47837 126309 126310 XOR\n2 1 126341 126310 95760 XOR\n2 1 506 126310 47841 XOR\n2 1 538 126310 47842 XOR\n2 1 47841 47842 47840 AND\n2 1 47840 126310 126311 XOR\n2 1 126342 126311 95761 XOR\n2 1 507 126311 47844 XOR\n2 1 539 126311 47845 XOR\n2 1 47844 47845 47843 AND\n2 1 47843 126311 126312 XOR\n2 1 126343 126312 95762 XOR\n2 1 508 126312 47847 XOR\n2 1 540 126312 47848 XOR\n2 1 47847 47848 47846 AND\n2 1 47846 126312 126313 XOR\n2 1 126344 126313 95763 XOR\n2 1 509 126313 47850 XOR\n2 1 541 126313 47851 XOR\n2 1 47850 47851 47849 AND\n2 1 47849 126313 126314 XOR\n2 1 126345 126314 95764 XOR\n2 1 510 126314 47853 XOR\n2 1 542 126314 47854 XOR\n2 1 47853 47854 47852 AND\n2 1 47852 126314 126315 XOR\n2 1 126346 126315 95765 XOR\n2 1 384 608 135523 AND\n2 1 384 608 95638 XOR\n2 1 385 609 135554 XOR\n2 1 386 610 135555 XOR\n2 1 387 611 135556 XOR\n2 1 388 612 135557 XOR\n2 1 389 613 135558 XOR\n2 1 390 614 135559 XOR\n2 1 391 615 135560 XOR\n2 1 392 616 135561 XOR\n2 1 393 617 135562 XOR\n2 1 394 618 135563 XOR\n2 1 395 619 135564 XOR\n2 1 396 620 135565 XOR\n2 1 397 621 135566 XOR\n2 1 398 622 135567 XOR\n2 1 399 623 135568 XOR\n2 1 400 624 135569 XOR\n2 1 401 625 135570 XOR\n2 1 402 626 135571 XOR\n2 1 403 627 135572 XOR\n2 1 404 628 135573 XOR\n2 1 405 629 135574 XOR\n2 1 406 630 135575 XOR\n2 1 407 631 135576 XOR\n2 1 408 632 135577 XOR\n2 1 409 633 135578 XOR\n2 1 410 634 135579 XOR\n2 1 411 635 135580 XOR\n2 1 412 636 135581 XOR\n2 1 413 637 135582 XOR\n2 1 414 638 135583 XOR\n2 1 415 639 135584 XOR\n2 1 135554 135523 95639 XOR\n2 1 385 135523 74968 XOR\n2 1 609 135523 74969 XOR\n2 1 74968 74969 74967 AND\n2 1 74967 135523 135524 XOR\n2 1 135555 135524 95640 XOR\n2 1 386 135524 74971 XOR\n2 1 610 135524 74972 XOR\n2 1 74971 74972 74970 AND\n2 1 74970 135524 135525 XOR\n2 1 135556 135525 95641 XOR\n2 1 387 135525 74974 XOR\n2 1 611 135525 74975 XOR\n2 1 74974 74975 74973 AND\n2 1 74973 135525 135526 XOR\n2 1 135557 135526 95642 XOR\n2 1 388 135526 74977 XOR\n2 1 612 135526 74978 XOR\n2 1 74977 74978 74976 AND\n2 1 74976 135526 135527 XOR\n2 1 135558 135527 95643 XOR\n2 1 389 135527 74980 XOR\n2 1 613 135527 74981 XOR\n2 1 74980 74981 74979 AND\n2 1 74979 135527 135528 XOR\n2 1 135559 135528 95644 XOR\n2 1 390 135528 74983 XOR\n2 1 614 135528 74984 XOR\n2 1 74983 74984 74982 AND\n2 1 74982 135528 135529 XOR\n2 1 135560 135529 95645 XOR\n2 1 391 135529 74986 XOR\n2 1 615 135529 74987 XOR\n2 1 74986 74987 74985 AND\n2 1 74985 135529 135530 XOR\n2 1 135561 135530 95646 XOR\n2 1 392 135530 74989 XOR\n2 1 616 135530 74990 XOR\n2 1 74989 74990 74988 AND\n2 1 74988 135530 135531 XOR\n2 1 135562 135531 95647 XOR\n2 1 393 135531 74992 XOR\n2 1 617 135531 74993 XOR\n2 1 74992 74993 74991 AND\n2 1 74991 135531 135532 XOR\n2 1 135563 135532 95648 XOR\n2 1 394 135532 74995 XOR\n2 1 618 135532 74996 XOR\n2 1 74995 74996 74994 AND\n2 1 74994 135532 135533 XOR\n2 1 135564 135533 95649 XOR\n2 1 395 135533 74998 XOR\n2 1 619 135533 74999 XOR\n2 1 74998 74999 74997 AND\n2 1 74997 135533 135534 XOR\n",
"2 1 135565 135534 95650 XOR\n2 1 396 135534 75001 XOR\n2 1 620 135534 75002 XOR\n2 1 75001 75002 75000 AND\n2 1 75000 135534 135535 XOR\n2 1 135566 135535 95651 XOR\n2 1 397 135535 75004 XOR\n2 1 621 135535 75005 XOR\n2 1 75004 75005 75003 AND\n2 1 75003 135535 135536 XOR\n2 1 135567 135536 95652 XOR\n2 1 398 135536 75007 XOR\n2 1 622 135536 75008 XOR\n2 1 75007 75008 75006 AND\n2 1 75006 135536 135537 XOR\n2 1 135568 135537 95653 XOR\n2 1 399 135537 75010 XOR\n2 1 623 135537 75011 XOR\n2 1 75010 75011 75009 AND\n2 1 75009 135537 135538 XOR\n2 1 135569 135538 95654 XOR\n2 1 400 135538 75013 XOR\n2 1 624 135538 75014 XOR\n2 1 75013 75014 75012 AND\n2 1 75012 135538 135539 XOR\n2 1 135570 135539 95655 XOR\n2 1 401 135539 75016 XOR\n2 1 625 135539 75017 XOR\n2 1 75016 75017 75015 AND\n2 1 75015 135539 135540 XOR\n2 1 135571 135540 95656 XOR\n2 1 402 135540 75019 XOR\n2 1 626 135540 75020 XOR\n2 1 75019 75020 75018 AND\n2 1 75018 135540 135541 XOR\n2 1 135572 135541 95657 XOR\n2 1 403 135541 75022 XOR\n2 1 627 135541 75023 XOR\n2 1 75022 75023 75021 AND\n2 1 75021 135541 135542 XOR\n2 1 135573 135542 95658 XOR\n2 1 404 135542 75025 XOR\n2 1 628 135542 75026 XOR\n2 1 75025 75026 75024 AND\n2 1 75024 135542 135543 XOR\n2 1 135574 135543 95659 XOR\n2 1 405 135543 75028 XOR\n2 1 629 135543 75029 XOR\n2 1 75028 75029 75027 AND\n2 1 75027 135543 135544 XOR\n2 1 135575 135544 95660 XOR\n2 1 406 135544 75031 XOR\n2 1 630 135544 75032 XOR\n2 1 75031 75032 75030 AND\n2 1 75030 135544 135545 XOR\n2 1 135576 135545 95661 XOR\n2 1 407 135545 75034 XOR\n2 1 631 135545 75035 XOR\n2 1 75034 75035 75033 AND\n2 1 75033 135545 135546 XOR\n2 1 135577 135546 95662 XOR\n2 1 408 135546 75037 XOR\n2 1 632 135546 75038 XOR\n2 1 75037 75038 75036 AND\n2 1 75036 135546 135547 XOR\n2 1 135578 135547 95663 XOR\n2 1 409 135547 75040 XOR\n2 1 633 135547 75041 XOR\n2 1 75040 75041 75039 AND\n2 1 75039 135547 135548 XOR\n2 1 135579 135548 95664 XOR\n2 1 410 135548 75043 XOR\n2 1 634 135548 75044 XOR\n2 1 75043 75044 75042 AND\n2 1 75042 135548 135549 XOR\n2 1 135580 135549 95665 XOR\n2 1 411 135549 75046 XOR\n2 1 635 135549 75047 XOR\n2 1 75046 75047 75045 AND\n2 1 75045 135549 135550 XOR\n2 1 135581 135550 95666 XOR\n2 1 412 135550 75049 XOR\n2 1 636 135550 75050 XOR\n2 1 75049 75050 75048 AND\n2 1 75048 135550 135551 XOR\n2 1 135582 135551 95667 XOR\n2 1 413 135551 75052 XOR\n2 1 637 135551 75053 XOR\n2 1 75052 75053 75051 AND\n2 1 75051 135551 135552 XOR\n2 1 135583 135552 95668 XOR\n2 1 414 135552 75055 XOR\n2 1 638 135552 75056 XOR\n2 1 75055 75056 75054 AND\n2 1 75054 135552 135553 XOR\n2 1 135584 135553 95669 XOR\n2 1 613 618 75600 XOR\n2 1 612 617 75599 XOR\n2 1 611 616 75598 XOR\n2 1 610 615 75597 XOR\n2 1 609 614 75596 XOR\n2 1 608 613 75595 XOR\n2 1 639 612 75594 XOR\n2 1 638 611 75593 XOR\n2 1 637 610 75592 XOR\n2 1 636 609 75591 XOR\n2 1 635 608 75590 XOR\n2 1 634 639 75589 XOR\n2 1 633 638 75588 XOR\n2 1 632 637 75587 XOR\n2 1 631 636 75586 XOR\n2 1 630 635 75585 XOR\n2 1 629 634 75584 XOR\n2 1 628 633 75583 XOR\n2 1 627 632 75582 XOR\n2 1 626 631 75581 XOR\n2 1 625 630 75580 XOR\n2 1 624 629 75579 XOR\n2 1 623 628 75578 XOR\n2 1 622 627 75577 XOR\n2 1 621 626 75576 XOR\n2 1 620 625 75575 XOR\n2 1 619 624 75574 XOR\n2 1 618 623 75573 XOR\n2 1 617 622 75572 XOR\n2 1 616 621 75571 XOR\n2 1 615 620 75570 XOR\n2 1 614 619 75569 XOR\n",
"2 1 75600 632 101909 XOR\n2 1 75599 631 101908 XOR\n2 1 75598 630 101907 XOR\n2 1 75597 629 101906 XOR\n2 1 75596 628 101905 XOR\n2 1 75595 627 101904 XOR\n2 1 75594 626 101903 XOR\n2 1 75593 625 101902 XOR\n2 1 75592 624 101901 XOR\n2 1 75591 623 101900 XOR\n2 1 75590 622 101899 XOR\n2 1 75589 621 101898 XOR\n2 1 75588 620 101897 XOR\n2 1 75587 619 101896 XOR\n2 1 75586 618 101895 XOR\n2 1 75585 617 101894 XOR\n2 1 75584 616 101893 XOR\n2 1 75583 615 101892 XOR\n2 1 75582 614 101891 XOR\n2 1 75581 613 101890 XOR\n2 1 75580 612 101889 XOR\n2 1 75579 611 101888 XOR\n2 1 75578 610 101887 XOR\n2 1 75577 609 101886 XOR\n2 1 75576 608 101885 XOR\n2 1 75575 639 101884 XOR\n2 1 75574 638 101883 XOR\n2 1 75573 637 101882 XOR\n2 1 75572 636 101881 XOR\n2 1 75571 635 101880 XOR\n2 1 75570 634 101879 XOR\n2 1 75569 633 101878 XOR\n2 1 639 607 75504 XOR\n2 1 638 606 75503 XOR\n2 1 637 605 75502 XOR\n2 1 636 604 75501 XOR\n2 1 635 603 75500 XOR\n2 1 634 602 75499 XOR\n2 1 633 601 75498 XOR\n2 1 632 600 75497 XOR\n2 1 631 599 75496 XOR\n2 1 630 598 75495 XOR\n2 1 629 597 75494 XOR\n2 1 628 596 75493 XOR\n2 1 627 595 75492 XOR\n2 1 626 594 75491 XOR\n2 1 625 593 75490 XOR\n2 1 624 592 75489 XOR\n2 1 623 591 75488 XOR\n2 1 622 590 75487 XOR\n2 1 621 589 75486 XOR\n2 1 620 588 75485 XOR\n2 1 619 587 75484 XOR\n2 1 618 586 75483 XOR\n2 1 617 585 75482 XOR\n2 1 616 584 75481 XOR\n2 1 615 583 75480 XOR\n2 1 614 582 75479 XOR\n2 1 613 581 75478 XOR\n2 1 612 580 75477 XOR\n2 1 611 579 75476 XOR\n2 1 610 578 75475 XOR\n2 1 609 577 75474 XOR\n2 1 608 576 75473 XOR\n2 1 607 575 75440 XOR\n2 1 606 574 75439 XOR\n2 1 605 573 75438 XOR\n2 1 604 572 75437 XOR\n2 1 603 571 75436 XOR\n2 1 602 570 75435 XOR\n2 1 601 569 75434 XOR\n2 1 600 568 75433 XOR\n2 1 599 567 75432 XOR\n2 1 598 566 75431 XOR\n2 1 597 565 75430 XOR\n2 1 596 564 75429 XOR\n2 1 595 563 75428 XOR\n2 1 594 562 75427 XOR\n2 1 593 561 75426 XOR\n2 1 592 560 75425 XOR\n2 1 591 559 75424 XOR\n2 1 590 558 75423 XOR\n2 1 589 557 75422 XOR\n2 1 588 556 75421 XOR\n2 1 587 555 75420 XOR\n2 1 586 554 75419 XOR\n2 1 585 553 75418 XOR\n2 1 584 552 75417 XOR\n2 1 583 551 75416 XOR\n2 1 582 550 75415 XOR\n2 1 581 549 75414 XOR\n2 1 580 548 75413 XOR\n2 1 579 547 75412 XOR\n2 1 578 546 75411 XOR\n2 1 577 545 75410 XOR\n2 1 576 544 75409 XOR\n2 1 75440 639 75408 AND\n2 1 75439 638 75407 AND\n2 1 75438 637 75406 AND\n2 1 75437 636 75405 AND\n2 1 75436 635 75404 AND\n2 1 75435 634 75403 AND\n2 1 75434 633 75402 AND\n2 1 75433 632 75401 AND\n2 1 75432 631 75400 AND\n2 1 75431 630 75399 AND\n2 1 75430 629 75398 AND\n2 1 75429 628 75397 AND\n2 1 75428 627 75396 AND\n2 1 75427 626 75395 AND\n2 1 75426 625 75394 AND\n2 1 75425 624 75393 AND\n2 1 75424 623 75392 AND\n2 1 75423 622 75391 AND\n2 1 75422 621 75390 AND\n2 1 75421 620 75389 AND\n2 1 75420 619 75388 AND\n2 1 75419 618 75387 AND\n2 1 75418 617 75386 AND\n2 1 75417 616 75385 AND\n2 1 75416 615 75384 AND\n2 1 75415 614 75383 AND\n2 1 75414 613 75382 AND\n2 1 75413 612 75381 AND\n2 1 75412 611 75380 AND\n2 1 75411 610 75379 AND\n2 1 75410 609 75378 AND\n2 1 75409 608 75377 AND\n",
"2 1 75408 575 99861 XOR\n2 1 101909 99861 126408 XOR\n2 1 75407 574 99860 XOR\n2 1 101908 99860 126407 XOR\n2 1 75406 573 99859 XOR\n2 1 101907 99859 126406 XOR\n2 1 75405 572 99858 XOR\n2 1 101906 99858 126405 XOR\n2 1 75404 571 99857 XOR\n2 1 101905 99857 126404 XOR\n2 1 75403 570 99856 XOR\n2 1 101904 99856 126403 XOR\n2 1 75402 569 99855 XOR\n2 1 101903 99855 126402 XOR\n2 1 75401 568 99854 XOR\n2 1 101902 99854 126401 XOR\n2 1 75400 567 99853 XOR\n2 1 101901 99853 126400 XOR\n2 1 75399 566 99852 XOR\n2 1 101900 99852 126399 XOR\n2 1 75398 565 99851 XOR\n2 1 101899 99851 126398 XOR\n2 1 75397 564 99850 XOR\n2 1 101898 99850 126397 XOR\n2 1 75396 563 99849 XOR\n2 1 101897 99849 126396 XOR\n2 1 75395 562 99848 XOR\n2 1 101896 99848 126395 XOR\n2 1 75394 561 99847 XOR\n2 1 101895 99847 126394 XOR\n2 1 75393 560 99846 XOR\n2 1 101894 99846 126393 XOR\n2 1 75392 559 99845 XOR\n2 1 101893 99845 126392 XOR\n2 1 75391 558 99844 XOR\n2 1 101892 99844 126391 XOR\n2 1 75390 557 99843 XOR\n2 1 101891 99843 126390 XOR\n2 1 75389 556 99842 XOR\n2 1 101890 99842 126389 XOR\n2 1 75388 555 99841 XOR\n2 1 101889 99841 126388 XOR\n2 1 75387 554 99840 XOR\n2 1 101888 99840 126387 XOR\n2 1 75386 553 99839 XOR\n2 1 101887 99839 126386 XOR\n2 1 75385 552 99838 XOR\n2 1 101886 99838 126385 XOR\n2 1 75384 551 99837 XOR\n2 1 101885 99837 126384 XOR\n2 1 75383 550 99836 XOR\n2 1 101884 99836 126383 XOR\n2 1 75382 549 99835 XOR\n2 1 101883 99835 126382 XOR\n2 1 75381 548 99834 XOR\n2 1 101882 99834 126381 XOR\n2 1 75380 547 99833 XOR\n2 1 101881 99833 126380 XOR\n2 1 75379 546 99832 XOR\n2 1 101880 99832 126379 XOR\n2 1 75378 545 99831 XOR\n2 1 101879 99831 126378 XOR\n2 1 75377 544 99830 XOR\n2 1 101878 99830 126347 AND\n2 1 101878 99830 97782 XOR\n2 1 97782 95734 126223 AND\n2 1 97782 95734 93686 XOR\n2 1 95735 126223 47677 XOR\n2 1 126378 126347 97783 XOR\n2 1 97783 95735 126254 XOR\n2 1 126254 126223 93687 XOR\n2 1 97783 126223 47676 XOR\n2 1 47676 47677 47675 AND\n2 1 47675 126223 126224 XOR\n2 1 95736 126224 47680 XOR\n2 1 101879 126347 47856 XOR\n2 1 99831 126347 47857 XOR\n2 1 47856 47857 47855 AND\n2 1 47855 126347 126348 XOR\n2 1 126379 126348 97784 XOR\n2 1 97784 95736 126255 XOR\n2 1 126255 126224 93688 XOR\n2 1 97784 126224 47679 XOR\n2 1 47679 47680 47678 AND\n2 1 47678 126224 126225 XOR\n2 1 95737 126225 47683 XOR\n2 1 101880 126348 47859 XOR\n2 1 99832 126348 47860 XOR\n2 1 47859 47860 47858 AND\n2 1 47858 126348 126349 XOR\n2 1 126380 126349 97785 XOR\n2 1 97785 95737 126256 XOR\n2 1 126256 126225 93689 XOR\n1 1 93689 91697 INV\n2 1 97785 126225 47682 XOR\n2 1 47682 47683 47681 AND\n2 1 47681 126225 126226 XOR\n2 1 95738 126226 47686 XOR\n2 1 101881 126349 47862 XOR\n2 1 99833 126349 47863 XOR\n2 1 47862 47863 47861 AND\n2 1 47861 126349 126350 XOR\n2 1 126381 126350 97786 XOR\n2 1 97786 95738 126257 XOR\n2 1 126257 126226 93690 XOR\n1 1 93690 126211 INV\n2 1 126211 93689 91698 XOR\n2 1 93690 93689 47611 XOR\n2 1 47611 91697 47610 AND\n2 1 47610 93689 47613 XOR\n2 1 97786 126226 47685 XOR\n2 1 47685 47686 47684 AND\n2 1 47684 126226 126227 XOR\n2 1 95739 126227 47689 XOR\n2 1 101882 126350 47865 XOR\n2 1 99834 126350 47866 XOR\n2 1 47865 47866 47864 AND\n2 1 47864 126350 126351 XOR\n2 1 126382 126351 97787 XOR\n2 1 97787 95739 126258 XOR\n2 1 126258 126227 93691 XOR\n2 1 93691 47613 91699 XOR\n2 1 91699 47613 47612 AND\n2 1 47612 47613 47615 XOR\n2 1 97787 126227 47688 XOR\n2 1 47688 47689 47687 AND\n2 1 47687 126227 126228 XOR\n2 1 95740 126228 47692 XOR\n",
"2 1 101883 126351 47868 XOR\n2 1 99835 126351 47869 XOR\n2 1 47868 47869 47867 AND\n2 1 47867 126351 126352 XOR\n2 1 126383 126352 97788 XOR\n2 1 97788 95740 126259 XOR\n2 1 126259 126228 93692 XOR\n2 1 93692 47615 91700 XOR\n2 1 91700 47615 47614 AND\n2 1 47614 47615 126199 XOR\n1 1 126199 47618 INV\n2 1 97788 126228 47691 XOR\n2 1 47691 47692 47690 AND\n2 1 47690 126228 126229 XOR\n2 1 95741 126229 47695 XOR\n2 1 101884 126352 47871 XOR\n2 1 99836 126352 47872 XOR\n2 1 47871 47872 47870 AND\n2 1 47870 126352 126353 XOR\n2 1 126384 126353 97789 XOR\n2 1 97789 95741 126260 XOR\n2 1 126260 126229 93693 XOR\n1 1 93693 126212 INV\n2 1 126212 126199 91701 XOR\n2 1 93693 126199 47617 XOR\n2 1 47617 47618 47616 AND\n2 1 47616 126199 126200 XOR\n1 1 126200 47621 INV\n2 1 97789 126229 47694 XOR\n2 1 47694 47695 47693 AND\n2 1 47693 126229 126230 XOR\n2 1 95742 126230 47698 XOR\n2 1 101885 126353 47874 XOR\n2 1 99837 126353 47875 XOR\n2 1 47874 47875 47873 AND\n2 1 47873 126353 126354 XOR\n2 1 126385 126354 97790 XOR\n2 1 97790 95742 126261 XOR\n2 1 126261 126230 93694 XOR\n1 1 93694 126213 INV\n2 1 126213 126200 91702 XOR\n2 1 93694 126200 47620 XOR\n2 1 47620 47621 47619 AND\n2 1 47619 126200 126201 XOR\n1 1 126201 47624 INV\n2 1 97790 126230 47697 XOR\n2 1 47697 47698 47696 AND\n2 1 47696 126230 126231 XOR\n2 1 95743 126231 47701 XOR\n2 1 101886 126354 47877 XOR\n2 1 99838 126354 47878 XOR\n2 1 47877 47878 47876 AND\n2 1 47876 126354 126355 XOR\n2 1 126386 126355 97791 XOR\n2 1 97791 95743 126262 XOR\n2 1 126262 126231 93695 XOR\n1 1 93695 126214 INV\n2 1 126214 126201 91703 XOR\n2 1 93695 126201 47623 XOR\n2 1 47623 47624 47622 AND\n2 1 47622 126201 126202 XOR\n1 1 126202 47627 INV\n2 1 97791 126231 47700 XOR\n2 1 47700 47701 47699 AND\n2 1 47699 126231 126232 XOR\n2 1 95744 126232 47704 XOR\n2 1 101887 126355 47880 XOR\n2 1 99839 126355 47881 XOR\n2 1 47880 47881 47879 AND\n2 1 47879 126355 126356 XOR\n2 1 126387 126356 97792 XOR\n2 1 97792 95744 126263 XOR\n2 1 126263 126232 93696 XOR\n1 1 93696 126215 INV\n2 1 126215 126202 91704 XOR\n2 1 93696 126202 47626 XOR\n2 1 47626 47627 47625 AND\n2 1 47625 126202 126203 XOR\n1 1 126203 47630 INV\n2 1 97792 126232 47703 XOR\n2 1 47703 47704 47702 AND\n2 1 47702 126232 126233 XOR\n2 1 95745 126233 47707 XOR\n2 1 101888 126356 47883 XOR\n2 1 99840 126356 47884 XOR\n2 1 47883 47884 47882 AND\n2 1 47882 126356 126357 XOR\n2 1 126388 126357 97793 XOR\n2 1 97793 95745 126264 XOR\n2 1 126264 126233 93697 XOR\n1 1 93697 126216 INV\n2 1 126216 126203 91705 XOR\n2 1 93697 126203 47629 XOR\n2 1 47629 47630 47628 AND\n2 1 47628 126203 47632 XOR\n2 1 97793 126233 47706 XOR\n2 1 47706 47707 47705 AND\n2 1 47705 126233 126234 XOR\n2 1 95746 126234 47710 XOR\n2 1 101889 126357 47886 XOR\n2 1 99841 126357 47887 XOR\n2 1 47886 47887 47885 AND\n2 1 47885 126357 126358 XOR\n2 1 126389 126358 97794 XOR\n2 1 97794 95746 126265 XOR\n2 1 126265 126234 93698 XOR\n2 1 93698 47632 91706 XOR\n2 1 91706 47632 47631 AND\n2 1 47631 47632 126204 XOR\n1 1 126204 47635 INV\n2 1 97794 126234 47709 XOR\n2 1 47709 47710 47708 AND\n2 1 47708 126234 126235 XOR\n2 1 95747 126235 47713 XOR\n2 1 101890 126358 47889 XOR\n2 1 99842 126358 47890 XOR\n2 1 47889 47890 47888 AND\n2 1 47888 126358 126359 XOR\n2 1 126390 126359 97795 XOR\n2 1 97795 95747 126266 XOR\n2 1 126266 126235 93699 XOR\n1 1 93699 126217 INV\n2 1 126217 126204 91707 XOR\n2 1 93699 126204 47634 XOR\n2 1 47634 47635 47633 AND\n2 1 47633 126204 47637 XOR\n2 1 97795 126235 47712 XOR\n2 1 47712 47713 47711 AND\n",
"2 1 47711 126235 126236 XOR\n2 1 95748 126236 47716 XOR\n2 1 101891 126359 47892 XOR\n2 1 99843 126359 47893 XOR\n2 1 47892 47893 47891 AND\n2 1 47891 126359 126360 XOR\n2 1 126391 126360 97796 XOR\n2 1 97796 95748 126267 XOR\n2 1 126267 126236 93700 XOR\n2 1 93700 47637 91708 XOR\n2 1 91708 47637 47636 AND\n2 1 47636 47637 47639 XOR\n2 1 97796 126236 47715 XOR\n2 1 47715 47716 47714 AND\n2 1 47714 126236 126237 XOR\n2 1 95749 126237 47719 XOR\n2 1 101892 126360 47895 XOR\n2 1 99844 126360 47896 XOR\n2 1 47895 47896 47894 AND\n2 1 47894 126360 126361 XOR\n2 1 126392 126361 97797 XOR\n2 1 97797 95749 126268 XOR\n2 1 126268 126237 93701 XOR\n2 1 93701 47639 91709 XOR\n2 1 91709 47639 47638 AND\n2 1 47638 47639 47641 XOR\n2 1 97797 126237 47718 XOR\n2 1 47718 47719 47717 AND\n2 1 47717 126237 126238 XOR\n2 1 95750 126238 47722 XOR\n2 1 101893 126361 47898 XOR\n2 1 99845 126361 47899 XOR\n2 1 47898 47899 47897 AND\n2 1 47897 126361 126362 XOR\n2 1 126393 126362 97798 XOR\n2 1 97798 95750 126269 XOR\n2 1 126269 126238 93702 XOR\n2 1 93702 47641 91710 XOR\n2 1 91710 47641 47640 AND\n2 1 47640 47641 126205 XOR\n1 1 126205 47644 INV\n2 1 97798 126238 47721 XOR\n2 1 47721 47722 47720 AND\n2 1 47720 126238 126239 XOR\n2 1 95751 126239 47725 XOR\n2 1 101894 126362 47901 XOR\n2 1 99846 126362 47902 XOR\n2 1 47901 47902 47900 AND\n2 1 47900 126362 126363 XOR\n2 1 126394 126363 97799 XOR\n2 1 97799 95751 126270 XOR\n2 1 126270 126239 93703 XOR\n1 1 93703 126218 INV\n2 1 126218 126205 91711 XOR\n2 1 93703 126205 47643 XOR\n2 1 47643 47644 47642 AND\n2 1 47642 126205 47646 XOR\n2 1 97799 126239 47724 XOR\n2 1 47724 47725 47723 AND\n2 1 47723 126239 126240 XOR\n2 1 95752 126240 47728 XOR\n2 1 101895 126363 47904 XOR\n2 1 99847 126363 47905 XOR\n2 1 47904 47905 47903 AND\n2 1 47903 126363 126364 XOR\n2 1 126395 126364 97800 XOR\n2 1 97800 95752 126271 XOR\n2 1 126271 126240 93704 XOR\n2 1 93704 47646 91712 XOR\n2 1 91712 47646 47645 AND\n2 1 47645 47646 126206 XOR\n1 1 126206 47649 INV\n2 1 97800 126240 47727 XOR\n2 1 47727 47728 47726 AND\n2 1 47726 126240 126241 XOR\n2 1 95753 126241 47731 XOR\n2 1 101896 126364 47907 XOR\n2 1 99848 126364 47908 XOR\n2 1 47907 47908 47906 AND\n2 1 47906 126364 126365 XOR\n2 1 126396 126365 97801 XOR\n2 1 97801 95753 126272 XOR\n2 1 126272 126241 93705 XOR\n1 1 93705 126219 INV\n2 1 126219 126206 91713 XOR\n2 1 93705 126206 47648 XOR\n2 1 47648 47649 47647 AND\n2 1 47647 126206 47651 XOR\n2 1 97801 126241 47730 XOR\n2 1 47730 47731 47729 AND\n2 1 47729 126241 126242 XOR\n2 1 95754 126242 47734 XOR\n2 1 101897 126365 47910 XOR\n2 1 99849 126365 47911 XOR\n2 1 47910 47911 47909 AND\n2 1 47909 126365 126366 XOR\n2 1 126397 126366 97802 XOR\n2 1 97802 95754 126273 XOR\n2 1 126273 126242 93706 XOR\n2 1 93706 47651 91714 XOR\n2 1 91714 47651 47650 AND\n2 1 47650 47651 47653 XOR\n2 1 97802 126242 47733 XOR\n2 1 47733 47734 47732 AND\n2 1 47732 126242 126243 XOR\n2 1 95755 126243 47737 XOR\n2 1 101898 126366 47913 XOR\n2 1 99850 126366 47914 XOR\n2 1 47913 47914 47912 AND\n2 1 47912 126366 126367 XOR\n2 1 126398 126367 97803 XOR\n2 1 97803 95755 126274 XOR\n2 1 126274 126243 93707 XOR\n2 1 93707 47653 91715 XOR\n2 1 91715 47653 47652 AND\n2 1 47652 47653 47655 XOR\n2 1 97803 126243 47736 XOR\n2 1 47736 47737 47735 AND\n2 1 47735 126243 126244 XOR\n2 1 95756 126244 47740 XOR\n2 1 101899 126367 47916 XOR\n2 1 99851 126367 47917 XOR\n2 1 47916 47917 47915 AND\n2 1 47915 126367 126368 XOR\n2 1 126399 126368 97804 XOR\n2 1 97804 95756 126275 XOR\n2 1 126275 126244 93708 XOR\n2 1 93708 47655 91716 XOR\n",
"2 1 91716 47655 47654 AND\n2 1 47654 47655 126207 XOR\n1 1 126207 47658 INV\n2 1 97804 126244 47739 XOR\n2 1 47739 47740 47738 AND\n2 1 47738 126244 126245 XOR\n2 1 95757 126245 47743 XOR\n2 1 101900 126368 47919 XOR\n2 1 99852 126368 47920 XOR\n2 1 47919 47920 47918 AND\n2 1 47918 126368 126369 XOR\n2 1 126400 126369 97805 XOR\n2 1 97805 95757 126276 XOR\n2 1 126276 126245 93709 XOR\n1 1 93709 126220 INV\n2 1 126220 126207 91717 XOR\n2 1 93709 126207 47657 XOR\n2 1 47657 47658 47656 AND\n2 1 47656 126207 47660 XOR\n2 1 97805 126245 47742 XOR\n2 1 47742 47743 47741 AND\n2 1 47741 126245 126246 XOR\n2 1 95758 126246 47746 XOR\n2 1 101901 126369 47922 XOR\n2 1 99853 126369 47923 XOR\n2 1 47922 47923 47921 AND\n2 1 47921 126369 126370 XOR\n2 1 126401 126370 97806 XOR\n2 1 97806 95758 126277 XOR\n2 1 126277 126246 93710 XOR\n2 1 93710 47660 91718 XOR\n2 1 91718 47660 47659 AND\n2 1 47659 47660 126208 XOR\n1 1 126208 47663 INV\n2 1 97806 126246 47745 XOR\n2 1 47745 47746 47744 AND\n2 1 47744 126246 126247 XOR\n2 1 95759 126247 47749 XOR\n2 1 101902 126370 47925 XOR\n2 1 99854 126370 47926 XOR\n2 1 47925 47926 47924 AND\n2 1 47924 126370 126371 XOR\n2 1 126402 126371 97807 XOR\n2 1 97807 95759 126278 XOR\n2 1 126278 126247 93711 XOR\n1 1 93711 126221 INV\n2 1 126221 126208 91719 XOR\n2 1 93711 126208 47662 XOR\n2 1 47662 47663 47661 AND\n2 1 47661 126208 47665 XOR\n2 1 97807 126247 47748 XOR\n2 1 47748 47749 47747 AND\n2 1 47747 126247 126248 XOR\n2 1 95760 126248 47752 XOR\n2 1 101903 126371 47928 XOR\n2 1 99855 126371 47929 XOR\n2 1 47928 47929 47927 AND\n2 1 47927 126371 126372 XOR\n2 1 126403 126372 97808 XOR\n2 1 97808 95760 126279 XOR\n2 1 126279 126248 93712 XOR\n2 1 93712 47665 91720 XOR\n2 1 91720 47665 47664 AND\n2 1 47664 47665 47667 XOR\n2 1 97808 126248 47751 XOR\n2 1 47751 47752 47750 AND\n2 1 47750 126248 126249 XOR\n2 1 95761 126249 47755 XOR\n2 1 101904 126372 47931 XOR\n2 1 99856 126372 47932 XOR\n2 1 47931 47932 47930 AND\n2 1 47930 126372 126373 XOR\n2 1 126404 126373 97809 XOR\n2 1 97809 95761 126280 XOR\n2 1 126280 126249 93713 XOR\n2 1 93713 47667 91721 XOR\n2 1 91721 47667 47666 AND\n2 1 47666 47667 47669 XOR\n2 1 97809 126249 47754 XOR\n2 1 47754 47755 47753 AND\n2 1 47753 126249 126250 XOR\n2 1 95762 126250 47758 XOR\n2 1 101905 126373 47934 XOR\n2 1 99857 126373 47935 XOR\n2 1 47934 47935 47933 AND\n2 1 47933 126373 126374 XOR\n2 1 126405 126374 97810 XOR\n2 1 97810 95762 126281 XOR\n2 1 126281 126250 93714 XOR\n2 1 93714 47669 91722 XOR\n2 1 91722 47669 47668 AND\n2 1 47668 47669 47671 XOR\n2 1 97810 126250 47757 XOR\n2 1 47757 47758 47756 AND\n2 1 47756 126250 126251 XOR\n2 1 95763 126251 47761 XOR\n2 1 101906 126374 47937 XOR\n2 1 99858 126374 47938 XOR\n2 1 47937 47938 47936 AND\n2 1 47936 126374 126375 XOR\n2 1 126406 126375 97811 XOR\n2 1 97811 95763 126282 XOR\n2 1 126282 126251 93715 XOR\n2 1 93715 47671 91723 XOR\n2 1 91723 47671 47670 AND\n2 1 47670 47671 126209 XOR\n1 1 126209 47674 INV\n2 1 97811 126251 47760 XOR\n2 1 47760 47761 47759 AND\n2 1 47759 126251 126252 XOR\n2 1 95764 126252 47764 XOR\n2 1 101907 126375 47940 XOR\n2 1 99859 126375 47941 XOR\n2 1 47940 47941 47939 AND\n2 1 47939 126375 126376 XOR\n2 1 126407 126376 97812 XOR\n2 1 97812 95764 126283 XOR\n2 1 126283 126252 93716 XOR\n1 1 93716 126222 INV\n2 1 126222 126209 91724 XOR\n2 1 93716 126209 47673 XOR\n2 1 47673 47674 47672 AND\n2 1 47672 126209 126210 XOR\n2 1 97812 126252 47763 XOR\n2 1 47763 47764 47762 AND\n2 1 47762 126252 126253 XOR\n2 1 101908 126376 47943 XOR\n2 1 99860 126376 47944 XOR\n",
"2 1 47943 47944 47942 AND\n2 1 47942 126376 126377 XOR\n2 1 126408 126377 97813 XOR\n2 1 97813 95765 126284 XOR\n2 1 126284 126253 93717 XOR\n2 1 93717 126210 91725 XOR\n2 1 640 93686 135275 AND\n2 1 640 93686 4128 XOR\n2 1 352 4128 125360 AND\n2 1 352 4128 95606 XOR\n2 1 353 125360 46146 XOR\n2 1 641 93687 135306 XOR\n2 1 642 93688 135307 XOR\n2 1 643 91697 135308 XOR\n2 1 644 91698 135309 XOR\n2 1 645 91699 135310 XOR\n2 1 646 91700 135311 XOR\n2 1 647 91701 135312 XOR\n2 1 648 91702 135313 XOR\n2 1 649 91703 135314 XOR\n2 1 650 91704 135315 XOR\n2 1 651 91705 135316 XOR\n2 1 652 91706 135317 XOR\n2 1 653 91707 135318 XOR\n2 1 654 91708 135319 XOR\n2 1 655 91709 135320 XOR\n2 1 656 91710 135321 XOR\n2 1 657 91711 135322 XOR\n2 1 658 91712 135323 XOR\n2 1 659 91713 135324 XOR\n2 1 660 91714 135325 XOR\n2 1 661 91715 135326 XOR\n2 1 662 91716 135327 XOR\n2 1 663 91717 135328 XOR\n2 1 664 91718 135329 XOR\n2 1 665 91719 135330 XOR\n2 1 666 91720 135331 XOR\n2 1 667 91721 135332 XOR\n2 1 668 91722 135333 XOR\n2 1 669 91723 135334 XOR\n2 1 670 91724 135335 XOR\n2 1 671 91725 135336 XOR\n2 1 135306 135275 4129 XOR\n2 1 353 4129 125391 XOR\n2 1 125391 125360 95607 XOR\n2 1 4129 125360 46147 XOR\n2 1 46146 46147 46145 AND\n2 1 46145 125360 125361 XOR\n2 1 354 125361 46149 XOR\n2 1 641 135275 74608 XOR\n2 1 93687 135275 74609 XOR\n2 1 74608 74609 74607 AND\n2 1 74607 135275 135276 XOR\n2 1 135307 135276 4130 XOR\n2 1 354 4130 125392 XOR\n2 1 125392 125361 95608 XOR\n2 1 4130 125361 46150 XOR\n2 1 46149 46150 46148 AND\n2 1 46148 125361 125362 XOR\n2 1 355 125362 46152 XOR\n2 1 642 135276 74611 XOR\n2 1 93688 135276 74612 XOR\n2 1 74611 74612 74610 AND\n2 1 74610 135276 135277 XOR\n2 1 135308 135277 4131 XOR\n2 1 355 4131 125393 XOR\n2 1 125393 125362 95609 XOR\n2 1 4131 125362 46153 XOR\n2 1 46152 46153 46151 AND\n2 1 46151 125362 125363 XOR\n2 1 356 125363 46155 XOR\n2 1 643 135277 74614 XOR\n2 1 91697 135277 74615 XOR\n2 1 74614 74615 74613 AND\n2 1 74613 135277 135278 XOR\n2 1 135309 135278 4132 XOR\n2 1 356 4132 125394 XOR\n2 1 125394 125363 95610 XOR\n2 1 4132 125363 46156 XOR\n2 1 46155 46156 46154 AND\n2 1 46154 125363 125364 XOR\n2 1 357 125364 46158 XOR\n2 1 644 135278 74617 XOR\n2 1 91698 135278 74618 XOR\n2 1 74617 74618 74616 AND\n2 1 74616 135278 135279 XOR\n2 1 135310 135279 4133 XOR\n2 1 357 4133 125395 XOR\n2 1 125395 125364 95611 XOR\n2 1 4133 125364 46159 XOR\n2 1 46158 46159 46157 AND\n2 1 46157 125364 125365 XOR\n2 1 358 125365 46161 XOR\n2 1 645 135279 74620 XOR\n2 1 91699 135279 74621 XOR\n2 1 74620 74621 74619 AND\n2 1 74619 135279 135280 XOR\n2 1 135311 135280 4134 XOR\n2 1 358 4134 125396 XOR\n2 1 125396 125365 95612 XOR\n2 1 4134 125365 46162 XOR\n2 1 46161 46162 46160 AND\n2 1 46160 125365 125366 XOR\n2 1 359 125366 46164 XOR\n2 1 646 135280 74623 XOR\n2 1 91700 135280 74624 XOR\n2 1 74623 74624 74622 AND\n2 1 74622 135280 135281 XOR\n2 1 135312 135281 4135 XOR\n2 1 359 4135 125397 XOR\n2 1 125397 125366 95613 XOR\n2 1 4135 125366 46165 XOR\n2 1 46164 46165 46163 AND\n2 1 46163 125366 125367 XOR\n2 1 360 125367 46167 XOR\n2 1 647 135281 74626 XOR\n2 1 91701 135281 74627 XOR\n2 1 74626 74627 74625 AND\n2 1 74625 135281 135282 XOR\n2 1 135313 135282 4136 XOR\n2 1 360 4136 125398 XOR\n2 1 125398 125367 95614 XOR\n2 1 4136 125367 46168 XOR\n2 1 46167 46168 46166 AND\n2 1 46166 125367 125368 XOR\n2 1 361 125368 46170 XOR\n2 1 648 135282 74629 XOR\n2 1 91702 135282 74630 XOR\n",
"2 1 74629 74630 74628 AND\n2 1 74628 135282 135283 XOR\n2 1 135314 135283 4137 XOR\n2 1 361 4137 125399 XOR\n2 1 125399 125368 95615 XOR\n2 1 4137 125368 46171 XOR\n2 1 46170 46171 46169 AND\n2 1 46169 125368 125369 XOR\n2 1 362 125369 46173 XOR\n2 1 649 135283 74632 XOR\n2 1 91703 135283 74633 XOR\n2 1 74632 74633 74631 AND\n2 1 74631 135283 135284 XOR\n2 1 135315 135284 4138 XOR\n2 1 362 4138 125400 XOR\n2 1 125400 125369 95616 XOR\n2 1 4138 125369 46174 XOR\n2 1 46173 46174 46172 AND\n2 1 46172 125369 125370 XOR\n2 1 363 125370 46176 XOR\n2 1 650 135284 74635 XOR\n2 1 91704 135284 74636 XOR\n2 1 74635 74636 74634 AND\n2 1 74634 135284 135285 XOR\n2 1 135316 135285 4139 XOR\n2 1 363 4139 125401 XOR\n2 1 125401 125370 95617 XOR\n2 1 4139 125370 46177 XOR\n2 1 46176 46177 46175 AND\n2 1 46175 125370 125371 XOR\n2 1 364 125371 46179 XOR\n2 1 651 135285 74638 XOR\n2 1 91705 135285 74639 XOR\n2 1 74638 74639 74637 AND\n2 1 74637 135285 135286 XOR\n2 1 135317 135286 4140 XOR\n2 1 364 4140 125402 XOR\n2 1 125402 125371 95618 XOR\n2 1 4140 125371 46180 XOR\n2 1 46179 46180 46178 AND\n2 1 46178 125371 125372 XOR\n2 1 365 125372 46182 XOR\n2 1 652 135286 74641 XOR\n2 1 91706 135286 74642 XOR\n2 1 74641 74642 74640 AND\n2 1 74640 135286 135287 XOR\n2 1 135318 135287 4141 XOR\n2 1 365 4141 125403 XOR\n2 1 125403 125372 95619 XOR\n2 1 4141 125372 46183 XOR\n2 1 46182 46183 46181 AND\n2 1 46181 125372 125373 XOR\n2 1 366 125373 46185 XOR\n2 1 653 135287 74644 XOR\n2 1 91707 135287 74645 XOR\n2 1 74644 74645 74643 AND\n2 1 74643 135287 135288 XOR\n2 1 135319 135288 4142 XOR\n2 1 366 4142 125404 XOR\n2 1 125404 125373 95620 XOR\n2 1 4142 125373 46186 XOR\n2 1 46185 46186 46184 AND\n2 1 46184 125373 125374 XOR\n2 1 367 125374 46188 XOR\n2 1 654 135288 74647 XOR\n2 1 91708 135288 74648 XOR\n2 1 74647 74648 74646 AND\n2 1 74646 135288 135289 XOR\n2 1 135320 135289 4143 XOR\n2 1 367 4143 125405 XOR\n2 1 125405 125374 95621 XOR\n2 1 4143 125374 46189 XOR\n2 1 46188 46189 46187 AND\n2 1 46187 125374 125375 XOR\n2 1 368 125375 46191 XOR\n2 1 655 135289 74650 XOR\n2 1 91709 135289 74651 XOR\n2 1 74650 74651 74649 AND\n2 1 74649 135289 135290 XOR\n2 1 135321 135290 4144 XOR\n2 1 368 4144 125406 XOR\n2 1 125406 125375 95622 XOR\n2 1 4144 125375 46192 XOR\n2 1 46191 46192 46190 AND\n2 1 46190 125375 125376 XOR\n2 1 369 125376 46194 XOR\n2 1 656 135290 74653 XOR\n2 1 91710 135290 74654 XOR\n2 1 74653 74654 74652 AND\n2 1 74652 135290 135291 XOR\n2 1 135322 135291 4145 XOR\n2 1 369 4145 125407 XOR\n2 1 125407 125376 95623 XOR\n2 1 4145 125376 46195 XOR\n2 1 46194 46195 46193 AND\n2 1 46193 125376 125377 XOR\n2 1 370 125377 46197 XOR\n2 1 657 135291 74656 XOR\n2 1 91711 135291 74657 XOR\n2 1 74656 74657 74655 AND\n2 1 74655 135291 135292 XOR\n2 1 135323 135292 4146 XOR\n2 1 370 4146 125408 XOR\n2 1 125408 125377 95624 XOR\n2 1 4146 125377 46198 XOR\n2 1 46197 46198 46196 AND\n2 1 46196 125377 125378 XOR\n2 1 371 125378 46200 XOR\n2 1 658 135292 74659 XOR\n2 1 91712 135292 74660 XOR\n2 1 74659 74660 74658 AND\n2 1 74658 135292 135293 XOR\n2 1 135324 135293 4147 XOR\n2 1 371 4147 125409 XOR\n2 1 125409 125378 95625 XOR\n2 1 4147 125378 46201 XOR\n2 1 46200 46201 46199 AND\n2 1 46199 125378 125379 XOR\n2 1 372 125379 46203 XOR\n2 1 659 135293 74662 XOR\n2 1 91713 135293 74663 XOR\n2 1 74662 74663 74661 AND\n2 1 74661 135293 135294 XOR\n2 1 135325 135294 4148 XOR\n2 1 372 4148 125410 XOR\n2 1 125410 125379 95626 XOR\n2 1 4148 125379 46204 XOR\n2 1 46203 46204 46202 AND\n",
"2 1 46202 125379 125380 XOR\n2 1 373 125380 46206 XOR\n2 1 660 135294 74665 XOR\n2 1 91714 135294 74666 XOR\n2 1 74665 74666 74664 AND\n2 1 74664 135294 135295 XOR\n2 1 135326 135295 4149 XOR\n2 1 373 4149 125411 XOR\n2 1 125411 125380 95627 XOR\n2 1 4149 125380 46207 XOR\n2 1 46206 46207 46205 AND\n2 1 46205 125380 125381 XOR\n2 1 374 125381 46209 XOR\n2 1 661 135295 74668 XOR\n2 1 91715 135295 74669 XOR\n2 1 74668 74669 74667 AND\n2 1 74667 135295 135296 XOR\n2 1 135327 135296 4150 XOR\n2 1 374 4150 125412 XOR\n2 1 125412 125381 95628 XOR\n2 1 4150 125381 46210 XOR\n2 1 46209 46210 46208 AND\n2 1 46208 125381 125382 XOR\n2 1 375 125382 46212 XOR\n2 1 662 135296 74671 XOR\n2 1 91716 135296 74672 XOR\n2 1 74671 74672 74670 AND\n2 1 74670 135296 135297 XOR\n2 1 135328 135297 4151 XOR\n2 1 375 4151 125413 XOR\n2 1 125413 125382 95629 XOR\n2 1 4151 125382 46213 XOR\n2 1 46212 46213 46211 AND\n2 1 46211 125382 125383 XOR\n2 1 376 125383 46215 XOR\n2 1 663 135297 74674 XOR\n2 1 91717 135297 74675 XOR\n2 1 74674 74675 74673 AND\n2 1 74673 135297 135298 XOR\n2 1 135329 135298 4152 XOR\n2 1 376 4152 125414 XOR\n2 1 125414 125383 95630 XOR\n2 1 4152 125383 46216 XOR\n2 1 46215 46216 46214 AND\n2 1 46214 125383 125384 XOR\n2 1 377 125384 46218 XOR\n2 1 664 135298 74677 XOR\n2 1 91718 135298 74678 XOR\n2 1 74677 74678 74676 AND\n2 1 74676 135298 135299 XOR\n2 1 135330 135299 4153 XOR\n2 1 377 4153 125415 XOR\n2 1 125415 125384 95631 XOR\n2 1 4153 125384 46219 XOR\n2 1 46218 46219 46217 AND\n2 1 46217 125384 125385 XOR\n2 1 378 125385 46221 XOR\n2 1 665 135299 74680 XOR\n2 1 91719 135299 74681 XOR\n2 1 74680 74681 74679 AND\n2 1 74679 135299 135300 XOR\n2 1 135331 135300 4154 XOR\n2 1 378 4154 125416 XOR\n2 1 125416 125385 95632 XOR\n2 1 4154 125385 46222 XOR\n2 1 46221 46222 46220 AND\n2 1 46220 125385 125386 XOR\n2 1 379 125386 46224 XOR\n2 1 666 135300 74683 XOR\n2 1 91720 135300 74684 XOR\n2 1 74683 74684 74682 AND\n2 1 74682 135300 135301 XOR\n2 1 135332 135301 4155 XOR\n2 1 379 4155 125417 XOR\n2 1 125417 125386 95633 XOR\n2 1 4155 125386 46225 XOR\n2 1 46224 46225 46223 AND\n2 1 46223 125386 125387 XOR\n2 1 380 125387 46227 XOR\n2 1 667 135301 74686 XOR\n2 1 91721 135301 74687 XOR\n2 1 74686 74687 74685 AND\n2 1 74685 135301 135302 XOR\n2 1 135333 135302 4156 XOR\n2 1 380 4156 125418 XOR\n2 1 125418 125387 95634 XOR\n2 1 4156 125387 46228 XOR\n2 1 46227 46228 46226 AND\n2 1 46226 125387 125388 XOR\n2 1 381 125388 46230 XOR\n2 1 668 135302 74689 XOR\n2 1 91722 135302 74690 XOR\n2 1 74689 74690 74688 AND\n2 1 74688 135302 135303 XOR\n2 1 135334 135303 4157 XOR\n2 1 381 4157 125419 XOR\n2 1 125419 125388 95635 XOR\n2 1 4157 125388 46231 XOR\n2 1 46230 46231 46229 AND\n2 1 46229 125388 125389 XOR\n2 1 382 125389 46233 XOR\n2 1 669 135303 74692 XOR\n2 1 91723 135303 74693 XOR\n2 1 74692 74693 74691 AND\n2 1 74691 135303 135304 XOR\n2 1 135335 135304 4158 XOR\n2 1 382 4158 125420 XOR\n2 1 125420 125389 95636 XOR\n2 1 4158 125389 46234 XOR\n2 1 46233 46234 46232 AND\n2 1 46232 125389 125390 XOR\n2 1 670 135304 74695 XOR\n2 1 91724 135304 74696 XOR\n2 1 74695 74696 74694 AND\n2 1 74694 135304 135305 XOR\n2 1 135336 135305 4159 XOR\n2 1 383 4159 125421 XOR\n2 1 125421 125390 95637 XOR\n2 1 4159 639 75568 XOR\n2 1 4158 638 75567 XOR\n2 1 4157 637 75566 XOR\n2 1 4156 636 75565 XOR\n2 1 4155 635 75564 XOR\n2 1 4154 634 75563 XOR\n2 1 4153 633 75562 XOR\n2 1 4152 632 75561 XOR\n2 1 4151 631 75560 XOR\n2 1 4150 630 75559 XOR\n",
"2 1 4149 629 75558 XOR\n2 1 4148 628 75557 XOR\n2 1 4147 627 75556 XOR\n2 1 4146 626 75555 XOR\n2 1 4145 625 75554 XOR\n2 1 4144 624 75553 XOR\n2 1 4143 623 75552 XOR\n2 1 4142 622 75551 XOR\n2 1 4141 621 75550 XOR\n2 1 4140 620 75549 XOR\n2 1 4139 619 75548 XOR\n2 1 4138 618 75547 XOR\n2 1 4137 617 75546 XOR\n2 1 4136 616 75545 XOR\n2 1 4135 615 75544 XOR\n2 1 4134 614 75543 XOR\n2 1 4133 613 75542 XOR\n2 1 4132 612 75541 XOR\n2 1 4131 611 75540 XOR\n2 1 4130 610 75539 XOR\n2 1 4129 609 75538 XOR\n2 1 4128 608 75537 XOR\n2 1 75504 4159 75472 AND\n2 1 75503 4158 75471 AND\n2 1 75502 4157 75470 AND\n2 1 75501 4156 75469 AND\n2 1 75500 4155 75468 AND\n2 1 75499 4154 75467 AND\n2 1 75498 4153 75466 AND\n2 1 75497 4152 75465 AND\n2 1 75496 4151 75464 AND\n2 1 75495 4150 75463 AND\n2 1 75494 4149 75462 AND\n2 1 75493 4148 75461 AND\n2 1 75492 4147 75460 AND\n2 1 75491 4146 75459 AND\n2 1 75490 4145 75458 AND\n2 1 75489 4144 75457 AND\n2 1 75488 4143 75456 AND\n2 1 75487 4142 75455 AND\n2 1 75486 4141 75454 AND\n2 1 75485 4140 75453 AND\n2 1 75484 4139 75452 AND\n2 1 75483 4138 75451 AND\n2 1 75482 4137 75450 AND\n2 1 75481 4136 75449 AND\n2 1 75480 4135 75448 AND\n2 1 75479 4134 75447 AND\n2 1 75478 4133 75446 AND\n2 1 75477 4132 75445 AND\n2 1 75476 4131 75444 AND\n2 1 75475 4130 75443 AND\n2 1 75474 4129 75442 AND\n2 1 75473 4128 75441 AND\n2 1 75472 607 99829 XOR\n2 1 75471 606 99828 XOR\n2 1 75470 605 99827 XOR\n2 1 75469 604 99826 XOR\n2 1 75468 603 99825 XOR\n2 1 75467 602 99824 XOR\n2 1 75466 601 99823 XOR\n2 1 75465 600 99822 XOR\n2 1 75464 599 99821 XOR\n2 1 75463 598 99820 XOR\n2 1 75462 597 99819 XOR\n2 1 75461 596 99818 XOR\n2 1 75460 595 99817 XOR\n2 1 75459 594 99816 XOR\n2 1 75458 593 99815 XOR\n2 1 75457 592 99814 XOR\n2 1 75456 591 99813 XOR\n2 1 75455 590 99812 XOR\n2 1 75454 589 99811 XOR\n2 1 75453 588 99810 XOR\n2 1 75452 587 99809 XOR\n2 1 75451 586 99808 XOR\n2 1 75450 585 99807 XOR\n2 1 75449 584 99806 XOR\n2 1 75448 583 99805 XOR\n2 1 75447 582 99804 XOR\n2 1 75446 581 99803 XOR\n2 1 75445 580 99802 XOR\n2 1 75444 579 99801 XOR\n2 1 75443 578 99800 XOR\n2 1 75442 577 99799 XOR\n2 1 75441 576 99798 XOR\n2 1 737 748 75376 XOR\n2 1 736 747 75375 XOR\n2 1 767 746 75374 XOR\n2 1 766 745 75373 XOR\n2 1 765 744 75372 XOR\n2 1 764 743 75371 XOR\n2 1 763 742 75370 XOR\n2 1 762 741 75369 XOR\n2 1 761 740 75368 XOR\n2 1 760 739 75367 XOR\n2 1 759 738 75366 XOR\n2 1 758 737 75365 XOR\n2 1 757 736 75364 XOR\n2 1 756 767 75363 XOR\n2 1 755 766 75362 XOR\n2 1 754 765 75361 XOR\n2 1 753 764 75360 XOR\n2 1 752 763 75359 XOR\n2 1 751 762 75358 XOR\n2 1 750 761 75357 XOR\n2 1 749 760 75356 XOR\n2 1 748 759 75355 XOR\n2 1 747 758 75354 XOR\n2 1 746 757 75353 XOR\n2 1 745 756 75352 XOR\n2 1 744 755 75351 XOR\n2 1 743 754 75350 XOR\n2 1 742 753 75349 XOR\n2 1 741 752 75348 XOR\n2 1 740 751 75347 XOR\n2 1 739 750 75346 XOR\n2 1 738 749 75345 XOR\n2 1 75376 757 89680 XOR\n2 1 75375 756 89679 XOR\n2 1 75374 755 89678 XOR\n2 1 75373 754 89677 XOR\n2 1 75372 753 89676 XOR\n2 1 75371 752 89675 XOR\n2 1 75370 751 89674 XOR\n2 1 75369 750 89673 XOR\n2 1 75368 749 89672 XOR\n2 1 75367 748 89671 XOR\n",
"2 1 75366 747 89670 XOR\n2 1 75365 746 89669 XOR\n2 1 75364 745 89668 XOR\n2 1 75363 744 89667 XOR\n2 1 75362 743 89666 XOR\n2 1 75361 742 89665 XOR\n2 1 75360 741 89664 XOR\n2 1 75359 740 89663 XOR\n2 1 75358 739 89662 XOR\n2 1 75357 738 89661 XOR\n2 1 75356 737 89660 XOR\n2 1 75355 736 89659 XOR\n2 1 75354 767 89658 XOR\n2 1 75353 766 89657 XOR\n2 1 75352 765 89656 XOR\n2 1 75351 764 89655 XOR\n2 1 75350 763 89654 XOR\n2 1 75349 762 89653 XOR\n2 1 75348 761 89652 XOR\n2 1 75347 760 89651 XOR\n2 1 75346 759 89650 XOR\n2 1 75345 758 89649 XOR\n2 1 767 735 75216 XOR\n2 1 766 734 75215 XOR\n2 1 765 733 75214 XOR\n2 1 764 732 75213 XOR\n2 1 763 731 75212 XOR\n2 1 762 730 75211 XOR\n2 1 761 729 75210 XOR\n2 1 760 728 75209 XOR\n2 1 759 727 75208 XOR\n2 1 758 726 75207 XOR\n2 1 757 725 75206 XOR\n2 1 756 724 75205 XOR\n2 1 755 723 75204 XOR\n2 1 754 722 75203 XOR\n2 1 753 721 75202 XOR\n2 1 752 720 75201 XOR\n2 1 751 719 75200 XOR\n2 1 750 718 75199 XOR\n2 1 749 717 75198 XOR\n2 1 748 716 75197 XOR\n2 1 747 715 75196 XOR\n2 1 746 714 75195 XOR\n2 1 745 713 75194 XOR\n2 1 744 712 75193 XOR\n2 1 743 711 75192 XOR\n2 1 742 710 75191 XOR\n2 1 741 709 75190 XOR\n2 1 740 708 75189 XOR\n2 1 739 707 75188 XOR\n2 1 738 706 75187 XOR\n2 1 737 705 75186 XOR\n2 1 736 704 75185 XOR\n2 1 767 703 75152 XOR\n2 1 766 702 75151 XOR\n2 1 765 701 75150 XOR\n2 1 764 700 75149 XOR\n2 1 763 699 75148 XOR\n2 1 762 698 75147 XOR\n2 1 761 697 75146 XOR\n2 1 760 696 75145 XOR\n2 1 759 695 75144 XOR\n2 1 758 694 75143 XOR\n2 1 757 693 75142 XOR\n2 1 756 692 75141 XOR\n2 1 755 691 75140 XOR\n2 1 754 690 75139 XOR\n2 1 753 689 75138 XOR\n2 1 752 688 75137 XOR\n2 1 751 687 75136 XOR\n2 1 750 686 75135 XOR\n2 1 749 685 75134 XOR\n2 1 748 684 75133 XOR\n2 1 747 683 75132 XOR\n2 1 746 682 75131 XOR\n2 1 745 681 75130 XOR\n2 1 744 680 75129 XOR\n2 1 743 679 75128 XOR\n2 1 742 678 75127 XOR\n2 1 741 677 75126 XOR\n2 1 740 676 75125 XOR\n2 1 739 675 75124 XOR\n2 1 738 674 75123 XOR\n2 1 737 673 75122 XOR\n2 1 736 672 75121 XOR\n2 1 735 703 75120 XOR\n2 1 734 702 75119 XOR\n2 1 733 701 75118 XOR\n2 1 732 700 75117 XOR\n2 1 731 699 75116 XOR\n2 1 730 698 75115 XOR\n2 1 729 697 75114 XOR\n2 1 728 696 75113 XOR\n2 1 727 695 75112 XOR\n2 1 726 694 75111 XOR\n2 1 725 693 75110 XOR\n2 1 724 692 75109 XOR\n2 1 723 691 75108 XOR\n2 1 722 690 75107 XOR\n2 1 721 689 75106 XOR\n2 1 720 688 75105 XOR\n2 1 719 687 75104 XOR\n2 1 718 686 75103 XOR\n2 1 717 685 75102 XOR\n2 1 716 684 75101 XOR\n2 1 715 683 75100 XOR\n2 1 714 682 75099 XOR\n2 1 713 681 75098 XOR\n2 1 712 680 75097 XOR\n2 1 711 679 75096 XOR\n2 1 710 678 75095 XOR\n2 1 709 677 75094 XOR\n2 1 708 676 75093 XOR\n2 1 707 675 75092 XOR\n2 1 706 674 75091 XOR\n2 1 705 673 75090 XOR\n2 1 704 672 75089 XOR\n2 1 75152 75120 75088 AND\n2 1 75151 75119 75087 AND\n2 1 75150 75118 75086 AND\n2 1 75149 75117 75085 AND\n2 1 75148 75116 75084 AND\n2 1 75147 75115 75083 AND\n2 1 75146 75114 75082 AND\n2 1 75145 75113 75081 AND\n2 1 75144 75112 75080 AND\n2 1 75143 75111 75079 AND\n",
"2 1 75142 75110 75078 AND\n2 1 75141 75109 75077 AND\n2 1 75140 75108 75076 AND\n2 1 75139 75107 75075 AND\n2 1 75138 75106 75074 AND\n2 1 75137 75105 75073 AND\n2 1 75136 75104 75072 AND\n2 1 75135 75103 75071 AND\n2 1 75134 75102 75070 AND\n2 1 75133 75101 75069 AND\n2 1 75132 75100 75068 AND\n2 1 75131 75099 75067 AND\n2 1 75130 75098 75066 AND\n2 1 75129 75097 75065 AND\n2 1 75128 75096 75064 AND\n2 1 75127 75095 75063 AND\n2 1 75126 75094 75062 AND\n2 1 75125 75093 75061 AND\n2 1 75124 75092 75060 AND\n2 1 75123 75091 75059 AND\n2 1 75122 75090 75058 AND\n2 1 75121 75089 75057 AND\n2 1 75088 703 87632 XOR\n2 1 89680 87632 126198 XOR\n2 1 75087 702 87631 XOR\n2 1 89679 87631 126197 XOR\n2 1 75086 701 87630 XOR\n2 1 89678 87630 126196 XOR\n2 1 75085 700 87629 XOR\n2 1 89677 87629 126195 XOR\n2 1 75084 699 87628 XOR\n2 1 89676 87628 126194 XOR\n2 1 75083 698 87627 XOR\n2 1 89675 87627 126193 XOR\n2 1 75082 697 87626 XOR\n2 1 89674 87626 126192 XOR\n2 1 75081 696 87625 XOR\n2 1 89673 87625 126191 XOR\n2 1 75080 695 87624 XOR\n2 1 89672 87624 126190 XOR\n2 1 75079 694 87623 XOR\n2 1 89671 87623 126189 XOR\n2 1 75078 693 87622 XOR\n2 1 89670 87622 126188 XOR\n2 1 75077 692 87621 XOR\n2 1 89669 87621 126187 XOR\n2 1 75076 691 87620 XOR\n2 1 89668 87620 126186 XOR\n2 1 75075 690 87619 XOR\n2 1 89667 87619 126185 XOR\n2 1 75074 689 87618 XOR\n2 1 89666 87618 126184 XOR\n2 1 75073 688 87617 XOR\n2 1 89665 87617 126183 XOR\n2 1 75072 687 87616 XOR\n2 1 89664 87616 126182 XOR\n2 1 75071 686 87615 XOR\n2 1 89663 87615 126181 XOR\n2 1 75070 685 87614 XOR\n2 1 89662 87614 126180 XOR\n2 1 75069 684 87613 XOR\n2 1 89661 87613 126179 XOR\n2 1 75068 683 87612 XOR\n2 1 89660 87612 126178 XOR\n2 1 75067 682 87611 XOR\n2 1 89659 87611 126177 XOR\n2 1 75066 681 87610 XOR\n2 1 89658 87610 126176 XOR\n2 1 75065 680 87609 XOR\n2 1 89657 87609 126175 XOR\n2 1 75064 679 87608 XOR\n2 1 89656 87608 126174 XOR\n2 1 75063 678 87607 XOR\n2 1 89655 87607 126173 XOR\n2 1 75062 677 87606 XOR\n2 1 89654 87606 126172 XOR\n2 1 75061 676 87605 XOR\n2 1 89653 87605 126171 XOR\n2 1 75060 675 87604 XOR\n2 1 89652 87604 126170 XOR\n2 1 75059 674 87603 XOR\n2 1 89651 87603 126169 XOR\n2 1 75058 673 87602 XOR\n2 1 89650 87602 126168 XOR\n2 1 75057 672 87601 XOR\n2 1 89649 87601 126137 AND\n2 1 89649 87601 85553 XOR\n2 1 126168 126137 85554 XOR\n2 1 89650 126137 47521 XOR\n2 1 87602 126137 47522 XOR\n2 1 47521 47522 47520 AND\n2 1 47520 126137 126138 XOR\n2 1 126169 126138 85555 XOR\n2 1 89651 126138 47524 XOR\n2 1 87603 126138 47525 XOR\n2 1 47524 47525 47523 AND\n2 1 47523 126138 126139 XOR\n2 1 126170 126139 85556 XOR\n2 1 89652 126139 47527 XOR\n2 1 87604 126139 47528 XOR\n2 1 47527 47528 47526 AND\n2 1 47526 126139 126140 XOR\n2 1 126171 126140 85557 XOR\n2 1 89653 126140 47530 XOR\n2 1 87605 126140 47531 XOR\n2 1 47530 47531 47529 AND\n2 1 47529 126140 126141 XOR\n2 1 126172 126141 85558 XOR\n2 1 89654 126141 47533 XOR\n2 1 87606 126141 47534 XOR\n2 1 47533 47534 47532 AND\n2 1 47532 126141 126142 XOR\n2 1 126173 126142 85559 XOR\n2 1 89655 126142 47536 XOR\n2 1 87607 126142 47537 XOR\n2 1 47536 47537 47535 AND\n2 1 47535 126142 126143 XOR\n2 1 126174 126143 85560 XOR\n2 1 89656 126143 47539 XOR\n2 1 87608 126143 47540 XOR\n2 1 47539 47540 47538 AND\n2 1 47538 126143 126144 XOR\n2 1 126175 126144 85561 XOR\n2 1 89657 126144 47542 XOR\n2 1 87609 126144 47543 XOR\n2 1 47542 47543 47541 AND\n2 1 47541 126144 126145 XOR\n2 1 126176 126145 85562 XOR\n",
"2 1 89658 126145 47545 XOR\n2 1 87610 126145 47546 XOR\n2 1 47545 47546 47544 AND\n2 1 47544 126145 126146 XOR\n2 1 126177 126146 85563 XOR\n2 1 89659 126146 47548 XOR\n2 1 87611 126146 47549 XOR\n2 1 47548 47549 47547 AND\n2 1 47547 126146 126147 XOR\n2 1 126178 126147 85564 XOR\n2 1 89660 126147 47551 XOR\n2 1 87612 126147 47552 XOR\n2 1 47551 47552 47550 AND\n2 1 47550 126147 126148 XOR\n2 1 126179 126148 85565 XOR\n2 1 89661 126148 47554 XOR\n2 1 87613 126148 47555 XOR\n2 1 47554 47555 47553 AND\n2 1 47553 126148 126149 XOR\n2 1 126180 126149 85566 XOR\n2 1 89662 126149 47557 XOR\n2 1 87614 126149 47558 XOR\n2 1 47557 47558 47556 AND\n2 1 47556 126149 126150 XOR\n2 1 126181 126150 85567 XOR\n2 1 89663 126150 47560 XOR\n2 1 87615 126150 47561 XOR\n2 1 47560 47561 47559 AND\n2 1 47559 126150 126151 XOR\n2 1 126182 126151 85568 XOR\n2 1 89664 126151 47563 XOR\n2 1 87616 126151 47564 XOR\n2 1 47563 47564 47562 AND\n2 1 47562 126151 126152 XOR\n2 1 126183 126152 85569 XOR\n2 1 89665 126152 47566 XOR\n2 1 87617 126152 47567 XOR\n2 1 47566 47567 47565 AND\n2 1 47565 126152 126153 XOR\n2 1 126184 126153 85570 XOR\n2 1 89666 126153 47569 XOR\n2 1 87618 126153 47570 XOR\n2 1 47569 47570 47568 AND\n2 1 47568 126153 126154 XOR\n2 1 126185 126154 85571 XOR\n2 1 89667 126154 47572 XOR\n2 1 87619 126154 47573 XOR\n2 1 47572 47573 47571 AND\n2 1 47571 126154 126155 XOR\n2 1 126186 126155 85572 XOR\n2 1 89668 126155 47575 XOR\n2 1 87620 126155 47576 XOR\n2 1 47575 47576 47574 AND\n2 1 47574 126155 126156 XOR\n2 1 126187 126156 85573 XOR\n2 1 89669 126156 47578 XOR\n2 1 87621 126156 47579 XOR\n2 1 47578 47579 47577 AND\n2 1 47577 126156 126157 XOR\n2 1 126188 126157 85574 XOR\n2 1 89670 126157 47581 XOR\n2 1 87622 126157 47582 XOR\n2 1 47581 47582 47580 AND\n2 1 47580 126157 126158 XOR\n2 1 126189 126158 85575 XOR\n2 1 89671 126158 47584 XOR\n2 1 87623 126158 47585 XOR\n2 1 47584 47585 47583 AND\n2 1 47583 126158 126159 XOR\n2 1 126190 126159 85576 XOR\n2 1 89672 126159 47587 XOR\n2 1 87624 126159 47588 XOR\n2 1 47587 47588 47586 AND\n2 1 47586 126159 126160 XOR\n2 1 126191 126160 85577 XOR\n2 1 89673 126160 47590 XOR\n2 1 87625 126160 47591 XOR\n2 1 47590 47591 47589 AND\n2 1 47589 126160 126161 XOR\n2 1 126192 126161 85578 XOR\n2 1 89674 126161 47593 XOR\n2 1 87626 126161 47594 XOR\n2 1 47593 47594 47592 AND\n2 1 47592 126161 126162 XOR\n2 1 126193 126162 85579 XOR\n2 1 89675 126162 47596 XOR\n2 1 87627 126162 47597 XOR\n2 1 47596 47597 47595 AND\n2 1 47595 126162 126163 XOR\n2 1 126194 126163 85580 XOR\n2 1 89676 126163 47599 XOR\n2 1 87628 126163 47600 XOR\n2 1 47599 47600 47598 AND\n2 1 47598 126163 126164 XOR\n2 1 126195 126164 85581 XOR\n2 1 89677 126164 47602 XOR\n2 1 87629 126164 47603 XOR\n2 1 47602 47603 47601 AND\n2 1 47601 126164 126165 XOR\n2 1 126196 126165 85582 XOR\n2 1 89678 126165 47605 XOR\n2 1 87630 126165 47606 XOR\n2 1 47605 47606 47604 AND\n2 1 47604 126165 126166 XOR\n2 1 126197 126166 85583 XOR\n2 1 89679 126166 47608 XOR\n2 1 87631 126166 47609 XOR\n2 1 47608 47609 47607 AND\n2 1 47607 126166 126167 XOR\n2 1 126198 126167 85584 XOR\n2 1 93686 85553 135337 AND\n2 1 93686 85553 4576 XOR\n2 1 93687 85554 135368 XOR\n2 1 93688 85555 135369 XOR\n2 1 91697 85556 135370 XOR\n2 1 91698 85557 135371 XOR\n2 1 91699 85558 135372 XOR\n2 1 91700 85559 135373 XOR\n2 1 91701 85560 135374 XOR\n2 1 91702 85561 135375 XOR\n2 1 91703 85562 135376 XOR\n2 1 91704 85563 135377 XOR\n2 1 91705 85564 135378 XOR\n2 1 91706 85565 135379 XOR\n2 1 91707 85566 135380 XOR\n2 1 91708 85567 135381 XOR\n2 1 91709 85568 135382 XOR\n2 1 91710 85569 135383 XOR\n",
"2 1 91711 85570 135384 XOR\n2 1 91712 85571 135385 XOR\n2 1 91713 85572 135386 XOR\n2 1 91714 85573 135387 XOR\n2 1 91715 85574 135388 XOR\n2 1 91716 85575 135389 XOR\n2 1 91717 85576 135390 XOR\n2 1 91718 85577 135391 XOR\n2 1 91719 85578 135392 XOR\n2 1 91720 85579 135393 XOR\n2 1 91721 85580 135394 XOR\n2 1 91722 85581 135395 XOR\n2 1 91723 85582 135396 XOR\n2 1 91724 85583 135397 XOR\n2 1 91725 85584 135398 XOR\n2 1 135368 135337 4577 XOR\n2 1 93687 135337 74698 XOR\n2 1 85554 135337 74699 XOR\n2 1 74698 74699 74697 AND\n2 1 74697 135337 135338 XOR\n2 1 135369 135338 4578 XOR\n2 1 93688 135338 74701 XOR\n2 1 85555 135338 74702 XOR\n2 1 74701 74702 74700 AND\n2 1 74700 135338 135339 XOR\n2 1 135370 135339 4579 XOR\n2 1 91697 135339 74704 XOR\n2 1 85556 135339 74705 XOR\n2 1 74704 74705 74703 AND\n2 1 74703 135339 135340 XOR\n2 1 135371 135340 4580 XOR\n2 1 91698 135340 74707 XOR\n2 1 85557 135340 74708 XOR\n2 1 74707 74708 74706 AND\n2 1 74706 135340 135341 XOR\n2 1 135372 135341 4581 XOR\n2 1 91699 135341 74710 XOR\n2 1 85558 135341 74711 XOR\n2 1 74710 74711 74709 AND\n2 1 74709 135341 135342 XOR\n2 1 135373 135342 4582 XOR\n2 1 91700 135342 74713 XOR\n2 1 85559 135342 74714 XOR\n2 1 74713 74714 74712 AND\n2 1 74712 135342 135343 XOR\n2 1 135374 135343 4583 XOR\n2 1 91701 135343 74716 XOR\n2 1 85560 135343 74717 XOR\n2 1 74716 74717 74715 AND\n2 1 74715 135343 135344 XOR\n2 1 135375 135344 4584 XOR\n2 1 91702 135344 74719 XOR\n2 1 85561 135344 74720 XOR\n2 1 74719 74720 74718 AND\n2 1 74718 135344 135345 XOR\n2 1 135376 135345 4585 XOR\n2 1 91703 135345 74722 XOR\n2 1 85562 135345 74723 XOR\n2 1 74722 74723 74721 AND\n2 1 74721 135345 135346 XOR\n2 1 135377 135346 4586 XOR\n2 1 91704 135346 74725 XOR\n2 1 85563 135346 74726 XOR\n2 1 74725 74726 74724 AND\n2 1 74724 135346 135347 XOR\n2 1 135378 135347 4587 XOR\n2 1 91705 135347 74728 XOR\n2 1 85564 135347 74729 XOR\n2 1 74728 74729 74727 AND\n2 1 74727 135347 135348 XOR\n2 1 135379 135348 4588 XOR\n2 1 91706 135348 74731 XOR\n2 1 85565 135348 74732 XOR\n2 1 74731 74732 74730 AND\n2 1 74730 135348 135349 XOR\n2 1 135380 135349 4589 XOR\n2 1 91707 135349 74734 XOR\n2 1 85566 135349 74735 XOR\n2 1 74734 74735 74733 AND\n2 1 74733 135349 135350 XOR\n2 1 135381 135350 4590 XOR\n2 1 91708 135350 74737 XOR\n2 1 85567 135350 74738 XOR\n2 1 74737 74738 74736 AND\n2 1 74736 135350 135351 XOR\n2 1 135382 135351 4591 XOR\n2 1 91709 135351 74740 XOR\n2 1 85568 135351 74741 XOR\n2 1 74740 74741 74739 AND\n2 1 74739 135351 135352 XOR\n2 1 135383 135352 4592 XOR\n2 1 91710 135352 74743 XOR\n2 1 85569 135352 74744 XOR\n2 1 74743 74744 74742 AND\n2 1 74742 135352 135353 XOR\n2 1 135384 135353 4593 XOR\n2 1 91711 135353 74746 XOR\n2 1 85570 135353 74747 XOR\n2 1 74746 74747 74745 AND\n2 1 74745 135353 135354 XOR\n2 1 135385 135354 4594 XOR\n2 1 91712 135354 74749 XOR\n2 1 85571 135354 74750 XOR\n2 1 74749 74750 74748 AND\n2 1 74748 135354 135355 XOR\n2 1 135386 135355 4595 XOR\n2 1 91713 135355 74752 XOR\n2 1 85572 135355 74753 XOR\n2 1 74752 74753 74751 AND\n2 1 74751 135355 135356 XOR\n2 1 135387 135356 4596 XOR\n2 1 91714 135356 74755 XOR\n2 1 85573 135356 74756 XOR\n2 1 74755 74756 74754 AND\n2 1 74754 135356 135357 XOR\n2 1 135388 135357 4597 XOR\n2 1 91715 135357 74758 XOR\n2 1 85574 135357 74759 XOR\n2 1 74758 74759 74757 AND\n2 1 74757 135357 135358 XOR\n2 1 135389 135358 4598 XOR\n2 1 91716 135358 74761 XOR\n2 1 85575 135358 74762 XOR\n2 1 74761 74762 74760 AND\n2 1 74760 135358 135359 XOR\n2 1 135390 135359 4599 XOR\n2 1 91717 135359 74764 XOR\n2 1 85576 135359 74765 XOR\n",
"2 1 74764 74765 74763 AND\n2 1 74763 135359 135360 XOR\n2 1 135391 135360 4600 XOR\n2 1 91718 135360 74767 XOR\n2 1 85577 135360 74768 XOR\n2 1 74767 74768 74766 AND\n2 1 74766 135360 135361 XOR\n2 1 135392 135361 4601 XOR\n2 1 91719 135361 74770 XOR\n2 1 85578 135361 74771 XOR\n2 1 74770 74771 74769 AND\n2 1 74769 135361 135362 XOR\n2 1 135393 135362 4602 XOR\n2 1 91720 135362 74773 XOR\n2 1 85579 135362 74774 XOR\n2 1 74773 74774 74772 AND\n2 1 74772 135362 135363 XOR\n2 1 135394 135363 4603 XOR\n2 1 91721 135363 74776 XOR\n2 1 85580 135363 74777 XOR\n2 1 74776 74777 74775 AND\n2 1 74775 135363 135364 XOR\n2 1 135395 135364 4604 XOR\n2 1 91722 135364 74779 XOR\n2 1 85581 135364 74780 XOR\n2 1 74779 74780 74778 AND\n2 1 74778 135364 135365 XOR\n2 1 135396 135365 4605 XOR\n2 1 91723 135365 74782 XOR\n2 1 85582 135365 74783 XOR\n2 1 74782 74783 74781 AND\n2 1 74781 135365 135366 XOR\n2 1 135397 135366 4606 XOR\n2 1 91724 135366 74785 XOR\n2 1 85583 135366 74786 XOR\n2 1 74785 74786 74784 AND\n2 1 74784 135366 135367 XOR\n2 1 135398 135367 4607 XOR\n2 1 4607 767 75312 XOR\n2 1 4606 766 75311 XOR\n2 1 4605 765 75310 XOR\n2 1 4604 764 75309 XOR\n2 1 4603 763 75308 XOR\n2 1 4602 762 75307 XOR\n2 1 4601 761 75306 XOR\n2 1 4600 760 75305 XOR\n2 1 4599 759 75304 XOR\n2 1 4598 758 75303 XOR\n2 1 4597 757 75302 XOR\n2 1 4596 756 75301 XOR\n2 1 4595 755 75300 XOR\n2 1 4594 754 75299 XOR\n2 1 4593 753 75298 XOR\n2 1 4592 752 75297 XOR\n2 1 4591 751 75296 XOR\n2 1 4590 750 75295 XOR\n2 1 4589 749 75294 XOR\n2 1 4588 748 75293 XOR\n2 1 4587 747 75292 XOR\n2 1 4586 746 75291 XOR\n2 1 4585 745 75290 XOR\n2 1 4584 744 75289 XOR\n2 1 4583 743 75288 XOR\n2 1 4582 742 75287 XOR\n2 1 4581 741 75286 XOR\n2 1 4580 740 75285 XOR\n2 1 4579 739 75284 XOR\n2 1 4578 738 75283 XOR\n2 1 4577 737 75282 XOR\n2 1 4576 736 75281 XOR\n2 1 4607 735 75248 XOR\n2 1 4606 734 75247 XOR\n2 1 4605 733 75246 XOR\n2 1 4604 732 75245 XOR\n2 1 4603 731 75244 XOR\n2 1 4602 730 75243 XOR\n2 1 4601 729 75242 XOR\n2 1 4600 728 75241 XOR\n2 1 4599 727 75240 XOR\n2 1 4598 726 75239 XOR\n2 1 4597 725 75238 XOR\n2 1 4596 724 75237 XOR\n2 1 4595 723 75236 XOR\n2 1 4594 722 75235 XOR\n2 1 4593 721 75234 XOR\n2 1 4592 720 75233 XOR\n2 1 4591 719 75232 XOR\n2 1 4590 718 75231 XOR\n2 1 4589 717 75230 XOR\n2 1 4588 716 75229 XOR\n2 1 4587 715 75228 XOR\n2 1 4586 714 75227 XOR\n2 1 4585 713 75226 XOR\n2 1 4584 712 75225 XOR\n2 1 4583 711 75224 XOR\n2 1 4582 710 75223 XOR\n2 1 4581 709 75222 XOR\n2 1 4580 708 75221 XOR\n2 1 4579 707 75220 XOR\n2 1 4578 706 75219 XOR\n2 1 4577 705 75218 XOR\n2 1 4576 704 75217 XOR\n2 1 75248 75216 75184 AND\n2 1 75247 75215 75183 AND\n2 1 75246 75214 75182 AND\n2 1 75245 75213 75181 AND\n2 1 75244 75212 75180 AND\n2 1 75243 75211 75179 AND\n2 1 75242 75210 75178 AND\n2 1 75241 75209 75177 AND\n2 1 75240 75208 75176 AND\n2 1 75239 75207 75175 AND\n2 1 75238 75206 75174 AND\n2 1 75237 75205 75173 AND\n2 1 75236 75204 75172 AND\n2 1 75235 75203 75171 AND\n2 1 75234 75202 75170 AND\n2 1 75233 75201 75169 AND\n2 1 75232 75200 75168 AND\n2 1 75231 75199 75167 AND\n2 1 75230 75198 75166 AND\n2 1 75229 75197 75165 AND\n2 1 75228 75196 75164 AND\n2 1 75227 75195 75163 AND\n2 1 75226 75194 75162 AND\n2 1 75225 75193 75161 AND\n2 1 75224 75192 75160 AND\n2 1 75223 75191 75159 AND\n",
"2 1 75222 75190 75158 AND\n2 1 75221 75189 75157 AND\n2 1 75220 75188 75156 AND\n2 1 75219 75187 75155 AND\n2 1 75218 75186 75154 AND\n2 1 75217 75185 75153 AND\n2 1 75184 735 87600 XOR\n2 1 75183 734 87599 XOR\n2 1 75182 733 87598 XOR\n2 1 75181 732 87597 XOR\n2 1 75180 731 87596 XOR\n2 1 75179 730 87595 XOR\n2 1 75178 729 87594 XOR\n2 1 75177 728 87593 XOR\n2 1 75176 727 87592 XOR\n2 1 75175 726 87591 XOR\n2 1 75174 725 87590 XOR\n2 1 75173 724 87589 XOR\n2 1 75172 723 87588 XOR\n2 1 75171 722 87587 XOR\n2 1 75170 721 87586 XOR\n2 1 75169 720 87585 XOR\n2 1 75168 719 87584 XOR\n2 1 75167 718 87583 XOR\n2 1 75166 717 87582 XOR\n2 1 75165 716 87581 XOR\n2 1 75164 715 87580 XOR\n2 1 75163 714 87579 XOR\n2 1 75162 713 87578 XOR\n2 1 75161 712 87577 XOR\n2 1 75160 711 87576 XOR\n2 1 75159 710 87575 XOR\n2 1 75158 709 87574 XOR\n2 1 75157 708 87573 XOR\n2 1 75156 707 87572 XOR\n2 1 75155 706 87571 XOR\n2 1 75154 705 87570 XOR\n2 1 75153 704 87569 XOR\n2 1 4577 4588 68750 XOR\n2 1 4576 4587 68749 XOR\n2 1 4607 4586 68748 XOR\n2 1 4606 4585 68747 XOR\n2 1 4605 4584 68746 XOR\n2 1 4604 4583 68745 XOR\n2 1 4603 4582 68744 XOR\n2 1 4602 4581 68743 XOR\n2 1 4601 4580 68742 XOR\n2 1 4600 4579 68741 XOR\n2 1 4599 4578 68740 XOR\n2 1 4598 4577 68739 XOR\n2 1 4597 4576 68738 XOR\n2 1 4596 4607 68737 XOR\n2 1 4595 4606 68736 XOR\n2 1 4594 4605 68735 XOR\n2 1 4593 4604 68734 XOR\n2 1 4592 4603 68733 XOR\n2 1 4591 4602 68732 XOR\n2 1 4590 4601 68731 XOR\n2 1 4589 4600 68730 XOR\n2 1 4588 4599 68729 XOR\n2 1 4587 4598 68728 XOR\n2 1 4586 4597 68727 XOR\n2 1 4585 4596 68726 XOR\n2 1 4584 4595 68725 XOR\n2 1 4583 4594 68724 XOR\n2 1 4582 4593 68723 XOR\n2 1 4581 4592 68722 XOR\n2 1 4580 4591 68721 XOR\n2 1 4579 4590 68720 XOR\n2 1 4578 4589 68719 XOR\n2 1 68750 4597 89648 XOR\n2 1 89648 87600 125936 XOR\n2 1 68749 4596 89647 XOR\n2 1 89647 87599 125935 XOR\n2 1 68748 4595 89646 XOR\n2 1 89646 87598 125934 XOR\n2 1 68747 4594 89645 XOR\n2 1 89645 87597 125933 XOR\n2 1 68746 4593 89644 XOR\n2 1 89644 87596 125932 XOR\n2 1 68745 4592 89643 XOR\n2 1 89643 87595 125931 XOR\n2 1 68744 4591 89642 XOR\n2 1 89642 87594 125930 XOR\n2 1 68743 4590 89641 XOR\n2 1 89641 87593 125929 XOR\n2 1 68742 4589 89640 XOR\n2 1 89640 87592 125928 XOR\n2 1 68741 4588 89639 XOR\n2 1 89639 87591 125927 XOR\n2 1 68740 4587 89638 XOR\n2 1 89638 87590 125926 XOR\n2 1 68739 4586 89637 XOR\n2 1 89637 87589 125925 XOR\n2 1 68738 4585 89636 XOR\n2 1 89636 87588 125924 XOR\n2 1 68737 4584 89635 XOR\n2 1 89635 87587 125923 XOR\n2 1 68736 4583 89634 XOR\n2 1 89634 87586 125922 XOR\n2 1 68735 4582 89633 XOR\n2 1 89633 87585 125921 XOR\n2 1 68734 4581 89632 XOR\n2 1 89632 87584 125920 XOR\n2 1 68733 4580 89631 XOR\n2 1 89631 87583 125919 XOR\n2 1 68732 4579 89630 XOR\n2 1 89630 87582 125918 XOR\n2 1 68731 4578 89629 XOR\n2 1 89629 87581 125917 XOR\n2 1 68730 4577 89628 XOR\n2 1 89628 87580 125916 XOR\n2 1 68729 4576 89627 XOR\n2 1 89627 87579 125915 XOR\n2 1 68728 4607 89626 XOR\n2 1 89626 87578 125914 XOR\n2 1 68727 4606 89625 XOR\n2 1 89625 87577 125913 XOR\n2 1 68726 4605 89624 XOR\n2 1 89624 87576 125912 XOR\n2 1 68725 4604 89623 XOR\n2 1 89623 87575 125911 XOR\n2 1 68724 4603 89622 XOR\n2 1 89622 87574 125910 XOR\n2 1 68723 4602 89621 XOR\n2 1 89621 87573 125909 XOR\n2 1 68722 4601 89620 XOR\n2 1 89620 87572 125908 XOR\n",
"2 1 68721 4600 89619 XOR\n2 1 89619 87571 125907 XOR\n2 1 68720 4599 89618 XOR\n2 1 89618 87570 125906 XOR\n2 1 68719 4598 89617 XOR\n2 1 89617 87569 125875 AND\n2 1 89617 87569 85521 XOR\n2 1 125906 125875 85522 XOR\n2 1 89618 125875 47076 XOR\n2 1 87570 125875 47077 XOR\n2 1 47076 47077 47075 AND\n2 1 47075 125875 125876 XOR\n2 1 125907 125876 85523 XOR\n2 1 89619 125876 47079 XOR\n2 1 87571 125876 47080 XOR\n2 1 47079 47080 47078 AND\n2 1 47078 125876 125877 XOR\n2 1 125908 125877 85524 XOR\n2 1 89620 125877 47082 XOR\n2 1 87572 125877 47083 XOR\n2 1 47082 47083 47081 AND\n2 1 47081 125877 125878 XOR\n2 1 125909 125878 85525 XOR\n2 1 89621 125878 47085 XOR\n2 1 87573 125878 47086 XOR\n2 1 47085 47086 47084 AND\n2 1 47084 125878 125879 XOR\n2 1 125910 125879 85526 XOR\n2 1 89622 125879 47088 XOR\n2 1 87574 125879 47089 XOR\n2 1 47088 47089 47087 AND\n2 1 47087 125879 125880 XOR\n2 1 125911 125880 85527 XOR\n2 1 89623 125880 47091 XOR\n2 1 87575 125880 47092 XOR\n2 1 47091 47092 47090 AND\n2 1 47090 125880 125881 XOR\n2 1 125912 125881 85528 XOR\n2 1 89624 125881 47094 XOR\n2 1 87576 125881 47095 XOR\n2 1 47094 47095 47093 AND\n2 1 47093 125881 125882 XOR\n2 1 125913 125882 85529 XOR\n2 1 89625 125882 47097 XOR\n2 1 87577 125882 47098 XOR\n2 1 47097 47098 47096 AND\n2 1 47096 125882 125883 XOR\n2 1 125914 125883 85530 XOR\n2 1 89626 125883 47100 XOR\n2 1 87578 125883 47101 XOR\n2 1 47100 47101 47099 AND\n2 1 47099 125883 125884 XOR\n2 1 125915 125884 85531 XOR\n2 1 89627 125884 47103 XOR\n2 1 87579 125884 47104 XOR\n2 1 47103 47104 47102 AND\n2 1 47102 125884 125885 XOR\n2 1 125916 125885 85532 XOR\n2 1 89628 125885 47106 XOR\n2 1 87580 125885 47107 XOR\n2 1 47106 47107 47105 AND\n2 1 47105 125885 125886 XOR\n2 1 125917 125886 85533 XOR\n2 1 89629 125886 47109 XOR\n2 1 87581 125886 47110 XOR\n2 1 47109 47110 47108 AND\n2 1 47108 125886 125887 XOR\n2 1 125918 125887 85534 XOR\n2 1 89630 125887 47112 XOR\n2 1 87582 125887 47113 XOR\n2 1 47112 47113 47111 AND\n2 1 47111 125887 125888 XOR\n2 1 125919 125888 85535 XOR\n2 1 89631 125888 47115 XOR\n2 1 87583 125888 47116 XOR\n2 1 47115 47116 47114 AND\n2 1 47114 125888 125889 XOR\n2 1 125920 125889 85536 XOR\n2 1 89632 125889 47118 XOR\n2 1 87584 125889 47119 XOR\n2 1 47118 47119 47117 AND\n2 1 47117 125889 125890 XOR\n2 1 125921 125890 85537 XOR\n2 1 89633 125890 47121 XOR\n2 1 87585 125890 47122 XOR\n2 1 47121 47122 47120 AND\n2 1 47120 125890 125891 XOR\n2 1 125922 125891 85538 XOR\n2 1 89634 125891 47124 XOR\n2 1 87586 125891 47125 XOR\n2 1 47124 47125 47123 AND\n2 1 47123 125891 125892 XOR\n2 1 125923 125892 85539 XOR\n2 1 89635 125892 47127 XOR\n2 1 87587 125892 47128 XOR\n2 1 47127 47128 47126 AND\n2 1 47126 125892 125893 XOR\n2 1 125924 125893 85540 XOR\n2 1 89636 125893 47130 XOR\n2 1 87588 125893 47131 XOR\n2 1 47130 47131 47129 AND\n2 1 47129 125893 125894 XOR\n2 1 125925 125894 85541 XOR\n2 1 89637 125894 47133 XOR\n2 1 87589 125894 47134 XOR\n2 1 47133 47134 47132 AND\n2 1 47132 125894 125895 XOR\n2 1 125926 125895 85542 XOR\n2 1 89638 125895 47136 XOR\n2 1 87590 125895 47137 XOR\n2 1 47136 47137 47135 AND\n2 1 47135 125895 125896 XOR\n2 1 125927 125896 85543 XOR\n2 1 89639 125896 47139 XOR\n2 1 87591 125896 47140 XOR\n2 1 47139 47140 47138 AND\n2 1 47138 125896 125897 XOR\n2 1 125928 125897 85544 XOR\n2 1 89640 125897 47142 XOR\n2 1 87592 125897 47143 XOR\n2 1 47142 47143 47141 AND\n2 1 47141 125897 125898 XOR\n2 1 125929 125898 85545 XOR\n2 1 89641 125898 47145 XOR\n2 1 87593 125898 47146 XOR\n2 1 47145 47146 47144 AND\n2 1 47144 125898 125899 XOR\n2 1 125930 125899 85546 XOR\n",
"2 1 89642 125899 47148 XOR\n2 1 87594 125899 47149 XOR\n2 1 47148 47149 47147 AND\n2 1 47147 125899 125900 XOR\n2 1 125931 125900 85547 XOR\n2 1 89643 125900 47151 XOR\n2 1 87595 125900 47152 XOR\n2 1 47151 47152 47150 AND\n2 1 47150 125900 125901 XOR\n2 1 125932 125901 85548 XOR\n2 1 89644 125901 47154 XOR\n2 1 87596 125901 47155 XOR\n2 1 47154 47155 47153 AND\n2 1 47153 125901 125902 XOR\n2 1 125933 125902 85549 XOR\n2 1 89645 125902 47157 XOR\n2 1 87597 125902 47158 XOR\n2 1 47157 47158 47156 AND\n2 1 47156 125902 125903 XOR\n2 1 125934 125903 85550 XOR\n2 1 89646 125903 47160 XOR\n2 1 87598 125903 47161 XOR\n2 1 47160 47161 47159 AND\n2 1 47159 125903 125904 XOR\n2 1 125935 125904 85551 XOR\n2 1 89647 125904 47163 XOR\n2 1 87599 125904 47164 XOR\n2 1 47163 47164 47162 AND\n2 1 47162 125904 125905 XOR\n2 1 125936 125905 85552 XOR\n2 1 4133 4138 62830 XOR\n2 1 4132 4137 62829 XOR\n2 1 4131 4136 62828 XOR\n2 1 4130 4135 62827 XOR\n2 1 4129 4134 62826 XOR\n2 1 4128 4133 62825 XOR\n2 1 4159 4132 62824 XOR\n2 1 4158 4131 62823 XOR\n2 1 4157 4130 62822 XOR\n2 1 4156 4129 62821 XOR\n2 1 4155 4128 62820 XOR\n2 1 4154 4159 62819 XOR\n2 1 4153 4158 62818 XOR\n2 1 4152 4157 62817 XOR\n2 1 4151 4156 62816 XOR\n2 1 4150 4155 62815 XOR\n2 1 4149 4154 62814 XOR\n2 1 4148 4153 62813 XOR\n2 1 4147 4152 62812 XOR\n2 1 4146 4151 62811 XOR\n2 1 4145 4150 62810 XOR\n2 1 4144 4149 62809 XOR\n2 1 4143 4148 62808 XOR\n2 1 4142 4147 62807 XOR\n2 1 4141 4146 62806 XOR\n2 1 4140 4145 62805 XOR\n2 1 4139 4144 62804 XOR\n2 1 4138 4143 62803 XOR\n2 1 4137 4142 62802 XOR\n2 1 4136 4141 62801 XOR\n2 1 4135 4140 62800 XOR\n2 1 4134 4139 62799 XOR\n2 1 62830 4152 101877 XOR\n2 1 101877 99829 126136 XOR\n2 1 62829 4151 101876 XOR\n2 1 101876 99828 126135 XOR\n2 1 62828 4150 101875 XOR\n2 1 101875 99827 126134 XOR\n2 1 62827 4149 101874 XOR\n2 1 101874 99826 126133 XOR\n2 1 62826 4148 101873 XOR\n2 1 101873 99825 126132 XOR\n2 1 62825 4147 101872 XOR\n2 1 101872 99824 126131 XOR\n2 1 62824 4146 101871 XOR\n2 1 101871 99823 126130 XOR\n2 1 62823 4145 101870 XOR\n2 1 101870 99822 126129 XOR\n2 1 62822 4144 101869 XOR\n2 1 101869 99821 126128 XOR\n2 1 62821 4143 101868 XOR\n2 1 101868 99820 126127 XOR\n2 1 62820 4142 101867 XOR\n2 1 101867 99819 126126 XOR\n2 1 62819 4141 101866 XOR\n2 1 101866 99818 126125 XOR\n2 1 62818 4140 101865 XOR\n2 1 101865 99817 126124 XOR\n2 1 62817 4139 101864 XOR\n2 1 101864 99816 126123 XOR\n2 1 62816 4138 101863 XOR\n2 1 101863 99815 126122 XOR\n2 1 62815 4137 101862 XOR\n2 1 101862 99814 126121 XOR\n2 1 62814 4136 101861 XOR\n2 1 101861 99813 126120 XOR\n2 1 62813 4135 101860 XOR\n2 1 101860 99812 126119 XOR\n2 1 62812 4134 101859 XOR\n2 1 101859 99811 126118 XOR\n2 1 62811 4133 101858 XOR\n2 1 101858 99810 126117 XOR\n2 1 62810 4132 101857 XOR\n2 1 101857 99809 126116 XOR\n2 1 62809 4131 101856 XOR\n2 1 101856 99808 126115 XOR\n2 1 62808 4130 101855 XOR\n2 1 101855 99807 126114 XOR\n2 1 62807 4129 101854 XOR\n2 1 101854 99806 126113 XOR\n2 1 62806 4128 101853 XOR\n2 1 101853 99805 126112 XOR\n2 1 62805 4159 101852 XOR\n2 1 101852 99804 126111 XOR\n2 1 62804 4158 101851 XOR\n2 1 101851 99803 126110 XOR\n2 1 62803 4157 101850 XOR\n2 1 101850 99802 126109 XOR\n2 1 62802 4156 101849 XOR\n2 1 101849 99801 126108 XOR\n2 1 62801 4155 101848 XOR\n2 1 101848 99800 126107 XOR\n2 1 62800 4154 101847 XOR\n2 1 101847 99799 126106 XOR\n2 1 62799 4153 101846 XOR\n2 1 101846 99798 126075 AND\n2 1 101846 99798 97750 XOR\n2 1 97750 95702 125951 AND\n",
"2 1 97750 95702 93654 XOR\n1 1 93654 91665 INV\n2 1 672 91665 110094 AND\n2 1 672 91665 4096 XOR\n2 1 673 110094 18937 XOR\n2 1 91665 85521 110156 AND\n2 1 91665 85521 4544 XOR\n2 1 85522 110156 19028 XOR\n2 1 320 4096 125112 AND\n2 1 320 4096 95574 XOR\n2 1 321 125112 45682 XOR\n2 1 95703 125951 47252 XOR\n2 1 126106 126075 97751 XOR\n2 1 97751 95703 125982 XOR\n2 1 125982 125951 93655 XOR\n2 1 93655 93654 91666 XOR\n2 1 91666 110094 18938 XOR\n2 1 18937 18938 18936 AND\n2 1 18936 110094 110095 XOR\n2 1 674 110095 18940 XOR\n2 1 91666 85522 110187 XOR\n2 1 110187 110156 4545 XOR\n2 1 91666 110156 19027 XOR\n2 1 19027 19028 19026 AND\n2 1 19026 110156 110157 XOR\n2 1 85523 110157 19031 XOR\n2 1 673 91666 110125 XOR\n2 1 110125 110094 4097 XOR\n2 1 4097 125112 45683 XOR\n2 1 45682 45683 45681 AND\n2 1 45681 125112 125113 XOR\n2 1 322 125113 45685 XOR\n2 1 321 4097 125143 XOR\n2 1 125143 125112 95575 XOR\n2 1 91666 93654 47165 AND\n2 1 47165 93654 47167 XOR\n2 1 97751 125951 47251 XOR\n2 1 47251 47252 47250 AND\n2 1 47250 125951 125952 XOR\n2 1 95704 125952 47255 XOR\n2 1 101847 126075 47431 XOR\n2 1 99799 126075 47432 XOR\n2 1 47431 47432 47430 AND\n2 1 47430 126075 126076 XOR\n2 1 126107 126076 97752 XOR\n2 1 97752 95704 125983 XOR\n2 1 125983 125952 93656 XOR\n2 1 93656 47167 91667 XOR\n2 1 91667 110095 18941 XOR\n2 1 18940 18941 18939 AND\n2 1 18939 110095 110096 XOR\n2 1 675 110096 18943 XOR\n2 1 91667 85523 110188 XOR\n2 1 110188 110157 4546 XOR\n2 1 91667 110157 19030 XOR\n2 1 19030 19031 19029 AND\n2 1 19029 110157 110158 XOR\n2 1 85524 110158 19034 XOR\n2 1 674 91667 110126 XOR\n2 1 110126 110095 4098 XOR\n2 1 4098 125113 45686 XOR\n2 1 45685 45686 45684 AND\n2 1 45684 125113 125114 XOR\n2 1 323 125114 45688 XOR\n2 1 322 4098 125144 XOR\n2 1 125144 125113 95576 XOR\n2 1 91667 47167 47166 AND\n2 1 47166 47167 47169 XOR\n2 1 97752 125952 47254 XOR\n2 1 47254 47255 47253 AND\n2 1 47253 125952 125953 XOR\n2 1 95705 125953 47258 XOR\n2 1 101848 126076 47434 XOR\n2 1 99800 126076 47435 XOR\n2 1 47434 47435 47433 AND\n2 1 47433 126076 126077 XOR\n2 1 126108 126077 97753 XOR\n2 1 97753 95705 125984 XOR\n2 1 125984 125953 93657 XOR\n2 1 93657 47169 91668 XOR\n2 1 91668 110096 18944 XOR\n2 1 18943 18944 18942 AND\n2 1 18942 110096 110097 XOR\n2 1 676 110097 18946 XOR\n2 1 91668 85524 110189 XOR\n2 1 110189 110158 4547 XOR\n2 1 91668 110158 19033 XOR\n2 1 19033 19034 19032 AND\n2 1 19032 110158 110159 XOR\n2 1 85525 110159 19037 XOR\n2 1 675 91668 110127 XOR\n2 1 110127 110096 4099 XOR\n2 1 4099 125114 45689 XOR\n2 1 45688 45689 45687 AND\n2 1 45687 125114 125115 XOR\n2 1 324 125115 45691 XOR\n2 1 323 4099 125145 XOR\n2 1 125145 125114 95577 XOR\n2 1 91668 47169 47168 AND\n2 1 47168 47169 125937 XOR\n1 1 125937 47172 INV\n2 1 97753 125953 47257 XOR\n2 1 47257 47258 47256 AND\n2 1 47256 125953 125954 XOR\n2 1 95706 125954 47261 XOR\n2 1 101849 126077 47437 XOR\n2 1 99801 126077 47438 XOR\n2 1 47437 47438 47436 AND\n2 1 47436 126077 126078 XOR\n2 1 126109 126078 97754 XOR\n2 1 97754 95706 125985 XOR\n2 1 125985 125954 93658 XOR\n1 1 93658 47237 INV\n2 1 47237 125937 91669 XOR\n2 1 676 91669 110128 XOR\n2 1 110128 110097 4100 XOR\n2 1 91669 110097 18947 XOR\n2 1 18946 18947 18945 AND\n2 1 18945 110097 110098 XOR\n2 1 677 110098 18949 XOR\n2 1 91669 85525 110190 XOR\n2 1 110190 110159 4548 XOR\n2 1 91669 110159 19036 XOR\n2 1 19036 19037 19035 AND\n2 1 19035 110159 110160 XOR\n2 1 85526 110160 19040 XOR\n2 1 324 4100 125146 XOR\n2 1 125146 125115 95578 XOR\n",
"2 1 4100 125115 45692 XOR\n2 1 45691 45692 45690 AND\n2 1 45690 125115 125116 XOR\n2 1 325 125116 45694 XOR\n2 1 93658 125937 47171 XOR\n2 1 47171 47172 47170 AND\n2 1 47170 125937 47174 XOR\n2 1 97754 125954 47260 XOR\n2 1 47260 47261 47259 AND\n2 1 47259 125954 125955 XOR\n2 1 95707 125955 47264 XOR\n2 1 101850 126078 47440 XOR\n2 1 99802 126078 47441 XOR\n2 1 47440 47441 47439 AND\n2 1 47439 126078 126079 XOR\n2 1 126110 126079 97755 XOR\n2 1 97755 95707 125986 XOR\n2 1 125986 125955 93659 XOR\n2 1 93659 47174 91670 XOR\n2 1 91670 110098 18950 XOR\n2 1 18949 18950 18948 AND\n2 1 18948 110098 110099 XOR\n2 1 678 110099 18952 XOR\n2 1 91670 85526 110191 XOR\n2 1 110191 110160 4549 XOR\n2 1 91670 110160 19039 XOR\n2 1 19039 19040 19038 AND\n2 1 19038 110160 110161 XOR\n2 1 85527 110161 19043 XOR\n2 1 677 91670 110129 XOR\n2 1 110129 110098 4101 XOR\n2 1 4101 125116 45695 XOR\n2 1 45694 45695 45693 AND\n2 1 45693 125116 125117 XOR\n2 1 326 125117 45697 XOR\n2 1 325 4101 125147 XOR\n2 1 125147 125116 95579 XOR\n2 1 91670 47174 47173 AND\n2 1 47173 47174 47176 XOR\n2 1 97755 125955 47263 XOR\n2 1 47263 47264 47262 AND\n2 1 47262 125955 125956 XOR\n2 1 95708 125956 47267 XOR\n2 1 101851 126079 47443 XOR\n2 1 99803 126079 47444 XOR\n2 1 47443 47444 47442 AND\n2 1 47442 126079 126080 XOR\n2 1 126111 126080 97756 XOR\n2 1 97756 95708 125987 XOR\n2 1 125987 125956 93660 XOR\n2 1 93660 47176 91671 XOR\n2 1 91671 110099 18953 XOR\n2 1 18952 18953 18951 AND\n2 1 18951 110099 110100 XOR\n2 1 679 110100 18955 XOR\n2 1 91671 85527 110192 XOR\n2 1 110192 110161 4550 XOR\n2 1 91671 110161 19042 XOR\n2 1 19042 19043 19041 AND\n2 1 19041 110161 110162 XOR\n2 1 85528 110162 19046 XOR\n2 1 678 91671 110130 XOR\n2 1 110130 110099 4102 XOR\n2 1 4102 125117 45698 XOR\n2 1 45697 45698 45696 AND\n2 1 45696 125117 125118 XOR\n2 1 327 125118 45700 XOR\n2 1 326 4102 125148 XOR\n2 1 125148 125117 95580 XOR\n2 1 91671 47176 47175 AND\n2 1 47175 47176 125938 XOR\n1 1 125938 47179 INV\n2 1 97756 125956 47266 XOR\n2 1 47266 47267 47265 AND\n2 1 47265 125956 125957 XOR\n2 1 95709 125957 47270 XOR\n2 1 101852 126080 47446 XOR\n2 1 99804 126080 47447 XOR\n2 1 47446 47447 47445 AND\n2 1 47445 126080 126081 XOR\n2 1 126112 126081 97757 XOR\n2 1 97757 95709 125988 XOR\n2 1 125988 125957 93661 XOR\n1 1 93661 47238 INV\n2 1 47238 125938 91672 XOR\n2 1 679 91672 110131 XOR\n2 1 110131 110100 4103 XOR\n2 1 91672 110100 18956 XOR\n2 1 18955 18956 18954 AND\n2 1 18954 110100 110101 XOR\n2 1 680 110101 18958 XOR\n2 1 91672 85528 110193 XOR\n2 1 110193 110162 4551 XOR\n2 1 91672 110162 19045 XOR\n2 1 19045 19046 19044 AND\n2 1 19044 110162 110163 XOR\n2 1 85529 110163 19049 XOR\n2 1 327 4103 125149 XOR\n2 1 125149 125118 95581 XOR\n2 1 4103 125118 45701 XOR\n2 1 45700 45701 45699 AND\n2 1 45699 125118 125119 XOR\n2 1 328 125119 45703 XOR\n2 1 93661 125938 47178 XOR\n2 1 47178 47179 47177 AND\n2 1 47177 125938 47181 XOR\n2 1 97757 125957 47269 XOR\n2 1 47269 47270 47268 AND\n2 1 47268 125957 125958 XOR\n2 1 95710 125958 47273 XOR\n2 1 101853 126081 47449 XOR\n2 1 99805 126081 47450 XOR\n2 1 47449 47450 47448 AND\n2 1 47448 126081 126082 XOR\n2 1 126113 126082 97758 XOR\n2 1 97758 95710 125989 XOR\n2 1 125989 125958 93662 XOR\n2 1 93662 47181 91673 XOR\n2 1 91673 110101 18959 XOR\n2 1 18958 18959 18957 AND\n2 1 18957 110101 110102 XOR\n2 1 681 110102 18961 XOR\n2 1 91673 85529 110194 XOR\n2 1 110194 110163 4552 XOR\n2 1 91673 110163 19048 XOR\n2 1 19048 19049 19047 AND\n2 1 19047 110163 110164 XOR\n2 1 85530 110164 19052 XOR\n",
"2 1 680 91673 110132 XOR\n2 1 110132 110101 4104 XOR\n2 1 4104 125119 45704 XOR\n2 1 45703 45704 45702 AND\n2 1 45702 125119 125120 XOR\n2 1 329 125120 45706 XOR\n2 1 328 4104 125150 XOR\n2 1 125150 125119 95582 XOR\n2 1 91673 47181 47180 AND\n2 1 47180 47181 47183 XOR\n2 1 97758 125958 47272 XOR\n2 1 47272 47273 47271 AND\n2 1 47271 125958 125959 XOR\n2 1 95711 125959 47276 XOR\n2 1 101854 126082 47452 XOR\n2 1 99806 126082 47453 XOR\n2 1 47452 47453 47451 AND\n2 1 47451 126082 126083 XOR\n2 1 126114 126083 97759 XOR\n2 1 97759 95711 125990 XOR\n2 1 125990 125959 93663 XOR\n2 1 93663 47183 91674 XOR\n2 1 91674 110102 18962 XOR\n2 1 18961 18962 18960 AND\n2 1 18960 110102 110103 XOR\n2 1 682 110103 18964 XOR\n2 1 91674 85530 110195 XOR\n2 1 110195 110164 4553 XOR\n2 1 91674 110164 19051 XOR\n2 1 19051 19052 19050 AND\n2 1 19050 110164 110165 XOR\n2 1 85531 110165 19055 XOR\n2 1 681 91674 110133 XOR\n2 1 110133 110102 4105 XOR\n2 1 4105 125120 45707 XOR\n2 1 45706 45707 45705 AND\n2 1 45705 125120 125121 XOR\n2 1 330 125121 45709 XOR\n2 1 329 4105 125151 XOR\n2 1 125151 125120 95583 XOR\n2 1 91674 47183 47182 AND\n2 1 47182 47183 125939 XOR\n1 1 125939 47186 INV\n2 1 97759 125959 47275 XOR\n2 1 47275 47276 47274 AND\n2 1 47274 125959 125960 XOR\n2 1 95712 125960 47279 XOR\n2 1 101855 126083 47455 XOR\n2 1 99807 126083 47456 XOR\n2 1 47455 47456 47454 AND\n2 1 47454 126083 126084 XOR\n2 1 126115 126084 97760 XOR\n2 1 97760 95712 125991 XOR\n2 1 125991 125960 93664 XOR\n1 1 93664 47239 INV\n2 1 47239 125939 91675 XOR\n2 1 682 91675 110134 XOR\n2 1 110134 110103 4106 XOR\n2 1 91675 110103 18965 XOR\n2 1 18964 18965 18963 AND\n2 1 18963 110103 110104 XOR\n2 1 683 110104 18967 XOR\n2 1 91675 85531 110196 XOR\n2 1 110196 110165 4554 XOR\n2 1 91675 110165 19054 XOR\n2 1 19054 19055 19053 AND\n2 1 19053 110165 110166 XOR\n2 1 85532 110166 19058 XOR\n2 1 330 4106 125152 XOR\n2 1 125152 125121 95584 XOR\n2 1 4106 125121 45710 XOR\n2 1 45709 45710 45708 AND\n2 1 45708 125121 125122 XOR\n2 1 331 125122 45712 XOR\n2 1 93664 125939 47185 XOR\n2 1 47185 47186 47184 AND\n2 1 47184 125939 47188 XOR\n2 1 97760 125960 47278 XOR\n2 1 47278 47279 47277 AND\n2 1 47277 125960 125961 XOR\n2 1 95713 125961 47282 XOR\n2 1 101856 126084 47458 XOR\n2 1 99808 126084 47459 XOR\n2 1 47458 47459 47457 AND\n2 1 47457 126084 126085 XOR\n2 1 126116 126085 97761 XOR\n2 1 97761 95713 125992 XOR\n2 1 125992 125961 93665 XOR\n2 1 93665 47188 91676 XOR\n2 1 91676 110104 18968 XOR\n2 1 18967 18968 18966 AND\n2 1 18966 110104 110105 XOR\n2 1 684 110105 18970 XOR\n2 1 91676 85532 110197 XOR\n2 1 110197 110166 4555 XOR\n2 1 91676 110166 19057 XOR\n2 1 19057 19058 19056 AND\n2 1 19056 110166 110167 XOR\n2 1 85533 110167 19061 XOR\n2 1 683 91676 110135 XOR\n2 1 110135 110104 4107 XOR\n2 1 4107 125122 45713 XOR\n2 1 45712 45713 45711 AND\n2 1 45711 125122 125123 XOR\n2 1 332 125123 45715 XOR\n2 1 331 4107 125153 XOR\n2 1 125153 125122 95585 XOR\n2 1 91676 47188 47187 AND\n2 1 47187 47188 47190 XOR\n2 1 97761 125961 47281 XOR\n2 1 47281 47282 47280 AND\n2 1 47280 125961 125962 XOR\n2 1 95714 125962 47285 XOR\n2 1 101857 126085 47461 XOR\n2 1 99809 126085 47462 XOR\n2 1 47461 47462 47460 AND\n2 1 47460 126085 126086 XOR\n2 1 126117 126086 97762 XOR\n2 1 97762 95714 125993 XOR\n2 1 125993 125962 93666 XOR\n2 1 93666 47190 91677 XOR\n2 1 91677 110105 18971 XOR\n2 1 18970 18971 18969 AND\n2 1 18969 110105 110106 XOR\n2 1 685 110106 18973 XOR\n2 1 91677 85533 110198 XOR\n2 1 110198 110167 4556 XOR\n2 1 91677 110167 19060 XOR\n",
"2 1 19060 19061 19059 AND\n2 1 19059 110167 110168 XOR\n2 1 85534 110168 19064 XOR\n2 1 684 91677 110136 XOR\n2 1 110136 110105 4108 XOR\n2 1 4108 125123 45716 XOR\n2 1 45715 45716 45714 AND\n2 1 45714 125123 125124 XOR\n2 1 333 125124 45718 XOR\n2 1 332 4108 125154 XOR\n2 1 125154 125123 95586 XOR\n2 1 91677 47190 47189 AND\n2 1 47189 47190 47192 XOR\n2 1 97762 125962 47284 XOR\n2 1 47284 47285 47283 AND\n2 1 47283 125962 125963 XOR\n2 1 95715 125963 47288 XOR\n2 1 101858 126086 47464 XOR\n2 1 99810 126086 47465 XOR\n2 1 47464 47465 47463 AND\n2 1 47463 126086 126087 XOR\n2 1 126118 126087 97763 XOR\n2 1 97763 95715 125994 XOR\n2 1 125994 125963 93667 XOR\n2 1 93667 47192 91678 XOR\n2 1 91678 110106 18974 XOR\n2 1 18973 18974 18972 AND\n2 1 18972 110106 110107 XOR\n2 1 686 110107 18976 XOR\n2 1 91678 85534 110199 XOR\n2 1 110199 110168 4557 XOR\n2 1 91678 110168 19063 XOR\n2 1 19063 19064 19062 AND\n2 1 19062 110168 110169 XOR\n2 1 85535 110169 19067 XOR\n2 1 685 91678 110137 XOR\n2 1 110137 110106 4109 XOR\n2 1 4109 125124 45719 XOR\n2 1 45718 45719 45717 AND\n2 1 45717 125124 125125 XOR\n2 1 334 125125 45721 XOR\n2 1 333 4109 125155 XOR\n2 1 125155 125124 95587 XOR\n2 1 91678 47192 47191 AND\n2 1 47191 47192 125940 XOR\n1 1 125940 47195 INV\n2 1 97763 125963 47287 XOR\n2 1 47287 47288 47286 AND\n2 1 47286 125963 125964 XOR\n2 1 95716 125964 47291 XOR\n2 1 101859 126087 47467 XOR\n2 1 99811 126087 47468 XOR\n2 1 47467 47468 47466 AND\n2 1 47466 126087 126088 XOR\n2 1 126119 126088 97764 XOR\n2 1 97764 95716 125995 XOR\n2 1 125995 125964 93668 XOR\n1 1 93668 47240 INV\n2 1 47240 125940 91679 XOR\n2 1 686 91679 110138 XOR\n2 1 110138 110107 4110 XOR\n2 1 91679 110107 18977 XOR\n2 1 18976 18977 18975 AND\n2 1 18975 110107 110108 XOR\n2 1 687 110108 18979 XOR\n2 1 91679 85535 110200 XOR\n2 1 110200 110169 4558 XOR\n2 1 91679 110169 19066 XOR\n2 1 19066 19067 19065 AND\n2 1 19065 110169 110170 XOR\n2 1 85536 110170 19070 XOR\n2 1 334 4110 125156 XOR\n2 1 125156 125125 95588 XOR\n2 1 4110 125125 45722 XOR\n2 1 45721 45722 45720 AND\n2 1 45720 125125 125126 XOR\n2 1 335 125126 45724 XOR\n2 1 93668 125940 47194 XOR\n2 1 47194 47195 47193 AND\n2 1 47193 125940 47197 XOR\n2 1 97764 125964 47290 XOR\n2 1 47290 47291 47289 AND\n2 1 47289 125964 125965 XOR\n2 1 95717 125965 47294 XOR\n2 1 101860 126088 47470 XOR\n2 1 99812 126088 47471 XOR\n2 1 47470 47471 47469 AND\n2 1 47469 126088 126089 XOR\n2 1 126120 126089 97765 XOR\n2 1 97765 95717 125996 XOR\n2 1 125996 125965 93669 XOR\n2 1 93669 47197 91680 XOR\n2 1 91680 110108 18980 XOR\n2 1 18979 18980 18978 AND\n2 1 18978 110108 110109 XOR\n2 1 688 110109 18982 XOR\n2 1 91680 85536 110201 XOR\n2 1 110201 110170 4559 XOR\n2 1 91680 110170 19069 XOR\n2 1 19069 19070 19068 AND\n2 1 19068 110170 110171 XOR\n2 1 85537 110171 19073 XOR\n2 1 687 91680 110139 XOR\n2 1 110139 110108 4111 XOR\n2 1 4111 125126 45725 XOR\n2 1 45724 45725 45723 AND\n2 1 45723 125126 125127 XOR\n2 1 336 125127 45727 XOR\n2 1 335 4111 125157 XOR\n2 1 125157 125126 95589 XOR\n2 1 91680 47197 47196 AND\n2 1 47196 47197 125941 XOR\n1 1 125941 47200 INV\n2 1 97765 125965 47293 XOR\n2 1 47293 47294 47292 AND\n2 1 47292 125965 125966 XOR\n2 1 95718 125966 47297 XOR\n2 1 101861 126089 47473 XOR\n2 1 99813 126089 47474 XOR\n2 1 47473 47474 47472 AND\n2 1 47472 126089 126090 XOR\n2 1 126121 126090 97766 XOR\n2 1 97766 95718 125997 XOR\n2 1 125997 125966 93670 XOR\n1 1 93670 47241 INV\n2 1 47241 125941 91681 XOR\n2 1 688 91681 110140 XOR\n2 1 110140 110109 4112 XOR\n",
"2 1 91681 110109 18983 XOR\n2 1 18982 18983 18981 AND\n2 1 18981 110109 110110 XOR\n2 1 689 110110 18985 XOR\n2 1 91681 85537 110202 XOR\n2 1 110202 110171 4560 XOR\n2 1 91681 110171 19072 XOR\n2 1 19072 19073 19071 AND\n2 1 19071 110171 110172 XOR\n2 1 85538 110172 19076 XOR\n2 1 336 4112 125158 XOR\n2 1 125158 125127 95590 XOR\n2 1 4112 125127 45728 XOR\n2 1 45727 45728 45726 AND\n2 1 45726 125127 125128 XOR\n2 1 337 125128 45730 XOR\n2 1 93670 125941 47199 XOR\n2 1 47199 47200 47198 AND\n2 1 47198 125941 125942 XOR\n1 1 125942 47203 INV\n2 1 97766 125966 47296 XOR\n2 1 47296 47297 47295 AND\n2 1 47295 125966 125967 XOR\n2 1 95719 125967 47300 XOR\n2 1 101862 126090 47476 XOR\n2 1 99814 126090 47477 XOR\n2 1 47476 47477 47475 AND\n2 1 47475 126090 126091 XOR\n2 1 126122 126091 97767 XOR\n2 1 97767 95719 125998 XOR\n2 1 125998 125967 93671 XOR\n1 1 93671 47242 INV\n2 1 47242 125942 91682 XOR\n2 1 689 91682 110141 XOR\n2 1 110141 110110 4113 XOR\n2 1 91682 110110 18986 XOR\n2 1 18985 18986 18984 AND\n2 1 18984 110110 110111 XOR\n2 1 690 110111 18988 XOR\n2 1 91682 85538 110203 XOR\n2 1 110203 110172 4561 XOR\n2 1 91682 110172 19075 XOR\n2 1 19075 19076 19074 AND\n2 1 19074 110172 110173 XOR\n2 1 85539 110173 19079 XOR\n2 1 337 4113 125159 XOR\n2 1 125159 125128 95591 XOR\n2 1 4113 125128 45731 XOR\n2 1 45730 45731 45729 AND\n2 1 45729 125128 125129 XOR\n2 1 338 125129 45733 XOR\n2 1 93671 125942 47202 XOR\n2 1 47202 47203 47201 AND\n2 1 47201 125942 125943 XOR\n1 1 125943 47206 INV\n2 1 97767 125967 47299 XOR\n2 1 47299 47300 47298 AND\n2 1 47298 125967 125968 XOR\n2 1 95720 125968 47303 XOR\n2 1 101863 126091 47479 XOR\n2 1 99815 126091 47480 XOR\n2 1 47479 47480 47478 AND\n2 1 47478 126091 126092 XOR\n2 1 126123 126092 97768 XOR\n2 1 97768 95720 125999 XOR\n2 1 125999 125968 93672 XOR\n1 1 93672 47243 INV\n2 1 47243 125943 91683 XOR\n2 1 690 91683 110142 XOR\n2 1 110142 110111 4114 XOR\n2 1 91683 110111 18989 XOR\n2 1 18988 18989 18987 AND\n2 1 18987 110111 110112 XOR\n2 1 691 110112 18991 XOR\n2 1 91683 85539 110204 XOR\n2 1 110204 110173 4562 XOR\n2 1 91683 110173 19078 XOR\n2 1 19078 19079 19077 AND\n2 1 19077 110173 110174 XOR\n2 1 85540 110174 19082 XOR\n2 1 338 4114 125160 XOR\n2 1 125160 125129 95592 XOR\n2 1 4114 125129 45734 XOR\n2 1 45733 45734 45732 AND\n2 1 45732 125129 125130 XOR\n2 1 339 125130 45736 XOR\n2 1 93672 125943 47205 XOR\n2 1 47205 47206 47204 AND\n2 1 47204 125943 47208 XOR\n2 1 97768 125968 47302 XOR\n2 1 47302 47303 47301 AND\n2 1 47301 125968 125969 XOR\n2 1 95721 125969 47306 XOR\n2 1 101864 126092 47482 XOR\n2 1 99816 126092 47483 XOR\n2 1 47482 47483 47481 AND\n2 1 47481 126092 126093 XOR\n2 1 126124 126093 97769 XOR\n2 1 97769 95721 126000 XOR\n2 1 126000 125969 93673 XOR\n2 1 93673 47208 91684 XOR\n2 1 91684 110112 18992 XOR\n2 1 18991 18992 18990 AND\n2 1 18990 110112 110113 XOR\n2 1 692 110113 18994 XOR\n2 1 91684 85540 110205 XOR\n2 1 110205 110174 4563 XOR\n2 1 91684 110174 19081 XOR\n2 1 19081 19082 19080 AND\n2 1 19080 110174 110175 XOR\n2 1 85541 110175 19085 XOR\n2 1 691 91684 110143 XOR\n2 1 110143 110112 4115 XOR\n2 1 4115 125130 45737 XOR\n2 1 45736 45737 45735 AND\n2 1 45735 125130 125131 XOR\n2 1 340 125131 45739 XOR\n2 1 339 4115 125161 XOR\n2 1 125161 125130 95593 XOR\n2 1 91684 47208 47207 AND\n2 1 47207 47208 125944 XOR\n1 1 125944 47211 INV\n2 1 97769 125969 47305 XOR\n2 1 47305 47306 47304 AND\n2 1 47304 125969 125970 XOR\n2 1 95722 125970 47309 XOR\n2 1 101865 126093 47485 XOR\n2 1 99817 126093 47486 XOR\n",
"2 1 47485 47486 47484 AND\n2 1 47484 126093 126094 XOR\n2 1 126125 126094 97770 XOR\n2 1 97770 95722 126001 XOR\n2 1 126001 125970 93674 XOR\n1 1 93674 47244 INV\n2 1 47244 125944 91685 XOR\n2 1 692 91685 110144 XOR\n2 1 110144 110113 4116 XOR\n2 1 91685 110113 18995 XOR\n2 1 18994 18995 18993 AND\n2 1 18993 110113 110114 XOR\n2 1 693 110114 18997 XOR\n2 1 91685 85541 110206 XOR\n2 1 110206 110175 4564 XOR\n2 1 91685 110175 19084 XOR\n2 1 19084 19085 19083 AND\n2 1 19083 110175 110176 XOR\n2 1 85542 110176 19088 XOR\n2 1 340 4116 125162 XOR\n2 1 125162 125131 95594 XOR\n2 1 4116 125131 45740 XOR\n2 1 45739 45740 45738 AND\n2 1 45738 125131 125132 XOR\n2 1 341 125132 45742 XOR\n2 1 93674 125944 47210 XOR\n2 1 47210 47211 47209 AND\n2 1 47209 125944 125945 XOR\n1 1 125945 47214 INV\n2 1 97770 125970 47308 XOR\n2 1 47308 47309 47307 AND\n2 1 47307 125970 125971 XOR\n2 1 95723 125971 47312 XOR\n2 1 101866 126094 47488 XOR\n2 1 99818 126094 47489 XOR\n2 1 47488 47489 47487 AND\n2 1 47487 126094 126095 XOR\n2 1 126126 126095 97771 XOR\n2 1 97771 95723 126002 XOR\n2 1 126002 125971 93675 XOR\n1 1 93675 47245 INV\n2 1 47245 125945 91686 XOR\n2 1 693 91686 110145 XOR\n2 1 110145 110114 4117 XOR\n2 1 91686 110114 18998 XOR\n2 1 18997 18998 18996 AND\n2 1 18996 110114 110115 XOR\n2 1 694 110115 19000 XOR\n2 1 91686 85542 110207 XOR\n2 1 110207 110176 4565 XOR\n2 1 91686 110176 19087 XOR\n2 1 19087 19088 19086 AND\n2 1 19086 110176 110177 XOR\n2 1 85543 110177 19091 XOR\n2 1 341 4117 125163 XOR\n2 1 125163 125132 95595 XOR\n2 1 4117 125132 45743 XOR\n2 1 45742 45743 45741 AND\n2 1 45741 125132 125133 XOR\n2 1 342 125133 45745 XOR\n2 1 93675 125945 47213 XOR\n2 1 47213 47214 47212 AND\n2 1 47212 125945 47216 XOR\n2 1 97771 125971 47311 XOR\n2 1 47311 47312 47310 AND\n2 1 47310 125971 125972 XOR\n2 1 95724 125972 47315 XOR\n2 1 101867 126095 47491 XOR\n2 1 99819 126095 47492 XOR\n2 1 47491 47492 47490 AND\n2 1 47490 126095 126096 XOR\n2 1 126127 126096 97772 XOR\n2 1 97772 95724 126003 XOR\n2 1 126003 125972 93676 XOR\n2 1 93676 47216 91687 XOR\n2 1 91687 110115 19001 XOR\n2 1 19000 19001 18999 AND\n2 1 18999 110115 110116 XOR\n2 1 695 110116 19003 XOR\n2 1 91687 85543 110208 XOR\n2 1 110208 110177 4566 XOR\n2 1 91687 110177 19090 XOR\n2 1 19090 19091 19089 AND\n2 1 19089 110177 110178 XOR\n2 1 85544 110178 19094 XOR\n2 1 694 91687 110146 XOR\n2 1 110146 110115 4118 XOR\n2 1 4118 125133 45746 XOR\n2 1 45745 45746 45744 AND\n2 1 45744 125133 125134 XOR\n2 1 343 125134 45748 XOR\n2 1 342 4118 125164 XOR\n2 1 125164 125133 95596 XOR\n2 1 91687 47216 47215 AND\n2 1 47215 47216 47218 XOR\n2 1 97772 125972 47314 XOR\n2 1 47314 47315 47313 AND\n2 1 47313 125972 125973 XOR\n2 1 95725 125973 47318 XOR\n2 1 101868 126096 47494 XOR\n2 1 99820 126096 47495 XOR\n2 1 47494 47495 47493 AND\n2 1 47493 126096 126097 XOR\n2 1 126128 126097 97773 XOR\n2 1 97773 95725 126004 XOR\n2 1 126004 125973 93677 XOR\n2 1 93677 47218 91688 XOR\n2 1 91688 110116 19004 XOR\n2 1 19003 19004 19002 AND\n2 1 19002 110116 110117 XOR\n2 1 696 110117 19006 XOR\n2 1 91688 85544 110209 XOR\n2 1 110209 110178 4567 XOR\n2 1 91688 110178 19093 XOR\n2 1 19093 19094 19092 AND\n2 1 19092 110178 110179 XOR\n2 1 85545 110179 19097 XOR\n2 1 695 91688 110147 XOR\n2 1 110147 110116 4119 XOR\n2 1 4119 125134 45749 XOR\n2 1 45748 45749 45747 AND\n2 1 45747 125134 125135 XOR\n2 1 344 125135 45751 XOR\n2 1 343 4119 125165 XOR\n2 1 125165 125134 95597 XOR\n2 1 91688 47218 47217 AND\n2 1 47217 47218 125946 XOR\n1 1 125946 47221 INV\n",
"2 1 97773 125973 47317 XOR\n2 1 47317 47318 47316 AND\n2 1 47316 125973 125974 XOR\n2 1 95726 125974 47321 XOR\n2 1 101869 126097 47497 XOR\n2 1 99821 126097 47498 XOR\n2 1 47497 47498 47496 AND\n2 1 47496 126097 126098 XOR\n2 1 126129 126098 97774 XOR\n2 1 97774 95726 126005 XOR\n2 1 126005 125974 93678 XOR\n1 1 93678 47246 INV\n2 1 47246 125946 91689 XOR\n2 1 696 91689 110148 XOR\n2 1 110148 110117 4120 XOR\n2 1 91689 110117 19007 XOR\n2 1 19006 19007 19005 AND\n2 1 19005 110117 110118 XOR\n2 1 697 110118 19009 XOR\n2 1 91689 85545 110210 XOR\n2 1 110210 110179 4568 XOR\n2 1 91689 110179 19096 XOR\n2 1 19096 19097 19095 AND\n2 1 19095 110179 110180 XOR\n2 1 85546 110180 19100 XOR\n2 1 344 4120 125166 XOR\n2 1 125166 125135 95598 XOR\n2 1 4120 125135 45752 XOR\n2 1 45751 45752 45750 AND\n2 1 45750 125135 125136 XOR\n2 1 345 125136 45754 XOR\n2 1 93678 125946 47220 XOR\n2 1 47220 47221 47219 AND\n2 1 47219 125946 47223 XOR\n2 1 97774 125974 47320 XOR\n2 1 47320 47321 47319 AND\n2 1 47319 125974 125975 XOR\n2 1 95727 125975 47324 XOR\n2 1 101870 126098 47500 XOR\n2 1 99822 126098 47501 XOR\n2 1 47500 47501 47499 AND\n2 1 47499 126098 126099 XOR\n2 1 126130 126099 97775 XOR\n2 1 97775 95727 126006 XOR\n2 1 126006 125975 93679 XOR\n2 1 93679 47223 91690 XOR\n2 1 91690 110118 19010 XOR\n2 1 19009 19010 19008 AND\n2 1 19008 110118 110119 XOR\n2 1 698 110119 19012 XOR\n2 1 91690 85546 110211 XOR\n2 1 110211 110180 4569 XOR\n2 1 91690 110180 19099 XOR\n2 1 19099 19100 19098 AND\n2 1 19098 110180 110181 XOR\n2 1 85547 110181 19103 XOR\n2 1 697 91690 110149 XOR\n2 1 110149 110118 4121 XOR\n2 1 4121 125136 45755 XOR\n2 1 45754 45755 45753 AND\n2 1 45753 125136 125137 XOR\n2 1 346 125137 45757 XOR\n2 1 345 4121 125167 XOR\n2 1 125167 125136 95599 XOR\n2 1 91690 47223 47222 AND\n2 1 47222 47223 47225 XOR\n2 1 97775 125975 47323 XOR\n2 1 47323 47324 47322 AND\n2 1 47322 125975 125976 XOR\n2 1 95728 125976 47327 XOR\n2 1 101871 126099 47503 XOR\n2 1 99823 126099 47504 XOR\n2 1 47503 47504 47502 AND\n2 1 47502 126099 126100 XOR\n2 1 126131 126100 97776 XOR\n2 1 97776 95728 126007 XOR\n2 1 126007 125976 93680 XOR\n2 1 93680 47225 91691 XOR\n2 1 91691 110119 19013 XOR\n2 1 19012 19013 19011 AND\n2 1 19011 110119 110120 XOR\n2 1 699 110120 19015 XOR\n2 1 91691 85547 110212 XOR\n2 1 110212 110181 4570 XOR\n2 1 91691 110181 19102 XOR\n2 1 19102 19103 19101 AND\n2 1 19101 110181 110182 XOR\n2 1 85548 110182 19106 XOR\n2 1 698 91691 110150 XOR\n2 1 110150 110119 4122 XOR\n2 1 4122 125137 45758 XOR\n2 1 45757 45758 45756 AND\n2 1 45756 125137 125138 XOR\n2 1 347 125138 45760 XOR\n2 1 346 4122 125168 XOR\n2 1 125168 125137 95600 XOR\n2 1 91691 47225 47224 AND\n2 1 47224 47225 47227 XOR\n2 1 97776 125976 47326 XOR\n2 1 47326 47327 47325 AND\n2 1 47325 125976 125977 XOR\n2 1 95729 125977 47330 XOR\n2 1 101872 126100 47506 XOR\n2 1 99824 126100 47507 XOR\n2 1 47506 47507 47505 AND\n2 1 47505 126100 126101 XOR\n2 1 126132 126101 97777 XOR\n2 1 97777 95729 126008 XOR\n2 1 126008 125977 93681 XOR\n2 1 93681 47227 91692 XOR\n2 1 91692 110120 19016 XOR\n2 1 19015 19016 19014 AND\n2 1 19014 110120 110121 XOR\n2 1 700 110121 19018 XOR\n2 1 91692 85548 110213 XOR\n2 1 110213 110182 4571 XOR\n2 1 91692 110182 19105 XOR\n2 1 19105 19106 19104 AND\n2 1 19104 110182 110183 XOR\n2 1 85549 110183 19109 XOR\n2 1 699 91692 110151 XOR\n2 1 110151 110120 4123 XOR\n2 1 4123 125138 45761 XOR\n2 1 45760 45761 45759 AND\n2 1 45759 125138 125139 XOR\n2 1 348 125139 45763 XOR\n2 1 347 4123 125169 XOR\n2 1 125169 125138 95601 XOR\n",
"2 1 91692 47227 47226 AND\n2 1 47226 47227 125947 XOR\n1 1 125947 47230 INV\n2 1 97777 125977 47329 XOR\n2 1 47329 47330 47328 AND\n2 1 47328 125977 125978 XOR\n2 1 95730 125978 47333 XOR\n2 1 101873 126101 47509 XOR\n2 1 99825 126101 47510 XOR\n2 1 47509 47510 47508 AND\n2 1 47508 126101 126102 XOR\n2 1 126133 126102 97778 XOR\n2 1 97778 95730 126009 XOR\n2 1 126009 125978 93682 XOR\n1 1 93682 47247 INV\n2 1 47247 125947 91693 XOR\n2 1 700 91693 110152 XOR\n2 1 110152 110121 4124 XOR\n2 1 91693 110121 19019 XOR\n2 1 19018 19019 19017 AND\n2 1 19017 110121 110122 XOR\n2 1 701 110122 19021 XOR\n2 1 91693 85549 110214 XOR\n2 1 110214 110183 4572 XOR\n2 1 91693 110183 19108 XOR\n2 1 19108 19109 19107 AND\n2 1 19107 110183 110184 XOR\n2 1 85550 110184 19112 XOR\n2 1 348 4124 125170 XOR\n2 1 125170 125139 95602 XOR\n2 1 4124 125139 45764 XOR\n2 1 45763 45764 45762 AND\n2 1 45762 125139 125140 XOR\n2 1 349 125140 45766 XOR\n2 1 93682 125947 47229 XOR\n2 1 47229 47230 47228 AND\n2 1 47228 125947 125948 XOR\n1 1 125948 47233 INV\n2 1 97778 125978 47332 XOR\n2 1 47332 47333 47331 AND\n2 1 47331 125978 125979 XOR\n2 1 95731 125979 47336 XOR\n2 1 101874 126102 47512 XOR\n2 1 99826 126102 47513 XOR\n2 1 47512 47513 47511 AND\n2 1 47511 126102 126103 XOR\n2 1 126134 126103 97779 XOR\n2 1 97779 95731 126010 XOR\n2 1 126010 125979 93683 XOR\n1 1 93683 47248 INV\n2 1 47248 125948 91694 XOR\n2 1 701 91694 110153 XOR\n2 1 110153 110122 4125 XOR\n2 1 91694 110122 19022 XOR\n2 1 19021 19022 19020 AND\n2 1 19020 110122 110123 XOR\n2 1 702 110123 19024 XOR\n2 1 91694 85550 110215 XOR\n2 1 110215 110184 4573 XOR\n2 1 91694 110184 19111 XOR\n2 1 19111 19112 19110 AND\n2 1 19110 110184 110185 XOR\n2 1 85551 110185 19115 XOR\n2 1 349 4125 125171 XOR\n2 1 125171 125140 95603 XOR\n2 1 4125 125140 45767 XOR\n2 1 45766 45767 45765 AND\n2 1 45765 125140 125141 XOR\n2 1 350 125141 45769 XOR\n2 1 93683 125948 47232 XOR\n2 1 47232 47233 47231 AND\n2 1 47231 125948 125949 XOR\n1 1 125949 47236 INV\n2 1 97779 125979 47335 XOR\n2 1 47335 47336 47334 AND\n2 1 47334 125979 125980 XOR\n2 1 95732 125980 47339 XOR\n2 1 101875 126103 47515 XOR\n2 1 99827 126103 47516 XOR\n2 1 47515 47516 47514 AND\n2 1 47514 126103 126104 XOR\n2 1 126135 126104 97780 XOR\n2 1 97780 95732 126011 XOR\n2 1 126011 125980 93684 XOR\n1 1 93684 47249 INV\n2 1 47249 125949 91695 XOR\n2 1 702 91695 110154 XOR\n2 1 110154 110123 4126 XOR\n2 1 91695 110123 19025 XOR\n2 1 19024 19025 19023 AND\n2 1 19023 110123 110124 XOR\n2 1 91695 85551 110216 XOR\n2 1 110216 110185 4574 XOR\n2 1 91695 110185 19114 XOR\n2 1 19114 19115 19113 AND\n2 1 19113 110185 110186 XOR\n2 1 350 4126 125172 XOR\n2 1 125172 125141 95604 XOR\n2 1 4126 125141 45770 XOR\n2 1 45769 45770 45768 AND\n2 1 45768 125141 125142 XOR\n2 1 93684 125949 47235 XOR\n2 1 47235 47236 47234 AND\n2 1 47234 125949 125950 XOR\n2 1 97780 125980 47338 XOR\n2 1 47338 47339 47337 AND\n2 1 47337 125980 125981 XOR\n2 1 101876 126104 47518 XOR\n2 1 99828 126104 47519 XOR\n2 1 47518 47519 47517 AND\n2 1 47517 126104 126105 XOR\n2 1 126136 126105 97781 XOR\n2 1 97781 95733 126012 XOR\n2 1 126012 125981 93685 XOR\n2 1 93685 125950 91696 XOR\n2 1 703 91696 110155 XOR\n2 1 110155 110124 4127 XOR\n2 1 91696 85552 110217 XOR\n2 1 110217 110186 4575 XOR\n2 1 351 4127 125173 XOR\n2 1 125173 125142 95605 XOR\n2 1 75568 4127 75536 AND\n2 1 75567 4126 75535 AND\n2 1 75566 4125 75534 AND\n2 1 75565 4124 75533 AND\n2 1 75564 4123 75532 AND\n2 1 75563 4122 75531 AND\n2 1 75562 4121 75530 AND\n",
"2 1 75561 4120 75529 AND\n2 1 75560 4119 75528 AND\n2 1 75559 4118 75527 AND\n2 1 75558 4117 75526 AND\n2 1 75557 4116 75525 AND\n2 1 75556 4115 75524 AND\n2 1 75555 4114 75523 AND\n2 1 75554 4113 75522 AND\n2 1 75553 4112 75521 AND\n2 1 75552 4111 75520 AND\n2 1 75551 4110 75519 AND\n2 1 75550 4109 75518 AND\n2 1 75549 4108 75517 AND\n2 1 75548 4107 75516 AND\n2 1 75547 4106 75515 AND\n2 1 75546 4105 75514 AND\n2 1 75545 4104 75513 AND\n2 1 75544 4103 75512 AND\n2 1 75543 4102 75511 AND\n2 1 75542 4101 75510 AND\n2 1 75541 4100 75509 AND\n2 1 75540 4099 75508 AND\n2 1 75539 4098 75507 AND\n2 1 75538 4097 75506 AND\n2 1 75537 4096 75505 AND\n2 1 75536 639 99797 XOR\n2 1 75535 638 99796 XOR\n2 1 75534 637 99795 XOR\n2 1 75533 636 99794 XOR\n2 1 75532 635 99793 XOR\n2 1 75531 634 99792 XOR\n2 1 75530 633 99791 XOR\n2 1 75529 632 99790 XOR\n2 1 75528 631 99789 XOR\n2 1 75527 630 99788 XOR\n2 1 75526 629 99787 XOR\n2 1 75525 628 99786 XOR\n2 1 75524 627 99785 XOR\n2 1 75523 626 99784 XOR\n2 1 75522 625 99783 XOR\n2 1 75521 624 99782 XOR\n2 1 75520 623 99781 XOR\n2 1 75519 622 99780 XOR\n2 1 75518 621 99779 XOR\n2 1 75517 620 99778 XOR\n2 1 75516 619 99777 XOR\n2 1 75515 618 99776 XOR\n2 1 75514 617 99775 XOR\n2 1 75513 616 99774 XOR\n2 1 75512 615 99773 XOR\n2 1 75511 614 99772 XOR\n2 1 75510 613 99771 XOR\n2 1 75509 612 99770 XOR\n2 1 75508 611 99769 XOR\n2 1 75507 610 99768 XOR\n2 1 75506 609 99767 XOR\n2 1 75505 608 99766 XOR\n2 1 4575 767 75344 XOR\n2 1 4574 766 75343 XOR\n2 1 4573 765 75342 XOR\n2 1 4572 764 75341 XOR\n2 1 4571 763 75340 XOR\n2 1 4570 762 75339 XOR\n2 1 4569 761 75338 XOR\n2 1 4568 760 75337 XOR\n2 1 4567 759 75336 XOR\n2 1 4566 758 75335 XOR\n2 1 4565 757 75334 XOR\n2 1 4564 756 75333 XOR\n2 1 4563 755 75332 XOR\n2 1 4562 754 75331 XOR\n2 1 4561 753 75330 XOR\n2 1 4560 752 75329 XOR\n2 1 4559 751 75328 XOR\n2 1 4558 750 75327 XOR\n2 1 4557 749 75326 XOR\n2 1 4556 748 75325 XOR\n2 1 4555 747 75324 XOR\n2 1 4554 746 75323 XOR\n2 1 4553 745 75322 XOR\n2 1 4552 744 75321 XOR\n2 1 4551 743 75320 XOR\n2 1 4550 742 75319 XOR\n2 1 4549 741 75318 XOR\n2 1 4548 740 75317 XOR\n2 1 4547 739 75316 XOR\n2 1 4546 738 75315 XOR\n2 1 4545 737 75314 XOR\n2 1 4544 736 75313 XOR\n2 1 75344 75312 75280 AND\n2 1 75343 75311 75279 AND\n2 1 75342 75310 75278 AND\n2 1 75341 75309 75277 AND\n2 1 75340 75308 75276 AND\n2 1 75339 75307 75275 AND\n2 1 75338 75306 75274 AND\n2 1 75337 75305 75273 AND\n2 1 75336 75304 75272 AND\n2 1 75335 75303 75271 AND\n2 1 75334 75302 75270 AND\n2 1 75333 75301 75269 AND\n2 1 75332 75300 75268 AND\n2 1 75331 75299 75267 AND\n2 1 75330 75298 75266 AND\n2 1 75329 75297 75265 AND\n2 1 75328 75296 75264 AND\n2 1 75327 75295 75263 AND\n2 1 75326 75294 75262 AND\n2 1 75325 75293 75261 AND\n2 1 75324 75292 75260 AND\n2 1 75323 75291 75259 AND\n2 1 75322 75290 75258 AND\n2 1 75321 75289 75257 AND\n2 1 75320 75288 75256 AND\n2 1 75319 75287 75255 AND\n2 1 75318 75286 75254 AND\n2 1 75317 75285 75253 AND\n2 1 75316 75284 75252 AND\n2 1 75315 75283 75251 AND\n2 1 75314 75282 75250 AND\n2 1 75313 75281 75249 AND\n2 1 75280 767 87568 XOR\n2 1 75279 766 87567 XOR\n2 1 75278 765 87566 XOR\n2 1 75277 764 87565 XOR\n2 1 75276 763 87564 XOR\n2 1 75275 762 87563 XOR\n2 1 75274 761 87562 XOR\n",
"2 1 75273 760 87561 XOR\n2 1 75272 759 87560 XOR\n2 1 75271 758 87559 XOR\n2 1 75270 757 87558 XOR\n2 1 75269 756 87557 XOR\n2 1 75268 755 87556 XOR\n2 1 75267 754 87555 XOR\n2 1 75266 753 87554 XOR\n2 1 75265 752 87553 XOR\n2 1 75264 751 87552 XOR\n2 1 75263 750 87551 XOR\n2 1 75262 749 87550 XOR\n2 1 75261 748 87549 XOR\n2 1 75260 747 87548 XOR\n2 1 75259 746 87547 XOR\n2 1 75258 745 87546 XOR\n2 1 75257 744 87545 XOR\n2 1 75256 743 87544 XOR\n2 1 75255 742 87543 XOR\n2 1 75254 741 87542 XOR\n2 1 75253 740 87541 XOR\n2 1 75252 739 87540 XOR\n2 1 75251 738 87539 XOR\n2 1 75250 737 87538 XOR\n2 1 75249 736 87537 XOR\n2 1 4575 4607 74574 XOR\n2 1 4574 4606 74573 XOR\n2 1 4573 4605 74572 XOR\n2 1 4572 4604 74571 XOR\n2 1 4571 4603 74570 XOR\n2 1 4570 4602 74569 XOR\n2 1 4569 4601 74568 XOR\n2 1 4568 4600 74567 XOR\n2 1 4567 4599 74566 XOR\n2 1 4566 4598 74565 XOR\n2 1 4565 4597 74564 XOR\n2 1 4564 4596 74563 XOR\n2 1 4563 4595 74562 XOR\n2 1 4562 4594 74561 XOR\n2 1 4561 4593 74560 XOR\n2 1 4560 4592 74559 XOR\n2 1 4559 4591 74558 XOR\n2 1 4558 4590 74557 XOR\n2 1 4557 4589 74556 XOR\n2 1 4556 4588 74555 XOR\n2 1 4555 4587 74554 XOR\n2 1 4554 4586 74553 XOR\n2 1 4553 4585 74552 XOR\n2 1 4552 4584 74551 XOR\n2 1 4551 4583 74550 XOR\n2 1 4550 4582 74549 XOR\n2 1 4549 4581 74548 XOR\n2 1 4548 4580 74547 XOR\n2 1 4547 4579 74546 XOR\n2 1 4546 4578 74545 XOR\n2 1 4545 4577 74544 XOR\n2 1 4544 4576 74543 XOR\n2 1 4545 4556 68718 XOR\n2 1 4544 4555 68717 XOR\n2 1 4575 4554 68716 XOR\n2 1 4574 4553 68715 XOR\n2 1 4573 4552 68714 XOR\n2 1 4572 4551 68713 XOR\n2 1 4571 4550 68712 XOR\n2 1 4570 4549 68711 XOR\n2 1 4569 4548 68710 XOR\n2 1 4568 4547 68709 XOR\n2 1 4567 4546 68708 XOR\n2 1 4566 4545 68707 XOR\n2 1 4565 4544 68706 XOR\n2 1 4564 4575 68705 XOR\n2 1 4563 4574 68704 XOR\n2 1 4562 4573 68703 XOR\n2 1 4561 4572 68702 XOR\n2 1 4560 4571 68701 XOR\n2 1 4559 4570 68700 XOR\n2 1 4558 4569 68699 XOR\n2 1 4557 4568 68698 XOR\n2 1 4556 4567 68697 XOR\n2 1 4555 4566 68696 XOR\n2 1 4554 4565 68695 XOR\n2 1 4553 4564 68694 XOR\n2 1 4552 4563 68693 XOR\n2 1 4551 4562 68692 XOR\n2 1 4550 4561 68691 XOR\n2 1 4549 4560 68690 XOR\n2 1 4548 4559 68689 XOR\n2 1 4547 4558 68688 XOR\n2 1 4546 4557 68687 XOR\n2 1 68718 4565 89616 XOR\n2 1 89616 87568 125688 XOR\n2 1 68717 4564 89615 XOR\n2 1 89615 87567 125687 XOR\n2 1 68716 4563 89614 XOR\n2 1 89614 87566 125686 XOR\n2 1 68715 4562 89613 XOR\n2 1 89613 87565 125685 XOR\n2 1 68714 4561 89612 XOR\n2 1 89612 87564 125684 XOR\n2 1 68713 4560 89611 XOR\n2 1 89611 87563 125683 XOR\n2 1 68712 4559 89610 XOR\n2 1 89610 87562 125682 XOR\n2 1 68711 4558 89609 XOR\n2 1 89609 87561 125681 XOR\n2 1 68710 4557 89608 XOR\n2 1 89608 87560 125680 XOR\n2 1 68709 4556 89607 XOR\n2 1 89607 87559 125679 XOR\n2 1 68708 4555 89606 XOR\n2 1 89606 87558 125678 XOR\n2 1 68707 4554 89605 XOR\n2 1 89605 87557 125677 XOR\n2 1 68706 4553 89604 XOR\n2 1 89604 87556 125676 XOR\n2 1 68705 4552 89603 XOR\n2 1 89603 87555 125675 XOR\n2 1 68704 4551 89602 XOR\n2 1 89602 87554 125674 XOR\n2 1 68703 4550 89601 XOR\n2 1 89601 87553 125673 XOR\n2 1 68702 4549 89600 XOR\n2 1 89600 87552 125672 XOR\n2 1 68701 4548 89599 XOR\n2 1 89599 87551 125671 XOR\n2 1 68700 4547 89598 XOR\n2 1 89598 87550 125670 XOR\n2 1 68699 4546 89597 XOR\n",
"2 1 89597 87549 125669 XOR\n2 1 68698 4545 89596 XOR\n2 1 89596 87548 125668 XOR\n2 1 68697 4544 89595 XOR\n2 1 89595 87547 125667 XOR\n2 1 68696 4575 89594 XOR\n2 1 89594 87546 125666 XOR\n2 1 68695 4574 89593 XOR\n2 1 89593 87545 125665 XOR\n2 1 68694 4573 89592 XOR\n2 1 89592 87544 125664 XOR\n2 1 68693 4572 89591 XOR\n2 1 89591 87543 125663 XOR\n2 1 68692 4571 89590 XOR\n2 1 89590 87542 125662 XOR\n2 1 68691 4570 89589 XOR\n2 1 89589 87541 125661 XOR\n2 1 68690 4569 89588 XOR\n2 1 89588 87540 125660 XOR\n2 1 68689 4568 89587 XOR\n2 1 89587 87539 125659 XOR\n2 1 68688 4567 89586 XOR\n2 1 89586 87538 125658 XOR\n2 1 68687 4566 89585 XOR\n2 1 89585 87537 125627 AND\n2 1 89585 87537 85489 XOR\n2 1 125658 125627 85490 XOR\n2 1 89586 125627 46602 XOR\n2 1 87538 125627 46603 XOR\n2 1 46602 46603 46601 AND\n2 1 46601 125627 125628 XOR\n2 1 125659 125628 85491 XOR\n2 1 89587 125628 46605 XOR\n2 1 87539 125628 46606 XOR\n2 1 46605 46606 46604 AND\n2 1 46604 125628 125629 XOR\n2 1 125660 125629 85492 XOR\n2 1 89588 125629 46608 XOR\n2 1 87540 125629 46609 XOR\n2 1 46608 46609 46607 AND\n2 1 46607 125629 125630 XOR\n2 1 125661 125630 85493 XOR\n2 1 89589 125630 46611 XOR\n2 1 87541 125630 46612 XOR\n2 1 46611 46612 46610 AND\n2 1 46610 125630 125631 XOR\n2 1 125662 125631 85494 XOR\n2 1 89590 125631 46614 XOR\n2 1 87542 125631 46615 XOR\n2 1 46614 46615 46613 AND\n2 1 46613 125631 125632 XOR\n2 1 125663 125632 85495 XOR\n2 1 89591 125632 46617 XOR\n2 1 87543 125632 46618 XOR\n2 1 46617 46618 46616 AND\n2 1 46616 125632 125633 XOR\n2 1 125664 125633 85496 XOR\n2 1 89592 125633 46620 XOR\n2 1 87544 125633 46621 XOR\n2 1 46620 46621 46619 AND\n2 1 46619 125633 125634 XOR\n2 1 125665 125634 85497 XOR\n2 1 89593 125634 46623 XOR\n2 1 87545 125634 46624 XOR\n2 1 46623 46624 46622 AND\n2 1 46622 125634 125635 XOR\n2 1 125666 125635 85498 XOR\n2 1 89594 125635 46626 XOR\n2 1 87546 125635 46627 XOR\n2 1 46626 46627 46625 AND\n2 1 46625 125635 125636 XOR\n2 1 125667 125636 85499 XOR\n2 1 89595 125636 46629 XOR\n2 1 87547 125636 46630 XOR\n2 1 46629 46630 46628 AND\n2 1 46628 125636 125637 XOR\n2 1 125668 125637 85500 XOR\n2 1 89596 125637 46632 XOR\n2 1 87548 125637 46633 XOR\n2 1 46632 46633 46631 AND\n2 1 46631 125637 125638 XOR\n2 1 125669 125638 85501 XOR\n2 1 89597 125638 46635 XOR\n2 1 87549 125638 46636 XOR\n2 1 46635 46636 46634 AND\n2 1 46634 125638 125639 XOR\n2 1 125670 125639 85502 XOR\n2 1 89598 125639 46638 XOR\n2 1 87550 125639 46639 XOR\n2 1 46638 46639 46637 AND\n2 1 46637 125639 125640 XOR\n2 1 125671 125640 85503 XOR\n2 1 89599 125640 46641 XOR\n2 1 87551 125640 46642 XOR\n2 1 46641 46642 46640 AND\n2 1 46640 125640 125641 XOR\n2 1 125672 125641 85504 XOR\n2 1 89600 125641 46644 XOR\n2 1 87552 125641 46645 XOR\n2 1 46644 46645 46643 AND\n2 1 46643 125641 125642 XOR\n2 1 125673 125642 85505 XOR\n2 1 89601 125642 46647 XOR\n2 1 87553 125642 46648 XOR\n2 1 46647 46648 46646 AND\n2 1 46646 125642 125643 XOR\n2 1 125674 125643 85506 XOR\n2 1 89602 125643 46650 XOR\n2 1 87554 125643 46651 XOR\n2 1 46650 46651 46649 AND\n2 1 46649 125643 125644 XOR\n2 1 125675 125644 85507 XOR\n2 1 89603 125644 46653 XOR\n2 1 87555 125644 46654 XOR\n2 1 46653 46654 46652 AND\n2 1 46652 125644 125645 XOR\n2 1 125676 125645 85508 XOR\n2 1 89604 125645 46656 XOR\n2 1 87556 125645 46657 XOR\n2 1 46656 46657 46655 AND\n2 1 46655 125645 125646 XOR\n2 1 125677 125646 85509 XOR\n2 1 89605 125646 46659 XOR\n2 1 87557 125646 46660 XOR\n2 1 46659 46660 46658 AND\n2 1 46658 125646 125647 XOR\n2 1 125678 125647 85510 XOR\n2 1 89606 125647 46662 XOR\n",
"2 1 87558 125647 46663 XOR\n2 1 46662 46663 46661 AND\n2 1 46661 125647 125648 XOR\n2 1 125679 125648 85511 XOR\n2 1 89607 125648 46665 XOR\n2 1 87559 125648 46666 XOR\n2 1 46665 46666 46664 AND\n2 1 46664 125648 125649 XOR\n2 1 125680 125649 85512 XOR\n2 1 89608 125649 46668 XOR\n2 1 87560 125649 46669 XOR\n2 1 46668 46669 46667 AND\n2 1 46667 125649 125650 XOR\n2 1 125681 125650 85513 XOR\n2 1 89609 125650 46671 XOR\n2 1 87561 125650 46672 XOR\n2 1 46671 46672 46670 AND\n2 1 46670 125650 125651 XOR\n2 1 125682 125651 85514 XOR\n2 1 89610 125651 46674 XOR\n2 1 87562 125651 46675 XOR\n2 1 46674 46675 46673 AND\n2 1 46673 125651 125652 XOR\n2 1 125683 125652 85515 XOR\n2 1 89611 125652 46677 XOR\n2 1 87563 125652 46678 XOR\n2 1 46677 46678 46676 AND\n2 1 46676 125652 125653 XOR\n2 1 125684 125653 85516 XOR\n2 1 89612 125653 46680 XOR\n2 1 87564 125653 46681 XOR\n2 1 46680 46681 46679 AND\n2 1 46679 125653 125654 XOR\n2 1 125685 125654 85517 XOR\n2 1 89613 125654 46683 XOR\n2 1 87565 125654 46684 XOR\n2 1 46683 46684 46682 AND\n2 1 46682 125654 125655 XOR\n2 1 125686 125655 85518 XOR\n2 1 89614 125655 46686 XOR\n2 1 87566 125655 46687 XOR\n2 1 46686 46687 46685 AND\n2 1 46685 125655 125656 XOR\n2 1 125687 125656 85519 XOR\n2 1 89615 125656 46689 XOR\n2 1 87567 125656 46690 XOR\n2 1 46689 46690 46688 AND\n2 1 46688 125656 125657 XOR\n2 1 125688 125657 85520 XOR\n2 1 4127 4159 66734 XOR\n2 1 4126 4158 66733 XOR\n2 1 4125 4157 66732 XOR\n2 1 4124 4156 66731 XOR\n2 1 4123 4155 66730 XOR\n2 1 4122 4154 66729 XOR\n2 1 4121 4153 66728 XOR\n2 1 4120 4152 66727 XOR\n2 1 4119 4151 66726 XOR\n2 1 4118 4150 66725 XOR\n2 1 4117 4149 66724 XOR\n2 1 4116 4148 66723 XOR\n2 1 4115 4147 66722 XOR\n2 1 4114 4146 66721 XOR\n2 1 4113 4145 66720 XOR\n2 1 4112 4144 66719 XOR\n2 1 4111 4143 66718 XOR\n2 1 4110 4142 66717 XOR\n2 1 4109 4141 66716 XOR\n2 1 4108 4140 66715 XOR\n2 1 4107 4139 66714 XOR\n2 1 4106 4138 66713 XOR\n2 1 4105 4137 66712 XOR\n2 1 4104 4136 66711 XOR\n2 1 4103 4135 66710 XOR\n2 1 4102 4134 66709 XOR\n2 1 4101 4133 66708 XOR\n2 1 4100 4132 66707 XOR\n2 1 4099 4131 66706 XOR\n2 1 4098 4130 66705 XOR\n2 1 4097 4129 66704 XOR\n2 1 4096 4128 66703 XOR\n2 1 4101 4106 62798 XOR\n2 1 4100 4105 62797 XOR\n2 1 4099 4104 62796 XOR\n2 1 4098 4103 62795 XOR\n2 1 4097 4102 62794 XOR\n2 1 4096 4101 62793 XOR\n2 1 4127 4100 62792 XOR\n2 1 4126 4099 62791 XOR\n2 1 4125 4098 62790 XOR\n2 1 4124 4097 62789 XOR\n2 1 4123 4096 62788 XOR\n2 1 4122 4127 62787 XOR\n2 1 4121 4126 62786 XOR\n2 1 4120 4125 62785 XOR\n2 1 4119 4124 62784 XOR\n2 1 4118 4123 62783 XOR\n2 1 4117 4122 62782 XOR\n2 1 4116 4121 62781 XOR\n2 1 4115 4120 62780 XOR\n2 1 4114 4119 62779 XOR\n2 1 4113 4118 62778 XOR\n2 1 4112 4117 62777 XOR\n2 1 4111 4116 62776 XOR\n2 1 4110 4115 62775 XOR\n2 1 4109 4114 62774 XOR\n2 1 4108 4113 62773 XOR\n2 1 4107 4112 62772 XOR\n2 1 4106 4111 62771 XOR\n2 1 4105 4110 62770 XOR\n2 1 4104 4109 62769 XOR\n2 1 4103 4108 62768 XOR\n2 1 4102 4107 62767 XOR\n2 1 62798 4120 101845 XOR\n2 1 101845 99797 125874 XOR\n2 1 62797 4119 101844 XOR\n2 1 101844 99796 125873 XOR\n2 1 62796 4118 101843 XOR\n2 1 101843 99795 125872 XOR\n2 1 62795 4117 101842 XOR\n2 1 101842 99794 125871 XOR\n2 1 62794 4116 101841 XOR\n2 1 101841 99793 125870 XOR\n2 1 62793 4115 101840 XOR\n2 1 101840 99792 125869 XOR\n2 1 62792 4114 101839 XOR\n2 1 101839 99791 125868 XOR\n2 1 62791 4113 101838 XOR\n",
"2 1 101838 99790 125867 XOR\n2 1 62790 4112 101837 XOR\n2 1 101837 99789 125866 XOR\n2 1 62789 4111 101836 XOR\n2 1 101836 99788 125865 XOR\n2 1 62788 4110 101835 XOR\n2 1 101835 99787 125864 XOR\n2 1 62787 4109 101834 XOR\n2 1 101834 99786 125863 XOR\n2 1 62786 4108 101833 XOR\n2 1 101833 99785 125862 XOR\n2 1 62785 4107 101832 XOR\n2 1 101832 99784 125861 XOR\n2 1 62784 4106 101831 XOR\n2 1 101831 99783 125860 XOR\n2 1 62783 4105 101830 XOR\n2 1 101830 99782 125859 XOR\n2 1 62782 4104 101829 XOR\n2 1 101829 99781 125858 XOR\n2 1 62781 4103 101828 XOR\n2 1 101828 99780 125857 XOR\n2 1 62780 4102 101827 XOR\n2 1 101827 99779 125856 XOR\n2 1 62779 4101 101826 XOR\n2 1 101826 99778 125855 XOR\n2 1 62778 4100 101825 XOR\n2 1 101825 99777 125854 XOR\n2 1 62777 4099 101824 XOR\n2 1 101824 99776 125853 XOR\n2 1 62776 4098 101823 XOR\n2 1 101823 99775 125852 XOR\n2 1 62775 4097 101822 XOR\n2 1 101822 99774 125851 XOR\n2 1 62774 4096 101821 XOR\n2 1 101821 99773 125850 XOR\n2 1 62773 4127 101820 XOR\n2 1 101820 99772 125849 XOR\n2 1 62772 4126 101819 XOR\n2 1 101819 99771 125848 XOR\n2 1 62771 4125 101818 XOR\n2 1 101818 99770 125847 XOR\n2 1 62770 4124 101817 XOR\n2 1 101817 99769 125846 XOR\n2 1 62769 4123 101816 XOR\n2 1 101816 99768 125845 XOR\n2 1 62768 4122 101815 XOR\n2 1 101815 99767 125844 XOR\n2 1 62767 4121 101814 XOR\n2 1 101814 99766 125813 AND\n2 1 101814 99766 97718 XOR\n2 1 97718 95670 125689 AND\n2 1 97718 95670 93622 XOR\n1 1 93622 91633 INV\n2 1 704 91633 109970 AND\n2 1 704 91633 4064 XOR\n2 1 705 109970 18757 XOR\n2 1 91633 85489 110032 AND\n2 1 91633 85489 4512 XOR\n2 1 85490 110032 18848 XOR\n2 1 288 4064 124848 AND\n2 1 288 4064 95542 XOR\n2 1 289 124848 45233 XOR\n2 1 95671 125689 46807 XOR\n2 1 125844 125813 97719 XOR\n2 1 97719 95671 125720 XOR\n2 1 125720 125689 93623 XOR\n1 1 93623 46786 INV\n2 1 46786 93622 91634 XOR\n2 1 705 91634 110001 XOR\n2 1 110001 109970 4065 XOR\n2 1 91634 109970 18758 XOR\n2 1 18757 18758 18756 AND\n2 1 18756 109970 109971 XOR\n2 1 706 109971 18760 XOR\n2 1 91634 85490 110063 XOR\n2 1 110063 110032 4513 XOR\n2 1 91634 110032 18847 XOR\n2 1 18847 18848 18846 AND\n2 1 18846 110032 110033 XOR\n2 1 85491 110033 18851 XOR\n2 1 289 4065 124879 XOR\n2 1 124879 124848 95543 XOR\n2 1 4065 124848 45234 XOR\n2 1 45233 45234 45232 AND\n2 1 45232 124848 124849 XOR\n2 1 290 124849 45236 XOR\n2 1 93623 93622 46692 XOR\n2 1 46692 91633 46691 AND\n2 1 46691 93622 46768 XOR\n1 1 46768 46695 INV\n2 1 97719 125689 46806 XOR\n2 1 46806 46807 46805 AND\n2 1 46805 125689 125690 XOR\n2 1 95672 125690 46810 XOR\n2 1 101815 125813 46986 XOR\n2 1 99767 125813 46987 XOR\n2 1 46986 46987 46985 AND\n2 1 46985 125813 125814 XOR\n2 1 125845 125814 97720 XOR\n2 1 97720 95672 125721 XOR\n2 1 125721 125690 93624 XOR\n1 1 93624 46787 INV\n2 1 46787 46768 91635 XOR\n2 1 706 91635 110002 XOR\n2 1 110002 109971 4066 XOR\n2 1 91635 109971 18761 XOR\n2 1 18760 18761 18759 AND\n2 1 18759 109971 109972 XOR\n2 1 707 109972 18763 XOR\n2 1 91635 85491 110064 XOR\n2 1 110064 110033 4514 XOR\n2 1 91635 110033 18850 XOR\n2 1 18850 18851 18849 AND\n2 1 18849 110033 110034 XOR\n2 1 85492 110034 18854 XOR\n2 1 290 4066 124880 XOR\n2 1 124880 124849 95544 XOR\n2 1 4066 124849 45237 XOR\n2 1 45236 45237 45235 AND\n2 1 45235 124849 124850 XOR\n2 1 291 124850 45239 XOR\n2 1 93624 46768 46694 XOR\n2 1 46694 46695 46693 AND\n2 1 46693 46768 46769 XOR\n1 1 46769 46698 INV\n2 1 97720 125690 46809 XOR\n2 1 46809 46810 46808 AND\n2 1 46808 125690 125691 XOR\n",
"2 1 95673 125691 46813 XOR\n2 1 101816 125814 46989 XOR\n2 1 99768 125814 46990 XOR\n2 1 46989 46990 46988 AND\n2 1 46988 125814 125815 XOR\n2 1 125846 125815 97721 XOR\n2 1 97721 95673 125722 XOR\n2 1 125722 125691 93625 XOR\n1 1 93625 46788 INV\n2 1 46788 46769 91636 XOR\n2 1 707 91636 110003 XOR\n2 1 110003 109972 4067 XOR\n2 1 91636 109972 18764 XOR\n2 1 18763 18764 18762 AND\n2 1 18762 109972 109973 XOR\n2 1 708 109973 18766 XOR\n2 1 91636 85492 110065 XOR\n2 1 110065 110034 4515 XOR\n2 1 91636 110034 18853 XOR\n2 1 18853 18854 18852 AND\n2 1 18852 110034 110035 XOR\n2 1 85493 110035 18857 XOR\n2 1 291 4067 124881 XOR\n2 1 124881 124850 95545 XOR\n2 1 4067 124850 45240 XOR\n2 1 45239 45240 45238 AND\n2 1 45238 124850 124851 XOR\n2 1 292 124851 45242 XOR\n2 1 93625 46769 46697 XOR\n2 1 46697 46698 46696 AND\n2 1 46696 46769 46700 XOR\n2 1 97721 125691 46812 XOR\n2 1 46812 46813 46811 AND\n2 1 46811 125691 125692 XOR\n2 1 95674 125692 46816 XOR\n2 1 101817 125815 46992 XOR\n2 1 99769 125815 46993 XOR\n2 1 46992 46993 46991 AND\n2 1 46991 125815 125816 XOR\n2 1 125847 125816 97722 XOR\n2 1 97722 95674 125723 XOR\n2 1 125723 125692 93626 XOR\n2 1 93626 46700 91637 XOR\n2 1 91637 109973 18767 XOR\n2 1 18766 18767 18765 AND\n2 1 18765 109973 109974 XOR\n2 1 709 109974 18769 XOR\n2 1 91637 85493 110066 XOR\n2 1 110066 110035 4516 XOR\n2 1 91637 110035 18856 XOR\n2 1 18856 18857 18855 AND\n2 1 18855 110035 110036 XOR\n2 1 85494 110036 18860 XOR\n2 1 708 91637 110004 XOR\n2 1 110004 109973 4068 XOR\n2 1 4068 124851 45243 XOR\n2 1 45242 45243 45241 AND\n2 1 45241 124851 124852 XOR\n2 1 293 124852 45245 XOR\n2 1 292 4068 124882 XOR\n2 1 124882 124851 95546 XOR\n2 1 91637 46700 46699 AND\n2 1 46699 46700 46702 XOR\n2 1 97722 125692 46815 XOR\n2 1 46815 46816 46814 AND\n2 1 46814 125692 125693 XOR\n2 1 95675 125693 46819 XOR\n2 1 101818 125816 46995 XOR\n2 1 99770 125816 46996 XOR\n2 1 46995 46996 46994 AND\n2 1 46994 125816 125817 XOR\n2 1 125848 125817 97723 XOR\n2 1 97723 95675 125724 XOR\n2 1 125724 125693 93627 XOR\n2 1 93627 46702 91638 XOR\n2 1 91638 109974 18770 XOR\n2 1 18769 18770 18768 AND\n2 1 18768 109974 109975 XOR\n2 1 710 109975 18772 XOR\n2 1 91638 85494 110067 XOR\n2 1 110067 110036 4517 XOR\n2 1 91638 110036 18859 XOR\n2 1 18859 18860 18858 AND\n2 1 18858 110036 110037 XOR\n2 1 85495 110037 18863 XOR\n2 1 709 91638 110005 XOR\n2 1 110005 109974 4069 XOR\n2 1 4069 124852 45246 XOR\n2 1 45245 45246 45244 AND\n2 1 45244 124852 124853 XOR\n2 1 294 124853 45248 XOR\n2 1 293 4069 124883 XOR\n2 1 124883 124852 95547 XOR\n2 1 91638 46702 46701 AND\n2 1 46701 46702 46770 XOR\n1 1 46770 46705 INV\n2 1 97723 125693 46818 XOR\n2 1 46818 46819 46817 AND\n2 1 46817 125693 125694 XOR\n2 1 95676 125694 46822 XOR\n2 1 101819 125817 46998 XOR\n2 1 99771 125817 46999 XOR\n2 1 46998 46999 46997 AND\n2 1 46997 125817 125818 XOR\n2 1 125849 125818 97724 XOR\n2 1 97724 95676 125725 XOR\n2 1 125725 125694 93628 XOR\n1 1 93628 46789 INV\n2 1 46789 46770 91639 XOR\n2 1 710 91639 110006 XOR\n2 1 110006 109975 4070 XOR\n2 1 91639 109975 18773 XOR\n2 1 18772 18773 18771 AND\n2 1 18771 109975 109976 XOR\n2 1 711 109976 18775 XOR\n2 1 91639 85495 110068 XOR\n2 1 110068 110037 4518 XOR\n2 1 91639 110037 18862 XOR\n2 1 18862 18863 18861 AND\n2 1 18861 110037 110038 XOR\n2 1 85496 110038 18866 XOR\n2 1 294 4070 124884 XOR\n2 1 124884 124853 95548 XOR\n2 1 4070 124853 45249 XOR\n2 1 45248 45249 45247 AND\n2 1 45247 124853 124854 XOR\n2 1 295 124854 45251 XOR\n2 1 93628 46770 46704 XOR\n",
"2 1 46704 46705 46703 AND\n2 1 46703 46770 46771 XOR\n1 1 46771 46708 INV\n2 1 97724 125694 46821 XOR\n2 1 46821 46822 46820 AND\n2 1 46820 125694 125695 XOR\n2 1 95677 125695 46825 XOR\n2 1 101820 125818 47001 XOR\n2 1 99772 125818 47002 XOR\n2 1 47001 47002 47000 AND\n2 1 47000 125818 125819 XOR\n2 1 125850 125819 97725 XOR\n2 1 97725 95677 125726 XOR\n2 1 125726 125695 93629 XOR\n1 1 93629 46790 INV\n2 1 46790 46771 91640 XOR\n2 1 711 91640 110007 XOR\n2 1 110007 109976 4071 XOR\n2 1 91640 109976 18776 XOR\n2 1 18775 18776 18774 AND\n2 1 18774 109976 109977 XOR\n2 1 712 109977 18778 XOR\n2 1 91640 85496 110069 XOR\n2 1 110069 110038 4519 XOR\n2 1 91640 110038 18865 XOR\n2 1 18865 18866 18864 AND\n2 1 18864 110038 110039 XOR\n2 1 85497 110039 18869 XOR\n2 1 295 4071 124885 XOR\n2 1 124885 124854 95549 XOR\n2 1 4071 124854 45252 XOR\n2 1 45251 45252 45250 AND\n2 1 45250 124854 124855 XOR\n2 1 296 124855 45254 XOR\n2 1 93629 46771 46707 XOR\n2 1 46707 46708 46706 AND\n2 1 46706 46771 46772 XOR\n1 1 46772 46711 INV\n2 1 97725 125695 46824 XOR\n2 1 46824 46825 46823 AND\n2 1 46823 125695 125696 XOR\n2 1 95678 125696 46828 XOR\n2 1 101821 125819 47004 XOR\n2 1 99773 125819 47005 XOR\n2 1 47004 47005 47003 AND\n2 1 47003 125819 125820 XOR\n2 1 125851 125820 97726 XOR\n2 1 97726 95678 125727 XOR\n2 1 125727 125696 93630 XOR\n1 1 93630 46791 INV\n2 1 46791 46772 91641 XOR\n2 1 712 91641 110008 XOR\n2 1 110008 109977 4072 XOR\n2 1 91641 109977 18779 XOR\n2 1 18778 18779 18777 AND\n2 1 18777 109977 109978 XOR\n2 1 713 109978 18781 XOR\n2 1 91641 85497 110070 XOR\n2 1 110070 110039 4520 XOR\n2 1 91641 110039 18868 XOR\n2 1 18868 18869 18867 AND\n2 1 18867 110039 110040 XOR\n2 1 85498 110040 18872 XOR\n2 1 296 4072 124886 XOR\n2 1 124886 124855 95550 XOR\n2 1 4072 124855 45255 XOR\n2 1 45254 45255 45253 AND\n2 1 45253 124855 124856 XOR\n2 1 297 124856 45257 XOR\n2 1 93630 46772 46710 XOR\n2 1 46710 46711 46709 AND\n2 1 46709 46772 46773 XOR\n1 1 46773 46714 INV\n2 1 97726 125696 46827 XOR\n2 1 46827 46828 46826 AND\n2 1 46826 125696 125697 XOR\n2 1 95679 125697 46831 XOR\n2 1 101822 125820 47007 XOR\n2 1 99774 125820 47008 XOR\n2 1 47007 47008 47006 AND\n2 1 47006 125820 125821 XOR\n2 1 125852 125821 97727 XOR\n2 1 97727 95679 125728 XOR\n2 1 125728 125697 93631 XOR\n1 1 93631 46792 INV\n2 1 46792 46773 91642 XOR\n2 1 713 91642 110009 XOR\n2 1 110009 109978 4073 XOR\n2 1 91642 109978 18782 XOR\n2 1 18781 18782 18780 AND\n2 1 18780 109978 109979 XOR\n2 1 714 109979 18784 XOR\n2 1 91642 85498 110071 XOR\n2 1 110071 110040 4521 XOR\n2 1 91642 110040 18871 XOR\n2 1 18871 18872 18870 AND\n2 1 18870 110040 110041 XOR\n2 1 85499 110041 18875 XOR\n2 1 297 4073 124887 XOR\n2 1 124887 124856 95551 XOR\n2 1 4073 124856 45258 XOR\n2 1 45257 45258 45256 AND\n2 1 45256 124856 124857 XOR\n2 1 298 124857 45260 XOR\n2 1 93631 46773 46713 XOR\n2 1 46713 46714 46712 AND\n2 1 46712 46773 46716 XOR\n2 1 97727 125697 46830 XOR\n2 1 46830 46831 46829 AND\n2 1 46829 125697 125698 XOR\n2 1 95680 125698 46834 XOR\n2 1 101823 125821 47010 XOR\n2 1 99775 125821 47011 XOR\n2 1 47010 47011 47009 AND\n2 1 47009 125821 125822 XOR\n2 1 125853 125822 97728 XOR\n2 1 97728 95680 125729 XOR\n2 1 125729 125698 93632 XOR\n2 1 93632 46716 91643 XOR\n2 1 91643 109979 18785 XOR\n2 1 18784 18785 18783 AND\n2 1 18783 109979 109980 XOR\n2 1 715 109980 18787 XOR\n2 1 91643 85499 110072 XOR\n2 1 110072 110041 4522 XOR\n2 1 91643 110041 18874 XOR\n2 1 18874 18875 18873 AND\n2 1 18873 110041 110042 XOR\n",
"2 1 85500 110042 18878 XOR\n2 1 714 91643 110010 XOR\n2 1 110010 109979 4074 XOR\n2 1 4074 124857 45261 XOR\n2 1 45260 45261 45259 AND\n2 1 45259 124857 124858 XOR\n2 1 299 124858 45263 XOR\n2 1 298 4074 124888 XOR\n2 1 124888 124857 95552 XOR\n2 1 91643 46716 46715 AND\n2 1 46715 46716 46774 XOR\n1 1 46774 46719 INV\n2 1 97728 125698 46833 XOR\n2 1 46833 46834 46832 AND\n2 1 46832 125698 125699 XOR\n2 1 95681 125699 46837 XOR\n2 1 101824 125822 47013 XOR\n2 1 99776 125822 47014 XOR\n2 1 47013 47014 47012 AND\n2 1 47012 125822 125823 XOR\n2 1 125854 125823 97729 XOR\n2 1 97729 95681 125730 XOR\n2 1 125730 125699 93633 XOR\n1 1 93633 46793 INV\n2 1 46793 46774 91644 XOR\n2 1 715 91644 110011 XOR\n2 1 110011 109980 4075 XOR\n2 1 91644 109980 18788 XOR\n2 1 18787 18788 18786 AND\n2 1 18786 109980 109981 XOR\n2 1 716 109981 18790 XOR\n2 1 91644 85500 110073 XOR\n2 1 110073 110042 4523 XOR\n2 1 91644 110042 18877 XOR\n2 1 18877 18878 18876 AND\n2 1 18876 110042 110043 XOR\n2 1 85501 110043 18881 XOR\n2 1 299 4075 124889 XOR\n2 1 124889 124858 95553 XOR\n2 1 4075 124858 45264 XOR\n2 1 45263 45264 45262 AND\n2 1 45262 124858 124859 XOR\n2 1 300 124859 45266 XOR\n2 1 93633 46774 46718 XOR\n2 1 46718 46719 46717 AND\n2 1 46717 46774 46775 XOR\n1 1 46775 46722 INV\n2 1 97729 125699 46836 XOR\n2 1 46836 46837 46835 AND\n2 1 46835 125699 125700 XOR\n2 1 95682 125700 46840 XOR\n2 1 101825 125823 47016 XOR\n2 1 99777 125823 47017 XOR\n2 1 47016 47017 47015 AND\n2 1 47015 125823 125824 XOR\n2 1 125855 125824 97730 XOR\n2 1 97730 95682 125731 XOR\n2 1 125731 125700 93634 XOR\n1 1 93634 46794 INV\n2 1 46794 46775 91645 XOR\n2 1 716 91645 110012 XOR\n2 1 110012 109981 4076 XOR\n2 1 91645 109981 18791 XOR\n2 1 18790 18791 18789 AND\n2 1 18789 109981 109982 XOR\n2 1 717 109982 18793 XOR\n2 1 91645 85501 110074 XOR\n2 1 110074 110043 4524 XOR\n2 1 91645 110043 18880 XOR\n2 1 18880 18881 18879 AND\n2 1 18879 110043 110044 XOR\n2 1 85502 110044 18884 XOR\n2 1 300 4076 124890 XOR\n2 1 124890 124859 95554 XOR\n2 1 4076 124859 45267 XOR\n2 1 45266 45267 45265 AND\n2 1 45265 124859 124860 XOR\n2 1 301 124860 45269 XOR\n2 1 93634 46775 46721 XOR\n2 1 46721 46722 46720 AND\n2 1 46720 46775 46776 XOR\n1 1 46776 46725 INV\n2 1 97730 125700 46839 XOR\n2 1 46839 46840 46838 AND\n2 1 46838 125700 125701 XOR\n2 1 95683 125701 46843 XOR\n2 1 101826 125824 47019 XOR\n2 1 99778 125824 47020 XOR\n2 1 47019 47020 47018 AND\n2 1 47018 125824 125825 XOR\n2 1 125856 125825 97731 XOR\n2 1 97731 95683 125732 XOR\n2 1 125732 125701 93635 XOR\n1 1 93635 46795 INV\n2 1 46795 46776 91646 XOR\n2 1 717 91646 110013 XOR\n2 1 110013 109982 4077 XOR\n2 1 91646 109982 18794 XOR\n2 1 18793 18794 18792 AND\n2 1 18792 109982 109983 XOR\n2 1 718 109983 18796 XOR\n2 1 91646 85502 110075 XOR\n2 1 110075 110044 4525 XOR\n2 1 91646 110044 18883 XOR\n2 1 18883 18884 18882 AND\n2 1 18882 110044 110045 XOR\n2 1 85503 110045 18887 XOR\n2 1 301 4077 124891 XOR\n2 1 124891 124860 95555 XOR\n2 1 4077 124860 45270 XOR\n2 1 45269 45270 45268 AND\n2 1 45268 124860 124861 XOR\n2 1 302 124861 45272 XOR\n2 1 93635 46776 46724 XOR\n2 1 46724 46725 46723 AND\n2 1 46723 46776 46777 XOR\n1 1 46777 46728 INV\n2 1 97731 125701 46842 XOR\n2 1 46842 46843 46841 AND\n2 1 46841 125701 125702 XOR\n2 1 95684 125702 46846 XOR\n2 1 101827 125825 47022 XOR\n2 1 99779 125825 47023 XOR\n2 1 47022 47023 47021 AND\n2 1 47021 125825 125826 XOR\n2 1 125857 125826 97732 XOR\n2 1 97732 95684 125733 XOR\n2 1 125733 125702 93636 XOR\n",
"1 1 93636 46796 INV\n2 1 46796 46777 91647 XOR\n2 1 718 91647 110014 XOR\n2 1 110014 109983 4078 XOR\n2 1 91647 109983 18797 XOR\n2 1 18796 18797 18795 AND\n2 1 18795 109983 109984 XOR\n2 1 719 109984 18799 XOR\n2 1 91647 85503 110076 XOR\n2 1 110076 110045 4526 XOR\n2 1 91647 110045 18886 XOR\n2 1 18886 18887 18885 AND\n2 1 18885 110045 110046 XOR\n2 1 85504 110046 18890 XOR\n2 1 302 4078 124892 XOR\n2 1 124892 124861 95556 XOR\n2 1 4078 124861 45273 XOR\n2 1 45272 45273 45271 AND\n2 1 45271 124861 124862 XOR\n2 1 303 124862 45275 XOR\n2 1 93636 46777 46727 XOR\n2 1 46727 46728 46726 AND\n2 1 46726 46777 46778 XOR\n1 1 46778 46731 INV\n2 1 97732 125702 46845 XOR\n2 1 46845 46846 46844 AND\n2 1 46844 125702 125703 XOR\n2 1 95685 125703 46849 XOR\n2 1 101828 125826 47025 XOR\n2 1 99780 125826 47026 XOR\n2 1 47025 47026 47024 AND\n2 1 47024 125826 125827 XOR\n2 1 125858 125827 97733 XOR\n2 1 97733 95685 125734 XOR\n2 1 125734 125703 93637 XOR\n1 1 93637 46797 INV\n2 1 46797 46778 91648 XOR\n2 1 719 91648 110015 XOR\n2 1 110015 109984 4079 XOR\n2 1 91648 109984 18800 XOR\n2 1 18799 18800 18798 AND\n2 1 18798 109984 109985 XOR\n2 1 720 109985 18802 XOR\n2 1 91648 85504 110077 XOR\n2 1 110077 110046 4527 XOR\n2 1 91648 110046 18889 XOR\n2 1 18889 18890 18888 AND\n2 1 18888 110046 110047 XOR\n2 1 85505 110047 18893 XOR\n2 1 303 4079 124893 XOR\n2 1 124893 124862 95557 XOR\n2 1 4079 124862 45276 XOR\n2 1 45275 45276 45274 AND\n2 1 45274 124862 124863 XOR\n2 1 304 124863 45278 XOR\n2 1 93637 46778 46730 XOR\n2 1 46730 46731 46729 AND\n2 1 46729 46778 46733 XOR\n2 1 97733 125703 46848 XOR\n2 1 46848 46849 46847 AND\n2 1 46847 125703 125704 XOR\n2 1 95686 125704 46852 XOR\n2 1 101829 125827 47028 XOR\n2 1 99781 125827 47029 XOR\n2 1 47028 47029 47027 AND\n2 1 47027 125827 125828 XOR\n2 1 125859 125828 97734 XOR\n2 1 97734 95686 125735 XOR\n2 1 125735 125704 93638 XOR\n2 1 93638 46733 91649 XOR\n2 1 91649 109985 18803 XOR\n2 1 18802 18803 18801 AND\n2 1 18801 109985 109986 XOR\n2 1 721 109986 18805 XOR\n2 1 91649 85505 110078 XOR\n2 1 110078 110047 4528 XOR\n2 1 91649 110047 18892 XOR\n2 1 18892 18893 18891 AND\n2 1 18891 110047 110048 XOR\n2 1 85506 110048 18896 XOR\n2 1 720 91649 110016 XOR\n2 1 110016 109985 4080 XOR\n2 1 4080 124863 45279 XOR\n2 1 45278 45279 45277 AND\n2 1 45277 124863 124864 XOR\n2 1 305 124864 45281 XOR\n2 1 304 4080 124894 XOR\n2 1 124894 124863 95558 XOR\n2 1 91649 46733 46732 AND\n2 1 46732 46733 46735 XOR\n2 1 97734 125704 46851 XOR\n2 1 46851 46852 46850 AND\n2 1 46850 125704 125705 XOR\n2 1 95687 125705 46855 XOR\n2 1 101830 125828 47031 XOR\n2 1 99782 125828 47032 XOR\n2 1 47031 47032 47030 AND\n2 1 47030 125828 125829 XOR\n2 1 125860 125829 97735 XOR\n2 1 97735 95687 125736 XOR\n2 1 125736 125705 93639 XOR\n2 1 93639 46735 91650 XOR\n2 1 91650 109986 18806 XOR\n2 1 18805 18806 18804 AND\n2 1 18804 109986 109987 XOR\n2 1 722 109987 18808 XOR\n2 1 91650 85506 110079 XOR\n2 1 110079 110048 4529 XOR\n2 1 91650 110048 18895 XOR\n2 1 18895 18896 18894 AND\n2 1 18894 110048 110049 XOR\n2 1 85507 110049 18899 XOR\n2 1 721 91650 110017 XOR\n2 1 110017 109986 4081 XOR\n2 1 4081 124864 45282 XOR\n2 1 45281 45282 45280 AND\n2 1 45280 124864 124865 XOR\n2 1 306 124865 45284 XOR\n2 1 305 4081 124895 XOR\n2 1 124895 124864 95559 XOR\n2 1 91650 46735 46734 AND\n2 1 46734 46735 46737 XOR\n2 1 97735 125705 46854 XOR\n2 1 46854 46855 46853 AND\n2 1 46853 125705 125706 XOR\n2 1 95688 125706 46858 XOR\n2 1 101831 125829 47034 XOR\n2 1 99783 125829 47035 XOR\n",
"2 1 47034 47035 47033 AND\n2 1 47033 125829 125830 XOR\n2 1 125861 125830 97736 XOR\n2 1 97736 95688 125737 XOR\n2 1 125737 125706 93640 XOR\n2 1 93640 46737 91651 XOR\n2 1 91651 109987 18809 XOR\n2 1 18808 18809 18807 AND\n2 1 18807 109987 109988 XOR\n2 1 723 109988 18811 XOR\n2 1 91651 85507 110080 XOR\n2 1 110080 110049 4530 XOR\n2 1 91651 110049 18898 XOR\n2 1 18898 18899 18897 AND\n2 1 18897 110049 110050 XOR\n2 1 85508 110050 18902 XOR\n2 1 722 91651 110018 XOR\n2 1 110018 109987 4082 XOR\n2 1 4082 124865 45285 XOR\n2 1 45284 45285 45283 AND\n2 1 45283 124865 124866 XOR\n2 1 307 124866 45287 XOR\n2 1 306 4082 124896 XOR\n2 1 124896 124865 95560 XOR\n2 1 91651 46737 46736 AND\n2 1 46736 46737 46739 XOR\n2 1 97736 125706 46857 XOR\n2 1 46857 46858 46856 AND\n2 1 46856 125706 125707 XOR\n2 1 95689 125707 46861 XOR\n2 1 101832 125830 47037 XOR\n2 1 99784 125830 47038 XOR\n2 1 47037 47038 47036 AND\n2 1 47036 125830 125831 XOR\n2 1 125862 125831 97737 XOR\n2 1 97737 95689 125738 XOR\n2 1 125738 125707 93641 XOR\n2 1 93641 46739 91652 XOR\n2 1 91652 109988 18812 XOR\n2 1 18811 18812 18810 AND\n2 1 18810 109988 109989 XOR\n2 1 724 109989 18814 XOR\n2 1 91652 85508 110081 XOR\n2 1 110081 110050 4531 XOR\n2 1 91652 110050 18901 XOR\n2 1 18901 18902 18900 AND\n2 1 18900 110050 110051 XOR\n2 1 85509 110051 18905 XOR\n2 1 723 91652 110019 XOR\n2 1 110019 109988 4083 XOR\n2 1 4083 124866 45288 XOR\n2 1 45287 45288 45286 AND\n2 1 45286 124866 124867 XOR\n2 1 308 124867 45290 XOR\n2 1 307 4083 124897 XOR\n2 1 124897 124866 95561 XOR\n2 1 91652 46739 46738 AND\n2 1 46738 46739 46741 XOR\n2 1 97737 125707 46860 XOR\n2 1 46860 46861 46859 AND\n2 1 46859 125707 125708 XOR\n2 1 95690 125708 46864 XOR\n2 1 101833 125831 47040 XOR\n2 1 99785 125831 47041 XOR\n2 1 47040 47041 47039 AND\n2 1 47039 125831 125832 XOR\n2 1 125863 125832 97738 XOR\n2 1 97738 95690 125739 XOR\n2 1 125739 125708 93642 XOR\n2 1 93642 46741 91653 XOR\n2 1 91653 109989 18815 XOR\n2 1 18814 18815 18813 AND\n2 1 18813 109989 109990 XOR\n2 1 725 109990 18817 XOR\n2 1 91653 85509 110082 XOR\n2 1 110082 110051 4532 XOR\n2 1 91653 110051 18904 XOR\n2 1 18904 18905 18903 AND\n2 1 18903 110051 110052 XOR\n2 1 85510 110052 18908 XOR\n2 1 724 91653 110020 XOR\n2 1 110020 109989 4084 XOR\n2 1 4084 124867 45291 XOR\n2 1 45290 45291 45289 AND\n2 1 45289 124867 124868 XOR\n2 1 309 124868 45293 XOR\n2 1 308 4084 124898 XOR\n2 1 124898 124867 95562 XOR\n2 1 91653 46741 46740 AND\n2 1 46740 46741 46743 XOR\n2 1 97738 125708 46863 XOR\n2 1 46863 46864 46862 AND\n2 1 46862 125708 125709 XOR\n2 1 95691 125709 46867 XOR\n2 1 101834 125832 47043 XOR\n2 1 99786 125832 47044 XOR\n2 1 47043 47044 47042 AND\n2 1 47042 125832 125833 XOR\n2 1 125864 125833 97739 XOR\n2 1 97739 95691 125740 XOR\n2 1 125740 125709 93643 XOR\n2 1 93643 46743 91654 XOR\n2 1 91654 109990 18818 XOR\n2 1 18817 18818 18816 AND\n2 1 18816 109990 109991 XOR\n2 1 726 109991 18820 XOR\n2 1 91654 85510 110083 XOR\n2 1 110083 110052 4533 XOR\n2 1 91654 110052 18907 XOR\n2 1 18907 18908 18906 AND\n2 1 18906 110052 110053 XOR\n2 1 85511 110053 18911 XOR\n2 1 725 91654 110021 XOR\n2 1 110021 109990 4085 XOR\n2 1 4085 124868 45294 XOR\n2 1 45293 45294 45292 AND\n2 1 45292 124868 124869 XOR\n2 1 310 124869 45296 XOR\n2 1 309 4085 124899 XOR\n2 1 124899 124868 95563 XOR\n2 1 91654 46743 46742 AND\n2 1 46742 46743 46779 XOR\n1 1 46779 46746 INV\n2 1 97739 125709 46866 XOR\n2 1 46866 46867 46865 AND\n2 1 46865 125709 125710 XOR\n2 1 95692 125710 46870 XOR\n2 1 101835 125833 47046 XOR\n",
"2 1 99787 125833 47047 XOR\n2 1 47046 47047 47045 AND\n2 1 47045 125833 125834 XOR\n2 1 125865 125834 97740 XOR\n2 1 97740 95692 125741 XOR\n2 1 125741 125710 93644 XOR\n1 1 93644 46798 INV\n2 1 46798 46779 91655 XOR\n2 1 726 91655 110022 XOR\n2 1 110022 109991 4086 XOR\n2 1 91655 109991 18821 XOR\n2 1 18820 18821 18819 AND\n2 1 18819 109991 109992 XOR\n2 1 727 109992 18823 XOR\n2 1 91655 85511 110084 XOR\n2 1 110084 110053 4534 XOR\n2 1 91655 110053 18910 XOR\n2 1 18910 18911 18909 AND\n2 1 18909 110053 110054 XOR\n2 1 85512 110054 18914 XOR\n2 1 310 4086 124900 XOR\n2 1 124900 124869 95564 XOR\n2 1 4086 124869 45297 XOR\n2 1 45296 45297 45295 AND\n2 1 45295 124869 124870 XOR\n2 1 311 124870 45299 XOR\n2 1 93644 46779 46745 XOR\n2 1 46745 46746 46744 AND\n2 1 46744 46779 46780 XOR\n1 1 46780 46749 INV\n2 1 97740 125710 46869 XOR\n2 1 46869 46870 46868 AND\n2 1 46868 125710 125711 XOR\n2 1 95693 125711 46873 XOR\n2 1 101836 125834 47049 XOR\n2 1 99788 125834 47050 XOR\n2 1 47049 47050 47048 AND\n2 1 47048 125834 125835 XOR\n2 1 125866 125835 97741 XOR\n2 1 97741 95693 125742 XOR\n2 1 125742 125711 93645 XOR\n1 1 93645 46799 INV\n2 1 46799 46780 91656 XOR\n2 1 727 91656 110023 XOR\n2 1 110023 109992 4087 XOR\n2 1 91656 109992 18824 XOR\n2 1 18823 18824 18822 AND\n2 1 18822 109992 109993 XOR\n2 1 728 109993 18826 XOR\n2 1 91656 85512 110085 XOR\n2 1 110085 110054 4535 XOR\n2 1 91656 110054 18913 XOR\n2 1 18913 18914 18912 AND\n2 1 18912 110054 110055 XOR\n2 1 85513 110055 18917 XOR\n2 1 311 4087 124901 XOR\n2 1 124901 124870 95565 XOR\n2 1 4087 124870 45300 XOR\n2 1 45299 45300 45298 AND\n2 1 45298 124870 124871 XOR\n2 1 312 124871 45302 XOR\n2 1 93645 46780 46748 XOR\n2 1 46748 46749 46747 AND\n2 1 46747 46780 46781 XOR\n1 1 46781 46752 INV\n2 1 97741 125711 46872 XOR\n2 1 46872 46873 46871 AND\n2 1 46871 125711 125712 XOR\n2 1 95694 125712 46876 XOR\n2 1 101837 125835 47052 XOR\n2 1 99789 125835 47053 XOR\n2 1 47052 47053 47051 AND\n2 1 47051 125835 125836 XOR\n2 1 125867 125836 97742 XOR\n2 1 97742 95694 125743 XOR\n2 1 125743 125712 93646 XOR\n1 1 93646 46800 INV\n2 1 46800 46781 91657 XOR\n2 1 728 91657 110024 XOR\n2 1 110024 109993 4088 XOR\n2 1 91657 109993 18827 XOR\n2 1 18826 18827 18825 AND\n2 1 18825 109993 109994 XOR\n2 1 729 109994 18829 XOR\n2 1 91657 85513 110086 XOR\n2 1 110086 110055 4536 XOR\n2 1 91657 110055 18916 XOR\n2 1 18916 18917 18915 AND\n2 1 18915 110055 110056 XOR\n2 1 85514 110056 18920 XOR\n2 1 312 4088 124902 XOR\n2 1 124902 124871 95566 XOR\n2 1 4088 124871 45303 XOR\n2 1 45302 45303 45301 AND\n2 1 45301 124871 124872 XOR\n2 1 313 124872 45305 XOR\n2 1 93646 46781 46751 XOR\n2 1 46751 46752 46750 AND\n2 1 46750 46781 46754 XOR\n2 1 97742 125712 46875 XOR\n2 1 46875 46876 46874 AND\n2 1 46874 125712 125713 XOR\n2 1 95695 125713 46879 XOR\n2 1 101838 125836 47055 XOR\n2 1 99790 125836 47056 XOR\n2 1 47055 47056 47054 AND\n2 1 47054 125836 125837 XOR\n2 1 125868 125837 97743 XOR\n2 1 97743 95695 125744 XOR\n2 1 125744 125713 93647 XOR\n2 1 93647 46754 91658 XOR\n2 1 91658 109994 18830 XOR\n2 1 18829 18830 18828 AND\n2 1 18828 109994 109995 XOR\n2 1 730 109995 18832 XOR\n2 1 91658 85514 110087 XOR\n2 1 110087 110056 4537 XOR\n2 1 91658 110056 18919 XOR\n2 1 18919 18920 18918 AND\n2 1 18918 110056 110057 XOR\n2 1 85515 110057 18923 XOR\n2 1 729 91658 110025 XOR\n2 1 110025 109994 4089 XOR\n2 1 4089 124872 45306 XOR\n2 1 45305 45306 45304 AND\n2 1 45304 124872 124873 XOR\n2 1 314 124873 45308 XOR\n2 1 313 4089 124903 XOR\n",
"2 1 124903 124872 95567 XOR\n2 1 91658 46754 46753 AND\n2 1 46753 46754 46782 XOR\n1 1 46782 46757 INV\n2 1 97743 125713 46878 XOR\n2 1 46878 46879 46877 AND\n2 1 46877 125713 125714 XOR\n2 1 95696 125714 46882 XOR\n2 1 101839 125837 47058 XOR\n2 1 99791 125837 47059 XOR\n2 1 47058 47059 47057 AND\n2 1 47057 125837 125838 XOR\n2 1 125869 125838 97744 XOR\n2 1 97744 95696 125745 XOR\n2 1 125745 125714 93648 XOR\n1 1 93648 46801 INV\n2 1 46801 46782 91659 XOR\n2 1 730 91659 110026 XOR\n2 1 110026 109995 4090 XOR\n2 1 91659 109995 18833 XOR\n2 1 18832 18833 18831 AND\n2 1 18831 109995 109996 XOR\n2 1 731 109996 18835 XOR\n2 1 91659 85515 110088 XOR\n2 1 110088 110057 4538 XOR\n2 1 91659 110057 18922 XOR\n2 1 18922 18923 18921 AND\n2 1 18921 110057 110058 XOR\n2 1 85516 110058 18926 XOR\n2 1 314 4090 124904 XOR\n2 1 124904 124873 95568 XOR\n2 1 4090 124873 45309 XOR\n2 1 45308 45309 45307 AND\n2 1 45307 124873 124874 XOR\n2 1 315 124874 45311 XOR\n2 1 93648 46782 46756 XOR\n2 1 46756 46757 46755 AND\n2 1 46755 46782 46759 XOR\n2 1 97744 125714 46881 XOR\n2 1 46881 46882 46880 AND\n2 1 46880 125714 125715 XOR\n2 1 95697 125715 46885 XOR\n2 1 101840 125838 47061 XOR\n2 1 99792 125838 47062 XOR\n2 1 47061 47062 47060 AND\n2 1 47060 125838 125839 XOR\n2 1 125870 125839 97745 XOR\n2 1 97745 95697 125746 XOR\n2 1 125746 125715 93649 XOR\n2 1 93649 46759 91660 XOR\n2 1 91660 109996 18836 XOR\n2 1 18835 18836 18834 AND\n2 1 18834 109996 109997 XOR\n2 1 732 109997 18838 XOR\n2 1 91660 85516 110089 XOR\n2 1 110089 110058 4539 XOR\n2 1 91660 110058 18925 XOR\n2 1 18925 18926 18924 AND\n2 1 18924 110058 110059 XOR\n2 1 85517 110059 18929 XOR\n2 1 731 91660 110027 XOR\n2 1 110027 109996 4091 XOR\n2 1 4091 124874 45312 XOR\n2 1 45311 45312 45310 AND\n2 1 45310 124874 124875 XOR\n2 1 316 124875 45314 XOR\n2 1 315 4091 124905 XOR\n2 1 124905 124874 95569 XOR\n2 1 91660 46759 46758 AND\n2 1 46758 46759 46783 XOR\n1 1 46783 46762 INV\n2 1 97745 125715 46884 XOR\n2 1 46884 46885 46883 AND\n2 1 46883 125715 125716 XOR\n2 1 95698 125716 46888 XOR\n2 1 101841 125839 47064 XOR\n2 1 99793 125839 47065 XOR\n2 1 47064 47065 47063 AND\n2 1 47063 125839 125840 XOR\n2 1 125871 125840 97746 XOR\n2 1 97746 95698 125747 XOR\n2 1 125747 125716 93650 XOR\n1 1 93650 46802 INV\n2 1 46802 46783 91661 XOR\n2 1 732 91661 110028 XOR\n2 1 110028 109997 4092 XOR\n2 1 91661 109997 18839 XOR\n2 1 18838 18839 18837 AND\n2 1 18837 109997 109998 XOR\n2 1 733 109998 18841 XOR\n2 1 91661 85517 110090 XOR\n2 1 110090 110059 4540 XOR\n2 1 91661 110059 18928 XOR\n2 1 18928 18929 18927 AND\n2 1 18927 110059 110060 XOR\n2 1 85518 110060 18932 XOR\n2 1 316 4092 124906 XOR\n2 1 124906 124875 95570 XOR\n2 1 4092 124875 45315 XOR\n2 1 45314 45315 45313 AND\n2 1 45313 124875 124876 XOR\n2 1 317 124876 45317 XOR\n2 1 93650 46783 46761 XOR\n2 1 46761 46762 46760 AND\n2 1 46760 46783 46784 XOR\n1 1 46784 46765 INV\n2 1 97746 125716 46887 XOR\n2 1 46887 46888 46886 AND\n2 1 46886 125716 125717 XOR\n2 1 95699 125717 46891 XOR\n2 1 101842 125840 47067 XOR\n2 1 99794 125840 47068 XOR\n2 1 47067 47068 47066 AND\n2 1 47066 125840 125841 XOR\n2 1 125872 125841 97747 XOR\n2 1 97747 95699 125748 XOR\n2 1 125748 125717 93651 XOR\n1 1 93651 46803 INV\n2 1 46803 46784 91662 XOR\n2 1 733 91662 110029 XOR\n2 1 110029 109998 4093 XOR\n2 1 91662 109998 18842 XOR\n2 1 18841 18842 18840 AND\n2 1 18840 109998 109999 XOR\n2 1 734 109999 18844 XOR\n2 1 91662 85518 110091 XOR\n2 1 110091 110060 4541 XOR\n2 1 91662 110060 18931 XOR\n",
"2 1 18931 18932 18930 AND\n2 1 18930 110060 110061 XOR\n2 1 85519 110061 18935 XOR\n2 1 317 4093 124907 XOR\n2 1 124907 124876 95571 XOR\n2 1 4093 124876 45318 XOR\n2 1 45317 45318 45316 AND\n2 1 45316 124876 124877 XOR\n2 1 318 124877 45320 XOR\n2 1 93651 46784 46764 XOR\n2 1 46764 46765 46763 AND\n2 1 46763 46784 46767 XOR\n2 1 97747 125717 46890 XOR\n2 1 46890 46891 46889 AND\n2 1 46889 125717 125718 XOR\n2 1 95700 125718 46894 XOR\n2 1 101843 125841 47070 XOR\n2 1 99795 125841 47071 XOR\n2 1 47070 47071 47069 AND\n2 1 47069 125841 125842 XOR\n2 1 125873 125842 97748 XOR\n2 1 97748 95700 125749 XOR\n2 1 125749 125718 93652 XOR\n2 1 93652 46767 91663 XOR\n2 1 91663 109999 18845 XOR\n2 1 18844 18845 18843 AND\n2 1 18843 109999 110000 XOR\n2 1 91663 85519 110092 XOR\n2 1 110092 110061 4542 XOR\n2 1 91663 110061 18934 XOR\n2 1 18934 18935 18933 AND\n2 1 18933 110061 110062 XOR\n2 1 734 91663 110030 XOR\n2 1 110030 109999 4094 XOR\n2 1 4094 124877 45321 XOR\n2 1 45320 45321 45319 AND\n2 1 45319 124877 124878 XOR\n2 1 318 4094 124908 XOR\n2 1 124908 124877 95572 XOR\n2 1 91663 46767 46766 AND\n2 1 46766 46767 46785 XOR\n2 1 97748 125718 46893 XOR\n2 1 46893 46894 46892 AND\n2 1 46892 125718 125719 XOR\n2 1 101844 125842 47073 XOR\n2 1 99796 125842 47074 XOR\n2 1 47073 47074 47072 AND\n2 1 47072 125842 125843 XOR\n2 1 125874 125843 97749 XOR\n2 1 97749 95701 125750 XOR\n2 1 125750 125719 93653 XOR\n1 1 93653 46804 INV\n2 1 46804 46785 91664 XOR\n2 1 735 91664 110031 XOR\n2 1 110031 110000 4095 XOR\n2 1 91664 85520 110093 XOR\n2 1 110093 110062 4543 XOR\n2 1 319 4095 124909 XOR\n2 1 124909 124878 95573 XOR\n2 1 4543 4607 74606 XOR\n2 1 4542 4606 74605 XOR\n2 1 4541 4605 74604 XOR\n2 1 4540 4604 74603 XOR\n2 1 4539 4603 74602 XOR\n2 1 4538 4602 74601 XOR\n2 1 4537 4601 74600 XOR\n2 1 4536 4600 74599 XOR\n2 1 4535 4599 74598 XOR\n2 1 4534 4598 74597 XOR\n2 1 4533 4597 74596 XOR\n2 1 4532 4596 74595 XOR\n2 1 4531 4595 74594 XOR\n2 1 4530 4594 74593 XOR\n2 1 4529 4593 74592 XOR\n2 1 4528 4592 74591 XOR\n2 1 4527 4591 74590 XOR\n2 1 4526 4590 74589 XOR\n2 1 4525 4589 74588 XOR\n2 1 4524 4588 74587 XOR\n2 1 4523 4587 74586 XOR\n2 1 4522 4586 74585 XOR\n2 1 4521 4585 74584 XOR\n2 1 4520 4584 74583 XOR\n2 1 4519 4583 74582 XOR\n2 1 4518 4582 74581 XOR\n2 1 4517 4581 74580 XOR\n2 1 4516 4580 74579 XOR\n2 1 4515 4579 74578 XOR\n2 1 4514 4578 74577 XOR\n2 1 4513 4577 74576 XOR\n2 1 4512 4576 74575 XOR\n2 1 74606 74574 74542 AND\n2 1 74605 74573 74541 AND\n2 1 74604 74572 74540 AND\n2 1 74603 74571 74539 AND\n2 1 74602 74570 74538 AND\n2 1 74601 74569 74537 AND\n2 1 74600 74568 74536 AND\n2 1 74599 74567 74535 AND\n2 1 74598 74566 74534 AND\n2 1 74597 74565 74533 AND\n2 1 74596 74564 74532 AND\n2 1 74595 74563 74531 AND\n2 1 74594 74562 74530 AND\n2 1 74593 74561 74529 AND\n2 1 74592 74560 74528 AND\n2 1 74591 74559 74527 AND\n2 1 74590 74558 74526 AND\n2 1 74589 74557 74525 AND\n2 1 74588 74556 74524 AND\n2 1 74587 74555 74523 AND\n2 1 74586 74554 74522 AND\n2 1 74585 74553 74521 AND\n2 1 74584 74552 74520 AND\n2 1 74583 74551 74519 AND\n2 1 74582 74550 74518 AND\n2 1 74581 74549 74517 AND\n2 1 74580 74548 74516 AND\n2 1 74579 74547 74515 AND\n2 1 74578 74546 74514 AND\n2 1 74577 74545 74513 AND\n2 1 74576 74544 74512 AND\n2 1 74575 74543 74511 AND\n2 1 74542 4607 87536 XOR\n2 1 74541 4606 87535 XOR\n2 1 74540 4605 87534 XOR\n2 1 74539 4604 87533 XOR\n2 1 74538 4603 87532 XOR\n",
"2 1 74537 4602 87531 XOR\n2 1 74536 4601 87530 XOR\n2 1 74535 4600 87529 XOR\n2 1 74534 4599 87528 XOR\n2 1 74533 4598 87527 XOR\n2 1 74532 4597 87526 XOR\n2 1 74531 4596 87525 XOR\n2 1 74530 4595 87524 XOR\n2 1 74529 4594 87523 XOR\n2 1 74528 4593 87522 XOR\n2 1 74527 4592 87521 XOR\n2 1 74526 4591 87520 XOR\n2 1 74525 4590 87519 XOR\n2 1 74524 4589 87518 XOR\n2 1 74523 4588 87517 XOR\n2 1 74522 4587 87516 XOR\n2 1 74521 4586 87515 XOR\n2 1 74520 4585 87514 XOR\n2 1 74519 4584 87513 XOR\n2 1 74518 4583 87512 XOR\n2 1 74517 4582 87511 XOR\n2 1 74516 4581 87510 XOR\n2 1 74515 4580 87509 XOR\n2 1 74514 4579 87508 XOR\n2 1 74513 4578 87507 XOR\n2 1 74512 4577 87506 XOR\n2 1 74511 4576 87505 XOR\n2 1 4543 4575 74478 XOR\n2 1 4542 4574 74477 XOR\n2 1 4541 4573 74476 XOR\n2 1 4540 4572 74475 XOR\n2 1 4539 4571 74474 XOR\n2 1 4538 4570 74473 XOR\n2 1 4537 4569 74472 XOR\n2 1 4536 4568 74471 XOR\n2 1 4535 4567 74470 XOR\n2 1 4534 4566 74469 XOR\n2 1 4533 4565 74468 XOR\n2 1 4532 4564 74467 XOR\n2 1 4531 4563 74466 XOR\n2 1 4530 4562 74465 XOR\n2 1 4529 4561 74464 XOR\n2 1 4528 4560 74463 XOR\n2 1 4527 4559 74462 XOR\n2 1 4526 4558 74461 XOR\n2 1 4525 4557 74460 XOR\n2 1 4524 4556 74459 XOR\n2 1 4523 4555 74458 XOR\n2 1 4522 4554 74457 XOR\n2 1 4521 4553 74456 XOR\n2 1 4520 4552 74455 XOR\n2 1 4519 4551 74454 XOR\n2 1 4518 4550 74453 XOR\n2 1 4517 4549 74452 XOR\n2 1 4516 4548 74451 XOR\n2 1 4515 4547 74450 XOR\n2 1 4514 4546 74449 XOR\n2 1 4513 4545 74448 XOR\n2 1 4512 4544 74447 XOR\n2 1 4513 4524 68686 XOR\n2 1 4512 4523 68685 XOR\n2 1 4543 4522 68684 XOR\n2 1 4542 4521 68683 XOR\n2 1 4541 4520 68682 XOR\n2 1 4540 4519 68681 XOR\n2 1 4539 4518 68680 XOR\n2 1 4538 4517 68679 XOR\n2 1 4537 4516 68678 XOR\n2 1 4536 4515 68677 XOR\n2 1 4535 4514 68676 XOR\n2 1 4534 4513 68675 XOR\n2 1 4533 4512 68674 XOR\n2 1 4532 4543 68673 XOR\n2 1 4531 4542 68672 XOR\n2 1 4530 4541 68671 XOR\n2 1 4529 4540 68670 XOR\n2 1 4528 4539 68669 XOR\n2 1 4527 4538 68668 XOR\n2 1 4526 4537 68667 XOR\n2 1 4525 4536 68666 XOR\n2 1 4524 4535 68665 XOR\n2 1 4523 4534 68664 XOR\n2 1 4522 4533 68663 XOR\n2 1 4521 4532 68662 XOR\n2 1 4520 4531 68661 XOR\n2 1 4519 4530 68660 XOR\n2 1 4518 4529 68659 XOR\n2 1 4517 4528 68658 XOR\n2 1 4516 4527 68657 XOR\n2 1 4515 4526 68656 XOR\n2 1 4514 4525 68655 XOR\n2 1 68686 4533 89584 XOR\n2 1 89584 87536 125545 XOR\n2 1 68685 4532 89583 XOR\n2 1 89583 87535 125544 XOR\n2 1 68684 4531 89582 XOR\n2 1 89582 87534 125543 XOR\n2 1 68683 4530 89581 XOR\n2 1 89581 87533 125542 XOR\n2 1 68682 4529 89580 XOR\n2 1 89580 87532 125541 XOR\n2 1 68681 4528 89579 XOR\n2 1 89579 87531 125540 XOR\n2 1 68680 4527 89578 XOR\n2 1 89578 87530 125539 XOR\n2 1 68679 4526 89577 XOR\n2 1 89577 87529 125538 XOR\n2 1 68678 4525 89576 XOR\n2 1 89576 87528 125537 XOR\n2 1 68677 4524 89575 XOR\n2 1 89575 87527 125536 XOR\n2 1 68676 4523 89574 XOR\n2 1 89574 87526 125535 XOR\n2 1 68675 4522 89573 XOR\n2 1 89573 87525 125534 XOR\n2 1 68674 4521 89572 XOR\n2 1 89572 87524 125533 XOR\n2 1 68673 4520 89571 XOR\n2 1 89571 87523 125532 XOR\n2 1 68672 4519 89570 XOR\n2 1 89570 87522 125531 XOR\n2 1 68671 4518 89569 XOR\n2 1 89569 87521 125530 XOR\n2 1 68670 4517 89568 XOR\n2 1 89568 87520 125529 XOR\n2 1 68669 4516 89567 XOR\n2 1 89567 87519 125528 XOR\n2 1 68668 4515 89566 XOR\n",
"2 1 89566 87518 125527 XOR\n2 1 68667 4514 89565 XOR\n2 1 89565 87517 125526 XOR\n2 1 68666 4513 89564 XOR\n2 1 89564 87516 125525 XOR\n2 1 68665 4512 89563 XOR\n2 1 89563 87515 125524 XOR\n2 1 68664 4543 89562 XOR\n2 1 89562 87514 125523 XOR\n2 1 68663 4542 89561 XOR\n2 1 89561 87513 125522 XOR\n2 1 68662 4541 89560 XOR\n2 1 89560 87512 125521 XOR\n2 1 68661 4540 89559 XOR\n2 1 89559 87511 125520 XOR\n2 1 68660 4539 89558 XOR\n2 1 89558 87510 125519 XOR\n2 1 68659 4538 89557 XOR\n2 1 89557 87509 125518 XOR\n2 1 68658 4537 89556 XOR\n2 1 89556 87508 125517 XOR\n2 1 68657 4536 89555 XOR\n2 1 89555 87507 125516 XOR\n2 1 68656 4535 89554 XOR\n2 1 89554 87506 125515 XOR\n2 1 68655 4534 89553 XOR\n2 1 89553 87505 125484 AND\n2 1 89553 87505 85457 XOR\n2 1 125515 125484 85458 XOR\n2 1 89554 125484 46326 XOR\n2 1 87506 125484 46327 XOR\n2 1 46326 46327 46325 AND\n2 1 46325 125484 125485 XOR\n2 1 125516 125485 85459 XOR\n2 1 89555 125485 46329 XOR\n2 1 87507 125485 46330 XOR\n2 1 46329 46330 46328 AND\n2 1 46328 125485 125486 XOR\n2 1 125517 125486 85460 XOR\n2 1 89556 125486 46332 XOR\n2 1 87508 125486 46333 XOR\n2 1 46332 46333 46331 AND\n2 1 46331 125486 125487 XOR\n2 1 125518 125487 85461 XOR\n2 1 89557 125487 46335 XOR\n2 1 87509 125487 46336 XOR\n2 1 46335 46336 46334 AND\n2 1 46334 125487 125488 XOR\n2 1 125519 125488 85462 XOR\n2 1 89558 125488 46338 XOR\n2 1 87510 125488 46339 XOR\n2 1 46338 46339 46337 AND\n2 1 46337 125488 125489 XOR\n2 1 125520 125489 85463 XOR\n2 1 89559 125489 46341 XOR\n2 1 87511 125489 46342 XOR\n2 1 46341 46342 46340 AND\n2 1 46340 125489 125490 XOR\n2 1 125521 125490 85464 XOR\n2 1 89560 125490 46344 XOR\n2 1 87512 125490 46345 XOR\n2 1 46344 46345 46343 AND\n2 1 46343 125490 125491 XOR\n2 1 125522 125491 85465 XOR\n2 1 89561 125491 46347 XOR\n2 1 87513 125491 46348 XOR\n2 1 46347 46348 46346 AND\n2 1 46346 125491 125492 XOR\n2 1 125523 125492 85466 XOR\n2 1 89562 125492 46350 XOR\n2 1 87514 125492 46351 XOR\n2 1 46350 46351 46349 AND\n2 1 46349 125492 125493 XOR\n2 1 125524 125493 85467 XOR\n2 1 89563 125493 46353 XOR\n2 1 87515 125493 46354 XOR\n2 1 46353 46354 46352 AND\n2 1 46352 125493 125494 XOR\n2 1 125525 125494 85468 XOR\n2 1 89564 125494 46356 XOR\n2 1 87516 125494 46357 XOR\n2 1 46356 46357 46355 AND\n2 1 46355 125494 125495 XOR\n2 1 125526 125495 85469 XOR\n2 1 89565 125495 46359 XOR\n2 1 87517 125495 46360 XOR\n2 1 46359 46360 46358 AND\n2 1 46358 125495 125496 XOR\n2 1 125527 125496 85470 XOR\n2 1 89566 125496 46362 XOR\n2 1 87518 125496 46363 XOR\n2 1 46362 46363 46361 AND\n2 1 46361 125496 125497 XOR\n2 1 125528 125497 85471 XOR\n2 1 89567 125497 46365 XOR\n2 1 87519 125497 46366 XOR\n2 1 46365 46366 46364 AND\n2 1 46364 125497 125498 XOR\n2 1 125529 125498 85472 XOR\n2 1 89568 125498 46368 XOR\n2 1 87520 125498 46369 XOR\n2 1 46368 46369 46367 AND\n2 1 46367 125498 125499 XOR\n2 1 125530 125499 85473 XOR\n2 1 89569 125499 46371 XOR\n2 1 87521 125499 46372 XOR\n2 1 46371 46372 46370 AND\n2 1 46370 125499 125500 XOR\n2 1 125531 125500 85474 XOR\n2 1 89570 125500 46374 XOR\n2 1 87522 125500 46375 XOR\n2 1 46374 46375 46373 AND\n2 1 46373 125500 125501 XOR\n2 1 125532 125501 85475 XOR\n2 1 89571 125501 46377 XOR\n2 1 87523 125501 46378 XOR\n2 1 46377 46378 46376 AND\n2 1 46376 125501 125502 XOR\n2 1 125533 125502 85476 XOR\n2 1 89572 125502 46380 XOR\n2 1 87524 125502 46381 XOR\n2 1 46380 46381 46379 AND\n2 1 46379 125502 125503 XOR\n2 1 125534 125503 85477 XOR\n2 1 89573 125503 46383 XOR\n2 1 87525 125503 46384 XOR\n2 1 46383 46384 46382 AND\n2 1 46382 125503 125504 XOR\n",
"2 1 125535 125504 85478 XOR\n2 1 89574 125504 46386 XOR\n2 1 87526 125504 46387 XOR\n2 1 46386 46387 46385 AND\n2 1 46385 125504 125505 XOR\n2 1 125536 125505 85479 XOR\n2 1 89575 125505 46389 XOR\n2 1 87527 125505 46390 XOR\n2 1 46389 46390 46388 AND\n2 1 46388 125505 125506 XOR\n2 1 125537 125506 85480 XOR\n2 1 89576 125506 46392 XOR\n2 1 87528 125506 46393 XOR\n2 1 46392 46393 46391 AND\n2 1 46391 125506 125507 XOR\n2 1 125538 125507 85481 XOR\n2 1 89577 125507 46395 XOR\n2 1 87529 125507 46396 XOR\n2 1 46395 46396 46394 AND\n2 1 46394 125507 125508 XOR\n2 1 125539 125508 85482 XOR\n2 1 89578 125508 46398 XOR\n2 1 87530 125508 46399 XOR\n2 1 46398 46399 46397 AND\n2 1 46397 125508 125509 XOR\n2 1 125540 125509 85483 XOR\n2 1 89579 125509 46401 XOR\n2 1 87531 125509 46402 XOR\n2 1 46401 46402 46400 AND\n2 1 46400 125509 125510 XOR\n2 1 125541 125510 85484 XOR\n2 1 89580 125510 46404 XOR\n2 1 87532 125510 46405 XOR\n2 1 46404 46405 46403 AND\n2 1 46403 125510 125511 XOR\n2 1 125542 125511 85485 XOR\n2 1 89581 125511 46407 XOR\n2 1 87533 125511 46408 XOR\n2 1 46407 46408 46406 AND\n2 1 46406 125511 125512 XOR\n2 1 125543 125512 85486 XOR\n2 1 89582 125512 46410 XOR\n2 1 87534 125512 46411 XOR\n2 1 46410 46411 46409 AND\n2 1 46409 125512 125513 XOR\n2 1 125544 125513 85487 XOR\n2 1 89583 125513 46413 XOR\n2 1 87535 125513 46414 XOR\n2 1 46413 46414 46412 AND\n2 1 46412 125513 125514 XOR\n2 1 125545 125514 85488 XOR\n2 1 66734 4095 66702 AND\n2 1 66733 4094 66701 AND\n2 1 66732 4093 66700 AND\n2 1 66731 4092 66699 AND\n2 1 66730 4091 66698 AND\n2 1 66729 4090 66697 AND\n2 1 66728 4089 66696 AND\n2 1 66727 4088 66695 AND\n2 1 66726 4087 66694 AND\n2 1 66725 4086 66693 AND\n2 1 66724 4085 66692 AND\n2 1 66723 4084 66691 AND\n2 1 66722 4083 66690 AND\n2 1 66721 4082 66689 AND\n2 1 66720 4081 66688 AND\n2 1 66719 4080 66687 AND\n2 1 66718 4079 66686 AND\n2 1 66717 4078 66685 AND\n2 1 66716 4077 66684 AND\n2 1 66715 4076 66683 AND\n2 1 66714 4075 66682 AND\n2 1 66713 4074 66681 AND\n2 1 66712 4073 66680 AND\n2 1 66711 4072 66679 AND\n2 1 66710 4071 66678 AND\n2 1 66709 4070 66677 AND\n2 1 66708 4069 66676 AND\n2 1 66707 4068 66675 AND\n2 1 66706 4067 66674 AND\n2 1 66705 4066 66673 AND\n2 1 66704 4065 66672 AND\n2 1 66703 4064 66671 AND\n2 1 66702 4159 99765 XOR\n2 1 66701 4158 99764 XOR\n2 1 66700 4157 99763 XOR\n2 1 66699 4156 99762 XOR\n2 1 66698 4155 99761 XOR\n2 1 66697 4154 99760 XOR\n2 1 66696 4153 99759 XOR\n2 1 66695 4152 99758 XOR\n2 1 66694 4151 99757 XOR\n2 1 66693 4150 99756 XOR\n2 1 66692 4149 99755 XOR\n2 1 66691 4148 99754 XOR\n2 1 66690 4147 99753 XOR\n2 1 66689 4146 99752 XOR\n2 1 66688 4145 99751 XOR\n2 1 66687 4144 99750 XOR\n2 1 66686 4143 99749 XOR\n2 1 66685 4142 99748 XOR\n2 1 66684 4141 99747 XOR\n2 1 66683 4140 99746 XOR\n2 1 66682 4139 99745 XOR\n2 1 66681 4138 99744 XOR\n2 1 66680 4137 99743 XOR\n2 1 66679 4136 99742 XOR\n2 1 66678 4135 99741 XOR\n2 1 66677 4134 99740 XOR\n2 1 66676 4133 99739 XOR\n2 1 66675 4132 99738 XOR\n2 1 66674 4131 99737 XOR\n2 1 66673 4130 99736 XOR\n2 1 66672 4129 99735 XOR\n2 1 66671 4128 99734 XOR\n2 1 4095 4127 66670 XOR\n2 1 4094 4126 66669 XOR\n2 1 4093 4125 66668 XOR\n2 1 4092 4124 66667 XOR\n2 1 4091 4123 66666 XOR\n2 1 4090 4122 66665 XOR\n2 1 4089 4121 66664 XOR\n2 1 4088 4120 66663 XOR\n2 1 4087 4119 66662 XOR\n2 1 4086 4118 66661 XOR\n2 1 4085 4117 66660 XOR\n2 1 4084 4116 66659 XOR\n2 1 4083 4115 66658 XOR\n",
"2 1 4082 4114 66657 XOR\n2 1 4081 4113 66656 XOR\n2 1 4080 4112 66655 XOR\n2 1 4079 4111 66654 XOR\n2 1 4078 4110 66653 XOR\n2 1 4077 4109 66652 XOR\n2 1 4076 4108 66651 XOR\n2 1 4075 4107 66650 XOR\n2 1 4074 4106 66649 XOR\n2 1 4073 4105 66648 XOR\n2 1 4072 4104 66647 XOR\n2 1 4071 4103 66646 XOR\n2 1 4070 4102 66645 XOR\n2 1 4069 4101 66644 XOR\n2 1 4068 4100 66643 XOR\n2 1 4067 4099 66642 XOR\n2 1 4066 4098 66641 XOR\n2 1 4065 4097 66640 XOR\n2 1 4064 4096 66639 XOR\n2 1 4069 4074 62766 XOR\n2 1 4068 4073 62765 XOR\n2 1 4067 4072 62764 XOR\n2 1 4066 4071 62763 XOR\n2 1 4065 4070 62762 XOR\n2 1 4064 4069 62761 XOR\n2 1 4095 4068 62760 XOR\n2 1 4094 4067 62759 XOR\n2 1 4093 4066 62758 XOR\n2 1 4092 4065 62757 XOR\n2 1 4091 4064 62756 XOR\n2 1 4090 4095 62755 XOR\n2 1 4089 4094 62754 XOR\n2 1 4088 4093 62753 XOR\n2 1 4087 4092 62752 XOR\n2 1 4086 4091 62751 XOR\n2 1 4085 4090 62750 XOR\n2 1 4084 4089 62749 XOR\n2 1 4083 4088 62748 XOR\n2 1 4082 4087 62747 XOR\n2 1 4081 4086 62746 XOR\n2 1 4080 4085 62745 XOR\n2 1 4079 4084 62744 XOR\n2 1 4078 4083 62743 XOR\n2 1 4077 4082 62742 XOR\n2 1 4076 4081 62741 XOR\n2 1 4075 4080 62740 XOR\n2 1 4074 4079 62739 XOR\n2 1 4073 4078 62738 XOR\n2 1 4072 4077 62737 XOR\n2 1 4071 4076 62736 XOR\n2 1 4070 4075 62735 XOR\n2 1 62766 4088 101813 XOR\n2 1 101813 99765 125626 XOR\n2 1 62765 4087 101812 XOR\n2 1 101812 99764 125625 XOR\n2 1 62764 4086 101811 XOR\n2 1 101811 99763 125624 XOR\n2 1 62763 4085 101810 XOR\n2 1 101810 99762 125623 XOR\n2 1 62762 4084 101809 XOR\n2 1 101809 99761 125622 XOR\n2 1 62761 4083 101808 XOR\n2 1 101808 99760 125621 XOR\n2 1 62760 4082 101807 XOR\n2 1 101807 99759 125620 XOR\n2 1 62759 4081 101806 XOR\n2 1 101806 99758 125619 XOR\n2 1 62758 4080 101805 XOR\n2 1 101805 99757 125618 XOR\n2 1 62757 4079 101804 XOR\n2 1 101804 99756 125617 XOR\n2 1 62756 4078 101803 XOR\n2 1 101803 99755 125616 XOR\n2 1 62755 4077 101802 XOR\n2 1 101802 99754 125615 XOR\n2 1 62754 4076 101801 XOR\n2 1 101801 99753 125614 XOR\n2 1 62753 4075 101800 XOR\n2 1 101800 99752 125613 XOR\n2 1 62752 4074 101799 XOR\n2 1 101799 99751 125612 XOR\n2 1 62751 4073 101798 XOR\n2 1 101798 99750 125611 XOR\n2 1 62750 4072 101797 XOR\n2 1 101797 99749 125610 XOR\n2 1 62749 4071 101796 XOR\n2 1 101796 99748 125609 XOR\n2 1 62748 4070 101795 XOR\n2 1 101795 99747 125608 XOR\n2 1 62747 4069 101794 XOR\n2 1 101794 99746 125607 XOR\n2 1 62746 4068 101793 XOR\n2 1 101793 99745 125606 XOR\n2 1 62745 4067 101792 XOR\n2 1 101792 99744 125605 XOR\n2 1 62744 4066 101791 XOR\n2 1 101791 99743 125604 XOR\n2 1 62743 4065 101790 XOR\n2 1 101790 99742 125603 XOR\n2 1 62742 4064 101789 XOR\n2 1 101789 99741 125602 XOR\n2 1 62741 4095 101788 XOR\n2 1 101788 99740 125601 XOR\n2 1 62740 4094 101787 XOR\n2 1 101787 99739 125600 XOR\n2 1 62739 4093 101786 XOR\n2 1 101786 99738 125599 XOR\n2 1 62738 4092 101785 XOR\n2 1 101785 99737 125598 XOR\n2 1 62737 4091 101784 XOR\n2 1 101784 99736 125597 XOR\n2 1 62736 4090 101783 XOR\n2 1 101783 99735 125596 XOR\n2 1 62735 4089 101782 XOR\n2 1 101782 99734 125565 AND\n2 1 101782 99734 97686 XOR\n2 1 125596 125565 97687 XOR\n2 1 101783 125565 46512 XOR\n2 1 99735 125565 46513 XOR\n2 1 46512 46513 46511 AND\n2 1 46511 125565 125566 XOR\n2 1 125597 125566 97688 XOR\n2 1 101784 125566 46515 XOR\n2 1 99736 125566 46516 XOR\n2 1 46515 46516 46514 AND\n2 1 46514 125566 125567 XOR\n2 1 125598 125567 97689 XOR\n2 1 101785 125567 46518 XOR\n",
"2 1 99737 125567 46519 XOR\n2 1 46518 46519 46517 AND\n2 1 46517 125567 125568 XOR\n2 1 125599 125568 97690 XOR\n2 1 101786 125568 46521 XOR\n2 1 99738 125568 46522 XOR\n2 1 46521 46522 46520 AND\n2 1 46520 125568 125569 XOR\n2 1 125600 125569 97691 XOR\n2 1 101787 125569 46524 XOR\n2 1 99739 125569 46525 XOR\n2 1 46524 46525 46523 AND\n2 1 46523 125569 125570 XOR\n2 1 125601 125570 97692 XOR\n2 1 101788 125570 46527 XOR\n2 1 99740 125570 46528 XOR\n2 1 46527 46528 46526 AND\n2 1 46526 125570 125571 XOR\n2 1 125602 125571 97693 XOR\n2 1 101789 125571 46530 XOR\n2 1 99741 125571 46531 XOR\n2 1 46530 46531 46529 AND\n2 1 46529 125571 125572 XOR\n2 1 125603 125572 97694 XOR\n2 1 101790 125572 46533 XOR\n2 1 99742 125572 46534 XOR\n2 1 46533 46534 46532 AND\n2 1 46532 125572 125573 XOR\n2 1 125604 125573 97695 XOR\n2 1 101791 125573 46536 XOR\n2 1 99743 125573 46537 XOR\n2 1 46536 46537 46535 AND\n2 1 46535 125573 125574 XOR\n2 1 125605 125574 97696 XOR\n2 1 101792 125574 46539 XOR\n2 1 99744 125574 46540 XOR\n2 1 46539 46540 46538 AND\n2 1 46538 125574 125575 XOR\n2 1 125606 125575 97697 XOR\n2 1 101793 125575 46542 XOR\n2 1 99745 125575 46543 XOR\n2 1 46542 46543 46541 AND\n2 1 46541 125575 125576 XOR\n2 1 125607 125576 97698 XOR\n2 1 101794 125576 46545 XOR\n2 1 99746 125576 46546 XOR\n2 1 46545 46546 46544 AND\n2 1 46544 125576 125577 XOR\n2 1 125608 125577 97699 XOR\n2 1 101795 125577 46548 XOR\n2 1 99747 125577 46549 XOR\n2 1 46548 46549 46547 AND\n2 1 46547 125577 125578 XOR\n2 1 125609 125578 97700 XOR\n2 1 101796 125578 46551 XOR\n2 1 99748 125578 46552 XOR\n2 1 46551 46552 46550 AND\n2 1 46550 125578 125579 XOR\n2 1 125610 125579 97701 XOR\n2 1 101797 125579 46554 XOR\n2 1 99749 125579 46555 XOR\n2 1 46554 46555 46553 AND\n2 1 46553 125579 125580 XOR\n2 1 125611 125580 97702 XOR\n2 1 101798 125580 46557 XOR\n2 1 99750 125580 46558 XOR\n2 1 46557 46558 46556 AND\n2 1 46556 125580 125581 XOR\n2 1 125612 125581 97703 XOR\n2 1 101799 125581 46560 XOR\n2 1 99751 125581 46561 XOR\n2 1 46560 46561 46559 AND\n2 1 46559 125581 125582 XOR\n2 1 125613 125582 97704 XOR\n2 1 101800 125582 46563 XOR\n2 1 99752 125582 46564 XOR\n2 1 46563 46564 46562 AND\n2 1 46562 125582 125583 XOR\n2 1 125614 125583 97705 XOR\n2 1 101801 125583 46566 XOR\n2 1 99753 125583 46567 XOR\n2 1 46566 46567 46565 AND\n2 1 46565 125583 125584 XOR\n2 1 125615 125584 97706 XOR\n2 1 101802 125584 46569 XOR\n2 1 99754 125584 46570 XOR\n2 1 46569 46570 46568 AND\n2 1 46568 125584 125585 XOR\n2 1 125616 125585 97707 XOR\n2 1 101803 125585 46572 XOR\n2 1 99755 125585 46573 XOR\n2 1 46572 46573 46571 AND\n2 1 46571 125585 125586 XOR\n2 1 125617 125586 97708 XOR\n2 1 101804 125586 46575 XOR\n2 1 99756 125586 46576 XOR\n2 1 46575 46576 46574 AND\n2 1 46574 125586 125587 XOR\n2 1 125618 125587 97709 XOR\n2 1 101805 125587 46578 XOR\n2 1 99757 125587 46579 XOR\n2 1 46578 46579 46577 AND\n2 1 46577 125587 125588 XOR\n2 1 125619 125588 97710 XOR\n2 1 101806 125588 46581 XOR\n2 1 99758 125588 46582 XOR\n2 1 46581 46582 46580 AND\n2 1 46580 125588 125589 XOR\n2 1 125620 125589 97711 XOR\n2 1 101807 125589 46584 XOR\n2 1 99759 125589 46585 XOR\n2 1 46584 46585 46583 AND\n2 1 46583 125589 125590 XOR\n2 1 125621 125590 97712 XOR\n2 1 101808 125590 46587 XOR\n2 1 99760 125590 46588 XOR\n2 1 46587 46588 46586 AND\n2 1 46586 125590 125591 XOR\n2 1 125622 125591 97713 XOR\n2 1 101809 125591 46590 XOR\n2 1 99761 125591 46591 XOR\n2 1 46590 46591 46589 AND\n2 1 46589 125591 125592 XOR\n2 1 125623 125592 97714 XOR\n2 1 101810 125592 46593 XOR\n2 1 99762 125592 46594 XOR\n2 1 46593 46594 46592 AND\n2 1 46592 125592 125593 XOR\n",
"2 1 125624 125593 97715 XOR\n2 1 101811 125593 46596 XOR\n2 1 99763 125593 46597 XOR\n2 1 46596 46597 46595 AND\n2 1 46595 125593 125594 XOR\n2 1 125625 125594 97716 XOR\n2 1 101812 125594 46599 XOR\n2 1 99764 125594 46600 XOR\n2 1 46599 46600 46598 AND\n2 1 46598 125594 125595 XOR\n2 1 125626 125595 97717 XOR\n2 1 97686 95638 135461 AND\n2 1 97686 95638 93590 XOR\n1 1 93590 91601 INV\n2 1 736 91601 109846 AND\n2 1 736 91601 4032 XOR\n2 1 737 109846 18577 XOR\n2 1 91601 85457 109908 AND\n2 1 91601 85457 4480 XOR\n2 1 85458 109908 18668 XOR\n2 1 256 4032 124587 AND\n2 1 256 4032 95510 XOR\n2 1 257 124587 44793 XOR\n2 1 97687 95639 135492 XOR\n2 1 97688 95640 135493 XOR\n2 1 97689 95641 135494 XOR\n2 1 97690 95642 135495 XOR\n2 1 97691 95643 135496 XOR\n2 1 97692 95644 135497 XOR\n2 1 97693 95645 135498 XOR\n2 1 97694 95646 135499 XOR\n2 1 97695 95647 135500 XOR\n2 1 97696 95648 135501 XOR\n2 1 97697 95649 135502 XOR\n2 1 97698 95650 135503 XOR\n2 1 97699 95651 135504 XOR\n2 1 97700 95652 135505 XOR\n2 1 97701 95653 135506 XOR\n2 1 97702 95654 135507 XOR\n2 1 97703 95655 135508 XOR\n2 1 97704 95656 135509 XOR\n2 1 97705 95657 135510 XOR\n2 1 97706 95658 135511 XOR\n2 1 97707 95659 135512 XOR\n2 1 97708 95660 135513 XOR\n2 1 97709 95661 135514 XOR\n2 1 97710 95662 135515 XOR\n2 1 97711 95663 135516 XOR\n2 1 97712 95664 135517 XOR\n2 1 97713 95665 135518 XOR\n2 1 97714 95666 135519 XOR\n2 1 97715 95667 135520 XOR\n2 1 97716 95668 135521 XOR\n2 1 97717 95669 135522 XOR\n2 1 135492 135461 93591 XOR\n2 1 93591 93590 91602 XOR\n2 1 91602 109846 18578 XOR\n2 1 18577 18578 18576 AND\n2 1 18576 109846 109847 XOR\n2 1 738 109847 18580 XOR\n2 1 91602 85458 109939 XOR\n2 1 109939 109908 4481 XOR\n2 1 91602 109908 18667 XOR\n2 1 18667 18668 18666 AND\n2 1 18666 109908 109909 XOR\n2 1 85459 109909 18671 XOR\n2 1 737 91602 109877 XOR\n2 1 109877 109846 4033 XOR\n2 1 4033 124587 44794 XOR\n2 1 44793 44794 44792 AND\n2 1 44792 124587 124588 XOR\n2 1 258 124588 44796 XOR\n2 1 257 4033 124618 XOR\n2 1 124618 124587 95511 XOR\n2 1 91602 93590 46415 AND\n2 1 46415 93590 125546 XOR\n1 1 125546 46418 INV\n2 1 97687 135461 74878 XOR\n2 1 95639 135461 74879 XOR\n2 1 74878 74879 74877 AND\n2 1 74877 135461 135462 XOR\n2 1 135493 135462 93592 XOR\n1 1 93592 46492 INV\n2 1 46492 125546 91603 XOR\n2 1 738 91603 109878 XOR\n2 1 109878 109847 4034 XOR\n2 1 91603 109847 18581 XOR\n2 1 18580 18581 18579 AND\n2 1 18579 109847 109848 XOR\n2 1 739 109848 18583 XOR\n2 1 91603 85459 109940 XOR\n2 1 109940 109909 4482 XOR\n2 1 91603 109909 18670 XOR\n2 1 18670 18671 18669 AND\n2 1 18669 109909 109910 XOR\n2 1 85460 109910 18674 XOR\n2 1 258 4034 124619 XOR\n2 1 124619 124588 95512 XOR\n2 1 4034 124588 44797 XOR\n2 1 44796 44797 44795 AND\n2 1 44795 124588 124589 XOR\n2 1 259 124589 44799 XOR\n2 1 93592 125546 46417 XOR\n2 1 46417 46418 46416 AND\n2 1 46416 125546 46420 XOR\n2 1 97688 135462 74881 XOR\n2 1 95640 135462 74882 XOR\n2 1 74881 74882 74880 AND\n2 1 74880 135462 135463 XOR\n2 1 135494 135463 93593 XOR\n2 1 93593 46420 91604 XOR\n2 1 91604 109848 18584 XOR\n2 1 18583 18584 18582 AND\n2 1 18582 109848 109849 XOR\n2 1 740 109849 18586 XOR\n2 1 91604 85460 109941 XOR\n2 1 109941 109910 4483 XOR\n2 1 91604 109910 18673 XOR\n2 1 18673 18674 18672 AND\n2 1 18672 109910 109911 XOR\n2 1 85461 109911 18677 XOR\n2 1 739 91604 109879 XOR\n2 1 109879 109848 4035 XOR\n2 1 4035 124589 44800 XOR\n2 1 44799 44800 44798 AND\n2 1 44798 124589 124590 XOR\n2 1 260 124590 44802 XOR\n2 1 259 4035 124620 XOR\n",
"2 1 124620 124589 95513 XOR\n2 1 91604 46420 46419 AND\n2 1 46419 46420 46422 XOR\n2 1 97689 135463 74884 XOR\n2 1 95641 135463 74885 XOR\n2 1 74884 74885 74883 AND\n2 1 74883 135463 135464 XOR\n2 1 135495 135464 93594 XOR\n2 1 93594 46422 91605 XOR\n2 1 91605 109849 18587 XOR\n2 1 18586 18587 18585 AND\n2 1 18585 109849 109850 XOR\n2 1 741 109850 18589 XOR\n2 1 91605 85461 109942 XOR\n2 1 109942 109911 4484 XOR\n2 1 91605 109911 18676 XOR\n2 1 18676 18677 18675 AND\n2 1 18675 109911 109912 XOR\n2 1 85462 109912 18680 XOR\n2 1 740 91605 109880 XOR\n2 1 109880 109849 4036 XOR\n2 1 4036 124590 44803 XOR\n2 1 44802 44803 44801 AND\n2 1 44801 124590 124591 XOR\n2 1 261 124591 44805 XOR\n2 1 260 4036 124621 XOR\n2 1 124621 124590 95514 XOR\n2 1 91605 46422 46421 AND\n2 1 46421 46422 125547 XOR\n1 1 125547 46425 INV\n2 1 97690 135464 74887 XOR\n2 1 95642 135464 74888 XOR\n2 1 74887 74888 74886 AND\n2 1 74886 135464 135465 XOR\n2 1 135496 135465 93595 XOR\n1 1 93595 46493 INV\n2 1 46493 125547 91606 XOR\n2 1 741 91606 109881 XOR\n2 1 109881 109850 4037 XOR\n2 1 91606 109850 18590 XOR\n2 1 18589 18590 18588 AND\n2 1 18588 109850 109851 XOR\n2 1 742 109851 18592 XOR\n2 1 91606 85462 109943 XOR\n2 1 109943 109912 4485 XOR\n2 1 91606 109912 18679 XOR\n2 1 18679 18680 18678 AND\n2 1 18678 109912 109913 XOR\n2 1 85463 109913 18683 XOR\n2 1 261 4037 124622 XOR\n2 1 124622 124591 95515 XOR\n2 1 4037 124591 44806 XOR\n2 1 44805 44806 44804 AND\n2 1 44804 124591 124592 XOR\n2 1 262 124592 44808 XOR\n2 1 93595 125547 46424 XOR\n2 1 46424 46425 46423 AND\n2 1 46423 125547 46427 XOR\n2 1 97691 135465 74890 XOR\n2 1 95643 135465 74891 XOR\n2 1 74890 74891 74889 AND\n2 1 74889 135465 135466 XOR\n2 1 135497 135466 93596 XOR\n2 1 93596 46427 91607 XOR\n2 1 91607 109851 18593 XOR\n2 1 18592 18593 18591 AND\n2 1 18591 109851 109852 XOR\n2 1 743 109852 18595 XOR\n2 1 91607 85463 109944 XOR\n2 1 109944 109913 4486 XOR\n2 1 91607 109913 18682 XOR\n2 1 18682 18683 18681 AND\n2 1 18681 109913 109914 XOR\n2 1 85464 109914 18686 XOR\n2 1 742 91607 109882 XOR\n2 1 109882 109851 4038 XOR\n2 1 4038 124592 44809 XOR\n2 1 44808 44809 44807 AND\n2 1 44807 124592 124593 XOR\n2 1 263 124593 44811 XOR\n2 1 262 4038 124623 XOR\n2 1 124623 124592 95516 XOR\n2 1 91607 46427 46426 AND\n2 1 46426 46427 125548 XOR\n1 1 125548 46430 INV\n2 1 97692 135466 74893 XOR\n2 1 95644 135466 74894 XOR\n2 1 74893 74894 74892 AND\n2 1 74892 135466 135467 XOR\n2 1 135498 135467 93597 XOR\n1 1 93597 46494 INV\n2 1 46494 125548 91608 XOR\n2 1 743 91608 109883 XOR\n2 1 109883 109852 4039 XOR\n2 1 91608 109852 18596 XOR\n2 1 18595 18596 18594 AND\n2 1 18594 109852 109853 XOR\n2 1 744 109853 18598 XOR\n2 1 91608 85464 109945 XOR\n2 1 109945 109914 4487 XOR\n2 1 91608 109914 18685 XOR\n2 1 18685 18686 18684 AND\n2 1 18684 109914 109915 XOR\n2 1 85465 109915 18689 XOR\n2 1 263 4039 124624 XOR\n2 1 124624 124593 95517 XOR\n2 1 4039 124593 44812 XOR\n2 1 44811 44812 44810 AND\n2 1 44810 124593 124594 XOR\n2 1 264 124594 44814 XOR\n2 1 93597 125548 46429 XOR\n2 1 46429 46430 46428 AND\n2 1 46428 125548 125549 XOR\n1 1 125549 46433 INV\n2 1 97693 135467 74896 XOR\n2 1 95645 135467 74897 XOR\n2 1 74896 74897 74895 AND\n2 1 74895 135467 135468 XOR\n2 1 135499 135468 93598 XOR\n1 1 93598 46495 INV\n2 1 46495 125549 91609 XOR\n2 1 744 91609 109884 XOR\n2 1 109884 109853 4040 XOR\n2 1 91609 109853 18599 XOR\n2 1 18598 18599 18597 AND\n2 1 18597 109853 109854 XOR\n2 1 745 109854 18601 XOR\n2 1 91609 85465 109946 XOR\n",
"2 1 109946 109915 4488 XOR\n2 1 91609 109915 18688 XOR\n2 1 18688 18689 18687 AND\n2 1 18687 109915 109916 XOR\n2 1 85466 109916 18692 XOR\n2 1 264 4040 124625 XOR\n2 1 124625 124594 95518 XOR\n2 1 4040 124594 44815 XOR\n2 1 44814 44815 44813 AND\n2 1 44813 124594 124595 XOR\n2 1 265 124595 44817 XOR\n2 1 93598 125549 46432 XOR\n2 1 46432 46433 46431 AND\n2 1 46431 125549 125550 XOR\n1 1 125550 46436 INV\n2 1 97694 135468 74899 XOR\n2 1 95646 135468 74900 XOR\n2 1 74899 74900 74898 AND\n2 1 74898 135468 135469 XOR\n2 1 135500 135469 93599 XOR\n1 1 93599 46496 INV\n2 1 46496 125550 91610 XOR\n2 1 745 91610 109885 XOR\n2 1 109885 109854 4041 XOR\n2 1 91610 109854 18602 XOR\n2 1 18601 18602 18600 AND\n2 1 18600 109854 109855 XOR\n2 1 746 109855 18604 XOR\n2 1 91610 85466 109947 XOR\n2 1 109947 109916 4489 XOR\n2 1 91610 109916 18691 XOR\n2 1 18691 18692 18690 AND\n2 1 18690 109916 109917 XOR\n2 1 85467 109917 18695 XOR\n2 1 265 4041 124626 XOR\n2 1 124626 124595 95519 XOR\n2 1 4041 124595 44818 XOR\n2 1 44817 44818 44816 AND\n2 1 44816 124595 124596 XOR\n2 1 266 124596 44820 XOR\n2 1 93599 125550 46435 XOR\n2 1 46435 46436 46434 AND\n2 1 46434 125550 46438 XOR\n2 1 97695 135469 74902 XOR\n2 1 95647 135469 74903 XOR\n2 1 74902 74903 74901 AND\n2 1 74901 135469 135470 XOR\n2 1 135501 135470 93600 XOR\n2 1 93600 46438 91611 XOR\n2 1 91611 109855 18605 XOR\n2 1 18604 18605 18603 AND\n2 1 18603 109855 109856 XOR\n2 1 747 109856 18607 XOR\n2 1 91611 85467 109948 XOR\n2 1 109948 109917 4490 XOR\n2 1 91611 109917 18694 XOR\n2 1 18694 18695 18693 AND\n2 1 18693 109917 109918 XOR\n2 1 85468 109918 18698 XOR\n2 1 746 91611 109886 XOR\n2 1 109886 109855 4042 XOR\n2 1 4042 124596 44821 XOR\n2 1 44820 44821 44819 AND\n2 1 44819 124596 124597 XOR\n2 1 267 124597 44823 XOR\n2 1 266 4042 124627 XOR\n2 1 124627 124596 95520 XOR\n2 1 91611 46438 46437 AND\n2 1 46437 46438 125551 XOR\n1 1 125551 46441 INV\n2 1 97696 135470 74905 XOR\n2 1 95648 135470 74906 XOR\n2 1 74905 74906 74904 AND\n2 1 74904 135470 135471 XOR\n2 1 135502 135471 93601 XOR\n1 1 93601 46497 INV\n2 1 46497 125551 91612 XOR\n2 1 747 91612 109887 XOR\n2 1 109887 109856 4043 XOR\n2 1 91612 109856 18608 XOR\n2 1 18607 18608 18606 AND\n2 1 18606 109856 109857 XOR\n2 1 748 109857 18610 XOR\n2 1 91612 85468 109949 XOR\n2 1 109949 109918 4491 XOR\n2 1 91612 109918 18697 XOR\n2 1 18697 18698 18696 AND\n2 1 18696 109918 109919 XOR\n2 1 85469 109919 18701 XOR\n2 1 267 4043 124628 XOR\n2 1 124628 124597 95521 XOR\n2 1 4043 124597 44824 XOR\n2 1 44823 44824 44822 AND\n2 1 44822 124597 124598 XOR\n2 1 268 124598 44826 XOR\n2 1 93601 125551 46440 XOR\n2 1 46440 46441 46439 AND\n2 1 46439 125551 125552 XOR\n1 1 125552 46444 INV\n2 1 97697 135471 74908 XOR\n2 1 95649 135471 74909 XOR\n2 1 74908 74909 74907 AND\n2 1 74907 135471 135472 XOR\n2 1 135503 135472 93602 XOR\n1 1 93602 46498 INV\n2 1 46498 125552 91613 XOR\n2 1 748 91613 109888 XOR\n2 1 109888 109857 4044 XOR\n2 1 91613 109857 18611 XOR\n2 1 18610 18611 18609 AND\n2 1 18609 109857 109858 XOR\n2 1 749 109858 18613 XOR\n2 1 91613 85469 109950 XOR\n2 1 109950 109919 4492 XOR\n2 1 91613 109919 18700 XOR\n2 1 18700 18701 18699 AND\n2 1 18699 109919 109920 XOR\n2 1 85470 109920 18704 XOR\n2 1 268 4044 124629 XOR\n2 1 124629 124598 95522 XOR\n2 1 4044 124598 44827 XOR\n2 1 44826 44827 44825 AND\n2 1 44825 124598 124599 XOR\n2 1 269 124599 44829 XOR\n2 1 93602 125552 46443 XOR\n2 1 46443 46444 46442 AND\n2 1 46442 125552 46446 XOR\n2 1 97698 135472 74911 XOR\n",
"2 1 95650 135472 74912 XOR\n2 1 74911 74912 74910 AND\n2 1 74910 135472 135473 XOR\n2 1 135504 135473 93603 XOR\n2 1 93603 46446 91614 XOR\n2 1 91614 109858 18614 XOR\n2 1 18613 18614 18612 AND\n2 1 18612 109858 109859 XOR\n2 1 750 109859 18616 XOR\n2 1 91614 85470 109951 XOR\n2 1 109951 109920 4493 XOR\n2 1 91614 109920 18703 XOR\n2 1 18703 18704 18702 AND\n2 1 18702 109920 109921 XOR\n2 1 85471 109921 18707 XOR\n2 1 749 91614 109889 XOR\n2 1 109889 109858 4045 XOR\n2 1 4045 124599 44830 XOR\n2 1 44829 44830 44828 AND\n2 1 44828 124599 124600 XOR\n2 1 270 124600 44832 XOR\n2 1 269 4045 124630 XOR\n2 1 124630 124599 95523 XOR\n2 1 91614 46446 46445 AND\n2 1 46445 46446 125553 XOR\n1 1 125553 46449 INV\n2 1 97699 135473 74914 XOR\n2 1 95651 135473 74915 XOR\n2 1 74914 74915 74913 AND\n2 1 74913 135473 135474 XOR\n2 1 135505 135474 93604 XOR\n1 1 93604 46499 INV\n2 1 46499 125553 91615 XOR\n2 1 750 91615 109890 XOR\n2 1 109890 109859 4046 XOR\n2 1 91615 109859 18617 XOR\n2 1 18616 18617 18615 AND\n2 1 18615 109859 109860 XOR\n2 1 751 109860 18619 XOR\n2 1 91615 85471 109952 XOR\n2 1 109952 109921 4494 XOR\n2 1 91615 109921 18706 XOR\n2 1 18706 18707 18705 AND\n2 1 18705 109921 109922 XOR\n2 1 85472 109922 18710 XOR\n2 1 270 4046 124631 XOR\n2 1 124631 124600 95524 XOR\n2 1 4046 124600 44833 XOR\n2 1 44832 44833 44831 AND\n2 1 44831 124600 124601 XOR\n2 1 271 124601 44835 XOR\n2 1 93604 125553 46448 XOR\n2 1 46448 46449 46447 AND\n2 1 46447 125553 125554 XOR\n1 1 125554 46452 INV\n2 1 97700 135474 74917 XOR\n2 1 95652 135474 74918 XOR\n2 1 74917 74918 74916 AND\n2 1 74916 135474 135475 XOR\n2 1 135506 135475 93605 XOR\n1 1 93605 46500 INV\n2 1 46500 125554 91616 XOR\n2 1 751 91616 109891 XOR\n2 1 109891 109860 4047 XOR\n2 1 91616 109860 18620 XOR\n2 1 18619 18620 18618 AND\n2 1 18618 109860 109861 XOR\n2 1 752 109861 18622 XOR\n2 1 91616 85472 109953 XOR\n2 1 109953 109922 4495 XOR\n2 1 91616 109922 18709 XOR\n2 1 18709 18710 18708 AND\n2 1 18708 109922 109923 XOR\n2 1 85473 109923 18713 XOR\n2 1 271 4047 124632 XOR\n2 1 124632 124601 95525 XOR\n2 1 4047 124601 44836 XOR\n2 1 44835 44836 44834 AND\n2 1 44834 124601 124602 XOR\n2 1 272 124602 44838 XOR\n2 1 93605 125554 46451 XOR\n2 1 46451 46452 46450 AND\n2 1 46450 125554 125555 XOR\n1 1 125555 46455 INV\n2 1 97701 135475 74920 XOR\n2 1 95653 135475 74921 XOR\n2 1 74920 74921 74919 AND\n2 1 74919 135475 135476 XOR\n2 1 135507 135476 93606 XOR\n1 1 93606 46501 INV\n2 1 46501 125555 91617 XOR\n2 1 752 91617 109892 XOR\n2 1 109892 109861 4048 XOR\n2 1 91617 109861 18623 XOR\n2 1 18622 18623 18621 AND\n2 1 18621 109861 109862 XOR\n2 1 753 109862 18625 XOR\n2 1 91617 85473 109954 XOR\n2 1 109954 109923 4496 XOR\n2 1 91617 109923 18712 XOR\n2 1 18712 18713 18711 AND\n2 1 18711 109923 109924 XOR\n2 1 85474 109924 18716 XOR\n2 1 272 4048 124633 XOR\n2 1 124633 124602 95526 XOR\n2 1 4048 124602 44839 XOR\n2 1 44838 44839 44837 AND\n2 1 44837 124602 124603 XOR\n2 1 273 124603 44841 XOR\n2 1 93606 125555 46454 XOR\n2 1 46454 46455 46453 AND\n2 1 46453 125555 46457 XOR\n2 1 97702 135476 74923 XOR\n2 1 95654 135476 74924 XOR\n2 1 74923 74924 74922 AND\n2 1 74922 135476 135477 XOR\n2 1 135508 135477 93607 XOR\n2 1 93607 46457 91618 XOR\n2 1 91618 109862 18626 XOR\n2 1 18625 18626 18624 AND\n2 1 18624 109862 109863 XOR\n2 1 754 109863 18628 XOR\n2 1 91618 85474 109955 XOR\n2 1 109955 109924 4497 XOR\n2 1 91618 109924 18715 XOR\n2 1 18715 18716 18714 AND\n2 1 18714 109924 109925 XOR\n2 1 85475 109925 18719 XOR\n",
"2 1 753 91618 109893 XOR\n2 1 109893 109862 4049 XOR\n2 1 4049 124603 44842 XOR\n2 1 44841 44842 44840 AND\n2 1 44840 124603 124604 XOR\n2 1 274 124604 44844 XOR\n2 1 273 4049 124634 XOR\n2 1 124634 124603 95527 XOR\n2 1 91618 46457 46456 AND\n2 1 46456 46457 125556 XOR\n1 1 125556 46460 INV\n2 1 97703 135477 74926 XOR\n2 1 95655 135477 74927 XOR\n2 1 74926 74927 74925 AND\n2 1 74925 135477 135478 XOR\n2 1 135509 135478 93608 XOR\n1 1 93608 46502 INV\n2 1 46502 125556 91619 XOR\n2 1 754 91619 109894 XOR\n2 1 109894 109863 4050 XOR\n2 1 91619 109863 18629 XOR\n2 1 18628 18629 18627 AND\n2 1 18627 109863 109864 XOR\n2 1 755 109864 18631 XOR\n2 1 91619 85475 109956 XOR\n2 1 109956 109925 4498 XOR\n2 1 91619 109925 18718 XOR\n2 1 18718 18719 18717 AND\n2 1 18717 109925 109926 XOR\n2 1 85476 109926 18722 XOR\n2 1 274 4050 124635 XOR\n2 1 124635 124604 95528 XOR\n2 1 4050 124604 44845 XOR\n2 1 44844 44845 44843 AND\n2 1 44843 124604 124605 XOR\n2 1 275 124605 44847 XOR\n2 1 93608 125556 46459 XOR\n2 1 46459 46460 46458 AND\n2 1 46458 125556 46462 XOR\n2 1 97704 135478 74929 XOR\n2 1 95656 135478 74930 XOR\n2 1 74929 74930 74928 AND\n2 1 74928 135478 135479 XOR\n2 1 135510 135479 93609 XOR\n2 1 93609 46462 91620 XOR\n2 1 91620 109864 18632 XOR\n2 1 18631 18632 18630 AND\n2 1 18630 109864 109865 XOR\n2 1 756 109865 18634 XOR\n2 1 91620 85476 109957 XOR\n2 1 109957 109926 4499 XOR\n2 1 91620 109926 18721 XOR\n2 1 18721 18722 18720 AND\n2 1 18720 109926 109927 XOR\n2 1 85477 109927 18725 XOR\n2 1 755 91620 109895 XOR\n2 1 109895 109864 4051 XOR\n2 1 4051 124605 44848 XOR\n2 1 44847 44848 44846 AND\n2 1 44846 124605 124606 XOR\n2 1 276 124606 44850 XOR\n2 1 275 4051 124636 XOR\n2 1 124636 124605 95529 XOR\n2 1 91620 46462 46461 AND\n2 1 46461 46462 125557 XOR\n1 1 125557 46465 INV\n2 1 97705 135479 74932 XOR\n2 1 95657 135479 74933 XOR\n2 1 74932 74933 74931 AND\n2 1 74931 135479 135480 XOR\n2 1 135511 135480 93610 XOR\n1 1 93610 46503 INV\n2 1 46503 125557 91621 XOR\n2 1 756 91621 109896 XOR\n2 1 109896 109865 4052 XOR\n2 1 91621 109865 18635 XOR\n2 1 18634 18635 18633 AND\n2 1 18633 109865 109866 XOR\n2 1 757 109866 18637 XOR\n2 1 91621 85477 109958 XOR\n2 1 109958 109927 4500 XOR\n2 1 91621 109927 18724 XOR\n2 1 18724 18725 18723 AND\n2 1 18723 109927 109928 XOR\n2 1 85478 109928 18728 XOR\n2 1 276 4052 124637 XOR\n2 1 124637 124606 95530 XOR\n2 1 4052 124606 44851 XOR\n2 1 44850 44851 44849 AND\n2 1 44849 124606 124607 XOR\n2 1 277 124607 44853 XOR\n2 1 93610 125557 46464 XOR\n2 1 46464 46465 46463 AND\n2 1 46463 125557 125558 XOR\n1 1 125558 46468 INV\n2 1 97706 135480 74935 XOR\n2 1 95658 135480 74936 XOR\n2 1 74935 74936 74934 AND\n2 1 74934 135480 135481 XOR\n2 1 135512 135481 93611 XOR\n1 1 93611 46504 INV\n2 1 46504 125558 91622 XOR\n2 1 757 91622 109897 XOR\n2 1 109897 109866 4053 XOR\n2 1 91622 109866 18638 XOR\n2 1 18637 18638 18636 AND\n2 1 18636 109866 109867 XOR\n2 1 758 109867 18640 XOR\n2 1 91622 85478 109959 XOR\n2 1 109959 109928 4501 XOR\n2 1 91622 109928 18727 XOR\n2 1 18727 18728 18726 AND\n2 1 18726 109928 109929 XOR\n2 1 85479 109929 18731 XOR\n2 1 277 4053 124638 XOR\n2 1 124638 124607 95531 XOR\n2 1 4053 124607 44854 XOR\n2 1 44853 44854 44852 AND\n2 1 44852 124607 124608 XOR\n2 1 278 124608 44856 XOR\n2 1 93611 125558 46467 XOR\n2 1 46467 46468 46466 AND\n2 1 46466 125558 46470 XOR\n2 1 97707 135481 74938 XOR\n2 1 95659 135481 74939 XOR\n2 1 74938 74939 74937 AND\n2 1 74937 135481 135482 XOR\n2 1 135513 135482 93612 XOR\n",
"2 1 93612 46470 91623 XOR\n2 1 91623 109867 18641 XOR\n2 1 18640 18641 18639 AND\n2 1 18639 109867 109868 XOR\n2 1 759 109868 18643 XOR\n2 1 91623 85479 109960 XOR\n2 1 109960 109929 4502 XOR\n2 1 91623 109929 18730 XOR\n2 1 18730 18731 18729 AND\n2 1 18729 109929 109930 XOR\n2 1 85480 109930 18734 XOR\n2 1 758 91623 109898 XOR\n2 1 109898 109867 4054 XOR\n2 1 4054 124608 44857 XOR\n2 1 44856 44857 44855 AND\n2 1 44855 124608 124609 XOR\n2 1 279 124609 44859 XOR\n2 1 278 4054 124639 XOR\n2 1 124639 124608 95532 XOR\n2 1 91623 46470 46469 AND\n2 1 46469 46470 125559 XOR\n1 1 125559 46473 INV\n2 1 97708 135482 74941 XOR\n2 1 95660 135482 74942 XOR\n2 1 74941 74942 74940 AND\n2 1 74940 135482 135483 XOR\n2 1 135514 135483 93613 XOR\n1 1 93613 46505 INV\n2 1 46505 125559 91624 XOR\n2 1 759 91624 109899 XOR\n2 1 109899 109868 4055 XOR\n2 1 91624 109868 18644 XOR\n2 1 18643 18644 18642 AND\n2 1 18642 109868 109869 XOR\n2 1 760 109869 18646 XOR\n2 1 91624 85480 109961 XOR\n2 1 109961 109930 4503 XOR\n2 1 91624 109930 18733 XOR\n2 1 18733 18734 18732 AND\n2 1 18732 109930 109931 XOR\n2 1 85481 109931 18737 XOR\n2 1 279 4055 124640 XOR\n2 1 124640 124609 95533 XOR\n2 1 4055 124609 44860 XOR\n2 1 44859 44860 44858 AND\n2 1 44858 124609 124610 XOR\n2 1 280 124610 44862 XOR\n2 1 93613 125559 46472 XOR\n2 1 46472 46473 46471 AND\n2 1 46471 125559 125560 XOR\n1 1 125560 46476 INV\n2 1 97709 135483 74944 XOR\n2 1 95661 135483 74945 XOR\n2 1 74944 74945 74943 AND\n2 1 74943 135483 135484 XOR\n2 1 135515 135484 93614 XOR\n1 1 93614 46506 INV\n2 1 46506 125560 91625 XOR\n2 1 760 91625 109900 XOR\n2 1 109900 109869 4056 XOR\n2 1 91625 109869 18647 XOR\n2 1 18646 18647 18645 AND\n2 1 18645 109869 109870 XOR\n2 1 761 109870 18649 XOR\n2 1 91625 85481 109962 XOR\n2 1 109962 109931 4504 XOR\n2 1 91625 109931 18736 XOR\n2 1 18736 18737 18735 AND\n2 1 18735 109931 109932 XOR\n2 1 85482 109932 18740 XOR\n2 1 280 4056 124641 XOR\n2 1 124641 124610 95534 XOR\n2 1 4056 124610 44863 XOR\n2 1 44862 44863 44861 AND\n2 1 44861 124610 124611 XOR\n2 1 281 124611 44865 XOR\n2 1 93614 125560 46475 XOR\n2 1 46475 46476 46474 AND\n2 1 46474 125560 46478 XOR\n2 1 97710 135484 74947 XOR\n2 1 95662 135484 74948 XOR\n2 1 74947 74948 74946 AND\n2 1 74946 135484 135485 XOR\n2 1 135516 135485 93615 XOR\n2 1 93615 46478 91626 XOR\n2 1 91626 109870 18650 XOR\n2 1 18649 18650 18648 AND\n2 1 18648 109870 109871 XOR\n2 1 762 109871 18652 XOR\n2 1 91626 85482 109963 XOR\n2 1 109963 109932 4505 XOR\n2 1 91626 109932 18739 XOR\n2 1 18739 18740 18738 AND\n2 1 18738 109932 109933 XOR\n2 1 85483 109933 18743 XOR\n2 1 761 91626 109901 XOR\n2 1 109901 109870 4057 XOR\n2 1 4057 124611 44866 XOR\n2 1 44865 44866 44864 AND\n2 1 44864 124611 124612 XOR\n2 1 282 124612 44868 XOR\n2 1 281 4057 124642 XOR\n2 1 124642 124611 95535 XOR\n2 1 91626 46478 46477 AND\n2 1 46477 46478 46480 XOR\n2 1 97711 135485 74950 XOR\n2 1 95663 135485 74951 XOR\n2 1 74950 74951 74949 AND\n2 1 74949 135485 135486 XOR\n2 1 135517 135486 93616 XOR\n2 1 93616 46480 91627 XOR\n2 1 91627 109871 18653 XOR\n2 1 18652 18653 18651 AND\n2 1 18651 109871 109872 XOR\n2 1 763 109872 18655 XOR\n2 1 91627 85483 109964 XOR\n2 1 109964 109933 4506 XOR\n2 1 91627 109933 18742 XOR\n2 1 18742 18743 18741 AND\n2 1 18741 109933 109934 XOR\n2 1 85484 109934 18746 XOR\n2 1 762 91627 109902 XOR\n2 1 109902 109871 4058 XOR\n2 1 4058 124612 44869 XOR\n2 1 44868 44869 44867 AND\n2 1 44867 124612 124613 XOR\n2 1 283 124613 44871 XOR\n2 1 282 4058 124643 XOR\n",
"2 1 124643 124612 95536 XOR\n2 1 91627 46480 46479 AND\n2 1 46479 46480 125561 XOR\n1 1 125561 46483 INV\n2 1 97712 135486 74953 XOR\n2 1 95664 135486 74954 XOR\n2 1 74953 74954 74952 AND\n2 1 74952 135486 135487 XOR\n2 1 135518 135487 93617 XOR\n1 1 93617 46507 INV\n2 1 46507 125561 91628 XOR\n2 1 763 91628 109903 XOR\n2 1 109903 109872 4059 XOR\n2 1 91628 109872 18656 XOR\n2 1 18655 18656 18654 AND\n2 1 18654 109872 109873 XOR\n2 1 764 109873 18658 XOR\n2 1 91628 85484 109965 XOR\n2 1 109965 109934 4507 XOR\n2 1 91628 109934 18745 XOR\n2 1 18745 18746 18744 AND\n2 1 18744 109934 109935 XOR\n2 1 85485 109935 18749 XOR\n2 1 283 4059 124644 XOR\n2 1 124644 124613 95537 XOR\n2 1 4059 124613 44872 XOR\n2 1 44871 44872 44870 AND\n2 1 44870 124613 124614 XOR\n2 1 284 124614 44874 XOR\n2 1 93617 125561 46482 XOR\n2 1 46482 46483 46481 AND\n2 1 46481 125561 46485 XOR\n2 1 97713 135487 74956 XOR\n2 1 95665 135487 74957 XOR\n2 1 74956 74957 74955 AND\n2 1 74955 135487 135488 XOR\n2 1 135519 135488 93618 XOR\n2 1 93618 46485 91629 XOR\n2 1 91629 109873 18659 XOR\n2 1 18658 18659 18657 AND\n2 1 18657 109873 109874 XOR\n2 1 765 109874 18661 XOR\n2 1 91629 85485 109966 XOR\n2 1 109966 109935 4508 XOR\n2 1 91629 109935 18748 XOR\n2 1 18748 18749 18747 AND\n2 1 18747 109935 109936 XOR\n2 1 85486 109936 18752 XOR\n2 1 764 91629 109904 XOR\n2 1 109904 109873 4060 XOR\n2 1 4060 124614 44875 XOR\n2 1 44874 44875 44873 AND\n2 1 44873 124614 124615 XOR\n2 1 285 124615 44877 XOR\n2 1 284 4060 124645 XOR\n2 1 124645 124614 95538 XOR\n2 1 91629 46485 46484 AND\n2 1 46484 46485 125562 XOR\n1 1 125562 46488 INV\n2 1 97714 135488 74959 XOR\n2 1 95666 135488 74960 XOR\n2 1 74959 74960 74958 AND\n2 1 74958 135488 135489 XOR\n2 1 135520 135489 93619 XOR\n1 1 93619 46508 INV\n2 1 46508 125562 91630 XOR\n2 1 765 91630 109905 XOR\n2 1 109905 109874 4061 XOR\n2 1 91630 109874 18662 XOR\n2 1 18661 18662 18660 AND\n2 1 18660 109874 109875 XOR\n2 1 766 109875 18664 XOR\n2 1 91630 85486 109967 XOR\n2 1 109967 109936 4509 XOR\n2 1 91630 109936 18751 XOR\n2 1 18751 18752 18750 AND\n2 1 18750 109936 109937 XOR\n2 1 85487 109937 18755 XOR\n2 1 285 4061 124646 XOR\n2 1 124646 124615 95539 XOR\n2 1 4061 124615 44878 XOR\n2 1 44877 44878 44876 AND\n2 1 44876 124615 124616 XOR\n2 1 286 124616 44880 XOR\n2 1 93619 125562 46487 XOR\n2 1 46487 46488 46486 AND\n2 1 46486 125562 125563 XOR\n1 1 125563 46491 INV\n2 1 97715 135489 74962 XOR\n2 1 95667 135489 74963 XOR\n2 1 74962 74963 74961 AND\n2 1 74961 135489 135490 XOR\n2 1 135521 135490 93620 XOR\n1 1 93620 46509 INV\n2 1 46509 125563 91631 XOR\n2 1 766 91631 109906 XOR\n2 1 109906 109875 4062 XOR\n2 1 91631 109875 18665 XOR\n2 1 18664 18665 18663 AND\n2 1 18663 109875 109876 XOR\n2 1 91631 85487 109968 XOR\n2 1 109968 109937 4510 XOR\n2 1 91631 109937 18754 XOR\n2 1 18754 18755 18753 AND\n2 1 18753 109937 109938 XOR\n2 1 286 4062 124647 XOR\n2 1 124647 124616 95540 XOR\n2 1 4062 124616 44881 XOR\n2 1 44880 44881 44879 AND\n2 1 44879 124616 124617 XOR\n2 1 93620 125563 46490 XOR\n2 1 46490 46491 46489 AND\n2 1 46489 125563 125564 XOR\n2 1 97716 135490 74965 XOR\n2 1 95668 135490 74966 XOR\n2 1 74965 74966 74964 AND\n2 1 74964 135490 135491 XOR\n2 1 135522 135491 93621 XOR\n1 1 93621 46510 INV\n2 1 46510 125564 91632 XOR\n2 1 767 91632 109907 XOR\n2 1 109907 109876 4063 XOR\n2 1 91632 85488 109969 XOR\n2 1 109969 109938 4511 XOR\n2 1 287 4063 124648 XOR\n2 1 124648 124617 95541 XOR\n2 1 4511 4575 74510 XOR\n2 1 4510 4574 74509 XOR\n",
"2 1 4509 4573 74508 XOR\n2 1 4508 4572 74507 XOR\n2 1 4507 4571 74506 XOR\n2 1 4506 4570 74505 XOR\n2 1 4505 4569 74504 XOR\n2 1 4504 4568 74503 XOR\n2 1 4503 4567 74502 XOR\n2 1 4502 4566 74501 XOR\n2 1 4501 4565 74500 XOR\n2 1 4500 4564 74499 XOR\n2 1 4499 4563 74498 XOR\n2 1 4498 4562 74497 XOR\n2 1 4497 4561 74496 XOR\n2 1 4496 4560 74495 XOR\n2 1 4495 4559 74494 XOR\n2 1 4494 4558 74493 XOR\n2 1 4493 4557 74492 XOR\n2 1 4492 4556 74491 XOR\n2 1 4491 4555 74490 XOR\n2 1 4490 4554 74489 XOR\n2 1 4489 4553 74488 XOR\n2 1 4488 4552 74487 XOR\n2 1 4487 4551 74486 XOR\n2 1 4486 4550 74485 XOR\n2 1 4485 4549 74484 XOR\n2 1 4484 4548 74483 XOR\n2 1 4483 4547 74482 XOR\n2 1 4482 4546 74481 XOR\n2 1 4481 4545 74480 XOR\n2 1 4480 4544 74479 XOR\n2 1 74510 74478 74446 AND\n2 1 74509 74477 74445 AND\n2 1 74508 74476 74444 AND\n2 1 74507 74475 74443 AND\n2 1 74506 74474 74442 AND\n2 1 74505 74473 74441 AND\n2 1 74504 74472 74440 AND\n2 1 74503 74471 74439 AND\n2 1 74502 74470 74438 AND\n2 1 74501 74469 74437 AND\n2 1 74500 74468 74436 AND\n2 1 74499 74467 74435 AND\n2 1 74498 74466 74434 AND\n2 1 74497 74465 74433 AND\n2 1 74496 74464 74432 AND\n2 1 74495 74463 74431 AND\n2 1 74494 74462 74430 AND\n2 1 74493 74461 74429 AND\n2 1 74492 74460 74428 AND\n2 1 74491 74459 74427 AND\n2 1 74490 74458 74426 AND\n2 1 74489 74457 74425 AND\n2 1 74488 74456 74424 AND\n2 1 74487 74455 74423 AND\n2 1 74486 74454 74422 AND\n2 1 74485 74453 74421 AND\n2 1 74484 74452 74420 AND\n2 1 74483 74451 74419 AND\n2 1 74482 74450 74418 AND\n2 1 74481 74449 74417 AND\n2 1 74480 74448 74416 AND\n2 1 74479 74447 74415 AND\n2 1 74446 4575 87504 XOR\n2 1 74445 4574 87503 XOR\n2 1 74444 4573 87502 XOR\n2 1 74443 4572 87501 XOR\n2 1 74442 4571 87500 XOR\n2 1 74441 4570 87499 XOR\n2 1 74440 4569 87498 XOR\n2 1 74439 4568 87497 XOR\n2 1 74438 4567 87496 XOR\n2 1 74437 4566 87495 XOR\n2 1 74436 4565 87494 XOR\n2 1 74435 4564 87493 XOR\n2 1 74434 4563 87492 XOR\n2 1 74433 4562 87491 XOR\n2 1 74432 4561 87490 XOR\n2 1 74431 4560 87489 XOR\n2 1 74430 4559 87488 XOR\n2 1 74429 4558 87487 XOR\n2 1 74428 4557 87486 XOR\n2 1 74427 4556 87485 XOR\n2 1 74426 4555 87484 XOR\n2 1 74425 4554 87483 XOR\n2 1 74424 4553 87482 XOR\n2 1 74423 4552 87481 XOR\n2 1 74422 4551 87480 XOR\n2 1 74421 4550 87479 XOR\n2 1 74420 4549 87478 XOR\n2 1 74419 4548 87477 XOR\n2 1 74418 4547 87476 XOR\n2 1 74417 4546 87475 XOR\n2 1 74416 4545 87474 XOR\n2 1 74415 4544 87473 XOR\n2 1 4511 4543 74382 XOR\n2 1 4510 4542 74381 XOR\n2 1 4509 4541 74380 XOR\n2 1 4508 4540 74379 XOR\n2 1 4507 4539 74378 XOR\n2 1 4506 4538 74377 XOR\n2 1 4505 4537 74376 XOR\n2 1 4504 4536 74375 XOR\n2 1 4503 4535 74374 XOR\n2 1 4502 4534 74373 XOR\n2 1 4501 4533 74372 XOR\n2 1 4500 4532 74371 XOR\n2 1 4499 4531 74370 XOR\n2 1 4498 4530 74369 XOR\n2 1 4497 4529 74368 XOR\n2 1 4496 4528 74367 XOR\n2 1 4495 4527 74366 XOR\n2 1 4494 4526 74365 XOR\n2 1 4493 4525 74364 XOR\n2 1 4492 4524 74363 XOR\n2 1 4491 4523 74362 XOR\n2 1 4490 4522 74361 XOR\n2 1 4489 4521 74360 XOR\n2 1 4488 4520 74359 XOR\n2 1 4487 4519 74358 XOR\n2 1 4486 4518 74357 XOR\n2 1 4485 4517 74356 XOR\n2 1 4484 4516 74355 XOR\n2 1 4483 4515 74354 XOR\n2 1 4482 4514 74353 XOR\n2 1 4481 4513 74352 XOR\n2 1 4480 4512 74351 XOR\n2 1 4481 4492 68654 XOR\n2 1 4480 4491 68653 XOR\n",
"2 1 4511 4490 68652 XOR\n2 1 4510 4489 68651 XOR\n2 1 4509 4488 68650 XOR\n2 1 4508 4487 68649 XOR\n2 1 4507 4486 68648 XOR\n2 1 4506 4485 68647 XOR\n2 1 4505 4484 68646 XOR\n2 1 4504 4483 68645 XOR\n2 1 4503 4482 68644 XOR\n2 1 4502 4481 68643 XOR\n2 1 4501 4480 68642 XOR\n2 1 4500 4511 68641 XOR\n2 1 4499 4510 68640 XOR\n2 1 4498 4509 68639 XOR\n2 1 4497 4508 68638 XOR\n2 1 4496 4507 68637 XOR\n2 1 4495 4506 68636 XOR\n2 1 4494 4505 68635 XOR\n2 1 4493 4504 68634 XOR\n2 1 4492 4503 68633 XOR\n2 1 4491 4502 68632 XOR\n2 1 4490 4501 68631 XOR\n2 1 4489 4500 68630 XOR\n2 1 4488 4499 68629 XOR\n2 1 4487 4498 68628 XOR\n2 1 4486 4497 68627 XOR\n2 1 4485 4496 68626 XOR\n2 1 4484 4495 68625 XOR\n2 1 4483 4494 68624 XOR\n2 1 4482 4493 68623 XOR\n2 1 68654 4501 89552 XOR\n2 1 89552 87504 125297 XOR\n2 1 68653 4500 89551 XOR\n2 1 89551 87503 125296 XOR\n2 1 68652 4499 89550 XOR\n2 1 89550 87502 125295 XOR\n2 1 68651 4498 89549 XOR\n2 1 89549 87501 125294 XOR\n2 1 68650 4497 89548 XOR\n2 1 89548 87500 125293 XOR\n2 1 68649 4496 89547 XOR\n2 1 89547 87499 125292 XOR\n2 1 68648 4495 89546 XOR\n2 1 89546 87498 125291 XOR\n2 1 68647 4494 89545 XOR\n2 1 89545 87497 125290 XOR\n2 1 68646 4493 89544 XOR\n2 1 89544 87496 125289 XOR\n2 1 68645 4492 89543 XOR\n2 1 89543 87495 125288 XOR\n2 1 68644 4491 89542 XOR\n2 1 89542 87494 125287 XOR\n2 1 68643 4490 89541 XOR\n2 1 89541 87493 125286 XOR\n2 1 68642 4489 89540 XOR\n2 1 89540 87492 125285 XOR\n2 1 68641 4488 89539 XOR\n2 1 89539 87491 125284 XOR\n2 1 68640 4487 89538 XOR\n2 1 89538 87490 125283 XOR\n2 1 68639 4486 89537 XOR\n2 1 89537 87489 125282 XOR\n2 1 68638 4485 89536 XOR\n2 1 89536 87488 125281 XOR\n2 1 68637 4484 89535 XOR\n2 1 89535 87487 125280 XOR\n2 1 68636 4483 89534 XOR\n2 1 89534 87486 125279 XOR\n2 1 68635 4482 89533 XOR\n2 1 89533 87485 125278 XOR\n2 1 68634 4481 89532 XOR\n2 1 89532 87484 125277 XOR\n2 1 68633 4480 89531 XOR\n2 1 89531 87483 125276 XOR\n2 1 68632 4511 89530 XOR\n2 1 89530 87482 125275 XOR\n2 1 68631 4510 89529 XOR\n2 1 89529 87481 125274 XOR\n2 1 68630 4509 89528 XOR\n2 1 89528 87480 125273 XOR\n2 1 68629 4508 89527 XOR\n2 1 89527 87479 125272 XOR\n2 1 68628 4507 89526 XOR\n2 1 89526 87478 125271 XOR\n2 1 68627 4506 89525 XOR\n2 1 89525 87477 125270 XOR\n2 1 68626 4505 89524 XOR\n2 1 89524 87476 125269 XOR\n2 1 68625 4504 89523 XOR\n2 1 89523 87475 125268 XOR\n2 1 68624 4503 89522 XOR\n2 1 89522 87474 125267 XOR\n2 1 68623 4502 89521 XOR\n2 1 89521 87473 125236 AND\n2 1 89521 87473 85425 XOR\n2 1 125267 125236 85426 XOR\n2 1 89522 125236 45862 XOR\n2 1 87474 125236 45863 XOR\n2 1 45862 45863 45861 AND\n2 1 45861 125236 125237 XOR\n2 1 125268 125237 85427 XOR\n2 1 89523 125237 45865 XOR\n2 1 87475 125237 45866 XOR\n2 1 45865 45866 45864 AND\n2 1 45864 125237 125238 XOR\n2 1 125269 125238 85428 XOR\n2 1 89524 125238 45868 XOR\n2 1 87476 125238 45869 XOR\n2 1 45868 45869 45867 AND\n2 1 45867 125238 125239 XOR\n2 1 125270 125239 85429 XOR\n2 1 89525 125239 45871 XOR\n2 1 87477 125239 45872 XOR\n2 1 45871 45872 45870 AND\n2 1 45870 125239 125240 XOR\n2 1 125271 125240 85430 XOR\n2 1 89526 125240 45874 XOR\n2 1 87478 125240 45875 XOR\n2 1 45874 45875 45873 AND\n2 1 45873 125240 125241 XOR\n2 1 125272 125241 85431 XOR\n2 1 89527 125241 45877 XOR\n2 1 87479 125241 45878 XOR\n2 1 45877 45878 45876 AND\n2 1 45876 125241 125242 XOR\n2 1 125273 125242 85432 XOR\n2 1 89528 125242 45880 XOR\n2 1 87480 125242 45881 XOR\n",
"2 1 45880 45881 45879 AND\n2 1 45879 125242 125243 XOR\n2 1 125274 125243 85433 XOR\n2 1 89529 125243 45883 XOR\n2 1 87481 125243 45884 XOR\n2 1 45883 45884 45882 AND\n2 1 45882 125243 125244 XOR\n2 1 125275 125244 85434 XOR\n2 1 89530 125244 45886 XOR\n2 1 87482 125244 45887 XOR\n2 1 45886 45887 45885 AND\n2 1 45885 125244 125245 XOR\n2 1 125276 125245 85435 XOR\n2 1 89531 125245 45889 XOR\n2 1 87483 125245 45890 XOR\n2 1 45889 45890 45888 AND\n2 1 45888 125245 125246 XOR\n2 1 125277 125246 85436 XOR\n2 1 89532 125246 45892 XOR\n2 1 87484 125246 45893 XOR\n2 1 45892 45893 45891 AND\n2 1 45891 125246 125247 XOR\n2 1 125278 125247 85437 XOR\n2 1 89533 125247 45895 XOR\n2 1 87485 125247 45896 XOR\n2 1 45895 45896 45894 AND\n2 1 45894 125247 125248 XOR\n2 1 125279 125248 85438 XOR\n2 1 89534 125248 45898 XOR\n2 1 87486 125248 45899 XOR\n2 1 45898 45899 45897 AND\n2 1 45897 125248 125249 XOR\n2 1 125280 125249 85439 XOR\n2 1 89535 125249 45901 XOR\n2 1 87487 125249 45902 XOR\n2 1 45901 45902 45900 AND\n2 1 45900 125249 125250 XOR\n2 1 125281 125250 85440 XOR\n2 1 89536 125250 45904 XOR\n2 1 87488 125250 45905 XOR\n2 1 45904 45905 45903 AND\n2 1 45903 125250 125251 XOR\n2 1 125282 125251 85441 XOR\n2 1 89537 125251 45907 XOR\n2 1 87489 125251 45908 XOR\n2 1 45907 45908 45906 AND\n2 1 45906 125251 125252 XOR\n2 1 125283 125252 85442 XOR\n2 1 89538 125252 45910 XOR\n2 1 87490 125252 45911 XOR\n2 1 45910 45911 45909 AND\n2 1 45909 125252 125253 XOR\n2 1 125284 125253 85443 XOR\n2 1 89539 125253 45913 XOR\n2 1 87491 125253 45914 XOR\n2 1 45913 45914 45912 AND\n2 1 45912 125253 125254 XOR\n2 1 125285 125254 85444 XOR\n2 1 89540 125254 45916 XOR\n2 1 87492 125254 45917 XOR\n2 1 45916 45917 45915 AND\n2 1 45915 125254 125255 XOR\n2 1 125286 125255 85445 XOR\n2 1 89541 125255 45919 XOR\n2 1 87493 125255 45920 XOR\n2 1 45919 45920 45918 AND\n2 1 45918 125255 125256 XOR\n2 1 125287 125256 85446 XOR\n2 1 89542 125256 45922 XOR\n2 1 87494 125256 45923 XOR\n2 1 45922 45923 45921 AND\n2 1 45921 125256 125257 XOR\n2 1 125288 125257 85447 XOR\n2 1 89543 125257 45925 XOR\n2 1 87495 125257 45926 XOR\n2 1 45925 45926 45924 AND\n2 1 45924 125257 125258 XOR\n2 1 125289 125258 85448 XOR\n2 1 89544 125258 45928 XOR\n2 1 87496 125258 45929 XOR\n2 1 45928 45929 45927 AND\n2 1 45927 125258 125259 XOR\n2 1 125290 125259 85449 XOR\n2 1 89545 125259 45931 XOR\n2 1 87497 125259 45932 XOR\n2 1 45931 45932 45930 AND\n2 1 45930 125259 125260 XOR\n2 1 125291 125260 85450 XOR\n2 1 89546 125260 45934 XOR\n2 1 87498 125260 45935 XOR\n2 1 45934 45935 45933 AND\n2 1 45933 125260 125261 XOR\n2 1 125292 125261 85451 XOR\n2 1 89547 125261 45937 XOR\n2 1 87499 125261 45938 XOR\n2 1 45937 45938 45936 AND\n2 1 45936 125261 125262 XOR\n2 1 125293 125262 85452 XOR\n2 1 89548 125262 45940 XOR\n2 1 87500 125262 45941 XOR\n2 1 45940 45941 45939 AND\n2 1 45939 125262 125263 XOR\n2 1 125294 125263 85453 XOR\n2 1 89549 125263 45943 XOR\n2 1 87501 125263 45944 XOR\n2 1 45943 45944 45942 AND\n2 1 45942 125263 125264 XOR\n2 1 125295 125264 85454 XOR\n2 1 89550 125264 45946 XOR\n2 1 87502 125264 45947 XOR\n2 1 45946 45947 45945 AND\n2 1 45945 125264 125265 XOR\n2 1 125296 125265 85455 XOR\n2 1 89551 125265 45949 XOR\n2 1 87503 125265 45950 XOR\n2 1 45949 45950 45948 AND\n2 1 45948 125265 125266 XOR\n2 1 125297 125266 85456 XOR\n2 1 66670 4063 66638 AND\n2 1 66669 4062 66637 AND\n2 1 66668 4061 66636 AND\n2 1 66667 4060 66635 AND\n2 1 66666 4059 66634 AND\n2 1 66665 4058 66633 AND\n2 1 66664 4057 66632 AND\n2 1 66663 4056 66631 AND\n2 1 66662 4055 66630 AND\n2 1 66661 4054 66629 AND\n",
"2 1 66660 4053 66628 AND\n2 1 66659 4052 66627 AND\n2 1 66658 4051 66626 AND\n2 1 66657 4050 66625 AND\n2 1 66656 4049 66624 AND\n2 1 66655 4048 66623 AND\n2 1 66654 4047 66622 AND\n2 1 66653 4046 66621 AND\n2 1 66652 4045 66620 AND\n2 1 66651 4044 66619 AND\n2 1 66650 4043 66618 AND\n2 1 66649 4042 66617 AND\n2 1 66648 4041 66616 AND\n2 1 66647 4040 66615 AND\n2 1 66646 4039 66614 AND\n2 1 66645 4038 66613 AND\n2 1 66644 4037 66612 AND\n2 1 66643 4036 66611 AND\n2 1 66642 4035 66610 AND\n2 1 66641 4034 66609 AND\n2 1 66640 4033 66608 AND\n2 1 66639 4032 66607 AND\n2 1 66638 4127 99733 XOR\n2 1 66637 4126 99732 XOR\n2 1 66636 4125 99731 XOR\n2 1 66635 4124 99730 XOR\n2 1 66634 4123 99729 XOR\n2 1 66633 4122 99728 XOR\n2 1 66632 4121 99727 XOR\n2 1 66631 4120 99726 XOR\n2 1 66630 4119 99725 XOR\n2 1 66629 4118 99724 XOR\n2 1 66628 4117 99723 XOR\n2 1 66627 4116 99722 XOR\n2 1 66626 4115 99721 XOR\n2 1 66625 4114 99720 XOR\n2 1 66624 4113 99719 XOR\n2 1 66623 4112 99718 XOR\n2 1 66622 4111 99717 XOR\n2 1 66621 4110 99716 XOR\n2 1 66620 4109 99715 XOR\n2 1 66619 4108 99714 XOR\n2 1 66618 4107 99713 XOR\n2 1 66617 4106 99712 XOR\n2 1 66616 4105 99711 XOR\n2 1 66615 4104 99710 XOR\n2 1 66614 4103 99709 XOR\n2 1 66613 4102 99708 XOR\n2 1 66612 4101 99707 XOR\n2 1 66611 4100 99706 XOR\n2 1 66610 4099 99705 XOR\n2 1 66609 4098 99704 XOR\n2 1 66608 4097 99703 XOR\n2 1 66607 4096 99702 XOR\n2 1 4063 4095 66606 XOR\n2 1 4062 4094 66605 XOR\n2 1 4061 4093 66604 XOR\n2 1 4060 4092 66603 XOR\n2 1 4059 4091 66602 XOR\n2 1 4058 4090 66601 XOR\n2 1 4057 4089 66600 XOR\n2 1 4056 4088 66599 XOR\n2 1 4055 4087 66598 XOR\n2 1 4054 4086 66597 XOR\n2 1 4053 4085 66596 XOR\n2 1 4052 4084 66595 XOR\n2 1 4051 4083 66594 XOR\n2 1 4050 4082 66593 XOR\n2 1 4049 4081 66592 XOR\n2 1 4048 4080 66591 XOR\n2 1 4047 4079 66590 XOR\n2 1 4046 4078 66589 XOR\n2 1 4045 4077 66588 XOR\n2 1 4044 4076 66587 XOR\n2 1 4043 4075 66586 XOR\n2 1 4042 4074 66585 XOR\n2 1 4041 4073 66584 XOR\n2 1 4040 4072 66583 XOR\n2 1 4039 4071 66582 XOR\n2 1 4038 4070 66581 XOR\n2 1 4037 4069 66580 XOR\n2 1 4036 4068 66579 XOR\n2 1 4035 4067 66578 XOR\n2 1 4034 4066 66577 XOR\n2 1 4033 4065 66576 XOR\n2 1 4032 4064 66575 XOR\n2 1 4037 4042 62734 XOR\n2 1 4036 4041 62733 XOR\n2 1 4035 4040 62732 XOR\n2 1 4034 4039 62731 XOR\n2 1 4033 4038 62730 XOR\n2 1 4032 4037 62729 XOR\n2 1 4063 4036 62728 XOR\n2 1 4062 4035 62727 XOR\n2 1 4061 4034 62726 XOR\n2 1 4060 4033 62725 XOR\n2 1 4059 4032 62724 XOR\n2 1 4058 4063 62723 XOR\n2 1 4057 4062 62722 XOR\n2 1 4056 4061 62721 XOR\n2 1 4055 4060 62720 XOR\n2 1 4054 4059 62719 XOR\n2 1 4053 4058 62718 XOR\n2 1 4052 4057 62717 XOR\n2 1 4051 4056 62716 XOR\n2 1 4050 4055 62715 XOR\n2 1 4049 4054 62714 XOR\n2 1 4048 4053 62713 XOR\n2 1 4047 4052 62712 XOR\n2 1 4046 4051 62711 XOR\n2 1 4045 4050 62710 XOR\n2 1 4044 4049 62709 XOR\n2 1 4043 4048 62708 XOR\n2 1 4042 4047 62707 XOR\n2 1 4041 4046 62706 XOR\n2 1 4040 4045 62705 XOR\n2 1 4039 4044 62704 XOR\n2 1 4038 4043 62703 XOR\n2 1 62734 4056 101781 XOR\n2 1 101781 99733 125483 XOR\n2 1 62733 4055 101780 XOR\n2 1 101780 99732 125482 XOR\n2 1 62732 4054 101779 XOR\n2 1 101779 99731 125481 XOR\n2 1 62731 4053 101778 XOR\n2 1 101778 99730 125480 XOR\n2 1 62730 4052 101777 XOR\n2 1 101777 99729 125479 XOR\n",
"2 1 62729 4051 101776 XOR\n2 1 101776 99728 125478 XOR\n2 1 62728 4050 101775 XOR\n2 1 101775 99727 125477 XOR\n2 1 62727 4049 101774 XOR\n2 1 101774 99726 125476 XOR\n2 1 62726 4048 101773 XOR\n2 1 101773 99725 125475 XOR\n2 1 62725 4047 101772 XOR\n2 1 101772 99724 125474 XOR\n2 1 62724 4046 101771 XOR\n2 1 101771 99723 125473 XOR\n2 1 62723 4045 101770 XOR\n2 1 101770 99722 125472 XOR\n2 1 62722 4044 101769 XOR\n2 1 101769 99721 125471 XOR\n2 1 62721 4043 101768 XOR\n2 1 101768 99720 125470 XOR\n2 1 62720 4042 101767 XOR\n2 1 101767 99719 125469 XOR\n2 1 62719 4041 101766 XOR\n2 1 101766 99718 125468 XOR\n2 1 62718 4040 101765 XOR\n2 1 101765 99717 125467 XOR\n2 1 62717 4039 101764 XOR\n2 1 101764 99716 125466 XOR\n2 1 62716 4038 101763 XOR\n2 1 101763 99715 125465 XOR\n2 1 62715 4037 101762 XOR\n2 1 101762 99714 125464 XOR\n2 1 62714 4036 101761 XOR\n2 1 101761 99713 125463 XOR\n2 1 62713 4035 101760 XOR\n2 1 101760 99712 125462 XOR\n2 1 62712 4034 101759 XOR\n2 1 101759 99711 125461 XOR\n2 1 62711 4033 101758 XOR\n2 1 101758 99710 125460 XOR\n2 1 62710 4032 101757 XOR\n2 1 101757 99709 125459 XOR\n2 1 62709 4063 101756 XOR\n2 1 101756 99708 125458 XOR\n2 1 62708 4062 101755 XOR\n2 1 101755 99707 125457 XOR\n2 1 62707 4061 101754 XOR\n2 1 101754 99706 125456 XOR\n2 1 62706 4060 101753 XOR\n2 1 101753 99705 125455 XOR\n2 1 62705 4059 101752 XOR\n2 1 101752 99704 125454 XOR\n2 1 62704 4058 101751 XOR\n2 1 101751 99703 125453 XOR\n2 1 62703 4057 101750 XOR\n2 1 101750 99702 125422 AND\n2 1 101750 99702 97654 XOR\n2 1 97654 95606 125298 AND\n2 1 97654 95606 93558 XOR\n1 1 93558 91569 INV\n2 1 4576 91569 109722 AND\n2 1 4576 91569 4000 XOR\n2 1 4577 109722 18397 XOR\n2 1 91569 85425 109784 AND\n2 1 91569 85425 4448 XOR\n2 1 85426 109784 18488 XOR\n2 1 224 4000 124322 AND\n2 1 224 4000 95478 XOR\n2 1 225 124322 44341 XOR\n2 1 95607 125298 46057 XOR\n2 1 125453 125422 97655 XOR\n2 1 97655 95607 125329 XOR\n2 1 125329 125298 93559 XOR\n1 1 93559 46040 INV\n2 1 46040 93558 91570 XOR\n2 1 4577 91570 109753 XOR\n2 1 109753 109722 4001 XOR\n2 1 91570 109722 18398 XOR\n2 1 18397 18398 18396 AND\n2 1 18396 109722 109723 XOR\n2 1 4578 109723 18400 XOR\n2 1 91570 85426 109815 XOR\n2 1 109815 109784 4449 XOR\n2 1 91570 109784 18487 XOR\n2 1 18487 18488 18486 AND\n2 1 18486 109784 109785 XOR\n2 1 85427 109785 18491 XOR\n2 1 225 4001 124353 XOR\n2 1 124353 124322 95479 XOR\n2 1 4001 124322 44342 XOR\n2 1 44341 44342 44340 AND\n2 1 44340 124322 124323 XOR\n2 1 226 124323 44344 XOR\n2 1 93559 93558 45952 XOR\n2 1 45952 91569 45951 AND\n2 1 45951 93558 45954 XOR\n2 1 97655 125298 46056 XOR\n2 1 46056 46057 46055 AND\n2 1 46055 125298 125299 XOR\n2 1 95608 125299 46060 XOR\n2 1 101751 125422 46236 XOR\n2 1 99703 125422 46237 XOR\n2 1 46236 46237 46235 AND\n2 1 46235 125422 125423 XOR\n2 1 125454 125423 97656 XOR\n2 1 97656 95608 125330 XOR\n2 1 125330 125299 93560 XOR\n2 1 93560 45954 91571 XOR\n2 1 91571 109723 18401 XOR\n2 1 18400 18401 18399 AND\n2 1 18399 109723 109724 XOR\n2 1 4579 109724 18403 XOR\n2 1 91571 85427 109816 XOR\n2 1 109816 109785 4450 XOR\n2 1 91571 109785 18490 XOR\n2 1 18490 18491 18489 AND\n2 1 18489 109785 109786 XOR\n2 1 85428 109786 18494 XOR\n2 1 4578 91571 109754 XOR\n2 1 109754 109723 4002 XOR\n2 1 4002 124323 44345 XOR\n2 1 44344 44345 44343 AND\n2 1 44343 124323 124324 XOR\n2 1 227 124324 44347 XOR\n2 1 226 4002 124354 XOR\n2 1 124354 124323 95480 XOR\n2 1 91571 45954 45953 AND\n2 1 45953 45954 46025 XOR\n1 1 46025 45957 INV\n2 1 97656 125299 46059 XOR\n",
"2 1 46059 46060 46058 AND\n2 1 46058 125299 125300 XOR\n2 1 95609 125300 46063 XOR\n2 1 101752 125423 46239 XOR\n2 1 99704 125423 46240 XOR\n2 1 46239 46240 46238 AND\n2 1 46238 125423 125424 XOR\n2 1 125455 125424 97657 XOR\n2 1 97657 95609 125331 XOR\n2 1 125331 125300 93561 XOR\n1 1 93561 46041 INV\n2 1 46041 46025 91572 XOR\n2 1 4579 91572 109755 XOR\n2 1 109755 109724 4003 XOR\n2 1 91572 109724 18404 XOR\n2 1 18403 18404 18402 AND\n2 1 18402 109724 109725 XOR\n2 1 4580 109725 18406 XOR\n2 1 91572 85428 109817 XOR\n2 1 109817 109786 4451 XOR\n2 1 91572 109786 18493 XOR\n2 1 18493 18494 18492 AND\n2 1 18492 109786 109787 XOR\n2 1 85429 109787 18497 XOR\n2 1 227 4003 124355 XOR\n2 1 124355 124324 95481 XOR\n2 1 4003 124324 44348 XOR\n2 1 44347 44348 44346 AND\n2 1 44346 124324 124325 XOR\n2 1 228 124325 44350 XOR\n2 1 93561 46025 45956 XOR\n2 1 45956 45957 45955 AND\n2 1 45955 46025 46026 XOR\n1 1 46026 45960 INV\n2 1 97657 125300 46062 XOR\n2 1 46062 46063 46061 AND\n2 1 46061 125300 125301 XOR\n2 1 95610 125301 46066 XOR\n2 1 101753 125424 46242 XOR\n2 1 99705 125424 46243 XOR\n2 1 46242 46243 46241 AND\n2 1 46241 125424 125425 XOR\n2 1 125456 125425 97658 XOR\n2 1 97658 95610 125332 XOR\n2 1 125332 125301 93562 XOR\n1 1 93562 46042 INV\n2 1 46042 46026 91573 XOR\n2 1 4580 91573 109756 XOR\n2 1 109756 109725 4004 XOR\n2 1 91573 109725 18407 XOR\n2 1 18406 18407 18405 AND\n2 1 18405 109725 109726 XOR\n2 1 4581 109726 18409 XOR\n2 1 91573 85429 109818 XOR\n2 1 109818 109787 4452 XOR\n2 1 91573 109787 18496 XOR\n2 1 18496 18497 18495 AND\n2 1 18495 109787 109788 XOR\n2 1 85430 109788 18500 XOR\n2 1 228 4004 124356 XOR\n2 1 124356 124325 95482 XOR\n2 1 4004 124325 44351 XOR\n2 1 44350 44351 44349 AND\n2 1 44349 124325 124326 XOR\n2 1 229 124326 44353 XOR\n2 1 93562 46026 45959 XOR\n2 1 45959 45960 45958 AND\n2 1 45958 46026 45962 XOR\n2 1 97658 125301 46065 XOR\n2 1 46065 46066 46064 AND\n2 1 46064 125301 125302 XOR\n2 1 95611 125302 46069 XOR\n2 1 101754 125425 46245 XOR\n2 1 99706 125425 46246 XOR\n2 1 46245 46246 46244 AND\n2 1 46244 125425 125426 XOR\n2 1 125457 125426 97659 XOR\n2 1 97659 95611 125333 XOR\n2 1 125333 125302 93563 XOR\n2 1 93563 45962 91574 XOR\n2 1 91574 109726 18410 XOR\n2 1 18409 18410 18408 AND\n2 1 18408 109726 109727 XOR\n2 1 4582 109727 18412 XOR\n2 1 91574 85430 109819 XOR\n2 1 109819 109788 4453 XOR\n2 1 91574 109788 18499 XOR\n2 1 18499 18500 18498 AND\n2 1 18498 109788 109789 XOR\n2 1 85431 109789 18503 XOR\n2 1 4581 91574 109757 XOR\n2 1 109757 109726 4005 XOR\n2 1 4005 124326 44354 XOR\n2 1 44353 44354 44352 AND\n2 1 44352 124326 124327 XOR\n2 1 230 124327 44356 XOR\n2 1 229 4005 124357 XOR\n2 1 124357 124326 95483 XOR\n2 1 91574 45962 45961 AND\n2 1 45961 45962 46027 XOR\n1 1 46027 45965 INV\n2 1 97659 125302 46068 XOR\n2 1 46068 46069 46067 AND\n2 1 46067 125302 125303 XOR\n2 1 95612 125303 46072 XOR\n2 1 101755 125426 46248 XOR\n2 1 99707 125426 46249 XOR\n2 1 46248 46249 46247 AND\n2 1 46247 125426 125427 XOR\n2 1 125458 125427 97660 XOR\n2 1 97660 95612 125334 XOR\n2 1 125334 125303 93564 XOR\n1 1 93564 46043 INV\n2 1 46043 46027 91575 XOR\n2 1 4582 91575 109758 XOR\n2 1 109758 109727 4006 XOR\n2 1 91575 109727 18413 XOR\n2 1 18412 18413 18411 AND\n2 1 18411 109727 109728 XOR\n2 1 4583 109728 18415 XOR\n2 1 91575 85431 109820 XOR\n2 1 109820 109789 4454 XOR\n2 1 91575 109789 18502 XOR\n2 1 18502 18503 18501 AND\n2 1 18501 109789 109790 XOR\n2 1 85432 109790 18506 XOR\n2 1 230 4006 124358 XOR\n2 1 124358 124327 95484 XOR\n",
"2 1 4006 124327 44357 XOR\n2 1 44356 44357 44355 AND\n2 1 44355 124327 124328 XOR\n2 1 231 124328 44359 XOR\n2 1 93564 46027 45964 XOR\n2 1 45964 45965 45963 AND\n2 1 45963 46027 45967 XOR\n2 1 97660 125303 46071 XOR\n2 1 46071 46072 46070 AND\n2 1 46070 125303 125304 XOR\n2 1 95613 125304 46075 XOR\n2 1 101756 125427 46251 XOR\n2 1 99708 125427 46252 XOR\n2 1 46251 46252 46250 AND\n2 1 46250 125427 125428 XOR\n2 1 125459 125428 97661 XOR\n2 1 97661 95613 125335 XOR\n2 1 125335 125304 93565 XOR\n2 1 93565 45967 91576 XOR\n2 1 91576 109728 18416 XOR\n2 1 18415 18416 18414 AND\n2 1 18414 109728 109729 XOR\n2 1 4584 109729 18418 XOR\n2 1 91576 85432 109821 XOR\n2 1 109821 109790 4455 XOR\n2 1 91576 109790 18505 XOR\n2 1 18505 18506 18504 AND\n2 1 18504 109790 109791 XOR\n2 1 85433 109791 18509 XOR\n2 1 4583 91576 109759 XOR\n2 1 109759 109728 4007 XOR\n2 1 4007 124328 44360 XOR\n2 1 44359 44360 44358 AND\n2 1 44358 124328 124329 XOR\n2 1 232 124329 44362 XOR\n2 1 231 4007 124359 XOR\n2 1 124359 124328 95485 XOR\n2 1 91576 45967 45966 AND\n2 1 45966 45967 45969 XOR\n2 1 97661 125304 46074 XOR\n2 1 46074 46075 46073 AND\n2 1 46073 125304 125305 XOR\n2 1 95614 125305 46078 XOR\n2 1 101757 125428 46254 XOR\n2 1 99709 125428 46255 XOR\n2 1 46254 46255 46253 AND\n2 1 46253 125428 125429 XOR\n2 1 125460 125429 97662 XOR\n2 1 97662 95614 125336 XOR\n2 1 125336 125305 93566 XOR\n2 1 93566 45969 91577 XOR\n2 1 91577 109729 18419 XOR\n2 1 18418 18419 18417 AND\n2 1 18417 109729 109730 XOR\n2 1 4585 109730 18421 XOR\n2 1 91577 85433 109822 XOR\n2 1 109822 109791 4456 XOR\n2 1 91577 109791 18508 XOR\n2 1 18508 18509 18507 AND\n2 1 18507 109791 109792 XOR\n2 1 85434 109792 18512 XOR\n2 1 4584 91577 109760 XOR\n2 1 109760 109729 4008 XOR\n2 1 4008 124329 44363 XOR\n2 1 44362 44363 44361 AND\n2 1 44361 124329 124330 XOR\n2 1 233 124330 44365 XOR\n2 1 232 4008 124360 XOR\n2 1 124360 124329 95486 XOR\n2 1 91577 45969 45968 AND\n2 1 45968 45969 46028 XOR\n1 1 46028 45972 INV\n2 1 97662 125305 46077 XOR\n2 1 46077 46078 46076 AND\n2 1 46076 125305 125306 XOR\n2 1 95615 125306 46081 XOR\n2 1 101758 125429 46257 XOR\n2 1 99710 125429 46258 XOR\n2 1 46257 46258 46256 AND\n2 1 46256 125429 125430 XOR\n2 1 125461 125430 97663 XOR\n2 1 97663 95615 125337 XOR\n2 1 125337 125306 93567 XOR\n1 1 93567 46044 INV\n2 1 46044 46028 91578 XOR\n2 1 4585 91578 109761 XOR\n2 1 109761 109730 4009 XOR\n2 1 91578 109730 18422 XOR\n2 1 18421 18422 18420 AND\n2 1 18420 109730 109731 XOR\n2 1 4586 109731 18424 XOR\n2 1 91578 85434 109823 XOR\n2 1 109823 109792 4457 XOR\n2 1 91578 109792 18511 XOR\n2 1 18511 18512 18510 AND\n2 1 18510 109792 109793 XOR\n2 1 85435 109793 18515 XOR\n2 1 233 4009 124361 XOR\n2 1 124361 124330 95487 XOR\n2 1 4009 124330 44366 XOR\n2 1 44365 44366 44364 AND\n2 1 44364 124330 124331 XOR\n2 1 234 124331 44368 XOR\n2 1 93567 46028 45971 XOR\n2 1 45971 45972 45970 AND\n2 1 45970 46028 45974 XOR\n2 1 97663 125306 46080 XOR\n2 1 46080 46081 46079 AND\n2 1 46079 125306 125307 XOR\n2 1 95616 125307 46084 XOR\n2 1 101759 125430 46260 XOR\n2 1 99711 125430 46261 XOR\n2 1 46260 46261 46259 AND\n2 1 46259 125430 125431 XOR\n2 1 125462 125431 97664 XOR\n2 1 97664 95616 125338 XOR\n2 1 125338 125307 93568 XOR\n2 1 93568 45974 91579 XOR\n2 1 91579 109731 18425 XOR\n2 1 18424 18425 18423 AND\n2 1 18423 109731 109732 XOR\n2 1 4587 109732 18427 XOR\n2 1 91579 85435 109824 XOR\n2 1 109824 109793 4458 XOR\n2 1 91579 109793 18514 XOR\n2 1 18514 18515 18513 AND\n2 1 18513 109793 109794 XOR\n2 1 85436 109794 18518 XOR\n",
"2 1 4586 91579 109762 XOR\n2 1 109762 109731 4010 XOR\n2 1 4010 124331 44369 XOR\n2 1 44368 44369 44367 AND\n2 1 44367 124331 124332 XOR\n2 1 235 124332 44371 XOR\n2 1 234 4010 124362 XOR\n2 1 124362 124331 95488 XOR\n2 1 91579 45974 45973 AND\n2 1 45973 45974 45976 XOR\n2 1 97664 125307 46083 XOR\n2 1 46083 46084 46082 AND\n2 1 46082 125307 125308 XOR\n2 1 95617 125308 46087 XOR\n2 1 101760 125431 46263 XOR\n2 1 99712 125431 46264 XOR\n2 1 46263 46264 46262 AND\n2 1 46262 125431 125432 XOR\n2 1 125463 125432 97665 XOR\n2 1 97665 95617 125339 XOR\n2 1 125339 125308 93569 XOR\n2 1 93569 45976 91580 XOR\n2 1 91580 109732 18428 XOR\n2 1 18427 18428 18426 AND\n2 1 18426 109732 109733 XOR\n2 1 4588 109733 18430 XOR\n2 1 91580 85436 109825 XOR\n2 1 109825 109794 4459 XOR\n2 1 91580 109794 18517 XOR\n2 1 18517 18518 18516 AND\n2 1 18516 109794 109795 XOR\n2 1 85437 109795 18521 XOR\n2 1 4587 91580 109763 XOR\n2 1 109763 109732 4011 XOR\n2 1 4011 124332 44372 XOR\n2 1 44371 44372 44370 AND\n2 1 44370 124332 124333 XOR\n2 1 236 124333 44374 XOR\n2 1 235 4011 124363 XOR\n2 1 124363 124332 95489 XOR\n2 1 91580 45976 45975 AND\n2 1 45975 45976 45978 XOR\n2 1 97665 125308 46086 XOR\n2 1 46086 46087 46085 AND\n2 1 46085 125308 125309 XOR\n2 1 95618 125309 46090 XOR\n2 1 101761 125432 46266 XOR\n2 1 99713 125432 46267 XOR\n2 1 46266 46267 46265 AND\n2 1 46265 125432 125433 XOR\n2 1 125464 125433 97666 XOR\n2 1 97666 95618 125340 XOR\n2 1 125340 125309 93570 XOR\n2 1 93570 45978 91581 XOR\n2 1 91581 109733 18431 XOR\n2 1 18430 18431 18429 AND\n2 1 18429 109733 109734 XOR\n2 1 4589 109734 18433 XOR\n2 1 91581 85437 109826 XOR\n2 1 109826 109795 4460 XOR\n2 1 91581 109795 18520 XOR\n2 1 18520 18521 18519 AND\n2 1 18519 109795 109796 XOR\n2 1 85438 109796 18524 XOR\n2 1 4588 91581 109764 XOR\n2 1 109764 109733 4012 XOR\n2 1 4012 124333 44375 XOR\n2 1 44374 44375 44373 AND\n2 1 44373 124333 124334 XOR\n2 1 237 124334 44377 XOR\n2 1 236 4012 124364 XOR\n2 1 124364 124333 95490 XOR\n2 1 91581 45978 45977 AND\n2 1 45977 45978 45980 XOR\n2 1 97666 125309 46089 XOR\n2 1 46089 46090 46088 AND\n2 1 46088 125309 125310 XOR\n2 1 95619 125310 46093 XOR\n2 1 101762 125433 46269 XOR\n2 1 99714 125433 46270 XOR\n2 1 46269 46270 46268 AND\n2 1 46268 125433 125434 XOR\n2 1 125465 125434 97667 XOR\n2 1 97667 95619 125341 XOR\n2 1 125341 125310 93571 XOR\n2 1 93571 45980 91582 XOR\n2 1 91582 109734 18434 XOR\n2 1 18433 18434 18432 AND\n2 1 18432 109734 109735 XOR\n2 1 4590 109735 18436 XOR\n2 1 91582 85438 109827 XOR\n2 1 109827 109796 4461 XOR\n2 1 91582 109796 18523 XOR\n2 1 18523 18524 18522 AND\n2 1 18522 109796 109797 XOR\n2 1 85439 109797 18527 XOR\n2 1 4589 91582 109765 XOR\n2 1 109765 109734 4013 XOR\n2 1 4013 124334 44378 XOR\n2 1 44377 44378 44376 AND\n2 1 44376 124334 124335 XOR\n2 1 238 124335 44380 XOR\n2 1 237 4013 124365 XOR\n2 1 124365 124334 95491 XOR\n2 1 91582 45980 45979 AND\n2 1 45979 45980 46029 XOR\n1 1 46029 45983 INV\n2 1 97667 125310 46092 XOR\n2 1 46092 46093 46091 AND\n2 1 46091 125310 125311 XOR\n2 1 95620 125311 46096 XOR\n2 1 101763 125434 46272 XOR\n2 1 99715 125434 46273 XOR\n2 1 46272 46273 46271 AND\n2 1 46271 125434 125435 XOR\n2 1 125466 125435 97668 XOR\n2 1 97668 95620 125342 XOR\n2 1 125342 125311 93572 XOR\n1 1 93572 46045 INV\n2 1 46045 46029 91583 XOR\n2 1 4590 91583 109766 XOR\n2 1 109766 109735 4014 XOR\n2 1 91583 109735 18437 XOR\n2 1 18436 18437 18435 AND\n2 1 18435 109735 109736 XOR\n2 1 4591 109736 18439 XOR\n2 1 91583 85439 109828 XOR\n2 1 109828 109797 4462 XOR\n",
"2 1 91583 109797 18526 XOR\n2 1 18526 18527 18525 AND\n2 1 18525 109797 109798 XOR\n2 1 85440 109798 18530 XOR\n2 1 238 4014 124366 XOR\n2 1 124366 124335 95492 XOR\n2 1 4014 124335 44381 XOR\n2 1 44380 44381 44379 AND\n2 1 44379 124335 124336 XOR\n2 1 239 124336 44383 XOR\n2 1 93572 46029 45982 XOR\n2 1 45982 45983 45981 AND\n2 1 45981 46029 46030 XOR\n1 1 46030 45986 INV\n2 1 97668 125311 46095 XOR\n2 1 46095 46096 46094 AND\n2 1 46094 125311 125312 XOR\n2 1 95621 125312 46099 XOR\n2 1 101764 125435 46275 XOR\n2 1 99716 125435 46276 XOR\n2 1 46275 46276 46274 AND\n2 1 46274 125435 125436 XOR\n2 1 125467 125436 97669 XOR\n2 1 97669 95621 125343 XOR\n2 1 125343 125312 93573 XOR\n1 1 93573 46046 INV\n2 1 46046 46030 91584 XOR\n2 1 4591 91584 109767 XOR\n2 1 109767 109736 4015 XOR\n2 1 91584 109736 18440 XOR\n2 1 18439 18440 18438 AND\n2 1 18438 109736 109737 XOR\n2 1 4592 109737 18442 XOR\n2 1 91584 85440 109829 XOR\n2 1 109829 109798 4463 XOR\n2 1 91584 109798 18529 XOR\n2 1 18529 18530 18528 AND\n2 1 18528 109798 109799 XOR\n2 1 85441 109799 18533 XOR\n2 1 239 4015 124367 XOR\n2 1 124367 124336 95493 XOR\n2 1 4015 124336 44384 XOR\n2 1 44383 44384 44382 AND\n2 1 44382 124336 124337 XOR\n2 1 240 124337 44386 XOR\n2 1 93573 46030 45985 XOR\n2 1 45985 45986 45984 AND\n2 1 45984 46030 45988 XOR\n2 1 97669 125312 46098 XOR\n2 1 46098 46099 46097 AND\n2 1 46097 125312 125313 XOR\n2 1 95622 125313 46102 XOR\n2 1 101765 125436 46278 XOR\n2 1 99717 125436 46279 XOR\n2 1 46278 46279 46277 AND\n2 1 46277 125436 125437 XOR\n2 1 125468 125437 97670 XOR\n2 1 97670 95622 125344 XOR\n2 1 125344 125313 93574 XOR\n2 1 93574 45988 91585 XOR\n2 1 91585 109737 18443 XOR\n2 1 18442 18443 18441 AND\n2 1 18441 109737 109738 XOR\n2 1 4593 109738 18445 XOR\n2 1 91585 85441 109830 XOR\n2 1 109830 109799 4464 XOR\n2 1 91585 109799 18532 XOR\n2 1 18532 18533 18531 AND\n2 1 18531 109799 109800 XOR\n2 1 85442 109800 18536 XOR\n2 1 4592 91585 109768 XOR\n2 1 109768 109737 4016 XOR\n2 1 4016 124337 44387 XOR\n2 1 44386 44387 44385 AND\n2 1 44385 124337 124338 XOR\n2 1 241 124338 44389 XOR\n2 1 240 4016 124368 XOR\n2 1 124368 124337 95494 XOR\n2 1 91585 45988 45987 AND\n2 1 45987 45988 46031 XOR\n1 1 46031 45991 INV\n2 1 97670 125313 46101 XOR\n2 1 46101 46102 46100 AND\n2 1 46100 125313 125314 XOR\n2 1 95623 125314 46105 XOR\n2 1 101766 125437 46281 XOR\n2 1 99718 125437 46282 XOR\n2 1 46281 46282 46280 AND\n2 1 46280 125437 125438 XOR\n2 1 125469 125438 97671 XOR\n2 1 97671 95623 125345 XOR\n2 1 125345 125314 93575 XOR\n1 1 93575 46047 INV\n2 1 46047 46031 91586 XOR\n2 1 4593 91586 109769 XOR\n2 1 109769 109738 4017 XOR\n2 1 91586 109738 18446 XOR\n2 1 18445 18446 18444 AND\n2 1 18444 109738 109739 XOR\n2 1 4594 109739 18448 XOR\n2 1 91586 85442 109831 XOR\n2 1 109831 109800 4465 XOR\n2 1 91586 109800 18535 XOR\n2 1 18535 18536 18534 AND\n2 1 18534 109800 109801 XOR\n2 1 85443 109801 18539 XOR\n2 1 241 4017 124369 XOR\n2 1 124369 124338 95495 XOR\n2 1 4017 124338 44390 XOR\n2 1 44389 44390 44388 AND\n2 1 44388 124338 124339 XOR\n2 1 242 124339 44392 XOR\n2 1 93575 46031 45990 XOR\n2 1 45990 45991 45989 AND\n2 1 45989 46031 46032 XOR\n1 1 46032 45994 INV\n2 1 97671 125314 46104 XOR\n2 1 46104 46105 46103 AND\n2 1 46103 125314 125315 XOR\n2 1 95624 125315 46108 XOR\n2 1 101767 125438 46284 XOR\n2 1 99719 125438 46285 XOR\n2 1 46284 46285 46283 AND\n2 1 46283 125438 125439 XOR\n2 1 125470 125439 97672 XOR\n2 1 97672 95624 125346 XOR\n2 1 125346 125315 93576 XOR\n1 1 93576 46048 INV\n",
"2 1 46048 46032 91587 XOR\n2 1 4594 91587 109770 XOR\n2 1 109770 109739 4018 XOR\n2 1 91587 109739 18449 XOR\n2 1 18448 18449 18447 AND\n2 1 18447 109739 109740 XOR\n2 1 4595 109740 18451 XOR\n2 1 91587 85443 109832 XOR\n2 1 109832 109801 4466 XOR\n2 1 91587 109801 18538 XOR\n2 1 18538 18539 18537 AND\n2 1 18537 109801 109802 XOR\n2 1 85444 109802 18542 XOR\n2 1 242 4018 124370 XOR\n2 1 124370 124339 95496 XOR\n2 1 4018 124339 44393 XOR\n2 1 44392 44393 44391 AND\n2 1 44391 124339 124340 XOR\n2 1 243 124340 44395 XOR\n2 1 93576 46032 45993 XOR\n2 1 45993 45994 45992 AND\n2 1 45992 46032 45996 XOR\n2 1 97672 125315 46107 XOR\n2 1 46107 46108 46106 AND\n2 1 46106 125315 125316 XOR\n2 1 95625 125316 46111 XOR\n2 1 101768 125439 46287 XOR\n2 1 99720 125439 46288 XOR\n2 1 46287 46288 46286 AND\n2 1 46286 125439 125440 XOR\n2 1 125471 125440 97673 XOR\n2 1 97673 95625 125347 XOR\n2 1 125347 125316 93577 XOR\n2 1 93577 45996 91588 XOR\n2 1 91588 109740 18452 XOR\n2 1 18451 18452 18450 AND\n2 1 18450 109740 109741 XOR\n2 1 4596 109741 18454 XOR\n2 1 91588 85444 109833 XOR\n2 1 109833 109802 4467 XOR\n2 1 91588 109802 18541 XOR\n2 1 18541 18542 18540 AND\n2 1 18540 109802 109803 XOR\n2 1 85445 109803 18545 XOR\n2 1 4595 91588 109771 XOR\n2 1 109771 109740 4019 XOR\n2 1 4019 124340 44396 XOR\n2 1 44395 44396 44394 AND\n2 1 44394 124340 124341 XOR\n2 1 244 124341 44398 XOR\n2 1 243 4019 124371 XOR\n2 1 124371 124340 95497 XOR\n2 1 91588 45996 45995 AND\n2 1 45995 45996 46033 XOR\n1 1 46033 45999 INV\n2 1 97673 125316 46110 XOR\n2 1 46110 46111 46109 AND\n2 1 46109 125316 125317 XOR\n2 1 95626 125317 46114 XOR\n2 1 101769 125440 46290 XOR\n2 1 99721 125440 46291 XOR\n2 1 46290 46291 46289 AND\n2 1 46289 125440 125441 XOR\n2 1 125472 125441 97674 XOR\n2 1 97674 95626 125348 XOR\n2 1 125348 125317 93578 XOR\n1 1 93578 46049 INV\n2 1 46049 46033 91589 XOR\n2 1 4596 91589 109772 XOR\n2 1 109772 109741 4020 XOR\n2 1 91589 109741 18455 XOR\n2 1 18454 18455 18453 AND\n2 1 18453 109741 109742 XOR\n2 1 4597 109742 18457 XOR\n2 1 91589 85445 109834 XOR\n2 1 109834 109803 4468 XOR\n2 1 91589 109803 18544 XOR\n2 1 18544 18545 18543 AND\n2 1 18543 109803 109804 XOR\n2 1 85446 109804 18548 XOR\n2 1 244 4020 124372 XOR\n2 1 124372 124341 95498 XOR\n2 1 4020 124341 44399 XOR\n2 1 44398 44399 44397 AND\n2 1 44397 124341 124342 XOR\n2 1 245 124342 44401 XOR\n2 1 93578 46033 45998 XOR\n2 1 45998 45999 45997 AND\n2 1 45997 46033 46001 XOR\n2 1 97674 125317 46113 XOR\n2 1 46113 46114 46112 AND\n2 1 46112 125317 125318 XOR\n2 1 95627 125318 46117 XOR\n2 1 101770 125441 46293 XOR\n2 1 99722 125441 46294 XOR\n2 1 46293 46294 46292 AND\n2 1 46292 125441 125442 XOR\n2 1 125473 125442 97675 XOR\n2 1 97675 95627 125349 XOR\n2 1 125349 125318 93579 XOR\n2 1 93579 46001 91590 XOR\n2 1 91590 109742 18458 XOR\n2 1 18457 18458 18456 AND\n2 1 18456 109742 109743 XOR\n2 1 4598 109743 18460 XOR\n2 1 91590 85446 109835 XOR\n2 1 109835 109804 4469 XOR\n2 1 91590 109804 18547 XOR\n2 1 18547 18548 18546 AND\n2 1 18546 109804 109805 XOR\n2 1 85447 109805 18551 XOR\n2 1 4597 91590 109773 XOR\n2 1 109773 109742 4021 XOR\n2 1 4021 124342 44402 XOR\n2 1 44401 44402 44400 AND\n2 1 44400 124342 124343 XOR\n2 1 246 124343 44404 XOR\n2 1 245 4021 124373 XOR\n2 1 124373 124342 95499 XOR\n2 1 91590 46001 46000 AND\n2 1 46000 46001 46034 XOR\n1 1 46034 46004 INV\n2 1 97675 125318 46116 XOR\n2 1 46116 46117 46115 AND\n2 1 46115 125318 125319 XOR\n2 1 95628 125319 46120 XOR\n2 1 101771 125442 46296 XOR\n2 1 99723 125442 46297 XOR\n",
"2 1 46296 46297 46295 AND\n2 1 46295 125442 125443 XOR\n2 1 125474 125443 97676 XOR\n2 1 97676 95628 125350 XOR\n2 1 125350 125319 93580 XOR\n1 1 93580 46050 INV\n2 1 46050 46034 91591 XOR\n2 1 4598 91591 109774 XOR\n2 1 109774 109743 4022 XOR\n2 1 91591 109743 18461 XOR\n2 1 18460 18461 18459 AND\n2 1 18459 109743 109744 XOR\n2 1 4599 109744 18463 XOR\n2 1 91591 85447 109836 XOR\n2 1 109836 109805 4470 XOR\n2 1 91591 109805 18550 XOR\n2 1 18550 18551 18549 AND\n2 1 18549 109805 109806 XOR\n2 1 85448 109806 18554 XOR\n2 1 246 4022 124374 XOR\n2 1 124374 124343 95500 XOR\n2 1 4022 124343 44405 XOR\n2 1 44404 44405 44403 AND\n2 1 44403 124343 124344 XOR\n2 1 247 124344 44407 XOR\n2 1 93580 46034 46003 XOR\n2 1 46003 46004 46002 AND\n2 1 46002 46034 46006 XOR\n2 1 97676 125319 46119 XOR\n2 1 46119 46120 46118 AND\n2 1 46118 125319 125320 XOR\n2 1 95629 125320 46123 XOR\n2 1 101772 125443 46299 XOR\n2 1 99724 125443 46300 XOR\n2 1 46299 46300 46298 AND\n2 1 46298 125443 125444 XOR\n2 1 125475 125444 97677 XOR\n2 1 97677 95629 125351 XOR\n2 1 125351 125320 93581 XOR\n2 1 93581 46006 91592 XOR\n2 1 91592 109744 18464 XOR\n2 1 18463 18464 18462 AND\n2 1 18462 109744 109745 XOR\n2 1 4600 109745 18466 XOR\n2 1 91592 85448 109837 XOR\n2 1 109837 109806 4471 XOR\n2 1 91592 109806 18553 XOR\n2 1 18553 18554 18552 AND\n2 1 18552 109806 109807 XOR\n2 1 85449 109807 18557 XOR\n2 1 4599 91592 109775 XOR\n2 1 109775 109744 4023 XOR\n2 1 4023 124344 44408 XOR\n2 1 44407 44408 44406 AND\n2 1 44406 124344 124345 XOR\n2 1 248 124345 44410 XOR\n2 1 247 4023 124375 XOR\n2 1 124375 124344 95501 XOR\n2 1 91592 46006 46005 AND\n2 1 46005 46006 46035 XOR\n1 1 46035 46009 INV\n2 1 97677 125320 46122 XOR\n2 1 46122 46123 46121 AND\n2 1 46121 125320 125321 XOR\n2 1 95630 125321 46126 XOR\n2 1 101773 125444 46302 XOR\n2 1 99725 125444 46303 XOR\n2 1 46302 46303 46301 AND\n2 1 46301 125444 125445 XOR\n2 1 125476 125445 97678 XOR\n2 1 97678 95630 125352 XOR\n2 1 125352 125321 93582 XOR\n1 1 93582 46051 INV\n2 1 46051 46035 91593 XOR\n2 1 4600 91593 109776 XOR\n2 1 109776 109745 4024 XOR\n2 1 91593 109745 18467 XOR\n2 1 18466 18467 18465 AND\n2 1 18465 109745 109746 XOR\n2 1 4601 109746 18469 XOR\n2 1 91593 85449 109838 XOR\n2 1 109838 109807 4472 XOR\n2 1 91593 109807 18556 XOR\n2 1 18556 18557 18555 AND\n2 1 18555 109807 109808 XOR\n2 1 85450 109808 18560 XOR\n2 1 248 4024 124376 XOR\n2 1 124376 124345 95502 XOR\n2 1 4024 124345 44411 XOR\n2 1 44410 44411 44409 AND\n2 1 44409 124345 124346 XOR\n2 1 249 124346 44413 XOR\n2 1 93582 46035 46008 XOR\n2 1 46008 46009 46007 AND\n2 1 46007 46035 46011 XOR\n2 1 97678 125321 46125 XOR\n2 1 46125 46126 46124 AND\n2 1 46124 125321 125322 XOR\n2 1 95631 125322 46129 XOR\n2 1 101774 125445 46305 XOR\n2 1 99726 125445 46306 XOR\n2 1 46305 46306 46304 AND\n2 1 46304 125445 125446 XOR\n2 1 125477 125446 97679 XOR\n2 1 97679 95631 125353 XOR\n2 1 125353 125322 93583 XOR\n2 1 93583 46011 91594 XOR\n2 1 91594 109746 18470 XOR\n2 1 18469 18470 18468 AND\n2 1 18468 109746 109747 XOR\n2 1 4602 109747 18472 XOR\n2 1 91594 85450 109839 XOR\n2 1 109839 109808 4473 XOR\n2 1 91594 109808 18559 XOR\n2 1 18559 18560 18558 AND\n2 1 18558 109808 109809 XOR\n2 1 85451 109809 18563 XOR\n2 1 4601 91594 109777 XOR\n2 1 109777 109746 4025 XOR\n2 1 4025 124346 44414 XOR\n2 1 44413 44414 44412 AND\n2 1 44412 124346 124347 XOR\n2 1 250 124347 44416 XOR\n2 1 249 4025 124377 XOR\n2 1 124377 124346 95503 XOR\n2 1 91594 46011 46010 AND\n2 1 46010 46011 46013 XOR\n2 1 97679 125322 46128 XOR\n",
"2 1 46128 46129 46127 AND\n2 1 46127 125322 125323 XOR\n2 1 95632 125323 46132 XOR\n2 1 101775 125446 46308 XOR\n2 1 99727 125446 46309 XOR\n2 1 46308 46309 46307 AND\n2 1 46307 125446 125447 XOR\n2 1 125478 125447 97680 XOR\n2 1 97680 95632 125354 XOR\n2 1 125354 125323 93584 XOR\n2 1 93584 46013 91595 XOR\n2 1 91595 109747 18473 XOR\n2 1 18472 18473 18471 AND\n2 1 18471 109747 109748 XOR\n2 1 4603 109748 18475 XOR\n2 1 91595 85451 109840 XOR\n2 1 109840 109809 4474 XOR\n2 1 91595 109809 18562 XOR\n2 1 18562 18563 18561 AND\n2 1 18561 109809 109810 XOR\n2 1 85452 109810 18566 XOR\n2 1 4602 91595 109778 XOR\n2 1 109778 109747 4026 XOR\n2 1 4026 124347 44417 XOR\n2 1 44416 44417 44415 AND\n2 1 44415 124347 124348 XOR\n2 1 251 124348 44419 XOR\n2 1 250 4026 124378 XOR\n2 1 124378 124347 95504 XOR\n2 1 91595 46013 46012 AND\n2 1 46012 46013 46036 XOR\n1 1 46036 46016 INV\n2 1 97680 125323 46131 XOR\n2 1 46131 46132 46130 AND\n2 1 46130 125323 125324 XOR\n2 1 95633 125324 46135 XOR\n2 1 101776 125447 46311 XOR\n2 1 99728 125447 46312 XOR\n2 1 46311 46312 46310 AND\n2 1 46310 125447 125448 XOR\n2 1 125479 125448 97681 XOR\n2 1 97681 95633 125355 XOR\n2 1 125355 125324 93585 XOR\n1 1 93585 46052 INV\n2 1 46052 46036 91596 XOR\n2 1 4603 91596 109779 XOR\n2 1 109779 109748 4027 XOR\n2 1 91596 109748 18476 XOR\n2 1 18475 18476 18474 AND\n2 1 18474 109748 109749 XOR\n2 1 4604 109749 18478 XOR\n2 1 91596 85452 109841 XOR\n2 1 109841 109810 4475 XOR\n2 1 91596 109810 18565 XOR\n2 1 18565 18566 18564 AND\n2 1 18564 109810 109811 XOR\n2 1 85453 109811 18569 XOR\n2 1 251 4027 124379 XOR\n2 1 124379 124348 95505 XOR\n2 1 4027 124348 44420 XOR\n2 1 44419 44420 44418 AND\n2 1 44418 124348 124349 XOR\n2 1 252 124349 44422 XOR\n2 1 93585 46036 46015 XOR\n2 1 46015 46016 46014 AND\n2 1 46014 46036 46037 XOR\n1 1 46037 46019 INV\n2 1 97681 125324 46134 XOR\n2 1 46134 46135 46133 AND\n2 1 46133 125324 125325 XOR\n2 1 95634 125325 46138 XOR\n2 1 101777 125448 46314 XOR\n2 1 99729 125448 46315 XOR\n2 1 46314 46315 46313 AND\n2 1 46313 125448 125449 XOR\n2 1 125480 125449 97682 XOR\n2 1 97682 95634 125356 XOR\n2 1 125356 125325 93586 XOR\n1 1 93586 46053 INV\n2 1 46053 46037 91597 XOR\n2 1 4604 91597 109780 XOR\n2 1 109780 109749 4028 XOR\n2 1 91597 109749 18479 XOR\n2 1 18478 18479 18477 AND\n2 1 18477 109749 109750 XOR\n2 1 4605 109750 18481 XOR\n2 1 91597 85453 109842 XOR\n2 1 109842 109811 4476 XOR\n2 1 91597 109811 18568 XOR\n2 1 18568 18569 18567 AND\n2 1 18567 109811 109812 XOR\n2 1 85454 109812 18572 XOR\n2 1 252 4028 124380 XOR\n2 1 124380 124349 95506 XOR\n2 1 4028 124349 44423 XOR\n2 1 44422 44423 44421 AND\n2 1 44421 124349 124350 XOR\n2 1 253 124350 44425 XOR\n2 1 93586 46037 46018 XOR\n2 1 46018 46019 46017 AND\n2 1 46017 46037 46038 XOR\n1 1 46038 46022 INV\n2 1 97682 125325 46137 XOR\n2 1 46137 46138 46136 AND\n2 1 46136 125325 125326 XOR\n2 1 95635 125326 46141 XOR\n2 1 101778 125449 46317 XOR\n2 1 99730 125449 46318 XOR\n2 1 46317 46318 46316 AND\n2 1 46316 125449 125450 XOR\n2 1 125481 125450 97683 XOR\n2 1 97683 95635 125357 XOR\n2 1 125357 125326 93587 XOR\n1 1 93587 46054 INV\n2 1 46054 46038 91598 XOR\n2 1 4605 91598 109781 XOR\n2 1 109781 109750 4029 XOR\n2 1 91598 109750 18482 XOR\n2 1 18481 18482 18480 AND\n2 1 18480 109750 109751 XOR\n2 1 4606 109751 18484 XOR\n2 1 91598 85454 109843 XOR\n2 1 109843 109812 4477 XOR\n2 1 91598 109812 18571 XOR\n2 1 18571 18572 18570 AND\n2 1 18570 109812 109813 XOR\n2 1 85455 109813 18575 XOR\n2 1 253 4029 124381 XOR\n",
"2 1 124381 124350 95507 XOR\n2 1 4029 124350 44426 XOR\n2 1 44425 44426 44424 AND\n2 1 44424 124350 124351 XOR\n2 1 254 124351 44428 XOR\n2 1 93587 46038 46021 XOR\n2 1 46021 46022 46020 AND\n2 1 46020 46038 46024 XOR\n2 1 97683 125326 46140 XOR\n2 1 46140 46141 46139 AND\n2 1 46139 125326 125327 XOR\n2 1 95636 125327 46144 XOR\n2 1 101779 125450 46320 XOR\n2 1 99731 125450 46321 XOR\n2 1 46320 46321 46319 AND\n2 1 46319 125450 125451 XOR\n2 1 125482 125451 97684 XOR\n2 1 97684 95636 125358 XOR\n2 1 125358 125327 93588 XOR\n2 1 93588 46024 91599 XOR\n2 1 91599 109751 18485 XOR\n2 1 18484 18485 18483 AND\n2 1 18483 109751 109752 XOR\n2 1 91599 85455 109844 XOR\n2 1 109844 109813 4478 XOR\n2 1 91599 109813 18574 XOR\n2 1 18574 18575 18573 AND\n2 1 18573 109813 109814 XOR\n2 1 4606 91599 109782 XOR\n2 1 109782 109751 4030 XOR\n2 1 4030 124351 44429 XOR\n2 1 44428 44429 44427 AND\n2 1 44427 124351 124352 XOR\n2 1 254 4030 124382 XOR\n2 1 124382 124351 95508 XOR\n2 1 91599 46024 46023 AND\n2 1 46023 46024 46039 XOR\n2 1 97684 125327 46143 XOR\n2 1 46143 46144 46142 AND\n2 1 46142 125327 125328 XOR\n2 1 101780 125451 46323 XOR\n2 1 99732 125451 46324 XOR\n2 1 46323 46324 46322 AND\n2 1 46322 125451 125452 XOR\n2 1 125483 125452 97685 XOR\n2 1 97685 95637 125359 XOR\n2 1 125359 125328 93589 XOR\n2 1 93589 46039 91600 XOR\n2 1 4607 91600 109783 XOR\n2 1 109783 109752 4031 XOR\n2 1 91600 85456 109845 XOR\n2 1 109845 109814 4479 XOR\n2 1 255 4031 124383 XOR\n2 1 124383 124352 95509 XOR\n2 1 4479 4543 74414 XOR\n2 1 4478 4542 74413 XOR\n2 1 4477 4541 74412 XOR\n2 1 4476 4540 74411 XOR\n2 1 4475 4539 74410 XOR\n2 1 4474 4538 74409 XOR\n2 1 4473 4537 74408 XOR\n2 1 4472 4536 74407 XOR\n2 1 4471 4535 74406 XOR\n2 1 4470 4534 74405 XOR\n2 1 4469 4533 74404 XOR\n2 1 4468 4532 74403 XOR\n2 1 4467 4531 74402 XOR\n2 1 4466 4530 74401 XOR\n2 1 4465 4529 74400 XOR\n2 1 4464 4528 74399 XOR\n2 1 4463 4527 74398 XOR\n2 1 4462 4526 74397 XOR\n2 1 4461 4525 74396 XOR\n2 1 4460 4524 74395 XOR\n2 1 4459 4523 74394 XOR\n2 1 4458 4522 74393 XOR\n2 1 4457 4521 74392 XOR\n2 1 4456 4520 74391 XOR\n2 1 4455 4519 74390 XOR\n2 1 4454 4518 74389 XOR\n2 1 4453 4517 74388 XOR\n2 1 4452 4516 74387 XOR\n2 1 4451 4515 74386 XOR\n2 1 4450 4514 74385 XOR\n2 1 4449 4513 74384 XOR\n2 1 4448 4512 74383 XOR\n2 1 74414 74382 74350 AND\n2 1 74413 74381 74349 AND\n2 1 74412 74380 74348 AND\n2 1 74411 74379 74347 AND\n2 1 74410 74378 74346 AND\n2 1 74409 74377 74345 AND\n2 1 74408 74376 74344 AND\n2 1 74407 74375 74343 AND\n2 1 74406 74374 74342 AND\n2 1 74405 74373 74341 AND\n2 1 74404 74372 74340 AND\n2 1 74403 74371 74339 AND\n2 1 74402 74370 74338 AND\n2 1 74401 74369 74337 AND\n2 1 74400 74368 74336 AND\n2 1 74399 74367 74335 AND\n2 1 74398 74366 74334 AND\n2 1 74397 74365 74333 AND\n2 1 74396 74364 74332 AND\n2 1 74395 74363 74331 AND\n2 1 74394 74362 74330 AND\n2 1 74393 74361 74329 AND\n2 1 74392 74360 74328 AND\n2 1 74391 74359 74327 AND\n2 1 74390 74358 74326 AND\n2 1 74389 74357 74325 AND\n2 1 74388 74356 74324 AND\n2 1 74387 74355 74323 AND\n2 1 74386 74354 74322 AND\n2 1 74385 74353 74321 AND\n2 1 74384 74352 74320 AND\n2 1 74383 74351 74319 AND\n2 1 74350 4543 87472 XOR\n2 1 74349 4542 87471 XOR\n2 1 74348 4541 87470 XOR\n2 1 74347 4540 87469 XOR\n2 1 74346 4539 87468 XOR\n2 1 74345 4538 87467 XOR\n2 1 74344 4537 87466 XOR\n2 1 74343 4536 87465 XOR\n2 1 74342 4535 87464 XOR\n2 1 74341 4534 87463 XOR\n",
"2 1 74340 4533 87462 XOR\n2 1 74339 4532 87461 XOR\n2 1 74338 4531 87460 XOR\n2 1 74337 4530 87459 XOR\n2 1 74336 4529 87458 XOR\n2 1 74335 4528 87457 XOR\n2 1 74334 4527 87456 XOR\n2 1 74333 4526 87455 XOR\n2 1 74332 4525 87454 XOR\n2 1 74331 4524 87453 XOR\n2 1 74330 4523 87452 XOR\n2 1 74329 4522 87451 XOR\n2 1 74328 4521 87450 XOR\n2 1 74327 4520 87449 XOR\n2 1 74326 4519 87448 XOR\n2 1 74325 4518 87447 XOR\n2 1 74324 4517 87446 XOR\n2 1 74323 4516 87445 XOR\n2 1 74322 4515 87444 XOR\n2 1 74321 4514 87443 XOR\n2 1 74320 4513 87442 XOR\n2 1 74319 4512 87441 XOR\n2 1 4479 4511 74286 XOR\n2 1 4478 4510 74285 XOR\n2 1 4477 4509 74284 XOR\n2 1 4476 4508 74283 XOR\n2 1 4475 4507 74282 XOR\n2 1 4474 4506 74281 XOR\n2 1 4473 4505 74280 XOR\n2 1 4472 4504 74279 XOR\n2 1 4471 4503 74278 XOR\n2 1 4470 4502 74277 XOR\n2 1 4469 4501 74276 XOR\n2 1 4468 4500 74275 XOR\n2 1 4467 4499 74274 XOR\n2 1 4466 4498 74273 XOR\n2 1 4465 4497 74272 XOR\n2 1 4464 4496 74271 XOR\n2 1 4463 4495 74270 XOR\n2 1 4462 4494 74269 XOR\n2 1 4461 4493 74268 XOR\n2 1 4460 4492 74267 XOR\n2 1 4459 4491 74266 XOR\n2 1 4458 4490 74265 XOR\n2 1 4457 4489 74264 XOR\n2 1 4456 4488 74263 XOR\n2 1 4455 4487 74262 XOR\n2 1 4454 4486 74261 XOR\n2 1 4453 4485 74260 XOR\n2 1 4452 4484 74259 XOR\n2 1 4451 4483 74258 XOR\n2 1 4450 4482 74257 XOR\n2 1 4449 4481 74256 XOR\n2 1 4448 4480 74255 XOR\n2 1 4449 4460 68622 XOR\n2 1 4448 4459 68621 XOR\n2 1 4479 4458 68620 XOR\n2 1 4478 4457 68619 XOR\n2 1 4477 4456 68618 XOR\n2 1 4476 4455 68617 XOR\n2 1 4475 4454 68616 XOR\n2 1 4474 4453 68615 XOR\n2 1 4473 4452 68614 XOR\n2 1 4472 4451 68613 XOR\n2 1 4471 4450 68612 XOR\n2 1 4470 4449 68611 XOR\n2 1 4469 4448 68610 XOR\n2 1 4468 4479 68609 XOR\n2 1 4467 4478 68608 XOR\n2 1 4466 4477 68607 XOR\n2 1 4465 4476 68606 XOR\n2 1 4464 4475 68605 XOR\n2 1 4463 4474 68604 XOR\n2 1 4462 4473 68603 XOR\n2 1 4461 4472 68602 XOR\n2 1 4460 4471 68601 XOR\n2 1 4459 4470 68600 XOR\n2 1 4458 4469 68599 XOR\n2 1 4457 4468 68598 XOR\n2 1 4456 4467 68597 XOR\n2 1 4455 4466 68596 XOR\n2 1 4454 4465 68595 XOR\n2 1 4453 4464 68594 XOR\n2 1 4452 4463 68593 XOR\n2 1 4451 4462 68592 XOR\n2 1 4450 4461 68591 XOR\n2 1 68622 4469 89520 XOR\n2 1 89520 87472 125033 XOR\n2 1 68621 4468 89519 XOR\n2 1 89519 87471 125032 XOR\n2 1 68620 4467 89518 XOR\n2 1 89518 87470 125031 XOR\n2 1 68619 4466 89517 XOR\n2 1 89517 87469 125030 XOR\n2 1 68618 4465 89516 XOR\n2 1 89516 87468 125029 XOR\n2 1 68617 4464 89515 XOR\n2 1 89515 87467 125028 XOR\n2 1 68616 4463 89514 XOR\n2 1 89514 87466 125027 XOR\n2 1 68615 4462 89513 XOR\n2 1 89513 87465 125026 XOR\n2 1 68614 4461 89512 XOR\n2 1 89512 87464 125025 XOR\n2 1 68613 4460 89511 XOR\n2 1 89511 87463 125024 XOR\n2 1 68612 4459 89510 XOR\n2 1 89510 87462 125023 XOR\n2 1 68611 4458 89509 XOR\n2 1 89509 87461 125022 XOR\n2 1 68610 4457 89508 XOR\n2 1 89508 87460 125021 XOR\n2 1 68609 4456 89507 XOR\n2 1 89507 87459 125020 XOR\n2 1 68608 4455 89506 XOR\n2 1 89506 87458 125019 XOR\n2 1 68607 4454 89505 XOR\n2 1 89505 87457 125018 XOR\n2 1 68606 4453 89504 XOR\n2 1 89504 87456 125017 XOR\n2 1 68605 4452 89503 XOR\n2 1 89503 87455 125016 XOR\n2 1 68604 4451 89502 XOR\n2 1 89502 87454 125015 XOR\n2 1 68603 4450 89501 XOR\n2 1 89501 87453 125014 XOR\n2 1 68602 4449 89500 XOR\n2 1 89500 87452 125013 XOR\n",
"2 1 68601 4448 89499 XOR\n2 1 89499 87451 125012 XOR\n2 1 68600 4479 89498 XOR\n2 1 89498 87450 125011 XOR\n2 1 68599 4478 89497 XOR\n2 1 89497 87449 125010 XOR\n2 1 68598 4477 89496 XOR\n2 1 89496 87448 125009 XOR\n2 1 68597 4476 89495 XOR\n2 1 89495 87447 125008 XOR\n2 1 68596 4475 89494 XOR\n2 1 89494 87446 125007 XOR\n2 1 68595 4474 89493 XOR\n2 1 89493 87445 125006 XOR\n2 1 68594 4473 89492 XOR\n2 1 89492 87444 125005 XOR\n2 1 68593 4472 89491 XOR\n2 1 89491 87443 125004 XOR\n2 1 68592 4471 89490 XOR\n2 1 89490 87442 125003 XOR\n2 1 68591 4470 89489 XOR\n2 1 89489 87441 124972 AND\n2 1 89489 87441 85393 XOR\n2 1 125003 124972 85394 XOR\n2 1 89490 124972 45413 XOR\n2 1 87442 124972 45414 XOR\n2 1 45413 45414 45412 AND\n2 1 45412 124972 124973 XOR\n2 1 125004 124973 85395 XOR\n2 1 89491 124973 45416 XOR\n2 1 87443 124973 45417 XOR\n2 1 45416 45417 45415 AND\n2 1 45415 124973 124974 XOR\n2 1 125005 124974 85396 XOR\n2 1 89492 124974 45419 XOR\n2 1 87444 124974 45420 XOR\n2 1 45419 45420 45418 AND\n2 1 45418 124974 124975 XOR\n2 1 125006 124975 85397 XOR\n2 1 89493 124975 45422 XOR\n2 1 87445 124975 45423 XOR\n2 1 45422 45423 45421 AND\n2 1 45421 124975 124976 XOR\n2 1 125007 124976 85398 XOR\n2 1 89494 124976 45425 XOR\n2 1 87446 124976 45426 XOR\n2 1 45425 45426 45424 AND\n2 1 45424 124976 124977 XOR\n2 1 125008 124977 85399 XOR\n2 1 89495 124977 45428 XOR\n2 1 87447 124977 45429 XOR\n2 1 45428 45429 45427 AND\n2 1 45427 124977 124978 XOR\n2 1 125009 124978 85400 XOR\n2 1 89496 124978 45431 XOR\n2 1 87448 124978 45432 XOR\n2 1 45431 45432 45430 AND\n2 1 45430 124978 124979 XOR\n2 1 125010 124979 85401 XOR\n2 1 89497 124979 45434 XOR\n2 1 87449 124979 45435 XOR\n2 1 45434 45435 45433 AND\n2 1 45433 124979 124980 XOR\n2 1 125011 124980 85402 XOR\n2 1 89498 124980 45437 XOR\n2 1 87450 124980 45438 XOR\n2 1 45437 45438 45436 AND\n2 1 45436 124980 124981 XOR\n2 1 125012 124981 85403 XOR\n2 1 89499 124981 45440 XOR\n2 1 87451 124981 45441 XOR\n2 1 45440 45441 45439 AND\n2 1 45439 124981 124982 XOR\n2 1 125013 124982 85404 XOR\n2 1 89500 124982 45443 XOR\n2 1 87452 124982 45444 XOR\n2 1 45443 45444 45442 AND\n2 1 45442 124982 124983 XOR\n2 1 125014 124983 85405 XOR\n2 1 89501 124983 45446 XOR\n2 1 87453 124983 45447 XOR\n2 1 45446 45447 45445 AND\n2 1 45445 124983 124984 XOR\n2 1 125015 124984 85406 XOR\n2 1 89502 124984 45449 XOR\n2 1 87454 124984 45450 XOR\n2 1 45449 45450 45448 AND\n2 1 45448 124984 124985 XOR\n2 1 125016 124985 85407 XOR\n2 1 89503 124985 45452 XOR\n2 1 87455 124985 45453 XOR\n2 1 45452 45453 45451 AND\n2 1 45451 124985 124986 XOR\n2 1 125017 124986 85408 XOR\n2 1 89504 124986 45455 XOR\n2 1 87456 124986 45456 XOR\n2 1 45455 45456 45454 AND\n2 1 45454 124986 124987 XOR\n2 1 125018 124987 85409 XOR\n2 1 89505 124987 45458 XOR\n2 1 87457 124987 45459 XOR\n2 1 45458 45459 45457 AND\n2 1 45457 124987 124988 XOR\n2 1 125019 124988 85410 XOR\n2 1 89506 124988 45461 XOR\n2 1 87458 124988 45462 XOR\n2 1 45461 45462 45460 AND\n2 1 45460 124988 124989 XOR\n2 1 125020 124989 85411 XOR\n2 1 89507 124989 45464 XOR\n2 1 87459 124989 45465 XOR\n2 1 45464 45465 45463 AND\n2 1 45463 124989 124990 XOR\n2 1 125021 124990 85412 XOR\n2 1 89508 124990 45467 XOR\n2 1 87460 124990 45468 XOR\n2 1 45467 45468 45466 AND\n2 1 45466 124990 124991 XOR\n2 1 125022 124991 85413 XOR\n2 1 89509 124991 45470 XOR\n2 1 87461 124991 45471 XOR\n2 1 45470 45471 45469 AND\n2 1 45469 124991 124992 XOR\n2 1 125023 124992 85414 XOR\n2 1 89510 124992 45473 XOR\n2 1 87462 124992 45474 XOR\n2 1 45473 45474 45472 AND\n2 1 45472 124992 124993 XOR\n",
"2 1 125024 124993 85415 XOR\n2 1 89511 124993 45476 XOR\n2 1 87463 124993 45477 XOR\n2 1 45476 45477 45475 AND\n2 1 45475 124993 124994 XOR\n2 1 125025 124994 85416 XOR\n2 1 89512 124994 45479 XOR\n2 1 87464 124994 45480 XOR\n2 1 45479 45480 45478 AND\n2 1 45478 124994 124995 XOR\n2 1 125026 124995 85417 XOR\n2 1 89513 124995 45482 XOR\n2 1 87465 124995 45483 XOR\n2 1 45482 45483 45481 AND\n2 1 45481 124995 124996 XOR\n2 1 125027 124996 85418 XOR\n2 1 89514 124996 45485 XOR\n2 1 87466 124996 45486 XOR\n2 1 45485 45486 45484 AND\n2 1 45484 124996 124997 XOR\n2 1 125028 124997 85419 XOR\n2 1 89515 124997 45488 XOR\n2 1 87467 124997 45489 XOR\n2 1 45488 45489 45487 AND\n2 1 45487 124997 124998 XOR\n2 1 125029 124998 85420 XOR\n2 1 89516 124998 45491 XOR\n2 1 87468 124998 45492 XOR\n2 1 45491 45492 45490 AND\n2 1 45490 124998 124999 XOR\n2 1 125030 124999 85421 XOR\n2 1 89517 124999 45494 XOR\n2 1 87469 124999 45495 XOR\n2 1 45494 45495 45493 AND\n2 1 45493 124999 125000 XOR\n2 1 125031 125000 85422 XOR\n2 1 89518 125000 45497 XOR\n2 1 87470 125000 45498 XOR\n2 1 45497 45498 45496 AND\n2 1 45496 125000 125001 XOR\n2 1 125032 125001 85423 XOR\n2 1 89519 125001 45500 XOR\n2 1 87471 125001 45501 XOR\n2 1 45500 45501 45499 AND\n2 1 45499 125001 125002 XOR\n2 1 125033 125002 85424 XOR\n2 1 66606 4031 66574 AND\n2 1 66605 4030 66573 AND\n2 1 66604 4029 66572 AND\n2 1 66603 4028 66571 AND\n2 1 66602 4027 66570 AND\n2 1 66601 4026 66569 AND\n2 1 66600 4025 66568 AND\n2 1 66599 4024 66567 AND\n2 1 66598 4023 66566 AND\n2 1 66597 4022 66565 AND\n2 1 66596 4021 66564 AND\n2 1 66595 4020 66563 AND\n2 1 66594 4019 66562 AND\n2 1 66593 4018 66561 AND\n2 1 66592 4017 66560 AND\n2 1 66591 4016 66559 AND\n2 1 66590 4015 66558 AND\n2 1 66589 4014 66557 AND\n2 1 66588 4013 66556 AND\n2 1 66587 4012 66555 AND\n2 1 66586 4011 66554 AND\n2 1 66585 4010 66553 AND\n2 1 66584 4009 66552 AND\n2 1 66583 4008 66551 AND\n2 1 66582 4007 66550 AND\n2 1 66581 4006 66549 AND\n2 1 66580 4005 66548 AND\n2 1 66579 4004 66547 AND\n2 1 66578 4003 66546 AND\n2 1 66577 4002 66545 AND\n2 1 66576 4001 66544 AND\n2 1 66575 4000 66543 AND\n2 1 66574 4095 99701 XOR\n2 1 66573 4094 99700 XOR\n2 1 66572 4093 99699 XOR\n2 1 66571 4092 99698 XOR\n2 1 66570 4091 99697 XOR\n2 1 66569 4090 99696 XOR\n2 1 66568 4089 99695 XOR\n2 1 66567 4088 99694 XOR\n2 1 66566 4087 99693 XOR\n2 1 66565 4086 99692 XOR\n2 1 66564 4085 99691 XOR\n2 1 66563 4084 99690 XOR\n2 1 66562 4083 99689 XOR\n2 1 66561 4082 99688 XOR\n2 1 66560 4081 99687 XOR\n2 1 66559 4080 99686 XOR\n2 1 66558 4079 99685 XOR\n2 1 66557 4078 99684 XOR\n2 1 66556 4077 99683 XOR\n2 1 66555 4076 99682 XOR\n2 1 66554 4075 99681 XOR\n2 1 66553 4074 99680 XOR\n2 1 66552 4073 99679 XOR\n2 1 66551 4072 99678 XOR\n2 1 66550 4071 99677 XOR\n2 1 66549 4070 99676 XOR\n2 1 66548 4069 99675 XOR\n2 1 66547 4068 99674 XOR\n2 1 66546 4067 99673 XOR\n2 1 66545 4066 99672 XOR\n2 1 66544 4065 99671 XOR\n2 1 66543 4064 99670 XOR\n2 1 4031 4063 66542 XOR\n2 1 4030 4062 66541 XOR\n2 1 4029 4061 66540 XOR\n2 1 4028 4060 66539 XOR\n2 1 4027 4059 66538 XOR\n2 1 4026 4058 66537 XOR\n2 1 4025 4057 66536 XOR\n2 1 4024 4056 66535 XOR\n2 1 4023 4055 66534 XOR\n2 1 4022 4054 66533 XOR\n2 1 4021 4053 66532 XOR\n2 1 4020 4052 66531 XOR\n2 1 4019 4051 66530 XOR\n2 1 4018 4050 66529 XOR\n2 1 4017 4049 66528 XOR\n2 1 4016 4048 66527 XOR\n2 1 4015 4047 66526 XOR\n2 1 4014 4046 66525 XOR\n",
"2 1 4013 4045 66524 XOR\n2 1 4012 4044 66523 XOR\n2 1 4011 4043 66522 XOR\n2 1 4010 4042 66521 XOR\n2 1 4009 4041 66520 XOR\n2 1 4008 4040 66519 XOR\n2 1 4007 4039 66518 XOR\n2 1 4006 4038 66517 XOR\n2 1 4005 4037 66516 XOR\n2 1 4004 4036 66515 XOR\n2 1 4003 4035 66514 XOR\n2 1 4002 4034 66513 XOR\n2 1 4001 4033 66512 XOR\n2 1 4000 4032 66511 XOR\n2 1 4005 4010 62702 XOR\n2 1 4004 4009 62701 XOR\n2 1 4003 4008 62700 XOR\n2 1 4002 4007 62699 XOR\n2 1 4001 4006 62698 XOR\n2 1 4000 4005 62697 XOR\n2 1 4031 4004 62696 XOR\n2 1 4030 4003 62695 XOR\n2 1 4029 4002 62694 XOR\n2 1 4028 4001 62693 XOR\n2 1 4027 4000 62692 XOR\n2 1 4026 4031 62691 XOR\n2 1 4025 4030 62690 XOR\n2 1 4024 4029 62689 XOR\n2 1 4023 4028 62688 XOR\n2 1 4022 4027 62687 XOR\n2 1 4021 4026 62686 XOR\n2 1 4020 4025 62685 XOR\n2 1 4019 4024 62684 XOR\n2 1 4018 4023 62683 XOR\n2 1 4017 4022 62682 XOR\n2 1 4016 4021 62681 XOR\n2 1 4015 4020 62680 XOR\n2 1 4014 4019 62679 XOR\n2 1 4013 4018 62678 XOR\n2 1 4012 4017 62677 XOR\n2 1 4011 4016 62676 XOR\n2 1 4010 4015 62675 XOR\n2 1 4009 4014 62674 XOR\n2 1 4008 4013 62673 XOR\n2 1 4007 4012 62672 XOR\n2 1 4006 4011 62671 XOR\n2 1 62702 4024 101749 XOR\n2 1 101749 99701 125235 XOR\n2 1 62701 4023 101748 XOR\n2 1 101748 99700 125234 XOR\n2 1 62700 4022 101747 XOR\n2 1 101747 99699 125233 XOR\n2 1 62699 4021 101746 XOR\n2 1 101746 99698 125232 XOR\n2 1 62698 4020 101745 XOR\n2 1 101745 99697 125231 XOR\n2 1 62697 4019 101744 XOR\n2 1 101744 99696 125230 XOR\n2 1 62696 4018 101743 XOR\n2 1 101743 99695 125229 XOR\n2 1 62695 4017 101742 XOR\n2 1 101742 99694 125228 XOR\n2 1 62694 4016 101741 XOR\n2 1 101741 99693 125227 XOR\n2 1 62693 4015 101740 XOR\n2 1 101740 99692 125226 XOR\n2 1 62692 4014 101739 XOR\n2 1 101739 99691 125225 XOR\n2 1 62691 4013 101738 XOR\n2 1 101738 99690 125224 XOR\n2 1 62690 4012 101737 XOR\n2 1 101737 99689 125223 XOR\n2 1 62689 4011 101736 XOR\n2 1 101736 99688 125222 XOR\n2 1 62688 4010 101735 XOR\n2 1 101735 99687 125221 XOR\n2 1 62687 4009 101734 XOR\n2 1 101734 99686 125220 XOR\n2 1 62686 4008 101733 XOR\n2 1 101733 99685 125219 XOR\n2 1 62685 4007 101732 XOR\n2 1 101732 99684 125218 XOR\n2 1 62684 4006 101731 XOR\n2 1 101731 99683 125217 XOR\n2 1 62683 4005 101730 XOR\n2 1 101730 99682 125216 XOR\n2 1 62682 4004 101729 XOR\n2 1 101729 99681 125215 XOR\n2 1 62681 4003 101728 XOR\n2 1 101728 99680 125214 XOR\n2 1 62680 4002 101727 XOR\n2 1 101727 99679 125213 XOR\n2 1 62679 4001 101726 XOR\n2 1 101726 99678 125212 XOR\n2 1 62678 4000 101725 XOR\n2 1 101725 99677 125211 XOR\n2 1 62677 4031 101724 XOR\n2 1 101724 99676 125210 XOR\n2 1 62676 4030 101723 XOR\n2 1 101723 99675 125209 XOR\n2 1 62675 4029 101722 XOR\n2 1 101722 99674 125208 XOR\n2 1 62674 4028 101721 XOR\n2 1 101721 99673 125207 XOR\n2 1 62673 4027 101720 XOR\n2 1 101720 99672 125206 XOR\n2 1 62672 4026 101719 XOR\n2 1 101719 99671 125205 XOR\n2 1 62671 4025 101718 XOR\n2 1 101718 99670 125174 AND\n2 1 101718 99670 97622 XOR\n2 1 97622 95574 125050 AND\n2 1 97622 95574 93526 XOR\n1 1 93526 91537 INV\n2 1 4544 91537 109598 AND\n2 1 4544 91537 3968 XOR\n2 1 4545 109598 18217 XOR\n2 1 91537 85393 109660 AND\n2 1 91537 85393 4416 XOR\n2 1 85394 109660 18308 XOR\n2 1 192 3968 124074 AND\n2 1 192 3968 95446 XOR\n2 1 193 124074 43891 XOR\n2 1 95575 125050 45593 XOR\n2 1 125205 125174 97623 XOR\n2 1 97623 95575 125081 XOR\n2 1 125081 125050 93527 XOR\n2 1 93527 93526 91538 XOR\n",
"2 1 91538 109598 18218 XOR\n2 1 18217 18218 18216 AND\n2 1 18216 109598 109599 XOR\n2 1 4546 109599 18220 XOR\n2 1 91538 85394 109691 XOR\n2 1 109691 109660 4417 XOR\n2 1 91538 109660 18307 XOR\n2 1 18307 18308 18306 AND\n2 1 18306 109660 109661 XOR\n2 1 85395 109661 18311 XOR\n2 1 4545 91538 109629 XOR\n2 1 109629 109598 3969 XOR\n2 1 3969 124074 43892 XOR\n2 1 43891 43892 43890 AND\n2 1 43890 124074 124075 XOR\n2 1 194 124075 43894 XOR\n2 1 193 3969 124105 XOR\n2 1 124105 124074 95447 XOR\n2 1 91538 93526 45502 AND\n2 1 45502 93526 45504 XOR\n2 1 97623 125050 45592 XOR\n2 1 45592 45593 45591 AND\n2 1 45591 125050 125051 XOR\n2 1 95576 125051 45596 XOR\n2 1 101719 125174 45772 XOR\n2 1 99671 125174 45773 XOR\n2 1 45772 45773 45771 AND\n2 1 45771 125174 125175 XOR\n2 1 125206 125175 97624 XOR\n2 1 97624 95576 125082 XOR\n2 1 125082 125051 93528 XOR\n2 1 93528 45504 91539 XOR\n2 1 91539 109599 18221 XOR\n2 1 18220 18221 18219 AND\n2 1 18219 109599 109600 XOR\n2 1 4547 109600 18223 XOR\n2 1 91539 85395 109692 XOR\n2 1 109692 109661 4418 XOR\n2 1 91539 109661 18310 XOR\n2 1 18310 18311 18309 AND\n2 1 18309 109661 109662 XOR\n2 1 85396 109662 18314 XOR\n2 1 4546 91539 109630 XOR\n2 1 109630 109599 3970 XOR\n2 1 3970 124075 43895 XOR\n2 1 43894 43895 43893 AND\n2 1 43893 124075 124076 XOR\n2 1 195 124076 43897 XOR\n2 1 194 3970 124106 XOR\n2 1 124106 124075 95448 XOR\n2 1 91539 45504 45503 AND\n2 1 45503 45504 45506 XOR\n2 1 97624 125051 45595 XOR\n2 1 45595 45596 45594 AND\n2 1 45594 125051 125052 XOR\n2 1 95577 125052 45599 XOR\n2 1 101720 125175 45775 XOR\n2 1 99672 125175 45776 XOR\n2 1 45775 45776 45774 AND\n2 1 45774 125175 125176 XOR\n2 1 125207 125176 97625 XOR\n2 1 97625 95577 125083 XOR\n2 1 125083 125052 93529 XOR\n2 1 93529 45506 91540 XOR\n2 1 91540 109600 18224 XOR\n2 1 18223 18224 18222 AND\n2 1 18222 109600 109601 XOR\n2 1 4548 109601 18226 XOR\n2 1 91540 85396 109693 XOR\n2 1 109693 109662 4419 XOR\n2 1 91540 109662 18313 XOR\n2 1 18313 18314 18312 AND\n2 1 18312 109662 109663 XOR\n2 1 85397 109663 18317 XOR\n2 1 4547 91540 109631 XOR\n2 1 109631 109600 3971 XOR\n2 1 3971 124076 43898 XOR\n2 1 43897 43898 43896 AND\n2 1 43896 124076 124077 XOR\n2 1 196 124077 43900 XOR\n2 1 195 3971 124107 XOR\n2 1 124107 124076 95449 XOR\n2 1 91540 45506 45505 AND\n2 1 45505 45506 125034 XOR\n1 1 125034 45509 INV\n2 1 97625 125052 45598 XOR\n2 1 45598 45599 45597 AND\n2 1 45597 125052 125053 XOR\n2 1 95578 125053 45602 XOR\n2 1 101721 125176 45778 XOR\n2 1 99673 125176 45779 XOR\n2 1 45778 45779 45777 AND\n2 1 45777 125176 125177 XOR\n2 1 125208 125177 97626 XOR\n2 1 97626 95578 125084 XOR\n2 1 125084 125053 93530 XOR\n1 1 93530 45576 INV\n2 1 45576 125034 91541 XOR\n2 1 4548 91541 109632 XOR\n2 1 109632 109601 3972 XOR\n2 1 91541 109601 18227 XOR\n2 1 18226 18227 18225 AND\n2 1 18225 109601 109602 XOR\n2 1 4549 109602 18229 XOR\n2 1 91541 85397 109694 XOR\n2 1 109694 109663 4420 XOR\n2 1 91541 109663 18316 XOR\n2 1 18316 18317 18315 AND\n2 1 18315 109663 109664 XOR\n2 1 85398 109664 18320 XOR\n2 1 196 3972 124108 XOR\n2 1 124108 124077 95450 XOR\n2 1 3972 124077 43901 XOR\n2 1 43900 43901 43899 AND\n2 1 43899 124077 124078 XOR\n2 1 197 124078 43903 XOR\n2 1 93530 125034 45508 XOR\n2 1 45508 45509 45507 AND\n2 1 45507 125034 125035 XOR\n1 1 125035 45512 INV\n2 1 97626 125053 45601 XOR\n2 1 45601 45602 45600 AND\n2 1 45600 125053 125054 XOR\n2 1 95579 125054 45605 XOR\n2 1 101722 125177 45781 XOR\n2 1 99674 125177 45782 XOR\n2 1 45781 45782 45780 AND\n2 1 45780 125177 125178 XOR\n",
"2 1 125209 125178 97627 XOR\n2 1 97627 95579 125085 XOR\n2 1 125085 125054 93531 XOR\n1 1 93531 45577 INV\n2 1 45577 125035 91542 XOR\n2 1 4549 91542 109633 XOR\n2 1 109633 109602 3973 XOR\n2 1 91542 109602 18230 XOR\n2 1 18229 18230 18228 AND\n2 1 18228 109602 109603 XOR\n2 1 4550 109603 18232 XOR\n2 1 91542 85398 109695 XOR\n2 1 109695 109664 4421 XOR\n2 1 91542 109664 18319 XOR\n2 1 18319 18320 18318 AND\n2 1 18318 109664 109665 XOR\n2 1 85399 109665 18323 XOR\n2 1 197 3973 124109 XOR\n2 1 124109 124078 95451 XOR\n2 1 3973 124078 43904 XOR\n2 1 43903 43904 43902 AND\n2 1 43902 124078 124079 XOR\n2 1 198 124079 43906 XOR\n2 1 93531 125035 45511 XOR\n2 1 45511 45512 45510 AND\n2 1 45510 125035 125036 XOR\n1 1 125036 45515 INV\n2 1 97627 125054 45604 XOR\n2 1 45604 45605 45603 AND\n2 1 45603 125054 125055 XOR\n2 1 95580 125055 45608 XOR\n2 1 101723 125178 45784 XOR\n2 1 99675 125178 45785 XOR\n2 1 45784 45785 45783 AND\n2 1 45783 125178 125179 XOR\n2 1 125210 125179 97628 XOR\n2 1 97628 95580 125086 XOR\n2 1 125086 125055 93532 XOR\n1 1 93532 45578 INV\n2 1 45578 125036 91543 XOR\n2 1 4550 91543 109634 XOR\n2 1 109634 109603 3974 XOR\n2 1 91543 109603 18233 XOR\n2 1 18232 18233 18231 AND\n2 1 18231 109603 109604 XOR\n2 1 4551 109604 18235 XOR\n2 1 91543 85399 109696 XOR\n2 1 109696 109665 4422 XOR\n2 1 91543 109665 18322 XOR\n2 1 18322 18323 18321 AND\n2 1 18321 109665 109666 XOR\n2 1 85400 109666 18326 XOR\n2 1 198 3974 124110 XOR\n2 1 124110 124079 95452 XOR\n2 1 3974 124079 43907 XOR\n2 1 43906 43907 43905 AND\n2 1 43905 124079 124080 XOR\n2 1 199 124080 43909 XOR\n2 1 93532 125036 45514 XOR\n2 1 45514 45515 45513 AND\n2 1 45513 125036 125037 XOR\n1 1 125037 45518 INV\n2 1 97628 125055 45607 XOR\n2 1 45607 45608 45606 AND\n2 1 45606 125055 125056 XOR\n2 1 95581 125056 45611 XOR\n2 1 101724 125179 45787 XOR\n2 1 99676 125179 45788 XOR\n2 1 45787 45788 45786 AND\n2 1 45786 125179 125180 XOR\n2 1 125211 125180 97629 XOR\n2 1 97629 95581 125087 XOR\n2 1 125087 125056 93533 XOR\n1 1 93533 45579 INV\n2 1 45579 125037 91544 XOR\n2 1 4551 91544 109635 XOR\n2 1 109635 109604 3975 XOR\n2 1 91544 109604 18236 XOR\n2 1 18235 18236 18234 AND\n2 1 18234 109604 109605 XOR\n2 1 4552 109605 18238 XOR\n2 1 91544 85400 109697 XOR\n2 1 109697 109666 4423 XOR\n2 1 91544 109666 18325 XOR\n2 1 18325 18326 18324 AND\n2 1 18324 109666 109667 XOR\n2 1 85401 109667 18329 XOR\n2 1 199 3975 124111 XOR\n2 1 124111 124080 95453 XOR\n2 1 3975 124080 43910 XOR\n2 1 43909 43910 43908 AND\n2 1 43908 124080 124081 XOR\n2 1 200 124081 43912 XOR\n2 1 93533 125037 45517 XOR\n2 1 45517 45518 45516 AND\n2 1 45516 125037 125038 XOR\n1 1 125038 45521 INV\n2 1 97629 125056 45610 XOR\n2 1 45610 45611 45609 AND\n2 1 45609 125056 125057 XOR\n2 1 95582 125057 45614 XOR\n2 1 101725 125180 45790 XOR\n2 1 99677 125180 45791 XOR\n2 1 45790 45791 45789 AND\n2 1 45789 125180 125181 XOR\n2 1 125212 125181 97630 XOR\n2 1 97630 95582 125088 XOR\n2 1 125088 125057 93534 XOR\n1 1 93534 45580 INV\n2 1 45580 125038 91545 XOR\n2 1 4552 91545 109636 XOR\n2 1 109636 109605 3976 XOR\n2 1 91545 109605 18239 XOR\n2 1 18238 18239 18237 AND\n2 1 18237 109605 109606 XOR\n2 1 4553 109606 18241 XOR\n2 1 91545 85401 109698 XOR\n2 1 109698 109667 4424 XOR\n2 1 91545 109667 18328 XOR\n2 1 18328 18329 18327 AND\n2 1 18327 109667 109668 XOR\n2 1 85402 109668 18332 XOR\n2 1 200 3976 124112 XOR\n2 1 124112 124081 95454 XOR\n2 1 3976 124081 43913 XOR\n2 1 43912 43913 43911 AND\n2 1 43911 124081 124082 XOR\n2 1 201 124082 43915 XOR\n",
"2 1 93534 125038 45520 XOR\n2 1 45520 45521 45519 AND\n2 1 45519 125038 45523 XOR\n2 1 97630 125057 45613 XOR\n2 1 45613 45614 45612 AND\n2 1 45612 125057 125058 XOR\n2 1 95583 125058 45617 XOR\n2 1 101726 125181 45793 XOR\n2 1 99678 125181 45794 XOR\n2 1 45793 45794 45792 AND\n2 1 45792 125181 125182 XOR\n2 1 125213 125182 97631 XOR\n2 1 97631 95583 125089 XOR\n2 1 125089 125058 93535 XOR\n2 1 93535 45523 91546 XOR\n2 1 91546 109606 18242 XOR\n2 1 18241 18242 18240 AND\n2 1 18240 109606 109607 XOR\n2 1 4554 109607 18244 XOR\n2 1 91546 85402 109699 XOR\n2 1 109699 109668 4425 XOR\n2 1 91546 109668 18331 XOR\n2 1 18331 18332 18330 AND\n2 1 18330 109668 109669 XOR\n2 1 85403 109669 18335 XOR\n2 1 4553 91546 109637 XOR\n2 1 109637 109606 3977 XOR\n2 1 3977 124082 43916 XOR\n2 1 43915 43916 43914 AND\n2 1 43914 124082 124083 XOR\n2 1 202 124083 43918 XOR\n2 1 201 3977 124113 XOR\n2 1 124113 124082 95455 XOR\n2 1 91546 45523 45522 AND\n2 1 45522 45523 45525 XOR\n2 1 97631 125058 45616 XOR\n2 1 45616 45617 45615 AND\n2 1 45615 125058 125059 XOR\n2 1 95584 125059 45620 XOR\n2 1 101727 125182 45796 XOR\n2 1 99679 125182 45797 XOR\n2 1 45796 45797 45795 AND\n2 1 45795 125182 125183 XOR\n2 1 125214 125183 97632 XOR\n2 1 97632 95584 125090 XOR\n2 1 125090 125059 93536 XOR\n2 1 93536 45525 91547 XOR\n2 1 91547 109607 18245 XOR\n2 1 18244 18245 18243 AND\n2 1 18243 109607 109608 XOR\n2 1 4555 109608 18247 XOR\n2 1 91547 85403 109700 XOR\n2 1 109700 109669 4426 XOR\n2 1 91547 109669 18334 XOR\n2 1 18334 18335 18333 AND\n2 1 18333 109669 109670 XOR\n2 1 85404 109670 18338 XOR\n2 1 4554 91547 109638 XOR\n2 1 109638 109607 3978 XOR\n2 1 3978 124083 43919 XOR\n2 1 43918 43919 43917 AND\n2 1 43917 124083 124084 XOR\n2 1 203 124084 43921 XOR\n2 1 202 3978 124114 XOR\n2 1 124114 124083 95456 XOR\n2 1 91547 45525 45524 AND\n2 1 45524 45525 45527 XOR\n2 1 97632 125059 45619 XOR\n2 1 45619 45620 45618 AND\n2 1 45618 125059 125060 XOR\n2 1 95585 125060 45623 XOR\n2 1 101728 125183 45799 XOR\n2 1 99680 125183 45800 XOR\n2 1 45799 45800 45798 AND\n2 1 45798 125183 125184 XOR\n2 1 125215 125184 97633 XOR\n2 1 97633 95585 125091 XOR\n2 1 125091 125060 93537 XOR\n2 1 93537 45527 91548 XOR\n2 1 91548 109608 18248 XOR\n2 1 18247 18248 18246 AND\n2 1 18246 109608 109609 XOR\n2 1 4556 109609 18250 XOR\n2 1 91548 85404 109701 XOR\n2 1 109701 109670 4427 XOR\n2 1 91548 109670 18337 XOR\n2 1 18337 18338 18336 AND\n2 1 18336 109670 109671 XOR\n2 1 85405 109671 18341 XOR\n2 1 4555 91548 109639 XOR\n2 1 109639 109608 3979 XOR\n2 1 3979 124084 43922 XOR\n2 1 43921 43922 43920 AND\n2 1 43920 124084 124085 XOR\n2 1 204 124085 43924 XOR\n2 1 203 3979 124115 XOR\n2 1 124115 124084 95457 XOR\n2 1 91548 45527 45526 AND\n2 1 45526 45527 125039 XOR\n1 1 125039 45530 INV\n2 1 97633 125060 45622 XOR\n2 1 45622 45623 45621 AND\n2 1 45621 125060 125061 XOR\n2 1 95586 125061 45626 XOR\n2 1 101729 125184 45802 XOR\n2 1 99681 125184 45803 XOR\n2 1 45802 45803 45801 AND\n2 1 45801 125184 125185 XOR\n2 1 125216 125185 97634 XOR\n2 1 97634 95586 125092 XOR\n2 1 125092 125061 93538 XOR\n1 1 93538 45581 INV\n2 1 45581 125039 91549 XOR\n2 1 4556 91549 109640 XOR\n2 1 109640 109609 3980 XOR\n2 1 91549 109609 18251 XOR\n2 1 18250 18251 18249 AND\n2 1 18249 109609 109610 XOR\n2 1 4557 109610 18253 XOR\n2 1 91549 85405 109702 XOR\n2 1 109702 109671 4428 XOR\n2 1 91549 109671 18340 XOR\n2 1 18340 18341 18339 AND\n2 1 18339 109671 109672 XOR\n2 1 85406 109672 18344 XOR\n2 1 204 3980 124116 XOR\n2 1 124116 124085 95458 XOR\n2 1 3980 124085 43925 XOR\n",
"2 1 43924 43925 43923 AND\n2 1 43923 124085 124086 XOR\n2 1 205 124086 43927 XOR\n2 1 93538 125039 45529 XOR\n2 1 45529 45530 45528 AND\n2 1 45528 125039 45532 XOR\n2 1 97634 125061 45625 XOR\n2 1 45625 45626 45624 AND\n2 1 45624 125061 125062 XOR\n2 1 95587 125062 45629 XOR\n2 1 101730 125185 45805 XOR\n2 1 99682 125185 45806 XOR\n2 1 45805 45806 45804 AND\n2 1 45804 125185 125186 XOR\n2 1 125217 125186 97635 XOR\n2 1 97635 95587 125093 XOR\n2 1 125093 125062 93539 XOR\n2 1 93539 45532 91550 XOR\n2 1 91550 109610 18254 XOR\n2 1 18253 18254 18252 AND\n2 1 18252 109610 109611 XOR\n2 1 4558 109611 18256 XOR\n2 1 91550 85406 109703 XOR\n2 1 109703 109672 4429 XOR\n2 1 91550 109672 18343 XOR\n2 1 18343 18344 18342 AND\n2 1 18342 109672 109673 XOR\n2 1 85407 109673 18347 XOR\n2 1 4557 91550 109641 XOR\n2 1 109641 109610 3981 XOR\n2 1 3981 124086 43928 XOR\n2 1 43927 43928 43926 AND\n2 1 43926 124086 124087 XOR\n2 1 206 124087 43930 XOR\n2 1 205 3981 124117 XOR\n2 1 124117 124086 95459 XOR\n2 1 91550 45532 45531 AND\n2 1 45531 45532 45534 XOR\n2 1 97635 125062 45628 XOR\n2 1 45628 45629 45627 AND\n2 1 45627 125062 125063 XOR\n2 1 95588 125063 45632 XOR\n2 1 101731 125186 45808 XOR\n2 1 99683 125186 45809 XOR\n2 1 45808 45809 45807 AND\n2 1 45807 125186 125187 XOR\n2 1 125218 125187 97636 XOR\n2 1 97636 95588 125094 XOR\n2 1 125094 125063 93540 XOR\n2 1 93540 45534 91551 XOR\n2 1 91551 109611 18257 XOR\n2 1 18256 18257 18255 AND\n2 1 18255 109611 109612 XOR\n2 1 4559 109612 18259 XOR\n2 1 91551 85407 109704 XOR\n2 1 109704 109673 4430 XOR\n2 1 91551 109673 18346 XOR\n2 1 18346 18347 18345 AND\n2 1 18345 109673 109674 XOR\n2 1 85408 109674 18350 XOR\n2 1 4558 91551 109642 XOR\n2 1 109642 109611 3982 XOR\n2 1 3982 124087 43931 XOR\n2 1 43930 43931 43929 AND\n2 1 43929 124087 124088 XOR\n2 1 207 124088 43933 XOR\n2 1 206 3982 124118 XOR\n2 1 124118 124087 95460 XOR\n2 1 91551 45534 45533 AND\n2 1 45533 45534 45536 XOR\n2 1 97636 125063 45631 XOR\n2 1 45631 45632 45630 AND\n2 1 45630 125063 125064 XOR\n2 1 95589 125064 45635 XOR\n2 1 101732 125187 45811 XOR\n2 1 99684 125187 45812 XOR\n2 1 45811 45812 45810 AND\n2 1 45810 125187 125188 XOR\n2 1 125219 125188 97637 XOR\n2 1 97637 95589 125095 XOR\n2 1 125095 125064 93541 XOR\n2 1 93541 45536 91552 XOR\n2 1 91552 109612 18260 XOR\n2 1 18259 18260 18258 AND\n2 1 18258 109612 109613 XOR\n2 1 4560 109613 18262 XOR\n2 1 91552 85408 109705 XOR\n2 1 109705 109674 4431 XOR\n2 1 91552 109674 18349 XOR\n2 1 18349 18350 18348 AND\n2 1 18348 109674 109675 XOR\n2 1 85409 109675 18353 XOR\n2 1 4559 91552 109643 XOR\n2 1 109643 109612 3983 XOR\n2 1 3983 124088 43934 XOR\n2 1 43933 43934 43932 AND\n2 1 43932 124088 124089 XOR\n2 1 208 124089 43936 XOR\n2 1 207 3983 124119 XOR\n2 1 124119 124088 95461 XOR\n2 1 91552 45536 45535 AND\n2 1 45535 45536 125040 XOR\n1 1 125040 45539 INV\n2 1 97637 125064 45634 XOR\n2 1 45634 45635 45633 AND\n2 1 45633 125064 125065 XOR\n2 1 95590 125065 45638 XOR\n2 1 101733 125188 45814 XOR\n2 1 99685 125188 45815 XOR\n2 1 45814 45815 45813 AND\n2 1 45813 125188 125189 XOR\n2 1 125220 125189 97638 XOR\n2 1 97638 95590 125096 XOR\n2 1 125096 125065 93542 XOR\n1 1 93542 45582 INV\n2 1 45582 125040 91553 XOR\n2 1 4560 91553 109644 XOR\n2 1 109644 109613 3984 XOR\n2 1 91553 109613 18263 XOR\n2 1 18262 18263 18261 AND\n2 1 18261 109613 109614 XOR\n2 1 4561 109614 18265 XOR\n2 1 91553 85409 109706 XOR\n2 1 109706 109675 4432 XOR\n2 1 91553 109675 18352 XOR\n2 1 18352 18353 18351 AND\n2 1 18351 109675 109676 XOR\n2 1 85410 109676 18356 XOR\n",
"2 1 208 3984 124120 XOR\n2 1 124120 124089 95462 XOR\n2 1 3984 124089 43937 XOR\n2 1 43936 43937 43935 AND\n2 1 43935 124089 124090 XOR\n2 1 209 124090 43939 XOR\n2 1 93542 125040 45538 XOR\n2 1 45538 45539 45537 AND\n2 1 45537 125040 45541 XOR\n2 1 97638 125065 45637 XOR\n2 1 45637 45638 45636 AND\n2 1 45636 125065 125066 XOR\n2 1 95591 125066 45641 XOR\n2 1 101734 125189 45817 XOR\n2 1 99686 125189 45818 XOR\n2 1 45817 45818 45816 AND\n2 1 45816 125189 125190 XOR\n2 1 125221 125190 97639 XOR\n2 1 97639 95591 125097 XOR\n2 1 125097 125066 93543 XOR\n2 1 93543 45541 91554 XOR\n2 1 91554 109614 18266 XOR\n2 1 18265 18266 18264 AND\n2 1 18264 109614 109615 XOR\n2 1 4562 109615 18268 XOR\n2 1 91554 85410 109707 XOR\n2 1 109707 109676 4433 XOR\n2 1 91554 109676 18355 XOR\n2 1 18355 18356 18354 AND\n2 1 18354 109676 109677 XOR\n2 1 85411 109677 18359 XOR\n2 1 4561 91554 109645 XOR\n2 1 109645 109614 3985 XOR\n2 1 3985 124090 43940 XOR\n2 1 43939 43940 43938 AND\n2 1 43938 124090 124091 XOR\n2 1 210 124091 43942 XOR\n2 1 209 3985 124121 XOR\n2 1 124121 124090 95463 XOR\n2 1 91554 45541 45540 AND\n2 1 45540 45541 45543 XOR\n2 1 97639 125066 45640 XOR\n2 1 45640 45641 45639 AND\n2 1 45639 125066 125067 XOR\n2 1 95592 125067 45644 XOR\n2 1 101735 125190 45820 XOR\n2 1 99687 125190 45821 XOR\n2 1 45820 45821 45819 AND\n2 1 45819 125190 125191 XOR\n2 1 125222 125191 97640 XOR\n2 1 97640 95592 125098 XOR\n2 1 125098 125067 93544 XOR\n2 1 93544 45543 91555 XOR\n2 1 91555 109615 18269 XOR\n2 1 18268 18269 18267 AND\n2 1 18267 109615 109616 XOR\n2 1 4563 109616 18271 XOR\n2 1 91555 85411 109708 XOR\n2 1 109708 109677 4434 XOR\n2 1 91555 109677 18358 XOR\n2 1 18358 18359 18357 AND\n2 1 18357 109677 109678 XOR\n2 1 85412 109678 18362 XOR\n2 1 4562 91555 109646 XOR\n2 1 109646 109615 3986 XOR\n2 1 3986 124091 43943 XOR\n2 1 43942 43943 43941 AND\n2 1 43941 124091 124092 XOR\n2 1 211 124092 43945 XOR\n2 1 210 3986 124122 XOR\n2 1 124122 124091 95464 XOR\n2 1 91555 45543 45542 AND\n2 1 45542 45543 45545 XOR\n2 1 97640 125067 45643 XOR\n2 1 45643 45644 45642 AND\n2 1 45642 125067 125068 XOR\n2 1 95593 125068 45647 XOR\n2 1 101736 125191 45823 XOR\n2 1 99688 125191 45824 XOR\n2 1 45823 45824 45822 AND\n2 1 45822 125191 125192 XOR\n2 1 125223 125192 97641 XOR\n2 1 97641 95593 125099 XOR\n2 1 125099 125068 93545 XOR\n2 1 93545 45545 91556 XOR\n2 1 91556 109616 18272 XOR\n2 1 18271 18272 18270 AND\n2 1 18270 109616 109617 XOR\n2 1 4564 109617 18274 XOR\n2 1 91556 85412 109709 XOR\n2 1 109709 109678 4435 XOR\n2 1 91556 109678 18361 XOR\n2 1 18361 18362 18360 AND\n2 1 18360 109678 109679 XOR\n2 1 85413 109679 18365 XOR\n2 1 4563 91556 109647 XOR\n2 1 109647 109616 3987 XOR\n2 1 3987 124092 43946 XOR\n2 1 43945 43946 43944 AND\n2 1 43944 124092 124093 XOR\n2 1 212 124093 43948 XOR\n2 1 211 3987 124123 XOR\n2 1 124123 124092 95465 XOR\n2 1 91556 45545 45544 AND\n2 1 45544 45545 125041 XOR\n1 1 125041 45548 INV\n2 1 97641 125068 45646 XOR\n2 1 45646 45647 45645 AND\n2 1 45645 125068 125069 XOR\n2 1 95594 125069 45650 XOR\n2 1 101737 125192 45826 XOR\n2 1 99689 125192 45827 XOR\n2 1 45826 45827 45825 AND\n2 1 45825 125192 125193 XOR\n2 1 125224 125193 97642 XOR\n2 1 97642 95594 125100 XOR\n2 1 125100 125069 93546 XOR\n1 1 93546 45583 INV\n2 1 45583 125041 91557 XOR\n2 1 4564 91557 109648 XOR\n2 1 109648 109617 3988 XOR\n2 1 91557 109617 18275 XOR\n2 1 18274 18275 18273 AND\n2 1 18273 109617 109618 XOR\n2 1 4565 109618 18277 XOR\n2 1 91557 85413 109710 XOR\n2 1 109710 109679 4436 XOR\n2 1 91557 109679 18364 XOR\n",
"2 1 18364 18365 18363 AND\n2 1 18363 109679 109680 XOR\n2 1 85414 109680 18368 XOR\n2 1 212 3988 124124 XOR\n2 1 124124 124093 95466 XOR\n2 1 3988 124093 43949 XOR\n2 1 43948 43949 43947 AND\n2 1 43947 124093 124094 XOR\n2 1 213 124094 43951 XOR\n2 1 93546 125041 45547 XOR\n2 1 45547 45548 45546 AND\n2 1 45546 125041 125042 XOR\n1 1 125042 45551 INV\n2 1 97642 125069 45649 XOR\n2 1 45649 45650 45648 AND\n2 1 45648 125069 125070 XOR\n2 1 95595 125070 45653 XOR\n2 1 101738 125193 45829 XOR\n2 1 99690 125193 45830 XOR\n2 1 45829 45830 45828 AND\n2 1 45828 125193 125194 XOR\n2 1 125225 125194 97643 XOR\n2 1 97643 95595 125101 XOR\n2 1 125101 125070 93547 XOR\n1 1 93547 45584 INV\n2 1 45584 125042 91558 XOR\n2 1 4565 91558 109649 XOR\n2 1 109649 109618 3989 XOR\n2 1 91558 109618 18278 XOR\n2 1 18277 18278 18276 AND\n2 1 18276 109618 109619 XOR\n2 1 4566 109619 18280 XOR\n2 1 91558 85414 109711 XOR\n2 1 109711 109680 4437 XOR\n2 1 91558 109680 18367 XOR\n2 1 18367 18368 18366 AND\n2 1 18366 109680 109681 XOR\n2 1 85415 109681 18371 XOR\n2 1 213 3989 124125 XOR\n2 1 124125 124094 95467 XOR\n2 1 3989 124094 43952 XOR\n2 1 43951 43952 43950 AND\n2 1 43950 124094 124095 XOR\n2 1 214 124095 43954 XOR\n2 1 93547 125042 45550 XOR\n2 1 45550 45551 45549 AND\n2 1 45549 125042 125043 XOR\n1 1 125043 45554 INV\n2 1 97643 125070 45652 XOR\n2 1 45652 45653 45651 AND\n2 1 45651 125070 125071 XOR\n2 1 95596 125071 45656 XOR\n2 1 101739 125194 45832 XOR\n2 1 99691 125194 45833 XOR\n2 1 45832 45833 45831 AND\n2 1 45831 125194 125195 XOR\n2 1 125226 125195 97644 XOR\n2 1 97644 95596 125102 XOR\n2 1 125102 125071 93548 XOR\n1 1 93548 45585 INV\n2 1 45585 125043 91559 XOR\n2 1 4566 91559 109650 XOR\n2 1 109650 109619 3990 XOR\n2 1 91559 109619 18281 XOR\n2 1 18280 18281 18279 AND\n2 1 18279 109619 109620 XOR\n2 1 4567 109620 18283 XOR\n2 1 91559 85415 109712 XOR\n2 1 109712 109681 4438 XOR\n2 1 91559 109681 18370 XOR\n2 1 18370 18371 18369 AND\n2 1 18369 109681 109682 XOR\n2 1 85416 109682 18374 XOR\n2 1 214 3990 124126 XOR\n2 1 124126 124095 95468 XOR\n2 1 3990 124095 43955 XOR\n2 1 43954 43955 43953 AND\n2 1 43953 124095 124096 XOR\n2 1 215 124096 43957 XOR\n2 1 93548 125043 45553 XOR\n2 1 45553 45554 45552 AND\n2 1 45552 125043 125044 XOR\n1 1 125044 45557 INV\n2 1 97644 125071 45655 XOR\n2 1 45655 45656 45654 AND\n2 1 45654 125071 125072 XOR\n2 1 95597 125072 45659 XOR\n2 1 101740 125195 45835 XOR\n2 1 99692 125195 45836 XOR\n2 1 45835 45836 45834 AND\n2 1 45834 125195 125196 XOR\n2 1 125227 125196 97645 XOR\n2 1 97645 95597 125103 XOR\n2 1 125103 125072 93549 XOR\n1 1 93549 45586 INV\n2 1 45586 125044 91560 XOR\n2 1 4567 91560 109651 XOR\n2 1 109651 109620 3991 XOR\n2 1 91560 109620 18284 XOR\n2 1 18283 18284 18282 AND\n2 1 18282 109620 109621 XOR\n2 1 4568 109621 18286 XOR\n2 1 91560 85416 109713 XOR\n2 1 109713 109682 4439 XOR\n2 1 91560 109682 18373 XOR\n2 1 18373 18374 18372 AND\n2 1 18372 109682 109683 XOR\n2 1 85417 109683 18377 XOR\n2 1 215 3991 124127 XOR\n2 1 124127 124096 95469 XOR\n2 1 3991 124096 43958 XOR\n2 1 43957 43958 43956 AND\n2 1 43956 124096 124097 XOR\n2 1 216 124097 43960 XOR\n2 1 93549 125044 45556 XOR\n2 1 45556 45557 45555 AND\n2 1 45555 125044 125045 XOR\n1 1 125045 45560 INV\n2 1 97645 125072 45658 XOR\n2 1 45658 45659 45657 AND\n2 1 45657 125072 125073 XOR\n2 1 95598 125073 45662 XOR\n2 1 101741 125196 45838 XOR\n2 1 99693 125196 45839 XOR\n2 1 45838 45839 45837 AND\n2 1 45837 125196 125197 XOR\n2 1 125228 125197 97646 XOR\n2 1 97646 95598 125104 XOR\n",
"2 1 125104 125073 93550 XOR\n1 1 93550 45587 INV\n2 1 45587 125045 91561 XOR\n2 1 4568 91561 109652 XOR\n2 1 109652 109621 3992 XOR\n2 1 91561 109621 18287 XOR\n2 1 18286 18287 18285 AND\n2 1 18285 109621 109622 XOR\n2 1 4569 109622 18289 XOR\n2 1 91561 85417 109714 XOR\n2 1 109714 109683 4440 XOR\n2 1 91561 109683 18376 XOR\n2 1 18376 18377 18375 AND\n2 1 18375 109683 109684 XOR\n2 1 85418 109684 18380 XOR\n2 1 216 3992 124128 XOR\n2 1 124128 124097 95470 XOR\n2 1 3992 124097 43961 XOR\n2 1 43960 43961 43959 AND\n2 1 43959 124097 124098 XOR\n2 1 217 124098 43963 XOR\n2 1 93550 125045 45559 XOR\n2 1 45559 45560 45558 AND\n2 1 45558 125045 45562 XOR\n2 1 97646 125073 45661 XOR\n2 1 45661 45662 45660 AND\n2 1 45660 125073 125074 XOR\n2 1 95599 125074 45665 XOR\n2 1 101742 125197 45841 XOR\n2 1 99694 125197 45842 XOR\n2 1 45841 45842 45840 AND\n2 1 45840 125197 125198 XOR\n2 1 125229 125198 97647 XOR\n2 1 97647 95599 125105 XOR\n2 1 125105 125074 93551 XOR\n2 1 93551 45562 91562 XOR\n2 1 91562 109622 18290 XOR\n2 1 18289 18290 18288 AND\n2 1 18288 109622 109623 XOR\n2 1 4570 109623 18292 XOR\n2 1 91562 85418 109715 XOR\n2 1 109715 109684 4441 XOR\n2 1 91562 109684 18379 XOR\n2 1 18379 18380 18378 AND\n2 1 18378 109684 109685 XOR\n2 1 85419 109685 18383 XOR\n2 1 4569 91562 109653 XOR\n2 1 109653 109622 3993 XOR\n2 1 3993 124098 43964 XOR\n2 1 43963 43964 43962 AND\n2 1 43962 124098 124099 XOR\n2 1 218 124099 43966 XOR\n2 1 217 3993 124129 XOR\n2 1 124129 124098 95471 XOR\n2 1 91562 45562 45561 AND\n2 1 45561 45562 45564 XOR\n2 1 97647 125074 45664 XOR\n2 1 45664 45665 45663 AND\n2 1 45663 125074 125075 XOR\n2 1 95600 125075 45668 XOR\n2 1 101743 125198 45844 XOR\n2 1 99695 125198 45845 XOR\n2 1 45844 45845 45843 AND\n2 1 45843 125198 125199 XOR\n2 1 125230 125199 97648 XOR\n2 1 97648 95600 125106 XOR\n2 1 125106 125075 93552 XOR\n2 1 93552 45564 91563 XOR\n2 1 91563 109623 18293 XOR\n2 1 18292 18293 18291 AND\n2 1 18291 109623 109624 XOR\n2 1 4571 109624 18295 XOR\n2 1 91563 85419 109716 XOR\n2 1 109716 109685 4442 XOR\n2 1 91563 109685 18382 XOR\n2 1 18382 18383 18381 AND\n2 1 18381 109685 109686 XOR\n2 1 85420 109686 18386 XOR\n2 1 4570 91563 109654 XOR\n2 1 109654 109623 3994 XOR\n2 1 3994 124099 43967 XOR\n2 1 43966 43967 43965 AND\n2 1 43965 124099 124100 XOR\n2 1 219 124100 43969 XOR\n2 1 218 3994 124130 XOR\n2 1 124130 124099 95472 XOR\n2 1 91563 45564 45563 AND\n2 1 45563 45564 125046 XOR\n1 1 125046 45567 INV\n2 1 97648 125075 45667 XOR\n2 1 45667 45668 45666 AND\n2 1 45666 125075 125076 XOR\n2 1 95601 125076 45671 XOR\n2 1 101744 125199 45847 XOR\n2 1 99696 125199 45848 XOR\n2 1 45847 45848 45846 AND\n2 1 45846 125199 125200 XOR\n2 1 125231 125200 97649 XOR\n2 1 97649 95601 125107 XOR\n2 1 125107 125076 93553 XOR\n1 1 93553 45588 INV\n2 1 45588 125046 91564 XOR\n2 1 4571 91564 109655 XOR\n2 1 109655 109624 3995 XOR\n2 1 91564 109624 18296 XOR\n2 1 18295 18296 18294 AND\n2 1 18294 109624 109625 XOR\n2 1 4572 109625 18298 XOR\n2 1 91564 85420 109717 XOR\n2 1 109717 109686 4443 XOR\n2 1 91564 109686 18385 XOR\n2 1 18385 18386 18384 AND\n2 1 18384 109686 109687 XOR\n2 1 85421 109687 18389 XOR\n2 1 219 3995 124131 XOR\n2 1 124131 124100 95473 XOR\n2 1 3995 124100 43970 XOR\n2 1 43969 43970 43968 AND\n2 1 43968 124100 124101 XOR\n2 1 220 124101 43972 XOR\n2 1 93553 125046 45566 XOR\n2 1 45566 45567 45565 AND\n2 1 45565 125046 125047 XOR\n1 1 125047 45570 INV\n2 1 97649 125076 45670 XOR\n2 1 45670 45671 45669 AND\n2 1 45669 125076 125077 XOR\n2 1 95602 125077 45674 XOR\n",
"2 1 101745 125200 45850 XOR\n2 1 99697 125200 45851 XOR\n2 1 45850 45851 45849 AND\n2 1 45849 125200 125201 XOR\n2 1 125232 125201 97650 XOR\n2 1 97650 95602 125108 XOR\n2 1 125108 125077 93554 XOR\n1 1 93554 45589 INV\n2 1 45589 125047 91565 XOR\n2 1 4572 91565 109656 XOR\n2 1 109656 109625 3996 XOR\n2 1 91565 109625 18299 XOR\n2 1 18298 18299 18297 AND\n2 1 18297 109625 109626 XOR\n2 1 4573 109626 18301 XOR\n2 1 91565 85421 109718 XOR\n2 1 109718 109687 4444 XOR\n2 1 91565 109687 18388 XOR\n2 1 18388 18389 18387 AND\n2 1 18387 109687 109688 XOR\n2 1 85422 109688 18392 XOR\n2 1 220 3996 124132 XOR\n2 1 124132 124101 95474 XOR\n2 1 3996 124101 43973 XOR\n2 1 43972 43973 43971 AND\n2 1 43971 124101 124102 XOR\n2 1 221 124102 43975 XOR\n2 1 93554 125047 45569 XOR\n2 1 45569 45570 45568 AND\n2 1 45568 125047 45572 XOR\n2 1 97650 125077 45673 XOR\n2 1 45673 45674 45672 AND\n2 1 45672 125077 125078 XOR\n2 1 95603 125078 45677 XOR\n2 1 101746 125201 45853 XOR\n2 1 99698 125201 45854 XOR\n2 1 45853 45854 45852 AND\n2 1 45852 125201 125202 XOR\n2 1 125233 125202 97651 XOR\n2 1 97651 95603 125109 XOR\n2 1 125109 125078 93555 XOR\n2 1 93555 45572 91566 XOR\n2 1 91566 109626 18302 XOR\n2 1 18301 18302 18300 AND\n2 1 18300 109626 109627 XOR\n2 1 4574 109627 18304 XOR\n2 1 91566 85422 109719 XOR\n2 1 109719 109688 4445 XOR\n2 1 91566 109688 18391 XOR\n2 1 18391 18392 18390 AND\n2 1 18390 109688 109689 XOR\n2 1 85423 109689 18395 XOR\n2 1 4573 91566 109657 XOR\n2 1 109657 109626 3997 XOR\n2 1 3997 124102 43976 XOR\n2 1 43975 43976 43974 AND\n2 1 43974 124102 124103 XOR\n2 1 222 124103 43978 XOR\n2 1 221 3997 124133 XOR\n2 1 124133 124102 95475 XOR\n2 1 91566 45572 45571 AND\n2 1 45571 45572 125048 XOR\n1 1 125048 45575 INV\n2 1 97651 125078 45676 XOR\n2 1 45676 45677 45675 AND\n2 1 45675 125078 125079 XOR\n2 1 95604 125079 45680 XOR\n2 1 101747 125202 45856 XOR\n2 1 99699 125202 45857 XOR\n2 1 45856 45857 45855 AND\n2 1 45855 125202 125203 XOR\n2 1 125234 125203 97652 XOR\n2 1 97652 95604 125110 XOR\n2 1 125110 125079 93556 XOR\n1 1 93556 45590 INV\n2 1 45590 125048 91567 XOR\n2 1 4574 91567 109658 XOR\n2 1 109658 109627 3998 XOR\n2 1 91567 109627 18305 XOR\n2 1 18304 18305 18303 AND\n2 1 18303 109627 109628 XOR\n2 1 91567 85423 109720 XOR\n2 1 109720 109689 4446 XOR\n2 1 91567 109689 18394 XOR\n2 1 18394 18395 18393 AND\n2 1 18393 109689 109690 XOR\n2 1 222 3998 124134 XOR\n2 1 124134 124103 95476 XOR\n2 1 3998 124103 43979 XOR\n2 1 43978 43979 43977 AND\n2 1 43977 124103 124104 XOR\n2 1 93556 125048 45574 XOR\n2 1 45574 45575 45573 AND\n2 1 45573 125048 125049 XOR\n2 1 97652 125079 45679 XOR\n2 1 45679 45680 45678 AND\n2 1 45678 125079 125080 XOR\n2 1 101748 125203 45859 XOR\n2 1 99700 125203 45860 XOR\n2 1 45859 45860 45858 AND\n2 1 45858 125203 125204 XOR\n2 1 125235 125204 97653 XOR\n2 1 97653 95605 125111 XOR\n2 1 125111 125080 93557 XOR\n2 1 93557 125049 91568 XOR\n2 1 4575 91568 109659 XOR\n2 1 109659 109628 3999 XOR\n2 1 91568 85424 109721 XOR\n2 1 109721 109690 4447 XOR\n2 1 223 3999 124135 XOR\n2 1 124135 124104 95477 XOR\n2 1 4447 4511 74318 XOR\n2 1 4446 4510 74317 XOR\n2 1 4445 4509 74316 XOR\n2 1 4444 4508 74315 XOR\n2 1 4443 4507 74314 XOR\n2 1 4442 4506 74313 XOR\n2 1 4441 4505 74312 XOR\n2 1 4440 4504 74311 XOR\n2 1 4439 4503 74310 XOR\n2 1 4438 4502 74309 XOR\n2 1 4437 4501 74308 XOR\n2 1 4436 4500 74307 XOR\n2 1 4435 4499 74306 XOR\n2 1 4434 4498 74305 XOR\n2 1 4433 4497 74304 XOR\n2 1 4432 4496 74303 XOR\n2 1 4431 4495 74302 XOR\n",
"2 1 4430 4494 74301 XOR\n2 1 4429 4493 74300 XOR\n2 1 4428 4492 74299 XOR\n2 1 4427 4491 74298 XOR\n2 1 4426 4490 74297 XOR\n2 1 4425 4489 74296 XOR\n2 1 4424 4488 74295 XOR\n2 1 4423 4487 74294 XOR\n2 1 4422 4486 74293 XOR\n2 1 4421 4485 74292 XOR\n2 1 4420 4484 74291 XOR\n2 1 4419 4483 74290 XOR\n2 1 4418 4482 74289 XOR\n2 1 4417 4481 74288 XOR\n2 1 4416 4480 74287 XOR\n2 1 74318 74286 74254 AND\n2 1 74317 74285 74253 AND\n2 1 74316 74284 74252 AND\n2 1 74315 74283 74251 AND\n2 1 74314 74282 74250 AND\n2 1 74313 74281 74249 AND\n2 1 74312 74280 74248 AND\n2 1 74311 74279 74247 AND\n2 1 74310 74278 74246 AND\n2 1 74309 74277 74245 AND\n2 1 74308 74276 74244 AND\n2 1 74307 74275 74243 AND\n2 1 74306 74274 74242 AND\n2 1 74305 74273 74241 AND\n2 1 74304 74272 74240 AND\n2 1 74303 74271 74239 AND\n2 1 74302 74270 74238 AND\n2 1 74301 74269 74237 AND\n2 1 74300 74268 74236 AND\n2 1 74299 74267 74235 AND\n2 1 74298 74266 74234 AND\n2 1 74297 74265 74233 AND\n2 1 74296 74264 74232 AND\n2 1 74295 74263 74231 AND\n2 1 74294 74262 74230 AND\n2 1 74293 74261 74229 AND\n2 1 74292 74260 74228 AND\n2 1 74291 74259 74227 AND\n2 1 74290 74258 74226 AND\n2 1 74289 74257 74225 AND\n2 1 74288 74256 74224 AND\n2 1 74287 74255 74223 AND\n2 1 74254 4511 87440 XOR\n2 1 74253 4510 87439 XOR\n2 1 74252 4509 87438 XOR\n2 1 74251 4508 87437 XOR\n2 1 74250 4507 87436 XOR\n2 1 74249 4506 87435 XOR\n2 1 74248 4505 87434 XOR\n2 1 74247 4504 87433 XOR\n2 1 74246 4503 87432 XOR\n2 1 74245 4502 87431 XOR\n2 1 74244 4501 87430 XOR\n2 1 74243 4500 87429 XOR\n2 1 74242 4499 87428 XOR\n2 1 74241 4498 87427 XOR\n2 1 74240 4497 87426 XOR\n2 1 74239 4496 87425 XOR\n2 1 74238 4495 87424 XOR\n2 1 74237 4494 87423 XOR\n2 1 74236 4493 87422 XOR\n2 1 74235 4492 87421 XOR\n2 1 74234 4491 87420 XOR\n2 1 74233 4490 87419 XOR\n2 1 74232 4489 87418 XOR\n2 1 74231 4488 87417 XOR\n2 1 74230 4487 87416 XOR\n2 1 74229 4486 87415 XOR\n2 1 74228 4485 87414 XOR\n2 1 74227 4484 87413 XOR\n2 1 74226 4483 87412 XOR\n2 1 74225 4482 87411 XOR\n2 1 74224 4481 87410 XOR\n2 1 74223 4480 87409 XOR\n2 1 4447 4479 74190 XOR\n2 1 4446 4478 74189 XOR\n2 1 4445 4477 74188 XOR\n2 1 4444 4476 74187 XOR\n2 1 4443 4475 74186 XOR\n2 1 4442 4474 74185 XOR\n2 1 4441 4473 74184 XOR\n2 1 4440 4472 74183 XOR\n2 1 4439 4471 74182 XOR\n2 1 4438 4470 74181 XOR\n2 1 4437 4469 74180 XOR\n2 1 4436 4468 74179 XOR\n2 1 4435 4467 74178 XOR\n2 1 4434 4466 74177 XOR\n2 1 4433 4465 74176 XOR\n2 1 4432 4464 74175 XOR\n2 1 4431 4463 74174 XOR\n2 1 4430 4462 74173 XOR\n2 1 4429 4461 74172 XOR\n2 1 4428 4460 74171 XOR\n2 1 4427 4459 74170 XOR\n2 1 4426 4458 74169 XOR\n2 1 4425 4457 74168 XOR\n2 1 4424 4456 74167 XOR\n2 1 4423 4455 74166 XOR\n2 1 4422 4454 74165 XOR\n2 1 4421 4453 74164 XOR\n2 1 4420 4452 74163 XOR\n2 1 4419 4451 74162 XOR\n2 1 4418 4450 74161 XOR\n2 1 4417 4449 74160 XOR\n2 1 4416 4448 74159 XOR\n2 1 4417 4428 68590 XOR\n2 1 4416 4427 68589 XOR\n2 1 4447 4426 68588 XOR\n2 1 4446 4425 68587 XOR\n2 1 4445 4424 68586 XOR\n2 1 4444 4423 68585 XOR\n2 1 4443 4422 68584 XOR\n2 1 4442 4421 68583 XOR\n2 1 4441 4420 68582 XOR\n2 1 4440 4419 68581 XOR\n2 1 4439 4418 68580 XOR\n2 1 4438 4417 68579 XOR\n2 1 4437 4416 68578 XOR\n2 1 4436 4447 68577 XOR\n2 1 4435 4446 68576 XOR\n2 1 4434 4445 68575 XOR\n2 1 4433 4444 68574 XOR\n",
"2 1 4432 4443 68573 XOR\n2 1 4431 4442 68572 XOR\n2 1 4430 4441 68571 XOR\n2 1 4429 4440 68570 XOR\n2 1 4428 4439 68569 XOR\n2 1 4427 4438 68568 XOR\n2 1 4426 4437 68567 XOR\n2 1 4425 4436 68566 XOR\n2 1 4424 4435 68565 XOR\n2 1 4423 4434 68564 XOR\n2 1 4422 4433 68563 XOR\n2 1 4421 4432 68562 XOR\n2 1 4420 4431 68561 XOR\n2 1 4419 4430 68560 XOR\n2 1 4418 4429 68559 XOR\n2 1 68590 4437 89488 XOR\n2 1 89488 87440 124772 XOR\n2 1 68589 4436 89487 XOR\n2 1 89487 87439 124771 XOR\n2 1 68588 4435 89486 XOR\n2 1 89486 87438 124770 XOR\n2 1 68587 4434 89485 XOR\n2 1 89485 87437 124769 XOR\n2 1 68586 4433 89484 XOR\n2 1 89484 87436 124768 XOR\n2 1 68585 4432 89483 XOR\n2 1 89483 87435 124767 XOR\n2 1 68584 4431 89482 XOR\n2 1 89482 87434 124766 XOR\n2 1 68583 4430 89481 XOR\n2 1 89481 87433 124765 XOR\n2 1 68582 4429 89480 XOR\n2 1 89480 87432 124764 XOR\n2 1 68581 4428 89479 XOR\n2 1 89479 87431 124763 XOR\n2 1 68580 4427 89478 XOR\n2 1 89478 87430 124762 XOR\n2 1 68579 4426 89477 XOR\n2 1 89477 87429 124761 XOR\n2 1 68578 4425 89476 XOR\n2 1 89476 87428 124760 XOR\n2 1 68577 4424 89475 XOR\n2 1 89475 87427 124759 XOR\n2 1 68576 4423 89474 XOR\n2 1 89474 87426 124758 XOR\n2 1 68575 4422 89473 XOR\n2 1 89473 87425 124757 XOR\n2 1 68574 4421 89472 XOR\n2 1 89472 87424 124756 XOR\n2 1 68573 4420 89471 XOR\n2 1 89471 87423 124755 XOR\n2 1 68572 4419 89470 XOR\n2 1 89470 87422 124754 XOR\n2 1 68571 4418 89469 XOR\n2 1 89469 87421 124753 XOR\n2 1 68570 4417 89468 XOR\n2 1 89468 87420 124752 XOR\n2 1 68569 4416 89467 XOR\n2 1 89467 87419 124751 XOR\n2 1 68568 4447 89466 XOR\n2 1 89466 87418 124750 XOR\n2 1 68567 4446 89465 XOR\n2 1 89465 87417 124749 XOR\n2 1 68566 4445 89464 XOR\n2 1 89464 87416 124748 XOR\n2 1 68565 4444 89463 XOR\n2 1 89463 87415 124747 XOR\n2 1 68564 4443 89462 XOR\n2 1 89462 87414 124746 XOR\n2 1 68563 4442 89461 XOR\n2 1 89461 87413 124745 XOR\n2 1 68562 4441 89460 XOR\n2 1 89460 87412 124744 XOR\n2 1 68561 4440 89459 XOR\n2 1 89459 87411 124743 XOR\n2 1 68560 4439 89458 XOR\n2 1 89458 87410 124742 XOR\n2 1 68559 4438 89457 XOR\n2 1 89457 87409 124711 AND\n2 1 89457 87409 85361 XOR\n2 1 124742 124711 85362 XOR\n2 1 89458 124711 44973 XOR\n2 1 87410 124711 44974 XOR\n2 1 44973 44974 44972 AND\n2 1 44972 124711 124712 XOR\n2 1 124743 124712 85363 XOR\n2 1 89459 124712 44976 XOR\n2 1 87411 124712 44977 XOR\n2 1 44976 44977 44975 AND\n2 1 44975 124712 124713 XOR\n2 1 124744 124713 85364 XOR\n2 1 89460 124713 44979 XOR\n2 1 87412 124713 44980 XOR\n2 1 44979 44980 44978 AND\n2 1 44978 124713 124714 XOR\n2 1 124745 124714 85365 XOR\n2 1 89461 124714 44982 XOR\n2 1 87413 124714 44983 XOR\n2 1 44982 44983 44981 AND\n2 1 44981 124714 124715 XOR\n2 1 124746 124715 85366 XOR\n2 1 89462 124715 44985 XOR\n2 1 87414 124715 44986 XOR\n2 1 44985 44986 44984 AND\n2 1 44984 124715 124716 XOR\n2 1 124747 124716 85367 XOR\n2 1 89463 124716 44988 XOR\n2 1 87415 124716 44989 XOR\n2 1 44988 44989 44987 AND\n2 1 44987 124716 124717 XOR\n2 1 124748 124717 85368 XOR\n2 1 89464 124717 44991 XOR\n2 1 87416 124717 44992 XOR\n2 1 44991 44992 44990 AND\n2 1 44990 124717 124718 XOR\n2 1 124749 124718 85369 XOR\n2 1 89465 124718 44994 XOR\n2 1 87417 124718 44995 XOR\n2 1 44994 44995 44993 AND\n2 1 44993 124718 124719 XOR\n2 1 124750 124719 85370 XOR\n2 1 89466 124719 44997 XOR\n2 1 87418 124719 44998 XOR\n2 1 44997 44998 44996 AND\n2 1 44996 124719 124720 XOR\n2 1 124751 124720 85371 XOR\n2 1 89467 124720 45000 XOR\n2 1 87419 124720 45001 XOR\n",
"2 1 45000 45001 44999 AND\n2 1 44999 124720 124721 XOR\n2 1 124752 124721 85372 XOR\n2 1 89468 124721 45003 XOR\n2 1 87420 124721 45004 XOR\n2 1 45003 45004 45002 AND\n2 1 45002 124721 124722 XOR\n2 1 124753 124722 85373 XOR\n2 1 89469 124722 45006 XOR\n2 1 87421 124722 45007 XOR\n2 1 45006 45007 45005 AND\n2 1 45005 124722 124723 XOR\n2 1 124754 124723 85374 XOR\n2 1 89470 124723 45009 XOR\n2 1 87422 124723 45010 XOR\n2 1 45009 45010 45008 AND\n2 1 45008 124723 124724 XOR\n2 1 124755 124724 85375 XOR\n2 1 89471 124724 45012 XOR\n2 1 87423 124724 45013 XOR\n2 1 45012 45013 45011 AND\n2 1 45011 124724 124725 XOR\n2 1 124756 124725 85376 XOR\n2 1 89472 124725 45015 XOR\n2 1 87424 124725 45016 XOR\n2 1 45015 45016 45014 AND\n2 1 45014 124725 124726 XOR\n2 1 124757 124726 85377 XOR\n2 1 89473 124726 45018 XOR\n2 1 87425 124726 45019 XOR\n2 1 45018 45019 45017 AND\n2 1 45017 124726 124727 XOR\n2 1 124758 124727 85378 XOR\n2 1 89474 124727 45021 XOR\n2 1 87426 124727 45022 XOR\n2 1 45021 45022 45020 AND\n2 1 45020 124727 124728 XOR\n2 1 124759 124728 85379 XOR\n2 1 89475 124728 45024 XOR\n2 1 87427 124728 45025 XOR\n2 1 45024 45025 45023 AND\n2 1 45023 124728 124729 XOR\n2 1 124760 124729 85380 XOR\n2 1 89476 124729 45027 XOR\n2 1 87428 124729 45028 XOR\n2 1 45027 45028 45026 AND\n2 1 45026 124729 124730 XOR\n2 1 124761 124730 85381 XOR\n2 1 89477 124730 45030 XOR\n2 1 87429 124730 45031 XOR\n2 1 45030 45031 45029 AND\n2 1 45029 124730 124731 XOR\n2 1 124762 124731 85382 XOR\n2 1 89478 124731 45033 XOR\n2 1 87430 124731 45034 XOR\n2 1 45033 45034 45032 AND\n2 1 45032 124731 124732 XOR\n2 1 124763 124732 85383 XOR\n2 1 89479 124732 45036 XOR\n2 1 87431 124732 45037 XOR\n2 1 45036 45037 45035 AND\n2 1 45035 124732 124733 XOR\n2 1 124764 124733 85384 XOR\n2 1 89480 124733 45039 XOR\n2 1 87432 124733 45040 XOR\n2 1 45039 45040 45038 AND\n2 1 45038 124733 124734 XOR\n2 1 124765 124734 85385 XOR\n2 1 89481 124734 45042 XOR\n2 1 87433 124734 45043 XOR\n2 1 45042 45043 45041 AND\n2 1 45041 124734 124735 XOR\n2 1 124766 124735 85386 XOR\n2 1 89482 124735 45045 XOR\n2 1 87434 124735 45046 XOR\n2 1 45045 45046 45044 AND\n2 1 45044 124735 124736 XOR\n2 1 124767 124736 85387 XOR\n2 1 89483 124736 45048 XOR\n2 1 87435 124736 45049 XOR\n2 1 45048 45049 45047 AND\n2 1 45047 124736 124737 XOR\n2 1 124768 124737 85388 XOR\n2 1 89484 124737 45051 XOR\n2 1 87436 124737 45052 XOR\n2 1 45051 45052 45050 AND\n2 1 45050 124737 124738 XOR\n2 1 124769 124738 85389 XOR\n2 1 89485 124738 45054 XOR\n2 1 87437 124738 45055 XOR\n2 1 45054 45055 45053 AND\n2 1 45053 124738 124739 XOR\n2 1 124770 124739 85390 XOR\n2 1 89486 124739 45057 XOR\n2 1 87438 124739 45058 XOR\n2 1 45057 45058 45056 AND\n2 1 45056 124739 124740 XOR\n2 1 124771 124740 85391 XOR\n2 1 89487 124740 45060 XOR\n2 1 87439 124740 45061 XOR\n2 1 45060 45061 45059 AND\n2 1 45059 124740 124741 XOR\n2 1 124772 124741 85392 XOR\n2 1 66542 3999 66510 AND\n2 1 66541 3998 66509 AND\n2 1 66540 3997 66508 AND\n2 1 66539 3996 66507 AND\n2 1 66538 3995 66506 AND\n2 1 66537 3994 66505 AND\n2 1 66536 3993 66504 AND\n2 1 66535 3992 66503 AND\n2 1 66534 3991 66502 AND\n2 1 66533 3990 66501 AND\n2 1 66532 3989 66500 AND\n2 1 66531 3988 66499 AND\n2 1 66530 3987 66498 AND\n2 1 66529 3986 66497 AND\n2 1 66528 3985 66496 AND\n2 1 66527 3984 66495 AND\n2 1 66526 3983 66494 AND\n2 1 66525 3982 66493 AND\n2 1 66524 3981 66492 AND\n2 1 66523 3980 66491 AND\n2 1 66522 3979 66490 AND\n2 1 66521 3978 66489 AND\n2 1 66520 3977 66488 AND\n2 1 66519 3976 66487 AND\n2 1 66518 3975 66486 AND\n",
"2 1 66517 3974 66485 AND\n2 1 66516 3973 66484 AND\n2 1 66515 3972 66483 AND\n2 1 66514 3971 66482 AND\n2 1 66513 3970 66481 AND\n2 1 66512 3969 66480 AND\n2 1 66511 3968 66479 AND\n2 1 66510 4063 99669 XOR\n2 1 66509 4062 99668 XOR\n2 1 66508 4061 99667 XOR\n2 1 66507 4060 99666 XOR\n2 1 66506 4059 99665 XOR\n2 1 66505 4058 99664 XOR\n2 1 66504 4057 99663 XOR\n2 1 66503 4056 99662 XOR\n2 1 66502 4055 99661 XOR\n2 1 66501 4054 99660 XOR\n2 1 66500 4053 99659 XOR\n2 1 66499 4052 99658 XOR\n2 1 66498 4051 99657 XOR\n2 1 66497 4050 99656 XOR\n2 1 66496 4049 99655 XOR\n2 1 66495 4048 99654 XOR\n2 1 66494 4047 99653 XOR\n2 1 66493 4046 99652 XOR\n2 1 66492 4045 99651 XOR\n2 1 66491 4044 99650 XOR\n2 1 66490 4043 99649 XOR\n2 1 66489 4042 99648 XOR\n2 1 66488 4041 99647 XOR\n2 1 66487 4040 99646 XOR\n2 1 66486 4039 99645 XOR\n2 1 66485 4038 99644 XOR\n2 1 66484 4037 99643 XOR\n2 1 66483 4036 99642 XOR\n2 1 66482 4035 99641 XOR\n2 1 66481 4034 99640 XOR\n2 1 66480 4033 99639 XOR\n2 1 66479 4032 99638 XOR\n2 1 3999 4031 66478 XOR\n2 1 3998 4030 66477 XOR\n2 1 3997 4029 66476 XOR\n2 1 3996 4028 66475 XOR\n2 1 3995 4027 66474 XOR\n2 1 3994 4026 66473 XOR\n2 1 3993 4025 66472 XOR\n2 1 3992 4024 66471 XOR\n2 1 3991 4023 66470 XOR\n2 1 3990 4022 66469 XOR\n2 1 3989 4021 66468 XOR\n2 1 3988 4020 66467 XOR\n2 1 3987 4019 66466 XOR\n2 1 3986 4018 66465 XOR\n2 1 3985 4017 66464 XOR\n2 1 3984 4016 66463 XOR\n2 1 3983 4015 66462 XOR\n2 1 3982 4014 66461 XOR\n2 1 3981 4013 66460 XOR\n2 1 3980 4012 66459 XOR\n2 1 3979 4011 66458 XOR\n2 1 3978 4010 66457 XOR\n2 1 3977 4009 66456 XOR\n2 1 3976 4008 66455 XOR\n2 1 3975 4007 66454 XOR\n2 1 3974 4006 66453 XOR\n2 1 3973 4005 66452 XOR\n2 1 3972 4004 66451 XOR\n2 1 3971 4003 66450 XOR\n2 1 3970 4002 66449 XOR\n2 1 3969 4001 66448 XOR\n2 1 3968 4000 66447 XOR\n2 1 3973 3978 62670 XOR\n2 1 3972 3977 62669 XOR\n2 1 3971 3976 62668 XOR\n2 1 3970 3975 62667 XOR\n2 1 3969 3974 62666 XOR\n2 1 3968 3973 62665 XOR\n2 1 3999 3972 62664 XOR\n2 1 3998 3971 62663 XOR\n2 1 3997 3970 62662 XOR\n2 1 3996 3969 62661 XOR\n2 1 3995 3968 62660 XOR\n2 1 3994 3999 62659 XOR\n2 1 3993 3998 62658 XOR\n2 1 3992 3997 62657 XOR\n2 1 3991 3996 62656 XOR\n2 1 3990 3995 62655 XOR\n2 1 3989 3994 62654 XOR\n2 1 3988 3993 62653 XOR\n2 1 3987 3992 62652 XOR\n2 1 3986 3991 62651 XOR\n2 1 3985 3990 62650 XOR\n2 1 3984 3989 62649 XOR\n2 1 3983 3988 62648 XOR\n2 1 3982 3987 62647 XOR\n2 1 3981 3986 62646 XOR\n2 1 3980 3985 62645 XOR\n2 1 3979 3984 62644 XOR\n2 1 3978 3983 62643 XOR\n2 1 3977 3982 62642 XOR\n2 1 3976 3981 62641 XOR\n2 1 3975 3980 62640 XOR\n2 1 3974 3979 62639 XOR\n2 1 62670 3992 101717 XOR\n2 1 101717 99669 124971 XOR\n2 1 62669 3991 101716 XOR\n2 1 101716 99668 124970 XOR\n2 1 62668 3990 101715 XOR\n2 1 101715 99667 124969 XOR\n2 1 62667 3989 101714 XOR\n2 1 101714 99666 124968 XOR\n2 1 62666 3988 101713 XOR\n2 1 101713 99665 124967 XOR\n2 1 62665 3987 101712 XOR\n2 1 101712 99664 124966 XOR\n2 1 62664 3986 101711 XOR\n2 1 101711 99663 124965 XOR\n2 1 62663 3985 101710 XOR\n2 1 101710 99662 124964 XOR\n2 1 62662 3984 101709 XOR\n2 1 101709 99661 124963 XOR\n2 1 62661 3983 101708 XOR\n2 1 101708 99660 124962 XOR\n2 1 62660 3982 101707 XOR\n2 1 101707 99659 124961 XOR\n2 1 62659 3981 101706 XOR\n2 1 101706 99658 124960 XOR\n2 1 62658 3980 101705 XOR\n",
"2 1 101705 99657 124959 XOR\n2 1 62657 3979 101704 XOR\n2 1 101704 99656 124958 XOR\n2 1 62656 3978 101703 XOR\n2 1 101703 99655 124957 XOR\n2 1 62655 3977 101702 XOR\n2 1 101702 99654 124956 XOR\n2 1 62654 3976 101701 XOR\n2 1 101701 99653 124955 XOR\n2 1 62653 3975 101700 XOR\n2 1 101700 99652 124954 XOR\n2 1 62652 3974 101699 XOR\n2 1 101699 99651 124953 XOR\n2 1 62651 3973 101698 XOR\n2 1 101698 99650 124952 XOR\n2 1 62650 3972 101697 XOR\n2 1 101697 99649 124951 XOR\n2 1 62649 3971 101696 XOR\n2 1 101696 99648 124950 XOR\n2 1 62648 3970 101695 XOR\n2 1 101695 99647 124949 XOR\n2 1 62647 3969 101694 XOR\n2 1 101694 99646 124948 XOR\n2 1 62646 3968 101693 XOR\n2 1 101693 99645 124947 XOR\n2 1 62645 3999 101692 XOR\n2 1 101692 99644 124946 XOR\n2 1 62644 3998 101691 XOR\n2 1 101691 99643 124945 XOR\n2 1 62643 3997 101690 XOR\n2 1 101690 99642 124944 XOR\n2 1 62642 3996 101689 XOR\n2 1 101689 99641 124943 XOR\n2 1 62641 3995 101688 XOR\n2 1 101688 99640 124942 XOR\n2 1 62640 3994 101687 XOR\n2 1 101687 99639 124941 XOR\n2 1 62639 3993 101686 XOR\n2 1 101686 99638 124910 AND\n2 1 101686 99638 97590 XOR\n2 1 97590 95542 124786 AND\n2 1 97590 95542 91505 XOR\n2 1 4512 91505 109474 AND\n2 1 4512 91505 3936 XOR\n2 1 4513 109474 18037 XOR\n2 1 91505 85361 109536 AND\n2 1 91505 85361 4384 XOR\n2 1 85362 109536 18128 XOR\n2 1 160 3936 123815 AND\n2 1 160 3936 95414 XOR\n2 1 161 123815 43452 XOR\n2 1 95543 124786 45144 XOR\n2 1 124941 124910 97591 XOR\n2 1 97591 95543 124817 XOR\n2 1 124817 124786 91506 XOR\n2 1 4513 91506 109505 XOR\n2 1 109505 109474 3937 XOR\n2 1 91506 109474 18038 XOR\n2 1 18037 18038 18036 AND\n2 1 18036 109474 109475 XOR\n2 1 4514 109475 18040 XOR\n2 1 91506 85362 109567 XOR\n2 1 109567 109536 4385 XOR\n2 1 91506 109536 18127 XOR\n2 1 18127 18128 18126 AND\n2 1 18126 109536 109537 XOR\n2 1 85363 109537 18131 XOR\n2 1 161 3937 123846 XOR\n2 1 123846 123815 95415 XOR\n2 1 3937 123815 43453 XOR\n2 1 43452 43453 43451 AND\n2 1 43451 123815 123816 XOR\n2 1 162 123816 43455 XOR\n2 1 97591 124786 45143 XOR\n2 1 45143 45144 45142 AND\n2 1 45142 124786 124787 XOR\n2 1 95544 124787 45147 XOR\n2 1 101687 124910 45323 XOR\n2 1 99639 124910 45324 XOR\n2 1 45323 45324 45322 AND\n2 1 45322 124910 124911 XOR\n2 1 124942 124911 97592 XOR\n2 1 97592 95544 124818 XOR\n2 1 124818 124787 93496 XOR\n1 1 93496 91507 INV\n2 1 4514 91507 109506 XOR\n2 1 109506 109475 3938 XOR\n2 1 91507 109475 18041 XOR\n2 1 18040 18041 18039 AND\n2 1 18039 109475 109476 XOR\n2 1 4515 109476 18043 XOR\n2 1 91507 85363 109568 XOR\n2 1 109568 109537 4386 XOR\n2 1 91507 109537 18130 XOR\n2 1 18130 18131 18129 AND\n2 1 18129 109537 109538 XOR\n2 1 85364 109538 18134 XOR\n2 1 162 3938 123847 XOR\n2 1 123847 123816 95416 XOR\n2 1 3938 123816 43456 XOR\n2 1 43455 43456 43454 AND\n2 1 43454 123816 123817 XOR\n2 1 163 123817 43458 XOR\n2 1 97592 124787 45146 XOR\n2 1 45146 45147 45145 AND\n2 1 45145 124787 124788 XOR\n2 1 95545 124788 45150 XOR\n2 1 101688 124911 45326 XOR\n2 1 99640 124911 45327 XOR\n2 1 45326 45327 45325 AND\n2 1 45325 124911 124912 XOR\n2 1 124943 124912 97593 XOR\n2 1 97593 95545 124819 XOR\n2 1 124819 124788 93497 XOR\n2 1 93497 93496 91508 XOR\n2 1 91508 109476 18044 XOR\n2 1 18043 18044 18042 AND\n2 1 18042 109476 109477 XOR\n2 1 4516 109477 18046 XOR\n2 1 91508 85364 109569 XOR\n2 1 109569 109538 4387 XOR\n2 1 91508 109538 18133 XOR\n2 1 18133 18134 18132 AND\n2 1 18132 109538 109539 XOR\n2 1 85365 109539 18137 XOR\n2 1 4515 91508 109507 XOR\n2 1 109507 109476 3939 XOR\n2 1 3939 123817 43459 XOR\n",
"2 1 43458 43459 43457 AND\n2 1 43457 123817 123818 XOR\n2 1 164 123818 43461 XOR\n2 1 163 3939 123848 XOR\n2 1 123848 123817 95417 XOR\n2 1 91508 93496 45062 AND\n2 1 45062 93496 45064 XOR\n2 1 97593 124788 45149 XOR\n2 1 45149 45150 45148 AND\n2 1 45148 124788 124789 XOR\n2 1 95546 124789 45153 XOR\n2 1 101689 124912 45329 XOR\n2 1 99641 124912 45330 XOR\n2 1 45329 45330 45328 AND\n2 1 45328 124912 124913 XOR\n2 1 124944 124913 97594 XOR\n2 1 97594 95546 124820 XOR\n2 1 124820 124789 93498 XOR\n2 1 93498 45064 91509 XOR\n2 1 91509 109477 18047 XOR\n2 1 18046 18047 18045 AND\n2 1 18045 109477 109478 XOR\n2 1 4517 109478 18049 XOR\n2 1 91509 85365 109570 XOR\n2 1 109570 109539 4388 XOR\n2 1 91509 109539 18136 XOR\n2 1 18136 18137 18135 AND\n2 1 18135 109539 109540 XOR\n2 1 85366 109540 18140 XOR\n2 1 4516 91509 109508 XOR\n2 1 109508 109477 3940 XOR\n2 1 3940 123818 43462 XOR\n2 1 43461 43462 43460 AND\n2 1 43460 123818 123819 XOR\n2 1 165 123819 43464 XOR\n2 1 164 3940 123849 XOR\n2 1 123849 123818 95418 XOR\n2 1 91509 45064 45063 AND\n2 1 45063 45064 124773 XOR\n1 1 124773 45067 INV\n2 1 97594 124789 45152 XOR\n2 1 45152 45153 45151 AND\n2 1 45151 124789 124790 XOR\n2 1 95547 124790 45156 XOR\n2 1 101690 124913 45332 XOR\n2 1 99642 124913 45333 XOR\n2 1 45332 45333 45331 AND\n2 1 45331 124913 124914 XOR\n2 1 124945 124914 97595 XOR\n2 1 97595 95547 124821 XOR\n2 1 124821 124790 93499 XOR\n1 1 93499 45129 INV\n2 1 45129 124773 91510 XOR\n2 1 4517 91510 109509 XOR\n2 1 109509 109478 3941 XOR\n2 1 91510 109478 18050 XOR\n2 1 18049 18050 18048 AND\n2 1 18048 109478 109479 XOR\n2 1 4518 109479 18052 XOR\n2 1 91510 85366 109571 XOR\n2 1 109571 109540 4389 XOR\n2 1 91510 109540 18139 XOR\n2 1 18139 18140 18138 AND\n2 1 18138 109540 109541 XOR\n2 1 85367 109541 18143 XOR\n2 1 165 3941 123850 XOR\n2 1 123850 123819 95419 XOR\n2 1 3941 123819 43465 XOR\n2 1 43464 43465 43463 AND\n2 1 43463 123819 123820 XOR\n2 1 166 123820 43467 XOR\n2 1 93499 124773 45066 XOR\n2 1 45066 45067 45065 AND\n2 1 45065 124773 45069 XOR\n2 1 97595 124790 45155 XOR\n2 1 45155 45156 45154 AND\n2 1 45154 124790 124791 XOR\n2 1 95548 124791 45159 XOR\n2 1 101691 124914 45335 XOR\n2 1 99643 124914 45336 XOR\n2 1 45335 45336 45334 AND\n2 1 45334 124914 124915 XOR\n2 1 124946 124915 97596 XOR\n2 1 97596 95548 124822 XOR\n2 1 124822 124791 93500 XOR\n2 1 93500 45069 91511 XOR\n2 1 91511 109479 18053 XOR\n2 1 18052 18053 18051 AND\n2 1 18051 109479 109480 XOR\n2 1 4519 109480 18055 XOR\n2 1 91511 85367 109572 XOR\n2 1 109572 109541 4390 XOR\n2 1 91511 109541 18142 XOR\n2 1 18142 18143 18141 AND\n2 1 18141 109541 109542 XOR\n2 1 85368 109542 18146 XOR\n2 1 4518 91511 109510 XOR\n2 1 109510 109479 3942 XOR\n2 1 3942 123820 43468 XOR\n2 1 43467 43468 43466 AND\n2 1 43466 123820 123821 XOR\n2 1 167 123821 43470 XOR\n2 1 166 3942 123851 XOR\n2 1 123851 123820 95420 XOR\n2 1 91511 45069 45068 AND\n2 1 45068 45069 124774 XOR\n1 1 124774 45072 INV\n2 1 97596 124791 45158 XOR\n2 1 45158 45159 45157 AND\n2 1 45157 124791 124792 XOR\n2 1 95549 124792 45162 XOR\n2 1 101692 124915 45338 XOR\n2 1 99644 124915 45339 XOR\n2 1 45338 45339 45337 AND\n2 1 45337 124915 124916 XOR\n2 1 124947 124916 97597 XOR\n2 1 97597 95549 124823 XOR\n2 1 124823 124792 93501 XOR\n1 1 93501 45130 INV\n2 1 45130 124774 91512 XOR\n2 1 4519 91512 109511 XOR\n2 1 109511 109480 3943 XOR\n2 1 91512 109480 18056 XOR\n2 1 18055 18056 18054 AND\n2 1 18054 109480 109481 XOR\n2 1 4520 109481 18058 XOR\n2 1 91512 85368 109573 XOR\n2 1 109573 109542 4391 XOR\n",
"2 1 91512 109542 18145 XOR\n2 1 18145 18146 18144 AND\n2 1 18144 109542 109543 XOR\n2 1 85369 109543 18149 XOR\n2 1 167 3943 123852 XOR\n2 1 123852 123821 95421 XOR\n2 1 3943 123821 43471 XOR\n2 1 43470 43471 43469 AND\n2 1 43469 123821 123822 XOR\n2 1 168 123822 43473 XOR\n2 1 93501 124774 45071 XOR\n2 1 45071 45072 45070 AND\n2 1 45070 124774 45074 XOR\n2 1 97597 124792 45161 XOR\n2 1 45161 45162 45160 AND\n2 1 45160 124792 124793 XOR\n2 1 95550 124793 45165 XOR\n2 1 101693 124916 45341 XOR\n2 1 99645 124916 45342 XOR\n2 1 45341 45342 45340 AND\n2 1 45340 124916 124917 XOR\n2 1 124948 124917 97598 XOR\n2 1 97598 95550 124824 XOR\n2 1 124824 124793 93502 XOR\n2 1 93502 45074 91513 XOR\n2 1 91513 109481 18059 XOR\n2 1 18058 18059 18057 AND\n2 1 18057 109481 109482 XOR\n2 1 4521 109482 18061 XOR\n2 1 91513 85369 109574 XOR\n2 1 109574 109543 4392 XOR\n2 1 91513 109543 18148 XOR\n2 1 18148 18149 18147 AND\n2 1 18147 109543 109544 XOR\n2 1 85370 109544 18152 XOR\n2 1 4520 91513 109512 XOR\n2 1 109512 109481 3944 XOR\n2 1 3944 123822 43474 XOR\n2 1 43473 43474 43472 AND\n2 1 43472 123822 123823 XOR\n2 1 169 123823 43476 XOR\n2 1 168 3944 123853 XOR\n2 1 123853 123822 95422 XOR\n2 1 91513 45074 45073 AND\n2 1 45073 45074 124775 XOR\n1 1 124775 45077 INV\n2 1 97598 124793 45164 XOR\n2 1 45164 45165 45163 AND\n2 1 45163 124793 124794 XOR\n2 1 95551 124794 45168 XOR\n2 1 101694 124917 45344 XOR\n2 1 99646 124917 45345 XOR\n2 1 45344 45345 45343 AND\n2 1 45343 124917 124918 XOR\n2 1 124949 124918 97599 XOR\n2 1 97599 95551 124825 XOR\n2 1 124825 124794 93503 XOR\n1 1 93503 45131 INV\n2 1 45131 124775 91514 XOR\n2 1 4521 91514 109513 XOR\n2 1 109513 109482 3945 XOR\n2 1 91514 109482 18062 XOR\n2 1 18061 18062 18060 AND\n2 1 18060 109482 109483 XOR\n2 1 4522 109483 18064 XOR\n2 1 91514 85370 109575 XOR\n2 1 109575 109544 4393 XOR\n2 1 91514 109544 18151 XOR\n2 1 18151 18152 18150 AND\n2 1 18150 109544 109545 XOR\n2 1 85371 109545 18155 XOR\n2 1 169 3945 123854 XOR\n2 1 123854 123823 95423 XOR\n2 1 3945 123823 43477 XOR\n2 1 43476 43477 43475 AND\n2 1 43475 123823 123824 XOR\n2 1 170 123824 43479 XOR\n2 1 93503 124775 45076 XOR\n2 1 45076 45077 45075 AND\n2 1 45075 124775 45079 XOR\n2 1 97599 124794 45167 XOR\n2 1 45167 45168 45166 AND\n2 1 45166 124794 124795 XOR\n2 1 95552 124795 45171 XOR\n2 1 101695 124918 45347 XOR\n2 1 99647 124918 45348 XOR\n2 1 45347 45348 45346 AND\n2 1 45346 124918 124919 XOR\n2 1 124950 124919 97600 XOR\n2 1 97600 95552 124826 XOR\n2 1 124826 124795 93504 XOR\n2 1 93504 45079 91515 XOR\n2 1 91515 109483 18065 XOR\n2 1 18064 18065 18063 AND\n2 1 18063 109483 109484 XOR\n2 1 4523 109484 18067 XOR\n2 1 91515 85371 109576 XOR\n2 1 109576 109545 4394 XOR\n2 1 91515 109545 18154 XOR\n2 1 18154 18155 18153 AND\n2 1 18153 109545 109546 XOR\n2 1 85372 109546 18158 XOR\n2 1 4522 91515 109514 XOR\n2 1 109514 109483 3946 XOR\n2 1 3946 123824 43480 XOR\n2 1 43479 43480 43478 AND\n2 1 43478 123824 123825 XOR\n2 1 171 123825 43482 XOR\n2 1 170 3946 123855 XOR\n2 1 123855 123824 95424 XOR\n2 1 91515 45079 45078 AND\n2 1 45078 45079 45081 XOR\n2 1 97600 124795 45170 XOR\n2 1 45170 45171 45169 AND\n2 1 45169 124795 124796 XOR\n2 1 95553 124796 45174 XOR\n2 1 101696 124919 45350 XOR\n2 1 99648 124919 45351 XOR\n2 1 45350 45351 45349 AND\n2 1 45349 124919 124920 XOR\n2 1 124951 124920 97601 XOR\n2 1 97601 95553 124827 XOR\n2 1 124827 124796 93505 XOR\n2 1 93505 45081 91516 XOR\n2 1 91516 109484 18068 XOR\n2 1 18067 18068 18066 AND\n2 1 18066 109484 109485 XOR\n2 1 4524 109485 18070 XOR\n",
"2 1 91516 85372 109577 XOR\n2 1 109577 109546 4395 XOR\n2 1 91516 109546 18157 XOR\n2 1 18157 18158 18156 AND\n2 1 18156 109546 109547 XOR\n2 1 85373 109547 18161 XOR\n2 1 4523 91516 109515 XOR\n2 1 109515 109484 3947 XOR\n2 1 3947 123825 43483 XOR\n2 1 43482 43483 43481 AND\n2 1 43481 123825 123826 XOR\n2 1 172 123826 43485 XOR\n2 1 171 3947 123856 XOR\n2 1 123856 123825 95425 XOR\n2 1 91516 45081 45080 AND\n2 1 45080 45081 45083 XOR\n2 1 97601 124796 45173 XOR\n2 1 45173 45174 45172 AND\n2 1 45172 124796 124797 XOR\n2 1 95554 124797 45177 XOR\n2 1 101697 124920 45353 XOR\n2 1 99649 124920 45354 XOR\n2 1 45353 45354 45352 AND\n2 1 45352 124920 124921 XOR\n2 1 124952 124921 97602 XOR\n2 1 97602 95554 124828 XOR\n2 1 124828 124797 93506 XOR\n2 1 93506 45083 91517 XOR\n2 1 91517 109485 18071 XOR\n2 1 18070 18071 18069 AND\n2 1 18069 109485 109486 XOR\n2 1 4525 109486 18073 XOR\n2 1 91517 85373 109578 XOR\n2 1 109578 109547 4396 XOR\n2 1 91517 109547 18160 XOR\n2 1 18160 18161 18159 AND\n2 1 18159 109547 109548 XOR\n2 1 85374 109548 18164 XOR\n2 1 4524 91517 109516 XOR\n2 1 109516 109485 3948 XOR\n2 1 3948 123826 43486 XOR\n2 1 43485 43486 43484 AND\n2 1 43484 123826 123827 XOR\n2 1 173 123827 43488 XOR\n2 1 172 3948 123857 XOR\n2 1 123857 123826 95426 XOR\n2 1 91517 45083 45082 AND\n2 1 45082 45083 45085 XOR\n2 1 97602 124797 45176 XOR\n2 1 45176 45177 45175 AND\n2 1 45175 124797 124798 XOR\n2 1 95555 124798 45180 XOR\n2 1 101698 124921 45356 XOR\n2 1 99650 124921 45357 XOR\n2 1 45356 45357 45355 AND\n2 1 45355 124921 124922 XOR\n2 1 124953 124922 97603 XOR\n2 1 97603 95555 124829 XOR\n2 1 124829 124798 93507 XOR\n2 1 93507 45085 91518 XOR\n2 1 91518 109486 18074 XOR\n2 1 18073 18074 18072 AND\n2 1 18072 109486 109487 XOR\n2 1 4526 109487 18076 XOR\n2 1 91518 85374 109579 XOR\n2 1 109579 109548 4397 XOR\n2 1 91518 109548 18163 XOR\n2 1 18163 18164 18162 AND\n2 1 18162 109548 109549 XOR\n2 1 85375 109549 18167 XOR\n2 1 4525 91518 109517 XOR\n2 1 109517 109486 3949 XOR\n2 1 3949 123827 43489 XOR\n2 1 43488 43489 43487 AND\n2 1 43487 123827 123828 XOR\n2 1 174 123828 43491 XOR\n2 1 173 3949 123858 XOR\n2 1 123858 123827 95427 XOR\n2 1 91518 45085 45084 AND\n2 1 45084 45085 45087 XOR\n2 1 97603 124798 45179 XOR\n2 1 45179 45180 45178 AND\n2 1 45178 124798 124799 XOR\n2 1 95556 124799 45183 XOR\n2 1 101699 124922 45359 XOR\n2 1 99651 124922 45360 XOR\n2 1 45359 45360 45358 AND\n2 1 45358 124922 124923 XOR\n2 1 124954 124923 97604 XOR\n2 1 97604 95556 124830 XOR\n2 1 124830 124799 93508 XOR\n2 1 93508 45087 91519 XOR\n2 1 91519 109487 18077 XOR\n2 1 18076 18077 18075 AND\n2 1 18075 109487 109488 XOR\n2 1 4527 109488 18079 XOR\n2 1 91519 85375 109580 XOR\n2 1 109580 109549 4398 XOR\n2 1 91519 109549 18166 XOR\n2 1 18166 18167 18165 AND\n2 1 18165 109549 109550 XOR\n2 1 85376 109550 18170 XOR\n2 1 4526 91519 109518 XOR\n2 1 109518 109487 3950 XOR\n2 1 3950 123828 43492 XOR\n2 1 43491 43492 43490 AND\n2 1 43490 123828 123829 XOR\n2 1 175 123829 43494 XOR\n2 1 174 3950 123859 XOR\n2 1 123859 123828 95428 XOR\n2 1 91519 45087 45086 AND\n2 1 45086 45087 124776 XOR\n1 1 124776 45090 INV\n2 1 97604 124799 45182 XOR\n2 1 45182 45183 45181 AND\n2 1 45181 124799 124800 XOR\n2 1 95557 124800 45186 XOR\n2 1 101700 124923 45362 XOR\n2 1 99652 124923 45363 XOR\n2 1 45362 45363 45361 AND\n2 1 45361 124923 124924 XOR\n2 1 124955 124924 97605 XOR\n2 1 97605 95557 124831 XOR\n2 1 124831 124800 93509 XOR\n1 1 93509 45132 INV\n2 1 45132 124776 91520 XOR\n2 1 4527 91520 109519 XOR\n2 1 109519 109488 3951 XOR\n",
"2 1 91520 109488 18080 XOR\n2 1 18079 18080 18078 AND\n2 1 18078 109488 109489 XOR\n2 1 4528 109489 18082 XOR\n2 1 91520 85376 109581 XOR\n2 1 109581 109550 4399 XOR\n2 1 91520 109550 18169 XOR\n2 1 18169 18170 18168 AND\n2 1 18168 109550 109551 XOR\n2 1 85377 109551 18173 XOR\n2 1 175 3951 123860 XOR\n2 1 123860 123829 95429 XOR\n2 1 3951 123829 43495 XOR\n2 1 43494 43495 43493 AND\n2 1 43493 123829 123830 XOR\n2 1 176 123830 43497 XOR\n2 1 93509 124776 45089 XOR\n2 1 45089 45090 45088 AND\n2 1 45088 124776 124777 XOR\n1 1 124777 45093 INV\n2 1 97605 124800 45185 XOR\n2 1 45185 45186 45184 AND\n2 1 45184 124800 124801 XOR\n2 1 95558 124801 45189 XOR\n2 1 101701 124924 45365 XOR\n2 1 99653 124924 45366 XOR\n2 1 45365 45366 45364 AND\n2 1 45364 124924 124925 XOR\n2 1 124956 124925 97606 XOR\n2 1 97606 95558 124832 XOR\n2 1 124832 124801 93510 XOR\n1 1 93510 45133 INV\n2 1 45133 124777 91521 XOR\n2 1 4528 91521 109520 XOR\n2 1 109520 109489 3952 XOR\n2 1 91521 109489 18083 XOR\n2 1 18082 18083 18081 AND\n2 1 18081 109489 109490 XOR\n2 1 4529 109490 18085 XOR\n2 1 91521 85377 109582 XOR\n2 1 109582 109551 4400 XOR\n2 1 91521 109551 18172 XOR\n2 1 18172 18173 18171 AND\n2 1 18171 109551 109552 XOR\n2 1 85378 109552 18176 XOR\n2 1 176 3952 123861 XOR\n2 1 123861 123830 95430 XOR\n2 1 3952 123830 43498 XOR\n2 1 43497 43498 43496 AND\n2 1 43496 123830 123831 XOR\n2 1 177 123831 43500 XOR\n2 1 93510 124777 45092 XOR\n2 1 45092 45093 45091 AND\n2 1 45091 124777 124778 XOR\n1 1 124778 45096 INV\n2 1 97606 124801 45188 XOR\n2 1 45188 45189 45187 AND\n2 1 45187 124801 124802 XOR\n2 1 95559 124802 45192 XOR\n2 1 101702 124925 45368 XOR\n2 1 99654 124925 45369 XOR\n2 1 45368 45369 45367 AND\n2 1 45367 124925 124926 XOR\n2 1 124957 124926 97607 XOR\n2 1 97607 95559 124833 XOR\n2 1 124833 124802 93511 XOR\n1 1 93511 45134 INV\n2 1 45134 124778 91522 XOR\n2 1 4529 91522 109521 XOR\n2 1 109521 109490 3953 XOR\n2 1 91522 109490 18086 XOR\n2 1 18085 18086 18084 AND\n2 1 18084 109490 109491 XOR\n2 1 4530 109491 18088 XOR\n2 1 91522 85378 109583 XOR\n2 1 109583 109552 4401 XOR\n2 1 91522 109552 18175 XOR\n2 1 18175 18176 18174 AND\n2 1 18174 109552 109553 XOR\n2 1 85379 109553 18179 XOR\n2 1 177 3953 123862 XOR\n2 1 123862 123831 95431 XOR\n2 1 3953 123831 43501 XOR\n2 1 43500 43501 43499 AND\n2 1 43499 123831 123832 XOR\n2 1 178 123832 43503 XOR\n2 1 93511 124778 45095 XOR\n2 1 45095 45096 45094 AND\n2 1 45094 124778 124779 XOR\n1 1 124779 45099 INV\n2 1 97607 124802 45191 XOR\n2 1 45191 45192 45190 AND\n2 1 45190 124802 124803 XOR\n2 1 95560 124803 45195 XOR\n2 1 101703 124926 45371 XOR\n2 1 99655 124926 45372 XOR\n2 1 45371 45372 45370 AND\n2 1 45370 124926 124927 XOR\n2 1 124958 124927 97608 XOR\n2 1 97608 95560 124834 XOR\n2 1 124834 124803 93512 XOR\n1 1 93512 45135 INV\n2 1 45135 124779 91523 XOR\n2 1 4530 91523 109522 XOR\n2 1 109522 109491 3954 XOR\n2 1 91523 109491 18089 XOR\n2 1 18088 18089 18087 AND\n2 1 18087 109491 109492 XOR\n2 1 4531 109492 18091 XOR\n2 1 91523 85379 109584 XOR\n2 1 109584 109553 4402 XOR\n2 1 91523 109553 18178 XOR\n2 1 18178 18179 18177 AND\n2 1 18177 109553 109554 XOR\n2 1 85380 109554 18182 XOR\n2 1 178 3954 123863 XOR\n2 1 123863 123832 95432 XOR\n2 1 3954 123832 43504 XOR\n2 1 43503 43504 43502 AND\n2 1 43502 123832 123833 XOR\n2 1 179 123833 43506 XOR\n2 1 93512 124779 45098 XOR\n2 1 45098 45099 45097 AND\n2 1 45097 124779 124780 XOR\n1 1 124780 45102 INV\n2 1 97608 124803 45194 XOR\n2 1 45194 45195 45193 AND\n2 1 45193 124803 124804 XOR\n",
"2 1 95561 124804 45198 XOR\n2 1 101704 124927 45374 XOR\n2 1 99656 124927 45375 XOR\n2 1 45374 45375 45373 AND\n2 1 45373 124927 124928 XOR\n2 1 124959 124928 97609 XOR\n2 1 97609 95561 124835 XOR\n2 1 124835 124804 93513 XOR\n1 1 93513 45136 INV\n2 1 45136 124780 91524 XOR\n2 1 4531 91524 109523 XOR\n2 1 109523 109492 3955 XOR\n2 1 91524 109492 18092 XOR\n2 1 18091 18092 18090 AND\n2 1 18090 109492 109493 XOR\n2 1 4532 109493 18094 XOR\n2 1 91524 85380 109585 XOR\n2 1 109585 109554 4403 XOR\n2 1 91524 109554 18181 XOR\n2 1 18181 18182 18180 AND\n2 1 18180 109554 109555 XOR\n2 1 85381 109555 18185 XOR\n2 1 179 3955 123864 XOR\n2 1 123864 123833 95433 XOR\n2 1 3955 123833 43507 XOR\n2 1 43506 43507 43505 AND\n2 1 43505 123833 123834 XOR\n2 1 180 123834 43509 XOR\n2 1 93513 124780 45101 XOR\n2 1 45101 45102 45100 AND\n2 1 45100 124780 124781 XOR\n1 1 124781 45105 INV\n2 1 97609 124804 45197 XOR\n2 1 45197 45198 45196 AND\n2 1 45196 124804 124805 XOR\n2 1 95562 124805 45201 XOR\n2 1 101705 124928 45377 XOR\n2 1 99657 124928 45378 XOR\n2 1 45377 45378 45376 AND\n2 1 45376 124928 124929 XOR\n2 1 124960 124929 97610 XOR\n2 1 97610 95562 124836 XOR\n2 1 124836 124805 93514 XOR\n1 1 93514 45137 INV\n2 1 45137 124781 91525 XOR\n2 1 4532 91525 109524 XOR\n2 1 109524 109493 3956 XOR\n2 1 91525 109493 18095 XOR\n2 1 18094 18095 18093 AND\n2 1 18093 109493 109494 XOR\n2 1 4533 109494 18097 XOR\n2 1 91525 85381 109586 XOR\n2 1 109586 109555 4404 XOR\n2 1 91525 109555 18184 XOR\n2 1 18184 18185 18183 AND\n2 1 18183 109555 109556 XOR\n2 1 85382 109556 18188 XOR\n2 1 180 3956 123865 XOR\n2 1 123865 123834 95434 XOR\n2 1 3956 123834 43510 XOR\n2 1 43509 43510 43508 AND\n2 1 43508 123834 123835 XOR\n2 1 181 123835 43512 XOR\n2 1 93514 124781 45104 XOR\n2 1 45104 45105 45103 AND\n2 1 45103 124781 124782 XOR\n1 1 124782 45108 INV\n2 1 97610 124805 45200 XOR\n2 1 45200 45201 45199 AND\n2 1 45199 124805 124806 XOR\n2 1 95563 124806 45204 XOR\n2 1 101706 124929 45380 XOR\n2 1 99658 124929 45381 XOR\n2 1 45380 45381 45379 AND\n2 1 45379 124929 124930 XOR\n2 1 124961 124930 97611 XOR\n2 1 97611 95563 124837 XOR\n2 1 124837 124806 93515 XOR\n1 1 93515 45138 INV\n2 1 45138 124782 91526 XOR\n2 1 4533 91526 109525 XOR\n2 1 109525 109494 3957 XOR\n2 1 91526 109494 18098 XOR\n2 1 18097 18098 18096 AND\n2 1 18096 109494 109495 XOR\n2 1 4534 109495 18100 XOR\n2 1 91526 85382 109587 XOR\n2 1 109587 109556 4405 XOR\n2 1 91526 109556 18187 XOR\n2 1 18187 18188 18186 AND\n2 1 18186 109556 109557 XOR\n2 1 85383 109557 18191 XOR\n2 1 181 3957 123866 XOR\n2 1 123866 123835 95435 XOR\n2 1 3957 123835 43513 XOR\n2 1 43512 43513 43511 AND\n2 1 43511 123835 123836 XOR\n2 1 182 123836 43515 XOR\n2 1 93515 124782 45107 XOR\n2 1 45107 45108 45106 AND\n2 1 45106 124782 45110 XOR\n2 1 97611 124806 45203 XOR\n2 1 45203 45204 45202 AND\n2 1 45202 124806 124807 XOR\n2 1 95564 124807 45207 XOR\n2 1 101707 124930 45383 XOR\n2 1 99659 124930 45384 XOR\n2 1 45383 45384 45382 AND\n2 1 45382 124930 124931 XOR\n2 1 124962 124931 97612 XOR\n2 1 97612 95564 124838 XOR\n2 1 124838 124807 93516 XOR\n2 1 93516 45110 91527 XOR\n2 1 91527 109495 18101 XOR\n2 1 18100 18101 18099 AND\n2 1 18099 109495 109496 XOR\n2 1 4535 109496 18103 XOR\n2 1 91527 85383 109588 XOR\n2 1 109588 109557 4406 XOR\n2 1 91527 109557 18190 XOR\n2 1 18190 18191 18189 AND\n2 1 18189 109557 109558 XOR\n2 1 85384 109558 18194 XOR\n2 1 4534 91527 109526 XOR\n2 1 109526 109495 3958 XOR\n2 1 3958 123836 43516 XOR\n2 1 43515 43516 43514 AND\n2 1 43514 123836 123837 XOR\n",
"2 1 183 123837 43518 XOR\n2 1 182 3958 123867 XOR\n2 1 123867 123836 95436 XOR\n2 1 91527 45110 45109 AND\n2 1 45109 45110 45112 XOR\n2 1 97612 124807 45206 XOR\n2 1 45206 45207 45205 AND\n2 1 45205 124807 124808 XOR\n2 1 95565 124808 45210 XOR\n2 1 101708 124931 45386 XOR\n2 1 99660 124931 45387 XOR\n2 1 45386 45387 45385 AND\n2 1 45385 124931 124932 XOR\n2 1 124963 124932 97613 XOR\n2 1 97613 95565 124839 XOR\n2 1 124839 124808 93517 XOR\n2 1 93517 45112 91528 XOR\n2 1 91528 109496 18104 XOR\n2 1 18103 18104 18102 AND\n2 1 18102 109496 109497 XOR\n2 1 4536 109497 18106 XOR\n2 1 91528 85384 109589 XOR\n2 1 109589 109558 4407 XOR\n2 1 91528 109558 18193 XOR\n2 1 18193 18194 18192 AND\n2 1 18192 109558 109559 XOR\n2 1 85385 109559 18197 XOR\n2 1 4535 91528 109527 XOR\n2 1 109527 109496 3959 XOR\n2 1 3959 123837 43519 XOR\n2 1 43518 43519 43517 AND\n2 1 43517 123837 123838 XOR\n2 1 184 123838 43521 XOR\n2 1 183 3959 123868 XOR\n2 1 123868 123837 95437 XOR\n2 1 91528 45112 45111 AND\n2 1 45111 45112 45114 XOR\n2 1 97613 124808 45209 XOR\n2 1 45209 45210 45208 AND\n2 1 45208 124808 124809 XOR\n2 1 95566 124809 45213 XOR\n2 1 101709 124932 45389 XOR\n2 1 99661 124932 45390 XOR\n2 1 45389 45390 45388 AND\n2 1 45388 124932 124933 XOR\n2 1 124964 124933 97614 XOR\n2 1 97614 95566 124840 XOR\n2 1 124840 124809 93518 XOR\n2 1 93518 45114 91529 XOR\n2 1 91529 109497 18107 XOR\n2 1 18106 18107 18105 AND\n2 1 18105 109497 109498 XOR\n2 1 4537 109498 18109 XOR\n2 1 91529 85385 109590 XOR\n2 1 109590 109559 4408 XOR\n2 1 91529 109559 18196 XOR\n2 1 18196 18197 18195 AND\n2 1 18195 109559 109560 XOR\n2 1 85386 109560 18200 XOR\n2 1 4536 91529 109528 XOR\n2 1 109528 109497 3960 XOR\n2 1 3960 123838 43522 XOR\n2 1 43521 43522 43520 AND\n2 1 43520 123838 123839 XOR\n2 1 185 123839 43524 XOR\n2 1 184 3960 123869 XOR\n2 1 123869 123838 95438 XOR\n2 1 91529 45114 45113 AND\n2 1 45113 45114 124783 XOR\n1 1 124783 45117 INV\n2 1 97614 124809 45212 XOR\n2 1 45212 45213 45211 AND\n2 1 45211 124809 124810 XOR\n2 1 95567 124810 45216 XOR\n2 1 101710 124933 45392 XOR\n2 1 99662 124933 45393 XOR\n2 1 45392 45393 45391 AND\n2 1 45391 124933 124934 XOR\n2 1 124965 124934 97615 XOR\n2 1 97615 95567 124841 XOR\n2 1 124841 124810 93519 XOR\n1 1 93519 45139 INV\n2 1 45139 124783 91530 XOR\n2 1 4537 91530 109529 XOR\n2 1 109529 109498 3961 XOR\n2 1 91530 109498 18110 XOR\n2 1 18109 18110 18108 AND\n2 1 18108 109498 109499 XOR\n2 1 4538 109499 18112 XOR\n2 1 91530 85386 109591 XOR\n2 1 109591 109560 4409 XOR\n2 1 91530 109560 18199 XOR\n2 1 18199 18200 18198 AND\n2 1 18198 109560 109561 XOR\n2 1 85387 109561 18203 XOR\n2 1 185 3961 123870 XOR\n2 1 123870 123839 95439 XOR\n2 1 3961 123839 43525 XOR\n2 1 43524 43525 43523 AND\n2 1 43523 123839 123840 XOR\n2 1 186 123840 43527 XOR\n2 1 93519 124783 45116 XOR\n2 1 45116 45117 45115 AND\n2 1 45115 124783 45119 XOR\n2 1 97615 124810 45215 XOR\n2 1 45215 45216 45214 AND\n2 1 45214 124810 124811 XOR\n2 1 95568 124811 45219 XOR\n2 1 101711 124934 45395 XOR\n2 1 99663 124934 45396 XOR\n2 1 45395 45396 45394 AND\n2 1 45394 124934 124935 XOR\n2 1 124966 124935 97616 XOR\n2 1 97616 95568 124842 XOR\n2 1 124842 124811 93520 XOR\n2 1 93520 45119 91531 XOR\n2 1 91531 109499 18113 XOR\n2 1 18112 18113 18111 AND\n2 1 18111 109499 109500 XOR\n2 1 4539 109500 18115 XOR\n2 1 91531 85387 109592 XOR\n2 1 109592 109561 4410 XOR\n2 1 91531 109561 18202 XOR\n2 1 18202 18203 18201 AND\n2 1 18201 109561 109562 XOR\n2 1 85388 109562 18206 XOR\n2 1 4538 91531 109530 XOR\n2 1 109530 109499 3962 XOR\n",
"2 1 3962 123840 43528 XOR\n2 1 43527 43528 43526 AND\n2 1 43526 123840 123841 XOR\n2 1 187 123841 43530 XOR\n2 1 186 3962 123871 XOR\n2 1 123871 123840 95440 XOR\n2 1 91531 45119 45118 AND\n2 1 45118 45119 45121 XOR\n2 1 97616 124811 45218 XOR\n2 1 45218 45219 45217 AND\n2 1 45217 124811 124812 XOR\n2 1 95569 124812 45222 XOR\n2 1 101712 124935 45398 XOR\n2 1 99664 124935 45399 XOR\n2 1 45398 45399 45397 AND\n2 1 45397 124935 124936 XOR\n2 1 124967 124936 97617 XOR\n2 1 97617 95569 124843 XOR\n2 1 124843 124812 93521 XOR\n2 1 93521 45121 91532 XOR\n2 1 91532 109500 18116 XOR\n2 1 18115 18116 18114 AND\n2 1 18114 109500 109501 XOR\n2 1 4540 109501 18118 XOR\n2 1 91532 85388 109593 XOR\n2 1 109593 109562 4411 XOR\n2 1 91532 109562 18205 XOR\n2 1 18205 18206 18204 AND\n2 1 18204 109562 109563 XOR\n2 1 85389 109563 18209 XOR\n2 1 4539 91532 109531 XOR\n2 1 109531 109500 3963 XOR\n2 1 3963 123841 43531 XOR\n2 1 43530 43531 43529 AND\n2 1 43529 123841 123842 XOR\n2 1 188 123842 43533 XOR\n2 1 187 3963 123872 XOR\n2 1 123872 123841 95441 XOR\n2 1 91532 45121 45120 AND\n2 1 45120 45121 124784 XOR\n1 1 124784 45124 INV\n2 1 97617 124812 45221 XOR\n2 1 45221 45222 45220 AND\n2 1 45220 124812 124813 XOR\n2 1 95570 124813 45225 XOR\n2 1 101713 124936 45401 XOR\n2 1 99665 124936 45402 XOR\n2 1 45401 45402 45400 AND\n2 1 45400 124936 124937 XOR\n2 1 124968 124937 97618 XOR\n2 1 97618 95570 124844 XOR\n2 1 124844 124813 93522 XOR\n1 1 93522 45140 INV\n2 1 45140 124784 91533 XOR\n2 1 4540 91533 109532 XOR\n2 1 109532 109501 3964 XOR\n2 1 91533 109501 18119 XOR\n2 1 18118 18119 18117 AND\n2 1 18117 109501 109502 XOR\n2 1 4541 109502 18121 XOR\n2 1 91533 85389 109594 XOR\n2 1 109594 109563 4412 XOR\n2 1 91533 109563 18208 XOR\n2 1 18208 18209 18207 AND\n2 1 18207 109563 109564 XOR\n2 1 85390 109564 18212 XOR\n2 1 188 3964 123873 XOR\n2 1 123873 123842 95442 XOR\n2 1 3964 123842 43534 XOR\n2 1 43533 43534 43532 AND\n2 1 43532 123842 123843 XOR\n2 1 189 123843 43536 XOR\n2 1 93522 124784 45123 XOR\n2 1 45123 45124 45122 AND\n2 1 45122 124784 45126 XOR\n2 1 97618 124813 45224 XOR\n2 1 45224 45225 45223 AND\n2 1 45223 124813 124814 XOR\n2 1 95571 124814 45228 XOR\n2 1 101714 124937 45404 XOR\n2 1 99666 124937 45405 XOR\n2 1 45404 45405 45403 AND\n2 1 45403 124937 124938 XOR\n2 1 124969 124938 97619 XOR\n2 1 97619 95571 124845 XOR\n2 1 124845 124814 93523 XOR\n2 1 93523 45126 91534 XOR\n2 1 91534 109502 18122 XOR\n2 1 18121 18122 18120 AND\n2 1 18120 109502 109503 XOR\n2 1 4542 109503 18124 XOR\n2 1 91534 85390 109595 XOR\n2 1 109595 109564 4413 XOR\n2 1 91534 109564 18211 XOR\n2 1 18211 18212 18210 AND\n2 1 18210 109564 109565 XOR\n2 1 85391 109565 18215 XOR\n2 1 4541 91534 109533 XOR\n2 1 109533 109502 3965 XOR\n2 1 3965 123843 43537 XOR\n2 1 43536 43537 43535 AND\n2 1 43535 123843 123844 XOR\n2 1 190 123844 43539 XOR\n2 1 189 3965 123874 XOR\n2 1 123874 123843 95443 XOR\n2 1 91534 45126 45125 AND\n2 1 45125 45126 45128 XOR\n2 1 97619 124814 45227 XOR\n2 1 45227 45228 45226 AND\n2 1 45226 124814 124815 XOR\n2 1 95572 124815 45231 XOR\n2 1 101715 124938 45407 XOR\n2 1 99667 124938 45408 XOR\n2 1 45407 45408 45406 AND\n2 1 45406 124938 124939 XOR\n2 1 124970 124939 97620 XOR\n2 1 97620 95572 124846 XOR\n2 1 124846 124815 93524 XOR\n2 1 93524 45128 91535 XOR\n2 1 91535 109503 18125 XOR\n2 1 18124 18125 18123 AND\n2 1 18123 109503 109504 XOR\n2 1 91535 85391 109596 XOR\n2 1 109596 109565 4414 XOR\n2 1 91535 109565 18214 XOR\n2 1 18214 18215 18213 AND\n2 1 18213 109565 109566 XOR\n2 1 4542 91535 109534 XOR\n",
"2 1 109534 109503 3966 XOR\n2 1 3966 123844 43540 XOR\n2 1 43539 43540 43538 AND\n2 1 43538 123844 123845 XOR\n2 1 190 3966 123875 XOR\n2 1 123875 123844 95444 XOR\n2 1 91535 45128 45127 AND\n2 1 45127 45128 124785 XOR\n2 1 97620 124815 45230 XOR\n2 1 45230 45231 45229 AND\n2 1 45229 124815 124816 XOR\n2 1 101716 124939 45410 XOR\n2 1 99668 124939 45411 XOR\n2 1 45410 45411 45409 AND\n2 1 45409 124939 124940 XOR\n2 1 124971 124940 97621 XOR\n2 1 97621 95573 124847 XOR\n2 1 124847 124816 93525 XOR\n1 1 93525 45141 INV\n2 1 45141 124785 91536 XOR\n2 1 4543 91536 109535 XOR\n2 1 109535 109504 3967 XOR\n2 1 91536 85392 109597 XOR\n2 1 109597 109566 4415 XOR\n2 1 191 3967 123876 XOR\n2 1 123876 123845 95445 XOR\n2 1 4415 4479 74222 XOR\n2 1 4414 4478 74221 XOR\n2 1 4413 4477 74220 XOR\n2 1 4412 4476 74219 XOR\n2 1 4411 4475 74218 XOR\n2 1 4410 4474 74217 XOR\n2 1 4409 4473 74216 XOR\n2 1 4408 4472 74215 XOR\n2 1 4407 4471 74214 XOR\n2 1 4406 4470 74213 XOR\n2 1 4405 4469 74212 XOR\n2 1 4404 4468 74211 XOR\n2 1 4403 4467 74210 XOR\n2 1 4402 4466 74209 XOR\n2 1 4401 4465 74208 XOR\n2 1 4400 4464 74207 XOR\n2 1 4399 4463 74206 XOR\n2 1 4398 4462 74205 XOR\n2 1 4397 4461 74204 XOR\n2 1 4396 4460 74203 XOR\n2 1 4395 4459 74202 XOR\n2 1 4394 4458 74201 XOR\n2 1 4393 4457 74200 XOR\n2 1 4392 4456 74199 XOR\n2 1 4391 4455 74198 XOR\n2 1 4390 4454 74197 XOR\n2 1 4389 4453 74196 XOR\n2 1 4388 4452 74195 XOR\n2 1 4387 4451 74194 XOR\n2 1 4386 4450 74193 XOR\n2 1 4385 4449 74192 XOR\n2 1 4384 4448 74191 XOR\n2 1 74222 74190 74158 AND\n2 1 74221 74189 74157 AND\n2 1 74220 74188 74156 AND\n2 1 74219 74187 74155 AND\n2 1 74218 74186 74154 AND\n2 1 74217 74185 74153 AND\n2 1 74216 74184 74152 AND\n2 1 74215 74183 74151 AND\n2 1 74214 74182 74150 AND\n2 1 74213 74181 74149 AND\n2 1 74212 74180 74148 AND\n2 1 74211 74179 74147 AND\n2 1 74210 74178 74146 AND\n2 1 74209 74177 74145 AND\n2 1 74208 74176 74144 AND\n2 1 74207 74175 74143 AND\n2 1 74206 74174 74142 AND\n2 1 74205 74173 74141 AND\n2 1 74204 74172 74140 AND\n2 1 74203 74171 74139 AND\n2 1 74202 74170 74138 AND\n2 1 74201 74169 74137 AND\n2 1 74200 74168 74136 AND\n2 1 74199 74167 74135 AND\n2 1 74198 74166 74134 AND\n2 1 74197 74165 74133 AND\n2 1 74196 74164 74132 AND\n2 1 74195 74163 74131 AND\n2 1 74194 74162 74130 AND\n2 1 74193 74161 74129 AND\n2 1 74192 74160 74128 AND\n2 1 74191 74159 74127 AND\n2 1 74158 4479 87408 XOR\n2 1 74157 4478 87407 XOR\n2 1 74156 4477 87406 XOR\n2 1 74155 4476 87405 XOR\n2 1 74154 4475 87404 XOR\n2 1 74153 4474 87403 XOR\n2 1 74152 4473 87402 XOR\n2 1 74151 4472 87401 XOR\n2 1 74150 4471 87400 XOR\n2 1 74149 4470 87399 XOR\n2 1 74148 4469 87398 XOR\n2 1 74147 4468 87397 XOR\n2 1 74146 4467 87396 XOR\n2 1 74145 4466 87395 XOR\n2 1 74144 4465 87394 XOR\n2 1 74143 4464 87393 XOR\n2 1 74142 4463 87392 XOR\n2 1 74141 4462 87391 XOR\n2 1 74140 4461 87390 XOR\n2 1 74139 4460 87389 XOR\n2 1 74138 4459 87388 XOR\n2 1 74137 4458 87387 XOR\n2 1 74136 4457 87386 XOR\n2 1 74135 4456 87385 XOR\n2 1 74134 4455 87384 XOR\n2 1 74133 4454 87383 XOR\n2 1 74132 4453 87382 XOR\n2 1 74131 4452 87381 XOR\n2 1 74130 4451 87380 XOR\n2 1 74129 4450 87379 XOR\n2 1 74128 4449 87378 XOR\n2 1 74127 4448 87377 XOR\n2 1 4415 4447 74094 XOR\n2 1 4414 4446 74093 XOR\n2 1 4413 4445 74092 XOR\n2 1 4412 4444 74091 XOR\n2 1 4411 4443 74090 XOR\n2 1 4410 4442 74089 XOR\n",
"2 1 4409 4441 74088 XOR\n2 1 4408 4440 74087 XOR\n2 1 4407 4439 74086 XOR\n2 1 4406 4438 74085 XOR\n2 1 4405 4437 74084 XOR\n2 1 4404 4436 74083 XOR\n2 1 4403 4435 74082 XOR\n2 1 4402 4434 74081 XOR\n2 1 4401 4433 74080 XOR\n2 1 4400 4432 74079 XOR\n2 1 4399 4431 74078 XOR\n2 1 4398 4430 74077 XOR\n2 1 4397 4429 74076 XOR\n2 1 4396 4428 74075 XOR\n2 1 4395 4427 74074 XOR\n2 1 4394 4426 74073 XOR\n2 1 4393 4425 74072 XOR\n2 1 4392 4424 74071 XOR\n2 1 4391 4423 74070 XOR\n2 1 4390 4422 74069 XOR\n2 1 4389 4421 74068 XOR\n2 1 4388 4420 74067 XOR\n2 1 4387 4419 74066 XOR\n2 1 4386 4418 74065 XOR\n2 1 4385 4417 74064 XOR\n2 1 4384 4416 74063 XOR\n2 1 4385 4396 68558 XOR\n2 1 4384 4395 68557 XOR\n2 1 4415 4394 68556 XOR\n2 1 4414 4393 68555 XOR\n2 1 4413 4392 68554 XOR\n2 1 4412 4391 68553 XOR\n2 1 4411 4390 68552 XOR\n2 1 4410 4389 68551 XOR\n2 1 4409 4388 68550 XOR\n2 1 4408 4387 68549 XOR\n2 1 4407 4386 68548 XOR\n2 1 4406 4385 68547 XOR\n2 1 4405 4384 68546 XOR\n2 1 4404 4415 68545 XOR\n2 1 4403 4414 68544 XOR\n2 1 4402 4413 68543 XOR\n2 1 4401 4412 68542 XOR\n2 1 4400 4411 68541 XOR\n2 1 4399 4410 68540 XOR\n2 1 4398 4409 68539 XOR\n2 1 4397 4408 68538 XOR\n2 1 4396 4407 68537 XOR\n2 1 4395 4406 68536 XOR\n2 1 4394 4405 68535 XOR\n2 1 4393 4404 68534 XOR\n2 1 4392 4403 68533 XOR\n2 1 4391 4402 68532 XOR\n2 1 4390 4401 68531 XOR\n2 1 4389 4400 68530 XOR\n2 1 4388 4399 68529 XOR\n2 1 4387 4398 68528 XOR\n2 1 4386 4397 68527 XOR\n2 1 68558 4405 89456 XOR\n2 1 89456 87408 124507 XOR\n2 1 68557 4404 89455 XOR\n2 1 89455 87407 124506 XOR\n2 1 68556 4403 89454 XOR\n2 1 89454 87406 124505 XOR\n2 1 68555 4402 89453 XOR\n2 1 89453 87405 124504 XOR\n2 1 68554 4401 89452 XOR\n2 1 89452 87404 124503 XOR\n2 1 68553 4400 89451 XOR\n2 1 89451 87403 124502 XOR\n2 1 68552 4399 89450 XOR\n2 1 89450 87402 124501 XOR\n2 1 68551 4398 89449 XOR\n2 1 89449 87401 124500 XOR\n2 1 68550 4397 89448 XOR\n2 1 89448 87400 124499 XOR\n2 1 68549 4396 89447 XOR\n2 1 89447 87399 124498 XOR\n2 1 68548 4395 89446 XOR\n2 1 89446 87398 124497 XOR\n2 1 68547 4394 89445 XOR\n2 1 89445 87397 124496 XOR\n2 1 68546 4393 89444 XOR\n2 1 89444 87396 124495 XOR\n2 1 68545 4392 89443 XOR\n2 1 89443 87395 124494 XOR\n2 1 68544 4391 89442 XOR\n2 1 89442 87394 124493 XOR\n2 1 68543 4390 89441 XOR\n2 1 89441 87393 124492 XOR\n2 1 68542 4389 89440 XOR\n2 1 89440 87392 124491 XOR\n2 1 68541 4388 89439 XOR\n2 1 89439 87391 124490 XOR\n2 1 68540 4387 89438 XOR\n2 1 89438 87390 124489 XOR\n2 1 68539 4386 89437 XOR\n2 1 89437 87389 124488 XOR\n2 1 68538 4385 89436 XOR\n2 1 89436 87388 124487 XOR\n2 1 68537 4384 89435 XOR\n2 1 89435 87387 124486 XOR\n2 1 68536 4415 89434 XOR\n2 1 89434 87386 124485 XOR\n2 1 68535 4414 89433 XOR\n2 1 89433 87385 124484 XOR\n2 1 68534 4413 89432 XOR\n2 1 89432 87384 124483 XOR\n2 1 68533 4412 89431 XOR\n2 1 89431 87383 124482 XOR\n2 1 68532 4411 89430 XOR\n2 1 89430 87382 124481 XOR\n2 1 68531 4410 89429 XOR\n2 1 89429 87381 124480 XOR\n2 1 68530 4409 89428 XOR\n2 1 89428 87380 124479 XOR\n2 1 68529 4408 89427 XOR\n2 1 89427 87379 124478 XOR\n2 1 68528 4407 89426 XOR\n2 1 89426 87378 124477 XOR\n2 1 68527 4406 89425 XOR\n2 1 89425 87377 124446 AND\n2 1 89425 87377 85329 XOR\n2 1 124477 124446 85330 XOR\n2 1 89426 124446 44521 XOR\n2 1 87378 124446 44522 XOR\n2 1 44521 44522 44520 AND\n2 1 44520 124446 124447 XOR\n",
"2 1 124478 124447 85331 XOR\n2 1 89427 124447 44524 XOR\n2 1 87379 124447 44525 XOR\n2 1 44524 44525 44523 AND\n2 1 44523 124447 124448 XOR\n2 1 124479 124448 85332 XOR\n2 1 89428 124448 44527 XOR\n2 1 87380 124448 44528 XOR\n2 1 44527 44528 44526 AND\n2 1 44526 124448 124449 XOR\n2 1 124480 124449 85333 XOR\n2 1 89429 124449 44530 XOR\n2 1 87381 124449 44531 XOR\n2 1 44530 44531 44529 AND\n2 1 44529 124449 124450 XOR\n2 1 124481 124450 85334 XOR\n2 1 89430 124450 44533 XOR\n2 1 87382 124450 44534 XOR\n2 1 44533 44534 44532 AND\n2 1 44532 124450 124451 XOR\n2 1 124482 124451 85335 XOR\n2 1 89431 124451 44536 XOR\n2 1 87383 124451 44537 XOR\n2 1 44536 44537 44535 AND\n2 1 44535 124451 124452 XOR\n2 1 124483 124452 85336 XOR\n2 1 89432 124452 44539 XOR\n2 1 87384 124452 44540 XOR\n2 1 44539 44540 44538 AND\n2 1 44538 124452 124453 XOR\n2 1 124484 124453 85337 XOR\n2 1 89433 124453 44542 XOR\n2 1 87385 124453 44543 XOR\n2 1 44542 44543 44541 AND\n2 1 44541 124453 124454 XOR\n2 1 124485 124454 85338 XOR\n2 1 89434 124454 44545 XOR\n2 1 87386 124454 44546 XOR\n2 1 44545 44546 44544 AND\n2 1 44544 124454 124455 XOR\n2 1 124486 124455 85339 XOR\n2 1 89435 124455 44548 XOR\n2 1 87387 124455 44549 XOR\n2 1 44548 44549 44547 AND\n2 1 44547 124455 124456 XOR\n2 1 124487 124456 85340 XOR\n2 1 89436 124456 44551 XOR\n2 1 87388 124456 44552 XOR\n2 1 44551 44552 44550 AND\n2 1 44550 124456 124457 XOR\n2 1 124488 124457 85341 XOR\n2 1 89437 124457 44554 XOR\n2 1 87389 124457 44555 XOR\n2 1 44554 44555 44553 AND\n2 1 44553 124457 124458 XOR\n2 1 124489 124458 85342 XOR\n2 1 89438 124458 44557 XOR\n2 1 87390 124458 44558 XOR\n2 1 44557 44558 44556 AND\n2 1 44556 124458 124459 XOR\n2 1 124490 124459 85343 XOR\n2 1 89439 124459 44560 XOR\n2 1 87391 124459 44561 XOR\n2 1 44560 44561 44559 AND\n2 1 44559 124459 124460 XOR\n2 1 124491 124460 85344 XOR\n2 1 89440 124460 44563 XOR\n2 1 87392 124460 44564 XOR\n2 1 44563 44564 44562 AND\n2 1 44562 124460 124461 XOR\n2 1 124492 124461 85345 XOR\n2 1 89441 124461 44566 XOR\n2 1 87393 124461 44567 XOR\n2 1 44566 44567 44565 AND\n2 1 44565 124461 124462 XOR\n2 1 124493 124462 85346 XOR\n2 1 89442 124462 44569 XOR\n2 1 87394 124462 44570 XOR\n2 1 44569 44570 44568 AND\n2 1 44568 124462 124463 XOR\n2 1 124494 124463 85347 XOR\n2 1 89443 124463 44572 XOR\n2 1 87395 124463 44573 XOR\n2 1 44572 44573 44571 AND\n2 1 44571 124463 124464 XOR\n2 1 124495 124464 85348 XOR\n2 1 89444 124464 44575 XOR\n2 1 87396 124464 44576 XOR\n2 1 44575 44576 44574 AND\n2 1 44574 124464 124465 XOR\n2 1 124496 124465 85349 XOR\n2 1 89445 124465 44578 XOR\n2 1 87397 124465 44579 XOR\n2 1 44578 44579 44577 AND\n2 1 44577 124465 124466 XOR\n2 1 124497 124466 85350 XOR\n2 1 89446 124466 44581 XOR\n2 1 87398 124466 44582 XOR\n2 1 44581 44582 44580 AND\n2 1 44580 124466 124467 XOR\n2 1 124498 124467 85351 XOR\n2 1 89447 124467 44584 XOR\n2 1 87399 124467 44585 XOR\n2 1 44584 44585 44583 AND\n2 1 44583 124467 124468 XOR\n2 1 124499 124468 85352 XOR\n2 1 89448 124468 44587 XOR\n2 1 87400 124468 44588 XOR\n2 1 44587 44588 44586 AND\n2 1 44586 124468 124469 XOR\n2 1 124500 124469 85353 XOR\n2 1 89449 124469 44590 XOR\n2 1 87401 124469 44591 XOR\n2 1 44590 44591 44589 AND\n2 1 44589 124469 124470 XOR\n2 1 124501 124470 85354 XOR\n2 1 89450 124470 44593 XOR\n2 1 87402 124470 44594 XOR\n2 1 44593 44594 44592 AND\n2 1 44592 124470 124471 XOR\n2 1 124502 124471 85355 XOR\n2 1 89451 124471 44596 XOR\n2 1 87403 124471 44597 XOR\n2 1 44596 44597 44595 AND\n2 1 44595 124471 124472 XOR\n2 1 124503 124472 85356 XOR\n2 1 89452 124472 44599 XOR\n2 1 87404 124472 44600 XOR\n"]

end Verif.Data
