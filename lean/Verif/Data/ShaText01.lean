/-!
# Text of `data/circ/sha256.txt`, part 2 of 11

Generated by `tools/gen_circuits.py`.
-/

namespace Verif.Data

/-- Lines 12293-24580 of `data/circ/sha256.txt`, 128 per string. -/
def shaBlocks01 : List String := [
"2 1 44599 44600 44598 AND\n2 1 44598 124472 124473 XOR\n2 1 124504 124473 85357 XOR\n2 1 89453 124473 44602 XOR\n2 1 87405 124473 44603 XOR\n2 1 44602 44603 44601 AND\n2 1 44601 124473 124474 XOR\n2 1 124505 124474 85358 XOR\n2 1 89454 124474 44605 XOR\n2 1 87406 124474 44606 XOR\n2 1 44605 44606 44604 AND\n2 1 44604 124474 124475 XOR\n2 1 124506 124475 85359 XOR\n2 1 89455 124475 44608 XOR\n2 1 87407 124475 44609 XOR\n2 1 44608 44609 44607 AND\n2 1 44607 124475 124476 XOR\n2 1 124507 124476 85360 XOR\n2 1 66478 3967 66446 AND\n2 1 66477 3966 66445 AND\n2 1 66476 3965 66444 AND\n2 1 66475 3964 66443 AND\n2 1 66474 3963 66442 AND\n2 1 66473 3962 66441 AND\n2 1 66472 3961 66440 AND\n2 1 66471 3960 66439 AND\n2 1 66470 3959 66438 AND\n2 1 66469 3958 66437 AND\n2 1 66468 3957 66436 AND\n2 1 66467 3956 66435 AND\n2 1 66466 3955 66434 AND\n2 1 66465 3954 66433 AND\n2 1 66464 3953 66432 AND\n2 1 66463 3952 66431 AND\n2 1 66462 3951 66430 AND\n2 1 66461 3950 66429 AND\n2 1 66460 3949 66428 AND\n2 1 66459 3948 66427 AND\n2 1 66458 3947 66426 AND\n2 1 66457 3946 66425 AND\n2 1 66456 3945 66424 AND\n2 1 66455 3944 66423 AND\n2 1 66454 3943 66422 AND\n2 1 66453 3942 66421 AND\n2 1 66452 3941 66420 AND\n2 1 66451 3940 66419 AND\n2 1 66450 3939 66418 AND\n2 1 66449 3938 66417 AND\n2 1 66448 3937 66416 AND\n2 1 66447 3936 66415 AND\n2 1 66446 4031 99637 XOR\n2 1 66445 4030 99636 XOR\n2 1 66444 4029 99635 XOR\n2 1 66443 4028 99634 XOR\n2 1 66442 4027 99633 XOR\n2 1 66441 4026 99632 XOR\n2 1 66440 4025 99631 XOR\n2 1 66439 4024 99630 XOR\n2 1 66438 4023 99629 XOR\n2 1 66437 4022 99628 XOR\n2 1 66436 4021 99627 XOR\n2 1 66435 4020 99626 XOR\n2 1 66434 4019 99625 XOR\n2 1 66433 4018 99624 XOR\n2 1 66432 4017 99623 XOR\n2 1 66431 4016 99622 XOR\n2 1 66430 4015 99621 XOR\n2 1 66429 4014 99620 XOR\n2 1 66428 4013 99619 XOR\n2 1 66427 4012 99618 XOR\n2 1 66426 4011 99617 XOR\n2 1 66425 4010 99616 XOR\n2 1 66424 4009 99615 XOR\n2 1 66423 4008 99614 XOR\n2 1 66422 4007 99613 XOR\n2 1 66421 4006 99612 XOR\n2 1 66420 4005 99611 XOR\n2 1 66419 4004 99610 XOR\n2 1 66418 4003 99609 XOR\n2 1 66417 4002 99608 XOR\n2 1 66416 4001 99607 XOR\n2 1 66415 4000 99606 XOR\n2 1 3967 3999 66414 XOR\n2 1 3966 3998 66413 XOR\n2 1 3965 3997 66412 XOR\n2 1 3964 3996 66411 XOR\n2 1 3963 3995 66410 XOR\n2 1 3962 3994 66409 XOR\n2 1 3961 3993 66408 XOR\n2 1 3960 3992 66407 XOR\n2 1 3959 3991 66406 XOR\n2 1 3958 3990 66405 XOR\n2 1 3957 3989 66404 XOR\n2 1 3956 3988 66403 XOR\n2 1 3955 3987 66402 XOR\n2 1 3954 3986 66401 XOR\n2 1 3953 3985 66400 XOR\n2 1 3952 3984 66399 XOR\n2 1 3951 3983 66398 XOR\n2 1 3950 3982 66397 XOR\n2 1 3949 3981 66396 XOR\n2 1 3948 3980 66395 XOR\n2 1 3947 3979 66394 XOR\n2 1 3946 3978 66393 XOR\n2 1 3945 3977 66392 XOR\n2 1 3944 3976 66391 XOR\n2 1 3943 3975 66390 XOR\n2 1 3942 3974 66389 XOR\n2 1 3941 3973 66388 XOR\n2 1 3940 3972 66387 XOR\n2 1 3939 3971 66386 XOR\n2 1 3938 3970 66385 XOR\n2 1 3937 3969 66384 XOR\n2 1 3936 3968 66383 XOR\n2 1 3941 3946 62638 XOR\n2 1 3940 3945 62637 XOR\n2 1 3939 3944 62636 XOR\n2 1 3938 3943 62635 XOR\n2 1 3937 3942 62634 XOR\n2 1 3936 3941 62633 XOR\n2 1 3967 3940 62632 XOR\n2 1 3966 3939 62631 XOR\n2 1 3965 3938 62630 XOR\n2 1 3964 3937 62629 XOR\n2 1 3963 3936 62628 XOR\n2 1 3962 3967 62627 XOR\n2 1 3961 3966 62626 XOR\n2 1 3960 3965 62625 XOR\n",
"2 1 3959 3964 62624 XOR\n2 1 3958 3963 62623 XOR\n2 1 3957 3962 62622 XOR\n2 1 3956 3961 62621 XOR\n2 1 3955 3960 62620 XOR\n2 1 3954 3959 62619 XOR\n2 1 3953 3958 62618 XOR\n2 1 3952 3957 62617 XOR\n2 1 3951 3956 62616 XOR\n2 1 3950 3955 62615 XOR\n2 1 3949 3954 62614 XOR\n2 1 3948 3953 62613 XOR\n2 1 3947 3952 62612 XOR\n2 1 3946 3951 62611 XOR\n2 1 3945 3950 62610 XOR\n2 1 3944 3949 62609 XOR\n2 1 3943 3948 62608 XOR\n2 1 3942 3947 62607 XOR\n2 1 62638 3960 101685 XOR\n2 1 101685 99637 124710 XOR\n2 1 62637 3959 101684 XOR\n2 1 101684 99636 124709 XOR\n2 1 62636 3958 101683 XOR\n2 1 101683 99635 124708 XOR\n2 1 62635 3957 101682 XOR\n2 1 101682 99634 124707 XOR\n2 1 62634 3956 101681 XOR\n2 1 101681 99633 124706 XOR\n2 1 62633 3955 101680 XOR\n2 1 101680 99632 124705 XOR\n2 1 62632 3954 101679 XOR\n2 1 101679 99631 124704 XOR\n2 1 62631 3953 101678 XOR\n2 1 101678 99630 124703 XOR\n2 1 62630 3952 101677 XOR\n2 1 101677 99629 124702 XOR\n2 1 62629 3951 101676 XOR\n2 1 101676 99628 124701 XOR\n2 1 62628 3950 101675 XOR\n2 1 101675 99627 124700 XOR\n2 1 62627 3949 101674 XOR\n2 1 101674 99626 124699 XOR\n2 1 62626 3948 101673 XOR\n2 1 101673 99625 124698 XOR\n2 1 62625 3947 101672 XOR\n2 1 101672 99624 124697 XOR\n2 1 62624 3946 101671 XOR\n2 1 101671 99623 124696 XOR\n2 1 62623 3945 101670 XOR\n2 1 101670 99622 124695 XOR\n2 1 62622 3944 101669 XOR\n2 1 101669 99621 124694 XOR\n2 1 62621 3943 101668 XOR\n2 1 101668 99620 124693 XOR\n2 1 62620 3942 101667 XOR\n2 1 101667 99619 124692 XOR\n2 1 62619 3941 101666 XOR\n2 1 101666 99618 124691 XOR\n2 1 62618 3940 101665 XOR\n2 1 101665 99617 124690 XOR\n2 1 62617 3939 101664 XOR\n2 1 101664 99616 124689 XOR\n2 1 62616 3938 101663 XOR\n2 1 101663 99615 124688 XOR\n2 1 62615 3937 101662 XOR\n2 1 101662 99614 124687 XOR\n2 1 62614 3936 101661 XOR\n2 1 101661 99613 124686 XOR\n2 1 62613 3967 101660 XOR\n2 1 101660 99612 124685 XOR\n2 1 62612 3966 101659 XOR\n2 1 101659 99611 124684 XOR\n2 1 62611 3965 101658 XOR\n2 1 101658 99610 124683 XOR\n2 1 62610 3964 101657 XOR\n2 1 101657 99609 124682 XOR\n2 1 62609 3963 101656 XOR\n2 1 101656 99608 124681 XOR\n2 1 62608 3962 101655 XOR\n2 1 101655 99607 124680 XOR\n2 1 62607 3961 101654 XOR\n2 1 101654 99606 124649 AND\n2 1 101654 99606 97558 XOR\n2 1 97558 95510 124525 AND\n2 1 97558 95510 93464 XOR\n1 1 93464 91473 INV\n2 1 4480 91473 109350 AND\n2 1 4480 91473 3904 XOR\n2 1 4481 109350 17857 XOR\n2 1 91473 85329 109412 AND\n2 1 91473 85329 4352 XOR\n2 1 85330 109412 17948 XOR\n2 1 128 3904 123567 AND\n2 1 128 3904 95382 XOR\n2 1 129 123567 42996 XOR\n2 1 95511 124525 44704 XOR\n2 1 124680 124649 97559 XOR\n2 1 97559 95511 124556 XOR\n2 1 124556 124525 93465 XOR\n2 1 93465 93464 91474 XOR\n2 1 91474 109350 17858 XOR\n2 1 17857 17858 17856 AND\n2 1 17856 109350 109351 XOR\n2 1 4482 109351 17860 XOR\n2 1 91474 85330 109443 XOR\n2 1 109443 109412 4353 XOR\n2 1 91474 109412 17947 XOR\n2 1 17947 17948 17946 AND\n2 1 17946 109412 109413 XOR\n2 1 85331 109413 17951 XOR\n2 1 4481 91474 109381 XOR\n2 1 109381 109350 3905 XOR\n2 1 3905 123567 42997 XOR\n2 1 42996 42997 42995 AND\n2 1 42995 123567 123568 XOR\n2 1 130 123568 42999 XOR\n2 1 129 3905 123598 XOR\n2 1 123598 123567 95383 XOR\n2 1 91474 93464 44610 AND\n2 1 44610 93464 124508 XOR\n1 1 124508 44613 INV\n2 1 97559 124525 44703 XOR\n2 1 44703 44704 44702 AND\n2 1 44702 124525 124526 XOR\n2 1 95512 124526 44707 XOR\n2 1 101655 124649 44883 XOR\n2 1 99607 124649 44884 XOR\n2 1 44883 44884 44882 AND\n",
"2 1 44882 124649 124650 XOR\n2 1 124681 124650 97560 XOR\n2 1 97560 95512 124557 XOR\n2 1 124557 124526 93466 XOR\n1 1 93466 44685 INV\n2 1 44685 124508 91475 XOR\n2 1 4482 91475 109382 XOR\n2 1 109382 109351 3906 XOR\n2 1 91475 109351 17861 XOR\n2 1 17860 17861 17859 AND\n2 1 17859 109351 109352 XOR\n2 1 4483 109352 17863 XOR\n2 1 91475 85331 109444 XOR\n2 1 109444 109413 4354 XOR\n2 1 91475 109413 17950 XOR\n2 1 17950 17951 17949 AND\n2 1 17949 109413 109414 XOR\n2 1 85332 109414 17954 XOR\n2 1 130 3906 123599 XOR\n2 1 123599 123568 95384 XOR\n2 1 3906 123568 43000 XOR\n2 1 42999 43000 42998 AND\n2 1 42998 123568 123569 XOR\n2 1 131 123569 43002 XOR\n2 1 93466 124508 44612 XOR\n2 1 44612 44613 44611 AND\n2 1 44611 124508 44615 XOR\n2 1 97560 124526 44706 XOR\n2 1 44706 44707 44705 AND\n2 1 44705 124526 124527 XOR\n2 1 95513 124527 44710 XOR\n2 1 101656 124650 44886 XOR\n2 1 99608 124650 44887 XOR\n2 1 44886 44887 44885 AND\n2 1 44885 124650 124651 XOR\n2 1 124682 124651 97561 XOR\n2 1 97561 95513 124558 XOR\n2 1 124558 124527 93467 XOR\n2 1 93467 44615 91476 XOR\n2 1 91476 109352 17864 XOR\n2 1 17863 17864 17862 AND\n2 1 17862 109352 109353 XOR\n2 1 4484 109353 17866 XOR\n2 1 91476 85332 109445 XOR\n2 1 109445 109414 4355 XOR\n2 1 91476 109414 17953 XOR\n2 1 17953 17954 17952 AND\n2 1 17952 109414 109415 XOR\n2 1 85333 109415 17957 XOR\n2 1 4483 91476 109383 XOR\n2 1 109383 109352 3907 XOR\n2 1 3907 123569 43003 XOR\n2 1 43002 43003 43001 AND\n2 1 43001 123569 123570 XOR\n2 1 132 123570 43005 XOR\n2 1 131 3907 123600 XOR\n2 1 123600 123569 95385 XOR\n2 1 91476 44615 44614 AND\n2 1 44614 44615 124509 XOR\n1 1 124509 44618 INV\n2 1 97561 124527 44709 XOR\n2 1 44709 44710 44708 AND\n2 1 44708 124527 124528 XOR\n2 1 95514 124528 44713 XOR\n2 1 101657 124651 44889 XOR\n2 1 99609 124651 44890 XOR\n2 1 44889 44890 44888 AND\n2 1 44888 124651 124652 XOR\n2 1 124683 124652 97562 XOR\n2 1 97562 95514 124559 XOR\n2 1 124559 124528 93468 XOR\n1 1 93468 44686 INV\n2 1 44686 124509 91477 XOR\n2 1 4484 91477 109384 XOR\n2 1 109384 109353 3908 XOR\n2 1 91477 109353 17867 XOR\n2 1 17866 17867 17865 AND\n2 1 17865 109353 109354 XOR\n2 1 4485 109354 17869 XOR\n2 1 91477 85333 109446 XOR\n2 1 109446 109415 4356 XOR\n2 1 91477 109415 17956 XOR\n2 1 17956 17957 17955 AND\n2 1 17955 109415 109416 XOR\n2 1 85334 109416 17960 XOR\n2 1 132 3908 123601 XOR\n2 1 123601 123570 95386 XOR\n2 1 3908 123570 43006 XOR\n2 1 43005 43006 43004 AND\n2 1 43004 123570 123571 XOR\n2 1 133 123571 43008 XOR\n2 1 93468 124509 44617 XOR\n2 1 44617 44618 44616 AND\n2 1 44616 124509 44620 XOR\n2 1 97562 124528 44712 XOR\n2 1 44712 44713 44711 AND\n2 1 44711 124528 124529 XOR\n2 1 95515 124529 44716 XOR\n2 1 101658 124652 44892 XOR\n2 1 99610 124652 44893 XOR\n2 1 44892 44893 44891 AND\n2 1 44891 124652 124653 XOR\n2 1 124684 124653 97563 XOR\n2 1 97563 95515 124560 XOR\n2 1 124560 124529 93469 XOR\n2 1 93469 44620 91478 XOR\n2 1 91478 109354 17870 XOR\n2 1 17869 17870 17868 AND\n2 1 17868 109354 109355 XOR\n2 1 4486 109355 17872 XOR\n2 1 91478 85334 109447 XOR\n2 1 109447 109416 4357 XOR\n2 1 91478 109416 17959 XOR\n2 1 17959 17960 17958 AND\n2 1 17958 109416 109417 XOR\n2 1 85335 109417 17963 XOR\n2 1 4485 91478 109385 XOR\n2 1 109385 109354 3909 XOR\n2 1 3909 123571 43009 XOR\n2 1 43008 43009 43007 AND\n2 1 43007 123571 123572 XOR\n2 1 134 123572 43011 XOR\n2 1 133 3909 123602 XOR\n2 1 123602 123571 95387 XOR\n2 1 91478 44620 44619 AND\n2 1 44619 44620 124510 XOR\n1 1 124510 44623 INV\n2 1 97563 124529 44715 XOR\n",
"2 1 44715 44716 44714 AND\n2 1 44714 124529 124530 XOR\n2 1 95516 124530 44719 XOR\n2 1 101659 124653 44895 XOR\n2 1 99611 124653 44896 XOR\n2 1 44895 44896 44894 AND\n2 1 44894 124653 124654 XOR\n2 1 124685 124654 97564 XOR\n2 1 97564 95516 124561 XOR\n2 1 124561 124530 93470 XOR\n1 1 93470 44687 INV\n2 1 44687 124510 91479 XOR\n2 1 4486 91479 109386 XOR\n2 1 109386 109355 3910 XOR\n2 1 91479 109355 17873 XOR\n2 1 17872 17873 17871 AND\n2 1 17871 109355 109356 XOR\n2 1 4487 109356 17875 XOR\n2 1 91479 85335 109448 XOR\n2 1 109448 109417 4358 XOR\n2 1 91479 109417 17962 XOR\n2 1 17962 17963 17961 AND\n2 1 17961 109417 109418 XOR\n2 1 85336 109418 17966 XOR\n2 1 134 3910 123603 XOR\n2 1 123603 123572 95388 XOR\n2 1 3910 123572 43012 XOR\n2 1 43011 43012 43010 AND\n2 1 43010 123572 123573 XOR\n2 1 135 123573 43014 XOR\n2 1 93470 124510 44622 XOR\n2 1 44622 44623 44621 AND\n2 1 44621 124510 124511 XOR\n1 1 124511 44626 INV\n2 1 97564 124530 44718 XOR\n2 1 44718 44719 44717 AND\n2 1 44717 124530 124531 XOR\n2 1 95517 124531 44722 XOR\n2 1 101660 124654 44898 XOR\n2 1 99612 124654 44899 XOR\n2 1 44898 44899 44897 AND\n2 1 44897 124654 124655 XOR\n2 1 124686 124655 97565 XOR\n2 1 97565 95517 124562 XOR\n2 1 124562 124531 93471 XOR\n1 1 93471 44688 INV\n2 1 44688 124511 91480 XOR\n2 1 4487 91480 109387 XOR\n2 1 109387 109356 3911 XOR\n2 1 91480 109356 17876 XOR\n2 1 17875 17876 17874 AND\n2 1 17874 109356 109357 XOR\n2 1 4488 109357 17878 XOR\n2 1 91480 85336 109449 XOR\n2 1 109449 109418 4359 XOR\n2 1 91480 109418 17965 XOR\n2 1 17965 17966 17964 AND\n2 1 17964 109418 109419 XOR\n2 1 85337 109419 17969 XOR\n2 1 135 3911 123604 XOR\n2 1 123604 123573 95389 XOR\n2 1 3911 123573 43015 XOR\n2 1 43014 43015 43013 AND\n2 1 43013 123573 123574 XOR\n2 1 136 123574 43017 XOR\n2 1 93471 124511 44625 XOR\n2 1 44625 44626 44624 AND\n2 1 44624 124511 44628 XOR\n2 1 97565 124531 44721 XOR\n2 1 44721 44722 44720 AND\n2 1 44720 124531 124532 XOR\n2 1 95518 124532 44725 XOR\n2 1 101661 124655 44901 XOR\n2 1 99613 124655 44902 XOR\n2 1 44901 44902 44900 AND\n2 1 44900 124655 124656 XOR\n2 1 124687 124656 97566 XOR\n2 1 97566 95518 124563 XOR\n2 1 124563 124532 93472 XOR\n2 1 93472 44628 91481 XOR\n2 1 91481 109357 17879 XOR\n2 1 17878 17879 17877 AND\n2 1 17877 109357 109358 XOR\n2 1 4489 109358 17881 XOR\n2 1 91481 85337 109450 XOR\n2 1 109450 109419 4360 XOR\n2 1 91481 109419 17968 XOR\n2 1 17968 17969 17967 AND\n2 1 17967 109419 109420 XOR\n2 1 85338 109420 17972 XOR\n2 1 4488 91481 109388 XOR\n2 1 109388 109357 3912 XOR\n2 1 3912 123574 43018 XOR\n2 1 43017 43018 43016 AND\n2 1 43016 123574 123575 XOR\n2 1 137 123575 43020 XOR\n2 1 136 3912 123605 XOR\n2 1 123605 123574 95390 XOR\n2 1 91481 44628 44627 AND\n2 1 44627 44628 124512 XOR\n1 1 124512 44631 INV\n2 1 97566 124532 44724 XOR\n2 1 44724 44725 44723 AND\n2 1 44723 124532 124533 XOR\n2 1 95519 124533 44728 XOR\n2 1 101662 124656 44904 XOR\n2 1 99614 124656 44905 XOR\n2 1 44904 44905 44903 AND\n2 1 44903 124656 124657 XOR\n2 1 124688 124657 97567 XOR\n2 1 97567 95519 124564 XOR\n2 1 124564 124533 93473 XOR\n1 1 93473 44689 INV\n2 1 44689 124512 91482 XOR\n2 1 4489 91482 109389 XOR\n2 1 109389 109358 3913 XOR\n2 1 91482 109358 17882 XOR\n2 1 17881 17882 17880 AND\n2 1 17880 109358 109359 XOR\n2 1 4490 109359 17884 XOR\n2 1 91482 85338 109451 XOR\n2 1 109451 109420 4361 XOR\n2 1 91482 109420 17971 XOR\n2 1 17971 17972 17970 AND\n2 1 17970 109420 109421 XOR\n2 1 85339 109421 17975 XOR\n2 1 137 3913 123606 XOR\n2 1 123606 123575 95391 XOR\n",
"2 1 3913 123575 43021 XOR\n2 1 43020 43021 43019 AND\n2 1 43019 123575 123576 XOR\n2 1 138 123576 43023 XOR\n2 1 93473 124512 44630 XOR\n2 1 44630 44631 44629 AND\n2 1 44629 124512 124513 XOR\n1 1 124513 44634 INV\n2 1 97567 124533 44727 XOR\n2 1 44727 44728 44726 AND\n2 1 44726 124533 124534 XOR\n2 1 95520 124534 44731 XOR\n2 1 101663 124657 44907 XOR\n2 1 99615 124657 44908 XOR\n2 1 44907 44908 44906 AND\n2 1 44906 124657 124658 XOR\n2 1 124689 124658 97568 XOR\n2 1 97568 95520 124565 XOR\n2 1 124565 124534 93474 XOR\n1 1 93474 44690 INV\n2 1 44690 124513 91483 XOR\n2 1 4490 91483 109390 XOR\n2 1 109390 109359 3914 XOR\n2 1 91483 109359 17885 XOR\n2 1 17884 17885 17883 AND\n2 1 17883 109359 109360 XOR\n2 1 4491 109360 17887 XOR\n2 1 91483 85339 109452 XOR\n2 1 109452 109421 4362 XOR\n2 1 91483 109421 17974 XOR\n2 1 17974 17975 17973 AND\n2 1 17973 109421 109422 XOR\n2 1 85340 109422 17978 XOR\n2 1 138 3914 123607 XOR\n2 1 123607 123576 95392 XOR\n2 1 3914 123576 43024 XOR\n2 1 43023 43024 43022 AND\n2 1 43022 123576 123577 XOR\n2 1 139 123577 43026 XOR\n2 1 93474 124513 44633 XOR\n2 1 44633 44634 44632 AND\n2 1 44632 124513 124514 XOR\n1 1 124514 44637 INV\n2 1 97568 124534 44730 XOR\n2 1 44730 44731 44729 AND\n2 1 44729 124534 124535 XOR\n2 1 95521 124535 44734 XOR\n2 1 101664 124658 44910 XOR\n2 1 99616 124658 44911 XOR\n2 1 44910 44911 44909 AND\n2 1 44909 124658 124659 XOR\n2 1 124690 124659 97569 XOR\n2 1 97569 95521 124566 XOR\n2 1 124566 124535 93475 XOR\n1 1 93475 44691 INV\n2 1 44691 124514 91484 XOR\n2 1 4491 91484 109391 XOR\n2 1 109391 109360 3915 XOR\n2 1 91484 109360 17888 XOR\n2 1 17887 17888 17886 AND\n2 1 17886 109360 109361 XOR\n2 1 4492 109361 17890 XOR\n2 1 91484 85340 109453 XOR\n2 1 109453 109422 4363 XOR\n2 1 91484 109422 17977 XOR\n2 1 17977 17978 17976 AND\n2 1 17976 109422 109423 XOR\n2 1 85341 109423 17981 XOR\n2 1 139 3915 123608 XOR\n2 1 123608 123577 95393 XOR\n2 1 3915 123577 43027 XOR\n2 1 43026 43027 43025 AND\n2 1 43025 123577 123578 XOR\n2 1 140 123578 43029 XOR\n2 1 93475 124514 44636 XOR\n2 1 44636 44637 44635 AND\n2 1 44635 124514 124515 XOR\n1 1 124515 44640 INV\n2 1 97569 124535 44733 XOR\n2 1 44733 44734 44732 AND\n2 1 44732 124535 124536 XOR\n2 1 95522 124536 44737 XOR\n2 1 101665 124659 44913 XOR\n2 1 99617 124659 44914 XOR\n2 1 44913 44914 44912 AND\n2 1 44912 124659 124660 XOR\n2 1 124691 124660 97570 XOR\n2 1 97570 95522 124567 XOR\n2 1 124567 124536 93476 XOR\n1 1 93476 44692 INV\n2 1 44692 124515 91485 XOR\n2 1 4492 91485 109392 XOR\n2 1 109392 109361 3916 XOR\n2 1 91485 109361 17891 XOR\n2 1 17890 17891 17889 AND\n2 1 17889 109361 109362 XOR\n2 1 4493 109362 17893 XOR\n2 1 91485 85341 109454 XOR\n2 1 109454 109423 4364 XOR\n2 1 91485 109423 17980 XOR\n2 1 17980 17981 17979 AND\n2 1 17979 109423 109424 XOR\n2 1 85342 109424 17984 XOR\n2 1 140 3916 123609 XOR\n2 1 123609 123578 95394 XOR\n2 1 3916 123578 43030 XOR\n2 1 43029 43030 43028 AND\n2 1 43028 123578 123579 XOR\n2 1 141 123579 43032 XOR\n2 1 93476 124515 44639 XOR\n2 1 44639 44640 44638 AND\n2 1 44638 124515 44642 XOR\n2 1 97570 124536 44736 XOR\n2 1 44736 44737 44735 AND\n2 1 44735 124536 124537 XOR\n2 1 95523 124537 44740 XOR\n2 1 101666 124660 44916 XOR\n2 1 99618 124660 44917 XOR\n2 1 44916 44917 44915 AND\n2 1 44915 124660 124661 XOR\n2 1 124692 124661 97571 XOR\n2 1 97571 95523 124568 XOR\n2 1 124568 124537 93477 XOR\n2 1 93477 44642 91486 XOR\n2 1 91486 109362 17894 XOR\n2 1 17893 17894 17892 AND\n2 1 17892 109362 109363 XOR\n2 1 4494 109363 17896 XOR\n",
"2 1 91486 85342 109455 XOR\n2 1 109455 109424 4365 XOR\n2 1 91486 109424 17983 XOR\n2 1 17983 17984 17982 AND\n2 1 17982 109424 109425 XOR\n2 1 85343 109425 17987 XOR\n2 1 4493 91486 109393 XOR\n2 1 109393 109362 3917 XOR\n2 1 3917 123579 43033 XOR\n2 1 43032 43033 43031 AND\n2 1 43031 123579 123580 XOR\n2 1 142 123580 43035 XOR\n2 1 141 3917 123610 XOR\n2 1 123610 123579 95395 XOR\n2 1 91486 44642 44641 AND\n2 1 44641 44642 124516 XOR\n1 1 124516 44645 INV\n2 1 97571 124537 44739 XOR\n2 1 44739 44740 44738 AND\n2 1 44738 124537 124538 XOR\n2 1 95524 124538 44743 XOR\n2 1 101667 124661 44919 XOR\n2 1 99619 124661 44920 XOR\n2 1 44919 44920 44918 AND\n2 1 44918 124661 124662 XOR\n2 1 124693 124662 97572 XOR\n2 1 97572 95524 124569 XOR\n2 1 124569 124538 93478 XOR\n1 1 93478 44693 INV\n2 1 44693 124516 91487 XOR\n2 1 4494 91487 109394 XOR\n2 1 109394 109363 3918 XOR\n2 1 91487 109363 17897 XOR\n2 1 17896 17897 17895 AND\n2 1 17895 109363 109364 XOR\n2 1 4495 109364 17899 XOR\n2 1 91487 85343 109456 XOR\n2 1 109456 109425 4366 XOR\n2 1 91487 109425 17986 XOR\n2 1 17986 17987 17985 AND\n2 1 17985 109425 109426 XOR\n2 1 85344 109426 17990 XOR\n2 1 142 3918 123611 XOR\n2 1 123611 123580 95396 XOR\n2 1 3918 123580 43036 XOR\n2 1 43035 43036 43034 AND\n2 1 43034 123580 123581 XOR\n2 1 143 123581 43038 XOR\n2 1 93478 124516 44644 XOR\n2 1 44644 44645 44643 AND\n2 1 44643 124516 44647 XOR\n2 1 97572 124538 44742 XOR\n2 1 44742 44743 44741 AND\n2 1 44741 124538 124539 XOR\n2 1 95525 124539 44746 XOR\n2 1 101668 124662 44922 XOR\n2 1 99620 124662 44923 XOR\n2 1 44922 44923 44921 AND\n2 1 44921 124662 124663 XOR\n2 1 124694 124663 97573 XOR\n2 1 97573 95525 124570 XOR\n2 1 124570 124539 93479 XOR\n2 1 93479 44647 91488 XOR\n2 1 91488 109364 17900 XOR\n2 1 17899 17900 17898 AND\n2 1 17898 109364 109365 XOR\n2 1 4496 109365 17902 XOR\n2 1 91488 85344 109457 XOR\n2 1 109457 109426 4367 XOR\n2 1 91488 109426 17989 XOR\n2 1 17989 17990 17988 AND\n2 1 17988 109426 109427 XOR\n2 1 85345 109427 17993 XOR\n2 1 4495 91488 109395 XOR\n2 1 109395 109364 3919 XOR\n2 1 3919 123581 43039 XOR\n2 1 43038 43039 43037 AND\n2 1 43037 123581 123582 XOR\n2 1 144 123582 43041 XOR\n2 1 143 3919 123612 XOR\n2 1 123612 123581 95397 XOR\n2 1 91488 44647 44646 AND\n2 1 44646 44647 44649 XOR\n2 1 97573 124539 44745 XOR\n2 1 44745 44746 44744 AND\n2 1 44744 124539 124540 XOR\n2 1 95526 124540 44749 XOR\n2 1 101669 124663 44925 XOR\n2 1 99621 124663 44926 XOR\n2 1 44925 44926 44924 AND\n2 1 44924 124663 124664 XOR\n2 1 124695 124664 97574 XOR\n2 1 97574 95526 124571 XOR\n2 1 124571 124540 93480 XOR\n2 1 93480 44649 91489 XOR\n2 1 91489 109365 17903 XOR\n2 1 17902 17903 17901 AND\n2 1 17901 109365 109366 XOR\n2 1 4497 109366 17905 XOR\n2 1 91489 85345 109458 XOR\n2 1 109458 109427 4368 XOR\n2 1 91489 109427 17992 XOR\n2 1 17992 17993 17991 AND\n2 1 17991 109427 109428 XOR\n2 1 85346 109428 17996 XOR\n2 1 4496 91489 109396 XOR\n2 1 109396 109365 3920 XOR\n2 1 3920 123582 43042 XOR\n2 1 43041 43042 43040 AND\n2 1 43040 123582 123583 XOR\n2 1 145 123583 43044 XOR\n2 1 144 3920 123613 XOR\n2 1 123613 123582 95398 XOR\n2 1 91489 44649 44648 AND\n2 1 44648 44649 44651 XOR\n2 1 97574 124540 44748 XOR\n2 1 44748 44749 44747 AND\n2 1 44747 124540 124541 XOR\n2 1 95527 124541 44752 XOR\n2 1 101670 124664 44928 XOR\n2 1 99622 124664 44929 XOR\n2 1 44928 44929 44927 AND\n2 1 44927 124664 124665 XOR\n2 1 124696 124665 97575 XOR\n2 1 97575 95527 124572 XOR\n2 1 124572 124541 93481 XOR\n2 1 93481 44651 91490 XOR\n2 1 91490 109366 17906 XOR\n",
"2 1 17905 17906 17904 AND\n2 1 17904 109366 109367 XOR\n2 1 4498 109367 17908 XOR\n2 1 91490 85346 109459 XOR\n2 1 109459 109428 4369 XOR\n2 1 91490 109428 17995 XOR\n2 1 17995 17996 17994 AND\n2 1 17994 109428 109429 XOR\n2 1 85347 109429 17999 XOR\n2 1 4497 91490 109397 XOR\n2 1 109397 109366 3921 XOR\n2 1 3921 123583 43045 XOR\n2 1 43044 43045 43043 AND\n2 1 43043 123583 123584 XOR\n2 1 146 123584 43047 XOR\n2 1 145 3921 123614 XOR\n2 1 123614 123583 95399 XOR\n2 1 91490 44651 44650 AND\n2 1 44650 44651 124517 XOR\n1 1 124517 44654 INV\n2 1 97575 124541 44751 XOR\n2 1 44751 44752 44750 AND\n2 1 44750 124541 124542 XOR\n2 1 95528 124542 44755 XOR\n2 1 101671 124665 44931 XOR\n2 1 99623 124665 44932 XOR\n2 1 44931 44932 44930 AND\n2 1 44930 124665 124666 XOR\n2 1 124697 124666 97576 XOR\n2 1 97576 95528 124573 XOR\n2 1 124573 124542 93482 XOR\n1 1 93482 44694 INV\n2 1 44694 124517 91491 XOR\n2 1 4498 91491 109398 XOR\n2 1 109398 109367 3922 XOR\n2 1 91491 109367 17909 XOR\n2 1 17908 17909 17907 AND\n2 1 17907 109367 109368 XOR\n2 1 4499 109368 17911 XOR\n2 1 91491 85347 109460 XOR\n2 1 109460 109429 4370 XOR\n2 1 91491 109429 17998 XOR\n2 1 17998 17999 17997 AND\n2 1 17997 109429 109430 XOR\n2 1 85348 109430 18002 XOR\n2 1 146 3922 123615 XOR\n2 1 123615 123584 95400 XOR\n2 1 3922 123584 43048 XOR\n2 1 43047 43048 43046 AND\n2 1 43046 123584 123585 XOR\n2 1 147 123585 43050 XOR\n2 1 93482 124517 44653 XOR\n2 1 44653 44654 44652 AND\n2 1 44652 124517 124518 XOR\n1 1 124518 44657 INV\n2 1 97576 124542 44754 XOR\n2 1 44754 44755 44753 AND\n2 1 44753 124542 124543 XOR\n2 1 95529 124543 44758 XOR\n2 1 101672 124666 44934 XOR\n2 1 99624 124666 44935 XOR\n2 1 44934 44935 44933 AND\n2 1 44933 124666 124667 XOR\n2 1 124698 124667 97577 XOR\n2 1 97577 95529 124574 XOR\n2 1 124574 124543 93483 XOR\n1 1 93483 44695 INV\n2 1 44695 124518 91492 XOR\n2 1 4499 91492 109399 XOR\n2 1 109399 109368 3923 XOR\n2 1 91492 109368 17912 XOR\n2 1 17911 17912 17910 AND\n2 1 17910 109368 109369 XOR\n2 1 4500 109369 17914 XOR\n2 1 91492 85348 109461 XOR\n2 1 109461 109430 4371 XOR\n2 1 91492 109430 18001 XOR\n2 1 18001 18002 18000 AND\n2 1 18000 109430 109431 XOR\n2 1 85349 109431 18005 XOR\n2 1 147 3923 123616 XOR\n2 1 123616 123585 95401 XOR\n2 1 3923 123585 43051 XOR\n2 1 43050 43051 43049 AND\n2 1 43049 123585 123586 XOR\n2 1 148 123586 43053 XOR\n2 1 93483 124518 44656 XOR\n2 1 44656 44657 44655 AND\n2 1 44655 124518 124519 XOR\n1 1 124519 44660 INV\n2 1 97577 124543 44757 XOR\n2 1 44757 44758 44756 AND\n2 1 44756 124543 124544 XOR\n2 1 95530 124544 44761 XOR\n2 1 101673 124667 44937 XOR\n2 1 99625 124667 44938 XOR\n2 1 44937 44938 44936 AND\n2 1 44936 124667 124668 XOR\n2 1 124699 124668 97578 XOR\n2 1 97578 95530 124575 XOR\n2 1 124575 124544 93484 XOR\n1 1 93484 44696 INV\n2 1 44696 124519 91493 XOR\n2 1 4500 91493 109400 XOR\n2 1 109400 109369 3924 XOR\n2 1 91493 109369 17915 XOR\n2 1 17914 17915 17913 AND\n2 1 17913 109369 109370 XOR\n2 1 4501 109370 17917 XOR\n2 1 91493 85349 109462 XOR\n2 1 109462 109431 4372 XOR\n2 1 91493 109431 18004 XOR\n2 1 18004 18005 18003 AND\n2 1 18003 109431 109432 XOR\n2 1 85350 109432 18008 XOR\n2 1 148 3924 123617 XOR\n2 1 123617 123586 95402 XOR\n2 1 3924 123586 43054 XOR\n2 1 43053 43054 43052 AND\n2 1 43052 123586 123587 XOR\n2 1 149 123587 43056 XOR\n2 1 93484 124519 44659 XOR\n2 1 44659 44660 44658 AND\n2 1 44658 124519 44662 XOR\n2 1 97578 124544 44760 XOR\n2 1 44760 44761 44759 AND\n2 1 44759 124544 124545 XOR\n2 1 95531 124545 44764 XOR\n",
"2 1 101674 124668 44940 XOR\n2 1 99626 124668 44941 XOR\n2 1 44940 44941 44939 AND\n2 1 44939 124668 124669 XOR\n2 1 124700 124669 97579 XOR\n2 1 97579 95531 124576 XOR\n2 1 124576 124545 93485 XOR\n2 1 93485 44662 91494 XOR\n2 1 91494 109370 17918 XOR\n2 1 17917 17918 17916 AND\n2 1 17916 109370 109371 XOR\n2 1 4502 109371 17920 XOR\n2 1 91494 85350 109463 XOR\n2 1 109463 109432 4373 XOR\n2 1 91494 109432 18007 XOR\n2 1 18007 18008 18006 AND\n2 1 18006 109432 109433 XOR\n2 1 85351 109433 18011 XOR\n2 1 4501 91494 109401 XOR\n2 1 109401 109370 3925 XOR\n2 1 3925 123587 43057 XOR\n2 1 43056 43057 43055 AND\n2 1 43055 123587 123588 XOR\n2 1 150 123588 43059 XOR\n2 1 149 3925 123618 XOR\n2 1 123618 123587 95403 XOR\n2 1 91494 44662 44661 AND\n2 1 44661 44662 44664 XOR\n2 1 97579 124545 44763 XOR\n2 1 44763 44764 44762 AND\n2 1 44762 124545 124546 XOR\n2 1 95532 124546 44767 XOR\n2 1 101675 124669 44943 XOR\n2 1 99627 124669 44944 XOR\n2 1 44943 44944 44942 AND\n2 1 44942 124669 124670 XOR\n2 1 124701 124670 97580 XOR\n2 1 97580 95532 124577 XOR\n2 1 124577 124546 93486 XOR\n2 1 93486 44664 91495 XOR\n2 1 91495 109371 17921 XOR\n2 1 17920 17921 17919 AND\n2 1 17919 109371 109372 XOR\n2 1 4503 109372 17923 XOR\n2 1 91495 85351 109464 XOR\n2 1 109464 109433 4374 XOR\n2 1 91495 109433 18010 XOR\n2 1 18010 18011 18009 AND\n2 1 18009 109433 109434 XOR\n2 1 85352 109434 18014 XOR\n2 1 4502 91495 109402 XOR\n2 1 109402 109371 3926 XOR\n2 1 3926 123588 43060 XOR\n2 1 43059 43060 43058 AND\n2 1 43058 123588 123589 XOR\n2 1 151 123589 43062 XOR\n2 1 150 3926 123619 XOR\n2 1 123619 123588 95404 XOR\n2 1 91495 44664 44663 AND\n2 1 44663 44664 44666 XOR\n2 1 97580 124546 44766 XOR\n2 1 44766 44767 44765 AND\n2 1 44765 124546 124547 XOR\n2 1 95533 124547 44770 XOR\n2 1 101676 124670 44946 XOR\n2 1 99628 124670 44947 XOR\n2 1 44946 44947 44945 AND\n2 1 44945 124670 124671 XOR\n2 1 124702 124671 97581 XOR\n2 1 97581 95533 124578 XOR\n2 1 124578 124547 93487 XOR\n2 1 93487 44666 91496 XOR\n2 1 91496 109372 17924 XOR\n2 1 17923 17924 17922 AND\n2 1 17922 109372 109373 XOR\n2 1 4504 109373 17926 XOR\n2 1 91496 85352 109465 XOR\n2 1 109465 109434 4375 XOR\n2 1 91496 109434 18013 XOR\n2 1 18013 18014 18012 AND\n2 1 18012 109434 109435 XOR\n2 1 85353 109435 18017 XOR\n2 1 4503 91496 109403 XOR\n2 1 109403 109372 3927 XOR\n2 1 3927 123589 43063 XOR\n2 1 43062 43063 43061 AND\n2 1 43061 123589 123590 XOR\n2 1 152 123590 43065 XOR\n2 1 151 3927 123620 XOR\n2 1 123620 123589 95405 XOR\n2 1 91496 44666 44665 AND\n2 1 44665 44666 124520 XOR\n1 1 124520 44669 INV\n2 1 97581 124547 44769 XOR\n2 1 44769 44770 44768 AND\n2 1 44768 124547 124548 XOR\n2 1 95534 124548 44773 XOR\n2 1 101677 124671 44949 XOR\n2 1 99629 124671 44950 XOR\n2 1 44949 44950 44948 AND\n2 1 44948 124671 124672 XOR\n2 1 124703 124672 97582 XOR\n2 1 97582 95534 124579 XOR\n2 1 124579 124548 93488 XOR\n1 1 93488 44697 INV\n2 1 44697 124520 91497 XOR\n2 1 4504 91497 109404 XOR\n2 1 109404 109373 3928 XOR\n2 1 91497 109373 17927 XOR\n2 1 17926 17927 17925 AND\n2 1 17925 109373 109374 XOR\n2 1 4505 109374 17929 XOR\n2 1 91497 85353 109466 XOR\n2 1 109466 109435 4376 XOR\n2 1 91497 109435 18016 XOR\n2 1 18016 18017 18015 AND\n2 1 18015 109435 109436 XOR\n2 1 85354 109436 18020 XOR\n2 1 152 3928 123621 XOR\n2 1 123621 123590 95406 XOR\n2 1 3928 123590 43066 XOR\n2 1 43065 43066 43064 AND\n2 1 43064 123590 123591 XOR\n2 1 153 123591 43068 XOR\n2 1 93488 124520 44668 XOR\n2 1 44668 44669 44667 AND\n2 1 44667 124520 124521 XOR\n1 1 124521 44672 INV\n",
"2 1 97582 124548 44772 XOR\n2 1 44772 44773 44771 AND\n2 1 44771 124548 124549 XOR\n2 1 95535 124549 44776 XOR\n2 1 101678 124672 44952 XOR\n2 1 99630 124672 44953 XOR\n2 1 44952 44953 44951 AND\n2 1 44951 124672 124673 XOR\n2 1 124704 124673 97583 XOR\n2 1 97583 95535 124580 XOR\n2 1 124580 124549 93489 XOR\n1 1 93489 44698 INV\n2 1 44698 124521 91498 XOR\n2 1 4505 91498 109405 XOR\n2 1 109405 109374 3929 XOR\n2 1 91498 109374 17930 XOR\n2 1 17929 17930 17928 AND\n2 1 17928 109374 109375 XOR\n2 1 4506 109375 17932 XOR\n2 1 91498 85354 109467 XOR\n2 1 109467 109436 4377 XOR\n2 1 91498 109436 18019 XOR\n2 1 18019 18020 18018 AND\n2 1 18018 109436 109437 XOR\n2 1 85355 109437 18023 XOR\n2 1 153 3929 123622 XOR\n2 1 123622 123591 95407 XOR\n2 1 3929 123591 43069 XOR\n2 1 43068 43069 43067 AND\n2 1 43067 123591 123592 XOR\n2 1 154 123592 43071 XOR\n2 1 93489 124521 44671 XOR\n2 1 44671 44672 44670 AND\n2 1 44670 124521 44674 XOR\n2 1 97583 124549 44775 XOR\n2 1 44775 44776 44774 AND\n2 1 44774 124549 124550 XOR\n2 1 95536 124550 44779 XOR\n2 1 101679 124673 44955 XOR\n2 1 99631 124673 44956 XOR\n2 1 44955 44956 44954 AND\n2 1 44954 124673 124674 XOR\n2 1 124705 124674 97584 XOR\n2 1 97584 95536 124581 XOR\n2 1 124581 124550 93490 XOR\n2 1 93490 44674 91499 XOR\n2 1 91499 109375 17933 XOR\n2 1 17932 17933 17931 AND\n2 1 17931 109375 109376 XOR\n2 1 4507 109376 17935 XOR\n2 1 91499 85355 109468 XOR\n2 1 109468 109437 4378 XOR\n2 1 91499 109437 18022 XOR\n2 1 18022 18023 18021 AND\n2 1 18021 109437 109438 XOR\n2 1 85356 109438 18026 XOR\n2 1 4506 91499 109406 XOR\n2 1 109406 109375 3930 XOR\n2 1 3930 123592 43072 XOR\n2 1 43071 43072 43070 AND\n2 1 43070 123592 123593 XOR\n2 1 155 123593 43074 XOR\n2 1 154 3930 123623 XOR\n2 1 123623 123592 95408 XOR\n2 1 91499 44674 44673 AND\n2 1 44673 44674 124522 XOR\n1 1 124522 44677 INV\n2 1 97584 124550 44778 XOR\n2 1 44778 44779 44777 AND\n2 1 44777 124550 124551 XOR\n2 1 95537 124551 44782 XOR\n2 1 101680 124674 44958 XOR\n2 1 99632 124674 44959 XOR\n2 1 44958 44959 44957 AND\n2 1 44957 124674 124675 XOR\n2 1 124706 124675 97585 XOR\n2 1 97585 95537 124582 XOR\n2 1 124582 124551 93491 XOR\n1 1 93491 44699 INV\n2 1 44699 124522 91500 XOR\n2 1 4507 91500 109407 XOR\n2 1 109407 109376 3931 XOR\n2 1 91500 109376 17936 XOR\n2 1 17935 17936 17934 AND\n2 1 17934 109376 109377 XOR\n2 1 4508 109377 17938 XOR\n2 1 91500 85356 109469 XOR\n2 1 109469 109438 4379 XOR\n2 1 91500 109438 18025 XOR\n2 1 18025 18026 18024 AND\n2 1 18024 109438 109439 XOR\n2 1 85357 109439 18029 XOR\n2 1 155 3931 123624 XOR\n2 1 123624 123593 95409 XOR\n2 1 3931 123593 43075 XOR\n2 1 43074 43075 43073 AND\n2 1 43073 123593 123594 XOR\n2 1 156 123594 43077 XOR\n2 1 93491 124522 44676 XOR\n2 1 44676 44677 44675 AND\n2 1 44675 124522 44679 XOR\n2 1 97585 124551 44781 XOR\n2 1 44781 44782 44780 AND\n2 1 44780 124551 124552 XOR\n2 1 95538 124552 44785 XOR\n2 1 101681 124675 44961 XOR\n2 1 99633 124675 44962 XOR\n2 1 44961 44962 44960 AND\n2 1 44960 124675 124676 XOR\n2 1 124707 124676 97586 XOR\n2 1 97586 95538 124583 XOR\n2 1 124583 124552 93492 XOR\n2 1 93492 44679 91501 XOR\n2 1 91501 109377 17939 XOR\n2 1 17938 17939 17937 AND\n2 1 17937 109377 109378 XOR\n2 1 4509 109378 17941 XOR\n2 1 91501 85357 109470 XOR\n2 1 109470 109439 4380 XOR\n2 1 91501 109439 18028 XOR\n2 1 18028 18029 18027 AND\n2 1 18027 109439 109440 XOR\n2 1 85358 109440 18032 XOR\n2 1 4508 91501 109408 XOR\n2 1 109408 109377 3932 XOR\n2 1 3932 123594 43078 XOR\n2 1 43077 43078 43076 AND\n2 1 43076 123594 123595 XOR\n",
"2 1 157 123595 43080 XOR\n2 1 156 3932 123625 XOR\n2 1 123625 123594 95410 XOR\n2 1 91501 44679 44678 AND\n2 1 44678 44679 124523 XOR\n1 1 124523 44682 INV\n2 1 97586 124552 44784 XOR\n2 1 44784 44785 44783 AND\n2 1 44783 124552 124553 XOR\n2 1 95539 124553 44788 XOR\n2 1 101682 124676 44964 XOR\n2 1 99634 124676 44965 XOR\n2 1 44964 44965 44963 AND\n2 1 44963 124676 124677 XOR\n2 1 124708 124677 97587 XOR\n2 1 97587 95539 124584 XOR\n2 1 124584 124553 93493 XOR\n1 1 93493 44700 INV\n2 1 44700 124523 91502 XOR\n2 1 4509 91502 109409 XOR\n2 1 109409 109378 3933 XOR\n2 1 91502 109378 17942 XOR\n2 1 17941 17942 17940 AND\n2 1 17940 109378 109379 XOR\n2 1 4510 109379 17944 XOR\n2 1 91502 85358 109471 XOR\n2 1 109471 109440 4381 XOR\n2 1 91502 109440 18031 XOR\n2 1 18031 18032 18030 AND\n2 1 18030 109440 109441 XOR\n2 1 85359 109441 18035 XOR\n2 1 157 3933 123626 XOR\n2 1 123626 123595 95411 XOR\n2 1 3933 123595 43081 XOR\n2 1 43080 43081 43079 AND\n2 1 43079 123595 123596 XOR\n2 1 158 123596 43083 XOR\n2 1 93493 124523 44681 XOR\n2 1 44681 44682 44680 AND\n2 1 44680 124523 44684 XOR\n2 1 97587 124553 44787 XOR\n2 1 44787 44788 44786 AND\n2 1 44786 124553 124554 XOR\n2 1 95540 124554 44791 XOR\n2 1 101683 124677 44967 XOR\n2 1 99635 124677 44968 XOR\n2 1 44967 44968 44966 AND\n2 1 44966 124677 124678 XOR\n2 1 124709 124678 97588 XOR\n2 1 97588 95540 124585 XOR\n2 1 124585 124554 93494 XOR\n2 1 93494 44684 91503 XOR\n2 1 91503 109379 17945 XOR\n2 1 17944 17945 17943 AND\n2 1 17943 109379 109380 XOR\n2 1 91503 85359 109472 XOR\n2 1 109472 109441 4382 XOR\n2 1 91503 109441 18034 XOR\n2 1 18034 18035 18033 AND\n2 1 18033 109441 109442 XOR\n2 1 4510 91503 109410 XOR\n2 1 109410 109379 3934 XOR\n2 1 3934 123596 43084 XOR\n2 1 43083 43084 43082 AND\n2 1 43082 123596 123597 XOR\n2 1 158 3934 123627 XOR\n2 1 123627 123596 95412 XOR\n2 1 91503 44684 44683 AND\n2 1 44683 44684 124524 XOR\n2 1 97588 124554 44790 XOR\n2 1 44790 44791 44789 AND\n2 1 44789 124554 124555 XOR\n2 1 101684 124678 44970 XOR\n2 1 99636 124678 44971 XOR\n2 1 44970 44971 44969 AND\n2 1 44969 124678 124679 XOR\n2 1 124710 124679 97589 XOR\n2 1 97589 95541 124586 XOR\n2 1 124586 124555 93495 XOR\n1 1 93495 44701 INV\n2 1 44701 124524 91504 XOR\n2 1 4511 91504 109411 XOR\n2 1 109411 109380 3935 XOR\n2 1 91504 85360 109473 XOR\n2 1 109473 109442 4383 XOR\n2 1 159 3935 123628 XOR\n2 1 123628 123597 95413 XOR\n2 1 4383 4447 74126 XOR\n2 1 4382 4446 74125 XOR\n2 1 4381 4445 74124 XOR\n2 1 4380 4444 74123 XOR\n2 1 4379 4443 74122 XOR\n2 1 4378 4442 74121 XOR\n2 1 4377 4441 74120 XOR\n2 1 4376 4440 74119 XOR\n2 1 4375 4439 74118 XOR\n2 1 4374 4438 74117 XOR\n2 1 4373 4437 74116 XOR\n2 1 4372 4436 74115 XOR\n2 1 4371 4435 74114 XOR\n2 1 4370 4434 74113 XOR\n2 1 4369 4433 74112 XOR\n2 1 4368 4432 74111 XOR\n2 1 4367 4431 74110 XOR\n2 1 4366 4430 74109 XOR\n2 1 4365 4429 74108 XOR\n2 1 4364 4428 74107 XOR\n2 1 4363 4427 74106 XOR\n2 1 4362 4426 74105 XOR\n2 1 4361 4425 74104 XOR\n2 1 4360 4424 74103 XOR\n2 1 4359 4423 74102 XOR\n2 1 4358 4422 74101 XOR\n2 1 4357 4421 74100 XOR\n2 1 4356 4420 74099 XOR\n2 1 4355 4419 74098 XOR\n2 1 4354 4418 74097 XOR\n2 1 4353 4417 74096 XOR\n2 1 4352 4416 74095 XOR\n2 1 74126 74094 74062 AND\n2 1 74125 74093 74061 AND\n2 1 74124 74092 74060 AND\n2 1 74123 74091 74059 AND\n2 1 74122 74090 74058 AND\n2 1 74121 74089 74057 AND\n2 1 74120 74088 74056 AND\n2 1 74119 74087 74055 AND\n2 1 74118 74086 74054 AND\n",
"2 1 74117 74085 74053 AND\n2 1 74116 74084 74052 AND\n2 1 74115 74083 74051 AND\n2 1 74114 74082 74050 AND\n2 1 74113 74081 74049 AND\n2 1 74112 74080 74048 AND\n2 1 74111 74079 74047 AND\n2 1 74110 74078 74046 AND\n2 1 74109 74077 74045 AND\n2 1 74108 74076 74044 AND\n2 1 74107 74075 74043 AND\n2 1 74106 74074 74042 AND\n2 1 74105 74073 74041 AND\n2 1 74104 74072 74040 AND\n2 1 74103 74071 74039 AND\n2 1 74102 74070 74038 AND\n2 1 74101 74069 74037 AND\n2 1 74100 74068 74036 AND\n2 1 74099 74067 74035 AND\n2 1 74098 74066 74034 AND\n2 1 74097 74065 74033 AND\n2 1 74096 74064 74032 AND\n2 1 74095 74063 74031 AND\n2 1 74062 4447 87376 XOR\n2 1 74061 4446 87375 XOR\n2 1 74060 4445 87374 XOR\n2 1 74059 4444 87373 XOR\n2 1 74058 4443 87372 XOR\n2 1 74057 4442 87371 XOR\n2 1 74056 4441 87370 XOR\n2 1 74055 4440 87369 XOR\n2 1 74054 4439 87368 XOR\n2 1 74053 4438 87367 XOR\n2 1 74052 4437 87366 XOR\n2 1 74051 4436 87365 XOR\n2 1 74050 4435 87364 XOR\n2 1 74049 4434 87363 XOR\n2 1 74048 4433 87362 XOR\n2 1 74047 4432 87361 XOR\n2 1 74046 4431 87360 XOR\n2 1 74045 4430 87359 XOR\n2 1 74044 4429 87358 XOR\n2 1 74043 4428 87357 XOR\n2 1 74042 4427 87356 XOR\n2 1 74041 4426 87355 XOR\n2 1 74040 4425 87354 XOR\n2 1 74039 4424 87353 XOR\n2 1 74038 4423 87352 XOR\n2 1 74037 4422 87351 XOR\n2 1 74036 4421 87350 XOR\n2 1 74035 4420 87349 XOR\n2 1 74034 4419 87348 XOR\n2 1 74033 4418 87347 XOR\n2 1 74032 4417 87346 XOR\n2 1 74031 4416 87345 XOR\n2 1 4383 4415 73998 XOR\n2 1 4382 4414 73997 XOR\n2 1 4381 4413 73996 XOR\n2 1 4380 4412 73995 XOR\n2 1 4379 4411 73994 XOR\n2 1 4378 4410 73993 XOR\n2 1 4377 4409 73992 XOR\n2 1 4376 4408 73991 XOR\n2 1 4375 4407 73990 XOR\n2 1 4374 4406 73989 XOR\n2 1 4373 4405 73988 XOR\n2 1 4372 4404 73987 XOR\n2 1 4371 4403 73986 XOR\n2 1 4370 4402 73985 XOR\n2 1 4369 4401 73984 XOR\n2 1 4368 4400 73983 XOR\n2 1 4367 4399 73982 XOR\n2 1 4366 4398 73981 XOR\n2 1 4365 4397 73980 XOR\n2 1 4364 4396 73979 XOR\n2 1 4363 4395 73978 XOR\n2 1 4362 4394 73977 XOR\n2 1 4361 4393 73976 XOR\n2 1 4360 4392 73975 XOR\n2 1 4359 4391 73974 XOR\n2 1 4358 4390 73973 XOR\n2 1 4357 4389 73972 XOR\n2 1 4356 4388 73971 XOR\n2 1 4355 4387 73970 XOR\n2 1 4354 4386 73969 XOR\n2 1 4353 4385 73968 XOR\n2 1 4352 4384 73967 XOR\n2 1 4353 4364 68526 XOR\n2 1 4352 4363 68525 XOR\n2 1 4383 4362 68524 XOR\n2 1 4382 4361 68523 XOR\n2 1 4381 4360 68522 XOR\n2 1 4380 4359 68521 XOR\n2 1 4379 4358 68520 XOR\n2 1 4378 4357 68519 XOR\n2 1 4377 4356 68518 XOR\n2 1 4376 4355 68517 XOR\n2 1 4375 4354 68516 XOR\n2 1 4374 4353 68515 XOR\n2 1 4373 4352 68514 XOR\n2 1 4372 4383 68513 XOR\n2 1 4371 4382 68512 XOR\n2 1 4370 4381 68511 XOR\n2 1 4369 4380 68510 XOR\n2 1 4368 4379 68509 XOR\n2 1 4367 4378 68508 XOR\n2 1 4366 4377 68507 XOR\n2 1 4365 4376 68506 XOR\n2 1 4364 4375 68505 XOR\n2 1 4363 4374 68504 XOR\n2 1 4362 4373 68503 XOR\n2 1 4361 4372 68502 XOR\n2 1 4360 4371 68501 XOR\n2 1 4359 4370 68500 XOR\n2 1 4358 4369 68499 XOR\n2 1 4357 4368 68498 XOR\n2 1 4356 4367 68497 XOR\n2 1 4355 4366 68496 XOR\n2 1 4354 4365 68495 XOR\n2 1 68526 4373 89424 XOR\n2 1 89424 87376 124259 XOR\n2 1 68525 4372 89423 XOR\n2 1 89423 87375 124258 XOR\n2 1 68524 4371 89422 XOR\n2 1 89422 87374 124257 XOR\n2 1 68523 4370 89421 XOR\n2 1 89421 87373 124256 XOR\n2 1 68522 4369 89420 XOR\n",
"2 1 89420 87372 124255 XOR\n2 1 68521 4368 89419 XOR\n2 1 89419 87371 124254 XOR\n2 1 68520 4367 89418 XOR\n2 1 89418 87370 124253 XOR\n2 1 68519 4366 89417 XOR\n2 1 89417 87369 124252 XOR\n2 1 68518 4365 89416 XOR\n2 1 89416 87368 124251 XOR\n2 1 68517 4364 89415 XOR\n2 1 89415 87367 124250 XOR\n2 1 68516 4363 89414 XOR\n2 1 89414 87366 124249 XOR\n2 1 68515 4362 89413 XOR\n2 1 89413 87365 124248 XOR\n2 1 68514 4361 89412 XOR\n2 1 89412 87364 124247 XOR\n2 1 68513 4360 89411 XOR\n2 1 89411 87363 124246 XOR\n2 1 68512 4359 89410 XOR\n2 1 89410 87362 124245 XOR\n2 1 68511 4358 89409 XOR\n2 1 89409 87361 124244 XOR\n2 1 68510 4357 89408 XOR\n2 1 89408 87360 124243 XOR\n2 1 68509 4356 89407 XOR\n2 1 89407 87359 124242 XOR\n2 1 68508 4355 89406 XOR\n2 1 89406 87358 124241 XOR\n2 1 68507 4354 89405 XOR\n2 1 89405 87357 124240 XOR\n2 1 68506 4353 89404 XOR\n2 1 89404 87356 124239 XOR\n2 1 68505 4352 89403 XOR\n2 1 89403 87355 124238 XOR\n2 1 68504 4383 89402 XOR\n2 1 89402 87354 124237 XOR\n2 1 68503 4382 89401 XOR\n2 1 89401 87353 124236 XOR\n2 1 68502 4381 89400 XOR\n2 1 89400 87352 124235 XOR\n2 1 68501 4380 89399 XOR\n2 1 89399 87351 124234 XOR\n2 1 68500 4379 89398 XOR\n2 1 89398 87350 124233 XOR\n2 1 68499 4378 89397 XOR\n2 1 89397 87349 124232 XOR\n2 1 68498 4377 89396 XOR\n2 1 89396 87348 124231 XOR\n2 1 68497 4376 89395 XOR\n2 1 89395 87347 124230 XOR\n2 1 68496 4375 89394 XOR\n2 1 89394 87346 124229 XOR\n2 1 68495 4374 89393 XOR\n2 1 89393 87345 124198 AND\n2 1 89393 87345 85297 XOR\n2 1 124229 124198 85298 XOR\n2 1 89394 124198 44071 XOR\n2 1 87346 124198 44072 XOR\n2 1 44071 44072 44070 AND\n2 1 44070 124198 124199 XOR\n2 1 124230 124199 85299 XOR\n2 1 89395 124199 44074 XOR\n2 1 87347 124199 44075 XOR\n2 1 44074 44075 44073 AND\n2 1 44073 124199 124200 XOR\n2 1 124231 124200 85300 XOR\n2 1 89396 124200 44077 XOR\n2 1 87348 124200 44078 XOR\n2 1 44077 44078 44076 AND\n2 1 44076 124200 124201 XOR\n2 1 124232 124201 85301 XOR\n2 1 89397 124201 44080 XOR\n2 1 87349 124201 44081 XOR\n2 1 44080 44081 44079 AND\n2 1 44079 124201 124202 XOR\n2 1 124233 124202 85302 XOR\n2 1 89398 124202 44083 XOR\n2 1 87350 124202 44084 XOR\n2 1 44083 44084 44082 AND\n2 1 44082 124202 124203 XOR\n2 1 124234 124203 85303 XOR\n2 1 89399 124203 44086 XOR\n2 1 87351 124203 44087 XOR\n2 1 44086 44087 44085 AND\n2 1 44085 124203 124204 XOR\n2 1 124235 124204 85304 XOR\n2 1 89400 124204 44089 XOR\n2 1 87352 124204 44090 XOR\n2 1 44089 44090 44088 AND\n2 1 44088 124204 124205 XOR\n2 1 124236 124205 85305 XOR\n2 1 89401 124205 44092 XOR\n2 1 87353 124205 44093 XOR\n2 1 44092 44093 44091 AND\n2 1 44091 124205 124206 XOR\n2 1 124237 124206 85306 XOR\n2 1 89402 124206 44095 XOR\n2 1 87354 124206 44096 XOR\n2 1 44095 44096 44094 AND\n2 1 44094 124206 124207 XOR\n2 1 124238 124207 85307 XOR\n2 1 89403 124207 44098 XOR\n2 1 87355 124207 44099 XOR\n2 1 44098 44099 44097 AND\n2 1 44097 124207 124208 XOR\n2 1 124239 124208 85308 XOR\n2 1 89404 124208 44101 XOR\n2 1 87356 124208 44102 XOR\n2 1 44101 44102 44100 AND\n2 1 44100 124208 124209 XOR\n2 1 124240 124209 85309 XOR\n2 1 89405 124209 44104 XOR\n2 1 87357 124209 44105 XOR\n2 1 44104 44105 44103 AND\n2 1 44103 124209 124210 XOR\n2 1 124241 124210 85310 XOR\n2 1 89406 124210 44107 XOR\n2 1 87358 124210 44108 XOR\n2 1 44107 44108 44106 AND\n2 1 44106 124210 124211 XOR\n2 1 124242 124211 85311 XOR\n2 1 89407 124211 44110 XOR\n2 1 87359 124211 44111 XOR\n2 1 44110 44111 44109 AND\n2 1 44109 124211 124212 XOR\n2 1 124243 124212 85312 XOR\n2 1 89408 124212 44113 XOR\n",
"2 1 87360 124212 44114 XOR\n2 1 44113 44114 44112 AND\n2 1 44112 124212 124213 XOR\n2 1 124244 124213 85313 XOR\n2 1 89409 124213 44116 XOR\n2 1 87361 124213 44117 XOR\n2 1 44116 44117 44115 AND\n2 1 44115 124213 124214 XOR\n2 1 124245 124214 85314 XOR\n2 1 89410 124214 44119 XOR\n2 1 87362 124214 44120 XOR\n2 1 44119 44120 44118 AND\n2 1 44118 124214 124215 XOR\n2 1 124246 124215 85315 XOR\n2 1 89411 124215 44122 XOR\n2 1 87363 124215 44123 XOR\n2 1 44122 44123 44121 AND\n2 1 44121 124215 124216 XOR\n2 1 124247 124216 85316 XOR\n2 1 89412 124216 44125 XOR\n2 1 87364 124216 44126 XOR\n2 1 44125 44126 44124 AND\n2 1 44124 124216 124217 XOR\n2 1 124248 124217 85317 XOR\n2 1 89413 124217 44128 XOR\n2 1 87365 124217 44129 XOR\n2 1 44128 44129 44127 AND\n2 1 44127 124217 124218 XOR\n2 1 124249 124218 85318 XOR\n2 1 89414 124218 44131 XOR\n2 1 87366 124218 44132 XOR\n2 1 44131 44132 44130 AND\n2 1 44130 124218 124219 XOR\n2 1 124250 124219 85319 XOR\n2 1 89415 124219 44134 XOR\n2 1 87367 124219 44135 XOR\n2 1 44134 44135 44133 AND\n2 1 44133 124219 124220 XOR\n2 1 124251 124220 85320 XOR\n2 1 89416 124220 44137 XOR\n2 1 87368 124220 44138 XOR\n2 1 44137 44138 44136 AND\n2 1 44136 124220 124221 XOR\n2 1 124252 124221 85321 XOR\n2 1 89417 124221 44140 XOR\n2 1 87369 124221 44141 XOR\n2 1 44140 44141 44139 AND\n2 1 44139 124221 124222 XOR\n2 1 124253 124222 85322 XOR\n2 1 89418 124222 44143 XOR\n2 1 87370 124222 44144 XOR\n2 1 44143 44144 44142 AND\n2 1 44142 124222 124223 XOR\n2 1 124254 124223 85323 XOR\n2 1 89419 124223 44146 XOR\n2 1 87371 124223 44147 XOR\n2 1 44146 44147 44145 AND\n2 1 44145 124223 124224 XOR\n2 1 124255 124224 85324 XOR\n2 1 89420 124224 44149 XOR\n2 1 87372 124224 44150 XOR\n2 1 44149 44150 44148 AND\n2 1 44148 124224 124225 XOR\n2 1 124256 124225 85325 XOR\n2 1 89421 124225 44152 XOR\n2 1 87373 124225 44153 XOR\n2 1 44152 44153 44151 AND\n2 1 44151 124225 124226 XOR\n2 1 124257 124226 85326 XOR\n2 1 89422 124226 44155 XOR\n2 1 87374 124226 44156 XOR\n2 1 44155 44156 44154 AND\n2 1 44154 124226 124227 XOR\n2 1 124258 124227 85327 XOR\n2 1 89423 124227 44158 XOR\n2 1 87375 124227 44159 XOR\n2 1 44158 44159 44157 AND\n2 1 44157 124227 124228 XOR\n2 1 124259 124228 85328 XOR\n2 1 66414 3935 66382 AND\n2 1 66413 3934 66381 AND\n2 1 66412 3933 66380 AND\n2 1 66411 3932 66379 AND\n2 1 66410 3931 66378 AND\n2 1 66409 3930 66377 AND\n2 1 66408 3929 66376 AND\n2 1 66407 3928 66375 AND\n2 1 66406 3927 66374 AND\n2 1 66405 3926 66373 AND\n2 1 66404 3925 66372 AND\n2 1 66403 3924 66371 AND\n2 1 66402 3923 66370 AND\n2 1 66401 3922 66369 AND\n2 1 66400 3921 66368 AND\n2 1 66399 3920 66367 AND\n2 1 66398 3919 66366 AND\n2 1 66397 3918 66365 AND\n2 1 66396 3917 66364 AND\n2 1 66395 3916 66363 AND\n2 1 66394 3915 66362 AND\n2 1 66393 3914 66361 AND\n2 1 66392 3913 66360 AND\n2 1 66391 3912 66359 AND\n2 1 66390 3911 66358 AND\n2 1 66389 3910 66357 AND\n2 1 66388 3909 66356 AND\n2 1 66387 3908 66355 AND\n2 1 66386 3907 66354 AND\n2 1 66385 3906 66353 AND\n2 1 66384 3905 66352 AND\n2 1 66383 3904 66351 AND\n2 1 66382 3999 99605 XOR\n2 1 66381 3998 99604 XOR\n2 1 66380 3997 99603 XOR\n2 1 66379 3996 99602 XOR\n2 1 66378 3995 99601 XOR\n2 1 66377 3994 99600 XOR\n2 1 66376 3993 99599 XOR\n2 1 66375 3992 99598 XOR\n2 1 66374 3991 99597 XOR\n2 1 66373 3990 99596 XOR\n2 1 66372 3989 99595 XOR\n2 1 66371 3988 99594 XOR\n2 1 66370 3987 99593 XOR\n2 1 66369 3986 99592 XOR\n2 1 66368 3985 99591 XOR\n2 1 66367 3984 99590 XOR\n2 1 66366 3983 99589 XOR\n",
"2 1 66365 3982 99588 XOR\n2 1 66364 3981 99587 XOR\n2 1 66363 3980 99586 XOR\n2 1 66362 3979 99585 XOR\n2 1 66361 3978 99584 XOR\n2 1 66360 3977 99583 XOR\n2 1 66359 3976 99582 XOR\n2 1 66358 3975 99581 XOR\n2 1 66357 3974 99580 XOR\n2 1 66356 3973 99579 XOR\n2 1 66355 3972 99578 XOR\n2 1 66354 3971 99577 XOR\n2 1 66353 3970 99576 XOR\n2 1 66352 3969 99575 XOR\n2 1 66351 3968 99574 XOR\n2 1 3935 3967 66350 XOR\n2 1 3934 3966 66349 XOR\n2 1 3933 3965 66348 XOR\n2 1 3932 3964 66347 XOR\n2 1 3931 3963 66346 XOR\n2 1 3930 3962 66345 XOR\n2 1 3929 3961 66344 XOR\n2 1 3928 3960 66343 XOR\n2 1 3927 3959 66342 XOR\n2 1 3926 3958 66341 XOR\n2 1 3925 3957 66340 XOR\n2 1 3924 3956 66339 XOR\n2 1 3923 3955 66338 XOR\n2 1 3922 3954 66337 XOR\n2 1 3921 3953 66336 XOR\n2 1 3920 3952 66335 XOR\n2 1 3919 3951 66334 XOR\n2 1 3918 3950 66333 XOR\n2 1 3917 3949 66332 XOR\n2 1 3916 3948 66331 XOR\n2 1 3915 3947 66330 XOR\n2 1 3914 3946 66329 XOR\n2 1 3913 3945 66328 XOR\n2 1 3912 3944 66327 XOR\n2 1 3911 3943 66326 XOR\n2 1 3910 3942 66325 XOR\n2 1 3909 3941 66324 XOR\n2 1 3908 3940 66323 XOR\n2 1 3907 3939 66322 XOR\n2 1 3906 3938 66321 XOR\n2 1 3905 3937 66320 XOR\n2 1 3904 3936 66319 XOR\n2 1 3909 3914 62606 XOR\n2 1 3908 3913 62605 XOR\n2 1 3907 3912 62604 XOR\n2 1 3906 3911 62603 XOR\n2 1 3905 3910 62602 XOR\n2 1 3904 3909 62601 XOR\n2 1 3935 3908 62600 XOR\n2 1 3934 3907 62599 XOR\n2 1 3933 3906 62598 XOR\n2 1 3932 3905 62597 XOR\n2 1 3931 3904 62596 XOR\n2 1 3930 3935 62595 XOR\n2 1 3929 3934 62594 XOR\n2 1 3928 3933 62593 XOR\n2 1 3927 3932 62592 XOR\n2 1 3926 3931 62591 XOR\n2 1 3925 3930 62590 XOR\n2 1 3924 3929 62589 XOR\n2 1 3923 3928 62588 XOR\n2 1 3922 3927 62587 XOR\n2 1 3921 3926 62586 XOR\n2 1 3920 3925 62585 XOR\n2 1 3919 3924 62584 XOR\n2 1 3918 3923 62583 XOR\n2 1 3917 3922 62582 XOR\n2 1 3916 3921 62581 XOR\n2 1 3915 3920 62580 XOR\n2 1 3914 3919 62579 XOR\n2 1 3913 3918 62578 XOR\n2 1 3912 3917 62577 XOR\n2 1 3911 3916 62576 XOR\n2 1 3910 3915 62575 XOR\n2 1 62606 3928 101653 XOR\n2 1 101653 99605 124445 XOR\n2 1 62605 3927 101652 XOR\n2 1 101652 99604 124444 XOR\n2 1 62604 3926 101651 XOR\n2 1 101651 99603 124443 XOR\n2 1 62603 3925 101650 XOR\n2 1 101650 99602 124442 XOR\n2 1 62602 3924 101649 XOR\n2 1 101649 99601 124441 XOR\n2 1 62601 3923 101648 XOR\n2 1 101648 99600 124440 XOR\n2 1 62600 3922 101647 XOR\n2 1 101647 99599 124439 XOR\n2 1 62599 3921 101646 XOR\n2 1 101646 99598 124438 XOR\n2 1 62598 3920 101645 XOR\n2 1 101645 99597 124437 XOR\n2 1 62597 3919 101644 XOR\n2 1 101644 99596 124436 XOR\n2 1 62596 3918 101643 XOR\n2 1 101643 99595 124435 XOR\n2 1 62595 3917 101642 XOR\n2 1 101642 99594 124434 XOR\n2 1 62594 3916 101641 XOR\n2 1 101641 99593 124433 XOR\n2 1 62593 3915 101640 XOR\n2 1 101640 99592 124432 XOR\n2 1 62592 3914 101639 XOR\n2 1 101639 99591 124431 XOR\n2 1 62591 3913 101638 XOR\n2 1 101638 99590 124430 XOR\n2 1 62590 3912 101637 XOR\n2 1 101637 99589 124429 XOR\n2 1 62589 3911 101636 XOR\n2 1 101636 99588 124428 XOR\n2 1 62588 3910 101635 XOR\n2 1 101635 99587 124427 XOR\n2 1 62587 3909 101634 XOR\n2 1 101634 99586 124426 XOR\n2 1 62586 3908 101633 XOR\n2 1 101633 99585 124425 XOR\n2 1 62585 3907 101632 XOR\n2 1 101632 99584 124424 XOR\n2 1 62584 3906 101631 XOR\n2 1 101631 99583 124423 XOR\n2 1 62583 3905 101630 XOR\n2 1 101630 99582 124422 XOR\n2 1 62582 3904 101629 XOR\n",
"2 1 101629 99581 124421 XOR\n2 1 62581 3935 101628 XOR\n2 1 101628 99580 124420 XOR\n2 1 62580 3934 101627 XOR\n2 1 101627 99579 124419 XOR\n2 1 62579 3933 101626 XOR\n2 1 101626 99578 124418 XOR\n2 1 62578 3932 101625 XOR\n2 1 101625 99577 124417 XOR\n2 1 62577 3931 101624 XOR\n2 1 101624 99576 124416 XOR\n2 1 62576 3930 101623 XOR\n2 1 101623 99575 124415 XOR\n2 1 62575 3929 101622 XOR\n2 1 101622 99574 124384 AND\n2 1 101622 99574 97526 XOR\n2 1 97526 95478 124260 AND\n2 1 97526 95478 91441 XOR\n2 1 4448 91441 109226 AND\n2 1 4448 91441 3872 XOR\n2 1 4449 109226 17677 XOR\n2 1 91441 85297 109288 AND\n2 1 91441 85297 4320 XOR\n2 1 85298 109288 17768 XOR\n2 1 96 3872 123319 AND\n2 1 96 3872 95350 XOR\n2 1 97 123319 42532 XOR\n2 1 95479 124260 44252 XOR\n2 1 124415 124384 97527 XOR\n2 1 97527 95479 124291 XOR\n2 1 124291 124260 91442 XOR\n2 1 4449 91442 109257 XOR\n2 1 109257 109226 3873 XOR\n2 1 91442 109226 17678 XOR\n2 1 17677 17678 17676 AND\n2 1 17676 109226 109227 XOR\n2 1 4450 109227 17680 XOR\n2 1 91442 85298 109319 XOR\n2 1 109319 109288 4321 XOR\n2 1 91442 109288 17767 XOR\n2 1 17767 17768 17766 AND\n2 1 17766 109288 109289 XOR\n2 1 85299 109289 17771 XOR\n2 1 97 3873 123350 XOR\n2 1 123350 123319 95351 XOR\n2 1 3873 123319 42533 XOR\n2 1 42532 42533 42531 AND\n2 1 42531 123319 123320 XOR\n2 1 98 123320 42535 XOR\n2 1 97527 124260 44251 XOR\n2 1 44251 44252 44250 AND\n2 1 44250 124260 124261 XOR\n2 1 95480 124261 44255 XOR\n2 1 101623 124384 44431 XOR\n2 1 99575 124384 44432 XOR\n2 1 44431 44432 44430 AND\n2 1 44430 124384 124385 XOR\n2 1 124416 124385 97528 XOR\n2 1 97528 95480 124292 XOR\n2 1 124292 124261 91443 XOR\n2 1 4450 91443 109258 XOR\n2 1 109258 109227 3874 XOR\n2 1 91443 109227 17681 XOR\n2 1 17680 17681 17679 AND\n2 1 17679 109227 109228 XOR\n2 1 4451 109228 17683 XOR\n2 1 91443 85299 109320 XOR\n2 1 109320 109289 4322 XOR\n2 1 91443 109289 17770 XOR\n2 1 17770 17771 17769 AND\n2 1 17769 109289 109290 XOR\n2 1 85300 109290 17774 XOR\n2 1 98 3874 123351 XOR\n2 1 123351 123320 95352 XOR\n2 1 3874 123320 42536 XOR\n2 1 42535 42536 42534 AND\n2 1 42534 123320 123321 XOR\n2 1 99 123321 42538 XOR\n2 1 97528 124261 44254 XOR\n2 1 44254 44255 44253 AND\n2 1 44253 124261 124262 XOR\n2 1 95481 124262 44258 XOR\n2 1 101624 124385 44434 XOR\n2 1 99576 124385 44435 XOR\n2 1 44434 44435 44433 AND\n2 1 44433 124385 124386 XOR\n2 1 124417 124386 97529 XOR\n2 1 97529 95481 124293 XOR\n2 1 124293 124262 93435 XOR\n1 1 93435 91444 INV\n2 1 4451 91444 109259 XOR\n2 1 109259 109228 3875 XOR\n2 1 91444 109228 17684 XOR\n2 1 17683 17684 17682 AND\n2 1 17682 109228 109229 XOR\n2 1 4452 109229 17686 XOR\n2 1 91444 85300 109321 XOR\n2 1 109321 109290 4323 XOR\n2 1 91444 109290 17773 XOR\n2 1 17773 17774 17772 AND\n2 1 17772 109290 109291 XOR\n2 1 85301 109291 17777 XOR\n2 1 99 3875 123352 XOR\n2 1 123352 123321 95353 XOR\n2 1 3875 123321 42539 XOR\n2 1 42538 42539 42537 AND\n2 1 42537 123321 123322 XOR\n2 1 100 123322 42541 XOR\n2 1 97529 124262 44257 XOR\n2 1 44257 44258 44256 AND\n2 1 44256 124262 124263 XOR\n2 1 95482 124263 44261 XOR\n2 1 101625 124386 44437 XOR\n2 1 99577 124386 44438 XOR\n2 1 44437 44438 44436 AND\n2 1 44436 124386 124387 XOR\n2 1 124418 124387 97530 XOR\n2 1 97530 95482 124294 XOR\n2 1 124294 124263 93436 XOR\n1 1 93436 44237 INV\n2 1 44237 93435 91445 XOR\n2 1 4452 91445 109260 XOR\n2 1 109260 109229 3876 XOR\n2 1 91445 109229 17687 XOR\n2 1 17686 17687 17685 AND\n2 1 17685 109229 109230 XOR\n2 1 4453 109230 17689 XOR\n2 1 91445 85301 109322 XOR\n",
"2 1 109322 109291 4324 XOR\n2 1 91445 109291 17776 XOR\n2 1 17776 17777 17775 AND\n2 1 17775 109291 109292 XOR\n2 1 85302 109292 17780 XOR\n2 1 100 3876 123353 XOR\n2 1 123353 123322 95354 XOR\n2 1 3876 123322 42542 XOR\n2 1 42541 42542 42540 AND\n2 1 42540 123322 123323 XOR\n2 1 101 123323 42544 XOR\n2 1 93436 93435 44161 XOR\n2 1 44161 91444 44160 AND\n2 1 44160 93435 44163 XOR\n2 1 97530 124263 44260 XOR\n2 1 44260 44261 44259 AND\n2 1 44259 124263 124264 XOR\n2 1 95483 124264 44264 XOR\n2 1 101626 124387 44440 XOR\n2 1 99578 124387 44441 XOR\n2 1 44440 44441 44439 AND\n2 1 44439 124387 124388 XOR\n2 1 124419 124388 97531 XOR\n2 1 97531 95483 124295 XOR\n2 1 124295 124264 93437 XOR\n2 1 93437 44163 91446 XOR\n2 1 91446 109230 17690 XOR\n2 1 17689 17690 17688 AND\n2 1 17688 109230 109231 XOR\n2 1 4454 109231 17692 XOR\n2 1 91446 85302 109323 XOR\n2 1 109323 109292 4325 XOR\n2 1 91446 109292 17779 XOR\n2 1 17779 17780 17778 AND\n2 1 17778 109292 109293 XOR\n2 1 85303 109293 17783 XOR\n2 1 4453 91446 109261 XOR\n2 1 109261 109230 3877 XOR\n2 1 3877 123323 42545 XOR\n2 1 42544 42545 42543 AND\n2 1 42543 123323 123324 XOR\n2 1 102 123324 42547 XOR\n2 1 101 3877 123354 XOR\n2 1 123354 123323 95355 XOR\n2 1 91446 44163 44162 AND\n2 1 44162 44163 44165 XOR\n2 1 97531 124264 44263 XOR\n2 1 44263 44264 44262 AND\n2 1 44262 124264 124265 XOR\n2 1 95484 124265 44267 XOR\n2 1 101627 124388 44443 XOR\n2 1 99579 124388 44444 XOR\n2 1 44443 44444 44442 AND\n2 1 44442 124388 124389 XOR\n2 1 124420 124389 97532 XOR\n2 1 97532 95484 124296 XOR\n2 1 124296 124265 93438 XOR\n2 1 93438 44165 91447 XOR\n2 1 91447 109231 17693 XOR\n2 1 17692 17693 17691 AND\n2 1 17691 109231 109232 XOR\n2 1 4455 109232 17695 XOR\n2 1 91447 85303 109324 XOR\n2 1 109324 109293 4326 XOR\n2 1 91447 109293 17782 XOR\n2 1 17782 17783 17781 AND\n2 1 17781 109293 109294 XOR\n2 1 85304 109294 17786 XOR\n2 1 4454 91447 109262 XOR\n2 1 109262 109231 3878 XOR\n2 1 3878 123324 42548 XOR\n2 1 42547 42548 42546 AND\n2 1 42546 123324 123325 XOR\n2 1 103 123325 42550 XOR\n2 1 102 3878 123355 XOR\n2 1 123355 123324 95356 XOR\n2 1 91447 44165 44164 AND\n2 1 44164 44165 44225 XOR\n1 1 44225 44168 INV\n2 1 97532 124265 44266 XOR\n2 1 44266 44267 44265 AND\n2 1 44265 124265 124266 XOR\n2 1 95485 124266 44270 XOR\n2 1 101628 124389 44446 XOR\n2 1 99580 124389 44447 XOR\n2 1 44446 44447 44445 AND\n2 1 44445 124389 124390 XOR\n2 1 124421 124390 97533 XOR\n2 1 97533 95485 124297 XOR\n2 1 124297 124266 93439 XOR\n1 1 93439 44238 INV\n2 1 44238 44225 91448 XOR\n2 1 4455 91448 109263 XOR\n2 1 109263 109232 3879 XOR\n2 1 91448 109232 17696 XOR\n2 1 17695 17696 17694 AND\n2 1 17694 109232 109233 XOR\n2 1 4456 109233 17698 XOR\n2 1 91448 85304 109325 XOR\n2 1 109325 109294 4327 XOR\n2 1 91448 109294 17785 XOR\n2 1 17785 17786 17784 AND\n2 1 17784 109294 109295 XOR\n2 1 85305 109295 17789 XOR\n2 1 103 3879 123356 XOR\n2 1 123356 123325 95357 XOR\n2 1 3879 123325 42551 XOR\n2 1 42550 42551 42549 AND\n2 1 42549 123325 123326 XOR\n2 1 104 123326 42553 XOR\n2 1 93439 44225 44167 XOR\n2 1 44167 44168 44166 AND\n2 1 44166 44225 44170 XOR\n2 1 97533 124266 44269 XOR\n2 1 44269 44270 44268 AND\n2 1 44268 124266 124267 XOR\n2 1 95486 124267 44273 XOR\n2 1 101629 124390 44449 XOR\n2 1 99581 124390 44450 XOR\n2 1 44449 44450 44448 AND\n2 1 44448 124390 124391 XOR\n2 1 124422 124391 97534 XOR\n2 1 97534 95486 124298 XOR\n2 1 124298 124267 93440 XOR\n2 1 93440 44170 91449 XOR\n2 1 91449 109233 17699 XOR\n2 1 17698 17699 17697 AND\n2 1 17697 109233 109234 XOR\n",
"2 1 4457 109234 17701 XOR\n2 1 91449 85305 109326 XOR\n2 1 109326 109295 4328 XOR\n2 1 91449 109295 17788 XOR\n2 1 17788 17789 17787 AND\n2 1 17787 109295 109296 XOR\n2 1 85306 109296 17792 XOR\n2 1 4456 91449 109264 XOR\n2 1 109264 109233 3880 XOR\n2 1 3880 123326 42554 XOR\n2 1 42553 42554 42552 AND\n2 1 42552 123326 123327 XOR\n2 1 105 123327 42556 XOR\n2 1 104 3880 123357 XOR\n2 1 123357 123326 95358 XOR\n2 1 91449 44170 44169 AND\n2 1 44169 44170 44226 XOR\n1 1 44226 44173 INV\n2 1 97534 124267 44272 XOR\n2 1 44272 44273 44271 AND\n2 1 44271 124267 124268 XOR\n2 1 95487 124268 44276 XOR\n2 1 101630 124391 44452 XOR\n2 1 99582 124391 44453 XOR\n2 1 44452 44453 44451 AND\n2 1 44451 124391 124392 XOR\n2 1 124423 124392 97535 XOR\n2 1 97535 95487 124299 XOR\n2 1 124299 124268 93441 XOR\n1 1 93441 44239 INV\n2 1 44239 44226 91450 XOR\n2 1 4457 91450 109265 XOR\n2 1 109265 109234 3881 XOR\n2 1 91450 109234 17702 XOR\n2 1 17701 17702 17700 AND\n2 1 17700 109234 109235 XOR\n2 1 4458 109235 17704 XOR\n2 1 91450 85306 109327 XOR\n2 1 109327 109296 4329 XOR\n2 1 91450 109296 17791 XOR\n2 1 17791 17792 17790 AND\n2 1 17790 109296 109297 XOR\n2 1 85307 109297 17795 XOR\n2 1 105 3881 123358 XOR\n2 1 123358 123327 95359 XOR\n2 1 3881 123327 42557 XOR\n2 1 42556 42557 42555 AND\n2 1 42555 123327 123328 XOR\n2 1 106 123328 42559 XOR\n2 1 93441 44226 44172 XOR\n2 1 44172 44173 44171 AND\n2 1 44171 44226 44175 XOR\n2 1 97535 124268 44275 XOR\n2 1 44275 44276 44274 AND\n2 1 44274 124268 124269 XOR\n2 1 95488 124269 44279 XOR\n2 1 101631 124392 44455 XOR\n2 1 99583 124392 44456 XOR\n2 1 44455 44456 44454 AND\n2 1 44454 124392 124393 XOR\n2 1 124424 124393 97536 XOR\n2 1 97536 95488 124300 XOR\n2 1 124300 124269 93442 XOR\n2 1 93442 44175 91451 XOR\n2 1 91451 109235 17705 XOR\n2 1 17704 17705 17703 AND\n2 1 17703 109235 109236 XOR\n2 1 4459 109236 17707 XOR\n2 1 91451 85307 109328 XOR\n2 1 109328 109297 4330 XOR\n2 1 91451 109297 17794 XOR\n2 1 17794 17795 17793 AND\n2 1 17793 109297 109298 XOR\n2 1 85308 109298 17798 XOR\n2 1 4458 91451 109266 XOR\n2 1 109266 109235 3882 XOR\n2 1 3882 123328 42560 XOR\n2 1 42559 42560 42558 AND\n2 1 42558 123328 123329 XOR\n2 1 107 123329 42562 XOR\n2 1 106 3882 123359 XOR\n2 1 123359 123328 95360 XOR\n2 1 91451 44175 44174 AND\n2 1 44174 44175 44227 XOR\n1 1 44227 44178 INV\n2 1 97536 124269 44278 XOR\n2 1 44278 44279 44277 AND\n2 1 44277 124269 124270 XOR\n2 1 95489 124270 44282 XOR\n2 1 101632 124393 44458 XOR\n2 1 99584 124393 44459 XOR\n2 1 44458 44459 44457 AND\n2 1 44457 124393 124394 XOR\n2 1 124425 124394 97537 XOR\n2 1 97537 95489 124301 XOR\n2 1 124301 124270 93443 XOR\n1 1 93443 44240 INV\n2 1 44240 44227 91452 XOR\n2 1 4459 91452 109267 XOR\n2 1 109267 109236 3883 XOR\n2 1 91452 109236 17708 XOR\n2 1 17707 17708 17706 AND\n2 1 17706 109236 109237 XOR\n2 1 4460 109237 17710 XOR\n2 1 91452 85308 109329 XOR\n2 1 109329 109298 4331 XOR\n2 1 91452 109298 17797 XOR\n2 1 17797 17798 17796 AND\n2 1 17796 109298 109299 XOR\n2 1 85309 109299 17801 XOR\n2 1 107 3883 123360 XOR\n2 1 123360 123329 95361 XOR\n2 1 3883 123329 42563 XOR\n2 1 42562 42563 42561 AND\n2 1 42561 123329 123330 XOR\n2 1 108 123330 42565 XOR\n2 1 93443 44227 44177 XOR\n2 1 44177 44178 44176 AND\n2 1 44176 44227 44180 XOR\n2 1 97537 124270 44281 XOR\n2 1 44281 44282 44280 AND\n2 1 44280 124270 124271 XOR\n2 1 95490 124271 44285 XOR\n2 1 101633 124394 44461 XOR\n2 1 99585 124394 44462 XOR\n2 1 44461 44462 44460 AND\n2 1 44460 124394 124395 XOR\n2 1 124426 124395 97538 XOR\n",
"2 1 97538 95490 124302 XOR\n2 1 124302 124271 93444 XOR\n2 1 93444 44180 91453 XOR\n2 1 91453 109237 17711 XOR\n2 1 17710 17711 17709 AND\n2 1 17709 109237 109238 XOR\n2 1 4461 109238 17713 XOR\n2 1 91453 85309 109330 XOR\n2 1 109330 109299 4332 XOR\n2 1 91453 109299 17800 XOR\n2 1 17800 17801 17799 AND\n2 1 17799 109299 109300 XOR\n2 1 85310 109300 17804 XOR\n2 1 4460 91453 109268 XOR\n2 1 109268 109237 3884 XOR\n2 1 3884 123330 42566 XOR\n2 1 42565 42566 42564 AND\n2 1 42564 123330 123331 XOR\n2 1 109 123331 42568 XOR\n2 1 108 3884 123361 XOR\n2 1 123361 123330 95362 XOR\n2 1 91453 44180 44179 AND\n2 1 44179 44180 44228 XOR\n1 1 44228 44183 INV\n2 1 97538 124271 44284 XOR\n2 1 44284 44285 44283 AND\n2 1 44283 124271 124272 XOR\n2 1 95491 124272 44288 XOR\n2 1 101634 124395 44464 XOR\n2 1 99586 124395 44465 XOR\n2 1 44464 44465 44463 AND\n2 1 44463 124395 124396 XOR\n2 1 124427 124396 97539 XOR\n2 1 97539 95491 124303 XOR\n2 1 124303 124272 93445 XOR\n1 1 93445 44241 INV\n2 1 44241 44228 91454 XOR\n2 1 4461 91454 109269 XOR\n2 1 109269 109238 3885 XOR\n2 1 91454 109238 17714 XOR\n2 1 17713 17714 17712 AND\n2 1 17712 109238 109239 XOR\n2 1 4462 109239 17716 XOR\n2 1 91454 85310 109331 XOR\n2 1 109331 109300 4333 XOR\n2 1 91454 109300 17803 XOR\n2 1 17803 17804 17802 AND\n2 1 17802 109300 109301 XOR\n2 1 85311 109301 17807 XOR\n2 1 109 3885 123362 XOR\n2 1 123362 123331 95363 XOR\n2 1 3885 123331 42569 XOR\n2 1 42568 42569 42567 AND\n2 1 42567 123331 123332 XOR\n2 1 110 123332 42571 XOR\n2 1 93445 44228 44182 XOR\n2 1 44182 44183 44181 AND\n2 1 44181 44228 44185 XOR\n2 1 97539 124272 44287 XOR\n2 1 44287 44288 44286 AND\n2 1 44286 124272 124273 XOR\n2 1 95492 124273 44291 XOR\n2 1 101635 124396 44467 XOR\n2 1 99587 124396 44468 XOR\n2 1 44467 44468 44466 AND\n2 1 44466 124396 124397 XOR\n2 1 124428 124397 97540 XOR\n2 1 97540 95492 124304 XOR\n2 1 124304 124273 93446 XOR\n2 1 93446 44185 91455 XOR\n2 1 91455 109239 17717 XOR\n2 1 17716 17717 17715 AND\n2 1 17715 109239 109240 XOR\n2 1 4463 109240 17719 XOR\n2 1 91455 85311 109332 XOR\n2 1 109332 109301 4334 XOR\n2 1 91455 109301 17806 XOR\n2 1 17806 17807 17805 AND\n2 1 17805 109301 109302 XOR\n2 1 85312 109302 17810 XOR\n2 1 4462 91455 109270 XOR\n2 1 109270 109239 3886 XOR\n2 1 3886 123332 42572 XOR\n2 1 42571 42572 42570 AND\n2 1 42570 123332 123333 XOR\n2 1 111 123333 42574 XOR\n2 1 110 3886 123363 XOR\n2 1 123363 123332 95364 XOR\n2 1 91455 44185 44184 AND\n2 1 44184 44185 44229 XOR\n1 1 44229 44188 INV\n2 1 97540 124273 44290 XOR\n2 1 44290 44291 44289 AND\n2 1 44289 124273 124274 XOR\n2 1 95493 124274 44294 XOR\n2 1 101636 124397 44470 XOR\n2 1 99588 124397 44471 XOR\n2 1 44470 44471 44469 AND\n2 1 44469 124397 124398 XOR\n2 1 124429 124398 97541 XOR\n2 1 97541 95493 124305 XOR\n2 1 124305 124274 93447 XOR\n1 1 93447 44242 INV\n2 1 44242 44229 91456 XOR\n2 1 4463 91456 109271 XOR\n2 1 109271 109240 3887 XOR\n2 1 91456 109240 17720 XOR\n2 1 17719 17720 17718 AND\n2 1 17718 109240 109241 XOR\n2 1 4464 109241 17722 XOR\n2 1 91456 85312 109333 XOR\n2 1 109333 109302 4335 XOR\n2 1 91456 109302 17809 XOR\n2 1 17809 17810 17808 AND\n2 1 17808 109302 109303 XOR\n2 1 85313 109303 17813 XOR\n2 1 111 3887 123364 XOR\n2 1 123364 123333 95365 XOR\n2 1 3887 123333 42575 XOR\n2 1 42574 42575 42573 AND\n2 1 42573 123333 123334 XOR\n2 1 112 123334 42577 XOR\n2 1 93447 44229 44187 XOR\n2 1 44187 44188 44186 AND\n2 1 44186 44229 44230 XOR\n1 1 44230 44191 INV\n2 1 97541 124274 44293 XOR\n2 1 44293 44294 44292 AND\n",
"2 1 44292 124274 124275 XOR\n2 1 95494 124275 44297 XOR\n2 1 101637 124398 44473 XOR\n2 1 99589 124398 44474 XOR\n2 1 44473 44474 44472 AND\n2 1 44472 124398 124399 XOR\n2 1 124430 124399 97542 XOR\n2 1 97542 95494 124306 XOR\n2 1 124306 124275 93448 XOR\n1 1 93448 44243 INV\n2 1 44243 44230 91457 XOR\n2 1 4464 91457 109272 XOR\n2 1 109272 109241 3888 XOR\n2 1 91457 109241 17723 XOR\n2 1 17722 17723 17721 AND\n2 1 17721 109241 109242 XOR\n2 1 4465 109242 17725 XOR\n2 1 91457 85313 109334 XOR\n2 1 109334 109303 4336 XOR\n2 1 91457 109303 17812 XOR\n2 1 17812 17813 17811 AND\n2 1 17811 109303 109304 XOR\n2 1 85314 109304 17816 XOR\n2 1 112 3888 123365 XOR\n2 1 123365 123334 95366 XOR\n2 1 3888 123334 42578 XOR\n2 1 42577 42578 42576 AND\n2 1 42576 123334 123335 XOR\n2 1 113 123335 42580 XOR\n2 1 93448 44230 44190 XOR\n2 1 44190 44191 44189 AND\n2 1 44189 44230 44231 XOR\n1 1 44231 44194 INV\n2 1 97542 124275 44296 XOR\n2 1 44296 44297 44295 AND\n2 1 44295 124275 124276 XOR\n2 1 95495 124276 44300 XOR\n2 1 101638 124399 44476 XOR\n2 1 99590 124399 44477 XOR\n2 1 44476 44477 44475 AND\n2 1 44475 124399 124400 XOR\n2 1 124431 124400 97543 XOR\n2 1 97543 95495 124307 XOR\n2 1 124307 124276 93449 XOR\n1 1 93449 44244 INV\n2 1 44244 44231 91458 XOR\n2 1 4465 91458 109273 XOR\n2 1 109273 109242 3889 XOR\n2 1 91458 109242 17726 XOR\n2 1 17725 17726 17724 AND\n2 1 17724 109242 109243 XOR\n2 1 4466 109243 17728 XOR\n2 1 91458 85314 109335 XOR\n2 1 109335 109304 4337 XOR\n2 1 91458 109304 17815 XOR\n2 1 17815 17816 17814 AND\n2 1 17814 109304 109305 XOR\n2 1 85315 109305 17819 XOR\n2 1 113 3889 123366 XOR\n2 1 123366 123335 95367 XOR\n2 1 3889 123335 42581 XOR\n2 1 42580 42581 42579 AND\n2 1 42579 123335 123336 XOR\n2 1 114 123336 42583 XOR\n2 1 93449 44231 44193 XOR\n2 1 44193 44194 44192 AND\n2 1 44192 44231 44232 XOR\n1 1 44232 44197 INV\n2 1 97543 124276 44299 XOR\n2 1 44299 44300 44298 AND\n2 1 44298 124276 124277 XOR\n2 1 95496 124277 44303 XOR\n2 1 101639 124400 44479 XOR\n2 1 99591 124400 44480 XOR\n2 1 44479 44480 44478 AND\n2 1 44478 124400 124401 XOR\n2 1 124432 124401 97544 XOR\n2 1 97544 95496 124308 XOR\n2 1 124308 124277 93450 XOR\n1 1 93450 44245 INV\n2 1 44245 44232 91459 XOR\n2 1 4466 91459 109274 XOR\n2 1 109274 109243 3890 XOR\n2 1 91459 109243 17729 XOR\n2 1 17728 17729 17727 AND\n2 1 17727 109243 109244 XOR\n2 1 4467 109244 17731 XOR\n2 1 91459 85315 109336 XOR\n2 1 109336 109305 4338 XOR\n2 1 91459 109305 17818 XOR\n2 1 17818 17819 17817 AND\n2 1 17817 109305 109306 XOR\n2 1 85316 109306 17822 XOR\n2 1 114 3890 123367 XOR\n2 1 123367 123336 95368 XOR\n2 1 3890 123336 42584 XOR\n2 1 42583 42584 42582 AND\n2 1 42582 123336 123337 XOR\n2 1 115 123337 42586 XOR\n2 1 93450 44232 44196 XOR\n2 1 44196 44197 44195 AND\n2 1 44195 44232 44199 XOR\n2 1 97544 124277 44302 XOR\n2 1 44302 44303 44301 AND\n2 1 44301 124277 124278 XOR\n2 1 95497 124278 44306 XOR\n2 1 101640 124401 44482 XOR\n2 1 99592 124401 44483 XOR\n2 1 44482 44483 44481 AND\n2 1 44481 124401 124402 XOR\n2 1 124433 124402 97545 XOR\n2 1 97545 95497 124309 XOR\n2 1 124309 124278 93451 XOR\n2 1 93451 44199 91460 XOR\n2 1 91460 109244 17732 XOR\n2 1 17731 17732 17730 AND\n2 1 17730 109244 109245 XOR\n2 1 4468 109245 17734 XOR\n2 1 91460 85316 109337 XOR\n2 1 109337 109306 4339 XOR\n2 1 91460 109306 17821 XOR\n2 1 17821 17822 17820 AND\n2 1 17820 109306 109307 XOR\n2 1 85317 109307 17825 XOR\n2 1 4467 91460 109275 XOR\n2 1 109275 109244 3891 XOR\n2 1 3891 123337 42587 XOR\n2 1 42586 42587 42585 AND\n",
"2 1 42585 123337 123338 XOR\n2 1 116 123338 42589 XOR\n2 1 115 3891 123368 XOR\n2 1 123368 123337 95369 XOR\n2 1 91460 44199 44198 AND\n2 1 44198 44199 44201 XOR\n2 1 97545 124278 44305 XOR\n2 1 44305 44306 44304 AND\n2 1 44304 124278 124279 XOR\n2 1 95498 124279 44309 XOR\n2 1 101641 124402 44485 XOR\n2 1 99593 124402 44486 XOR\n2 1 44485 44486 44484 AND\n2 1 44484 124402 124403 XOR\n2 1 124434 124403 97546 XOR\n2 1 97546 95498 124310 XOR\n2 1 124310 124279 93452 XOR\n2 1 93452 44201 91461 XOR\n2 1 91461 109245 17735 XOR\n2 1 17734 17735 17733 AND\n2 1 17733 109245 109246 XOR\n2 1 4469 109246 17737 XOR\n2 1 91461 85317 109338 XOR\n2 1 109338 109307 4340 XOR\n2 1 91461 109307 17824 XOR\n2 1 17824 17825 17823 AND\n2 1 17823 109307 109308 XOR\n2 1 85318 109308 17828 XOR\n2 1 4468 91461 109276 XOR\n2 1 109276 109245 3892 XOR\n2 1 3892 123338 42590 XOR\n2 1 42589 42590 42588 AND\n2 1 42588 123338 123339 XOR\n2 1 117 123339 42592 XOR\n2 1 116 3892 123369 XOR\n2 1 123369 123338 95370 XOR\n2 1 91461 44201 44200 AND\n2 1 44200 44201 44203 XOR\n2 1 97546 124279 44308 XOR\n2 1 44308 44309 44307 AND\n2 1 44307 124279 124280 XOR\n2 1 95499 124280 44312 XOR\n2 1 101642 124403 44488 XOR\n2 1 99594 124403 44489 XOR\n2 1 44488 44489 44487 AND\n2 1 44487 124403 124404 XOR\n2 1 124435 124404 97547 XOR\n2 1 97547 95499 124311 XOR\n2 1 124311 124280 93453 XOR\n2 1 93453 44203 91462 XOR\n2 1 91462 109246 17738 XOR\n2 1 17737 17738 17736 AND\n2 1 17736 109246 109247 XOR\n2 1 4470 109247 17740 XOR\n2 1 91462 85318 109339 XOR\n2 1 109339 109308 4341 XOR\n2 1 91462 109308 17827 XOR\n2 1 17827 17828 17826 AND\n2 1 17826 109308 109309 XOR\n2 1 85319 109309 17831 XOR\n2 1 4469 91462 109277 XOR\n2 1 109277 109246 3893 XOR\n2 1 3893 123339 42593 XOR\n2 1 42592 42593 42591 AND\n2 1 42591 123339 123340 XOR\n2 1 118 123340 42595 XOR\n2 1 117 3893 123370 XOR\n2 1 123370 123339 95371 XOR\n2 1 91462 44203 44202 AND\n2 1 44202 44203 44205 XOR\n2 1 97547 124280 44311 XOR\n2 1 44311 44312 44310 AND\n2 1 44310 124280 124281 XOR\n2 1 95500 124281 44315 XOR\n2 1 101643 124404 44491 XOR\n2 1 99595 124404 44492 XOR\n2 1 44491 44492 44490 AND\n2 1 44490 124404 124405 XOR\n2 1 124436 124405 97548 XOR\n2 1 97548 95500 124312 XOR\n2 1 124312 124281 93454 XOR\n2 1 93454 44205 91463 XOR\n2 1 91463 109247 17741 XOR\n2 1 17740 17741 17739 AND\n2 1 17739 109247 109248 XOR\n2 1 4471 109248 17743 XOR\n2 1 91463 85319 109340 XOR\n2 1 109340 109309 4342 XOR\n2 1 91463 109309 17830 XOR\n2 1 17830 17831 17829 AND\n2 1 17829 109309 109310 XOR\n2 1 85320 109310 17834 XOR\n2 1 4470 91463 109278 XOR\n2 1 109278 109247 3894 XOR\n2 1 3894 123340 42596 XOR\n2 1 42595 42596 42594 AND\n2 1 42594 123340 123341 XOR\n2 1 119 123341 42598 XOR\n2 1 118 3894 123371 XOR\n2 1 123371 123340 95372 XOR\n2 1 91463 44205 44204 AND\n2 1 44204 44205 44207 XOR\n2 1 97548 124281 44314 XOR\n2 1 44314 44315 44313 AND\n2 1 44313 124281 124282 XOR\n2 1 95501 124282 44318 XOR\n2 1 101644 124405 44494 XOR\n2 1 99596 124405 44495 XOR\n2 1 44494 44495 44493 AND\n2 1 44493 124405 124406 XOR\n2 1 124437 124406 97549 XOR\n2 1 97549 95501 124313 XOR\n2 1 124313 124282 93455 XOR\n2 1 93455 44207 91464 XOR\n2 1 91464 109248 17744 XOR\n2 1 17743 17744 17742 AND\n2 1 17742 109248 109249 XOR\n2 1 4472 109249 17746 XOR\n2 1 91464 85320 109341 XOR\n2 1 109341 109310 4343 XOR\n2 1 91464 109310 17833 XOR\n2 1 17833 17834 17832 AND\n2 1 17832 109310 109311 XOR\n2 1 85321 109311 17837 XOR\n2 1 4471 91464 109279 XOR\n2 1 109279 109248 3895 XOR\n2 1 3895 123341 42599 XOR\n2 1 42598 42599 42597 AND\n",
"2 1 42597 123341 123342 XOR\n2 1 120 123342 42601 XOR\n2 1 119 3895 123372 XOR\n2 1 123372 123341 95373 XOR\n2 1 91464 44207 44206 AND\n2 1 44206 44207 44209 XOR\n2 1 97549 124282 44317 XOR\n2 1 44317 44318 44316 AND\n2 1 44316 124282 124283 XOR\n2 1 95502 124283 44321 XOR\n2 1 101645 124406 44497 XOR\n2 1 99597 124406 44498 XOR\n2 1 44497 44498 44496 AND\n2 1 44496 124406 124407 XOR\n2 1 124438 124407 97550 XOR\n2 1 97550 95502 124314 XOR\n2 1 124314 124283 93456 XOR\n2 1 93456 44209 91465 XOR\n2 1 91465 109249 17747 XOR\n2 1 17746 17747 17745 AND\n2 1 17745 109249 109250 XOR\n2 1 4473 109250 17749 XOR\n2 1 91465 85321 109342 XOR\n2 1 109342 109311 4344 XOR\n2 1 91465 109311 17836 XOR\n2 1 17836 17837 17835 AND\n2 1 17835 109311 109312 XOR\n2 1 85322 109312 17840 XOR\n2 1 4472 91465 109280 XOR\n2 1 109280 109249 3896 XOR\n2 1 3896 123342 42602 XOR\n2 1 42601 42602 42600 AND\n2 1 42600 123342 123343 XOR\n2 1 121 123343 42604 XOR\n2 1 120 3896 123373 XOR\n2 1 123373 123342 95374 XOR\n2 1 91465 44209 44208 AND\n2 1 44208 44209 44211 XOR\n2 1 97550 124283 44320 XOR\n2 1 44320 44321 44319 AND\n2 1 44319 124283 124284 XOR\n2 1 95503 124284 44324 XOR\n2 1 101646 124407 44500 XOR\n2 1 99598 124407 44501 XOR\n2 1 44500 44501 44499 AND\n2 1 44499 124407 124408 XOR\n2 1 124439 124408 97551 XOR\n2 1 97551 95503 124315 XOR\n2 1 124315 124284 93457 XOR\n2 1 93457 44211 91466 XOR\n2 1 91466 109250 17750 XOR\n2 1 17749 17750 17748 AND\n2 1 17748 109250 109251 XOR\n2 1 4474 109251 17752 XOR\n2 1 91466 85322 109343 XOR\n2 1 109343 109312 4345 XOR\n2 1 91466 109312 17839 XOR\n2 1 17839 17840 17838 AND\n2 1 17838 109312 109313 XOR\n2 1 85323 109313 17843 XOR\n2 1 4473 91466 109281 XOR\n2 1 109281 109250 3897 XOR\n2 1 3897 123343 42605 XOR\n2 1 42604 42605 42603 AND\n2 1 42603 123343 123344 XOR\n2 1 122 123344 42607 XOR\n2 1 121 3897 123374 XOR\n2 1 123374 123343 95375 XOR\n2 1 91466 44211 44210 AND\n2 1 44210 44211 44213 XOR\n2 1 97551 124284 44323 XOR\n2 1 44323 44324 44322 AND\n2 1 44322 124284 124285 XOR\n2 1 95504 124285 44327 XOR\n2 1 101647 124408 44503 XOR\n2 1 99599 124408 44504 XOR\n2 1 44503 44504 44502 AND\n2 1 44502 124408 124409 XOR\n2 1 124440 124409 97552 XOR\n2 1 97552 95504 124316 XOR\n2 1 124316 124285 93458 XOR\n2 1 93458 44213 91467 XOR\n2 1 91467 109251 17753 XOR\n2 1 17752 17753 17751 AND\n2 1 17751 109251 109252 XOR\n2 1 4475 109252 17755 XOR\n2 1 91467 85323 109344 XOR\n2 1 109344 109313 4346 XOR\n2 1 91467 109313 17842 XOR\n2 1 17842 17843 17841 AND\n2 1 17841 109313 109314 XOR\n2 1 85324 109314 17846 XOR\n2 1 4474 91467 109282 XOR\n2 1 109282 109251 3898 XOR\n2 1 3898 123344 42608 XOR\n2 1 42607 42608 42606 AND\n2 1 42606 123344 123345 XOR\n2 1 123 123345 42610 XOR\n2 1 122 3898 123375 XOR\n2 1 123375 123344 95376 XOR\n2 1 91467 44213 44212 AND\n2 1 44212 44213 44233 XOR\n1 1 44233 44216 INV\n2 1 97552 124285 44326 XOR\n2 1 44326 44327 44325 AND\n2 1 44325 124285 124286 XOR\n2 1 95505 124286 44330 XOR\n2 1 101648 124409 44506 XOR\n2 1 99600 124409 44507 XOR\n2 1 44506 44507 44505 AND\n2 1 44505 124409 124410 XOR\n2 1 124441 124410 97553 XOR\n2 1 97553 95505 124317 XOR\n2 1 124317 124286 93459 XOR\n1 1 93459 44246 INV\n2 1 44246 44233 91468 XOR\n2 1 4475 91468 109283 XOR\n2 1 109283 109252 3899 XOR\n2 1 91468 109252 17756 XOR\n2 1 17755 17756 17754 AND\n2 1 17754 109252 109253 XOR\n2 1 4476 109253 17758 XOR\n2 1 91468 85324 109345 XOR\n2 1 109345 109314 4347 XOR\n2 1 91468 109314 17845 XOR\n2 1 17845 17846 17844 AND\n2 1 17844 109314 109315 XOR\n2 1 85325 109315 17849 XOR\n",
"2 1 123 3899 123376 XOR\n2 1 123376 123345 95377 XOR\n2 1 3899 123345 42611 XOR\n2 1 42610 42611 42609 AND\n2 1 42609 123345 123346 XOR\n2 1 124 123346 42613 XOR\n2 1 93459 44233 44215 XOR\n2 1 44215 44216 44214 AND\n2 1 44214 44233 44234 XOR\n1 1 44234 44219 INV\n2 1 97553 124286 44329 XOR\n2 1 44329 44330 44328 AND\n2 1 44328 124286 124287 XOR\n2 1 95506 124287 44333 XOR\n2 1 101649 124410 44509 XOR\n2 1 99601 124410 44510 XOR\n2 1 44509 44510 44508 AND\n2 1 44508 124410 124411 XOR\n2 1 124442 124411 97554 XOR\n2 1 97554 95506 124318 XOR\n2 1 124318 124287 93460 XOR\n1 1 93460 44247 INV\n2 1 44247 44234 91469 XOR\n2 1 4476 91469 109284 XOR\n2 1 109284 109253 3900 XOR\n2 1 91469 109253 17759 XOR\n2 1 17758 17759 17757 AND\n2 1 17757 109253 109254 XOR\n2 1 4477 109254 17761 XOR\n2 1 91469 85325 109346 XOR\n2 1 109346 109315 4348 XOR\n2 1 91469 109315 17848 XOR\n2 1 17848 17849 17847 AND\n2 1 17847 109315 109316 XOR\n2 1 85326 109316 17852 XOR\n2 1 124 3900 123377 XOR\n2 1 123377 123346 95378 XOR\n2 1 3900 123346 42614 XOR\n2 1 42613 42614 42612 AND\n2 1 42612 123346 123347 XOR\n2 1 125 123347 42616 XOR\n2 1 93460 44234 44218 XOR\n2 1 44218 44219 44217 AND\n2 1 44217 44234 44221 XOR\n2 1 97554 124287 44332 XOR\n2 1 44332 44333 44331 AND\n2 1 44331 124287 124288 XOR\n2 1 95507 124288 44336 XOR\n2 1 101650 124411 44512 XOR\n2 1 99602 124411 44513 XOR\n2 1 44512 44513 44511 AND\n2 1 44511 124411 124412 XOR\n2 1 124443 124412 97555 XOR\n2 1 97555 95507 124319 XOR\n2 1 124319 124288 93461 XOR\n2 1 93461 44221 91470 XOR\n2 1 91470 109254 17762 XOR\n2 1 17761 17762 17760 AND\n2 1 17760 109254 109255 XOR\n2 1 4478 109255 17764 XOR\n2 1 91470 85326 109347 XOR\n2 1 109347 109316 4349 XOR\n2 1 91470 109316 17851 XOR\n2 1 17851 17852 17850 AND\n2 1 17850 109316 109317 XOR\n2 1 85327 109317 17855 XOR\n2 1 4477 91470 109285 XOR\n2 1 109285 109254 3901 XOR\n2 1 3901 123347 42617 XOR\n2 1 42616 42617 42615 AND\n2 1 42615 123347 123348 XOR\n2 1 126 123348 42619 XOR\n2 1 125 3901 123378 XOR\n2 1 123378 123347 95379 XOR\n2 1 91470 44221 44220 AND\n2 1 44220 44221 44235 XOR\n1 1 44235 44224 INV\n2 1 97555 124288 44335 XOR\n2 1 44335 44336 44334 AND\n2 1 44334 124288 124289 XOR\n2 1 95508 124289 44339 XOR\n2 1 101651 124412 44515 XOR\n2 1 99603 124412 44516 XOR\n2 1 44515 44516 44514 AND\n2 1 44514 124412 124413 XOR\n2 1 124444 124413 97556 XOR\n2 1 97556 95508 124320 XOR\n2 1 124320 124289 93462 XOR\n1 1 93462 44248 INV\n2 1 44248 44235 91471 XOR\n2 1 4478 91471 109286 XOR\n2 1 109286 109255 3902 XOR\n2 1 91471 109255 17765 XOR\n2 1 17764 17765 17763 AND\n2 1 17763 109255 109256 XOR\n2 1 91471 85327 109348 XOR\n2 1 109348 109317 4350 XOR\n2 1 91471 109317 17854 XOR\n2 1 17854 17855 17853 AND\n2 1 17853 109317 109318 XOR\n2 1 126 3902 123379 XOR\n2 1 123379 123348 95380 XOR\n2 1 3902 123348 42620 XOR\n2 1 42619 42620 42618 AND\n2 1 42618 123348 123349 XOR\n2 1 93462 44235 44223 XOR\n2 1 44223 44224 44222 AND\n2 1 44222 44235 44236 XOR\n2 1 97556 124289 44338 XOR\n2 1 44338 44339 44337 AND\n2 1 44337 124289 124290 XOR\n2 1 101652 124413 44518 XOR\n2 1 99604 124413 44519 XOR\n2 1 44518 44519 44517 AND\n2 1 44517 124413 124414 XOR\n2 1 124445 124414 97557 XOR\n2 1 97557 95509 124321 XOR\n2 1 124321 124290 93463 XOR\n1 1 93463 44249 INV\n2 1 44249 44236 91472 XOR\n2 1 4479 91472 109287 XOR\n2 1 109287 109256 3903 XOR\n2 1 91472 85328 109349 XOR\n2 1 109349 109318 4351 XOR\n2 1 127 3903 123380 XOR\n2 1 123380 123349 95381 XOR\n2 1 4351 4415 74030 XOR\n2 1 4350 4414 74029 XOR\n",
"2 1 4349 4413 74028 XOR\n2 1 4348 4412 74027 XOR\n2 1 4347 4411 74026 XOR\n2 1 4346 4410 74025 XOR\n2 1 4345 4409 74024 XOR\n2 1 4344 4408 74023 XOR\n2 1 4343 4407 74022 XOR\n2 1 4342 4406 74021 XOR\n2 1 4341 4405 74020 XOR\n2 1 4340 4404 74019 XOR\n2 1 4339 4403 74018 XOR\n2 1 4338 4402 74017 XOR\n2 1 4337 4401 74016 XOR\n2 1 4336 4400 74015 XOR\n2 1 4335 4399 74014 XOR\n2 1 4334 4398 74013 XOR\n2 1 4333 4397 74012 XOR\n2 1 4332 4396 74011 XOR\n2 1 4331 4395 74010 XOR\n2 1 4330 4394 74009 XOR\n2 1 4329 4393 74008 XOR\n2 1 4328 4392 74007 XOR\n2 1 4327 4391 74006 XOR\n2 1 4326 4390 74005 XOR\n2 1 4325 4389 74004 XOR\n2 1 4324 4388 74003 XOR\n2 1 4323 4387 74002 XOR\n2 1 4322 4386 74001 XOR\n2 1 4321 4385 74000 XOR\n2 1 4320 4384 73999 XOR\n2 1 74030 73998 73966 AND\n2 1 74029 73997 73965 AND\n2 1 74028 73996 73964 AND\n2 1 74027 73995 73963 AND\n2 1 74026 73994 73962 AND\n2 1 74025 73993 73961 AND\n2 1 74024 73992 73960 AND\n2 1 74023 73991 73959 AND\n2 1 74022 73990 73958 AND\n2 1 74021 73989 73957 AND\n2 1 74020 73988 73956 AND\n2 1 74019 73987 73955 AND\n2 1 74018 73986 73954 AND\n2 1 74017 73985 73953 AND\n2 1 74016 73984 73952 AND\n2 1 74015 73983 73951 AND\n2 1 74014 73982 73950 AND\n2 1 74013 73981 73949 AND\n2 1 74012 73980 73948 AND\n2 1 74011 73979 73947 AND\n2 1 74010 73978 73946 AND\n2 1 74009 73977 73945 AND\n2 1 74008 73976 73944 AND\n2 1 74007 73975 73943 AND\n2 1 74006 73974 73942 AND\n2 1 74005 73973 73941 AND\n2 1 74004 73972 73940 AND\n2 1 74003 73971 73939 AND\n2 1 74002 73970 73938 AND\n2 1 74001 73969 73937 AND\n2 1 74000 73968 73936 AND\n2 1 73999 73967 73935 AND\n2 1 73966 4415 87344 XOR\n2 1 73965 4414 87343 XOR\n2 1 73964 4413 87342 XOR\n2 1 73963 4412 87341 XOR\n2 1 73962 4411 87340 XOR\n2 1 73961 4410 87339 XOR\n2 1 73960 4409 87338 XOR\n2 1 73959 4408 87337 XOR\n2 1 73958 4407 87336 XOR\n2 1 73957 4406 87335 XOR\n2 1 73956 4405 87334 XOR\n2 1 73955 4404 87333 XOR\n2 1 73954 4403 87332 XOR\n2 1 73953 4402 87331 XOR\n2 1 73952 4401 87330 XOR\n2 1 73951 4400 87329 XOR\n2 1 73950 4399 87328 XOR\n2 1 73949 4398 87327 XOR\n2 1 73948 4397 87326 XOR\n2 1 73947 4396 87325 XOR\n2 1 73946 4395 87324 XOR\n2 1 73945 4394 87323 XOR\n2 1 73944 4393 87322 XOR\n2 1 73943 4392 87321 XOR\n2 1 73942 4391 87320 XOR\n2 1 73941 4390 87319 XOR\n2 1 73940 4389 87318 XOR\n2 1 73939 4388 87317 XOR\n2 1 73938 4387 87316 XOR\n2 1 73937 4386 87315 XOR\n2 1 73936 4385 87314 XOR\n2 1 73935 4384 87313 XOR\n2 1 4351 4383 73902 XOR\n2 1 4350 4382 73901 XOR\n2 1 4349 4381 73900 XOR\n2 1 4348 4380 73899 XOR\n2 1 4347 4379 73898 XOR\n2 1 4346 4378 73897 XOR\n2 1 4345 4377 73896 XOR\n2 1 4344 4376 73895 XOR\n2 1 4343 4375 73894 XOR\n2 1 4342 4374 73893 XOR\n2 1 4341 4373 73892 XOR\n2 1 4340 4372 73891 XOR\n2 1 4339 4371 73890 XOR\n2 1 4338 4370 73889 XOR\n2 1 4337 4369 73888 XOR\n2 1 4336 4368 73887 XOR\n2 1 4335 4367 73886 XOR\n2 1 4334 4366 73885 XOR\n2 1 4333 4365 73884 XOR\n2 1 4332 4364 73883 XOR\n2 1 4331 4363 73882 XOR\n2 1 4330 4362 73881 XOR\n2 1 4329 4361 73880 XOR\n2 1 4328 4360 73879 XOR\n2 1 4327 4359 73878 XOR\n2 1 4326 4358 73877 XOR\n2 1 4325 4357 73876 XOR\n2 1 4324 4356 73875 XOR\n2 1 4323 4355 73874 XOR\n2 1 4322 4354 73873 XOR\n2 1 4321 4353 73872 XOR\n2 1 4320 4352 73871 XOR\n2 1 4321 4332 68494 XOR\n2 1 4320 4331 68493 XOR\n",
"2 1 4351 4330 68492 XOR\n2 1 4350 4329 68491 XOR\n2 1 4349 4328 68490 XOR\n2 1 4348 4327 68489 XOR\n2 1 4347 4326 68488 XOR\n2 1 4346 4325 68487 XOR\n2 1 4345 4324 68486 XOR\n2 1 4344 4323 68485 XOR\n2 1 4343 4322 68484 XOR\n2 1 4342 4321 68483 XOR\n2 1 4341 4320 68482 XOR\n2 1 4340 4351 68481 XOR\n2 1 4339 4350 68480 XOR\n2 1 4338 4349 68479 XOR\n2 1 4337 4348 68478 XOR\n2 1 4336 4347 68477 XOR\n2 1 4335 4346 68476 XOR\n2 1 4334 4345 68475 XOR\n2 1 4333 4344 68474 XOR\n2 1 4332 4343 68473 XOR\n2 1 4331 4342 68472 XOR\n2 1 4330 4341 68471 XOR\n2 1 4329 4340 68470 XOR\n2 1 4328 4339 68469 XOR\n2 1 4327 4338 68468 XOR\n2 1 4326 4337 68467 XOR\n2 1 4325 4336 68466 XOR\n2 1 4324 4335 68465 XOR\n2 1 4323 4334 68464 XOR\n2 1 4322 4333 68463 XOR\n2 1 68494 4341 89392 XOR\n2 1 89392 87344 124000 XOR\n2 1 68493 4340 89391 XOR\n2 1 89391 87343 123999 XOR\n2 1 68492 4339 89390 XOR\n2 1 89390 87342 123998 XOR\n2 1 68491 4338 89389 XOR\n2 1 89389 87341 123997 XOR\n2 1 68490 4337 89388 XOR\n2 1 89388 87340 123996 XOR\n2 1 68489 4336 89387 XOR\n2 1 89387 87339 123995 XOR\n2 1 68488 4335 89386 XOR\n2 1 89386 87338 123994 XOR\n2 1 68487 4334 89385 XOR\n2 1 89385 87337 123993 XOR\n2 1 68486 4333 89384 XOR\n2 1 89384 87336 123992 XOR\n2 1 68485 4332 89383 XOR\n2 1 89383 87335 123991 XOR\n2 1 68484 4331 89382 XOR\n2 1 89382 87334 123990 XOR\n2 1 68483 4330 89381 XOR\n2 1 89381 87333 123989 XOR\n2 1 68482 4329 89380 XOR\n2 1 89380 87332 123988 XOR\n2 1 68481 4328 89379 XOR\n2 1 89379 87331 123987 XOR\n2 1 68480 4327 89378 XOR\n2 1 89378 87330 123986 XOR\n2 1 68479 4326 89377 XOR\n2 1 89377 87329 123985 XOR\n2 1 68478 4325 89376 XOR\n2 1 89376 87328 123984 XOR\n2 1 68477 4324 89375 XOR\n2 1 89375 87327 123983 XOR\n2 1 68476 4323 89374 XOR\n2 1 89374 87326 123982 XOR\n2 1 68475 4322 89373 XOR\n2 1 89373 87325 123981 XOR\n2 1 68474 4321 89372 XOR\n2 1 89372 87324 123980 XOR\n2 1 68473 4320 89371 XOR\n2 1 89371 87323 123979 XOR\n2 1 68472 4351 89370 XOR\n2 1 89370 87322 123978 XOR\n2 1 68471 4350 89369 XOR\n2 1 89369 87321 123977 XOR\n2 1 68470 4349 89368 XOR\n2 1 89368 87320 123976 XOR\n2 1 68469 4348 89367 XOR\n2 1 89367 87319 123975 XOR\n2 1 68468 4347 89366 XOR\n2 1 89366 87318 123974 XOR\n2 1 68467 4346 89365 XOR\n2 1 89365 87317 123973 XOR\n2 1 68466 4345 89364 XOR\n2 1 89364 87316 123972 XOR\n2 1 68465 4344 89363 XOR\n2 1 89363 87315 123971 XOR\n2 1 68464 4343 89362 XOR\n2 1 89362 87314 123970 XOR\n2 1 68463 4342 89361 XOR\n2 1 89361 87313 123939 AND\n2 1 89361 87313 85265 XOR\n2 1 123970 123939 85266 XOR\n2 1 89362 123939 43632 XOR\n2 1 87314 123939 43633 XOR\n2 1 43632 43633 43631 AND\n2 1 43631 123939 123940 XOR\n2 1 123971 123940 85267 XOR\n2 1 89363 123940 43635 XOR\n2 1 87315 123940 43636 XOR\n2 1 43635 43636 43634 AND\n2 1 43634 123940 123941 XOR\n2 1 123972 123941 85268 XOR\n2 1 89364 123941 43638 XOR\n2 1 87316 123941 43639 XOR\n2 1 43638 43639 43637 AND\n2 1 43637 123941 123942 XOR\n2 1 123973 123942 85269 XOR\n2 1 89365 123942 43641 XOR\n2 1 87317 123942 43642 XOR\n2 1 43641 43642 43640 AND\n2 1 43640 123942 123943 XOR\n2 1 123974 123943 85270 XOR\n2 1 89366 123943 43644 XOR\n2 1 87318 123943 43645 XOR\n2 1 43644 43645 43643 AND\n2 1 43643 123943 123944 XOR\n2 1 123975 123944 85271 XOR\n2 1 89367 123944 43647 XOR\n2 1 87319 123944 43648 XOR\n2 1 43647 43648 43646 AND\n2 1 43646 123944 123945 XOR\n2 1 123976 123945 85272 XOR\n2 1 89368 123945 43650 XOR\n2 1 87320 123945 43651 XOR\n",
"2 1 43650 43651 43649 AND\n2 1 43649 123945 123946 XOR\n2 1 123977 123946 85273 XOR\n2 1 89369 123946 43653 XOR\n2 1 87321 123946 43654 XOR\n2 1 43653 43654 43652 AND\n2 1 43652 123946 123947 XOR\n2 1 123978 123947 85274 XOR\n2 1 89370 123947 43656 XOR\n2 1 87322 123947 43657 XOR\n2 1 43656 43657 43655 AND\n2 1 43655 123947 123948 XOR\n2 1 123979 123948 85275 XOR\n2 1 89371 123948 43659 XOR\n2 1 87323 123948 43660 XOR\n2 1 43659 43660 43658 AND\n2 1 43658 123948 123949 XOR\n2 1 123980 123949 85276 XOR\n2 1 89372 123949 43662 XOR\n2 1 87324 123949 43663 XOR\n2 1 43662 43663 43661 AND\n2 1 43661 123949 123950 XOR\n2 1 123981 123950 85277 XOR\n2 1 89373 123950 43665 XOR\n2 1 87325 123950 43666 XOR\n2 1 43665 43666 43664 AND\n2 1 43664 123950 123951 XOR\n2 1 123982 123951 85278 XOR\n2 1 89374 123951 43668 XOR\n2 1 87326 123951 43669 XOR\n2 1 43668 43669 43667 AND\n2 1 43667 123951 123952 XOR\n2 1 123983 123952 85279 XOR\n2 1 89375 123952 43671 XOR\n2 1 87327 123952 43672 XOR\n2 1 43671 43672 43670 AND\n2 1 43670 123952 123953 XOR\n2 1 123984 123953 85280 XOR\n2 1 89376 123953 43674 XOR\n2 1 87328 123953 43675 XOR\n2 1 43674 43675 43673 AND\n2 1 43673 123953 123954 XOR\n2 1 123985 123954 85281 XOR\n2 1 89377 123954 43677 XOR\n2 1 87329 123954 43678 XOR\n2 1 43677 43678 43676 AND\n2 1 43676 123954 123955 XOR\n2 1 123986 123955 85282 XOR\n2 1 89378 123955 43680 XOR\n2 1 87330 123955 43681 XOR\n2 1 43680 43681 43679 AND\n2 1 43679 123955 123956 XOR\n2 1 123987 123956 85283 XOR\n2 1 89379 123956 43683 XOR\n2 1 87331 123956 43684 XOR\n2 1 43683 43684 43682 AND\n2 1 43682 123956 123957 XOR\n2 1 123988 123957 85284 XOR\n2 1 89380 123957 43686 XOR\n2 1 87332 123957 43687 XOR\n2 1 43686 43687 43685 AND\n2 1 43685 123957 123958 XOR\n2 1 123989 123958 85285 XOR\n2 1 89381 123958 43689 XOR\n2 1 87333 123958 43690 XOR\n2 1 43689 43690 43688 AND\n2 1 43688 123958 123959 XOR\n2 1 123990 123959 85286 XOR\n2 1 89382 123959 43692 XOR\n2 1 87334 123959 43693 XOR\n2 1 43692 43693 43691 AND\n2 1 43691 123959 123960 XOR\n2 1 123991 123960 85287 XOR\n2 1 89383 123960 43695 XOR\n2 1 87335 123960 43696 XOR\n2 1 43695 43696 43694 AND\n2 1 43694 123960 123961 XOR\n2 1 123992 123961 85288 XOR\n2 1 89384 123961 43698 XOR\n2 1 87336 123961 43699 XOR\n2 1 43698 43699 43697 AND\n2 1 43697 123961 123962 XOR\n2 1 123993 123962 85289 XOR\n2 1 89385 123962 43701 XOR\n2 1 87337 123962 43702 XOR\n2 1 43701 43702 43700 AND\n2 1 43700 123962 123963 XOR\n2 1 123994 123963 85290 XOR\n2 1 89386 123963 43704 XOR\n2 1 87338 123963 43705 XOR\n2 1 43704 43705 43703 AND\n2 1 43703 123963 123964 XOR\n2 1 123995 123964 85291 XOR\n2 1 89387 123964 43707 XOR\n2 1 87339 123964 43708 XOR\n2 1 43707 43708 43706 AND\n2 1 43706 123964 123965 XOR\n2 1 123996 123965 85292 XOR\n2 1 89388 123965 43710 XOR\n2 1 87340 123965 43711 XOR\n2 1 43710 43711 43709 AND\n2 1 43709 123965 123966 XOR\n2 1 123997 123966 85293 XOR\n2 1 89389 123966 43713 XOR\n2 1 87341 123966 43714 XOR\n2 1 43713 43714 43712 AND\n2 1 43712 123966 123967 XOR\n2 1 123998 123967 85294 XOR\n2 1 89390 123967 43716 XOR\n2 1 87342 123967 43717 XOR\n2 1 43716 43717 43715 AND\n2 1 43715 123967 123968 XOR\n2 1 123999 123968 85295 XOR\n2 1 89391 123968 43719 XOR\n2 1 87343 123968 43720 XOR\n2 1 43719 43720 43718 AND\n2 1 43718 123968 123969 XOR\n2 1 124000 123969 85296 XOR\n2 1 66350 3903 66318 AND\n2 1 66349 3902 66317 AND\n2 1 66348 3901 66316 AND\n2 1 66347 3900 66315 AND\n2 1 66346 3899 66314 AND\n2 1 66345 3898 66313 AND\n2 1 66344 3897 66312 AND\n2 1 66343 3896 66311 AND\n2 1 66342 3895 66310 AND\n2 1 66341 3894 66309 AND\n",
"2 1 66340 3893 66308 AND\n2 1 66339 3892 66307 AND\n2 1 66338 3891 66306 AND\n2 1 66337 3890 66305 AND\n2 1 66336 3889 66304 AND\n2 1 66335 3888 66303 AND\n2 1 66334 3887 66302 AND\n2 1 66333 3886 66301 AND\n2 1 66332 3885 66300 AND\n2 1 66331 3884 66299 AND\n2 1 66330 3883 66298 AND\n2 1 66329 3882 66297 AND\n2 1 66328 3881 66296 AND\n2 1 66327 3880 66295 AND\n2 1 66326 3879 66294 AND\n2 1 66325 3878 66293 AND\n2 1 66324 3877 66292 AND\n2 1 66323 3876 66291 AND\n2 1 66322 3875 66290 AND\n2 1 66321 3874 66289 AND\n2 1 66320 3873 66288 AND\n2 1 66319 3872 66287 AND\n2 1 66318 3967 99573 XOR\n2 1 66317 3966 99572 XOR\n2 1 66316 3965 99571 XOR\n2 1 66315 3964 99570 XOR\n2 1 66314 3963 99569 XOR\n2 1 66313 3962 99568 XOR\n2 1 66312 3961 99567 XOR\n2 1 66311 3960 99566 XOR\n2 1 66310 3959 99565 XOR\n2 1 66309 3958 99564 XOR\n2 1 66308 3957 99563 XOR\n2 1 66307 3956 99562 XOR\n2 1 66306 3955 99561 XOR\n2 1 66305 3954 99560 XOR\n2 1 66304 3953 99559 XOR\n2 1 66303 3952 99558 XOR\n2 1 66302 3951 99557 XOR\n2 1 66301 3950 99556 XOR\n2 1 66300 3949 99555 XOR\n2 1 66299 3948 99554 XOR\n2 1 66298 3947 99553 XOR\n2 1 66297 3946 99552 XOR\n2 1 66296 3945 99551 XOR\n2 1 66295 3944 99550 XOR\n2 1 66294 3943 99549 XOR\n2 1 66293 3942 99548 XOR\n2 1 66292 3941 99547 XOR\n2 1 66291 3940 99546 XOR\n2 1 66290 3939 99545 XOR\n2 1 66289 3938 99544 XOR\n2 1 66288 3937 99543 XOR\n2 1 66287 3936 99542 XOR\n2 1 3903 3935 66286 XOR\n2 1 3902 3934 66285 XOR\n2 1 3901 3933 66284 XOR\n2 1 3900 3932 66283 XOR\n2 1 3899 3931 66282 XOR\n2 1 3898 3930 66281 XOR\n2 1 3897 3929 66280 XOR\n2 1 3896 3928 66279 XOR\n2 1 3895 3927 66278 XOR\n2 1 3894 3926 66277 XOR\n2 1 3893 3925 66276 XOR\n2 1 3892 3924 66275 XOR\n2 1 3891 3923 66274 XOR\n2 1 3890 3922 66273 XOR\n2 1 3889 3921 66272 XOR\n2 1 3888 3920 66271 XOR\n2 1 3887 3919 66270 XOR\n2 1 3886 3918 66269 XOR\n2 1 3885 3917 66268 XOR\n2 1 3884 3916 66267 XOR\n2 1 3883 3915 66266 XOR\n2 1 3882 3914 66265 XOR\n2 1 3881 3913 66264 XOR\n2 1 3880 3912 66263 XOR\n2 1 3879 3911 66262 XOR\n2 1 3878 3910 66261 XOR\n2 1 3877 3909 66260 XOR\n2 1 3876 3908 66259 XOR\n2 1 3875 3907 66258 XOR\n2 1 3874 3906 66257 XOR\n2 1 3873 3905 66256 XOR\n2 1 3872 3904 66255 XOR\n2 1 3877 3882 62574 XOR\n2 1 3876 3881 62573 XOR\n2 1 3875 3880 62572 XOR\n2 1 3874 3879 62571 XOR\n2 1 3873 3878 62570 XOR\n2 1 3872 3877 62569 XOR\n2 1 3903 3876 62568 XOR\n2 1 3902 3875 62567 XOR\n2 1 3901 3874 62566 XOR\n2 1 3900 3873 62565 XOR\n2 1 3899 3872 62564 XOR\n2 1 3898 3903 62563 XOR\n2 1 3897 3902 62562 XOR\n2 1 3896 3901 62561 XOR\n2 1 3895 3900 62560 XOR\n2 1 3894 3899 62559 XOR\n2 1 3893 3898 62558 XOR\n2 1 3892 3897 62557 XOR\n2 1 3891 3896 62556 XOR\n2 1 3890 3895 62555 XOR\n2 1 3889 3894 62554 XOR\n2 1 3888 3893 62553 XOR\n2 1 3887 3892 62552 XOR\n2 1 3886 3891 62551 XOR\n2 1 3885 3890 62550 XOR\n2 1 3884 3889 62549 XOR\n2 1 3883 3888 62548 XOR\n2 1 3882 3887 62547 XOR\n2 1 3881 3886 62546 XOR\n2 1 3880 3885 62545 XOR\n2 1 3879 3884 62544 XOR\n2 1 3878 3883 62543 XOR\n2 1 62574 3896 101621 XOR\n2 1 101621 99573 124197 XOR\n2 1 62573 3895 101620 XOR\n2 1 101620 99572 124196 XOR\n2 1 62572 3894 101619 XOR\n2 1 101619 99571 124195 XOR\n2 1 62571 3893 101618 XOR\n2 1 101618 99570 124194 XOR\n2 1 62570 3892 101617 XOR\n2 1 101617 99569 124193 XOR\n",
"2 1 62569 3891 101616 XOR\n2 1 101616 99568 124192 XOR\n2 1 62568 3890 101615 XOR\n2 1 101615 99567 124191 XOR\n2 1 62567 3889 101614 XOR\n2 1 101614 99566 124190 XOR\n2 1 62566 3888 101613 XOR\n2 1 101613 99565 124189 XOR\n2 1 62565 3887 101612 XOR\n2 1 101612 99564 124188 XOR\n2 1 62564 3886 101611 XOR\n2 1 101611 99563 124187 XOR\n2 1 62563 3885 101610 XOR\n2 1 101610 99562 124186 XOR\n2 1 62562 3884 101609 XOR\n2 1 101609 99561 124185 XOR\n2 1 62561 3883 101608 XOR\n2 1 101608 99560 124184 XOR\n2 1 62560 3882 101607 XOR\n2 1 101607 99559 124183 XOR\n2 1 62559 3881 101606 XOR\n2 1 101606 99558 124182 XOR\n2 1 62558 3880 101605 XOR\n2 1 101605 99557 124181 XOR\n2 1 62557 3879 101604 XOR\n2 1 101604 99556 124180 XOR\n2 1 62556 3878 101603 XOR\n2 1 101603 99555 124179 XOR\n2 1 62555 3877 101602 XOR\n2 1 101602 99554 124178 XOR\n2 1 62554 3876 101601 XOR\n2 1 101601 99553 124177 XOR\n2 1 62553 3875 101600 XOR\n2 1 101600 99552 124176 XOR\n2 1 62552 3874 101599 XOR\n2 1 101599 99551 124175 XOR\n2 1 62551 3873 101598 XOR\n2 1 101598 99550 124174 XOR\n2 1 62550 3872 101597 XOR\n2 1 101597 99549 124173 XOR\n2 1 62549 3903 101596 XOR\n2 1 101596 99548 124172 XOR\n2 1 62548 3902 101595 XOR\n2 1 101595 99547 124171 XOR\n2 1 62547 3901 101594 XOR\n2 1 101594 99546 124170 XOR\n2 1 62546 3900 101593 XOR\n2 1 101593 99545 124169 XOR\n2 1 62545 3899 101592 XOR\n2 1 101592 99544 124168 XOR\n2 1 62544 3898 101591 XOR\n2 1 101591 99543 124167 XOR\n2 1 62543 3897 101590 XOR\n2 1 101590 99542 124136 AND\n2 1 101590 99542 97494 XOR\n2 1 97494 95446 124012 AND\n2 1 97494 95446 93403 XOR\n1 1 93403 91409 INV\n2 1 4416 91409 109102 AND\n2 1 4416 91409 3840 XOR\n2 1 4417 109102 17497 XOR\n2 1 91409 85265 109164 AND\n2 1 91409 85265 4288 XOR\n2 1 85266 109164 17588 XOR\n2 1 64 3840 123052 AND\n2 1 64 3840 95318 XOR\n2 1 65 123052 42081 XOR\n2 1 95447 124012 43802 XOR\n2 1 124167 124136 97495 XOR\n2 1 97495 95447 124043 XOR\n2 1 124043 124012 93404 XOR\n2 1 93404 93403 91410 XOR\n2 1 91410 109102 17498 XOR\n2 1 17497 17498 17496 AND\n2 1 17496 109102 109103 XOR\n2 1 4418 109103 17500 XOR\n2 1 91410 85266 109195 XOR\n2 1 109195 109164 4289 XOR\n2 1 91410 109164 17587 XOR\n2 1 17587 17588 17586 AND\n2 1 17586 109164 109165 XOR\n2 1 85267 109165 17591 XOR\n2 1 4417 91410 109133 XOR\n2 1 109133 109102 3841 XOR\n2 1 3841 123052 42082 XOR\n2 1 42081 42082 42080 AND\n2 1 42080 123052 123053 XOR\n2 1 66 123053 42084 XOR\n2 1 65 3841 123083 XOR\n2 1 123083 123052 95319 XOR\n2 1 91410 93403 43721 AND\n2 1 43721 93403 43723 XOR\n2 1 97495 124012 43801 XOR\n2 1 43801 43802 43800 AND\n2 1 43800 124012 124013 XOR\n2 1 95448 124013 43805 XOR\n2 1 101591 124136 43981 XOR\n2 1 99543 124136 43982 XOR\n2 1 43981 43982 43980 AND\n2 1 43980 124136 124137 XOR\n2 1 124168 124137 97496 XOR\n2 1 97496 95448 124044 XOR\n2 1 124044 124013 93405 XOR\n2 1 93405 43723 91411 XOR\n2 1 91411 109103 17501 XOR\n2 1 17500 17501 17499 AND\n2 1 17499 109103 109104 XOR\n2 1 4419 109104 17503 XOR\n2 1 91411 85267 109196 XOR\n2 1 109196 109165 4290 XOR\n2 1 91411 109165 17590 XOR\n2 1 17590 17591 17589 AND\n2 1 17589 109165 109166 XOR\n2 1 85268 109166 17594 XOR\n2 1 4418 91411 109134 XOR\n2 1 109134 109103 3842 XOR\n2 1 3842 123053 42085 XOR\n2 1 42084 42085 42083 AND\n2 1 42083 123053 123054 XOR\n2 1 67 123054 42087 XOR\n2 1 66 3842 123084 XOR\n2 1 123084 123053 95320 XOR\n2 1 91411 43723 43722 AND\n2 1 43722 43723 43725 XOR\n2 1 97496 124013 43804 XOR\n2 1 43804 43805 43803 AND\n2 1 43803 124013 124014 XOR\n2 1 95449 124014 43808 XOR\n",
"2 1 101592 124137 43984 XOR\n2 1 99544 124137 43985 XOR\n2 1 43984 43985 43983 AND\n2 1 43983 124137 124138 XOR\n2 1 124169 124138 97497 XOR\n2 1 97497 95449 124045 XOR\n2 1 124045 124014 93406 XOR\n2 1 93406 43725 91412 XOR\n2 1 91412 109104 17504 XOR\n2 1 17503 17504 17502 AND\n2 1 17502 109104 109105 XOR\n2 1 4420 109105 17506 XOR\n2 1 91412 85268 109197 XOR\n2 1 109197 109166 4291 XOR\n2 1 91412 109166 17593 XOR\n2 1 17593 17594 17592 AND\n2 1 17592 109166 109167 XOR\n2 1 85269 109167 17597 XOR\n2 1 4419 91412 109135 XOR\n2 1 109135 109104 3843 XOR\n2 1 3843 123054 42088 XOR\n2 1 42087 42088 42086 AND\n2 1 42086 123054 123055 XOR\n2 1 68 123055 42090 XOR\n2 1 67 3843 123085 XOR\n2 1 123085 123054 95321 XOR\n2 1 91412 43725 43724 AND\n2 1 43724 43725 43727 XOR\n2 1 97497 124014 43807 XOR\n2 1 43807 43808 43806 AND\n2 1 43806 124014 124015 XOR\n2 1 95450 124015 43811 XOR\n2 1 101593 124138 43987 XOR\n2 1 99545 124138 43988 XOR\n2 1 43987 43988 43986 AND\n2 1 43986 124138 124139 XOR\n2 1 124170 124139 97498 XOR\n2 1 97498 95450 124046 XOR\n2 1 124046 124015 93407 XOR\n2 1 93407 43727 91413 XOR\n2 1 91413 109105 17507 XOR\n2 1 17506 17507 17505 AND\n2 1 17505 109105 109106 XOR\n2 1 4421 109106 17509 XOR\n2 1 91413 85269 109198 XOR\n2 1 109198 109167 4292 XOR\n2 1 91413 109167 17596 XOR\n2 1 17596 17597 17595 AND\n2 1 17595 109167 109168 XOR\n2 1 85270 109168 17600 XOR\n2 1 4420 91413 109136 XOR\n2 1 109136 109105 3844 XOR\n2 1 3844 123055 42091 XOR\n2 1 42090 42091 42089 AND\n2 1 42089 123055 123056 XOR\n2 1 69 123056 42093 XOR\n2 1 68 3844 123086 XOR\n2 1 123086 123055 95322 XOR\n2 1 91413 43727 43726 AND\n2 1 43726 43727 43729 XOR\n2 1 97498 124015 43810 XOR\n2 1 43810 43811 43809 AND\n2 1 43809 124015 124016 XOR\n2 1 95451 124016 43814 XOR\n2 1 101594 124139 43990 XOR\n2 1 99546 124139 43991 XOR\n2 1 43990 43991 43989 AND\n2 1 43989 124139 124140 XOR\n2 1 124171 124140 97499 XOR\n2 1 97499 95451 124047 XOR\n2 1 124047 124016 93408 XOR\n2 1 93408 43729 91414 XOR\n2 1 91414 109106 17510 XOR\n2 1 17509 17510 17508 AND\n2 1 17508 109106 109107 XOR\n2 1 4422 109107 17512 XOR\n2 1 91414 85270 109199 XOR\n2 1 109199 109168 4293 XOR\n2 1 91414 109168 17599 XOR\n2 1 17599 17600 17598 AND\n2 1 17598 109168 109169 XOR\n2 1 85271 109169 17603 XOR\n2 1 4421 91414 109137 XOR\n2 1 109137 109106 3845 XOR\n2 1 3845 123056 42094 XOR\n2 1 42093 42094 42092 AND\n2 1 42092 123056 123057 XOR\n2 1 70 123057 42096 XOR\n2 1 69 3845 123087 XOR\n2 1 123087 123056 95323 XOR\n2 1 91414 43729 43728 AND\n2 1 43728 43729 43731 XOR\n2 1 97499 124016 43813 XOR\n2 1 43813 43814 43812 AND\n2 1 43812 124016 124017 XOR\n2 1 95452 124017 43817 XOR\n2 1 101595 124140 43993 XOR\n2 1 99547 124140 43994 XOR\n2 1 43993 43994 43992 AND\n2 1 43992 124140 124141 XOR\n2 1 124172 124141 97500 XOR\n2 1 97500 95452 124048 XOR\n2 1 124048 124017 93409 XOR\n2 1 93409 43731 91415 XOR\n2 1 91415 109107 17513 XOR\n2 1 17512 17513 17511 AND\n2 1 17511 109107 109108 XOR\n2 1 4423 109108 17515 XOR\n2 1 91415 85271 109200 XOR\n2 1 109200 109169 4294 XOR\n2 1 91415 109169 17602 XOR\n2 1 17602 17603 17601 AND\n2 1 17601 109169 109170 XOR\n2 1 85272 109170 17606 XOR\n2 1 4422 91415 109138 XOR\n2 1 109138 109107 3846 XOR\n2 1 3846 123057 42097 XOR\n2 1 42096 42097 42095 AND\n2 1 42095 123057 123058 XOR\n2 1 71 123058 42099 XOR\n2 1 70 3846 123088 XOR\n2 1 123088 123057 95324 XOR\n2 1 91415 43731 43730 AND\n2 1 43730 43731 43733 XOR\n2 1 97500 124017 43816 XOR\n2 1 43816 43817 43815 AND\n2 1 43815 124017 124018 XOR\n2 1 95453 124018 43820 XOR\n",
"2 1 101596 124141 43996 XOR\n2 1 99548 124141 43997 XOR\n2 1 43996 43997 43995 AND\n2 1 43995 124141 124142 XOR\n2 1 124173 124142 97501 XOR\n2 1 97501 95453 124049 XOR\n2 1 124049 124018 93410 XOR\n2 1 93410 43733 91416 XOR\n2 1 91416 109108 17516 XOR\n2 1 17515 17516 17514 AND\n2 1 17514 109108 109109 XOR\n2 1 4424 109109 17518 XOR\n2 1 91416 85272 109201 XOR\n2 1 109201 109170 4295 XOR\n2 1 91416 109170 17605 XOR\n2 1 17605 17606 17604 AND\n2 1 17604 109170 109171 XOR\n2 1 85273 109171 17609 XOR\n2 1 4423 91416 109139 XOR\n2 1 109139 109108 3847 XOR\n2 1 3847 123058 42100 XOR\n2 1 42099 42100 42098 AND\n2 1 42098 123058 123059 XOR\n2 1 72 123059 42102 XOR\n2 1 71 3847 123089 XOR\n2 1 123089 123058 95325 XOR\n2 1 91416 43733 43732 AND\n2 1 43732 43733 124001 XOR\n1 1 124001 43736 INV\n2 1 97501 124018 43819 XOR\n2 1 43819 43820 43818 AND\n2 1 43818 124018 124019 XOR\n2 1 95454 124019 43823 XOR\n2 1 101597 124142 43999 XOR\n2 1 99549 124142 44000 XOR\n2 1 43999 44000 43998 AND\n2 1 43998 124142 124143 XOR\n2 1 124174 124143 97502 XOR\n2 1 97502 95454 124050 XOR\n2 1 124050 124019 93411 XOR\n1 1 93411 43790 INV\n2 1 43790 124001 91417 XOR\n2 1 4424 91417 109140 XOR\n2 1 109140 109109 3848 XOR\n2 1 91417 109109 17519 XOR\n2 1 17518 17519 17517 AND\n2 1 17517 109109 109110 XOR\n2 1 4425 109110 17521 XOR\n2 1 91417 85273 109202 XOR\n2 1 109202 109171 4296 XOR\n2 1 91417 109171 17608 XOR\n2 1 17608 17609 17607 AND\n2 1 17607 109171 109172 XOR\n2 1 85274 109172 17612 XOR\n2 1 72 3848 123090 XOR\n2 1 123090 123059 95326 XOR\n2 1 3848 123059 42103 XOR\n2 1 42102 42103 42101 AND\n2 1 42101 123059 123060 XOR\n2 1 73 123060 42105 XOR\n2 1 93411 124001 43735 XOR\n2 1 43735 43736 43734 AND\n2 1 43734 124001 124002 XOR\n1 1 124002 43739 INV\n2 1 97502 124019 43822 XOR\n2 1 43822 43823 43821 AND\n2 1 43821 124019 124020 XOR\n2 1 95455 124020 43826 XOR\n2 1 101598 124143 44002 XOR\n2 1 99550 124143 44003 XOR\n2 1 44002 44003 44001 AND\n2 1 44001 124143 124144 XOR\n2 1 124175 124144 97503 XOR\n2 1 97503 95455 124051 XOR\n2 1 124051 124020 93412 XOR\n1 1 93412 43791 INV\n2 1 43791 124002 91418 XOR\n2 1 4425 91418 109141 XOR\n2 1 109141 109110 3849 XOR\n2 1 91418 109110 17522 XOR\n2 1 17521 17522 17520 AND\n2 1 17520 109110 109111 XOR\n2 1 4426 109111 17524 XOR\n2 1 91418 85274 109203 XOR\n2 1 109203 109172 4297 XOR\n2 1 91418 109172 17611 XOR\n2 1 17611 17612 17610 AND\n2 1 17610 109172 109173 XOR\n2 1 85275 109173 17615 XOR\n2 1 73 3849 123091 XOR\n2 1 123091 123060 95327 XOR\n2 1 3849 123060 42106 XOR\n2 1 42105 42106 42104 AND\n2 1 42104 123060 123061 XOR\n2 1 74 123061 42108 XOR\n2 1 93412 124002 43738 XOR\n2 1 43738 43739 43737 AND\n2 1 43737 124002 43741 XOR\n2 1 97503 124020 43825 XOR\n2 1 43825 43826 43824 AND\n2 1 43824 124020 124021 XOR\n2 1 95456 124021 43829 XOR\n2 1 101599 124144 44005 XOR\n2 1 99551 124144 44006 XOR\n2 1 44005 44006 44004 AND\n2 1 44004 124144 124145 XOR\n2 1 124176 124145 97504 XOR\n2 1 97504 95456 124052 XOR\n2 1 124052 124021 93413 XOR\n2 1 93413 43741 91419 XOR\n2 1 91419 109111 17525 XOR\n2 1 17524 17525 17523 AND\n2 1 17523 109111 109112 XOR\n2 1 4427 109112 17527 XOR\n2 1 91419 85275 109204 XOR\n2 1 109204 109173 4298 XOR\n2 1 91419 109173 17614 XOR\n2 1 17614 17615 17613 AND\n2 1 17613 109173 109174 XOR\n2 1 85276 109174 17618 XOR\n2 1 4426 91419 109142 XOR\n2 1 109142 109111 3850 XOR\n2 1 3850 123061 42109 XOR\n2 1 42108 42109 42107 AND\n2 1 42107 123061 123062 XOR\n2 1 75 123062 42111 XOR\n2 1 74 3850 123092 XOR\n2 1 123092 123061 95328 XOR\n",
"2 1 91419 43741 43740 AND\n2 1 43740 43741 124003 XOR\n1 1 124003 43744 INV\n2 1 97504 124021 43828 XOR\n2 1 43828 43829 43827 AND\n2 1 43827 124021 124022 XOR\n2 1 95457 124022 43832 XOR\n2 1 101600 124145 44008 XOR\n2 1 99552 124145 44009 XOR\n2 1 44008 44009 44007 AND\n2 1 44007 124145 124146 XOR\n2 1 124177 124146 97505 XOR\n2 1 97505 95457 124053 XOR\n2 1 124053 124022 93414 XOR\n1 1 93414 43792 INV\n2 1 43792 124003 91420 XOR\n2 1 4427 91420 109143 XOR\n2 1 109143 109112 3851 XOR\n2 1 91420 109112 17528 XOR\n2 1 17527 17528 17526 AND\n2 1 17526 109112 109113 XOR\n2 1 4428 109113 17530 XOR\n2 1 91420 85276 109205 XOR\n2 1 109205 109174 4299 XOR\n2 1 91420 109174 17617 XOR\n2 1 17617 17618 17616 AND\n2 1 17616 109174 109175 XOR\n2 1 85277 109175 17621 XOR\n2 1 75 3851 123093 XOR\n2 1 123093 123062 95329 XOR\n2 1 3851 123062 42112 XOR\n2 1 42111 42112 42110 AND\n2 1 42110 123062 123063 XOR\n2 1 76 123063 42114 XOR\n2 1 93414 124003 43743 XOR\n2 1 43743 43744 43742 AND\n2 1 43742 124003 124004 XOR\n1 1 124004 43747 INV\n2 1 97505 124022 43831 XOR\n2 1 43831 43832 43830 AND\n2 1 43830 124022 124023 XOR\n2 1 95458 124023 43835 XOR\n2 1 101601 124146 44011 XOR\n2 1 99553 124146 44012 XOR\n2 1 44011 44012 44010 AND\n2 1 44010 124146 124147 XOR\n2 1 124178 124147 97506 XOR\n2 1 97506 95458 124054 XOR\n2 1 124054 124023 93415 XOR\n1 1 93415 43793 INV\n2 1 43793 124004 91421 XOR\n2 1 4428 91421 109144 XOR\n2 1 109144 109113 3852 XOR\n2 1 91421 109113 17531 XOR\n2 1 17530 17531 17529 AND\n2 1 17529 109113 109114 XOR\n2 1 4429 109114 17533 XOR\n2 1 91421 85277 109206 XOR\n2 1 109206 109175 4300 XOR\n2 1 91421 109175 17620 XOR\n2 1 17620 17621 17619 AND\n2 1 17619 109175 109176 XOR\n2 1 85278 109176 17624 XOR\n2 1 76 3852 123094 XOR\n2 1 123094 123063 95330 XOR\n2 1 3852 123063 42115 XOR\n2 1 42114 42115 42113 AND\n2 1 42113 123063 123064 XOR\n2 1 77 123064 42117 XOR\n2 1 93415 124004 43746 XOR\n2 1 43746 43747 43745 AND\n2 1 43745 124004 43749 XOR\n2 1 97506 124023 43834 XOR\n2 1 43834 43835 43833 AND\n2 1 43833 124023 124024 XOR\n2 1 95459 124024 43838 XOR\n2 1 101602 124147 44014 XOR\n2 1 99554 124147 44015 XOR\n2 1 44014 44015 44013 AND\n2 1 44013 124147 124148 XOR\n2 1 124179 124148 97507 XOR\n2 1 97507 95459 124055 XOR\n2 1 124055 124024 93416 XOR\n2 1 93416 43749 91422 XOR\n2 1 91422 109114 17534 XOR\n2 1 17533 17534 17532 AND\n2 1 17532 109114 109115 XOR\n2 1 4430 109115 17536 XOR\n2 1 91422 85278 109207 XOR\n2 1 109207 109176 4301 XOR\n2 1 91422 109176 17623 XOR\n2 1 17623 17624 17622 AND\n2 1 17622 109176 109177 XOR\n2 1 85279 109177 17627 XOR\n2 1 4429 91422 109145 XOR\n2 1 109145 109114 3853 XOR\n2 1 3853 123064 42118 XOR\n2 1 42117 42118 42116 AND\n2 1 42116 123064 123065 XOR\n2 1 78 123065 42120 XOR\n2 1 77 3853 123095 XOR\n2 1 123095 123064 95331 XOR\n2 1 91422 43749 43748 AND\n2 1 43748 43749 124005 XOR\n1 1 124005 43752 INV\n2 1 97507 124024 43837 XOR\n2 1 43837 43838 43836 AND\n2 1 43836 124024 124025 XOR\n2 1 95460 124025 43841 XOR\n2 1 101603 124148 44017 XOR\n2 1 99555 124148 44018 XOR\n2 1 44017 44018 44016 AND\n2 1 44016 124148 124149 XOR\n2 1 124180 124149 97508 XOR\n2 1 97508 95460 124056 XOR\n2 1 124056 124025 93417 XOR\n1 1 93417 43794 INV\n2 1 43794 124005 91423 XOR\n2 1 4430 91423 109146 XOR\n2 1 109146 109115 3854 XOR\n2 1 91423 109115 17537 XOR\n2 1 17536 17537 17535 AND\n2 1 17535 109115 109116 XOR\n2 1 4431 109116 17539 XOR\n2 1 91423 85279 109208 XOR\n2 1 109208 109177 4302 XOR\n2 1 91423 109177 17626 XOR\n2 1 17626 17627 17625 AND\n",
"2 1 17625 109177 109178 XOR\n2 1 85280 109178 17630 XOR\n2 1 78 3854 123096 XOR\n2 1 123096 123065 95332 XOR\n2 1 3854 123065 42121 XOR\n2 1 42120 42121 42119 AND\n2 1 42119 123065 123066 XOR\n2 1 79 123066 42123 XOR\n2 1 93417 124005 43751 XOR\n2 1 43751 43752 43750 AND\n2 1 43750 124005 43754 XOR\n2 1 97508 124025 43840 XOR\n2 1 43840 43841 43839 AND\n2 1 43839 124025 124026 XOR\n2 1 95461 124026 43844 XOR\n2 1 101604 124149 44020 XOR\n2 1 99556 124149 44021 XOR\n2 1 44020 44021 44019 AND\n2 1 44019 124149 124150 XOR\n2 1 124181 124150 97509 XOR\n2 1 97509 95461 124057 XOR\n2 1 124057 124026 93418 XOR\n2 1 93418 43754 91424 XOR\n2 1 91424 109116 17540 XOR\n2 1 17539 17540 17538 AND\n2 1 17538 109116 109117 XOR\n2 1 4432 109117 17542 XOR\n2 1 91424 85280 109209 XOR\n2 1 109209 109178 4303 XOR\n2 1 91424 109178 17629 XOR\n2 1 17629 17630 17628 AND\n2 1 17628 109178 109179 XOR\n2 1 85281 109179 17633 XOR\n2 1 4431 91424 109147 XOR\n2 1 109147 109116 3855 XOR\n2 1 3855 123066 42124 XOR\n2 1 42123 42124 42122 AND\n2 1 42122 123066 123067 XOR\n2 1 80 123067 42126 XOR\n2 1 79 3855 123097 XOR\n2 1 123097 123066 95333 XOR\n2 1 91424 43754 43753 AND\n2 1 43753 43754 124006 XOR\n1 1 124006 43757 INV\n2 1 97509 124026 43843 XOR\n2 1 43843 43844 43842 AND\n2 1 43842 124026 124027 XOR\n2 1 95462 124027 43847 XOR\n2 1 101605 124150 44023 XOR\n2 1 99557 124150 44024 XOR\n2 1 44023 44024 44022 AND\n2 1 44022 124150 124151 XOR\n2 1 124182 124151 97510 XOR\n2 1 97510 95462 124058 XOR\n2 1 124058 124027 93419 XOR\n1 1 93419 43795 INV\n2 1 43795 124006 91425 XOR\n2 1 4432 91425 109148 XOR\n2 1 109148 109117 3856 XOR\n2 1 91425 109117 17543 XOR\n2 1 17542 17543 17541 AND\n2 1 17541 109117 109118 XOR\n2 1 4433 109118 17545 XOR\n2 1 91425 85281 109210 XOR\n2 1 109210 109179 4304 XOR\n2 1 91425 109179 17632 XOR\n2 1 17632 17633 17631 AND\n2 1 17631 109179 109180 XOR\n2 1 85282 109180 17636 XOR\n2 1 80 3856 123098 XOR\n2 1 123098 123067 95334 XOR\n2 1 3856 123067 42127 XOR\n2 1 42126 42127 42125 AND\n2 1 42125 123067 123068 XOR\n2 1 81 123068 42129 XOR\n2 1 93419 124006 43756 XOR\n2 1 43756 43757 43755 AND\n2 1 43755 124006 124007 XOR\n1 1 124007 43760 INV\n2 1 97510 124027 43846 XOR\n2 1 43846 43847 43845 AND\n2 1 43845 124027 124028 XOR\n2 1 95463 124028 43850 XOR\n2 1 101606 124151 44026 XOR\n2 1 99558 124151 44027 XOR\n2 1 44026 44027 44025 AND\n2 1 44025 124151 124152 XOR\n2 1 124183 124152 97511 XOR\n2 1 97511 95463 124059 XOR\n2 1 124059 124028 93420 XOR\n1 1 93420 43796 INV\n2 1 43796 124007 91426 XOR\n2 1 4433 91426 109149 XOR\n2 1 109149 109118 3857 XOR\n2 1 91426 109118 17546 XOR\n2 1 17545 17546 17544 AND\n2 1 17544 109118 109119 XOR\n2 1 4434 109119 17548 XOR\n2 1 91426 85282 109211 XOR\n2 1 109211 109180 4305 XOR\n2 1 91426 109180 17635 XOR\n2 1 17635 17636 17634 AND\n2 1 17634 109180 109181 XOR\n2 1 85283 109181 17639 XOR\n2 1 81 3857 123099 XOR\n2 1 123099 123068 95335 XOR\n2 1 3857 123068 42130 XOR\n2 1 42129 42130 42128 AND\n2 1 42128 123068 123069 XOR\n2 1 82 123069 42132 XOR\n2 1 93420 124007 43759 XOR\n2 1 43759 43760 43758 AND\n2 1 43758 124007 43762 XOR\n2 1 97511 124028 43849 XOR\n2 1 43849 43850 43848 AND\n2 1 43848 124028 124029 XOR\n2 1 95464 124029 43853 XOR\n2 1 101607 124152 44029 XOR\n2 1 99559 124152 44030 XOR\n2 1 44029 44030 44028 AND\n2 1 44028 124152 124153 XOR\n2 1 124184 124153 97512 XOR\n2 1 97512 95464 124060 XOR\n2 1 124060 124029 93421 XOR\n2 1 93421 43762 91427 XOR\n2 1 91427 109119 17549 XOR\n2 1 17548 17549 17547 AND\n2 1 17547 109119 109120 XOR\n",
"2 1 4435 109120 17551 XOR\n2 1 91427 85283 109212 XOR\n2 1 109212 109181 4306 XOR\n2 1 91427 109181 17638 XOR\n2 1 17638 17639 17637 AND\n2 1 17637 109181 109182 XOR\n2 1 85284 109182 17642 XOR\n2 1 4434 91427 109150 XOR\n2 1 109150 109119 3858 XOR\n2 1 3858 123069 42133 XOR\n2 1 42132 42133 42131 AND\n2 1 42131 123069 123070 XOR\n2 1 83 123070 42135 XOR\n2 1 82 3858 123100 XOR\n2 1 123100 123069 95336 XOR\n2 1 91427 43762 43761 AND\n2 1 43761 43762 43764 XOR\n2 1 97512 124029 43852 XOR\n2 1 43852 43853 43851 AND\n2 1 43851 124029 124030 XOR\n2 1 95465 124030 43856 XOR\n2 1 101608 124153 44032 XOR\n2 1 99560 124153 44033 XOR\n2 1 44032 44033 44031 AND\n2 1 44031 124153 124154 XOR\n2 1 124185 124154 97513 XOR\n2 1 97513 95465 124061 XOR\n2 1 124061 124030 93422 XOR\n2 1 93422 43764 91428 XOR\n2 1 91428 109120 17552 XOR\n2 1 17551 17552 17550 AND\n2 1 17550 109120 109121 XOR\n2 1 4436 109121 17554 XOR\n2 1 91428 85284 109213 XOR\n2 1 109213 109182 4307 XOR\n2 1 91428 109182 17641 XOR\n2 1 17641 17642 17640 AND\n2 1 17640 109182 109183 XOR\n2 1 85285 109183 17645 XOR\n2 1 4435 91428 109151 XOR\n2 1 109151 109120 3859 XOR\n2 1 3859 123070 42136 XOR\n2 1 42135 42136 42134 AND\n2 1 42134 123070 123071 XOR\n2 1 84 123071 42138 XOR\n2 1 83 3859 123101 XOR\n2 1 123101 123070 95337 XOR\n2 1 91428 43764 43763 AND\n2 1 43763 43764 43766 XOR\n2 1 97513 124030 43855 XOR\n2 1 43855 43856 43854 AND\n2 1 43854 124030 124031 XOR\n2 1 95466 124031 43859 XOR\n2 1 101609 124154 44035 XOR\n2 1 99561 124154 44036 XOR\n2 1 44035 44036 44034 AND\n2 1 44034 124154 124155 XOR\n2 1 124186 124155 97514 XOR\n2 1 97514 95466 124062 XOR\n2 1 124062 124031 93423 XOR\n2 1 93423 43766 91429 XOR\n2 1 91429 109121 17555 XOR\n2 1 17554 17555 17553 AND\n2 1 17553 109121 109122 XOR\n2 1 4437 109122 17557 XOR\n2 1 91429 85285 109214 XOR\n2 1 109214 109183 4308 XOR\n2 1 91429 109183 17644 XOR\n2 1 17644 17645 17643 AND\n2 1 17643 109183 109184 XOR\n2 1 85286 109184 17648 XOR\n2 1 4436 91429 109152 XOR\n2 1 109152 109121 3860 XOR\n2 1 3860 123071 42139 XOR\n2 1 42138 42139 42137 AND\n2 1 42137 123071 123072 XOR\n2 1 85 123072 42141 XOR\n2 1 84 3860 123102 XOR\n2 1 123102 123071 95338 XOR\n2 1 91429 43766 43765 AND\n2 1 43765 43766 43768 XOR\n2 1 97514 124031 43858 XOR\n2 1 43858 43859 43857 AND\n2 1 43857 124031 124032 XOR\n2 1 95467 124032 43862 XOR\n2 1 101610 124155 44038 XOR\n2 1 99562 124155 44039 XOR\n2 1 44038 44039 44037 AND\n2 1 44037 124155 124156 XOR\n2 1 124187 124156 97515 XOR\n2 1 97515 95467 124063 XOR\n2 1 124063 124032 93424 XOR\n2 1 93424 43768 91430 XOR\n2 1 91430 109122 17558 XOR\n2 1 17557 17558 17556 AND\n2 1 17556 109122 109123 XOR\n2 1 4438 109123 17560 XOR\n2 1 91430 85286 109215 XOR\n2 1 109215 109184 4309 XOR\n2 1 91430 109184 17647 XOR\n2 1 17647 17648 17646 AND\n2 1 17646 109184 109185 XOR\n2 1 85287 109185 17651 XOR\n2 1 4437 91430 109153 XOR\n2 1 109153 109122 3861 XOR\n2 1 3861 123072 42142 XOR\n2 1 42141 42142 42140 AND\n2 1 42140 123072 123073 XOR\n2 1 86 123073 42144 XOR\n2 1 85 3861 123103 XOR\n2 1 123103 123072 95339 XOR\n2 1 91430 43768 43767 AND\n2 1 43767 43768 43770 XOR\n2 1 97515 124032 43861 XOR\n2 1 43861 43862 43860 AND\n2 1 43860 124032 124033 XOR\n2 1 95468 124033 43865 XOR\n2 1 101611 124156 44041 XOR\n2 1 99563 124156 44042 XOR\n2 1 44041 44042 44040 AND\n2 1 44040 124156 124157 XOR\n2 1 124188 124157 97516 XOR\n2 1 97516 95468 124064 XOR\n2 1 124064 124033 93425 XOR\n2 1 93425 43770 91431 XOR\n2 1 91431 109123 17561 XOR\n2 1 17560 17561 17559 AND\n2 1 17559 109123 109124 XOR\n",
"2 1 4439 109124 17563 XOR\n2 1 91431 85287 109216 XOR\n2 1 109216 109185 4310 XOR\n2 1 91431 109185 17650 XOR\n2 1 17650 17651 17649 AND\n2 1 17649 109185 109186 XOR\n2 1 85288 109186 17654 XOR\n2 1 4438 91431 109154 XOR\n2 1 109154 109123 3862 XOR\n2 1 3862 123073 42145 XOR\n2 1 42144 42145 42143 AND\n2 1 42143 123073 123074 XOR\n2 1 87 123074 42147 XOR\n2 1 86 3862 123104 XOR\n2 1 123104 123073 95340 XOR\n2 1 91431 43770 43769 AND\n2 1 43769 43770 124008 XOR\n1 1 124008 43773 INV\n2 1 97516 124033 43864 XOR\n2 1 43864 43865 43863 AND\n2 1 43863 124033 124034 XOR\n2 1 95469 124034 43868 XOR\n2 1 101612 124157 44044 XOR\n2 1 99564 124157 44045 XOR\n2 1 44044 44045 44043 AND\n2 1 44043 124157 124158 XOR\n2 1 124189 124158 97517 XOR\n2 1 97517 95469 124065 XOR\n2 1 124065 124034 93426 XOR\n1 1 93426 43797 INV\n2 1 43797 124008 91432 XOR\n2 1 4439 91432 109155 XOR\n2 1 109155 109124 3863 XOR\n2 1 91432 109124 17564 XOR\n2 1 17563 17564 17562 AND\n2 1 17562 109124 109125 XOR\n2 1 4440 109125 17566 XOR\n2 1 91432 85288 109217 XOR\n2 1 109217 109186 4311 XOR\n2 1 91432 109186 17653 XOR\n2 1 17653 17654 17652 AND\n2 1 17652 109186 109187 XOR\n2 1 85289 109187 17657 XOR\n2 1 87 3863 123105 XOR\n2 1 123105 123074 95341 XOR\n2 1 3863 123074 42148 XOR\n2 1 42147 42148 42146 AND\n2 1 42146 123074 123075 XOR\n2 1 88 123075 42150 XOR\n2 1 93426 124008 43772 XOR\n2 1 43772 43773 43771 AND\n2 1 43771 124008 43775 XOR\n2 1 97517 124034 43867 XOR\n2 1 43867 43868 43866 AND\n2 1 43866 124034 124035 XOR\n2 1 95470 124035 43871 XOR\n2 1 101613 124158 44047 XOR\n2 1 99565 124158 44048 XOR\n2 1 44047 44048 44046 AND\n2 1 44046 124158 124159 XOR\n2 1 124190 124159 97518 XOR\n2 1 97518 95470 124066 XOR\n2 1 124066 124035 93427 XOR\n2 1 93427 43775 91433 XOR\n2 1 91433 109125 17567 XOR\n2 1 17566 17567 17565 AND\n2 1 17565 109125 109126 XOR\n2 1 4441 109126 17569 XOR\n2 1 91433 85289 109218 XOR\n2 1 109218 109187 4312 XOR\n2 1 91433 109187 17656 XOR\n2 1 17656 17657 17655 AND\n2 1 17655 109187 109188 XOR\n2 1 85290 109188 17660 XOR\n2 1 4440 91433 109156 XOR\n2 1 109156 109125 3864 XOR\n2 1 3864 123075 42151 XOR\n2 1 42150 42151 42149 AND\n2 1 42149 123075 123076 XOR\n2 1 89 123076 42153 XOR\n2 1 88 3864 123106 XOR\n2 1 123106 123075 95342 XOR\n2 1 91433 43775 43774 AND\n2 1 43774 43775 124009 XOR\n1 1 124009 43778 INV\n2 1 97518 124035 43870 XOR\n2 1 43870 43871 43869 AND\n2 1 43869 124035 124036 XOR\n2 1 95471 124036 43874 XOR\n2 1 101614 124159 44050 XOR\n2 1 99566 124159 44051 XOR\n2 1 44050 44051 44049 AND\n2 1 44049 124159 124160 XOR\n2 1 124191 124160 97519 XOR\n2 1 97519 95471 124067 XOR\n2 1 124067 124036 93428 XOR\n1 1 93428 43798 INV\n2 1 43798 124009 91434 XOR\n2 1 4441 91434 109157 XOR\n2 1 109157 109126 3865 XOR\n2 1 91434 109126 17570 XOR\n2 1 17569 17570 17568 AND\n2 1 17568 109126 109127 XOR\n2 1 4442 109127 17572 XOR\n2 1 91434 85290 109219 XOR\n2 1 109219 109188 4313 XOR\n2 1 91434 109188 17659 XOR\n2 1 17659 17660 17658 AND\n2 1 17658 109188 109189 XOR\n2 1 85291 109189 17663 XOR\n2 1 89 3865 123107 XOR\n2 1 123107 123076 95343 XOR\n2 1 3865 123076 42154 XOR\n2 1 42153 42154 42152 AND\n2 1 42152 123076 123077 XOR\n2 1 90 123077 42156 XOR\n2 1 93428 124009 43777 XOR\n2 1 43777 43778 43776 AND\n2 1 43776 124009 43780 XOR\n2 1 97519 124036 43873 XOR\n2 1 43873 43874 43872 AND\n2 1 43872 124036 124037 XOR\n2 1 95472 124037 43877 XOR\n2 1 101615 124160 44053 XOR\n2 1 99567 124160 44054 XOR\n2 1 44053 44054 44052 AND\n2 1 44052 124160 124161 XOR\n2 1 124192 124161 97520 XOR\n",
"2 1 97520 95472 124068 XOR\n2 1 124068 124037 93429 XOR\n2 1 93429 43780 91435 XOR\n2 1 91435 109127 17573 XOR\n2 1 17572 17573 17571 AND\n2 1 17571 109127 109128 XOR\n2 1 4443 109128 17575 XOR\n2 1 91435 85291 109220 XOR\n2 1 109220 109189 4314 XOR\n2 1 91435 109189 17662 XOR\n2 1 17662 17663 17661 AND\n2 1 17661 109189 109190 XOR\n2 1 85292 109190 17666 XOR\n2 1 4442 91435 109158 XOR\n2 1 109158 109127 3866 XOR\n2 1 3866 123077 42157 XOR\n2 1 42156 42157 42155 AND\n2 1 42155 123077 123078 XOR\n2 1 91 123078 42159 XOR\n2 1 90 3866 123108 XOR\n2 1 123108 123077 95344 XOR\n2 1 91435 43780 43779 AND\n2 1 43779 43780 43782 XOR\n2 1 97520 124037 43876 XOR\n2 1 43876 43877 43875 AND\n2 1 43875 124037 124038 XOR\n2 1 95473 124038 43880 XOR\n2 1 101616 124161 44056 XOR\n2 1 99568 124161 44057 XOR\n2 1 44056 44057 44055 AND\n2 1 44055 124161 124162 XOR\n2 1 124193 124162 97521 XOR\n2 1 97521 95473 124069 XOR\n2 1 124069 124038 93430 XOR\n2 1 93430 43782 91436 XOR\n2 1 91436 109128 17576 XOR\n2 1 17575 17576 17574 AND\n2 1 17574 109128 109129 XOR\n2 1 4444 109129 17578 XOR\n2 1 91436 85292 109221 XOR\n2 1 109221 109190 4315 XOR\n2 1 91436 109190 17665 XOR\n2 1 17665 17666 17664 AND\n2 1 17664 109190 109191 XOR\n2 1 85293 109191 17669 XOR\n2 1 4443 91436 109159 XOR\n2 1 109159 109128 3867 XOR\n2 1 3867 123078 42160 XOR\n2 1 42159 42160 42158 AND\n2 1 42158 123078 123079 XOR\n2 1 92 123079 42162 XOR\n2 1 91 3867 123109 XOR\n2 1 123109 123078 95345 XOR\n2 1 91436 43782 43781 AND\n2 1 43781 43782 124010 XOR\n1 1 124010 43785 INV\n2 1 97521 124038 43879 XOR\n2 1 43879 43880 43878 AND\n2 1 43878 124038 124039 XOR\n2 1 95474 124039 43883 XOR\n2 1 101617 124162 44059 XOR\n2 1 99569 124162 44060 XOR\n2 1 44059 44060 44058 AND\n2 1 44058 124162 124163 XOR\n2 1 124194 124163 97522 XOR\n2 1 97522 95474 124070 XOR\n2 1 124070 124039 93431 XOR\n1 1 93431 43799 INV\n2 1 43799 124010 91437 XOR\n2 1 4444 91437 109160 XOR\n2 1 109160 109129 3868 XOR\n2 1 91437 109129 17579 XOR\n2 1 17578 17579 17577 AND\n2 1 17577 109129 109130 XOR\n2 1 4445 109130 17581 XOR\n2 1 91437 85293 109222 XOR\n2 1 109222 109191 4316 XOR\n2 1 91437 109191 17668 XOR\n2 1 17668 17669 17667 AND\n2 1 17667 109191 109192 XOR\n2 1 85294 109192 17672 XOR\n2 1 92 3868 123110 XOR\n2 1 123110 123079 95346 XOR\n2 1 3868 123079 42163 XOR\n2 1 42162 42163 42161 AND\n2 1 42161 123079 123080 XOR\n2 1 93 123080 42165 XOR\n2 1 93431 124010 43784 XOR\n2 1 43784 43785 43783 AND\n2 1 43783 124010 43787 XOR\n2 1 97522 124039 43882 XOR\n2 1 43882 43883 43881 AND\n2 1 43881 124039 124040 XOR\n2 1 95475 124040 43886 XOR\n2 1 101618 124163 44062 XOR\n2 1 99570 124163 44063 XOR\n2 1 44062 44063 44061 AND\n2 1 44061 124163 124164 XOR\n2 1 124195 124164 97523 XOR\n2 1 97523 95475 124071 XOR\n2 1 124071 124040 93432 XOR\n2 1 93432 43787 91438 XOR\n2 1 91438 109130 17582 XOR\n2 1 17581 17582 17580 AND\n2 1 17580 109130 109131 XOR\n2 1 4446 109131 17584 XOR\n2 1 91438 85294 109223 XOR\n2 1 109223 109192 4317 XOR\n2 1 91438 109192 17671 XOR\n2 1 17671 17672 17670 AND\n2 1 17670 109192 109193 XOR\n2 1 85295 109193 17675 XOR\n2 1 4445 91438 109161 XOR\n2 1 109161 109130 3869 XOR\n2 1 3869 123080 42166 XOR\n2 1 42165 42166 42164 AND\n2 1 42164 123080 123081 XOR\n2 1 94 123081 42168 XOR\n2 1 93 3869 123111 XOR\n2 1 123111 123080 95347 XOR\n2 1 91438 43787 43786 AND\n2 1 43786 43787 43789 XOR\n2 1 97523 124040 43885 XOR\n2 1 43885 43886 43884 AND\n2 1 43884 124040 124041 XOR\n2 1 95476 124041 43889 XOR\n2 1 101619 124164 44065 XOR\n2 1 99571 124164 44066 XOR\n",
"2 1 44065 44066 44064 AND\n2 1 44064 124164 124165 XOR\n2 1 124196 124165 97524 XOR\n2 1 97524 95476 124072 XOR\n2 1 124072 124041 93433 XOR\n2 1 93433 43789 91439 XOR\n2 1 91439 109131 17585 XOR\n2 1 17584 17585 17583 AND\n2 1 17583 109131 109132 XOR\n2 1 91439 85295 109224 XOR\n2 1 109224 109193 4318 XOR\n2 1 91439 109193 17674 XOR\n2 1 17674 17675 17673 AND\n2 1 17673 109193 109194 XOR\n2 1 4446 91439 109162 XOR\n2 1 109162 109131 3870 XOR\n2 1 3870 123081 42169 XOR\n2 1 42168 42169 42167 AND\n2 1 42167 123081 123082 XOR\n2 1 94 3870 123112 XOR\n2 1 123112 123081 95348 XOR\n2 1 91439 43789 43788 AND\n2 1 43788 43789 124011 XOR\n2 1 97524 124041 43888 XOR\n2 1 43888 43889 43887 AND\n2 1 43887 124041 124042 XOR\n2 1 101620 124165 44068 XOR\n2 1 99572 124165 44069 XOR\n2 1 44068 44069 44067 AND\n2 1 44067 124165 124166 XOR\n2 1 124197 124166 97525 XOR\n2 1 97525 95477 124073 XOR\n2 1 124073 124042 93434 XOR\n2 1 93434 124011 91440 XOR\n2 1 4447 91440 109163 XOR\n2 1 109163 109132 3871 XOR\n2 1 91440 85296 109225 XOR\n2 1 109225 109194 4319 XOR\n2 1 95 3871 123113 XOR\n2 1 123113 123082 95349 XOR\n2 1 4319 4383 73934 XOR\n2 1 4318 4382 73933 XOR\n2 1 4317 4381 73932 XOR\n2 1 4316 4380 73931 XOR\n2 1 4315 4379 73930 XOR\n2 1 4314 4378 73929 XOR\n2 1 4313 4377 73928 XOR\n2 1 4312 4376 73927 XOR\n2 1 4311 4375 73926 XOR\n2 1 4310 4374 73925 XOR\n2 1 4309 4373 73924 XOR\n2 1 4308 4372 73923 XOR\n2 1 4307 4371 73922 XOR\n2 1 4306 4370 73921 XOR\n2 1 4305 4369 73920 XOR\n2 1 4304 4368 73919 XOR\n2 1 4303 4367 73918 XOR\n2 1 4302 4366 73917 XOR\n2 1 4301 4365 73916 XOR\n2 1 4300 4364 73915 XOR\n2 1 4299 4363 73914 XOR\n2 1 4298 4362 73913 XOR\n2 1 4297 4361 73912 XOR\n2 1 4296 4360 73911 XOR\n2 1 4295 4359 73910 XOR\n2 1 4294 4358 73909 XOR\n2 1 4293 4357 73908 XOR\n2 1 4292 4356 73907 XOR\n2 1 4291 4355 73906 XOR\n2 1 4290 4354 73905 XOR\n2 1 4289 4353 73904 XOR\n2 1 4288 4352 73903 XOR\n2 1 73934 73902 73870 AND\n2 1 73933 73901 73869 AND\n2 1 73932 73900 73868 AND\n2 1 73931 73899 73867 AND\n2 1 73930 73898 73866 AND\n2 1 73929 73897 73865 AND\n2 1 73928 73896 73864 AND\n2 1 73927 73895 73863 AND\n2 1 73926 73894 73862 AND\n2 1 73925 73893 73861 AND\n2 1 73924 73892 73860 AND\n2 1 73923 73891 73859 AND\n2 1 73922 73890 73858 AND\n2 1 73921 73889 73857 AND\n2 1 73920 73888 73856 AND\n2 1 73919 73887 73855 AND\n2 1 73918 73886 73854 AND\n2 1 73917 73885 73853 AND\n2 1 73916 73884 73852 AND\n2 1 73915 73883 73851 AND\n2 1 73914 73882 73850 AND\n2 1 73913 73881 73849 AND\n2 1 73912 73880 73848 AND\n2 1 73911 73879 73847 AND\n2 1 73910 73878 73846 AND\n2 1 73909 73877 73845 AND\n2 1 73908 73876 73844 AND\n2 1 73907 73875 73843 AND\n2 1 73906 73874 73842 AND\n2 1 73905 73873 73841 AND\n2 1 73904 73872 73840 AND\n2 1 73903 73871 73839 AND\n2 1 73870 4383 87312 XOR\n2 1 73869 4382 87311 XOR\n2 1 73868 4381 87310 XOR\n2 1 73867 4380 87309 XOR\n2 1 73866 4379 87308 XOR\n2 1 73865 4378 87307 XOR\n2 1 73864 4377 87306 XOR\n2 1 73863 4376 87305 XOR\n2 1 73862 4375 87304 XOR\n2 1 73861 4374 87303 XOR\n2 1 73860 4373 87302 XOR\n2 1 73859 4372 87301 XOR\n2 1 73858 4371 87300 XOR\n2 1 73857 4370 87299 XOR\n2 1 73856 4369 87298 XOR\n2 1 73855 4368 87297 XOR\n2 1 73854 4367 87296 XOR\n2 1 73853 4366 87295 XOR\n2 1 73852 4365 87294 XOR\n2 1 73851 4364 87293 XOR\n2 1 73850 4363 87292 XOR\n2 1 73849 4362 87291 XOR\n2 1 73848 4361 87290 XOR\n2 1 73847 4360 87289 XOR\n",
"2 1 73846 4359 87288 XOR\n2 1 73845 4358 87287 XOR\n2 1 73844 4357 87286 XOR\n2 1 73843 4356 87285 XOR\n2 1 73842 4355 87284 XOR\n2 1 73841 4354 87283 XOR\n2 1 73840 4353 87282 XOR\n2 1 73839 4352 87281 XOR\n2 1 4319 4351 73806 XOR\n2 1 4318 4350 73805 XOR\n2 1 4317 4349 73804 XOR\n2 1 4316 4348 73803 XOR\n2 1 4315 4347 73802 XOR\n2 1 4314 4346 73801 XOR\n2 1 4313 4345 73800 XOR\n2 1 4312 4344 73799 XOR\n2 1 4311 4343 73798 XOR\n2 1 4310 4342 73797 XOR\n2 1 4309 4341 73796 XOR\n2 1 4308 4340 73795 XOR\n2 1 4307 4339 73794 XOR\n2 1 4306 4338 73793 XOR\n2 1 4305 4337 73792 XOR\n2 1 4304 4336 73791 XOR\n2 1 4303 4335 73790 XOR\n2 1 4302 4334 73789 XOR\n2 1 4301 4333 73788 XOR\n2 1 4300 4332 73787 XOR\n2 1 4299 4331 73786 XOR\n2 1 4298 4330 73785 XOR\n2 1 4297 4329 73784 XOR\n2 1 4296 4328 73783 XOR\n2 1 4295 4327 73782 XOR\n2 1 4294 4326 73781 XOR\n2 1 4293 4325 73780 XOR\n2 1 4292 4324 73779 XOR\n2 1 4291 4323 73778 XOR\n2 1 4290 4322 73777 XOR\n2 1 4289 4321 73776 XOR\n2 1 4288 4320 73775 XOR\n2 1 4289 4300 68462 XOR\n2 1 4288 4299 68461 XOR\n2 1 4319 4298 68460 XOR\n2 1 4318 4297 68459 XOR\n2 1 4317 4296 68458 XOR\n2 1 4316 4295 68457 XOR\n2 1 4315 4294 68456 XOR\n2 1 4314 4293 68455 XOR\n2 1 4313 4292 68454 XOR\n2 1 4312 4291 68453 XOR\n2 1 4311 4290 68452 XOR\n2 1 4310 4289 68451 XOR\n2 1 4309 4288 68450 XOR\n2 1 4308 4319 68449 XOR\n2 1 4307 4318 68448 XOR\n2 1 4306 4317 68447 XOR\n2 1 4305 4316 68446 XOR\n2 1 4304 4315 68445 XOR\n2 1 4303 4314 68444 XOR\n2 1 4302 4313 68443 XOR\n2 1 4301 4312 68442 XOR\n2 1 4300 4311 68441 XOR\n2 1 4299 4310 68440 XOR\n2 1 4298 4309 68439 XOR\n2 1 4297 4308 68438 XOR\n2 1 4296 4307 68437 XOR\n2 1 4295 4306 68436 XOR\n2 1 4294 4305 68435 XOR\n2 1 4293 4304 68434 XOR\n2 1 4292 4303 68433 XOR\n2 1 4291 4302 68432 XOR\n2 1 4290 4301 68431 XOR\n2 1 68462 4309 89360 XOR\n2 1 89360 87312 123752 XOR\n2 1 68461 4308 89359 XOR\n2 1 89359 87311 123751 XOR\n2 1 68460 4307 89358 XOR\n2 1 89358 87310 123750 XOR\n2 1 68459 4306 89357 XOR\n2 1 89357 87309 123749 XOR\n2 1 68458 4305 89356 XOR\n2 1 89356 87308 123748 XOR\n2 1 68457 4304 89355 XOR\n2 1 89355 87307 123747 XOR\n2 1 68456 4303 89354 XOR\n2 1 89354 87306 123746 XOR\n2 1 68455 4302 89353 XOR\n2 1 89353 87305 123745 XOR\n2 1 68454 4301 89352 XOR\n2 1 89352 87304 123744 XOR\n2 1 68453 4300 89351 XOR\n2 1 89351 87303 123743 XOR\n2 1 68452 4299 89350 XOR\n2 1 89350 87302 123742 XOR\n2 1 68451 4298 89349 XOR\n2 1 89349 87301 123741 XOR\n2 1 68450 4297 89348 XOR\n2 1 89348 87300 123740 XOR\n2 1 68449 4296 89347 XOR\n2 1 89347 87299 123739 XOR\n2 1 68448 4295 89346 XOR\n2 1 89346 87298 123738 XOR\n2 1 68447 4294 89345 XOR\n2 1 89345 87297 123737 XOR\n2 1 68446 4293 89344 XOR\n2 1 89344 87296 123736 XOR\n2 1 68445 4292 89343 XOR\n2 1 89343 87295 123735 XOR\n2 1 68444 4291 89342 XOR\n2 1 89342 87294 123734 XOR\n2 1 68443 4290 89341 XOR\n2 1 89341 87293 123733 XOR\n2 1 68442 4289 89340 XOR\n2 1 89340 87292 123732 XOR\n2 1 68441 4288 89339 XOR\n2 1 89339 87291 123731 XOR\n2 1 68440 4319 89338 XOR\n2 1 89338 87290 123730 XOR\n2 1 68439 4318 89337 XOR\n2 1 89337 87289 123729 XOR\n2 1 68438 4317 89336 XOR\n2 1 89336 87288 123728 XOR\n2 1 68437 4316 89335 XOR\n2 1 89335 87287 123727 XOR\n2 1 68436 4315 89334 XOR\n2 1 89334 87286 123726 XOR\n2 1 68435 4314 89333 XOR\n2 1 89333 87285 123725 XOR\n",
"2 1 68434 4313 89332 XOR\n2 1 89332 87284 123724 XOR\n2 1 68433 4312 89331 XOR\n2 1 89331 87283 123723 XOR\n2 1 68432 4311 89330 XOR\n2 1 89330 87282 123722 XOR\n2 1 68431 4310 89329 XOR\n2 1 89329 87281 123691 AND\n2 1 89329 87281 85233 XOR\n2 1 123722 123691 85234 XOR\n2 1 89330 123691 43176 XOR\n2 1 87282 123691 43177 XOR\n2 1 43176 43177 43175 AND\n2 1 43175 123691 123692 XOR\n2 1 123723 123692 85235 XOR\n2 1 89331 123692 43179 XOR\n2 1 87283 123692 43180 XOR\n2 1 43179 43180 43178 AND\n2 1 43178 123692 123693 XOR\n2 1 123724 123693 85236 XOR\n2 1 89332 123693 43182 XOR\n2 1 87284 123693 43183 XOR\n2 1 43182 43183 43181 AND\n2 1 43181 123693 123694 XOR\n2 1 123725 123694 85237 XOR\n2 1 89333 123694 43185 XOR\n2 1 87285 123694 43186 XOR\n2 1 43185 43186 43184 AND\n2 1 43184 123694 123695 XOR\n2 1 123726 123695 85238 XOR\n2 1 89334 123695 43188 XOR\n2 1 87286 123695 43189 XOR\n2 1 43188 43189 43187 AND\n2 1 43187 123695 123696 XOR\n2 1 123727 123696 85239 XOR\n2 1 89335 123696 43191 XOR\n2 1 87287 123696 43192 XOR\n2 1 43191 43192 43190 AND\n2 1 43190 123696 123697 XOR\n2 1 123728 123697 85240 XOR\n2 1 89336 123697 43194 XOR\n2 1 87288 123697 43195 XOR\n2 1 43194 43195 43193 AND\n2 1 43193 123697 123698 XOR\n2 1 123729 123698 85241 XOR\n2 1 89337 123698 43197 XOR\n2 1 87289 123698 43198 XOR\n2 1 43197 43198 43196 AND\n2 1 43196 123698 123699 XOR\n2 1 123730 123699 85242 XOR\n2 1 89338 123699 43200 XOR\n2 1 87290 123699 43201 XOR\n2 1 43200 43201 43199 AND\n2 1 43199 123699 123700 XOR\n2 1 123731 123700 85243 XOR\n2 1 89339 123700 43203 XOR\n2 1 87291 123700 43204 XOR\n2 1 43203 43204 43202 AND\n2 1 43202 123700 123701 XOR\n2 1 123732 123701 85244 XOR\n2 1 89340 123701 43206 XOR\n2 1 87292 123701 43207 XOR\n2 1 43206 43207 43205 AND\n2 1 43205 123701 123702 XOR\n2 1 123733 123702 85245 XOR\n2 1 89341 123702 43209 XOR\n2 1 87293 123702 43210 XOR\n2 1 43209 43210 43208 AND\n2 1 43208 123702 123703 XOR\n2 1 123734 123703 85246 XOR\n2 1 89342 123703 43212 XOR\n2 1 87294 123703 43213 XOR\n2 1 43212 43213 43211 AND\n2 1 43211 123703 123704 XOR\n2 1 123735 123704 85247 XOR\n2 1 89343 123704 43215 XOR\n2 1 87295 123704 43216 XOR\n2 1 43215 43216 43214 AND\n2 1 43214 123704 123705 XOR\n2 1 123736 123705 85248 XOR\n2 1 89344 123705 43218 XOR\n2 1 87296 123705 43219 XOR\n2 1 43218 43219 43217 AND\n2 1 43217 123705 123706 XOR\n2 1 123737 123706 85249 XOR\n2 1 89345 123706 43221 XOR\n2 1 87297 123706 43222 XOR\n2 1 43221 43222 43220 AND\n2 1 43220 123706 123707 XOR\n2 1 123738 123707 85250 XOR\n2 1 89346 123707 43224 XOR\n2 1 87298 123707 43225 XOR\n2 1 43224 43225 43223 AND\n2 1 43223 123707 123708 XOR\n2 1 123739 123708 85251 XOR\n2 1 89347 123708 43227 XOR\n2 1 87299 123708 43228 XOR\n2 1 43227 43228 43226 AND\n2 1 43226 123708 123709 XOR\n2 1 123740 123709 85252 XOR\n2 1 89348 123709 43230 XOR\n2 1 87300 123709 43231 XOR\n2 1 43230 43231 43229 AND\n2 1 43229 123709 123710 XOR\n2 1 123741 123710 85253 XOR\n2 1 89349 123710 43233 XOR\n2 1 87301 123710 43234 XOR\n2 1 43233 43234 43232 AND\n2 1 43232 123710 123711 XOR\n2 1 123742 123711 85254 XOR\n2 1 89350 123711 43236 XOR\n2 1 87302 123711 43237 XOR\n2 1 43236 43237 43235 AND\n2 1 43235 123711 123712 XOR\n2 1 123743 123712 85255 XOR\n2 1 89351 123712 43239 XOR\n2 1 87303 123712 43240 XOR\n2 1 43239 43240 43238 AND\n2 1 43238 123712 123713 XOR\n2 1 123744 123713 85256 XOR\n2 1 89352 123713 43242 XOR\n2 1 87304 123713 43243 XOR\n2 1 43242 43243 43241 AND\n2 1 43241 123713 123714 XOR\n2 1 123745 123714 85257 XOR\n2 1 89353 123714 43245 XOR\n2 1 87305 123714 43246 XOR\n2 1 43245 43246 43244 AND\n",
"2 1 43244 123714 123715 XOR\n2 1 123746 123715 85258 XOR\n2 1 89354 123715 43248 XOR\n2 1 87306 123715 43249 XOR\n2 1 43248 43249 43247 AND\n2 1 43247 123715 123716 XOR\n2 1 123747 123716 85259 XOR\n2 1 89355 123716 43251 XOR\n2 1 87307 123716 43252 XOR\n2 1 43251 43252 43250 AND\n2 1 43250 123716 123717 XOR\n2 1 123748 123717 85260 XOR\n2 1 89356 123717 43254 XOR\n2 1 87308 123717 43255 XOR\n2 1 43254 43255 43253 AND\n2 1 43253 123717 123718 XOR\n2 1 123749 123718 85261 XOR\n2 1 89357 123718 43257 XOR\n2 1 87309 123718 43258 XOR\n2 1 43257 43258 43256 AND\n2 1 43256 123718 123719 XOR\n2 1 123750 123719 85262 XOR\n2 1 89358 123719 43260 XOR\n2 1 87310 123719 43261 XOR\n2 1 43260 43261 43259 AND\n2 1 43259 123719 123720 XOR\n2 1 123751 123720 85263 XOR\n2 1 89359 123720 43263 XOR\n2 1 87311 123720 43264 XOR\n2 1 43263 43264 43262 AND\n2 1 43262 123720 123721 XOR\n2 1 123752 123721 85264 XOR\n2 1 66286 3871 66254 AND\n2 1 66285 3870 66253 AND\n2 1 66284 3869 66252 AND\n2 1 66283 3868 66251 AND\n2 1 66282 3867 66250 AND\n2 1 66281 3866 66249 AND\n2 1 66280 3865 66248 AND\n2 1 66279 3864 66247 AND\n2 1 66278 3863 66246 AND\n2 1 66277 3862 66245 AND\n2 1 66276 3861 66244 AND\n2 1 66275 3860 66243 AND\n2 1 66274 3859 66242 AND\n2 1 66273 3858 66241 AND\n2 1 66272 3857 66240 AND\n2 1 66271 3856 66239 AND\n2 1 66270 3855 66238 AND\n2 1 66269 3854 66237 AND\n2 1 66268 3853 66236 AND\n2 1 66267 3852 66235 AND\n2 1 66266 3851 66234 AND\n2 1 66265 3850 66233 AND\n2 1 66264 3849 66232 AND\n2 1 66263 3848 66231 AND\n2 1 66262 3847 66230 AND\n2 1 66261 3846 66229 AND\n2 1 66260 3845 66228 AND\n2 1 66259 3844 66227 AND\n2 1 66258 3843 66226 AND\n2 1 66257 3842 66225 AND\n2 1 66256 3841 66224 AND\n2 1 66255 3840 66223 AND\n2 1 66254 3935 99541 XOR\n2 1 66253 3934 99540 XOR\n2 1 66252 3933 99539 XOR\n2 1 66251 3932 99538 XOR\n2 1 66250 3931 99537 XOR\n2 1 66249 3930 99536 XOR\n2 1 66248 3929 99535 XOR\n2 1 66247 3928 99534 XOR\n2 1 66246 3927 99533 XOR\n2 1 66245 3926 99532 XOR\n2 1 66244 3925 99531 XOR\n2 1 66243 3924 99530 XOR\n2 1 66242 3923 99529 XOR\n2 1 66241 3922 99528 XOR\n2 1 66240 3921 99527 XOR\n2 1 66239 3920 99526 XOR\n2 1 66238 3919 99525 XOR\n2 1 66237 3918 99524 XOR\n2 1 66236 3917 99523 XOR\n2 1 66235 3916 99522 XOR\n2 1 66234 3915 99521 XOR\n2 1 66233 3914 99520 XOR\n2 1 66232 3913 99519 XOR\n2 1 66231 3912 99518 XOR\n2 1 66230 3911 99517 XOR\n2 1 66229 3910 99516 XOR\n2 1 66228 3909 99515 XOR\n2 1 66227 3908 99514 XOR\n2 1 66226 3907 99513 XOR\n2 1 66225 3906 99512 XOR\n2 1 66224 3905 99511 XOR\n2 1 66223 3904 99510 XOR\n2 1 3871 3903 66222 XOR\n2 1 3870 3902 66221 XOR\n2 1 3869 3901 66220 XOR\n2 1 3868 3900 66219 XOR\n2 1 3867 3899 66218 XOR\n2 1 3866 3898 66217 XOR\n2 1 3865 3897 66216 XOR\n2 1 3864 3896 66215 XOR\n2 1 3863 3895 66214 XOR\n2 1 3862 3894 66213 XOR\n2 1 3861 3893 66212 XOR\n2 1 3860 3892 66211 XOR\n2 1 3859 3891 66210 XOR\n2 1 3858 3890 66209 XOR\n2 1 3857 3889 66208 XOR\n2 1 3856 3888 66207 XOR\n2 1 3855 3887 66206 XOR\n2 1 3854 3886 66205 XOR\n2 1 3853 3885 66204 XOR\n2 1 3852 3884 66203 XOR\n2 1 3851 3883 66202 XOR\n2 1 3850 3882 66201 XOR\n2 1 3849 3881 66200 XOR\n2 1 3848 3880 66199 XOR\n2 1 3847 3879 66198 XOR\n2 1 3846 3878 66197 XOR\n2 1 3845 3877 66196 XOR\n2 1 3844 3876 66195 XOR\n2 1 3843 3875 66194 XOR\n2 1 3842 3874 66193 XOR\n2 1 3841 3873 66192 XOR\n2 1 3840 3872 66191 XOR\n",
"2 1 3845 3850 62542 XOR\n2 1 3844 3849 62541 XOR\n2 1 3843 3848 62540 XOR\n2 1 3842 3847 62539 XOR\n2 1 3841 3846 62538 XOR\n2 1 3840 3845 62537 XOR\n2 1 3871 3844 62536 XOR\n2 1 3870 3843 62535 XOR\n2 1 3869 3842 62534 XOR\n2 1 3868 3841 62533 XOR\n2 1 3867 3840 62532 XOR\n2 1 3866 3871 62531 XOR\n2 1 3865 3870 62530 XOR\n2 1 3864 3869 62529 XOR\n2 1 3863 3868 62528 XOR\n2 1 3862 3867 62527 XOR\n2 1 3861 3866 62526 XOR\n2 1 3860 3865 62525 XOR\n2 1 3859 3864 62524 XOR\n2 1 3858 3863 62523 XOR\n2 1 3857 3862 62522 XOR\n2 1 3856 3861 62521 XOR\n2 1 3855 3860 62520 XOR\n2 1 3854 3859 62519 XOR\n2 1 3853 3858 62518 XOR\n2 1 3852 3857 62517 XOR\n2 1 3851 3856 62516 XOR\n2 1 3850 3855 62515 XOR\n2 1 3849 3854 62514 XOR\n2 1 3848 3853 62513 XOR\n2 1 3847 3852 62512 XOR\n2 1 3846 3851 62511 XOR\n2 1 62542 3864 101589 XOR\n2 1 101589 99541 123938 XOR\n2 1 62541 3863 101588 XOR\n2 1 101588 99540 123937 XOR\n2 1 62540 3862 101587 XOR\n2 1 101587 99539 123936 XOR\n2 1 62539 3861 101586 XOR\n2 1 101586 99538 123935 XOR\n2 1 62538 3860 101585 XOR\n2 1 101585 99537 123934 XOR\n2 1 62537 3859 101584 XOR\n2 1 101584 99536 123933 XOR\n2 1 62536 3858 101583 XOR\n2 1 101583 99535 123932 XOR\n2 1 62535 3857 101582 XOR\n2 1 101582 99534 123931 XOR\n2 1 62534 3856 101581 XOR\n2 1 101581 99533 123930 XOR\n2 1 62533 3855 101580 XOR\n2 1 101580 99532 123929 XOR\n2 1 62532 3854 101579 XOR\n2 1 101579 99531 123928 XOR\n2 1 62531 3853 101578 XOR\n2 1 101578 99530 123927 XOR\n2 1 62530 3852 101577 XOR\n2 1 101577 99529 123926 XOR\n2 1 62529 3851 101576 XOR\n2 1 101576 99528 123925 XOR\n2 1 62528 3850 101575 XOR\n2 1 101575 99527 123924 XOR\n2 1 62527 3849 101574 XOR\n2 1 101574 99526 123923 XOR\n2 1 62526 3848 101573 XOR\n2 1 101573 99525 123922 XOR\n2 1 62525 3847 101572 XOR\n2 1 101572 99524 123921 XOR\n2 1 62524 3846 101571 XOR\n2 1 101571 99523 123920 XOR\n2 1 62523 3845 101570 XOR\n2 1 101570 99522 123919 XOR\n2 1 62522 3844 101569 XOR\n2 1 101569 99521 123918 XOR\n2 1 62521 3843 101568 XOR\n2 1 101568 99520 123917 XOR\n2 1 62520 3842 101567 XOR\n2 1 101567 99519 123916 XOR\n2 1 62519 3841 101566 XOR\n2 1 101566 99518 123915 XOR\n2 1 62518 3840 101565 XOR\n2 1 101565 99517 123914 XOR\n2 1 62517 3871 101564 XOR\n2 1 101564 99516 123913 XOR\n2 1 62516 3870 101563 XOR\n2 1 101563 99515 123912 XOR\n2 1 62515 3869 101562 XOR\n2 1 101562 99514 123911 XOR\n2 1 62514 3868 101561 XOR\n2 1 101561 99513 123910 XOR\n2 1 62513 3867 101560 XOR\n2 1 101560 99512 123909 XOR\n2 1 62512 3866 101559 XOR\n2 1 101559 99511 123908 XOR\n2 1 62511 3865 101558 XOR\n2 1 101558 99510 123877 AND\n2 1 101558 99510 97462 XOR\n2 1 97462 95414 123753 AND\n2 1 97462 95414 91377 XOR\n2 1 4384 91377 108978 AND\n2 1 4384 91377 3808 XOR\n2 1 4385 108978 17317 XOR\n2 1 91377 85233 109040 AND\n2 1 91377 85233 4256 XOR\n2 1 85234 109040 17408 XOR\n2 1 32 3808 122804 AND\n2 1 32 3808 95286 XOR\n2 1 33 122804 41615 XOR\n2 1 95415 123753 43363 XOR\n2 1 123908 123877 97463 XOR\n2 1 97463 95415 123784 XOR\n2 1 123784 123753 93372 XOR\n1 1 93372 91378 INV\n2 1 4385 91378 109009 XOR\n2 1 109009 108978 3809 XOR\n2 1 91378 108978 17318 XOR\n2 1 17317 17318 17316 AND\n2 1 17316 108978 108979 XOR\n2 1 4386 108979 17320 XOR\n2 1 91378 85234 109071 XOR\n2 1 109071 109040 4257 XOR\n2 1 91378 109040 17407 XOR\n2 1 17407 17408 17406 AND\n2 1 17406 109040 109041 XOR\n2 1 85235 109041 17411 XOR\n2 1 33 3809 122835 XOR\n2 1 122835 122804 95287 XOR\n2 1 3809 122804 41616 XOR\n",
"2 1 41615 41616 41614 AND\n2 1 41614 122804 122805 XOR\n2 1 34 122805 41618 XOR\n2 1 97463 123753 43362 XOR\n2 1 43362 43363 43361 AND\n2 1 43361 123753 123754 XOR\n2 1 95416 123754 43366 XOR\n2 1 101559 123877 43542 XOR\n2 1 99511 123877 43543 XOR\n2 1 43542 43543 43541 AND\n2 1 43541 123877 123878 XOR\n2 1 123909 123878 97464 XOR\n2 1 97464 95416 123785 XOR\n2 1 123785 123754 93373 XOR\n1 1 93373 43348 INV\n2 1 43348 93372 91379 XOR\n2 1 4386 91379 109010 XOR\n2 1 109010 108979 3810 XOR\n2 1 91379 108979 17321 XOR\n2 1 17320 17321 17319 AND\n2 1 17319 108979 108980 XOR\n2 1 4387 108980 17323 XOR\n2 1 91379 85235 109072 XOR\n2 1 109072 109041 4258 XOR\n2 1 91379 109041 17410 XOR\n2 1 17410 17411 17409 AND\n2 1 17409 109041 109042 XOR\n2 1 85236 109042 17414 XOR\n2 1 34 3810 122836 XOR\n2 1 122836 122805 95288 XOR\n2 1 3810 122805 41619 XOR\n2 1 41618 41619 41617 AND\n2 1 41617 122805 122806 XOR\n2 1 35 122806 41621 XOR\n2 1 93373 93372 43266 XOR\n2 1 43266 91378 43265 AND\n2 1 43265 93372 43335 XOR\n1 1 43335 43269 INV\n2 1 97464 123754 43365 XOR\n2 1 43365 43366 43364 AND\n2 1 43364 123754 123755 XOR\n2 1 95417 123755 43369 XOR\n2 1 101560 123878 43545 XOR\n2 1 99512 123878 43546 XOR\n2 1 43545 43546 43544 AND\n2 1 43544 123878 123879 XOR\n2 1 123910 123879 97465 XOR\n2 1 97465 95417 123786 XOR\n2 1 123786 123755 93374 XOR\n1 1 93374 43349 INV\n2 1 43349 43335 91380 XOR\n2 1 4387 91380 109011 XOR\n2 1 109011 108980 3811 XOR\n2 1 91380 108980 17324 XOR\n2 1 17323 17324 17322 AND\n2 1 17322 108980 108981 XOR\n2 1 4388 108981 17326 XOR\n2 1 91380 85236 109073 XOR\n2 1 109073 109042 4259 XOR\n2 1 91380 109042 17413 XOR\n2 1 17413 17414 17412 AND\n2 1 17412 109042 109043 XOR\n2 1 85237 109043 17417 XOR\n2 1 35 3811 122837 XOR\n2 1 122837 122806 95289 XOR\n2 1 3811 122806 41622 XOR\n2 1 41621 41622 41620 AND\n2 1 41620 122806 122807 XOR\n2 1 36 122807 41624 XOR\n2 1 93374 43335 43268 XOR\n2 1 43268 43269 43267 AND\n2 1 43267 43335 43336 XOR\n1 1 43336 43272 INV\n2 1 97465 123755 43368 XOR\n2 1 43368 43369 43367 AND\n2 1 43367 123755 123756 XOR\n2 1 95418 123756 43372 XOR\n2 1 101561 123879 43548 XOR\n2 1 99513 123879 43549 XOR\n2 1 43548 43549 43547 AND\n2 1 43547 123879 123880 XOR\n2 1 123911 123880 97466 XOR\n2 1 97466 95418 123787 XOR\n2 1 123787 123756 93375 XOR\n1 1 93375 43350 INV\n2 1 43350 43336 91381 XOR\n2 1 4388 91381 109012 XOR\n2 1 109012 108981 3812 XOR\n2 1 91381 108981 17327 XOR\n2 1 17326 17327 17325 AND\n2 1 17325 108981 108982 XOR\n2 1 4389 108982 17329 XOR\n2 1 91381 85237 109074 XOR\n2 1 109074 109043 4260 XOR\n2 1 91381 109043 17416 XOR\n2 1 17416 17417 17415 AND\n2 1 17415 109043 109044 XOR\n2 1 85238 109044 17420 XOR\n2 1 36 3812 122838 XOR\n2 1 122838 122807 95290 XOR\n2 1 3812 122807 41625 XOR\n2 1 41624 41625 41623 AND\n2 1 41623 122807 122808 XOR\n2 1 37 122808 41627 XOR\n2 1 93375 43336 43271 XOR\n2 1 43271 43272 43270 AND\n2 1 43270 43336 43337 XOR\n1 1 43337 43275 INV\n2 1 97466 123756 43371 XOR\n2 1 43371 43372 43370 AND\n2 1 43370 123756 123757 XOR\n2 1 95419 123757 43375 XOR\n2 1 101562 123880 43551 XOR\n2 1 99514 123880 43552 XOR\n2 1 43551 43552 43550 AND\n2 1 43550 123880 123881 XOR\n2 1 123912 123881 97467 XOR\n2 1 97467 95419 123788 XOR\n2 1 123788 123757 93376 XOR\n1 1 93376 43351 INV\n2 1 43351 43337 91382 XOR\n2 1 4389 91382 109013 XOR\n2 1 109013 108982 3813 XOR\n2 1 91382 108982 17330 XOR\n2 1 17329 17330 17328 AND\n2 1 17328 108982 108983 XOR\n2 1 4390 108983 17332 XOR\n2 1 91382 85238 109075 XOR\n",
"2 1 109075 109044 4261 XOR\n2 1 91382 109044 17419 XOR\n2 1 17419 17420 17418 AND\n2 1 17418 109044 109045 XOR\n2 1 85239 109045 17423 XOR\n2 1 37 3813 122839 XOR\n2 1 122839 122808 95291 XOR\n2 1 3813 122808 41628 XOR\n2 1 41627 41628 41626 AND\n2 1 41626 122808 122809 XOR\n2 1 38 122809 41630 XOR\n2 1 93376 43337 43274 XOR\n2 1 43274 43275 43273 AND\n2 1 43273 43337 43277 XOR\n2 1 97467 123757 43374 XOR\n2 1 43374 43375 43373 AND\n2 1 43373 123757 123758 XOR\n2 1 95420 123758 43378 XOR\n2 1 101563 123881 43554 XOR\n2 1 99515 123881 43555 XOR\n2 1 43554 43555 43553 AND\n2 1 43553 123881 123882 XOR\n2 1 123913 123882 97468 XOR\n2 1 97468 95420 123789 XOR\n2 1 123789 123758 93377 XOR\n2 1 93377 43277 91383 XOR\n2 1 91383 108983 17333 XOR\n2 1 17332 17333 17331 AND\n2 1 17331 108983 108984 XOR\n2 1 4391 108984 17335 XOR\n2 1 91383 85239 109076 XOR\n2 1 109076 109045 4262 XOR\n2 1 91383 109045 17422 XOR\n2 1 17422 17423 17421 AND\n2 1 17421 109045 109046 XOR\n2 1 85240 109046 17426 XOR\n2 1 4390 91383 109014 XOR\n2 1 109014 108983 3814 XOR\n2 1 3814 122809 41631 XOR\n2 1 41630 41631 41629 AND\n2 1 41629 122809 122810 XOR\n2 1 39 122810 41633 XOR\n2 1 38 3814 122840 XOR\n2 1 122840 122809 95292 XOR\n2 1 91383 43277 43276 AND\n2 1 43276 43277 43338 XOR\n1 1 43338 43280 INV\n2 1 97468 123758 43377 XOR\n2 1 43377 43378 43376 AND\n2 1 43376 123758 123759 XOR\n2 1 95421 123759 43381 XOR\n2 1 101564 123882 43557 XOR\n2 1 99516 123882 43558 XOR\n2 1 43557 43558 43556 AND\n2 1 43556 123882 123883 XOR\n2 1 123914 123883 97469 XOR\n2 1 97469 95421 123790 XOR\n2 1 123790 123759 93378 XOR\n1 1 93378 43352 INV\n2 1 43352 43338 91384 XOR\n2 1 4391 91384 109015 XOR\n2 1 109015 108984 3815 XOR\n2 1 91384 108984 17336 XOR\n2 1 17335 17336 17334 AND\n2 1 17334 108984 108985 XOR\n2 1 4392 108985 17338 XOR\n2 1 91384 85240 109077 XOR\n2 1 109077 109046 4263 XOR\n2 1 91384 109046 17425 XOR\n2 1 17425 17426 17424 AND\n2 1 17424 109046 109047 XOR\n2 1 85241 109047 17429 XOR\n2 1 39 3815 122841 XOR\n2 1 122841 122810 95293 XOR\n2 1 3815 122810 41634 XOR\n2 1 41633 41634 41632 AND\n2 1 41632 122810 122811 XOR\n2 1 40 122811 41636 XOR\n2 1 93378 43338 43279 XOR\n2 1 43279 43280 43278 AND\n2 1 43278 43338 43339 XOR\n1 1 43339 43283 INV\n2 1 97469 123759 43380 XOR\n2 1 43380 43381 43379 AND\n2 1 43379 123759 123760 XOR\n2 1 95422 123760 43384 XOR\n2 1 101565 123883 43560 XOR\n2 1 99517 123883 43561 XOR\n2 1 43560 43561 43559 AND\n2 1 43559 123883 123884 XOR\n2 1 123915 123884 97470 XOR\n2 1 97470 95422 123791 XOR\n2 1 123791 123760 93379 XOR\n1 1 93379 43353 INV\n2 1 43353 43339 91385 XOR\n2 1 4392 91385 109016 XOR\n2 1 109016 108985 3816 XOR\n2 1 91385 108985 17339 XOR\n2 1 17338 17339 17337 AND\n2 1 17337 108985 108986 XOR\n2 1 4393 108986 17341 XOR\n2 1 91385 85241 109078 XOR\n2 1 109078 109047 4264 XOR\n2 1 91385 109047 17428 XOR\n2 1 17428 17429 17427 AND\n2 1 17427 109047 109048 XOR\n2 1 85242 109048 17432 XOR\n2 1 40 3816 122842 XOR\n2 1 122842 122811 95294 XOR\n2 1 3816 122811 41637 XOR\n2 1 41636 41637 41635 AND\n2 1 41635 122811 122812 XOR\n2 1 41 122812 41639 XOR\n2 1 93379 43339 43282 XOR\n2 1 43282 43283 43281 AND\n2 1 43281 43339 43285 XOR\n2 1 97470 123760 43383 XOR\n2 1 43383 43384 43382 AND\n2 1 43382 123760 123761 XOR\n2 1 95423 123761 43387 XOR\n2 1 101566 123884 43563 XOR\n2 1 99518 123884 43564 XOR\n2 1 43563 43564 43562 AND\n2 1 43562 123884 123885 XOR\n2 1 123916 123885 97471 XOR\n2 1 97471 95423 123792 XOR\n2 1 123792 123761 93380 XOR\n2 1 93380 43285 91386 XOR\n",
"2 1 91386 108986 17342 XOR\n2 1 17341 17342 17340 AND\n2 1 17340 108986 108987 XOR\n2 1 4394 108987 17344 XOR\n2 1 91386 85242 109079 XOR\n2 1 109079 109048 4265 XOR\n2 1 91386 109048 17431 XOR\n2 1 17431 17432 17430 AND\n2 1 17430 109048 109049 XOR\n2 1 85243 109049 17435 XOR\n2 1 4393 91386 109017 XOR\n2 1 109017 108986 3817 XOR\n2 1 3817 122812 41640 XOR\n2 1 41639 41640 41638 AND\n2 1 41638 122812 122813 XOR\n2 1 42 122813 41642 XOR\n2 1 41 3817 122843 XOR\n2 1 122843 122812 95295 XOR\n2 1 91386 43285 43284 AND\n2 1 43284 43285 43340 XOR\n1 1 43340 43288 INV\n2 1 97471 123761 43386 XOR\n2 1 43386 43387 43385 AND\n2 1 43385 123761 123762 XOR\n2 1 95424 123762 43390 XOR\n2 1 101567 123885 43566 XOR\n2 1 99519 123885 43567 XOR\n2 1 43566 43567 43565 AND\n2 1 43565 123885 123886 XOR\n2 1 123917 123886 97472 XOR\n2 1 97472 95424 123793 XOR\n2 1 123793 123762 93381 XOR\n1 1 93381 43354 INV\n2 1 43354 43340 91387 XOR\n2 1 4394 91387 109018 XOR\n2 1 109018 108987 3818 XOR\n2 1 91387 108987 17345 XOR\n2 1 17344 17345 17343 AND\n2 1 17343 108987 108988 XOR\n2 1 4395 108988 17347 XOR\n2 1 91387 85243 109080 XOR\n2 1 109080 109049 4266 XOR\n2 1 91387 109049 17434 XOR\n2 1 17434 17435 17433 AND\n2 1 17433 109049 109050 XOR\n2 1 85244 109050 17438 XOR\n2 1 42 3818 122844 XOR\n2 1 122844 122813 95296 XOR\n2 1 3818 122813 41643 XOR\n2 1 41642 41643 41641 AND\n2 1 41641 122813 122814 XOR\n2 1 43 122814 41645 XOR\n2 1 93381 43340 43287 XOR\n2 1 43287 43288 43286 AND\n2 1 43286 43340 43290 XOR\n2 1 97472 123762 43389 XOR\n2 1 43389 43390 43388 AND\n2 1 43388 123762 123763 XOR\n2 1 95425 123763 43393 XOR\n2 1 101568 123886 43569 XOR\n2 1 99520 123886 43570 XOR\n2 1 43569 43570 43568 AND\n2 1 43568 123886 123887 XOR\n2 1 123918 123887 97473 XOR\n2 1 97473 95425 123794 XOR\n2 1 123794 123763 93382 XOR\n2 1 93382 43290 91388 XOR\n2 1 91388 108988 17348 XOR\n2 1 17347 17348 17346 AND\n2 1 17346 108988 108989 XOR\n2 1 4396 108989 17350 XOR\n2 1 91388 85244 109081 XOR\n2 1 109081 109050 4267 XOR\n2 1 91388 109050 17437 XOR\n2 1 17437 17438 17436 AND\n2 1 17436 109050 109051 XOR\n2 1 85245 109051 17441 XOR\n2 1 4395 91388 109019 XOR\n2 1 109019 108988 3819 XOR\n2 1 3819 122814 41646 XOR\n2 1 41645 41646 41644 AND\n2 1 41644 122814 122815 XOR\n2 1 44 122815 41648 XOR\n2 1 43 3819 122845 XOR\n2 1 122845 122814 95297 XOR\n2 1 91388 43290 43289 AND\n2 1 43289 43290 43292 XOR\n2 1 97473 123763 43392 XOR\n2 1 43392 43393 43391 AND\n2 1 43391 123763 123764 XOR\n2 1 95426 123764 43396 XOR\n2 1 101569 123887 43572 XOR\n2 1 99521 123887 43573 XOR\n2 1 43572 43573 43571 AND\n2 1 43571 123887 123888 XOR\n2 1 123919 123888 97474 XOR\n2 1 97474 95426 123795 XOR\n2 1 123795 123764 93383 XOR\n2 1 93383 43292 91389 XOR\n2 1 91389 108989 17351 XOR\n2 1 17350 17351 17349 AND\n2 1 17349 108989 108990 XOR\n2 1 4397 108990 17353 XOR\n2 1 91389 85245 109082 XOR\n2 1 109082 109051 4268 XOR\n2 1 91389 109051 17440 XOR\n2 1 17440 17441 17439 AND\n2 1 17439 109051 109052 XOR\n2 1 85246 109052 17444 XOR\n2 1 4396 91389 109020 XOR\n2 1 109020 108989 3820 XOR\n2 1 3820 122815 41649 XOR\n2 1 41648 41649 41647 AND\n2 1 41647 122815 122816 XOR\n2 1 45 122816 41651 XOR\n2 1 44 3820 122846 XOR\n2 1 122846 122815 95298 XOR\n2 1 91389 43292 43291 AND\n2 1 43291 43292 43294 XOR\n2 1 97474 123764 43395 XOR\n2 1 43395 43396 43394 AND\n2 1 43394 123764 123765 XOR\n2 1 95427 123765 43399 XOR\n2 1 101570 123888 43575 XOR\n2 1 99522 123888 43576 XOR\n2 1 43575 43576 43574 AND\n2 1 43574 123888 123889 XOR\n2 1 123920 123889 97475 XOR\n",
"2 1 97475 95427 123796 XOR\n2 1 123796 123765 93384 XOR\n2 1 93384 43294 91390 XOR\n2 1 91390 108990 17354 XOR\n2 1 17353 17354 17352 AND\n2 1 17352 108990 108991 XOR\n2 1 4398 108991 17356 XOR\n2 1 91390 85246 109083 XOR\n2 1 109083 109052 4269 XOR\n2 1 91390 109052 17443 XOR\n2 1 17443 17444 17442 AND\n2 1 17442 109052 109053 XOR\n2 1 85247 109053 17447 XOR\n2 1 4397 91390 109021 XOR\n2 1 109021 108990 3821 XOR\n2 1 3821 122816 41652 XOR\n2 1 41651 41652 41650 AND\n2 1 41650 122816 122817 XOR\n2 1 46 122817 41654 XOR\n2 1 45 3821 122847 XOR\n2 1 122847 122816 95299 XOR\n2 1 91390 43294 43293 AND\n2 1 43293 43294 43296 XOR\n2 1 97475 123765 43398 XOR\n2 1 43398 43399 43397 AND\n2 1 43397 123765 123766 XOR\n2 1 95428 123766 43402 XOR\n2 1 101571 123889 43578 XOR\n2 1 99523 123889 43579 XOR\n2 1 43578 43579 43577 AND\n2 1 43577 123889 123890 XOR\n2 1 123921 123890 97476 XOR\n2 1 97476 95428 123797 XOR\n2 1 123797 123766 93385 XOR\n2 1 93385 43296 91391 XOR\n2 1 91391 108991 17357 XOR\n2 1 17356 17357 17355 AND\n2 1 17355 108991 108992 XOR\n2 1 4399 108992 17359 XOR\n2 1 91391 85247 109084 XOR\n2 1 109084 109053 4270 XOR\n2 1 91391 109053 17446 XOR\n2 1 17446 17447 17445 AND\n2 1 17445 109053 109054 XOR\n2 1 85248 109054 17450 XOR\n2 1 4398 91391 109022 XOR\n2 1 109022 108991 3822 XOR\n2 1 3822 122817 41655 XOR\n2 1 41654 41655 41653 AND\n2 1 41653 122817 122818 XOR\n2 1 47 122818 41657 XOR\n2 1 46 3822 122848 XOR\n2 1 122848 122817 95300 XOR\n2 1 91391 43296 43295 AND\n2 1 43295 43296 43341 XOR\n1 1 43341 43299 INV\n2 1 97476 123766 43401 XOR\n2 1 43401 43402 43400 AND\n2 1 43400 123766 123767 XOR\n2 1 95429 123767 43405 XOR\n2 1 101572 123890 43581 XOR\n2 1 99524 123890 43582 XOR\n2 1 43581 43582 43580 AND\n2 1 43580 123890 123891 XOR\n2 1 123922 123891 97477 XOR\n2 1 97477 95429 123798 XOR\n2 1 123798 123767 93386 XOR\n1 1 93386 43355 INV\n2 1 43355 43341 91392 XOR\n2 1 4399 91392 109023 XOR\n2 1 109023 108992 3823 XOR\n2 1 91392 108992 17360 XOR\n2 1 17359 17360 17358 AND\n2 1 17358 108992 108993 XOR\n2 1 4400 108993 17362 XOR\n2 1 91392 85248 109085 XOR\n2 1 109085 109054 4271 XOR\n2 1 91392 109054 17449 XOR\n2 1 17449 17450 17448 AND\n2 1 17448 109054 109055 XOR\n2 1 85249 109055 17453 XOR\n2 1 47 3823 122849 XOR\n2 1 122849 122818 95301 XOR\n2 1 3823 122818 41658 XOR\n2 1 41657 41658 41656 AND\n2 1 41656 122818 122819 XOR\n2 1 48 122819 41660 XOR\n2 1 93386 43341 43298 XOR\n2 1 43298 43299 43297 AND\n2 1 43297 43341 43342 XOR\n1 1 43342 43302 INV\n2 1 97477 123767 43404 XOR\n2 1 43404 43405 43403 AND\n2 1 43403 123767 123768 XOR\n2 1 95430 123768 43408 XOR\n2 1 101573 123891 43584 XOR\n2 1 99525 123891 43585 XOR\n2 1 43584 43585 43583 AND\n2 1 43583 123891 123892 XOR\n2 1 123923 123892 97478 XOR\n2 1 97478 95430 123799 XOR\n2 1 123799 123768 93387 XOR\n1 1 93387 43356 INV\n2 1 43356 43342 91393 XOR\n2 1 4400 91393 109024 XOR\n2 1 109024 108993 3824 XOR\n2 1 91393 108993 17363 XOR\n2 1 17362 17363 17361 AND\n2 1 17361 108993 108994 XOR\n2 1 4401 108994 17365 XOR\n2 1 91393 85249 109086 XOR\n2 1 109086 109055 4272 XOR\n2 1 91393 109055 17452 XOR\n2 1 17452 17453 17451 AND\n2 1 17451 109055 109056 XOR\n2 1 85250 109056 17456 XOR\n2 1 48 3824 122850 XOR\n2 1 122850 122819 95302 XOR\n2 1 3824 122819 41661 XOR\n2 1 41660 41661 41659 AND\n2 1 41659 122819 122820 XOR\n2 1 49 122820 41663 XOR\n2 1 93387 43342 43301 XOR\n2 1 43301 43302 43300 AND\n2 1 43300 43342 43304 XOR\n2 1 97478 123768 43407 XOR\n2 1 43407 43408 43406 AND\n2 1 43406 123768 123769 XOR\n",
"2 1 95431 123769 43411 XOR\n2 1 101574 123892 43587 XOR\n2 1 99526 123892 43588 XOR\n2 1 43587 43588 43586 AND\n2 1 43586 123892 123893 XOR\n2 1 123924 123893 97479 XOR\n2 1 97479 95431 123800 XOR\n2 1 123800 123769 93388 XOR\n2 1 93388 43304 91394 XOR\n2 1 91394 108994 17366 XOR\n2 1 17365 17366 17364 AND\n2 1 17364 108994 108995 XOR\n2 1 4402 108995 17368 XOR\n2 1 91394 85250 109087 XOR\n2 1 109087 109056 4273 XOR\n2 1 91394 109056 17455 XOR\n2 1 17455 17456 17454 AND\n2 1 17454 109056 109057 XOR\n2 1 85251 109057 17459 XOR\n2 1 4401 91394 109025 XOR\n2 1 109025 108994 3825 XOR\n2 1 3825 122820 41664 XOR\n2 1 41663 41664 41662 AND\n2 1 41662 122820 122821 XOR\n2 1 50 122821 41666 XOR\n2 1 49 3825 122851 XOR\n2 1 122851 122820 95303 XOR\n2 1 91394 43304 43303 AND\n2 1 43303 43304 43306 XOR\n2 1 97479 123769 43410 XOR\n2 1 43410 43411 43409 AND\n2 1 43409 123769 123770 XOR\n2 1 95432 123770 43414 XOR\n2 1 101575 123893 43590 XOR\n2 1 99527 123893 43591 XOR\n2 1 43590 43591 43589 AND\n2 1 43589 123893 123894 XOR\n2 1 123925 123894 97480 XOR\n2 1 97480 95432 123801 XOR\n2 1 123801 123770 93389 XOR\n2 1 93389 43306 91395 XOR\n2 1 91395 108995 17369 XOR\n2 1 17368 17369 17367 AND\n2 1 17367 108995 108996 XOR\n2 1 4403 108996 17371 XOR\n2 1 91395 85251 109088 XOR\n2 1 109088 109057 4274 XOR\n2 1 91395 109057 17458 XOR\n2 1 17458 17459 17457 AND\n2 1 17457 109057 109058 XOR\n2 1 85252 109058 17462 XOR\n2 1 4402 91395 109026 XOR\n2 1 109026 108995 3826 XOR\n2 1 3826 122821 41667 XOR\n2 1 41666 41667 41665 AND\n2 1 41665 122821 122822 XOR\n2 1 51 122822 41669 XOR\n2 1 50 3826 122852 XOR\n2 1 122852 122821 95304 XOR\n2 1 91395 43306 43305 AND\n2 1 43305 43306 43308 XOR\n2 1 97480 123770 43413 XOR\n2 1 43413 43414 43412 AND\n2 1 43412 123770 123771 XOR\n2 1 95433 123771 43417 XOR\n2 1 101576 123894 43593 XOR\n2 1 99528 123894 43594 XOR\n2 1 43593 43594 43592 AND\n2 1 43592 123894 123895 XOR\n2 1 123926 123895 97481 XOR\n2 1 97481 95433 123802 XOR\n2 1 123802 123771 93390 XOR\n2 1 93390 43308 91396 XOR\n2 1 91396 108996 17372 XOR\n2 1 17371 17372 17370 AND\n2 1 17370 108996 108997 XOR\n2 1 4404 108997 17374 XOR\n2 1 91396 85252 109089 XOR\n2 1 109089 109058 4275 XOR\n2 1 91396 109058 17461 XOR\n2 1 17461 17462 17460 AND\n2 1 17460 109058 109059 XOR\n2 1 85253 109059 17465 XOR\n2 1 4403 91396 109027 XOR\n2 1 109027 108996 3827 XOR\n2 1 3827 122822 41670 XOR\n2 1 41669 41670 41668 AND\n2 1 41668 122822 122823 XOR\n2 1 52 122823 41672 XOR\n2 1 51 3827 122853 XOR\n2 1 122853 122822 95305 XOR\n2 1 91396 43308 43307 AND\n2 1 43307 43308 43343 XOR\n1 1 43343 43311 INV\n2 1 97481 123771 43416 XOR\n2 1 43416 43417 43415 AND\n2 1 43415 123771 123772 XOR\n2 1 95434 123772 43420 XOR\n2 1 101577 123895 43596 XOR\n2 1 99529 123895 43597 XOR\n2 1 43596 43597 43595 AND\n2 1 43595 123895 123896 XOR\n2 1 123927 123896 97482 XOR\n2 1 97482 95434 123803 XOR\n2 1 123803 123772 93391 XOR\n1 1 93391 43357 INV\n2 1 43357 43343 91397 XOR\n2 1 4404 91397 109028 XOR\n2 1 109028 108997 3828 XOR\n2 1 91397 108997 17375 XOR\n2 1 17374 17375 17373 AND\n2 1 17373 108997 108998 XOR\n2 1 4405 108998 17377 XOR\n2 1 91397 85253 109090 XOR\n2 1 109090 109059 4276 XOR\n2 1 91397 109059 17464 XOR\n2 1 17464 17465 17463 AND\n2 1 17463 109059 109060 XOR\n2 1 85254 109060 17468 XOR\n2 1 52 3828 122854 XOR\n2 1 122854 122823 95306 XOR\n2 1 3828 122823 41673 XOR\n2 1 41672 41673 41671 AND\n2 1 41671 122823 122824 XOR\n2 1 53 122824 41675 XOR\n2 1 93391 43343 43310 XOR\n2 1 43310 43311 43309 AND\n2 1 43309 43343 43344 XOR\n",
"1 1 43344 43314 INV\n2 1 97482 123772 43419 XOR\n2 1 43419 43420 43418 AND\n2 1 43418 123772 123773 XOR\n2 1 95435 123773 43423 XOR\n2 1 101578 123896 43599 XOR\n2 1 99530 123896 43600 XOR\n2 1 43599 43600 43598 AND\n2 1 43598 123896 123897 XOR\n2 1 123928 123897 97483 XOR\n2 1 97483 95435 123804 XOR\n2 1 123804 123773 93392 XOR\n1 1 93392 43358 INV\n2 1 43358 43344 91398 XOR\n2 1 4405 91398 109029 XOR\n2 1 109029 108998 3829 XOR\n2 1 91398 108998 17378 XOR\n2 1 17377 17378 17376 AND\n2 1 17376 108998 108999 XOR\n2 1 4406 108999 17380 XOR\n2 1 91398 85254 109091 XOR\n2 1 109091 109060 4277 XOR\n2 1 91398 109060 17467 XOR\n2 1 17467 17468 17466 AND\n2 1 17466 109060 109061 XOR\n2 1 85255 109061 17471 XOR\n2 1 53 3829 122855 XOR\n2 1 122855 122824 95307 XOR\n2 1 3829 122824 41676 XOR\n2 1 41675 41676 41674 AND\n2 1 41674 122824 122825 XOR\n2 1 54 122825 41678 XOR\n2 1 93392 43344 43313 XOR\n2 1 43313 43314 43312 AND\n2 1 43312 43344 43316 XOR\n2 1 97483 123773 43422 XOR\n2 1 43422 43423 43421 AND\n2 1 43421 123773 123774 XOR\n2 1 95436 123774 43426 XOR\n2 1 101579 123897 43602 XOR\n2 1 99531 123897 43603 XOR\n2 1 43602 43603 43601 AND\n2 1 43601 123897 123898 XOR\n2 1 123929 123898 97484 XOR\n2 1 97484 95436 123805 XOR\n2 1 123805 123774 93393 XOR\n2 1 93393 43316 91399 XOR\n2 1 91399 108999 17381 XOR\n2 1 17380 17381 17379 AND\n2 1 17379 108999 109000 XOR\n2 1 4407 109000 17383 XOR\n2 1 91399 85255 109092 XOR\n2 1 109092 109061 4278 XOR\n2 1 91399 109061 17470 XOR\n2 1 17470 17471 17469 AND\n2 1 17469 109061 109062 XOR\n2 1 85256 109062 17474 XOR\n2 1 4406 91399 109030 XOR\n2 1 109030 108999 3830 XOR\n2 1 3830 122825 41679 XOR\n2 1 41678 41679 41677 AND\n2 1 41677 122825 122826 XOR\n2 1 55 122826 41681 XOR\n2 1 54 3830 122856 XOR\n2 1 122856 122825 95308 XOR\n2 1 91399 43316 43315 AND\n2 1 43315 43316 43318 XOR\n2 1 97484 123774 43425 XOR\n2 1 43425 43426 43424 AND\n2 1 43424 123774 123775 XOR\n2 1 95437 123775 43429 XOR\n2 1 101580 123898 43605 XOR\n2 1 99532 123898 43606 XOR\n2 1 43605 43606 43604 AND\n2 1 43604 123898 123899 XOR\n2 1 123930 123899 97485 XOR\n2 1 97485 95437 123806 XOR\n2 1 123806 123775 93394 XOR\n2 1 93394 43318 91400 XOR\n2 1 91400 109000 17384 XOR\n2 1 17383 17384 17382 AND\n2 1 17382 109000 109001 XOR\n2 1 4408 109001 17386 XOR\n2 1 91400 85256 109093 XOR\n2 1 109093 109062 4279 XOR\n2 1 91400 109062 17473 XOR\n2 1 17473 17474 17472 AND\n2 1 17472 109062 109063 XOR\n2 1 85257 109063 17477 XOR\n2 1 4407 91400 109031 XOR\n2 1 109031 109000 3831 XOR\n2 1 3831 122826 41682 XOR\n2 1 41681 41682 41680 AND\n2 1 41680 122826 122827 XOR\n2 1 56 122827 41684 XOR\n2 1 55 3831 122857 XOR\n2 1 122857 122826 95309 XOR\n2 1 91400 43318 43317 AND\n2 1 43317 43318 43320 XOR\n2 1 97485 123775 43428 XOR\n2 1 43428 43429 43427 AND\n2 1 43427 123775 123776 XOR\n2 1 95438 123776 43432 XOR\n2 1 101581 123899 43608 XOR\n2 1 99533 123899 43609 XOR\n2 1 43608 43609 43607 AND\n2 1 43607 123899 123900 XOR\n2 1 123931 123900 97486 XOR\n2 1 97486 95438 123807 XOR\n2 1 123807 123776 93395 XOR\n2 1 93395 43320 91401 XOR\n2 1 91401 109001 17387 XOR\n2 1 17386 17387 17385 AND\n2 1 17385 109001 109002 XOR\n2 1 4409 109002 17389 XOR\n2 1 91401 85257 109094 XOR\n2 1 109094 109063 4280 XOR\n2 1 91401 109063 17476 XOR\n2 1 17476 17477 17475 AND\n2 1 17475 109063 109064 XOR\n2 1 85258 109064 17480 XOR\n2 1 4408 91401 109032 XOR\n2 1 109032 109001 3832 XOR\n2 1 3832 122827 41685 XOR\n2 1 41684 41685 41683 AND\n2 1 41683 122827 122828 XOR\n2 1 57 122828 41687 XOR\n2 1 56 3832 122858 XOR\n",
"2 1 122858 122827 95310 XOR\n2 1 91401 43320 43319 AND\n2 1 43319 43320 43322 XOR\n2 1 97486 123776 43431 XOR\n2 1 43431 43432 43430 AND\n2 1 43430 123776 123777 XOR\n2 1 95439 123777 43435 XOR\n2 1 101582 123900 43611 XOR\n2 1 99534 123900 43612 XOR\n2 1 43611 43612 43610 AND\n2 1 43610 123900 123901 XOR\n2 1 123932 123901 97487 XOR\n2 1 97487 95439 123808 XOR\n2 1 123808 123777 93396 XOR\n2 1 93396 43322 91402 XOR\n2 1 91402 109002 17390 XOR\n2 1 17389 17390 17388 AND\n2 1 17388 109002 109003 XOR\n2 1 4410 109003 17392 XOR\n2 1 91402 85258 109095 XOR\n2 1 109095 109064 4281 XOR\n2 1 91402 109064 17479 XOR\n2 1 17479 17480 17478 AND\n2 1 17478 109064 109065 XOR\n2 1 85259 109065 17483 XOR\n2 1 4409 91402 109033 XOR\n2 1 109033 109002 3833 XOR\n2 1 3833 122828 41688 XOR\n2 1 41687 41688 41686 AND\n2 1 41686 122828 122829 XOR\n2 1 58 122829 41690 XOR\n2 1 57 3833 122859 XOR\n2 1 122859 122828 95311 XOR\n2 1 91402 43322 43321 AND\n2 1 43321 43322 43345 XOR\n1 1 43345 43325 INV\n2 1 97487 123777 43434 XOR\n2 1 43434 43435 43433 AND\n2 1 43433 123777 123778 XOR\n2 1 95440 123778 43438 XOR\n2 1 101583 123901 43614 XOR\n2 1 99535 123901 43615 XOR\n2 1 43614 43615 43613 AND\n2 1 43613 123901 123902 XOR\n2 1 123933 123902 97488 XOR\n2 1 97488 95440 123809 XOR\n2 1 123809 123778 93397 XOR\n1 1 93397 43359 INV\n2 1 43359 43345 91403 XOR\n2 1 4410 91403 109034 XOR\n2 1 109034 109003 3834 XOR\n2 1 91403 109003 17393 XOR\n2 1 17392 17393 17391 AND\n2 1 17391 109003 109004 XOR\n2 1 4411 109004 17395 XOR\n2 1 91403 85259 109096 XOR\n2 1 109096 109065 4282 XOR\n2 1 91403 109065 17482 XOR\n2 1 17482 17483 17481 AND\n2 1 17481 109065 109066 XOR\n2 1 85260 109066 17486 XOR\n2 1 58 3834 122860 XOR\n2 1 122860 122829 95312 XOR\n2 1 3834 122829 41691 XOR\n2 1 41690 41691 41689 AND\n2 1 41689 122829 122830 XOR\n2 1 59 122830 41693 XOR\n2 1 93397 43345 43324 XOR\n2 1 43324 43325 43323 AND\n2 1 43323 43345 43327 XOR\n2 1 97488 123778 43437 XOR\n2 1 43437 43438 43436 AND\n2 1 43436 123778 123779 XOR\n2 1 95441 123779 43441 XOR\n2 1 101584 123902 43617 XOR\n2 1 99536 123902 43618 XOR\n2 1 43617 43618 43616 AND\n2 1 43616 123902 123903 XOR\n2 1 123934 123903 97489 XOR\n2 1 97489 95441 123810 XOR\n2 1 123810 123779 93398 XOR\n2 1 93398 43327 91404 XOR\n2 1 91404 109004 17396 XOR\n2 1 17395 17396 17394 AND\n2 1 17394 109004 109005 XOR\n2 1 4412 109005 17398 XOR\n2 1 91404 85260 109097 XOR\n2 1 109097 109066 4283 XOR\n2 1 91404 109066 17485 XOR\n2 1 17485 17486 17484 AND\n2 1 17484 109066 109067 XOR\n2 1 85261 109067 17489 XOR\n2 1 4411 91404 109035 XOR\n2 1 109035 109004 3835 XOR\n2 1 3835 122830 41694 XOR\n2 1 41693 41694 41692 AND\n2 1 41692 122830 122831 XOR\n2 1 60 122831 41696 XOR\n2 1 59 3835 122861 XOR\n2 1 122861 122830 95313 XOR\n2 1 91404 43327 43326 AND\n2 1 43326 43327 43329 XOR\n2 1 97489 123779 43440 XOR\n2 1 43440 43441 43439 AND\n2 1 43439 123779 123780 XOR\n2 1 95442 123780 43444 XOR\n2 1 101585 123903 43620 XOR\n2 1 99537 123903 43621 XOR\n2 1 43620 43621 43619 AND\n2 1 43619 123903 123904 XOR\n2 1 123935 123904 97490 XOR\n2 1 97490 95442 123811 XOR\n2 1 123811 123780 93399 XOR\n2 1 93399 43329 91405 XOR\n2 1 91405 109005 17399 XOR\n2 1 17398 17399 17397 AND\n2 1 17397 109005 109006 XOR\n2 1 4413 109006 17401 XOR\n2 1 91405 85261 109098 XOR\n2 1 109098 109067 4284 XOR\n2 1 91405 109067 17488 XOR\n2 1 17488 17489 17487 AND\n2 1 17487 109067 109068 XOR\n2 1 85262 109068 17492 XOR\n2 1 4412 91405 109036 XOR\n2 1 109036 109005 3836 XOR\n2 1 3836 122831 41697 XOR\n2 1 41696 41697 41695 AND\n",
"2 1 41695 122831 122832 XOR\n2 1 61 122832 41699 XOR\n2 1 60 3836 122862 XOR\n2 1 122862 122831 95314 XOR\n2 1 91405 43329 43328 AND\n2 1 43328 43329 43346 XOR\n1 1 43346 43332 INV\n2 1 97490 123780 43443 XOR\n2 1 43443 43444 43442 AND\n2 1 43442 123780 123781 XOR\n2 1 95443 123781 43447 XOR\n2 1 101586 123904 43623 XOR\n2 1 99538 123904 43624 XOR\n2 1 43623 43624 43622 AND\n2 1 43622 123904 123905 XOR\n2 1 123936 123905 97491 XOR\n2 1 97491 95443 123812 XOR\n2 1 123812 123781 93400 XOR\n1 1 93400 43360 INV\n2 1 43360 43346 91406 XOR\n2 1 4413 91406 109037 XOR\n2 1 109037 109006 3837 XOR\n2 1 91406 109006 17402 XOR\n2 1 17401 17402 17400 AND\n2 1 17400 109006 109007 XOR\n2 1 4414 109007 17404 XOR\n2 1 91406 85262 109099 XOR\n2 1 109099 109068 4285 XOR\n2 1 91406 109068 17491 XOR\n2 1 17491 17492 17490 AND\n2 1 17490 109068 109069 XOR\n2 1 85263 109069 17495 XOR\n2 1 61 3837 122863 XOR\n2 1 122863 122832 95315 XOR\n2 1 3837 122832 41700 XOR\n2 1 41699 41700 41698 AND\n2 1 41698 122832 122833 XOR\n2 1 62 122833 41702 XOR\n2 1 93400 43346 43331 XOR\n2 1 43331 43332 43330 AND\n2 1 43330 43346 43334 XOR\n2 1 97491 123781 43446 XOR\n2 1 43446 43447 43445 AND\n2 1 43445 123781 123782 XOR\n2 1 95444 123782 43450 XOR\n2 1 101587 123905 43626 XOR\n2 1 99539 123905 43627 XOR\n2 1 43626 43627 43625 AND\n2 1 43625 123905 123906 XOR\n2 1 123937 123906 97492 XOR\n2 1 97492 95444 123813 XOR\n2 1 123813 123782 93401 XOR\n2 1 93401 43334 91407 XOR\n2 1 91407 109007 17405 XOR\n2 1 17404 17405 17403 AND\n2 1 17403 109007 109008 XOR\n2 1 91407 85263 109100 XOR\n2 1 109100 109069 4286 XOR\n2 1 91407 109069 17494 XOR\n2 1 17494 17495 17493 AND\n2 1 17493 109069 109070 XOR\n2 1 4414 91407 109038 XOR\n2 1 109038 109007 3838 XOR\n2 1 3838 122833 41703 XOR\n2 1 41702 41703 41701 AND\n2 1 41701 122833 122834 XOR\n2 1 62 3838 122864 XOR\n2 1 122864 122833 95316 XOR\n2 1 91407 43334 43333 AND\n2 1 43333 43334 43347 XOR\n2 1 97492 123782 43449 XOR\n2 1 43449 43450 43448 AND\n2 1 43448 123782 123783 XOR\n2 1 101588 123906 43629 XOR\n2 1 99540 123906 43630 XOR\n2 1 43629 43630 43628 AND\n2 1 43628 123906 123907 XOR\n2 1 123938 123907 97493 XOR\n2 1 97493 95445 123814 XOR\n2 1 123814 123783 93402 XOR\n2 1 93402 43347 91408 XOR\n2 1 4415 91408 109039 XOR\n2 1 109039 109008 3839 XOR\n2 1 91408 85264 109101 XOR\n2 1 109101 109070 4287 XOR\n2 1 63 3839 122865 XOR\n2 1 122865 122834 95317 XOR\n2 1 4287 4351 73838 XOR\n2 1 4286 4350 73837 XOR\n2 1 4285 4349 73836 XOR\n2 1 4284 4348 73835 XOR\n2 1 4283 4347 73834 XOR\n2 1 4282 4346 73833 XOR\n2 1 4281 4345 73832 XOR\n2 1 4280 4344 73831 XOR\n2 1 4279 4343 73830 XOR\n2 1 4278 4342 73829 XOR\n2 1 4277 4341 73828 XOR\n2 1 4276 4340 73827 XOR\n2 1 4275 4339 73826 XOR\n2 1 4274 4338 73825 XOR\n2 1 4273 4337 73824 XOR\n2 1 4272 4336 73823 XOR\n2 1 4271 4335 73822 XOR\n2 1 4270 4334 73821 XOR\n2 1 4269 4333 73820 XOR\n2 1 4268 4332 73819 XOR\n2 1 4267 4331 73818 XOR\n2 1 4266 4330 73817 XOR\n2 1 4265 4329 73816 XOR\n2 1 4264 4328 73815 XOR\n2 1 4263 4327 73814 XOR\n2 1 4262 4326 73813 XOR\n2 1 4261 4325 73812 XOR\n2 1 4260 4324 73811 XOR\n2 1 4259 4323 73810 XOR\n2 1 4258 4322 73809 XOR\n2 1 4257 4321 73808 XOR\n2 1 4256 4320 73807 XOR\n2 1 73838 73806 73774 AND\n2 1 73837 73805 73773 AND\n2 1 73836 73804 73772 AND\n2 1 73835 73803 73771 AND\n2 1 73834 73802 73770 AND\n2 1 73833 73801 73769 AND\n2 1 73832 73800 73768 AND\n2 1 73831 73799 73767 AND\n2 1 73830 73798 73766 AND\n",
"2 1 73829 73797 73765 AND\n2 1 73828 73796 73764 AND\n2 1 73827 73795 73763 AND\n2 1 73826 73794 73762 AND\n2 1 73825 73793 73761 AND\n2 1 73824 73792 73760 AND\n2 1 73823 73791 73759 AND\n2 1 73822 73790 73758 AND\n2 1 73821 73789 73757 AND\n2 1 73820 73788 73756 AND\n2 1 73819 73787 73755 AND\n2 1 73818 73786 73754 AND\n2 1 73817 73785 73753 AND\n2 1 73816 73784 73752 AND\n2 1 73815 73783 73751 AND\n2 1 73814 73782 73750 AND\n2 1 73813 73781 73749 AND\n2 1 73812 73780 73748 AND\n2 1 73811 73779 73747 AND\n2 1 73810 73778 73746 AND\n2 1 73809 73777 73745 AND\n2 1 73808 73776 73744 AND\n2 1 73807 73775 73743 AND\n2 1 73774 4351 87280 XOR\n2 1 73773 4350 87279 XOR\n2 1 73772 4349 87278 XOR\n2 1 73771 4348 87277 XOR\n2 1 73770 4347 87276 XOR\n2 1 73769 4346 87275 XOR\n2 1 73768 4345 87274 XOR\n2 1 73767 4344 87273 XOR\n2 1 73766 4343 87272 XOR\n2 1 73765 4342 87271 XOR\n2 1 73764 4341 87270 XOR\n2 1 73763 4340 87269 XOR\n2 1 73762 4339 87268 XOR\n2 1 73761 4338 87267 XOR\n2 1 73760 4337 87266 XOR\n2 1 73759 4336 87265 XOR\n2 1 73758 4335 87264 XOR\n2 1 73757 4334 87263 XOR\n2 1 73756 4333 87262 XOR\n2 1 73755 4332 87261 XOR\n2 1 73754 4331 87260 XOR\n2 1 73753 4330 87259 XOR\n2 1 73752 4329 87258 XOR\n2 1 73751 4328 87257 XOR\n2 1 73750 4327 87256 XOR\n2 1 73749 4326 87255 XOR\n2 1 73748 4325 87254 XOR\n2 1 73747 4324 87253 XOR\n2 1 73746 4323 87252 XOR\n2 1 73745 4322 87251 XOR\n2 1 73744 4321 87250 XOR\n2 1 73743 4320 87249 XOR\n2 1 4287 4319 73710 XOR\n2 1 4286 4318 73709 XOR\n2 1 4285 4317 73708 XOR\n2 1 4284 4316 73707 XOR\n2 1 4283 4315 73706 XOR\n2 1 4282 4314 73705 XOR\n2 1 4281 4313 73704 XOR\n2 1 4280 4312 73703 XOR\n2 1 4279 4311 73702 XOR\n2 1 4278 4310 73701 XOR\n2 1 4277 4309 73700 XOR\n2 1 4276 4308 73699 XOR\n2 1 4275 4307 73698 XOR\n2 1 4274 4306 73697 XOR\n2 1 4273 4305 73696 XOR\n2 1 4272 4304 73695 XOR\n2 1 4271 4303 73694 XOR\n2 1 4270 4302 73693 XOR\n2 1 4269 4301 73692 XOR\n2 1 4268 4300 73691 XOR\n2 1 4267 4299 73690 XOR\n2 1 4266 4298 73689 XOR\n2 1 4265 4297 73688 XOR\n2 1 4264 4296 73687 XOR\n2 1 4263 4295 73686 XOR\n2 1 4262 4294 73685 XOR\n2 1 4261 4293 73684 XOR\n2 1 4260 4292 73683 XOR\n2 1 4259 4291 73682 XOR\n2 1 4258 4290 73681 XOR\n2 1 4257 4289 73680 XOR\n2 1 4256 4288 73679 XOR\n2 1 4257 4268 68430 XOR\n2 1 4256 4267 68429 XOR\n2 1 4287 4266 68428 XOR\n2 1 4286 4265 68427 XOR\n2 1 4285 4264 68426 XOR\n2 1 4284 4263 68425 XOR\n2 1 4283 4262 68424 XOR\n2 1 4282 4261 68423 XOR\n2 1 4281 4260 68422 XOR\n2 1 4280 4259 68421 XOR\n2 1 4279 4258 68420 XOR\n2 1 4278 4257 68419 XOR\n2 1 4277 4256 68418 XOR\n2 1 4276 4287 68417 XOR\n2 1 4275 4286 68416 XOR\n2 1 4274 4285 68415 XOR\n2 1 4273 4284 68414 XOR\n2 1 4272 4283 68413 XOR\n2 1 4271 4282 68412 XOR\n2 1 4270 4281 68411 XOR\n2 1 4269 4280 68410 XOR\n2 1 4268 4279 68409 XOR\n2 1 4267 4278 68408 XOR\n2 1 4266 4277 68407 XOR\n2 1 4265 4276 68406 XOR\n2 1 4264 4275 68405 XOR\n2 1 4263 4274 68404 XOR\n2 1 4262 4273 68403 XOR\n2 1 4261 4272 68402 XOR\n2 1 4260 4271 68401 XOR\n2 1 4259 4270 68400 XOR\n2 1 4258 4269 68399 XOR\n2 1 68430 4277 89328 XOR\n2 1 89328 87280 123504 XOR\n2 1 68429 4276 89327 XOR\n2 1 89327 87279 123503 XOR\n2 1 68428 4275 89326 XOR\n2 1 89326 87278 123502 XOR\n2 1 68427 4274 89325 XOR\n2 1 89325 87277 123501 XOR\n2 1 68426 4273 89324 XOR\n",
"2 1 89324 87276 123500 XOR\n2 1 68425 4272 89323 XOR\n2 1 89323 87275 123499 XOR\n2 1 68424 4271 89322 XOR\n2 1 89322 87274 123498 XOR\n2 1 68423 4270 89321 XOR\n2 1 89321 87273 123497 XOR\n2 1 68422 4269 89320 XOR\n2 1 89320 87272 123496 XOR\n2 1 68421 4268 89319 XOR\n2 1 89319 87271 123495 XOR\n2 1 68420 4267 89318 XOR\n2 1 89318 87270 123494 XOR\n2 1 68419 4266 89317 XOR\n2 1 89317 87269 123493 XOR\n2 1 68418 4265 89316 XOR\n2 1 89316 87268 123492 XOR\n2 1 68417 4264 89315 XOR\n2 1 89315 87267 123491 XOR\n2 1 68416 4263 89314 XOR\n2 1 89314 87266 123490 XOR\n2 1 68415 4262 89313 XOR\n2 1 89313 87265 123489 XOR\n2 1 68414 4261 89312 XOR\n2 1 89312 87264 123488 XOR\n2 1 68413 4260 89311 XOR\n2 1 89311 87263 123487 XOR\n2 1 68412 4259 89310 XOR\n2 1 89310 87262 123486 XOR\n2 1 68411 4258 89309 XOR\n2 1 89309 87261 123485 XOR\n2 1 68410 4257 89308 XOR\n2 1 89308 87260 123484 XOR\n2 1 68409 4256 89307 XOR\n2 1 89307 87259 123483 XOR\n2 1 68408 4287 89306 XOR\n2 1 89306 87258 123482 XOR\n2 1 68407 4286 89305 XOR\n2 1 89305 87257 123481 XOR\n2 1 68406 4285 89304 XOR\n2 1 89304 87256 123480 XOR\n2 1 68405 4284 89303 XOR\n2 1 89303 87255 123479 XOR\n2 1 68404 4283 89302 XOR\n2 1 89302 87254 123478 XOR\n2 1 68403 4282 89301 XOR\n2 1 89301 87253 123477 XOR\n2 1 68402 4281 89300 XOR\n2 1 89300 87252 123476 XOR\n2 1 68401 4280 89299 XOR\n2 1 89299 87251 123475 XOR\n2 1 68400 4279 89298 XOR\n2 1 89298 87250 123474 XOR\n2 1 68399 4278 89297 XOR\n2 1 89297 87249 123443 AND\n2 1 89297 87249 85201 XOR\n2 1 123474 123443 85202 XOR\n2 1 89298 123443 42712 XOR\n2 1 87250 123443 42713 XOR\n2 1 42712 42713 42711 AND\n2 1 42711 123443 123444 XOR\n2 1 123475 123444 85203 XOR\n2 1 89299 123444 42715 XOR\n2 1 87251 123444 42716 XOR\n2 1 42715 42716 42714 AND\n2 1 42714 123444 123445 XOR\n2 1 123476 123445 85204 XOR\n2 1 89300 123445 42718 XOR\n2 1 87252 123445 42719 XOR\n2 1 42718 42719 42717 AND\n2 1 42717 123445 123446 XOR\n2 1 123477 123446 85205 XOR\n2 1 89301 123446 42721 XOR\n2 1 87253 123446 42722 XOR\n2 1 42721 42722 42720 AND\n2 1 42720 123446 123447 XOR\n2 1 123478 123447 85206 XOR\n2 1 89302 123447 42724 XOR\n2 1 87254 123447 42725 XOR\n2 1 42724 42725 42723 AND\n2 1 42723 123447 123448 XOR\n2 1 123479 123448 85207 XOR\n2 1 89303 123448 42727 XOR\n2 1 87255 123448 42728 XOR\n2 1 42727 42728 42726 AND\n2 1 42726 123448 123449 XOR\n2 1 123480 123449 85208 XOR\n2 1 89304 123449 42730 XOR\n2 1 87256 123449 42731 XOR\n2 1 42730 42731 42729 AND\n2 1 42729 123449 123450 XOR\n2 1 123481 123450 85209 XOR\n2 1 89305 123450 42733 XOR\n2 1 87257 123450 42734 XOR\n2 1 42733 42734 42732 AND\n2 1 42732 123450 123451 XOR\n2 1 123482 123451 85210 XOR\n2 1 89306 123451 42736 XOR\n2 1 87258 123451 42737 XOR\n2 1 42736 42737 42735 AND\n2 1 42735 123451 123452 XOR\n2 1 123483 123452 85211 XOR\n2 1 89307 123452 42739 XOR\n2 1 87259 123452 42740 XOR\n2 1 42739 42740 42738 AND\n2 1 42738 123452 123453 XOR\n2 1 123484 123453 85212 XOR\n2 1 89308 123453 42742 XOR\n2 1 87260 123453 42743 XOR\n2 1 42742 42743 42741 AND\n2 1 42741 123453 123454 XOR\n2 1 123485 123454 85213 XOR\n2 1 89309 123454 42745 XOR\n2 1 87261 123454 42746 XOR\n2 1 42745 42746 42744 AND\n2 1 42744 123454 123455 XOR\n2 1 123486 123455 85214 XOR\n2 1 89310 123455 42748 XOR\n2 1 87262 123455 42749 XOR\n2 1 42748 42749 42747 AND\n2 1 42747 123455 123456 XOR\n2 1 123487 123456 85215 XOR\n2 1 89311 123456 42751 XOR\n2 1 87263 123456 42752 XOR\n2 1 42751 42752 42750 AND\n2 1 42750 123456 123457 XOR\n2 1 123488 123457 85216 XOR\n2 1 89312 123457 42754 XOR\n",
"2 1 87264 123457 42755 XOR\n2 1 42754 42755 42753 AND\n2 1 42753 123457 123458 XOR\n2 1 123489 123458 85217 XOR\n2 1 89313 123458 42757 XOR\n2 1 87265 123458 42758 XOR\n2 1 42757 42758 42756 AND\n2 1 42756 123458 123459 XOR\n2 1 123490 123459 85218 XOR\n2 1 89314 123459 42760 XOR\n2 1 87266 123459 42761 XOR\n2 1 42760 42761 42759 AND\n2 1 42759 123459 123460 XOR\n2 1 123491 123460 85219 XOR\n2 1 89315 123460 42763 XOR\n2 1 87267 123460 42764 XOR\n2 1 42763 42764 42762 AND\n2 1 42762 123460 123461 XOR\n2 1 123492 123461 85220 XOR\n2 1 89316 123461 42766 XOR\n2 1 87268 123461 42767 XOR\n2 1 42766 42767 42765 AND\n2 1 42765 123461 123462 XOR\n2 1 123493 123462 85221 XOR\n2 1 89317 123462 42769 XOR\n2 1 87269 123462 42770 XOR\n2 1 42769 42770 42768 AND\n2 1 42768 123462 123463 XOR\n2 1 123494 123463 85222 XOR\n2 1 89318 123463 42772 XOR\n2 1 87270 123463 42773 XOR\n2 1 42772 42773 42771 AND\n2 1 42771 123463 123464 XOR\n2 1 123495 123464 85223 XOR\n2 1 89319 123464 42775 XOR\n2 1 87271 123464 42776 XOR\n2 1 42775 42776 42774 AND\n2 1 42774 123464 123465 XOR\n2 1 123496 123465 85224 XOR\n2 1 89320 123465 42778 XOR\n2 1 87272 123465 42779 XOR\n2 1 42778 42779 42777 AND\n2 1 42777 123465 123466 XOR\n2 1 123497 123466 85225 XOR\n2 1 89321 123466 42781 XOR\n2 1 87273 123466 42782 XOR\n2 1 42781 42782 42780 AND\n2 1 42780 123466 123467 XOR\n2 1 123498 123467 85226 XOR\n2 1 89322 123467 42784 XOR\n2 1 87274 123467 42785 XOR\n2 1 42784 42785 42783 AND\n2 1 42783 123467 123468 XOR\n2 1 123499 123468 85227 XOR\n2 1 89323 123468 42787 XOR\n2 1 87275 123468 42788 XOR\n2 1 42787 42788 42786 AND\n2 1 42786 123468 123469 XOR\n2 1 123500 123469 85228 XOR\n2 1 89324 123469 42790 XOR\n2 1 87276 123469 42791 XOR\n2 1 42790 42791 42789 AND\n2 1 42789 123469 123470 XOR\n2 1 123501 123470 85229 XOR\n2 1 89325 123470 42793 XOR\n2 1 87277 123470 42794 XOR\n2 1 42793 42794 42792 AND\n2 1 42792 123470 123471 XOR\n2 1 123502 123471 85230 XOR\n2 1 89326 123471 42796 XOR\n2 1 87278 123471 42797 XOR\n2 1 42796 42797 42795 AND\n2 1 42795 123471 123472 XOR\n2 1 123503 123472 85231 XOR\n2 1 89327 123472 42799 XOR\n2 1 87279 123472 42800 XOR\n2 1 42799 42800 42798 AND\n2 1 42798 123472 123473 XOR\n2 1 123504 123473 85232 XOR\n2 1 66222 3839 66190 AND\n2 1 66221 3838 66189 AND\n2 1 66220 3837 66188 AND\n2 1 66219 3836 66187 AND\n2 1 66218 3835 66186 AND\n2 1 66217 3834 66185 AND\n2 1 66216 3833 66184 AND\n2 1 66215 3832 66183 AND\n2 1 66214 3831 66182 AND\n2 1 66213 3830 66181 AND\n2 1 66212 3829 66180 AND\n2 1 66211 3828 66179 AND\n2 1 66210 3827 66178 AND\n2 1 66209 3826 66177 AND\n2 1 66208 3825 66176 AND\n2 1 66207 3824 66175 AND\n2 1 66206 3823 66174 AND\n2 1 66205 3822 66173 AND\n2 1 66204 3821 66172 AND\n2 1 66203 3820 66171 AND\n2 1 66202 3819 66170 AND\n2 1 66201 3818 66169 AND\n2 1 66200 3817 66168 AND\n2 1 66199 3816 66167 AND\n2 1 66198 3815 66166 AND\n2 1 66197 3814 66165 AND\n2 1 66196 3813 66164 AND\n2 1 66195 3812 66163 AND\n2 1 66194 3811 66162 AND\n2 1 66193 3810 66161 AND\n2 1 66192 3809 66160 AND\n2 1 66191 3808 66159 AND\n2 1 66190 3903 99509 XOR\n2 1 66189 3902 99508 XOR\n2 1 66188 3901 99507 XOR\n2 1 66187 3900 99506 XOR\n2 1 66186 3899 99505 XOR\n2 1 66185 3898 99504 XOR\n2 1 66184 3897 99503 XOR\n2 1 66183 3896 99502 XOR\n2 1 66182 3895 99501 XOR\n2 1 66181 3894 99500 XOR\n2 1 66180 3893 99499 XOR\n2 1 66179 3892 99498 XOR\n2 1 66178 3891 99497 XOR\n2 1 66177 3890 99496 XOR\n2 1 66176 3889 99495 XOR\n2 1 66175 3888 99494 XOR\n2 1 66174 3887 99493 XOR\n",
"2 1 66173 3886 99492 XOR\n2 1 66172 3885 99491 XOR\n2 1 66171 3884 99490 XOR\n2 1 66170 3883 99489 XOR\n2 1 66169 3882 99488 XOR\n2 1 66168 3881 99487 XOR\n2 1 66167 3880 99486 XOR\n2 1 66166 3879 99485 XOR\n2 1 66165 3878 99484 XOR\n2 1 66164 3877 99483 XOR\n2 1 66163 3876 99482 XOR\n2 1 66162 3875 99481 XOR\n2 1 66161 3874 99480 XOR\n2 1 66160 3873 99479 XOR\n2 1 66159 3872 99478 XOR\n2 1 3839 3871 66158 XOR\n2 1 3838 3870 66157 XOR\n2 1 3837 3869 66156 XOR\n2 1 3836 3868 66155 XOR\n2 1 3835 3867 66154 XOR\n2 1 3834 3866 66153 XOR\n2 1 3833 3865 66152 XOR\n2 1 3832 3864 66151 XOR\n2 1 3831 3863 66150 XOR\n2 1 3830 3862 66149 XOR\n2 1 3829 3861 66148 XOR\n2 1 3828 3860 66147 XOR\n2 1 3827 3859 66146 XOR\n2 1 3826 3858 66145 XOR\n2 1 3825 3857 66144 XOR\n2 1 3824 3856 66143 XOR\n2 1 3823 3855 66142 XOR\n2 1 3822 3854 66141 XOR\n2 1 3821 3853 66140 XOR\n2 1 3820 3852 66139 XOR\n2 1 3819 3851 66138 XOR\n2 1 3818 3850 66137 XOR\n2 1 3817 3849 66136 XOR\n2 1 3816 3848 66135 XOR\n2 1 3815 3847 66134 XOR\n2 1 3814 3846 66133 XOR\n2 1 3813 3845 66132 XOR\n2 1 3812 3844 66131 XOR\n2 1 3811 3843 66130 XOR\n2 1 3810 3842 66129 XOR\n2 1 3809 3841 66128 XOR\n2 1 3808 3840 66127 XOR\n2 1 3813 3818 62510 XOR\n2 1 3812 3817 62509 XOR\n2 1 3811 3816 62508 XOR\n2 1 3810 3815 62507 XOR\n2 1 3809 3814 62506 XOR\n2 1 3808 3813 62505 XOR\n2 1 3839 3812 62504 XOR\n2 1 3838 3811 62503 XOR\n2 1 3837 3810 62502 XOR\n2 1 3836 3809 62501 XOR\n2 1 3835 3808 62500 XOR\n2 1 3834 3839 62499 XOR\n2 1 3833 3838 62498 XOR\n2 1 3832 3837 62497 XOR\n2 1 3831 3836 62496 XOR\n2 1 3830 3835 62495 XOR\n2 1 3829 3834 62494 XOR\n2 1 3828 3833 62493 XOR\n2 1 3827 3832 62492 XOR\n2 1 3826 3831 62491 XOR\n2 1 3825 3830 62490 XOR\n2 1 3824 3829 62489 XOR\n2 1 3823 3828 62488 XOR\n2 1 3822 3827 62487 XOR\n2 1 3821 3826 62486 XOR\n2 1 3820 3825 62485 XOR\n2 1 3819 3824 62484 XOR\n2 1 3818 3823 62483 XOR\n2 1 3817 3822 62482 XOR\n2 1 3816 3821 62481 XOR\n2 1 3815 3820 62480 XOR\n2 1 3814 3819 62479 XOR\n2 1 62510 3832 101557 XOR\n2 1 101557 99509 123690 XOR\n2 1 62509 3831 101556 XOR\n2 1 101556 99508 123689 XOR\n2 1 62508 3830 101555 XOR\n2 1 101555 99507 123688 XOR\n2 1 62507 3829 101554 XOR\n2 1 101554 99506 123687 XOR\n2 1 62506 3828 101553 XOR\n2 1 101553 99505 123686 XOR\n2 1 62505 3827 101552 XOR\n2 1 101552 99504 123685 XOR\n2 1 62504 3826 101551 XOR\n2 1 101551 99503 123684 XOR\n2 1 62503 3825 101550 XOR\n2 1 101550 99502 123683 XOR\n2 1 62502 3824 101549 XOR\n2 1 101549 99501 123682 XOR\n2 1 62501 3823 101548 XOR\n2 1 101548 99500 123681 XOR\n2 1 62500 3822 101547 XOR\n2 1 101547 99499 123680 XOR\n2 1 62499 3821 101546 XOR\n2 1 101546 99498 123679 XOR\n2 1 62498 3820 101545 XOR\n2 1 101545 99497 123678 XOR\n2 1 62497 3819 101544 XOR\n2 1 101544 99496 123677 XOR\n2 1 62496 3818 101543 XOR\n2 1 101543 99495 123676 XOR\n2 1 62495 3817 101542 XOR\n2 1 101542 99494 123675 XOR\n2 1 62494 3816 101541 XOR\n2 1 101541 99493 123674 XOR\n2 1 62493 3815 101540 XOR\n2 1 101540 99492 123673 XOR\n2 1 62492 3814 101539 XOR\n2 1 101539 99491 123672 XOR\n2 1 62491 3813 101538 XOR\n2 1 101538 99490 123671 XOR\n2 1 62490 3812 101537 XOR\n2 1 101537 99489 123670 XOR\n2 1 62489 3811 101536 XOR\n2 1 101536 99488 123669 XOR\n2 1 62488 3810 101535 XOR\n2 1 101535 99487 123668 XOR\n2 1 62487 3809 101534 XOR\n2 1 101534 99486 123667 XOR\n2 1 62486 3808 101533 XOR\n",
"2 1 101533 99485 123666 XOR\n2 1 62485 3839 101532 XOR\n2 1 101532 99484 123665 XOR\n2 1 62484 3838 101531 XOR\n2 1 101531 99483 123664 XOR\n2 1 62483 3837 101530 XOR\n2 1 101530 99482 123663 XOR\n2 1 62482 3836 101529 XOR\n2 1 101529 99481 123662 XOR\n2 1 62481 3835 101528 XOR\n2 1 101528 99480 123661 XOR\n2 1 62480 3834 101527 XOR\n2 1 101527 99479 123660 XOR\n2 1 62479 3833 101526 XOR\n2 1 101526 99478 123629 AND\n2 1 101526 99478 97430 XOR\n2 1 97430 95382 123505 AND\n2 1 97430 95382 93340 XOR\n1 1 93340 91345 INV\n2 1 4352 91345 108854 AND\n2 1 4352 91345 3776 XOR\n2 1 4353 108854 17137 XOR\n2 1 91345 85201 108916 AND\n2 1 91345 85201 4224 XOR\n2 1 85202 108916 17228 XOR\n2 1 0 3776 122556 AND\n2 1 0 3776 95254 XOR\n2 1 1 122556 41150 XOR\n2 1 95383 123505 42907 XOR\n2 1 123660 123629 97431 XOR\n2 1 97431 95383 123536 XOR\n2 1 123536 123505 93341 XOR\n1 1 93341 42890 INV\n2 1 42890 93340 91346 XOR\n2 1 4353 91346 108885 XOR\n2 1 108885 108854 3777 XOR\n2 1 91346 108854 17138 XOR\n2 1 17137 17138 17136 AND\n2 1 17136 108854 108855 XOR\n2 1 4354 108855 17140 XOR\n2 1 91346 85202 108947 XOR\n2 1 108947 108916 4225 XOR\n2 1 91346 108916 17227 XOR\n2 1 17227 17228 17226 AND\n2 1 17226 108916 108917 XOR\n2 1 85203 108917 17231 XOR\n2 1 1 3777 122587 XOR\n2 1 122587 122556 95255 XOR\n2 1 3777 122556 41151 XOR\n2 1 41150 41151 41149 AND\n2 1 41149 122556 122557 XOR\n2 1 2 122557 41153 XOR\n2 1 93341 93340 42802 XOR\n2 1 42802 91345 42801 AND\n2 1 42801 93340 42804 XOR\n2 1 97431 123505 42906 XOR\n2 1 42906 42907 42905 AND\n2 1 42905 123505 123506 XOR\n2 1 95384 123506 42910 XOR\n2 1 101527 123629 43086 XOR\n2 1 99479 123629 43087 XOR\n2 1 43086 43087 43085 AND\n2 1 43085 123629 123630 XOR\n2 1 123661 123630 97432 XOR\n2 1 97432 95384 123537 XOR\n2 1 123537 123506 93342 XOR\n2 1 93342 42804 91347 XOR\n2 1 91347 108855 17141 XOR\n2 1 17140 17141 17139 AND\n2 1 17139 108855 108856 XOR\n2 1 4355 108856 17143 XOR\n2 1 91347 85203 108948 XOR\n2 1 108948 108917 4226 XOR\n2 1 91347 108917 17230 XOR\n2 1 17230 17231 17229 AND\n2 1 17229 108917 108918 XOR\n2 1 85204 108918 17234 XOR\n2 1 4354 91347 108886 XOR\n2 1 108886 108855 3778 XOR\n2 1 3778 122557 41154 XOR\n2 1 41153 41154 41152 AND\n2 1 41152 122557 122558 XOR\n2 1 3 122558 41156 XOR\n2 1 2 3778 122588 XOR\n2 1 122588 122557 95256 XOR\n2 1 91347 42804 42803 AND\n2 1 42803 42804 42806 XOR\n2 1 97432 123506 42909 XOR\n2 1 42909 42910 42908 AND\n2 1 42908 123506 123507 XOR\n2 1 95385 123507 42913 XOR\n2 1 101528 123630 43089 XOR\n2 1 99480 123630 43090 XOR\n2 1 43089 43090 43088 AND\n2 1 43088 123630 123631 XOR\n2 1 123662 123631 97433 XOR\n2 1 97433 95385 123538 XOR\n2 1 123538 123507 93343 XOR\n2 1 93343 42806 91348 XOR\n2 1 91348 108856 17144 XOR\n2 1 17143 17144 17142 AND\n2 1 17142 108856 108857 XOR\n2 1 4356 108857 17146 XOR\n2 1 91348 85204 108949 XOR\n2 1 108949 108918 4227 XOR\n2 1 91348 108918 17233 XOR\n2 1 17233 17234 17232 AND\n2 1 17232 108918 108919 XOR\n2 1 85205 108919 17237 XOR\n2 1 4355 91348 108887 XOR\n2 1 108887 108856 3779 XOR\n2 1 3779 122558 41157 XOR\n2 1 41156 41157 41155 AND\n2 1 41155 122558 122559 XOR\n2 1 4 122559 41159 XOR\n2 1 3 3779 122589 XOR\n2 1 122589 122558 95257 XOR\n2 1 91348 42806 42805 AND\n2 1 42805 42806 42808 XOR\n2 1 97433 123507 42912 XOR\n2 1 42912 42913 42911 AND\n2 1 42911 123507 123508 XOR\n2 1 95386 123508 42916 XOR\n2 1 101529 123631 43092 XOR\n2 1 99481 123631 43093 XOR\n2 1 43092 43093 43091 AND\n2 1 43091 123631 123632 XOR\n2 1 123663 123632 97434 XOR\n",
"2 1 97434 95386 123539 XOR\n2 1 123539 123508 93344 XOR\n2 1 93344 42808 91349 XOR\n2 1 91349 108857 17147 XOR\n2 1 17146 17147 17145 AND\n2 1 17145 108857 108858 XOR\n2 1 4357 108858 17149 XOR\n2 1 91349 85205 108950 XOR\n2 1 108950 108919 4228 XOR\n2 1 91349 108919 17236 XOR\n2 1 17236 17237 17235 AND\n2 1 17235 108919 108920 XOR\n2 1 85206 108920 17240 XOR\n2 1 4356 91349 108888 XOR\n2 1 108888 108857 3780 XOR\n2 1 3780 122559 41160 XOR\n2 1 41159 41160 41158 AND\n2 1 41158 122559 122560 XOR\n2 1 5 122560 41162 XOR\n2 1 4 3780 122590 XOR\n2 1 122590 122559 95258 XOR\n2 1 91349 42808 42807 AND\n2 1 42807 42808 42810 XOR\n2 1 97434 123508 42915 XOR\n2 1 42915 42916 42914 AND\n2 1 42914 123508 123509 XOR\n2 1 95387 123509 42919 XOR\n2 1 101530 123632 43095 XOR\n2 1 99482 123632 43096 XOR\n2 1 43095 43096 43094 AND\n2 1 43094 123632 123633 XOR\n2 1 123664 123633 97435 XOR\n2 1 97435 95387 123540 XOR\n2 1 123540 123509 93345 XOR\n2 1 93345 42810 91350 XOR\n2 1 91350 108858 17150 XOR\n2 1 17149 17150 17148 AND\n2 1 17148 108858 108859 XOR\n2 1 4358 108859 17152 XOR\n2 1 91350 85206 108951 XOR\n2 1 108951 108920 4229 XOR\n2 1 91350 108920 17239 XOR\n2 1 17239 17240 17238 AND\n2 1 17238 108920 108921 XOR\n2 1 85207 108921 17243 XOR\n2 1 4357 91350 108889 XOR\n2 1 108889 108858 3781 XOR\n2 1 3781 122560 41163 XOR\n2 1 41162 41163 41161 AND\n2 1 41161 122560 122561 XOR\n2 1 6 122561 41165 XOR\n2 1 5 3781 122591 XOR\n2 1 122591 122560 95259 XOR\n2 1 91350 42810 42809 AND\n2 1 42809 42810 42875 XOR\n1 1 42875 42813 INV\n2 1 97435 123509 42918 XOR\n2 1 42918 42919 42917 AND\n2 1 42917 123509 123510 XOR\n2 1 95388 123510 42922 XOR\n2 1 101531 123633 43098 XOR\n2 1 99483 123633 43099 XOR\n2 1 43098 43099 43097 AND\n2 1 43097 123633 123634 XOR\n2 1 123665 123634 97436 XOR\n2 1 97436 95388 123541 XOR\n2 1 123541 123510 93346 XOR\n1 1 93346 42891 INV\n2 1 42891 42875 91351 XOR\n2 1 4358 91351 108890 XOR\n2 1 108890 108859 3782 XOR\n2 1 91351 108859 17153 XOR\n2 1 17152 17153 17151 AND\n2 1 17151 108859 108860 XOR\n2 1 4359 108860 17155 XOR\n2 1 91351 85207 108952 XOR\n2 1 108952 108921 4230 XOR\n2 1 91351 108921 17242 XOR\n2 1 17242 17243 17241 AND\n2 1 17241 108921 108922 XOR\n2 1 85208 108922 17246 XOR\n2 1 6 3782 122592 XOR\n2 1 122592 122561 95260 XOR\n2 1 3782 122561 41166 XOR\n2 1 41165 41166 41164 AND\n2 1 41164 122561 122562 XOR\n2 1 7 122562 41168 XOR\n2 1 93346 42875 42812 XOR\n2 1 42812 42813 42811 AND\n2 1 42811 42875 42876 XOR\n1 1 42876 42816 INV\n2 1 97436 123510 42921 XOR\n2 1 42921 42922 42920 AND\n2 1 42920 123510 123511 XOR\n2 1 95389 123511 42925 XOR\n2 1 101532 123634 43101 XOR\n2 1 99484 123634 43102 XOR\n2 1 43101 43102 43100 AND\n2 1 43100 123634 123635 XOR\n2 1 123666 123635 97437 XOR\n2 1 97437 95389 123542 XOR\n2 1 123542 123511 93347 XOR\n1 1 93347 42892 INV\n2 1 42892 42876 91352 XOR\n2 1 4359 91352 108891 XOR\n2 1 108891 108860 3783 XOR\n2 1 91352 108860 17156 XOR\n2 1 17155 17156 17154 AND\n2 1 17154 108860 108861 XOR\n2 1 4360 108861 17158 XOR\n2 1 91352 85208 108953 XOR\n2 1 108953 108922 4231 XOR\n2 1 91352 108922 17245 XOR\n2 1 17245 17246 17244 AND\n2 1 17244 108922 108923 XOR\n2 1 85209 108923 17249 XOR\n2 1 7 3783 122593 XOR\n2 1 122593 122562 95261 XOR\n2 1 3783 122562 41169 XOR\n2 1 41168 41169 41167 AND\n2 1 41167 122562 122563 XOR\n2 1 8 122563 41171 XOR\n2 1 93347 42876 42815 XOR\n2 1 42815 42816 42814 AND\n2 1 42814 42876 42877 XOR\n1 1 42877 42819 INV\n2 1 97437 123511 42924 XOR\n2 1 42924 42925 42923 AND\n",
"2 1 42923 123511 123512 XOR\n2 1 95390 123512 42928 XOR\n2 1 101533 123635 43104 XOR\n2 1 99485 123635 43105 XOR\n2 1 43104 43105 43103 AND\n2 1 43103 123635 123636 XOR\n2 1 123667 123636 97438 XOR\n2 1 97438 95390 123543 XOR\n2 1 123543 123512 93348 XOR\n1 1 93348 42893 INV\n2 1 42893 42877 91353 XOR\n2 1 4360 91353 108892 XOR\n2 1 108892 108861 3784 XOR\n2 1 91353 108861 17159 XOR\n2 1 17158 17159 17157 AND\n2 1 17157 108861 108862 XOR\n2 1 4361 108862 17161 XOR\n2 1 91353 85209 108954 XOR\n2 1 108954 108923 4232 XOR\n2 1 91353 108923 17248 XOR\n2 1 17248 17249 17247 AND\n2 1 17247 108923 108924 XOR\n2 1 85210 108924 17252 XOR\n2 1 8 3784 122594 XOR\n2 1 122594 122563 95262 XOR\n2 1 3784 122563 41172 XOR\n2 1 41171 41172 41170 AND\n2 1 41170 122563 122564 XOR\n2 1 9 122564 41174 XOR\n2 1 93348 42877 42818 XOR\n2 1 42818 42819 42817 AND\n2 1 42817 42877 42821 XOR\n2 1 97438 123512 42927 XOR\n2 1 42927 42928 42926 AND\n2 1 42926 123512 123513 XOR\n2 1 95391 123513 42931 XOR\n2 1 101534 123636 43107 XOR\n2 1 99486 123636 43108 XOR\n2 1 43107 43108 43106 AND\n2 1 43106 123636 123637 XOR\n2 1 123668 123637 97439 XOR\n2 1 97439 95391 123544 XOR\n2 1 123544 123513 93349 XOR\n2 1 93349 42821 91354 XOR\n2 1 91354 108862 17162 XOR\n2 1 17161 17162 17160 AND\n2 1 17160 108862 108863 XOR\n2 1 4362 108863 17164 XOR\n2 1 91354 85210 108955 XOR\n2 1 108955 108924 4233 XOR\n2 1 91354 108924 17251 XOR\n2 1 17251 17252 17250 AND\n2 1 17250 108924 108925 XOR\n2 1 85211 108925 17255 XOR\n2 1 4361 91354 108893 XOR\n2 1 108893 108862 3785 XOR\n2 1 3785 122564 41175 XOR\n2 1 41174 41175 41173 AND\n2 1 41173 122564 122565 XOR\n2 1 10 122565 41177 XOR\n2 1 9 3785 122595 XOR\n2 1 122595 122564 95263 XOR\n2 1 91354 42821 42820 AND\n2 1 42820 42821 42878 XOR\n1 1 42878 42824 INV\n2 1 97439 123513 42930 XOR\n2 1 42930 42931 42929 AND\n2 1 42929 123513 123514 XOR\n2 1 95392 123514 42934 XOR\n2 1 101535 123637 43110 XOR\n2 1 99487 123637 43111 XOR\n2 1 43110 43111 43109 AND\n2 1 43109 123637 123638 XOR\n2 1 123669 123638 97440 XOR\n2 1 97440 95392 123545 XOR\n2 1 123545 123514 93350 XOR\n1 1 93350 42894 INV\n2 1 42894 42878 91355 XOR\n2 1 4362 91355 108894 XOR\n2 1 108894 108863 3786 XOR\n2 1 91355 108863 17165 XOR\n2 1 17164 17165 17163 AND\n2 1 17163 108863 108864 XOR\n2 1 4363 108864 17167 XOR\n2 1 91355 85211 108956 XOR\n2 1 108956 108925 4234 XOR\n2 1 91355 108925 17254 XOR\n2 1 17254 17255 17253 AND\n2 1 17253 108925 108926 XOR\n2 1 85212 108926 17258 XOR\n2 1 10 3786 122596 XOR\n2 1 122596 122565 95264 XOR\n2 1 3786 122565 41178 XOR\n2 1 41177 41178 41176 AND\n2 1 41176 122565 122566 XOR\n2 1 11 122566 41180 XOR\n2 1 93350 42878 42823 XOR\n2 1 42823 42824 42822 AND\n2 1 42822 42878 42879 XOR\n1 1 42879 42827 INV\n2 1 97440 123514 42933 XOR\n2 1 42933 42934 42932 AND\n2 1 42932 123514 123515 XOR\n2 1 95393 123515 42937 XOR\n2 1 101536 123638 43113 XOR\n2 1 99488 123638 43114 XOR\n2 1 43113 43114 43112 AND\n2 1 43112 123638 123639 XOR\n2 1 123670 123639 97441 XOR\n2 1 97441 95393 123546 XOR\n2 1 123546 123515 93351 XOR\n1 1 93351 42895 INV\n2 1 42895 42879 91356 XOR\n2 1 4363 91356 108895 XOR\n2 1 108895 108864 3787 XOR\n2 1 91356 108864 17168 XOR\n2 1 17167 17168 17166 AND\n2 1 17166 108864 108865 XOR\n2 1 4364 108865 17170 XOR\n2 1 91356 85212 108957 XOR\n2 1 108957 108926 4235 XOR\n2 1 91356 108926 17257 XOR\n2 1 17257 17258 17256 AND\n2 1 17256 108926 108927 XOR\n2 1 85213 108927 17261 XOR\n2 1 11 3787 122597 XOR\n2 1 122597 122566 95265 XOR\n2 1 3787 122566 41181 XOR\n",
"2 1 41180 41181 41179 AND\n2 1 41179 122566 122567 XOR\n2 1 12 122567 41183 XOR\n2 1 93351 42879 42826 XOR\n2 1 42826 42827 42825 AND\n2 1 42825 42879 42880 XOR\n1 1 42880 42830 INV\n2 1 97441 123515 42936 XOR\n2 1 42936 42937 42935 AND\n2 1 42935 123515 123516 XOR\n2 1 95394 123516 42940 XOR\n2 1 101537 123639 43116 XOR\n2 1 99489 123639 43117 XOR\n2 1 43116 43117 43115 AND\n2 1 43115 123639 123640 XOR\n2 1 123671 123640 97442 XOR\n2 1 97442 95394 123547 XOR\n2 1 123547 123516 93352 XOR\n1 1 93352 42896 INV\n2 1 42896 42880 91357 XOR\n2 1 4364 91357 108896 XOR\n2 1 108896 108865 3788 XOR\n2 1 91357 108865 17171 XOR\n2 1 17170 17171 17169 AND\n2 1 17169 108865 108866 XOR\n2 1 4365 108866 17173 XOR\n2 1 91357 85213 108958 XOR\n2 1 108958 108927 4236 XOR\n2 1 91357 108927 17260 XOR\n2 1 17260 17261 17259 AND\n2 1 17259 108927 108928 XOR\n2 1 85214 108928 17264 XOR\n2 1 12 3788 122598 XOR\n2 1 122598 122567 95266 XOR\n2 1 3788 122567 41184 XOR\n2 1 41183 41184 41182 AND\n2 1 41182 122567 122568 XOR\n2 1 13 122568 41186 XOR\n2 1 93352 42880 42829 XOR\n2 1 42829 42830 42828 AND\n2 1 42828 42880 42881 XOR\n1 1 42881 42833 INV\n2 1 97442 123516 42939 XOR\n2 1 42939 42940 42938 AND\n2 1 42938 123516 123517 XOR\n2 1 95395 123517 42943 XOR\n2 1 101538 123640 43119 XOR\n2 1 99490 123640 43120 XOR\n2 1 43119 43120 43118 AND\n2 1 43118 123640 123641 XOR\n2 1 123672 123641 97443 XOR\n2 1 97443 95395 123548 XOR\n2 1 123548 123517 93353 XOR\n1 1 93353 42897 INV\n2 1 42897 42881 91358 XOR\n2 1 4365 91358 108897 XOR\n2 1 108897 108866 3789 XOR\n2 1 91358 108866 17174 XOR\n2 1 17173 17174 17172 AND\n2 1 17172 108866 108867 XOR\n2 1 4366 108867 17176 XOR\n2 1 91358 85214 108959 XOR\n2 1 108959 108928 4237 XOR\n2 1 91358 108928 17263 XOR\n2 1 17263 17264 17262 AND\n2 1 17262 108928 108929 XOR\n2 1 85215 108929 17267 XOR\n2 1 13 3789 122599 XOR\n2 1 122599 122568 95267 XOR\n2 1 3789 122568 41187 XOR\n2 1 41186 41187 41185 AND\n2 1 41185 122568 122569 XOR\n2 1 14 122569 41189 XOR\n2 1 93353 42881 42832 XOR\n2 1 42832 42833 42831 AND\n2 1 42831 42881 42882 XOR\n1 1 42882 42836 INV\n2 1 97443 123517 42942 XOR\n2 1 42942 42943 42941 AND\n2 1 42941 123517 123518 XOR\n2 1 95396 123518 42946 XOR\n2 1 101539 123641 43122 XOR\n2 1 99491 123641 43123 XOR\n2 1 43122 43123 43121 AND\n2 1 43121 123641 123642 XOR\n2 1 123673 123642 97444 XOR\n2 1 97444 95396 123549 XOR\n2 1 123549 123518 93354 XOR\n1 1 93354 42898 INV\n2 1 42898 42882 91359 XOR\n2 1 4366 91359 108898 XOR\n2 1 108898 108867 3790 XOR\n2 1 91359 108867 17177 XOR\n2 1 17176 17177 17175 AND\n2 1 17175 108867 108868 XOR\n2 1 4367 108868 17179 XOR\n2 1 91359 85215 108960 XOR\n2 1 108960 108929 4238 XOR\n2 1 91359 108929 17266 XOR\n2 1 17266 17267 17265 AND\n2 1 17265 108929 108930 XOR\n2 1 85216 108930 17270 XOR\n2 1 14 3790 122600 XOR\n2 1 122600 122569 95268 XOR\n2 1 3790 122569 41190 XOR\n2 1 41189 41190 41188 AND\n2 1 41188 122569 122570 XOR\n2 1 15 122570 41192 XOR\n2 1 93354 42882 42835 XOR\n2 1 42835 42836 42834 AND\n2 1 42834 42882 42838 XOR\n2 1 97444 123518 42945 XOR\n2 1 42945 42946 42944 AND\n2 1 42944 123518 123519 XOR\n2 1 95397 123519 42949 XOR\n2 1 101540 123642 43125 XOR\n2 1 99492 123642 43126 XOR\n2 1 43125 43126 43124 AND\n2 1 43124 123642 123643 XOR\n2 1 123674 123643 97445 XOR\n2 1 97445 95397 123550 XOR\n2 1 123550 123519 93355 XOR\n2 1 93355 42838 91360 XOR\n2 1 91360 108868 17180 XOR\n2 1 17179 17180 17178 AND\n2 1 17178 108868 108869 XOR\n2 1 4368 108869 17182 XOR\n2 1 91360 85216 108961 XOR\n",
"2 1 108961 108930 4239 XOR\n2 1 91360 108930 17269 XOR\n2 1 17269 17270 17268 AND\n2 1 17268 108930 108931 XOR\n2 1 85217 108931 17273 XOR\n2 1 4367 91360 108899 XOR\n2 1 108899 108868 3791 XOR\n2 1 3791 122570 41193 XOR\n2 1 41192 41193 41191 AND\n2 1 41191 122570 122571 XOR\n2 1 16 122571 41195 XOR\n2 1 15 3791 122601 XOR\n2 1 122601 122570 95269 XOR\n2 1 91360 42838 42837 AND\n2 1 42837 42838 42840 XOR\n2 1 97445 123519 42948 XOR\n2 1 42948 42949 42947 AND\n2 1 42947 123519 123520 XOR\n2 1 95398 123520 42952 XOR\n2 1 101541 123643 43128 XOR\n2 1 99493 123643 43129 XOR\n2 1 43128 43129 43127 AND\n2 1 43127 123643 123644 XOR\n2 1 123675 123644 97446 XOR\n2 1 97446 95398 123551 XOR\n2 1 123551 123520 93356 XOR\n2 1 93356 42840 91361 XOR\n2 1 91361 108869 17183 XOR\n2 1 17182 17183 17181 AND\n2 1 17181 108869 108870 XOR\n2 1 4369 108870 17185 XOR\n2 1 91361 85217 108962 XOR\n2 1 108962 108931 4240 XOR\n2 1 91361 108931 17272 XOR\n2 1 17272 17273 17271 AND\n2 1 17271 108931 108932 XOR\n2 1 85218 108932 17276 XOR\n2 1 4368 91361 108900 XOR\n2 1 108900 108869 3792 XOR\n2 1 3792 122571 41196 XOR\n2 1 41195 41196 41194 AND\n2 1 41194 122571 122572 XOR\n2 1 17 122572 41198 XOR\n2 1 16 3792 122602 XOR\n2 1 122602 122571 95270 XOR\n2 1 91361 42840 42839 AND\n2 1 42839 42840 42842 XOR\n2 1 97446 123520 42951 XOR\n2 1 42951 42952 42950 AND\n2 1 42950 123520 123521 XOR\n2 1 95399 123521 42955 XOR\n2 1 101542 123644 43131 XOR\n2 1 99494 123644 43132 XOR\n2 1 43131 43132 43130 AND\n2 1 43130 123644 123645 XOR\n2 1 123676 123645 97447 XOR\n2 1 97447 95399 123552 XOR\n2 1 123552 123521 93357 XOR\n2 1 93357 42842 91362 XOR\n2 1 91362 108870 17186 XOR\n2 1 17185 17186 17184 AND\n2 1 17184 108870 108871 XOR\n2 1 4370 108871 17188 XOR\n2 1 91362 85218 108963 XOR\n2 1 108963 108932 4241 XOR\n2 1 91362 108932 17275 XOR\n2 1 17275 17276 17274 AND\n2 1 17274 108932 108933 XOR\n2 1 85219 108933 17279 XOR\n2 1 4369 91362 108901 XOR\n2 1 108901 108870 3793 XOR\n2 1 3793 122572 41199 XOR\n2 1 41198 41199 41197 AND\n2 1 41197 122572 122573 XOR\n2 1 18 122573 41201 XOR\n2 1 17 3793 122603 XOR\n2 1 122603 122572 95271 XOR\n2 1 91362 42842 42841 AND\n2 1 42841 42842 42883 XOR\n1 1 42883 42845 INV\n2 1 97447 123521 42954 XOR\n2 1 42954 42955 42953 AND\n2 1 42953 123521 123522 XOR\n2 1 95400 123522 42958 XOR\n2 1 101543 123645 43134 XOR\n2 1 99495 123645 43135 XOR\n2 1 43134 43135 43133 AND\n2 1 43133 123645 123646 XOR\n2 1 123677 123646 97448 XOR\n2 1 97448 95400 123553 XOR\n2 1 123553 123522 93358 XOR\n1 1 93358 42899 INV\n2 1 42899 42883 91363 XOR\n2 1 4370 91363 108902 XOR\n2 1 108902 108871 3794 XOR\n2 1 91363 108871 17189 XOR\n2 1 17188 17189 17187 AND\n2 1 17187 108871 108872 XOR\n2 1 4371 108872 17191 XOR\n2 1 91363 85219 108964 XOR\n2 1 108964 108933 4242 XOR\n2 1 91363 108933 17278 XOR\n2 1 17278 17279 17277 AND\n2 1 17277 108933 108934 XOR\n2 1 85220 108934 17282 XOR\n2 1 18 3794 122604 XOR\n2 1 122604 122573 95272 XOR\n2 1 3794 122573 41202 XOR\n2 1 41201 41202 41200 AND\n2 1 41200 122573 122574 XOR\n2 1 19 122574 41204 XOR\n2 1 93358 42883 42844 XOR\n2 1 42844 42845 42843 AND\n2 1 42843 42883 42884 XOR\n1 1 42884 42848 INV\n2 1 97448 123522 42957 XOR\n2 1 42957 42958 42956 AND\n2 1 42956 123522 123523 XOR\n2 1 95401 123523 42961 XOR\n2 1 101544 123646 43137 XOR\n2 1 99496 123646 43138 XOR\n2 1 43137 43138 43136 AND\n2 1 43136 123646 123647 XOR\n2 1 123678 123647 97449 XOR\n2 1 97449 95401 123554 XOR\n2 1 123554 123523 93359 XOR\n1 1 93359 42900 INV\n2 1 42900 42884 91364 XOR\n",
"2 1 4371 91364 108903 XOR\n2 1 108903 108872 3795 XOR\n2 1 91364 108872 17192 XOR\n2 1 17191 17192 17190 AND\n2 1 17190 108872 108873 XOR\n2 1 4372 108873 17194 XOR\n2 1 91364 85220 108965 XOR\n2 1 108965 108934 4243 XOR\n2 1 91364 108934 17281 XOR\n2 1 17281 17282 17280 AND\n2 1 17280 108934 108935 XOR\n2 1 85221 108935 17285 XOR\n2 1 19 3795 122605 XOR\n2 1 122605 122574 95273 XOR\n2 1 3795 122574 41205 XOR\n2 1 41204 41205 41203 AND\n2 1 41203 122574 122575 XOR\n2 1 20 122575 41207 XOR\n2 1 93359 42884 42847 XOR\n2 1 42847 42848 42846 AND\n2 1 42846 42884 42850 XOR\n2 1 97449 123523 42960 XOR\n2 1 42960 42961 42959 AND\n2 1 42959 123523 123524 XOR\n2 1 95402 123524 42964 XOR\n2 1 101545 123647 43140 XOR\n2 1 99497 123647 43141 XOR\n2 1 43140 43141 43139 AND\n2 1 43139 123647 123648 XOR\n2 1 123679 123648 97450 XOR\n2 1 97450 95402 123555 XOR\n2 1 123555 123524 93360 XOR\n2 1 93360 42850 91365 XOR\n2 1 91365 108873 17195 XOR\n2 1 17194 17195 17193 AND\n2 1 17193 108873 108874 XOR\n2 1 4373 108874 17197 XOR\n2 1 91365 85221 108966 XOR\n2 1 108966 108935 4244 XOR\n2 1 91365 108935 17284 XOR\n2 1 17284 17285 17283 AND\n2 1 17283 108935 108936 XOR\n2 1 85222 108936 17288 XOR\n2 1 4372 91365 108904 XOR\n2 1 108904 108873 3796 XOR\n2 1 3796 122575 41208 XOR\n2 1 41207 41208 41206 AND\n2 1 41206 122575 122576 XOR\n2 1 21 122576 41210 XOR\n2 1 20 3796 122606 XOR\n2 1 122606 122575 95274 XOR\n2 1 91365 42850 42849 AND\n2 1 42849 42850 42852 XOR\n2 1 97450 123524 42963 XOR\n2 1 42963 42964 42962 AND\n2 1 42962 123524 123525 XOR\n2 1 95403 123525 42967 XOR\n2 1 101546 123648 43143 XOR\n2 1 99498 123648 43144 XOR\n2 1 43143 43144 43142 AND\n2 1 43142 123648 123649 XOR\n2 1 123680 123649 97451 XOR\n2 1 97451 95403 123556 XOR\n2 1 123556 123525 93361 XOR\n2 1 93361 42852 91366 XOR\n2 1 91366 108874 17198 XOR\n2 1 17197 17198 17196 AND\n2 1 17196 108874 108875 XOR\n2 1 4374 108875 17200 XOR\n2 1 91366 85222 108967 XOR\n2 1 108967 108936 4245 XOR\n2 1 91366 108936 17287 XOR\n2 1 17287 17288 17286 AND\n2 1 17286 108936 108937 XOR\n2 1 85223 108937 17291 XOR\n2 1 4373 91366 108905 XOR\n2 1 108905 108874 3797 XOR\n2 1 3797 122576 41211 XOR\n2 1 41210 41211 41209 AND\n2 1 41209 122576 122577 XOR\n2 1 22 122577 41213 XOR\n2 1 21 3797 122607 XOR\n2 1 122607 122576 95275 XOR\n2 1 91366 42852 42851 AND\n2 1 42851 42852 42854 XOR\n2 1 97451 123525 42966 XOR\n2 1 42966 42967 42965 AND\n2 1 42965 123525 123526 XOR\n2 1 95404 123526 42970 XOR\n2 1 101547 123649 43146 XOR\n2 1 99499 123649 43147 XOR\n2 1 43146 43147 43145 AND\n2 1 43145 123649 123650 XOR\n2 1 123681 123650 97452 XOR\n2 1 97452 95404 123557 XOR\n2 1 123557 123526 93362 XOR\n2 1 93362 42854 91367 XOR\n2 1 91367 108875 17201 XOR\n2 1 17200 17201 17199 AND\n2 1 17199 108875 108876 XOR\n2 1 4375 108876 17203 XOR\n2 1 91367 85223 108968 XOR\n2 1 108968 108937 4246 XOR\n2 1 91367 108937 17290 XOR\n2 1 17290 17291 17289 AND\n2 1 17289 108937 108938 XOR\n2 1 85224 108938 17294 XOR\n2 1 4374 91367 108906 XOR\n2 1 108906 108875 3798 XOR\n2 1 3798 122577 41214 XOR\n2 1 41213 41214 41212 AND\n2 1 41212 122577 122578 XOR\n2 1 23 122578 41216 XOR\n2 1 22 3798 122608 XOR\n2 1 122608 122577 95276 XOR\n2 1 91367 42854 42853 AND\n2 1 42853 42854 42856 XOR\n2 1 97452 123526 42969 XOR\n2 1 42969 42970 42968 AND\n2 1 42968 123526 123527 XOR\n2 1 95405 123527 42973 XOR\n2 1 101548 123650 43149 XOR\n2 1 99500 123650 43150 XOR\n2 1 43149 43150 43148 AND\n2 1 43148 123650 123651 XOR\n2 1 123682 123651 97453 XOR\n2 1 97453 95405 123558 XOR\n2 1 123558 123527 93363 XOR\n",
"2 1 93363 42856 91368 XOR\n2 1 91368 108876 17204 XOR\n2 1 17203 17204 17202 AND\n2 1 17202 108876 108877 XOR\n2 1 4376 108877 17206 XOR\n2 1 91368 85224 108969 XOR\n2 1 108969 108938 4247 XOR\n2 1 91368 108938 17293 XOR\n2 1 17293 17294 17292 AND\n2 1 17292 108938 108939 XOR\n2 1 85225 108939 17297 XOR\n2 1 4375 91368 108907 XOR\n2 1 108907 108876 3799 XOR\n2 1 3799 122578 41217 XOR\n2 1 41216 41217 41215 AND\n2 1 41215 122578 122579 XOR\n2 1 24 122579 41219 XOR\n2 1 23 3799 122609 XOR\n2 1 122609 122578 95277 XOR\n2 1 91368 42856 42855 AND\n2 1 42855 42856 42885 XOR\n1 1 42885 42859 INV\n2 1 97453 123527 42972 XOR\n2 1 42972 42973 42971 AND\n2 1 42971 123527 123528 XOR\n2 1 95406 123528 42976 XOR\n2 1 101549 123651 43152 XOR\n2 1 99501 123651 43153 XOR\n2 1 43152 43153 43151 AND\n2 1 43151 123651 123652 XOR\n2 1 123683 123652 97454 XOR\n2 1 97454 95406 123559 XOR\n2 1 123559 123528 93364 XOR\n1 1 93364 42901 INV\n2 1 42901 42885 91369 XOR\n2 1 4376 91369 108908 XOR\n2 1 108908 108877 3800 XOR\n2 1 91369 108877 17207 XOR\n2 1 17206 17207 17205 AND\n2 1 17205 108877 108878 XOR\n2 1 4377 108878 17209 XOR\n2 1 91369 85225 108970 XOR\n2 1 108970 108939 4248 XOR\n2 1 91369 108939 17296 XOR\n2 1 17296 17297 17295 AND\n2 1 17295 108939 108940 XOR\n2 1 85226 108940 17300 XOR\n2 1 24 3800 122610 XOR\n2 1 122610 122579 95278 XOR\n2 1 3800 122579 41220 XOR\n2 1 41219 41220 41218 AND\n2 1 41218 122579 122580 XOR\n2 1 25 122580 41222 XOR\n2 1 93364 42885 42858 XOR\n2 1 42858 42859 42857 AND\n2 1 42857 42885 42861 XOR\n2 1 97454 123528 42975 XOR\n2 1 42975 42976 42974 AND\n2 1 42974 123528 123529 XOR\n2 1 95407 123529 42979 XOR\n2 1 101550 123652 43155 XOR\n2 1 99502 123652 43156 XOR\n2 1 43155 43156 43154 AND\n2 1 43154 123652 123653 XOR\n2 1 123684 123653 97455 XOR\n2 1 97455 95407 123560 XOR\n2 1 123560 123529 93365 XOR\n2 1 93365 42861 91370 XOR\n2 1 91370 108878 17210 XOR\n2 1 17209 17210 17208 AND\n2 1 17208 108878 108879 XOR\n2 1 4378 108879 17212 XOR\n2 1 91370 85226 108971 XOR\n2 1 108971 108940 4249 XOR\n2 1 91370 108940 17299 XOR\n2 1 17299 17300 17298 AND\n2 1 17298 108940 108941 XOR\n2 1 85227 108941 17303 XOR\n2 1 4377 91370 108909 XOR\n2 1 108909 108878 3801 XOR\n2 1 3801 122580 41223 XOR\n2 1 41222 41223 41221 AND\n2 1 41221 122580 122581 XOR\n2 1 26 122581 41225 XOR\n2 1 25 3801 122611 XOR\n2 1 122611 122580 95279 XOR\n2 1 91370 42861 42860 AND\n2 1 42860 42861 42886 XOR\n1 1 42886 42864 INV\n2 1 97455 123529 42978 XOR\n2 1 42978 42979 42977 AND\n2 1 42977 123529 123530 XOR\n2 1 95408 123530 42982 XOR\n2 1 101551 123653 43158 XOR\n2 1 99503 123653 43159 XOR\n2 1 43158 43159 43157 AND\n2 1 43157 123653 123654 XOR\n2 1 123685 123654 97456 XOR\n2 1 97456 95408 123561 XOR\n2 1 123561 123530 93366 XOR\n1 1 93366 42902 INV\n2 1 42902 42886 91371 XOR\n2 1 4378 91371 108910 XOR\n2 1 108910 108879 3802 XOR\n2 1 91371 108879 17213 XOR\n2 1 17212 17213 17211 AND\n2 1 17211 108879 108880 XOR\n2 1 4379 108880 17215 XOR\n2 1 91371 85227 108972 XOR\n2 1 108972 108941 4250 XOR\n2 1 91371 108941 17302 XOR\n2 1 17302 17303 17301 AND\n2 1 17301 108941 108942 XOR\n2 1 85228 108942 17306 XOR\n2 1 26 3802 122612 XOR\n2 1 122612 122581 95280 XOR\n2 1 3802 122581 41226 XOR\n2 1 41225 41226 41224 AND\n2 1 41224 122581 122582 XOR\n2 1 27 122582 41228 XOR\n2 1 93366 42886 42863 XOR\n2 1 42863 42864 42862 AND\n2 1 42862 42886 42866 XOR\n2 1 97456 123530 42981 XOR\n2 1 42981 42982 42980 AND\n2 1 42980 123530 123531 XOR\n2 1 95409 123531 42985 XOR\n2 1 101552 123654 43161 XOR\n",
"2 1 99504 123654 43162 XOR\n2 1 43161 43162 43160 AND\n2 1 43160 123654 123655 XOR\n2 1 123686 123655 97457 XOR\n2 1 97457 95409 123562 XOR\n2 1 123562 123531 93367 XOR\n2 1 93367 42866 91372 XOR\n2 1 91372 108880 17216 XOR\n2 1 17215 17216 17214 AND\n2 1 17214 108880 108881 XOR\n2 1 4380 108881 17218 XOR\n2 1 91372 85228 108973 XOR\n2 1 108973 108942 4251 XOR\n2 1 91372 108942 17305 XOR\n2 1 17305 17306 17304 AND\n2 1 17304 108942 108943 XOR\n2 1 85229 108943 17309 XOR\n2 1 4379 91372 108911 XOR\n2 1 108911 108880 3803 XOR\n2 1 3803 122582 41229 XOR\n2 1 41228 41229 41227 AND\n2 1 41227 122582 122583 XOR\n2 1 28 122583 41231 XOR\n2 1 27 3803 122613 XOR\n2 1 122613 122582 95281 XOR\n2 1 91372 42866 42865 AND\n2 1 42865 42866 42887 XOR\n1 1 42887 42869 INV\n2 1 97457 123531 42984 XOR\n2 1 42984 42985 42983 AND\n2 1 42983 123531 123532 XOR\n2 1 95410 123532 42988 XOR\n2 1 101553 123655 43164 XOR\n2 1 99505 123655 43165 XOR\n2 1 43164 43165 43163 AND\n2 1 43163 123655 123656 XOR\n2 1 123687 123656 97458 XOR\n2 1 97458 95410 123563 XOR\n2 1 123563 123532 93368 XOR\n1 1 93368 42903 INV\n2 1 42903 42887 91373 XOR\n2 1 4380 91373 108912 XOR\n2 1 108912 108881 3804 XOR\n2 1 91373 108881 17219 XOR\n2 1 17218 17219 17217 AND\n2 1 17217 108881 108882 XOR\n2 1 4381 108882 17221 XOR\n2 1 91373 85229 108974 XOR\n2 1 108974 108943 4252 XOR\n2 1 91373 108943 17308 XOR\n2 1 17308 17309 17307 AND\n2 1 17307 108943 108944 XOR\n2 1 85230 108944 17312 XOR\n2 1 28 3804 122614 XOR\n2 1 122614 122583 95282 XOR\n2 1 3804 122583 41232 XOR\n2 1 41231 41232 41230 AND\n2 1 41230 122583 122584 XOR\n2 1 29 122584 41234 XOR\n2 1 93368 42887 42868 XOR\n2 1 42868 42869 42867 AND\n2 1 42867 42887 42871 XOR\n2 1 97458 123532 42987 XOR\n2 1 42987 42988 42986 AND\n2 1 42986 123532 123533 XOR\n2 1 95411 123533 42991 XOR\n2 1 101554 123656 43167 XOR\n2 1 99506 123656 43168 XOR\n2 1 43167 43168 43166 AND\n2 1 43166 123656 123657 XOR\n2 1 123688 123657 97459 XOR\n2 1 97459 95411 123564 XOR\n2 1 123564 123533 93369 XOR\n2 1 93369 42871 91374 XOR\n2 1 91374 108882 17222 XOR\n2 1 17221 17222 17220 AND\n2 1 17220 108882 108883 XOR\n2 1 4382 108883 17224 XOR\n2 1 91374 85230 108975 XOR\n2 1 108975 108944 4253 XOR\n2 1 91374 108944 17311 XOR\n2 1 17311 17312 17310 AND\n2 1 17310 108944 108945 XOR\n2 1 85231 108945 17315 XOR\n2 1 4381 91374 108913 XOR\n2 1 108913 108882 3805 XOR\n2 1 3805 122584 41235 XOR\n2 1 41234 41235 41233 AND\n2 1 41233 122584 122585 XOR\n2 1 30 122585 41237 XOR\n2 1 29 3805 122615 XOR\n2 1 122615 122584 95283 XOR\n2 1 91374 42871 42870 AND\n2 1 42870 42871 42888 XOR\n1 1 42888 42874 INV\n2 1 97459 123533 42990 XOR\n2 1 42990 42991 42989 AND\n2 1 42989 123533 123534 XOR\n2 1 95412 123534 42994 XOR\n2 1 101555 123657 43170 XOR\n2 1 99507 123657 43171 XOR\n2 1 43170 43171 43169 AND\n2 1 43169 123657 123658 XOR\n2 1 123689 123658 97460 XOR\n2 1 97460 95412 123565 XOR\n2 1 123565 123534 93370 XOR\n1 1 93370 42904 INV\n2 1 42904 42888 91375 XOR\n2 1 4382 91375 108914 XOR\n2 1 108914 108883 3806 XOR\n2 1 91375 108883 17225 XOR\n2 1 17224 17225 17223 AND\n2 1 17223 108883 108884 XOR\n2 1 91375 85231 108976 XOR\n2 1 108976 108945 4254 XOR\n2 1 91375 108945 17314 XOR\n2 1 17314 17315 17313 AND\n2 1 17313 108945 108946 XOR\n2 1 30 3806 122616 XOR\n2 1 122616 122585 95284 XOR\n2 1 3806 122585 41238 XOR\n2 1 41237 41238 41236 AND\n2 1 41236 122585 122586 XOR\n2 1 93370 42888 42873 XOR\n2 1 42873 42874 42872 AND\n2 1 42872 42888 42889 XOR\n2 1 97460 123534 42993 XOR\n2 1 42993 42994 42992 AND\n",
"2 1 42992 123534 123535 XOR\n2 1 101556 123658 43173 XOR\n2 1 99508 123658 43174 XOR\n2 1 43173 43174 43172 AND\n2 1 43172 123658 123659 XOR\n2 1 123690 123659 97461 XOR\n2 1 97461 95413 123566 XOR\n2 1 123566 123535 93371 XOR\n2 1 93371 42889 91376 XOR\n2 1 4383 91376 108915 XOR\n2 1 108915 108884 3807 XOR\n2 1 91376 85232 108977 XOR\n2 1 108977 108946 4255 XOR\n2 1 31 3807 122617 XOR\n2 1 122617 122586 95285 XOR\n2 1 4255 4319 73742 XOR\n2 1 4254 4318 73741 XOR\n2 1 4253 4317 73740 XOR\n2 1 4252 4316 73739 XOR\n2 1 4251 4315 73738 XOR\n2 1 4250 4314 73737 XOR\n2 1 4249 4313 73736 XOR\n2 1 4248 4312 73735 XOR\n2 1 4247 4311 73734 XOR\n2 1 4246 4310 73733 XOR\n2 1 4245 4309 73732 XOR\n2 1 4244 4308 73731 XOR\n2 1 4243 4307 73730 XOR\n2 1 4242 4306 73729 XOR\n2 1 4241 4305 73728 XOR\n2 1 4240 4304 73727 XOR\n2 1 4239 4303 73726 XOR\n2 1 4238 4302 73725 XOR\n2 1 4237 4301 73724 XOR\n2 1 4236 4300 73723 XOR\n2 1 4235 4299 73722 XOR\n2 1 4234 4298 73721 XOR\n2 1 4233 4297 73720 XOR\n2 1 4232 4296 73719 XOR\n2 1 4231 4295 73718 XOR\n2 1 4230 4294 73717 XOR\n2 1 4229 4293 73716 XOR\n2 1 4228 4292 73715 XOR\n2 1 4227 4291 73714 XOR\n2 1 4226 4290 73713 XOR\n2 1 4225 4289 73712 XOR\n2 1 4224 4288 73711 XOR\n2 1 73742 73710 73678 AND\n2 1 73741 73709 73677 AND\n2 1 73740 73708 73676 AND\n2 1 73739 73707 73675 AND\n2 1 73738 73706 73674 AND\n2 1 73737 73705 73673 AND\n2 1 73736 73704 73672 AND\n2 1 73735 73703 73671 AND\n2 1 73734 73702 73670 AND\n2 1 73733 73701 73669 AND\n2 1 73732 73700 73668 AND\n2 1 73731 73699 73667 AND\n2 1 73730 73698 73666 AND\n2 1 73729 73697 73665 AND\n2 1 73728 73696 73664 AND\n2 1 73727 73695 73663 AND\n2 1 73726 73694 73662 AND\n2 1 73725 73693 73661 AND\n2 1 73724 73692 73660 AND\n2 1 73723 73691 73659 AND\n2 1 73722 73690 73658 AND\n2 1 73721 73689 73657 AND\n2 1 73720 73688 73656 AND\n2 1 73719 73687 73655 AND\n2 1 73718 73686 73654 AND\n2 1 73717 73685 73653 AND\n2 1 73716 73684 73652 AND\n2 1 73715 73683 73651 AND\n2 1 73714 73682 73650 AND\n2 1 73713 73681 73649 AND\n2 1 73712 73680 73648 AND\n2 1 73711 73679 73647 AND\n2 1 73678 4319 87248 XOR\n2 1 73677 4318 87247 XOR\n2 1 73676 4317 87246 XOR\n2 1 73675 4316 87245 XOR\n2 1 73674 4315 87244 XOR\n2 1 73673 4314 87243 XOR\n2 1 73672 4313 87242 XOR\n2 1 73671 4312 87241 XOR\n2 1 73670 4311 87240 XOR\n2 1 73669 4310 87239 XOR\n2 1 73668 4309 87238 XOR\n2 1 73667 4308 87237 XOR\n2 1 73666 4307 87236 XOR\n2 1 73665 4306 87235 XOR\n2 1 73664 4305 87234 XOR\n2 1 73663 4304 87233 XOR\n2 1 73662 4303 87232 XOR\n2 1 73661 4302 87231 XOR\n2 1 73660 4301 87230 XOR\n2 1 73659 4300 87229 XOR\n2 1 73658 4299 87228 XOR\n2 1 73657 4298 87227 XOR\n2 1 73656 4297 87226 XOR\n2 1 73655 4296 87225 XOR\n2 1 73654 4295 87224 XOR\n2 1 73653 4294 87223 XOR\n2 1 73652 4293 87222 XOR\n2 1 73651 4292 87221 XOR\n2 1 73650 4291 87220 XOR\n2 1 73649 4290 87219 XOR\n2 1 73648 4289 87218 XOR\n2 1 73647 4288 87217 XOR\n2 1 4255 4287 73614 XOR\n2 1 4254 4286 73613 XOR\n2 1 4253 4285 73612 XOR\n2 1 4252 4284 73611 XOR\n2 1 4251 4283 73610 XOR\n2 1 4250 4282 73609 XOR\n2 1 4249 4281 73608 XOR\n2 1 4248 4280 73607 XOR\n2 1 4247 4279 73606 XOR\n2 1 4246 4278 73605 XOR\n2 1 4245 4277 73604 XOR\n2 1 4244 4276 73603 XOR\n2 1 4243 4275 73602 XOR\n2 1 4242 4274 73601 XOR\n2 1 4241 4273 73600 XOR\n2 1 4240 4272 73599 XOR\n2 1 4239 4271 73598 XOR\n",
"2 1 4238 4270 73597 XOR\n2 1 4237 4269 73596 XOR\n2 1 4236 4268 73595 XOR\n2 1 4235 4267 73594 XOR\n2 1 4234 4266 73593 XOR\n2 1 4233 4265 73592 XOR\n2 1 4232 4264 73591 XOR\n2 1 4231 4263 73590 XOR\n2 1 4230 4262 73589 XOR\n2 1 4229 4261 73588 XOR\n2 1 4228 4260 73587 XOR\n2 1 4227 4259 73586 XOR\n2 1 4226 4258 73585 XOR\n2 1 4225 4257 73584 XOR\n2 1 4224 4256 73583 XOR\n2 1 4225 4236 68398 XOR\n2 1 4224 4235 68397 XOR\n2 1 4255 4234 68396 XOR\n2 1 4254 4233 68395 XOR\n2 1 4253 4232 68394 XOR\n2 1 4252 4231 68393 XOR\n2 1 4251 4230 68392 XOR\n2 1 4250 4229 68391 XOR\n2 1 4249 4228 68390 XOR\n2 1 4248 4227 68389 XOR\n2 1 4247 4226 68388 XOR\n2 1 4246 4225 68387 XOR\n2 1 4245 4224 68386 XOR\n2 1 4244 4255 68385 XOR\n2 1 4243 4254 68384 XOR\n2 1 4242 4253 68383 XOR\n2 1 4241 4252 68382 XOR\n2 1 4240 4251 68381 XOR\n2 1 4239 4250 68380 XOR\n2 1 4238 4249 68379 XOR\n2 1 4237 4248 68378 XOR\n2 1 4236 4247 68377 XOR\n2 1 4235 4246 68376 XOR\n2 1 4234 4245 68375 XOR\n2 1 4233 4244 68374 XOR\n2 1 4232 4243 68373 XOR\n2 1 4231 4242 68372 XOR\n2 1 4230 4241 68371 XOR\n2 1 4229 4240 68370 XOR\n2 1 4228 4239 68369 XOR\n2 1 4227 4238 68368 XOR\n2 1 4226 4237 68367 XOR\n2 1 68398 4245 89296 XOR\n2 1 89296 87248 123237 XOR\n2 1 68397 4244 89295 XOR\n2 1 89295 87247 123236 XOR\n2 1 68396 4243 89294 XOR\n2 1 89294 87246 123235 XOR\n2 1 68395 4242 89293 XOR\n2 1 89293 87245 123234 XOR\n2 1 68394 4241 89292 XOR\n2 1 89292 87244 123233 XOR\n2 1 68393 4240 89291 XOR\n2 1 89291 87243 123232 XOR\n2 1 68392 4239 89290 XOR\n2 1 89290 87242 123231 XOR\n2 1 68391 4238 89289 XOR\n2 1 89289 87241 123230 XOR\n2 1 68390 4237 89288 XOR\n2 1 89288 87240 123229 XOR\n2 1 68389 4236 89287 XOR\n2 1 89287 87239 123228 XOR\n2 1 68388 4235 89286 XOR\n2 1 89286 87238 123227 XOR\n2 1 68387 4234 89285 XOR\n2 1 89285 87237 123226 XOR\n2 1 68386 4233 89284 XOR\n2 1 89284 87236 123225 XOR\n2 1 68385 4232 89283 XOR\n2 1 89283 87235 123224 XOR\n2 1 68384 4231 89282 XOR\n2 1 89282 87234 123223 XOR\n2 1 68383 4230 89281 XOR\n2 1 89281 87233 123222 XOR\n2 1 68382 4229 89280 XOR\n2 1 89280 87232 123221 XOR\n2 1 68381 4228 89279 XOR\n2 1 89279 87231 123220 XOR\n2 1 68380 4227 89278 XOR\n2 1 89278 87230 123219 XOR\n2 1 68379 4226 89277 XOR\n2 1 89277 87229 123218 XOR\n2 1 68378 4225 89276 XOR\n2 1 89276 87228 123217 XOR\n2 1 68377 4224 89275 XOR\n2 1 89275 87227 123216 XOR\n2 1 68376 4255 89274 XOR\n2 1 89274 87226 123215 XOR\n2 1 68375 4254 89273 XOR\n2 1 89273 87225 123214 XOR\n2 1 68374 4253 89272 XOR\n2 1 89272 87224 123213 XOR\n2 1 68373 4252 89271 XOR\n2 1 89271 87223 123212 XOR\n2 1 68372 4251 89270 XOR\n2 1 89270 87222 123211 XOR\n2 1 68371 4250 89269 XOR\n2 1 89269 87221 123210 XOR\n2 1 68370 4249 89268 XOR\n2 1 89268 87220 123209 XOR\n2 1 68369 4248 89267 XOR\n2 1 89267 87219 123208 XOR\n2 1 68368 4247 89266 XOR\n2 1 89266 87218 123207 XOR\n2 1 68367 4246 89265 XOR\n2 1 89265 87217 123176 AND\n2 1 89265 87217 85169 XOR\n2 1 123207 123176 85170 XOR\n2 1 89266 123176 42261 XOR\n2 1 87218 123176 42262 XOR\n2 1 42261 42262 42260 AND\n2 1 42260 123176 123177 XOR\n2 1 123208 123177 85171 XOR\n2 1 89267 123177 42264 XOR\n2 1 87219 123177 42265 XOR\n2 1 42264 42265 42263 AND\n2 1 42263 123177 123178 XOR\n2 1 123209 123178 85172 XOR\n2 1 89268 123178 42267 XOR\n2 1 87220 123178 42268 XOR\n2 1 42267 42268 42266 AND\n2 1 42266 123178 123179 XOR\n2 1 123210 123179 85173 XOR\n",
"2 1 89269 123179 42270 XOR\n2 1 87221 123179 42271 XOR\n2 1 42270 42271 42269 AND\n2 1 42269 123179 123180 XOR\n2 1 123211 123180 85174 XOR\n2 1 89270 123180 42273 XOR\n2 1 87222 123180 42274 XOR\n2 1 42273 42274 42272 AND\n2 1 42272 123180 123181 XOR\n2 1 123212 123181 85175 XOR\n2 1 89271 123181 42276 XOR\n2 1 87223 123181 42277 XOR\n2 1 42276 42277 42275 AND\n2 1 42275 123181 123182 XOR\n2 1 123213 123182 85176 XOR\n2 1 89272 123182 42279 XOR\n2 1 87224 123182 42280 XOR\n2 1 42279 42280 42278 AND\n2 1 42278 123182 123183 XOR\n2 1 123214 123183 85177 XOR\n2 1 89273 123183 42282 XOR\n2 1 87225 123183 42283 XOR\n2 1 42282 42283 42281 AND\n2 1 42281 123183 123184 XOR\n2 1 123215 123184 85178 XOR\n2 1 89274 123184 42285 XOR\n2 1 87226 123184 42286 XOR\n2 1 42285 42286 42284 AND\n2 1 42284 123184 123185 XOR\n2 1 123216 123185 85179 XOR\n2 1 89275 123185 42288 XOR\n2 1 87227 123185 42289 XOR\n2 1 42288 42289 42287 AND\n2 1 42287 123185 123186 XOR\n2 1 123217 123186 85180 XOR\n2 1 89276 123186 42291 XOR\n2 1 87228 123186 42292 XOR\n2 1 42291 42292 42290 AND\n2 1 42290 123186 123187 XOR\n2 1 123218 123187 85181 XOR\n2 1 89277 123187 42294 XOR\n2 1 87229 123187 42295 XOR\n2 1 42294 42295 42293 AND\n2 1 42293 123187 123188 XOR\n2 1 123219 123188 85182 XOR\n2 1 89278 123188 42297 XOR\n2 1 87230 123188 42298 XOR\n2 1 42297 42298 42296 AND\n2 1 42296 123188 123189 XOR\n2 1 123220 123189 85183 XOR\n2 1 89279 123189 42300 XOR\n2 1 87231 123189 42301 XOR\n2 1 42300 42301 42299 AND\n2 1 42299 123189 123190 XOR\n2 1 123221 123190 85184 XOR\n2 1 89280 123190 42303 XOR\n2 1 87232 123190 42304 XOR\n2 1 42303 42304 42302 AND\n2 1 42302 123190 123191 XOR\n2 1 123222 123191 85185 XOR\n2 1 89281 123191 42306 XOR\n2 1 87233 123191 42307 XOR\n2 1 42306 42307 42305 AND\n2 1 42305 123191 123192 XOR\n2 1 123223 123192 85186 XOR\n2 1 89282 123192 42309 XOR\n2 1 87234 123192 42310 XOR\n2 1 42309 42310 42308 AND\n2 1 42308 123192 123193 XOR\n2 1 123224 123193 85187 XOR\n2 1 89283 123193 42312 XOR\n2 1 87235 123193 42313 XOR\n2 1 42312 42313 42311 AND\n2 1 42311 123193 123194 XOR\n2 1 123225 123194 85188 XOR\n2 1 89284 123194 42315 XOR\n2 1 87236 123194 42316 XOR\n2 1 42315 42316 42314 AND\n2 1 42314 123194 123195 XOR\n2 1 123226 123195 85189 XOR\n2 1 89285 123195 42318 XOR\n2 1 87237 123195 42319 XOR\n2 1 42318 42319 42317 AND\n2 1 42317 123195 123196 XOR\n2 1 123227 123196 85190 XOR\n2 1 89286 123196 42321 XOR\n2 1 87238 123196 42322 XOR\n2 1 42321 42322 42320 AND\n2 1 42320 123196 123197 XOR\n2 1 123228 123197 85191 XOR\n2 1 89287 123197 42324 XOR\n2 1 87239 123197 42325 XOR\n2 1 42324 42325 42323 AND\n2 1 42323 123197 123198 XOR\n2 1 123229 123198 85192 XOR\n2 1 89288 123198 42327 XOR\n2 1 87240 123198 42328 XOR\n2 1 42327 42328 42326 AND\n2 1 42326 123198 123199 XOR\n2 1 123230 123199 85193 XOR\n2 1 89289 123199 42330 XOR\n2 1 87241 123199 42331 XOR\n2 1 42330 42331 42329 AND\n2 1 42329 123199 123200 XOR\n2 1 123231 123200 85194 XOR\n2 1 89290 123200 42333 XOR\n2 1 87242 123200 42334 XOR\n2 1 42333 42334 42332 AND\n2 1 42332 123200 123201 XOR\n2 1 123232 123201 85195 XOR\n2 1 89291 123201 42336 XOR\n2 1 87243 123201 42337 XOR\n2 1 42336 42337 42335 AND\n2 1 42335 123201 123202 XOR\n2 1 123233 123202 85196 XOR\n2 1 89292 123202 42339 XOR\n2 1 87244 123202 42340 XOR\n2 1 42339 42340 42338 AND\n2 1 42338 123202 123203 XOR\n2 1 123234 123203 85197 XOR\n2 1 89293 123203 42342 XOR\n2 1 87245 123203 42343 XOR\n2 1 42342 42343 42341 AND\n2 1 42341 123203 123204 XOR\n2 1 123235 123204 85198 XOR\n2 1 89294 123204 42345 XOR\n2 1 87246 123204 42346 XOR\n2 1 42345 42346 42344 AND\n",
"2 1 42344 123204 123205 XOR\n2 1 123236 123205 85199 XOR\n2 1 89295 123205 42348 XOR\n2 1 87247 123205 42349 XOR\n2 1 42348 42349 42347 AND\n2 1 42347 123205 123206 XOR\n2 1 123237 123206 85200 XOR\n2 1 66158 3807 66126 AND\n2 1 66157 3806 66125 AND\n2 1 66156 3805 66124 AND\n2 1 66155 3804 66123 AND\n2 1 66154 3803 66122 AND\n2 1 66153 3802 66121 AND\n2 1 66152 3801 66120 AND\n2 1 66151 3800 66119 AND\n2 1 66150 3799 66118 AND\n2 1 66149 3798 66117 AND\n2 1 66148 3797 66116 AND\n2 1 66147 3796 66115 AND\n2 1 66146 3795 66114 AND\n2 1 66145 3794 66113 AND\n2 1 66144 3793 66112 AND\n2 1 66143 3792 66111 AND\n2 1 66142 3791 66110 AND\n2 1 66141 3790 66109 AND\n2 1 66140 3789 66108 AND\n2 1 66139 3788 66107 AND\n2 1 66138 3787 66106 AND\n2 1 66137 3786 66105 AND\n2 1 66136 3785 66104 AND\n2 1 66135 3784 66103 AND\n2 1 66134 3783 66102 AND\n2 1 66133 3782 66101 AND\n2 1 66132 3781 66100 AND\n2 1 66131 3780 66099 AND\n2 1 66130 3779 66098 AND\n2 1 66129 3778 66097 AND\n2 1 66128 3777 66096 AND\n2 1 66127 3776 66095 AND\n2 1 66126 3871 99477 XOR\n2 1 66125 3870 99476 XOR\n2 1 66124 3869 99475 XOR\n2 1 66123 3868 99474 XOR\n2 1 66122 3867 99473 XOR\n2 1 66121 3866 99472 XOR\n2 1 66120 3865 99471 XOR\n2 1 66119 3864 99470 XOR\n2 1 66118 3863 99469 XOR\n2 1 66117 3862 99468 XOR\n2 1 66116 3861 99467 XOR\n2 1 66115 3860 99466 XOR\n2 1 66114 3859 99465 XOR\n2 1 66113 3858 99464 XOR\n2 1 66112 3857 99463 XOR\n2 1 66111 3856 99462 XOR\n2 1 66110 3855 99461 XOR\n2 1 66109 3854 99460 XOR\n2 1 66108 3853 99459 XOR\n2 1 66107 3852 99458 XOR\n2 1 66106 3851 99457 XOR\n2 1 66105 3850 99456 XOR\n2 1 66104 3849 99455 XOR\n2 1 66103 3848 99454 XOR\n2 1 66102 3847 99453 XOR\n2 1 66101 3846 99452 XOR\n2 1 66100 3845 99451 XOR\n2 1 66099 3844 99450 XOR\n2 1 66098 3843 99449 XOR\n2 1 66097 3842 99448 XOR\n2 1 66096 3841 99447 XOR\n2 1 66095 3840 99446 XOR\n2 1 3807 3839 66094 XOR\n2 1 3806 3838 66093 XOR\n2 1 3805 3837 66092 XOR\n2 1 3804 3836 66091 XOR\n2 1 3803 3835 66090 XOR\n2 1 3802 3834 66089 XOR\n2 1 3801 3833 66088 XOR\n2 1 3800 3832 66087 XOR\n2 1 3799 3831 66086 XOR\n2 1 3798 3830 66085 XOR\n2 1 3797 3829 66084 XOR\n2 1 3796 3828 66083 XOR\n2 1 3795 3827 66082 XOR\n2 1 3794 3826 66081 XOR\n2 1 3793 3825 66080 XOR\n2 1 3792 3824 66079 XOR\n2 1 3791 3823 66078 XOR\n2 1 3790 3822 66077 XOR\n2 1 3789 3821 66076 XOR\n2 1 3788 3820 66075 XOR\n2 1 3787 3819 66074 XOR\n2 1 3786 3818 66073 XOR\n2 1 3785 3817 66072 XOR\n2 1 3784 3816 66071 XOR\n2 1 3783 3815 66070 XOR\n2 1 3782 3814 66069 XOR\n2 1 3781 3813 66068 XOR\n2 1 3780 3812 66067 XOR\n2 1 3779 3811 66066 XOR\n2 1 3778 3810 66065 XOR\n2 1 3777 3809 66064 XOR\n2 1 3776 3808 66063 XOR\n2 1 3781 3786 62478 XOR\n2 1 3780 3785 62477 XOR\n2 1 3779 3784 62476 XOR\n2 1 3778 3783 62475 XOR\n2 1 3777 3782 62474 XOR\n2 1 3776 3781 62473 XOR\n2 1 3807 3780 62472 XOR\n2 1 3806 3779 62471 XOR\n2 1 3805 3778 62470 XOR\n2 1 3804 3777 62469 XOR\n2 1 3803 3776 62468 XOR\n2 1 3802 3807 62467 XOR\n2 1 3801 3806 62466 XOR\n2 1 3800 3805 62465 XOR\n2 1 3799 3804 62464 XOR\n2 1 3798 3803 62463 XOR\n2 1 3797 3802 62462 XOR\n2 1 3796 3801 62461 XOR\n2 1 3795 3800 62460 XOR\n2 1 3794 3799 62459 XOR\n2 1 3793 3798 62458 XOR\n2 1 3792 3797 62457 XOR\n2 1 3791 3796 62456 XOR\n2 1 3790 3795 62455 XOR\n2 1 3789 3794 62454 XOR\n",
"2 1 3788 3793 62453 XOR\n2 1 3787 3792 62452 XOR\n2 1 3786 3791 62451 XOR\n2 1 3785 3790 62450 XOR\n2 1 3784 3789 62449 XOR\n2 1 3783 3788 62448 XOR\n2 1 3782 3787 62447 XOR\n2 1 62478 3800 101525 XOR\n2 1 101525 99477 123442 XOR\n2 1 62477 3799 101524 XOR\n2 1 101524 99476 123441 XOR\n2 1 62476 3798 101523 XOR\n2 1 101523 99475 123440 XOR\n2 1 62475 3797 101522 XOR\n2 1 101522 99474 123439 XOR\n2 1 62474 3796 101521 XOR\n2 1 101521 99473 123438 XOR\n2 1 62473 3795 101520 XOR\n2 1 101520 99472 123437 XOR\n2 1 62472 3794 101519 XOR\n2 1 101519 99471 123436 XOR\n2 1 62471 3793 101518 XOR\n2 1 101518 99470 123435 XOR\n2 1 62470 3792 101517 XOR\n2 1 101517 99469 123434 XOR\n2 1 62469 3791 101516 XOR\n2 1 101516 99468 123433 XOR\n2 1 62468 3790 101515 XOR\n2 1 101515 99467 123432 XOR\n2 1 62467 3789 101514 XOR\n2 1 101514 99466 123431 XOR\n2 1 62466 3788 101513 XOR\n2 1 101513 99465 123430 XOR\n2 1 62465 3787 101512 XOR\n2 1 101512 99464 123429 XOR\n2 1 62464 3786 101511 XOR\n2 1 101511 99463 123428 XOR\n2 1 62463 3785 101510 XOR\n2 1 101510 99462 123427 XOR\n2 1 62462 3784 101509 XOR\n2 1 101509 99461 123426 XOR\n2 1 62461 3783 101508 XOR\n2 1 101508 99460 123425 XOR\n2 1 62460 3782 101507 XOR\n2 1 101507 99459 123424 XOR\n2 1 62459 3781 101506 XOR\n2 1 101506 99458 123423 XOR\n2 1 62458 3780 101505 XOR\n2 1 101505 99457 123422 XOR\n2 1 62457 3779 101504 XOR\n2 1 101504 99456 123421 XOR\n2 1 62456 3778 101503 XOR\n2 1 101503 99455 123420 XOR\n2 1 62455 3777 101502 XOR\n2 1 101502 99454 123419 XOR\n2 1 62454 3776 101501 XOR\n2 1 101501 99453 123418 XOR\n2 1 62453 3807 101500 XOR\n2 1 101500 99452 123417 XOR\n2 1 62452 3806 101499 XOR\n2 1 101499 99451 123416 XOR\n2 1 62451 3805 101498 XOR\n2 1 101498 99450 123415 XOR\n2 1 62450 3804 101497 XOR\n2 1 101497 99449 123414 XOR\n2 1 62449 3803 101496 XOR\n2 1 101496 99448 123413 XOR\n2 1 62448 3802 101495 XOR\n2 1 101495 99447 123412 XOR\n2 1 62447 3801 101494 XOR\n2 1 101494 99446 123381 AND\n2 1 101494 99446 97398 XOR\n2 1 97398 95350 123257 AND\n2 1 97398 95350 91313 XOR\n2 1 4320 91313 108730 AND\n2 1 4321 108730 16957 XOR\n2 1 95351 123257 42443 XOR\n2 1 123412 123381 97399 XOR\n2 1 97399 95351 123288 XOR\n2 1 123288 123257 91314 XOR\n2 1 4321 91314 108761 XOR\n2 1 108761 108730 3745 XOR\n2 1 91314 108730 16958 XOR\n2 1 16957 16958 16956 AND\n2 1 16956 108730 108731 XOR\n2 1 4322 108731 16960 XOR\n2 1 97399 123257 42442 XOR\n2 1 42442 42443 42441 AND\n2 1 42441 123257 123258 XOR\n2 1 95352 123258 42446 XOR\n2 1 101495 123381 42622 XOR\n2 1 99447 123381 42623 XOR\n2 1 42622 42623 42621 AND\n2 1 42621 123381 123382 XOR\n2 1 123413 123382 97400 XOR\n2 1 97400 95352 123289 XOR\n2 1 123289 123258 93310 XOR\n1 1 93310 91315 INV\n2 1 91315 108731 16961 XOR\n2 1 16960 16961 16959 AND\n2 1 16959 108731 108732 XOR\n2 1 4323 108732 16963 XOR\n2 1 97400 123258 42445 XOR\n2 1 42445 42446 42444 AND\n2 1 42444 123258 123259 XOR\n2 1 95353 123259 42449 XOR\n2 1 101496 123382 42625 XOR\n2 1 99448 123382 42626 XOR\n2 1 42625 42626 42624 AND\n2 1 42624 123382 123383 XOR\n2 1 123414 123383 97401 XOR\n2 1 97401 95353 123290 XOR\n2 1 123290 123259 93311 XOR\n2 1 93311 93310 91316 XOR\n2 1 91316 108732 16964 XOR\n2 1 16963 16964 16962 AND\n2 1 16962 108732 108733 XOR\n2 1 4324 108733 16966 XOR\n2 1 4323 91316 108763 XOR\n2 1 108763 108732 3747 XOR\n2 1 91316 93310 42350 AND\n2 1 42350 93310 123238 XOR\n1 1 123238 42353 INV\n2 1 97401 123259 42448 XOR\n2 1 42448 42449 42447 AND\n2 1 42447 123259 123260 XOR\n2 1 95354 123260 42452 XOR\n2 1 101497 123383 42628 XOR\n",
"2 1 99449 123383 42629 XOR\n2 1 42628 42629 42627 AND\n2 1 42627 123383 123384 XOR\n2 1 123415 123384 97402 XOR\n2 1 97402 95354 123291 XOR\n2 1 123291 123260 93312 XOR\n1 1 93312 42423 INV\n2 1 42423 123238 91317 XOR\n2 1 91317 108733 16967 XOR\n2 1 16966 16967 16965 AND\n2 1 16965 108733 108734 XOR\n2 1 4325 108734 16969 XOR\n2 1 93312 123238 42352 XOR\n2 1 42352 42353 42351 AND\n2 1 42351 123238 123239 XOR\n1 1 123239 42356 INV\n2 1 97402 123260 42451 XOR\n2 1 42451 42452 42450 AND\n2 1 42450 123260 123261 XOR\n2 1 95355 123261 42455 XOR\n2 1 101498 123384 42631 XOR\n2 1 99450 123384 42632 XOR\n2 1 42631 42632 42630 AND\n2 1 42630 123384 123385 XOR\n2 1 123416 123385 97403 XOR\n2 1 97403 95355 123292 XOR\n2 1 123292 123261 93313 XOR\n1 1 93313 42424 INV\n2 1 42424 123239 91318 XOR\n2 1 4325 91318 108765 XOR\n2 1 108765 108734 3749 XOR\n2 1 91318 108734 16970 XOR\n2 1 16969 16970 16968 AND\n2 1 16968 108734 108735 XOR\n2 1 4326 108735 16972 XOR\n2 1 93313 123239 42355 XOR\n2 1 42355 42356 42354 AND\n2 1 42354 123239 123240 XOR\n1 1 123240 42359 INV\n2 1 97403 123261 42454 XOR\n2 1 42454 42455 42453 AND\n2 1 42453 123261 123262 XOR\n2 1 95356 123262 42458 XOR\n2 1 101499 123385 42634 XOR\n2 1 99451 123385 42635 XOR\n2 1 42634 42635 42633 AND\n2 1 42633 123385 123386 XOR\n2 1 123417 123386 97404 XOR\n2 1 97404 95356 123293 XOR\n2 1 123293 123262 93314 XOR\n1 1 93314 42425 INV\n2 1 42425 123240 91319 XOR\n2 1 91319 108735 16973 XOR\n2 1 16972 16973 16971 AND\n2 1 16971 108735 108736 XOR\n2 1 4327 108736 16975 XOR\n2 1 93314 123240 42358 XOR\n2 1 42358 42359 42357 AND\n2 1 42357 123240 42361 XOR\n2 1 97404 123262 42457 XOR\n2 1 42457 42458 42456 AND\n2 1 42456 123262 123263 XOR\n2 1 95357 123263 42461 XOR\n2 1 101500 123386 42637 XOR\n2 1 99452 123386 42638 XOR\n2 1 42637 42638 42636 AND\n2 1 42636 123386 123387 XOR\n2 1 123418 123387 97405 XOR\n2 1 97405 95357 123294 XOR\n2 1 123294 123263 93315 XOR\n2 1 93315 42361 91320 XOR\n2 1 91320 108736 16976 XOR\n2 1 16975 16976 16974 AND\n2 1 16974 108736 108737 XOR\n2 1 4328 108737 16978 XOR\n2 1 4327 91320 108767 XOR\n2 1 108767 108736 3751 XOR\n2 1 91320 42361 42360 AND\n2 1 42360 42361 123241 XOR\n1 1 123241 42364 INV\n2 1 97405 123263 42460 XOR\n2 1 42460 42461 42459 AND\n2 1 42459 123263 123264 XOR\n2 1 95358 123264 42464 XOR\n2 1 101501 123387 42640 XOR\n2 1 99453 123387 42641 XOR\n2 1 42640 42641 42639 AND\n2 1 42639 123387 123388 XOR\n2 1 123419 123388 97406 XOR\n2 1 97406 95358 123295 XOR\n2 1 123295 123264 93316 XOR\n1 1 93316 42426 INV\n2 1 42426 123241 91321 XOR\n2 1 91321 108737 16979 XOR\n2 1 16978 16979 16977 AND\n2 1 16977 108737 108738 XOR\n2 1 4329 108738 16981 XOR\n2 1 93316 123241 42363 XOR\n2 1 42363 42364 42362 AND\n2 1 42362 123241 42366 XOR\n2 1 97406 123264 42463 XOR\n2 1 42463 42464 42462 AND\n2 1 42462 123264 123265 XOR\n2 1 95359 123265 42467 XOR\n2 1 101502 123388 42643 XOR\n2 1 99454 123388 42644 XOR\n2 1 42643 42644 42642 AND\n2 1 42642 123388 123389 XOR\n2 1 123420 123389 97407 XOR\n2 1 97407 95359 123296 XOR\n2 1 123296 123265 93317 XOR\n2 1 93317 42366 91322 XOR\n2 1 91322 108738 16982 XOR\n2 1 16981 16982 16980 AND\n2 1 16980 108738 108739 XOR\n2 1 4330 108739 16984 XOR\n2 1 4329 91322 108769 XOR\n2 1 108769 108738 3753 XOR\n2 1 91322 42366 42365 AND\n2 1 42365 42366 123242 XOR\n1 1 123242 42369 INV\n2 1 97407 123265 42466 XOR\n2 1 42466 42467 42465 AND\n2 1 42465 123265 123266 XOR\n2 1 95360 123266 42470 XOR\n2 1 101503 123389 42646 XOR\n2 1 99455 123389 42647 XOR\n2 1 42646 42647 42645 AND\n",
"2 1 42645 123389 123390 XOR\n2 1 123421 123390 97408 XOR\n2 1 97408 95360 123297 XOR\n2 1 123297 123266 93318 XOR\n1 1 93318 42427 INV\n2 1 42427 123242 91323 XOR\n2 1 91323 108739 16985 XOR\n2 1 16984 16985 16983 AND\n2 1 16983 108739 108740 XOR\n2 1 4331 108740 16987 XOR\n2 1 93318 123242 42368 XOR\n2 1 42368 42369 42367 AND\n2 1 42367 123242 123243 XOR\n1 1 123243 42372 INV\n2 1 97408 123266 42469 XOR\n2 1 42469 42470 42468 AND\n2 1 42468 123266 123267 XOR\n2 1 95361 123267 42473 XOR\n2 1 101504 123390 42649 XOR\n2 1 99456 123390 42650 XOR\n2 1 42649 42650 42648 AND\n2 1 42648 123390 123391 XOR\n2 1 123422 123391 97409 XOR\n2 1 97409 95361 123298 XOR\n2 1 123298 123267 93319 XOR\n1 1 93319 42428 INV\n2 1 42428 123243 91324 XOR\n2 1 4331 91324 108771 XOR\n2 1 108771 108740 3755 XOR\n2 1 91324 108740 16988 XOR\n2 1 16987 16988 16986 AND\n2 1 16986 108740 108741 XOR\n2 1 4332 108741 16990 XOR\n2 1 93319 123243 42371 XOR\n2 1 42371 42372 42370 AND\n2 1 42370 123243 123244 XOR\n1 1 123244 42375 INV\n2 1 97409 123267 42472 XOR\n2 1 42472 42473 42471 AND\n2 1 42471 123267 123268 XOR\n2 1 95362 123268 42476 XOR\n2 1 101505 123391 42652 XOR\n2 1 99457 123391 42653 XOR\n2 1 42652 42653 42651 AND\n2 1 42651 123391 123392 XOR\n2 1 123423 123392 97410 XOR\n2 1 97410 95362 123299 XOR\n2 1 123299 123268 93320 XOR\n1 1 93320 42429 INV\n2 1 42429 123244 91325 XOR\n2 1 91325 108741 16991 XOR\n2 1 16990 16991 16989 AND\n2 1 16989 108741 108742 XOR\n2 1 4333 108742 16993 XOR\n2 1 93320 123244 42374 XOR\n2 1 42374 42375 42373 AND\n2 1 42373 123244 42377 XOR\n2 1 97410 123268 42475 XOR\n2 1 42475 42476 42474 AND\n2 1 42474 123268 123269 XOR\n2 1 95363 123269 42479 XOR\n2 1 101506 123392 42655 XOR\n2 1 99458 123392 42656 XOR\n2 1 42655 42656 42654 AND\n2 1 42654 123392 123393 XOR\n2 1 123424 123393 97411 XOR\n2 1 97411 95363 123300 XOR\n2 1 123300 123269 93321 XOR\n2 1 93321 42377 91326 XOR\n2 1 91326 108742 16994 XOR\n2 1 16993 16994 16992 AND\n2 1 16992 108742 108743 XOR\n2 1 4334 108743 16996 XOR\n2 1 4333 91326 108773 XOR\n2 1 108773 108742 3757 XOR\n2 1 91326 42377 42376 AND\n2 1 42376 42377 123245 XOR\n1 1 123245 42380 INV\n2 1 97411 123269 42478 XOR\n2 1 42478 42479 42477 AND\n2 1 42477 123269 123270 XOR\n2 1 95364 123270 42482 XOR\n2 1 101507 123393 42658 XOR\n2 1 99459 123393 42659 XOR\n2 1 42658 42659 42657 AND\n2 1 42657 123393 123394 XOR\n2 1 123425 123394 97412 XOR\n2 1 97412 95364 123301 XOR\n2 1 123301 123270 93322 XOR\n1 1 93322 42430 INV\n2 1 42430 123245 91327 XOR\n2 1 91327 108743 16997 XOR\n2 1 16996 16997 16995 AND\n2 1 16995 108743 108744 XOR\n2 1 4335 108744 16999 XOR\n2 1 93322 123245 42379 XOR\n2 1 42379 42380 42378 AND\n2 1 42378 123245 42382 XOR\n2 1 97412 123270 42481 XOR\n2 1 42481 42482 42480 AND\n2 1 42480 123270 123271 XOR\n2 1 95365 123271 42485 XOR\n2 1 101508 123394 42661 XOR\n2 1 99460 123394 42662 XOR\n2 1 42661 42662 42660 AND\n2 1 42660 123394 123395 XOR\n2 1 123426 123395 97413 XOR\n2 1 97413 95365 123302 XOR\n2 1 123302 123271 93323 XOR\n2 1 93323 42382 91328 XOR\n2 1 91328 108744 17000 XOR\n2 1 16999 17000 16998 AND\n2 1 16998 108744 108745 XOR\n2 1 4336 108745 17002 XOR\n2 1 4335 91328 108775 XOR\n2 1 108775 108744 3759 XOR\n2 1 91328 42382 42381 AND\n2 1 42381 42382 42384 XOR\n2 1 97413 123271 42484 XOR\n2 1 42484 42485 42483 AND\n2 1 42483 123271 123272 XOR\n2 1 95366 123272 42488 XOR\n2 1 101509 123395 42664 XOR\n2 1 99461 123395 42665 XOR\n2 1 42664 42665 42663 AND\n2 1 42663 123395 123396 XOR\n2 1 123427 123396 97414 XOR\n2 1 97414 95366 123303 XOR\n",
"2 1 123303 123272 93324 XOR\n2 1 93324 42384 91329 XOR\n2 1 91329 108745 17003 XOR\n2 1 17002 17003 17001 AND\n2 1 17001 108745 108746 XOR\n2 1 4337 108746 17005 XOR\n2 1 91329 42384 42383 AND\n2 1 42383 42384 123246 XOR\n1 1 123246 42387 INV\n2 1 97414 123272 42487 XOR\n2 1 42487 42488 42486 AND\n2 1 42486 123272 123273 XOR\n2 1 95367 123273 42491 XOR\n2 1 101510 123396 42667 XOR\n2 1 99462 123396 42668 XOR\n2 1 42667 42668 42666 AND\n2 1 42666 123396 123397 XOR\n2 1 123428 123397 97415 XOR\n2 1 97415 95367 123304 XOR\n2 1 123304 123273 93325 XOR\n1 1 93325 42431 INV\n2 1 42431 123246 91330 XOR\n2 1 4337 91330 108777 XOR\n2 1 108777 108746 3761 XOR\n2 1 91330 108746 17006 XOR\n2 1 17005 17006 17004 AND\n2 1 17004 108746 108747 XOR\n2 1 4338 108747 17008 XOR\n2 1 93325 123246 42386 XOR\n2 1 42386 42387 42385 AND\n2 1 42385 123246 123247 XOR\n1 1 123247 42390 INV\n2 1 97415 123273 42490 XOR\n2 1 42490 42491 42489 AND\n2 1 42489 123273 123274 XOR\n2 1 95368 123274 42494 XOR\n2 1 101511 123397 42670 XOR\n2 1 99463 123397 42671 XOR\n2 1 42670 42671 42669 AND\n2 1 42669 123397 123398 XOR\n2 1 123429 123398 97416 XOR\n2 1 97416 95368 123305 XOR\n2 1 123305 123274 93326 XOR\n1 1 93326 42432 INV\n2 1 42432 123247 91331 XOR\n2 1 91331 108747 17009 XOR\n2 1 17008 17009 17007 AND\n2 1 17007 108747 108748 XOR\n2 1 4339 108748 17011 XOR\n2 1 93326 123247 42389 XOR\n2 1 42389 42390 42388 AND\n2 1 42388 123247 123248 XOR\n1 1 123248 42393 INV\n2 1 97416 123274 42493 XOR\n2 1 42493 42494 42492 AND\n2 1 42492 123274 123275 XOR\n2 1 95369 123275 42497 XOR\n2 1 101512 123398 42673 XOR\n2 1 99464 123398 42674 XOR\n2 1 42673 42674 42672 AND\n2 1 42672 123398 123399 XOR\n2 1 123430 123399 97417 XOR\n2 1 97417 95369 123306 XOR\n2 1 123306 123275 93327 XOR\n1 1 93327 42433 INV\n2 1 42433 123248 91332 XOR\n2 1 4339 91332 108779 XOR\n2 1 108779 108748 3763 XOR\n2 1 91332 108748 17012 XOR\n2 1 17011 17012 17010 AND\n2 1 17010 108748 108749 XOR\n2 1 4340 108749 17014 XOR\n2 1 93327 123248 42392 XOR\n2 1 42392 42393 42391 AND\n2 1 42391 123248 123249 XOR\n1 1 123249 42396 INV\n2 1 97417 123275 42496 XOR\n2 1 42496 42497 42495 AND\n2 1 42495 123275 123276 XOR\n2 1 95370 123276 42500 XOR\n2 1 101513 123399 42676 XOR\n2 1 99465 123399 42677 XOR\n2 1 42676 42677 42675 AND\n2 1 42675 123399 123400 XOR\n2 1 123431 123400 97418 XOR\n2 1 97418 95370 123307 XOR\n2 1 123307 123276 93328 XOR\n1 1 93328 42434 INV\n2 1 42434 123249 91333 XOR\n2 1 91333 108749 17015 XOR\n2 1 17014 17015 17013 AND\n2 1 17013 108749 108750 XOR\n2 1 4341 108750 17017 XOR\n2 1 93328 123249 42395 XOR\n2 1 42395 42396 42394 AND\n2 1 42394 123249 123250 XOR\n1 1 123250 42399 INV\n2 1 97418 123276 42499 XOR\n2 1 42499 42500 42498 AND\n2 1 42498 123276 123277 XOR\n2 1 95371 123277 42503 XOR\n2 1 101514 123400 42679 XOR\n2 1 99466 123400 42680 XOR\n2 1 42679 42680 42678 AND\n2 1 42678 123400 123401 XOR\n2 1 123432 123401 97419 XOR\n2 1 97419 95371 123308 XOR\n2 1 123308 123277 93329 XOR\n1 1 93329 42435 INV\n2 1 42435 123250 91334 XOR\n2 1 4341 91334 108781 XOR\n2 1 108781 108750 3765 XOR\n2 1 91334 108750 17018 XOR\n2 1 17017 17018 17016 AND\n2 1 17016 108750 108751 XOR\n2 1 4342 108751 17020 XOR\n2 1 93329 123250 42398 XOR\n2 1 42398 42399 42397 AND\n2 1 42397 123250 42401 XOR\n2 1 97419 123277 42502 XOR\n2 1 42502 42503 42501 AND\n2 1 42501 123277 123278 XOR\n2 1 95372 123278 42506 XOR\n2 1 101515 123401 42682 XOR\n2 1 99467 123401 42683 XOR\n2 1 42682 42683 42681 AND\n2 1 42681 123401 123402 XOR\n2 1 123433 123402 97420 XOR\n",
"2 1 97420 95372 123309 XOR\n2 1 123309 123278 93330 XOR\n2 1 93330 42401 91335 XOR\n2 1 91335 108751 17021 XOR\n2 1 17020 17021 17019 AND\n2 1 17019 108751 108752 XOR\n2 1 4343 108752 17023 XOR\n2 1 91335 42401 42400 AND\n2 1 42400 42401 123251 XOR\n1 1 123251 42404 INV\n2 1 97420 123278 42505 XOR\n2 1 42505 42506 42504 AND\n2 1 42504 123278 123279 XOR\n2 1 95373 123279 42509 XOR\n2 1 101516 123402 42685 XOR\n2 1 99468 123402 42686 XOR\n2 1 42685 42686 42684 AND\n2 1 42684 123402 123403 XOR\n2 1 123434 123403 97421 XOR\n2 1 97421 95373 123310 XOR\n2 1 123310 123279 93331 XOR\n1 1 93331 42436 INV\n2 1 42436 123251 91336 XOR\n2 1 4343 91336 108783 XOR\n2 1 108783 108752 3767 XOR\n2 1 91336 108752 17024 XOR\n2 1 17023 17024 17022 AND\n2 1 17022 108752 108753 XOR\n2 1 4344 108753 17026 XOR\n2 1 93331 123251 42403 XOR\n2 1 42403 42404 42402 AND\n2 1 42402 123251 42406 XOR\n2 1 97421 123279 42508 XOR\n2 1 42508 42509 42507 AND\n2 1 42507 123279 123280 XOR\n2 1 95374 123280 42512 XOR\n2 1 101517 123403 42688 XOR\n2 1 99469 123403 42689 XOR\n2 1 42688 42689 42687 AND\n2 1 42687 123403 123404 XOR\n2 1 123435 123404 97422 XOR\n2 1 97422 95374 123311 XOR\n2 1 123311 123280 93332 XOR\n2 1 93332 42406 91337 XOR\n2 1 91337 108753 17027 XOR\n2 1 17026 17027 17025 AND\n2 1 17025 108753 108754 XOR\n2 1 4345 108754 17029 XOR\n2 1 91337 42406 42405 AND\n2 1 42405 42406 123252 XOR\n1 1 123252 42409 INV\n2 1 97422 123280 42511 XOR\n2 1 42511 42512 42510 AND\n2 1 42510 123280 123281 XOR\n2 1 95375 123281 42515 XOR\n2 1 101518 123404 42691 XOR\n2 1 99470 123404 42692 XOR\n2 1 42691 42692 42690 AND\n2 1 42690 123404 123405 XOR\n2 1 123436 123405 97423 XOR\n2 1 97423 95375 123312 XOR\n2 1 123312 123281 93333 XOR\n1 1 93333 42437 INV\n2 1 42437 123252 91338 XOR\n2 1 4345 91338 108785 XOR\n2 1 108785 108754 3769 XOR\n2 1 91338 108754 17030 XOR\n2 1 17029 17030 17028 AND\n2 1 17028 108754 108755 XOR\n2 1 4346 108755 17032 XOR\n2 1 93333 123252 42408 XOR\n2 1 42408 42409 42407 AND\n2 1 42407 123252 42411 XOR\n2 1 97423 123281 42514 XOR\n2 1 42514 42515 42513 AND\n2 1 42513 123281 123282 XOR\n2 1 95376 123282 42518 XOR\n2 1 101519 123405 42694 XOR\n2 1 99471 123405 42695 XOR\n2 1 42694 42695 42693 AND\n2 1 42693 123405 123406 XOR\n2 1 123437 123406 97424 XOR\n2 1 97424 95376 123313 XOR\n2 1 123313 123282 93334 XOR\n2 1 93334 42411 91339 XOR\n2 1 91339 108755 17033 XOR\n2 1 17032 17033 17031 AND\n2 1 17031 108755 108756 XOR\n2 1 4347 108756 17035 XOR\n2 1 4346 91339 108786 XOR\n2 1 108786 108755 3770 XOR\n2 1 91339 42411 42410 AND\n2 1 42410 42411 42413 XOR\n2 1 97424 123282 42517 XOR\n2 1 42517 42518 42516 AND\n2 1 42516 123282 123283 XOR\n2 1 95377 123283 42521 XOR\n2 1 101520 123406 42697 XOR\n2 1 99472 123406 42698 XOR\n2 1 42697 42698 42696 AND\n2 1 42696 123406 123407 XOR\n2 1 123438 123407 97425 XOR\n2 1 97425 95377 123314 XOR\n2 1 123314 123283 93335 XOR\n2 1 93335 42413 91340 XOR\n2 1 91340 108756 17036 XOR\n2 1 17035 17036 17034 AND\n2 1 17034 108756 108757 XOR\n2 1 4348 108757 17038 XOR\n2 1 4347 91340 108787 XOR\n2 1 108787 108756 3771 XOR\n2 1 91340 42413 42412 AND\n2 1 42412 42413 123253 XOR\n1 1 123253 42416 INV\n2 1 97425 123283 42520 XOR\n2 1 42520 42521 42519 AND\n2 1 42519 123283 123284 XOR\n2 1 95378 123284 42524 XOR\n2 1 101521 123407 42700 XOR\n2 1 99473 123407 42701 XOR\n2 1 42700 42701 42699 AND\n2 1 42699 123407 123408 XOR\n2 1 123439 123408 97426 XOR\n2 1 97426 95378 123315 XOR\n2 1 123315 123284 93336 XOR\n1 1 93336 42438 INV\n2 1 42438 123253 91341 XOR\n2 1 4348 91341 108788 XOR\n",
"2 1 108788 108757 3772 XOR\n2 1 91341 108757 17039 XOR\n2 1 17038 17039 17037 AND\n2 1 17037 108757 108758 XOR\n2 1 4349 108758 17041 XOR\n2 1 93336 123253 42415 XOR\n2 1 42415 42416 42414 AND\n2 1 42414 123253 123254 XOR\n1 1 123254 42419 INV\n2 1 97426 123284 42523 XOR\n2 1 42523 42524 42522 AND\n2 1 42522 123284 123285 XOR\n2 1 95379 123285 42527 XOR\n2 1 101522 123408 42703 XOR\n2 1 99474 123408 42704 XOR\n2 1 42703 42704 42702 AND\n2 1 42702 123408 123409 XOR\n2 1 123440 123409 97427 XOR\n2 1 97427 95379 123316 XOR\n2 1 123316 123285 93337 XOR\n1 1 93337 42439 INV\n2 1 42439 123254 91342 XOR\n2 1 4349 91342 108789 XOR\n2 1 108789 108758 3773 XOR\n2 1 91342 108758 17042 XOR\n2 1 17041 17042 17040 AND\n2 1 17040 108758 108759 XOR\n2 1 93337 123254 42418 XOR\n2 1 42418 42419 42417 AND\n2 1 42417 123254 123255 XOR\n1 1 123255 42422 INV\n2 1 97427 123285 42526 XOR\n2 1 42526 42527 42525 AND\n2 1 42525 123285 123286 XOR\n2 1 95380 123286 42530 XOR\n2 1 101523 123409 42706 XOR\n2 1 99475 123409 42707 XOR\n2 1 42706 42707 42705 AND\n2 1 42705 123409 123410 XOR\n2 1 123441 123410 97428 XOR\n2 1 97428 95380 123317 XOR\n2 1 123317 123286 93338 XOR\n1 1 93338 42440 INV\n2 1 42440 123255 91343 XOR\n2 1 4350 91343 108790 XOR\n2 1 108790 108759 3774 XOR\n2 1 93338 123255 42421 XOR\n2 1 42421 42422 42420 AND\n2 1 42420 123255 123256 XOR\n2 1 97428 123286 42529 XOR\n2 1 42529 42530 42528 AND\n2 1 42528 123286 123287 XOR\n2 1 101524 123410 42709 XOR\n2 1 99476 123410 42710 XOR\n2 1 42709 42710 42708 AND\n2 1 42708 123410 123411 XOR\n2 1 123442 123411 97429 XOR\n2 1 97429 95381 123318 XOR\n2 1 123318 123287 93339 XOR\n2 1 93339 123256 91344 XOR\n2 1 4351 91344 108791 XOR\n2 1 4320 91313 3744 XOR\n2 1 4322 91315 108762 XOR\n2 1 108762 108731 3746 XOR\n2 1 4324 91317 108764 XOR\n2 1 108764 108733 3748 XOR\n2 1 4326 91319 108766 XOR\n2 1 108766 108735 3750 XOR\n2 1 4328 91321 108768 XOR\n2 1 108768 108737 3752 XOR\n2 1 4330 91323 108770 XOR\n2 1 108770 108739 3754 XOR\n2 1 4332 91325 108772 XOR\n2 1 108772 108741 3756 XOR\n2 1 4334 91327 108774 XOR\n2 1 108774 108743 3758 XOR\n2 1 4336 91329 108776 XOR\n2 1 108776 108745 3760 XOR\n2 1 4338 91331 108778 XOR\n2 1 108778 108747 3762 XOR\n2 1 4340 91333 108780 XOR\n2 1 108780 108749 3764 XOR\n2 1 4342 91335 108782 XOR\n2 1 108782 108751 3766 XOR\n2 1 4344 91337 108784 XOR\n2 1 108784 108753 3768 XOR\n2 1 4350 108759 17044 XOR\n2 1 91343 108759 17045 XOR\n2 1 17044 17045 17043 AND\n2 1 17043 108759 108760 XOR\n2 1 108791 108760 3775 XOR\n2 1 91313 85169 108792 AND\n2 1 91313 85169 4192 XOR\n2 1 4192 4256 73615 XOR\n2 1 73615 73583 73551 AND\n2 1 73551 4256 87185 XOR\n2 1 4192 4224 73487 XOR\n2 1 91314 85170 108823 XOR\n2 1 91315 85171 108824 XOR\n2 1 91316 85172 108825 XOR\n2 1 91317 85173 108826 XOR\n2 1 91318 85174 108827 XOR\n2 1 91319 85175 108828 XOR\n2 1 91320 85176 108829 XOR\n2 1 91321 85177 108830 XOR\n2 1 91322 85178 108831 XOR\n2 1 91323 85179 108832 XOR\n2 1 91324 85180 108833 XOR\n2 1 91325 85181 108834 XOR\n2 1 91326 85182 108835 XOR\n2 1 91327 85183 108836 XOR\n2 1 91328 85184 108837 XOR\n2 1 91329 85185 108838 XOR\n2 1 91330 85186 108839 XOR\n2 1 91331 85187 108840 XOR\n2 1 91332 85188 108841 XOR\n2 1 91333 85189 108842 XOR\n2 1 91334 85190 108843 XOR\n2 1 91335 85191 108844 XOR\n2 1 91336 85192 108845 XOR\n2 1 91337 85193 108846 XOR\n2 1 91338 85194 108847 XOR\n2 1 91339 85195 108848 XOR\n2 1 91340 85196 108849 XOR\n2 1 91341 85197 108850 XOR\n2 1 91342 85198 108851 XOR\n2 1 91343 85199 108852 XOR\n2 1 91344 85200 108853 XOR\n",
"2 1 108823 108792 4193 XOR\n2 1 4193 4257 73616 XOR\n2 1 73616 73584 73552 AND\n2 1 73552 4257 87186 XOR\n2 1 4193 4225 73488 XOR\n2 1 91314 108792 17047 XOR\n2 1 85170 108792 17048 XOR\n2 1 17047 17048 17046 AND\n2 1 17046 108792 108793 XOR\n2 1 108824 108793 4194 XOR\n2 1 4194 4258 73617 XOR\n2 1 73617 73585 73553 AND\n2 1 73553 4258 87187 XOR\n2 1 4194 4226 73489 XOR\n2 1 91315 108793 17050 XOR\n2 1 85171 108793 17051 XOR\n2 1 17050 17051 17049 AND\n2 1 17049 108793 108794 XOR\n2 1 108825 108794 4195 XOR\n2 1 4195 4259 73618 XOR\n2 1 73618 73586 73554 AND\n2 1 73554 4259 87188 XOR\n2 1 4195 4227 73490 XOR\n2 1 91316 108794 17053 XOR\n2 1 85172 108794 17054 XOR\n2 1 17053 17054 17052 AND\n2 1 17052 108794 108795 XOR\n2 1 108826 108795 4196 XOR\n2 1 4196 4260 73619 XOR\n2 1 73619 73587 73555 AND\n2 1 73555 4260 87189 XOR\n2 1 4196 4228 73491 XOR\n2 1 91317 108795 17056 XOR\n2 1 85173 108795 17057 XOR\n2 1 17056 17057 17055 AND\n2 1 17055 108795 108796 XOR\n2 1 108827 108796 4197 XOR\n2 1 4197 4261 73620 XOR\n2 1 73620 73588 73556 AND\n2 1 73556 4261 87190 XOR\n2 1 4197 4229 73492 XOR\n2 1 91318 108796 17059 XOR\n2 1 85174 108796 17060 XOR\n2 1 17059 17060 17058 AND\n2 1 17058 108796 108797 XOR\n2 1 108828 108797 4198 XOR\n2 1 4198 4262 73621 XOR\n2 1 73621 73589 73557 AND\n2 1 73557 4262 87191 XOR\n2 1 4198 4230 73493 XOR\n2 1 91319 108797 17062 XOR\n2 1 85175 108797 17063 XOR\n2 1 17062 17063 17061 AND\n2 1 17061 108797 108798 XOR\n2 1 108829 108798 4199 XOR\n2 1 4199 4263 73622 XOR\n2 1 73622 73590 73558 AND\n2 1 73558 4263 87192 XOR\n2 1 4199 4231 73494 XOR\n2 1 91320 108798 17065 XOR\n2 1 85176 108798 17066 XOR\n2 1 17065 17066 17064 AND\n2 1 17064 108798 108799 XOR\n2 1 108830 108799 4200 XOR\n2 1 4200 4264 73623 XOR\n2 1 73623 73591 73559 AND\n2 1 73559 4264 87193 XOR\n2 1 4200 4232 73495 XOR\n2 1 91321 108799 17068 XOR\n2 1 85177 108799 17069 XOR\n2 1 17068 17069 17067 AND\n2 1 17067 108799 108800 XOR\n2 1 108831 108800 4201 XOR\n2 1 4201 4265 73624 XOR\n2 1 73624 73592 73560 AND\n2 1 73560 4265 87194 XOR\n2 1 4201 4233 73496 XOR\n2 1 91322 108800 17071 XOR\n2 1 85178 108800 17072 XOR\n2 1 17071 17072 17070 AND\n2 1 17070 108800 108801 XOR\n2 1 108832 108801 4202 XOR\n2 1 4202 4266 73625 XOR\n2 1 73625 73593 73561 AND\n2 1 73561 4266 87195 XOR\n2 1 4202 4234 73497 XOR\n2 1 91323 108801 17074 XOR\n2 1 85179 108801 17075 XOR\n2 1 17074 17075 17073 AND\n2 1 17073 108801 108802 XOR\n2 1 108833 108802 4203 XOR\n2 1 4203 4267 73626 XOR\n2 1 73626 73594 73562 AND\n2 1 73562 4267 87196 XOR\n2 1 4203 4235 73498 XOR\n2 1 4192 4203 68365 XOR\n2 1 91324 108802 17077 XOR\n2 1 85180 108802 17078 XOR\n2 1 17077 17078 17076 AND\n2 1 17076 108802 108803 XOR\n2 1 108834 108803 4204 XOR\n2 1 4204 4268 73627 XOR\n2 1 73627 73595 73563 AND\n2 1 73563 4268 87197 XOR\n2 1 4204 4236 73499 XOR\n2 1 4193 4204 68366 XOR\n2 1 66094 3775 66062 AND\n2 1 66093 3774 66061 AND\n2 1 66092 3773 66060 AND\n2 1 66091 3772 66059 AND\n2 1 66090 3771 66058 AND\n2 1 66089 3770 66057 AND\n2 1 66088 3769 66056 AND\n2 1 66087 3768 66055 AND\n2 1 66086 3767 66054 AND\n2 1 66085 3766 66053 AND\n2 1 66084 3765 66052 AND\n2 1 66083 3764 66051 AND\n2 1 66082 3763 66050 AND\n2 1 66081 3762 66049 AND\n2 1 66080 3761 66048 AND\n2 1 66079 3760 66047 AND\n2 1 66078 3759 66046 AND\n2 1 66077 3758 66045 AND\n2 1 66076 3757 66044 AND\n2 1 66075 3756 66043 AND\n2 1 66074 3755 66042 AND\n2 1 66073 3754 66041 AND\n",
"2 1 66072 3753 66040 AND\n2 1 66071 3752 66039 AND\n2 1 66070 3751 66038 AND\n2 1 66069 3750 66037 AND\n2 1 66068 3749 66036 AND\n2 1 66067 3748 66035 AND\n2 1 66066 3747 66034 AND\n2 1 66065 3746 66033 AND\n2 1 66064 3745 66032 AND\n2 1 66063 3744 66031 AND\n2 1 66062 3839 99445 XOR\n2 1 66061 3838 99444 XOR\n2 1 66060 3837 99443 XOR\n2 1 66059 3836 99442 XOR\n2 1 66058 3835 99441 XOR\n2 1 66057 3834 99440 XOR\n2 1 66056 3833 99439 XOR\n2 1 66055 3832 99438 XOR\n2 1 66054 3831 99437 XOR\n2 1 66053 3830 99436 XOR\n2 1 66052 3829 99435 XOR\n2 1 66051 3828 99434 XOR\n2 1 66050 3827 99433 XOR\n2 1 66049 3826 99432 XOR\n2 1 66048 3825 99431 XOR\n2 1 66047 3824 99430 XOR\n2 1 66046 3823 99429 XOR\n2 1 66045 3822 99428 XOR\n2 1 66044 3821 99427 XOR\n2 1 66043 3820 99426 XOR\n2 1 66042 3819 99425 XOR\n2 1 66041 3818 99424 XOR\n2 1 66040 3817 99423 XOR\n2 1 66039 3816 99422 XOR\n2 1 66038 3815 99421 XOR\n2 1 66037 3814 99420 XOR\n2 1 66036 3813 99419 XOR\n2 1 66035 3812 99418 XOR\n2 1 66034 3811 99417 XOR\n2 1 66033 3810 99416 XOR\n2 1 66032 3809 99415 XOR\n2 1 66031 3808 99414 XOR\n2 1 3775 3807 66030 XOR\n2 1 3774 3806 66029 XOR\n2 1 3773 3805 66028 XOR\n2 1 3772 3804 66027 XOR\n2 1 3771 3803 66026 XOR\n2 1 3770 3802 66025 XOR\n2 1 3769 3801 66024 XOR\n2 1 3768 3800 66023 XOR\n2 1 3767 3799 66022 XOR\n2 1 3766 3798 66021 XOR\n2 1 3765 3797 66020 XOR\n2 1 3764 3796 66019 XOR\n2 1 3763 3795 66018 XOR\n2 1 3762 3794 66017 XOR\n2 1 3761 3793 66016 XOR\n2 1 3760 3792 66015 XOR\n2 1 3759 3791 66014 XOR\n2 1 3758 3790 66013 XOR\n2 1 3757 3789 66012 XOR\n2 1 3756 3788 66011 XOR\n2 1 3755 3787 66010 XOR\n2 1 3754 3786 66009 XOR\n2 1 3753 3785 66008 XOR\n2 1 3752 3784 66007 XOR\n2 1 3751 3783 66006 XOR\n2 1 3750 3782 66005 XOR\n2 1 3749 3781 66004 XOR\n2 1 3748 3780 66003 XOR\n2 1 3747 3779 66002 XOR\n2 1 3746 3778 66001 XOR\n2 1 3745 3777 66000 XOR\n2 1 3744 3776 65999 XOR\n2 1 91325 108803 17080 XOR\n2 1 85181 108803 17081 XOR\n2 1 17080 17081 17079 AND\n2 1 17079 108803 108804 XOR\n2 1 108835 108804 4205 XOR\n2 1 4205 4269 73628 XOR\n2 1 73628 73596 73564 AND\n2 1 73564 4269 87198 XOR\n2 1 4205 4237 73500 XOR\n2 1 4194 4205 68335 XOR\n2 1 91326 108804 17083 XOR\n2 1 85182 108804 17084 XOR\n2 1 17083 17084 17082 AND\n2 1 17082 108804 108805 XOR\n2 1 108836 108805 4206 XOR\n2 1 4206 4270 73629 XOR\n2 1 73629 73597 73565 AND\n2 1 73565 4270 87199 XOR\n2 1 4206 4238 73501 XOR\n2 1 4195 4206 68336 XOR\n2 1 91327 108805 17086 XOR\n2 1 85183 108805 17087 XOR\n2 1 17086 17087 17085 AND\n2 1 17085 108805 108806 XOR\n2 1 108837 108806 4207 XOR\n2 1 4207 4271 73630 XOR\n2 1 73630 73598 73566 AND\n2 1 73566 4271 87200 XOR\n2 1 4207 4239 73502 XOR\n2 1 4196 4207 68337 XOR\n2 1 91328 108806 17089 XOR\n2 1 85184 108806 17090 XOR\n2 1 17089 17090 17088 AND\n2 1 17088 108806 108807 XOR\n2 1 108838 108807 4208 XOR\n2 1 4208 4272 73631 XOR\n2 1 73631 73599 73567 AND\n2 1 73567 4272 87201 XOR\n2 1 4208 4240 73503 XOR\n2 1 4197 4208 68338 XOR\n2 1 91329 108807 17092 XOR\n2 1 85185 108807 17093 XOR\n2 1 17092 17093 17091 AND\n2 1 17091 108807 108808 XOR\n2 1 108839 108808 4209 XOR\n2 1 4209 4273 73632 XOR\n2 1 73632 73600 73568 AND\n2 1 73568 4273 87202 XOR\n2 1 4209 4241 73504 XOR\n2 1 4198 4209 68339 XOR\n2 1 91330 108808 17095 XOR\n2 1 85186 108808 17096 XOR\n2 1 17095 17096 17094 AND\n2 1 17094 108808 108809 XOR\n",
"2 1 108840 108809 4210 XOR\n2 1 4210 4274 73633 XOR\n2 1 73633 73601 73569 AND\n2 1 73569 4274 87203 XOR\n2 1 4210 4242 73505 XOR\n2 1 4199 4210 68340 XOR\n2 1 91331 108809 17098 XOR\n2 1 85187 108809 17099 XOR\n2 1 17098 17099 17097 AND\n2 1 17097 108809 108810 XOR\n2 1 91332 108810 17101 XOR\n2 1 108841 108810 4211 XOR\n2 1 4211 4275 73634 XOR\n2 1 73634 73602 73570 AND\n2 1 73570 4275 87204 XOR\n2 1 4211 4243 73506 XOR\n2 1 4200 4211 68341 XOR\n2 1 85188 108810 17102 XOR\n2 1 17101 17102 17100 AND\n2 1 17100 108810 108811 XOR\n2 1 85189 108811 17105 XOR\n2 1 108842 108811 4212 XOR\n2 1 4212 4276 73635 XOR\n2 1 73635 73603 73571 AND\n2 1 73571 4276 87205 XOR\n2 1 4212 4244 73507 XOR\n2 1 4201 4212 68342 XOR\n2 1 68365 4212 89263 XOR\n2 1 91333 108811 17104 XOR\n2 1 17104 17105 17103 AND\n2 1 17103 108811 108812 XOR\n2 1 91334 108812 17107 XOR\n2 1 108843 108812 4213 XOR\n2 1 4213 4277 73636 XOR\n2 1 73636 73604 73572 AND\n2 1 73572 4277 87206 XOR\n2 1 4213 4245 73508 XOR\n2 1 4213 4192 68354 XOR\n2 1 4202 4213 68343 XOR\n2 1 68366 4213 89264 XOR\n2 1 68354 4201 89252 XOR\n2 1 89252 87204 122977 XOR\n2 1 85190 108812 17108 XOR\n2 1 17107 17108 17106 AND\n2 1 17106 108812 108813 XOR\n2 1 85191 108813 17111 XOR\n2 1 108844 108813 4214 XOR\n2 1 4214 4278 73637 XOR\n2 1 73637 73605 73573 AND\n2 1 73573 4278 87207 XOR\n2 1 4214 4246 73509 XOR\n2 1 4214 4193 68355 XOR\n2 1 4203 4214 68344 XOR\n2 1 68355 4202 89253 XOR\n2 1 89253 87205 122978 XOR\n2 1 68335 4214 89233 XOR\n2 1 89233 87185 122928 AND\n2 1 89233 87185 85137 XOR\n2 1 87186 122928 41796 XOR\n2 1 91335 108813 17110 XOR\n2 1 17110 17111 17109 AND\n2 1 17109 108813 108814 XOR\n2 1 91336 108814 17113 XOR\n2 1 108845 108814 4215 XOR\n2 1 4215 4279 73638 XOR\n2 1 73638 73606 73574 AND\n2 1 73574 4279 87208 XOR\n2 1 4215 4247 73510 XOR\n2 1 4215 4194 68356 XOR\n2 1 4204 4215 68345 XOR\n2 1 68356 4203 89254 XOR\n2 1 89254 87206 122979 XOR\n2 1 68345 4192 89243 XOR\n2 1 89243 87195 122968 XOR\n2 1 68336 4215 89234 XOR\n2 1 89234 87186 122959 XOR\n2 1 122959 122928 85138 XOR\n2 1 89234 122928 41795 XOR\n2 1 41795 41796 41794 AND\n2 1 41794 122928 122929 XOR\n2 1 87187 122929 41799 XOR\n2 1 85192 108814 17114 XOR\n2 1 17113 17114 17112 AND\n2 1 17112 108814 108815 XOR\n2 1 85193 108815 17117 XOR\n2 1 108846 108815 4216 XOR\n2 1 4216 4280 73639 XOR\n2 1 73639 73607 73575 AND\n2 1 73575 4280 87209 XOR\n2 1 4216 4248 73511 XOR\n2 1 4216 4195 68357 XOR\n2 1 4205 4216 68346 XOR\n2 1 68357 4204 89255 XOR\n2 1 89255 87207 122980 XOR\n2 1 68346 4193 89244 XOR\n2 1 89244 87196 122969 XOR\n2 1 68337 4216 89235 XOR\n2 1 89235 87187 122960 XOR\n2 1 122960 122929 85139 XOR\n2 1 89235 122929 41798 XOR\n2 1 41798 41799 41797 AND\n2 1 41797 122929 122930 XOR\n2 1 87188 122930 41802 XOR\n2 1 91337 108815 17116 XOR\n2 1 17116 17117 17115 AND\n2 1 17115 108815 108816 XOR\n2 1 91338 108816 17119 XOR\n2 1 108847 108816 4217 XOR\n2 1 4217 4281 73640 XOR\n2 1 73640 73608 73576 AND\n2 1 73576 4281 87210 XOR\n2 1 4217 4249 73512 XOR\n2 1 4217 4196 68358 XOR\n2 1 4206 4217 68347 XOR\n2 1 68358 4205 89256 XOR\n2 1 89256 87208 122981 XOR\n2 1 68347 4194 89245 XOR\n2 1 89245 87197 122970 XOR\n2 1 68338 4217 89236 XOR\n2 1 89236 87188 122961 XOR\n2 1 122961 122930 85140 XOR\n2 1 89236 122930 41801 XOR\n2 1 41801 41802 41800 AND\n2 1 41800 122930 122931 XOR\n2 1 87189 122931 41805 XOR\n2 1 85194 108816 17120 XOR\n2 1 17119 17120 17118 AND\n2 1 17118 108816 108817 XOR\n",
"2 1 85195 108817 17123 XOR\n2 1 108848 108817 4218 XOR\n2 1 4218 4282 73641 XOR\n2 1 73641 73609 73577 AND\n2 1 73577 4282 87211 XOR\n2 1 4218 4250 73513 XOR\n2 1 4218 4197 68359 XOR\n2 1 4207 4218 68348 XOR\n2 1 68359 4206 89257 XOR\n2 1 89257 87209 122982 XOR\n2 1 68348 4195 89246 XOR\n2 1 89246 87198 122971 XOR\n2 1 68339 4218 89237 XOR\n2 1 89237 87189 122962 XOR\n2 1 122962 122931 85141 XOR\n2 1 89237 122931 41804 XOR\n2 1 41804 41805 41803 AND\n2 1 41803 122931 122932 XOR\n2 1 87190 122932 41808 XOR\n2 1 91339 108817 17122 XOR\n2 1 17122 17123 17121 AND\n2 1 17121 108817 108818 XOR\n2 1 91340 108818 17125 XOR\n2 1 108849 108818 4219 XOR\n2 1 4219 4283 73642 XOR\n2 1 73642 73610 73578 AND\n2 1 73578 4283 87212 XOR\n2 1 4219 4251 73514 XOR\n2 1 4219 4198 68360 XOR\n2 1 4208 4219 68349 XOR\n2 1 68360 4207 89258 XOR\n2 1 89258 87210 122983 XOR\n2 1 68349 4196 89247 XOR\n2 1 89247 87199 122972 XOR\n2 1 68340 4219 89238 XOR\n2 1 89238 87190 122963 XOR\n2 1 122963 122932 85142 XOR\n2 1 89238 122932 41807 XOR\n2 1 41807 41808 41806 AND\n2 1 41806 122932 122933 XOR\n2 1 87191 122933 41811 XOR\n2 1 85196 108818 17126 XOR\n2 1 17125 17126 17124 AND\n2 1 17124 108818 108819 XOR\n2 1 85197 108819 17129 XOR\n2 1 108850 108819 4220 XOR\n2 1 4220 4284 73643 XOR\n2 1 73643 73611 73579 AND\n2 1 73579 4284 87213 XOR\n2 1 4220 4252 73515 XOR\n2 1 4220 4199 68361 XOR\n2 1 4209 4220 68350 XOR\n2 1 68361 4208 89259 XOR\n2 1 89259 87211 122984 XOR\n2 1 68350 4197 89248 XOR\n2 1 89248 87200 122973 XOR\n2 1 68341 4220 89239 XOR\n2 1 89239 87191 122964 XOR\n2 1 122964 122933 85143 XOR\n2 1 89239 122933 41810 XOR\n2 1 41810 41811 41809 AND\n2 1 41809 122933 122934 XOR\n2 1 87192 122934 41814 XOR\n2 1 91341 108819 17128 XOR\n2 1 17128 17129 17127 AND\n2 1 17127 108819 108820 XOR\n2 1 91342 108820 17131 XOR\n2 1 108851 108820 4221 XOR\n2 1 4221 4285 73644 XOR\n2 1 73644 73612 73580 AND\n2 1 73580 4285 87214 XOR\n2 1 4221 4253 73516 XOR\n2 1 4221 4200 68362 XOR\n2 1 4210 4221 68351 XOR\n2 1 68362 4209 89260 XOR\n2 1 89260 87212 122985 XOR\n2 1 68351 4198 89249 XOR\n2 1 89249 87201 122974 XOR\n2 1 68342 4221 89240 XOR\n2 1 89240 87192 122965 XOR\n2 1 122965 122934 85144 XOR\n2 1 89240 122934 41813 XOR\n2 1 41813 41814 41812 AND\n2 1 41812 122934 122935 XOR\n2 1 87193 122935 41817 XOR\n2 1 85198 108820 17132 XOR\n2 1 17131 17132 17130 AND\n2 1 17130 108820 108821 XOR\n2 1 85199 108821 17135 XOR\n2 1 108852 108821 4222 XOR\n2 1 4222 4286 73645 XOR\n2 1 73645 73613 73581 AND\n2 1 73581 4286 87215 XOR\n2 1 89263 87215 122988 XOR\n2 1 4222 4254 73517 XOR\n2 1 4222 4201 68363 XOR\n2 1 4211 4222 68352 XOR\n2 1 68363 4210 89261 XOR\n2 1 89261 87213 122986 XOR\n2 1 68352 4199 89250 XOR\n2 1 89250 87202 122975 XOR\n2 1 68343 4222 89241 XOR\n2 1 89241 87193 122966 XOR\n2 1 122966 122935 85145 XOR\n2 1 89241 122935 41816 XOR\n2 1 41816 41817 41815 AND\n2 1 41815 122935 122936 XOR\n2 1 87194 122936 41820 XOR\n2 1 91343 108821 17134 XOR\n2 1 17134 17135 17133 AND\n2 1 17133 108821 108822 XOR\n2 1 108853 108822 4223 XOR\n2 1 4223 4287 73646 XOR\n2 1 73646 73614 73582 AND\n2 1 73582 4287 87216 XOR\n2 1 89264 87216 122989 XOR\n2 1 4223 4255 73518 XOR\n2 1 4223 4202 68364 XOR\n2 1 4212 4223 68353 XOR\n2 1 68364 4211 89262 XOR\n2 1 89262 87214 122987 XOR\n2 1 68353 4200 89251 XOR\n2 1 89251 87203 122976 XOR\n2 1 68344 4223 89242 XOR\n2 1 89242 87194 122967 XOR\n2 1 122967 122936 85146 XOR\n2 1 89242 122936 41819 XOR\n2 1 41819 41820 41818 AND\n",
"2 1 41818 122936 122937 XOR\n2 1 122968 122937 85147 XOR\n2 1 89243 122937 41822 XOR\n2 1 87195 122937 41823 XOR\n2 1 41822 41823 41821 AND\n2 1 41821 122937 122938 XOR\n2 1 122969 122938 85148 XOR\n2 1 89244 122938 41825 XOR\n2 1 87196 122938 41826 XOR\n2 1 41825 41826 41824 AND\n2 1 41824 122938 122939 XOR\n2 1 122970 122939 85149 XOR\n2 1 89245 122939 41828 XOR\n2 1 87197 122939 41829 XOR\n2 1 41828 41829 41827 AND\n2 1 41827 122939 122940 XOR\n2 1 122971 122940 85150 XOR\n2 1 89246 122940 41831 XOR\n2 1 87198 122940 41832 XOR\n2 1 41831 41832 41830 AND\n2 1 41830 122940 122941 XOR\n2 1 122972 122941 85151 XOR\n2 1 89247 122941 41834 XOR\n2 1 87199 122941 41835 XOR\n2 1 41834 41835 41833 AND\n2 1 41833 122941 122942 XOR\n2 1 122973 122942 85152 XOR\n2 1 89248 122942 41837 XOR\n2 1 87200 122942 41838 XOR\n2 1 41837 41838 41836 AND\n2 1 41836 122942 122943 XOR\n2 1 122974 122943 85153 XOR\n2 1 89249 122943 41840 XOR\n2 1 87201 122943 41841 XOR\n2 1 41840 41841 41839 AND\n2 1 41839 122943 122944 XOR\n2 1 122975 122944 85154 XOR\n2 1 89250 122944 41843 XOR\n2 1 87202 122944 41844 XOR\n2 1 41843 41844 41842 AND\n2 1 41842 122944 122945 XOR\n2 1 122976 122945 85155 XOR\n2 1 89251 122945 41846 XOR\n2 1 87203 122945 41847 XOR\n2 1 41846 41847 41845 AND\n2 1 41845 122945 122946 XOR\n2 1 122977 122946 85156 XOR\n2 1 89252 122946 41849 XOR\n2 1 87204 122946 41850 XOR\n2 1 41849 41850 41848 AND\n2 1 41848 122946 122947 XOR\n2 1 122978 122947 85157 XOR\n2 1 89253 122947 41852 XOR\n2 1 87205 122947 41853 XOR\n2 1 41852 41853 41851 AND\n2 1 41851 122947 122948 XOR\n2 1 122979 122948 85158 XOR\n2 1 89254 122948 41855 XOR\n2 1 87206 122948 41856 XOR\n2 1 41855 41856 41854 AND\n2 1 41854 122948 122949 XOR\n2 1 122980 122949 85159 XOR\n2 1 89255 122949 41858 XOR\n2 1 87207 122949 41859 XOR\n2 1 41858 41859 41857 AND\n2 1 41857 122949 122950 XOR\n2 1 122981 122950 85160 XOR\n2 1 89256 122950 41861 XOR\n2 1 87208 122950 41862 XOR\n2 1 41861 41862 41860 AND\n2 1 41860 122950 122951 XOR\n2 1 122982 122951 85161 XOR\n2 1 89257 122951 41864 XOR\n2 1 87209 122951 41865 XOR\n2 1 41864 41865 41863 AND\n2 1 41863 122951 122952 XOR\n2 1 122983 122952 85162 XOR\n2 1 89258 122952 41867 XOR\n2 1 87210 122952 41868 XOR\n2 1 41867 41868 41866 AND\n2 1 41866 122952 122953 XOR\n2 1 122984 122953 85163 XOR\n2 1 89259 122953 41870 XOR\n2 1 87211 122953 41871 XOR\n2 1 41870 41871 41869 AND\n2 1 41869 122953 122954 XOR\n2 1 122985 122954 85164 XOR\n2 1 89260 122954 41873 XOR\n2 1 87212 122954 41874 XOR\n2 1 41873 41874 41872 AND\n2 1 41872 122954 122955 XOR\n2 1 122986 122955 85165 XOR\n2 1 89261 122955 41876 XOR\n2 1 87213 122955 41877 XOR\n2 1 41876 41877 41875 AND\n2 1 41875 122955 122956 XOR\n2 1 122987 122956 85166 XOR\n2 1 89262 122956 41879 XOR\n2 1 87214 122956 41880 XOR\n2 1 41879 41880 41878 AND\n2 1 41878 122956 122957 XOR\n2 1 122988 122957 85167 XOR\n2 1 89263 122957 41882 XOR\n2 1 87215 122957 41883 XOR\n2 1 41882 41883 41881 AND\n2 1 41881 122957 122958 XOR\n2 1 122989 122958 85168 XOR\n2 1 3749 3754 62446 XOR\n2 1 3748 3753 62445 XOR\n2 1 3747 3752 62444 XOR\n2 1 3746 3751 62443 XOR\n2 1 3745 3750 62442 XOR\n2 1 3744 3749 62441 XOR\n2 1 3775 3748 62440 XOR\n2 1 3774 3747 62439 XOR\n2 1 3773 3746 62438 XOR\n2 1 3772 3745 62437 XOR\n2 1 3771 3744 62436 XOR\n2 1 3770 3775 62435 XOR\n2 1 3769 3774 62434 XOR\n2 1 3768 3773 62433 XOR\n2 1 3767 3772 62432 XOR\n2 1 3766 3771 62431 XOR\n2 1 3765 3770 62430 XOR\n2 1 3764 3769 62429 XOR\n2 1 3763 3768 62428 XOR\n2 1 3762 3767 62427 XOR\n2 1 3761 3766 62426 XOR\n",
"2 1 3760 3765 62425 XOR\n2 1 3759 3764 62424 XOR\n2 1 3758 3763 62423 XOR\n2 1 3757 3762 62422 XOR\n2 1 3756 3761 62421 XOR\n2 1 3755 3760 62420 XOR\n2 1 3754 3759 62419 XOR\n2 1 3753 3758 62418 XOR\n2 1 3752 3757 62417 XOR\n2 1 3751 3756 62416 XOR\n2 1 3750 3755 62415 XOR\n2 1 62446 3768 101493 XOR\n2 1 101493 99445 123175 XOR\n2 1 62445 3767 101492 XOR\n2 1 101492 99444 123174 XOR\n2 1 62444 3766 101491 XOR\n2 1 101491 99443 123173 XOR\n2 1 62443 3765 101490 XOR\n2 1 101490 99442 123172 XOR\n2 1 62442 3764 101489 XOR\n2 1 101489 99441 123171 XOR\n2 1 62441 3763 101488 XOR\n2 1 101488 99440 123170 XOR\n2 1 62440 3762 101487 XOR\n2 1 101487 99439 123169 XOR\n2 1 62439 3761 101486 XOR\n2 1 101486 99438 123168 XOR\n2 1 62438 3760 101485 XOR\n2 1 101485 99437 123167 XOR\n2 1 62437 3759 101484 XOR\n2 1 101484 99436 123166 XOR\n2 1 62436 3758 101483 XOR\n2 1 101483 99435 123165 XOR\n2 1 62435 3757 101482 XOR\n2 1 101482 99434 123164 XOR\n2 1 62434 3756 101481 XOR\n2 1 101481 99433 123163 XOR\n2 1 62433 3755 101480 XOR\n2 1 101480 99432 123162 XOR\n2 1 62432 3754 101479 XOR\n2 1 101479 99431 123161 XOR\n2 1 62431 3753 101478 XOR\n2 1 101478 99430 123160 XOR\n2 1 62430 3752 101477 XOR\n2 1 101477 99429 123159 XOR\n2 1 62429 3751 101476 XOR\n2 1 101476 99428 123158 XOR\n2 1 62428 3750 101475 XOR\n2 1 101475 99427 123157 XOR\n2 1 62427 3749 101474 XOR\n2 1 101474 99426 123156 XOR\n2 1 62426 3748 101473 XOR\n2 1 101473 99425 123155 XOR\n2 1 62425 3747 101472 XOR\n2 1 101472 99424 123154 XOR\n2 1 62424 3746 101471 XOR\n2 1 101471 99423 123153 XOR\n2 1 62423 3745 101470 XOR\n2 1 101470 99422 123152 XOR\n2 1 62422 3744 101469 XOR\n2 1 101469 99421 123151 XOR\n2 1 62421 3775 101468 XOR\n2 1 101468 99420 123150 XOR\n2 1 62420 3774 101467 XOR\n2 1 101467 99419 123149 XOR\n2 1 62419 3773 101466 XOR\n2 1 101466 99418 123148 XOR\n2 1 62418 3772 101465 XOR\n2 1 101465 99417 123147 XOR\n2 1 62417 3771 101464 XOR\n2 1 101464 99416 123146 XOR\n2 1 62416 3770 101463 XOR\n2 1 101463 99415 123145 XOR\n2 1 62415 3769 101462 XOR\n2 1 101462 99414 123114 AND\n2 1 101462 99414 97366 XOR\n2 1 97366 95318 122990 AND\n2 1 97366 95318 91281 XOR\n2 1 95319 122990 41992 XOR\n2 1 123145 123114 97367 XOR\n2 1 97367 95319 123021 XOR\n2 1 123021 122990 93279 XOR\n1 1 93279 91282 INV\n2 1 97367 122990 41991 XOR\n2 1 41991 41992 41990 AND\n2 1 41990 122990 122991 XOR\n2 1 95320 122991 41995 XOR\n2 1 101463 123114 42171 XOR\n2 1 99415 123114 42172 XOR\n2 1 42171 42172 42170 AND\n2 1 42170 123114 123115 XOR\n2 1 123146 123115 97368 XOR\n2 1 97368 95320 123022 XOR\n2 1 123022 122991 93280 XOR\n1 1 93280 41973 INV\n2 1 41973 93279 91283 XOR\n2 1 93280 93279 41885 XOR\n2 1 41885 91282 41884 AND\n2 1 41884 93279 41957 XOR\n1 1 41957 41888 INV\n2 1 97368 122991 41994 XOR\n2 1 41994 41995 41993 AND\n2 1 41993 122991 122992 XOR\n2 1 95321 122992 41998 XOR\n2 1 101464 123115 42174 XOR\n2 1 99416 123115 42175 XOR\n2 1 42174 42175 42173 AND\n2 1 42173 123115 123116 XOR\n2 1 123147 123116 97369 XOR\n2 1 97369 95321 123023 XOR\n2 1 123023 122992 93281 XOR\n1 1 93281 41974 INV\n2 1 41974 41957 91284 XOR\n2 1 93281 41957 41887 XOR\n2 1 41887 41888 41886 AND\n2 1 41886 41957 41958 XOR\n1 1 41958 41891 INV\n2 1 97369 122992 41997 XOR\n2 1 41997 41998 41996 AND\n2 1 41996 122992 122993 XOR\n2 1 95322 122993 42001 XOR\n2 1 101465 123116 42177 XOR\n2 1 99417 123116 42178 XOR\n2 1 42177 42178 42176 AND\n2 1 42176 123116 123117 XOR\n2 1 123148 123117 97370 XOR\n2 1 97370 95322 123024 XOR\n2 1 123024 122993 93282 XOR\n",
"1 1 93282 41975 INV\n2 1 41975 41958 91285 XOR\n2 1 93282 41958 41890 XOR\n2 1 41890 41891 41889 AND\n2 1 41889 41958 41959 XOR\n1 1 41959 41894 INV\n2 1 97370 122993 42000 XOR\n2 1 42000 42001 41999 AND\n2 1 41999 122993 122994 XOR\n2 1 95323 122994 42004 XOR\n2 1 101466 123117 42180 XOR\n2 1 99418 123117 42181 XOR\n2 1 42180 42181 42179 AND\n2 1 42179 123117 123118 XOR\n2 1 123149 123118 97371 XOR\n2 1 97371 95323 123025 XOR\n2 1 123025 122994 93283 XOR\n1 1 93283 41976 INV\n2 1 41976 41959 91286 XOR\n2 1 93283 41959 41893 XOR\n2 1 41893 41894 41892 AND\n2 1 41892 41959 41960 XOR\n1 1 41960 41897 INV\n2 1 97371 122994 42003 XOR\n2 1 42003 42004 42002 AND\n2 1 42002 122994 122995 XOR\n2 1 95324 122995 42007 XOR\n2 1 101467 123118 42183 XOR\n2 1 99419 123118 42184 XOR\n2 1 42183 42184 42182 AND\n2 1 42182 123118 123119 XOR\n2 1 123150 123119 97372 XOR\n2 1 97372 95324 123026 XOR\n2 1 123026 122995 93284 XOR\n1 1 93284 41977 INV\n2 1 41977 41960 91287 XOR\n2 1 93284 41960 41896 XOR\n2 1 41896 41897 41895 AND\n2 1 41895 41960 41961 XOR\n1 1 41961 41900 INV\n2 1 97372 122995 42006 XOR\n2 1 42006 42007 42005 AND\n2 1 42005 122995 122996 XOR\n2 1 95325 122996 42010 XOR\n2 1 101468 123119 42186 XOR\n2 1 99420 123119 42187 XOR\n2 1 42186 42187 42185 AND\n2 1 42185 123119 123120 XOR\n2 1 123151 123120 97373 XOR\n2 1 97373 95325 123027 XOR\n2 1 123027 122996 93285 XOR\n1 1 93285 41978 INV\n2 1 41978 41961 91288 XOR\n2 1 93285 41961 41899 XOR\n2 1 41899 41900 41898 AND\n2 1 41898 41961 41962 XOR\n1 1 41962 41903 INV\n2 1 97373 122996 42009 XOR\n2 1 42009 42010 42008 AND\n2 1 42008 122996 122997 XOR\n2 1 95326 122997 42013 XOR\n2 1 101469 123120 42189 XOR\n2 1 99421 123120 42190 XOR\n2 1 42189 42190 42188 AND\n2 1 42188 123120 123121 XOR\n2 1 123152 123121 97374 XOR\n2 1 97374 95326 123028 XOR\n2 1 123028 122997 93286 XOR\n1 1 93286 41979 INV\n2 1 41979 41962 91289 XOR\n2 1 93286 41962 41902 XOR\n2 1 41902 41903 41901 AND\n2 1 41901 41962 41905 XOR\n2 1 97374 122997 42012 XOR\n2 1 42012 42013 42011 AND\n2 1 42011 122997 122998 XOR\n2 1 95327 122998 42016 XOR\n2 1 101470 123121 42192 XOR\n2 1 99422 123121 42193 XOR\n2 1 42192 42193 42191 AND\n2 1 42191 123121 123122 XOR\n2 1 123153 123122 97375 XOR\n2 1 97375 95327 123029 XOR\n2 1 123029 122998 93287 XOR\n2 1 93287 41905 91290 XOR\n2 1 91290 41905 41904 AND\n2 1 41904 41905 41907 XOR\n2 1 97375 122998 42015 XOR\n2 1 42015 42016 42014 AND\n2 1 42014 122998 122999 XOR\n2 1 95328 122999 42019 XOR\n2 1 101471 123122 42195 XOR\n2 1 99423 123122 42196 XOR\n2 1 42195 42196 42194 AND\n2 1 42194 123122 123123 XOR\n2 1 123154 123123 97376 XOR\n2 1 97376 95328 123030 XOR\n2 1 123030 122999 93288 XOR\n2 1 93288 41907 91291 XOR\n2 1 91291 41907 41906 AND\n2 1 41906 41907 41909 XOR\n2 1 97376 122999 42018 XOR\n2 1 42018 42019 42017 AND\n2 1 42017 122999 123000 XOR\n2 1 95329 123000 42022 XOR\n2 1 101472 123123 42198 XOR\n2 1 99424 123123 42199 XOR\n2 1 42198 42199 42197 AND\n2 1 42197 123123 123124 XOR\n2 1 123155 123124 97377 XOR\n2 1 97377 95329 123031 XOR\n2 1 123031 123000 93289 XOR\n2 1 93289 41909 91292 XOR\n2 1 4299 91292 108647 XOR\n2 1 91292 41909 41908 AND\n2 1 41908 41909 41963 XOR\n1 1 41963 41912 INV\n2 1 97377 123000 42021 XOR\n2 1 42021 42022 42020 AND\n2 1 42020 123000 123001 XOR\n2 1 95330 123001 42025 XOR\n2 1 101473 123124 42201 XOR\n2 1 99425 123124 42202 XOR\n2 1 42201 42202 42200 AND\n2 1 42200 123124 123125 XOR\n2 1 123156 123125 97378 XOR\n2 1 97378 95330 123032 XOR\n2 1 123032 123001 93290 XOR\n",
"1 1 93290 41980 INV\n2 1 41980 41963 91293 XOR\n2 1 4300 91293 108648 XOR\n2 1 93290 41963 41911 XOR\n2 1 41911 41912 41910 AND\n2 1 41910 41963 41964 XOR\n1 1 41964 41915 INV\n2 1 97378 123001 42024 XOR\n2 1 42024 42025 42023 AND\n2 1 42023 123001 123002 XOR\n2 1 95331 123002 42028 XOR\n2 1 101474 123125 42204 XOR\n2 1 99426 123125 42205 XOR\n2 1 42204 42205 42203 AND\n2 1 42203 123125 123126 XOR\n2 1 123157 123126 97379 XOR\n2 1 97379 95331 123033 XOR\n2 1 123033 123002 93291 XOR\n1 1 93291 41981 INV\n2 1 41981 41964 91294 XOR\n2 1 4301 91294 108649 XOR\n2 1 93291 41964 41914 XOR\n2 1 41914 41915 41913 AND\n2 1 41913 41964 41917 XOR\n2 1 97379 123002 42027 XOR\n2 1 42027 42028 42026 AND\n2 1 42026 123002 123003 XOR\n2 1 95332 123003 42031 XOR\n2 1 101475 123126 42207 XOR\n2 1 99427 123126 42208 XOR\n2 1 42207 42208 42206 AND\n2 1 42206 123126 123127 XOR\n2 1 123158 123127 97380 XOR\n2 1 97380 95332 123034 XOR\n2 1 123034 123003 93292 XOR\n2 1 93292 41917 91295 XOR\n2 1 4302 91295 108650 XOR\n2 1 91295 41917 41916 AND\n2 1 41916 41917 41965 XOR\n1 1 41965 41920 INV\n2 1 97380 123003 42030 XOR\n2 1 42030 42031 42029 AND\n2 1 42029 123003 123004 XOR\n2 1 95333 123004 42034 XOR\n2 1 101476 123127 42210 XOR\n2 1 99428 123127 42211 XOR\n2 1 42210 42211 42209 AND\n2 1 42209 123127 123128 XOR\n2 1 123159 123128 97381 XOR\n2 1 97381 95333 123035 XOR\n2 1 123035 123004 93293 XOR\n1 1 93293 41982 INV\n2 1 41982 41965 91296 XOR\n2 1 4303 91296 108651 XOR\n2 1 93293 41965 41919 XOR\n2 1 41919 41920 41918 AND\n2 1 41918 41965 41922 XOR\n2 1 97381 123004 42033 XOR\n2 1 42033 42034 42032 AND\n2 1 42032 123004 123005 XOR\n2 1 95334 123005 42037 XOR\n2 1 101477 123128 42213 XOR\n2 1 99429 123128 42214 XOR\n2 1 42213 42214 42212 AND\n2 1 42212 123128 123129 XOR\n2 1 123160 123129 97382 XOR\n2 1 97382 95334 123036 XOR\n2 1 123036 123005 93294 XOR\n2 1 93294 41922 91297 XOR\n2 1 4304 91297 108652 XOR\n2 1 91297 41922 41921 AND\n2 1 41921 41922 41966 XOR\n1 1 41966 41925 INV\n2 1 97382 123005 42036 XOR\n2 1 42036 42037 42035 AND\n2 1 42035 123005 123006 XOR\n2 1 95335 123006 42040 XOR\n2 1 101478 123129 42216 XOR\n2 1 99430 123129 42217 XOR\n2 1 42216 42217 42215 AND\n2 1 42215 123129 123130 XOR\n2 1 123161 123130 97383 XOR\n2 1 97383 95335 123037 XOR\n2 1 123037 123006 93295 XOR\n1 1 93295 41983 INV\n2 1 41983 41966 91298 XOR\n2 1 93295 41966 41924 XOR\n2 1 41924 41925 41923 AND\n2 1 41923 41966 41967 XOR\n1 1 41967 41928 INV\n2 1 97383 123006 42039 XOR\n2 1 42039 42040 42038 AND\n2 1 42038 123006 123007 XOR\n2 1 95336 123007 42043 XOR\n2 1 101479 123130 42219 XOR\n2 1 99431 123130 42220 XOR\n2 1 42219 42220 42218 AND\n2 1 42218 123130 123131 XOR\n2 1 123162 123131 97384 XOR\n2 1 97384 95336 123038 XOR\n2 1 123038 123007 93296 XOR\n1 1 93296 41984 INV\n2 1 41984 41967 91299 XOR\n2 1 93296 41967 41927 XOR\n2 1 41927 41928 41926 AND\n2 1 41926 41967 41968 XOR\n1 1 41968 41931 INV\n2 1 97384 123007 42042 XOR\n2 1 42042 42043 42041 AND\n2 1 42041 123007 123008 XOR\n2 1 95337 123008 42046 XOR\n2 1 101480 123131 42222 XOR\n2 1 99432 123131 42223 XOR\n2 1 42222 42223 42221 AND\n2 1 42221 123131 123132 XOR\n2 1 123163 123132 97385 XOR\n2 1 97385 95337 123039 XOR\n2 1 123039 123008 93297 XOR\n1 1 93297 41985 INV\n2 1 41985 41968 91300 XOR\n2 1 93297 41968 41930 XOR\n2 1 41930 41931 41929 AND\n2 1 41929 41968 41969 XOR\n1 1 41969 41934 INV\n2 1 97385 123008 42045 XOR\n2 1 42045 42046 42044 AND\n2 1 42044 123008 123009 XOR\n2 1 95338 123009 42049 XOR\n",
"2 1 101481 123132 42225 XOR\n2 1 99433 123132 42226 XOR\n2 1 42225 42226 42224 AND\n2 1 42224 123132 123133 XOR\n2 1 123164 123133 97386 XOR\n2 1 97386 95338 123040 XOR\n2 1 123040 123009 93298 XOR\n1 1 93298 41986 INV\n2 1 41986 41969 91301 XOR\n2 1 93298 41969 41933 XOR\n2 1 41933 41934 41932 AND\n2 1 41932 41969 41936 XOR\n2 1 97386 123009 42048 XOR\n2 1 42048 42049 42047 AND\n2 1 42047 123009 123010 XOR\n2 1 95339 123010 42052 XOR\n2 1 101482 123133 42228 XOR\n2 1 99434 123133 42229 XOR\n2 1 42228 42229 42227 AND\n2 1 42227 123133 123134 XOR\n2 1 123165 123134 97387 XOR\n2 1 97387 95339 123041 XOR\n2 1 123041 123010 93299 XOR\n2 1 93299 41936 91302 XOR\n2 1 91302 41936 41935 AND\n2 1 41935 41936 41970 XOR\n1 1 41970 41939 INV\n2 1 97387 123010 42051 XOR\n2 1 42051 42052 42050 AND\n2 1 42050 123010 123011 XOR\n2 1 95340 123011 42055 XOR\n2 1 101483 123134 42231 XOR\n2 1 99435 123134 42232 XOR\n2 1 42231 42232 42230 AND\n2 1 42230 123134 123135 XOR\n2 1 123166 123135 97388 XOR\n2 1 97388 95340 123042 XOR\n2 1 123042 123011 93300 XOR\n1 1 93300 41987 INV\n2 1 41987 41970 91303 XOR\n2 1 93300 41970 41938 XOR\n2 1 41938 41939 41937 AND\n2 1 41937 41970 41971 XOR\n1 1 41971 41942 INV\n2 1 97388 123011 42054 XOR\n2 1 42054 42055 42053 AND\n2 1 42053 123011 123012 XOR\n2 1 95341 123012 42058 XOR\n2 1 101484 123135 42234 XOR\n2 1 99436 123135 42235 XOR\n2 1 42234 42235 42233 AND\n2 1 42233 123135 123136 XOR\n2 1 123167 123136 97389 XOR\n2 1 97389 95341 123043 XOR\n2 1 123043 123012 93301 XOR\n1 1 93301 41988 INV\n2 1 41988 41971 91304 XOR\n2 1 93301 41971 41941 XOR\n2 1 41941 41942 41940 AND\n2 1 41940 41971 41944 XOR\n2 1 97389 123012 42057 XOR\n2 1 42057 42058 42056 AND\n2 1 42056 123012 123013 XOR\n2 1 95342 123013 42061 XOR\n2 1 101485 123136 42237 XOR\n2 1 99437 123136 42238 XOR\n2 1 42237 42238 42236 AND\n2 1 42236 123136 123137 XOR\n2 1 123168 123137 97390 XOR\n2 1 97390 95342 123044 XOR\n2 1 123044 123013 93302 XOR\n2 1 93302 41944 91305 XOR\n2 1 91305 41944 41943 AND\n2 1 41943 41944 41946 XOR\n2 1 97390 123013 42060 XOR\n2 1 42060 42061 42059 AND\n2 1 42059 123013 123014 XOR\n2 1 95343 123014 42064 XOR\n2 1 101486 123137 42240 XOR\n2 1 99438 123137 42241 XOR\n2 1 42240 42241 42239 AND\n2 1 42239 123137 123138 XOR\n2 1 123169 123138 97391 XOR\n2 1 97391 95343 123045 XOR\n2 1 123045 123014 93303 XOR\n2 1 93303 41946 91306 XOR\n2 1 91306 41946 41945 AND\n2 1 41945 41946 41948 XOR\n2 1 97391 123014 42063 XOR\n2 1 42063 42064 42062 AND\n2 1 42062 123014 123015 XOR\n2 1 95344 123015 42067 XOR\n2 1 101487 123138 42243 XOR\n2 1 99439 123138 42244 XOR\n2 1 42243 42244 42242 AND\n2 1 42242 123138 123139 XOR\n2 1 123170 123139 97392 XOR\n2 1 97392 95344 123046 XOR\n2 1 123046 123015 93304 XOR\n2 1 93304 41948 91307 XOR\n2 1 91307 41948 41947 AND\n2 1 41947 41948 41950 XOR\n2 1 97392 123015 42066 XOR\n2 1 42066 42067 42065 AND\n2 1 42065 123015 123016 XOR\n2 1 95345 123016 42070 XOR\n2 1 101488 123139 42246 XOR\n2 1 99440 123139 42247 XOR\n2 1 42246 42247 42245 AND\n2 1 42245 123139 123140 XOR\n2 1 123171 123140 97393 XOR\n2 1 97393 95345 123047 XOR\n2 1 123047 123016 93305 XOR\n2 1 93305 41950 91308 XOR\n2 1 91308 41950 41949 AND\n2 1 41949 41950 41952 XOR\n2 1 97393 123016 42069 XOR\n2 1 42069 42070 42068 AND\n2 1 42068 123016 123017 XOR\n2 1 95346 123017 42073 XOR\n2 1 101489 123140 42249 XOR\n2 1 99441 123140 42250 XOR\n2 1 42249 42250 42248 AND\n2 1 42248 123140 123141 XOR\n2 1 123172 123141 97394 XOR\n2 1 97394 95346 123048 XOR\n2 1 123048 123017 93306 XOR\n2 1 93306 41952 91309 XOR\n",
"2 1 91309 41952 41951 AND\n2 1 41951 41952 41954 XOR\n2 1 97394 123017 42072 XOR\n2 1 42072 42073 42071 AND\n2 1 42071 123017 123018 XOR\n2 1 95347 123018 42076 XOR\n2 1 101490 123141 42252 XOR\n2 1 99442 123141 42253 XOR\n2 1 42252 42253 42251 AND\n2 1 42251 123141 123142 XOR\n2 1 123173 123142 97395 XOR\n2 1 97395 95347 123049 XOR\n2 1 123049 123018 93307 XOR\n2 1 93307 41954 91310 XOR\n2 1 91310 41954 41953 AND\n2 1 41953 41954 41956 XOR\n2 1 97395 123018 42075 XOR\n2 1 42075 42076 42074 AND\n2 1 42074 123018 123019 XOR\n2 1 95348 123019 42079 XOR\n2 1 101491 123142 42255 XOR\n2 1 99443 123142 42256 XOR\n2 1 42255 42256 42254 AND\n2 1 42254 123142 123143 XOR\n2 1 123174 123143 97396 XOR\n2 1 97396 95348 123050 XOR\n2 1 123050 123019 93308 XOR\n2 1 93308 41956 91311 XOR\n2 1 91311 41956 41955 AND\n2 1 41955 41956 41972 XOR\n2 1 97396 123019 42078 XOR\n2 1 42078 42079 42077 AND\n2 1 42077 123019 123020 XOR\n2 1 101492 123143 42258 XOR\n2 1 99444 123143 42259 XOR\n2 1 42258 42259 42257 AND\n2 1 42257 123143 123144 XOR\n2 1 123175 123144 97397 XOR\n2 1 97397 95349 123051 XOR\n2 1 123051 123020 93309 XOR\n1 1 93309 41989 INV\n2 1 41989 41972 91312 XOR\n2 1 4296 91289 108644 XOR\n2 1 4288 91281 3712 XOR\n2 1 4295 91288 108643 XOR\n2 1 4294 91287 108642 XOR\n2 1 4290 91283 108638 XOR\n2 1 4291 91284 108639 XOR\n2 1 4297 91290 108645 XOR\n2 1 4298 91291 108646 XOR\n2 1 4288 91281 108606 AND\n2 1 91282 108606 16778 XOR\n2 1 4289 91282 108637 XOR\n2 1 108637 108606 3713 XOR\n2 1 4289 108606 16777 XOR\n2 1 4292 91285 108640 XOR\n2 1 16777 16778 16776 AND\n2 1 16776 108606 108607 XOR\n2 1 91283 108607 16781 XOR\n2 1 4290 108607 16780 XOR\n2 1 16780 16781 16779 AND\n2 1 108638 108607 3714 XOR\n2 1 16779 108607 108608 XOR\n2 1 4291 108608 16783 XOR\n2 1 91284 108608 16784 XOR\n2 1 16783 16784 16782 AND\n2 1 108639 108608 3715 XOR\n2 1 16782 108608 108609 XOR\n2 1 108640 108609 3716 XOR\n2 1 4293 91286 108641 XOR\n2 1 4307 91300 108655 XOR\n2 1 4306 91299 108654 XOR\n2 1 4305 91298 108653 XOR\n2 1 4319 91312 108667 XOR\n2 1 91285 108609 16787 XOR\n2 1 4292 108609 16786 XOR\n2 1 16786 16787 16785 AND\n2 1 16785 108609 108610 XOR\n2 1 108641 108610 3717 XOR\n2 1 4317 91310 108665 XOR\n2 1 4310 91303 108658 XOR\n2 1 4309 91302 108657 XOR\n2 1 4308 91301 108656 XOR\n2 1 4318 91311 108666 XOR\n2 1 91286 108610 16790 XOR\n2 1 4293 108610 16789 XOR\n2 1 16789 16790 16788 AND\n2 1 16788 108610 108611 XOR\n2 1 4311 91304 108659 XOR\n2 1 108642 108611 3718 XOR\n2 1 4315 91308 108663 XOR\n2 1 4314 91307 108662 XOR\n2 1 4312 91305 108660 XOR\n2 1 4313 91306 108661 XOR\n2 1 4316 91309 108664 XOR\n2 1 91287 108611 16793 XOR\n2 1 4294 108611 16792 XOR\n2 1 16792 16793 16791 AND\n2 1 16791 108611 108612 XOR\n2 1 4295 108612 16795 XOR\n2 1 91288 108612 16796 XOR\n2 1 16795 16796 16794 AND\n2 1 16794 108612 108613 XOR\n2 1 108644 108613 3720 XOR\n2 1 91289 108613 16799 XOR\n2 1 4296 108613 16798 XOR\n2 1 16798 16799 16797 AND\n2 1 16797 108613 108614 XOR\n2 1 108645 108614 3721 XOR\n2 1 4297 108614 16801 XOR\n2 1 91290 108614 16802 XOR\n2 1 16801 16802 16800 AND\n2 1 16800 108614 108615 XOR\n2 1 4298 108615 16804 XOR\n2 1 91291 108615 16805 XOR\n2 1 16804 16805 16803 AND\n2 1 108646 108615 3722 XOR\n2 1 16803 108615 108616 XOR\n2 1 108647 108616 3723 XOR\n2 1 91292 108616 16808 XOR\n2 1 4299 108616 16807 XOR\n2 1 16807 16808 16806 AND\n2 1 16806 108616 108617 XOR\n2 1 108648 108617 3724 XOR\n2 1 4300 108617 16810 XOR\n2 1 91293 108617 16811 XOR\n2 1 16810 16811 16809 AND\n2 1 16809 108617 108618 XOR\n",
"2 1 108643 108612 3719 XOR\n2 1 4301 108618 16813 XOR\n2 1 108649 108618 3725 XOR\n2 1 91294 108618 16814 XOR\n2 1 16813 16814 16812 AND\n2 1 16812 108618 108619 XOR\n2 1 4302 108619 16816 XOR\n2 1 91295 108619 16817 XOR\n2 1 16816 16817 16815 AND\n2 1 108650 108619 3726 XOR\n2 1 16815 108619 108620 XOR\n2 1 108651 108620 3727 XOR\n2 1 4303 108620 16819 XOR\n2 1 91296 108620 16820 XOR\n2 1 16819 16820 16818 AND\n2 1 16818 108620 108621 XOR\n2 1 91297 108621 16823 XOR\n2 1 108652 108621 3728 XOR\n2 1 4304 108621 16822 XOR\n2 1 16822 16823 16821 AND\n2 1 16821 108621 108622 XOR\n2 1 108653 108622 3729 XOR\n2 1 91298 108622 16826 XOR\n2 1 4305 108622 16825 XOR\n2 1 16825 16826 16824 AND\n2 1 16824 108622 108623 XOR\n2 1 108654 108623 3730 XOR\n2 1 91299 108623 16829 XOR\n2 1 4306 108623 16828 XOR\n2 1 16828 16829 16827 AND\n2 1 16827 108623 108624 XOR\n2 1 108655 108624 3731 XOR\n2 1 4307 108624 16831 XOR\n2 1 91300 108624 16832 XOR\n2 1 16831 16832 16830 AND\n2 1 16830 108624 108625 XOR\n2 1 91301 108625 16835 XOR\n2 1 108656 108625 3732 XOR\n2 1 4308 108625 16834 XOR\n2 1 16834 16835 16833 AND\n2 1 16833 108625 108626 XOR\n2 1 4309 108626 16837 XOR\n2 1 91302 108626 16838 XOR\n2 1 16837 16838 16836 AND\n2 1 16836 108626 108627 XOR\n2 1 108658 108627 3734 XOR\n2 1 4310 108627 16840 XOR\n2 1 91303 108627 16841 XOR\n2 1 16840 16841 16839 AND\n2 1 16839 108627 108628 XOR\n2 1 4311 108628 16843 XOR\n2 1 91304 108628 16844 XOR\n2 1 108659 108628 3735 XOR\n2 1 16843 16844 16842 AND\n2 1 16842 108628 108629 XOR\n2 1 108660 108629 3736 XOR\n2 1 91305 108629 16847 XOR\n2 1 4312 108629 16846 XOR\n2 1 16846 16847 16845 AND\n2 1 16845 108629 108630 XOR\n2 1 108661 108630 3737 XOR\n2 1 108657 108626 3733 XOR\n2 1 4313 108630 16849 XOR\n2 1 91306 108630 16850 XOR\n2 1 16849 16850 16848 AND\n2 1 16848 108630 108631 XOR\n2 1 91307 108631 16853 XOR\n2 1 108662 108631 3738 XOR\n2 1 4314 108631 16852 XOR\n2 1 16852 16853 16851 AND\n2 1 16851 108631 108632 XOR\n2 1 4315 108632 16855 XOR\n2 1 91308 108632 16856 XOR\n2 1 16855 16856 16854 AND\n2 1 16854 108632 108633 XOR\n2 1 108664 108633 3740 XOR\n2 1 108663 108632 3739 XOR\n2 1 4316 108633 16858 XOR\n2 1 91309 108633 16859 XOR\n2 1 16858 16859 16857 AND\n2 1 16857 108633 108634 XOR\n2 1 108665 108634 3741 XOR\n2 1 4317 108634 16861 XOR\n2 1 91310 108634 16862 XOR\n2 1 16861 16862 16860 AND\n2 1 16860 108634 108635 XOR\n2 1 108666 108635 3742 XOR\n2 1 4318 108635 16864 XOR\n2 1 91311 108635 16865 XOR\n2 1 16864 16865 16863 AND\n2 1 16863 108635 108636 XOR\n2 1 108667 108636 3743 XOR\n2 1 91281 85137 108668 AND\n2 1 91281 85137 4160 XOR\n2 1 91282 85138 108699 XOR\n2 1 91283 85139 108700 XOR\n2 1 91284 85140 108701 XOR\n2 1 91285 85141 108702 XOR\n2 1 91286 85142 108703 XOR\n2 1 91287 85143 108704 XOR\n2 1 91288 85144 108705 XOR\n2 1 91289 85145 108706 XOR\n2 1 91290 85146 108707 XOR\n2 1 91291 85147 108708 XOR\n2 1 91292 85148 108709 XOR\n2 1 91293 85149 108710 XOR\n2 1 91294 85150 108711 XOR\n2 1 91295 85151 108712 XOR\n2 1 91296 85152 108713 XOR\n2 1 91297 85153 108714 XOR\n2 1 91298 85154 108715 XOR\n2 1 91299 85155 108716 XOR\n2 1 91300 85156 108717 XOR\n2 1 91301 85157 108718 XOR\n2 1 91302 85158 108719 XOR\n2 1 91303 85159 108720 XOR\n2 1 91304 85160 108721 XOR\n2 1 91305 85161 108722 XOR\n2 1 91306 85162 108723 XOR\n2 1 91307 85163 108724 XOR\n2 1 91308 85164 108725 XOR\n2 1 91309 85165 108726 XOR\n2 1 91310 85166 108727 XOR\n2 1 91311 85167 108728 XOR\n2 1 91312 85168 108729 XOR\n2 1 108699 108668 4161 XOR\n2 1 91282 108668 16867 XOR\n2 1 85138 108668 16868 XOR\n",
"2 1 16867 16868 16866 AND\n2 1 16866 108668 108669 XOR\n2 1 108700 108669 4162 XOR\n2 1 91283 108669 16870 XOR\n2 1 85139 108669 16871 XOR\n2 1 16870 16871 16869 AND\n2 1 16869 108669 108670 XOR\n2 1 108701 108670 4163 XOR\n2 1 91284 108670 16873 XOR\n2 1 85140 108670 16874 XOR\n2 1 16873 16874 16872 AND\n2 1 16872 108670 108671 XOR\n2 1 108702 108671 4164 XOR\n2 1 91285 108671 16876 XOR\n2 1 85141 108671 16877 XOR\n2 1 16876 16877 16875 AND\n2 1 16875 108671 108672 XOR\n2 1 108703 108672 4165 XOR\n2 1 91286 108672 16879 XOR\n2 1 85142 108672 16880 XOR\n2 1 16879 16880 16878 AND\n2 1 16878 108672 108673 XOR\n2 1 108704 108673 4166 XOR\n2 1 91287 108673 16882 XOR\n2 1 85143 108673 16883 XOR\n2 1 16882 16883 16881 AND\n2 1 16881 108673 108674 XOR\n2 1 108705 108674 4167 XOR\n2 1 91288 108674 16885 XOR\n2 1 85144 108674 16886 XOR\n2 1 16885 16886 16884 AND\n2 1 16884 108674 108675 XOR\n2 1 108706 108675 4168 XOR\n2 1 91289 108675 16888 XOR\n2 1 85145 108675 16889 XOR\n2 1 16888 16889 16887 AND\n2 1 16887 108675 108676 XOR\n2 1 108707 108676 4169 XOR\n2 1 91290 108676 16891 XOR\n2 1 85146 108676 16892 XOR\n2 1 16891 16892 16890 AND\n2 1 16890 108676 108677 XOR\n2 1 108708 108677 4170 XOR\n2 1 91291 108677 16894 XOR\n2 1 85147 108677 16895 XOR\n2 1 16894 16895 16893 AND\n2 1 16893 108677 108678 XOR\n2 1 108709 108678 4171 XOR\n2 1 91292 108678 16897 XOR\n2 1 85148 108678 16898 XOR\n2 1 16897 16898 16896 AND\n2 1 16896 108678 108679 XOR\n2 1 108710 108679 4172 XOR\n2 1 91293 108679 16900 XOR\n2 1 85149 108679 16901 XOR\n2 1 16900 16901 16899 AND\n2 1 16899 108679 108680 XOR\n2 1 108711 108680 4173 XOR\n2 1 91294 108680 16903 XOR\n2 1 85150 108680 16904 XOR\n2 1 16903 16904 16902 AND\n2 1 16902 108680 108681 XOR\n2 1 108712 108681 4174 XOR\n2 1 91295 108681 16906 XOR\n2 1 85151 108681 16907 XOR\n2 1 16906 16907 16905 AND\n2 1 16905 108681 108682 XOR\n2 1 108713 108682 4175 XOR\n2 1 91296 108682 16909 XOR\n2 1 85152 108682 16910 XOR\n2 1 16909 16910 16908 AND\n2 1 16908 108682 108683 XOR\n2 1 108714 108683 4176 XOR\n2 1 91297 108683 16912 XOR\n2 1 85153 108683 16913 XOR\n2 1 16912 16913 16911 AND\n2 1 16911 108683 108684 XOR\n2 1 108715 108684 4177 XOR\n2 1 4177 4241 73536 XOR\n2 1 4176 4240 73535 XOR\n2 1 4175 4239 73534 XOR\n2 1 4174 4238 73533 XOR\n2 1 4173 4237 73532 XOR\n2 1 4172 4236 73531 XOR\n2 1 4171 4235 73530 XOR\n2 1 4170 4234 73529 XOR\n2 1 4169 4233 73528 XOR\n2 1 4168 4232 73527 XOR\n2 1 4167 4231 73526 XOR\n2 1 4166 4230 73525 XOR\n2 1 4165 4229 73524 XOR\n2 1 4164 4228 73523 XOR\n2 1 4163 4227 73522 XOR\n2 1 4162 4226 73521 XOR\n2 1 4161 4225 73520 XOR\n2 1 4160 4224 73519 XOR\n2 1 73536 73504 73472 AND\n2 1 73535 73503 73471 AND\n2 1 73534 73502 73470 AND\n2 1 73533 73501 73469 AND\n2 1 73532 73500 73468 AND\n2 1 73531 73499 73467 AND\n2 1 73530 73498 73466 AND\n2 1 73529 73497 73465 AND\n2 1 73528 73496 73464 AND\n2 1 73527 73495 73463 AND\n2 1 73526 73494 73462 AND\n2 1 73525 73493 73461 AND\n2 1 73524 73492 73460 AND\n2 1 73523 73491 73459 AND\n2 1 73522 73490 73458 AND\n2 1 73521 73489 73457 AND\n2 1 73520 73488 73456 AND\n2 1 73519 73487 73455 AND\n2 1 73472 4241 87170 XOR\n2 1 73471 4240 87169 XOR\n2 1 73470 4239 87168 XOR\n2 1 73469 4238 87167 XOR\n2 1 73468 4237 87166 XOR\n2 1 73467 4236 87165 XOR\n2 1 73466 4235 87164 XOR\n2 1 73465 4234 87163 XOR\n2 1 73464 4233 87162 XOR\n2 1 73463 4232 87161 XOR\n2 1 73462 4231 87160 XOR\n2 1 73461 4230 87159 XOR\n2 1 73460 4229 87158 XOR\n2 1 73459 4228 87157 XOR\n",
"2 1 73458 4227 87156 XOR\n2 1 73457 4226 87155 XOR\n2 1 73456 4225 87154 XOR\n2 1 73455 4224 87153 XOR\n2 1 4177 4209 73408 XOR\n2 1 4176 4208 73407 XOR\n2 1 4175 4207 73406 XOR\n2 1 4174 4206 73405 XOR\n2 1 4173 4205 73404 XOR\n2 1 4172 4204 73403 XOR\n2 1 4171 4203 73402 XOR\n2 1 4170 4202 73401 XOR\n2 1 4169 4201 73400 XOR\n2 1 4168 4200 73399 XOR\n2 1 4167 4199 73398 XOR\n2 1 4166 4198 73397 XOR\n2 1 4165 4197 73396 XOR\n2 1 4164 4196 73395 XOR\n2 1 4163 4195 73394 XOR\n2 1 4162 4194 73393 XOR\n2 1 4161 4193 73392 XOR\n2 1 4160 4192 73391 XOR\n2 1 91298 108684 16915 XOR\n2 1 85154 108684 16916 XOR\n2 1 16915 16916 16914 AND\n2 1 16914 108684 108685 XOR\n2 1 108716 108685 4178 XOR\n2 1 4178 4242 73537 XOR\n2 1 73537 73505 73473 AND\n2 1 73473 4242 87171 XOR\n2 1 4178 4210 73409 XOR\n2 1 91299 108685 16918 XOR\n2 1 85155 108685 16919 XOR\n2 1 16918 16919 16917 AND\n2 1 16917 108685 108686 XOR\n2 1 108717 108686 4179 XOR\n2 1 4179 4243 73538 XOR\n2 1 73538 73506 73474 AND\n2 1 73474 4243 87172 XOR\n2 1 4179 4211 73410 XOR\n2 1 91300 108686 16921 XOR\n2 1 85156 108686 16922 XOR\n2 1 16921 16922 16920 AND\n2 1 16920 108686 108687 XOR\n2 1 108718 108687 4180 XOR\n2 1 4180 4244 73539 XOR\n2 1 73539 73507 73475 AND\n2 1 73475 4244 87173 XOR\n2 1 4180 4212 73411 XOR\n2 1 91301 108687 16924 XOR\n2 1 85157 108687 16925 XOR\n2 1 16924 16925 16923 AND\n2 1 16923 108687 108688 XOR\n2 1 108719 108688 4181 XOR\n2 1 4181 4245 73540 XOR\n2 1 73540 73508 73476 AND\n2 1 73476 4245 87174 XOR\n2 1 4181 4213 73412 XOR\n2 1 91302 108688 16927 XOR\n2 1 85158 108688 16928 XOR\n2 1 16927 16928 16926 AND\n2 1 16926 108688 108689 XOR\n2 1 108720 108689 4182 XOR\n2 1 4182 4246 73541 XOR\n2 1 73541 73509 73477 AND\n2 1 73477 4246 87175 XOR\n2 1 4182 4214 73413 XOR\n2 1 91303 108689 16930 XOR\n2 1 85159 108689 16931 XOR\n2 1 16930 16931 16929 AND\n2 1 16929 108689 108690 XOR\n2 1 108721 108690 4183 XOR\n2 1 4183 4247 73542 XOR\n2 1 73542 73510 73478 AND\n2 1 73478 4247 87176 XOR\n2 1 4183 4215 73414 XOR\n2 1 91304 108690 16933 XOR\n2 1 85160 108690 16934 XOR\n2 1 16933 16934 16932 AND\n2 1 16932 108690 108691 XOR\n2 1 85161 108691 16937 XOR\n2 1 108722 108691 4184 XOR\n2 1 4184 4248 73543 XOR\n2 1 73543 73511 73479 AND\n2 1 73479 4248 87177 XOR\n2 1 4184 4216 73415 XOR\n2 1 91305 108691 16936 XOR\n2 1 16936 16937 16935 AND\n2 1 16935 108691 108692 XOR\n2 1 91306 108692 16939 XOR\n2 1 108723 108692 4185 XOR\n2 1 4185 4249 73544 XOR\n2 1 73544 73512 73480 AND\n2 1 73480 4249 87178 XOR\n2 1 4185 4217 73416 XOR\n2 1 85162 108692 16940 XOR\n2 1 16939 16940 16938 AND\n2 1 16938 108692 108693 XOR\n2 1 85163 108693 16943 XOR\n2 1 108724 108693 4186 XOR\n2 1 4186 4250 73545 XOR\n2 1 73545 73513 73481 AND\n2 1 73481 4250 87179 XOR\n2 1 4186 4218 73417 XOR\n2 1 91307 108693 16942 XOR\n2 1 16942 16943 16941 AND\n2 1 16941 108693 108694 XOR\n2 1 91308 108694 16945 XOR\n2 1 108725 108694 4187 XOR\n2 1 4187 4251 73546 XOR\n2 1 73546 73514 73482 AND\n2 1 73482 4251 87180 XOR\n2 1 4187 4219 73418 XOR\n2 1 85164 108694 16946 XOR\n2 1 16945 16946 16944 AND\n2 1 16944 108694 108695 XOR\n2 1 85165 108695 16949 XOR\n2 1 108726 108695 4188 XOR\n2 1 4188 4252 73547 XOR\n2 1 73547 73515 73483 AND\n2 1 73483 4252 87181 XOR\n2 1 4188 4220 73419 XOR\n2 1 91309 108695 16948 XOR\n2 1 16948 16949 16947 AND\n2 1 16947 108695 108696 XOR\n2 1 91310 108696 16951 XOR\n2 1 108727 108696 4189 XOR\n2 1 4189 4253 73548 XOR\n",
"2 1 73548 73516 73484 AND\n2 1 73484 4253 87182 XOR\n2 1 4189 4221 73420 XOR\n2 1 85166 108696 16952 XOR\n2 1 16951 16952 16950 AND\n2 1 16950 108696 108697 XOR\n2 1 85167 108697 16955 XOR\n2 1 108728 108697 4190 XOR\n2 1 4190 4254 73549 XOR\n2 1 73549 73517 73485 AND\n2 1 73485 4254 87183 XOR\n2 1 4190 4222 73421 XOR\n2 1 91311 108697 16954 XOR\n2 1 16954 16955 16953 AND\n2 1 16953 108697 108698 XOR\n2 1 108729 108698 4191 XOR\n2 1 4191 4255 73550 XOR\n2 1 73550 73518 73486 AND\n2 1 73486 4255 87184 XOR\n2 1 4191 4223 73422 XOR\n2 1 4161 4172 68334 XOR\n2 1 4160 4171 68333 XOR\n2 1 4191 4170 68332 XOR\n2 1 4190 4169 68331 XOR\n2 1 4189 4168 68330 XOR\n2 1 4188 4167 68329 XOR\n2 1 4187 4166 68328 XOR\n2 1 4186 4165 68327 XOR\n2 1 4185 4164 68326 XOR\n2 1 4184 4163 68325 XOR\n2 1 4183 4162 68324 XOR\n2 1 4182 4161 68323 XOR\n2 1 4181 4160 68322 XOR\n2 1 4180 4191 68321 XOR\n2 1 4179 4190 68320 XOR\n2 1 4178 4189 68319 XOR\n2 1 4177 4188 68318 XOR\n2 1 4176 4187 68317 XOR\n2 1 4175 4186 68316 XOR\n2 1 4174 4185 68315 XOR\n2 1 4173 4184 68314 XOR\n2 1 4172 4183 68313 XOR\n2 1 4171 4182 68312 XOR\n2 1 4170 4181 68311 XOR\n2 1 4169 4180 68310 XOR\n2 1 4168 4179 68309 XOR\n2 1 4167 4178 68308 XOR\n2 1 4166 4177 68307 XOR\n2 1 4165 4176 68306 XOR\n2 1 4164 4175 68305 XOR\n2 1 4163 4174 68304 XOR\n2 1 4162 4173 68303 XOR\n2 1 68334 4181 89232 XOR\n2 1 89232 87184 122741 XOR\n2 1 68333 4180 89231 XOR\n2 1 89231 87183 122740 XOR\n2 1 68332 4179 89230 XOR\n2 1 89230 87182 122739 XOR\n2 1 68331 4178 89229 XOR\n2 1 89229 87181 122738 XOR\n2 1 68330 4177 89228 XOR\n2 1 89228 87180 122737 XOR\n2 1 68329 4176 89227 XOR\n2 1 89227 87179 122736 XOR\n2 1 68328 4175 89226 XOR\n2 1 89226 87178 122735 XOR\n2 1 68327 4174 89225 XOR\n2 1 89225 87177 122734 XOR\n2 1 68326 4173 89224 XOR\n2 1 89224 87176 122733 XOR\n2 1 68325 4172 89223 XOR\n2 1 89223 87175 122732 XOR\n2 1 68324 4171 89222 XOR\n2 1 89222 87174 122731 XOR\n2 1 68323 4170 89221 XOR\n2 1 89221 87173 122730 XOR\n2 1 68322 4169 89220 XOR\n2 1 89220 87172 122729 XOR\n2 1 68321 4168 89219 XOR\n2 1 89219 87171 122728 XOR\n2 1 68320 4167 89218 XOR\n2 1 89218 87170 122727 XOR\n2 1 68319 4166 89217 XOR\n2 1 89217 87169 122726 XOR\n2 1 68318 4165 89216 XOR\n2 1 89216 87168 122725 XOR\n2 1 68317 4164 89215 XOR\n2 1 89215 87167 122724 XOR\n2 1 68316 4163 89214 XOR\n2 1 89214 87166 122723 XOR\n2 1 68315 4162 89213 XOR\n2 1 89213 87165 122722 XOR\n2 1 68314 4161 89212 XOR\n2 1 89212 87164 122721 XOR\n2 1 68313 4160 89211 XOR\n2 1 89211 87163 122720 XOR\n2 1 68312 4191 89210 XOR\n2 1 89210 87162 122719 XOR\n2 1 68311 4190 89209 XOR\n2 1 89209 87161 122718 XOR\n2 1 68310 4189 89208 XOR\n2 1 89208 87160 122717 XOR\n2 1 68309 4188 89207 XOR\n2 1 89207 87159 122716 XOR\n2 1 68308 4187 89206 XOR\n2 1 89206 87158 122715 XOR\n2 1 68307 4186 89205 XOR\n2 1 89205 87157 122714 XOR\n2 1 68306 4185 89204 XOR\n2 1 89204 87156 122713 XOR\n2 1 68305 4184 89203 XOR\n2 1 89203 87155 122712 XOR\n2 1 68304 4183 89202 XOR\n2 1 89202 87154 122711 XOR\n2 1 68303 4182 89201 XOR\n2 1 89201 87153 122680 AND\n2 1 89201 87153 85105 XOR\n2 1 122711 122680 85106 XOR\n2 1 89202 122680 41330 XOR\n2 1 87154 122680 41331 XOR\n2 1 41330 41331 41329 AND\n2 1 41329 122680 122681 XOR\n2 1 122712 122681 85107 XOR\n2 1 89203 122681 41333 XOR\n2 1 87155 122681 41334 XOR\n2 1 41333 41334 41332 AND\n2 1 41332 122681 122682 XOR\n2 1 122713 122682 85108 XOR\n",
"2 1 89204 122682 41336 XOR\n2 1 87156 122682 41337 XOR\n2 1 41336 41337 41335 AND\n2 1 41335 122682 122683 XOR\n2 1 122714 122683 85109 XOR\n2 1 89205 122683 41339 XOR\n2 1 87157 122683 41340 XOR\n2 1 41339 41340 41338 AND\n2 1 41338 122683 122684 XOR\n2 1 122715 122684 85110 XOR\n2 1 89206 122684 41342 XOR\n2 1 87158 122684 41343 XOR\n2 1 41342 41343 41341 AND\n2 1 41341 122684 122685 XOR\n2 1 122716 122685 85111 XOR\n2 1 89207 122685 41345 XOR\n2 1 87159 122685 41346 XOR\n2 1 41345 41346 41344 AND\n2 1 41344 122685 122686 XOR\n2 1 122717 122686 85112 XOR\n2 1 89208 122686 41348 XOR\n2 1 87160 122686 41349 XOR\n2 1 41348 41349 41347 AND\n2 1 41347 122686 122687 XOR\n2 1 122718 122687 85113 XOR\n2 1 89209 122687 41351 XOR\n2 1 87161 122687 41352 XOR\n2 1 41351 41352 41350 AND\n2 1 41350 122687 122688 XOR\n2 1 122719 122688 85114 XOR\n2 1 89210 122688 41354 XOR\n2 1 87162 122688 41355 XOR\n2 1 41354 41355 41353 AND\n2 1 41353 122688 122689 XOR\n2 1 122720 122689 85115 XOR\n2 1 89211 122689 41357 XOR\n2 1 87163 122689 41358 XOR\n2 1 41357 41358 41356 AND\n2 1 41356 122689 122690 XOR\n2 1 122721 122690 85116 XOR\n2 1 89212 122690 41360 XOR\n2 1 87164 122690 41361 XOR\n2 1 41360 41361 41359 AND\n2 1 41359 122690 122691 XOR\n2 1 122722 122691 85117 XOR\n2 1 89213 122691 41363 XOR\n2 1 87165 122691 41364 XOR\n2 1 41363 41364 41362 AND\n2 1 41362 122691 122692 XOR\n2 1 122723 122692 85118 XOR\n2 1 89214 122692 41366 XOR\n2 1 87166 122692 41367 XOR\n2 1 41366 41367 41365 AND\n2 1 41365 122692 122693 XOR\n2 1 122724 122693 85119 XOR\n2 1 89215 122693 41369 XOR\n2 1 87167 122693 41370 XOR\n2 1 41369 41370 41368 AND\n2 1 41368 122693 122694 XOR\n2 1 122725 122694 85120 XOR\n2 1 89216 122694 41372 XOR\n2 1 87168 122694 41373 XOR\n2 1 41372 41373 41371 AND\n2 1 41371 122694 122695 XOR\n2 1 122726 122695 85121 XOR\n2 1 89217 122695 41375 XOR\n2 1 87169 122695 41376 XOR\n2 1 41375 41376 41374 AND\n2 1 41374 122695 122696 XOR\n2 1 122727 122696 85122 XOR\n2 1 89218 122696 41378 XOR\n2 1 87170 122696 41379 XOR\n2 1 41378 41379 41377 AND\n2 1 41377 122696 122697 XOR\n2 1 122728 122697 85123 XOR\n2 1 89219 122697 41381 XOR\n2 1 87171 122697 41382 XOR\n2 1 41381 41382 41380 AND\n2 1 41380 122697 122698 XOR\n2 1 122729 122698 85124 XOR\n2 1 89220 122698 41384 XOR\n2 1 87172 122698 41385 XOR\n2 1 41384 41385 41383 AND\n2 1 41383 122698 122699 XOR\n2 1 122730 122699 85125 XOR\n2 1 89221 122699 41387 XOR\n2 1 87173 122699 41388 XOR\n2 1 41387 41388 41386 AND\n2 1 41386 122699 122700 XOR\n2 1 122731 122700 85126 XOR\n2 1 89222 122700 41390 XOR\n2 1 87174 122700 41391 XOR\n2 1 41390 41391 41389 AND\n2 1 41389 122700 122701 XOR\n2 1 122732 122701 85127 XOR\n2 1 89223 122701 41393 XOR\n2 1 87175 122701 41394 XOR\n2 1 41393 41394 41392 AND\n2 1 41392 122701 122702 XOR\n2 1 122733 122702 85128 XOR\n2 1 89224 122702 41396 XOR\n2 1 87176 122702 41397 XOR\n2 1 41396 41397 41395 AND\n2 1 41395 122702 122703 XOR\n2 1 122734 122703 85129 XOR\n2 1 89225 122703 41399 XOR\n2 1 87177 122703 41400 XOR\n2 1 41399 41400 41398 AND\n2 1 41398 122703 122704 XOR\n2 1 122735 122704 85130 XOR\n2 1 89226 122704 41402 XOR\n2 1 87178 122704 41403 XOR\n2 1 41402 41403 41401 AND\n2 1 41401 122704 122705 XOR\n2 1 122736 122705 85131 XOR\n2 1 89227 122705 41405 XOR\n2 1 87179 122705 41406 XOR\n2 1 41405 41406 41404 AND\n2 1 41404 122705 122706 XOR\n2 1 122737 122706 85132 XOR\n2 1 89228 122706 41408 XOR\n2 1 87180 122706 41409 XOR\n2 1 41408 41409 41407 AND\n2 1 41407 122706 122707 XOR\n2 1 122738 122707 85133 XOR\n2 1 89229 122707 41411 XOR\n2 1 87181 122707 41412 XOR\n2 1 41411 41412 41410 AND\n",
"2 1 41410 122707 122708 XOR\n2 1 122739 122708 85134 XOR\n2 1 89230 122708 41414 XOR\n2 1 87182 122708 41415 XOR\n2 1 41414 41415 41413 AND\n2 1 41413 122708 122709 XOR\n2 1 122740 122709 85135 XOR\n2 1 89231 122709 41417 XOR\n2 1 87183 122709 41418 XOR\n2 1 41417 41418 41416 AND\n2 1 41416 122709 122710 XOR\n2 1 122741 122710 85136 XOR\n2 1 66030 3743 65998 AND\n2 1 66029 3742 65997 AND\n2 1 66028 3741 65996 AND\n2 1 66027 3740 65995 AND\n2 1 66026 3739 65994 AND\n2 1 66025 3738 65993 AND\n2 1 66024 3737 65992 AND\n2 1 66023 3736 65991 AND\n2 1 66022 3735 65990 AND\n2 1 66021 3734 65989 AND\n2 1 66020 3733 65988 AND\n2 1 66019 3732 65987 AND\n2 1 66018 3731 65986 AND\n2 1 66017 3730 65985 AND\n2 1 66016 3729 65984 AND\n2 1 66015 3728 65983 AND\n2 1 66014 3727 65982 AND\n2 1 66013 3726 65981 AND\n2 1 66012 3725 65980 AND\n2 1 66011 3724 65979 AND\n2 1 66010 3723 65978 AND\n2 1 66009 3722 65977 AND\n2 1 66008 3721 65976 AND\n2 1 66007 3720 65975 AND\n2 1 66006 3719 65974 AND\n2 1 66005 3718 65973 AND\n2 1 66004 3717 65972 AND\n2 1 66003 3716 65971 AND\n2 1 66002 3715 65970 AND\n2 1 66001 3714 65969 AND\n2 1 66000 3713 65968 AND\n2 1 65999 3712 65967 AND\n2 1 65998 3807 99413 XOR\n2 1 65997 3806 99412 XOR\n2 1 65996 3805 99411 XOR\n2 1 65995 3804 99410 XOR\n2 1 65994 3803 99409 XOR\n2 1 65993 3802 99408 XOR\n2 1 65992 3801 99407 XOR\n2 1 65991 3800 99406 XOR\n2 1 65990 3799 99405 XOR\n2 1 65989 3798 99404 XOR\n2 1 65988 3797 99403 XOR\n2 1 65987 3796 99402 XOR\n2 1 65986 3795 99401 XOR\n2 1 65985 3794 99400 XOR\n2 1 65984 3793 99399 XOR\n2 1 65983 3792 99398 XOR\n2 1 65982 3791 99397 XOR\n2 1 65981 3790 99396 XOR\n2 1 65980 3789 99395 XOR\n2 1 65979 3788 99394 XOR\n2 1 65978 3787 99393 XOR\n2 1 65977 3786 99392 XOR\n2 1 65976 3785 99391 XOR\n2 1 65975 3784 99390 XOR\n2 1 65974 3783 99389 XOR\n2 1 65973 3782 99388 XOR\n2 1 65972 3781 99387 XOR\n2 1 65971 3780 99386 XOR\n2 1 65970 3779 99385 XOR\n2 1 65969 3778 99384 XOR\n2 1 65968 3777 99383 XOR\n2 1 65967 3776 99382 XOR\n2 1 3743 3775 65966 XOR\n2 1 3742 3774 65965 XOR\n2 1 3741 3773 65964 XOR\n2 1 3740 3772 65963 XOR\n2 1 3739 3771 65962 XOR\n2 1 3738 3770 65961 XOR\n2 1 3737 3769 65960 XOR\n2 1 3736 3768 65959 XOR\n2 1 3735 3767 65958 XOR\n2 1 3734 3766 65957 XOR\n2 1 3733 3765 65956 XOR\n2 1 3732 3764 65955 XOR\n2 1 3731 3763 65954 XOR\n2 1 3730 3762 65953 XOR\n2 1 3729 3761 65952 XOR\n2 1 3728 3760 65951 XOR\n2 1 3727 3759 65950 XOR\n2 1 3726 3758 65949 XOR\n2 1 3725 3757 65948 XOR\n2 1 3724 3756 65947 XOR\n2 1 3723 3755 65946 XOR\n2 1 3722 3754 65945 XOR\n2 1 3721 3753 65944 XOR\n2 1 3720 3752 65943 XOR\n2 1 3719 3751 65942 XOR\n2 1 3718 3750 65941 XOR\n2 1 3717 3749 65940 XOR\n2 1 3716 3748 65939 XOR\n2 1 3715 3747 65938 XOR\n2 1 3714 3746 65937 XOR\n2 1 3713 3745 65936 XOR\n2 1 3712 3744 65935 XOR\n2 1 3717 3722 62414 XOR\n2 1 3716 3721 62413 XOR\n2 1 3715 3720 62412 XOR\n2 1 3714 3719 62411 XOR\n2 1 3713 3718 62410 XOR\n2 1 3712 3717 62409 XOR\n2 1 3743 3716 62408 XOR\n2 1 3742 3715 62407 XOR\n2 1 3741 3714 62406 XOR\n2 1 3740 3713 62405 XOR\n2 1 3739 3712 62404 XOR\n2 1 3738 3743 62403 XOR\n2 1 3737 3742 62402 XOR\n2 1 3736 3741 62401 XOR\n2 1 3735 3740 62400 XOR\n2 1 3734 3739 62399 XOR\n2 1 3733 3738 62398 XOR\n2 1 3732 3737 62397 XOR\n2 1 3731 3736 62396 XOR\n2 1 3730 3735 62395 XOR\n",
"2 1 3729 3734 62394 XOR\n2 1 3728 3733 62393 XOR\n2 1 3727 3732 62392 XOR\n2 1 3726 3731 62391 XOR\n2 1 3725 3730 62390 XOR\n2 1 3724 3729 62389 XOR\n2 1 3723 3728 62388 XOR\n2 1 3722 3727 62387 XOR\n2 1 3721 3726 62386 XOR\n2 1 3720 3725 62385 XOR\n2 1 3719 3724 62384 XOR\n2 1 3718 3723 62383 XOR\n2 1 62414 3736 101461 XOR\n2 1 101461 99413 122927 XOR\n2 1 62413 3735 101460 XOR\n2 1 101460 99412 122926 XOR\n2 1 62412 3734 101459 XOR\n2 1 101459 99411 122925 XOR\n2 1 62411 3733 101458 XOR\n2 1 101458 99410 122924 XOR\n2 1 62410 3732 101457 XOR\n2 1 101457 99409 122923 XOR\n2 1 62409 3731 101456 XOR\n2 1 101456 99408 122922 XOR\n2 1 62408 3730 101455 XOR\n2 1 101455 99407 122921 XOR\n2 1 62407 3729 101454 XOR\n2 1 101454 99406 122920 XOR\n2 1 62406 3728 101453 XOR\n2 1 101453 99405 122919 XOR\n2 1 62405 3727 101452 XOR\n2 1 101452 99404 122918 XOR\n2 1 62404 3726 101451 XOR\n2 1 101451 99403 122917 XOR\n2 1 62403 3725 101450 XOR\n2 1 101450 99402 122916 XOR\n2 1 62402 3724 101449 XOR\n2 1 101449 99401 122915 XOR\n2 1 62401 3723 101448 XOR\n2 1 101448 99400 122914 XOR\n2 1 62400 3722 101447 XOR\n2 1 101447 99399 122913 XOR\n2 1 62399 3721 101446 XOR\n2 1 101446 99398 122912 XOR\n2 1 62398 3720 101445 XOR\n2 1 101445 99397 122911 XOR\n2 1 62397 3719 101444 XOR\n2 1 101444 99396 122910 XOR\n2 1 62396 3718 101443 XOR\n2 1 101443 99395 122909 XOR\n2 1 62395 3717 101442 XOR\n2 1 101442 99394 122908 XOR\n2 1 62394 3716 101441 XOR\n2 1 101441 99393 122907 XOR\n2 1 62393 3715 101440 XOR\n2 1 101440 99392 122906 XOR\n2 1 62392 3714 101439 XOR\n2 1 101439 99391 122905 XOR\n2 1 62391 3713 101438 XOR\n2 1 101438 99390 122904 XOR\n2 1 62390 3712 101437 XOR\n2 1 101437 99389 122903 XOR\n2 1 62389 3743 101436 XOR\n2 1 101436 99388 122902 XOR\n2 1 62388 3742 101435 XOR\n2 1 101435 99387 122901 XOR\n2 1 62387 3741 101434 XOR\n2 1 101434 99386 122900 XOR\n2 1 62386 3740 101433 XOR\n2 1 101433 99385 122899 XOR\n2 1 62385 3739 101432 XOR\n2 1 101432 99384 122898 XOR\n2 1 62384 3738 101431 XOR\n2 1 101431 99383 122897 XOR\n2 1 62383 3737 101430 XOR\n2 1 101430 99382 122866 AND\n2 1 101430 99382 97334 XOR\n2 1 97334 95286 122742 AND\n2 1 97334 95286 93247 XOR\n1 1 93247 91249 INV\n2 1 95287 122742 41526 XOR\n2 1 122897 122866 97335 XOR\n2 1 97335 95287 122773 XOR\n2 1 122773 122742 93248 XOR\n1 1 93248 41508 INV\n2 1 41508 93247 91250 XOR\n2 1 93248 93247 41420 XOR\n2 1 41420 91249 41419 AND\n2 1 41419 93247 41493 XOR\n1 1 41493 41423 INV\n2 1 97335 122742 41525 XOR\n2 1 41525 41526 41524 AND\n2 1 41524 122742 122743 XOR\n2 1 95288 122743 41529 XOR\n2 1 101431 122866 41705 XOR\n2 1 99383 122866 41706 XOR\n2 1 41705 41706 41704 AND\n2 1 41704 122866 122867 XOR\n2 1 122898 122867 97336 XOR\n2 1 97336 95288 122774 XOR\n2 1 122774 122743 93249 XOR\n1 1 93249 41509 INV\n2 1 41509 41493 91251 XOR\n2 1 93249 41493 41422 XOR\n2 1 41422 41423 41421 AND\n2 1 41421 41493 41425 XOR\n2 1 97336 122743 41528 XOR\n2 1 41528 41529 41527 AND\n2 1 41527 122743 122744 XOR\n2 1 95289 122744 41532 XOR\n2 1 101432 122867 41708 XOR\n2 1 99384 122867 41709 XOR\n2 1 41708 41709 41707 AND\n2 1 41707 122867 122868 XOR\n2 1 122899 122868 97337 XOR\n2 1 97337 95289 122775 XOR\n2 1 122775 122744 93250 XOR\n2 1 93250 41425 91252 XOR\n2 1 91252 41425 41424 AND\n2 1 41424 41425 41427 XOR\n2 1 97337 122744 41531 XOR\n2 1 41531 41532 41530 AND\n2 1 41530 122744 122745 XOR\n2 1 95290 122745 41535 XOR\n2 1 101433 122868 41711 XOR\n2 1 99385 122868 41712 XOR\n2 1 41711 41712 41710 AND\n2 1 41710 122868 122869 XOR\n",
"2 1 122900 122869 97338 XOR\n2 1 97338 95290 122776 XOR\n2 1 122776 122745 93251 XOR\n2 1 93251 41427 91253 XOR\n2 1 91253 41427 41426 AND\n2 1 41426 41427 41494 XOR\n1 1 41494 41430 INV\n2 1 97338 122745 41534 XOR\n2 1 41534 41535 41533 AND\n2 1 41533 122745 122746 XOR\n2 1 95291 122746 41538 XOR\n2 1 101434 122869 41714 XOR\n2 1 99386 122869 41715 XOR\n2 1 41714 41715 41713 AND\n2 1 41713 122869 122870 XOR\n2 1 122901 122870 97339 XOR\n2 1 97339 95291 122777 XOR\n2 1 122777 122746 93252 XOR\n1 1 93252 41510 INV\n2 1 41510 41494 91254 XOR\n2 1 93252 41494 41429 XOR\n2 1 41429 41430 41428 AND\n2 1 41428 41494 41432 XOR\n2 1 97339 122746 41537 XOR\n2 1 41537 41538 41536 AND\n2 1 41536 122746 122747 XOR\n2 1 95292 122747 41541 XOR\n2 1 101435 122870 41717 XOR\n2 1 99387 122870 41718 XOR\n2 1 41717 41718 41716 AND\n2 1 41716 122870 122871 XOR\n2 1 122902 122871 97340 XOR\n2 1 97340 95292 122778 XOR\n2 1 122778 122747 93253 XOR\n2 1 93253 41432 91255 XOR\n2 1 91255 41432 41431 AND\n2 1 41431 41432 41495 XOR\n1 1 41495 41435 INV\n2 1 97340 122747 41540 XOR\n2 1 41540 41541 41539 AND\n2 1 41539 122747 122748 XOR\n2 1 95293 122748 41544 XOR\n2 1 101436 122871 41720 XOR\n2 1 99388 122871 41721 XOR\n2 1 41720 41721 41719 AND\n2 1 41719 122871 122872 XOR\n2 1 122903 122872 97341 XOR\n2 1 97341 95293 122779 XOR\n2 1 122779 122748 93254 XOR\n1 1 93254 41511 INV\n2 1 41511 41495 91256 XOR\n2 1 93254 41495 41434 XOR\n2 1 41434 41435 41433 AND\n2 1 41433 41495 41437 XOR\n2 1 97341 122748 41543 XOR\n2 1 41543 41544 41542 AND\n2 1 41542 122748 122749 XOR\n2 1 95294 122749 41547 XOR\n2 1 101437 122872 41723 XOR\n2 1 99389 122872 41724 XOR\n2 1 41723 41724 41722 AND\n2 1 41722 122872 122873 XOR\n2 1 122904 122873 97342 XOR\n2 1 97342 95294 122780 XOR\n2 1 122780 122749 93255 XOR\n2 1 93255 41437 91257 XOR\n2 1 4264 91257 108520 XOR\n2 1 91257 41437 41436 AND\n2 1 41436 41437 41496 XOR\n1 1 41496 41440 INV\n2 1 97342 122749 41546 XOR\n2 1 41546 41547 41545 AND\n2 1 41545 122749 122750 XOR\n2 1 95295 122750 41550 XOR\n2 1 101438 122873 41726 XOR\n2 1 99390 122873 41727 XOR\n2 1 41726 41727 41725 AND\n2 1 41725 122873 122874 XOR\n2 1 122905 122874 97343 XOR\n2 1 97343 95295 122781 XOR\n2 1 122781 122750 93256 XOR\n1 1 93256 41512 INV\n2 1 41512 41496 91258 XOR\n2 1 4265 91258 108521 XOR\n2 1 93256 41496 41439 XOR\n2 1 41439 41440 41438 AND\n2 1 41438 41496 41497 XOR\n1 1 41497 41443 INV\n2 1 97343 122750 41549 XOR\n2 1 41549 41550 41548 AND\n2 1 41548 122750 122751 XOR\n2 1 95296 122751 41553 XOR\n2 1 101439 122874 41729 XOR\n2 1 99391 122874 41730 XOR\n2 1 41729 41730 41728 AND\n2 1 41728 122874 122875 XOR\n2 1 122906 122875 97344 XOR\n2 1 97344 95296 122782 XOR\n2 1 122782 122751 93257 XOR\n1 1 93257 41513 INV\n2 1 41513 41497 91259 XOR\n2 1 4266 91259 108522 XOR\n2 1 93257 41497 41442 XOR\n2 1 41442 41443 41441 AND\n2 1 41441 41497 41445 XOR\n2 1 97344 122751 41552 XOR\n2 1 41552 41553 41551 AND\n2 1 41551 122751 122752 XOR\n2 1 95297 122752 41556 XOR\n2 1 101440 122875 41732 XOR\n2 1 99392 122875 41733 XOR\n2 1 41732 41733 41731 AND\n2 1 41731 122875 122876 XOR\n2 1 122907 122876 97345 XOR\n2 1 97345 95297 122783 XOR\n2 1 122783 122752 93258 XOR\n2 1 93258 41445 91260 XOR\n2 1 4267 91260 108523 XOR\n2 1 91260 41445 41444 AND\n2 1 41444 41445 41447 XOR\n2 1 97345 122752 41555 XOR\n2 1 41555 41556 41554 AND\n2 1 41554 122752 122753 XOR\n2 1 95298 122753 41559 XOR\n2 1 101441 122876 41735 XOR\n2 1 99393 122876 41736 XOR\n2 1 41735 41736 41734 AND\n2 1 41734 122876 122877 XOR\n",
"2 1 122908 122877 97346 XOR\n2 1 97346 95298 122784 XOR\n2 1 122784 122753 93259 XOR\n2 1 93259 41447 91261 XOR\n2 1 4268 91261 108524 XOR\n2 1 91261 41447 41446 AND\n2 1 41446 41447 41449 XOR\n2 1 97346 122753 41558 XOR\n2 1 41558 41559 41557 AND\n2 1 41557 122753 122754 XOR\n2 1 95299 122754 41562 XOR\n2 1 101442 122877 41738 XOR\n2 1 99394 122877 41739 XOR\n2 1 41738 41739 41737 AND\n2 1 41737 122877 122878 XOR\n2 1 122909 122878 97347 XOR\n2 1 97347 95299 122785 XOR\n2 1 122785 122754 93260 XOR\n2 1 93260 41449 91262 XOR\n2 1 4269 91262 108525 XOR\n2 1 91262 41449 41448 AND\n2 1 41448 41449 41451 XOR\n2 1 97347 122754 41561 XOR\n2 1 41561 41562 41560 AND\n2 1 41560 122754 122755 XOR\n2 1 95300 122755 41565 XOR\n2 1 101443 122878 41741 XOR\n2 1 99395 122878 41742 XOR\n2 1 41741 41742 41740 AND\n2 1 41740 122878 122879 XOR\n2 1 122910 122879 97348 XOR\n2 1 97348 95300 122786 XOR\n2 1 122786 122755 93261 XOR\n2 1 93261 41451 91263 XOR\n2 1 91263 41451 41450 AND\n2 1 41450 41451 41453 XOR\n2 1 97348 122755 41564 XOR\n2 1 41564 41565 41563 AND\n2 1 41563 122755 122756 XOR\n2 1 95301 122756 41568 XOR\n2 1 101444 122879 41744 XOR\n2 1 99396 122879 41745 XOR\n2 1 41744 41745 41743 AND\n2 1 41743 122879 122880 XOR\n2 1 122911 122880 97349 XOR\n2 1 97349 95301 122787 XOR\n2 1 122787 122756 93262 XOR\n2 1 93262 41453 91264 XOR\n2 1 91264 41453 41452 AND\n2 1 41452 41453 41455 XOR\n2 1 97349 122756 41567 XOR\n2 1 41567 41568 41566 AND\n2 1 41566 122756 122757 XOR\n2 1 95302 122757 41571 XOR\n2 1 101445 122880 41747 XOR\n2 1 99397 122880 41748 XOR\n2 1 41747 41748 41746 AND\n2 1 41746 122880 122881 XOR\n2 1 122912 122881 97350 XOR\n2 1 97350 95302 122788 XOR\n2 1 122788 122757 93263 XOR\n2 1 93263 41455 91265 XOR\n2 1 91265 41455 41454 AND\n2 1 41454 41455 41457 XOR\n2 1 97350 122757 41570 XOR\n2 1 41570 41571 41569 AND\n2 1 41569 122757 122758 XOR\n2 1 95303 122758 41574 XOR\n2 1 101446 122881 41750 XOR\n2 1 99398 122881 41751 XOR\n2 1 41750 41751 41749 AND\n2 1 41749 122881 122882 XOR\n2 1 122913 122882 97351 XOR\n2 1 97351 95303 122789 XOR\n2 1 122789 122758 93264 XOR\n2 1 93264 41457 91266 XOR\n2 1 91266 41457 41456 AND\n2 1 41456 41457 41498 XOR\n1 1 41498 41460 INV\n2 1 97351 122758 41573 XOR\n2 1 41573 41574 41572 AND\n2 1 41572 122758 122759 XOR\n2 1 95304 122759 41577 XOR\n2 1 101447 122882 41753 XOR\n2 1 99399 122882 41754 XOR\n2 1 41753 41754 41752 AND\n2 1 41752 122882 122883 XOR\n2 1 122914 122883 97352 XOR\n2 1 97352 95304 122790 XOR\n2 1 122790 122759 93265 XOR\n1 1 93265 41514 INV\n2 1 41514 41498 91267 XOR\n2 1 93265 41498 41459 XOR\n2 1 41459 41460 41458 AND\n2 1 41458 41498 41499 XOR\n1 1 41499 41463 INV\n2 1 97352 122759 41576 XOR\n2 1 41576 41577 41575 AND\n2 1 41575 122759 122760 XOR\n2 1 95305 122760 41580 XOR\n2 1 101448 122883 41756 XOR\n2 1 99400 122883 41757 XOR\n2 1 41756 41757 41755 AND\n2 1 41755 122883 122884 XOR\n2 1 122915 122884 97353 XOR\n2 1 97353 95305 122791 XOR\n2 1 122791 122760 93266 XOR\n1 1 93266 41515 INV\n2 1 41515 41499 91268 XOR\n2 1 93266 41499 41462 XOR\n2 1 41462 41463 41461 AND\n2 1 41461 41499 41500 XOR\n1 1 41500 41466 INV\n2 1 97353 122760 41579 XOR\n2 1 41579 41580 41578 AND\n2 1 41578 122760 122761 XOR\n2 1 95306 122761 41583 XOR\n2 1 101449 122884 41759 XOR\n2 1 99401 122884 41760 XOR\n2 1 41759 41760 41758 AND\n2 1 41758 122884 122885 XOR\n2 1 122916 122885 97354 XOR\n2 1 97354 95306 122792 XOR\n2 1 122792 122761 93267 XOR\n1 1 93267 41516 INV\n2 1 41516 41500 91269 XOR\n2 1 93267 41500 41465 XOR\n2 1 41465 41466 41464 AND\n",
"2 1 41464 41500 41468 XOR\n2 1 97354 122761 41582 XOR\n2 1 41582 41583 41581 AND\n2 1 41581 122761 122762 XOR\n2 1 95307 122762 41586 XOR\n2 1 101450 122885 41762 XOR\n2 1 99402 122885 41763 XOR\n2 1 41762 41763 41761 AND\n2 1 41761 122885 122886 XOR\n2 1 122917 122886 97355 XOR\n2 1 97355 95307 122793 XOR\n2 1 122793 122762 93268 XOR\n2 1 93268 41468 91270 XOR\n2 1 91270 41468 41467 AND\n2 1 41467 41468 41501 XOR\n1 1 41501 41471 INV\n2 1 97355 122762 41585 XOR\n2 1 41585 41586 41584 AND\n2 1 41584 122762 122763 XOR\n2 1 95308 122763 41589 XOR\n2 1 101451 122886 41765 XOR\n2 1 99403 122886 41766 XOR\n2 1 41765 41766 41764 AND\n2 1 41764 122886 122887 XOR\n2 1 122918 122887 97356 XOR\n2 1 97356 95308 122794 XOR\n2 1 122794 122763 93269 XOR\n1 1 93269 41517 INV\n2 1 41517 41501 91271 XOR\n2 1 93269 41501 41470 XOR\n2 1 41470 41471 41469 AND\n2 1 41469 41501 41502 XOR\n1 1 41502 41474 INV\n2 1 97356 122763 41588 XOR\n2 1 41588 41589 41587 AND\n2 1 41587 122763 122764 XOR\n2 1 95309 122764 41592 XOR\n2 1 101452 122887 41768 XOR\n2 1 99404 122887 41769 XOR\n2 1 41768 41769 41767 AND\n2 1 41767 122887 122888 XOR\n2 1 122919 122888 97357 XOR\n2 1 97357 95309 122795 XOR\n2 1 122795 122764 93270 XOR\n1 1 93270 41518 INV\n2 1 41518 41502 91272 XOR\n2 1 93270 41502 41473 XOR\n2 1 41473 41474 41472 AND\n2 1 41472 41502 41503 XOR\n1 1 41503 41477 INV\n2 1 97357 122764 41591 XOR\n2 1 41591 41592 41590 AND\n2 1 41590 122764 122765 XOR\n2 1 95310 122765 41595 XOR\n2 1 101453 122888 41771 XOR\n2 1 99405 122888 41772 XOR\n2 1 41771 41772 41770 AND\n2 1 41770 122888 122889 XOR\n2 1 122920 122889 97358 XOR\n2 1 97358 95310 122796 XOR\n2 1 122796 122765 93271 XOR\n1 1 93271 41519 INV\n2 1 41519 41503 91273 XOR\n2 1 93271 41503 41476 XOR\n2 1 41476 41477 41475 AND\n2 1 41475 41503 41504 XOR\n1 1 41504 41480 INV\n2 1 97358 122765 41594 XOR\n2 1 41594 41595 41593 AND\n2 1 41593 122765 122766 XOR\n2 1 95311 122766 41598 XOR\n2 1 101454 122889 41774 XOR\n2 1 99406 122889 41775 XOR\n2 1 41774 41775 41773 AND\n2 1 41773 122889 122890 XOR\n2 1 122921 122890 97359 XOR\n2 1 97359 95311 122797 XOR\n2 1 122797 122766 93272 XOR\n1 1 93272 41520 INV\n2 1 41520 41504 91274 XOR\n2 1 93272 41504 41479 XOR\n2 1 41479 41480 41478 AND\n2 1 41478 41504 41482 XOR\n2 1 97359 122766 41597 XOR\n2 1 41597 41598 41596 AND\n2 1 41596 122766 122767 XOR\n2 1 95312 122767 41601 XOR\n2 1 101455 122890 41777 XOR\n2 1 99407 122890 41778 XOR\n2 1 41777 41778 41776 AND\n2 1 41776 122890 122891 XOR\n2 1 122922 122891 97360 XOR\n2 1 97360 95312 122798 XOR\n2 1 122798 122767 93273 XOR\n2 1 93273 41482 91275 XOR\n2 1 91275 85131 108600 XOR\n2 1 91275 41482 41481 AND\n2 1 41481 41482 41505 XOR\n1 1 41505 41485 INV\n2 1 97360 122767 41600 XOR\n2 1 41600 41601 41599 AND\n2 1 41599 122767 122768 XOR\n2 1 95313 122768 41604 XOR\n2 1 101456 122891 41780 XOR\n2 1 99408 122891 41781 XOR\n2 1 41780 41781 41779 AND\n2 1 41779 122891 122892 XOR\n2 1 122923 122892 97361 XOR\n2 1 97361 95313 122799 XOR\n2 1 122799 122768 93274 XOR\n1 1 93274 41521 INV\n2 1 41521 41505 91276 XOR\n2 1 91276 85132 108601 XOR\n2 1 93274 41505 41484 XOR\n2 1 41484 41485 41483 AND\n2 1 41483 41505 41506 XOR\n1 1 41506 41488 INV\n2 1 97361 122768 41603 XOR\n2 1 41603 41604 41602 AND\n2 1 41602 122768 122769 XOR\n2 1 95314 122769 41607 XOR\n2 1 101457 122892 41783 XOR\n2 1 99409 122892 41784 XOR\n2 1 41783 41784 41782 AND\n2 1 41782 122892 122893 XOR\n2 1 122924 122893 97362 XOR\n2 1 97362 95314 122800 XOR\n2 1 122800 122769 93275 XOR\n",
"1 1 93275 41522 INV\n2 1 41522 41506 91277 XOR\n2 1 91277 85133 108602 XOR\n2 1 93275 41506 41487 XOR\n2 1 41487 41488 41486 AND\n2 1 41486 41506 41490 XOR\n2 1 97362 122769 41606 XOR\n2 1 41606 41607 41605 AND\n2 1 41605 122769 122770 XOR\n2 1 95315 122770 41610 XOR\n2 1 101458 122893 41786 XOR\n2 1 99410 122893 41787 XOR\n2 1 41786 41787 41785 AND\n2 1 41785 122893 122894 XOR\n2 1 122925 122894 97363 XOR\n2 1 97363 95315 122801 XOR\n2 1 122801 122770 93276 XOR\n2 1 93276 41490 91278 XOR\n2 1 91278 85134 108603 XOR\n2 1 91278 41490 41489 AND\n2 1 41489 41490 41492 XOR\n2 1 97363 122770 41609 XOR\n2 1 41609 41610 41608 AND\n2 1 41608 122770 122771 XOR\n2 1 95316 122771 41613 XOR\n2 1 101459 122894 41789 XOR\n2 1 99411 122894 41790 XOR\n2 1 41789 41790 41788 AND\n2 1 41788 122894 122895 XOR\n2 1 122926 122895 97364 XOR\n2 1 97364 95316 122802 XOR\n2 1 122802 122771 93277 XOR\n2 1 93277 41492 91279 XOR\n2 1 91279 85135 108604 XOR\n2 1 91279 41492 41491 AND\n2 1 41491 41492 41507 XOR\n2 1 97364 122771 41612 XOR\n2 1 41612 41613 41611 AND\n2 1 41611 122771 122772 XOR\n2 1 101460 122895 41792 XOR\n2 1 99412 122895 41793 XOR\n2 1 41792 41793 41791 AND\n2 1 41791 122895 122896 XOR\n2 1 122927 122896 97365 XOR\n2 1 97365 95317 122803 XOR\n2 1 122803 122772 93278 XOR\n1 1 93278 41523 INV\n2 1 41523 41507 91280 XOR\n2 1 91280 85136 108605 XOR\n2 1 4285 91278 108541 XOR\n2 1 91264 85120 108589 XOR\n2 1 91267 85123 108592 XOR\n2 1 91266 85122 108591 XOR\n2 1 91265 85121 108590 XOR\n2 1 4258 91251 108514 XOR\n2 1 91274 85130 108599 XOR\n2 1 4257 91250 108513 XOR\n2 1 91268 85124 108593 XOR\n2 1 4287 91280 108543 XOR\n2 1 4261 91254 108517 XOR\n2 1 4262 91255 108518 XOR\n2 1 4259 91252 108515 XOR\n2 1 91271 85127 108596 XOR\n2 1 91269 85125 108594 XOR\n2 1 4260 91253 108516 XOR\n2 1 91263 85119 108588 XOR\n2 1 4256 91249 3680 XOR\n2 1 4256 91249 108482 AND\n2 1 4257 108482 16597 XOR\n2 1 108513 108482 3681 XOR\n2 1 91250 108482 16598 XOR\n2 1 16597 16598 16596 AND\n2 1 16596 108482 108483 XOR\n2 1 91251 108483 16601 XOR\n2 1 4258 108483 16600 XOR\n2 1 16600 16601 16599 AND\n2 1 4286 91279 108542 XOR\n2 1 4263 91256 108519 XOR\n2 1 16599 108483 108484 XOR\n2 1 108515 108484 3683 XOR\n2 1 4259 108484 16603 XOR\n2 1 91252 108484 16604 XOR\n2 1 16603 16604 16602 AND\n2 1 16602 108484 108485 XOR\n2 1 108514 108483 3682 XOR\n2 1 91273 85129 108598 XOR\n2 1 91270 85126 108595 XOR\n2 1 91272 85128 108597 XOR\n2 1 4272 91265 108528 XOR\n2 1 4271 91264 108527 XOR\n2 1 4270 91263 108526 XOR\n2 1 4284 91277 108540 XOR\n2 1 108516 108485 3684 XOR\n2 1 91250 85106 108575 XOR\n2 1 91249 85105 3168 XOR\n2 1 91249 85105 108544 AND\n2 1 91262 85118 108587 XOR\n2 1 108575 108544 3169 XOR\n2 1 4282 91275 108538 XOR\n2 1 91260 85116 108585 XOR\n2 1 4275 91268 108531 XOR\n2 1 4274 91267 108530 XOR\n2 1 4273 91266 108529 XOR\n2 1 4283 91276 108539 XOR\n2 1 91253 108485 16607 XOR\n2 1 4260 108485 16606 XOR\n2 1 16606 16607 16605 AND\n2 1 16605 108485 108486 XOR\n2 1 108517 108486 3685 XOR\n2 1 4276 91269 108532 XOR\n2 1 91253 85109 108578 XOR\n2 1 91252 85108 108577 XOR\n2 1 91251 85107 108576 XOR\n2 1 91261 85117 108586 XOR\n2 1 85106 108544 16688 XOR\n2 1 91250 108544 16687 XOR\n2 1 16687 16688 16686 AND\n2 1 16686 108544 108545 XOR\n2 1 108576 108545 3170 XOR\n2 1 91254 85110 108579 XOR\n2 1 4280 91273 108536 XOR\n2 1 4279 91272 108535 XOR\n2 1 4277 91270 108533 XOR\n2 1 4278 91271 108534 XOR\n2 1 4281 91274 108537 XOR\n2 1 91254 108486 16610 XOR\n2 1 4261 108486 16609 XOR\n2 1 16609 16610 16608 AND\n",
"2 1 16608 108486 108487 XOR\n2 1 91255 108487 16613 XOR\n2 1 4262 108487 16612 XOR\n2 1 16612 16613 16611 AND\n2 1 108518 108487 3686 XOR\n2 1 16611 108487 108488 XOR\n2 1 4263 108488 16615 XOR\n2 1 91256 108488 16616 XOR\n2 1 16615 16616 16614 AND\n2 1 16614 108488 108489 XOR\n2 1 91257 108489 16619 XOR\n2 1 108519 108488 3687 XOR\n2 1 108520 108489 3688 XOR\n2 1 4264 108489 16618 XOR\n2 1 16618 16619 16617 AND\n2 1 16617 108489 108490 XOR\n2 1 4265 108490 16621 XOR\n2 1 91258 108490 16622 XOR\n2 1 16621 16622 16620 AND\n2 1 16620 108490 108491 XOR\n2 1 108522 108491 3690 XOR\n2 1 108521 108490 3689 XOR\n2 1 91259 108491 16625 XOR\n2 1 4266 108491 16624 XOR\n2 1 16624 16625 16623 AND\n2 1 16623 108491 108492 XOR\n2 1 108523 108492 3691 XOR\n2 1 91260 108492 16628 XOR\n2 1 4267 108492 16627 XOR\n2 1 16627 16628 16626 AND\n2 1 16626 108492 108493 XOR\n2 1 108524 108493 3692 XOR\n2 1 91261 108493 16631 XOR\n2 1 4268 108493 16630 XOR\n2 1 16630 16631 16629 AND\n2 1 16629 108493 108494 XOR\n2 1 4269 108494 16633 XOR\n2 1 91262 108494 16634 XOR\n2 1 16633 16634 16632 AND\n2 1 16632 108494 108495 XOR\n2 1 91263 108495 16637 XOR\n2 1 108526 108495 3694 XOR\n2 1 4270 108495 16636 XOR\n2 1 16636 16637 16635 AND\n2 1 16635 108495 108496 XOR\n2 1 91264 108496 16640 XOR\n2 1 4271 108496 16639 XOR\n2 1 16639 16640 16638 AND\n2 1 16638 108496 108497 XOR\n2 1 4272 108497 16642 XOR\n2 1 91265 108497 16643 XOR\n2 1 16642 16643 16641 AND\n2 1 108528 108497 3696 XOR\n2 1 16641 108497 108498 XOR\n2 1 108529 108498 3697 XOR\n2 1 108527 108496 3695 XOR\n2 1 91266 108498 16646 XOR\n2 1 4273 108498 16645 XOR\n2 1 16645 16646 16644 AND\n2 1 16644 108498 108499 XOR\n2 1 108530 108499 3698 XOR\n2 1 91267 108499 16649 XOR\n2 1 4274 108499 16648 XOR\n2 1 16648 16649 16647 AND\n2 1 16647 108499 108500 XOR\n2 1 108531 108500 3699 XOR\n2 1 108525 108494 3693 XOR\n2 1 91268 108500 16652 XOR\n2 1 4275 108500 16651 XOR\n2 1 16651 16652 16650 AND\n2 1 16650 108500 108501 XOR\n2 1 4276 108501 16654 XOR\n2 1 91269 108501 16655 XOR\n2 1 16654 16655 16653 AND\n2 1 16653 108501 108502 XOR\n2 1 108533 108502 3701 XOR\n2 1 91270 108502 16658 XOR\n2 1 4277 108502 16657 XOR\n2 1 16657 16658 16656 AND\n2 1 16656 108502 108503 XOR\n2 1 108534 108503 3702 XOR\n2 1 4278 108503 16660 XOR\n2 1 91271 108503 16661 XOR\n2 1 16660 16661 16659 AND\n2 1 16659 108503 108504 XOR\n2 1 4279 108504 16663 XOR\n2 1 91272 108504 16664 XOR\n2 1 16663 16664 16662 AND\n2 1 108535 108504 3703 XOR\n2 1 16662 108504 108505 XOR\n2 1 108536 108505 3704 XOR\n2 1 91273 108505 16667 XOR\n2 1 4280 108505 16666 XOR\n2 1 16666 16667 16665 AND\n2 1 16665 108505 108506 XOR\n2 1 108537 108506 3705 XOR\n2 1 4281 108506 16669 XOR\n2 1 91274 108506 16670 XOR\n2 1 16669 16670 16668 AND\n2 1 16668 108506 108507 XOR\n2 1 108532 108501 3700 XOR\n2 1 4282 108507 16672 XOR\n2 1 108538 108507 3706 XOR\n2 1 91275 108507 16673 XOR\n2 1 16672 16673 16671 AND\n2 1 16671 108507 108508 XOR\n2 1 4283 108508 16675 XOR\n2 1 91276 108508 16676 XOR\n2 1 16675 16676 16674 AND\n2 1 108539 108508 3707 XOR\n2 1 16674 108508 108509 XOR\n2 1 108540 108509 3708 XOR\n2 1 4284 108509 16678 XOR\n2 1 91277 108509 16679 XOR\n2 1 16678 16679 16677 AND\n2 1 16677 108509 108510 XOR\n2 1 4285 108510 16681 XOR\n2 1 108541 108510 3709 XOR\n2 1 91278 108510 16682 XOR\n2 1 16681 16682 16680 AND\n2 1 16680 108510 108511 XOR\n2 1 108542 108511 3710 XOR\n2 1 91279 108511 16685 XOR\n2 1 4286 108511 16684 XOR\n2 1 16684 16685 16683 AND\n2 1 16683 108511 108512 XOR\n2 1 108543 108512 3711 XOR\n2 1 91258 85114 108583 XOR\n",
"2 1 91257 85113 108582 XOR\n2 1 91255 85111 108580 XOR\n2 1 91256 85112 108581 XOR\n2 1 91259 85115 108584 XOR\n2 1 85107 108545 16691 XOR\n2 1 91251 108545 16690 XOR\n2 1 16690 16691 16689 AND\n2 1 16689 108545 108546 XOR\n2 1 85108 108546 16694 XOR\n2 1 91252 108546 16693 XOR\n2 1 16693 16694 16692 AND\n2 1 108577 108546 3171 XOR\n2 1 16692 108546 108547 XOR\n2 1 91253 108547 16696 XOR\n2 1 85109 108547 16697 XOR\n2 1 16696 16697 16695 AND\n2 1 16695 108547 108548 XOR\n2 1 91254 108548 16699 XOR\n2 1 85110 108548 16700 XOR\n2 1 16699 16700 16698 AND\n2 1 16698 108548 108549 XOR\n2 1 91255 108549 16702 XOR\n2 1 85111 108549 16703 XOR\n2 1 16702 16703 16701 AND\n2 1 108580 108549 3174 XOR\n2 1 16701 108549 108550 XOR\n2 1 108581 108550 3175 XOR\n2 1 108578 108547 3172 XOR\n2 1 108579 108548 3173 XOR\n2 1 85112 108550 16706 XOR\n2 1 91256 108550 16705 XOR\n2 1 16705 16706 16704 AND\n2 1 16704 108550 108551 XOR\n2 1 108582 108551 3176 XOR\n2 1 91257 108551 16708 XOR\n2 1 85113 108551 16709 XOR\n2 1 16708 16709 16707 AND\n2 1 16707 108551 108552 XOR\n2 1 91258 108552 16711 XOR\n2 1 108583 108552 3177 XOR\n2 1 85114 108552 16712 XOR\n2 1 16711 16712 16710 AND\n2 1 16710 108552 108553 XOR\n2 1 85115 108553 16715 XOR\n2 1 91259 108553 16714 XOR\n2 1 16714 16715 16713 AND\n2 1 108584 108553 3178 XOR\n2 1 16713 108553 108554 XOR\n2 1 91260 108554 16717 XOR\n2 1 85116 108554 16718 XOR\n2 1 16717 16718 16716 AND\n2 1 16716 108554 108555 XOR\n2 1 91261 108555 16720 XOR\n2 1 108586 108555 3180 XOR\n2 1 108585 108554 3179 XOR\n2 1 85117 108555 16721 XOR\n2 1 16720 16721 16719 AND\n2 1 16719 108555 108556 XOR\n2 1 108587 108556 3181 XOR\n2 1 85118 108556 16724 XOR\n2 1 91262 108556 16723 XOR\n2 1 16723 16724 16722 AND\n2 1 16722 108556 108557 XOR\n2 1 108588 108557 3182 XOR\n2 1 85119 108557 16727 XOR\n2 1 91263 108557 16726 XOR\n2 1 16726 16727 16725 AND\n2 1 16725 108557 108558 XOR\n2 1 108589 108558 3183 XOR\n2 1 91264 108558 16729 XOR\n2 1 85120 108558 16730 XOR\n2 1 16729 16730 16728 AND\n2 1 16728 108558 108559 XOR\n2 1 85121 108559 16733 XOR\n2 1 108590 108559 3184 XOR\n2 1 91265 108559 16732 XOR\n2 1 16732 16733 16731 AND\n2 1 16731 108559 108560 XOR\n2 1 91266 108560 16735 XOR\n2 1 85122 108560 16736 XOR\n2 1 16735 16736 16734 AND\n2 1 16734 108560 108561 XOR\n2 1 91267 108561 16738 XOR\n2 1 108592 108561 3186 XOR\n2 1 85123 108561 16739 XOR\n2 1 16738 16739 16737 AND\n2 1 16737 108561 108562 XOR\n2 1 91268 108562 16741 XOR\n2 1 108593 108562 3187 XOR\n2 1 85124 108562 16742 XOR\n2 1 16741 16742 16740 AND\n2 1 16740 108562 108563 XOR\n2 1 108594 108563 3188 XOR\n2 1 85125 108563 16745 XOR\n2 1 91269 108563 16744 XOR\n2 1 16744 16745 16743 AND\n2 1 16743 108563 108564 XOR\n2 1 108595 108564 3189 XOR\n2 1 91270 108564 16747 XOR\n2 1 108591 108560 3185 XOR\n2 1 85126 108564 16748 XOR\n2 1 16747 16748 16746 AND\n2 1 16746 108564 108565 XOR\n2 1 108596 108565 3190 XOR\n2 1 91271 108565 16750 XOR\n2 1 85127 108565 16751 XOR\n2 1 16750 16751 16749 AND\n2 1 16749 108565 108566 XOR\n2 1 91272 108566 16753 XOR\n2 1 85128 108566 16754 XOR\n2 1 108597 108566 3191 XOR\n2 1 16753 16754 16752 AND\n2 1 16752 108566 108567 XOR\n2 1 85129 108567 16757 XOR\n2 1 91273 108567 16756 XOR\n2 1 16756 16757 16755 AND\n2 1 16755 108567 108568 XOR\n2 1 108599 108568 3193 XOR\n2 1 85130 108568 16760 XOR\n2 1 91274 108568 16759 XOR\n2 1 16759 16760 16758 AND\n2 1 16758 108568 108569 XOR\n2 1 91275 108569 16762 XOR\n2 1 85131 108569 16763 XOR\n2 1 16762 16763 16761 AND\n2 1 16761 108569 108570 XOR\n2 1 108601 108570 3195 XOR\n2 1 91276 108570 16765 XOR\n",
"2 1 108600 108569 3194 XOR\n2 1 108598 108567 3192 XOR\n2 1 85132 108570 16766 XOR\n2 1 16765 16766 16764 AND\n2 1 16764 108570 108571 XOR\n2 1 108602 108571 3196 XOR\n2 1 85133 108571 16769 XOR\n2 1 91277 108571 16768 XOR\n2 1 16768 16769 16767 AND\n2 1 16767 108571 108572 XOR\n2 1 108603 108572 3197 XOR\n2 1 85134 108572 16772 XOR\n2 1 91278 108572 16771 XOR\n2 1 16771 16772 16770 AND\n2 1 16770 108572 108573 XOR\n2 1 85135 108573 16775 XOR\n2 1 91279 108573 16774 XOR\n2 1 16774 16775 16773 AND\n2 1 108604 108573 3198 XOR\n2 1 16773 108573 108574 XOR\n2 1 108605 108574 3199 XOR\n2 1 3199 4223 73454 XOR\n2 1 3198 4222 73453 XOR\n2 1 3197 4221 73452 XOR\n2 1 3196 4220 73451 XOR\n2 1 3195 4219 73450 XOR\n2 1 3194 4218 73449 XOR\n2 1 3193 4217 73448 XOR\n2 1 3192 4216 73447 XOR\n2 1 3191 4215 73446 XOR\n2 1 3190 4214 73445 XOR\n2 1 3189 4213 73444 XOR\n2 1 3188 4212 73443 XOR\n2 1 3187 4211 73442 XOR\n2 1 3186 4210 73441 XOR\n2 1 3185 4209 73440 XOR\n2 1 3184 4208 73439 XOR\n2 1 3183 4207 73438 XOR\n2 1 3182 4206 73437 XOR\n2 1 3181 4205 73436 XOR\n2 1 3180 4204 73435 XOR\n2 1 3179 4203 73434 XOR\n2 1 3178 4202 73433 XOR\n2 1 3177 4201 73432 XOR\n2 1 3176 4200 73431 XOR\n2 1 3175 4199 73430 XOR\n2 1 3174 4198 73429 XOR\n2 1 3173 4197 73428 XOR\n2 1 3172 4196 73427 XOR\n2 1 3171 4195 73426 XOR\n2 1 3170 4194 73425 XOR\n2 1 3169 4193 73424 XOR\n2 1 3168 4192 73423 XOR\n2 1 73454 73422 73390 AND\n2 1 73453 73421 73389 AND\n2 1 73452 73420 73388 AND\n2 1 73451 73419 73387 AND\n2 1 73450 73418 73386 AND\n2 1 73449 73417 73385 AND\n2 1 73448 73416 73384 AND\n2 1 73447 73415 73383 AND\n2 1 73446 73414 73382 AND\n2 1 73445 73413 73381 AND\n2 1 73444 73412 73380 AND\n2 1 73443 73411 73379 AND\n2 1 73442 73410 73378 AND\n2 1 73441 73409 73377 AND\n2 1 73440 73408 73376 AND\n2 1 73439 73407 73375 AND\n2 1 73438 73406 73374 AND\n2 1 73437 73405 73373 AND\n2 1 73436 73404 73372 AND\n2 1 73435 73403 73371 AND\n2 1 73434 73402 73370 AND\n2 1 73433 73401 73369 AND\n2 1 73432 73400 73368 AND\n2 1 73431 73399 73367 AND\n2 1 73430 73398 73366 AND\n2 1 73429 73397 73365 AND\n2 1 73428 73396 73364 AND\n2 1 73427 73395 73363 AND\n2 1 73426 73394 73362 AND\n2 1 73425 73393 73361 AND\n2 1 73424 73392 73360 AND\n2 1 73423 73391 73359 AND\n2 1 73390 4223 87152 XOR\n2 1 73389 4222 87151 XOR\n2 1 73388 4221 87150 XOR\n2 1 73387 4220 87149 XOR\n2 1 73386 4219 87148 XOR\n2 1 73385 4218 87147 XOR\n2 1 73384 4217 87146 XOR\n2 1 73383 4216 87145 XOR\n2 1 73382 4215 87144 XOR\n2 1 73381 4214 87143 XOR\n2 1 73380 4213 87142 XOR\n2 1 73379 4212 87141 XOR\n2 1 73378 4211 87140 XOR\n2 1 73377 4210 87139 XOR\n2 1 73376 4209 87138 XOR\n2 1 73375 4208 87137 XOR\n2 1 73374 4207 87136 XOR\n2 1 73373 4206 87135 XOR\n2 1 73372 4205 87134 XOR\n2 1 73371 4204 87133 XOR\n2 1 73370 4203 87132 XOR\n2 1 73369 4202 87131 XOR\n2 1 73368 4201 87130 XOR\n2 1 73367 4200 87129 XOR\n2 1 73366 4199 87128 XOR\n2 1 73365 4198 87127 XOR\n2 1 73364 4197 87126 XOR\n2 1 73363 4196 87125 XOR\n2 1 73362 4195 87124 XOR\n2 1 73361 4194 87123 XOR\n2 1 73360 4193 87122 XOR\n2 1 73359 4192 87121 XOR\n2 1 3199 4191 73326 XOR\n2 1 3198 4190 73325 XOR\n2 1 3197 4189 73324 XOR\n2 1 3196 4188 73323 XOR\n2 1 3195 4187 73322 XOR\n2 1 3194 4186 73321 XOR\n2 1 3193 4185 73320 XOR\n2 1 3192 4184 73319 XOR\n2 1 3191 4183 73318 XOR\n2 1 3190 4182 73317 XOR\n2 1 3189 4181 73316 XOR\n",
"2 1 3188 4180 73315 XOR\n2 1 3187 4179 73314 XOR\n2 1 3186 4178 73313 XOR\n2 1 3185 4177 73312 XOR\n2 1 3184 4176 73311 XOR\n2 1 3183 4175 73310 XOR\n2 1 3182 4174 73309 XOR\n2 1 3181 4173 73308 XOR\n2 1 3180 4172 73307 XOR\n2 1 3179 4171 73306 XOR\n2 1 3178 4170 73305 XOR\n2 1 3177 4169 73304 XOR\n2 1 3176 4168 73303 XOR\n2 1 3175 4167 73302 XOR\n2 1 3174 4166 73301 XOR\n2 1 3173 4165 73300 XOR\n2 1 3172 4164 73299 XOR\n2 1 3171 4163 73298 XOR\n2 1 3170 4162 73297 XOR\n2 1 3169 4161 73296 XOR\n2 1 3168 4160 73295 XOR\n2 1 3169 3180 68302 XOR\n2 1 3168 3179 68301 XOR\n2 1 3199 3178 68300 XOR\n2 1 3198 3177 68299 XOR\n2 1 3197 3176 68298 XOR\n2 1 3196 3175 68297 XOR\n2 1 3195 3174 68296 XOR\n2 1 3194 3173 68295 XOR\n2 1 3193 3172 68294 XOR\n2 1 3192 3171 68293 XOR\n2 1 3191 3170 68292 XOR\n2 1 3190 3169 68291 XOR\n2 1 3189 3168 68290 XOR\n2 1 3188 3199 68289 XOR\n2 1 3187 3198 68288 XOR\n2 1 3186 3197 68287 XOR\n2 1 3185 3196 68286 XOR\n2 1 3184 3195 68285 XOR\n2 1 3183 3194 68284 XOR\n2 1 3182 3193 68283 XOR\n2 1 3181 3192 68282 XOR\n2 1 3180 3191 68281 XOR\n2 1 3179 3190 68280 XOR\n2 1 3178 3189 68279 XOR\n2 1 3177 3188 68278 XOR\n2 1 3176 3187 68277 XOR\n2 1 3175 3186 68276 XOR\n2 1 3174 3185 68275 XOR\n2 1 3173 3184 68274 XOR\n2 1 3172 3183 68273 XOR\n2 1 3171 3182 68272 XOR\n2 1 3170 3181 68271 XOR\n2 1 68302 3189 89200 XOR\n2 1 89200 87152 122477 XOR\n2 1 68301 3188 89199 XOR\n2 1 89199 87151 122476 XOR\n2 1 68300 3187 89198 XOR\n2 1 89198 87150 122475 XOR\n2 1 68299 3186 89197 XOR\n2 1 89197 87149 122474 XOR\n2 1 68298 3185 89196 XOR\n2 1 89196 87148 122473 XOR\n2 1 68297 3184 89195 XOR\n2 1 89195 87147 122472 XOR\n2 1 68296 3183 89194 XOR\n2 1 89194 87146 122471 XOR\n2 1 68295 3182 89193 XOR\n2 1 89193 87145 122470 XOR\n2 1 68294 3181 89192 XOR\n2 1 89192 87144 122469 XOR\n2 1 68293 3180 89191 XOR\n2 1 89191 87143 122468 XOR\n2 1 68292 3179 89190 XOR\n2 1 89190 87142 122467 XOR\n2 1 68291 3178 89189 XOR\n2 1 89189 87141 122466 XOR\n2 1 68290 3177 89188 XOR\n2 1 89188 87140 122465 XOR\n2 1 68289 3176 89187 XOR\n2 1 89187 87139 122464 XOR\n2 1 68288 3175 89186 XOR\n2 1 89186 87138 122463 XOR\n2 1 68287 3174 89185 XOR\n2 1 89185 87137 122462 XOR\n2 1 68286 3173 89184 XOR\n2 1 89184 87136 122461 XOR\n2 1 68285 3172 89183 XOR\n2 1 89183 87135 122460 XOR\n2 1 68284 3171 89182 XOR\n2 1 89182 87134 122459 XOR\n2 1 68283 3170 89181 XOR\n2 1 89181 87133 122458 XOR\n2 1 68282 3169 89180 XOR\n2 1 89180 87132 122457 XOR\n2 1 68281 3168 89179 XOR\n2 1 89179 87131 122456 XOR\n2 1 68280 3199 89178 XOR\n2 1 89178 87130 122455 XOR\n2 1 68279 3198 89177 XOR\n2 1 89177 87129 122454 XOR\n2 1 68278 3197 89176 XOR\n2 1 89176 87128 122453 XOR\n2 1 68277 3196 89175 XOR\n2 1 89175 87127 122452 XOR\n2 1 68276 3195 89174 XOR\n2 1 89174 87126 122451 XOR\n2 1 68275 3194 89173 XOR\n2 1 89173 87125 122450 XOR\n2 1 68274 3193 89172 XOR\n2 1 89172 87124 122449 XOR\n2 1 68273 3192 89171 XOR\n2 1 89171 87123 122448 XOR\n2 1 68272 3191 89170 XOR\n2 1 89170 87122 122447 XOR\n2 1 68271 3190 89169 XOR\n2 1 89169 87121 122416 AND\n2 1 89169 87121 85073 XOR\n2 1 122447 122416 85074 XOR\n2 1 89170 122416 40884 XOR\n2 1 87122 122416 40885 XOR\n2 1 40884 40885 40883 AND\n2 1 40883 122416 122417 XOR\n2 1 122448 122417 85075 XOR\n2 1 89171 122417 40887 XOR\n2 1 87123 122417 40888 XOR\n2 1 40887 40888 40886 AND\n2 1 40886 122417 122418 XOR\n",
"2 1 122449 122418 85076 XOR\n2 1 89172 122418 40890 XOR\n2 1 87124 122418 40891 XOR\n2 1 40890 40891 40889 AND\n2 1 40889 122418 122419 XOR\n2 1 122450 122419 85077 XOR\n2 1 89173 122419 40893 XOR\n2 1 87125 122419 40894 XOR\n2 1 40893 40894 40892 AND\n2 1 40892 122419 122420 XOR\n2 1 122451 122420 85078 XOR\n2 1 89174 122420 40896 XOR\n2 1 87126 122420 40897 XOR\n2 1 40896 40897 40895 AND\n2 1 40895 122420 122421 XOR\n2 1 122452 122421 85079 XOR\n2 1 89175 122421 40899 XOR\n2 1 87127 122421 40900 XOR\n2 1 40899 40900 40898 AND\n2 1 40898 122421 122422 XOR\n2 1 122453 122422 85080 XOR\n2 1 89176 122422 40902 XOR\n2 1 87128 122422 40903 XOR\n2 1 40902 40903 40901 AND\n2 1 40901 122422 122423 XOR\n2 1 122454 122423 85081 XOR\n2 1 89177 122423 40905 XOR\n2 1 87129 122423 40906 XOR\n2 1 40905 40906 40904 AND\n2 1 40904 122423 122424 XOR\n2 1 122455 122424 85082 XOR\n2 1 89178 122424 40908 XOR\n2 1 87130 122424 40909 XOR\n2 1 40908 40909 40907 AND\n2 1 40907 122424 122425 XOR\n2 1 122456 122425 85083 XOR\n2 1 89179 122425 40911 XOR\n2 1 87131 122425 40912 XOR\n2 1 40911 40912 40910 AND\n2 1 40910 122425 122426 XOR\n2 1 122457 122426 85084 XOR\n2 1 89180 122426 40914 XOR\n2 1 87132 122426 40915 XOR\n2 1 40914 40915 40913 AND\n2 1 40913 122426 122427 XOR\n2 1 122458 122427 85085 XOR\n2 1 89181 122427 40917 XOR\n2 1 87133 122427 40918 XOR\n2 1 40917 40918 40916 AND\n2 1 40916 122427 122428 XOR\n2 1 122459 122428 85086 XOR\n2 1 89182 122428 40920 XOR\n2 1 87134 122428 40921 XOR\n2 1 40920 40921 40919 AND\n2 1 40919 122428 122429 XOR\n2 1 122460 122429 85087 XOR\n2 1 89183 122429 40923 XOR\n2 1 87135 122429 40924 XOR\n2 1 40923 40924 40922 AND\n2 1 40922 122429 122430 XOR\n2 1 122461 122430 85088 XOR\n2 1 89184 122430 40926 XOR\n2 1 87136 122430 40927 XOR\n2 1 40926 40927 40925 AND\n2 1 40925 122430 122431 XOR\n2 1 122462 122431 85089 XOR\n2 1 89185 122431 40929 XOR\n2 1 87137 122431 40930 XOR\n2 1 40929 40930 40928 AND\n2 1 40928 122431 122432 XOR\n2 1 122463 122432 85090 XOR\n2 1 89186 122432 40932 XOR\n2 1 87138 122432 40933 XOR\n2 1 40932 40933 40931 AND\n2 1 40931 122432 122433 XOR\n2 1 122464 122433 85091 XOR\n2 1 89187 122433 40935 XOR\n2 1 87139 122433 40936 XOR\n2 1 40935 40936 40934 AND\n2 1 40934 122433 122434 XOR\n2 1 122465 122434 85092 XOR\n2 1 89188 122434 40938 XOR\n2 1 87140 122434 40939 XOR\n2 1 40938 40939 40937 AND\n2 1 40937 122434 122435 XOR\n2 1 122466 122435 85093 XOR\n2 1 89189 122435 40941 XOR\n2 1 87141 122435 40942 XOR\n2 1 40941 40942 40940 AND\n2 1 40940 122435 122436 XOR\n2 1 122467 122436 85094 XOR\n2 1 89190 122436 40944 XOR\n2 1 87142 122436 40945 XOR\n2 1 40944 40945 40943 AND\n2 1 40943 122436 122437 XOR\n2 1 122468 122437 85095 XOR\n2 1 89191 122437 40947 XOR\n2 1 87143 122437 40948 XOR\n2 1 40947 40948 40946 AND\n2 1 40946 122437 122438 XOR\n2 1 122469 122438 85096 XOR\n2 1 89192 122438 40950 XOR\n2 1 87144 122438 40951 XOR\n2 1 40950 40951 40949 AND\n2 1 40949 122438 122439 XOR\n2 1 122470 122439 85097 XOR\n2 1 89193 122439 40953 XOR\n2 1 87145 122439 40954 XOR\n2 1 40953 40954 40952 AND\n2 1 40952 122439 122440 XOR\n2 1 122471 122440 85098 XOR\n2 1 89194 122440 40956 XOR\n2 1 87146 122440 40957 XOR\n2 1 40956 40957 40955 AND\n2 1 40955 122440 122441 XOR\n2 1 122472 122441 85099 XOR\n2 1 89195 122441 40959 XOR\n2 1 87147 122441 40960 XOR\n2 1 40959 40960 40958 AND\n2 1 40958 122441 122442 XOR\n2 1 122473 122442 85100 XOR\n2 1 89196 122442 40962 XOR\n2 1 87148 122442 40963 XOR\n2 1 40962 40963 40961 AND\n2 1 40961 122442 122443 XOR\n2 1 122474 122443 85101 XOR\n2 1 89197 122443 40965 XOR\n2 1 87149 122443 40966 XOR\n",
"2 1 40965 40966 40964 AND\n2 1 40964 122443 122444 XOR\n2 1 122475 122444 85102 XOR\n2 1 89198 122444 40968 XOR\n2 1 87150 122444 40969 XOR\n2 1 40968 40969 40967 AND\n2 1 40967 122444 122445 XOR\n2 1 122476 122445 85103 XOR\n2 1 89199 122445 40971 XOR\n2 1 87151 122445 40972 XOR\n2 1 40971 40972 40970 AND\n2 1 40970 122445 122446 XOR\n2 1 122477 122446 85104 XOR\n2 1 65966 3711 65934 AND\n2 1 65965 3710 65933 AND\n2 1 65964 3709 65932 AND\n2 1 65963 3708 65931 AND\n2 1 65962 3707 65930 AND\n2 1 65961 3706 65929 AND\n2 1 65960 3705 65928 AND\n2 1 65959 3704 65927 AND\n2 1 65958 3703 65926 AND\n2 1 65957 3702 65925 AND\n2 1 65956 3701 65924 AND\n2 1 65955 3700 65923 AND\n2 1 65954 3699 65922 AND\n2 1 65953 3698 65921 AND\n2 1 65952 3697 65920 AND\n2 1 65951 3696 65919 AND\n2 1 65950 3695 65918 AND\n2 1 65949 3694 65917 AND\n2 1 65948 3693 65916 AND\n2 1 65947 3692 65915 AND\n2 1 65946 3691 65914 AND\n2 1 65945 3690 65913 AND\n2 1 65944 3689 65912 AND\n2 1 65943 3688 65911 AND\n2 1 65942 3687 65910 AND\n2 1 65941 3686 65909 AND\n2 1 65940 3685 65908 AND\n2 1 65939 3684 65907 AND\n2 1 65938 3683 65906 AND\n2 1 65937 3682 65905 AND\n2 1 65936 3681 65904 AND\n2 1 65935 3680 65903 AND\n2 1 65934 3775 99381 XOR\n2 1 65933 3774 99380 XOR\n2 1 65932 3773 99379 XOR\n2 1 65931 3772 99378 XOR\n2 1 65930 3771 99377 XOR\n2 1 65929 3770 99376 XOR\n2 1 65928 3769 99375 XOR\n2 1 65927 3768 99374 XOR\n2 1 65926 3767 99373 XOR\n2 1 65925 3766 99372 XOR\n2 1 65924 3765 99371 XOR\n2 1 65923 3764 99370 XOR\n2 1 65922 3763 99369 XOR\n2 1 65921 3762 99368 XOR\n2 1 65920 3761 99367 XOR\n2 1 65919 3760 99366 XOR\n2 1 65918 3759 99365 XOR\n2 1 65917 3758 99364 XOR\n2 1 65916 3757 99363 XOR\n2 1 65915 3756 99362 XOR\n2 1 65914 3755 99361 XOR\n2 1 65913 3754 99360 XOR\n2 1 65912 3753 99359 XOR\n2 1 65911 3752 99358 XOR\n2 1 65910 3751 99357 XOR\n2 1 65909 3750 99356 XOR\n2 1 65908 3749 99355 XOR\n2 1 65907 3748 99354 XOR\n2 1 65906 3747 99353 XOR\n2 1 65905 3746 99352 XOR\n2 1 65904 3745 99351 XOR\n2 1 65903 3744 99350 XOR\n2 1 3711 3743 65902 XOR\n2 1 3710 3742 65901 XOR\n2 1 3709 3741 65900 XOR\n2 1 3708 3740 65899 XOR\n2 1 3707 3739 65898 XOR\n2 1 3706 3738 65897 XOR\n2 1 3705 3737 65896 XOR\n2 1 3704 3736 65895 XOR\n2 1 3703 3735 65894 XOR\n2 1 3702 3734 65893 XOR\n2 1 3701 3733 65892 XOR\n2 1 3700 3732 65891 XOR\n2 1 3699 3731 65890 XOR\n2 1 3698 3730 65889 XOR\n2 1 3697 3729 65888 XOR\n2 1 3696 3728 65887 XOR\n2 1 3695 3727 65886 XOR\n2 1 3694 3726 65885 XOR\n2 1 3693 3725 65884 XOR\n2 1 3692 3724 65883 XOR\n2 1 3691 3723 65882 XOR\n2 1 3690 3722 65881 XOR\n2 1 3689 3721 65880 XOR\n2 1 3688 3720 65879 XOR\n2 1 3687 3719 65878 XOR\n2 1 3686 3718 65877 XOR\n2 1 3685 3717 65876 XOR\n2 1 3684 3716 65875 XOR\n2 1 3683 3715 65874 XOR\n2 1 3682 3714 65873 XOR\n2 1 3681 3713 65872 XOR\n2 1 3680 3712 65871 XOR\n2 1 3685 3690 62382 XOR\n2 1 3684 3689 62381 XOR\n2 1 3683 3688 62380 XOR\n2 1 3682 3687 62379 XOR\n2 1 3681 3686 62378 XOR\n2 1 3680 3685 62377 XOR\n2 1 3711 3684 62376 XOR\n2 1 3710 3683 62375 XOR\n2 1 3709 3682 62374 XOR\n2 1 3708 3681 62373 XOR\n2 1 3707 3680 62372 XOR\n2 1 3706 3711 62371 XOR\n2 1 3705 3710 62370 XOR\n2 1 3704 3709 62369 XOR\n2 1 3703 3708 62368 XOR\n2 1 3702 3707 62367 XOR\n2 1 3701 3706 62366 XOR\n2 1 3700 3705 62365 XOR\n2 1 3699 3704 62364 XOR\n"]

end Verif.Data
